import Verif.Model.Host
/-!
The thread of the packet handler, which takes the frames from the RX ring one after the other (`/repo/pytcp/subsystems/packet_handler.py`).  The ring
itself is in `Model/RingThreads.lean`.
-/
namespace Verif

/-- The host, whether the thread lives, and the frames it has dealt with (a record of the model's own). -/
structure Receiver where
  host : Host
  alive : Bool
  handled : List Bytes

namespace Receiver

inductive Ev where
  /-- the thread takes the frame `F` from the ring, if it lives; the other arguments are those of `Host.receive` -/
  | frame (t₀ t₁ t : Int) (depth : Nat) (F : Bytes)
  /-- what all other threads do: the state of the host becomes this -/
  | becomes (h : Host)

/-- packet_handler.py:294-306: `__thread_packet_handler` (not stopped).  Nothing catches an exception of `_phrx_ether`: it ends the thread. -/
def step (r : Receiver) : Ev → Receiver
  | .frame t₀ t₁ t depth F =>
    if r.alive then
      match r.host.receive t₀ t₁ t depth F with
      | (h, .ok _) => ⟨h, true, r.handled ++ [F]⟩
      | (h, .error _) => ⟨h, false, r.handled⟩
    else r
  | .becomes h => { r with host := h }

def run (r : Receiver) (evs : List Ev) : Receiver := evs.foldl step r

end Receiver
end Verif
