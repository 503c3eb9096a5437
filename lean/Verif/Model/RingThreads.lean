import Verif.Model.Dict
/-!
The frame queues (`/repo/pytcp/subsystems/tx_ring.py`, `rx_ring.py`) and the threads that empty them, with a thread switch possible between any two
accesses to the list, to the semaphore and to the flag `_run_thread`, and with `start` and `stop` called at any time.

The transmit thread (tx_ring.py:97-123) takes frames from the TX ring; the packet handler's thread (packet_handler.py:301-303, rx_ring.py:110-119) takes
frames from the RX ring.  Both go round in the same way: test the flag, acquire the semaphore for at most 0.1 s, test the list, take its first element, deal
with it.  Frames are of any type `F`; `fits` says which of them are not too long to be written (tx_ring.py:106; for the packet handler: all).

Simplifications: dealing with a frame (writing it, handling it) is one step that does not touch the queue; log lines are left out.
-/
namespace Verif.RingThreads
variable {F : Type}

/-- Where a thread that empties the queue is. -/
inductive Pc (F : Type) where
  /-- `while self._run_thread` (tx_ring.py:97, packet_handler.py:301) -/
  | test
  /-- `acquire(timeout=0.1)` (tx_ring.py:100, rx_ring.py:117) -/
  | acquire
  /-- is there something in the list? (tx_ring.py:101, rx_ring.py:119) -/
  | check
  /-- `pop(0)` (tx_ring.py:104, rx_ring.py:119) -/
  | pop
  /-- tx_ring.py:106-123, packet_handler.py:303 -/
  | deal (f : F)
  /-- the loop was left -/
  | ended
  /-- IndexError: pop from empty list -/
  | dead
  deriving DecidableEq

/-- What has happened. -/
inductive Ev (F : Type) where
  | put (f : F)
  | took (f : F)
  | wrote (f : F)
  | failed (f : F)
  | tooLong (f : F)
  deriving DecidableEq

structure St (F : Type) where
  /-- `_tx_ring`, `_rx_ring` -/
  ring : List F := []
  /-- the value of `_packet_enqueued` -/
  sem : Nat := 0
  /-- calls of `enqueue` between the two lines -/
  owed : Nat := 0
  /-- `_run_thread` -/
  run : Bool := false
  threads : List (Pc F) := []
  log : List (Ev F) := []

inductive Step (F : Type) where
  /-- tx_ring.py:138, rx_ring.py:105 -/
  | append (f : F)
  /-- tx_ring.py:143, rx_ring.py:106 -/
  | release
  /-- tx_ring.py:74-75, packet_handler.py:194-195 -/
  | start
  /-- tx_ring.py:83, packet_handler.py:203 -/
  | stop
  /-- the k-th thread ever started makes its next step; if it writes, does the write succeed? -/
  | go (k : Nat) (ok : Bool)
  deriving DecidableEq

namespace St

/-- A step of a thread that empties the queue (tx_ring.py:97-123; rx_ring.py:117-119 with packet_handler.py:301-303). -/
def turn (fits : F → Bool) (s : St F) (k : Nat) (ok : Bool) : Pc F → St F
  | .test => { s with threads := s.threads.set k (if s.run then .acquire else .ended) }
  -- with the semaphore at 0 the call waits; that it goes on means the timeout has passed
  | .acquire => { s with sem := s.sem - 1, threads := s.threads.set k .check }
  | .check => { s with threads := s.threads.set k (if s.ring.isEmpty then .test else .pop) }
  | .pop => match s.ring with
    | [] => { s with threads := s.threads.set k .dead }
    | f :: r => { s with ring := r, threads := s.threads.set k (.deal f), log := s.log ++ [.took f] }
  | .deal f => { s with threads := s.threads.set k .test, log := s.log ++ [if !fits f then .tooLong f else if ok then .wrote f else .failed f] }
  | .ended => s
  | .dead => s

/-- A step of any thread. -/
def step (fits : F → Bool) (s : St F) : Step F → St F
  | .append f => { s with ring := s.ring ++ [f], owed := s.owed + 1, log := s.log ++ [.put f] }
  | .release => if s.owed = 0 then s else { s with owed := s.owed - 1, sem := s.sem + 1 }
  | .start => { s with run := true, threads := s.threads ++ [.test] }
  | .stop => { s with run := false }
  | .go k ok => match s.threads[k]? with
    | none => s
    | some c => s.turn fits k ok c

def steps (fits : F → Bool) (s : St F) (xs : List (Step F)) : St F := xs.foldl (step fits) s

end St
end Verif.RingThreads
