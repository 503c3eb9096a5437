import Verif.Model.TcpClient
import Verif.Model.Echo
/-!
The UDP echo client of the examples on a host.

Simplification: a message, with all that the stack does to send it, is one step (as in `Model/Host.lean`), and so are the handling of a frame and the
start of the client up to its loop.  What the thread prints is left out, and so is the pause (:152): a thread may take its time anyway.
-/
namespace Verif.UdpClient

/-- Where the thread is. -/
inductive Pc where
  /-- before the test of the loop -/
  | test
  /-- the function has returned -/
  | ended
  /-- an exception, which nothing catches: the thread has ended -/
  | died (e : PyErr)
  deriving DecidableEq

/-- A message for which `send` has returned: its data, what `send` has returned, the frames that the stack has queued for it. -/
structure Sent where
  data : Bytes
  len : Nat
  frames : List Outgoing

structure Client where
  host : Host
  pc : Pc
  /-- `message_count` -/
  left : Int
  /-- the messages so far (this record is the model's own) -/
  log : List Sent

/-- Which exceptions `except OSError` catches; `gaierror` is one (lib/socket.py:64). -/
def caught : PyErr → Bool
  | .osError | .gaiError | .connectionRefused | .timeoutError | .brokenPipe => true
  | _ => false

/-- udp/socket.py:205-241, as `Socks.send`. -/
def send (h : Host) (r : Nat) (data : Bytes) : Host × Py (Nat × List Outgoing) :=
  match h.node.socks.socks[r]? with
  | none => (h, .error .keyError)
  | some s =>
    if s.id.rip.isUnspecified ∨ s.id.rport = 0 then (h, .error .osError)
    else if s.unreachable then (h.withSocks (h.node.socks.put r { s with unreachable := false }), .error .connectionRefused)
    else
      let (h', res) := h.udp s.id.lip s.id.rip s.id.lport s.id.rport data
      (h', Socks.sentLen data res)

/-- examples/udp_echo_client.py:155: `close`, and the function returns. -/
def finish (h : Host) (r : Nat) (s : Client) : Client := { s with host := h.withSocks (h.node.socks.close r), pc := .ended }

/-- examples/udp_echo_client.py:134-159: a round of the loop of `__thread_client`, on the socket `r`, with what the thread finds in `_run_thread`;
`size` is `_message_size`.  The message is put together as in the TCP client (:135-138). -/
def turn (size : Int) (r : Nat) (running : Bool) (s : Client) : Client :=
  match s.pc with
  | .test =>
    if running ∧ s.left ≠ 0 then
      match send s.host r (TcpClient.message size) with
      | (h, .error e) => if caught e then finish h r s else { s with host := h, pc := .died e }
      | (h, .ok (n, outs)) => { s with host := h, left := min s.left (s.left - 1), log := s.log ++ [⟨TcpClient.message size, n, outs⟩] }
    else finish s.host r s
  | _ => s

inductive Ev where
  /-- a frame is handled -/
  | frame (t₀ t₁ t : Int) (depth : Nat) (F : Bytes)
  /-- the client's thread runs -/
  | turn (running : Bool)
  /-- the neighbour caches change -/
  | caches (arp : Cache Ip4Address) (nd : Cache Ip6Address)

def step (size : Int) (r : Nat) (s : Client) : Ev → Client
  | .frame t₀ t₁ t depth F => { s with host := (s.host.receive t₀ t₁ t depth F).1 }
  | .turn running => turn size r running s
  | .caches arp nd => { s with host := { s.host with arp := arp, nd := nd } }

def run (size : Int) (r : Nat) (s : Client) (evs : List Ev) : Client := evs.foldl (step size r) s

/-- examples/udp_echo_client.py:112-131: `bind` or `connect` has raised an exception. -/
def failed (h : Host) (count : Int) (e : PyErr) : Client := ⟨h, if caught e then .ended else .died e, count, []⟩

/-- examples/udp_echo_client.py:98-133: the thread starts, with `local_ip_address` already parsed (`none` for the other address: it is no address);
`count` is `_message_count`.  The second result is the number of the socket. -/
def start (h : Host) (lip : IpAddress) (lport : Int) (rip : Option IpAddress) (rport : Int) (count : Int) (choice : Nat) : Client × Nat :=
  match h.node.socks.create lip.family .dgram with
  | (ss, r) =>
    match Socks.bind h.stack ss r (some lip) lport choice with
    | (ss, .error e) => (failed (h.withSocks ss) count e, r)
    | (ss, .ok ()) =>
      match Socks.connect h.stack ss r rip rport choice with
      | (ss, .error e) => (failed (h.withSocks ss) count e, r)
      | (ss, .ok ()) => (⟨h.withSocks ss, .test, count, []⟩, r)

end Verif.UdpClient
