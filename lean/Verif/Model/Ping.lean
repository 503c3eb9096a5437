import Verif.Model.TcpServices
import Verif.Model.Echo
/-!
The ICMP echo client of the examples (ping) on a host.

Simplification: a message, with all that the stack does to send it, is one step (as in `Model/Host.lean`), and so is the handling of a frame.  What the
thread prints is left out, and so is the pause (:134): a thread may take its time anyway.  `str_to_ip` gives the two addresses; a text that is no
address, for which it gives `None`, is left out.
-/
namespace Verif.Ping
open Daytime

/-- Where the thread is. -/
inductive Pc where
  /-- before the test of the loop -/
  | test
  /-- the function has returned -/
  | ended
  /-- an exception, which nothing catches: the thread has ended -/
  | died (e : PyErr)
  deriving DecidableEq

/-- A message that has been handed to the stack, and the frames that the stack has queued for it. -/
structure Sent where
  id : Nat
  seq : Nat
  data : Bytes
  frames : List Outgoing

structure Client where
  host : Host
  pc : Pc
  /-- `message_count` -/
  left : Int
  /-- `message_seq` -/
  seq : Nat
  /-- the messages so far (this record is the model's own) -/
  log : List Sent

/-- packet_handler.py:683-757 with icmp4/phtx.py:59-114 and icmp6/phtx.py:71-203: `send_icmp4_packet` and `send_icmp6_packet` of an echo request.  The
assembler's constructor (icmp4/fpa.py:77-78, icmp6/fpa.py:138-139) is called first. -/
def request (h : Host) (lip rip : IpAddress) (id seq : Nat) (data : Bytes) : Host.Res :=
  match lip, rip with
  | .v4 l, .v4 r =>
    if ¬ (id ≤ 0xFFFF ∧ seq ≤ 0xFFFF) then (h, .error .assertionError)
    else h.icmp4 l r (.echoRequest id seq data)
  | .v6 l, .v6 r =>
    if ¬ (id ≤ 0xFFFF ∧ seq ≤ 0xFFFF) then (h, .error .assertionError)
    else h.icmp6 l r 64 (.echoRequest id seq data)
  -- examples/icmp_echo_client.py:106 and :119
  | _, _ => (h, .error .assertionError)

/-- examples/icmp_echo_client.py:101-136: a round of the loop of `__thread_client`, with what the thread finds in `_run_thread` and what the clock
says; `flow` is `flow_id`. -/
def turn (lip rip : IpAddress) (flow : Nat) (running : Bool) (now : Now) (s : Client) : Client :=
  match s.pc with
  | .test =>
    if running ∧ s.left ≠ 0 then
      match request s.host lip rip flow s.seq (TcpDaytime.line now) with
      | (h, .error e) => { s with host := h, pc := .died e }
      | (h, .ok (_, outs)) =>
        { s with host := h, seq := s.seq + 1, left := min s.left (s.left - 1), log := s.log ++ [⟨flow, s.seq, TcpDaytime.line now, outs⟩] }
    else { s with pc := .ended }
  | _ => s

inductive Ev where
  /-- a frame is handled -/
  | frame (t₀ t₁ t : Int) (depth : Nat) (F : Bytes)
  /-- the client's thread runs -/
  | turn (running : Bool) (now : Now)
  /-- the neighbour caches change -/
  | caches (arp : Cache Ip4Address) (nd : Cache Ip6Address)

def step (lip rip : IpAddress) (flow : Nat) (s : Client) : Ev → Client
  | .frame t₀ t₁ t depth F => { s with host := (s.host.receive t₀ t₁ t depth F).1 }
  | .turn running now => turn lip rip flow running now s
  | .caches arp nd => { s with host := { s.host with arp := arp, nd := nd } }

/-- examples/icmp_echo_client.py:93-100: the thread starts; `count` is `_message_count`. -/
def start (h : Host) (count : Int) : Client := ⟨h, .test, count, 0, []⟩

def run (lip rip : IpAddress) (flow : Nat) (h : Host) (count : Int) (evs : List Ev) : Client := evs.foldl (step lip rip flow) (start h count)

end Verif.Ping
