import Verif.Model.Host
import Verif.Model.Addrs
/-!
Duplicate address detection with frames: `/repo/pytcp/subsystems/packet_handler.py:294-304, 330-379, 469-577, 579-625`.

`Model/Addrs.lean` says what start-up does with what it hears; here the receive thread is given frames, and what start-up sends are frames too.

* A schedule `Nat → List In` says which frames the receive thread handles before each step of start-up; a step is a stretch of code that the
  receive thread cannot see the middle of, as in `Model/Addrs.lean`.
* An exception ends the receive thread (`alive`); then no more frames are handled.
-/
namespace Verif

/-- A host that is starting. -/
structure Boot where
  /-- packet_handler.py:149-176, the caches and the sockets; `host.node.ip6Candidate` is `ip6_unicast_candidate` -/
  host : Host
  /-- the value of the semaphore `event_icmp6_nd_dad` -/
  dadEvent : Nat
  /-- the receive thread runs -/
  alive : Bool
  /-- the frames queued so far, oldest first; this record is the model's own -/
  out : List Outgoing

namespace Boot

/-- A frame for the receive thread, with the clock readings of its handling. -/
structure In where
  t₀ : Int
  t₁ : Int
  t : Int
  depth : Nat
  frame : Bytes

/-- icmp6/phrx.py:165-172: the effect is `event_icmp6_nd_dad.release()`. -/
def isDad : Eff → Bool
  | .dadAnswer _ => true
  | _ => false

/-- packet_handler.py:294-304: the receive thread handles a frame. -/
def hear (b : Boot) (i : In) : Boot :=
  if b.alive then
    match Rx.ether b.host.node i.t₀ i.t₁ i.depth i.frame with
    | (n, .error _) => { b with host := { b.host with node := n }, alive := false }
    | (n, .ok effs) =>
      match Host.applyAll i.t { b.host with node := n } effs with
      | (h, .error _) => { b with host := h, dadEvent := b.dadEvent + effs.countP isDad, alive := false }
      | (h, .ok outs) => { b with host := h, dadEvent := b.dadEvent + effs.countP isDad, out := b.out ++ outs }
  else b

/-- The receive thread handles some frames. -/
def hearAll (b : Boot) (l : List In) : Boot := l.foldl hear b

/-- `self._phtx_icmp6(...)`, icmp6/phtx.py:71-203 -/
def send (b : Boot) (src dst : Ip6Address) (hop : Nat) (m : Icmp6.Msg) : Boot × Py Unit :=
  match b.host.icmp6 src dst hop m with
  | (h, .error e) => ({ b with host := h }, .error e)
  | (h, .ok (_, outs)) => ({ b with host := h, out := b.out ++ outs }, .ok ())

/-- `Ip6Address("ff02::16")` -/
def mldRouters : Ip6Address := ⟨0xFF020000000000000000000000000016, by decide⟩

/-- packet_handler.py:516-546; 4 is `ICMP6_MART_CHANGE_TO_EXCLUDE`.  Python's `set` of records has no order; here it is that of the list. -/
def report (b : Boot) : Boot × Py Unit :=
  let l := (b.host.stack.ip6Multicast.filter (· ≠ Icmp6.allNodes)).eraseDups
  if l = [] then (b, .ok ())
  else b.send (b.host.stack.ip6Unicast.headD .zero) mldRouters 1 (.mld2Report (l.map fun g => ⟨4, g, [], []⟩))

/-- packet_handler.py:548-564: `_send_icmp6_nd_dad_message` -/
def sendDad (b : Boot) (c : Ip6Address) : Boot × Py Unit :=
  match c.solicitedNodeMulticast with
  | .error e => (b, .error e)
  | .ok g => b.send .zero g 255 (.neighborSolicitation c [])

/-- The lists of the packet handler that start-up changes. -/
def withHosts (b : Boot) (l : List Ip6Host) : Boot :=
  { b with host := { b.host with node := { b.host.node with stack := { b.host.node.stack with ip6Host := l } } } }
def withGroups (b : Boot) (l : List Ip6Address) : Boot :=
  { b with host := { b.host with node := { b.host.node with stack := { b.host.node.stack with ip6Multicast := l } } } }
def withMacs (b : Boot) (l : List MacAddress) : Boot :=
  { b with host := { b.host with node := { b.host.node with macMulticast := l } } }
def withCandidate (b : Boot) (c : Option Ip6Address) : Boot :=
  { b with host := { b.host with node := { b.host.node with ip6Candidate := c } } }

/-- packet_handler.py:595-603, 613-618 -/
def joinGroup (b : Boot) (g : Ip6Address) : Boot × Py Unit :=
  let b := b.withGroups (b.host.stack.ip6Multicast ++ [g])
  match g.multicastMac with
  | .error e => (b, .error e)
  | .ok m => (b.withMacs (b.host.node.macMulticast ++ [m])).report

/-- packet_handler.py:605-611, 620-625 -/
def leaveGroup (b : Boot) (g : Ip6Address) : Boot × Py Unit :=
  if g ∉ b.host.stack.ip6Multicast then (b, .error .valueError)
  else
    let b := b.withGroups (b.host.stack.ip6Multicast.erase g)
    match g.multicastMac with
    | .error e => (b, .error e)
    | .ok m =>
      if m ∉ b.host.node.macMulticast then (b, .error .valueError)
      else (b.withMacs (b.host.node.macMulticast.erase m), .ok ())

/-- packet_handler.py:579-585 -/
def assignIp6 (b : Boot) (h : Ip6Host) : Boot × Py Unit :=
  let b := b.withHosts (b.host.stack.ip6Host ++ [h])
  match h.address.solicitedNodeMulticast with
  | .error e => (b, .error e)
  | .ok g => b.joinGroup g

/-- packet_handler.py:344: `event_icmp6_nd_dad.acquire(timeout=1)`.  The frames handled while waiting are handled one by one until there is a
permit; the rest is handled after it. -/
def waitDad : List In → Boot → Boot × Bool
  | l, b =>
    if b.dadEvent ≠ 0 then ({ b with dadEvent := b.dadEvent - 1 }.hearAll l, true)
    else
      match l with
      | [] => (b, false)
      | i :: l => waitDad l (b.hear i)

/-- packet_handler.py:330-361: `_perform_ip6_nd_dad`; `true` if the address is free.  The receive thread handles `φ 0` before the candidate is
noted, `φ 1` before the message is sent, `φ 2` while waiting, and `φ 3` before the candidate is forgotten. -/
def performDad (φ : Nat → List In) (b : Boot) (c : Ip6Address) : Boot × Py Bool :=
  match c.solicitedNodeMulticast with
  | .error e => (b, .error e)
  | .ok g =>
    match b.joinGroup g with
    | (b, .error e) => (b, .error e)
    | (b, .ok _) =>
      let b := (b.hearAll (φ 0)).withCandidate (some c)
      match (b.hearAll (φ 1)).sendDad c with
      | (b, .error e) => (b, .error e)
      | (b, .ok _) =>
        let (b, event) := waitDad (φ 2) b
        let b := (b.hearAll (φ 3)).withCandidate none
        match b.leaveGroup g with
        | (b, .error e) => (b, .error e)
        | (b, .ok _) => (b, .ok !event)

/-- packet_handler.py:369-379: a candidate is claimed. -/
def claim (φ : Nat → List In) (b : Boot) (h : Ip6Host) : Boot × Py Unit :=
  match b.performDad φ h.address with
  | (b, .error e) => (b, .error e)
  | (b, .ok free) => if free then b.assignIp6 h else (b, .ok ())

/-- packet_handler.py:469-482: `_send_arp_probe`, and what `_phtx_arp` and `_phtx_ether` make of it. -/
def arpProbe (h : Host) (a : Ip4Address) : Py (TxStatus × List Outgoing) :=
  phtxEther h.stack (fun _ => none) (fun _ => none) h.stack.mac .broadcast (.arp 1 h.stack.mac .zero .zero a)

/-- packet_handler.py:484-499: `_send_arp_announcement`. -/
def arpAnnounce (h : Host) (a : Ip4Address) : Py (TxStatus × List Outgoing) :=
  phtxEther h.stack (fun _ => none) (fun _ => none) h.stack.mac .broadcast (.arp 1 h.stack.mac a .zero a)

end Boot
end Verif
