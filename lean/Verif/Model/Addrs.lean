import Verif.Model.Icmp6
/-!
The addresses of the stack: `/repo/pytcp/subsystems/packet_handler.py:206-241, 307-467, 579-625`.

* Start-up runs in the application's thread while the receive thread handles frames.  A schedule `Nat → List Heard` says what the
  receive thread does before each step of start-up; a step is a stretch of code that the receive thread cannot see the middle of.
* `out` is the model's own: what was sent, oldest first.  That sending does not raise is assumed here.
* Python's `set` of records (524-530) has no order; the model's is that of the list.
-/
namespace Verif

/-- What is sent. -/
inductive AddrNote where
  /-- a listener report for these groups (516-546) -/
  | report (groups : List Ip6Address)
  /-- a neighbor solicitation for duplicate address detection (548-564); the model's own: the number of the step before which the
  receive thread first could answer to it -/
  | dad (a : Ip6Address) (n : Nat)
  /-- a router solicitation (566-577) -/
  | solicit
  /-- an ARP probe (469-482) -/
  | probe (a : Ip4Address)
  /-- an ARP announcement (484-499) -/
  | announce (a : Ip4Address)
  deriving DecidableEq

/-- What the receive thread hears that concerns start-up. -/
inductive Heard where
  /-- a neighbor advertisement for this target -/
  | advert (target : Ip6Address)
  /-- an ARP reply to a probe: somebody has this address -/
  | inUse (a : Ip4Address)
  /-- a router advertisement: the prefixes in it, each with the address of the router -/
  | router (l : List (Ip6Network × Ip6Address))
  deriving DecidableEq

/-- packet_handler.py:149-176, `config.IP4_SUPPORT` and `IP6_SUPPORT`, and lib/stack.py:59. -/
structure Addrs where
  mac : MacAddress
  macMulticast : List MacAddress
  /-- `ip6_host_candidate` -/
  ip6Pending : List Ip6Host
  ip6Host : List Ip6Host
  ip6Multicast : List Ip6Address
  /-- `ip4_host_candidate` -/
  ip4Pending : List Ip4Host
  ip4Host : List Ip4Host
  /-- `self.arp_probe_unicast_conflict` -/
  conflict : List Ip4Address
  /-- `stack.arp_probe_unicast_conflict`, which is another set -/
  stackConflict : List Ip4Address
  /-- `ip6_unicast_candidate` -/
  candidate : Option Ip6Address
  /-- the value of the semaphore `event_icmp6_nd_dad` -/
  dadEvent : Nat
  prefixes : List (Ip6Network × Ip6Address)
  /-- the value of the semaphore `event_icmp6_ra` -/
  raEvent : Nat
  ip6Support : Bool
  ip4Support : Bool
  /-- the number of steps of start-up so far -/
  steps : Nat
  out : List AddrNote

namespace Addrs

/-- packet_handler.py:149-176 -/
def start (mac : MacAddress) : Addrs :=
  ⟨mac, [], [], [], [], [], [], [], [], none, 0, [], 0, true, true, 0, []⟩

/-- icmp6/phrx.py:167-172 and 204-208, arp/phrx.py:125-141. -/
def hear (a : Addrs) : Heard → Addrs
  | .advert t => if a.candidate = some t then { a with dadEvent := a.dadEvent + 1 } else a
  | .inUse ip => if ip ∈ a.ip4Pending.map (·.address) then { a with stackConflict := ip :: a.stackConflict } else a
  | .router l => { a with prefixes := l, raEvent := a.raEvent + 1 }

/-- What the receive thread does before the next step of start-up. -/
def tick (σ : Nat → List Heard) (a : Addrs) : Addrs :=
  { (σ a.steps).foldl hear a with steps := a.steps + 1 }

def send (a : Addrs) (n : AddrNote) : Addrs := { a with out := a.out ++ [n] }

/-- packet_handler.py:516-546 -/
def report (a : Addrs) : Addrs :=
  let l := (a.ip6Multicast.filter (· ≠ Icmp6.allNodes)).eraseDups
  if l = [] then a else a.send (.report l)

/-- packet_handler.py:595-603, 613-618 -/
def joinGroup (a : Addrs) (g : Ip6Address) : Addrs × Py Unit :=
  let a := { a with ip6Multicast := a.ip6Multicast ++ [g] }
  match g.multicastMac with
  | .error e => (a, .error e)
  | .ok m => ({ a with macMulticast := a.macMulticast ++ [m] }.report, .ok ())

/-- packet_handler.py:605-611, 620-625 -/
def leaveGroup (a : Addrs) (g : Ip6Address) : Addrs × Py Unit :=
  if g ∉ a.ip6Multicast then (a, .error .valueError)
  else
    let a := { a with ip6Multicast := a.ip6Multicast.erase g }
    match g.multicastMac with
    | .error e => (a, .error e)
    | .ok m =>
      if m ∉ a.macMulticast then (a, .error .valueError)
      else ({ a with macMulticast := a.macMulticast.erase m }, .ok ())

/-- lib/ip_address.py:448-464: hosts are equal if their texts are, which have the address and the length of the mask. -/
def sameHost (x y : Ip6Host) : Bool := x.address = y.address && x.network.mask.len = y.network.mask.len

/-- packet_handler.py:579-585 -/
def assignIp6 (a : Addrs) (h : Ip6Host) : Addrs × Py Unit :=
  let a := { a with ip6Host := a.ip6Host ++ [h] }
  match h.address.solicitedNodeMulticast with
  | .error e => (a, .error e)
  | .ok g => a.joinGroup g

/-- packet_handler.py:587-593 -/
def removeIp6 (a : Addrs) (h : Ip6Host) : Addrs × Py Unit :=
  if a.ip6Host.any (sameHost h) then
    let a := { a with ip6Host := a.ip6Host.eraseP (sameHost h) }
    match h.address.solicitedNodeMulticast with
    | .error e => (a, .error e)
    | .ok g => a.leaveGroup g
  else (a, .error .valueError)

/-- `event_icmp6_nd_dad.acquire(timeout=1)`: what is heard while waiting is dealt with one by one until there is a permit; the rest
is heard after it. -/
def waitDad : List Heard → Addrs → Addrs × Bool
  | l, a =>
    if a.dadEvent ≠ 0 then (l.foldl hear { a with dadEvent := a.dadEvent - 1 }, true)
    else
      match l with
      | [] => (a, false)
      | x :: l => waitDad l (a.hear x)

/-- packet_handler.py:330-361: `_perform_ip6_nd_dad`; `true` if the address is free. -/
def performDad (σ : Nat → List Heard) (a : Addrs) (c : Ip6Address) : Addrs × Py Bool :=
  match c.solicitedNodeMulticast with
  | .error e => (a, .error e)
  | .ok g =>
    match a.joinGroup g with
    | (a, .error e) => (a, .error e)
    | (a, .ok _) =>
      let a := { a.tick σ with candidate := some c }
      let n := a.steps
      let a := (a.tick σ).send (.dad c n)
      let (a, event) := waitDad (σ a.steps) { a with steps := a.steps + 1 }
      let a := { a.tick σ with candidate := none }
      match a.leaveGroup g with
      | (a, .error e) => (a, .error e)
      | (a, .ok _) => (a, .ok !event)

/-- packet_handler.py:369-379 -/
def claim (σ : Nat → List Heard) (a : Addrs) (h : Ip6Host) : Addrs × Py Unit :=
  match a.performDad σ h.address with
  | (a, .error e) => (a, .error e)
  | (a, .ok free) => if free then a.assignIp6 h else (a, .ok ())

/-- packet_handler.py:382-385, 405-407: candidates are claimed one by one, each removed from the list before. -/
def claimAll (σ : Nat → List Heard) : List Ip6Host → Addrs → Addrs × Py Unit
  | [], a => (a, .ok ())
  | h :: l, a =>
    match { a with ip6Pending := a.ip6Pending.eraseP (sameHost h) }.claim σ h with
    | (a, .error e) => (a, .error e)
    | (a, .ok _) => claimAll σ l a

/-- `Ip6Network("fe80::/64")` -/
def linkLocal64 : Py Ip6Network := do return Ip6Network.ofMask ⟨0xFE800000000000000000000000000000, by decide⟩ (← Ip6Mask.ofPrefix 64)

/-- packet_handler.py:387-391 -/
def claimLinkLocal (σ : Nat → List Heard) (a : Addrs) : Addrs × Py Unit :=
  match (do (← (← linkLocal64).eui64 a.mac).setGateway none) with
  | .error e => (a, .error e)
  | .ok h => a.claim σ h

/-- packet_handler.py:415-423 -/
def claimPrefixes (σ : Nat → List Heard) : List (Ip6Network × Ip6Address) → Addrs → Addrs × Py Unit
  | [], a => (a, .ok ())
  | (p, g) :: l, a =>
    match (do (← p.eui64 a.mac).setGateway (some g)) with
    | .error e => (a, .error e)
    | .ok h =>
      match a.claim σ h with
      | (a, .error e) => (a, .error e)
      | (a, .ok _) => claimPrefixes σ l a

/-- packet_handler.py:413-414: `event_icmp6_ra.acquire(timeout=1)`, which ends at the first advertisement. -/
def waitRouter : List Heard → Addrs → Addrs
  | l, a =>
    if a.raEvent ≠ 0 then l.foldl hear { a with raEvent := a.raEvent - 1 }
    else
      match l with
      | [] => a
      | x :: l => waitRouter l (a.hear x)

/-- packet_handler.py:363-423; `lla`, `gua`: `config.IP6_LLA_AUTOCONFIG` and `IP6_GUA_AUTOCONFIG`. -/
def createIp6 (σ : Nat → List Heard) (lla gua : Bool) (a : Addrs) : Addrs × Py Unit :=
  match claimAll σ (a.ip6Pending.filter (·.address.isLinkLocal)) a with
  | (a, .error e) => (a, .error e)
  | (a, .ok _) =>
    match (if lla then a.claimLinkLocal σ else (a, .ok ())) with
    | (a, .error e) => (a, .error e)
    | (a, .ok _) =>
      if a.ip6Host = [] then ({ a with ip6Support := false }, .ok ())
      else
        match claimAll σ a.ip6Pending a with
        | (a, .error e) => (a, .error e)
        | (a, .ok _) =>
          if gua then
            let a := (a.tick σ).send .solicit
            let a := waitRouter (σ a.steps) { a with steps := a.steps + 1 }
            claimPrefixes σ a.prefixes a
          else (a, .ok ())

/-- packet_handler.py:218-224 -/
def acquireIp6 (σ : Nat → List Heard) (lla gua : Bool) (a : Addrs) : Addrs × Py Unit :=
  if a.ip6Support then
    match a.joinGroup Icmp6.allNodes with
    | (a, .error e) => (a, .error e)
    | (a, .ok _) => a.createIp6 σ lla gua
  else (a, .ok ())

/-- packet_handler.py:433-438: one round of probes. -/
def probeAll (σ : Nat → List Heard) : List Ip4Address → Addrs → Addrs
  | [], a => a
  | ip :: l, a =>
    let a := a.tick σ
    probeAll σ l (if ip ∈ a.conflict then a else a.send (.probe ip))

/-- packet_handler.py:432-439: a round; what is heard during the pause comes before the next step. -/
def probeRound (σ : Nat → List Heard) (a : Addrs) : Addrs := (probeAll σ (a.ip4Pending.map (·.address)) a).tick σ

/-- lib/ip_address.py:448-464 -/
def sameHost4 (x y : Ip4Host) : Bool := x.address = y.address && x.network.mask.len = y.network.mask.len

/-- packet_handler.py:448-456 -/
def claimIp4 (σ : Nat → List Heard) : List Ip4Host → Addrs → Addrs
  | [], a => a
  | h :: l, a =>
    let a := a.tick σ
    let a := { a with ip4Pending := a.ip4Pending.eraseP (sameHost4 h) }
    let a := a.tick σ
    claimIp4 σ l (if h.address ∈ a.conflict then a else { a with ip4Host := a.ip4Host ++ [h] }.send (.announce h.address))

/-- packet_handler.py:425-467 -/
def createIp4 (σ : Nat → List Heard) (a : Addrs) : Addrs :=
  let a := probeRound σ (probeRound σ (probeRound σ a))
  let a := claimIp4 σ a.ip4Pending a
  if a.ip4Host = [] then { a with ip4Support := false } else a

end Addrs
end Verif
