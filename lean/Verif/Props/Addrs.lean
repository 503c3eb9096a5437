import Verif.Lemmas.Addrs
/-! Properties C64 and C65, and part of C76: multicast membership and the addresses that start-up assigns. -/
namespace Verif
open Spec Addrs

/-- **C64**: after any history of assigning and removing IPv6 addresses and of joining and leaving groups, in which only groups are
joined and only joined groups are left, the addresses are those assigned and not removed; the groups the stack is a member of are
those still joined and the solicited-node groups of the addresses, no others; and the multicast MAC addresses it receives are exactly
those of these groups.  In particular a group two addresses share is kept until the last of them is removed. -/
theorem C64_membership (mac : MacAddress) (ops : List Op) (hs : List Ip6Host) (gs : List Ip6Address) (h : holdings ops = some (hs, gs)) :
    (run mac ops).ip6Host = hs ∧
    (∀ g, g ∈ (run mac ops).ip6Multicast ↔ g ∈ gs ∨ ∃ x ∈ hs, g = solicitedNode x.address) ∧
    (∀ m, m ∈ (run mac ops).macMulticast ↔ ∃ g ∈ (run mac ops).ip6Multicast, m = groupMac g) := by
  obtain ⟨hi, rfl⟩ := run_inv mac ops h
  refine ⟨rfl, fun g => ?_, fun m => ?_⟩
  · rw [hi.groups.mem_iff, List.mem_append, List.mem_map]
    simp only [eq_comm]
  · rw [hi.macs.mem_iff, List.mem_map]
    simp only [eq_comm]

/-- **C64** at start-up: whatever is heard meanwhile, whatever is configured, and also when start-up raises, the stack then is a member
of the all-nodes group and of the solicited-node groups of its addresses and of no others, and the MAC addresses are theirs. -/
theorem C64_startup (mac : MacAddress) (pending : List Ip6Host) (σ : Nat → List Heard) (lla gua : Bool) :
    let a := (acquireIp6 σ lla gua { start mac with ip6Pending := pending }).1
    (∀ g, g ∈ a.ip6Multicast ↔ g = Icmp6.allNodes ∨ ∃ x ∈ a.ip6Host, g = solicitedNode x.address) ∧
    (∀ m, m ∈ a.macMulticast ↔ ∃ g ∈ a.ip6Multicast, m = groupMac g) := by
  intro a
  have h : Good σ [] { start mac with ip6Pending := pending } :=
    ⟨⟨by simp [start], by simp [start], by simp⟩, rfl, by intro x hx; simp [start] at hx⟩
  have hi := (h.acquireIp6 rfl lla gua).inv
  refine ⟨fun g => ?_, fun m => ?_⟩
  · rw [hi.groups.mem_iff, List.mem_append, List.mem_map]
    simp only [eq_comm, List.mem_singleton]
    rfl
  · rw [hi.macs.mem_iff, List.mem_map]
    simp only [eq_comm]
    rfl

/-- **C65** IPv6, never in conflict: every address assigned by start-up was asked for in a neighbor solicitation, and from when the
stack listened for advertisements of it until the wait ended, none came. -/
theorem C65_ip6_safe (mac : MacAddress) (pending : List Ip6Host) (σ : Nat → List Heard) (lla gua : Bool) :
    let a := (acquireIp6 σ lla gua { start mac with ip6Pending := pending }).1
    ∀ h ∈ a.ip6Host, ∃ n, AddrNote.dad h.address n ∈ a.out ∧ Heard.advert h.address ∉ σ n ∧ Heard.advert h.address ∉ σ (n + 1) := by
  intro a
  have h : Good σ [] { start mac with ip6Pending := pending } :=
    ⟨⟨by simp [start], by simp [start], by simp⟩, rfl, by intro x hx; simp [start] at hx⟩
  exact (h.acquireIp6 rfl lla gua).asked

/-- **C65** IPv6, the other direction: candidates none of which is answered twice, or late, are assigned exactly if they are not
answered.  What is missing: without this condition an unanswered candidate may be refused (`C65_ip6_spurious`). -/
theorem C65_ip6_partial (mac : MacAddress) (σ : Nat → List Heard) (l : List Ip6Host) (h : Orderly σ 0 l) :
    ∃ a, claimAll σ l (start mac) = (a, .ok ()) ∧ a.ip6Host = winners σ 0 l := by
  obtain ⟨a, e, hh⟩ := claimAll_orderly (gs := []) l (a := start mac) ⟨by simp [start], by simp [start], by simp⟩ rfl rfl h
  exact ⟨a, e, by rw [hh]; rfl⟩

/-- **C65** IPv4: a candidate nobody reports a conflict for is assigned and announced; but so is every other candidate, whatever the
receive thread hears. -/
theorem C65_ip4_partial (mac : MacAddress) (pending : List Ip4Host) (σ : Nat → List Heard) :
    (createIp4 σ { start mac with ip4Pending := pending }).ip4Host = pending ∧
    ∀ h ∈ pending, AddrNote.announce h.address ∈ (createIp4 σ { start mac with ip4Pending := pending }).out := by
  unfold createIp4
  dsimp only
  obtain ⟨h1, h2, h3⟩ := probeRound_kept σ { start mac with ip4Pending := pending }
  obtain ⟨i1, i2, i3⟩ := probeRound_kept σ (probeRound σ { start mac with ip4Pending := pending })
  obtain ⟨j1, j2, j3⟩ := probeRound_kept σ (probeRound σ (probeRound σ { start mac with ip4Pending := pending }))
  rw [j1, i1, h1]
  rw [i2, h2] at j2
  rw [i3, h3] at j3
  obtain ⟨k1, -, k3⟩ := claimIp4_eq σ pending _ j3
  rw [j2] at k1
  replace k1 : _ = pending := k1
  generalize claimIp4 σ pending (probeRound σ (probeRound σ (probeRound σ { start mac with ip4Pending := pending }))) = b at k1 k3 ⊢
  split
  · exact ⟨k1, k3⟩
  · exact ⟨k1, k3⟩

/-- **C65** IPv4: what is sent.  Every candidate is probed three times, in rounds, and announced once, after all the probes; whatever is
heard meanwhile makes no difference. -/
theorem C65_ip4_probes (mac : MacAddress) (pending : List Ip4Host) (σ : Nat → List Heard) :
    let probes := pending.map fun h => AddrNote.probe h.address
    (createIp4 σ { start mac with ip4Pending := pending }).out =
      probes ++ probes ++ probes ++ pending.map fun h => AddrNote.announce h.address := by
  intro probes
  unfold createIp4
  dsimp only
  obtain ⟨h1, h2, h3⟩ := probeRound_kept σ { start mac with ip4Pending := pending }
  obtain ⟨i1, i2, i3⟩ := probeRound_kept σ (probeRound σ { start mac with ip4Pending := pending })
  obtain ⟨j1, j2, j3⟩ := probeRound_kept σ (probeRound σ (probeRound σ { start mac with ip4Pending := pending }))
  have o1 := probeRound_out σ { start mac with ip4Pending := pending } rfl
  have o2 := probeRound_out σ (probeRound σ { start mac with ip4Pending := pending }) h3
  have o3 := probeRound_out σ (probeRound σ (probeRound σ { start mac with ip4Pending := pending })) (i3.trans h3)
  rw [j1, i1, h1]
  rw [i1, h1, o2, h1, o1] at o3
  have o4 := claimIp4_out σ pending _ (j3.trans (i3.trans h3))
  rw [o3] at o4
  generalize claimIp4 σ pending (probeRound σ (probeRound σ (probeRound σ { start mac with ip4Pending := pending }))) = b at o4 ⊢
  have e : b.out = probes ++ probes ++ probes ++ pending.map fun h => AddrNote.announce h.address := by rw [o4]; simp [start, probes]
  split
  · exact e
  · exact e

/-- Start-up with automatic configuration of addresses, for prefixes of 64 bits from link-local addresses; `C76_autoconfiguration_partial`
in `Props/WireNd.lean` shows that there are no others. -/
theorem autoconfiguration_of_64 (mac : MacAddress) (l4 : List Ip4Host) (σ : Nat → List Heard) :
    let l := routerPrefixes [] (σ 0 ++ σ 1 ++ σ 2 ++ σ 3 ++ σ 4 ++ σ 5)
    (∀ p ∈ l, p.1.mask.len = 64 ∧ p.2.isLinkLocal = true) →
    ∃ (h₀ : Ip6Host) (hs : List Ip6Host),
      h₀.address.toBytes = [0xFE, 0x80, 0, 0, 0, 0, 0, 0] ++ modifiedEui64 mac.toBytes ∧ h₀.network.mask.len = 64 ∧ h₀.gateway = none ∧
      hs.length = l.length ∧ (∀ (k : Nat) p h, l[k]? = some p → hs[k]? = some h → HostOf mac p h) ∧
      (Orderly σ 0 [h₀] → Orderly σ 6 hs →
        ∃ a, acquireIp6 σ true true { start mac with ip4Pending := l4 } = (a, .ok ()) ∧
          if Heard.advert h₀.address ∈ σ 1 ++ σ 2 then a.ip6Host = [] ∧ a.ip6Support = false
          else a.ip6Host = h₀ :: winners σ 6 hs) := by
  intro l hl
  obtain ⟨n, e, n64, na⟩ := linkLocal64_ok
  obtain ⟨h, e1, hb, -, hn⟩ := C13_eui64 n mac n64
  obtain ⟨hs, l1, l2, l3⟩ := claimPrefixes_orderly (σ := σ) (gs := [Icmp6.allNodes]) mac l hl
  refine ⟨{ h with gateway := none }, hs, ?_, by rw [← n64, ← hn], rfl, l1, l2, ?_⟩
  · have h1 : n.address = ⟨hextet 0xFE80, by decide⟩ := Ip6Address.ext' na
    have h2 : (⟨hextet 0xFE80, by decide⟩ : Ip6Address).toBytes.take 8 = [0xFE, 0x80, 0, 0, 0, 0, 0, 0] := by decide +kernel
    show h.address.toBytes = _
    rw [hb, h1, h2]
  intro o1 o2
  have hm : Icmp6.allNodes.isMulticast = true := by decide
  unfold acquireIp6
  rw [if_pos (show ({ start mac with ip4Pending := l4 } : Addrs).ip6Support = true from rfl)]
  obtain ⟨o, e2, -⟩ := join_eq hm { start mac with ip4Pending := l4 }
  have hj := Inv.join (a := { start mac with ip4Pending := l4 }) (gs := []) ⟨by simp [start], by simp [start], by simp⟩ hm
  rw [e2] at hj ⊢
  dsimp only at hj ⊢
  generalize ha : ({ start mac with ip4Pending := l4, ip6Multicast := (start mac).ip6Multicast ++ [Icmp6.allNodes],
                                    macMulticast := (start mac).macMulticast ++ [groupMac Icmp6.allNodes], out := o } : Addrs) = a at hj ⊢
  have a1 : a.ip6Pending = [] := by rw [← ha]; rfl
  have a2 : a.mac = mac := by rw [← ha]; rfl
  have a3 : a.candidate = none := by rw [← ha]; rfl
  have a4 : a.dadEvent = 0 := by rw [← ha]; rfl
  have a5 : a.steps = 0 := by rw [← ha]; rfl
  have a6 : a.ip6Host = [] := by rw [← ha]; rfl
  have a7 : a.prefixes = [] := by rw [← ha]; rfl
  clear ha e2
  unfold createIp6
  rw [a1]
  simp only [List.filter_nil, claimAll, if_true]
  have hll : a.claimLinkLocal σ = a.claim σ { h with gateway := none } := by
    unfold claimLinkLocal
    rw [e, a2]
    have : (do (← n.eui64 mac).setGateway none : Py Ip6Host) = .ok { h with gateway := none } := by rw [e1]; rfl
    rw [show (do (← (← (.ok n : Py Ip6Network)).eui64 mac).setGateway none : Py Ip6Host) = .ok { h with gateway := none } from this]
  obtain ⟨b, e3, b1, b2, b3, b4, b5, b6⟩ := claim_orderly (σ := σ) hj a3 a4 { h with gateway := none }
    (by rw [a5]; exact o1.1) (by rw [a5]; exact o1.2.1)
  have b7 := claim_pf σ a { h with gateway := none }
  obtain ⟨b', e3', -, -, -, -, b8, -⟩ := claim_spec σ hj a3 { h with gateway := none }
  rw [e3] at e3' b7
  cases e3'
  rw [a1] at b8
  rw [hll, e3]
  dsimp only at b6 b7 ⊢
  rw [a5] at b3 b6 b7
  rw [a6] at b6
  rw [a7] at b7
  by_cases hc : Heard.advert h.address ∈ σ 1 ++ σ 2
  · rw [if_pos hc, List.append_nil] at b6
    rw [if_pos b6]
    exact ⟨_, rfl, by rw [if_pos hc]; exact ⟨b6, rfl⟩⟩
  · rw [if_neg hc] at b6
    rw [if_neg (by rw [b6]; simp), b8]
    simp only [claimAll]
    have t1 := (tick_kept σ b)
    have t2 := tick_dad σ b
    have t3 := tick_pf σ b
    rw [b2, b5, b3] at t2
    rw [b3] at t1
    rw [b7, b3] at t3
    have st : ((b.tick σ).send .solicit).steps = 5 := t1.2
    rw [st]
    generalize hd : ({ (b.tick σ).send .solicit with steps := 5 + 1 } : Addrs) = d
    have d1 : Inv d [Icmp6.allNodes] := by rw [← hd]; exact (b1.kept t1.1).same rfl rfl rfl
    have d2 : d.candidate = none := by rw [← hd]; exact t1.1.candidate.trans b2
    have d3 : d.dadEvent = 0 := by rw [← hd]; exact t2
    have d4 : d.prefixes = routerPrefixes (routerPrefixes [] (σ 0 ++ σ (0 + 1) ++ σ (0 + 2) ++ σ (0 + 3))) (σ (0 + 4)) := by rw [← hd]; exact t3
    have d5 : d.ip6Host = [] ++ [{ h with gateway := none }] := by rw [← hd]; exact t1.1.ip6Host.trans b6
    have d6 : d.steps = 6 := by rw [← hd]
    have d7 : d.mac = mac := by rw [← hd]; exact t1.1.mac.trans (b4.trans a2)
    have w1 := waitRouter_kept (σ 5) d
    obtain ⟨w2, w3, w4, w5⟩ := waitRouter_pf (σ 5) d
    generalize waitRouter (σ 5) d = c at *
    have cp : c.prefixes = l := by rw [w2, d4]; simp only [l, pf_append]
    rw [cp]
    obtain ⟨r, e4, hr⟩ := l3 c (d1.kept w1) (w5.trans d2) (w1.mac.trans d7) (by rw [w4, d2, d3]; rfl) (by rw [w3, d6]; exact o2)
    refine ⟨r, e4, ?_⟩
    rw [if_neg hc, hr, w1.ip6Host, w3, d5, d6]; rfl

namespace Example.Addrs

def mac : MacAddress := ⟨0x020000000007, by decide⟩
def maskOf (n : Nat) (h : n ≤ 128) : Ip6Mask :=
  ⟨2 ^ 128 - 2 ^ (128 - n), by have := Nat.two_pow_pos (128 - n); omega,
   by rw [validateBits_iff _ _ (by have := Nat.two_pow_pos (128 - n); omega)]; exact ⟨n, h, rfl⟩⟩

def addr (n : Nat) (h : n < 2 ^ 32) : Ip6Address := ⟨hextet 0x2001 + n, by unfold hextet; omega⟩
def host (n : Nat) (h : n < 2 ^ 32) : Ip6Host := Ip6Host.ofMask (addr n h) (maskOf 64 (by decide))
/-- a router with these prefix lengths -/
def router (l : List (Fin 129)) : Heard :=
  .router (l.map fun n => (Ip6Network.ofMask (addr 0 (by decide)) (maskOf n.1 (by omega)), ⟨hextet 0xFE80 + 1, by decide⟩))

/-- Two addresses with the same last 24 bits share a group; removing one of them leaves it. -/
example : ∃ hs gs, holdings [.join Icmp6.allNodes, .assign (host 1 (by decide)), .assign (host 0x1000001 (by decide)),
      .remove (host 1 (by decide))] = some (hs, gs) ∧ hs = [host 0x1000001 (by decide)] ∧ gs = [Icmp6.allNodes] ∧
    solicitedNode (addr 1 (by decide)) = solicitedNode (addr 0x1000001 (by decide)) := by
  refine ⟨_, _, rfl, ?_, ?_, ?_⟩ <;> decide +kernel

/-- Two candidates, the second of which somebody has. -/
def σ : Nat → List Heard
  | 6 => [.advert (addr 2 (by decide))]
  | _ => []

example : Orderly σ 0 [host 1 (by decide), host 2 (by decide)] ∧
    winners σ 0 [host 1 (by decide), host 2 (by decide)] = [host 1 (by decide)] := by
  refine ⟨⟨by decide +kernel, by decide +kernel, by decide +kernel, by decide +kernel, trivial⟩, by decide +kernel⟩

/-- A router with a prefix of 64 bits. -/
def ra : Nat → List Heard
  | 5 => [router [64]]
  | _ => []

example : (∀ p ∈ routerPrefixes [] (ra 0 ++ ra 1 ++ ra 2 ++ ra 3 ++ ra 4 ++ ra 5), p.1.mask.len = 64 ∧ p.2.isLinkLocal = true) ∧
    (routerPrefixes [] (ra 0 ++ ra 1 ++ ra 2 ++ ra 3 ++ ra 4 ++ ra 5)).length = 1 ∧
    ((acquireIp6 ra true true (start mac)).1.ip6Host.map (·.address.int)) =
      [hextet 0xFE80 + 0x000000FFFE000007, hextet 0x2001 + 0x000000FFFE000007] := by
  refine ⟨by decide +kernel, by decide +kernel, by decide +kernel⟩

end Example.Addrs

open Example.Addrs

/-- **C65** IPv6 is false in one direction: two advertisements for one candidate, and the next candidate is refused although nobody
ever answered for it. -/
theorem C65_ip6_spurious :
    ∃ σ : Nat → List Heard, (∀ n, Heard.advert (addr 2 (by decide)) ∉ σ n) ∧
      (claimAll σ [host 1 (by decide), host 2 (by decide)] (start mac)).1.ip6Host = [] := by
  refine ⟨fun | 2 => [.advert (addr 1 (by decide)), .advert (addr 1 (by decide))] | _ => [], ?_, by decide +kernel⟩
  intro n
  dsimp only
  split
  · decide +kernel
  · simp

/-- **C65** IPv4 is false: somebody answers the first probe, the receive thread notes the conflict, and the address is assigned and
announced all the same. -/
theorem C65_ip4_conflict :
    ∃ (h : Ip4Host) (σ : Nat → List Heard), Heard.inUse h.address ∈ σ 1 ∧
      h.address ∈ (createIp4 σ { start mac with ip4Pending := [h] }).stackConflict ∧
      h ∈ (createIp4 σ { start mac with ip4Pending := [h] }).ip4Host := by
  refine ⟨⟨⟨dot 10 0 0 7, by decide⟩, Ip4Network.ofMask ⟨dot 10 0 0 7, by decide⟩
    ⟨0xFFFFFF00, by decide, by decide +kernel⟩, none⟩,
    fun | 1 => [.inUse ⟨dot 10 0 0 7, by decide⟩] | _ => [], ?_⟩
  refine ⟨by decide +kernel, by decide +kernel, by decide +kernel⟩

end Verif
