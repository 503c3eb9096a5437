import Verif.Props.Host
import Verif.Props.Resolve
/-!
C88: the transmit functions of a host (which ask its caches) and those the other properties speak of (which are told the answers): they queue the same frames and
return the same, when the caches have the answers.
-/
namespace Verif
open Spec

/-- The cache has the link-layer address of the next hop to `dst`, if there is one, from every address. -/
def Spec.KnowsWay (h : Host) : IpAddress → Prop
  | .v4 dst => ∀ src a, Host.ask4 h.stack src dst = some a → ∃ e, h.arp.get? a = some e
  | .v6 dst => ∀ src a, Host.ask6 h.stack src dst = some a → ∃ e, h.nd.get? a = some e

/-- A transmit call has returned what `p` says, has left the packet handler in the state that `p` says and has changed nothing else but
the use counters in the caches. -/
def Spec.SameAs (h : Host) (r : Host.Res) (p : Stack × Py (TxStatus × List Outgoing)) : Prop :=
  r.2 = p.2 ∧ r.1.node = { h.node with stack := p.1 } ∧ (∀ k a, r.1.links.arp k a = h.links.arp k a) ∧ ∀ k a, r.1.links.nd k a = h.links.nd k a

theorem Host.Same.as {h : Host} {r : Host.Res} {p : Stack × Py (TxStatus × List Outgoing)} (x : Host.Same h r p) : SameAs h r p :=
  ⟨x.1, x.2.node, fun _ _ => by rw [x.2.links]; rfl, fun _ _ => by rw [x.2.links]; rfl⟩

theorem Spec.KnowsWay.missing4 {h : Host} {dst : Ip4Address} (k : KnowsWay h (.v4 dst)) (s a : Ip4Address) : ¬ Host.Missing4 h s dst a := by
  rintro ⟨h1, h2⟩
  obtain ⟨e, he⟩ := k s a h1
  rw [Host.links] at h2
  simp [he] at h2

theorem Spec.KnowsWay.missing6 {h : Host} {dst : Ip6Address} (k : KnowsWay h (.v6 dst)) (s a : Ip6Address) : ¬ Host.Missing6 h s dst a := by
  rintro ⟨h1, h2⟩
  obtain ⟨e, he⟩ := k s a h1
  rw [Host.links] at h2
  simp [he] at h2

theorem C88_same_icmp4 (h : Host) (src dst : Ip4Address) (m : Icmp4.Msg) (k : KnowsWay h (.v4 dst)) :
    SameAs h (h.icmp4 src dst m) (phtxIcmp4 h.stack h.links src dst m) :=
  (Host.ip4_known h src dst 64 _ fun s _ a => k.missing4 s a).as

theorem C88_same_icmp6 (h : Host) (src dst : Ip6Address) (hop : Nat) (m : Icmp6.Msg) (k : KnowsWay h (.v6 dst)) :
    SameAs h (h.icmp6 src dst hop m) (phtxIcmp6 h.stack h.links src dst hop m) :=
  (Host.ip6_known h src dst hop _ fun s _ => ⟨fun a => k.missing6 s a, fun s' _ a => k.missing6 s' a⟩).as

theorem C88_same_udp (h : Host) (src dst : IpAddress) (sport dport : Nat) (data : Bytes) (k : KnowsWay h dst) :
    SameAs h (h.udp src dst sport dport data) (phtxUdp h.stack h.links src dst sport dport data) := by
  rw [Host.udp, phtxUdp]
  split
  · exact ⟨rfl, rfl, fun _ _ => rfl, fun _ _ => rfl⟩
  cases src <;> cases dst
  · exact (Host.ip4_known h _ _ 64 _ fun s _ a => k.missing4 s a).as
  · exact ⟨rfl, rfl, fun _ _ => rfl, fun _ _ => rfl⟩
  · exact ⟨rfl, rfl, fun _ _ => rfl, fun _ _ => rfl⟩
  · exact (Host.ip6_known h _ _ 64 _ fun s _ => ⟨fun a => k.missing6 s a, fun s' _ a => k.missing6 s' a⟩).as

theorem C88_same_tcp (h : Host) (src dst : IpAddress) (x : Tcp.Tx) (k : KnowsWay h dst) :
    SameAs h (h.tcp src dst x) (phtxTcp h.stack h.links src dst x) := by
  rw [Host.tcp, phtxTcp]
  split
  · exact ⟨rfl, rfl, fun _ _ => rfl, fun _ _ => rfl⟩
  cases src <;> cases dst
  · exact (Host.ip4_known h _ _ 64 _ fun s _ a => k.missing4 s a).as
  · exact ⟨rfl, rfl, fun _ _ => rfl, fun _ _ => rfl⟩
  · exact ⟨rfl, rfl, fun _ _ => rfl, fun _ _ => rfl⟩
  · exact (Host.ip6_known h _ _ 64 _ fun s _ => ⟨fun a => k.missing6 s a, fun s' _ a => k.missing6 s' a⟩).as

/-- When the cache lacks the next hop, nothing but requests for it is queued (for each fragment one), where the other functions, told that
nobody knows, queue nothing; or it is found before that the packet cannot be sent. -/
theorem C88_same_missing4 (h : Host) (src s dst a : Ip4Address) (ttl : Nat) (c : L4) (hv : validateSrcIp4 h.stack src dst c.kind = .ok s)
    (k : Host.ask4 h.stack s dst = some a) (hk : h.arp.get? a = none) :
    SameAs h (h.ip4 src dst ttl c) (phtxIp4 h.stack h.links.arp src dst ttl c) ∨
    ∃ e n, (h.ip4 src dst ttl c).2 = .ok (e, List.replicate n ⟨h.stack.mac, .broadcast, .arp 1 h.stack.mac
        (match h.stack.ip4Unicast with | x :: _ => x | [] => .zero) .zero a⟩) ∧
      (phtxIp4 h.stack h.links.arp src dst ttl c).2 = .ok (e, []) := by
  have hm : Host.Missing4 h s dst a := ⟨k, by rw [Host.links]; simp [hk]⟩
  rcases Host.ip4_missing h src dst ttl c hv hm with x | ⟨e, n, h1, h2⟩
  · exact .inl x.as
  · exact .inr ⟨e, n, by rw [h1]; rfl, h2⟩

namespace Example.HostTx
open Example.Host Example.Rx

/-- 10.0.1.9 and 2001:db8::9, when they know 10.0.1.7 and 2001:db8::7. -/
example : KnowsWay A' (.v4 Example.host4.address) ∧ KnowsWay A' (.v6 Example.host6.address) := by
  constructor
  · intro src a h
    suffices a = Example.host4.address by subst this; exact ⟨entry Example.stack.mac, by decide +kernel⟩
    rw [Host.ask4] at h
    split at h
    · cases h
    split at h
    · cases h
    split at h
    · cases h
    split at h
    · rename_i x hx
      exact absurd (List.find?_some hx) (by
        have : A'.stack.ip4Host.all fun x => x.network.contains Example.host4.address := by decide +kernel
        rw [List.all_eq_true] at this
        simp [this x (List.mem_of_find?_eq_some hx)])
    · exact (Option.some.inj h).symm
  · intro src a h
    suffices a = Example.host6.address by subst this; exact ⟨entry Example.stack.mac, by decide +kernel⟩
    rw [Host.ask6] at h
    split at h
    · cases h
    split at h
    · rename_i x hx
      exact absurd (List.find?_some hx) (by
        have : A'.stack.ip6Host.all fun x => x.network.contains Example.host6.address := by decide +kernel
        rw [List.all_eq_true] at this
        simp [this x (List.mem_of_find?_eq_some hx)])
    · exact (Option.some.inj h).symm

/-- Without an entry for it. -/
example : validateSrcIp4 A.stack peer4 Example.host4.address .other = .ok peer4 ∧
    Host.ask4 A.stack peer4 Example.host4.address = some Example.host4.address ∧ A.arp.get? Example.host4.address = none := by decide +kernel

end Example.HostTx
end Verif
