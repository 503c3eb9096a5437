import Verif.Lemmas.Nearly
/-! C02: the checksum of every message that the stack assembles is the right one or exactly one more. -/
namespace Verif
open Spec

/-- C02 for every ICMPv4 message. -/
theorem C02_icmp4_partial {m : Icmp4.Msg} {q : Bytes} (h : Icmp4.assemble m = .ok q) (hl : q.length < 65536) : NearlyValid [] q 2 :=
  Icmp4.nearly h (by omega)

/-- C02 for every ICMPv6 message. -/
theorem C02_icmp6_partial {m : Icmp6.Msg} {ps : Nat} {q : Bytes} {src dst : Ip6Address} (hs : Ip6.pshdrSum src dst q.length 58 = .ok ps)
    (h : Icmp6.assemble m ps = .ok q) (hl : q.length < 65536) : NearlyValid (pseudoHdr6 src dst 58 q.length) q 2 :=
  Icmp6.nearly h (under6 (by decide) hl hs) (by omega)

/-- C02 for every UDP datagram, over IPv4 and IPv6. -/
theorem C02_udp4_partial {sport dport ps : Nat} {data q : Bytes} {src dst : Ip4Address} (hs : Ip4.pshdrSum src dst 17 q.length = .ok ps)
    (h : Udp.assemble sport dport data ps = .ok q) (hl : q.length < 65536) : NearlyValid (pseudoHdr4 src dst 17 q.length) q 6 :=
  Udp.nearly h (under4 (by decide) hl hs) (by omega)
theorem C02_udp6_partial {sport dport ps : Nat} {data q : Bytes} {src dst : Ip6Address} (hs : Ip6.pshdrSum src dst q.length 17 = .ok ps)
    (h : Udp.assemble sport dport data ps = .ok q) (hl : q.length < 65536) : NearlyValid (pseudoHdr6 src dst 17 q.length) q 6 :=
  Udp.nearly h (under6 (by decide) hl hs) (by omega)

/-- C02 for every TCP segment, over IPv4 and IPv6. -/
theorem C02_tcp4_partial {x : Tcp.Tx} {ps : Nat} {q : Bytes} {src dst : Ip4Address} (hs : Ip4.pshdrSum src dst 6 q.length = .ok ps)
    (h : Tcp.assemble x ps = .ok q) (hl : q.length < 65536) : NearlyValid (pseudoHdr4 src dst 6 q.length) q 16 :=
  Tcp.nearly h (under4 (by decide) hl hs) (by omega)
theorem C02_tcp6_partial {x : Tcp.Tx} {ps : Nat} {q : Bytes} {src dst : Ip6Address} (hs : Ip6.pshdrSum src dst q.length 6 = .ok ps)
    (h : Tcp.assemble x ps = .ok q) (hl : q.length < 65536) : NearlyValid (pseudoHdr6 src dst 6 q.length) q 16 :=
  Tcp.nearly h (under6 (by decide) hl hs) (by omega)

/-- A datagram from 10.0.1.9 to 10.0.1.7; and a ping with identifier 0xF800 and sequence number 0xFFFF, whose checksum is one too much. -/
def Example.Nearly.ok {α : Type} (P : α → Bool) : Py α → Bool
  | .ok q => P q
  | .error _ => false
example : Example.Nearly.ok (fun ps => Example.Nearly.ok (fun q => q.length == 10) (Udp.assemble 5000 53 [1, 2] ps))
    (Ip4.pshdrSum ⟨0x0A000109, by decide⟩ ⟨0x0A000107, by decide⟩ 17 10) = true := by decide +kernel
example : Example.Nearly.ok (fun q => q == [8, 0, 255, 255, 248, 0, 255, 255] && sum16 q % 65535 == 1)
    (Icmp4.assemble (.echoRequest 0xF800 0xFFFF [])) = true := by decide +kernel

end Verif
