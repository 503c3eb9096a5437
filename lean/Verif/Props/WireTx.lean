import Verif.Lemmas.WireTx
import Verif.Lemmas.SessionWire
import Verif.Props.EndToEnd
/-! C83: the segments of TCP sessions, as bytes on the wire. -/
namespace Verif
open Spec Sess

theorem Spec.OwnSource4.source {st : Stack} {src : Ip4Address} (h : OwnSource4 st src) (dst : Ip4Address) (k : L4Kind) :
    validateSrcIp4 st src dst k = .ok src := by
  obtain ⟨⟨x, hx, rfl⟩, h2, h3, h4⟩ := h
  have a1 : x.address ∈ st.ip4Unicast := List.mem_map.2 ⟨x, hx, rfl⟩
  have a2 : x.address ≠ .limitedBroadcast := by
    intro e; rw [e] at h4; exact absurd h4.2 (by decide)
  have a3 : x.address.isLimitedBroadcast = false := by
    rw [Ip4Address.isLimitedBroadcast, beq_eq_false_iff_ne]; omega
  have a4 : x.address.isUnspecified = false := by
    rw [Ip4Address.isUnspecified, beq_eq_false_iff_ne]; omega
  have a5 : x.address ∉ st.ip4Broadcast := by
    rw [Stack.ip4Broadcast, List.mem_append, not_or, List.mem_map]
    exact ⟨fun ⟨y, hy, e⟩ => h3 y hy e, by simpa using a2⟩
  simp [validateSrcIp4, a1, h2, a3, a4, a5]

theorem Spec.OwnSource6.source {st : Stack} {src : Ip6Address} (h : OwnSource6 st src) (dst : Ip6Address) (k : L4Kind) :
    validateSrcIp6 st src dst k = .ok src := by
  obtain ⟨⟨x, hx, rfl⟩, h2, h4⟩ := h
  have a1 : x.address ∈ st.ip6Unicast := List.mem_map.2 ⟨x, hx, rfl⟩
  have a4 : x.address.isUnspecified = false := by
    rw [Ip6Address.isUnspecified, beq_eq_false_iff_ne]; omega
  simp [validateSrcIp6, a1, h2, a4]

theorem Spec.OwnSource6.unicast {st : Stack} {src : Ip6Address} (h : OwnSource6 st src) : src.isMulticast = false := by
  have h1 := h.ordinary.2
  have h2 : src.int &&& 0xFF000000000000000000000000000000 ≤ src.int := Nat.and_le_left
  rw [Ip6Address.isMulticast, beq_eq_false_iff_ne]
  omega

/-- The bytes of a segment, whatever its checksum. -/
theorem seg_bytes {g : Seg} (hg : SegOk g) {sport dport : Nat} (hs : 0 < sport ∧ sport < 65536) (hd : 0 < dport ∧ dport < 65536)
    (ps : Nat) :
    ∃ p opts, Tcp.assemble (g.tx sport dport) ps = .ok p ∧ p.length = (if g.syn then 24 else 20) + g.data.length ∧ IsTcp p opts ∧
      ¬ OddTcp p ∧ ∀ src dst, segment src dst p opts = heard g src sport dst dport := by
  obtain ⟨k1, k2, k3, k4, k5, k6, k7⟩ := hg
  have hok : (g.tx sport dport).Ok := by
    refine ⟨hs.2, hd.2, by simp only [Seg.tx]; omega, by simp only [Seg.tx]; omega, by simp [Seg.tx], by simp [Seg.tx], ?_, ?_, ?_,
      by simp only [Seg.tx]; omega⟩
    all_goals simp only [Seg.tx]; cases g.syn <;> simp [Tcp.Opt.Ok, Tcp.Opt.len]
  have hh : (g.tx sport dport).hlen = if g.syn then 24 else 20 := by
    simp only [Tcp.Tx.hlen, Seg.tx]; cases g.syn <;> rfl
  obtain ⟨p, hp⟩ : ∃ p, Tcp.frameWith (g.tx sport dport) (inetCksum (Tcp.frameWith (g.tx sport dport) 0) ps) = p := ⟨_, rfl⟩
  have hl := Tcp.frameWith_length (g.tx sport dport) (inetCksum (Tcp.frameWith (g.tx sport dport) 0) ps)
  rw [hp, hh] at hl
  obtain ⟨f1, f2, f3, f4, f5, f6, f7, f8, f9, f10, f11, f12, f13, f14⟩ := Tcp.frame_bytes _ _ hok p hp
  have ha := Tcp.assemble_ok _ ps hok
  rw [hp] at ha
  rw [hh] at f5 f13 f14
  simp only [Seg.tx] at f1 f2 f3 f4 f6 f7 f8 f9 f10 f11 f12 f13 f14 hl
  refine ⟨p, if g.syn then [(2, [5, 180])] else [], ha, hl, ⟨by rw [hl]; split <;> omega, ?_, ?_, ?_⟩, ?_, ?_⟩
  · rw [f5, hl]; split <;> omega
  · rw [f5, f13]
    cases g.syn with
    | false => exact .nil
    | true => exact .opt 2 4 [5, 180] (by decide) rfl .nil
  · intro k v hkv
    cases hsy : g.syn with
    | false => rw [hsy] at hkv; simp at hkv
    | true =>
      rw [hsy] at hkv
      simp only [if_true, List.mem_singleton, Prod.mk.injEq] at hkv
      obtain ⟨rfl, rfl⟩ := hkv
      simp
  · rw [OddTcp, f1, f2, f4, f6, f7, f8, f9, f10, f12]
    rintro (h | h | ⟨h, h'⟩ | ⟨h, h'⟩ | ⟨h, h'⟩ | ⟨h, h'⟩ | ⟨h, h'⟩ | ⟨h, h'⟩)
    · omega
    · omega
    · rw [(k4 h).2.1] at h'; cases h'
    · rw [(k4 h).2.2] at h'; cases h'
    · rw [(k5 h).2.1] at h'; cases h'
    · rw [(k5 h).2.2] at h'; cases h'
    · exact h (k6 h').2
    · exact h rfl
  · intro src dst
    rw [segment, heard, f1, f2, f3, f4, f5, f6, f7, f8, f9, f11, f14]
    cases g.syn <;> rfl

/-- C83 over IPv4: every segment that a session sends goes out in a single frame, never in fragments: an Ethernet frame from the stack's
address, in it an IPv4 packet from the session's local address to its remote address with a valid header checksum, in it a TCP
segment from which a receiver reads exactly the session's ports, flags, numbers and data. -/
theorem C83_ip4 {active : Bool} {iss : Nat} {lip rip : Ip4Address} {lport rport : Nat} {evs : List Ev} {g : Seg}
    (hg : g ∈ sent ((opened active iss (.v4 lip) lport (.v4 rip) rport).run evs).out)
    (hl : 0 < lport ∧ lport < 65536) (hr : 0 < rport ∧ rport < 65536)
    {st st' : Stack} {l : Socks.Links} {outs : List Outgoing} (hmtu : 1500 ≤ st.mtu ∧ st.mtu < 65536) (hsrc : OwnSource4 st lip)
    (h : phtxTcp st l (.v4 lip) (.v4 rip) (g.tx lport rport) = (st', .ok (.passedEtherToTxRing, outs))) :
    st' = st ∧ ∃ o F b p opts, outs = [o] ∧ o.frame = .ok F ∧ IsFrame F st.mac o.dst 0x0800 b ∧ b.length ≤ 1500 ∧
      Ip4Packet b lip rip 6 p ∧ IsTcp p opts ∧ ¬ OddTcp p ∧ segment (.v4 lip) (.v4 rip) p opts = heard g (.v4 lip) lport (.v4 rip) rport := by
  have hg := wire_run.segs g hg
  rw [phtxTcp] at h
  split at h
  · simp at h
  dsimp only at h
  have hcl : (Tcp.carried (g.tx lport rport)).len = (if g.syn then 24 else 20) + g.data.length := by
    simp only [Tcp.carried, Tcp.Tx.hlen, Seg.tx]; cases g.syn <;> rfl
  have hcl' : (if g.syn then 24 else 20) + g.data.length ≤ 1480 := by
    have := hg.data
    cases hsy : g.syn with
    | false => simp; omega
    | true => rw [(hg.syn hsy).1]; simp
  obtain ⟨h1, a, o, ps, h2, h3, h4, h5, h6, h7⟩ := whole4 (c := { Tcp.carried (g.tx lport rport) with kind := .other })
    (.inr (.inr (.inl rfl))) (by rw [hcl]; omega) hmtu.2 h
  rw [hsrc.source] at h2
  cases h2
  obtain ⟨p, opts, p1, p2, p3, p4, p5⟩ := seg_bytes hg hl hr ps
  obtain ⟨b, b1, b2, b3, b4, b5, b6, b7⟩ := h7 p p1 (by rw [p2, hcl])
  obtain ⟨F, F1, F2⟩ := Outgoing.frame_bytes b1
  rw [h4, h5] at F2
  refine ⟨h1, o, F, b, p, opts, h3, F1, F2, by omega, ⟨b2, ⟨[], ?_⟩, by rw [b4], hsrc.ordinary.2⟩, p3, p4, p5 _ _⟩
  rw [b3, List.drop_of_length_le (by simp; omega)]
  exact .nil

/-- C83 over IPv6, for the segments that fit the MTU (all of them, when it is at least 1520). -/
theorem C83_ip6_partial {active : Bool} {iss : Nat} {lip rip : Ip6Address} {lport rport : Nat} {evs : List Ev} {g : Seg}
    (hg : g ∈ sent ((opened active iss (.v6 lip) lport (.v6 rip) rport).run evs).out)
    (hl : 0 < lport ∧ lport < 65536) (hr : 0 < rport ∧ rport < 65536)
    {st st' : Stack} {l : Socks.Links} {outs : List Outgoing} (hmtu : 1280 ≤ st.mtu ∧ st.mtu < 65536) (hsrc : OwnSource6 st lip)
    (hfit : 60 + g.data.length ≤ st.mtu)
    (h : phtxTcp st l (.v6 lip) (.v6 rip) (g.tx lport rport) = (st', .ok (.passedEtherToTxRing, outs))) :
    st' = st ∧ ∃ o F b p opts, outs = [o] ∧ o.frame = .ok F ∧ IsFrame F st.mac o.dst 0x86DD b ∧
      Ip6Packet b lip rip 64 6 p ∧ IsTcp p opts ∧ ¬ OddTcp p ∧ segment (.v6 lip) (.v6 rip) p opts = heard g (.v6 lip) lport (.v6 rip) rport := by
  have hg := wire_run.segs g hg
  rw [phtxTcp] at h
  split at h
  · simp at h
  dsimp only at h
  have hcl : (Tcp.carried (g.tx lport rport)).len = (if g.syn then 24 else 20) + g.data.length := by
    simp only [Tcp.carried, Tcp.Tx.hlen, Seg.tx]; cases g.syn <;> rfl
  have hcl' : 40 + ((if g.syn then 24 else 20) + g.data.length) ≤ st.mtu := by
    have := hg.data
    cases hsy : g.syn with
    | false => simp; omega
    | true => rw [(hg.syn hsy).1]; simp; omega
  obtain ⟨h1, a, o, ps, h2, h3, h4, h5, h6, h7⟩ := whole6 (c := { Tcp.carried (g.tx lport rport) with kind := .other })
    (.inr (.inr (.inl rfl))) (by rw [hcl]; omega) hmtu.2 h
  rw [hsrc.source] at h2
  cases h2
  obtain ⟨p, opts, p1, p2, p3, p4, p5⟩ := seg_bytes hg hl hr ps
  obtain ⟨b, b1, b2⟩ := h7 p p1 (by rw [p2, hcl]) hsrc.unicast
  obtain ⟨F, F1, F2⟩ := Outgoing.frame_bytes b1
  rw [h4, h5] at F2
  exact ⟨h1, o, F, b, p, opts, h3, F1, F2, b2, p3, p4, p5 _ _⟩

/-- C83: what becomes of the frame at a stack that is at the link address it is sent to and takes packets for its IP destination: if the
checksum is right (see C02), the socket to which the segment belongs is told exactly what the session sent; if no socket takes it,
it is answered with a reset. -/
theorem C83_arrives4 {g : Seg} {lip rip : Ip4Address} {lport rport : Nat} {F b p : Bytes} {src dst : MacAddress} {opts : List (Nat × Bytes)}
    (hF : IsFrame F src dst 0x0800 b) (hb : Ip4Packet b lip rip 6 p) (ht : IsTcp p opts) (ho : ¬ OddTcp p)
    (hs : segment (.v4 lip) (.v4 rip) p opts = heard g (.v4 lip) lport (.v4 rip) rport)
    (hck : Valid (pseudoHdr4 lip rip 6 p.length ++ p))
    {hist : List (Spec.Env × Spec.Op)} {n : Node} (hn : n.socks = (Spec.run hist).1) (hm : MacForUs n dst) (hl : Listens4 n rip)
    (t₀ t₁ : Int) (d : Nat) :
    (∃ r m, Carries g m ∧ m.lip = .v4 rip ∧ m.lport = rport ∧ m.rip = .v4 lip ∧ m.rport = lport ∧ Belongs n.socks m r ∧
      Rx.ether n t₀ t₁ d F = (n, .ok [.tcpDeliver r m])) ∨
    ((∀ r s, Registered n.socks r s → ¬ TakesSegment s.id (heard g (.v4 lip) lport (.v4 rip) rport)) ∧
      ∃ h, Rx.ether n t₀ t₁ d F = (n, .ok [.txTcp (.v4 rip) (.v4 lip) h]) ∧ h.flags.rst = true ∧ h.sport = rport ∧ h.dport = lport) := by
  have H : Brings n F (.v4 lip) (.v4 rip) 6 p :=
    .v4 ⟨hF.length, ⟨dst, hF.hasDst.symm, hm⟩, hF.hasType, by rw [hF.hasPayload]; exact hb, hl⟩ hck
  rcases C78_wire hn H ht ho t₀ t₁ d with ⟨r, h1, h2⟩ | ⟨h1, h2⟩
  · rw [hs] at h1 h2
    exact .inl ⟨r, _, ⟨rfl, rfl, rfl, rfl, rfl, rfl, rfl⟩, rfl, rfl, rfl, rfl, h1, h2⟩
  · rw [hs] at h1
    exact .inr ⟨h1, _, h2, rfl, congrArg TcpMd.lport hs, congrArg TcpMd.rport hs⟩

/-- The same over IPv6. -/
theorem C83_arrives6 {g : Seg} {lip rip : Ip6Address} {lport rport hop : Nat} {F b p : Bytes} {src dst : MacAddress} {opts : List (Nat × Bytes)}
    (hF : IsFrame F src dst 0x86DD b) (hb : Ip6Packet b lip rip hop 6 p) (ht : IsTcp p opts) (ho : ¬ OddTcp p)
    (hs : segment (.v6 lip) (.v6 rip) p opts = heard g (.v6 lip) lport (.v6 rip) rport)
    (hck : Valid (pseudoHdr6 lip rip 6 p.length ++ p))
    {hist : List (Spec.Env × Spec.Op)} {n : Node} (hn : n.socks = (Spec.run hist).1) (hm : MacForUs n dst) (hl : Listens6 n rip)
    (t₀ t₁ : Int) (d : Nat) :
    (∃ r m, Carries g m ∧ m.lip = .v6 rip ∧ m.lport = rport ∧ m.rip = .v6 lip ∧ m.rport = lport ∧ Belongs n.socks m r ∧
      Rx.ether n t₀ t₁ d F = (n, .ok [.tcpDeliver r m])) ∨
    ((∀ r s, Registered n.socks r s → ¬ TakesSegment s.id (heard g (.v6 lip) lport (.v6 rip) rport)) ∧
      ∃ h, Rx.ether n t₀ t₁ d F = (n, .ok [.txTcp (.v6 rip) (.v6 lip) h]) ∧ h.flags.rst = true ∧ h.sport = rport ∧ h.dport = lport) := by
  have H : Brings n F (.v6 lip) (.v6 rip) 6 p :=
    .v6 ⟨hF.length, ⟨dst, hF.hasDst.symm, hm⟩, hF.hasType, by rw [hF.hasPayload]; exact hb, hl⟩ hck
  rcases C78_wire hn H ht ho t₀ t₁ d with ⟨r, h1, h2⟩ | ⟨h1, h2⟩
  · rw [hs] at h1 h2
    exact .inl ⟨r, _, ⟨rfl, rfl, rfl, rfl, rfl, rfl, rfl⟩, rfl, rfl, rfl, rfl, h1, h2⟩
  · rw [hs] at h1
    exact .inr ⟨h1, _, h2, rfl, congrArg TcpMd.lport hs, congrArg TcpMd.rport hs⟩

/-- C83 fails over IPv6 for full segments: their size does not leave room for the longer IPv6 header, and with the usual MTU of 1500
every segment with more than 1440 bytes of data goes out in at least two fragments. -/
theorem C83_ip6_fragments {active : Bool} {iss : Nat} {lip rip : Ip6Address} {lport rport : Nat} {evs : List Ev} {g : Seg}
    (hg : g ∈ sent ((opened active iss (.v6 lip) lport (.v6 rip) rport).run evs).out)
    (hl : 0 < lport ∧ lport < 65536) (hr : 0 < rport ∧ rport < 65536)
    {st st' : Stack} {l : Socks.Links} {outs : List Outgoing} (hmtu : st.mtu = 1500)
    (hsrc : ∀ h ∈ st.ip6Host, OwnSource6 st h.address) (hown : ∃ h ∈ st.ip6Host, h.address = lip) (hid : st.ip6Id + 1 < 2 ^ 32)
    (hbig : 1440 < g.data.length)
    (h : phtxTcp st l (.v6 lip) (.v6 rip) (g.tx lport rport) = (st', .ok (.passedEtherToTxRing, outs))) :
    2 ≤ outs.length ∧ ∀ o ∈ outs, ∃ F b p, o.frame = .ok F ∧ IsFrame F o.src o.dst 0x86DD b ∧ Ip6Packet b lip rip 64 44 p := by
  have hgo := wire_run.segs g hg
  rw [phtxTcp] at h
  split at h
  · simp at h
  dsimp only at h
  have hcl : (Tcp.carried (g.tx lport rport)).len = (if g.syn then 24 else 20) + g.data.length := by
    simp only [Tcp.carried, Tcp.Tx.hlen, Seg.tx]; cases g.syn <;> rfl
  have hcl' : 1460 < (Tcp.carried (g.tx lport rport)).len := by rw [hcl]; split <;> omega
  have hlen : ∀ ps d, Tcp.assemble (g.tx lport rport) ps = .ok d → d.length = (Tcp.carried (g.tx lport rport)).len := by
    intro ps d hd
    obtain ⟨p, opts, p1, p2, -⟩ := seg_bytes hgo hl hr ps
    cases Except.ok.inj (hd.symm.trans p1)
    rw [hcl]; exact p2
  have hplain : st.PlainIp6 := by
    intro x hx
    refine ⟨fun e => ?_, (hsrc x hx).multicast⟩
    have := (hsrc x hx).ordinary.1
    rw [e] at this
    exact absurd this (by decide)
  obtain ⟨x, hx, rfl⟩ := hown
  obtain ⟨a, ps, d, fs, hps, hd, hau, hF, -, -, hall, hrd⟩ := C28_ip6_fragmentation
    (c := { Tcp.carried (g.tx lport rport) with kind := .other }) hplain (by omega) (by omega) hlen
    (show st.mtu < 40 + (Tcp.carried (g.tx lport rport)).len by omega) (show (6 : Nat) ≠ 44 by decide) h (.inr rfl)
  have hall := hall.mp rfl
  have hdl := hlen ps d hd
  have hl2 := congrArg List.length hall
  simp only [List.length_map] at hl2
  refine ⟨?_, ?_⟩
  · rw [hl2]
    apply Classical.byContradiction
    intro hlt
    have hc := hF.concat
    match fs, hlt with
    | [], _ => rw [← hc] at hdl; simp at hdl; omega
    | [f], _ =>
      have := hF.fits f (by simp)
      rw [← hc] at hdl
      simp at hdl
      omega
    | _ :: _ :: _, hlt => simp at hlt
  · intro o ho
    have : o.pkt ∈ fs.map (frag6Pkt a rip (st.ip6Id + 1) 6) := by
      have : o.pkt ∈ outs.map (·.pkt) := List.mem_map.2 ⟨o, ho, rfl⟩
      rw [hall] at this
      exact this
    obtain ⟨f, hf, hpk⟩ := List.mem_map.1 this
    have ha := frag6_source (c := { Tcp.carried (g.tx lport rport) with kind := .other }) hplain (by omega) (by omega) hlen
      (show st.mtu < 40 + (Tcp.carried (g.tx lport rport)).len by omega) (show (6 : Nat) ≠ 44 by decide) h ho hpk.symm
    rw [(hsrc x hx).source] at ha
    cases ha
    have hd1 := hgo.data
    obtain ⟨hd, c, e1, e2⟩ := hrd f hf
    obtain ⟨b, b1, -, b2, r, b3, r1, r2, r3, r4, -⟩ := e2 (hsrc x hx).unicast hid (by rw [hdl, hcl]; split <;> omega)
    have hb : o.pkt.assemble = .ok b := by
      rw [← hpk]
      exact (congrArg Pkt.assemble e1).trans b1
    obtain ⟨F, F1, F2⟩ := Outgoing.frame_bytes hb
    have he : o.pkt.etherType = 0x86DD := by rw [← hpk]; rfl
    rw [he] at F2
    have := (Ip6.sound b2 b3).1
    rw [r1, r2, r3, r4] at this
    exact ⟨F, b, _, F1, F2, this⟩

namespace Example.WireTx

def peer4 : IpAddress := .v4 Example.Rx.peer4
def peer6 : IpAddress := .v6 Example.Rx.peer6
def own4 : IpAddress := .v4 Example.host4.address
def own6 : IpAddress := .v6 Example.host6.address
def links : Socks.Links := ⟨fun _ _ => some Example.Rx.peerMac, fun _ _ => some Example.Rx.peerMac⟩

/-- A client connects, the peer answers with an MSS of 1460, the application sends, and the timer ticks. -/
def evs (lip rip : IpAddress) (data : Bytes) : List Ev :=
  [.timer, .segment ⟨lip, 5000, rip, 80, true, true, false, false, 500, 101, 65535, none, 1460, []⟩, .send data, .timer]

/-- The last segment it has sent. -/
def lastSeg (lip rip : IpAddress) (data : Bytes) : Seg :=
  (sent ((opened true 100 lip 5000 rip 80).run (evs lip rip data)).out).getLast?.getD ⟨false, false, false, false, 0, 0, []⟩

def seg4 : Seg := lastSeg own4 peer4 [104, 105]
def full6 : Seg := lastSeg own6 peer6 (List.replicate 2000 7)
def seg6 : Seg := lastSeg own6 peer6 [104, 105]

example : seg4 = ⟨false, true, false, false, 101, 501, [104, 105]⟩ ∧
    seg4 ∈ sent ((opened true 100 own4 5000 peer4 80).run (evs own4 peer4 [104, 105])).out := by decide +kernel
example : seg6 ∈ sent ((opened true 100 own6 5000 peer6 80).run (evs own6 peer6 [104, 105])).out ∧ seg6.data.length = 2 := by decide +kernel
example : full6 ∈ sent ((opened true 100 own6 5000 peer6 80).run (evs own6 peer6 (List.replicate 2000 7))).out ∧
    full6.data.length = 1460 := by decide +kernel

/-- The packets queued for a segment, as the number of frames and whether it worked. -/
def result (src dst : IpAddress) (g : Seg) : Option (TxStatus × Nat) :=
  match (phtxTcp Example.stack links src dst (g.tx 5000 80)).2 with
  | .ok (s, outs) => some (s, outs.length)
  | .error _ => none

example : result own4 peer4 seg4 = some (.passedEtherToTxRing, 1) := by decide +kernel
example : result own6 peer6 seg6 = some (.passedEtherToTxRing, 1) := by decide +kernel
example : result own6 peer6 full6 = some (.passedEtherToTxRing, 2) := by decide +kernel

example : OwnSource4 Example.stack Example.host4.address ∧ OwnSource6 Example.stack Example.host6.address :=
  ⟨⟨⟨Example.host4, by decide, rfl⟩, by decide, by decide, by decide⟩, ⟨⟨Example.host6, by decide, rfl⟩, by decide, by decide⟩⟩

/-- The peer: a server that listens on port 80, with a connection. -/
def hist : List (Spec.Env × Spec.Op) :=
  let e : Spec.Env := ⟨Example.EndToEnd.sender 1500, links⟩
  [(e, .socket .inet4 .stream), (e, .bind 0 (some (.v4 Example.Rx.peer4)) 80 0), (e, .listen 0), (e, .child peer4 80 own4 5000)]
def peer : Node := { Example.Rx.node with stack := Example.EndToEnd.sender 1500, socks := (Spec.run hist).1 }

/-- The frame of the segment reaches the socket of the connection, as it was sent. -/
def reaches : Bool :=
  match (phtxTcp Example.stack links own4 peer4 (seg4.tx 5000 80)).2 with
  | .ok (_, [o]) => match o.frame with
    | .ok F => match (Rx.ether peer 0 0 8 F).2 with
      | .ok [.tcpDeliver r m] => r == 1 && decide (m = heard seg4 own4 5000 peer4 80)
      | _ => false
    | _ => false
  | _ => false

example : reaches = true := by decide +kernel
example : MacForUs peer Example.Rx.peerMac ∧ Listens4 peer Example.Rx.peer4 := ⟨.inl rfl, .inl ⟨_, List.mem_cons_self, rfl⟩⟩

end Example.WireTx

end Verif
