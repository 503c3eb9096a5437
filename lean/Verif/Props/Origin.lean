import Verif.Lemmas.Origin
/-! C80, and the converses of C47 and C78: nothing reaches a socket that was not in the received frames. -/
namespace Verif
open Spec

theorem Udp.sound {f : Bytes} {dlen ps : Nat} {u : Udp.Hdr} (H : Udp.parse f dlen ps = .ok none) (hr : Udp.read f = .ok u) :
    inetCksum (f.take dlen) ps = 0 ∧ dlen ≤ f.length ∧ IsUdp (f.take dlen) u.sport u.dport u.data ∧ u.sport ≠ 0 ∧ u.dport ≠ 0 := by
  rw [Udp.parse] at H
  by_cases h0 : inetCksum (f.take dlen) ps ≠ 0
  · simp [h0] at H
  by_cases h1 : ¬ (8 ≤ dlen ∧ dlen ≤ f.length)
  · simp [h0, h1] at H
  simp only [Decidable.not_not] at h0 h1
  have b0 := u16_be (f := f) (i := 0) (by omega)
  have b2 := u16_be (f := f) (i := 2) (by omega)
  have b4 := u16_be (f := f) (i := 4) (by omega)
  simp only [h0, h1, Udp.sport, Udp.dport, b0, b2, b4, py_ok_bind, py_pure, ne_eq, not_true, if_false, and_self, and_true] at H
  simp only [Udp.read, Udp.sport, Udp.dport, Udp.plen, Udp.data, b0, b2, b4, py_ok_bind, py_pure] at hr
  have hr := Except.ok.inj hr
  subst hr
  split at H
  · cases H
  rename_i h2
  simp only [Decidable.not_not] at h2
  split at H
  · cases H
  rename_i h3
  split at H
  · cases H
  rename_i h4
  have r : ∀ i k, i + k ≤ 8 → be (f.take dlen) i k = be f i k := fun i k h => be_take _ _ _ _ (by omega)
  have hl : (f.take dlen).length = dlen := by rw [List.length_take]; omega
  exact ⟨h0, h1.2, ⟨by omega, by rw [r 4 2 (by omega), hl]; exact h2.2, r 0 2 (by omega), r 2 2 (by omega), by rw [slice, h2.2]⟩, h3, h4⟩

theorem Tcp.sound {f : Bytes} {dlen ps : Nat} {h : Tcp.Hdr} (H : Tcp.parse f dlen ps = .ok none) (hr : Tcp.read f dlen = .ok h) :
    inetCksum (f.take dlen) ps = 0 ∧ dlen ≤ f.length ∧ 20 ≤ be (f.take dlen) 12 1 / 16 * 4 ∧
      be (f.take dlen) 12 1 / 16 * 4 ≤ (f.take dlen).length ∧ ¬ OddTcp (f.take dlen) ∧
      ∀ ip : Rx.IpHdr, Rx.tcpMd ip h = { segment ip.src ip.dst (f.take dlen) [] with
        mss := (Rx.tcpMd ip h).mss, wscale := (Rx.tcpMd ip h).wscale } := by
  rw [Tcp.parse] at H
  cases hi : Tcp.integrity f dlen ps with
  | error e => rw [hi] at H; simp at H
  | ok r =>
  cases r with
  | some e => simp only [hi, py_ok_bind] at H; cases hh : Tcp.hlen f <;> simp [hh] at H
  | none =>
  simp only [hi, py_ok_bind] at H
  cases hs : Tcp.sanity f with
  | error e => rw [hs] at H; simp at H
  | ok r =>
  cases r with
  | some e => simp only [hs, py_ok_bind] at H; cases hh : Tcp.hlen f <;> simp [hh] at H
  | none =>
  clear H
  rw [Tcp.integrity] at hi
  by_cases h0 : inetCksum (f.take dlen) ps ≠ 0
  · simp [h0] at hi
  by_cases h1 : ¬ (20 ≤ dlen ∧ dlen ≤ f.length)
  · simp [h0, h1] at hi
  simp only [Decidable.not_not] at h0 h1
  have hl : (f.take dlen).length = dlen := by rw [List.length_take]; omega
  have r : ∀ i k, i + k ≤ 20 → be f i k = be (f.take dlen) i k := fun i k h => (be_take _ _ _ _ (by omega)).symm
  have b0 : u16 f 0 = .ok (be (f.take dlen) 0 2) := by rw [u16_be (by omega), r _ _ (by omega)]
  have b2 : u16 f 2 = .ok (be (f.take dlen) 2 2) := by rw [u16_be (by omega), r _ _ (by omega)]
  have b4 : u32 f 4 = .ok (be (f.take dlen) 4 4) := by rw [u32_be (by omega), r _ _ (by omega)]
  have b8 : u32 f 8 = .ok (be (f.take dlen) 8 4) := by rw [u32_be (by omega), r _ _ (by omega)]
  have b12 : idx f 12 = .ok (be (f.take dlen) 12 1) := by rw [idx_be (by omega), r _ _ (by omega)]
  have b13 : idx f 13 = .ok (be (f.take dlen) 13 1) := by rw [idx_be (by omega), r _ _ (by omega)]
  have b14 : u16 f 14 = .ok (be (f.take dlen) 14 2) := by rw [u16_be (by omega), r _ _ (by omega)]
  have b18 : u16 f 18 = .ok (be (f.take dlen) 18 2) := by rw [u16_be (by omega), r _ _ (by omega)]
  generalize hp : f.take dlen = p at *
  have hlt := be_lt p 12 1
  have hh : (be p 12 1 &&& 0b11110000) >>> 2 = be p 12 1 / 16 * 4 := by
    rw [show (0b11110000 : Nat) = 2 ^ 8 - 2 ^ 4 from rfl, and_high (by omega) (by omega), Nat.shiftRight_eq_div_pow]
    omega
  have hhl : Tcp.hlen f = .ok (be p 12 1 / 16 * 4) := by simp only [Tcp.hlen, b12, py_ok_bind, py_pure, hh]
  simp only [h0, h1, b12, hh, py_ok_bind, py_pure, ne_eq, not_true, if_false, and_self, and_true] at hi
  split at hi
  · cases hi
  rename_i h2
  simp only [Decidable.not_not] at h2
  have f0 : Tcp.flagFin f = .ok (bit p 13 0) := by simp only [Tcp.flagFin, b13, py_ok_bind, py_pure]; exact congrArg _ (bit_eq _ 0)
  have f1 : Tcp.flagSyn f = .ok (bit p 13 1) := by simp only [Tcp.flagSyn, b13, py_ok_bind, py_pure]; exact congrArg _ (bit_eq _ 1)
  have f2 : Tcp.flagRst f = .ok (bit p 13 2) := by simp only [Tcp.flagRst, b13, py_ok_bind, py_pure]; exact congrArg _ (bit_eq _ 2)
  have f3 : Tcp.flagPsh f = .ok (bit p 13 3) := by simp only [Tcp.flagPsh, b13, py_ok_bind, py_pure]; exact congrArg _ (bit_eq _ 3)
  have f4 : Tcp.flagAck f = .ok (bit p 13 4) := by simp only [Tcp.flagAck, b13, py_ok_bind, py_pure]; exact congrArg _ (bit_eq _ 4)
  have f5 : Tcp.flagUrg f = .ok (bit p 13 5) := by simp only [Tcp.flagUrg, b13, py_ok_bind, py_pure]; exact congrArg _ (bit_eq _ 5)
  refine ⟨h0, h1.2, by omega, by omega, ?_, fun ip => ?_⟩
  · simp only [Tcp.sanity, Tcp.sport, b0, Tcp.dport, b2, f0, f1, f2, f4, f5, Tcp.ack, b8, Tcp.urg, b18, py_ok_bind, py_pure] at hs
    simp only [OddTcp]
    repeat' (split at hs; · cases hs)
    simp_all
  · cases ho : Tcp.options f with
    | error e =>
      simp only [Tcp.read, hhl, Tcp.sport, b0, Tcp.dport, b2, Tcp.seq, b4, Tcp.ack, b8, Tcp.flags, Tcp.flagNs, b12, Tcp.flagCrw, b13,
        Tcp.flagEce, f0, f1, f2, f3, f4, f5, Tcp.win, b14, Tcp.urg, b18, ho, py_ok_bind, py_pure] at hr
      cases hr
    | ok xs =>
      simp only [Tcp.read, hhl, Tcp.sport, b0, Tcp.dport, b2, Tcp.seq, b4, Tcp.ack, b8, Tcp.flags, Tcp.flagNs, b12, Tcp.flagCrw, b13,
        Tcp.flagEce, f0, f1, f2, f3, f4, f5, Tcp.win, b14, Tcp.urg, b18, ho, py_ok_bind, py_pure] at hr
      have hr := Except.ok.inj hr
      subst hr
      simp only [Rx.tcpMd, segment]
      congr 1
      rw [slice_of_take hp]

/-- What a frame does, when it is neither ARP nor ICMP: it hands UDP or TCP a payload the frames brought. -/
theorem transport_origin {past : List Bytes} {n n' : Node} {t₀ t₁ : Int} {d : Nat} {F : Bytes} {l : List Eff} (hn : Received past n)
    (H : Rx.ether n t₀ t₁ d F = (n', .ok l)) (hl : ∃ x ∈ l, (∃ r m, x = .udpDeliver r m) ∨ (∃ r m, x = .tcpDeliver r m) ∨ ∃ a b s, x = .txTcp a b s) :
    ∃ (m : Node) (ip : Rx.IpHdr) (f : Bytes), m.socks = n.socks ∧ TakenBy n ip.dst ∧ 
      ((Rx.udp m ip f = .ok l ∧ (ip.dlen ≤ f.length → inetCksum (f.take ip.dlen) ip.pshdrSum = 0 → Brought (past ++ [F]) ip.src ip.dst 17 (f.take ip.dlen))) ∨
       (Rx.tcp m ip f = .ok l ∧ (ip.dlen ≤ f.length → inetCksum (f.take ip.dlen) ip.pshdrSum = 0 → Brought (past ++ [F]) ip.src ip.dst 6 (f.take ip.dlen)))) := by
  have hF : F ∈ past ++ [F] := by simp
  have hs : ∀ G ∈ past, G ∈ past ++ [F] := fun G hG => by simp [hG]
  obtain ⟨i4, i6⟩ := hn.inv
  have i4 := i4.mono hs
  have i6 := i6.mono hs
  obtain ⟨x, hx, hk⟩ := hl
  rcases ether_inv H with rfl | ⟨e, he, ht, ha⟩ | ⟨m, h, f, m1, m2, m3, ⟨e, g, he, ht, hg, hgr, hf⟩, hd⟩ |
      ⟨m, h, m1, m2, m3, ⟨e, g, he, ht, hg, hgp, hgr⟩, hli, hd⟩
  · cases hx
  · exfalso
    rw [Rx.arp] at ha
    cases hp : Arp.parse e.data with
    | error e => simp [hp] at ha
    | ok y =>
    cases y with
    | some s => simp [hp] at ha; subst ha; cases hx
    | none =>
    cases hr : Arp.read e.data with
    | error e => simp [hp, hr] at ha
    | ok h =>
    simp only [hp, hr, py_ok_bind, py_pure] at ha
    repeat' split at ha
    all_goals
      have ha := Except.ok.inj ha
      subst ha
      simp at hx
    all_goals try rcases hx with rfl | rfl
    all_goals simp_all
  · obtain ⟨f1, f2, f3⟩ := ether_fields he.1 he.2.1
    rw [f3] at hg
    obtain ⟨a1, a2, a3⟩ := (ip4_made (t₀ := t₀) (t₁ := t₁) i4 hF (by rw [← f2, ht])).2 g h hg hgr
    obtain ⟨b1, b2, b3⟩ := Ip4.sound a1 hgr
    obtain ⟨-, -, -, -, c1, c2⟩ := Ip4.frag a1 hgr
    have hf : f = h.rest := by
      rcases hf with ⟨-, h⟩ | ⟨⟨s, h⟩, -⟩
      · exact h
      · rw [a1] at h; cases h
    subst hf
    have hp : h.proto < 256 := by rw [← b1.hasProto]; exact be_lt _ 9 1
    have hb : inetCksum (h.rest.take h.dlen) h.pshdrSum = 0 → Brought (past ++ [F]) (.v4 h.src) (.v4 h.dst) h.proto (h.rest.take h.dlen) := by
      intro hck
      exact .v4 a3 ((pseudoHdr4_iff h.src h.dst (by omega) hp (by omega) (by rw [← b2]; exact c1)).1.mp hck)
    rcases ip4Dispatch_effs hd with rfl | ⟨h1, h2⟩ | ⟨h1, h2⟩ | ⟨h1, h2⟩
    · cases hx
    · exfalso
      rcases icmp4_effs h2 with rfl | ⟨r, rfl⟩ | ⟨c, id, seq, data, -, -, rfl⟩ <;> simp at hx <;> subst hx <;> simp at hk
    · exact ⟨m, Rx.ofIp4 h, h.rest, m2, a2, .inl ⟨h2, fun _ hck => h1 ▸ hb hck⟩⟩
    · exact ⟨m, Rx.ofIp4 h, h.rest, m2, a2, .inr ⟨h2, fun _ hck => h1 ▸ hb hck⟩⟩
  · obtain ⟨f1, f2, f3⟩ := ether_fields he.1 he.2.1
    rw [f3] at hg
    have a3 := gives6_made hg i6 (.frame F hF (by rw [← f2, ht]))
    obtain ⟨b1, b2, b3, c1⟩ := Ip6.sound hgp hgr
    have hp : h.next < 256 := by rw [← b1.hasNext]; exact be_lt _ 6 1
    have hb : inetCksum (h.rest.take h.dlen) h.pshdrSum = 0 → Brought (past ++ [F]) (.v6 h.src) (.v6 h.dst) h.next (h.rest.take h.dlen) := by
      intro hck
      rw [b2, List.take_length] at hck ⊢
      exact .v6 a3 b1 ((pseudoHdr6_iff h.src h.dst hp (by omega) c1).1.mp hck)
    rcases hd with ⟨h1, h2⟩ | ⟨h1, h2⟩ | ⟨h1, h2⟩
    · exfalso
      rcases icmp6_effs h2 with rfl | ⟨-, ⟨r, rfl⟩ | ⟨a, b, c, d, e, g, o, -, rfl⟩ | ⟨t, o, -, rfl⟩ | ⟨a, b, c, t, o, -, rfl⟩ | ⟨id, seq, data, -, rfl⟩⟩
      · cases hx
      · simp at hx; subst hx; simp at hk
      · simp at hx; subst hx; simp at hk
      · rw [Rx.neighborSolicitation] at hx
        repeat' split at hx
        all_goals simp at hx
        all_goals try rcases hx with rfl | rfl
        all_goals simp_all
      · rw [Rx.neighborAdvertisement] at hx
        repeat' split at hx
        all_goals simp at hx
        all_goals simp_all
      · simp at hx; subst hx; simp at hk
    · exact ⟨m, Rx.ofIp6 h, h.rest, m2, hli, .inl ⟨h2, fun _ hck => h1 ▸ hb hck⟩⟩
    · exact ⟨m, Rx.ofIp6 h, h.rest, m2, hli, .inr ⟨h2, fun _ hck => h1 ▸ hb hck⟩⟩

/-- C80, UDP (the converse of `C47_wire`): after any frames and any history of socket calls, whatever datagram a frame makes the stack
give a socket, that is all it does; the frames so far brought such a UDP datagram, with these ports and this data, for an address of the
stack; and the socket is the most specific one. -/
theorem C80_udp {past : List Bytes} {hist : List (Spec.Env × Spec.Op)} {n n' : Node} {t₀ t₁ : Int} {d : Nat} {F : Bytes} {l : List Eff}
    {r : Nat} {m : UdpMd} (hn : Received past n) (hs : n.socks = (Spec.run hist).1) (H : Rx.ether n t₀ t₁ d F = (n', .ok l))
    (hx : .udpDeliver r m ∈ l) :
    l = [.udpDeliver r m] ∧ MostSpecific n.socks m r ∧ TakenBy n m.lip ∧
    ∃ p, Brought (past ++ [F]) m.rip m.lip 17 p ∧ IsUdp p m.rport m.lport m.data ∧ m.rport ≠ 0 ∧ m.lport ≠ 0 := by
  obtain ⟨k, ip, f, h1, h2, ⟨h3, h4⟩ | ⟨h3, h4⟩⟩ := transport_origin hn H ⟨_, hx, .inl ⟨_, _, rfl⟩⟩
  · rw [Rx.udp] at h3
    cases hp : Udp.parse f ip.dlen ip.pshdrSum with
    | error e => simp [hp] at h3
    | ok y =>
    cases y with
    | some s => simp [hp] at h3; subst h3; cases hx
    | none =>
    cases hr : Udp.read f with
    | error e => simp [hp, hr] at h3
    | ok u =>
    simp only [hp, hr, py_ok_bind, py_pure] at h3
    obtain ⟨s1, s2, s3, s4, s5⟩ := Udp.sound hp hr
    split at h3
    · rename_i r' hm
      have h3 := Except.ok.inj h3
      subst h3
      simp at hx
      obtain ⟨rfl, rfl⟩ := hx
      rw [h1] at hm
      exact ⟨rfl, (match_spec (by rw [hs]; exact Socks.run_wf hist) _).1 _ hm, h2, _, h4 s2 s1, s3, s4, s5⟩
    · split at h3
      · have h3 := Except.ok.inj h3; subst h3; cases hx
      · have h3 := Except.ok.inj h3
        subst h3
        rw [Rx.portUnreachable] at hx
        split at hx <;> simp at hx
  · rcases tcp_effs h3 with rfl | ⟨_, _, rfl⟩ | ⟨_, rfl⟩ <;> simp at hx

theorem tcp_origin {past : List Bytes} {n n' : Node} {t₀ t₁ : Int} {d : Nat} {F : Bytes} {l : List Eff} (hn : Received past n)
    (H : Rx.ether n t₀ t₁ d F = (n', .ok l)) (hl : ∃ x ∈ l, (∃ r m, x = .tcpDeliver r m) ∨ ∃ a b s, x = .txTcp a b s) :
    ∃ (ip : Rx.IpHdr) (h : Tcp.Hdr) (p : Bytes), Brought (past ++ [F]) ip.src ip.dst 6 p ∧ TakenBy n ip.dst ∧
      20 ≤ be p 12 1 / 16 * 4 ∧ be p 12 1 / 16 * 4 ≤ p.length ∧ ¬ OddTcp p ∧
      Rx.tcpMd ip h = { segment ip.src ip.dst p [] with mss := (Rx.tcpMd ip h).mss, wscale := (Rx.tcpMd ip h).wscale } ∧
      (∀ opts, IsTcp p opts → Rx.tcpMd ip h = segment ip.src ip.dst p opts) ∧
      ((∃ r, Rx.tcpMatch n.socks (Rx.tcpMd ip h) = some r ∧ l = [.tcpDeliver r (Rx.tcpMd ip h)]) ∨
       (Rx.tcpMatch n.socks (Rx.tcpMd ip h) = none ∧ l = [.txTcp ip.dst ip.src (Rx.resetFor h)])) := by
  obtain ⟨x, hx, hk⟩ := hl
  obtain ⟨k, ip, f, h1, h2, ⟨h3, h4⟩ | ⟨h3, h4⟩⟩ := transport_origin hn H ⟨x, hx, .inr hk⟩
  · exfalso
    rcases udp_effs h3 with rfl | ⟨_, _, rfl⟩ | rfl
    · cases hx
    · simp at hx; subst hx; simp at hk
    · rw [Rx.portUnreachable] at hx
      split at hx <;> simp at hx <;> subst hx <;> simp at hk
  · rw [Rx.tcp] at h3
    cases hp : Tcp.parse f ip.dlen ip.pshdrSum with
    | error e => simp [hp] at h3
    | ok y =>
    cases y with
    | some s => simp [hp] at h3; subst h3; cases hx
    | none =>
    cases hr : Tcp.read f ip.dlen with
    | error e => simp [hp, hr] at h3
    | ok h =>
    simp only [hp, hr, py_ok_bind, py_pure] at h3
    obtain ⟨s1, s2, s3, s4, s5, s6⟩ := Tcp.sound hp hr
    refine ⟨ip, h, f.take ip.dlen, h4 s2 s1, h2, s3, s4, s5, s6 ip, fun opts ho => ?_, ?_⟩
    · have hl : (f.take ip.dlen).length = ip.dlen := by rw [List.length_take]; omega
      obtain ⟨-, h', a1, a2⟩ := Tcp.accept (f := f) (p := f.take ip.dlen) (ps := ip.pshdrSum) (by rw [hl]) (by omega) s1 ho s5
      rw [hl] at a1
      have := Except.ok.inj (a1.symm.trans hr)
      subst this
      exact a2 ip
    · rw [h1] at h3
      split at h3
      · rename_i r hm; exact .inl ⟨r, hm, (Except.ok.inj h3).symm⟩
      · rename_i hm; exact .inr ⟨hm, (Except.ok.inj h3).symm⟩

/-- C80, TCP (the converse of `C78_wire`): after any frames and any history of socket calls, whatever segment a frame makes the stack give
a socket, that is all it does; the frames so far brought a TCP segment for an address of the stack with these fields and this data; and the
socket is the one it belongs to.  (When the options are not well formed nothing is said about the window scale and the MSS.) -/
theorem C80_tcp {past : List Bytes} {hist : List (Spec.Env × Spec.Op)} {n n' : Node} {t₀ t₁ : Int} {d : Nat} {F : Bytes} {l : List Eff}
    {r : Nat} {m : TcpMd} (hn : Received past n) (hs : n.socks = (Spec.run hist).1) (H : Rx.ether n t₀ t₁ d F = (n', .ok l))
    (hx : .tcpDeliver r m ∈ l) :
    l = [.tcpDeliver r m] ∧ Belongs n.socks m r ∧ TakenBy n m.lip ∧
    ∃ p, Brought (past ++ [F]) m.rip m.lip 6 p ∧ 20 ≤ be p 12 1 / 16 * 4 ∧ be p 12 1 / 16 * 4 ≤ p.length ∧ ¬ OddTcp p ∧
      m = { segment m.rip m.lip p [] with mss := m.mss, wscale := m.wscale } ∧
      ∀ opts, IsTcp p opts → m = segment m.rip m.lip p opts := by
  obtain ⟨ip, h, p, h1, h2, h3, h4, h5, h6, h7, ⟨r', hm, rfl⟩ | ⟨hm, rfl⟩⟩ := tcp_origin hn H ⟨_, hx, .inl ⟨_, _, rfl⟩⟩
  · simp at hx
    obtain ⟨rfl, rfl⟩ := hx
    exact ⟨rfl, tcpMatch_some (by rw [hs]; exact Socks.run_wf hist) hm, h2, p, h1, h3, h4, h5, h6, h7⟩
  · simp at hx

/-- C80, resets: the stack answers a frame with a TCP segment only when the frames brought a TCP segment that no socket takes; the answer
goes where that came from, and it acknowledges it. -/
theorem C80_reset {past : List Bytes} {hist : List (Spec.Env × Spec.Op)} {n n' : Node} {t₀ t₁ : Int} {d : Nat} {F : Bytes} {l : List Eff}
    {a b : IpAddress} {x : Tcp.Tx} (hn : Received past n) (hs : n.socks = (Spec.run hist).1) (H : Rx.ether n t₀ t₁ d F = (n', .ok l))
    (hx : .txTcp a b x ∈ l) :
    l = [.txTcp a b x] ∧ TakenBy n a ∧
    ∃ p m, Brought (past ++ [F]) b a 6 p ∧ 20 ≤ be p 12 1 / 16 * 4 ∧ be p 12 1 / 16 * 4 ≤ p.length ∧ ¬ OddTcp p ∧
      m = { segment b a p [] with mss := m.mss, wscale := m.wscale } ∧
      (∀ r s, Registered n.socks r s → ¬ TakesSegment s.id m) ∧
      x = { sport := be p 2 2, dport := be p 0 2, seq := 0,
            ack := be p 4 4 + (if bit p 13 1 then 1 else 0) + (if bit p 13 0 then 1 else 0) + (p.length - be p 12 1 / 16 * 4),
            flags := { rst := true, ack := true }, win := 0, urp := 0, options := [], data := [] } := by
  obtain ⟨ip, h, p, h1, h2, h3, h4, h5, h6, h7, ⟨r', hm, rfl⟩ | ⟨hm, rfl⟩⟩ := tcp_origin hn H ⟨_, hx, .inr ⟨_, _, _, rfl⟩⟩
  · simp at hx
  · simp at hx
    obtain ⟨rfl, rfl, rfl⟩ := hx
    refine ⟨rfl, h2, p, _, h1, h3, h4, h5, h6, tcpMatch_none_only hm, ?_⟩
    have e1 : h.dport = be p 2 2 := congrArg TcpMd.lport h6
    have e2 : h.sport = be p 0 2 := congrArg TcpMd.rport h6
    have e3 : h.seq = be p 4 4 := congrArg TcpMd.seq h6
    have e4 : h.flags.syn = bit p 13 1 := congrArg TcpMd.syn h6
    have e5 : h.flags.fin = bit p 13 0 := congrArg TcpMd.fin h6
    have e6 : h.data = p.drop (be p 12 1 / 16 * 4) := congrArg TcpMd.data h6
    simp only [Rx.resetFor, e1, e2, e3, e4, e5, e6, List.length_drop, Bool.toNat]
    cases bit p 13 1 <;> cases bit p 13 0 <;> rfl

namespace Example.Origin
open Example.Rx

/-- A frame from 10.0.1.9 to the stack at 10.0.1.7 with identification 5, and these flags and offset (in units of eight bytes). -/
def piece (len flags off proto ck₁ ck₂ : UInt8) (p : Bytes) : Bytes :=
  [2, 0, 0, 0, 0, 7,  2, 0, 0, 0, 0, 9,  8, 0,  0x45, 0, 0, len,  0, 5, flags, off,  64, proto, ck₁, ck₂,  10, 0, 1, 9,  10, 0, 1, 7] ++ p
/-- The two fragments of a datagram from port 5353 to port 53 with data 1, ..., 10. -/
def first : Bytes := piece 36 0x20 0 17 68 181 [20, 233, 0, 53, 0, 18, 187, 126, 1, 2, 3, 4, 5, 6, 7, 8]
def last : Bytes := piece 22 0 2 17 100 193 [9, 10]
/-- The second one, but as a part of an ICMP message. -/
def lastIcmp : Bytes := piece 22 0 2 1 100 209 [9, 10]

def calls : List (Spec.Env × Spec.Op) :=
  let e : Spec.Env := ⟨Example.stack, ⟨fun _ _ => none, fun _ _ => none⟩⟩
  [(e, .socket .inet4 .dgram), (e, .bind 0 (some (.v4 .zero)) 53 0)]
/-- The stack with a UDP socket bound to port 53, before and after the first fragment. -/
def node₀ : Node := { node with socks := (Spec.run calls).1, flows4 := [], flows6 := [] }
def node₁ : Node := (Rx.ether node₀ 0 0 0 first).1

def delivers (x : Py (List Eff)) : Bool :=
  match x with
  | .ok [.udpDeliver 0 m] => m.rip == .v4 peer4 && m.lip == .v4 Example.host4.address && m.rport == 5353 && m.lport == 53 &&
      m.data == [1, 2, 3, 4, 5, 6, 7, 8, 9, 10]
  | _ => false

theorem delivers_spec {x : Py (List Eff)} (h : delivers x = true) : ∃ l r m, x = .ok l ∧ .udpDeliver r m ∈ l := by
  unfold delivers at h
  split at h
  · exact ⟨_, _, _, rfl, List.mem_singleton_self _⟩
  · cases h

theorem received₁ : Received [first] node₁ := .frame (past := []) 0 0 0 first (.start node₀ rfl rfl) rfl rfl
theorem delivered : delivers (Rx.ether node₁ 0 0 0 last).2 = true := by decide +kernel

/-- The hypotheses of `C80_udp` are met by the second fragment of a datagram. -/
example : ∃ l r m, Received [first] node₁ ∧ node₁.socks = (Spec.run calls).1 ∧ (Rx.ether node₁ 0 0 0 last).2 = .ok l ∧ .udpDeliver r m ∈ l :=
  let ⟨l, r, m, h1, h2⟩ := delivers_spec delivered
  ⟨l, r, m, received₁, rfl, h1, h2⟩

theorem mixed : delivers (Rx.ether node₁ 0 0 0 lastIcmp).2 = true := by decide +kernel

def tcpNode : Node :=
  let e : Spec.Env := ⟨Example.stack, ⟨fun _ _ => none, fun _ _ => none⟩⟩
  { node with socks := (Spec.run [(e, .socket .inet4 .stream), (e, .bind 0 (some (.v4 .zero)) 80 0)]).1, flows4 := [], flows6 := [] }
/-- The hypotheses of `C80_tcp`, with the segment of `Example.Wire.syn`; and those of `C80_reset`, without the socket. -/
example : ∃ l r m, Received [] tcpNode ∧ (Rx.ether tcpNode 0 0 0 (Example.Wire.frame4 48 6 100 180 Example.Wire.syn)).2 = .ok l ∧
    .tcpDeliver r m ∈ l := by
  have h : (match (Rx.ether tcpNode 0 0 0 (Example.Wire.frame4 48 6 100 180 Example.Wire.syn)).2 with
    | .ok [.tcpDeliver _ _] => true | _ => false) = true := by decide +kernel
  split at h
  · rename_i r m h1; exact ⟨_, r, m, .start _ rfl rfl, h1, by simp⟩
  · cases h
example : ∃ l a b x, Received [] node₀ ∧ (Rx.ether node₀ 0 0 0 (Example.Wire.frame4 48 6 100 180 Example.Wire.syn)).2 = .ok l ∧
    .txTcp a b x ∈ l := by
  have h : (match (Rx.ether node₀ 0 0 0 (Example.Wire.frame4 48 6 100 180 Example.Wire.syn)).2 with
    | .ok [.txTcp _ _ _] => true | _ => false) = true := by decide +kernel
  split at h
  · rename_i a b x h1; exact ⟨_, a, b, x, .start _ rfl rfl, h1, by simp⟩
  · cases h

end Example.Origin

/-- The bytes of a delivered UDP datagram need not have been in UDP packets: RFC 791 has the protocol among what identifies the
datagram a fragment belongs to, but here a fragment of an ICMP message completes a UDP datagram. -/
theorem C80_mixed : ∃ (past : List Bytes) (hist : List (Spec.Env × Spec.Op)) (n : Node) (F : Bytes) (l : List Eff) (r : Nat) (m : UdpMd),
    Received past n ∧ n.socks = (Spec.run hist).1 ∧ (Rx.ether n 0 0 0 F).2 = .ok l ∧ .udpDeliver r m ∈ l ∧
    ∃ b ∈ m.data, ∀ G ∈ past ++ [F], be (G.drop 14) 0 1 = 0x45 ∧ (be (G.drop 14) 9 1 = 17 → b ∉ G.drop 34) := by
  have h := Example.Origin.mixed
  unfold Example.Origin.delivers at h
  split at h
  · rename_i m hm
    simp only [Bool.and_eq_true, beq_iff_eq] at h
    refine ⟨[Example.Origin.first], Example.Origin.calls, Example.Origin.node₁, Example.Origin.lastIcmp, _, 0, m, Example.Origin.received₁,
      rfl, hm, by simp, 9, by rw [h.2]; decide, ?_⟩
    decide +kernel
  · cases h

end Verif
