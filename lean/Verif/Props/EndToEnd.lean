import Verif.Lemmas.EndToEnd6
import Verif.Props.Rx
/-! C70: a UDP datagram from one stack to another. -/
namespace Verif
open Spec

/-- What the receiving stack makes of a datagram in transit. -/
theorem Transit4.received (T : Transit4) {n : Node} {outs : List Outgoing} (depth : Nat) (xs : List (Option Nat × Arrival))
    (hl : Listens4 n T.dst) (hlen : outs.length = T.fs.length) (hid : ∀ o ∈ outs, ∀ h, Ip4Of o h → IsFrag4 h → h.id = T.id)
    (hnew : n.flows4.get? T.key = none) (hclock : ClockOk n (xs.map (·.2)))
    (hkey : (∃ o ∈ outs, ∃ h, Ip4Of o h ∧ IsFrag4 h ∧ h.src = T.a ∧ h.dst = T.dst ∧ h.id = T.id) ∨ 65536 ≤ T.id)
    (houts : ∀ (i : Nat) o, outs[i]? = some o → ∃ h, Ip4Of o h ∧ h.src = T.a ∧ h.dst = T.dst ∧ h.proto = 17 ∧
        (IsFrag4 h → h.id = T.id) ∧ T.fs[i]? = some h.piece ∧ ∃ F, o.frame = .ok F ∧ ∀ n, MacForUs n o.dst → Carries4 n o F)
    (hx : ∀ x ∈ xs, Possible4 n outs x) :
    (∀ (j i : Nat) x b res, xs[j]? = some (some i, x) → (completions outs.length [] (xs.map (·.1)))[j]? = some b →
      (receiveAll depth n (xs.map (·.2)))[j]? = some res → T.Out b x res) ∧
    (T.d.length ≤ 65515 →
      (∀ (j : Nat) x res, xs[j]? = some (none, x) → (receiveAll depth n (xs.map (·.2)))[j]? = some res →
        ∃ effs, res = .ok effs) →
      (receiveAll depth n (xs.map (·.2))).length = xs.length) := by
  have hP : ∀ x ∈ xs, T.P n x.1 x.2 := by
    rintro ⟨tag, x⟩ hxm
    obtain ⟨hh, hp⟩ := hx _ hxm
    cases tag with
    | some i =>
      obtain ⟨o, ho, h, h', ⟨b, hb, hbr⟩, k1, k2, k3, k4, k5, k6, k7, k8⟩ := hp
      obtain ⟨g, ⟨b', hb', hbr'⟩, g1, g2, g3, g4, g5, -⟩ := houts i o ho
      rw [hb] at hb'
      cases hb'
      rw [hbr] at hbr'
      cases hbr'
      refine ⟨hh, h', k1, k2.trans g1, k3.trans g2, k5.trans g3, ?_, ?_⟩
      · intro hf
        rw [k4]
        exact g4 (by rw [IsFrag4, ← k6, ← k7]; exact hf)
      · rw [g5, Ip4.Hdr.piece, Ip4.Hdr.piece, k6, k7, k8]
    | none =>
      intro h' H hf
      rcases hkey with ⟨o, ho, h, h1, h2, h3, h4, h5⟩ | hbig
      · have := hp h' H hf o ho h h1 h2
        rw [h3, h4, h5] at this
        exact this
      · intro e
        obtain ⟨e', -, -, -, hr⟩ := H
        have := Ip4.read_id hr
        simp only [Transit4.key, Prod.mk.injEq] at e
        omega
  -- a time before everything that follows
  have hI : ∀ t, (∀ e ∈ n.flows4, e.2.timestamp ≤ t) → T.Inv n n [] t := by
    intro t ht
    refine ⟨⟨rfl, rfl⟩, ht, ?_, [], SameGot.nil _, ?_, by simp⟩
    · intro hc
      have := T.fs_ne
      have := hc 0 (List.length_pos_iff.mpr this)
      simp at this
    · rw [Frag.TracksAt, hnew]
  cases hxs : xs with
  | nil => simp [receiveAll]
  | cons x₀ xs' =>
    obtain ⟨hc1, hc2, -⟩ := hclock
    have hfirst : ∀ x ∈ xs, x₀.2.t₀ ≤ x.2.t₀ := by
      intro x hxm
      rw [hxs] at hc1 hxm
      rw [List.map_cons, List.flatMap_cons, List.pairwise_append] at hc1
      rcases List.mem_cons.mp hxm with rfl | hxm
      · omega
      · exact hc1.2.2 _ (by simp) _ (List.mem_flatMap.mpr ⟨x.2, List.mem_map_of_mem hxm, by simp⟩)
    have := receive_engine depth T.fs.length (T.Inv n) (T.P n) T.Out (T.hours n hl depth) (T.other n depth) xs n [] x₀.2.t₀
      (hI _ (fun e he => hc2 e he x₀.2 (by rw [hxs]; simp))) hP hc1 hfirst
    rw [hlen, ← hxs]
    refine ⟨this.1, fun hle hfor => this.2 ?_ hfor⟩
    intro x b res ho
    cases b with
    | false => exact ⟨[], ho⟩
    | true =>
      obtain ⟨h1, -⟩ := ho
      obtain ⟨h1, h2⟩ := h1 hle
      by_cases hv : Verifies T.ps T.d
      · rcases h1 hv with ⟨r, -, hr⟩ | ⟨-, e, hr, -⟩
        · exact ⟨_, hr⟩
        · exact ⟨_, hr⟩
      · exact ⟨_, h2 hv⟩

/-! ### What follows for an application -/

theorem count_one {l : List Bool} (h : l.count true = 1) :
    ∃ j : Nat, l[j]? = some true ∧ ∀ j' : Nat, j' ≠ j → l[j']? ≠ some true := by
  induction l with
  | nil => simp at h
  | cons b l ih =>
    rw [List.count_cons] at h
    cases b with
    | true =>
      simp only [beq_self_eq_true, if_true] at h
      have h0 : true ∉ l := List.count_eq_zero.mp (by omega)
      refine ⟨0, rfl, ?_⟩
      intro j' hj' he
      cases j' with
      | zero => exact hj' rfl
      | succ j' => exact h0 (List.mem_of_getElem? (by simpa using he))
    | false =>
      simp only [Bool.false_eq_true, if_false, Nat.add_zero, beq_iff_eq] at h
      obtain ⟨j, h1, h2⟩ := ih (by simpa using h)
      refine ⟨j + 1, by simpa using h1, ?_⟩
      intro j' hj' he
      cases j' with
      | zero => simp at he
      | succ j' => exact h2 j' (by omega) (by simpa using he)

/-- C70: if every packet arrives at least once, all arrivals are handled, and some socket takes the datagram whenever one of its
packets arrives, then it is delivered to the most specific one. -/
theorem C70_delivered {n : Node} {depth count : Nat} {xs : List (Option Nat × Arrival)} {m : UdpMd} (hc : 0 < count)
    (hh : Handled count (Outcome m) n depth xs) (ha : AllHandled n depth xs) (hall : ∀ j < count, some j ∈ xs.map (·.1))
    (hs : ∀ x ∈ xs, x.1.isSome → ¬ NoSocket x.2.socks m) :
    ∃ j i : Nat, ∃ x r, xs[j]? = some (some i, x) ∧ MostSpecific x.socks m r ∧
      (receiveAll depth n (xs.map (·.2)))[j]? = some (.ok [.udpDeliver r m]) := by
  obtain ⟨j, i, h1, h2⟩ := completions_true count hc [] (xs.map (·.1)) (fun j hj => .inr (hall j hj))
    (fun h => by have := h 0 hc; simp at this)
  rw [List.getElem?_map, Option.map_eq_some_iff] at h1
  obtain ⟨⟨tag, x⟩, hx, ht⟩ := h1
  simp only at ht
  subst ht
  obtain ⟨hl, -⟩ := List.getElem?_eq_some_iff.mp hx
  obtain ⟨res, hres⟩ : ∃ res, (receiveAll depth n (xs.map (·.2)))[j]? = some res :=
    ⟨_, List.getElem?_eq_getElem (by rw [ha]; exact hl)⟩
  rcases hh j i x true res hx h2 hres with ⟨r, hr, e⟩ | ⟨hn, -⟩
  · exact ⟨j, i, x, r, hx, hr, by rw [hres, e]⟩
  · exact absurd hn (hs _ (List.mem_of_getElem? hx) rfl)

/-- C70: if every packet arrives exactly once, in any order, the datagram is delivered exactly once. -/
theorem C70_delivered_once {n : Node} {depth count : Nat} {xs : List (Option Nat × Arrival)} {m : UdpMd} (hc : 0 < count)
    (hh : Handled count (Outcome m) n depth xs) (ha : AllHandled n depth xs)
    (hall : ((xs.map (·.1)).filterMap id).Perm (List.range count))
    (hs : ∀ x ∈ xs, x.1.isSome → ¬ NoSocket x.2.socks m) :
    ∃ j i : Nat, ∃ x r, xs[j]? = some (some i, x) ∧ MostSpecific x.socks m r ∧
      (receiveAll depth n (xs.map (·.2)))[j]? = some (.ok [.udpDeliver r m]) ∧
      ∀ (j' i' : Nat) x', j' ≠ j → xs[j']? = some (some i', x') → (receiveAll depth n (xs.map (·.2)))[j']? = some (.ok []) := by
  have hne : (xs.map (·.1)).filterMap id ≠ [] := by
    intro h
    rw [h] at hall
    have := hall.length_eq
    simp at this
    omega
  have hone := completions_once count [] (xs.map (·.1)) (by rw [List.nil_append]; exact hall) hne
  obtain ⟨j, i, x, r, hx, hr, he⟩ := C70_delivered hc hh ha (by
    intro j hj
    have := (hall.mem_iff (a := j)).mpr (by simpa using hj)
    simpa using this) hs
  refine ⟨j, i, x, r, hx, hr, he, ?_⟩
  obtain ⟨k, hk, huniq⟩ := count_one hone
  have hb : ∀ j' < xs.length, ∃ b, (completions count [] (xs.map (·.1)))[j']? = some b := by
    intro j' hj'
    exact ⟨_, List.getElem?_eq_getElem (by rw [completions_length]; simpa using hj')⟩
  have hjk : j = k := by
    apply Classical.byContradiction
    intro hjk
    obtain ⟨b, hb⟩ := hb j (List.getElem?_eq_some_iff.mp hx).1
    have hbf : b = false := by
      cases b with
      | false => rfl
      | true => exact absurd hb (huniq j hjk)
    subst hbf
    have := hh j i x false _ hx hb he
    simp [Outcome] at this
  subst hjk
  intro j' i' x' hj' hx'
  have hl := (List.getElem?_eq_some_iff.mp hx').1
  obtain ⟨b, hb⟩ := hb j' hl
  have hbf : b = false := by
    cases b with
    | false => rfl
    | true => exact absurd hb (huniq j' hj')
  subst hbf
  obtain ⟨res, hres⟩ : ∃ res, (receiveAll depth n (xs.map (·.2)))[j']? = some res :=
    ⟨_, List.getElem?_eq_getElem (by rw [ha]; exact hl)⟩
  have := hh j' i' x' false res hx' hb hres
  rw [hres, this]

/-- C70: a delivered datagram is at the end of the socket's queue, and `recvfrom` returns its payload and the sender's address
and port once those before it have been taken. -/
theorem C70_recvfrom (ss : Socks) (r : Nat) (s : Sock) (m : UdpMd) (hs : ss.socks[r]? = some s) :
    (∃ s', (Eff.onSocks ss (.udpDeliver r m)).socks[r]? = some s' ∧ s'.queue = s.queue ++ [m]) ∧
    ∀ (ss' : Socks) s' q, ss'.socks[r]? = some s' → s'.queue = m :: q → (ss'.recvfrom r).2 = .ok (m.data, m.rip, m.rport) := by
  refine ⟨?_, ?_⟩
  · obtain ⟨hl, -⟩ := List.getElem?_eq_some_iff.mp hs
    exact ⟨{ s with queue := s.queue ++ [m] }, by rw [Eff.onSocks, Socks.deliver, hs]; simp [Socks.put, hl], rfl⟩
  · intro ss' s' q h1 h2
    simp [Socks.recvfrom, h1, h2]

/-! ### Sending over IPv4 -/

/-- The receiver's side of C70 for what the IPv4 layer queued. -/
theorem arrival4 {st st' : Stack} {arp : Nat → ArpLookup} {src dst : Ip4Address} {sport dport : Nat} {data : Bytes}
    {outs : List Outgoing} (hmtu : 28 ≤ st.mtu) (hmtu' : st.mtu < 65536) (hord : ∀ h ∈ st.ip4Host, OrdinarySource4 h.address)
    (hs : 0 < sport ∧ sport < 65536) (hd : 0 < dport ∧ dport < 65536)
    (h : phtxIp4 st arp src dst 64 { Udp.carried sport dport data with kind := .udp sport dport } =
      (st', .ok (.passedEtherToTxRing, outs))) :
    ∃ a d, validateSrcIp4 st src dst (.udp sport dport) = .ok a ∧ 0 < outs.length ∧ IsDatagram sport dport data d ∧
      (∀ o ∈ outs, ∃ F, o.frame = .ok F ∧ ∀ n, MacForUs n o.dst → Carries4 n o F) ∧
      (data.length ≤ 65507 → Valid (pseudo4 a dst d.length ++ d) → EveryArrival4 outs dst (fun n depth xs =>
        Handled outs.length (Outcome ⟨.v4 dst, dport, .v4 a, sport, data⟩) n depth xs ∧ (OthersFine n depth xs → AllHandled n depth xs))) ∧
      (data.length ≤ 65507 → ¬ Valid (pseudo4 a dst d.length ++ d) → EveryArrival4 outs dst (fun n depth xs =>
        Handled outs.length (fun _ _ res => res = .ok []) n depth xs ∧ (OthersFine n depth xs → AllHandled n depth xs))) ∧
      (65507 < data.length → EveryArrival4 outs dst (fun n depth xs =>
        Handled outs.length (fun b _ res => res = if b then .error .structError else .ok []) n depth xs)) := by
  have hord' : ∀ a ∈ st.ip4Unicast, OrdinarySource4 a := by
    intro a ha
    obtain ⟨h, hm, rfl⟩ := List.mem_map.mp ha
    exact hord h hm
  -- the datagram does not depend on the number chosen for packets without identification
  have key : ∀ n : Node, Fresh4 n outs → ∃ T : Transit4, T.dst = dst ∧ T.sport = sport ∧ T.dport = dport ∧ T.data = data ∧
      validateSrcIp4 st src dst (.udp sport dport) = .ok T.a ∧ outs.length = T.fs.length ∧ n.flows4.get? T.key = none ∧
      ((∃ o ∈ outs, ∃ h, Ip4Of o h ∧ IsFrag4 h ∧ h.src = T.a ∧ h.dst = T.dst ∧ h.id = T.id) ∨ 65536 ≤ T.id) ∧
      (∀ (i : Nat) o, outs[i]? = some o → ∃ h, Ip4Of o h ∧ h.src = T.a ∧ h.dst = T.dst ∧ h.proto = 17 ∧
        (IsFrag4 h → h.id = T.id) ∧ T.fs[i]? = some h.piece ∧ ∃ F, o.frame = .ok F ∧ ∀ n, MacForUs n o.dst → Carries4 n o F) := by
    intro n hn
    obtain ⟨id₀, hge, hun⟩ := unused_id n
    obtain ⟨T, t1, t2, t3, t4, t5, t6, t7, t8⟩ := sent4 hmtu hmtu' hord' hs hd h id₀
    rw [← t1] at t7 t8
    refine ⟨T, t1, t2, t3, t4, t5, t6, ?_, ?_, t8⟩
    · rcases t7 with e | ⟨o, ho, g, g1, g2, g3, g4, g5⟩
      · rw [Transit4.key, e]; exact hun _ _
      · have := hn o ho g g1 g2
        rw [g3, g4, g5] at this
        exact this
    · rcases t7 with e | h
      · exact .inr (by omega)
      · exact .inl h
  obtain ⟨T₀, z1, z2, z3, z4, z5, z6, -, z7⟩ := sent4 hmtu hmtu' hord' hs hd h 0
  have hsame : ∀ T : Transit4, T.dst = dst → T.sport = sport → T.dport = dport → T.data = data →
      validateSrcIp4 st src dst (.udp sport dport) = .ok T.a → T.a = T₀.a ∧ T.ps = T₀.ps ∧ T.d = T₀.d := by
    intro T e1 e2 e3 e4 e5
    have ha : T.a = T₀.a := by rw [z5] at e5; exact (Except.ok.inj e5).symm
    have hp := T.hps
    rw [ha, e1, e4, ← z1, ← z4, T₀.hps] at hp
    have hp := Except.ok.inj hp
    have hd := T.hd
    rw [e2, e3, e4, ← z2, ← z3, ← z4, ← hp, T₀.hd] at hd
    exact ⟨ha, hp.symm, (Except.ok.inj hd).symm⟩
  have hlen := T₀.dlen
  rw [z4] at hlen
  have hval : Verifies T₀.ps T₀.d ↔ Valid (pseudo4 T₀.a dst T₀.d.length ++ T₀.d) := by
    have := (pshdr4 T₀.hps).2.2 T₀.d (by have := T₀.hlen; rw [T₀.dlen]; omega)
    rw [this, ← T₀.dlen, z1]
  have hdg := (udp_bytes T₀.hd).2.2
  rw [z2, z3, z4] at hdg
  have main : EveryArrival4 outs dst (fun n depth xs =>
      Handled outs.length (fun b socks res => T₀.Out b ⟨0, 0, [], socks⟩ res) n depth xs ∧
      (T₀.d.length ≤ 65515 → OthersFine n depth xs → AllHandled n depth xs)) := by
    intro n depth xs hl hf hc hx
    obtain ⟨T, t1, t2, t3, t4, t5, t6, t7, t8, t9⟩ := key n hf
    obtain ⟨s1, s2, s3⟩ := hsame T t1 t2 t3 t4 t5
    have hout : ∀ b x res, T.Out b x res → T₀.Out b ⟨0, 0, [], x.socks⟩ res := by
      intro b x res ho
      cases b with
      | false => exact ho
      | true =>
        have hm : T.md = T₀.md := by rw [Transit4.md, Transit4.md, t1, t2, t3, t4, s1, z1, z2, z3, z4]
        simp only [Transit4.Out, s2, s3, hm] at ho
        exact ho
    obtain ⟨r1, r2⟩ := T.received depth xs (by rw [t1]; exact hl) t6 (by
      intro o ho h hof hfr
      obtain ⟨i, hi⟩ := List.mem_iff_getElem?.mp ho
      obtain ⟨g, ⟨b, hb, hbr⟩, -, -, -, g4, -⟩ := t9 i o hi
      obtain ⟨b', hb', hbr'⟩ := hof
      rw [hb] at hb'; cases hb'
      rw [hbr] at hbr'; cases hbr'
      exact g4 hfr) t7 hc t8 t9 hx
    refine ⟨fun j i x b res h1 h2 h3 => hout _ _ _ (r1 j i x b res h1 h2 h3), ?_⟩
    intro hle hfine
    exact r2 (by rw [s3]; exact hle) hfine
  refine ⟨T₀.a, T₀.d, z5, by rw [z6]; exact List.length_pos_iff.mpr T₀.fs_ne, hdg, ?_, ?_, ?_, ?_⟩
  · intro o ho
    obtain ⟨i, hi⟩ := List.mem_iff_getElem?.mp ho
    obtain ⟨-, -, -, -, -, -, -, g⟩ := z7 i o hi
    exact g
  · intro hle hv n depth xs hl hf hc hx
    obtain ⟨m1, m2⟩ := main n depth xs hl hf hc hx
    refine ⟨?_, m2 (by omega)⟩
    intro j i x b res h1 h2 h3
    have := m1 j i x b res h1 h2 h3
    cases b with
    | false => exact this
    | true =>
      have hmd : T₀.md = ⟨.v4 dst, dport, .v4 T₀.a, sport, data⟩ := by rw [Transit4.md, z1, z2, z3, z4]
      have := (this.1 (by omega)).1 (hval.mpr hv)
      rw [hmd] at this
      exact this
  · intro hle hv n depth xs hl hf hc hx
    obtain ⟨m1, m2⟩ := main n depth xs hl hf hc hx
    refine ⟨?_, m2 (by omega)⟩
    intro j i x b res h1 h2 h3
    have := m1 j i x b res h1 h2 h3
    cases b with
    | false => exact this
    | true => exact (this.1 (by omega)).2 (fun h => hv (hval.mp h))
  · intro hgt n depth xs hl hf hc hx
    obtain ⟨m1, m2⟩ := main n depth xs hl hf hc hx
    intro j i x b res h1 h2 h3
    have := m1 j i x b res h1 h2 h3
    cases b with
    | false => exact this
    | true => exact this.2 (by omega)

/-- The source of a datagram: one of the stack's addresses (or none, for a DHCP client), and the one asked for, if that is an
ordinary address of the stack. -/
def SourceIs4 (st : Stack) (asked : IpAddress) (sport dport : Nat) (a : Ip4Address) : Prop :=
  ((∃ h ∈ st.ip4Host, h.address = a) ∨ (a = .zero ∧ sport = 68 ∧ dport = 67)) ∧
  ∀ x, asked = .v4 x → (∃ h ∈ st.ip4Host, h.address = x) → x ∉ st.ip4Multicast → (∀ h ∈ st.ip4Host, h.network.broadcast ≠ .ok x) →
    x ≠ .limitedBroadcast → x ≠ .zero → a = x

theorem sourceIs4 {st : Stack} {src dst a : Ip4Address} {sport dport : Nat}
    (h : validateSrcIp4 st src dst (.udp sport dport) = .ok a) :
    ((∃ h ∈ st.ip4Host, h.address = a) ∨ (a = .zero ∧ sport = 68 ∧ dport = 67)) ∧
    ((∃ h ∈ st.ip4Host, h.address = src) → src ∉ st.ip4Multicast → (∀ h ∈ st.ip4Host, h.network.broadcast ≠ .ok src) →
      src ≠ .limitedBroadcast → src ≠ .zero → a = src) := by
  constructor
  · rcases validateSrcIp4_owned h with h | ⟨h1, -, h3⟩
    · left
      obtain ⟨x, hx, e⟩ := List.mem_map.mp h
      exact ⟨x, hx, e⟩
    · right
      simp only [L4Kind.udp.injEq] at h3
      exact ⟨h1, h3.1, h3.2⟩
  · intro h1 h2 h3 h4 h5
    obtain ⟨x, hx, e⟩ := h1
    have hu : src ∈ st.ip4Unicast := List.mem_map.mpr ⟨x, hx, e⟩
    have hb : src ∉ st.ip4Broadcast := by
      rw [mem_ip4Broadcast]
      rintro (e | ⟨y, hy, e⟩)
      · exact h4 e
      · exact h3 y hy e
    have hl : ¬ src.isLimitedBroadcast = true := fun e => h4 ((Ip4Address.isLimitedBroadcast_iff _).mp e)
    have hz : ¬ src.isUnspecified = true := fun e => h5 ((Ip4Address.isUnspecified_iff _).mp e)
    rw [validateSrcIp4, if_neg (by simp [hu]), if_neg h2, if_neg hl] at h
    simp only [if_neg hb, if_neg hz, Except.ok.injEq] at h
    exact h.symm

/-- What a `sendto` that returned did. -/
theorem sendto_sent {st st' : Stack} {l : Socks.Links} {ss ss' : Socks} {r : Nat} {data : Bytes} {rip : IpAddress}
    {port : Int} {choice k : Nat} {outs : List Outgoing}
    (h : ss.sendto st l r data (some rip) port choice = (ss', st', .ok (k, outs))) :
    ∃ s lip res, ss'.socks[r]? = some s ∧ 1 ≤ s.id.lport ∧ s.id.lport < 65536 ∧ 0 ≤ port ∧ port < 65536 ∧
      (s.id.lip.isUnspecified = false → lip = s.id.lip) ∧ phtxUdp st l lip rip s.id.lport port.toNat data = (st', res) ∧
      Socks.sentLen data res = .ok (k, outs) := by
  -- from a bound socket on
  have fin : ∀ (ss₁ : Socks) (s : Sock), r < ss₁.socks.length → 1 ≤ s.id.lport → s.id.lport < 65536 → 0 ≤ port → port < 65536 →
      (match Socks.setIpAddresses st s (some rip) s.id.lip s.id.lport port.toNat with
        | (u, .error e) => (ss₁.put r { s with unreachable := u }, st, (.error e : Py (Nat × List Outgoing)))
        | (u, .ok (lip, rip)) =>
          let (st', res) := phtxUdp st l lip rip s.id.lport port.toNat data
          (ss₁.put r { s with unreachable := u }, st', Socks.sentLen data res)) = (ss', st', .ok (k, outs)) →
      ∃ s lip res, ss'.socks[r]? = some s ∧ 1 ≤ s.id.lport ∧ s.id.lport < 65536 ∧ 0 ≤ port ∧ port < 65536 ∧
        (s.id.lip.isUnspecified = false → lip = s.id.lip) ∧ phtxUdp st l lip rip s.id.lport port.toNat data = (st', res) ∧
        Socks.sentLen data res = .ok (k, outs) := by
    intro ss₁ s hr p1 p2 p3 p4 hh
    split at hh
    · simp at hh
    · rename_i u lip rip' hset
      have hset' : rip' = rip ∧ (s.id.lip.isUnspecified = false → lip = s.id.lip) := by
        simp only [Socks.setIpAddresses] at hset
        repeat' split at hset
        all_goals simp only [Prod.mk.injEq, Except.ok.injEq, reduceCtorEq, and_false] at hset
        all_goals
          obtain ⟨-, h1, h2⟩ := hset
          refine ⟨h2.symm, ?_⟩
          intro hu
          simp_all
      obtain ⟨rfl, hlip⟩ := hset'
      cases hq : phtxUdp st l lip rip' s.id.lport port.toNat data with | mk q1 q2 => ?_
      rw [hq] at hh
      simp only [Prod.mk.injEq] at hh
      obtain ⟨h1, rfl, h3⟩ := hh
      refine ⟨{ s with unreachable := u }, lip, q2, ?_, p1, p2, p3, p4, hlip, hq, h3⟩
      rw [← h1]; simp [Socks.put, hr]
  rw [Socks.sendto] at h
  split at h
  · simp at h
  · rename_i s hs
    obtain ⟨hl, -⟩ := List.getElem?_eq_some_iff.mp hs
    split at h
    · simp at h
    · rename_i hp
      by_cases hb : 1 ≤ s.id.lport ∧ s.id.lport < 65536
      · simp only [if_pos hb] at h
        exact fin ss s hl hb.1 hb.2 (by omega) (by omega) h
      · simp only [if_neg hb] at h
        cases hpk : Socks.pickLocalPort { ss with table := ss.table.erase s.id } choice with
        | error e => rw [hpk] at h; simp at h
        | ok p =>
          rw [hpk] at h
          simp only at h
          obtain ⟨q1, q2⟩ : 1 ≤ p ∧ p < 65536 := by
            unfold Socks.pickLocalPort at hpk
            dsimp only at hpk
            split at hpk
            · rename_i q hq
              cases hpk
              have := List.mem_of_getElem? hq
              rw [List.mem_filter] at this
              have := this.1
              rw [Socks.ephemeral, List.mem_map] at this
              obtain ⟨i, hi, rfl⟩ := this
              rw [List.mem_range] at hi
              omega
            · simp at hpk
          exact fin _ _ (by simp [Socks.register, hl]) q1 q2 (by omega) (by omega) h

/-- A datagram that fits one packet is queued only with the status that says so. -/
theorem small_passed4 {st st' : Stack} {arp : Nat → ArpLookup} {src dst : Ip4Address} {ttl : Nat} {c : L4} {s : TxStatus}
    {outs : List Outgoing} (h : phtxIp4 st arp src dst ttl c = (st', .ok (s, outs))) (hle : 20 + c.len ≤ st.mtu) (hne : outs ≠ []) :
    s = .passedEtherToTxRing := by
  rw [phtxIp4] at h
  split at h
  · simp at h
  · split at h
    · simp only [Prod.mk.injEq, Except.ok.injEq] at h; exact absurd h.2.2.symm hne
    · split at h
      · simp only [Prod.mk.injEq, Except.ok.injEq] at h; exact absurd h.2.2.symm hne
      · rename_i a _ _ b _
        have hh : (packetTx a b ttl c.proto).hlen = 20 := by rw [Ip4.Tx.hlen_eq]; rfl
        simp only at h
        split at h
        · simp at h
        · rw [hh, if_pos hle] at h
          simp only [Prod.mk.injEq] at h
          rcases phtxEther_pkt h.2 with ⟨h1, -⟩ | ⟨-, h1⟩
          · exact h1
          · exact absurd h1 hne

/-- C70: if `sendto` says that it sent the payload, then the packets it queued carry one datagram from the socket's port and one of
the stack's addresses (the socket's own, if it is bound to an ordinary one).  Whatever the network does with the packets, at
every stack that listens to the destination each arrival that completes the datagram delivers it to the most specific socket
that takes it, with payload, address and port as sent, no other arrival does, and none of them raises.  (On a single link the
network carries each queued frame to every stack that takes its link-layer address.)

Partial: this holds if the UDP checksum that was written verifies (see C02 for when it does not: then nothing is delivered, see
`C70_checksum_witness`) and the payload has at most 65507 bytes (a longer one, which the sender accepts, kills the receiver's
receive thread). -/
theorem C70_ip4_sendto_partial {st st' : Stack} {l : Socks.Links} {ss ss' : Socks} {r : Nat} {data : Bytes} {dst : Ip4Address}
    {port : Int} {choice : Nat} {outs : List Outgoing} (hmtu : 28 ≤ st.mtu) (hmtu' : st.mtu < 65536)
    (hord : ∀ h ∈ st.ip4Host, OrdinarySource4 h.address) (hport : port ≠ 0)
    (h : ss.sendto st l r data (some (.v4 dst)) port choice = (ss', st', .ok (data.length, outs))) (hout : outs ≠ []) :
    ∃ s a d, ss'.socks[r]? = some s ∧ 0 < s.id.lport ∧ SourceIs4 st s.id.lip s.id.lport port.toNat a ∧ 0 < outs.length ∧
      IsDatagram s.id.lport port.toNat data d ∧
      (∀ o ∈ outs, ∃ F, o.frame = .ok F ∧ ∀ n, MacForUs n o.dst → Carries4 n o F) ∧
      (data.length ≤ 65507 → Valid (pseudo4 a dst d.length ++ d) → EveryArrival4 outs dst (fun n depth xs =>
        Handled outs.length (Outcome ⟨.v4 dst, port.toNat, .v4 a, s.id.lport, data⟩) n depth xs ∧
        (OthersFine n depth xs → AllHandled n depth xs))) ∧
      (data.length ≤ 65507 → ¬ Valid (pseudo4 a dst d.length ++ d) → EveryArrival4 outs dst (fun n depth xs =>
        Handled outs.length (fun _ _ res => res = .ok []) n depth xs ∧ (OthersFine n depth xs → AllHandled n depth xs))) ∧
      (65507 < data.length → EveryArrival4 outs dst (fun n depth xs =>
        Handled outs.length (fun b _ res => res = if b then .error .structError else .ok []) n depth xs)) := by
  obtain ⟨s, lip, res, h1, h2, h3, h4, h5, h6, h7, h8⟩ := sendto_sent h
  rw [phtxUdp, if_neg (by omega)] at h7
  cases lip with
  | v6 x => simp only [Prod.mk.injEq] at h7; rw [← h7.2, Socks.sentLen] at h8; simp at h8; exact absurd h8.2 hout
  | v4 src =>
    simp only at h7
    have hpass : res = .ok (.passedEtherToTxRing, outs) := by
      refine sendto_passed h8 hout ?_
      intro s' os e1 e2 e3
      rw [e1] at h7
      exact small_passed4 h7 (by rw [e2]; simpa [Udp.carried] using hmtu) e3
    rw [hpass] at h7
    obtain ⟨a, d, ha, hl, hdg, c0, c1, c2, c3⟩ := arrival4 hmtu hmtu' hord ⟨by omega, h3⟩ ⟨by omega, by omega⟩ h7
    obtain ⟨s1, s2⟩ := sourceIs4 ha
    refine ⟨s, a, d, h1, by omega, ⟨s1, ?_⟩, hl, hdg, c0, c1, c2, c3⟩
    intro x hx k1 k2 k3 k4 k5
    have hu : s.id.lip.isUnspecified = false := by
      rw [hx, Bool.eq_false_iff]
      intro e
      exact k5 ((Ip4Address.isUnspecified_iff _).mp e)
    have := h6 hu
    rw [hx] at this
    cases this
    exact s2 k1 k2 k3 k4 k5

/-- C70 for `send` on a connected socket. -/
theorem C70_ip4_send_partial {st st' : Stack} {l : Socks.Links} {ss ss' : Socks} {r : Nat} {s : Sock} {data : Bytes}
    {dst : Ip4Address} {outs : List Outgoing} (hmtu : 28 ≤ st.mtu) (hmtu' : st.mtu < 65536)
    (hord : ∀ h ∈ st.ip4Host, OrdinarySource4 h.address) (hs : ss.socks[r]? = some s) (hdst : s.id.rip = .v4 dst)
    (hl : 0 < s.id.lport) (h : ss.send st l r data = (ss', st', .ok (data.length, outs))) (hout : outs ≠ []) :
    ∃ a d, SourceIs4 st s.id.lip s.id.lport s.id.rport a ∧ 0 < outs.length ∧ IsDatagram s.id.lport s.id.rport data d ∧
      (∀ o ∈ outs, ∃ F, o.frame = .ok F ∧ ∀ n, MacForUs n o.dst → Carries4 n o F) ∧
      (data.length ≤ 65507 → Valid (pseudo4 a dst d.length ++ d) → EveryArrival4 outs dst (fun n depth xs =>
        Handled outs.length (Outcome ⟨.v4 dst, s.id.rport, .v4 a, s.id.lport, data⟩) n depth xs ∧
        (OthersFine n depth xs → AllHandled n depth xs))) ∧
      (data.length ≤ 65507 → ¬ Valid (pseudo4 a dst d.length ++ d) → EveryArrival4 outs dst (fun n depth xs =>
        Handled outs.length (fun _ _ res => res = .ok []) n depth xs ∧ (OthersFine n depth xs → AllHandled n depth xs))) ∧
      (65507 < data.length → EveryArrival4 outs dst (fun n depth xs =>
        Handled outs.length (fun b _ res => res = if b then .error .structError else .ok []) n depth xs)) := by
  rw [Socks.send, hs] at h
  dsimp only at h
  split at h
  · simp at h
  · rename_i hr
    split at h
    · simp at h
    · cases hq : phtxUdp st l s.id.lip s.id.rip s.id.lport s.id.rport data with | mk q1 q2 => ?_
      rw [hq] at h
      simp only [Prod.mk.injEq] at h
      obtain ⟨-, rfl, h8⟩ := h
      rw [phtxUdp] at hq
      split at hq
      · simp only [Prod.mk.injEq] at hq
        rw [← hq.2, Socks.sentLen] at h8
        simp at h8
      · rename_i hpo
        rw [hdst] at hq
        cases hlip : s.id.lip with
        | v6 x =>
          rw [hlip] at hq
          simp only [Prod.mk.injEq] at hq
          rw [← hq.2, Socks.sentLen] at h8; simp at h8; exact absurd h8.2 hout
        | v4 src =>
          rw [hlip] at hq
          simp only at hq
          have hpass : q2 = .ok (.passedEtherToTxRing, outs) := by
            refine sendto_passed h8 hout ?_
            intro s' os e1 e2 e3
            rw [e1] at hq
            exact small_passed4 hq (by rw [e2]; simpa [Udp.carried] using hmtu) e3
          rw [hpass] at hq
          obtain ⟨a, d, ha, hlen, hdg, c0, c1, c2, c3⟩ := arrival4 hmtu hmtu' hord ⟨hl, by omega⟩ ⟨by omega, by omega⟩ hq
          obtain ⟨s1, s2⟩ := sourceIs4 ha
          refine ⟨a, d, ⟨s1, ?_⟩, hlen, hdg, c0, c1, c2, c3⟩
          intro x hx
          cases hx
          exact s2

/-! ### Over IPv6 -/

/-- What the receiving stack makes of a datagram in transit. -/
theorem Transit6.received (T : Transit6) {n : Node} {outs : List Outgoing} (depth : Nat) (hdep : 0 < depth)
    (xs : List (Option Nat × Arrival)) (hl : Listens6 n T.dst) (hlen : outs.length = T.fs.length)
    (hnew : n.flows6.get? T.key = none) (hclock : ClockOk n (xs.map (·.2)))
    (hkey : (∃ o ∈ outs, ∃ h x, Ip6Of o h ∧ IsFrag6 h x ∧ h.src = T.a ∧ h.dst = T.dst ∧ x.id = T.id) ∨ 2 ^ 32 ≤ T.id)
    (houts : ∀ (i : Nat) o, outs[i]? = some o → ∃ h, Ip6Of o h ∧ h.src = T.a ∧ h.dst = T.dst ∧ h.dlen = h.rest.length ∧
        ((T.frag = false ∧ i = 0 ∧ h.next = 17 ∧ h.rest = T.d) ∨
         (∃ x, IsFrag6 h x ∧ x.next = 17 ∧ x.id = T.id ∧ T.fs[i]? = some x.piece)) ∧
        ∃ F, o.frame = .ok F ∧ ∀ n, MacForUs n o.dst → Carries6 n o F)
    (hx : ∀ x ∈ xs, Possible6 n outs x) :
    (∀ (j i : Nat) x b res, xs[j]? = some (some i, x) → (completions outs.length [] (xs.map (·.1)))[j]? = some b →
      (receiveAll depth n (xs.map (·.2)))[j]? = some res → T.Out b x res) ∧
    ((∀ (j : Nat) x res, xs[j]? = some (none, x) → (receiveAll depth n (xs.map (·.2)))[j]? = some res →
        ∃ effs, res = .ok effs) →
      (receiveAll depth n (xs.map (·.2))).length = xs.length) := by
  have hP : ∀ x ∈ xs, T.P n x.1 x.2 := by
    rintro ⟨tag, x⟩ hxm
    obtain ⟨hh, hp⟩ := hx _ hxm
    cases tag with
    | some i =>
      obtain ⟨o, ho, h, h', ⟨b, hb, hbr⟩, k1, k2, k3, k4, k5⟩ := hp
      obtain ⟨g, ⟨b', hb', hbr'⟩, g1, g2, g0, g3, -⟩ := houts i o ho
      rw [hb] at hb'
      cases hb'
      rw [hbr] at hbr'
      cases hbr'
      refine ⟨hh, h', k1, k2.trans g1, k3.trans g2, ?_⟩
      rcases g3 with ⟨g3, g4, g5, g6⟩ | ⟨y, ⟨y1, y2, y3⟩, y4⟩
      · exact .inl ⟨g3, g4, k4.trans g5, k5.trans g6⟩
      · refine .inr ⟨y, ⟨k4.trans y1, by rw [k5]; exact y2, ?_⟩, y4⟩
        obtain ⟨e, -, -, q1, q2⟩ := k1
        rw [(Ip6.parsed_fields q1 q2).1, k5, ← y3, g0]
    | none =>
      intro h' y H hf
      obtain ⟨hne, hp⟩ := hp h' y H hf
      refine ⟨hne, ?_⟩
      rcases hkey with ⟨o, ho, h, x', h1, h2, h3, h4, h5⟩ | hbig
      · have := hp o ho h x' h1 h2
        rw [h3, h4, h5] at this
        exact this
      · intro e
        have := Ip6Frag.read_id hf.2.2
        simp only [Transit6.key, Prod.mk.injEq] at e
        omega
  have hI : ∀ t, (∀ e ∈ n.flows6, e.2.timestamp ≤ t) → T.Inv n n [] t := by
    intro t ht
    refine ⟨⟨rfl, rfl⟩, ht, ?_, [], SameGot.nil _, ?_, by simp⟩
    · intro hc
      have := T.fs_ne
      have := hc 0 (List.length_pos_iff.mpr this)
      simp at this
    · rw [Frag.TracksAt, hnew]
  cases hxs : xs with
  | nil => simp [receiveAll]
  | cons x₀ xs' =>
    obtain ⟨hc1, -, hc2⟩ := hclock
    have hfirst : ∀ x ∈ xs, x₀.2.t₀ ≤ x.2.t₀ := by
      intro x hxm
      rw [hxs] at hc1 hxm
      rw [List.map_cons, List.flatMap_cons, List.pairwise_append] at hc1
      rcases List.mem_cons.mp hxm with rfl | hxm
      · omega
      · exact hc1.2.2 _ (by simp) _ (List.mem_flatMap.mpr ⟨x.2, List.mem_map_of_mem hxm, by simp⟩)
    have := receive_engine depth T.fs.length (T.Inv n) (T.P n) T.Out (T.hours n hl depth hdep) (T.other n depth) xs n [] x₀.2.t₀
      (hI _ (fun e he => hc2 e he x₀.2 (by rw [hxs]; simp))) hP hc1 hfirst
    rw [hlen, ← hxs]
    refine ⟨this.1, fun hfor => this.2 ?_ hfor⟩
    intro x b res ho
    cases b with
    | false => exact ⟨[], ho⟩
    | true =>
      obtain ⟨h1, h2⟩ := ho
      by_cases hv : Verifies T.ps T.d
      · rcases h1 hv with ⟨r, -, hr⟩ | ⟨-, e, hr, -⟩
        · exact ⟨_, hr⟩
        · exact ⟨_, hr⟩
      · exact ⟨_, h2 hv⟩

/-- The receiver's side of C70 for what the IPv6 layer queued. -/
theorem arrival6 {st st' : Stack} {nd : Nat → NdLookup} {src dst : Ip6Address} {sport dport : Nat} {data : Bytes}
    {outs : List Outgoing} (hp : st.PlainIp6) (hmtu : 56 ≤ st.mtu) (hmtu' : st.mtu < 65536)
    (hmul : ∀ h ∈ st.ip6Host, h.address.isMulticast = false) (hids : st.ip6Id + 1 < 2 ^ 32)
    (hs : 0 < sport ∧ sport < 65536) (hd : 0 < dport ∧ dport < 65536)
    (h : phtxIp6 st nd src dst 64 { Udp.carried sport dport data with kind := .udp sport dport } =
      (st', .ok (.passedEtherToTxRing, outs))) :
    ∃ a d, validateSrcIp6 st src dst (.udp sport dport) = .ok a ∧ 0 < outs.length ∧ IsDatagram sport dport data d ∧
      (∀ o ∈ outs, ∃ F, o.frame = .ok F ∧ ∀ n, MacForUs n o.dst → Carries6 n o F) ∧
      (Valid (pseudo6 a dst d.length ++ d) → EveryArrival6 outs dst (fun n depth xs =>
        Handled outs.length (Outcome ⟨.v6 dst, dport, .v6 a, sport, data⟩) n depth xs ∧ (OthersFine n depth xs → AllHandled n depth xs))) ∧
      (¬ Valid (pseudo6 a dst d.length ++ d) → EveryArrival6 outs dst (fun n depth xs =>
        Handled outs.length (fun _ _ res => res = .ok []) n depth xs ∧ (OthersFine n depth xs → AllHandled n depth xs))) := by
  have hmul' : ∀ a ∈ st.ip6Unicast, a.isMulticast = false := by
    intro a ha
    obtain ⟨h, hm, rfl⟩ := List.mem_map.mp ha
    exact hmul h hm
  have key : ∀ n : Node, Fresh6 n outs → ∃ T : Transit6, T.dst = dst ∧ T.sport = sport ∧ T.dport = dport ∧ T.data = data ∧
      validateSrcIp6 st src dst (.udp sport dport) = .ok T.a ∧ outs.length = T.fs.length ∧ n.flows6.get? T.key = none ∧
      ((∃ o ∈ outs, ∃ h x, Ip6Of o h ∧ IsFrag6 h x ∧ h.src = T.a ∧ h.dst = T.dst ∧ x.id = T.id) ∨ 2 ^ 32 ≤ T.id) ∧
      (∀ (i : Nat) o, outs[i]? = some o → ∃ h, Ip6Of o h ∧ h.src = T.a ∧ h.dst = T.dst ∧ h.dlen = h.rest.length ∧
        ((T.frag = false ∧ i = 0 ∧ h.next = 17 ∧ h.rest = T.d) ∨
         (∃ x, IsFrag6 h x ∧ x.next = 17 ∧ x.id = T.id ∧ T.fs[i]? = some x.piece)) ∧
        ∃ F, o.frame = .ok F ∧ ∀ n, MacForUs n o.dst → Carries6 n o F) := by
    intro n hn
    obtain ⟨id₀, hge, hun⟩ := unused_id6 n
    obtain ⟨T, t1, t2, t3, t4, t5, t6, t7, t8⟩ := sent6 hp hmtu hmtu' hmul' hids hs hd h id₀
    rw [← t1] at t7 t8
    refine ⟨T, t1, t2, t3, t4, t5, t6, ?_, ?_, t8⟩
    · rcases t7 with ⟨-, e⟩ | ⟨-, o, ho, g, x, g1, g2, g3, g4, g5⟩
      · rw [Transit6.key, e]; exact hun _ _
      · have := hn o ho g x g1 g2
        rw [g3, g4, g5] at this
        exact this
    · rcases t7 with ⟨-, e⟩ | ⟨-, h⟩
      · exact .inr (by omega)
      · exact .inl h
  obtain ⟨T₀, z1, z2, z3, z4, z5, z6, -, z7⟩ := sent6 hp hmtu hmtu' hmul' hids hs hd h 0
  have hsame : ∀ T : Transit6, T.dst = dst → T.sport = sport → T.dport = dport → T.data = data →
      validateSrcIp6 st src dst (.udp sport dport) = .ok T.a → T.a = T₀.a ∧ T.ps = T₀.ps ∧ T.d = T₀.d := by
    intro T e1 e2 e3 e4 e5
    have ha : T.a = T₀.a := by rw [z5] at e5; exact (Except.ok.inj e5).symm
    have hp := T.hps
    rw [ha, e1, e4, ← z1, ← z4, T₀.hps] at hp
    have hp := Except.ok.inj hp
    have hd := T.hd
    rw [e2, e3, e4, ← z2, ← z3, ← z4, ← hp, T₀.hd] at hd
    exact ⟨ha, hp.symm, (Except.ok.inj hd).symm⟩
  have hval : Verifies T₀.ps T₀.d ↔ Valid (pseudo6 T₀.a dst T₀.d.length ++ T₀.d) := by
    have := (pshdr6 T₀.hlen T₀.hps).2 T₀.d (by have := T₀.hlen; rw [T₀.dlen]; omega)
    rw [this, ← T₀.dlen, z1]
  have hdg := (udp_bytes T₀.hd).2.2
  rw [z2, z3, z4] at hdg
  have main : EveryArrival6 outs dst (fun n depth xs =>
      Handled outs.length (fun b socks res => T₀.Out b ⟨0, 0, [], socks⟩ res) n depth xs ∧
      (OthersFine n depth xs → AllHandled n depth xs)) := by
    intro n depth xs hdep hl hf hc hx
    obtain ⟨T, t1, t2, t3, t4, t5, t6, t7, t8, t9⟩ := key n hf
    obtain ⟨s1, s2, s3⟩ := hsame T t1 t2 t3 t4 t5
    have hout : ∀ b x res, T.Out b x res → T₀.Out b ⟨0, 0, [], x.socks⟩ res := by
      intro b x res ho
      cases b with
      | false => exact ho
      | true =>
        have hm : T.md = T₀.md := by rw [Transit6.md, Transit6.md, t1, t2, t3, t4, s1, z1, z2, z3, z4]
        simp only [Transit6.Out, s2, s3, hm] at ho
        exact ho
    obtain ⟨r1, r2⟩ := T.received depth hdep xs (by rw [t1]; exact hl) t6 t7 hc t8 t9 hx
    exact ⟨fun j i x b res h1 h2 h3 => hout _ _ _ (r1 j i x b res h1 h2 h3), r2⟩
  refine ⟨T₀.a, T₀.d, z5, by rw [z6]; exact List.length_pos_iff.mpr T₀.fs_ne, hdg, ?_, ?_, ?_⟩
  · intro o ho
    obtain ⟨i, hi⟩ := List.mem_iff_getElem?.mp ho
    obtain ⟨-, -, -, -, -, -, g⟩ := z7 i o hi
    exact g
  · intro hv n depth xs hdep hl hf hc hx
    obtain ⟨m1, m2⟩ := main n depth xs hdep hl hf hc hx
    refine ⟨?_, m2⟩
    intro j i x b res h1 h2 h3
    have := m1 j i x b res h1 h2 h3
    cases b with
    | false => exact this
    | true =>
      have hmd : T₀.md = ⟨.v6 dst, dport, .v6 T₀.a, sport, data⟩ := by rw [Transit6.md, z1, z2, z3, z4]
      have := this.1 (hval.mpr hv)
      rw [hmd] at this
      exact this
  · intro hv n depth xs hdep hl hf hc hx
    obtain ⟨m1, m2⟩ := main n depth xs hdep hl hf hc hx
    refine ⟨?_, m2⟩
    intro j i x b res h1 h2 h3
    have := m1 j i x b res h1 h2 h3
    cases b with
    | false => exact this
    | true => exact this.2 (fun h => hv (hval.mp h))

/-- The source of a datagram: one of the stack's addresses, and the one asked for, if that is an ordinary address of the stack. -/
def SourceIs6 (st : Stack) (asked : IpAddress) (a : Ip6Address) : Prop :=
  (∃ h ∈ st.ip6Host, h.address = a) ∧
  ∀ x, asked = .v6 x → (∃ h ∈ st.ip6Host, h.address = x) → x ∉ st.ip6Multicast → x ≠ .zero → a = x

theorem sourceIs6 {st : Stack} {src dst a : Ip6Address} {sport dport : Nat}
    (h : validateSrcIp6 st src dst (.udp sport dport) = .ok a) :
    (∃ h ∈ st.ip6Host, h.address = a) ∧
    ((∃ h ∈ st.ip6Host, h.address = src) → src ∉ st.ip6Multicast → src ≠ .zero → a = src) := by
  constructor
  · rcases validateSrcIp6_owned h with h | ⟨-, -, h | ⟨n, h⟩⟩
    · obtain ⟨x, hx, e⟩ := List.mem_map.mp h
      exact ⟨x, hx, e⟩
    · cases h
    · cases h
  · intro h1 h2 h5
    obtain ⟨x, hx, e⟩ := h1
    have hu : src ∈ st.ip6Unicast := List.mem_map.mpr ⟨x, hx, e⟩
    have hz : ¬ src.isUnspecified = true := fun e => h5 ((Ip6Address.isUnspecified_iff _).mp e)
    rw [validateSrcIp6, if_neg (by simp [hu]), if_neg h2, if_neg hz, Except.ok.injEq] at h
    exact h.symm

/-- A datagram that fits one packet is queued only with the status that says so. -/
theorem small_passed6 {st st' : Stack} {nd : Nat → NdLookup} {src dst : Ip6Address} {hop : Nat} {c : L4} {s : TxStatus}
    {outs : List Outgoing} (h : phtxIp6 st nd src dst hop c = (st', .ok (s, outs))) (hle : 40 + c.len ≤ st.mtu) (hne : outs ≠ []) :
    s = .passedEtherToTxRing := by
  rw [phtxIp6] at h
  split at h
  · simp at h
  · rename_i r hr
    simp only [Prod.mk.injEq, Except.ok.injEq] at h
    obtain ⟨-, rfl⟩ := h
    rw [phtxIp6Small] at hr
    cases hA : pyAssert (decide (0 < hop) && decide (hop < 256)) with
    | error e => rw [hA] at hr; simp at hr
    | ok u =>
      rw [hA, py_ok_bind] at hr
      split at hr
      · simp at hr; exact absurd hr.2 hne
      split at hr
      · simp at hr; exact absurd hr.2 hne
      rename_i a _ _ b _
      simp only at hr
      cases hB : ip6Asserts (packetTx6 a b hop) c.proto with
      | error e => rw [hB] at hr; simp at hr
      | ok u =>
        rw [hB, py_ok_bind, if_pos hle] at hr
        cases hE : phtxEther st (fun _ => none) (nd 0) .zero .zero (.ip6 (packetTx6 a b hop) c.toCarried) with
        | error e => rw [hE] at hr; simp at hr
        | ok q =>
          rw [hE] at hr
          simp only [py_ok_bind, py_pure, Except.ok.injEq, Sum.inl.injEq] at hr
          subst hr
          rcases phtxEther_pkt hE with ⟨h1, -⟩ | ⟨-, h1⟩
          · exact h1
          · exact absurd h1 hne
  · rename_i hr
    have := (phtxIp6Small_inr hr).2.2.2
    omega

/-- C70 over IPv6: as `C70_ip4_sendto_partial`, without a limit on the length.

Partial: this holds if the UDP checksum that was written verifies (otherwise nothing is delivered), and while the 32 bit
identification lasts. -/
theorem C70_ip6_sendto_partial {st st' : Stack} {l : Socks.Links} {ss ss' : Socks} {r : Nat} {data : Bytes} {dst : Ip6Address}
    {port : Int} {choice : Nat} {outs : List Outgoing} (hmtu : 56 ≤ st.mtu) (hmtu' : st.mtu < 65536)
    (hhost : ∀ h ∈ st.ip6Host, h.address ≠ .zero ∧ h.address ∉ st.ip6Multicast ∧ h.address.isMulticast = false)
    (hids : st.ip6Id + 1 < 2 ^ 32) (hport : port ≠ 0)
    (h : ss.sendto st l r data (some (.v6 dst)) port choice = (ss', st', .ok (data.length, outs))) (hout : outs ≠ []) :
    ∃ s a d, ss'.socks[r]? = some s ∧ 0 < s.id.lport ∧ SourceIs6 st s.id.lip a ∧ 0 < outs.length ∧
      IsDatagram s.id.lport port.toNat data d ∧
      (∀ o ∈ outs, ∃ F, o.frame = .ok F ∧ ∀ n, MacForUs n o.dst → Carries6 n o F) ∧
      (Valid (pseudo6 a dst d.length ++ d) → EveryArrival6 outs dst (fun n depth xs =>
        Handled outs.length (Outcome ⟨.v6 dst, port.toNat, .v6 a, s.id.lport, data⟩) n depth xs ∧
        (OthersFine n depth xs → AllHandled n depth xs))) ∧
      (¬ Valid (pseudo6 a dst d.length ++ d) → EveryArrival6 outs dst (fun n depth xs =>
        Handled outs.length (fun _ _ res => res = .ok []) n depth xs ∧ (OthersFine n depth xs → AllHandled n depth xs))) := by
  obtain ⟨s, lip, res, h1, h2, h3, h4, h5, h6, h7, h8⟩ := sendto_sent h
  rw [phtxUdp, if_neg (by omega)] at h7
  cases lip with
  | v4 x => simp only [Prod.mk.injEq] at h7; rw [← h7.2, Socks.sentLen] at h8; simp at h8; exact absurd h8.2 hout
  | v6 src =>
    simp only at h7
    have hpass : res = .ok (.passedEtherToTxRing, outs) := by
      refine sendto_passed h8 hout ?_
      intro s' os e1 e2 e3
      rw [e1] at h7
      exact small_passed6 h7 (by rw [e2]; simp [Udp.carried]; omega) e3
    rw [hpass] at h7
    obtain ⟨a, d, ha, hl, hdg, c0, c1, c2⟩ := arrival6 (fun x hx => ⟨(hhost x hx).1, (hhost x hx).2.1⟩) hmtu hmtu'
      (fun x hx => (hhost x hx).2.2) hids ⟨by omega, h3⟩ ⟨by omega, by omega⟩ h7
    obtain ⟨s1, s2⟩ := sourceIs6 ha
    refine ⟨s, a, d, h1, by omega, ⟨s1, ?_⟩, hl, hdg, c0, c1, c2⟩
    intro x hx k1 k2 k5
    have hu : s.id.lip.isUnspecified = false := by
      rw [hx, Bool.eq_false_iff]
      intro e
      exact k5 ((Ip6Address.isUnspecified_iff _).mp e)
    have := h6 hu
    rw [hx] at this
    cases this
    exact s2 k1 k2 k5

/-- C70 for `send` on a connected socket. -/
theorem C70_ip6_send_partial {st st' : Stack} {l : Socks.Links} {ss ss' : Socks} {r : Nat} {s : Sock} {data : Bytes}
    {dst : Ip6Address} {outs : List Outgoing} (hmtu : 56 ≤ st.mtu) (hmtu' : st.mtu < 65536)
    (hhost : ∀ h ∈ st.ip6Host, h.address ≠ .zero ∧ h.address ∉ st.ip6Multicast ∧ h.address.isMulticast = false)
    (hids : st.ip6Id + 1 < 2 ^ 32) (hs : ss.socks[r]? = some s) (hdst : s.id.rip = .v6 dst)
    (hl : 0 < s.id.lport) (h : ss.send st l r data = (ss', st', .ok (data.length, outs))) (hout : outs ≠ []) :
    ∃ a d, SourceIs6 st s.id.lip a ∧ 0 < outs.length ∧ IsDatagram s.id.lport s.id.rport data d ∧
      (∀ o ∈ outs, ∃ F, o.frame = .ok F ∧ ∀ n, MacForUs n o.dst → Carries6 n o F) ∧
      (Valid (pseudo6 a dst d.length ++ d) → EveryArrival6 outs dst (fun n depth xs =>
        Handled outs.length (Outcome ⟨.v6 dst, s.id.rport, .v6 a, s.id.lport, data⟩) n depth xs ∧
        (OthersFine n depth xs → AllHandled n depth xs))) ∧
      (¬ Valid (pseudo6 a dst d.length ++ d) → EveryArrival6 outs dst (fun n depth xs =>
        Handled outs.length (fun _ _ res => res = .ok []) n depth xs ∧ (OthersFine n depth xs → AllHandled n depth xs))) := by
  rw [Socks.send, hs] at h
  dsimp only at h
  split at h
  · simp at h
  · rename_i hr
    split at h
    · simp at h
    · cases hq : phtxUdp st l s.id.lip s.id.rip s.id.lport s.id.rport data with | mk q1 q2 => ?_
      rw [hq] at h
      simp only [Prod.mk.injEq] at h
      obtain ⟨-, rfl, h8⟩ := h
      rw [phtxUdp] at hq
      split at hq
      · simp only [Prod.mk.injEq] at hq
        rw [← hq.2, Socks.sentLen] at h8
        simp at h8
      · rename_i hpo
        rw [hdst] at hq
        cases hlip : s.id.lip with
        | v4 x =>
          rw [hlip] at hq
          simp only [Prod.mk.injEq] at hq
          rw [← hq.2, Socks.sentLen] at h8; simp at h8; exact absurd h8.2 hout
        | v6 src =>
          rw [hlip] at hq
          simp only at hq
          have hpass : q2 = .ok (.passedEtherToTxRing, outs) := by
            refine sendto_passed h8 hout ?_
            intro s' os e1 e2 e3
            rw [e1] at hq
            exact small_passed6 hq (by rw [e2]; simp [Udp.carried]; omega) e3
          rw [hpass] at hq
          obtain ⟨a, d, ha, hlen, hdg, c0, c1, c2⟩ := arrival6 (fun x hx => ⟨(hhost x hx).1, (hhost x hx).2.1⟩) hmtu hmtu'
            (fun x hx => (hhost x hx).2.2) hids ⟨hl, by omega⟩ ⟨by omega, by omega⟩ hq
          obtain ⟨s1, s2⟩ := sourceIs6 ha
          refine ⟨a, d, ⟨s1, ?_⟩, hlen, hdg, c0, c1, c2⟩
          intro x hx
          cases hx
          exact s2

/-! ### A concrete case, and what is missing -/

namespace Example.EndToEnd

/-- The sending stack: 10.0.1.9/24 and 2001:db8::9/64. -/
def sender (mtu : Nat) : Stack :=
  { Example.stack with
    mac := Example.Rx.peerMac, mtu := mtu,
    ip4Host := [⟨Example.Rx.peer4, Example.host4.network, none⟩], ip6Host := [⟨Example.Rx.peer6, Example.host6.network, none⟩] }
/-- It knows the receiver's link-layer address. -/
def links : Socks.Links := ⟨fun _ _ => some Example.stack.mac, fun _ _ => some Example.stack.mac⟩
/-- Two UDP sockets, bound to 10.0.1.9 and 2001:db8::9, both at port 5000. -/
def hist (mtu : Nat) : List (Spec.Env × Spec.Op) :=
  let e : Spec.Env := ⟨sender mtu, links⟩
  [(e, .socket .inet4 .dgram), (e, .bind 0 (some (.v4 Example.Rx.peer4)) 5000 0), (e, .socket .inet6 .dgram), (e, .bind 1 (some (.v6 Example.Rx.peer6)) 5000 0)]

/-- `sendto` to port 53. -/
def send4 (mtu : Nat) (data : Bytes) := (Spec.run (hist mtu)).1.sendto (sender mtu) links 0 data (some (.v4 Example.host4.address)) 53 0
def send6 (mtu : Nat) (data : Bytes) := (Spec.run (hist mtu)).1.sendto (sender mtu) links 1 data (some (.v6 Example.host6.address)) 53 0

/-- The frames it queues. -/
def frames (r : Socks × Stack × Py (Nat × List Outgoing)) : List Bytes :=
  match r.2.2 with
  | .ok (_, outs) => outs.map (fun o => match o.frame with | .ok F => F | .error _ => [])
  | .error _ => []

/-- The receiver: `Example.Rx.node` with an IPv6 socket too. -/
def recvHist : List (Spec.Env × Spec.Op) :=
  let e : Spec.Env := ⟨Example.stack, links⟩
  [(e, .socket .inet4 .dgram), (e, .bind 0 (some (.v4 .zero)) 53 0), (e, .socket .inet6 .dgram), (e, .bind 1 (some (.v6 .zero)) 53 0)]
def receiver : Node := { Example.Rx.node with socks := (Spec.run recvHist).1 }

/-- What the receiver delivers when the frames with these numbers arrive. -/
def deliveries (fs : List Bytes) (order : List Nat) : List (Option (List (Nat × UdpMd))) :=
  (receiveAll 1 receiver (order.map (fun i => ⟨0, 0, fs.getD i [], receiver.socks⟩))).map (fun r =>
    match r with
    | .ok effs => some (effs.filterMap (fun e => match e with | .udpDeliver r m => some (r, m) | _ => none))
    | .error _ => none)

def payload : Bytes := [1, 2, 3, 4, 5, 6, 7, 8, 9, 10, 11, 12, 13, 14, 15, 16, 17, 18, 19, 20]

/-- With an MTU of 36 bytes the 20 bytes go in two fragments; in either order, also with copies, they are delivered. -/
example : (send4 36 payload).2.2.map (fun r => (r.1, r.2.length)) = .ok (20, 2) := by decide +kernel
example : deliveries (frames (send4 36 payload)) [1, 1, 0] =
    [some [], some [], some [(0, ⟨.v4 Example.host4.address, 53, .v4 Example.Rx.peer4, 5000, payload⟩)]] := by decide +kernel
example : deliveries (frames (send4 36 payload)) [0, 1, 1, 0] =
    [some [], some [(0, ⟨.v4 Example.host4.address, 53, .v4 Example.Rx.peer4, 5000, payload⟩)], some [],
     some [(0, ⟨.v4 Example.host4.address, 53, .v4 Example.Rx.peer4, 5000, payload⟩)]] := by decide +kernel
/-- The same over IPv6, with an MTU of 64 bytes. -/
example : (send6 64 payload).2.2.map (fun r => (r.1, r.2.length)) = .ok (20, 2) := by decide +kernel
example : deliveries (frames (send6 64 payload)) [1, 0] =
    [some [], some [(1, ⟨.v6 Example.host6.address, 53, .v6 Example.Rx.peer6, 5000, payload⟩)]] := by decide +kernel

/-- The hypotheses of the theorems hold. -/
example : Listens4 receiver Example.host4.address ∧ Listens6 receiver Example.host6.address ∧ MacForUs receiver Example.stack.mac ∧
    (∀ outs, Fresh4 receiver outs ∧ Fresh6 receiver outs) ∧
    (∀ h ∈ (sender 36).ip4Host, OrdinarySource4 h.address) ∧
    (∀ h ∈ (sender 64).ip6Host, h.address ≠ .zero ∧ h.address ∉ (sender 64).ip6Multicast ∧ h.address.isMulticast = false) := by
  refine ⟨.inl ⟨Example.host4, by decide, rfl⟩, .inl ⟨Example.host6, by decide, rfl⟩, .inl rfl, fun outs => ⟨?_, ?_⟩, ?_, ?_⟩
  · intro o _ h _ _; rfl
  · intro o _ h x _ _; rfl
  · intro h hh
    simp only [sender, List.mem_singleton] at hh
    subst hh
    exact ⟨by decide, by decide, by decide⟩
  · intro h hh
    simp only [sender, List.mem_singleton] at hh
    subst hh
    exact ⟨by decide, by decide, by decide⟩

end Example.EndToEnd

open Example.EndToEnd in
/-- C70 is false of the code: `sendto` of these four bytes reports success and queues one frame, which the receiver drops, although
a socket is bound to the port.  (The checksum written does not verify, see C02.) -/
theorem C70_checksum_witness : ∃ ss' st' o F,
    (Spec.run (hist 1500)).1.sendto (sender 1500) links 0 [0xd9, 0x0d, 0xfc, 0xfc] (some (.v4 Example.host4.address)) 53 0 =
      (ss', st', .ok (4, [o])) ∧
    o.frame = .ok F ∧ MacForUs receiver o.dst ∧ Listens4 receiver Example.host4.address ∧
    MostSpecific receiver.socks ⟨.v4 Example.host4.address, 53, .v4 Example.Rx.peer4, 5000, [0xd9, 0x0d, 0xfc, 0xfc]⟩ 0 ∧
    (Rx.ether receiver 0 0 1 F).2 = .ok [] := by
  have hc : (match send4 1500 [0xd9, 0x0d, 0xfc, 0xfc] with
      | (_, _, .ok (4, [o])) => o.dst == Example.stack.mac && (match o.frame with
        | .ok F => (match (Rx.ether receiver 0 0 1 F).2 with | .ok [] => true | _ => false)
        | _ => false)
      | _ => false) = true := by decide +kernel
  split at hc
  · rename_i ss' st' o h
    rw [Bool.and_eq_true, beq_iff_eq] at hc
    obtain ⟨h1, hc⟩ := hc
    split at hc
    · rename_i F hF
      split at hc
      · rename_i hr
        refine ⟨ss', st', o, F, h, hF, .inl h1, .inl ⟨Example.host4, by decide, rfl⟩, ?_, hr⟩
        have hm := match_spec (Socks.run_wf recvHist) ⟨.v4 Example.host4.address, 53, .v4 Example.Rx.peer4, 5000, [0xd9, 0x0d, 0xfc, 0xfc]⟩
        have : (Spec.run recvHist).1.match? ⟨.v4 Example.host4.address, 53, .v4 Example.Rx.peer4, 5000, [0xd9, 0x0d, 0xfc, 0xfc]⟩ = some 0 := by
          decide +kernel
        exact hm.1 0 this
      · cases hc
    · cases hc
  · cases hc

/-- Frames are handled up to the first exception. -/
theorem receiveAll_stops (depth : Nat) (n : Node) (xs : List Arrival) (k : Nat) (hk : k < xs.length)
    (h : ∀ j < k, ∀ res, (receiveAll depth n xs)[j]? = some res → ∃ effs, res = .ok effs) :
    ∃ res, (receiveAll depth n xs)[k]? = some res ∧ ((∃ e, res = .error e) → (receiveAll depth n xs).length = k + 1) := by
  induction xs generalizing n k with
  | nil => simp at hk
  | cons x xs ih =>
    rw [receiveAll] at h ⊢
    split
    · rename_i n' effs hr
      rw [hr] at h
      cases k with
      | zero => exact ⟨_, rfl, by simp⟩
      | succ k =>
        obtain ⟨res, h1, h2⟩ := ih n' k (by simpa using hk) (fun j hj res hres => h (j + 1) (by omega) res (by simpa using hres))
        exact ⟨res, by simpa using h1, fun he => by simp [h2 he]⟩
    · rename_i n' e hr
      rw [hr] at h
      cases k with
      | zero => exact ⟨_, rfl, by simp⟩
      | succ k =>
        obtain ⟨effs, he⟩ := h 0 (by omega) _ rfl
        cases he

theorem completions_range (count k : Nat) (got : List Nat) (hg : ∀ j, j ∈ got ↔ j < k) (m : Nat) (hm : k + m ≤ count) :
    completions count got ((List.range' k m).map some) = (List.range' k m).map (fun i => decide (i + 1 = count)) := by
  induction m generalizing k got with
  | zero => rfl
  | succ m ih =>
    rw [List.range'_succ, List.map_cons, List.map_cons, completions]
    by_cases hk : k + 1 = count
    · have : m = 0 := by omega
      subst this
      rw [if_pos]
      · simp [hk, completions]
      · intro j hj
        by_cases hjk : j = k
        · simp [hjk]
        · exact List.mem_cons_of_mem _ ((hg j).mpr (by omega))
    · rw [if_neg]
      · rw [ih (k + 1) (k :: got) (by intro j; rw [List.mem_cons, hg]; omega) (by omega)]
        simp [hk]
      · intro hc
        have := hc (k + 1) (by omega)
        rw [List.mem_cons, hg] at this
        omega

open Example.EndToEnd in
/-- C70 is false of the code for the longest payloads: `sendto` of 65508 to 65527 bytes reports success, and when the frames it
queued arrive in order, the last one raises an exception that ends the receiver's receive thread. -/
theorem C70_too_long_witness (data : Bytes) (h1 : 65507 < data.length) (h2 : data.length ≤ 65527) : ∃ ss' st' outs Fs,
    (Spec.run (hist 1500)).1.sendto (sender 1500) links 0 data (some (.v4 Example.host4.address)) 53 0 =
      (ss', st', .ok (data.length, outs)) ∧
    outs.map Outgoing.frame = Fs.map .ok ∧ Fs ≠ [] ∧ (∀ o ∈ outs, MacForUs receiver o.dst) ∧
    (receiveAll 1 receiver (Fs.map (fun F => ⟨0, 0, F, receiver.socks⟩)))[Fs.length - 1]? = some (.error .structError) := by
  have hdst : ∀ o, etherDstIp4 (sender 1500) (links.arp o) Example.Rx.peer4 Example.host4.address = .ok (.ok Example.stack.mac) := by
    intro o
    show etherDstIp4 (sender 1500) (fun _ => some Example.stack.mac) _ _ = _
    decide +kernel
  have hsrc : validateSrcIp4 (sender 1500) Example.Rx.peer4 Example.host4.address (.udp 5000 53) = .ok Example.Rx.peer4 := by
    decide +kernel
  have hsock : (Spec.run (hist 1500)).1.socks[0]?.map (·.id) = some ⟨.inet4, .dgram, .v4 Example.Rx.peer4, 5000, .v4 .zero, 0⟩ := by
    decide +kernel
  have hasm : ∀ ps, ∃ d, Udp.assemble 5000 53 data ps = .ok d := by
    intro ps
    simp only [Udp.assemble, show decide (5000 ≤ 0xFFFF) = true from rfl, show decide (53 ≤ 0xFFFF) = true from rfl, pyAssert_true,
      py_ok_bind, packH_ok (show 5000 < 65536 by omega), packH_ok (show 53 < 65536 by omega),
      packH_ok (show 8 + data.length < 65536 by omega), packH_ok (show 0 < 65536 by omega)]
    exact ⟨_, packIntoH_ok (inetCksum_lt _ _) (by simp; omega)⟩
  obtain ⟨outs, houts⟩ := C27_ip4_fragmentation_succeeds (s := sender 1500) links.arp (src := Example.Rx.peer4)
    (dst := Example.host4.address) (a := Example.Rx.peer4) (ttl := 64)
    (c := { Udp.carried 5000 53 data with kind := .udp 5000 53 }) (by decide) (by decide)
    (by show 1500 < 20 + (8 + data.length); omega) (by show 8 + data.length < 65536; omega) (.inr (.inl rfl))
    (by
      intro ps
      show ∃ d, Udp.assemble 5000 53 data ps = .ok d ∧ d.length = 8 + data.length
      obtain ⟨d, hd⟩ := hasm ps
      exact ⟨d, hd, (udp_bytes hd).1⟩)
    (by decide) (by decide) (by decide) (by decide) hsrc
    (by
      intro o p hd hp e1 e2
      refine ⟨Example.stack.mac, ?_⟩
      rw [SentTo, phtxEther_ip4 _ _ _ _ hd hp, e1, e2, hdst])
  obtain ⟨s, hs, hid⟩ := Option.map_eq_some_iff.mp hsock
  have hsend : (Spec.run (hist 1500)).1.sendto (sender 1500) links 0 data (some (.v4 Example.host4.address)) 53 0 =
      ((Spec.run (hist 1500)).1.put 0 s, { sender 1500 with ip4Id := (sender 1500).ip4Id + 1 }, .ok (data.length, outs)) := by
    have h0 : (IpAddress.v4 Example.host4.address).isUnspecified = false := by decide
    have h1 : (IpAddress.v4 Example.Rx.peer4).isUnspecified = false := by decide
    have hset : Socks.setIpAddresses (sender 1500) s (some (.v4 Example.host4.address)) s.id.lip s.id.lport (53 : Int).toNat =
        (s.unreachable, .ok (.v4 Example.Rx.peer4, .v4 Example.host4.address)) := by
      rw [Socks.setIpAddresses, hid]
      simp [IpAddress.family, h0, h1]
    have hudp : phtxUdp (sender 1500) links (.v4 Example.Rx.peer4) (.v4 Example.host4.address) s.id.lport (53 : Int).toNat data =
        ({ sender 1500 with ip4Id := (sender 1500).ip4Id + 1 }, .ok (.passedEtherToTxRing, outs)) := by
      rw [hid]
      exact houts
    have hport : 1 ≤ s.id.lport ∧ s.id.lport < 65536 := by rw [hid]; decide
    rw [Socks.sendto, hs]
    dsimp only
    rw [if_neg (by decide), if_pos hport]
    simp only [hset, hudp]
    rfl
  have hmac : ∀ o ∈ outs, o.dst = Example.stack.mac := by
    intro o ho
    obtain ⟨a, hd, q1, q2, q3, q4, -, q5⟩ := phtxIp4_hdr houts o ho
    obtain ⟨ps, hps⟩ : ∃ ps, Ip4.pshdrSum Example.Rx.peer4 Example.host4.address 17 (8 + data.length) = .ok ps :=
      ⟨_, Ip4.pshdr_ok _ _ 17 (8 + data.length) (by omega) (by omega)⟩
    obtain ⟨d, hd⟩ := hasm ps
    have hlen := (udp_bytes hd).1
    obtain ⟨fs, -, hok, -⟩ := phtxIp4_frag (s := sender 1500) links.arp (src := Example.Rx.peer4) (dst := Example.host4.address)
      (a := Example.Rx.peer4) (ttl := 64) (c := { Udp.carried 5000 53 data with kind := .udp 5000 53 }) (ps := ps) (data := d)
      (by decide) (by decide) (by show 1500 < 20 + (8 + data.length); omega) (by decide) (by decide) (.inr (.inl rfl)) hsrc (by decide)
      hps hd (by intro e; rw [e] at hlen; simp at hlen; omega)
    rw [houts] at hok
    have hok := hok (by decide)
    simp only [Prod.mk.injEq, Except.ok.injEq] at hok
    rw [hok.2.2, List.mem_flatMap] at ho
    obtain ⟨f, -, ho⟩ := ho
    rw [phtxEther_ip4 _ _ _ _ _ (show (fragPkt Example.Rx.peer4 Example.host4.address 64 ((sender 1500).ip4Id + 1) _ f).ip4Hdr = some _ from rfl)] at ho
    simp only [hdst, okOf, List.mem_singleton] at ho
    rw [ho]
  obtain ⟨a, d, -, hpos, -, hcar, -, -, hbad⟩ := arrival4 (by decide) (by decide) (by
    intro h hh
    simp only [sender, List.mem_singleton] at hh
    subst hh
    exact ⟨by decide, by decide, by decide⟩) (by decide) (by decide) houts
  have hbad := hbad h1
  -- the frames
  have hfr : ∀ os : List Outgoing, (∀ o ∈ os, ∃ F, o.frame = .ok F ∧ Carries4 receiver o F) →
      ∃ Fs : List Bytes, os.map Outgoing.frame = Fs.map .ok ∧ ∀ (i : Nat) F, Fs[i]? = some F → ∃ o, os[i]? = some o ∧ Carries4 receiver o F := by
    intro os
    induction os with
    | nil => intro _; exact ⟨[], rfl, by simp⟩
    | cons o os ih =>
      intro h
      obtain ⟨Fs, e1, e2⟩ := ih (fun o' ho' => h o' (by simp [ho']))
      obtain ⟨F, f1, f2⟩ := h o (by simp)
      refine ⟨F :: Fs, by simp [f1, e1], ?_⟩
      intro i F' hF'
      cases i with
      | zero => simp at hF'; subst hF'; exact ⟨o, rfl, f2⟩
      | succ i => simp at hF'; simpa using e2 i F' hF'
  obtain ⟨Fs, e1, e2⟩ := hfr outs (by
    intro o ho
    obtain ⟨F, f1, f2⟩ := hcar o ho
    exact ⟨F, f1, f2 _ (.inl (hmac o ho))⟩)
  have hlen : Fs.length = outs.length := by
    have := congrArg List.length e1
    simpa using this.symm
  refine ⟨_, _, outs, Fs, hsend, e1, ?_, fun o ho => .inl (hmac o ho), ?_⟩
  · intro e; rw [e] at hlen; simp at hlen; omega
  obtain ⟨xs, hxs⟩ : ∃ xs, xs = Fs.zipIdx.map (fun p => (some p.2, (⟨0, 0, p.1, receiver.socks⟩ : Arrival))) := ⟨_, rfl⟩
  have x1 : xs.map (·.2) = Fs.map (fun F => ⟨0, 0, F, receiver.socks⟩) := by
    rw [hxs, List.map_map]
    conv => rhs; rw [← List.zipIdx_map_fst 0 Fs, List.map_map]
    rfl
  have x2 : xs.map (·.1) = (List.range' 0 outs.length).map some := by
    rw [hxs, List.map_map, ← hlen]
    conv => rhs; rw [← List.zipIdx_map_snd 0 Fs, List.map_map]
    rfl
  have hh := hbad receiver 1 xs (.inl ⟨Example.host4, by decide, rfl⟩) (fun o _ h _ _ => rfl) (by
    refine ⟨?_, (by intro e he; cases he), (by intro e he; cases he)⟩
    rw [x1]
    apply List.pairwise_of_forall_mem_list
    intro u hu v hv
    simp only [List.flatMap_map, List.mem_flatMap] at hu hv
    obtain ⟨_, -, hu⟩ := hu
    obtain ⟨_, -, hv⟩ := hv
    simp at hu hv
    omega) (by
    intro x hx
    rw [hxs, List.mem_map] at hx
    obtain ⟨⟨F, i⟩, hF, rfl⟩ := hx
    refine ⟨⟨recvHist, rfl⟩, ?_⟩
    rw [List.mem_zipIdx_iff_getElem?] at hF
    exact e2 i F hF)
  have hres : ∀ (j : Nat) res, j < outs.length → (receiveAll 1 receiver (xs.map (·.2)))[j]? = some res →
      res = if j + 1 = outs.length then .error .structError else .ok [] := by
    intro j res hj hr
    have hxj : ∃ x, xs[j]? = some (some j, x) := by
      have : (xs.map (·.1))[j]? = some (some j) := by
        rw [x2]; simp [hj]
      rw [List.getElem?_map, Option.map_eq_some_iff] at this
      obtain ⟨⟨y, x⟩, h1, h2⟩ := this
      simp only at h2
      subst h2
      exact ⟨x, h1⟩
    obtain ⟨x, hx⟩ := hxj
    have := hh j j x (decide (j + 1 = outs.length)) res hx (by
      rw [x2, completions_range outs.length 0 [] (by simp) outs.length (by omega)]
      simp [hj]) hr
    rw [this]
    by_cases hj' : j + 1 = outs.length <;> simp [hj']
  obtain ⟨res, hr, -⟩ := receiveAll_stops 1 receiver (xs.map (·.2)) (outs.length - 1) (by rw [x1]; simp; omega) (by
    intro j hj res hr
    rw [hres j res (by omega) hr, if_neg (by omega)]
    exact ⟨_, rfl⟩)
  rw [hlen, ← x1, hr, hres _ res (by omega) hr, if_pos (by omega)]

end Verif
