import Verif.Lemmas.EndToEndTx
/-! Lemmas for C70 over IPv6. -/
namespace Verif
open Spec

theorem pshdr6 {a dst : Ip6Address} {len ps : Nat} (hl : len < 65536) (h : Ip6.pshdrSum a dst len 17 = .ok ps) :
    ps < 2 ^ 72 ∧ ∀ d : Bytes, d.length < 2 ^ 63 → (Verifies ps d ↔ Valid (pseudo6 a dst len ++ d)) := by
  rw [Ip6.pshdr_ok a dst len 17 (by omega) (by omega)] at h
  injection h with h
  have hlen : (pseudo6 a dst len).length = 8 * 5 := by simp [pseudo6, codec]
  have hb := (wordSum_spec 8 rfl 5 (pseudo6 a dst len) (by omega)).2.2
  have h' : ps = wordSum 8 5 (pseudo6 a dst len) := by
    rw [← h, pseudo6, show bePack 1 17 = [17] from rfl]
    simp
  rw [← h'] at hb
  have hlt : ps < 2 ^ 72 := by omega
  exact ⟨hlt, fun d hd => by rw [h'] at hlt ⊢; exact verifies_valid _ d 8 5 rfl hlen hd hlt⟩

/-- What a parsed packet keeps of the frame. -/
theorem Ip6.parsed_fields {f : Bytes} {h : Ip6.Hdr} (hp : Ip6.parse f = .ok none) (hr : Ip6.read f = .ok h) :
    h.dlen = h.rest.length ∧ h.dlen < 65536 ∧ Ip6.pshdrSum h.src h.dst h.dlen h.next = .ok h.pshdrSum := by
  obtain ⟨r, hr', -, -, -, -, -, h6, -⟩ := C26_ip6_accepted f hp
  rw [hr] at hr'
  cases hr'
  refine ⟨h6.symm, ?_, ?_⟩
  · rw [Ip6.read] at hr
    cases hdl : Ip6.dlen f with
    | error _ => rw [hdl] at hr; simp at hr
    | ok v =>
      rw [hdl] at hr
      have hv : v < 65536 := u16_lt hdl
      simp only [bind, Except.bind, pure, Except.pure] at hr
      repeat' split at hr
      all_goals try cases hr
      exact hv
  · rw [Ip6.read] at hr
    simp only [bind, Except.bind, pure, Except.pure] at hr
    repeat' split at hr
    all_goals try cases hr
    rename_i hps
    exact hps

/-- The handler on a frame with a valid IPv6 packet. -/
theorem ip6_has {n : Node} {F : Bytes} {h : Ip6.Hdr} (H : HasIp6 n F h) (t₀ t₁ : Int) (depth : Nat) :
    Rx.ether n t₀ t₁ depth F = 
      if !(h.dst ∈ n.stack.ip6Unicast || h.dst ∈ n.stack.ip6Multicast) then (n, .ok [])
      else if h.next = 44 then
        match (do
          match ← Ip6Frag.parse h.rest with
          | some _ => return none
          | none => return some (← Ip6Frag.read h.rest h.dlen)) with
        | .error e => (n, .error e)
        | .ok none => (n, .ok [])
        | .ok (some x) =>
          match Frag.defragIp6 n.flows6 t₀ t₁ h x with
          | (flows, .error e) => ({ n with flows6 := flows }, .error e)
          | (flows, .ok none) => ({ n with flows6 := flows }, .ok [])
          | (flows, .ok (some g)) =>
            match depth with
            | 0 => ({ n with flows6 := flows }, .error .nonTermination)
            | depth + 1 => Rx.ip6 { n with flows6 := flows } t₀ t₁ depth g
      else if h.next = 58 then (n, Rx.icmp6 n h.src h.dst h.hop h.dlen h.pshdrSum h.rest)
      else if h.next = 17 then (n, Rx.udp n (Rx.ofIp6 h) h.rest)
      else if h.next = 6 then (n, Rx.tcp n (Rx.ofIp6 h) h.rest)
      else (n, .ok []) := by
  obtain ⟨e, he, ht, h1, h2⟩ := H
  rw [ether_holds he, ht, if_neg (by decide), if_neg (by decide), if_pos rfl]
  cases depth <;>
  · rw [Rx.ip6]
    simp only [h1, h2, py_ok_bind, py_pure]
    rfl

/-- A reassembled packet has the next header of the fragment that completed it. -/
theorem finishIp6_next {next : Nat} {header data g : Bytes} (hn : next < 256) (h : Frag.finishIp6 next header data = .ok g) :
    Ip6.next g = .ok next := by
  rw [Frag.finishIp6] at h
  simp only [bind, Except.bind, pure, Except.pure] at h
  repeat' split at h
  all_goals try cases h
  rename_i v h2
  rw [setIdx] at h2
  split at h2 <;> cases h2
  rename_i hl
  rw [Ip6.next, idx, List.getElem?_append_left (by simpa using hl)]
  simp [hl, hn]

theorem ip4_keeps (t₀ t₁ : Int) (n : Node) (f : Bytes) :
    SameAddrs n (Rx.ip4 n t₀ t₁ f).1 ∧ (Rx.ip4 n t₀ t₁ f).1.flows6 = n.flows6 := by
  rw [Rx.ip4]
  repeat' split
  all_goals exact ⟨⟨rfl, rfl⟩, rfl⟩

/-- The handler on a packet that is not a fragment keeps the fragments waiting. -/
theorem ip6_not_frag {n : Node} {g : Bytes} {next : Nat} (t₀ t₁ : Int) (depth : Nat) (hg : Ip6.next g = .ok next) (hn : next ≠ 44) :
    SameAddrs n (Rx.ip6 n t₀ t₁ depth g).1 ∧ (Rx.ip6 n t₀ t₁ depth g).1.flows6 = n.flows6 := by
  refine ⟨(ip6_keeps t₀ t₁ depth n g).1, ?_⟩
  have key : ∀ h, Ip6.read g = .ok h → h.next ≠ 44 := by
    intro h hr
    have : h.next = next := by
      rw [Ip6.read, hg] at hr
      simp only [bind, Except.bind, pure, Except.pure] at hr
      repeat' split at hr
      all_goals try cases hr
      rfl
    rw [this]; exact hn
  cases hp : Ip6.parse g with
  | error e => cases depth <;> simp [Rx.ip6, hp]
  | ok o =>
    cases o with
    | some m => cases depth <;> simp [Rx.ip6, hp]
    | none =>
      cases hr : Ip6.read g with
      | error e => cases depth <;> simp [Rx.ip6, hp, hr]
      | ok h =>
        have := key h hr
        cases depth <;>
        · rw [Rx.ip6]
          simp only [hp, hr, py_ok_bind, py_pure, if_neg this]
          repeat' split
          all_goals rfl

/-- What a frame does to the IPv6 fragments waiting. -/
theorem ether_flows6 (n : Node) (t₀ t₁ : Int) (depth : Nat) (F : Bytes) :
    let r := (Rx.ether n t₀ t₁ depth F).1
    (SameAddrs n r ∧ r.flows6 = n.flows6) ∨
    ∃ h x, HasIp6 n F h ∧ IsFrag6 h x ∧ SameAddrs n r ∧ (x.next ≠ 44 → r.flows6 = (Frag.defragIp6 n.flows6 t₀ t₁ h x).1) := by
  intro r
  have hr : r = (Rx.ether n t₀ t₁ depth F).1 := rfl
  by_cases hh : ∃ e, HoldsEther n F e
  · obtain ⟨e, he⟩ := hh
    by_cases h6 : e.type = 0x86DD ∧ ∃ h, Ip6.parse e.data = .ok none ∧ Ip6.read e.data = .ok h
    · obtain ⟨h6, h, hp, hd⟩ := h6
      have H : HasIp6 n F h := ⟨e, he, h6, hp, hd⟩
      have hA : SameAddrs n r := by
        rw [hr, ether_holds he, h6, if_neg (by decide), if_neg (by decide), if_pos rfl]
        exact (ip6_keeps t₀ t₁ depth n e.data).1
      rw [ip6_has H] at hr
      split at hr
      · rw [hr]; exact .inl ⟨⟨rfl, rfl⟩, rfl⟩
      split at hr
      · rename_i h44
        cases hq : Ip6Frag.parse h.rest with
        | error x => simp [hq] at hr; rw [hr]; exact .inl ⟨⟨rfl, rfl⟩, rfl⟩
        | ok o =>
          cases o with
          | some m => simp [hq] at hr; rw [hr]; exact .inl ⟨⟨rfl, rfl⟩, rfl⟩
          | none =>
            cases hx : Ip6Frag.read h.rest h.dlen with
            | error x => simp [hq, hx] at hr; rw [hr]; exact .inl ⟨⟨rfl, rfl⟩, rfl⟩
            | ok x =>
              refine .inr ⟨h, x, H, ⟨h44, hq, hx⟩, hA, ?_⟩
              intro hn
              simp only [hq, hx, py_ok_bind, py_pure] at hr
              cases hdf : Frag.defragIp6 n.flows6 t₀ t₁ h x with | mk flows res => ?_
              rw [hdf] at hr
              cases res with
              | error e => simp only at hr; rw [hr]
              | ok o =>
                cases o with
                | none => simp only at hr; rw [hr]
                | some g =>
                  cases depth with
                  | zero => simp only at hr; rw [hr]
                  | succ depth =>
                    simp only at hr
                    rw [hr]
                    have hnx : x.next < 256 := by
                      rw [Ip6Frag.read] at hx
                      cases hnx : Ip6Frag.next h.rest with
                      | error _ => rw [hnx] at hx; simp at hx
                      | ok v =>
                        have hv : v < 256 := idx_lt hnx
                        rw [hnx] at hx
                        simp only [bind, Except.bind, pure, Except.pure] at hx
                        repeat' split at hx
                        all_goals try cases hx
                        exact hv
                    have hg : Ip6.next g = .ok x.next := by
                      have h2 : (Frag.defragIp6 n.flows6 t₀ t₁ h x).2 = .ok (some g) := by rw [hdf]
                      simp only [Frag.defragIp6, Frag.defrag] at h2
                      repeat' split at h2
                      all_goals try cases h2
                      rename_i d _
                      generalize hfin : Frag.finishIp6 x.next _ d = fin at h2
                      cases fin with
                      | error e => simp [Except.map] at h2
                      | ok g' =>
                        simp only [Except.map, Except.ok.injEq, Option.some.injEq] at h2
                        subst h2
                        exact finishIp6_next hnx hfin
                    exact (ip6_not_frag t₀ t₁ depth hg hn).2
      · left
        repeat' split at hr
        all_goals rw [hr]; exact ⟨⟨rfl, rfl⟩, rfl⟩
    · left
      rw [ether_holds he] at hr
      split at hr
      · rw [hr]; exact ⟨⟨rfl, rfl⟩, rfl⟩
      split at hr
      · rw [hr]; exact ip4_keeps t₀ t₁ n e.data
      split at hr
      · rename_i ht
        rw [hr]
        cases hp : Ip6.parse e.data with
        | error x => cases depth <;> (simp [Rx.ip6, hp]; exact ⟨rfl, rfl⟩)
        | ok o =>
          cases o with
          | some m => cases depth <;> (simp [Rx.ip6, hp]; exact ⟨rfl, rfl⟩)
          | none =>
            cases hd : Ip6.read e.data with
            | error x => cases depth <;> (simp [Rx.ip6, hp, hd]; exact ⟨rfl, rfl⟩)
            | ok h => exact absurd ⟨ht, h, hp, hd⟩ h6
      · rw [hr]; exact ⟨⟨rfl, rfl⟩, rfl⟩
  · rw [ether_other (fun e he => hh ⟨e, he⟩)] at hr
    rw [hr]; exact .inl ⟨⟨rfl, rfl⟩, rfl⟩

/-- A datagram in transit over IPv6: in one packet, or in fragments. -/
structure Transit6 where
  a : Ip6Address
  dst : Ip6Address
  frag : Bool
  id : Nat
  sport : Nat
  dport : Nat
  data : Bytes
  ps : Nat
  d : Bytes
  room : Nat
  fs : List Piece
  hsport : 0 < sport ∧ sport < 65536
  hdport : 0 < dport ∧ dport < 65536
  hlen : 8 + data.length < 65536
  hps : Ip6.pshdrSum a dst (8 + data.length) 17 = .ok ps
  hd : Udp.assemble sport dport data ps = .ok d
  hF : IsFragmentation d room fs
  hone : frag = false → fs.length = 1

namespace Transit6

def md (T : Transit6) : UdpMd := ⟨.v6 T.dst, T.dport, .v6 T.a, T.sport, T.data⟩
def key (T : Transit6) : Frag.Key6 := (T.a, T.dst, T.id)

theorem dlen (T : Transit6) : T.d.length = 8 + T.data.length := (udp_bytes T.hd).1

theorem ne (T : Transit6) : T.d ≠ [] := by
  intro h; have := T.dlen; rw [h] at this; simp at this; omega

theorem fs_ne (T : Transit6) : T.fs ≠ [] := T.hF.ne_nil T.ne

/-- The packet is one of this datagram's fragments. -/
structure Mine (T : Transit6) (p : Ip6.Hdr × Ip6Frag.Hdr) : Prop where
  parsed : Ip6.ParsedFrag p
  src : p.1.src = T.a
  dst : p.1.dst = T.dst

/-- The state of the receiver while the datagram is in transit. -/
def Inv (T : Transit6) (n₀ : Node) (n : Node) (got : List Nat) (t : Int) : Prop :=
  SameAddrs n₀ n ∧ Frag.Past n.flows6 t ∧ (¬ ∀ j < T.fs.length, j ∈ got) ∧
  ∃ gp : List (Piece × (Ip6.Hdr × Ip6Frag.Hdr)), SameGot T.fs got gp ∧
    Frag.TracksAt (fun p : Ip6.Hdr × Ip6Frag.Hdr => p.1.headerCopy) n.flows6 T.key gp ∧ ∀ x ∈ gp, T.Mine x.2

/-- What the handling of one of its packets comes to. -/
def Out (T : Transit6) (b : Bool) (x : Arrival) (res : Py (List Eff)) : Prop :=
  match b with
  | false => res = .ok []
  | true => (Verifies T.ps T.d → Outcome T.md true x.socks res) ∧ (¬ Verifies T.ps T.d → res = .ok [])

/-- The arrivals: a packet of the datagram, or no fragment of this one. -/
def P (T : Transit6) (n₀ : Node) : Option Nat → Arrival → Prop
  | some i, x => (∃ hist, x.socks = (Spec.run hist).1) ∧ ∃ h, HasIp6 n₀ x.frame h ∧ h.src = T.a ∧ h.dst = T.dst ∧
      ((T.frag = false ∧ i = 0 ∧ h.next = 17 ∧ h.rest = T.d) ∨
       ∃ y, IsFrag6 h y ∧ y.next = 17 ∧ y.id = T.id ∧ T.fs[i]? = some y.piece)
  | none, x => ∀ h y, HasIp6 n₀ x.frame h → IsFrag6 h y → y.next ≠ 44 ∧ (h.src, h.dst, y.id) ≠ T.key

theorem dispatch (T : Transit6) {n : Node} {hist : List (Spec.Env × Spec.Op)} (hn : n.socks = (Spec.run hist).1) {h : Ip6.Hdr}
    (h1 : h.src = T.a) (h2 : h.dst = T.dst) (h3 : h.next = 17) (h4 : h.dlen = T.d.length) (h5 : h.rest = T.d)
    (h6 : Ip6.pshdrSum h.src h.dst h.dlen h.next = .ok h.pshdrSum) :
    (Verifies T.ps T.d → Outcome T.md true n.socks (Rx.udp n (Rx.ofIp6 h) h.rest)) ∧
    (¬ Verifies T.ps T.d → Rx.udp n (Rx.ofIp6 h) h.rest = .ok []) := by
  have hps : h.pshdrSum = T.ps := by
    rw [h1, h2, h3, h4, T.dlen, T.hps] at h6
    injection h6 with h6
    exact h6.symm
  have := udp_step (ip := Rx.ofIp6 h) hn T.hsport T.hdport T.hlen (by rw [Rx.ofIp6, hps]; exact (pshdr6 T.hlen T.hps).1)
    (by rw [Rx.ofIp6, hps]; exact T.hd) h4 []
  rw [List.append_nil] at this
  rw [h5]
  simp only [Rx.ofIp6, hps, h1, h2] at this ⊢
  exact this

theorem hours (T : Transit6) (n₀ : Node) (hl : Listens6 n₀ T.dst) (depth : Nat) (hdep : 0 < depth) :
    ∀ n got t i x, T.Inv n₀ n got t → T.P n₀ (some i) x → t ≤ x.t₀ → x.t₀ ≤ x.t₁ →
      let r := Rx.ether { n with socks := x.socks } x.t₀ x.t₁ depth x.frame
      if ∀ j < T.fs.length, j ∈ i :: got then T.Out true x r.2 ∧ T.Inv n₀ r.1 [] x.t₁
      else T.Out false x r.2 ∧ T.Inv n₀ r.1 (i :: got) x.t₁ := by
  intro n got t i x hI hP ht h01 r
  obtain ⟨hA, hpast, hinc, gp, hG, hT, hM⟩ := hI
  obtain ⟨⟨hist, hsocks⟩, h, ⟨e, he, hty, hpar, hrd⟩, h1, h2, hcase⟩ := hP
  have hA' : SameAddrs n₀ { n with socks := x.socks } := hA
  have hH : HasIp6 { n with socks := x.socks } x.frame h := ⟨e, hA'.holds.mpr he, hty, hpar, hrd⟩
  have hfor : (decide (h.dst ∈ n.stack.ip6Unicast) || decide (h.dst ∈ n.stack.ip6Multicast)) = true := by
    rw [hA.1, ip6ForUs_iff, h2]; exact hl
  have hr : r = _ := ip6_has hH x.t₀ x.t₁ depth
  rw [if_neg (by simp only [hfor]; simp)] at hr
  obtain ⟨f1, f2, f3⟩ := Ip6.parsed_fields hpar hrd
  have hpast' : Frag.Past n.flows6 x.t₀ := hpast.mono ht
  have hnone : ¬ ∀ j < T.fs.length, j ∈ ([] : List Nat) := by
    intro hc
    have := hc 0 (List.length_pos_iff.mpr T.fs_ne)
    simp at this
  rcases hcase with ⟨hfr, hi0, h3, h5⟩ | ⟨y, ⟨h44, hq, hx⟩, hy17, hyid, hpi⟩
  · -- a whole packet
    have hone := T.hone hfr
    have hall : ∀ j < T.fs.length, j ∈ i :: got := by
      intro j hj; rw [hi0, show j = 0 by omega]; simp
    have hgp : gp = [] := by
      cases gp with
      | nil => rfl
      | cons y gp =>
        exfalso
        apply hinc
        obtain ⟨k, hk⟩ := List.mem_iff_getElem?.mp (hG.1 y (by simp))
        have := (hG.2 k y.1 hk).mp (by simp)
        intro j hj
        obtain ⟨hl', -⟩ := List.getElem?_eq_some_iff.mp hk
        rw [show j = k by omega]
        exact this
    subst hgp
    rw [if_neg (by omega), if_neg (by omega), if_pos h3] at hr
    rw [if_pos hall, hr]
    refine ⟨?_, hA, hpast.mono (Int.le_trans ht h01), hnone, [], SameGot.nil _, hT, by simp⟩
    exact dispatch T (n := { n with socks := x.socks }) (hist := hist) hsocks h1 h2 h3 (by rw [f1, h5]) h5 f3
  · -- a fragment
    rw [if_pos h44] at hr
    simp only [hq, hx, py_ok_bind, py_pure] at hr
    have hkey : (h.src, h.dst, y.id) = T.key := by rw [h1, h2, hyid]; rfl
    have hmine : T.Mine (h, y) := ⟨⟨_, hpar, hrd, hq, hx⟩, h1, h2⟩
    have hpf : y.piece ∈ T.fs := List.mem_of_getElem? hpi
    have hG' := hG.snoc T.hF (i := i) (x := (y.piece, (h, y))) hpi
    have hM' : ∀ z ∈ gp ++ [(y.piece, (h, y))], T.Mine z.2 := by
      intro z hz
      rcases List.mem_append.mp hz with hz | hz
      · exact hM z hz
      · rw [List.mem_singleton.mp hz]; exact hmine
    have hstep := Frag.defrag_same T.hF T.ne (Frag.finishIp6 17) hG.1 hT x.t₁ hpast' (y.piece, (h, y)) hpf
    have hdp : Frag.defrag (Frag.finishIp6 17) n.flows6 x.t₀ x.t₁ T.key h.headerCopy y.piece.offset y.piece.mf y.piece.data =
        Frag.defragIp6 n.flows6 x.t₀ x.t₁ h y := by rw [Frag.defragIp6, hkey, hy17]; rfl
    simp only [hdp] at hstep
    have hpast1 : Frag.Past (Frag.defragIp6 n.flows6 x.t₀ x.t₁ h y).1 x.t₁ :=
      Frag.defrag_past (Frag.finishIp6 y.next) hpast' h01 _ _ _ _ _
    revert hstep hr hpast1
    generalize Frag.defragIp6 n.flows6 x.t₀ x.t₁ h y = q
    intro hr hstep hpast1
    obtain ⟨q1, q2⟩ := q
    by_cases hall : ∀ j < T.fs.length, j ∈ i :: got
    · rw [if_pos hall]
      rw [if_pos (hG'.all.mpr hall)] at hstep
      obtain ⟨hT1, p₀, hh, hq2⟩ := hstep
      have hm0 : T.Mine p₀ := by
        obtain ⟨z, hz, hz'⟩ := Option.map_eq_some_iff.mp hh
        have := hM' z (List.mem_of_head? hz)
        rw [hz'] at this
        exact this
      obtain ⟨w, hw, hwp, h', hwr, k1, k2, k3, -, -, -, -, k4, k5, k6⟩ := finishIp6_ok p₀ hm0.parsed 17 (by omega) T.d
        (by rw [T.dlen]; exact T.hlen)
      simp only at hq2
      rw [hw] at hq2
      rw [hq2] at hr
      obtain ⟨depth, rfl⟩ : ∃ k, depth = k + 1 := ⟨depth - 1, by omega⟩
      simp only [Except.map] at hr
      have hfor' : (decide (h'.dst ∈ n.stack.ip6Unicast) || decide (h'.dst ∈ n.stack.ip6Multicast)) = true := by
        rw [hA.1, ip6ForUs_iff, k2, hm0.dst]; exact hl
      have hip : ∀ (m : Node) depth, m.stack = n.stack → Rx.ip6 m x.t₀ x.t₁ depth w = (m, Rx.udp m (Rx.ofIp6 h') h'.rest) := by
        intro m depth hm
        rw [← hm] at hfor'
        cases depth <;>
        · rw [Rx.ip6]
          simp only [hwp, hwr, py_ok_bind, py_pure, hfor', k3, Bool.not_true, Bool.false_eq_true, if_false, if_true,
            show ¬ ((17 : Nat) = 44) by omega, show ¬ ((17 : Nat) = 58) by omega]
      rw [hip { n with socks := x.socks, flows6 := q1 } depth rfl] at hr
      rw [hr]
      refine ⟨?_, hA, hpast1, hnone, [], SameGot.nil _, hT1, by simp⟩
      exact dispatch T (n := { n with socks := x.socks, flows6 := q1 }) (hist := hist) hsocks (k1.trans hm0.src) (k2.trans hm0.dst) k3 k4 k5
        (by rw [k1, k2, k3, k4]; exact k6)
    · rw [if_neg hall]
      rw [if_neg (fun hc => hall (hG'.all.mp hc))] at hstep
      simp only at hstep
      rw [hstep.2] at hr
      simp only at hr
      rw [hr]
      exact ⟨rfl, hA, hpast1, hall, _, hG', hstep.1, hM'⟩

theorem other (T : Transit6) (n₀ : Node) (depth : Nat) :
    ∀ n got t x, T.Inv n₀ n got t → T.P n₀ none x → t ≤ x.t₀ → x.t₀ ≤ x.t₁ →
      T.Inv n₀ (Rx.ether { n with socks := x.socks } x.t₀ x.t₁ depth x.frame).1 got x.t₁ := by
  intro n got t x ⟨hA, hpast, hinc, gp, hG, hT, hM⟩ hP ht h01
  have hA' : SameAddrs n₀ { n with socks := x.socks } := hA
  have hpast1 := hpast.mono (Int.le_trans ht h01)
  have hsame : ∀ m : Node, SameAddrs n m → m.flows6 = n.flows6 → T.Inv n₀ m got x.t₁ := by
    intro m h1 h2
    refine ⟨⟨h1.1.trans hA.1, h1.2.trans hA.2⟩, ?_, hinc, gp, hG, ?_, hM⟩
    · rw [h2]; exact hpast1
    · rw [h2]; exact hT
  rcases ether_flows6 { n with socks := x.socks } x.t₀ x.t₁ depth x.frame with ⟨h1, h2⟩ | ⟨h, y, hh, hf, h1, h2⟩
  · exact hsame _ h1 h2
  · obtain ⟨e, he, hrest⟩ := hh
    obtain ⟨hnx, hk⟩ := hP h y ⟨e, hA'.holds.mp he, hrest⟩ hf
    have h2 := h2 hnx
    refine ⟨⟨h1.1.trans hA.1, h1.2.trans hA.2⟩, ?_, hinc, gp, hG, ?_, hM⟩
    · rw [h2]
      exact Frag.defrag_past (Frag.finishIp6 y.next) (hpast.mono ht) h01 _ _ _ _ _
    · have := Frag.defrag_other (Frag.finishIp6 y.next) x.t₁ (hpast.mono ht) (Ne.symm hk) h.headerCopy y.offset y.mf y.dataCopy
      rw [h2, Frag.TracksAt, Frag.defragIp6, this]
      exact hT

end Transit6

/-- The frame put on the wire, arriving at a stack that takes its link-layer address, is one that carries the packet. -/
theorem same_link6 {o : Outgoing} {h : Ip6.Hdr}
    (ht : o.pkt.etherType = Ether.typeIp6) (hb : ∃ b, o.pkt.assemble = .ok b ∧ Ip6.parse b = .ok none ∧ Ip6.read b = .ok h) :
    ∃ F, o.frame = .ok F ∧ ∀ n, MacForUs n o.dst → Carries6 n o F := by
  obtain ⟨b, h1, h2, h3⟩ := hb
  obtain ⟨f, f1, f2, f3⟩ := C14_ether_roundtrip o.src o.dst Ether.typeIp6 b (by decide)
  refine ⟨f, by rw [Outgoing.frame, h1, py_ok_bind, ht]; exact f1, fun n hm => ?_⟩
  exact ⟨h, h, ⟨b, h1, h3⟩, ⟨_, ⟨f2, f3, hm⟩, rfl, h2, h3⟩, rfl, rfl, rfl, rfl⟩

/-- The source of a fragmented packet. -/
theorem frag6_source {s s' : Stack} {nd : Nat → NdLookup} {src dst a : Ip6Address} {hop id next : Nat} {c : L4}
    {st : TxStatus} {outs : List Outgoing} (hs : s.PlainIp6) (hmtu : 56 ≤ s.mtu) (hmtu' : s.mtu < 65536) (hws : c.WellSized)
    (hbig : s.mtu < 40 + c.len) (hx : c.proto ≠ 44) (h : phtxIp6 s nd src dst hop c = (s', .ok (st, outs)))
    {o : Outgoing} {f : Piece} (ho : o ∈ outs) (hof : o.pkt = frag6Pkt a dst id next f) :
    validateSrcIp6 s src dst c.kind = .ok a := by
  have hq : outs ≠ [] := List.ne_nil_of_mem ho
  rcases phtxIp6_returns hbig hx hws hmtu h with ⟨h1, h2⟩ | ⟨ht0, ht, hp, hdst, a', ps, data, ha, hps, hd⟩
  · exact absurd h1 hq
  have hlen := hws ps data hd
  have hne : data ≠ [] := by intro he; rw [he] at hlen; simp at hlen; omega
  obtain ⟨fs, hF, hok, hbad⟩ := phtxIp6_frag nd hs hmtu hmtu' hbig ht0 ht hp ha hdst hps hd hne
  have haz : a' ≠ .zero := by
    intro e
    rw [hbad e] at h
    simp only [Prod.mk.injEq, Except.ok.injEq] at h
    exact hq h.2.2.symm
  rw [hok haz] at h
  simp only [Prod.mk.injEq, Except.ok.injEq] at h
  obtain ⟨hs', hst, hout⟩ := h
  rw [← hout, List.mem_flatMap] at ho
  obtain ⟨g, -, ho⟩ := ho
  rcases (link_okOf s (fun _ => none) (nd g.offset) .zero .zero (frag6Pkt a' dst (s.ip6Id + 1) c.proto g)).1 with ⟨o', h1, h2⟩ | h1
  · rw [h1, List.mem_singleton] at ho
    subst ho
    rw [h2] at hof
    simp only [frag6Pkt, Pkt.ip6.injEq, Ip6.Tx.mk.injEq] at hof
    rw [ha, hof.1.1]
  · rw [h1] at ho; cases ho

/-- The stack builds a datagram into packets: what `outs` is. -/
theorem sent6 {st st' : Stack} {nd : Nat → NdLookup} {src dst : Ip6Address} {sport dport : Nat} {data : Bytes}
    {outs : List Outgoing} (hp : st.PlainIp6) (hmtu : 56 ≤ st.mtu) (hmtu' : st.mtu < 65536)
    (hmul : ∀ a ∈ st.ip6Unicast, a.isMulticast = false) (hids : st.ip6Id + 1 < 2 ^ 32)
    (hs : 0 < sport ∧ sport < 65536) (hd : 0 < dport ∧ dport < 65536)
    (h : phtxIp6 st nd src dst 64 { Udp.carried sport dport data with kind := .udp sport dport } =
      (st', .ok (.passedEtherToTxRing, outs))) (id₀ : Nat) :
    ∃ T : Transit6, T.dst = dst ∧ T.sport = sport ∧ T.dport = dport ∧ T.data = data ∧
      validateSrcIp6 st src dst (.udp sport dport) = .ok T.a ∧ outs.length = T.fs.length ∧
      (T.frag = false ∧ T.id = id₀ ∨ T.frag = true ∧ ∃ o ∈ outs, ∃ h x, Ip6Of o h ∧ IsFrag6 h x ∧ h.src = T.a ∧ h.dst = dst ∧ x.id = T.id) ∧
      ∀ (i : Nat) o, outs[i]? = some o → ∃ h, Ip6Of o h ∧ h.src = T.a ∧ h.dst = dst ∧ h.dlen = h.rest.length ∧
        ((T.frag = false ∧ i = 0 ∧ h.next = 17 ∧ h.rest = T.d) ∨
         (∃ x, IsFrag6 h x ∧ x.next = 17 ∧ x.id = T.id ∧ T.fs[i]? = some x.piece)) ∧
        ∃ F, o.frame = .ok F ∧ ∀ n, MacForUs n o.dst → Carries6 n o F := by
  obtain ⟨c, hc⟩ : ∃ c : L4, c = { Udp.carried sport dport data with kind := .udp sport dport } := ⟨_, rfl⟩
  rw [← hc] at h
  have hk : c.kind = .udp sport dport := by rw [hc]
  have hpr : c.proto = 17 := by rw [hc]; rfl
  have hcl : c.len = 8 + data.length := by rw [hc]; rfl
  have hca : ∀ ps, c.assemble ps = Udp.assemble sport dport data ps := by intro ps; rw [hc]; rfl
  have hws : c.WellSized := by
    intro ps d hd
    rw [hca] at hd
    rw [hcl]; exact (udp_bytes hd).1
  by_cases hbig : st.mtu < 40 + c.len
  · -- fragmented
    obtain ⟨a, ps, d, fs, hps, hd', hau, hF, -, -, hall, hrd⟩ := C28_ip6_fragmentation hp hmtu hmtu' hws hbig (by omega) h (.inr rfl)
    have hall := hall.mp rfl
    rw [hca] at hd'
    have hb := udp_bytes hd'
    have hne : d ≠ [] := by intro e; have := hb.1; rw [e] at this; simp at this; omega
    have hfs := hF.ne_nil hne
    have hlen := congrArg List.length hall
    simp only [List.length_map] at hlen
    rw [hpr, hcl] at hps
    -- each packet
    have hpk : ∀ (i : Nat) o, outs[i]? = some o → ∃ f r, fs[i]? = some f ∧ o.pkt = frag6Pkt a dst (st.ip6Id + 1) c.proto f ∧
        (∃ b, o.pkt.assemble = .ok b ∧ Ip6.parse b = .ok none ∧ Ip6.read b = .ok r) ∧ r.src = a ∧ r.dst = dst ∧
        IsFrag6 r { next := c.proto, offset := f.offset, mf := f.mf, id := st.ip6Id + 1, dataCopy := f.data } := by
      intro i o ho
      have : (outs.map (·.pkt))[i]? = (fs.map (frag6Pkt a dst (st.ip6Id + 1) c.proto))[i]? := by rw [hall]
      simp only [List.getElem?_map, ho, Option.map_some] at this
      obtain ⟨f, hf, hpk⟩ := Option.map_eq_some_iff.mp this.symm
      obtain ⟨hdr, x, e1, e2⟩ := hrd f (List.mem_of_getElem? hf)
      obtain ⟨b, b1, -, b2, r, b3, r1, r2, -, r3, r4, r5⟩ := e2 (hmul a hau) hids (by omega)
      exact ⟨f, r, hf, hpk.symm, ⟨b, by rw [← hpk, e1]; exact b1, b2, b3⟩, r1, r2, r3, r4, r5⟩
    obtain ⟨o, ho⟩ : ∃ o, outs[0]? = some o :=
      ⟨_, List.getElem?_eq_getElem (by have := List.length_pos_iff.mpr hfs; omega)⟩
    obtain ⟨f, r, hf, hof, ⟨b, b1, b2, b3⟩, r1, r2, r3⟩ := hpk 0 o ho
    have ha := frag6_source hp hmtu hmtu' hws hbig (by omega) h (List.mem_of_getElem? ho) hof
    refine ⟨⟨a, dst, true, st.ip6Id + 1, sport, dport, data, ps, d, _, fs, hs, hd, hb.2.1, hps, hd', hF, by simp⟩, rfl, rfl, rfl, rfl,
      by rw [← hk]; exact ha, hlen, .inr ⟨rfl, o, List.mem_of_getElem? ho, r, _, ⟨b, b1, b3⟩, r3, r1, r2, rfl⟩, ?_⟩
    intro i o ho
    obtain ⟨f, r, hf, hof, ⟨b, b1, b2, b3⟩, r1, r2, r3⟩ := hpk i o ho
    exact ⟨r, ⟨b, b1, b3⟩, r1, r2, (Ip6.parsed_fields b2 b3).1, .inr ⟨_, r3, hpr, rfl, hf⟩, same_link6 (by rw [hof]; rfl) ⟨b, b1, b2, b3⟩⟩
  · -- in one packet
    have hmtu2 : 40 + c.len ≤ st.mtu := by omega
    rw [phtxIp6] at h
    split at h
    · simp at h
    · rename_i r hr
      simp only [Prod.mk.injEq, Except.ok.injEq] at h
      obtain ⟨-, rfl⟩ := h
      obtain ⟨o, houts⟩ : ∃ o, outs = [o] := by
        rw [phtxIp6Small] at hr
        cases ha : validateSrcIp6 st src dst c.kind with
        | error e =>
          simp [ha] at hr
          have := validateSrcIp6_error ha
          rw [hr.1] at this
          simp at this
        | ok a =>
          by_cases hz : dst.isUnspecified = true
          · simp [ha, validateDstIp6, hz] at hr
          · simp only [ha, validateDstIp6, if_neg hz, packetTx6_asserts a dst 64 c.proto (by omega) (by omega), if_pos hmtu2] at hr
            simp only [show decide ((0 : Nat) < 64) = true from rfl, show decide ((64 : Nat) < 256) = true from rfl, Bool.and_self,
              pyAssert_true, py_ok_bind] at hr
            cases hE : phtxEther st (fun _ => none) (nd 0) .zero .zero (.ip6 (packetTx6 a dst 64) c.toCarried) with
            | error e => rw [hE] at hr; simp at hr
            | ok q =>
              rw [hE] at hr
              simp only [py_ok_bind, py_pure, Except.ok.injEq, Sum.inl.injEq] at hr
              subst hr
              rcases phtxEther_pkt hE with ⟨-, m, hm⟩ | ⟨h1, -⟩
              · exact ⟨_, hm⟩
              · simp at h1
      obtain ⟨a, hdr, ha, hpk, hh, -, -, -⟩ := phtxIp6Small_hdr hr o (by rw [houts]; simp)
      have hau : a ∈ st.ip6Unicast := by
        rcases validateSrcIp6_owned ha with h | ⟨-, -, h | ⟨n, h⟩⟩
        · exact h
        · rw [hk] at h; cases h
        · rw [hk] at h; cases h
      obtain ⟨ps, hps⟩ : ∃ ps, Ip6.pshdrSum a dst c.len c.proto = .ok ps := ⟨_, Ip6.pshdr_ok a dst c.len c.proto (by omega) (by omega)⟩
      have hps' := hps
      rw [hpr, hcl] at hps
      obtain ⟨d, h1, h2, -⟩ := C18_udp_roundtrip sport dport data [] ps hs hd (by omega) (pshdr6 (by omega) hps).1
      rw [← hca] at h1
      obtain ⟨f, f1, f2, f3⟩ := C17_ip6_roundtrip_dscp0_partial (packetTx6 a dst 64) c.toCarried d ps
        ⟨by simp [packetTx6], by simp [packetTx6], by simp [packetTx6], by simp [packetTx6], by omega, by simp [hpr]⟩
        hps' h1 (by rw [h2, hcl]) (by simp [packetTx6]) (hmul a hau) rfl (by simp [packetTx6])
      have hne : d ≠ [] := by intro e; rw [e] at h2; simp at h2; omega
      rw [hca] at h1
      refine ⟨⟨a, dst, false, id₀, sport, dport, data, ps, d, d.length, [⟨0, false, d⟩], hs, hd, by omega, hps, h1, ?_, by simp⟩, rfl, rfl, rfl,
        rfl, by rw [← hk, ha], by rw [houts]; rfl, .inl ⟨rfl, rfl⟩, ?_⟩
      · refine ⟨by simp, ?_, by simp, by simpa using hne, by simp, ?_⟩
        · intro i f hf
          cases i with
          | zero => simp at hf; simp [← hf]
          | succ i => simp at hf
        · intro i f hf
          cases i with
          | zero => simp at hf; simp [← hf]
          | succ i => simp at hf
      · intro i o' ho'
        rw [houts] at ho'
        cases i with
        | succ i => simp at ho'
        | zero =>
          simp only [List.getElem?_cons_zero, Option.some.injEq] at ho'
          subst ho'
          rw [hh] at hpk
          refine ⟨_, ⟨f, by rw [hpk]; exact f1, f3⟩, rfl, rfl, (Ip6.parsed_fields f2 f3).1, .inl ⟨rfl, rfl, hpr, rfl⟩, ?_⟩
          exact same_link6 (by rw [hpk]; rfl) ⟨f, by rw [hpk]; exact f1, f2, f3⟩
    · rename_i a b hr
      have := (phtxIp6Small_inr hr).2.2.2
      omega

/-- An identification no fragment at the receiver has. -/
theorem unused_id6 (n : Node) : ∃ id₀ ≥ 2 ^ 32, ∀ a b, n.flows6.get? (a, b, id₀) = none := by
  have key : ∀ l : Dict Frag.Key6 Frag.Flow, ∃ N, ∀ e ∈ l, e.1.2.2 < N := by
    intro l
    induction l with
    | nil => exact ⟨0, by simp⟩
    | cons e l ih =>
      obtain ⟨N, hN⟩ := ih
      refine ⟨N + e.1.2.2 + 1, ?_⟩
      intro x hx
      rcases List.mem_cons.mp hx with rfl | hx
      · omega
      · have := hN x hx; omega
  obtain ⟨N, hN⟩ := key n.flows6
  refine ⟨2 ^ 32 + N, by omega, ?_⟩
  intro a b
  cases hg : n.flows6.get? (a, b, 2 ^ 32 + N) with
  | none => rfl
  | some v =>
    have := hN _ (Dict.get?_mem hg)
    simp at this
    omega

theorem Ip6Frag.read_id {f : Bytes} {l : Nat} {x : Ip6Frag.Hdr} (hr : Ip6Frag.read f l = .ok x) : x.id < 2 ^ 32 := by
  rw [Ip6Frag.read] at hr
  simp only [bind, Except.bind, pure, Except.pure] at hr
  repeat' split at hr
  all_goals try cases hr
  rename_i hid
  exact u32_lt hid

end Verif
