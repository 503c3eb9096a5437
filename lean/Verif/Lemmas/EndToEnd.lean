import Verif.Spec.EndToEnd
import Verif.Props.Rx
import Verif.Props.Reassembly
import Verif.Props.CodecUdp
import Verif.Props.Cksum
/-! Lemmas for C70: what the receiving stack makes of frames that carry parts of a datagram. -/
namespace Verif
open Spec

/-! ### Any receiver -/

/-- Handling a list of arrivals, given what one of them does.  `Inv n got t`: the state of the node when the packets `got` are
waiting, and no stored time is after `t`. -/
theorem receive_engine (depth count : Nat) (Inv : Node → List Nat → Int → Prop) (P : Option Nat → Arrival → Prop)
    (Out : Bool → Arrival → Py (List Eff) → Prop)
    (hours : ∀ n got t i x, Inv n got t → P (some i) x → t ≤ x.t₀ → x.t₀ ≤ x.t₁ →
      let r := Rx.ether { n with socks := x.socks } x.t₀ x.t₁ depth x.frame
      if ∀ j < count, j ∈ i :: got then Out true x r.2 ∧ Inv r.1 [] x.t₁ else Out false x r.2 ∧ Inv r.1 (i :: got) x.t₁)
    (hother : ∀ n got t x, Inv n got t → P none x → t ≤ x.t₀ → x.t₀ ≤ x.t₁ →
      Inv (Rx.ether { n with socks := x.socks } x.t₀ x.t₁ depth x.frame).1 got x.t₁)
    (xs : List (Option Nat × Arrival)) (n : Node) (got : List Nat) (t : Int) (hI : Inv n got t)
    (hP : ∀ x ∈ xs, P x.1 x.2) (hc : ((xs.map (·.2)).flatMap (fun x => [x.t₀, x.t₁])).Pairwise (· ≤ ·))
    (ht : ∀ x ∈ xs, t ≤ x.2.t₀) :
    (∀ (j i : Nat) x b res, xs[j]? = some (some i, x) → (completions count got (xs.map (·.1)))[j]? = some b →
      (receiveAll depth n (xs.map (·.2)))[j]? = some res → Out b x res) ∧
    ((∀ x b res, Out b x res → ∃ effs, res = .ok effs) →
      (∀ (j : Nat) x res, xs[j]? = some (none, x) → (receiveAll depth n (xs.map (·.2)))[j]? = some res →
        ∃ effs, res = .ok effs) →
      (receiveAll depth n (xs.map (·.2))).length = xs.length) := by
  induction xs generalizing n got t with
  | nil => simp [receiveAll]
  | cons x xs ih =>
    obtain ⟨tag, x⟩ := x
    rw [List.map_cons, List.flatMap_cons, List.pairwise_append] at hc
    obtain ⟨hc1, hc2, hc3⟩ := hc
    have h01 : x.t₀ ≤ x.t₁ := by simpa using hc1
    have hnext : ∀ y ∈ xs, x.t₁ ≤ y.2.t₀ := fun y hy =>
      hc3 _ (by simp) _ (List.mem_flatMap.mpr ⟨y.2, List.mem_map_of_mem hy, by simp⟩)
    have htx : t ≤ x.t₀ := ht (tag, x) (by simp)
    have hPx : P tag x := hP (tag, x) (by simp)
    have hPs : ∀ y ∈ xs, P y.1 y.2 := fun y hy => hP y (by simp [hy])
    -- the state afterwards, and the outcome
    obtain ⟨r, hr⟩ : ∃ r, r = Rx.ether { n with socks := x.socks } x.t₀ x.t₁ depth x.frame := ⟨_, rfl⟩
    have step : ∃ got' b, completions count got (tag :: xs.map (·.1)) = b :: completions count got' (xs.map (·.1)) ∧
        Inv r.1 got' x.t₁ ∧ (tag.isSome → Out b x r.2) := by
      cases tag with
      | none =>
        refine ⟨got, false, rfl, ?_, by simp⟩
        have := hother n got t x hI hPx htx h01
        rw [← hr] at this
        exact this
      | some i =>
        have := hours n got t i x hI hPx htx h01
        rw [← hr] at this
        simp only at this
        by_cases hall : ∀ j < count, j ∈ i :: got
        · rw [if_pos hall] at this
          exact ⟨[], true, by rw [completions, if_pos hall], this.2, fun _ => this.1⟩
        · rw [if_neg hall] at this
          exact ⟨i :: got, false, by rw [completions, if_neg hall], this.2, fun _ => this.1⟩
    obtain ⟨got', b, hb, hI', hO⟩ := step
    obtain ⟨ih1, ih2⟩ := ih r.1 got' x.t₁ hI' hPs hc2 hnext
    have hrec : receiveAll depth n (x :: xs.map (·.2)) = match r.2 with
        | .ok effs => .ok effs :: receiveAll depth r.1 (xs.map (·.2))
        | .error e => [.error e] := by
      rw [receiveAll, ← hr]
      obtain ⟨r1, r2⟩ := r
      cases r2 <;> rfl
    simp only [List.map_cons, hb, hrec]
    constructor
    · intro j i y b' res h1 h2 h3
      cases j with
      | zero =>
        simp only [List.getElem?_cons_zero, Option.some.injEq, Prod.mk.injEq] at h1 h2
        obtain ⟨rfl, rfl⟩ := h1
        subst h2
        have : res = r.2 := by
          cases hr2 : r.2 <;> rw [hr2] at h3 <;> simp at h3 <;> exact h3.symm
        rw [this]
        exact hO rfl
      | succ j =>
        simp only [List.getElem?_cons_succ] at h1 h2
        cases hr2 : r.2 with
        | error e => rw [hr2] at h3; simp at h3
        | ok effs =>
          rw [hr2] at h3
          simp only [List.getElem?_cons_succ] at h3
          exact ih1 j i y b' res h1 h2 h3
    · intro hok hfor
      have hx : ∃ effs, r.2 = .ok effs := by
        cases tag with
        | some i => exact hok x b r.2 (hO rfl)
        | none =>
          refine hfor 0 x r.2 (by simp) ?_
          cases hr2 : r.2 <;> simp
      obtain ⟨effs, hx⟩ := hx
      rw [hx]
      simp only [List.length_cons]
      rw [ih2 hok]
      intro j y res h1 h2
      exact hfor (j + 1) y res (by simpa using h1) (by rw [hx]; simpa using h2)

theorem completions_length (count : Nat) (got : List Nat) (l : List (Option Nat)) :
    (completions count got l).length = l.length := by
  induction l generalizing got with
  | nil => rfl
  | cons x l ih =>
    cases x with
    | none => simp [completions, ih]
    | some i => rw [completions]; split <;> simp [ih]

/-- If each packet arrives, some arrival completes the datagram. -/
theorem completions_true (count : Nat) (hc : 0 < count) (got : List Nat) (l : List (Option Nat))
    (h : ∀ j < count, j ∈ got ∨ some j ∈ l) (hg : ¬ ∀ j < count, j ∈ got) :
    ∃ j i : Nat, l[j]? = some (some i) ∧ (completions count got l)[j]? = some true := by
  induction l generalizing got with
  | nil => exact absurd (fun j hj => (h j hj).resolve_right (by simp)) hg
  | cons x l ih =>
    cases x with
    | none =>
      obtain ⟨j, i, h1, h2⟩ := ih got (fun j hj => (h j hj).imp id (by simp)) hg
      exact ⟨j + 1, i, by simpa using h1, by simpa [completions] using h2⟩
    | some i =>
      rw [completions]
      by_cases hall : ∀ j < count, j ∈ i :: got
      · exact ⟨0, i, by simp, by rw [if_pos hall]; simp⟩
      · obtain ⟨j, i', h1, h2⟩ := ih (i :: got) (by
          intro j hj
          rcases h j hj with h | h
          · exact .inl (by simp [h])
          · rcases List.mem_cons.mp h with h | h
            · cases h; exact .inl (by simp)
            · exact .inr h) hall
        exact ⟨j + 1, i', by simpa using h1, by rw [if_neg hall]; simpa using h2⟩

/-! ### UDP -/

/-- The bytes of a datagram under a pseudo-header with sum `ps`, whatever follows them in the frame. -/
theorem udp_step {n : Node} {hist : List (Spec.Env × Spec.Op)} (hn : n.socks = (Spec.run hist).1) {sport dport : Nat} {data d : Bytes}
    {ip : Rx.IpHdr} (hs : 0 < sport ∧ sport < 65536) (hd : 0 < dport ∧ dport < 65536) (hl : 8 + data.length < 65536)
    (hps : ip.pshdrSum < 2 ^ 72) (ha : Udp.assemble sport dport data ip.pshdrSum = .ok d) (hdl : ip.dlen = d.length) (pad : Bytes) :
    (Verifies ip.pshdrSum d → Outcome ⟨ip.dst, dport, ip.src, sport, data⟩ true n.socks (Rx.udp n ip (d ++ pad))) ∧
    (¬ Verifies ip.pshdrSum d → Rx.udp n ip (d ++ pad) = .ok []) := by
  obtain ⟨f, h1, h2, h3, h4, h5⟩ := C18_udp_roundtrip sport dport data pad ip.pshdrSum hs hd hl hps
  rw [ha] at h1
  cases h1
  constructor
  · intro hv
    have hp := h3 hv
    rw [Rx.udp, hdl]
    simp only [hp, h5, py_ok_bind]
    have w : n.socks.Wf := by rw [hn]; exact Socks.run_wf hist
    obtain ⟨m1, m2⟩ := match_spec w ⟨ip.dst, dport, ip.src, sport, data⟩
    cases hm : n.socks.match? ⟨ip.dst, dport, ip.src, sport, data⟩ with
    | some r => exact .inl ⟨r, m1 r hm, rfl⟩
    | none =>
      refine .inr ⟨m2 hm, ?_⟩
      by_cases hu : ip.src.isUnspecified = true
      · exact ⟨[], by simp [hu], by simp⟩
      · refine ⟨Rx.portUnreachable ip, by simp [hu], ?_⟩
        intro r m'
        rw [Rx.portUnreachable]
        split <;> simp
  · intro hv
    rw [Rx.udp, hdl]
    simp [h4 hv]

/-! ### A fragmentation and the numbers of its pieces -/

/-- `got` (numbers) and `gp` (pieces) say the same. -/
def SameGot {α : Type} (fs : List Piece) (got : List Nat) (gp : List (Piece × α)) : Prop :=
  (∀ x ∈ gp, x.1 ∈ fs) ∧ ∀ i p, fs[i]? = some p → (p ∈ gp.map (·.1) ↔ i ∈ got)

theorem SameGot.nil {α : Type} (fs : List Piece) : SameGot fs [] ([] : List (Piece × α)) := ⟨by simp, by simp⟩

theorem SameGot.snoc {α : Type} {data : Bytes} {room : Nat} {fs : List Piece} (hF : IsFragmentation data room fs) {got : List Nat}
    {gp : List (Piece × α)} (h : SameGot fs got gp) {i : Nat} {x : Piece × α} (hx : fs[i]? = some x.1) :
    SameGot fs (i :: got) (gp ++ [x]) := by
  refine ⟨?_, ?_⟩
  · intro y hy
    rcases List.mem_append.mp hy with hy | hy
    · exact h.1 y hy
    · rw [List.mem_singleton.mp hy]; exact List.mem_of_getElem? hx
  · intro j p hp
    have := h.2 j p hp
    simp only [List.map_append, List.mem_append, this, List.map_cons, List.map_nil, List.mem_cons, List.not_mem_nil, or_false]
    have hn := IsFragmentation_nodup hF
    constructor
    · rintro (h | rfl)
      · exact .inr h
      · obtain ⟨l1, e1⟩ := List.getElem?_eq_some_iff.mp hp
        obtain ⟨l2, e2⟩ := List.getElem?_eq_some_iff.mp hx
        exact .inl ((List.getElem_inj hn).mp (e1.trans e2.symm))
    · rintro (rfl | h)
      · right
        rw [hp] at hx
        exact Option.some.inj hx
      · exact .inl h

theorem SameGot.all {α : Type} {fs : List Piece} {got : List Nat} {gp : List (Piece × α)} (h : SameGot fs got gp) :
    (∀ p ∈ fs, p ∈ gp.map (·.1)) ↔ ∀ j < fs.length, j ∈ got := by
  constructor
  · intro hall j hj
    exact (h.2 j fs[j] (List.getElem?_eq_getElem hj)).mp (hall _ (List.getElem_mem hj))
  · intro hall p hp
    obtain ⟨j, hj⟩ := List.mem_iff_getElem?.mp hp
    obtain ⟨hl, -⟩ := List.getElem?_eq_some_iff.mp hj
    exact (h.2 j p hj).mpr (hall j hl)

/-- A piece that is not marked as a fragment is the whole. -/
theorem whole_piece {data : Bytes} {room : Nat} {fs : List Piece} (hF : IsFragmentation data room fs) {i : Nat} {p : Piece}
    (hp : fs[i]? = some p) (ho : p.offset = 0) (hm : p.mf = false) : fs.length = 1 ∧ i = 0 ∧ p.data = data := by
  have h1 := hF.offset i p hp
  have h2 := (hF.mf i p hp)
  rw [hm] at h2
  obtain ⟨hl, e⟩ := List.getElem?_eq_some_iff.mp hp
  have h3 : ¬ i + 1 < fs.length := by simpa using h2
  have h4 : i = 0 := by
    by_cases hi : i = 0
    · exact hi
    exfalso
    have h0 : fs[0]'(by omega) ∈ fs.take i := by
      rw [List.mem_take_iff_getElem]
      exact ⟨0, by omega, rfl⟩
    have := hF.nonempty _ (List.mem_of_mem_take h0)
    rw [ho] at h1
    have hz := List.length_eq_zero_iff.mp h1.symm
    rw [List.flatten_eq_nil_iff] at hz
    exact this (hz _ (List.mem_map_of_mem h0))
  subst h4
  refine ⟨by omega, rfl, ?_⟩
  have : fs = [p] := by
    match fs, hl, h3, e with
    | [q], _, _, e => simp at e; rw [e]
    | q :: q' :: l, _, h3, _ => simp at h3
  rw [this] at hF
  simpa using hF.concat

/-! ### IPv4 -/

theorem verifies_valid (ps d : Bytes) (k n : Nat) (hk : k % 2 = 0) (hps : ps.length = k * n) (hd : d.length < 2 ^ 63)
    (hi : wordSum k n ps < 2 ^ 72) : Verifies (wordSum k n ps) d ↔ Valid (ps ++ d) := by
  rw [← C01_verify_rfc1071 ps d k n hk hps hd hi, C01_verify_exact d _ hd hi]; rfl

theorem pshdr4 {a dst : Ip4Address} {len ps : Nat} (h : Ip4.pshdrSum a dst 17 len = .ok ps) :
    len < 65536 ∧ ps < 2 ^ 72 ∧ ∀ d : Bytes, d.length < 2 ^ 63 → (Verifies ps d ↔ Valid (pseudo4 a dst len ++ d)) := by
  have hl : len < 65536 := by
    rw [Ip4.pshdrSum] at h
    by_cases hn : len < 65536
    · exact hn
    · exfalso
      have : packH len = .error .structError := by rw [packH, if_neg (by omega)]
      simp [this, packB_ok] at h
  refine ⟨hl, ?_⟩
  rw [Ip4.pshdr_ok a dst 17 len (by omega) hl] at h
  injection h with h
  have hs : ∀ x : Bytes, x = a.toBytes ++ dst.toBytes ++ bePack 1 0 ++ bePack 1 17 ++ bePack 2 len → x = pseudo4 a dst len := by
    intro x hx
    rw [hx, pseudo4, show bePack 1 0 = [0] from rfl, show bePack 1 17 = [17] from rfl]
    simp
  have hlen : (pseudo4 a dst len).length = 4 * 3 := by simp [pseudo4, codec]
  have hb := (wordSum_spec 4 rfl 3 (pseudo4 a dst len) (by omega)).2.2
  have h' : ps = wordSum 4 3 (pseudo4 a dst len) := by rw [← h]; congr 1
  rw [← h'] at hb
  have hlt : ps < 2 ^ 72 := by omega
  exact ⟨hlt, fun d hd => by rw [h'] at hlt ⊢; exact verifies_valid _ d 4 3 rfl hlen hd hlt⟩

/-- What a parsed packet keeps of the frame. -/
theorem Ip4.Parsed.fields {f : Bytes} {h : Ip4.Hdr} (hp : Ip4.parse f = .ok none) (hr : Ip4.read f = .ok h) :
    h.dlen = h.dataCopy.length ∧ (∃ pad, h.rest = h.dataCopy ++ pad) ∧
      Ip4.pshdrSum h.src h.dst h.proto h.dlen = .ok h.pshdrSum := by
  obtain ⟨r, hr', -, h2, h3, h4, h5, h6, -, -, -, -, -, -, -, h7, h8, -⟩ := C26_ip4_accepted_partial f hp
  rw [hr] at hr'
  cases hr'
  refine ⟨h8.symm, ?_, ?_⟩
  · have hrest : h.rest = f.drop h.hlen := by
      rw [Ip4.read] at hr
      simp only [bind, Except.bind, pure, Except.pure] at hr
      repeat' split at hr
      all_goals try cases hr
      rfl
    refine ⟨f.drop h.plen, ?_⟩
    rw [hrest, h7]
    have : f.drop h.plen = (f.drop h.hlen).drop (h.plen - h.hlen) := by rw [List.drop_drop]; congr 1; omega
    rw [this, List.drop_take, List.take_append_drop]
  · rw [Ip4.read] at hr
    simp only [bind, Except.bind, pure, Except.pure] at hr
    repeat' split at hr
    all_goals try cases hr
    rename_i hps
    exact hps

/-- The node's link-layer and IP addresses are those of `n₀`. -/
def SameAddrs (n₀ n : Node) : Prop := n.stack = n₀.stack ∧ n.macMulticast = n₀.macMulticast

theorem SameAddrs.holds {n₀ n : Node} (h : SameAddrs n₀ n) {F : Bytes} {e : Ether.Hdr} : HoldsEther n F e ↔ HoldsEther n₀ F e := by
  simp only [HoldsEther, MacForUs, h.1, h.2]

/-- The handler on a frame with a valid IPv4 packet for one of the node's addresses. -/
theorem ip4_has {n : Node} {F : Bytes} {h : Ip4.Hdr} (H : HasIp4 n F h) (t₀ t₁ : Int) (depth : Nat) :
    Rx.ether n t₀ t₁ depth F =
      if !Rx.ip4ForUs n.stack h.dst then (n, .ok [])
      else if h.offset ≠ 0 ∨ h.mf then
        ({ n with flows4 := (Frag.defragIp4 n.flows4 t₀ t₁ h).1 },
          match (Frag.defragIp4 n.flows4 t₀ t₁ h).2 with
          | .error e => .error e
          | .ok none => .ok []
          | .ok (some g) => do
            let failed ← Ip4.parse g
            let w ← Ip4.read g
            Rx.ip4Dispatch { n with flows4 := (Frag.defragIp4 n.flows4 t₀ t₁ h).1 } w (if failed.isSome then g else w.rest))
      else (n, Rx.ip4Dispatch n h h.rest) := by
  obtain ⟨e, he, ht, h1, h2⟩ := H
  rw [ether_holds he, ht, if_neg (by decide), if_pos rfl, Rx.ip4]
  simp only [h1, h2, py_ok_bind, py_pure]
  split
  · rfl
  · split
    · rcases Frag.defragIp4 n.flows4 t₀ t₁ h with ⟨fl, r⟩
      cases r with
      | error e => rfl
      | ok r => cases r <;> rfl
    · rfl

theorem ip6_keeps (t₀ t₁ : Int) : ∀ (depth : Nat) (n : Node) (f : Bytes),
    SameAddrs n (Rx.ip6 n t₀ t₁ depth f).1 ∧ (Rx.ip6 n t₀ t₁ depth f).1.flows4 = n.flows4 := by
  intro depth
  induction depth with
  | zero =>
    intro n f
    rw [Rx.ip6]
    repeat' split
    all_goals first | exact ⟨⟨rfl, rfl⟩, rfl⟩ | contradiction
  | succ depth ih =>
    intro n f
    rw [Rx.ip6]
    repeat' split
    all_goals first
      | exact ⟨⟨rfl, rfl⟩, rfl⟩
      | contradiction
      | (rename_i hd
         cases hd
         exact ih { n with flows6 := _ } _)

/-- What a frame does to the IPv4 fragments waiting. -/
theorem ether_flows4 (n : Node) (t₀ t₁ : Int) (depth : Nat) (F : Bytes) :
    let r := (Rx.ether n t₀ t₁ depth F).1
    (SameAddrs n r ∧ r.flows4 = n.flows4) ∨
    ∃ h, HasIp4 n F h ∧ (h.offset ≠ 0 ∨ h.mf = true) ∧ SameAddrs n r ∧ r.flows4 = (Frag.defragIp4 n.flows4 t₀ t₁ h).1 := by
  intro r
  by_cases hh : ∃ e, HoldsEther n F e
  · obtain ⟨e, he⟩ := hh
    have hr : r = (Rx.ether n t₀ t₁ depth F).1 := rfl
    rw [ether_holds he] at hr
    by_cases h1 : e.type = 0x0806
    · rw [if_pos h1] at hr; rw [hr]; exact .inl ⟨⟨rfl, rfl⟩, rfl⟩
    rw [if_neg h1] at hr
    by_cases h2 : e.type = 0x0800
    · by_cases hp : ∃ h, Ip4.parse e.data = .ok none ∧ Ip4.read e.data = .ok h
      · obtain ⟨h, hp, hd⟩ := hp
        have H : HasIp4 n F h := ⟨e, he, h2, hp, hd⟩
        have hr : r = (Rx.ether n t₀ t₁ depth F).1 := rfl
        rw [ip4_has H] at hr
        split at hr
        · rw [hr]; exact .inl ⟨⟨rfl, rfl⟩, rfl⟩
        · split at hr
          · rename_i hf
            rw [hr]; exact .inr ⟨h, H, by simpa using hf, ⟨rfl, rfl⟩, rfl⟩
          · rw [hr]; exact .inl ⟨⟨rfl, rfl⟩, rfl⟩
      · rw [if_pos h2, Rx.ip4] at hr
        cases hq : Ip4.parse e.data with
        | error x => simp [hq] at hr; rw [hr]; exact .inl ⟨⟨rfl, rfl⟩, rfl⟩
        | ok o =>
          cases o with
          | some m => simp [hq] at hr; rw [hr]; exact .inl ⟨⟨rfl, rfl⟩, rfl⟩
          | none =>
            cases hd : Ip4.read e.data with
            | error x => simp [hq, hd] at hr; rw [hr]; exact .inl ⟨⟨rfl, rfl⟩, rfl⟩
            | ok h => exact absurd ⟨h, hq, hd⟩ hp
    rw [if_neg h2] at hr
    split at hr
    · rw [hr]; exact .inl (ip6_keeps t₀ t₁ depth n e.data)
    · rw [hr]; exact .inl ⟨⟨rfl, rfl⟩, rfl⟩
  · have hr : r = (Rx.ether n t₀ t₁ depth F).1 := rfl
    rw [ether_other (fun e he => hh ⟨e, he⟩)] at hr
    rw [hr]; exact .inl ⟨⟨rfl, rfl⟩, rfl⟩

/-- A datagram in transit over IPv4: sent from `a`, `sport` to `dst`, `dport`, as the UDP packet `d` cut into `fs`. -/
structure Transit4 where
  a : Ip4Address
  dst : Ip4Address
  id : Nat
  sport : Nat
  dport : Nat
  data : Bytes
  ps : Nat
  d : Bytes
  room : Nat
  fs : List Piece
  hsport : 0 < sport ∧ sport < 65536
  hdport : 0 < dport ∧ dport < 65536
  hlen : 8 + data.length < 65536
  hps : Ip4.pshdrSum a dst 17 (8 + data.length) = .ok ps
  hd : Udp.assemble sport dport data ps = .ok d
  hF : IsFragmentation d room fs

namespace Transit4

def md (T : Transit4) : UdpMd := ⟨.v4 T.dst, T.dport, .v4 T.a, T.sport, T.data⟩
def key (T : Transit4) : Frag.Key4 := (T.a, T.dst, T.id)

theorem dlen (T : Transit4) : T.d.length = 8 + T.data.length := by
  obtain ⟨f, h1, h2, -⟩ := C18_udp_roundtrip T.sport T.dport T.data [] T.ps T.hsport T.hdport T.hlen (pshdr4 T.hps).2.1
  rw [T.hd] at h1; cases h1; exact h2

theorem ne (T : Transit4) : T.d ≠ [] := by
  intro h; have := T.dlen; rw [h] at this; simp at this; omega

theorem fs_ne (T : Transit4) : T.fs ≠ [] := by
  intro h
  have := T.hF.concat
  rw [h] at this
  exact T.ne this.symm

/-- The packet is one of this datagram's. -/
structure Mine (T : Transit4) (h : Ip4.Hdr) : Prop where
  parsed : Ip4.Parsed h
  src : h.src = T.a
  dst : h.dst = T.dst
  proto : h.proto = 17

/-- The state of the receiver while the datagram is in transit. -/
def Inv (T : Transit4) (n₀ : Node) (n : Node) (got : List Nat) (t : Int) : Prop :=
  SameAddrs n₀ n ∧ Frag.Past n.flows4 t ∧ (¬ ∀ j < T.fs.length, j ∈ got) ∧
  ∃ gp : List (Piece × Ip4.Hdr), SameGot T.fs got gp ∧ Frag.TracksAt Ip4.Hdr.headerCopy n.flows4 T.key gp ∧
    ∀ x ∈ gp, T.Mine x.2

/-- What the handling of one of its packets comes to. -/
def Out (T : Transit4) (b : Bool) (x : Arrival) (res : Py (List Eff)) : Prop :=
  match b with
  | false => res = .ok []
  | true =>
    (T.d.length ≤ 65515 → (Verifies T.ps T.d → Outcome T.md true x.socks res) ∧ (¬ Verifies T.ps T.d → res = .ok [])) ∧
    (65515 < T.d.length → res = .error .structError)

/-- The arrivals: a packet of the datagram, or no fragment of this one. -/
def P (T : Transit4) (n₀ : Node) : Option Nat → Arrival → Prop
  | some i, x => (∃ hist, x.socks = (Spec.run hist).1) ∧ ∃ h, HasIp4 n₀ x.frame h ∧ h.src = T.a ∧ h.dst = T.dst ∧ h.proto = 17 ∧
      (h.offset ≠ 0 ∨ h.mf = true → h.id = T.id) ∧ T.fs[i]? = some h.piece
  | none, x => ∀ h, HasIp4 n₀ x.frame h → h.offset ≠ 0 ∨ h.mf = true → (h.src, h.dst, h.id) ≠ T.key

theorem dispatch (T : Transit4) {n : Node} {hist : List (Spec.Env × Spec.Op)} (hn : n.socks = (Spec.run hist).1) {h : Ip4.Hdr}
    (h1 : h.src = T.a) (h2 : h.dst = T.dst) (h3 : h.proto = 17) (h4 : h.dlen = T.d.length) (h5 : ∃ pad, h.rest = T.d ++ pad)
    (h6 : Ip4.pshdrSum h.src h.dst h.proto h.dlen = .ok h.pshdrSum) :
    (Verifies T.ps T.d → Outcome T.md true n.socks (Rx.ip4Dispatch n h h.rest)) ∧
    (¬ Verifies T.ps T.d → Rx.ip4Dispatch n h h.rest = .ok []) := by
  obtain ⟨pad, h5⟩ := h5
  have hps : h.pshdrSum = T.ps := by
    rw [h1, h2, h3, h4, T.dlen, T.hps] at h6
    injection h6 with h6
    exact h6.symm
  rw [Rx.ip4Dispatch, if_neg (by omega), if_pos h3, h5]
  have := udp_step (ip := Rx.ofIp4 h) hn T.hsport T.hdport T.hlen (by rw [Rx.ofIp4, hps]; exact (pshdr4 T.hps).2.1)
    (by rw [Rx.ofIp4, hps]; exact T.hd) h4 pad
  simp only [Rx.ofIp4, hps, h1, h2] at this
  simp only [Rx.ofIp4, hps, h1, h2]
  exact this

theorem finishIp4_long (h : Ip4.Hdr) (hp : Ip4.Parsed h) (data : Bytes) (hd : 65515 < data.length) :
    Frag.finishIp4 h.headerCopy data = .error .structError := by
  obtain ⟨f, hf, hr⟩ := hp
  have hc : h.headerCopy.length = 20 := by
    obtain ⟨r, hr', -, -, h3, h4, h5, -⟩ := C26_ip4_accepted_partial f hf
    rw [hr] at hr'
    cases hr'
    have : h.headerCopy = f.take 20 := by
      rw [Ip4.read] at hr
      simp only [bind, Except.bind, pure, Except.pure] at hr
      repeat' split at hr
      all_goals try cases hr
      rfl
    rw [this, List.length_take]
    omega
  rw [Frag.finishIp4, setIdx, if_pos (by omega)]
  simp only [py_ok_bind]
  rw [packIntoH, packH, if_neg (by omega)]
  simp

theorem hours (T : Transit4) (n₀ : Node) (hl : Listens4 n₀ T.dst) (depth : Nat) :
    ∀ n got t i x, T.Inv n₀ n got t → T.P n₀ (some i) x → t ≤ x.t₀ → x.t₀ ≤ x.t₁ →
      let r := Rx.ether { n with socks := x.socks } x.t₀ x.t₁ depth x.frame
      if ∀ j < T.fs.length, j ∈ i :: got then T.Out true x r.2 ∧ T.Inv n₀ r.1 [] x.t₁
      else T.Out false x r.2 ∧ T.Inv n₀ r.1 (i :: got) x.t₁ := by
  intro n got t i x hI hP ht h01 r
  obtain ⟨hA, hpast, hinc, gp, hG, hT, hM⟩ := hI
  obtain ⟨⟨hist, hsocks⟩, h, ⟨e, he, hty, hpar, hrd⟩, h1, h2, h3, hid, hpi⟩ := hP
  have hA' : SameAddrs n₀ { n with socks := x.socks } := hA
  have hH : HasIp4 { n with socks := x.socks } x.frame h := ⟨e, hA'.holds.mpr he, hty, hpar, hrd⟩
  have hfor : Rx.ip4ForUs n.stack h.dst = true := by
    rw [hA.1, ip4ForUs_iff, h2]; exact .inr hl
  have hr : r = _ := ip4_has hH x.t₀ x.t₁ depth
  rw [if_neg (by simp [hfor])] at hr
  obtain ⟨f1, f2, f3⟩ := Ip4.Parsed.fields hpar hrd
  have hpast' : Frag.Past n.flows4 x.t₀ := hpast.mono ht
  by_cases hfr : h.offset ≠ 0 ∨ h.mf = true
  · -- a fragment
    rw [if_pos hfr] at hr
    have hkey : (h.src, h.dst, h.id) = T.key := by rw [h1, h2, hid hfr]; rfl
    have hmine : T.Mine h := ⟨⟨_, hpar, hrd⟩, h1, h2, h3⟩
    have hpf : h.piece ∈ T.fs := List.mem_of_getElem? hpi
    have hG' := hG.snoc T.hF (i := i) (x := (h.piece, h)) hpi
    have hM' : ∀ y ∈ gp ++ [(h.piece, h)], T.Mine y.2 := by
      intro y hy
      rcases List.mem_append.mp hy with hy | hy
      · exact hM y hy
      · rw [List.mem_singleton.mp hy]; exact hmine
    have hstep := Frag.defrag_same T.hF T.ne Frag.finishIp4 hG.1 hT x.t₁ hpast' (h.piece, h) hpf
    have hdp : Frag.defrag Frag.finishIp4 n.flows4 x.t₀ x.t₁ T.key h.headerCopy h.piece.offset h.piece.mf h.piece.data =
        Frag.defragIp4 n.flows4 x.t₀ x.t₁ h := by rw [Frag.defragIp4, hkey]; rfl
    simp only [hdp] at hstep
    have hpast1 : Frag.Past (Frag.defragIp4 n.flows4 x.t₀ x.t₁ h).1 x.t₁ :=
      Frag.defrag_past Frag.finishIp4 hpast' h01 _ _ _ _ _
    revert hstep hr hpast1
    generalize Frag.defragIp4 n.flows4 x.t₀ x.t₁ h = q
    intro hr hstep hpast1
    by_cases hall : ∀ j < T.fs.length, j ∈ i :: got
    · rw [if_pos hall]
      rw [if_pos (hG'.all.mpr hall)] at hstep
      obtain ⟨hT1, h₀, hh, hq⟩ := hstep
      have hm0 : T.Mine h₀ := by
        obtain ⟨y, hy, hy'⟩ := Option.map_eq_some_iff.mp hh
        have := hM' y (List.mem_of_head? hy)
        rw [hy'] at this
        exact this
      have hI' : T.Inv n₀ r.1 [] x.t₁ := by
        rw [hr]
        refine ⟨hA, hpast1, ?_, [], SameGot.nil _, hT1, by simp⟩
        intro hc
        have := T.fs_ne
        have := hc 0 (by cases hfs : T.fs <;> simp_all)
        simp at this
      refine ⟨⟨?_, ?_⟩, hI'⟩
      · intro hle
        obtain ⟨g1, g2, g3⟩ := finishIp4_ok h₀ hm0.parsed T.d hle
        have hps := Ip4.pshdr_ok h₀.src h₀.dst h₀.proto T.d.length g1.2.2.2.2.1 (by omega)
        have hh20 : h₀.wholeTx.hlen = 20 := by simp [Ip4.Hdr.wholeTx, Ip4.Tx.hlen, Ip4.rawOptions]
        have hv := Ip4.header_verifies h₀.wholeTx (20 + T.d.length) rfl
        have hcore := Ip4.core h₀.wholeTx T.d [] _ _ g1 g2 (by rw [hh20]; exact hv) hps
        simp only [List.append_nil, hh20] at hcore
        rw [hq, g3] at hr
        simp only [Except.map, hcore.1, hcore.2, py_ok_bind, Option.isSome_none, Bool.false_eq_true, if_false] at hr
        rw [hr]
        exact dispatch T (n := { n with socks := x.socks, flows4 := q.1 }) (hist := hist) hsocks hm0.src hm0.dst hm0.proto rfl
          ⟨[], by simp⟩ hps
      · intro hgt
        rw [hq, finishIp4_long h₀ hm0.parsed T.d hgt] at hr
        rw [hr]
        rfl
    · rw [if_neg hall]
      rw [if_neg (fun hc => hall (hG'.all.mp hc))] at hstep
      rw [hstep.2] at hr
      rw [hr]
      exact ⟨rfl, hA, hpast1, hall, _, hG', hstep.1, hM'⟩
  · -- a whole packet
    rw [if_neg hfr] at hr
    have hw := whole_piece T.hF hpi (by simpa [Ip4.Hdr.piece] using fun h => hfr (.inl h))
      (by simpa [Ip4.Hdr.piece] using fun h => hfr (.inr h))
    obtain ⟨w1, w2, w3⟩ := hw
    have hall : ∀ j < T.fs.length, j ∈ i :: got := by
      intro j hj; have : j = i := by omega
      simp [this]
    have hgp : gp = [] := by
      cases gp with
      | nil => rfl
      | cons y gp =>
        exfalso
        apply hinc
        obtain ⟨k, hk⟩ := List.mem_iff_getElem?.mp (hG.1 y (by simp))
        have := (hG.2 k y.1 hk).mp (by simp)
        intro j hj
        obtain ⟨hl', -⟩ := List.getElem?_eq_some_iff.mp hk
        rw [show j = k by omega]
        exact this
    subst hgp
    rw [if_pos hall, hr]
    have hdl : h.dataCopy = T.d := w3
    have hsmall : T.d.length < 65536 := by rw [T.dlen]; exact T.hlen
    refine ⟨⟨fun _ => ?_, ?_⟩, hA, hpast.mono (Int.le_trans ht h01), ?_, [], SameGot.nil _, hT, by simp⟩
    · rw [hdl] at f1 f2
      exact dispatch T (n := { n with socks := x.socks }) (hist := hist) hsocks h1 h2 h3 f1 f2 f3
    · intro hgt
      exfalso
      obtain ⟨r, hr', -, -, h3', h4', h5', h6', -⟩ := C26_ip4_accepted_partial _ hpar
      rw [hrd] at hr'
      cases hr'
      have hpl : h.plen < 65536 := by
        rw [Ip4.read] at hrd
        cases hpl : Ip4.plen e.data with
        | error _ =>
          rw [hpl] at hrd
          simp only [bind, Except.bind] at hrd
          split at hrd <;> cases hrd
        | ok v =>
          rw [hpl] at hrd
          have hv : v < 65536 := by
            exact u16_lt hpl
          simp only [bind, Except.bind, pure, Except.pure] at hrd
          repeat' split at hrd
          all_goals try cases hrd
          exact hv
      rw [← hdl, ← f1] at hgt
      omega
    · intro hc
      have := hc 0 (by omega)
      simp at this

theorem other (T : Transit4) (n₀ : Node) (depth : Nat) :
    ∀ n got t x, T.Inv n₀ n got t → T.P n₀ none x → t ≤ x.t₀ → x.t₀ ≤ x.t₁ →
      T.Inv n₀ (Rx.ether { n with socks := x.socks } x.t₀ x.t₁ depth x.frame).1 got x.t₁ := by
  intro n got t x ⟨hA, hpast, hinc, gp, hG, hT, hM⟩ hP ht h01
  have hA' : SameAddrs n₀ { n with socks := x.socks } := hA
  have hpast1 := hpast.mono (Int.le_trans ht h01)
  have hsame : ∀ m : Node, SameAddrs n m → m.flows4 = n.flows4 → T.Inv n₀ m got x.t₁ := by
    intro m h1 h2
    refine ⟨⟨h1.1.trans hA.1, h1.2.trans hA.2⟩, ?_, hinc, gp, hG, ?_, hM⟩
    · rw [h2]; exact hpast1
    · rw [h2]; exact hT
  rcases ether_flows4 { n with socks := x.socks } x.t₀ x.t₁ depth x.frame with ⟨h1, h2⟩ | ⟨h, hh, hf, h1, h2⟩
  · exact hsame _ h1 h2
  · obtain ⟨e, he, hrest⟩ := hh
    have hk := hP h ⟨e, hA'.holds.mp he, hrest⟩ hf
    refine ⟨⟨h1.1.trans hA.1, h1.2.trans hA.2⟩, ?_, hinc, gp, hG, ?_, hM⟩
    · rw [h2]
      exact Frag.defrag_past Frag.finishIp4 (hpast.mono ht) h01 _ _ _ _ _
    · have := Frag.defrag_other Frag.finishIp4 x.t₁ (hpast.mono ht) (Ne.symm hk) h.headerCopy h.offset h.mf h.dataCopy
      rw [h2, Frag.TracksAt, Frag.defragIp4, this]
      exact hT

end Transit4
end Verif
