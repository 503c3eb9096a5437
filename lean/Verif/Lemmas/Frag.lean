import Verif.Model.Frag
import Verif.Spec.Frag
import Verif.Lemmas.Dict
/-! Helper lemmas about reassembly. -/
namespace Verif.Frag
open Spec (Piece IsFragmentation deliveries)

/-! ### Sorted chains of pieces -/

theorem sublist_of_sorted {V : Type} {l m : List (Nat × V)} (hl : l.Pairwise (fun a b => a.1 < b.1))
    (hm : m.Pairwise (fun a b => a.1 < b.1)) (h : ∀ x ∈ l, x ∈ m) : l.Sublist m := by
  induction m generalizing l with
  | nil =>
    cases l with
    | nil => exact List.Sublist.refl _
    | cons x l => exact absurd (h x (by simp)) (by simp)
  | cons y m ih =>
    cases l with
    | nil => exact List.nil_sublist _
    | cons x l =>
      obtain ⟨hx, hl'⟩ := List.pairwise_cons.mp hl
      obtain ⟨hy, hm'⟩ := List.pairwise_cons.mp hm
      rcases List.mem_cons.mp (h x (by simp)) with rfl | hxm
      · refine List.Sublist.cons_cons _ (ih hl' hm' ?_)
        intro z hz
        rcases List.mem_cons.mp (h z (by simp [hz])) with rfl | h1
        · exact absurd (hx _ hz) (Nat.lt_irrefl _)
        · exact h1
      · refine List.Sublist.cons _ (ih hl hm' ?_)
        intro z hz
        rcases List.mem_cons.mp (h z hz) with rfl | h1
        · rcases List.mem_cons.mp hz with rfl | h2
          · exact hxm
          · have := hx _ h2; have := hy _ hxm; omega
        · exact h1

/-- Non-empty pieces laid end to end from `off`. -/
def Chain : Nat → List (Nat × Bytes) → Prop
  | _, [] => True
  | off, (o, d) :: l => o = off ∧ d ≠ [] ∧ Chain (off + d.length) l

theorem Chain.ge {off : Nat} {l : List (Nat × Bytes)} (h : Chain off l) : ∀ x ∈ l, off ≤ x.1 := by
  induction l generalizing off with
  | nil => simp
  | cons e l ih =>
    obtain ⟨o, d⟩ := e
    obtain ⟨rfl, -, h3⟩ := h
    intro x hx
    rcases List.mem_cons.mp hx with rfl | hx
    · exact Nat.le_refl _
    · have := ih h3 x hx; omega

theorem Chain.sorted {off : Nat} {l : List (Nat × Bytes)} (h : Chain off l) : l.Pairwise (fun a b => a.1 < b.1) := by
  induction l generalizing off with
  | nil => exact List.Pairwise.nil
  | cons e l ih =>
    obtain ⟨o, d⟩ := e
    obtain ⟨rfl, h2, h3⟩ := h
    refine List.pairwise_cons.mpr ⟨?_, ih h3⟩
    intro x hx
    have := h3.ge x hx
    have : 0 < d.length := List.length_pos_iff.mpr h2
    show o < x.1
    omega

theorem walk_chain {off : Nat} {l m : List (Nat × Bytes)} (hc : Chain off m) (hs : l.Sublist m)
    (hlast : ∀ x, m.getLast? = some x → x ∈ l) :
    walk off l = if l = m then some (off + ((m.map (·.2)).flatten).length) else none := by
  induction m generalizing off l with
  | nil => rw [List.sublist_nil.mp hs]; simp [walk]
  | cons e m ih =>
    obtain ⟨o, d⟩ := e
    obtain ⟨rfl, h2, h3⟩ := hc
    have hd : 0 < d.length := List.length_pos_iff.mpr h2
    cases hs with
    | cons _ hs =>
      have hne : l ≠ (o, d) :: m := by
        intro e; have := hs.length_le; rw [e] at this; simp at this; omega
      rw [if_neg hne]
      cases l with
      | nil =>
        obtain ⟨x, hx⟩ : ∃ x, ((o, d) :: m).getLast? = some x := ⟨_, List.getLast?_cons ..⟩
        exact absurd (hlast x hx) (by simp)
      | cons y l =>
        obtain ⟨o', d'⟩ := y
        have := h3.ge _ (hs.subset (List.mem_cons_self))
        rw [walk, if_pos (by simp at this; omega)]
    | cons_cons _ hs =>
      rename_i l
      rw [walk, if_neg (by omega), ih h3 hs]
      · by_cases e : l = m
        · simp [e, Nat.add_assoc]
        · simp [e]
      · intro x hx
        have hm : m ≠ [] := by rintro rfl; simp at hx
        have := hlast x (by rw [List.getLast?_cons, hx]; rfl)
        rcases List.mem_cons.mp this with rfl | h
        · have := h3.ge _ (List.mem_of_getLast? hx)
          simp at this; omega
        · exact h

theorem fill_chain {off : Nat} {m : List (Nat × Bytes)} {b : Bytes} (hc : Chain off m)
    (hb : b.length = off + ((m.map (·.2)).flatten).length) :
    fill b m = .ok (b.take off ++ (m.map (·.2)).flatten) := by
  induction m generalizing off b with
  | nil => simp at hb; simp [fill, ← hb]
  | cons e m ih =>
    obtain ⟨o, d⟩ := e
    obtain ⟨rfl, h2, h3⟩ := hc
    simp only [List.map_cons, List.flatten_cons, List.length_append] at hb ⊢
    rw [fill, packIntoBytes, if_pos (by omega)]
    have e1 : (b.take o ++ d).length = o + d.length := by simp; omega
    simp only
    rw [ih h3 (by rw [List.length_append, e1, List.length_drop]; omega)]
    rw [List.take_append_of_le_length (by omega), List.take_of_length_le (by omega)]
    simp

/-- The pairs stored for a list of pieces. -/
def items (fs : List Piece) : List (Nat × Bytes) := fs.map (fun p => (p.offset, p.data))

theorem items_chain_aux (fs : List Piece) (off : Nat) (ho : ∀ i f, fs[i]? = some f → f.offset = off + ((fs.take i).map (·.data)).flatten.length)
    (hn : ∀ f ∈ fs, f.data ≠ []) : Chain off (items fs) := by
  induction fs generalizing off with
  | nil => trivial
  | cons p fs ih =>
    refine ⟨by simpa using ho 0 p rfl, hn p (by simp), ih _ ?_ (fun f hf => hn f (by simp [hf]))⟩
    intro i f hf
    have := ho (i + 1) f (by simpa using hf)
    rw [this]; simp; omega

theorem items_chain {data : Bytes} {room : Nat} {fs : List Piece} (h : IsFragmentation data room fs) : Chain 0 (items fs) :=
  items_chain_aux fs 0 (by simpa using h.offset) h.nonempty

theorem items_data {data : Bytes} {room : Nat} {fs : List Piece} (h : IsFragmentation data room fs) :
    ((items fs).map (·.2)).flatten = data := by
  rw [items, List.map_map, ← h.concat]; rfl

/-- Pieces with the same offset are the same. -/
theorem piece_unique {data : Bytes} {room : Nat} {fs : List Piece} (h : IsFragmentation data room fs) {p q : Piece}
    (hp : p ∈ fs) (hq : q ∈ fs) (he : p.offset = q.offset) : p = q := by
  obtain ⟨i, hi, hp'⟩ := List.mem_iff_getElem.mp hp
  obtain ⟨j, hj, hq'⟩ := List.mem_iff_getElem.mp hq
  have hs := (items_chain h).sorted
  rw [items, List.pairwise_map] at hs
  rw [List.pairwise_iff_getElem] at hs
  rcases Nat.lt_trichotomy i j with hij | hij | hij
  · have := hs i j hi hj hij; rw [hp', hq'] at this; omega
  · subst hij; rw [← hp', ← hq']
  · have := hs j i hj hi hij; rw [hp', hq'] at this; omega

theorem mf_false_iff {data : Bytes} {room : Nat} {fs : List Piece} (h : IsFragmentation data room fs) {p : Piece}
    (hp : p ∈ fs) : p.mf = false ↔ fs.getLast? = some p := by
  obtain ⟨i, hi, hp'⟩ := List.mem_iff_getElem.mp hp
  have hm := h.mf i p (by rw [List.getElem?_eq_getElem hi, hp'])
  rw [← Bool.not_eq_true, hm, List.getLast?_eq_getElem?]
  constructor
  · intro h1
    have : i = fs.length - 1 := by omega
    rw [← this, List.getElem?_eq_getElem hi, hp']
  · intro h1 h2
    have hl : fs.length - 1 < fs.length := by omega
    rw [List.getElem?_eq_getElem hl] at h1
    injection h1 with h1
    have hu := (items_chain h).sorted
    rw [items, List.pairwise_map, List.pairwise_iff_getElem] at hu
    have := hu i (fs.length - 1) hi hl (by omega)
    rw [h1, hp'] at this
    exact absurd this (Nat.lt_irrefl _)

/-! ### One step -/

variable {K : Type} [DecidableEq K] {α : Type}

/-- The stored flow is the record of the arrivals `got`. -/
structure Tracks (header : α → Bytes) (fl : Flow) (got : List (Piece × α)) : Prop where
  header : (got.head?.map (fun x => header x.2)) = some fl.header
  nodup : fl.data.keys.Nodup
  data : ∀ o d, fl.data.get? o = some d ↔ ∃ x ∈ got, x.1.offset = o ∧ x.1.data = d
  last : fl.last = true ↔ ∃ x ∈ got, x.1.mf = false

/-- The same for the whole dictionary at one key: nothing is stored iff nothing has arrived. -/
def TracksAt (header : α → Bytes) (flows : Dict K Flow) (k : K) (got : List (Piece × α)) : Prop :=
  match flows.get? k with
  | none => got = []
  | some fl => Tracks header fl got

/-- No stored time stamp is in the future. -/
def Past (flows : Dict K Flow) (t : Int) : Prop := ∀ e ∈ flows, e.2.timestamp ≤ t

omit [DecidableEq K] in
theorem cleanup_past {flows : Dict K Flow} {t : Int} (h : Past flows t) : cleanup flows t = flows := by
  rw [cleanup, List.filter_eq_self]
  intro e he
  have := h e he
  exact decide_eq_true (show e.2.timestamp - t < 5000000 by omega)

omit [DecidableEq K] in
theorem Past.mono {flows : Dict K Flow} {t t' : Int} (h : Past flows t) (ht : t ≤ t') : Past flows t' :=
  fun e he => Int.le_trans (h e he) ht

theorem mem_set {V : Type} {d : Dict K V} {k : K} {v : V} {e : K × V} (h : e ∈ d.set k v) : e = (k, v) ∨ e ∈ d := by
  induction d with
  | nil => simp [Dict.set] at h; exact Or.inl h
  | cons x d ih =>
    obtain ⟨k', v'⟩ := x
    rw [Dict.set] at h
    split at h
    · rcases List.mem_cons.mp h with h | h
      · exact Or.inl h
      · exact Or.inr (by simp [h])
    · rcases List.mem_cons.mp h with h | h
      · exact Or.inr (by simp [h])
      · rcases ih h with h | h
        · exact Or.inl h
        · exact Or.inr (by simp [h])

theorem record_stamp {flows : Dict K Flow} {t : Int} (h : Past flows t) (key : K) (header : Bytes) (offset : Nat)
    (mf : Bool) (data : Bytes) : (record flows t key header offset mf data).timestamp ≤ t := by
  have : (match flows.get? key with
    | some fl => { fl with data := fl.data.set offset data }
    | none => ({ header := header, timestamp := t, last := false, data := [(offset, data)] } : Flow)).timestamp ≤ t := by
    split
    · rename_i fl hfl; exact h _ (Dict.get?_mem hfl)
    · exact Int.le_refl _
  cases mf <;> exact this

theorem defrag_past (finish : Bytes → Bytes → Py Bytes) {flows : Dict K Flow} {t₀ t₁ : Int} (h : Past flows t₀)
    (ht : t₀ ≤ t₁) (key : K) (header : Bytes) (offset : Nat) (mf : Bool) (data : Bytes) :
    Past (defrag finish flows t₀ t₁ key header offset mf data).1 t₁ := by
  have h1 : Past (flows.set key (record flows t₁ key header offset mf data)) t₁ := by
    intro e he
    rcases mem_set he with rfl | he
    · exact record_stamp (h.mono ht) ..
    · exact h.mono ht e he
  rw [defrag, cleanup_past h]
  split
  · exact h1
  · split
    · exact h1
    · split
      · exact h1
      · intro e he
        exact h1 e (List.mem_filter.mp he).1

/-- Fragments of other datagrams do not touch this one. -/
theorem defrag_other (finish : Bytes → Bytes → Py Bytes) {flows : Dict K Flow} {t₀ : Int} (t₁ : Int) (h : Past flows t₀)
    {key k : K} (hk : k ≠ key) (header : Bytes) (offset : Nat) (mf : Bool) (data : Bytes) :
    (defrag finish flows t₀ t₁ key header offset mf data).1.get? k = flows.get? k := by
  rw [defrag, cleanup_past h]
  split
  · exact Dict.get?_set_ne _ _ hk
  · split
    · exact Dict.get?_set_ne _ _ hk
    · split
      · exact Dict.get?_set_ne _ _ hk
      · show Dict.get? (Dict.erase _ _) k = _
        rw [Dict.get?_erase_ne _ hk, Dict.get?_set_ne _ _ hk]

theorem record_tracks {header : α → Bytes} {data : Bytes} {room : Nat} {fs : List Piece} (hF : IsFragmentation data room fs)
    {flows : Dict K Flow} {k : K} {got : List (Piece × α)} (hg : ∀ x ∈ got, x.1 ∈ fs) (h : TracksAt header flows k got)
    (t : Int) (x : Piece × α) (hx : x.1 ∈ fs) :
    Tracks header (record flows t k (header x.2) x.1.offset x.1.mf x.1.data) (got ++ [x]) := by
  have main : ∀ fl : Flow, ((got ++ [x]).head?.map (fun x => header x.2)) = some fl.header → fl.data.keys.Nodup →
      (∀ o d, fl.data.get? o = some d ↔ ∃ y ∈ got ++ [x], y.1.offset = o ∧ y.1.data = d) →
      (fl.last = true ↔ ∃ y ∈ got, y.1.mf = false) →
      Tracks header (if x.1.mf then fl else { fl with last := true }) (got ++ [x]) := by
    intro fl h1 h2 h3 h4
    cases hm : x.1.mf with
    | true =>
      refine ⟨by simpa using h1, by simpa using h2, by simpa using h3, ?_⟩
      simp only [if_true, h4, List.mem_append, List.mem_singleton]
      constructor
      · rintro ⟨y, hy, h⟩; exact ⟨y, Or.inl hy, h⟩
      · rintro ⟨y, hy | rfl, h⟩
        · exact ⟨y, hy, h⟩
        · rw [hm] at h; cases h
    | false =>
      refine ⟨by simpa using h1, by simpa using h2, by simpa using h3, ?_⟩
      simp only [Bool.false_eq_true, if_false, true_iff]
      exact ⟨x, by simp, hm⟩
  rw [record]
  rw [TracksAt] at h
  apply main
  · split at h
    · rename_i h0; simp [h]; rw [h0]
    · rename_i fl h0
      obtain ⟨h1, -⟩ := h
      cases got with
      | nil => simp at h1
      | cons g got => simpa [h0] using h1
  · split at h
    · rename_i h0; rw [h0]; simp [Dict.keys]
    · rename_i fl h0; rw [h0]; exact Dict.nodup_set _ _ h.nodup
  · intro o d
    split at h
    · rename_i h0
      rw [h0]
      subst h
      simp only [Dict.get?_cons, Dict.get?_nil, List.nil_append, List.mem_singleton, exists_eq_left]
      split <;> simp [*]
    · rename_i fl h0
      rw [h0]
      simp only [Dict.get?_set]
      by_cases ho : o = x.1.offset
      · rw [if_pos ho]
        simp only [Option.some.injEq, List.mem_append, List.mem_singleton]
        constructor
        · rintro rfl; exact ⟨x, Or.inr rfl, ho.symm, rfl⟩
        · rintro ⟨y, hy | rfl, h1, h2⟩
          · have := piece_unique hF hx (hg y hy) (by rw [h1, ho])
            rw [this, h2]
          · exact h2
      · rw [if_neg ho, h.data]
        simp only [List.mem_append, List.mem_singleton]
        constructor
        · rintro ⟨y, hy, h⟩; exact ⟨y, Or.inl hy, h⟩
        · rintro ⟨y, hy | rfl, h1, h2⟩
          · exact ⟨y, hy, h1, h2⟩
          · exact absurd h1.symm ho
  · split at h
    · rename_i h0; rw [h0]; subst h; simp
    · rename_i fl h0; rw [h0]; exact h.last

theorem defrag_same {header : α → Bytes} {data : Bytes} {room : Nat} {fs : List Piece} (hF : IsFragmentation data room fs)
    (hne : data ≠ []) (finish : Bytes → Bytes → Py Bytes)
    {flows : Dict K Flow} {k : K} {got : List (Piece × α)} (hg : ∀ x ∈ got, x.1 ∈ fs) (h : TracksAt header flows k got)
    {t₀ : Int} (t₁ : Int) (hp : Past flows t₀) (x : Piece × α) (hx : x.1 ∈ fs) :
    let r := defrag finish flows t₀ t₁ k (header x.2) x.1.offset x.1.mf x.1.data
    if ∀ p ∈ fs, p ∈ (got ++ [x]).map (·.1) then
      TracksAt header r.1 k ([] : List (Piece × α)) ∧
        ∃ h₀, (got ++ [x]).head?.map (·.2) = some h₀ ∧ r.2 = (finish (header h₀) data).map some
    else TracksAt header r.1 k (got ++ [x]) ∧ r.2 = .ok none := by
  intro r
  have hT := record_tracks hF hg h t₁ x hx
  have hr : r = defrag finish flows t₀ t₁ k (header x.2) x.1.offset x.1.mf x.1.data := rfl
  rw [defrag, cleanup_past hp] at hr
  revert hT hr
  generalize record flows t₁ k (header x.2) x.1.offset x.1.mf x.1.data = fl
  intro hT hr
  have hg' : ∀ y ∈ got ++ [x], y.1 ∈ fs := by
    intro y hy
    rcases List.mem_append.mp hy with hy | hy
    · exact hg y hy
    · rw [List.mem_singleton.mp hy]; exact hx
  have hfs : fs ≠ [] := fun e => by rw [e] at hx; simp at hx
  have hmem : ∀ o d, (o, d) ∈ fl.data.sortedItems ↔ ∃ y ∈ got ++ [x], y.1.offset = o ∧ y.1.data = d := by
    intro o d
    rw [(Dict.sortedItems_perm _).mem_iff, Dict.mem_iff hT.nodup, hT.data]
  have hsub : fl.data.sortedItems.Sublist (items fs) := by
    refine sublist_of_sorted (Dict.sortedItems_pairwise hT.nodup) (items_chain hF).sorted ?_
    rintro ⟨o, d⟩ hod
    obtain ⟨y, hy, rfl, rfl⟩ := (hmem o d).mp hod
    exact List.mem_map.mpr ⟨y.1, hg' y hy, rfl⟩
  have hnone : ∀ c : Prop, ¬ c → (c ↔ ∀ p ∈ fs, p ∈ (got ++ [x]).map (·.1)) →
      r = (flows.set k fl, .ok none) → TracksAt header r.1 k (got ++ [x]) ∧ r.2 = .ok none := by
    intro c _ _ hr
    rw [hr]
    refine ⟨?_, rfl⟩
    rw [TracksAt, Dict.get?_set_self]
    exact hT
  by_cases hl : fl.last = false
  · have hn : ¬ ∀ p ∈ fs, p ∈ (got ++ [x]).map (·.1) := by
      intro hall
      have hlm : fs.getLast? = some (fs.getLast hfs) := List.getLast?_eq_some_getLast hfs
      have hlast := (mf_false_iff hF (List.getLast_mem hfs)).mpr hlm
      obtain ⟨y, hy, he⟩ := List.mem_map.mp (hall _ (List.getLast_mem hfs))
      have := hT.last.mpr ⟨y, hy, by rw [he]; exact hlast⟩
      rw [hl] at this; cases this
    rw [if_neg hn]
    simp only [hl, if_true] at hr
    exact hnone _ hn Iff.rfl hr
  · have hl' : fl.last = true := by simpa using hl
    have hlast : ∀ y, (items fs).getLast? = some y → y ∈ fl.data.sortedItems := by
      intro y hy
      obtain ⟨z, hz, hmf⟩ := hT.last.mp hl'
      have := (mf_false_iff hF (hg' z hz)).mp hmf
      rw [items, List.getLast?_map, this] at hy
      simp at hy
      rw [← hy]
      exact (hmem _ _).mpr ⟨z, hz, rfl, rfl⟩
    have hw := walk_chain (items_chain hF) hsub hlast
    have hiff : fl.data.sortedItems = items fs ↔ ∀ p ∈ fs, p ∈ (got ++ [x]).map (·.1) := by
      constructor
      · intro he p hp
        have : (p.offset, p.data) ∈ fl.data.sortedItems := by rw [he]; exact List.mem_map.mpr ⟨p, hp, rfl⟩
        obtain ⟨y, hy, h1, h2⟩ := (hmem _ _).mp this
        have := piece_unique hF (hg' y hy) hp h1
        exact List.mem_map.mpr ⟨y, hy, this⟩
      · intro hall
        refine hsub.eq_of_length_le (List.Sublist.length_le ?_)
        refine sublist_of_sorted (items_chain hF).sorted (Dict.sortedItems_pairwise hT.nodup) ?_
        intro e he
        obtain ⟨p, hp, rfl⟩ := List.mem_map.mp he
        obtain ⟨y, hy, rfl⟩ := List.mem_map.mp (hall p hp)
        exact (hmem _ _).mpr ⟨y, hy, rfl, rfl⟩
    by_cases hc : fl.data.sortedItems = items fs
    · rw [if_pos (hiff.mp hc)]
      rw [if_pos hc, items_data hF, Nat.zero_add] at hw
      have hfill := fill_chain (b := List.replicate data.length 0) (items_chain hF) (by simp [items_data hF])
      rw [items_data hF] at hfill
      simp only [List.take_zero, List.nil_append] at hfill
      rw [hw, hc] at hr
      simp only [hl', Bool.true_eq_false, if_false, hfill] at hr
      rw [hr]
      refine ⟨by rw [TracksAt, show Dict.get? _ k = none from Dict.get?_erase_self _ k], ?_⟩
      have hh := hT.header
      rw [Option.map_eq_some_iff] at hh
      obtain ⟨a, ha, hb⟩ := hh
      exact ⟨a.2, by rw [ha]; rfl, by rw [← hb]⟩
    · have hn : ¬ ∀ p ∈ fs, p ∈ (got ++ [x]).map (·.1) := fun h => hc (hiff.mpr h)
      rw [if_neg hn]
      rw [if_neg hc] at hw
      rw [hw] at hr
      simp only [hl', Bool.true_eq_false, if_false] at hr
      exact hnone _ hn Iff.rfl hr

end Verif.Frag
