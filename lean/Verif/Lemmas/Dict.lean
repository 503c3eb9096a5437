import Verif.Model.Dict
/-! Helper lemmas about dictionaries. -/
namespace Verif.Dict
variable {K V : Type} [DecidableEq K]

@[simp] theorem get?_nil (k : K) : get? ([] : Dict K V) k = none := rfl

theorem get?_cons (e : K × V) (d : Dict K V) (k : K) : get? (e :: d) k = if e.1 = k then some e.2 else get? d k := by
  rw [get?, List.find?_cons]
  by_cases h : e.1 = k <;> simp [h, get?]

@[simp] theorem get?_set_self (d : Dict K V) (k : K) (v : V) : get? (set d k v) k = some v := by
  induction d with
  | nil => simp [set, get?]
  | cons e d ih =>
    obtain ⟨k', v'⟩ := e
    rw [set]
    by_cases h : k' = k
    · simp [h, get?_cons]
    · simp [h, get?_cons, ih]

theorem get?_set_ne (d : Dict K V) {k k' : K} (v : V) (h : k' ≠ k) : get? (set d k v) k' = get? d k' := by
  induction d with
  | nil => simp [set, get?_cons, h.symm]
  | cons e d ih =>
    obtain ⟨k₁, v₁⟩ := e
    rw [set]
    by_cases h1 : k₁ = k
    · subst h1; simp [get?_cons, h.symm]
    · simp [h1, get?_cons, ih]

theorem get?_set (d : Dict K V) (k k' : K) (v : V) : get? (set d k v) k' = if k' = k then some v else get? d k' := by
  by_cases h : k' = k
  · subst h; simp
  · rw [if_neg h, get?_set_ne d v h]

@[simp] theorem get?_erase_self (d : Dict K V) (k : K) : get? (erase d k) k = none := by
  simp [get?, erase]

theorem get?_erase_ne (d : Dict K V) {k k' : K} (h : k' ≠ k) : get? (erase d k) k' = get? d k' := by
  induction d with
  | nil => rfl
  | cons e d ih =>
    by_cases h1 : e.1 = k
    · have : erase (e :: d) k = erase d k := by simp [erase, h1]
      rw [this, ih, get?_cons, if_neg (by rw [h1]; exact h.symm)]
    · have : erase (e :: d) k = e :: erase d k := by simp [erase, h1]
      rw [this, get?_cons, get?_cons, ih]

theorem get?_erase (d : Dict K V) (k k' : K) : get? (erase d k) k' = if k' = k then none else get? d k' := by
  by_cases h : k' = k
  · subst h; simp
  · rw [if_neg h, get?_erase_ne d h]

theorem mem_keys_set (d : Dict K V) (k k' : K) (v : V) : k' ∈ keys (set d k v) ↔ k' = k ∨ k' ∈ keys d := by
  induction d with
  | nil => simp [set, keys]
  | cons e d ih =>
    obtain ⟨k₁, v₁⟩ := e
    simp only [keys] at ih
    rw [set]
    by_cases h : k₁ = k
    · subst h; simp [keys]
    · simp only [h, if_false, keys, List.map_cons, List.mem_cons, ih]
      exact or_left_comm

theorem nodup_set {d : Dict K V} (k : K) (v : V) (h : (keys d).Nodup) : (keys (set d k v)).Nodup := by
  induction d with
  | nil => simp [set, keys]
  | cons e d ih =>
    obtain ⟨k₁, v₁⟩ := e
    simp only [keys, List.map_cons, List.nodup_cons] at h ih
    rw [set]
    by_cases h1 : k₁ = k
    · subst h1; simpa [keys] using h
    · simp only [h1, if_false, keys, List.map_cons, List.nodup_cons]
      refine ⟨?_, ih h.2⟩
      intro hm
      rcases (mem_keys_set d k k₁ v).mp hm with h2 | h2
      · exact h1 h2
      · exact h.1 h2

theorem nodup_filter {d : Dict K V} (p : K × V → Bool) (h : (keys d).Nodup) : (keys (d.filter p)).Nodup :=
  List.Nodup.sublist (List.Sublist.map _ List.filter_sublist) h

theorem nodup_erase {d : Dict K V} (k : K) (h : (keys d).Nodup) : (keys (erase d k)).Nodup := nodup_filter _ h

theorem mem_iff {d : Dict K V} (h : (keys d).Nodup) (k : K) (v : V) : (k, v) ∈ d ↔ get? d k = some v := by
  induction d with
  | nil => simp
  | cons e d ih =>
    obtain ⟨k₁, v₁⟩ := e
    simp only [keys, List.map_cons, List.nodup_cons] at h ih
    rw [List.mem_cons, get?_cons, ih h.2]
    by_cases h1 : k₁ = k
    · subst h1
      simp only [if_true, Prod.mk.injEq, true_and]
      constructor
      · rintro (h2 | h2)
        · rw [h2]
        · exact absurd (List.mem_map_of_mem (f := (·.1)) ((ih h.2).mpr h2)) h.1
      · intro h2; left; injection h2 with h2; exact h2.symm
    · simp only [h1, if_false, Prod.mk.injEq]
      constructor
      · rintro (⟨h2, -⟩ | h2)
        · exact absurd h2.symm h1
        · exact h2
      · exact Or.inr

theorem get?_mem {d : Dict K V} {k : K} {v : V} (h : get? d k = some v) : (k, v) ∈ d := by
  rw [get?, Option.map_eq_some_iff] at h
  obtain ⟨⟨k', v'⟩, h1, rfl⟩ := h
  have := List.find?_some h1
  simp at this
  rw [← this]
  exact List.mem_of_find?_eq_some h1

theorem get?_eq_none_iff (d : Dict K V) (k : K) : get? d k = none ↔ k ∉ keys d := by
  rw [get?, Option.map_eq_none_iff, List.find?_eq_none, keys, List.mem_map]
  constructor
  · rintro h ⟨x, hx, rfl⟩; simpa using h x hx
  · intro h x hx; simp; intro e; exact h ⟨x, hx, e⟩

theorem mem_keys_iff (d : Dict K V) (k : K) : k ∈ keys d ↔ ∃ v, get? d k = some v := by
  rw [← Option.isSome_iff_exists, Option.isSome_iff_ne_none, ne_eq, get?_eq_none_iff, Classical.not_not]

theorem has_iff (d : Dict K V) (k : K) : has d k = true ↔ k ∈ keys d := by
  rw [has, mem_keys_iff, Option.isSome_iff_exists]

theorem insertItem_perm (e : Nat × V) (l : List (Nat × V)) : (insertItem e l).Perm (e :: l) := by
  induction l with
  | nil => exact .refl _
  | cons x l ih =>
    rw [insertItem]
    split
    · exact .refl _
    · exact (ih.cons x).trans (.swap _ _ _)

theorem insertItem_pairwise (e : Nat × V) {l : List (Nat × V)} (h : l.Pairwise (fun a b => a.1 ≤ b.1)) :
    (insertItem e l).Pairwise (fun a b => a.1 ≤ b.1) := by
  induction l with
  | nil => simp [insertItem]
  | cons x l ih =>
    obtain ⟨h1, h2⟩ := List.pairwise_cons.mp h
    rw [insertItem]
    split
    · refine List.pairwise_cons.mpr ⟨?_, h⟩
      intro y hy
      rcases List.mem_cons.mp hy with rfl | hy
      · assumption
      · have := h1 y hy; omega
    · refine List.pairwise_cons.mpr ⟨?_, ih h2⟩
      intro y hy
      rcases List.mem_cons.mp ((insertItem_perm e l).mem_iff.mp hy) with rfl | hy
      · omega
      · exact h1 y hy

theorem sortedItems_perm (d : Dict Nat V) : (sortedItems d).Perm d := by
  induction d with
  | nil => exact .refl _
  | cons e d ih => exact (insertItem_perm e _).trans (ih.cons e)

/-- `sorted(d)` is strictly ascending. -/
theorem sortedItems_pairwise {d : Dict Nat V} (h : (keys d).Nodup) : (sortedItems d).Pairwise (fun a b => a.1 < b.1) := by
  have h1 : (sortedItems d).Pairwise (fun a b => a.1 ≤ b.1) := by
    clear h
    induction d with
    | nil => exact .nil
    | cons e d ih => exact insertItem_pairwise e ih
  have h2 : ((sortedItems d).map (·.1)).Nodup := ((sortedItems_perm d).map _).nodup_iff.mpr h
  rw [List.Nodup, List.pairwise_map] at h2
  exact (h1.and h2).imp (fun ⟨a, b⟩ => Nat.lt_of_le_of_ne a b)

end Verif.Dict
