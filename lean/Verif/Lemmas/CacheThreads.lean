import Verif.Spec.CacheThreads
import Verif.Lemmas.Dict
import Mathlib.Data.List.Induction
/-! The neighbour caches with several threads. -/
namespace Verif
open Spec
namespace CacheThreads
variable {A : Type} [DecidableEq A]

theorem run_snoc (s : St A) (xs : List (Step A)) (e : Step A) : s.run (xs ++ [e]) = (s.run xs).step e := by
  rw [St.run, List.foldl_append]; rfl

theorem run_append (s : St A) (xs ys : List (Step A)) : s.run (xs ++ ys) = (s.run xs).run ys := by
  rw [St.run, List.foldl_append]; rfl

theorem remembered_snoc (l : List (Ev A)) (e : Ev A) (ip : A) : remembered (l ++ [e]) ip = match e with
    | .added ip' mac t => if ip' = ip then some (mac, t) else remembered l ip
    | .removed ip' => if ip' = ip then none else remembered l ip
    | .asked _ => remembered l ip := by
  rw [remembered, List.foldl_append]
  rfl

/-- The addresses the maintenance thread still has to look up in this round. -/
def left : Maint A → List A
  | .sleep => []
  | .pass todo => todo
  | .perm ip todo => ip :: todo
  | .clock ip todo => ip :: todo
  | .age ip _ todo => ip :: todo
  | .pop ip todo => ip :: todo
  | .clock' ip todo => ip :: todo
  | .age' ip _ todo => ip :: todo
  | .hits ip todo => ip :: todo
  | .reset ip todo => ip :: todo
  | .send ip todo => ip :: todo
  | .dead => []

structure Inv (s : St A) : Prop where
  nodup : s.dict.keys.Nodup
  valid : ∀ ip e, s.dict.get? ip = some e → ∃ x, s.objs[e]? = some x ∧ remembered s.log ip = some (x.mac, x.created)
  none : ∀ ip, s.dict.get? ip = .none → remembered s.log ip = .none
  nonperm : ∀ (e : Nat) x, s.objs[e]? = some x → x.permanent = false
  alive : s.maint ≠ .dead
  distinct : (left s.maint).Nodup
  there : ∀ ip ∈ left s.maint, ∃ e, s.dict.get? ip = some e

theorem Inv.entry {s : St A} (h : Inv s) {ip : A} (hm : ip ∈ left s.maint) :
    ∃ x, s.entry ip = some x ∧ remembered s.log ip = some (x.mac, x.created) ∧ x.permanent = false := by
  obtain ⟨e, he⟩ := h.there ip hm
  obtain ⟨x, hx, hr⟩ := h.valid ip e he
  exact ⟨x, by rw [St.entry, he]; exact hx, hr, h.nonperm e x hx⟩

/-- Only the place of the thread changes. -/
theorem Inv.move {s : St A} (h : Inv s) {m : Maint A} (h1 : m ≠ .dead) (h2 : List.Sublist (left m) (left s.maint)) : Inv { s with maint := m } :=
  ⟨h.nodup, h.valid, h.none, h.nonperm, h1, h2.nodup h.distinct, fun ip hi => h.there ip (h2.subset hi)⟩

/-- Only a hit count changes. -/
theorem Inv.hits {s : St A} (h : Inv s) {e n : Nat} {x : CacheEntry} (hx : s.objs[e]? = some x) : Inv { s with objs := s.objs.set e { x with hits := n } } := by
  have hg : ∀ (i : Nat) y, (s.objs.set e { x with hits := n })[i]? = some y → ∃ y', s.objs[i]? = some y' ∧ y.mac = y'.mac ∧ y.created = y'.created ∧ y.permanent = y'.permanent := by
    intro i y hy
    rw [List.getElem?_set] at hy
    by_cases hi : e = i
    · subst hi
      rw [if_pos rfl, if_pos (List.getElem?_eq_some_iff.1 hx).1] at hy
      cases hy
      exact ⟨x, hx, rfl, rfl, rfl⟩
    · rw [if_neg hi] at hy
      exact ⟨y, hy, rfl, rfl, rfl⟩
  refine ⟨h.nodup, ?_, h.none, ?_, h.alive, h.distinct, h.there⟩
  · intro ip i hi
    obtain ⟨y, hy, hr⟩ := h.valid ip i hi
    have hlt : i < (s.objs.set e { x with hits := n }).length := by rw [List.length_set]; exact (List.getElem?_eq_some_iff.1 hy).1
    obtain ⟨y', hy', h1, h2, h3⟩ := hg i _ (List.getElem?_eq_getElem hlt)
    rw [hy] at hy'
    cases hy'
    exact ⟨_, List.getElem?_eq_getElem hlt, by rw [hr, h1, h2]⟩
  · intro i y hy
    obtain ⟨y', hy', -, -, h3⟩ := hg i y hy
    rw [h3]
    exact h.nonperm i y' hy'

theorem Inv.step {s : St A} (h : Inv s) (e : Step A) : Inv (s.step e) := by
  cases e with
  | add ip mac t =>
    refine ⟨Dict.nodup_set _ _ h.nodup, ?_, ?_, ?_, h.alive, h.distinct, ?_⟩
    · intro ip' i hi
      dsimp only [St.step] at hi ⊢
      rw [Dict.get?_set] at hi
      rw [remembered_snoc]
      dsimp only
      by_cases he : ip' = ip
      · rw [if_pos he] at hi
        cases hi
        exact ⟨_, List.getElem?_concat_length .., by rw [if_pos he.symm]⟩
      · rw [if_neg he] at hi
        obtain ⟨x, hx, hr⟩ := h.valid ip' i hi
        refine ⟨x, ?_, by rw [if_neg (Ne.symm he)]; exact hr⟩
        rw [List.getElem?_append_left (List.getElem?_eq_some_iff.1 hx).1]
        exact hx
    · intro ip' hi
      dsimp only [St.step] at hi ⊢
      rw [Dict.get?_set] at hi
      rw [remembered_snoc]
      dsimp only
      by_cases he : ip' = ip
      · rw [if_pos he] at hi; cases hi
      · rw [if_neg he] at hi
        rw [if_neg (Ne.symm he)]
        exact h.none ip' hi
    · intro i x hx
      dsimp only [St.step] at hx
      rw [List.getElem?_append] at hx
      split at hx
      · exact h.nonperm i x hx
      · have := List.mem_of_getElem? hx
        rw [List.mem_singleton] at this
        rw [this]
    · intro ip' hi
      dsimp only [St.step] at hi ⊢
      obtain ⟨i, hi'⟩ := h.there ip' hi
      rw [Dict.get?_set]
      split
      · exact ⟨_, rfl⟩
      · exact ⟨i, hi'⟩
  | find ip => exact ⟨h.nodup, h.valid, h.none, h.nonperm, h.alive, h.distinct, h.there⟩
  | go k =>
    rw [St.step]
    split
    · exact h
    · rename_i ip f hf
      cases f with
      | look =>
        rw [St.look]
        split
        · exact ⟨h.nodup, h.valid, h.none, h.nonperm, h.alive, h.distinct, h.there⟩
        · refine ⟨h.nodup, ?_, ?_, h.nonperm, h.alive, h.distinct, h.there⟩
          · intro ip' i hi
            dsimp only
            rw [remembered_snoc]
            exact h.valid ip' i hi
          · intro ip' hi
            dsimp only
            rw [remembered_snoc]
            exact h.none ip' hi
      | bump e =>
        rw [St.look]
        split
        · exact h
        · exact ⟨h.nodup, h.valid, h.none, h.nonperm, h.alive, h.distinct, h.there⟩
      | write e n =>
        rw [St.look]
        split
        · exact h
        · rename_i x hx
          have := h.hits (n := n + 1) hx
          exact ⟨this.nodup, this.valid, this.none, this.nonperm, this.alive, this.distinct, this.there⟩
      | done r => exact h
  | maint t =>
    rw [St.step, St.tend]
    have hsub : ∀ {ip : A} {todo : List A}, left s.maint = ip :: todo → List.Sublist todo (left s.maint) := by
      intro ip todo hl
      rw [hl]
      exact List.sublist_cons_self _ _
    cases hm : s.maint with
    | sleep =>
      refine ⟨h.nodup, h.valid, h.none, h.nonperm, by simp, h.nodup, ?_⟩
      intro ip hi
      obtain ⟨v, hv⟩ := (Dict.mem_keys_iff _ _).1 hi
      exact ⟨v, hv⟩
    | pass todo =>
      cases todo with
      | nil => exact h.move (by simp) (List.nil_sublist _)
      | cons ip todo => exact h.move (by simp) (by rw [hm]; exact .refl _)
    | perm ip todo =>
      obtain ⟨x, hx, -, hp⟩ := h.entry (ip := ip) (by rw [hm]; simp [left])
      dsimp only
      rw [hx]
      dsimp only
      rw [if_neg (by simp [hp])]
      exact h.move (by simp) (by rw [hm]; exact .refl _)
    | clock ip todo => exact h.move (by simp) (by rw [hm]; exact .refl _)
    | age ip t' todo =>
      obtain ⟨x, hx, -, hp⟩ := h.entry (ip := ip) (by rw [hm]; simp [left])
      dsimp only
      rw [hx]
      dsimp only
      split
      · exact h.move (by simp) (by rw [hm]; exact .refl _)
      · exact h.move (by simp) (by rw [hm]; exact .refl _)
    | pop ip todo =>
      obtain ⟨x, hx, -, hp⟩ := h.entry (ip := ip) (by rw [hm]; simp [left])
      dsimp only
      rw [hx]
      dsimp only
      have hd := h.distinct
      rw [hm] at hd
      refine ⟨Dict.nodup_erase _ h.nodup, ?_, ?_, h.nonperm, by simp, (List.nodup_cons.1 hd).2, ?_⟩
      · intro ip' i hi
        dsimp only at hi ⊢
        rw [Dict.get?_erase] at hi
        rw [remembered_snoc]
        dsimp only
        by_cases he : ip' = ip
        · rw [if_pos he] at hi; cases hi
        · rw [if_neg he] at hi
          rw [if_neg (Ne.symm he)]
          exact h.valid ip' i hi
      · intro ip' hi
        dsimp only at hi ⊢
        rw [Dict.get?_erase] at hi
        rw [remembered_snoc]
        dsimp only
        by_cases he : ip' = ip
        · rw [if_pos he.symm]
        · rw [if_neg he] at hi
          rw [if_neg (Ne.symm he)]
          exact h.none ip' hi
      · intro ip' hi
        dsimp only at hi ⊢
        have hne : ip' ≠ ip := fun e => (List.nodup_cons.1 hd).1 (e ▸ hi)
        rw [Dict.get?_erase_ne _ hne]
        exact h.there ip' (by rw [hm]; exact List.mem_cons_of_mem _ hi)
    | clock' ip todo => exact h.move (by simp) (by rw [hm]; exact .refl _)
    | age' ip t' todo =>
      obtain ⟨x, hx, -, hp⟩ := h.entry (ip := ip) (by rw [hm]; simp [left])
      dsimp only
      rw [hx]
      dsimp only
      split
      · exact h.move (by simp) (by rw [hm]; exact .refl _)
      · exact h.move (by simp) (hsub (by rw [hm]; rfl))
    | hits ip todo =>
      obtain ⟨x, hx, -, hp⟩ := h.entry (ip := ip) (by rw [hm]; simp [left])
      dsimp only
      rw [hx]
      dsimp only
      split
      · exact h.move (by simp) (by rw [hm]; exact .refl _)
      · exact h.move (by simp) (hsub (by rw [hm]; rfl))
    | reset ip todo =>
      obtain ⟨e, he⟩ := h.there ip (by rw [hm]; simp [left])
      obtain ⟨x, hx, -⟩ := h.valid ip e he
      dsimp only
      rw [he]
      dsimp only
      rw [hx]
      dsimp only
      exact (h.hits hx).move (m := .send ip todo) (by simp) (by dsimp only; rw [hm]; exact .refl _)
    | send ip todo =>
      have := h.move (m := .pass todo) (by simp) (hsub (by rw [hm]; rfl))
      refine ⟨this.nodup, ?_, ?_, this.nonperm, this.alive, this.distinct, this.there⟩
      · intro ip' i hi
        dsimp only
        rw [remembered_snoc]
        exact h.valid ip' i hi
      · intro ip' hi
        dsimp only
        rw [remembered_snoc]
        exact h.none ip' hi
    | dead => exact absurd hm h.alive

theorem inv (xs : List (Step A)) : Inv (({} : St A).run xs) := by
  induction xs using List.reverseRecOn with
  | nil => exact ⟨List.nodup_nil, by simp [St.run], by simp [St.run, remembered], by simp [St.run], by simp [St.run], List.nodup_nil, by simp [St.run, left]⟩
  | append_singleton xs e ih => rw [run_snoc]; exact ih.step e

/-! ### Lookups -/

theorem mac_step {s : St A} {e : Nat} {x : CacheEntry} (h : s.objs[e]? = some x) (ev : Step A) : ∃ y, (s.step ev).objs[e]? = some y ∧ y.mac = x.mac := by
  have hset : ∀ {i n : Nat} {z : CacheEntry}, s.objs[i]? = some z → ∃ y, (s.objs.set i { z with hits := n })[e]? = some y ∧ y.mac = x.mac := by
    intro i n z hz
    rw [List.getElem?_set]
    by_cases hi : i = e
    · subst hi
      rw [if_pos rfl, if_pos (List.getElem?_eq_some_iff.1 h).1]
      rw [h] at hz
      cases hz
      exact ⟨_, rfl, rfl⟩
    · rw [if_neg hi]
      exact ⟨x, h, rfl⟩
  cases ev with
  | add ip mac t =>
    refine ⟨x, ?_, rfl⟩
    rw [St.step]
    dsimp only
    rw [List.getElem?_append_left (List.getElem?_eq_some_iff.1 h).1]
    exact h
  | find ip => exact ⟨x, h, rfl⟩
  | go k =>
    rw [St.step]
    split
    · exact ⟨x, h, rfl⟩
    · rename_i ip f hf
      cases f with
      | look => rw [St.look]; split <;> exact ⟨x, h, rfl⟩
      | bump e' => rw [St.look]; split <;> exact ⟨x, h, rfl⟩
      | write e' n =>
        rw [St.look]
        split
        · exact ⟨x, h, rfl⟩
        · rename_i z hz
          exact hset hz
      | done r => exact ⟨x, h, rfl⟩
  | maint t =>
    rw [St.step, St.tend]
    split
    · exact ⟨x, h, rfl⟩
    · exact ⟨x, h, rfl⟩
    · exact ⟨x, h, rfl⟩
    · split <;> exact ⟨x, h, rfl⟩
    · exact ⟨x, h, rfl⟩
    · split <;> exact ⟨x, h, rfl⟩
    · split <;> exact ⟨x, h, rfl⟩
    · exact ⟨x, h, rfl⟩
    · split <;> exact ⟨x, h, rfl⟩
    · split <;> exact ⟨x, h, rfl⟩
    · split
      · exact ⟨x, h, rfl⟩
      · split
        · exact ⟨x, h, rfl⟩
        · rename_i z hz
          exact hset hz
    · exact ⟨x, h, rfl⟩
    · exact ⟨x, h, rfl⟩

/-- What a call has found out. -/
def Found (xs : List (Step A)) (objs : List CacheEntry) (k : Nat) (ip : A) : Find → Prop
  | .look => True
  | .bump e | .write e _ => ∃ ws x, ws <+: xs ∧ (({} : St A).run ws).finds[k]? = some (ip, .look) ∧ objs[e]? = some x ∧
      (remembered (({} : St A).run ws).log ip).map (·.1) = some x.mac
  | .done r => ∃ ws, ws <+: xs ∧ (({} : St A).run ws).finds[k]? = some (ip, .look) ∧ (remembered (({} : St A).run ws).log ip).map (·.1) = r

theorem Found.snoc {xs : List (Step A)} {k : Nat} {ip : A} {f : Find} (e : Step A) (h : Found xs (({} : St A).run xs).objs k ip f) :
    Found (xs ++ [e]) (({} : St A).run (xs ++ [e])).objs k ip f := by
  have hp : ∀ {ws : List (Step A)}, ws <+: xs → ws <+: xs ++ [e] := fun h => h.trans (List.prefix_append _ _)
  cases f with
  | look => trivial
  | bump i =>
    obtain ⟨ws, x, h1, h2, h3, h4⟩ := h
    obtain ⟨y, hy, hm⟩ := mac_step h3 e
    exact ⟨ws, y, hp h1, h2, by rw [run_snoc]; exact hy, by rw [h4, hm]⟩
  | write i n =>
    obtain ⟨ws, x, h1, h2, h3, h4⟩ := h
    obtain ⟨y, hy, hm⟩ := mac_step h3 e
    exact ⟨ws, y, hp h1, h2, by rw [run_snoc]; exact hy, by rw [h4, hm]⟩
  | done r =>
    obtain ⟨ws, h1, h2, h4⟩ := h
    exact ⟨ws, hp h1, h2, h4⟩

theorem finds_step (s : St A) (ev : Step A) : (s.step ev).finds = s.finds ∨ (∃ ip, (s.step ev).finds = s.finds ++ [(ip, .look)]) ∨
    ∃ k, ev = .go k := by
  cases ev with
  | add ip mac t => exact .inl rfl
  | find ip => exact .inr (.inl ⟨ip, rfl⟩)
  | go k => exact .inr (.inr ⟨k, rfl⟩)
  | maint t =>
    refine .inl ?_
    rw [St.step, St.tend]
    split
    · rfl
    · rfl
    · rfl
    · split <;> rfl
    · rfl
    · split <;> rfl
    · split <;> rfl
    · rfl
    · split <;> rfl
    · split <;> rfl
    · split
      · rfl
      · split <;> rfl
    · rfl
    · rfl

theorem set_get_cases {α : Type} {l : List α} {i j : Nat} {a b : α} (h : (l.set i a)[j]? = some b) : (i = j ∧ b = a) ∨ l[j]? = some b := by
  rw [List.getElem?_set] at h
  split at h
  · rename_i hi
    split at h
    · cases h; exact .inl ⟨hi, rfl⟩
    · cases h
  · exact .inr h

theorem found (xs : List (Step A)) : ∀ (k : Nat) ip f, (({} : St A).run xs).finds[k]? = some (ip, f) → Found xs (({} : St A).run xs).objs k ip f := by
  induction xs using List.reverseRecOn with
  | nil => intro k ip f h; simp [St.run] at h
  | append_singleton xs e ih =>
    intro k ip f h
    rw [run_snoc] at h
    rcases finds_step (({} : St A).run xs) e with hf | ⟨ip', hf⟩ | ⟨k', rfl⟩
    · rw [hf] at h
      exact (ih k ip f h).snoc e
    · rw [hf, List.getElem?_append] at h
      split at h
      · exact (ih k ip f h).snoc e
      · have := List.mem_of_getElem? h
        rw [List.mem_singleton] at this
        cases this
        trivial
    · have hinv := inv xs
      have hsn := fun i j g (hh : (({} : St A).run xs).finds[i]? = some (j, g)) => (ih i j g hh).snoc (.go k')
      have hrun := run_snoc ({} : St A) xs (.go k')
      rw [St.step] at h hrun
      cases hk : (({} : St A).run xs).finds[k']? with
      | none =>
        rw [hk] at h
        exact hsn k ip f h
      | some c =>
        obtain ⟨ip', g⟩ := c
        rw [hk] at h hrun
        dsimp only at h hrun
        have hmine := ih k' ip' g hk
        cases g with
        | look =>
          rw [St.look] at h hrun
          cases hd : (({} : St A).run xs).dict.get? ip' with
          | none =>
            rw [hd] at h
            rcases set_get_cases h with ⟨rfl, hb⟩ | h
            · cases hb
              exact ⟨xs, List.prefix_append _ _, hk, by rw [hinv.none _ hd]; rfl⟩
            · exact hsn k ip f h
          | some i =>
            rw [hd] at h hrun
            rcases set_get_cases h with ⟨rfl, hb⟩ | h
            · cases hb
              obtain ⟨x, hx, hr⟩ := hinv.valid _ _ hd
              exact ⟨xs, x, List.prefix_append _ _, hk, by rw [hrun]; exact hx, by rw [hr]; rfl⟩
            · exact hsn k ip f h
        | bump i =>
          rw [St.look] at h hrun
          obtain ⟨ws, x, h1, h2, h3, h4⟩ := hmine
          rw [h3] at h hrun
          rcases set_get_cases h with ⟨rfl, hb⟩ | h
          · cases hb
            exact ⟨ws, x, h1.trans (List.prefix_append _ _), h2, by rw [hrun]; exact h3, h4⟩
          · exact hsn k ip f h
        | write i n =>
          rw [St.look] at h hrun
          obtain ⟨ws, x, h1, h2, h3, h4⟩ := hmine
          rw [h3] at h hrun
          rcases set_get_cases h with ⟨rfl, hb⟩ | h
          · cases hb
            exact ⟨ws, h1.trans (List.prefix_append _ _), h2, h4⟩
          · exact hsn k ip f h
        | done r =>
          rw [St.look] at h
          exact hsn k ip f h

/-! ### Removal -/

/-- What a step does to the log. -/
theorem log_step (s : St A) (ev : Step A) : (s.step ev).log = s.log ∨ (∃ ip, (s.step ev).log = s.log ++ [.asked ip]) ∨
    (∃ ip mac t, ev = .add ip mac t ∧ (s.step ev).log = s.log ++ [.added ip mac t]) ∨
    (∃ t ip todo, ev = .maint t ∧ s.maint = .pop ip todo ∧ (s.step ev).maint = .pass todo ∧ (s.step ev).log = s.log ++ [.removed ip]) := by
  cases ev with
  | add ip mac t => exact .inr (.inr (.inl ⟨ip, mac, t, rfl, rfl⟩))
  | find ip => exact .inl rfl
  | go k =>
    rw [St.step]
    split
    · exact .inl rfl
    · rename_i ip f hf
      cases f with
      | look =>
        rw [St.look]
        split
        · exact .inl rfl
        · exact .inr (.inl ⟨_, rfl⟩)
      | bump e' => rw [St.look]; split <;> exact .inl rfl
      | write e' n => rw [St.look]; split <;> exact .inl rfl
      | done r => exact .inl rfl
  | maint t =>
    rw [St.step, St.tend]
    split
    · exact .inl rfl
    · exact .inl rfl
    · exact .inl rfl
    · split <;> exact .inl rfl
    · exact .inl rfl
    · split <;> exact .inl rfl
    · rename_i ip todo hm
      split
      · exact .inl rfl
      · exact .inr (.inr (.inr ⟨t, ip, todo, rfl, hm, rfl, rfl⟩))
    · exact .inl rfl
    · split <;> exact .inl rfl
    · split <;> exact .inl rfl
    · split
      · exact .inl rfl
      · split <;> exact .inl rfl
    · exact .inr (.inl ⟨_, rfl⟩)
    · exact .inl rfl

theorem remembered_step {s : St A} {ev : Step A} {ip : A} (h1 : ∀ mac t, ev ≠ .add ip mac t) (h2 : ∀ t todo, ev = .maint t → s.maint ≠ .pop ip todo) :
    remembered (s.step ev).log ip = remembered s.log ip := by
  rcases log_step s ev with h | ⟨i, h⟩ | ⟨i, mac, t, rfl, h⟩ | ⟨t, i, todo, rfl, hm, -, h⟩
  · rw [h]
  · rw [h, remembered_snoc]
  · rw [h, remembered_snoc]
    dsimp only
    rw [if_neg]
    rintro rfl
    exact h1 mac t rfl
  · rw [h, remembered_snoc]
    dsimp only
    rw [if_neg]
    rintro rfl
    exact h2 t todo rfl hm

theorem maint_step {s : St A} {ev : Step A} (h : ∀ t, ev ≠ .maint t) : (s.step ev).maint = s.maint := by
  cases ev with
  | add ip mac t => rfl
  | find ip => rfl
  | go k =>
    rw [St.step]
    split
    · rfl
    · rename_i ip f hf
      cases f with
      | look => rw [St.look]; split <;> rfl
      | bump e' => rw [St.look]; split <;> rfl
      | write e' n => rw [St.look]; split <;> rfl
      | done r => rfl
  | maint t => exact absurd rfl (h t)

/-- What the thread has found out in this visit. -/
def Aged (s : St A) (zs : List (Step A)) (ip : A) : Maint A → Prop
  | .age _ t _ => .maint t ∈ zs
  | .pop _ _ => NotLearned ip zs → ∃ mac t₀ t, remembered s.log ip = some (mac, t₀) ∧ .maint t ∈ zs ∧ t - t₀ > Cache.maxAge
  | _ => True

theorem atEntry_step {s : St A} (hi : Inv s) {t : Int} {ip : A} (h : AtEntry ip (s.step (.maint t)).maint) :
    (∃ todo, (s.step (.maint t)).maint = .perm ip todo) ∨ AtEntry ip s.maint := by
  rw [St.step, St.tend] at h ⊢
  cases hm : s.maint with
  | sleep => rw [hm] at h; exact absurd h (by simp [AtEntry])
  | pass todo =>
    rw [hm] at h
    cases todo with
    | nil => exact absurd h (by simp [AtEntry])
    | cons i todo =>
      have : i = ip := h
      subst this
      exact .inl ⟨todo, rfl⟩
  | perm i todo =>
    rw [hm] at h
    dsimp only at h
    refine .inr ?_
    split at h
    · exact absurd h (by simp [AtEntry])
    · dsimp only at h
      split at h
      · exact absurd h (by simp [AtEntry])
      · exact h
  | clock i todo => rw [hm] at h; exact .inr h
  | age i t' todo =>
    rw [hm] at h
    dsimp only at h
    refine .inr ?_
    split at h
    · exact absurd h (by simp [AtEntry])
    · dsimp only at h
      split at h <;> exact h
  | pop i todo =>
    rw [hm] at h
    dsimp only at h
    split at h <;> exact absurd h (by simp [AtEntry])
  | clock' i todo => rw [hm] at h; exact .inr h
  | age' i t' todo =>
    rw [hm] at h
    dsimp only at h
    refine .inr ?_
    split at h
    · exact absurd h (by simp [AtEntry])
    · dsimp only at h
      split at h
      · exact h
      · exact absurd h (by simp [AtEntry])
  | hits i todo =>
    rw [hm] at h
    dsimp only at h
    refine .inr ?_
    split at h
    · exact absurd h (by simp [AtEntry])
    · dsimp only at h
      split at h
      · exact h
      · exact absurd h (by simp [AtEntry])
  | reset i todo =>
    rw [hm] at h
    dsimp only at h
    refine .inr ?_
    split at h
    · exact absurd h (by simp [AtEntry])
    · split at h
      · exact absurd h (by simp [AtEntry])
      · exact h
  | send i todo => rw [hm] at h; exact absurd h (by simp [AtEntry])
  | dead =>
    rw [hm] at h
    have h' : AtEntry ip s.maint := h
    rw [hm] at h'
    exact absurd h' (by simp [AtEntry])

theorem maxAge_hour : Cache.maxAge = hour := rfl

theorem Aged.step {s : St A} (hi : Inv s) {zs : List (Step A)} {ip : A} (ha : Aged s zs ip s.maint) (hat : AtEntry ip s.maint) (e : Step A) :
    Aged (s.step e) (zs ++ [e]) ip (s.step e).maint ∨ ¬ AtEntry ip (s.step e).maint := by
  by_cases hm : ∀ t, e ≠ .maint t
  · refine .inl ?_
    rw [maint_step hm]
    cases hq : s.maint with
    | age i t' todo =>
      rw [hq] at ha
      exact List.mem_append.2 (.inl ha)
    | pop i todo =>
      rw [hq] at ha
      intro hn
      obtain ⟨mac, t₀, t, h1, h2, h3⟩ := ha fun mac t hh => hn mac t (List.mem_append.2 (.inl hh))
      refine ⟨mac, t₀, t, ?_, List.mem_append.2 (.inl h2), h3⟩
      rw [remembered_step _ fun t _ ht => absurd ht (hm t)]
      · exact h1
      · intro mac t hh
        exact hn mac t (List.mem_append.2 (.inr (by rw [hh]; exact List.mem_singleton.2 rfl)))
    | sleep => trivial
    | pass _ => trivial
    | perm _ _ => trivial
    | clock _ _ => trivial
    | clock' _ _ => trivial
    | age' _ _ _ => trivial
    | hits _ _ => trivial
    | reset _ _ => trivial
    | send _ _ => trivial
    | dead => trivial
  · have hm' : ∃ t, e = .maint t := by
      by_contra hc
      exact hm fun t ht => hc ⟨t, ht⟩
    obtain ⟨t, rfl⟩ := hm'
    have hen := fun {j : A} (hj : j ∈ left s.maint) => hi.entry hj
    rw [St.step, St.tend]
    cases hq : s.maint with
    | sleep => exact .inl trivial
    | pass todo => rw [hq] at hat; exact hat.elim
    | perm i todo =>
      obtain ⟨x, hx, -, -⟩ := hen (j := i) (by rw [hq]; exact List.mem_cons_self)
      dsimp only
      rw [hx]
      dsimp only
      split
      · exact .inl trivial
      · exact .inl trivial
    | clock i todo => exact .inl (List.mem_append.2 (.inr (List.mem_singleton.2 rfl)))
    | age i t' todo =>
      rw [hq] at hat ha
      have hat : i = ip := hat
      subst hat
      obtain ⟨x, hx, hr, -⟩ := hen (j := i) (by rw [hq]; exact List.mem_cons_self)
      dsimp only
      rw [hx]
      dsimp only
      refine .inl ?_
      split
      · rename_i hgt
        exact fun _ => ⟨_, _, t', hr, List.mem_append.2 (.inl ha), hgt⟩
      · trivial
    | pop i todo =>
      obtain ⟨x, hx, -, -⟩ := hen (j := i) (by rw [hq]; exact List.mem_cons_self)
      dsimp only
      rw [hx]
      exact .inl trivial
    | clock' i todo => exact .inl trivial
    | age' i t' todo =>
      obtain ⟨x, hx, -, -⟩ := hen (j := i) (by rw [hq]; exact List.mem_cons_self)
      dsimp only
      rw [hx]
      dsimp only
      split
      · exact .inl trivial
      · exact .inl trivial
    | hits i todo =>
      obtain ⟨x, hx, -, -⟩ := hen (j := i) (by rw [hq]; exact List.mem_cons_self)
      dsimp only
      rw [hx]
      dsimp only
      split
      · exact .inl trivial
      · exact .inl trivial
    | reset i todo =>
      dsimp only
      split
      · exact .inl trivial
      · split <;> exact .inl trivial
    | send i todo => exact .inl trivial
    | dead => exact absurd hq hi.alive

/-- The maintenance thread has been at this entry since it came to it. -/
theorem visit (xs : List (Step A)) (ip : A) (h : AtEntry ip (({} : St A).run xs).maint) : ∃ ys zs todo, xs = ys ++ zs ∧
    (({} : St A).run ys).maint = .perm ip todo ∧ (∀ ws, ws <+: zs → AtEntry ip (({} : St A).run (ys ++ ws)).maint) ∧
    Aged (({} : St A).run xs) zs ip (({} : St A).run xs).maint := by
  induction xs using List.reverseRecOn with
  | nil => exact absurd h (by simp [St.run, AtEntry])
  | append_singleton xs e ih =>
    have hstep := run_snoc ({} : St A) xs e
    have hor : (∃ todo, (({} : St A).run (xs ++ [e])).maint = .perm ip todo) ∨ AtEntry ip (({} : St A).run xs).maint := by
      rw [hstep] at h ⊢
      by_cases hm : ∀ t, e ≠ .maint t
      · rw [maint_step hm] at h
        exact .inr h
      · have hm' : ∃ t, e = .maint t := by
          by_contra hc
          exact hm fun t ht => hc ⟨t, ht⟩
        obtain ⟨t, rfl⟩ := hm'
        exact atEntry_step (inv xs) h
    rcases hor with ⟨todo, ht⟩ | hat
    · refine ⟨xs ++ [e], [], todo, (List.append_nil _).symm, ht, ?_, by rw [ht]; trivial⟩
      intro ws hws
      rw [List.prefix_nil.1 hws, List.append_nil]
      exact h
    · obtain ⟨ys, zs, todo, rfl, h1, h2, h3⟩ := ih hat
      refine ⟨ys, zs ++ [e], todo, List.append_assoc _ _ _, h1, ?_, ?_⟩
      · intro ws hws
        rcases List.prefix_concat_iff.1 hws with rfl | hws
        · rw [← List.append_assoc]
          exact h
        · exact h2 ws hws
      · rcases h3.step (inv _) hat e with h4 | h4
        · rw [hstep]
          exact h4
        · rw [hstep] at h
          exact absurd h h4

theorem mem_readings {zs : List (Step A)} {t : Int} : t ∈ readings zs ↔ .maint t ∈ zs := by
  rw [readings, List.mem_filterMap]
  constructor
  · rintro ⟨e, he, h⟩
    cases e <;> simp at h
    subst h
    exact he
  · exact fun h => ⟨_, h, rfl⟩

/-! ### Keeping -/

/-- The entry is not about to be removed. -/
def Safe (ip : A) (t₀ : Int) : Maint A → Prop
  | .pop i _ => i ≠ ip
  | .age i t _ => i = ip → t - t₀ ≤ Cache.maxAge
  | _ => True

theorem kept_step {s : St A} (hi : Inv s) {ip : A} {mac : MacAddress} {t₀ : Int} (hr : remembered s.log ip = some (mac, t₀)) (hs : Safe ip t₀ s.maint)
    {e : Step A} (h1 : ∀ mac t, e ≠ .add ip mac t) (h2 : ∀ t, e = .maint t → t - t₀ ≤ Cache.maxAge) :
    remembered (s.step e).log ip = some (mac, t₀) ∧ Safe ip t₀ (s.step e).maint := by
  constructor
  · rw [remembered_step h1]
    · exact hr
    · intro t todo _ hp
      rw [hp] at hs
      exact hs rfl
  · by_cases hm : ∀ t, e ≠ .maint t
    · rw [maint_step hm]
      exact hs
    · have hm' : ∃ t, e = .maint t := by
        by_contra hc
        exact hm fun t ht => hc ⟨t, ht⟩
      obtain ⟨t, rfl⟩ := hm'
      have hen := fun {j : A} (hj : j ∈ left s.maint) => hi.entry hj
      have h2 := h2 t rfl
      rw [St.step, St.tend]
      cases hq : s.maint with
      | sleep => trivial
      | pass todo => cases todo <;> trivial
      | perm i todo =>
        dsimp only
        split
        · trivial
        · dsimp only
          split <;> trivial
      | clock i todo => exact fun _ => h2
      | age i t' todo =>
        obtain ⟨x, hx, hr', -⟩ := hen (j := i) (by rw [hq]; exact List.mem_cons_self)
        rw [hq] at hs
        dsimp only
        rw [hx]
        dsimp only
        split
        · rename_i hgt
          intro hip
          subst hip
          rw [hr] at hr'
          cases hr'
          have := hs rfl
          omega
        · trivial
      | pop i todo => dsimp only; split <;> trivial
      | clock' i todo => trivial
      | age' i t' todo =>
        dsimp only
        split
        · trivial
        · dsimp only
          split <;> trivial
      | hits i todo =>
        dsimp only
        split
        · trivial
        · dsimp only
          split <;> trivial
      | reset i todo =>
        dsimp only
        split
        · trivial
        · split <;> trivial
      | send i todo => trivial
      | dead => exact absurd hq hi.alive

theorem kept (xs zs : List (Step A)) {ip : A} {mac : MacAddress} {t₀ : Int} (hr : remembered (({} : St A).run xs).log ip = some (mac, t₀))
    (hs : Safe ip t₀ (({} : St A).run xs).maint) (h1 : NotLearned ip zs) (h2 : ∀ t ∈ readings zs, t - t₀ ≤ Cache.maxAge) :
    remembered (({} : St A).run (xs ++ zs)).log ip = some (mac, t₀) ∧ Safe ip t₀ (({} : St A).run (xs ++ zs)).maint := by
  induction zs using List.reverseRecOn with
  | nil => rw [List.append_nil]; exact ⟨hr, hs⟩
  | append_singleton zs e ih =>
    have hi := ih (fun mac t h => h1 mac t (List.mem_append.2 (.inl h)))
      (fun t h => h2 t (mem_readings.2 (List.mem_append.2 (.inl (mem_readings.1 h)))))
    rw [← List.append_assoc, run_snoc]
    refine kept_step (inv _) hi.1 hi.2 ?_ ?_
    · rintro mac t rfl
      exact h1 mac t (List.mem_append.2 (.inr (List.mem_singleton.2 rfl)))
    · rintro t rfl
      exact h2 t (mem_readings.2 (List.mem_append.2 (.inr (List.mem_singleton.2 rfl))))

/-! ### Sweeping -/

/-- Steps of the other threads change neither the place of the maintenance thread nor what is remembered of an address that is not learned. -/
theorem others (s : St A) (zs : List (Step A)) {ip : A} (h1 : NotLearned ip zs) (h2 : readings zs = []) :
    (s.run zs).maint = s.maint ∧ remembered (s.run zs).log ip = remembered s.log ip := by
  induction zs using List.reverseRecOn with
  | nil => exact ⟨rfl, rfl⟩
  | append_singleton zs e ih =>
    have hne : ∀ t, e ≠ .maint t := by
      rintro t rfl
      have : t ∈ readings (zs ++ [.maint t]) := mem_readings.2 (List.mem_append.2 (.inr (List.mem_singleton.2 rfl)))
      rw [h2] at this
      cases this
    have hi := ih (fun mac t h => h1 mac t (List.mem_append.2 (.inl h))) (by
      rw [readings, List.filterMap_append] at h2
      exact (List.append_eq_nil_iff.1 h2).1)
    rw [run_snoc, maint_step hne, remembered_step _ fun t _ ht => absurd ht (hne t)]
    · exact hi
    · rintro mac t rfl
      exact h1 mac t (List.mem_append.2 (.inr (List.mem_singleton.2 rfl)))

/-- The first step of the maintenance thread among all the steps. -/
theorem readings_cons {zs : List (Step A)} {t : Int} {l : List Int} (h : readings zs = t :: l) :
    ∃ us vs, zs = us ++ .maint t :: vs ∧ readings us = [] ∧ readings vs = l := by
  induction zs with
  | nil => cases h
  | cons e zs ih =>
    cases e with
    | maint t' =>
      have h' : t' :: readings zs = t :: l := h
      cases h'
      exact ⟨[], zs, rfl, rfl, rfl⟩
    | add a b c =>
      obtain ⟨us, vs, rfl, h1, h2⟩ := ih h
      exact ⟨_ :: us, vs, rfl, h1, h2⟩
    | find a =>
      obtain ⟨us, vs, rfl, h1, h2⟩ := ih h
      exact ⟨_ :: us, vs, rfl, h1, h2⟩
    | go a =>
      obtain ⟨us, vs, rfl, h1, h2⟩ := ih h
      exact ⟨_ :: us, vs, rfl, h1, h2⟩

/-- Up to and with the next step of the maintenance thread. -/
theorem upto (xs zs : List (Step A)) {t : Int} {l : List Int} {ip : A} (h1 : NotLearned ip zs) (h : readings zs = t :: l) :
    ∃ us vs, zs = us ++ vs ∧ readings vs = l ∧ ∃ s : St A, ({} : St A).run (xs ++ us) = s.step (.maint t) ∧ Inv s ∧ s.maint = (({} : St A).run xs).maint ∧
      remembered s.log ip = remembered (({} : St A).run xs).log ip := by
  obtain ⟨us, vs, rfl, h2, h3⟩ := readings_cons h
  refine ⟨us ++ [.maint t], vs, by simp, h3, ({} : St A).run (xs ++ us), by rw [← List.append_assoc, run_snoc], inv _, ?_⟩
  rw [run_append]
  exact others _ _ (fun mac t h => h1 mac t (List.mem_append.2 (.inl h))) h2

theorem swept (xs zs : List (Step A)) {ip : A} {todo : List A} {mac : MacAddress} {t₀ a t b c : Int}
    (hm : (({} : St A).run xs).maint = .perm ip todo) (hr : remembered (({} : St A).run xs).log ip = some (mac, t₀)) (h1 : NotLearned ip zs)
    (h2 : readings zs = [a, t, b, c]) (h3 : t - t₀ > Cache.maxAge) : remembered (({} : St A).run (xs ++ zs)).log ip = none := by
  have hnl : ∀ {us vs : List (Step A)}, NotLearned ip (us ++ vs) → NotLearned ip vs := fun h mac t hh => h mac t (List.mem_append.2 (.inr hh))
  -- :107
  obtain ⟨us, vs, rfl, h2, s, hs, hi, hsm, hsr⟩ := upto xs zs h1 h2
  rw [hm] at hsm
  rw [hr] at hsr
  obtain ⟨x, hx, hxr, hxp⟩ := hi.entry (ip := ip) (by rw [hsm]; exact List.mem_cons_self)
  rw [hsr] at hxr
  have hrun : ({} : St A).run (xs ++ us) = { s with maint := .clock ip todo } := by
    rw [hs, St.step, St.tend, hsm]; dsimp only; rw [hx]; dsimp only; rw [hxp]; rfl
  have h1' := hnl h1
  -- :112
  obtain ⟨us', vs', rfl, h2, s', hs', hi', hsm', hsr'⟩ := upto (xs ++ us) vs h1' h2
  rw [hrun] at hsm' hsr'
  rw [hsr] at hsr'
  dsimp only at hsm'
  have hrun' : ({} : St A).run (xs ++ us ++ us') = { s' with maint := .age ip t todo } := by
    rw [hs', St.step, St.tend, hsm']
  have h1'' := hnl h1'
  obtain ⟨us'', vs'', rfl, h2, s'', hs'', hi'', hsm'', hsr''⟩ := upto (xs ++ us ++ us') vs' h1'' h2
  rw [hrun'] at hsm'' hsr''
  rw [hsr'] at hsr''
  dsimp only at hsm''
  obtain ⟨x, hx, hxr, hxp⟩ := hi''.entry (ip := ip) (by rw [hsm'']; exact List.mem_cons_self)
  rw [hsr''] at hxr
  cases hxr
  have hrun'' : ({} : St A).run (xs ++ us ++ us' ++ us'') = { s'' with maint := .pop ip todo } := by
    rw [hs'', St.step, St.tend, hsm'']; dsimp only; rw [hx]; dsimp only; rw [if_pos h3]
  -- :115
  obtain ⟨us₃, vs₃, rfl, h2, s₃, hs₃, hi₃, hsm₃, hsr₃⟩ := upto (xs ++ us ++ us' ++ us'') vs'' (hnl h1'') h2
  rw [hrun''] at hsm₃
  dsimp only at hsm₃
  obtain ⟨x, hx, -, -⟩ := hi₃.entry (ip := ip) (by rw [hsm₃]; exact List.mem_cons_self)
  have hl : (({} : St A).run (xs ++ us ++ us' ++ us'' ++ us₃)).log = s₃.log ++ [.removed ip] := by
    rw [hs₃, St.step, St.tend, hsm₃]; dsimp only; rw [hx]
  have he : xs ++ (us ++ (us' ++ (us'' ++ (us₃ ++ vs₃)))) = xs ++ us ++ us' ++ us'' ++ us₃ ++ vs₃ := by simp
  rw [he, run_append, (others _ vs₃ (hnl (hnl h1'')) h2).2, hl, remembered_snoc]
  exact if_pos rfl

/-! ### A call waiting for its next step, and a round -/

theorem waits (xs ys : List (Step A)) (k : Nat) (c : A × Find) (e : Nat) (x : CacheEntry) (hy : .go k ∉ ys)
    (h : (({} : St A).run xs).finds[k]? = some c) (hx : (({} : St A).run xs).objs[e]? = some x) :
    (({} : St A).run (xs ++ ys)).finds[k]? = some c ∧ ∃ y, (({} : St A).run (xs ++ ys)).objs[e]? = some y ∧ y.mac = x.mac := by
  induction ys using List.reverseRecOn with
  | nil => rw [List.append_nil]; exact ⟨h, x, hx, rfl⟩
  | append_singleton ys ev ih =>
    obtain ⟨h1, y, h2, h3⟩ := ih fun hh => hy (List.mem_append.2 (.inl hh))
    rw [← List.append_assoc, run_snoc]
    obtain ⟨z, hz, hzm⟩ := mac_step h2 ev
    refine ⟨?_, z, hz, by rw [hzm, h3]⟩
    rcases finds_step (({} : St A).run (xs ++ ys)) ev with hf | ⟨ip, hf⟩ | ⟨k', rfl⟩
    · rw [hf]; exact h1
    · rw [hf, List.getElem?_append_left (List.getElem?_eq_some_iff.1 h1).1]; exact h1
    · have hk : k' ≠ k := by
        rintro rfl
        exact hy (List.mem_append.2 (.inr (List.mem_singleton.2 rfl)))
      have hset : ∀ (l : List (A × Find)) c', (l.set k' c')[k]? = l[k]? := fun l c' => List.getElem?_set_ne hk
      rw [St.step]
      split
      · exact h1
      · rename_i ip f hf
        cases f with
        | look => rw [St.look]; split <;> (dsimp only; rw [hset]; exact h1)
        | bump i =>
          rw [St.look]
          split
          · exact h1
          · dsimp only; rw [hset]; exact h1
        | write i n =>
          rw [St.look]
          split
          · exact h1
          · dsimp only; rw [hset]; exact h1
        | done r => exact h1

/-- The addresses still to be visited in this round. -/
def pend : Maint A → List A
  | .pass todo | .perm _ todo | .clock _ todo | .age _ _ todo | .pop _ todo | .clock' _ todo | .age' _ _ todo | .hits _ todo | .reset _ todo | .send _ todo => todo
  | _ => []

theorem pend_step {s : St A} (hi : Inv s) {ip : A} (h : ip ∈ pend s.maint) (t : Int) :
    (∃ todo, (s.step (.maint t)).maint = .perm ip todo) ∨ ip ∈ pend (s.step (.maint t)).maint := by
  have hen := fun {j : A} (hj : j ∈ left s.maint) => hi.entry hj
  rw [St.step, St.tend]
  cases hq : s.maint with
  | sleep => rw [hq] at h; cases h
  | pass todo =>
    rw [hq] at h
    cases todo with
    | nil => cases h
    | cons i todo =>
      rcases List.mem_cons.1 h with rfl | h
      · exact .inl ⟨todo, rfl⟩
      · exact .inr h
  | perm i todo =>
    obtain ⟨x, hx, -, -⟩ := hen (j := i) (by rw [hq]; exact List.mem_cons_self)
    rw [hq] at h
    dsimp only
    rw [hx]
    dsimp only
    split <;> exact .inr h
  | clock i todo => rw [hq] at h; exact .inr h
  | age i t' todo =>
    obtain ⟨x, hx, -, -⟩ := hen (j := i) (by rw [hq]; exact List.mem_cons_self)
    rw [hq] at h
    dsimp only
    rw [hx]
    dsimp only
    split <;> exact .inr h
  | pop i todo =>
    obtain ⟨x, hx, -, -⟩ := hen (j := i) (by rw [hq]; exact List.mem_cons_self)
    rw [hq] at h
    dsimp only
    rw [hx]
    exact .inr h
  | clock' i todo => rw [hq] at h; exact .inr h
  | age' i t' todo =>
    obtain ⟨x, hx, -, -⟩ := hen (j := i) (by rw [hq]; exact List.mem_cons_self)
    rw [hq] at h
    dsimp only
    rw [hx]
    dsimp only
    split <;> exact .inr h
  | hits i todo =>
    obtain ⟨x, hx, -, -⟩ := hen (j := i) (by rw [hq]; exact List.mem_cons_self)
    rw [hq] at h
    dsimp only
    rw [hx]
    dsimp only
    split <;> exact .inr h
  | reset i todo =>
    obtain ⟨e, he⟩ := hi.there i (by rw [hq]; exact List.mem_cons_self)
    obtain ⟨x, hx, -⟩ := hi.valid i e he
    rw [hq] at h
    dsimp only
    rw [he]
    dsimp only
    rw [hx]
    exact .inr h
  | send i todo => rw [hq] at h; exact .inr h
  | dead => exact absurd hq hi.alive

theorem round (xs zs : List (Step A)) (ip : A) (hm : (({} : St A).run xs).maint = .sleep)
    (hr : remembered (({} : St A).run xs).log ip ≠ none) :
    (∃ us vs, zs = us ++ vs ∧ ∃ todo, (({} : St A).run (xs ++ us)).maint = .perm ip todo) ∨
    (readings zs = [] ∧ (({} : St A).run (xs ++ zs)).maint = .sleep ∧ remembered (({} : St A).run (xs ++ zs)).log ip ≠ none) ∨
    ip ∈ pend (({} : St A).run (xs ++ zs)).maint := by
  induction zs using List.reverseRecOn with
  | nil => rw [List.append_nil]; exact .inr (.inl ⟨rfl, hm, hr⟩)
  | append_singleton zs e ih =>
    rcases ih with ⟨us, vs, rfl, h⟩ | hrest
    · exact .inl ⟨us, vs ++ [e], List.append_assoc _ _ _, h⟩
    rw [← List.append_assoc, run_snoc]
    by_cases hne : ∀ t, e ≠ .maint t
    · refine .inr ?_
      rw [maint_step hne]
      rcases hrest with ⟨h1, h2, h3⟩ | h
      · refine .inl ⟨?_, h2, ?_⟩
        · rw [readings, List.filterMap_append]
          rw [readings] at h1
          rw [h1]
          cases e with
          | maint t => exact absurd rfl (hne t)
          | add _ _ _ => rfl
          | find _ => rfl
          | go _ => rfl
        · rcases log_step (({} : St A).run (xs ++ zs)) e with h | ⟨i, h⟩ | ⟨i, mac, t, rfl, h⟩ | ⟨t, i, todo, rfl, -, -, h⟩
          · rw [h]; exact h3
          · rw [h, remembered_snoc]; exact h3
          · rw [h, remembered_snoc]
            dsimp only
            split
            · intro hc; cases hc
            · exact h3
          · exact absurd rfl (hne t)
      · exact .inr h
    · have hm' : ∃ t, e = .maint t := by
        by_contra hc
        exact hne fun t ht => hc ⟨t, ht⟩
      obtain ⟨t, rfl⟩ := hm'
      rcases hrest with ⟨h1, h2, h3⟩ | h
      · refine .inr (.inr ?_)
        rw [St.step, St.tend, h2]
        dsimp only [pend]
        rw [Dict.mem_keys_iff]
        cases hd : (({} : St A).run (xs ++ zs)).dict.get? ip with
        | none => exact absurd ((inv _).none ip hd) h3
        | some e => exact ⟨e, rfl⟩
      · rcases pend_step (inv _) h t with ⟨todo, h⟩ | h
        · refine .inl ⟨zs ++ [.maint t], [], (List.append_nil _).symm, todo, ?_⟩
          rw [← List.append_assoc, run_snoc]
          exact h
        · exact .inr (.inr h)

end CacheThreads
end Verif
