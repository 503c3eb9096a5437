import Verif.Spec.Cache
import Verif.Lemmas.Dict
import Mathlib.Data.List.Induction
/-! Helper lemmas about the neighbour caches. -/
namespace Verif.Cache
open Spec (Fresh Used)
variable {A : Type} [DecidableEq A]

theorem snoc_split {α : Type} {h a b : List α} {e x : α} : h ++ [e] = a ++ x :: b ↔
    (b = [] ∧ a = h ∧ x = e) ∨ ∃ b', b = b' ++ [e] ∧ h = a ++ x :: b' := by
  constructor
  · intro hh
    rcases List.eq_nil_or_concat b with rfl | ⟨b', y, rfl⟩
    · left
      have := List.append_inj' hh rfl
      exact ⟨rfl, this.1.symm, by simpa using this.2.symm⟩
    · right
      rw [List.concat_eq_append] at hh ⊢
      have : h ++ [e] = (a ++ x :: b') ++ [y] := by rw [hh]; simp
      obtain ⟨h1, h2⟩ := List.append_inj' this rfl
      exact ⟨b', by simp at h2; rw [h2], h1⟩
  · rintro (⟨rfl, rfl, rfl⟩ | ⟨b', rfl, rfl⟩) <;> simp

omit [DecidableEq A] in
theorem fresh_snoc (h : List (Ev A)) (ev : Ev A) (ip : A) (mac : MacAddress) (t : Int) :
    Fresh (h ++ [ev]) ip mac t ↔ ev = .add ip mac t ∨
      (Fresh h ip mac t ∧ (∀ m t', ev ≠ .add ip m t') ∧ ∀ v v', ev = .visit ip v v' → v - t ≤ 3600 * 1000000) := by
  constructor
  · rintro ⟨a, b, h1, h2, h3⟩
    rcases snoc_split.mp h1 with ⟨rfl, rfl, rfl⟩ | ⟨b', rfl, rfl⟩
    · exact Or.inl rfl
    · right
      refine ⟨⟨a, b', rfl, fun m t' hm => h2 m t' (by simp [hm]), fun v v' hv => h3 v v' (by simp [hv])⟩, ?_, ?_⟩
      · intro m t' hm; exact h2 m t' (by simp [hm])
      · intro v v' hv; exact h3 v v' (by simp [hv])
  · rintro (rfl | ⟨⟨a, b, rfl, h2, h3⟩, h4, h5⟩)
    · exact ⟨h, [], rfl, by simp, by simp⟩
    · refine ⟨a, b ++ [ev], by simp, ?_, ?_⟩
      · intro m t' hm
        rcases List.mem_append.mp hm with hm | hm
        · exact h2 m t' hm
        · exact h4 m t' (List.mem_singleton.mp hm).symm
      · intro v v' hv
        rcases List.mem_append.mp hv with hv | hv
        · exact h3 v v' hv
        · exact h5 v v' (List.mem_singleton.mp hv).symm

omit [DecidableEq A] in
theorem used_snoc (h : List (Ev A)) (ev : Ev A) (ip : A) (t : Int) :
    Used (h ++ [ev]) ip t ↔ ev = .find ip ∨
      (Used h ip t ∧ (∀ m t', ev ≠ .add ip m t') ∧ ∀ v v', ev = .visit ip v v' → v' - t ≤ (3600 - 300) * 1000000) := by
  constructor
  · rintro ⟨a, b, h1, h2, h3⟩
    rcases snoc_split.mp h1 with ⟨rfl, rfl, rfl⟩ | ⟨b', rfl, rfl⟩
    · exact Or.inl rfl
    · right
      refine ⟨⟨a, b', rfl, fun m t' hm => h2 m t' (by simp [hm]), fun v v' hv => h3 v v' (by simp [hv])⟩, ?_, ?_⟩
      · intro m t' hm; exact h2 m t' (by simp [hm])
      · intro v v' hv; exact h3 v v' (by simp [hv])
  · rintro (rfl | ⟨⟨a, b, rfl, h2, h3⟩, h4, h5⟩)
    · exact ⟨h, [], rfl, by simp, by simp⟩
    · refine ⟨a, b ++ [ev], by simp, ?_, ?_⟩
      · intro m t' hm
        rcases List.mem_append.mp hm with hm | hm
        · exact h2 m t' hm
        · exact h4 m t' (List.mem_singleton.mp hm).symm
      · intro v v' hv
        rcases List.mem_append.mp hv with hv | hv
        · exact h3 v v' hv
        · exact h5 v v' (List.mem_singleton.mp hv).symm

theorem run_snoc (c : Cache A) (h : List (Ev A)) (ev : Ev A) : run c (h ++ [ev]) = (step (run c h) ev).1 := by
  simp [run]

/-- The state an address is in after one more step. -/
theorem step_get (c : Cache A) (ev : Ev A) (ip : A) : ((step c ev).1).get? ip =
    match ev with
    | .add ip' m t => if ip = ip' then some ⟨m, false, t, 0⟩ else c.get? ip
    | .find ip' => if ip = ip' then (c.get? ip).map (fun e => { e with hits := e.hits + 1 }) else c.get? ip
    | .visit ip' t t' => if ip = ip' then
        (c.get? ip).bind (fun e => if e.permanent then some e else if t - e.created > maxAge then none
          else if t' - e.created > maxAge - refreshTime && e.hits ≠ 0 then some { e with hits := 0 } else some e)
        else c.get? ip := by
  cases ev with
  | add ip' m t => simp only [step, add, Dict.get?_set]
  | find ip' =>
    simp only [step, find]
    cases h : c.get? ip' with
    | none =>
      by_cases hi : ip = ip'
      · subst hi; simp [h]
      · simp [hi]
    | some e =>
      by_cases hi : ip = ip'
      · subst hi; simp [h]
      · simp [hi, Dict.get?_set]
  | visit ip' t t' =>
    simp only [step, visit]
    cases h : c.get? ip' with
    | none =>
      by_cases hi : ip = ip'
      · subst hi; simp [h]
      · simp [hi]
    | some e =>
      by_cases hi : ip = ip'
      · subst hi
        simp only [if_pos, h, Option.bind_some]
        split
        · exact h
        split
        · simp
        split
        · simp
        · exact h
      · simp only [if_neg hi]
        split
        · rfl
        split
        · simp [Dict.get?_erase, hi]
        split
        · simp [Dict.get?_set, hi]
        · rfl

/-- What is remembered for an address is what the history says. -/
theorem run_inv (h : List (Ev A)) (ip : A) :
    (∀ mac t, (∃ e, (run [] h).get? ip = some e ∧ e.mac = mac ∧ e.created = t) ↔ Fresh h ip mac t) ∧
      ∀ e, (run [] h).get? ip = some e → e.permanent = false ∧ (e.hits ≠ 0 ↔ Used h ip e.created) := by
  induction h using List.reverseRecOn with
  | nil =>
    refine ⟨fun mac t => ⟨?_, ?_⟩, ?_⟩
    · rintro ⟨e, h, -⟩; simp [run] at h
    · rintro ⟨a, b, h, -⟩; simp at h
    · intro e h; simp [run] at h
  | append_singleton h ev ih =>
    obtain ⟨ih1, ih2⟩ := ih
    have hstep := step_get (run [] h) ev ip
    rw [← run_snoc] at hstep
    cases ev with
    | add ip' m₀ t₀ =>
      simp only at hstep
      by_cases hi : ip = ip'
      · subst hi
        rw [if_pos rfl] at hstep
        refine ⟨fun mac t => ?_, ?_⟩
        · rw [fresh_snoc, hstep]; simp
        · intro e he
          rw [hstep] at he
          obtain rfl := Option.some.inj he
          refine ⟨rfl, ?_⟩
          rw [used_snoc]; simp
      · rw [if_neg hi] at hstep
        refine ⟨fun mac t => ?_, ?_⟩
        · rw [fresh_snoc, hstep, ih1]; simp; grind
        · intro e he
          rw [hstep] at he
          refine ⟨(ih2 e he).1, ?_⟩
          rw [used_snoc, (ih2 e he).2]; simp; grind
    | find ip' =>
      simp only at hstep
      by_cases hi : ip = ip'
      · subst hi
        rw [if_pos rfl] at hstep
        refine ⟨fun mac t => ?_, ?_⟩
        · rw [fresh_snoc, hstep, ← ih1]
          simp
        · intro e he
          rw [hstep, Option.map_eq_some_iff] at he
          obtain ⟨e', he', rfl⟩ := he
          refine ⟨(ih2 e' he').1, ?_⟩
          rw [used_snoc]; simp
      · rw [if_neg hi] at hstep
        refine ⟨fun mac t => ?_, ?_⟩
        · rw [fresh_snoc, hstep, ih1]; simp
        · intro e he
          rw [hstep] at he
          refine ⟨(ih2 e he).1, ?_⟩
          rw [used_snoc, (ih2 e he).2]; simp; grind
    | visit ip' v v' =>
      simp only at hstep
      by_cases hi : ip = ip'
      · subst hi
        rw [if_pos rfl] at hstep
        cases hg : (run [] h).get? ip with
        | none =>
          rw [hg, Option.bind_none] at hstep
          refine ⟨fun mac t => ?_, ?_⟩
          · rw [fresh_snoc, hstep, ← ih1, hg]; simp
          · intro e he; rw [hstep] at he; cases he
        | some e =>
          obtain ⟨hp, hh⟩ := ih2 e hg
          rw [hg, Option.bind_some, hp] at hstep
          simp only [Bool.false_eq_true, if_false] at hstep
          split at hstep
          · rename_i hold
            refine ⟨fun mac t => ?_, ?_⟩
            · rw [fresh_snoc, hstep, ← ih1, hg]
              simp [maxAge] at hold ⊢
              rintro - rfl
              exact hold
            · intro e he; rw [hstep] at he; cases he
          · rename_i hold
            have hf : ∀ mac t, Fresh (h ++ [.visit ip v v']) ip mac t ↔ e.mac = mac ∧ e.created = t := by
              intro mac t
              rw [fresh_snoc, ← ih1, hg]
              simp [maxAge] at hold ⊢
              rintro - rfl
              exact hold
            split at hstep
            · rename_i hr
              refine ⟨fun mac t => ?_, ?_⟩
              · rw [hf, hstep]; simp
              · intro e he
                rw [hstep] at he
                obtain rfl := Option.some.inj he
                refine ⟨rfl, ?_⟩
                rw [used_snoc]
                simp [maxAge, refreshTime] at hr ⊢
                intro _
                exact hr.1
            · rename_i hr
              refine ⟨fun mac t => ?_, ?_⟩
              · rw [hf, hstep]; simp
              · intro e' he
                rw [hstep] at he
                obtain rfl := Option.some.inj he
                refine ⟨hp, ?_⟩
                rw [used_snoc, hh]
                simp [maxAge, refreshTime] at hr ⊢
                intro hu
                exact Int.not_lt.mp (fun h => hh.mpr hu (hr h))
      · rw [if_neg hi] at hstep
        refine ⟨fun mac t => ?_, ?_⟩
        · rw [fresh_snoc, hstep, ih1]; simp; grind
        · intro e he
          rw [hstep] at he
          refine ⟨(ih2 e he).1, ?_⟩
          rw [used_snoc, (ih2 e he).2]; simp; grind

theorem run_nodup (h : List (Ev A)) : (Dict.keys (run ([] : Cache A) h)).Nodup := by
  induction h using List.reverseRecOn with
  | nil => simp [run, Dict.keys]
  | append_singleton h ev ih =>
    rw [run_snoc]
    cases ev with
    | add => exact Dict.nodup_set _ _ ih
    | find ip =>
      simp only [step, find]
      split
      · exact Dict.nodup_set _ _ ih
      · exact ih
    | visit ip v v' =>
      simp only [step, visit]
      split
      · exact ih
      split
      · exact ih
      split
      · exact Dict.nodup_erase _ ih
      split
      · exact Dict.nodup_set _ _ ih
      · exact ih

/-- Calls, and visits to other addresses, do not remove an entry. -/
theorem step_keeps (c : Cache A) (ev : Ev A) (ip : A) (hev : ∀ v v', ev ≠ .visit ip v v') (h : (c.get? ip).isSome) :
    ((step c ev).1.get? ip).isSome := by
  rw [step_get]
  cases ev with
  | add ip' m t => simp only; split <;> simp_all
  | find ip' => simp only; split <;> simp_all
  | visit ip' v v' =>
    simp only
    split
    · subst_vars; exact absurd rfl (hev _ _)
    · exact h

end Verif.Cache
