import Verif.Spec.RingThreads
import Mathlib.Data.List.Induction
/-! The frame queues with several threads. -/
namespace Verif
open Spec
namespace RingThreads
variable {F : Type} {fits : F → Bool}

theorem steps_snoc (s : St F) (xs : List (Step F)) (e : Step F) : s.steps fits (xs ++ [e]) = (s.steps fits xs).step fits e := by
  rw [St.steps, List.foldl_append]; rfl

theorem steps_append (s : St F) (xs ys : List (Step F)) : s.steps fits (xs ++ ys) = (s.steps fits xs).steps fits ys := by
  rw [St.steps, List.foldl_append]; rfl

theorem put_app (a b : List (Ev F)) : framesPut (a ++ b) = framesPut a ++ framesPut b := List.filterMap_append
theorem taken_app (a b : List (Ev F)) : framesTaken (a ++ b) = framesTaken a ++ framesTaken b := List.filterMap_append
theorem dealt_app (a b : List (Ev F)) : framesDealt (a ++ b) = framesDealt a ++ framesDealt b := List.filterMap_append
theorem written_app (a b : List (Ev F)) : framesWritten (a ++ b) = framesWritten a ++ framesWritten b := List.filterMap_append

/-- What dealing with a frame leaves in the log. -/
def outcome (fits : F → Bool) (ok : Bool) (f : F) : Ev F := if !fits f then .tooLong f else if ok then .wrote f else .failed f

theorem outcome_put (ok : Bool) (f : F) : framesPut [outcome fits ok f] = [] := by
  unfold outcome; split
  · rfl
  · split <;> rfl
theorem outcome_taken (ok : Bool) (f : F) : framesTaken [outcome fits ok f] = [] := by
  unfold outcome; split
  · rfl
  · split <;> rfl
theorem outcome_dealt (ok : Bool) (f : F) : framesDealt [outcome fits ok f] = [f] := by
  unfold outcome; split
  · rfl
  · split <;> rfl

/-- The queue is what was put in and not taken. -/
theorem order_step {s : St F} (h : framesTaken s.log ++ s.ring = framesPut s.log) (e : Step F) :
    framesTaken (s.step fits e).log ++ (s.step fits e).ring = framesPut (s.step fits e).log := by
  cases e with
  | append f =>
    dsimp only [St.step]
    rw [taken_app, put_app, ← h]
    simp [framesTaken, framesPut]
  | release => rw [St.step]; split <;> exact h
  | start => exact h
  | stop => exact h
  | go k ok =>
    rw [St.step]
    split
    · exact h
    · rename_i c hc
      cases c with
      | test => exact h
      | acquire => exact h
      | check => exact h
      | pop =>
        rw [St.turn]
        split
        · exact h
        · rename_i f r hr
          dsimp only
          rw [taken_app, put_app, ← h, hr]
          simp [framesTaken, framesPut]
      | deal f =>
        rw [St.turn]
        dsimp only
        change framesTaken (s.log ++ [outcome fits ok f]) ++ s.ring = framesPut (s.log ++ [outcome fits ok f])
        rw [taken_app, put_app, outcome_put, outcome_taken, List.append_nil, List.append_nil]
        exact h
      | ended => exact h
      | dead => exact h

theorem order (xs : List (Step F)) : framesTaken (queueAfter fits xs).log ++ (queueAfter fits xs).ring = framesPut (queueAfter fits xs).log := by
  induction xs using List.reverseRecOn with
  | nil => rfl
  | append_singleton xs e ih => rw [queueAfter, steps_snoc]; exact order_step ih e

/-! ### One thread -/

/-- The frame a thread holds. -/
def holds : Pc F → List F
  | .deal f => [f]
  | _ => []

structure Good (s : St F) (c : Pc F) : Prop where
  alive : c ≠ .dead
  there : c = .pop → s.ring ≠ []
  dealt : framesDealt s.log ++ holds c = framesTaken s.log

/-- At most the last thread started is going on. -/
def Single (s : St F) : Prop :=
  (s.threads = [] ∧ framesDealt s.log = framesTaken s.log) ∨ ∃ l c, s.threads = l ++ [c] ∧ (∀ x ∈ l, x = .ended) ∧ Good s c

theorem Single.step {s : St F} (h : Single s) (e : Step F) (hs : e = .start → ∀ c ∈ s.threads, c = .ended) : Single (s.step fits e) := by
  cases e with
  | append f =>
    have h1 : framesDealt (s.log ++ [.put f]) = framesDealt s.log := by rw [dealt_app]; exact List.append_nil _
    have h2 : framesTaken (s.log ++ [.put f]) = framesTaken s.log := by rw [taken_app]; exact List.append_nil _
    rcases h with ⟨h, hd⟩ | ⟨l, c, h, hl, hg⟩
    · exact .inl ⟨h, by dsimp only [St.step]; rw [h1, h2]; exact hd⟩
    · exact .inr ⟨l, c, h, hl, hg.alive, fun _ => by simp [St.step], by dsimp only [St.step]; rw [h1, h2]; exact hg.dealt⟩
  | release =>
    rw [St.step]
    split
    · exact h
    · rcases h with h | ⟨l, c, h, hl, hg⟩
      · exact .inl h
      · exact .inr ⟨l, c, h, hl, hg.alive, hg.there, hg.dealt⟩
  | stop =>
    rcases h with h | ⟨l, c, h, hl, hg⟩
    · exact .inl h
    · exact .inr ⟨l, c, h, hl, hg.alive, hg.there, hg.dealt⟩
  | start =>
    have hs := hs rfl
    refine .inr ⟨s.threads, .test, rfl, hs, by simp, by simp, ?_⟩
    dsimp only [St.step, holds]
    rw [List.append_nil]
    rcases h with h | ⟨l, c, h, hl, hg⟩
    · exact h.2
    · have hc : c = .ended := hs c (by rw [h]; simp)
      have := hg.dealt
      rw [hc] at this
      simpa [holds] using this
  | go k ok =>
    rw [St.step]
    split
    · exact h
    · rename_i c₀ hc
      rcases h with ⟨h, -⟩ | ⟨l, c, h, hl, hg⟩
      · rw [h] at hc; simp at hc
      · by_cases hk : k < l.length
        · rw [h, List.getElem?_append_left hk] at hc
          have := hl c₀ (List.mem_of_getElem? hc)
          subst this
          exact .inr ⟨l, c, h, hl, hg⟩
        · have hk' : k = l.length := by
            have := (List.getElem?_eq_some_iff.1 hc).1
            rw [h, List.length_append, List.length_singleton] at this
            omega
          subst hk'
          rw [h, List.getElem?_concat_length] at hc
          cases hc
          have hset : ∀ c', s.threads.set l.length c' = l ++ [c'] := by
            intro c'
            rw [h, List.set_append_right _ _ (Nat.le_refl _), Nat.sub_self]
            rfl
          have hd := hg.dealt
          cases c₀ with
          | test =>
            refine .inr ⟨l, _, hset _, hl, ?_, ?_, ?_⟩
            · split <;> simp
            · split <;> simp
            · split <;> exact hd
          | acquire => exact .inr ⟨l, _, hset _, hl, by simp, by simp, hd⟩
          | check =>
            refine .inr ⟨l, _, hset _, hl, ?_, ?_, ?_⟩
            · split <;> simp
            · split
              · simp
              · rename_i he
                intro _ hc
                rw [show s.ring = [] from hc] at he
                exact he rfl
            · split <;> exact hd
          | pop =>
            rw [St.turn]
            split
            · rename_i he
              exact absurd he (hg.there rfl)
            · rename_i f r he
              refine .inr ⟨l, _, hset _, hl, by simp, by simp, ?_⟩
              dsimp only
              rw [dealt_app, taken_app, ← hd]
              simp [framesDealt, framesTaken, holds]
          | deal f =>
            refine .inr ⟨l, _, hset _, hl, by simp, by simp, ?_⟩
            change framesDealt (s.log ++ [outcome fits ok f]) ++ [] = framesTaken (s.log ++ [outcome fits ok f])
            rw [dealt_app, taken_app, outcome_dealt, outcome_taken, ← hd, List.append_nil, List.append_nil]
            rfl
          | ended => exact .inr ⟨l, _, h, hl, hg⟩
          | dead => exact absurd rfl hg.alive

theorem single (xs : List (Step F)) (h : OneThread fits xs) : Single (queueAfter fits xs) := by
  induction xs using List.reverseRecOn with
  | nil => exact .inl ⟨rfl, rfl⟩
  | append_singleton xs e ih =>
    rw [queueAfter, steps_snoc]
    refine (ih fun ys hy => h ys (hy.trans (List.prefix_append _ _))).step e ?_
    rintro rfl
    exact h xs (List.prefix_refl _)

/-- Without failing writes what is written is what was dealt with and fits. -/
theorem written_all (xs : List (Step F)) (h : ∀ k, .go k false ∉ xs) :
    framesWritten (queueAfter fits xs).log = (framesDealt (queueAfter fits xs).log).filter fits := by
  induction xs using List.reverseRecOn with
  | nil => rfl
  | append_singleton xs e ih =>
    have ih := ih fun k hk => h k (List.mem_append.2 (.inl hk))
    rw [queueAfter, steps_snoc]
    change framesWritten (({} : St F).steps fits xs).log = _ at ih
    rw [queueAfter] at ih
    generalize ({} : St F).steps fits xs = s at ih ⊢
    have hsame : ∀ {ev : Ev F}, framesWritten [ev] = [] → framesDealt [ev] = [] →
        framesWritten (s.log ++ [ev]) = (framesDealt (s.log ++ [ev])).filter fits := by
      intro ev h1 h2
      rw [written_app, dealt_app, h1, h2, List.append_nil, List.append_nil]
      exact ih
    cases e with
    | append f => exact hsame rfl rfl
    | release => rw [St.step]; split <;> exact ih
    | start => exact ih
    | stop => exact ih
    | go k ok =>
      rw [St.step]
      split
      · exact ih
      · rename_i c hc
        cases c with
        | test => exact ih
        | acquire => exact ih
        | check => exact ih
        | pop =>
          rw [St.turn]
          split
          · exact ih
          · exact hsame rfl rfl
        | deal f =>
          cases ok with
          | false => exact absurd (List.mem_append.2 (.inr (List.mem_singleton.2 rfl))) (h k)
          | true =>
            rw [St.turn]
            dsimp only
            rw [written_app, dealt_app, List.filter_append, ih]
            cases hf : fits f <;> simp [framesWritten, framesDealt, hf]
        | ended => exact ih
        | dead => exact ih

/-! ### The queue is emptied -/

/-- How far a round is. -/
def place : Pc F → Nat
  | .test => 4
  | .acquire => 3
  | .check => 2
  | .pop => 1
  | .deal _ => 0
  | .ended => 0
  | .dead => 0

/-- Going round. -/
def Live (c : Pc F) : Prop := c ≠ .ended ∧ c ≠ .dead

theorem turns_snoc (k : Nat) (xs : List (Step F)) (e : Step F) : turns k (xs ++ [e]) = turns k xs + turns k [e] := List.countP_append

theorem dealt_mono (s : St F) (e : Step F) : (framesDealt s.log).length ≤ (framesDealt (s.step fits e).log).length := by
  have happ : ∀ l : List (Ev F), (framesDealt s.log).length ≤ (framesDealt (s.log ++ l)).length := by
    intro l; rw [dealt_app, List.length_append]; omega
  cases e with
  | append f => exact happ _
  | release => rw [St.step]; split <;> exact Nat.le_refl _
  | start => exact Nat.le_refl _
  | stop => exact Nat.le_refl _
  | go k ok =>
    rw [St.step]
    split
    · exact Nat.le_refl _
    · rename_i c hc
      cases c with
      | pop =>
        rw [St.turn]
        split
        · exact Nat.le_refl _
        · exact happ _
      | deal f => exact happ _
      | test => exact Nat.le_refl _
      | acquire => exact Nat.le_refl _
      | check => exact Nat.le_refl _
      | ended => exact Nat.le_refl _
      | dead => exact Nat.le_refl _

/-- One step, seen from a thread that is the only one going on: its state, and how much is still to do until `n` frames have been dealt with. -/
theorem work_step {s : St F} (ho : framesTaken s.log ++ s.ring = framesPut s.log) (hrun : s.run = true) {l : List (Pc F)} {c : Pc F}
    (ht : s.threads = l ++ [c]) (hl : ∀ x ∈ l, x = .ended) (hc : Live c) (hg : Good s c) (n : Nat) (hn : n ≤ (framesPut s.log).length)
    {e : Step F} (h1 : e ≠ .start) (h2 : e ≠ .stop) :
    (s.step fits e).run = true ∧ ∃ c', (s.step fits e).threads = l ++ [c'] ∧ Live c' ∧ 
      n ≤ (framesPut (s.step fits e).log).length ∧
      (n ≤ (framesDealt (s.step fits e).log).length ∨
        5 * (n - (framesDealt (s.step fits e).log).length) + place c' + turns l.length [e] ≤ 5 * (n - (framesDealt s.log).length) + place c) := by
  cases e with
  | append f =>
    refine ⟨hrun, c, ht, hc, ?_, ?_⟩
    · dsimp only [St.step]; rw [put_app, List.length_append]; omega
    · refine .inr ?_
      dsimp only [St.step]
      rw [dealt_app, List.length_append]
      have : turns l.length [Step.append f] = 0 := rfl
      rw [this]
      omega
  | release =>
    rw [St.step]
    have : turns l.length [(Step.release : Step F)] = 0 := rfl
    rw [this]
    split
    · exact ⟨hrun, c, ht, hc, hn, .inr (Nat.le_refl _)⟩
    · exact ⟨hrun, c, ht, hc, hn, .inr (Nat.le_refl _)⟩
  | start => exact absurd rfl h1
  | stop => exact absurd rfl h2
  | go k ok =>
    rw [St.step]
    by_cases hk : k = l.length
    · subst hk
      have hgt : s.threads[l.length]? = some c := by rw [ht]; exact List.getElem?_concat_length ..
      have hone : turns l.length [(Step.go l.length ok : Step F)] = 1 := by simp [turns]
      rw [hgt, hone]
      dsimp only
      have hset : ∀ c', s.threads.set l.length c' = l ++ [c'] := by
        intro c'
        rw [ht, List.set_append_right _ _ (Nat.le_refl _), Nat.sub_self]
        rfl
      cases c with
      | test =>
        refine ⟨hrun, .acquire, ?_, by simp [Live], hn, .inr ?_⟩
        · rw [St.turn, if_pos hrun]; exact hset _
        · rw [St.turn]; dsimp only [place]; omega
      | acquire =>
        refine ⟨hrun, .check, hset _, by simp [Live], hn, .inr ?_⟩
        rw [St.turn]; dsimp only [place]; omega
      | check =>
        by_cases he : s.ring = []
        · refine ⟨hrun, .test, ?_, by simp [Live], hn, .inl ?_⟩
          · rw [St.turn, he]; exact hset _
          · have hd := hg.dealt
            rw [he, List.append_nil, ← hd] at ho
            dsimp only [holds] at ho
            rw [List.append_nil] at ho
            rw [← ho] at hn
            exact hn
        · refine ⟨hrun, .pop, ?_, by simp [Live], hn, .inr ?_⟩
          · rw [St.turn, if_neg (by simpa using he)]; exact hset _
          · rw [St.turn]; dsimp only [place]; omega
      | pop =>
        cases hr : s.ring with
        | nil => exact absurd hr (hg.there rfl)
        | cons f r =>
          have ht' : s.turn fits l.length ok .pop = { s with ring := r, threads := s.threads.set l.length (.deal f), log := s.log ++ [.took f] } := by
            rw [St.turn, hr]
          rw [ht']
          refine ⟨hrun, .deal f, hset _, by simp [Live], ?_, .inr ?_⟩
          · dsimp only; rw [put_app, List.length_append]; omega
          · dsimp only
            have h1 : (framesDealt (s.log ++ [Ev.took f])).length = (framesDealt s.log).length := by
              rw [dealt_app, List.length_append]; rfl
            rw [h1]
            dsimp only [place]
            omega
      | deal f =>
        refine ⟨hrun, .test, hset _, by simp [Live], ?_, ?_⟩
        · change n ≤ (framesPut (s.log ++ [outcome fits ok f])).length
          rw [put_app, outcome_put, List.append_nil]; exact hn
        · change n ≤ (framesDealt (s.log ++ [outcome fits ok f])).length ∨ 5 * (n - (framesDealt (s.log ++ [outcome fits ok f])).length) + place .test + 1 ≤ _
          rw [dealt_app, outcome_dealt, List.length_append, List.length_singleton]
          dsimp only [place]
          omega
      | ended => exact absurd rfl hc.1
      | dead => exact absurd rfl hc.2
    · have hzero : turns l.length [(Step.go k ok : Step F)] = 0 := by simp [turns, hk]
      rw [hzero]
      have hsame : ∀ s' : St F, s' = s → s'.run = true ∧ ∃ c', s'.threads = l ++ [c'] ∧ Live c' ∧
          n ≤ (framesPut s'.log).length ∧ (n ≤ (framesDealt s'.log).length ∨
            5 * (n - (framesDealt s'.log).length) + place c' + 0 ≤ 5 * (n - (framesDealt s.log).length) + place c) := by
        rintro _ rfl
        exact ⟨hrun, c, ht, hc, hn, .inr (Nat.le_refl _)⟩
      apply hsame
      split
      · rfl
      · rename_i c' hc'
        rw [ht, List.getElem?_append] at hc'
        split at hc'
        · rw [hl c' (List.mem_of_getElem? hc')]
          rfl
        · have := (List.getElem?_eq_some_iff.1 hc').1
          simp at this
          omega

/-- Only the last thread is live, so it is what the invariant speaks of. -/
theorem Single.good {s : St F} (h : Single s) {l : List (Pc F)} {c : Pc F} (ht : s.threads = l ++ [c]) : (∀ x ∈ l, x = .ended) ∧ Good s c := by
  rcases h with ⟨h, -⟩ | ⟨l', c', h, hl, hg⟩
  · rw [h] at ht; simp at ht
  · rw [h] at ht
    obtain ⟨rfl, h⟩ := List.append_inj' ht rfl
    cases h
    exact ⟨hl, hg⟩

theorem one_more {xs zs : List (Step F)} (h : OneThread fits xs) (hz : .start ∉ zs) : OneThread fits (xs ++ zs) := by
  induction zs using List.reverseRecOn with
  | nil => rw [List.append_nil]; exact h
  | append_singleton zs e ih =>
    intro ys hy
    rw [← List.append_assoc] at hy
    rcases List.prefix_concat_iff.1 hy with hy | hy
    · have := (List.append_inj' hy rfl).2
      cases this
      exact absurd (List.mem_append.2 (.inr (List.mem_singleton.2 rfl))) hz
    · exact ih (fun h => hz (List.mem_append.2 (.inl h))) ys hy

theorem work (xs zs : List (Step F)) (hone : OneThread fits xs) {l : List (Pc F)} {c : Pc F} (hrun : (queueAfter fits xs).run = true)
    (ht : (queueAfter fits xs).threads = l ++ [c]) (hc : Live c) (hz : .start ∉ zs) (hz' : .stop ∉ zs) :
    (queueAfter fits (xs ++ zs)).run = true ∧ ∃ c', (queueAfter fits (xs ++ zs)).threads = l ++ [c'] ∧ Live c' ∧
      (framesPut (queueAfter fits xs).log).length ≤ (framesPut (queueAfter fits (xs ++ zs)).log).length ∧
      ((framesPut (queueAfter fits xs).log).length ≤ (framesDealt (queueAfter fits (xs ++ zs)).log).length ∨
        5 * ((framesPut (queueAfter fits xs).log).length - (framesDealt (queueAfter fits (xs ++ zs)).log).length) + place c' + turns l.length zs ≤
          5 * ((framesPut (queueAfter fits xs).log).length - (framesDealt (queueAfter fits xs).log).length) + place c) := by
  induction zs using List.reverseRecOn with
  | nil => rw [List.append_nil]; exact ⟨hrun, c, ht, hc, Nat.le_refl _, .inr (Nat.le_refl _)⟩
  | append_singleton zs e ih =>
    have hz₁ : .start ∉ zs := fun h => hz (List.mem_append.2 (.inl h))
    obtain ⟨h1, c₁, h2, h3, h5, h6⟩ := ih hz₁ (fun h => hz' (List.mem_append.2 (.inl h)))
    obtain ⟨hl, hg⟩ := (single _ (one_more hone hz₁)).good h2
    obtain ⟨g1, c₂, g2, g3, g5, g6⟩ := work_step (fits := fits) (order (xs ++ zs)) h1 h2 hl h3 hg _ h5
      (e := e) (fun h => hz (List.mem_append.2 (.inr (by rw [h]; exact List.mem_singleton.2 rfl))))
      (fun h => hz' (List.mem_append.2 (.inr (by rw [h]; exact List.mem_singleton.2 rfl))))
    have hmono := dealt_mono (fits := fits) (queueAfter fits (xs ++ zs)) e
    have hq : queueAfter fits (xs ++ (zs ++ [e])) = (queueAfter fits (xs ++ zs)).step fits e := by
      rw [← List.append_assoc, queueAfter, steps_snoc]
    rw [hq]
    refine ⟨g1, c₂, g2, g3, g5, ?_⟩
    rw [turns_snoc]
    rcases h6 with h6 | h6
    · exact .inl (by omega)
    · rcases g6 with g6 | g6
      · exact .inl g6
      · exact .inr (by omega)

theorem put_prefix (xs zs : List (Step F)) : framesPut (queueAfter fits xs).log <+: framesPut (queueAfter fits (xs ++ zs)).log := by
  induction zs using List.reverseRecOn with
  | nil => rw [List.append_nil]; exact List.prefix_refl _
  | append_singleton zs e ih =>
    have hq : queueAfter fits (xs ++ (zs ++ [e])) = (queueAfter fits (xs ++ zs)).step fits e := by
      rw [← List.append_assoc, queueAfter, steps_snoc]
    rw [hq]
    refine ih.trans ?_
    generalize queueAfter fits (xs ++ zs) = s
    have happ : ∀ l : List (Ev F), framesPut s.log <+: framesPut (s.log ++ l) := by
      intro l; rw [put_app]; exact List.prefix_append _ _
    cases e with
    | append f => exact happ _
    | release => rw [St.step]; split <;> exact List.prefix_refl _
    | start => exact List.prefix_refl _
    | stop => exact List.prefix_refl _
    | go k ok =>
      rw [St.step]
      split
      · exact List.prefix_refl _
      · rename_i c hc
        cases c with
        | pop =>
          rw [St.turn]
          split
          · exact List.prefix_refl _
          · exact happ _
        | deal f => exact happ _
        | test => exact List.prefix_refl _
        | acquire => exact List.prefix_refl _
        | check => exact List.prefix_refl _
        | ended => exact List.prefix_refl _
        | dead => exact List.prefix_refl _

/-! ### Stopping -/

/-- How many steps a thread makes at most once the flag is down. -/
def togo : Pc F → Nat
  | .acquire => 5
  | .check => 4
  | .pop => 3
  | .deal _ => 2
  | .test => 1
  | .ended => 0
  | .dead => 0

/-- How many frames it may take still. -/
def mayTake : Pc F → Nat
  | .acquire => 1
  | .check => 1
  | .pop => 1
  | _ => 0

theorem stop_step {s : St F} (hrun : s.run = false) {k : Nat} {c : Pc F} (hk : s.threads[k]? = some c) {e : Step F} (h1 : e ≠ .start) :
    (s.step fits e).run = false ∧ ∃ c', (s.step fits e).threads[k]? = some c' ∧ togo c' ≤ togo c - turns k [e] ∧
      mayTake c' ≤ mayTake c := by
  have hkl : k < s.threads.length := (List.getElem?_eq_some_iff.1 hk).1
  cases e with
  | append f => exact ⟨hrun, c, hk, Nat.le_refl _, Nat.le_refl _⟩
  | release =>
    rw [St.step]
    split <;> exact ⟨hrun, c, hk, Nat.le_refl _, Nat.le_refl _⟩
  | start => exact absurd rfl h1
  | stop => exact ⟨rfl, c, hk, Nat.le_refl _, Nat.le_refl _⟩
  | go k' ok =>
    rw [St.step]
    by_cases hkk : k' = k
    · subst hkk
      have hone : turns k' [(Step.go k' ok : Step F)] = 1 := by simp [turns]
      rw [hk, hone]
      dsimp only
      have hset : ∀ c', (s.threads.set k' c')[k']? = some c' := fun c' => List.getElem?_set_self hkl
      cases c with
      | test =>
        refine ⟨hrun, .ended, ?_, by simp [togo], Nat.le_refl _⟩
        rw [St.turn, hrun]; exact hset _
      | acquire => exact ⟨hrun, .check, hset _, by simp [togo], Nat.le_refl _⟩
      | check =>
        rw [St.turn]
        refine ⟨hrun, _, hset _, ?_, ?_⟩
        · split <;> simp [togo]
        · split <;> simp [mayTake]
      | pop =>
        rw [St.turn]
        split
        · exact ⟨hrun, _, hset _, by simp [togo], by simp [mayTake]⟩
        · exact ⟨hrun, _, hset _, Nat.le_refl _, Nat.zero_le _⟩
      | deal f => exact ⟨hrun, .test, hset _, Nat.le_refl _, Nat.le_refl _⟩
      | ended => exact ⟨hrun, _, hk, by simp [togo], Nat.le_refl _⟩
      | dead => exact ⟨hrun, _, hk, by simp [togo], Nat.le_refl _⟩
    · have hzero : turns k [(Step.go k' ok : Step F)] = 0 := by simp [turns, hkk]
      rw [hzero]
      have hset : ∀ c', (s.threads.set k' c')[k]? = some c := fun c' => by rw [List.getElem?_set_ne hkk]; exact hk
      split
      · exact ⟨hrun, c, hk, Nat.le_refl _, Nat.le_refl _⟩
      · rename_i c' hc'
        cases c' with
        | test => exact ⟨hrun, c, hset _, Nat.le_refl _, Nat.le_refl _⟩
        | acquire => exact ⟨hrun, c, hset _, Nat.le_refl _, Nat.le_refl _⟩
        | check => exact ⟨hrun, c, hset _, Nat.le_refl _, Nat.le_refl _⟩
        | pop => rw [St.turn]; split <;> exact ⟨hrun, c, hset _, Nat.le_refl _, Nat.le_refl _⟩
        | deal f => exact ⟨hrun, c, hset _, Nat.le_refl _, Nat.le_refl _⟩
        | ended => exact ⟨hrun, c, hk, Nat.le_refl _, Nat.le_refl _⟩
        | dead => exact ⟨hrun, c, hk, Nat.le_refl _, Nat.le_refl _⟩

theorem stopped (xs zs : List (Step F)) (hrun : (queueAfter fits xs).run = false) {k : Nat} {c : Pc F} (hk : (queueAfter fits xs).threads[k]? = some c)
    (hz : .start ∉ zs) : (queueAfter fits (xs ++ zs)).run = false ∧ ∃ c', (queueAfter fits (xs ++ zs)).threads[k]? = some c' ∧
      togo c' ≤ togo c - turns k zs := by
  induction zs using List.reverseRecOn with
  | nil => rw [List.append_nil]; exact ⟨hrun, c, hk, Nat.le_refl _⟩
  | append_singleton zs e ih =>
    obtain ⟨h1, c₁, h2, h3⟩ := ih fun h => hz (List.mem_append.2 (.inl h))
    obtain ⟨g1, c₂, g2, g3, -⟩ := stop_step (fits := fits) h1 h2 (e := e) fun h => hz (List.mem_append.2 (.inr (by rw [h]; exact List.mem_singleton.2 rfl)))
    have hq : queueAfter fits (xs ++ (zs ++ [e])) = (queueAfter fits (xs ++ zs)).step fits e := by
      rw [← List.append_assoc, queueAfter, steps_snoc]
    rw [hq, turns_snoc]
    exact ⟨g1, c₂, g2, by omega⟩

theorem sum_set {l : List (Pc F)} {k : Nat} {c : Pc F} (h : l[k]? = some c) (c' : Pc F) :
    ((l.set k c').map mayTake).sum + mayTake c = (l.map mayTake).sum + mayTake c' := by
  induction l generalizing k with
  | nil => simp at h
  | cons a l ih =>
    cases k with
    | zero =>
      simp at h
      subst h
      simp
      omega
    | succ k =>
      have := ih (k := k) (by simpa using h)
      simp at this ⊢
      omega

theorem take_step {s : St F} (hrun : s.run = false) {e : Step F} (h1 : e ≠ .start) :
    (s.step fits e).run = false ∧ (framesTaken (s.step fits e).log).length + ((s.step fits e).threads.map mayTake).sum ≤
      (framesTaken s.log).length + (s.threads.map mayTake).sum := by
  cases e with
  | append f =>
    refine ⟨hrun, ?_⟩
    dsimp only [St.step]
    rw [taken_app]
    simp [framesTaken]
  | release => rw [St.step]; split <;> exact ⟨hrun, Nat.le_refl _⟩
  | start => exact absurd rfl h1
  | stop => exact ⟨rfl, Nat.le_refl _⟩
  | go k ok =>
    rw [St.step]
    split
    · exact ⟨hrun, Nat.le_refl _⟩
    · rename_i c hc
      have hs := fun c' => sum_set hc c'
      cases c with
      | test =>
        refine ⟨hrun, ?_⟩
        rw [St.turn, hrun]
        have := hs .ended
        dsimp only [mayTake] at this
        simp only [Bool.false_eq_true, if_false]
        omega
      | acquire =>
        refine ⟨hrun, ?_⟩
        have := hs .check
        dsimp only [mayTake, St.turn] at this ⊢
        omega
      | check =>
        refine ⟨hrun, ?_⟩
        rw [St.turn]
        dsimp only
        split
        · have := hs .test
          dsimp only [mayTake] at this
          omega
        · have := hs .pop
          dsimp only [mayTake] at this
          omega
      | pop =>
        rw [St.turn]
        split
        · refine ⟨hrun, ?_⟩
          have := hs .dead
          dsimp only [mayTake] at this ⊢
          omega
        · rename_i f r hr
          refine ⟨hrun, ?_⟩
          have := hs (.deal f)
          dsimp only [mayTake] at this ⊢
          rw [taken_app, List.length_append]
          have h1 : (framesTaken [Ev.took f]).length = 1 := rfl
          omega
      | deal f =>
        refine ⟨hrun, ?_⟩
        change (framesTaken (s.log ++ [outcome fits ok f])).length + ((s.threads.set k .test).map mayTake).sum ≤ _
        rw [taken_app, outcome_taken, List.append_nil]
        have := hs .test
        dsimp only [mayTake] at this
        omega
      | ended => exact ⟨hrun, Nat.le_refl _⟩
      | dead => exact ⟨hrun, Nat.le_refl _⟩

theorem take_stopped (xs zs : List (Step F)) (hrun : (queueAfter fits xs).run = false) (hz : .start ∉ zs) :
    (queueAfter fits (xs ++ zs)).run = false ∧
    (framesTaken (queueAfter fits (xs ++ zs)).log).length + ((queueAfter fits (xs ++ zs)).threads.map mayTake).sum ≤
      (framesTaken (queueAfter fits xs).log).length + ((queueAfter fits xs).threads.map mayTake).sum := by
  induction zs using List.reverseRecOn with
  | nil => rw [List.append_nil]; exact ⟨hrun, Nat.le_refl _⟩
  | append_singleton zs e ih =>
    obtain ⟨h1, h2⟩ := ih fun h => hz (List.mem_append.2 (.inl h))
    obtain ⟨g1, g2⟩ := take_step (fits := fits) h1 (e := e) fun h => hz (List.mem_append.2 (.inr (by rw [h]; exact List.mem_singleton.2 rfl)))
    have hq : queueAfter fits (xs ++ (zs ++ [e])) = (queueAfter fits (xs ++ zs)).step fits e := by
      rw [← List.append_assoc, queueAfter, steps_snoc]
    rw [hq]
    exact ⟨g1, Nat.le_trans g2 h2⟩

end RingThreads
end Verif
