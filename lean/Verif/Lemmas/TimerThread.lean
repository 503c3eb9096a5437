import Verif.Spec.TimerThread
import Verif.Lemmas.Timer
/-! Invariants of the timer thread under thread switches. -/
namespace Verif.Tick
open Spec

theorem run_append (s : St) (a b : List Step) : s.run (a ++ b) = (s.run a).run b := List.foldl_append

/-! ### Dictionaries -/

theorem keys_set_of_mem {V : Type} {d : Dict String V} {n : String} (v : V) (h : n ∈ d.keys) : (d.set n v).keys = d.keys := by
  induction d with
  | nil => simp [Dict.keys] at h
  | cons e d ih =>
    obtain ⟨k, w⟩ := e
    by_cases hk : k = n
    · subst hk; simp [Dict.set, Dict.keys]
    · have : n ∈ Dict.keys d := by
        simp only [Dict.keys, List.map_cons, List.mem_cons] at h
        rcases h with h | h
        · exact absurd h.symm hk
        · exact h
      have := ih this
      simp only [Dict.set, if_neg hk, Dict.keys, List.map_cons] at this ⊢
      rw [this]

theorem length_set {V : Type} (d : Dict String V) (n : String) (v : V) :
    (d.set n v).length = if d.get? n = none then d.length + 1 else d.length := by
  induction d with
  | nil => rfl
  | cons e d ih =>
    obtain ⟨k, w⟩ := e
    rw [Dict.get?_cons]
    by_cases hk : k = n
    · simp [Dict.set, hk]
    · simp only [Dict.set, if_neg hk, List.length_cons, ih]
      split <;> rfl

theorem nodup_foldl {V : Type} (l : List (String × V)) {d : Dict String V} (h : d.keys.Nodup) :
    (l.foldl (fun (t : Dict String V) e => t.set e.1 e.2) d).keys.Nodup := by
  induction l generalizing d with
  | nil => exact h
  | cons e l ih => exact ih (Dict.nodup_set _ _ h)

theorem get?_foldl_ne {V : Type} (l : List (String × V)) (d : Dict String V) {n : String} (h : n ∉ l.map (·.1)) :
    Dict.get? (l.foldl (fun (t : Dict String V) e => t.set e.1 e.2) d) n = d.get? n := by
  induction l generalizing d with
  | nil => rfl
  | cons e l ih =>
    simp only [List.map_cons, List.mem_cons, not_or] at h
    exact (ih _ h.2).trans (Dict.get?_set_ne _ _ h.1)

/-! ### The thread's own view of the timers -/

/-- What the thread has in hand fits the dict. -/
def Fits (s : St) : Prop :=
  match s.pos with
  | .count todo _ => todo.Nodup ∧ ∀ n ∈ todo, n ∈ s.timers.keys
  | .write n _ todo _ => (n :: todo).Nodup ∧ ∀ m ∈ n :: todo, m ∈ s.timers.keys
  | .sweep todo _ acc => todo.Nodup ∧ (∀ n ∈ todo, n ∈ s.timers.keys) ∧ (∀ n ∈ todo, n ∉ acc.keys) ∧ acc.keys.Nodup
  | .store acc => acc.keys.Nodup
  | _ => True

structure Wf (s : St) : Prop where
  names : s.timers.keys.Nodup
  fits : Fits s

theorem wf_new : Wf {} := ⟨List.nodup_nil, trivial⟩

theorem fits_mono {s t : St} (hp : t.pos = s.pos) (hk : ∀ n ∈ s.timers.keys, n ∈ t.timers.keys) (h : Fits s) : Fits t := by
  unfold Fits at h ⊢
  rw [hp]
  cases hpos : s.pos <;> rw [hpos] at h <;> dsimp only at h ⊢
  · exact ⟨h.1, fun n hn => hk _ (h.2 n hn)⟩
  · exact ⟨h.1, fun n hn => hk _ (h.2 n hn)⟩
  · exact ⟨h.1, fun n hn => hk _ (h.2.1 n hn), h.2.2⟩
  · exact h

theorem wf_thread {s : St} (h : Wf s) (d : Does) : Wf (s.thread d) := by
  obtain ⟨hn, hf⟩ := h
  unfold St.thread
  unfold Fits at hf
  cases hpos : s.pos with
  | sleep => exact ⟨hn, hn, fun n hn => hn⟩
  | count todo used =>
    rw [hpos] at hf
    dsimp only at hf ⊢
    split
    · exact ⟨hn, trivial⟩
    · cases todo with
      | nil => exact ⟨hn, hn, fun n hn => hn, by simp [Dict.keys], List.nodup_nil⟩
      | cons n todo =>
        dsimp only
        cases s.timers.get? n with
        | none => exact ⟨hn, trivial⟩
        | some v => exact ⟨hn, hf⟩
  | write n v todo used =>
    rw [hpos] at hf
    refine ⟨Dict.nodup_set _ _ hn, (List.nodup_cons.1 hf.1).2, fun m hm => ?_⟩
    exact (Dict.mem_keys_set _ _ _ _).2 (.inr (hf.2 m (List.mem_cons_of_mem _ hm)))
  | sweep todo used acc =>
    rw [hpos] at hf
    dsimp only at hf ⊢
    split
    · exact ⟨hn, trivial⟩
    · cases todo with
      | nil => exact ⟨hn, hf.2.2.2⟩
      | cons n todo =>
        dsimp only
        obtain ⟨f1, f2, f3, f4⟩ := hf
        have f1' := List.nodup_cons.1 f1
        cases s.timers.get? n with
        | none => exact ⟨hn, trivial⟩
        | some v =>
          refine ⟨hn, f1'.2, fun m hm => f2 m (List.mem_cons_of_mem _ hm), ?_, ?_⟩
          · intro m hm
            have h0 := f3 m (List.mem_cons_of_mem _ hm)
            split
            · rw [Dict.keys, List.map_append, List.mem_append]
              rintro (x | x)
              · exact h0 x
              · rw [List.map_cons, List.map_nil, List.mem_singleton] at x
                dsimp only at x
                subst x
                exact f1'.1 hm
            · exact h0
          · split
            · rw [Dict.keys, List.map_append]
              refine List.nodup_append.2 ⟨f4, by simp, ?_⟩
              intro a ha b hb
              rw [List.map_cons, List.map_nil, List.mem_singleton] at hb
              subst hb
              rintro rfl
              exact f3 _ List.mem_cons_self ha
            · exact f4
  | store acc =>
    rw [hpos] at hf
    exact ⟨hf, trivial⟩
  | tick i =>
    dsimp only
    cases s.tasks[i]? with
    | none => exact ⟨hn, trivial⟩
    | some e =>
      obtain ⟨id, t⟩ := e
      dsimp only
      split
      · refine ⟨nodup_foldl _ hn, ?_⟩
        unfold Fits
        cases d.raises <;> trivial
      · exact ⟨hn, trivial⟩
  | keep i acc =>
    dsimp only
    cases s.tasks[i]? <;> exact ⟨hn, trivial⟩
  | storeTasks acc => exact ⟨hn, trivial⟩
  | dead => exact ⟨hn, by unfold Fits; rw [hpos]; trivial⟩

theorem wf_step {s : St} (h : Wf s) (e : Step) : Wf (s.step e) := by
  cases e with
  | thread d => exact wf_thread h d
  | timerLoad n v => exact ⟨h.names, fits_mono (s := s) rfl (fun _ x => x) h.fits⟩
  | timerStore k =>
    dsimp only [St.step]
    cases s.pending[k]? with
    | none => exact h
    | some p =>
      obtain ⟨g, n, v⟩ := p
      dsimp only
      split
      · refine ⟨Dict.nodup_set _ _ h.names, fits_mono (s := s) rfl (fun m hm => (Dict.mem_keys_set _ _ _ _).2 (.inr hm)) h.fits⟩
      · exact ⟨h.names, fits_mono (s := s) rfl (fun _ x => x) h.fits⟩
  | taskLoad d x r hs => exact ⟨h.names, fits_mono (s := s) rfl (fun _ x => x) h.fits⟩
  | taskStore k =>
    dsimp only [St.step]
    cases s.pendingTasks[k]? with
    | none => exact h
    | some p => exact ⟨h.names, fits_mono (s := s) rfl (fun _ x => x) h.fits⟩

theorem wf_run {s : St} (h : Wf s) (l : List Step) : Wf (s.run l) := by
  induction l generalizing s with
  | nil => exact h
  | cons e l ih => exact ih (wf_step h e)

/-! ### One timer -/

/-- Between `c` and `c + 1` rounds have been completed; the timer was registered with `n`.  `Fresh`: in the present round it was not yet counted
down, or was registered at a moment when it will be. -/
def Fresh (name : String) (n : Int) (c : Nat) (d : Dict String Int) : Prop :=
  (d.get? name = none ∧ n ≤ c) ∨ ∃ v, d.get? name = some v ∧ 0 < v ∧ (c : Int) ≤ n - v + 1 ∧ n - v ≤ c

/-- It has been counted down in this round. -/
def Done (name : String) (n : Int) (c : Nat) (d : Dict String Int) : Prop :=
  (d.get? name = none ∧ n ≤ c + 1) ∨ ∃ v, d.get? name = some v ∧ 0 ≤ v ∧ (c : Int) ≤ n - v ∧ n - v ≤ c + 1

/-- It has been counted down in this round, and removed if it has run out. -/
def Swept (name : String) (n : Int) (c : Nat) (d : Dict String Int) : Prop :=
  (d.get? name = none ∧ n ≤ c + 1) ∨ ∃ v, d.get? name = some v ∧ 0 < v ∧ (c : Int) ≤ n - v ∧ n - v ≤ c + 1

/-- At any moment. -/
def Left (name : String) (n : Int) (c : Nat) (d : Dict String Int) : Prop :=
  (d.get? name = none ∧ n ≤ c + 1) ∨ ∃ v, d.get? name = some v ∧ 0 ≤ v ∧ (c : Int) ≤ n - v + 1 ∧ n - v ≤ c + 1

theorem Fresh.left {name : String} {n : Int} {c : Nat} {d : Dict String Int} (h : Fresh name n c d) : Left name n c d := by
  rcases h with ⟨a, b⟩ | ⟨v, a, b, e, f⟩
  · exact .inl ⟨a, by omega⟩
  · exact .inr ⟨v, a, by omega, by omega, by omega⟩

theorem Done.left {name : String} {n : Int} {c : Nat} {d : Dict String Int} (h : Done name n c d) : Left name n c d := by
  rcases h with ⟨a, b⟩ | ⟨v, a, b, e, f⟩
  · exact .inl ⟨a, by omega⟩
  · exact .inr ⟨v, a, by omega, by omega, by omega⟩

theorem Swept.done {name : String} {n : Int} {c : Nat} {d : Dict String Int} (h : Swept name n c d) : Done name n c d := by
  rcases h with ⟨a, b⟩ | ⟨v, a, b, e, f⟩
  · exact .inl ⟨a, by omega⟩
  · exact .inr ⟨v, a, by omega, by omega, by omega⟩

/-- Where the timer is, for each place of the thread. -/
def Runs (name : String) (n : Int) (c : Nat) (s : St) : Prop :=
  match s.pos with
  | .sleep => Fresh name n c s.timers
  | .count todo _ => (name ∈ todo → Fresh name n c s.timers) ∧ (name ∉ todo → Done name n c s.timers)
  | .write m v todo _ => (m = name → Fresh name n c s.timers ∧ s.timers.get? name = some v) ∧
      (m ≠ name → (name ∈ todo → Fresh name n c s.timers) ∧ (name ∉ todo → Done name n c s.timers))
  | .sweep todo _ acc => Done name n c s.timers ∧ (name ∉ todo → Swept name n c acc)
  | .store acc => Done name n c s.timers ∧ Swept name n c acc
  | .tick _ | .keep .. | .storeTasks _ => Swept name n c s.timers
  | .dead => Left name n c s.timers

theorem Runs.left {name : String} {n : Int} {c : Nat} {s : St} (h : Runs name n c s) : Left name n c s.timers := by
  unfold Runs at h
  cases hp : s.pos <;> rw [hp] at h <;> dsimp only at h
  · exact h.left
  · rename_i todo _
    by_cases x : name ∈ todo
    · exact (h.1 x).left
    · exact (h.2 x).left
  · rename_i m v todo _
    by_cases y : m = name
    · exact (h.1 y).1.left
    · by_cases x : name ∈ todo
      · exact ((h.2 y).1 x).left
      · exact ((h.2 y).2 x).left
  · exact h.1.left
  · exact h.1.left
  · exact h.done.left
  · exact h.done.left
  · exact h.done.left
  · exact h

theorem runs_same {name : String} {n : Int} {c : Nat} {s t : St} (hp : t.pos = s.pos) (hg : t.timers.get? name = s.timers.get? name)
    (h : Runs name n c s) : Runs name n c t := by
  unfold Runs Fresh Done Swept Left at h ⊢
  rw [hp]
  cases hpos : s.pos <;> rw [hpos] at h <;> dsimp only at h ⊢ <;> rw [hg] <;> exact h

theorem runs_thread {name : String} {n : Int} {c r0 : Nat} {s : St} (hw : Wf s) (hr : s.rounds = r0 + c) (h : Runs name n c s) {d : Does}
    (hd : name ∉ d.regs.map (·.1)) : ∃ c', (s.thread d).rounds = r0 + c' ∧ Runs name n c' (s.thread d) := by
  have hl := h.left
  obtain ⟨hnd, hf⟩ := hw
  unfold Runs at h
  unfold Fits at hf
  unfold St.thread
  cases hp : s.pos with
  | sleep =>
    rw [hp] at h
    refine ⟨c, hr, ?_, ?_⟩
    · exact fun _ => h
    · intro hx
      rcases h with ⟨a, b⟩ | ⟨v, a, b⟩
      · exact .inl ⟨a, by omega⟩
      · exact absurd ((Dict.mem_keys_iff _ _).2 ⟨v, a⟩) hx
  | count todo used =>
    rw [hp] at h hf
    dsimp only at h hf ⊢
    split
    · exact ⟨c, hr, hl⟩
    · cases todo with
      | nil =>
        refine ⟨c, hr, h.2 (by simp), fun hx => ?_⟩
        rcases h.2 (by simp) with ⟨a, b⟩ | ⟨v, a, b⟩
        · exact .inl ⟨rfl, b⟩
        · exact absurd ((Dict.mem_keys_iff _ _).2 ⟨v, a⟩) hx
      | cons m todo =>
        dsimp only
        cases hm : s.timers.get? m with
        | none => exact ⟨c, hr, hl⟩
        | some v =>
          refine ⟨c, hr, ?_, fun hne => ⟨fun hx => h.1 (List.mem_cons_of_mem _ hx), fun hx => h.2 ?_⟩⟩
          · rintro rfl; exact ⟨h.1 List.mem_cons_self, hm⟩
          · rw [List.mem_cons]; rintro (x | x)
            · exact hne x.symm
            · exact hx x
  | write m v todo used =>
    rw [hp] at h hf
    dsimp only at h hf ⊢
    refine ⟨c, hr, ?_⟩
    by_cases hm : m = name
    · subst hm
      obtain ⟨h1, h2⟩ := h.1 rfl
      have hnot : m ∉ todo := (List.nodup_cons.1 hf.1).1
      refine ⟨fun x => absurd x hnot, fun _ => ?_⟩
      rcases h1 with ⟨a, b⟩ | ⟨v', a, b, e, f⟩
      · rw [a] at h2; cases h2
      · rw [a] at h2
        obtain rfl := Option.some.inj h2
        exact .inr ⟨v' - 1, Dict.get?_set_self _ _ _, by omega, by omega, by omega⟩
    · have hg : Dict.get? (Dict.set s.timers m (v - 1)) name = s.timers.get? name := Dict.get?_set_ne _ _ (Ne.symm hm)
      obtain ⟨h1, h2⟩ := h.2 hm
      refine ⟨fun x => ?_, fun x => ?_⟩
      · have := h1 x
        unfold Fresh at this ⊢
        dsimp only
        rw [hg]; exact this
      · have := h2 x
        unfold Done at this ⊢
        dsimp only
        rw [hg]; exact this
  | sweep todo used acc =>
    rw [hp] at h hf
    dsimp only at h hf ⊢
    split
    · exact ⟨c, hr, hl⟩
    · cases todo with
      | nil => exact ⟨c, hr, h.1, h.2 (by simp)⟩
      | cons m todo =>
        dsimp only
        cases hm : s.timers.get? m with
        | none => exact ⟨c, hr, hl⟩
        | some v =>
          refine ⟨c, hr, h.1, fun hx => ?_⟩
          by_cases hne : m = name
          · subst hne
            have hacc : Dict.get? acc m = none := (Dict.get?_eq_none_iff _ _).2 (hf.2.2.1 m List.mem_cons_self)
            rcases h.1 with ⟨a, b⟩ | ⟨v', a, b, e, f⟩
            · rw [a] at hm; cases hm
            · rw [a] at hm
              obtain rfl := Option.some.inj hm
              by_cases h0 : v' = 0
              · subst h0
                exact .inl ⟨hacc, by omega⟩
              · refine .inr ⟨v', ?_, by omega, e, f⟩
                rw [if_pos h0, Dict.get?_append, hacc, Option.none_or, Dict.get?_cons, if_pos rfl]
          · have hs := h.2 (by rw [List.mem_cons]; rintro (x | x); exacts [hne x.symm, hx x])
            have hg : Dict.get? (if v ≠ 0 then acc ++ [(m, v)] else acc) name = Dict.get? acc name := by
              split
              · rw [Dict.get?_append, Dict.get?_cons, if_neg hne, Dict.get?_nil, Option.or_none]
              · rfl
            unfold Swept at hs ⊢
            rw [hg]; exact hs
  | store acc =>
    rw [hp] at h
    exact ⟨c, hr, h.2⟩
  | tick i =>
    rw [hp] at h
    dsimp only at h ⊢
    cases s.tasks[i]? with
    | none => exact ⟨c, hr, h⟩
    | some e =>
      obtain ⟨id, t⟩ := e
      dsimp only
      split
      · refine ⟨c, hr, ?_⟩
        have hg := get?_foldl_ne d.regs s.timers hd
        cases d.raises with
        | false =>
          unfold Runs
          dsimp only
          unfold Swept at h ⊢
          rw [hg]; exact h
        | true =>
          unfold Runs
          dsimp only
          unfold Left at hl ⊢
          rw [hg]; exact hl
      · exact ⟨c, hr, h⟩
  | keep i acc =>
    rw [hp] at h
    dsimp only at h ⊢
    cases s.tasks[i]? <;> exact ⟨c, hr, h⟩
  | storeTasks acc =>
    rw [hp] at h
    refine ⟨c + 1, by dsimp only; omega, ?_⟩
    rcases h with ⟨a, b⟩ | ⟨v, a, b, e, f⟩
    · exact .inl ⟨a, by omega⟩
    · exact .inr ⟨v, a, b, by omega, by omega⟩
  | dead =>
    rw [hp] at h
    refine ⟨c, hr, ?_⟩
    unfold Runs
    dsimp only
    rw [hp]
    exact hl

theorem thread_pending (s : St) (d : Does) : (s.thread d).pending = s.pending ∧ (s.thread d).pendingTasks = s.pendingTasks ∧ (s.thread d).registered = s.registered := by
  unfold St.thread
  cases s.pos with
  | sleep => exact ⟨rfl, rfl, rfl⟩
  | count todo used =>
    dsimp only
    split
    · exact ⟨rfl, rfl, rfl⟩
    · split
      · exact ⟨rfl, rfl, rfl⟩
      · split <;> exact ⟨rfl, rfl, rfl⟩
  | write => exact ⟨rfl, rfl, rfl⟩
  | sweep =>
    dsimp only
    split
    · exact ⟨rfl, rfl, rfl⟩
    · split
      · exact ⟨rfl, rfl, rfl⟩
      · split <;> exact ⟨rfl, rfl, rfl⟩
  | store => exact ⟨rfl, rfl, rfl⟩
  | tick i =>
    dsimp only
    cases s.tasks[i]? with
    | none => exact ⟨rfl, rfl, rfl⟩
    | some e =>
      obtain ⟨id, t⟩ := e
      dsimp only
      split <;> exact ⟨rfl, rfl, rfl⟩
  | keep i acc =>
    dsimp only
    cases s.tasks[i]? <;> exact ⟨rfl, rfl, rfl⟩
  | storeTasks => exact ⟨rfl, rfl, rfl⟩
  | dead => exact ⟨rfl, rfl, rfl⟩

/-- No call that registers the timer is under way. -/
def Unasked (name : String) (s : St) : Prop := ∀ p ∈ s.pending, p.2.1 ≠ name

theorem runs_step {name : String} {n : Int} {c r0 : Nat} {s : St} (hw : Wf s) (hr : s.rounds = r0 + c) (h : Runs name n c s) (hu : Unasked name s) {e : Step}
    (he : ¬ Mentions name e) : (∃ c', (s.step e).rounds = r0 + c' ∧ Runs name n c' (s.step e)) ∧ Unasked name (s.step e) := by
  cases e with
  | thread d =>
    refine ⟨runs_thread hw hr h he, ?_⟩
    show ∀ p ∈ (s.thread d).pending, _
    rw [(thread_pending s d).1]; exact hu
  | timerLoad m v =>
    refine ⟨⟨c, hr, runs_same (s := s) rfl rfl h⟩, ?_⟩
    intro p hp
    rcases List.mem_append.1 hp with x | x
    · exact hu p x
    · rw [List.mem_singleton] at x
      subst x
      exact he
  | timerStore k =>
    dsimp only [St.step]
    cases hk : s.pending[k]? with
    | none => exact ⟨⟨c, hr, h⟩, hu⟩
    | some p =>
      obtain ⟨g, m, v⟩ := p
      have hm : m ≠ name := hu _ (List.mem_of_getElem? hk)
      refine ⟨⟨c, hr, runs_same (s := s) rfl ?_ h⟩, fun p hp => hu p (List.mem_of_mem_eraseIdx hp)⟩
      dsimp only
      split
      · exact Dict.get?_set_ne _ _ (Ne.symm hm)
      · rfl
  | taskLoad d x r hs => exact ⟨⟨c, hr, runs_same (s := s) rfl rfl h⟩, hu⟩
  | taskStore k =>
    dsimp only [St.step]
    cases s.pendingTasks[k]? with
    | none => exact ⟨⟨c, hr, h⟩, hu⟩
    | some p => exact ⟨⟨c, hr, runs_same (s := s) rfl rfl h⟩, hu⟩

theorem runs_run {name : String} {n : Int} {c r0 : Nat} {s : St} (hw : Wf s) (hr : s.rounds = r0 + c) (h : Runs name n c s) (hu : Unasked name s) {l : List Step}
    (hl : ∀ e ∈ l, ¬ Mentions name e) : ∃ c', (s.run l).rounds = r0 + c' ∧ Runs name n c' (s.run l) := by
  induction l generalizing s c with
  | nil => exact ⟨c, hr, h⟩
  | cons e l ih =>
    obtain ⟨⟨c', h1, h2⟩, h3⟩ := runs_step hw hr h hu (hl e List.mem_cons_self)
    exact ih (wf_step hw e) h1 h2 h3 fun e he => hl e (List.mem_cons_of_mem _ he)

/-! ### The thread's own view of the tasks -/

/-- The tasks that have something left. -/
def lasting (l : List (Nat × TimerTask)) : List (Nat × TimerTask) := l.filter fun e => e.2.remaining ≠ 0

/-- The numbers of all tasks, in the list and under way. -/
def ids (s : St) : List Nat := s.tasks.map (·.1) ++ s.pendingTasks.map (·.2.1)

def FitsTasks (s : St) : Prop :=
  match s.pos with
  | .keep i acc => i ≤ s.tasks.length ∧ acc = lasting (s.tasks.take i)
  | .storeTasks acc => ∃ i, acc = lasting (s.tasks.take i)
  | .tick i => i ≤ s.tasks.length
  | _ => True

structure WfTasks (s : St) : Prop where
  ids : (ids s).Nodup
  lt : ∀ i ∈ Tick.ids s, i < s.registered
  fits : FitsTasks s

theorem wfTasks_new : WfTasks {} := ⟨List.nodup_nil, by simp [ids], trivial⟩

theorem keys_setAt {l : List (Nat × TimerTask)} {i id : Nat} {t t' : TimerTask} (h : l[i]? = some (id, t)) :
    (l.set i (id, t')).map (·.1) = l.map (·.1) := by
  refine List.ext_getElem? fun j => ?_
  rw [List.getElem?_map, List.getElem?_map, List.getElem?_set]
  by_cases hij : i = j
  · subst hij
    rw [h]
    have := (List.getElem?_eq_some_iff.1 h).1
    simp [this]
  · rw [if_neg hij]

theorem wfTasks_of {s t : St} (h1 : t.tasks.map (·.1) = s.tasks.map (·.1)) (h2 : t.pendingTasks = s.pendingTasks) (h3 : t.registered = s.registered)
    (h : WfTasks s) (hf : FitsTasks t) : WfTasks t := by
  have : ids t = ids s := by unfold ids; rw [h1, h2]
  exact ⟨by rw [this]; exact h.ids, by rw [this, h3]; exact h.lt, hf⟩

theorem lasting_sublist (l : List (Nat × TimerTask)) (i : Nat) : (lasting (l.take i)).Sublist l :=
  List.filter_sublist.trans (List.take_sublist i l)

theorem lasting_succ {l : List (Nat × TimerTask)} {i : Nat} {e : Nat × TimerTask} (h : l[i]? = some e) :
    lasting (l.take (i + 1)) = if e.2.remaining ≠ 0 then lasting (l.take i) ++ [e] else lasting (l.take i) := by
  rw [List.take_add_one, h]
  unfold lasting
  rw [List.filter_append]
  by_cases he : e.2.remaining ≠ 0
  · rw [if_pos he]; simp [he]
  · rw [if_neg he]; simp at he; simp [he]

theorem wfTasks_thread {s : St} (h : WfTasks s) (d : Does) : WfTasks (s.thread d) := by
  obtain ⟨-, hp2, hp3⟩ := thread_pending s d
  have hf := h.fits
  unfold FitsTasks at hf
  have same : (s.thread d).tasks.map (·.1) = s.tasks.map (·.1) → FitsTasks (s.thread d) → WfTasks (s.thread d) := fun a b => wfTasks_of a hp2 hp3 h b
  unfold St.thread at same hp2 hp3 ⊢
  cases hp : s.pos with
  | sleep =>
    rw [hp] at same
    exact same rfl trivial
  | count todo used =>
    rw [hp] at same
    dsimp only at same ⊢
    split
    · rename_i hx
      rw [if_pos hx] at same
      exact same rfl trivial
    · rename_i hx
      rw [if_neg hx] at same
      cases todo with
      | nil => exact same rfl trivial
      | cons m todo =>
        dsimp only at same ⊢
        cases hm : s.timers.get? m with
        | none => rw [hm] at same; exact same rfl trivial
        | some v => rw [hm] at same; exact same rfl trivial
  | write => rw [hp] at same; exact same rfl trivial
  | sweep todo used acc =>
    rw [hp] at same
    dsimp only at same ⊢
    split
    · rename_i hx
      rw [if_pos hx] at same
      exact same rfl trivial
    · rename_i hx
      rw [if_neg hx] at same
      cases todo with
      | nil => exact same rfl trivial
      | cons m todo =>
        dsimp only at same ⊢
        cases hm : s.timers.get? m with
        | none => rw [hm] at same; exact same rfl trivial
        | some v => rw [hm] at same; exact same rfl trivial
  | store => rw [hp] at same; exact same rfl (Nat.zero_le _)
  | tick i =>
    rw [hp] at same hf
    dsimp only at same hf ⊢
    cases hi : s.tasks[i]? with
    | none => rw [hi] at same; exact same rfl ⟨Nat.zero_le _, rfl⟩
    | some e =>
      obtain ⟨id, t⟩ := e
      rw [hi] at same
      dsimp only at same ⊢
      have hlen := (List.getElem?_eq_some_iff.1 hi).1
      split
      · rename_i hx
        rw [if_pos hx] at same
        refine same (keys_setAt hi) ?_
        unfold FitsTasks
        cases d.raises
        · show i + 1 ≤ (s.tasks.set i _).length
          rw [List.length_set]; omega
        · trivial
      · rename_i hx
        rw [if_neg hx] at same
        refine same (keys_setAt hi) ?_
        show i + 1 ≤ (s.tasks.set i _).length
        rw [List.length_set]; omega
  | keep i acc =>
    rw [hp] at same hf
    dsimp only at same hf ⊢
    cases hi : s.tasks[i]? with
    | none => rw [hi] at same; exact same rfl ⟨i, hf.2⟩
    | some e =>
      rw [hi] at same
      refine same rfl ⟨?_, ?_⟩
      · have := (List.getElem?_eq_some_iff.1 hi).1
        dsimp only; omega
      · dsimp only
        rw [lasting_succ hi, ← hf.2]
  | storeTasks acc =>
    rw [hp] at hf
    obtain ⟨i, rfl⟩ := hf
    have hsub : ((lasting (s.tasks.take i)).map (·.1) ++ s.pendingTasks.map (·.2.1)).Sublist (ids s) :=
      List.Sublist.append ((lasting_sublist _ _).map _) (List.Sublist.refl _)
    exact ⟨h.ids.sublist hsub, fun j hj => h.lt j (hsub.subset hj), trivial⟩
  | dead =>
    rw [hp] at same
    exact same rfl (by unfold FitsTasks; dsimp only; rw [hp]; trivial)

theorem fitsTasks_append {s t : St} (hp : t.pos = s.pos) (l : List (Nat × TimerTask)) (ht : t.tasks = s.tasks ++ l) (h : FitsTasks s) : FitsTasks t := by
  unfold FitsTasks at h ⊢
  rw [hp, ht]
  cases hpos : s.pos <;> rw [hpos] at h <;> dsimp only at h ⊢
  · rw [List.length_append]; omega
  · exact ⟨by rw [List.length_append]; omega, by rw [List.take_append_of_le_length h.1]; exact h.2⟩
  · obtain ⟨i, hi⟩ := h
    by_cases hl : i ≤ s.tasks.length
    · exact ⟨i, by rw [List.take_append_of_le_length hl]; exact hi⟩
    · refine ⟨s.tasks.length, ?_⟩
      rw [List.take_append_of_le_length (Nat.le_refl _), List.take_of_length_le (Nat.le_refl _), hi, List.take_of_length_le (by omega)]

theorem map_eraseIdx {α β : Type} (f : α → β) (l : List α) (k : Nat) : (l.eraseIdx k).map f = (l.map f).eraseIdx k := by
  induction l generalizing k with
  | nil => simp
  | cons a l ih => cases k <;> simp [ih]

theorem perm_eraseIdx {α : Type} {l : List α} {k : Nat} {a : α} (h : l[k]? = some a) : (a :: l.eraseIdx k).Perm l := by
  induction l generalizing k with
  | nil => simp at h
  | cons b l ih =>
    cases k with
    | zero => simp at h; subst h; exact .refl _
    | succ k => exact (List.Perm.swap _ _ _).trans ((ih (by simpa using h)).cons _)

theorem wfTasks_step {s : St} (h : WfTasks s) (e : Step) : WfTasks (s.step e) := by
  cases e with
  | thread d => exact wfTasks_thread h d
  | timerLoad n v => exact wfTasks_of (s := s) rfl rfl rfl h (fitsTasks_append (s := s) rfl [] (List.append_nil _).symm h.fits)
  | timerStore k =>
    dsimp only [St.step]
    cases s.pending[k]? with
    | none => exact h
    | some p => exact wfTasks_of (s := s) rfl rfl rfl h (fitsTasks_append (s := s) rfl [] (List.append_nil _).symm h.fits)
  | taskLoad d x r hs =>
    have hids : ids (s.step (.taskLoad d x r hs)) = ids s ++ [s.registered] := by simp [ids, St.step]
    refine ⟨?_, ?_, fitsTasks_append (s := s) rfl [] (List.append_nil _).symm h.fits⟩
    · rw [hids]
      refine List.nodup_append.2 ⟨h.ids, by simp, ?_⟩
      intro a ha b hb
      rw [List.mem_singleton] at hb
      have := h.lt a ha
      omega
    · rw [hids]
      intro i hi
      show i < s.registered + 1
      rcases List.mem_append.1 hi with x | x
      · have := h.lt i x; omega
      · rw [List.mem_singleton] at x; omega
  | taskStore k =>
    dsimp only [St.step]
    cases hk : s.pendingTasks[k]? with
    | none => exact h
    | some p =>
      obtain ⟨g, id, t⟩ := p
      have hperm := (perm_eraseIdx hk).map (·.2.1)
      dsimp only
      split
      · have hp : (ids { s with pendingTasks := s.pendingTasks.eraseIdx k, tasks := s.tasks ++ [(id, t)] }).Perm (ids s) := by
          unfold ids
          dsimp only
          rw [List.map_append, List.append_assoc]
          exact List.Perm.append_left _ hperm
        exact ⟨hp.nodup_iff.2 h.ids, fun i hi => h.lt i (hp.mem_iff.1 hi), fitsTasks_append (s := s) rfl _ rfl h.fits⟩
      · have hsub : (ids { s with pendingTasks := s.pendingTasks.eraseIdx k, tasks := s.tasks }).Sublist (ids s) :=
          List.Sublist.append (List.Sublist.refl _) ((List.eraseIdx_sublist _ _).map _)
        exact ⟨h.ids.sublist hsub, fun i hi => h.lt i (hsub.subset hi), fitsTasks_append (s := s) rfl [] (List.append_nil _).symm h.fits⟩

theorem wfTasks_run {s : St} (h : WfTasks s) (l : List Step) : WfTasks (s.run l) := by
  induction l generalizing s with
  | nil => exact h
  | cons e l ih => exact ih (wfTasks_step h e)

/-! ### One task -/

theorem get?_setAt {l : List (Nat × TimerTask)} (hn : (l.map (·.1)).Nodup) {i id : Nat} {t t' : TimerTask} (h : l[i]? = some (id, t)) (j : Nat) :
    Dict.get? (l.set i (id, t')) j = if j = id then some t' else Dict.get? l j := by
  induction l generalizing i with
  | nil => simp at h
  | cons e l ih =>
    rw [List.map_cons, List.nodup_cons] at hn
    cases i with
    | zero =>
      simp only [List.getElem?_cons_zero, Option.some.injEq] at h
      subst h
      rw [List.set_cons_zero, Dict.get?_cons, Dict.get?_cons]
      dsimp only
      by_cases hj : j = id
      · subst hj; rw [if_pos rfl, if_pos rfl]
      · rw [if_neg (Ne.symm hj), if_neg hj, if_neg (Ne.symm hj)]
    | succ i =>
      rw [List.getElem?_cons_succ] at h
      rw [List.set_cons_succ, Dict.get?_cons, Dict.get?_cons, ih hn.2 h]
      have hne : e.1 ≠ id := by
        intro x
        exact hn.1 (x ▸ List.mem_map.2 ⟨_, List.mem_of_getElem? h, rfl⟩)
      by_cases hj : j = id
      · subst hj; rw [if_neg hne, if_pos rfl, if_pos rfl]
      · rw [if_neg hj, if_neg hj]

theorem get?_lasting {l : List (Nat × TimerTask)} (hn : (l.map (·.1)).Nodup) (id : Nat) :
    Dict.get? (lasting l) id = (Dict.get? l id).bind fun t => if t.remaining = 0 then none else some t := by
  induction l with
  | nil => rfl
  | cons e l ih =>
    rw [List.map_cons, List.nodup_cons] at hn
    have ih := ih hn.2
    have hcons : lasting (e :: l) = if e.2.remaining ≠ 0 then e :: lasting l else lasting l := by
      unfold lasting
      rw [List.filter_cons]
      by_cases h : e.2.remaining = 0 <;> simp [h]
    rw [hcons, Dict.get?_cons]
    by_cases hk : e.1 = id
    · subst hk
      have h0 : Dict.get? l e.1 = none := (Dict.get?_eq_none_iff _ _).2 hn.1
      rw [h0] at ih
      rw [if_pos rfl]
      by_cases h : e.2.remaining = 0
      · rw [if_neg (not_not_intro h), ih, Option.bind_some, if_pos h]; rfl
      · rw [if_pos h, Dict.get?_cons, if_pos rfl, Option.bind_some, if_neg h]
    · rw [if_neg hk, ← ih]
      split
      · rw [Dict.get?_cons, if_neg hk]
      · rfl

/-- The ticks at which a task with these parameters runs. -/
def IsDue (d : Int) (x : Bool) (r : Int) (k : Nat) : Prop := ∃ j : Nat, (r < 0 ∨ (j : Int) ≤ r) ∧ (k : Int) = due d x j

/-- The runs of a task whose first tick is that of round `r0`, after `m` ticks. -/
def Ran (d : Int) (x : Bool) (r : Int) (id r0 m : Nat) (s : St) : Prop :=
  ∀ q, (s.ran.count (q, id) = 1 ∧ (r0 ≤ q ∧ q < r0 + m ∧ IsDue d x r (q + 1 - r0))) ∨
    (s.ran.count (q, id) = 0 ∧ ¬ (r0 ≤ q ∧ q < r0 + m ∧ IsDue d x r (q + 1 - r0)))

/-- Where the task is, for each place of the thread. -/
def Lives (d : Int) (x : Bool) (r : Int) (id r0 : Nat) (s : St) : Prop :=
  let w := TimerTask.Where d x r false
  let before := ∃ m, s.rounds = r0 + m ∧ w m (Dict.get? s.tasks id) ∧ Ran d x r id r0 m s
  match s.pos with
  | .sleep | .count .. | .write .. | .sweep .. | .store _ => before
  | .tick i =>
    if id ∈ (s.tasks.take i).map (·.1) then
      ∃ m, s.rounds + 1 = r0 + m ∧ w m ((Dict.get? s.tasks id).bind fun t => if t.remaining = 0 then none else some t) ∧ Ran d x r id r0 m s
    else before
  | .keep .. => ∃ m, s.rounds + 1 = r0 + m ∧ w m ((Dict.get? s.tasks id).bind fun t => if t.remaining = 0 then none else some t) ∧ Ran d x r id r0 m s
  | .storeTasks acc => ∃ m, s.rounds + 1 = r0 + m ∧ w m (Dict.get? acc id) ∧ Ran d x r id r0 m s
  | .dead => ∃ m, (s.rounds = r0 + m ∨ s.rounds + 1 = r0 + m) ∧ Ran d x r id r0 m s

theorem Lives.ran {d : Int} {x : Bool} {r : Int} {id r0 : Nat} {s : St} (h : Lives d x r id r0 s) :
    ∃ m, (s.rounds = r0 + m ∨ s.rounds + 1 = r0 + m) ∧ Ran d x r id r0 m s := by
  unfold Lives at h
  cases hp : s.pos <;> rw [hp] at h <;> dsimp only at h
  case tick i =>
    split at h
    · obtain ⟨m, a, b, c⟩ := h; exact ⟨m, .inr a, c⟩
    · obtain ⟨m, a, b, c⟩ := h; exact ⟨m, .inl a, c⟩
  case keep => obtain ⟨m, a, b, c⟩ := h; exact ⟨m, .inr a, c⟩
  case storeTasks => obtain ⟨m, a, b, c⟩ := h; exact ⟨m, .inr a, c⟩
  case dead => exact h
  all_goals obtain ⟨m, a, b, c⟩ := h; exact ⟨m, .inl a, c⟩

theorem ran_skip {d : Int} {x : Bool} {r : Int} {id r0 m : Nat} {s t : St} (hr : t.ran = s.ran) (h : Ran d x r id r0 m s) (hd : ¬ IsDue d x r (m + 1)) :
    Ran d x r id r0 (m + 1) t := by
  intro q
  rw [hr]
  have key : (r0 ≤ q ∧ q < r0 + (m + 1) ∧ IsDue d x r (q + 1 - r0)) ↔ (r0 ≤ q ∧ q < r0 + m ∧ IsDue d x r (q + 1 - r0)) := by
    constructor
    · rintro ⟨a, b, c⟩
      refine ⟨a, ?_, c⟩
      by_cases hq : q = r0 + m
      · subst hq
        rw [show r0 + m + 1 - r0 = m + 1 by omega] at c
        exact absurd c hd
      · omega
    · rintro ⟨a, b, c⟩; exact ⟨a, by omega, c⟩
  rw [key]
  exact h q

theorem ran_tick {d : Int} {x : Bool} {r : Int} {id r0 m : Nat} {s t : St} (hr : t.ran = s.ran ++ [(r0 + m, id)]) (h : Ran d x r id r0 m s) (hd : IsDue d x r (m + 1)) :
    Ran d x r id r0 (m + 1) t := by
  intro q
  rw [hr, List.count_append]
  by_cases hq : q = r0 + m
  · subst hq
    left
    refine ⟨?_, by omega, by omega, by rw [show r0 + m + 1 - r0 = m + 1 by omega]; exact hd⟩
    rcases h (r0 + m) with ⟨_, b⟩ | ⟨a, _⟩
    · omega
    · rw [a]; simp
  · have h0 : List.count (q, id) [(r0 + m, id)] = 0 := by
      rw [List.count_eq_zero]
      intro y
      rw [List.mem_singleton] at y
      exact hq (congrArg Prod.fst y)
    rw [h0, Nat.add_zero]
    have key : (r0 ≤ q ∧ q < r0 + (m + 1) ∧ IsDue d x r (q + 1 - r0)) ↔ (r0 ≤ q ∧ q < r0 + m ∧ IsDue d x r (q + 1 - r0)) :=
      ⟨fun y => ⟨y.1, by omega, y.2.2⟩, fun y => ⟨y.1, by omega, y.2.2⟩⟩
    rw [key]
    exact h q

theorem ran_other {d : Int} {x : Bool} {r : Int} {id r0 m : Nat} {s t : St} {l : List (Nat × Nat)} (hr : t.ran = s.ran ++ l) (hl : ∀ e ∈ l, e.2 ≠ id) (h : Ran d x r id r0 m s) :
    Ran d x r id r0 m t := by
  intro q
  rw [hr, List.count_append, show List.count (q, id) l = 0 from List.count_eq_zero.2 fun y => hl _ y rfl]
  exact h q

theorem mem_take_succ {l : List (Nat × TimerTask)} {i j : Nat} {t t' : TimerTask} (h : l[i]? = some (j, t)) (id : Nat) :
    id ∈ ((l.set i (j, t')).take (i + 1)).map (·.1) ↔ id ∈ (l.take i).map (·.1) ∨ id = j := by
  have hlen := (List.getElem?_eq_some_iff.1 h).1
  rw [List.map_take, keys_setAt h, ← List.map_take, List.take_add_one, h, List.map_append, List.mem_append]
  simp

theorem notMem_take {l : List (Nat × TimerTask)} (hn : (l.map (·.1)).Nodup) {i id : Nat} {t : TimerTask} (h : l[i]? = some (id, t)) :
    id ∉ (l.take i).map (·.1) := by
  intro hx
  have hlen := (List.getElem?_eq_some_iff.1 h).1
  have hd : (l.drop i)[0]? = some (id, t) := by rw [List.getElem?_drop, Nat.add_zero]; exact h
  have h2 : id ∈ (l.drop i).map (·.1) := List.mem_map.2 ⟨_, List.mem_of_getElem? hd, rfl⟩
  have : ((l.take i).map (·.1) ++ (l.drop i).map (·.1)).Nodup := by
    rw [← List.map_append, List.take_append_drop]; exact hn
  exact (List.nodup_append.1 this).2.2 id hx id h2 rfl

theorem lives_thread {d : Int} (hd : 0 < d) {x : Bool} {r : Int} {id r0 : Nat} {s : St} (hw : WfTasks s) (h : Lives d x r id r0 s) (w : Does) :
    Lives d x r id r0 (s.thread w) := by
  have hran := h.ran
  have hn : (s.tasks.map (·.1)).Nodup := (List.nodup_append.1 hw.ids).1
  have hf := hw.fits
  unfold Lives at h
  unfold FitsTasks at hf
  unfold St.thread
  cases hp : s.pos with
  | sleep => rw [hp] at h; exact h
  | count todo used =>
    rw [hp] at h
    dsimp only at h ⊢
    split
    · exact hran
    · cases todo with
      | nil => exact h
      | cons m todo =>
        dsimp only
        cases s.timers.get? m with
        | none => exact hran
        | some v => exact h
  | write => rw [hp] at h; exact h
  | sweep todo used acc =>
    rw [hp] at h
    dsimp only at h ⊢
    split
    · exact hran
    · cases todo with
      | nil => exact h
      | cons m todo =>
        dsimp only
        cases s.timers.get? m with
        | none => exact hran
        | some v => exact h
  | store acc =>
    rw [hp] at h
    unfold Lives
    dsimp only
    rw [if_neg (by simp)]
    exact h
  | tick i =>
    rw [hp] at h hf
    dsimp only at h hf ⊢
    cases hi : s.tasks[i]? with
    | none =>
      dsimp only
      split at h
      · exact h
      · rename_i hx
        rw [List.take_of_length_le (List.getElem?_eq_none_iff.1 hi)] at hx
        have h0 : Dict.get? s.tasks id = none := (Dict.get?_eq_none_iff _ _).2 hx
        obtain ⟨m, a, b, c⟩ := h
        rw [h0] at b
        have hw0 := TimerTask.where_none hd x r false m b
        refine ⟨m + 1, by dsimp only; omega, ?_, ran_skip rfl c hw0.2⟩
        dsimp only
        rw [h0]; exact hw0.1
    | some e =>
      obtain ⟨id', t⟩ := e
      dsimp only
      by_cases hid : id' = id
      · subst hid
        have hnot := notMem_take hn hi
        rw [if_neg hnot] at h
        obtain ⟨m, a, b, c⟩ := h
        have hg : Dict.get? s.tasks id' = some t := (Dict.mem_iff hn _ _).1 (List.mem_of_getElem? hi)
        rw [hg] at b
        obtain ⟨w1, w2⟩ := TimerTask.where_tick hd x r false m t w.stop (by simp) b
        have hbind : (Dict.get? (s.tasks.set i (id', (t.tick w.stop).1)) id').bind (fun t => if t.remaining = 0 then none else some t) = t.age w.stop := by
          rw [get?_setAt hn hi, if_pos rfl]; rfl
        have hmem := (mem_take_succ (t' := (t.tick w.stop).1) hi id').2 (.inr rfl)
        split
        · rename_i hx
          have hr : Ran d x r id' r0 (m + 1) { s with tasks := s.tasks.set i (id', (t.tick w.stop).1), ran := s.ran ++ [(s.rounds, id')], timers := w.regs.foldl (fun t e => t.set e.1 e.2) s.timers, pos := if w.raises then .dead else .tick (i + 1) } :=
            ran_tick (by dsimp only; rw [a]) c (w2.1 hx)
          cases hra : w.raises with
          | true =>
            rw [hra] at hr
            exact ⟨m + 1, .inr (by dsimp only; omega), hr⟩
          | false =>
            rw [hra] at hr
            unfold Lives
            dsimp only [Bool.false_eq_true, if_false]
            rw [if_neg (by simp)]
            dsimp only
            rw [if_pos hmem]
            refine ⟨m + 1, by omega, by rw [hbind]; exact w1, hr⟩
        · rename_i hx
          have hr : Ran d x r id' r0 (m + 1) { s with tasks := s.tasks.set i (id', (t.tick w.stop).1), pos := .tick (i + 1) } :=
            ran_skip rfl c fun y => hx (w2.2 y)
          unfold Lives
          dsimp only
          rw [if_pos hmem]
          refine ⟨m + 1, by omega, by rw [hbind]; exact w1, hr⟩
      · have hg : Dict.get? (s.tasks.set i (id', (t.tick w.stop).1)) id = Dict.get? s.tasks id := by
          rw [get?_setAt hn hi, if_neg (Ne.symm hid)]
        have hmem : id ∈ ((s.tasks.set i (id', (t.tick w.stop).1)).take (i + 1)).map (·.1) ↔ id ∈ (s.tasks.take i).map (·.1) := by
          rw [mem_take_succ hi]
          exact ⟨fun y => y.resolve_right (Ne.symm hid), .inl⟩
        have hr : ∀ {m : Nat} {t' : St} {l : List (Nat × Nat)}, t'.ran = s.ran ++ l → (∀ e ∈ l, e.2 ≠ id) → Ran d x r id r0 m s → Ran d x r id r0 m t' :=
          fun a b c => ran_other a b c
        split
        · have hl : ∀ e ∈ [(s.rounds, id')], e.2 ≠ id := by
            intro e he
            rw [List.mem_singleton] at he
            subst he
            exact hid
          cases hra : w.raises with
          | true =>
            obtain ⟨m, a, c⟩ := hran
            exact ⟨m, a, hr rfl hl c⟩
          | false =>
            unfold Lives
            dsimp only
            rw [if_neg (by simp)]
            dsimp only
            split at h
            · rename_i hx
              rw [if_pos (hmem.2 hx)]
              obtain ⟨m, a, b, c⟩ := h
              exact ⟨m, a, by rw [hg]; exact b, hr rfl hl c⟩
            · rename_i hx
              rw [if_neg (fun y => hx (hmem.1 y))]
              obtain ⟨m, a, b, c⟩ := h
              exact ⟨m, a, by rw [hg]; exact b, hr rfl hl c⟩
        · unfold Lives
          dsimp only
          split at h
          · rename_i hx
            rw [if_pos (hmem.2 hx)]
            obtain ⟨m, a, b, c⟩ := h
            exact ⟨m, a, by rw [hg]; exact b, hr (l := []) (List.append_nil _).symm (by simp) c⟩
          · rename_i hx
            rw [if_neg (fun y => hx (hmem.1 y))]
            obtain ⟨m, a, b, c⟩ := h
            exact ⟨m, a, by rw [hg]; exact b, hr (l := []) (List.append_nil _).symm (by simp) c⟩
  | keep i acc =>
    rw [hp] at h hf
    dsimp only at h hf ⊢
    cases hi : s.tasks[i]? with
    | none =>
      obtain ⟨m, a, b, c⟩ := h
      refine ⟨m, a, ?_, c⟩
      have hlen := List.getElem?_eq_none_iff.1 hi
      rw [hf.2, List.take_of_length_le hlen, get?_lasting hn]
      exact b
    | some e => exact h
  | storeTasks acc =>
    rw [hp] at h
    exact h
  | dead =>
    rw [hp] at h
    unfold Lives
    dsimp only
    rw [hp]
    exact h

/-- The task has been stored, and is not to be again. -/
structure Known (id : Nat) (s : St) : Prop where
  lt : id < s.registered
  pending : id ∉ s.pendingTasks.map (·.2.1)

theorem known_step {id : Nat} {s : St} (h : Known id s) (e : Step) : Known id (s.step e) := by
  cases e with
  | thread d =>
    obtain ⟨-, a, b⟩ := thread_pending s d
    exact ⟨by show id < (s.thread d).registered; rw [b]; exact h.lt, by show id ∉ (s.thread d).pendingTasks.map _; rw [a]; exact h.pending⟩
  | timerLoad n v => exact ⟨h.lt, h.pending⟩
  | timerStore k =>
    dsimp only [St.step]
    cases s.pending[k]? with
    | none => exact h
    | some p => exact ⟨h.lt, h.pending⟩
  | taskLoad d x r hs =>
    refine ⟨Nat.lt_succ_of_lt h.lt, ?_⟩
    intro y
    rw [St.step, List.map_append, List.mem_append] at y
    rcases y with y | y
    · exact h.pending y
    · have := h.lt
      simp at y
      omega
  | taskStore k =>
    dsimp only [St.step]
    cases s.pendingTasks[k]? with
    | none => exact h
    | some p => exact ⟨h.lt, fun y => h.pending (((List.eraseIdx_sublist _ _).map _).subset y)⟩

theorem lives_step {d : Int} (hd : 0 < d) {x : Bool} {r : Int} {id r0 : Nat} {s : St} (hw : WfTasks s) (hk : Known id s) (h : Lives d x r id r0 s) (e : Step) :
    Lives d x r id r0 (s.step e) := by
  cases e with
  | thread w => exact lives_thread hd hw h w
  | timerLoad n v => exact h
  | timerStore k =>
    dsimp only [St.step]
    cases s.pending[k]? with
    | none => exact h
    | some p => exact h
  | taskLoad => exact h
  | taskStore k =>
    dsimp only [St.step]
    cases hkk : s.pendingTasks[k]? with
    | none => exact h
    | some p =>
      obtain ⟨g, id', t⟩ := p
      have hne : id' ≠ id := by
        rintro rfl
        exact hk.pending (List.mem_map.2 ⟨_, List.mem_of_getElem? hkk, rfl⟩)
      dsimp only
      split
      · have hg : Dict.get? (s.tasks ++ [(id', t)]) id = Dict.get? s.tasks id := by
          rw [Dict.get?_append, Dict.get?_cons, if_neg hne, Dict.get?_nil, Option.or_none]
        have hf := hw.fits
        unfold FitsTasks at hf
        unfold Lives at h ⊢
        dsimp only
        cases hp : s.pos <;> rw [hp] at h hf <;> dsimp only at h hf ⊢ <;> (try rw [hg]) <;> (try exact h)
        rw [List.take_append_of_le_length hf]
        exact h
      · exact h

theorem lives_run {d : Int} (hd : 0 < d) {x : Bool} {r : Int} {id r0 : Nat} {s : St} (hw : WfTasks s) (hk : Known id s) (h : Lives d x r id r0 s) (l : List Step) :
    Lives d x r id r0 (s.run l) := by
  induction l generalizing s with
  | nil => exact h
  | cons e l ih => exact ih (wfTasks_step hw e) (known_step hk e) (lives_step hd hw hk h e)

/-- Only tasks that are or were in the list have run. -/
def Past (s : St) : Prop := ∀ e ∈ s.ran, Known e.2 s

theorem past_step {s : St} (hw : WfTasks s) (h : Past s) (e : Step) : Past (s.step e) := by
  have old : ∀ p ∈ s.ran, Known p.2 (s.step e) := fun p hp => known_step (h p hp) e
  cases e with
  | thread d =>
    have key : ∀ p ∈ (s.thread d).ran, p ∈ s.ran ∨ p.2 ∈ s.tasks.map (·.1) := by
      unfold St.thread
      cases s.pos with
      | sleep => exact fun p hp => .inl hp
      | count todo used =>
        dsimp only
        split
        · exact fun p hp => .inl hp
        · split
          · exact fun p hp => .inl hp
          · split <;> exact fun p hp => .inl hp
      | write => exact fun p hp => .inl hp
      | sweep =>
        dsimp only
        split
        · exact fun p hp => .inl hp
        · split
          · exact fun p hp => .inl hp
          · split <;> exact fun p hp => .inl hp
      | store => exact fun p hp => .inl hp
      | tick i =>
        dsimp only
        cases hi : s.tasks[i]? with
        | none => exact fun p hp => .inl hp
        | some e =>
          obtain ⟨id, t⟩ := e
          dsimp only
          split
          · intro p hp
            rcases List.mem_append.1 hp with y | y
            · exact .inl y
            · rw [List.mem_singleton] at y
              subst y
              exact .inr (List.mem_map.2 ⟨_, List.mem_of_getElem? hi, rfl⟩)
          · exact fun p hp => .inl hp
      | keep i acc =>
        dsimp only
        cases s.tasks[i]? <;> exact fun p hp => .inl hp
      | storeTasks => exact fun p hp => .inl hp
      | dead => exact fun p hp => .inl hp
    intro p hp
    rcases key p hp with y | y
    · exact old p y
    · refine known_step ⟨hw.lt _ (List.mem_append_left _ y), fun z => ?_⟩ (.thread d)
      exact (List.nodup_append.1 hw.ids).2.2 _ y _ z rfl
  | timerLoad n v => exact old
  | timerStore k =>
    dsimp only [St.step] at old ⊢
    cases hk : s.pending[k]? with
    | none => exact h
    | some p => rw [hk] at old; exact old
  | taskLoad => exact old
  | taskStore k =>
    dsimp only [St.step] at old ⊢
    cases hk : s.pendingTasks[k]? with
    | none => exact h
    | some p => rw [hk] at old; exact old

theorem past_run {s : St} (hw : WfTasks s) (h : Past s) (l : List Step) : Past (s.run l) := by
  induction l generalizing s with
  | nil => exact h
  | cons e l ih => exact ih (wfTasks_step hw e) (past_step hw h e)

/-- A task that the thread will not see. -/
def Gone (id : Nat) (s : St) : Prop :=
  (∀ q, (q, id) ∉ s.ran) ∧
  match s.pos with
  | .storeTasks acc => id ∉ acc.map (·.1)
  | _ => id ∉ s.tasks.map (·.1)

theorem gone_thread {id : Nat} {s : St} (hw : WfTasks s) (h : Gone id s) (d : Does) : Gone id (s.thread d) := by
  obtain ⟨h0, h⟩ := h
  have hf := hw.fits
  unfold FitsTasks at hf
  unfold St.thread
  cases hp : s.pos with
  | sleep => rw [hp] at h; exact ⟨h0, h⟩
  | count todo used =>
    rw [hp] at h
    dsimp only
    split
    · exact ⟨h0, h⟩
    · split
      · exact ⟨h0, h⟩
      · split <;> exact ⟨h0, h⟩
  | write => rw [hp] at h; exact ⟨h0, h⟩
  | sweep =>
    rw [hp] at h
    dsimp only
    split
    · exact ⟨h0, h⟩
    · split
      · exact ⟨h0, h⟩
      · split <;> exact ⟨h0, h⟩
  | store => rw [hp] at h; exact ⟨h0, h⟩
  | tick i =>
    rw [hp] at h
    dsimp only at h ⊢
    cases hi : s.tasks[i]? with
    | none => exact ⟨h0, h⟩
    | some e =>
      obtain ⟨id', t⟩ := e
      have hne : id' ≠ id := by
        rintro rfl
        exact h (List.mem_map.2 ⟨_, List.mem_of_getElem? hi, rfl⟩)
      have hk : id ∉ (s.tasks.set i (id', (t.tick d.stop).1)).map (·.1) := by rw [keys_setAt hi]; exact h
      dsimp only
      split
      · refine ⟨fun q y => ?_, ?_⟩
        · rcases List.mem_append.1 y with y | y
          · exact h0 q y
          · rw [List.mem_singleton] at y
            exact hne (congrArg Prod.snd y).symm
        · cases d.raises <;> exact hk
      · exact ⟨h0, hk⟩
  | keep i acc =>
    rw [hp] at h hf
    dsimp only at h hf ⊢
    cases hi : s.tasks[i]? with
    | none =>
      refine ⟨h0, ?_⟩
      dsimp only
      rw [hf.2]
      exact fun y => h (((lasting_sublist _ _).map _).subset y)
    | some e => exact ⟨h0, h⟩
  | storeTasks acc => rw [hp] at h; exact ⟨h0, h⟩
  | dead =>
    rw [hp] at h
    refine ⟨h0, ?_⟩
    dsimp only
    rw [hp]
    exact h

theorem gone_step {id : Nat} {s : St} (hw : WfTasks s) (hk : Known id s) (h : Gone id s) (e : Step) : Gone id (s.step e) := by
  cases e with
  | thread d => exact gone_thread hw h d
  | timerLoad n v => exact h
  | timerStore k =>
    dsimp only [St.step]
    cases s.pending[k]? with
    | none => exact h
    | some p => exact h
  | taskLoad => exact h
  | taskStore k =>
    dsimp only [St.step]
    cases hkk : s.pendingTasks[k]? with
    | none => exact h
    | some p =>
      obtain ⟨g, id', t⟩ := p
      have hne : id' ≠ id := by
        rintro rfl
        exact hk.pending (List.mem_map.2 ⟨_, List.mem_of_getElem? hkk, rfl⟩)
      dsimp only
      split
      · obtain ⟨h0, h⟩ := h
        refine ⟨h0, ?_⟩
        dsimp only
        have : id ∉ s.tasks.map (·.1) → id ∉ (s.tasks ++ [(id', t)]).map (·.1) := by
          intro a y
          rw [List.map_append, List.mem_append] at y
          rcases y with y | y
          · exact a y
          · rw [List.map_cons, List.map_nil, List.mem_singleton] at y
            exact hne y.symm
        cases hp : s.pos <;> rw [hp] at h <;> dsimp only at h ⊢ <;> first | exact this h | exact h
      · exact h

theorem gone_run {id : Nat} {s : St} (hw : WfTasks s) (hk : Known id s) (h : Gone id s) (l : List Step) : Gone id (s.run l) := by
  induction l generalizing s with
  | nil => exact h
  | cons e l ih => exact ih (wfTasks_step hw e) (known_step hk e) (gone_step hw hk h e)

/-! ### The end of the thread -/

theorem dead_step {s : St} (h : s.pos = .dead) (e : Step) : (s.step e).pos = .dead ∧ (s.step e).rounds = s.rounds ∧ (s.step e).ran = s.ran := by
  cases e with
  | thread d =>
    have : s.thread d = s := by unfold St.thread; rw [h]
    show (s.thread d).pos = _ ∧ _
    rw [show s.step (.thread d) = s from this, this]
    exact ⟨h, rfl, rfl⟩
  | timerLoad n v => exact ⟨h, rfl, rfl⟩
  | timerStore k =>
    dsimp only [St.step]
    cases s.pending[k]? <;> exact ⟨h, rfl, rfl⟩
  | taskLoad => exact ⟨h, rfl, rfl⟩
  | taskStore k =>
    dsimp only [St.step]
    cases s.pendingTasks[k]? <;> exact ⟨h, rfl, rfl⟩

theorem dead_run {s : St} (h : s.pos = .dead) (l : List Step) : (s.run l).pos = .dead ∧ (s.run l).rounds = s.rounds ∧ (s.run l).ran = s.ran := by
  induction l generalizing s with
  | nil => exact ⟨h, rfl, rfl⟩
  | cons e l ih =>
    obtain ⟨a, b, c⟩ := dead_step h e
    obtain ⟨a', b', c'⟩ := ih a
    exact ⟨a', b'.trans b, c'.trans c⟩

/-- The dict has grown since the loop began. -/
def Grown (s : St) : Prop :=
  match s.pos with
  | .count _ used | .write _ _ _ used | .sweep _ used _ => used < s.timers.length
  | .dead => True
  | _ => False

theorem grown_step {s : St} (hw : Wf s) (h : Grown s) (e : Step) : Grown (s.step e) ∧ (s.step e).rounds = s.rounds ∧ (s.step e).ran = s.ran := by
  have hle : ∀ (t : St), t.pos = s.pos → s.timers.length ≤ t.timers.length → Grown t := by
    intro t hp hl
    unfold Grown at h ⊢
    rw [hp]
    cases hpos : s.pos <;> rw [hpos] at h <;> dsimp only at h ⊢ <;> omega
  cases e with
  | thread d =>
    have hf := hw.fits
    unfold Grown at h
    unfold Fits at hf
    show Grown (s.thread d) ∧ (s.thread d).rounds = s.rounds ∧ (s.thread d).ran = s.ran
    unfold St.thread
    cases hp : s.pos <;> rw [hp] at h hf <;> dsimp only at h hf ⊢ <;> try exact h.elim
    · rw [if_pos (by omega)]; exact ⟨trivial, rfl, rfl⟩
    · refine ⟨?_, rfl, rfl⟩
      show _ < (Dict.set _ _ _).length
      rw [length_set]
      split <;> omega
    · rw [if_pos (by omega)]; exact ⟨trivial, rfl, rfl⟩
    · exact ⟨by unfold Grown; rw [hp]; trivial, rfl, rfl⟩
  | timerLoad n v => exact ⟨hle _ rfl (Nat.le_refl _), rfl, rfl⟩
  | timerStore k =>
    dsimp only [St.step]
    cases s.pending[k]? with
    | none => exact ⟨h, rfl, rfl⟩
    | some p =>
      obtain ⟨g, n, v⟩ := p
      refine ⟨hle _ rfl ?_, rfl, rfl⟩
      dsimp only
      split
      · rw [length_set]; split <;> omega
      · exact Nat.le_refl _
  | taskLoad => exact ⟨h, rfl, rfl⟩
  | taskStore k =>
    dsimp only [St.step]
    cases s.pendingTasks[k]? <;> exact ⟨h, rfl, rfl⟩

theorem grown_run {s : St} (hw : Wf s) (h : Grown s) (l : List Step) : (s.run l).rounds = s.rounds ∧ (s.run l).ran = s.ran := by
  induction l generalizing s with
  | nil => exact ⟨rfl, rfl⟩
  | cons e l ih =>
    obtain ⟨a, b, c⟩ := grown_step hw h e
    obtain ⟨b', c'⟩ := ih (wf_step hw e) a
    exact ⟨b'.trans b, c'.trans c⟩

/-- The dict has its size. -/
def Steady (s : St) : Prop :=
  match s.pos with
  | .count _ used | .write _ _ _ used | .sweep _ used _ => s.timers.length = used
  | .dead => False
  | _ => True

theorem steady_step {s : St} (hw : Wf s) (h : Steady s) (e : Step) (h1 : ¬ Disturbs s e) (h2 : ¬ Fails s e) : Steady (s.step e) := by
  have hle : ∀ (t : St), t.pos = s.pos → s.timers.length = t.timers.length → Steady t := by
    intro t hp hl
    unfold Steady at h ⊢
    rw [hp]
    cases hpos : s.pos <;> rw [hpos] at h <;> dsimp only at h ⊢ <;> omega
  have hhas : ∀ {n : String}, n ∈ s.timers.keys → ∃ v, s.timers.get? n = some v := fun hn => (Dict.mem_keys_iff _ _).1 hn
  cases e with
  | thread d =>
    have hf := hw.fits
    unfold Fits at hf
    unfold Steady at h
    show Steady (s.thread d)
    unfold St.thread
    cases hp : s.pos with
    | sleep => exact rfl
    | count todo used =>
      rw [hp] at h hf
      dsimp only at h hf ⊢
      rw [if_neg (by omega)]
      cases todo with
      | nil => exact rfl
      | cons m todo =>
        dsimp only
        obtain ⟨v, hv⟩ := hhas (hf.2 m List.mem_cons_self)
        rw [hv]; exact h
    | write m v todo used =>
      rw [hp] at h hf
      dsimp only at h hf ⊢
      obtain ⟨v', hv⟩ := hhas (hf.2 m List.mem_cons_self)
      show (Dict.set _ _ _).length = used
      rw [length_set, hv, if_neg (by simp)]; exact h
    | sweep todo used acc =>
      rw [hp] at h hf
      dsimp only at h hf ⊢
      rw [if_neg (by omega)]
      cases todo with
      | nil => exact trivial
      | cons m todo =>
        dsimp only
        obtain ⟨v, hv⟩ := hhas (hf.2.1 m List.mem_cons_self)
        rw [hv]; exact h
    | store => exact trivial
    | tick i =>
      dsimp only
      cases hi : s.tasks[i]? with
      | none => exact trivial
      | some e =>
        obtain ⟨id, t⟩ := e
        dsimp only
        split
        · rename_i hx
          cases hra : d.raises with
          | true => exact absurd ⟨i, id, t, d, hp, hi, rfl, hx, hra⟩ h2
          | false => exact trivial
        · exact trivial
    | keep i acc =>
      dsimp only
      cases s.tasks[i]? <;> exact trivial
    | storeTasks => exact trivial
    | dead => rw [hp] at h; exact h.elim
  | timerLoad n v => exact hle _ rfl rfl
  | timerStore k =>
    dsimp only [St.step]
    cases hk : s.pending[k]? with
    | none => exact h
    | some p =>
      obtain ⟨g, n, v⟩ := p
      dsimp only
      by_cases hg : g = s.gen
      · rw [if_pos hg]
        subst hg
        by_cases hc : Counting s
        · have : s.timers.get? n ≠ none := fun y => h1 ⟨hc, k, n, v, rfl, hk, y⟩
          refine hle _ rfl ?_
          dsimp only
          rw [length_set, if_neg this]
        · unfold Steady Counting at *
          dsimp only
          cases hp : s.pos <;> rw [hp] at h hc <;> dsimp only at h hc ⊢ <;> first | exact h | exact absurd trivial hc
      · rw [if_neg hg]; exact hle _ rfl rfl
  | taskLoad => exact hle _ rfl rfl
  | taskStore k =>
    dsimp only [St.step]
    cases s.pendingTasks[k]? with
    | none => exact h
    | some p => exact hle _ rfl rfl

theorem steady_run {s : St} (hw : Wf s) (h : Steady s) {l : List Step}
    (hl : ∀ l₁ e l₂, l = l₁ ++ e :: l₂ → ¬ Disturbs (s.run l₁) e ∧ ¬ Fails (s.run l₁) e) : Steady (s.run l) := by
  induction l generalizing s with
  | nil => exact h
  | cons e l ih =>
    have h0 := hl [] e l rfl
    refine ih (wf_step hw e) (steady_step hw h e h0.1 h0.2) fun l₁ e' l₂ heq => ?_
    exact hl (e :: l₁) e' l₂ (by rw [heq]; rfl)

end Verif.Tick
