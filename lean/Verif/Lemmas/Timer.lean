import Verif.Spec.Timer
import Verif.Lemmas.Dict
import Mathlib.Data.List.Induction
import Mathlib.Tactic.Ring
/-! Helper lemmas about the timer. -/
namespace Verif
open Spec (ticks methods due)

/-- Looking up in a dictionary whose values have been changed and filtered. -/
theorem Dict.get?_mapFilter {K V : Type} [DecidableEq K] (d : Dict K V) (hn : (keys d).Nodup) (f : K → V → V) (p : V → Bool) (k : K) :
    get? ((d.map (fun e => (e.1, f e.1 e.2))).filter (fun e => p e.2)) k =
      (get? d k).bind (fun v => if p (f k v) then some (f k v) else none) := by
  induction d with
  | nil => rfl
  | cons e d ih =>
    rw [keys, List.map_cons, List.nodup_cons] at hn
    have ih := ih hn.2
    rw [List.map_cons, get?_cons]
    by_cases hk : e.1 = k
    · subst hk
      have hnone : get? d e.1 = none := (get?_eq_none_iff _ _).mpr hn.1
      rw [hnone, Option.bind_none] at ih
      by_cases hp : p (f e.1 e.2)
      · rw [List.filter_cons, if_pos hp, get?_cons]; simp [hp]
      · rw [List.filter_cons, if_neg hp, ih]; simp [hp]
    · rw [if_neg hk]
      by_cases hp : p (f e.1 e.2)
      · rw [List.filter_cons, if_pos hp, get?_cons, if_neg hk, ih]
      · rw [List.filter_cons, if_neg hp, ih]

theorem Dict.nodup_mapFilter {K V : Type} [DecidableEq K] (d : Dict K V) (hn : (keys d).Nodup) (f : K → V → V) (p : V → Bool) :
    (keys ((d.map (fun e => (e.1, f e.1 e.2))).filter (fun e => p e.2))).Nodup := by
  refine nodup_filter (d := d.map (fun e => (e.1, f e.1 e.2))) _ ?_
  rw [keys, List.map_map]
  exact hn

theorem Dict.get?_append {K V : Type} [DecidableEq K] (a b : Dict K V) (k : K) :
    get? (a ++ b) k = (get? a k).or (get? b k) := by
  rw [get?, List.find?_append]
  cases h : a.find? (fun e => e.1 = k) <;> simp [get?, h]

namespace Timer

/-- What all reachable timers satisfy. -/
structure Ok (t : Timer) : Prop where
  timers : (Dict.keys t.timers).Nodup
  tasks : (Dict.keys t.tasks).Nodup
  ids : ∀ i ∈ Dict.keys t.tasks, i < t.registered

theorem ok_new : Ok Timer.new := ⟨List.nodup_nil, List.nodup_nil, by simp [Timer.new, Dict.keys]⟩

theorem get_tickTimers {d : Dict String Int} (hn : (Dict.keys d).Nodup) (n : String) :
    (tickTimers d).get? n = (d.get? n).bind (fun v => if v - 1 = 0 then none else some (v - 1)) := by
  have := Dict.get?_mapFilter d hn (fun _ v => v - 1) (fun v => decide (v ≠ 0)) n
  rw [tickTimers, this]
  congr 1
  funext v
  by_cases h : v - 1 = 0 <;> simp [h]

theorem get_tickTasks {l : Dict Nat TimerTask} (hn : (Dict.keys l).Nodup) (s : Nat → Bool) (i : Nat) :
    Dict.get? (tickTasks l s) i = (l.get? i).bind (fun t => if (t.tick (s i)).1.remaining = 0 then none else some (t.tick (s i)).1) := by
  have := Dict.get?_mapFilter l hn (fun i t => (t.tick (s i)).1) (fun t => decide (t.remaining ≠ 0)) i
  rw [tickTasks, this]
  congr 1
  funext v
  by_cases h : (v.tick (s i)).1.remaining = 0 <;> simp [h]

theorem mem_ranTasks {l : Dict Nat TimerTask} (hn : (Dict.keys l).Nodup) (s : Nat → Bool) (i : Nat) :
    i ∈ ranTasks l s ↔ ∃ t, l.get? i = some t ∧ (t.tick (s i)).2 = true := by
  rw [ranTasks, List.mem_map]
  constructor
  · rintro ⟨⟨i', t⟩, h1, rfl⟩
    rw [List.mem_filter] at h1
    exact ⟨t, (Dict.mem_iff hn _ _).mp h1.1, h1.2⟩
  · rintro ⟨t, h1, h2⟩
    exact ⟨(i, t), List.mem_filter.mpr ⟨(Dict.mem_iff hn _ _).mpr h1, h2⟩, rfl⟩

theorem ok_step {t : Timer} (h : Ok t) (e : TimerEv) : Ok (step t e).1 := by
  cases e with
  | registerMethod d x r hs =>
    refine ⟨h.timers, ?_, ?_⟩
    · simp only [step, Dict.keys, List.map_append, List.map_cons, List.map_nil]
      refine List.nodup_append.mpr ⟨h.tasks, by simp, ?_⟩
      intro a ha b hb
      have := h.ids a ha
      simp at hb
      omega
    · intro i hi
      simp only [step, Dict.keys, List.map_append, List.map_cons, List.map_nil, List.mem_append, List.mem_singleton] at hi ⊢
      rcases hi with hi | hi
      · have := h.ids i hi; omega
      · omega
  | registerTimer n v => exact ⟨Dict.nodup_set _ _ h.timers, h.tasks, h.ids⟩
  | tick s =>
    refine ⟨Dict.nodup_mapFilter t.timers h.timers (fun _ v => v - 1) (fun v => decide (v ≠ 0)),
      Dict.nodup_mapFilter t.tasks h.tasks (fun i t => (t.tick (s i)).1) (fun t => decide (t.remaining ≠ 0)), ?_⟩
    intro i hi
    obtain ⟨v, hv⟩ := (Dict.mem_keys_iff _ _).mp hi
    rw [show (step t (.tick s)).1.tasks = tickTasks t.tasks s from rfl, get_tickTasks h.tasks] at hv
    obtain ⟨w, hw, -⟩ := Option.bind_eq_some_iff.mp hv
    exact h.ids i ((Dict.mem_keys_iff _ _).mpr ⟨w, hw⟩)

theorem ok_run {t : Timer} (h : Ok t) (evs : List TimerEv) : Ok (run t evs) := by
  induction evs generalizing t with
  | nil => exact h
  | cons e es ih => exact ih (ok_step h e)

theorem registered_run (t : Timer) (evs : List TimerEv) : (run t evs).registered = t.registered + methods evs := by
  induction evs generalizing t with
  | nil => rfl
  | cons e es ih =>
    rw [show run t (e :: es) = run (step t e).1 es from rfl, ih]
    cases e with
    | registerMethod => simp [step, methods, List.countP_cons]; omega
    | registerTimer => simp [step, methods, List.countP_cons]
    | tick => simp [step, methods, List.countP_cons]

/-- A timer registered with `n`, after `post`. -/
theorem get_timer (t : Timer) (h : Ok t) (name : String) (post : List TimerEv) (hpost : ∀ v, .registerTimer name v ∉ post)
    (n : Int) (k : Nat) (hg : t.timers.get? name = if 0 < n ∧ n ≤ k then none else some (n - k)) :
    (run t post).timers.get? name =
      if 0 < n ∧ n ≤ (k + (ticks post).length : Nat) then none else some (n - (k + (ticks post).length : Nat)) := by
  induction post generalizing t k with
  | nil => exact hg
  | cons e es ih =>
    rw [show run t (e :: es) = run (step t e).1 es from rfl]
    have hes : ∀ v, .registerTimer name v ∉ es := fun v hv => hpost v (by simp [hv])
    cases e with
    | registerMethod d x r hs =>
      exact ih _ (ok_step h (.registerMethod d x r hs)) hes k hg
    | registerTimer m v =>
      have hm : name ≠ m := by rintro rfl; exact hpost v (by simp)
      exact ih _ (ok_step h (.registerTimer m v)) hes k (by rw [step]; simp only; rw [Dict.get?_set_ne _ _ hm, hg])
    | tick s =>
      rw [ih _ (ok_step h (.tick s)) hes (k + 1) ?_]
      · have : (ticks (.tick s :: es)).length = (ticks es).length + 1 := rfl
        rw [this, show k + 1 + (ticks es).length = k + ((ticks es).length + 1) by omega]
      · rw [show (step t (.tick s)).1.timers = tickTimers t.timers from rfl, get_tickTimers h.timers, hg]
        by_cases h1 : 0 < n ∧ n ≤ k
        · rw [if_pos h1, if_pos ⟨h1.1, by omega⟩]; rfl
        · rw [if_neg h1, Option.bind_some]
          by_cases h2 : n - k - 1 = 0
          · rw [if_pos h2, if_pos (by omega)]
          · rw [if_neg h2, if_neg (by omega)]
            congr 1
            omega

end Timer

/-- A task through one tick: removed when nothing remains. -/
def TimerTask.age (t : TimerTask) (s : Bool) : Option TimerTask := if (t.tick s).1.remaining = 0 then none else some (t.tick s).1

/-- A task through a sequence of ticks. -/
def TimerTask.life (o : Option TimerTask) (l : List Bool) : Option TimerTask := l.foldl (fun o s => o.bind (·.age s)) o

theorem TimerTask.life_none (l : List Bool) : TimerTask.life none l = none := by
  induction l with
  | nil => rfl
  | cons s l ih => exact ih

namespace Timer

theorem trace_mem (t : Timer) (h : Ok t) (evs : List TimerEv) (i id : Nat) (hid : id < t.registered) (ran : List Nat)
    (hr : (trace t evs)[i]? = some ran) :
    id ∈ ran ↔ ∃ s task, (ticks evs)[i]? = some s ∧
      TimerTask.life (Dict.get? t.tasks id) (((ticks evs).take i).map (· id)) = some task ∧ (task.tick (s id)).2 = true := by
  induction evs generalizing t i with
  | nil => simp [trace] at hr
  | cons e es ih =>
    cases e with
    | registerMethod d x r hs =>
      rw [trace] at hr
      · rw [ih _ (ok_step h (.registerMethod d x r hs)) i (by simp [step]; omega) hr]
        have : Dict.get? (step t (.registerMethod d x r hs)).1.tasks id = Dict.get? t.tasks id := by
          simp only [step]
          rw [Dict.get?_append]
          have : Dict.get? [(t.registered, TimerTask.new d x r hs)] id = none := by
            rw [Dict.get?_cons, if_neg (by simp; omega)]; rfl
          rw [this]; simp
        rw [this]
        rfl
      · intro s hs; cases hs
    | registerTimer n v =>
      rw [trace] at hr
      · rw [ih _ (ok_step h (.registerTimer n v)) i hid hr]; rfl
      · intro s hs; cases hs
    | tick s =>
      rw [trace] at hr
      cases i with
      | zero =>
        simp at hr
        subst hr
        rw [show (step t (.tick s)).2 = ranTasks t.tasks s from rfl, mem_ranTasks h.tasks]
        simp [ticks, TimerTask.life]
      | succ i =>
        rw [List.getElem?_cons_succ] at hr
        rw [ih _ (ok_step h (.tick s)) i hid hr]
        rw [show (step t (.tick s)).1.tasks = tickTasks t.tasks s from rfl, get_tickTasks h.tasks]
        rfl

end Timer

namespace TimerTask

theorem due_zero (d : Int) (x : Bool) : due d x 0 = d := by
  rw [due]; cases x <;> simp

theorem due_succ (d : Int) (x : Bool) (j : Nat) : due d x (j + 1) = due d x j + (if x then d * ((1 <<< j : Nat) : Int) else d) := by
  rw [due, due, Nat.one_shiftLeft]
  cases x
  · simp; ring
  · simp; ring

theorem due_lt (d : Int) (hd : 0 < d) (x : Bool) (j : Nat) : due d x j < due d x (j + 1) := by
  rw [due_succ]
  have : 0 < (if x then d * ((1 <<< j : Nat) : Int) else d) := by
    cases x
    · exact hd
    · rw [Nat.one_shiftLeft]
      simp only [if_true]
      exact Int.mul_pos hd (by exact_mod_cast Nat.two_pow_pos j)
  omega

theorem due_mono (d : Int) (hd : 0 < d) (x : Bool) {i j : Nat} (h : i ≤ j) : due d x i ≤ due d x j := by
  induction h with
  | refl => exact Int.le_refl _
  | step h ih => exact Int.le_trans ih (Int.le_of_lt (due_lt d hd x _))

/-- Where a task is after `i` ticks without stop. -/
def Where (d : Int) (x : Bool) (r : Int) (hs : Bool) (i : Nat) (o : Option TimerTask) : Prop :=
  (∃ j : Nat, (i : Int) < due d x j ∧ (∀ j', j' < j → due d x j' ≤ i) ∧ (r < 0 ∨ (j : Int) ≤ r) ∧
      o = some ⟨d, x, if r < 0 then r else r - j, hs, due d x j - i, j⟩) ∨
    (0 ≤ r ∧ due d x r.toNat ≤ i ∧ o = none)

theorem where_new {d : Int} (hd : 0 < d) (x : Bool) (r : Int) (hs : Bool) : Where d x r hs 0 (some (.new d x r hs)) := by
  left
  refine ⟨0, by rw [due_zero]; exact_mod_cast hd, fun j h => absurd h (by omega), by omega, ?_⟩
  rw [due_zero, new]
  by_cases h : r < 0 <;> simp [h]

theorem where_tick {d : Int} (hd : 0 < d) (x : Bool) (r : Int) (hs : Bool) (i : Nat) (t : TimerTask) (s : Bool) (hns : (hs && s) = false)
    (h : Where d x r hs i (some t)) :
    Where d x r hs (i + 1) (t.age s) ∧ ((t.tick s).2 = true ↔ ∃ j : Nat, (r < 0 ∨ (j : Int) ≤ r) ∧ ((i + 1 : Nat) : Int) = due d x j) := by
  rcases h with ⟨j, h1, h2, h3, h4⟩ | ⟨-, -, h⟩
  · obtain rfl := Option.some.inj h4
    have huniq : (∃ j' : Nat, (r < 0 ∨ (j' : Int) ≤ r) ∧ ((i + 1 : Nat) : Int) = due d x j') ↔ ((i + 1 : Nat) : Int) = due d x j := by
      constructor
      · rintro ⟨j', h5, h6⟩
        have h7 : ¬ j' < j := fun hlt => by have := h2 j' hlt; omega
        have h8 := due_mono d hd x (Nat.le_of_not_lt h7)
        omega
      · intro h; exact ⟨j, h3, h⟩
    rw [huniq, age]
    clear huniq
    simp only [tick, hns, Bool.false_eq_true, if_false]
    by_cases h5 : due d x j - i - 1 = 0
    · simp only [h5, ne_eq, not_true_eq_false, if_false]
      by_cases h6 : (if r < 0 then r else r - j) = 0
      · simp only [h6, not_true_eq_false, if_false, if_true]
        have hr : ¬ r < 0 := by intro h; simp [h] at h6; omega
        rw [if_neg hr] at h6
        refine ⟨Or.inr ⟨by omega, ?_, rfl⟩, by simp; omega⟩
        rw [show r.toNat = j by omega]; omega
      · simp only [h6, not_false_eq_true, if_true]
        have hinc := due_lt d hd x j
        have hsucc := due_succ d x j
        refine ⟨Or.inl ⟨j + 1, by omega, ?_, ?_, ?_⟩, by simp; omega⟩
        · intro j' hj'
          have := due_mono d hd x (show j' ≤ j by omega)
          omega
        · by_cases h : r < 0
          · exact Or.inl h
          · rw [if_neg h] at h6
            right; omega
        · have hrem : (if x then d * ((1 <<< j : Nat) : Int) else d) = due d x (j + 1) - ((i + 1 : Nat) : Int) := by omega
          rw [hrem, if_neg (by omega)]
          congr 2
          by_cases h : r < 0
          · simp only [h, if_true]; rw [if_neg (by omega)]
          · simp only [h, if_false] at h6 ⊢; rw [if_pos (by omega)]; omega
    · simp only [h5, ne_eq, not_false_eq_true, if_true, if_false]
      refine ⟨Or.inl ⟨j, by omega, ?_, h3, ?_⟩, by simp; omega⟩
      · intro j' hj'; have := h2 j' hj'; omega
      · congr 2; omega
  · cases h

theorem where_none {d : Int} (hd : 0 < d) (x : Bool) (r : Int) (hs : Bool) (i : Nat) (h : Where d x r hs i none) :
    Where d x r hs (i + 1) none ∧ ¬ ∃ j : Nat, (r < 0 ∨ (j : Int) ≤ r) ∧ ((i + 1 : Nat) : Int) = due d x j := by
  rcases h with ⟨j, -, -, -, h⟩ | ⟨h1, h2, -⟩
  · cases h
  · refine ⟨Or.inr ⟨h1, by omega, rfl⟩, ?_⟩
    rintro ⟨j, h3, h4⟩
    have := due_mono d hd x (show j ≤ r.toNat by omega)
    omega

theorem life_where {d : Int} (hd : 0 < d) (x : Bool) (r : Int) (hs : Bool) (l : List Bool) (i : Nat) (o : Option TimerTask)
    (h : Where d x r hs i o) (hl : ∀ s ∈ l, (hs && s) = false) : Where d x r hs (i + l.length) (life o l) := by
  induction l generalizing i o with
  | nil => exact h
  | cons s l ih =>
    have : Where d x r hs (i + 1) (o.bind (·.age s)) := by
      cases o with
      | none => exact (where_none hd x r hs i h).1
      | some t => exact (where_tick hd x r hs i t s (hl s (by simp)) h).1
    have := ih (i + 1) _ this (fun s hs => hl s (by simp [hs]))
    rw [List.length_cons, show i + (l.length + 1) = i + 1 + l.length by omega]
    exact this

/-- Once stopped, gone. -/
theorem life_stopped (hs : Bool) (l : List Bool) (o : Option TimerTask) (ho : ∀ t, o = some t → t.hasStop = hs)
    (hl : ∃ s ∈ l, (hs && s) = true) : life o l = none := by
  induction l generalizing o with
  | nil => simp at hl
  | cons s l ih =>
    rw [show life o (s :: l) = life (o.bind (·.age s)) l from rfl]
    by_cases h : (hs && s) = true
    · have : o.bind (·.age s) = none := by
        cases o with
        | none => rfl
        | some t =>
          have := ho t rfl
          rw [Option.bind_some, age, tick, this]
          simp [h]
      rw [this, life_none]
    · refine ih _ ?_ ?_
      · intro t' ht'
        obtain ⟨t, ht, hage⟩ := Option.bind_eq_some_iff.mp ht'
        have := ho t ht
        rw [age] at hage
        split at hage
        · cases hage
        · obtain rfl := Option.some.inj hage
          rw [tick]
          split
          · exact this
          split
          · exact this
          split <;> exact this
      · obtain ⟨s', hs', h'⟩ := hl
        rcases List.mem_cons.mp hs' with rfl | hs'
        · exact absurd h' h
        · exact ⟨s', hs', h'⟩

/-- A task with delay 0 or less never runs. -/
theorem life_nonpos {o : Option TimerTask} (ho : ∀ t, o = some t → t.remaining ≤ 0) (l : List Bool) :
    ∀ t, life o l = some t → t.remaining ≤ 0 := by
  induction l generalizing o with
  | nil => exact ho
  | cons s l ih =>
    refine ih (o := o.bind (·.age s)) ?_
    intro t' ht'
    obtain ⟨t, ht, hage⟩ := Option.bind_eq_some_iff.mp ht'
    have := ho t ht
    rw [age] at hage
    split at hage
    · cases hage
    · obtain rfl := Option.some.inj hage
      rw [tick]
      split
      · simp
      · rw [if_pos (by omega)]; simp; omega

end TimerTask
end Verif
