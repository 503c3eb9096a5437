import Verif.Lemmas.Timer
/-! C42, C43: timers and scheduled tasks. -/
namespace Verif
open Spec (ticks methods due)

/-- C42: whatever happened before, and whatever other timers and tasks are registered since, a timer last registered with timeout
`n` is expired after `k` ticks exactly when `0 < n ≤ k`.  (With `n = 0` it is expired only before the first tick, and with a
negative `n` never.) -/
theorem C42_timer (pre post : List TimerEv) (name : String) (n : Int) (hlast : ∀ v, .registerTimer name v ∉ post) :
    (Timer.run .new (pre ++ .registerTimer name n :: post)).isExpired name = true ↔
      (0 < n ∧ n ≤ (ticks post).length) ∨ (n = 0 ∧ (ticks post).length = 0) := by
  have hok := Timer.ok_step (Timer.ok_run Timer.ok_new pre) (.registerTimer name n)
  have := Timer.get_timer _ hok name post hlast n 0 (by
    rw [Timer.step]; simp only
    rw [Dict.get?_set_self, if_neg (by omega)]; simp)
  rw [Nat.zero_add] at this
  rw [Timer.run, List.foldl_append, List.foldl_cons, Timer.isExpired]
  rw [show List.foldl (fun t e => (Timer.step t e).1) (Timer.step (List.foldl (fun t e => (Timer.step t e).1) Timer.new pre)
    (.registerTimer name n)).1 post = Timer.run (Timer.step (Timer.run .new pre) (.registerTimer name n)).1 post from rfl, this]
  by_cases h : 0 < n ∧ n ≤ (ticks post).length
  · rw [if_pos h]; simp [h]
  · rw [if_neg h]; simp only [decide_eq_true_eq]; omega

/-- C42: a timer never registered is expired. -/
theorem C42_unregistered (evs : List TimerEv) (name : String) (h : ∀ v, .registerTimer name v ∉ evs) :
    (Timer.run .new evs).isExpired name = true := by
  have aux : ∀ (t : Timer), Timer.Ok t → t.timers.get? name = none → (Timer.run t evs).timers.get? name = none := by
    intro t ht hg
    induction evs generalizing t with
    | nil => exact hg
    | cons e es ih =>
      refine ih (fun v hv => h v (by simp [hv])) _ (Timer.ok_step ht e) ?_
      cases e with
      | registerMethod => exact hg
      | registerTimer m v =>
        show (t.timers.set m v).get? name = none
        rw [Dict.get?_set_ne _ _ (by rintro rfl; exact h v (by simp)), hg]
      | tick s => rw [show (Timer.step t (.tick s)).1.timers = Timer.tickTimers t.timers from rfl,
          Timer.get_tickTimers ht.timers, hg]; rfl
  rw [Timer.isExpired, aux _ Timer.ok_new rfl]

/-- C43: take any history and register a method with delay `d`, exponential or not, a repeat count `r` (negative: for ever) and maybe
a stop condition; take any further history.  At the `i+1`-th tick since, the method runs exactly when no stop condition has held
at a tick so far, this one included, and this is the tick due for its run number `j`, for some `j ≤ r` (any `j` if `r < 0`): so it
runs `r+1` times, at ticks `d, 2d, 3d, ...` (`d, 2d, 4d, ...` if exponential), and independently of all other tasks. -/
theorem C43_task (pre post : List TimerEv) (d : Int) (hd : 0 < d) (x : Bool) (r : Int) (hasStop : Bool) (i : Nat) (ran : List Nat)
    (hran : (Timer.trace (Timer.run .new (pre ++ [.registerMethod d x r hasStop])) post)[i]? = some ran) :
    methods pre ∈ ran ↔
      (∀ s ∈ (ticks post).take (i + 1), ¬ (hasStop = true ∧ s (methods pre) = true)) ∧
        ∃ j : Nat, (r < 0 ∨ (j : Int) ≤ r) ∧ ((i + 1 : Nat) : Int) = due d x j := by
  have hok := Timer.ok_run Timer.ok_new (pre ++ [.registerMethod d x r hasStop])
  have hreg := Timer.registered_run .new (pre ++ [.registerMethod d x r hasStop])
  have hm : methods (pre ++ [.registerMethod d x r hasStop]) = methods pre + 1 := by simp [methods]
  rw [hm, show Timer.new.registered = 0 from rfl, Nat.zero_add] at hreg
  have hget : Dict.get? (Timer.run .new (pre ++ [.registerMethod d x r hasStop])).tasks (methods pre) =
      some (.new d x r hasStop) := by
    have h1 := Timer.ok_run Timer.ok_new pre
    have h2 : (Timer.run .new pre).registered = methods pre := by
      rw [Timer.registered_run, show Timer.new.registered = 0 from rfl, Nat.zero_add]
    have h3 : Dict.get? (Timer.run .new pre).tasks (methods pre) = none := by
      rw [Dict.get?_eq_none_iff]
      intro h
      have := h1.ids _ h
      omega
    have h4 : (Timer.run .new (pre ++ [.registerMethod d x r hasStop])).tasks =
        (Timer.run .new pre).tasks ++ [((Timer.run .new pre).registered, .new d x r hasStop)] := by
      simp [Timer.run, Timer.step]
    rw [h4, Dict.get?_append, h3, h2, Dict.get?_cons]; simp
  rw [Timer.trace_mem _ hok post i (methods pre) (by omega) ran hran, hget]
  have hlen : i < (ticks post).length := by
    have aux : ∀ (l : List TimerEv) (t : Timer), (Timer.trace t l).length = (ticks l).length := by
      intro l
      induction l with
      | nil => intro t; rfl
      | cons e l ih =>
        intro t
        cases e with
        | registerMethod =>
          rw [Timer.trace]
          · exact ih _
          · intro s hs; cases hs
        | registerTimer =>
          rw [Timer.trace]
          · exact ih _
          · intro s hs; cases hs
        | tick s => rw [Timer.trace, List.length_cons, ih]; rfl
    rw [← aux post (Timer.run .new (pre ++ [.registerMethod d x r hasStop]))]
    exact (List.getElem?_eq_some_iff.mp hran).1
  obtain ⟨s, hs⟩ : ∃ s, (ticks post)[i]? = some s := ⟨_, List.getElem?_eq_getElem hlen⟩
  have htake : (ticks post).take (i + 1) = (ticks post).take i ++ [s] := by rw [List.take_add_one, hs]; rfl
  rw [htake, hs]
  by_cases hst : ∀ s ∈ (ticks post).take i, ¬ (hasStop = true ∧ s (methods pre) = true)
  · have hw := TimerTask.life_where hd x r hasStop (((ticks post).take i).map (· (methods pre))) 0 _
      (TimerTask.where_new hd x r hasStop) (by
        intro b hb
        obtain ⟨s, h1, rfl⟩ := List.mem_map.mp hb
        have := hst s h1
        cases hasStop <;> simp_all)
    rw [List.length_map, List.length_take, Nat.min_eq_left (by omega), Nat.zero_add] at hw
    cases hl : TimerTask.life (some (.new d x r hasStop)) (((ticks post).take i).map (· (methods pre))) with
    | none =>
      rw [hl] at hw
      have := (TimerTask.where_none hd x r hasStop i hw).2
      constructor
      · rintro ⟨s, task, -, h, -⟩; cases h
      · rintro ⟨-, h⟩; exact absurd h this
    | some task =>
      rw [hl] at hw
      constructor
      · rintro ⟨s', task', h1, h2, h3⟩
        obtain rfl := Option.some.inj h1
        obtain rfl := Option.some.inj h2
        have hns : (hasStop && s (methods pre)) = false := by
          rcases hw with ⟨j, -, -, -, h⟩ | ⟨-, -, h⟩
          · obtain rfl := Option.some.inj h
            cases hc : (hasStop && s (methods pre))
            · rfl
            · rw [TimerTask.tick] at h3
              simp [hc] at h3
          · cases h
        refine ⟨?_, (TimerTask.where_tick hd x r hasStop i task _ hns hw).2.mp h3⟩
        intro s' hs'
        rcases List.mem_append.mp hs' with hs' | hs'
        · exact hst s' hs'
        · rw [List.mem_singleton] at hs'
          subst hs'
          rw [← Bool.and_eq_true, hns]; simp
      · rintro ⟨h1, h2⟩
        have := h1 s (by simp)
        rw [← Bool.and_eq_true, Bool.not_eq_true] at this
        exact ⟨s, task, rfl, rfl, (TimerTask.where_tick hd x r hasStop i task _ this hw).2.mpr h2⟩
  · have hex : ∃ b ∈ ((ticks post).take i).map (· (methods pre)), (hasStop && b) = true := by
      rw [not_forall] at hst
      obtain ⟨s, hs⟩ := hst
      rw [Classical.not_imp, Classical.not_not] at hs
      exact ⟨s (methods pre), List.mem_map.mpr ⟨s, hs.1, rfl⟩, by rw [Bool.and_eq_true]; exact hs.2⟩
    have := TimerTask.life_stopped hasStop _ (some (.new d x r hasStop)) (by intro t ht; obtain rfl := Option.some.inj ht; rfl) hex
    constructor
    · rintro ⟨_, _, -, h, -⟩; rw [this] at h; cases h
    · rintro ⟨h, -⟩; exact absurd (fun s hs => h s (by simp [hs])) hst

/-- C43: a method registered with a delay that is not positive never runs. -/
theorem C43_nonpositive (pre post : List TimerEv) (d : Int) (hd : d ≤ 0) (x : Bool) (r : Int) (hasStop : Bool) (i : Nat) (ran : List Nat)
    (hran : (Timer.trace (Timer.run .new (pre ++ [.registerMethod d x r hasStop])) post)[i]? = some ran) :
    methods pre ∉ ran := by
  have hok := Timer.ok_run Timer.ok_new (pre ++ [.registerMethod d x r hasStop])
  have hreg := Timer.registered_run .new (pre ++ [.registerMethod d x r hasStop])
  have hm : methods (pre ++ [.registerMethod d x r hasStop]) = methods pre + 1 := by simp [methods]
  rw [hm, show Timer.new.registered = 0 from rfl, Nat.zero_add] at hreg
  rw [Timer.trace_mem _ hok post i (methods pre) (by omega) ran hran]
  rintro ⟨s, task, -, h1, h2⟩
  have h0 : ∀ t, Dict.get? (Timer.run .new (pre ++ [.registerMethod d x r hasStop])).tasks (methods pre) = some t →
      t.remaining ≤ 0 := by
    intro t ht
    have h1 := Timer.ok_run Timer.ok_new pre
    have h2 : (Timer.run .new pre).registered = methods pre := by
      rw [Timer.registered_run, show Timer.new.registered = 0 from rfl, Nat.zero_add]
    have h3 : Dict.get? (Timer.run .new pre).tasks (methods pre) = none := by
      rw [Dict.get?_eq_none_iff]
      intro h
      have := h1.ids _ h
      omega
    have h4 : (Timer.run .new (pre ++ [.registerMethod d x r hasStop])).tasks =
        (Timer.run .new pre).tasks ++ [((Timer.run .new pre).registered, .new d x r hasStop)] := by
      simp [Timer.run, Timer.step]
    rw [h4, Dict.get?_append, h3, h2, Dict.get?_cons] at ht
    simp at ht
    rw [← ht]
    exact hd
  have := TimerTask.life_nonpos h0 _ task h1
  rw [TimerTask.tick] at h2
  split at h2
  · simp at h2
  · rw [if_pos (by omega)] at h2; simp at h2

namespace Example

/-- Two timers and ticks, one timer registered anew. -/
example : let evs : List TimerEv := [.registerTimer "a" 2, .tick (fun _ => false), .registerTimer "b" 1, .registerTimer "a" 2,
      .tick (fun _ => false)]
    (Timer.run .new evs).isExpired "a" = false ∧ (Timer.run .new evs).isExpired "b" = true ∧
      (Timer.run .new (evs ++ [.tick (fun _ => false)])).isExpired "a" = true := by decide +kernel

/-- Among 12 ticks: delay 2 repeated twice; delay 1 exponential; delay 3 stopped at the seventh tick. -/
example : Timer.trace (Timer.run .new [.registerMethod 2 false 2 false, .registerMethod 1 true (-1) false,
      .registerMethod 3 false (-1) true])
    ((List.range 12).map (fun n => .tick (fun _ => decide (n ≥ 6)))) =
    [[1], [0, 1], [2], [0, 1], [], [0, 2], [], [1], [], [], [], []] := by decide +kernel

end Example
end Verif
