import Verif.Lemmas.TimerThread
import Verif.Spec.Session
/-!
C97: the timer when threads are switched at any moment.

Between any two steps of the timer thread other threads may do any number of steps of `register_timer` and `register_method`
(`Model/TimerThread.lean`).
-/
namespace Verif
open Spec Tick

/-- C97: a timer that is registered with `n` milliseconds, and not again, is not expired before the `n`-th round of the timer thread and is
expired after `n + 1` rounds, whatever else is registered when.  Partial: the dict has not been replaced since the call has read it, and the thread
is not just writing this timer or removing timers. -/
theorem C97_timer_partial (pre post : List Step) {k : Nat} {name : String} {n : Int} (hn : 0 < n) :
    let s := St.run {} pre
    let t := s.run (.timerStore k :: post)
    s.pending[k]? = some (s.gen, name, n) → (∀ p ∈ s.pending.eraseIdx k, p.2.1 ≠ name) → (∀ e ∈ post, ¬ Mentions name e) → ¬ Overwrites s name →
      (t.isExpired name = true → n ≤ t.rounds - s.rounds + 1) ∧ (n + 1 ≤ t.rounds - s.rounds → t.isExpired name = true) := by
  intro s t hk hu hpost ho
  have hw : Wf s := wf_run wf_new pre
  have hstep : s.step (.timerStore k) = { s with pending := s.pending.eraseIdx k, timers := s.timers.set name n } := by
    simp [St.step, hk]
  have hg : (Dict.set s.timers name n).get? name = some n := Dict.get?_set_self _ _ _
  have h0 : Runs name n 0 (s.step (.timerStore k)) := by
    rw [hstep]
    have fr : Fresh name n 0 (Dict.set s.timers name n) := .inr ⟨n, hg, hn, by omega, by omega⟩
    have dn : Done name n 0 (Dict.set s.timers name n) := .inr ⟨n, hg, by omega, by omega, by omega⟩
    have sw : Swept name n 0 (Dict.set s.timers name n) := .inr ⟨n, hg, by omega, by omega, by omega⟩
    unfold Overwrites at ho
    unfold Runs
    dsimp only
    cases hp : s.pos <;> rw [hp] at ho <;> dsimp only at ho ⊢
    · exact fr
    · exact ⟨fun _ => fr, fun _ => dn⟩
    · exact ⟨fun y => absurd y ho, fun _ => ⟨fun _ => fr, fun _ => dn⟩⟩
    · exact absurd trivial ho
    · exact absurd trivial ho
    · exact sw
    · exact sw
    · exact sw
    · exact fr.left
  have hu' : Unasked name (s.step (.timerStore k)) := by rw [hstep]; exact hu
  obtain ⟨c, h1, h2⟩ := runs_run (r0 := s.rounds) (c := 0) (wf_step hw _) (by rw [hstep]; rfl) h0 hu' hpost
  have ht : t.rounds = s.rounds + c := h1
  have hl := h2.left
  have he : t.isExpired name = (match Dict.get? t.timers name with | none => true | some v => decide (v = 0)) := rfl
  rw [show ((s.step (.timerStore k)).run post).timers = t.timers from rfl] at hl
  rcases hl with ⟨a, b⟩ | ⟨v, a, b, e, f⟩
  · refine ⟨fun _ => by omega, fun _ => by rw [he, a]⟩
  · rw [a] at he
    dsimp only at he
    refine ⟨fun y => ?_, fun y => ?_⟩
    · rw [he, decide_eq_true_eq] at y; omega
    · rw [he, decide_eq_true_eq]; omega

/-- C97: a method that is registered runs in each round it is due in, once, and in no other, counted from the present round (the next one, if the
thread has ticked its tasks already); so a TCP session's is run in every round.  Partial: the list of tasks has not been replaced since the
call has read it, and the thread is not just about to replace it. -/
theorem C97_task_partial (pre post : List Step) {k id : Nat} {d : Int} (hd : 0 < d) {x : Bool} {r : Int} :
    let s := St.run {} pre
    let t := s.run (.taskStore k :: post)
    s.pendingTasks[k]? = some (s.taskGen, id, .new d x r false) → ¬ Replaces s →
      ∀ q < t.rounds, t.ran.count (q, id) ≤ 1 ∧
        ((q, id) ∈ t.ran ↔ firstRound s ≤ q ∧ ∃ j : Nat, (r < 0 ∨ (j : Int) ≤ r) ∧ (q : Int) + 1 - firstRound s = due d x j) := by
  intro s t hk ho q hq
  have hw : WfTasks s := wfTasks_run wfTasks_new pre
  have hpast : Past s := past_run wfTasks_new (by intro e he; cases he) pre
  have hmem : id ∈ s.pendingTasks.map (·.2.1) := List.mem_map.2 ⟨_, List.mem_of_getElem? hk, rfl⟩
  have hstep : s.step (.taskStore k) = { s with pendingTasks := s.pendingTasks.eraseIdx k, tasks := s.tasks ++ [(id, .new d x r false)] } := by
    simp [St.step, hk]
  have hkn : Known id (s.step (.taskStore k)) := by
    rw [hstep]
    refine ⟨hw.lt _ (List.mem_append_right _ hmem), ?_⟩
    have := ((perm_eraseIdx hk).map (·.2.1)).nodup_iff.2 (List.nodup_append.1 hw.ids).2.1
    exact (List.nodup_cons.1 this).1
  have hnot : id ∉ s.tasks.map (·.1) := fun y => (List.nodup_append.1 hw.ids).2.2 _ y _ hmem rfl
  have hget : Dict.get? (s.tasks ++ [(id, TimerTask.new d x r false)]) id = some (.new d x r false) := by
    rw [Dict.get?_append, (Dict.get?_eq_none_iff _ _).2 hnot, Option.none_or, Dict.get?_cons, if_pos rfl]
  have hran : ∀ r0, Ran d x r id r0 0 (s.step (.taskStore k)) := by
    intro r0 q
    right
    refine ⟨?_, by omega⟩
    rw [hstep]
    refine List.count_eq_zero.2 fun y => ?_
    exact (hpast _ y).pending hmem
  have hwn := TimerTask.where_new hd x r false
  have hrem : (TimerTask.new d x r false).remaining ≠ 0 := by show d ≠ 0; omega
  have h0 : Lives d x r id (firstRound s) (s.step (.taskStore k)) := by
    have hr := hran (firstRound s)
    have hf := hw.fits
    rw [hstep] at hr ⊢
    unfold Replaces at ho
    unfold firstRound at hr ⊢
    unfold FitsTasks at hf
    unfold Lives
    dsimp only
    rw [hget]
    cases hp : s.pos <;> rw [hp] at ho hr hf <;> dsimp only at ho hr hf ⊢
    case tick i =>
      rw [if_neg]
      · exact ⟨0, rfl, hwn, hr⟩
      · rw [List.take_append_of_le_length hf]
        exact fun y => hnot (((List.take_sublist _ _).map _).subset y)
    case keep i acc =>
      refine ⟨0, rfl, ?_, hr⟩
      rw [Option.bind_some, if_neg hrem]; exact hwn
    case storeTasks => exact absurd trivial ho
    case dead => exact ⟨0, .inl rfl, hr⟩
    all_goals exact ⟨0, rfl, hwn, hr⟩
  obtain ⟨m, h1, h2⟩ := (lives_run hd (wfTasks_step hw _) hkn h0 post).ran
  have h1' : t.rounds = firstRound s + m ∨ t.rounds + 1 = firstRound s + m := h1
  have h2' : Ran d x r id (firstRound s) m t := h2
  have hdue : firstRound s ≤ q → (IsDue d x r (q + 1 - firstRound s) ↔ ∃ j : Nat, (r < 0 ∨ (j : Int) ≤ r) ∧ (q : Int) + 1 - firstRound s = due d x j) := by
    intro hle
    unfold IsDue
    rw [show ((q + 1 - firstRound s : Nat) : Int) = (q : Int) + 1 - firstRound s by omega]
  rcases h2' q with ⟨a, b, c, e⟩ | ⟨a, b⟩
  · refine ⟨by omega, ⟨fun _ => ⟨b, (hdue b).1 e⟩, fun _ => ?_⟩⟩
    exact List.count_pos_iff.1 (by omega)
  · refine ⟨by omega, ⟨fun y => ?_, fun y => ?_⟩⟩
    · have := List.count_pos_iff.2 y; omega
    · have hlt : q < firstRound s + m := by clear y b; omega
      exact absurd ⟨y.1, hlt, (hdue y.1).2 y.2⟩ b

/-- C97: the timer thread goes on, unless a method raises or a timer under a new name is stored while the thread goes through the timers. -/
theorem C97_alive_partial (h : List Step) (hh : ∀ h₁ e h₂, h = h₁ ++ e :: h₂ → ¬ Disturbs (St.run {} h₁) e ∧ ¬ Fails (St.run {} h₁) e) :
    (St.run {} h).pos ≠ .dead := by
  have := steady_run wf_new (by trivial : Steady {}) hh
  intro y
  unfold Steady at this
  rw [y] at this
  exact this

/-- C97 is false without its hypothesis: when a timer under a new name is stored while the thread goes through the timers, the thread ends: no
round is completed any more and no method runs, for ever, whatever happens. -/
theorem C97_dies (pre post : List Step) (e : Step) (h : Disturbs (St.run {} pre) e) :
    (St.run {} (pre ++ e :: post)).rounds = (St.run {} pre).rounds ∧ (St.run {} (pre ++ e :: post)).ran = (St.run {} pre).ran := by
  have hw : Wf (St.run {} pre) := wf_run wf_new pre
  rw [run_append]
  show ((_ : St).run post).rounds = _ ∧ _
  by_cases hsteady : Steady (St.run {} pre)
  · obtain ⟨hc, k, n, v, rfl, hk, hnew⟩ := h
    have hstep : (St.run {} pre).step (.timerStore k) = { St.run {} pre with pending := (St.run {} pre).pending.eraseIdx k, timers := (St.run {} pre).timers.set n v } := by
      simp [St.step, hk]
    have hg : Grown ((St.run {} pre).step (.timerStore k)) := by
      rw [hstep]
      unfold Grown
      unfold Steady Counting at *
      have hl := length_set (St.run {} pre).timers n v
      rw [if_pos hnew] at hl
      dsimp only
      cases hp : (St.run {} pre).pos <;> rw [hp] at hc hsteady <;> dsimp only at hc hsteady ⊢ <;> first | exact hc.elim | omega
    have := grown_run (wf_step hw _) hg post
    rw [hstep] at this
    rw [show (St.run {} pre).run (.timerStore k :: post) = ((St.run {} pre).step (.timerStore k)).run post from rfl, hstep]
    exact this
  · obtain ⟨hc, k, n, v, rfl, hk, hnew⟩ := h
    have hg : Grown (St.run {} pre) := by
      have hle : Grown (St.run {} pre) ∨ Steady (St.run {} pre) := by
        refine List.reverseRecOn pre (.inr trivial) ?_
        intro l a ih
        have hw : Wf (St.run {} l) := wf_run wf_new l
        rw [run_append]
        show Grown ((St.run {} l).step a) ∨ Steady ((St.run {} l).step a)
        rcases ih with ih | ih
        · exact .inl (grown_step hw ih a).1
        · by_cases h1 : Disturbs (St.run {} l) a
          · obtain ⟨hc, k, n, v, rfl, hk, hnew⟩ := h1
            left
            have hl := length_set (St.run {} l).timers n v
            rw [if_pos hnew] at hl
            simp only [St.step, hk, if_true]
            unfold Grown
            unfold Steady Counting at *
            dsimp only
            cases hp : (St.run {} l).pos <;> rw [hp] at hc ih <;> dsimp only at hc ih ⊢ <;> first | exact hc.elim | omega
          · by_cases h2 : Fails (St.run {} l) a
            · obtain ⟨i, id, t, d, a1, a2, rfl, a4, a5⟩ := h2
              left
              show Grown ((St.run {} l).thread d)
              unfold Grown St.thread
              rw [a1]
              dsimp only
              rw [a2]
              dsimp only
              rw [if_pos a4, a5]
              trivial
            · exact .inr (steady_step hw ih a h1 h2)
      exact hle.resolve_right hsteady
    exact grown_run hw hg (.timerStore k :: post)

/-- C97: and so it does when a method raises, for instance that of one TCP session (C58_raises): no method of any other runs again. -/
theorem C97_raises (pre post : List Step) (e : Step) (h : Fails (St.run {} pre) e) :
    (St.run {} (pre ++ e :: post)).rounds = (St.run {} pre).rounds ∧ (St.run {} (pre ++ e :: post)).ran = (St.run {} (pre ++ [e])).ran := by
  obtain ⟨i, id, t, d, a1, a2, rfl, a4, a5⟩ := h
  have hd : ((St.run {} pre).step (.thread d)).pos = .dead ∧ ((St.run {} pre).step (.thread d)).rounds = (St.run {} pre).rounds := by
    show ((St.run {} pre).thread d).pos = _ ∧ ((St.run {} pre).thread d).rounds = _
    unfold St.thread
    rw [a1]
    dsimp only
    rw [a2]
    dsimp only
    rw [if_pos a4, a5]
    exact ⟨rfl, rfl⟩
  obtain ⟨-, b, c⟩ := dead_run hd.1 post
  rw [run_append, run_append]
  exact ⟨b.trans hd.2, c⟩

/-- C97 is false without its hypothesis: a method whose registration comes between the thread's making a new list of tasks and storing it, or whose
call has read a list that has been replaced since, never runs, whatever happens. -/
theorem C97_lost (pre post : List Step) {k g id : Nat} {task : TimerTask} :
    let s := St.run {} pre
    s.pendingTasks[k]? = some (g, id, task) → g ≠ s.taskGen ∨ Replaces s → ∀ q, (q, id) ∉ (s.run (.taskStore k :: post)).ran := by
  intro s hk ho q
  have hw : WfTasks s := wfTasks_run wfTasks_new pre
  have hpast : Past s := past_run wfTasks_new (by intro e he; cases he) pre
  have hmem : id ∈ s.pendingTasks.map (·.2.1) := List.mem_map.2 ⟨_, List.mem_of_getElem? hk, rfl⟩
  have hstep : s.step (.taskStore k) = { s with pendingTasks := s.pendingTasks.eraseIdx k, tasks := if g = s.taskGen then s.tasks ++ [(id, task)] else s.tasks } := by
    simp [St.step, hk]
  have hkn : Known id (s.step (.taskStore k)) := by
    rw [hstep]
    refine ⟨hw.lt _ (List.mem_append_right _ hmem), ?_⟩
    have := ((perm_eraseIdx hk).map (·.2.1)).nodup_iff.2 (List.nodup_append.1 hw.ids).2.1
    exact (List.nodup_cons.1 this).1
  have hnot : id ∉ s.tasks.map (·.1) := fun y => (List.nodup_append.1 hw.ids).2.2 _ y _ hmem rfl
  have hg : Gone id (s.step (.taskStore k)) := by
    rw [hstep]
    refine ⟨fun q y => (hpast _ y).pending hmem, ?_⟩
    dsimp only
    have hf := hw.fits
    unfold FitsTasks at hf
    unfold Replaces at ho
    cases hp : s.pos
    case storeTasks acc =>
      rw [hp] at hf
      obtain ⟨i, rfl⟩ := hf
      exact fun y => hnot (((lasting_sublist _ _).map _).subset y)
    all_goals
      rw [hp] at ho
      dsimp only at ho ⊢
      rw [if_neg (ho.resolve_right not_false)]
      exact hnot
  exact (gone_run (wfTasks_step hw _) hkn hg post).1 q

/-- C97 is false without its hypothesis: a timer registered with 1000 ms between the thread's making a new dict and storing it is expired at
once. -/
theorem C97_lost_timer : ∃ h : List Step,
    let s := St.run {} (.timerLoad "delayed_ack" 1000 :: h)
    s.pending = [(s.gen, "delayed_ack", 1000)] ∧ s.pos ≠ .dead ∧
      let t := s.run [.timerStore 0, .thread {}]
      t.pos ≠ .dead ∧ t.rounds = 0 ∧ t.isExpired "delayed_ack" = true :=
  ⟨[.thread {}, .thread {}, .thread {}], by decide +kernel⟩

/-- What it means for TCP that a session's timer method is never run: nothing is ever sent by the session, not even the SYN, and unless something
arrives the application's call of `connect` never returns. -/
theorem C97_silent (iss : Nat) (lip : IpAddress) (lport : Nat) (rip : IpAddress) (rport : Nat) {evs : List Sess.Ev}
    (h : ∀ e ∈ evs, e ≠ .timer ∧ ∀ m, e ≠ .segment m) :
    sent ((Sess.opened true iss lip lport rip rport).run evs).out = [] ∧ outcomes ((Sess.opened true iss lip lport rip rport).run evs).out = [] := by
  have key : ∀ (s : Sess), (s.state = .synSent ∨ s.state = .closed) ∧ s.evConnect = 0 ∧ s.evRx = 0 ∧ s.readers = 0 ∧ sent s.out = [] ∧ outcomes s.out = [] →
      sent (s.run evs).out = [] ∧ outcomes (s.run evs).out = [] := by
    induction evs with
    | nil => exact fun s h => h.2.2.2.2
    | cons e evs ih =>
      intro s hs
      refine ih (fun e he => h e (List.mem_cons_of_mem _ he)) (s.step e) ?_
      obtain ⟨h1, h2, h3, h4, h5, h6⟩ := hs
      have silent : ∀ o : List Out, sent o = [] → outcomes o = [] → sent (s.out ++ o) = [] ∧ outcomes (s.out ++ o) = [] := by
        intro o a b
        unfold sent outcomes at *
        rw [List.filterMap_append, List.filterMap_append, h5, h6, a, b]
        exact ⟨rfl, rfl⟩
      have hne : ¬ (s.state = .established ∨ s.state = .closeWait) := by rcases h1 with h1 | h1 <;> simp [h1]
      cases e with
      | segment m => exact absurd rfl ((h _ List.mem_cons_self).2 m)
      | timer => exact absurd rfl (h _ List.mem_cons_self).1
      | close =>
        show ((s.fsm (.sys .close)).done.state = _ ∨ _) ∧ _
        rcases h1 with h1 | h1
        · by_cases hr : s.registered
          · have hx : (s.fsm (.sys .close)).done = { s with state := .closed, registered := false, out := s.out ++ [.moved .synSent .closed] ++ [.unregistered] } := by
              simp [Sess.fsm, Sess.fsmFuel, Sess.fsmWith, Sess.fsmSynSent, Sess.changeState, Sess.Res.done, Sess.ok, h1, hr]
            show _ ∧ _
            rw [show s.step .close = _ from hx]
            rw [hx]
            refine ⟨.inr rfl, h2, h3, h4, ?_⟩
            dsimp only
            rw [List.append_assoc]
            exact silent _ rfl rfl
          · have hx : (s.fsm (.sys .close)).done = { s with state := .closed, out := s.out ++ [.moved .synSent .closed] ++ [.raised .keyError] } := by
              simp [Sess.fsm, Sess.fsmFuel, Sess.fsmWith, Sess.fsmSynSent, Sess.changeState, Sess.Res.done, Sess.ok, Sess.emit, h1, hr]
            rw [show s.step .close = _ from hx]
            rw [hx]
            refine ⟨.inr rfl, h2, h3, h4, ?_⟩
            dsimp only
            rw [List.append_assoc]
            exact silent _ rfl rfl
        · have hx : (s.fsm (.sys .close)).done = s := by
            simp [Sess.fsm, Sess.fsmFuel, Sess.fsmWith, Sess.fsmClosed, Sess.Res.done, Sess.ok, h1]
          rw [show s.step .close = _ from hx, hx]
          exact ⟨.inr h1, h2, h3, h4, h5, h6⟩
      | send d =>
        have hx : s.step (.send d) = s.emit .rejected := by simp only [Sess.step, Sess.send, if_neg hne]
        rw [hx]
        exact ⟨h1, h2, h3, h4, silent _ rfl rfl⟩
      | recvAcquire =>
        have hx : s.step .recvAcquire = s := by simp only [Sess.step, Sess.recvAcquire, if_pos h3]
        rw [hx]
        exact ⟨h1, h2, h3, h4, h5, h6⟩
      | recvTake n =>
        have hx : s.step (.recvTake n) = s := by simp only [Sess.step, Sess.recvTake, if_pos h4]
        rw [hx]
        exact ⟨h1, h2, h3, h4, h5, h6⟩
      | connectReturn =>
        have hx : s.step .connectReturn = s := by simp only [Sess.step, Sess.connectReturn, if_pos h2]
        rw [hx]
        exact ⟨h1, h2, h3, h4, h5, h6⟩
      | clock => exact ⟨h1, h2, h3, h4, h5, h6⟩
      | table b => exact ⟨h1, h2, h3, h4, h5, h6⟩
  exact key _ ⟨.inl rfl, rfl, rfl, rfl, rfl, rfl⟩

namespace Example.TimerThread

/-- Two timers and a task; a round in the middle of which a timer is registered again and another task comes. -/
def pre : List Step :=
  [.timerLoad "a" 3, .timerStore 0, .timerLoad "b" 1, .timerStore 0, .taskLoad 1 false (-1) false, .taskStore 0,
   .thread {}, .thread {}, .thread {}, .timerLoad "b" 2, .taskLoad 1 false (-1) false]

/-- The rest of that round and three more. -/
def post : List Step := List.replicate 46 (.thread {})

/-- The hypotheses of C97_timer_partial are met, in the middle of a round. -/
example : let s := St.run {} pre
    s.pending[0]? = some (s.gen, "b", 2) ∧ (∀ p ∈ s.pending.eraseIdx 0, p.2.1 ≠ "b") ∧ s.pos = .count ["b"] 2 ∧ s.timers = [("a", 2), ("b", 1)] := by
  decide +kernel

example : (∀ e ∈ post, ¬ Mentions "b" e) ∧ ¬ Overwrites (St.run {} pre) "b" := by
  refine ⟨fun e he => ?_, ?_⟩
  · rw [post, List.mem_replicate] at he
    rw [he.2]
    simp [Mentions]
  · have : (St.run {} pre).pos = .count ["b"] 2 := by decide +kernel
    unfold Overwrites
    rw [this]
    exact id

/-- The hypotheses of C97_task_partial are met, too; what happens. -/
example : let s := St.run {} pre
    s.pendingTasks[0]? = some (s.taskGen, 1, .new 1 false (-1) false) ∧
      let t := s.run (.taskStore 0 :: .timerStore 0 :: post)
      t.rounds = 3 ∧ t.ran = [(0, 0), (0, 1), (1, 0), (1, 1), (2, 0), (2, 1)] ∧ t.isExpired "a" = true ∧ t.isExpired "b" = true := by
  decide +kernel

/-- C97_alive_partial: the hypothesis is met. -/
example : ∀ h₁ e h₂, post = h₁ ++ e :: h₂ → ¬ Disturbs (St.run {} h₁) e ∧ ¬ Fails (St.run {} h₁) e := by
  intro h₁ e h₂ heq
  have he : e ∈ post := by rw [heq]; simp
  rw [post, List.mem_replicate] at he
  refine ⟨?_, ?_⟩
  · rintro ⟨_, k, n, v, x, _⟩; rw [he.2] at x; cases x
  · rintro ⟨i, id, t, d, _, _, x, _, y⟩
    rw [he.2] at x
    obtain rfl := Step.thread.inj x
    cases y

/-- C97_dies: the hypothesis is met when "c" is stored at that moment. -/
example : Disturbs (St.run {} (pre ++ [.timerLoad "c" 5])) (.timerStore 1) := by
  have hp : (St.run {} (pre ++ [.timerLoad "c" 5])).pos = .count ["b"] 2 := by decide +kernel
  refine ⟨by unfold Counting; rw [hp]; trivial, 1, "c", 5, rfl, by decide +kernel, by decide +kernel⟩

/-- C97_lost: the hypothesis is met at the end of a round. -/
example : let s := St.run {} [.taskLoad 1 false (-1) false, .thread {}, .thread {}, .thread {}, .thread {}, .thread {}, .thread {}]
    s.pendingTasks[0]? = some (s.taskGen, 0, .new 1 false (-1) false) ∧ s.pos = .storeTasks [] ∧ s.rounds = 0 := by
  decide +kernel

/-- C97_raises: the hypothesis is met. -/
example : Fails (St.run {} [.taskLoad 1 false (-1) false, .taskStore 0, .thread {}, .thread {}, .thread {}, .thread {}]) (.thread { raises := true }) :=
  ⟨0, 0, .new 1 false (-1) false, { raises := true }, by decide +kernel, by decide +kernel, rfl, by decide +kernel, rfl⟩

/-- C97_silent. -/
example : ∀ e ∈ [Sess.Ev.clock, .send [1], .clock, .close, .connectReturn], e ≠ .timer ∧ ∀ m, e ≠ .segment m := by
  intro e he
  simp only [List.mem_cons, List.not_mem_nil, or_false] at he
  rcases he with h | h | h | h | h <;> subst h <;> exact ⟨by simp, by simp⟩

end Example.TimerThread

end Verif
