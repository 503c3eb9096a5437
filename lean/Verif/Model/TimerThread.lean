import Verif.Model.Timer
/-!
The stack timer (`/repo/pytcp/subsystems/timer.py`) with thread switches at any moment: the timer thread makes its rounds in steps, none of which
touches `_timers` or `_tasks` more than once, and between any two of them other threads may make steps of `register_timer` and
`register_method`.  Neither is guarded by a lock.  Simplification: what a method does is given by what it registers and whether it raises.
-/
namespace Verif.Tick

/-- Where the timer thread is. -/
inductive Pos where
  /-- timer.py:149-150: about to begin a round -/
  | sleep
  /-- timer.py:153: about to ask for the next name; the names to come, and the size of the dict when the loop began -/
  | count (todo : List String) (used : Nat)
  /-- timer.py:154: has read the value of a timer, and is about to write one less -/
  | write (name : String) (v : Int) (todo : List String) (used : Nat)
  /-- timer.py:157: building the new dict; the names to come, the pairs so far -/
  | sweep (todo : List String) (used : Nat) (acc : Dict String Int)
  /-- timer.py:157: about to store the new dict -/
  | store (acc : Dict String Int)
  /-- timer.py:160-161: about to take the task at this place of the list -/
  | tick (i : Nat)
  /-- timer.py:164: building the new list; the place of the next task, the tasks so far -/
  | keep (i : Nat) (acc : List (Nat × TimerTask))
  /-- timer.py:164: about to store the new list -/
  | storeTasks (acc : List (Nat × TimerTask))
  /-- an exception has ended the thread -/
  | dead
  deriving DecidableEq

/-- The timer, its thread, and the calls under way in other threads. -/
structure St where
  timers : Dict String Int := []
  /-- the tasks, with the number of their registration -/
  tasks : List (Nat × TimerTask) := []
  pos : Pos := .sleep
  /-- rounds completed -/
  rounds : Nat := 0
  /-- the methods that ran: the number of the round, the number of the task -/
  ran : List (Nat × Nat) := []
  /-- which dict `_timers` refers to: how often it was stored -/
  gen : Nat := 0
  /-- the same for `_tasks` -/
  taskGen : Nat := 0
  registered : Nat := 0
  /-- calls of `register_timer` that have read `self._timers` (timer.py:197), with the dict they got -/
  pending : List (Nat × String × Int) := []
  /-- calls of `register_method` that have read `self._tasks` (timer.py:181) -/
  pendingTasks : List (Nat × Nat × TimerTask) := []

/-- What a task does at its tick: the value of its stop condition, the timers its method registers, and whether it raises. -/
structure Does where
  stop : Bool := false
  regs : List (String × Int) := []
  raises : Bool := false
  deriving DecidableEq

/-- A step of a thread. -/
inductive Step where
  /-- the timer thread -/
  | thread (d : Does)
  /-- timer.py:197, `self._timers` is read -/
  | timerLoad (name : String) (v : Int)
  /-- timer.py:197, the item is set, by the k-th call under way -/
  | timerStore (k : Nat)
  /-- timer.py:181, `self._tasks.append` is read, and the task made (timer.py:182-191) -/
  | taskLoad (delay : Int) (delayExp : Bool) (repeatCount : Int) (hasStop : Bool)
  /-- timer.py:181, the task is appended, by the k-th call under way -/
  | taskStore (k : Nat)
  deriving DecidableEq

namespace St

/-- The timer thread's next step, timer.py:149-164.  A dict that has changed its size since the loop began raises RuntimeError (Python's
iterators check that); a list that has grown is gone through to its new end. -/
def thread (s : St) (d : Does) : St :=
  match s.pos with
  | .sleep => { s with pos := .count s.timers.keys s.timers.length }
  | .count todo used =>
    if s.timers.length ≠ used then { s with pos := .dead }
    else match todo with
      | [] => { s with pos := .sweep s.timers.keys s.timers.length [] }
      | n :: todo =>
        match s.timers.get? n with
        | none => { s with pos := .dead }
        | some v => { s with pos := .write n v todo used }
  | .write n v todo used => { s with timers := s.timers.set n (v - 1), pos := .count todo used }
  | .sweep todo used acc =>
    if s.timers.length ≠ used then { s with pos := .dead }
    else match todo with
      | [] => { s with pos := .store acc }
      | n :: todo =>
        match s.timers.get? n with
        | none => { s with pos := .dead }
        | some v => { s with pos := .sweep todo used (if v ≠ 0 then acc ++ [(n, v)] else acc) }
  | .store acc => { s with timers := acc, gen := s.gen + 1, pos := .tick 0 }
  | .tick i =>
    match s.tasks[i]? with
    | none => { s with pos := .keep 0 [] }
    | some (id, t) =>
      let r := t.tick d.stop
      if r.2 then
        { s with
          tasks := s.tasks.set i (id, r.1)
          ran := s.ran ++ [(s.rounds, id)]
          timers := d.regs.foldl (fun t e => t.set e.1 e.2) s.timers
          pos := if d.raises then .dead else .tick (i + 1) }
      else { s with tasks := s.tasks.set i (id, r.1), pos := .tick (i + 1) }
  | .keep i acc =>
    match s.tasks[i]? with
    | none => { s with pos := .storeTasks acc }
    | some e => { s with pos := .keep (i + 1) (if e.2.remaining ≠ 0 then acc ++ [e] else acc) }
  | .storeTasks acc => { s with tasks := acc, taskGen := s.taskGen + 1, rounds := s.rounds + 1, pos := .sleep }
  | .dead => s

/-- A step of any thread.  What is put into a dict or list that has been replaced is lost. -/
def step (s : St) : Step → St
  | .thread d => s.thread d
  | .timerLoad n v => { s with pending := s.pending ++ [(s.gen, n, v)] }
  | .timerStore k =>
    match s.pending[k]? with
    | none => s
    | some (g, n, v) =>
      { s with pending := s.pending.eraseIdx k, timers := if g = s.gen then s.timers.set n v else s.timers }
  | .taskLoad d x r h =>
    { s with pendingTasks := s.pendingTasks ++ [(s.taskGen, s.registered, .new d x r h)], registered := s.registered + 1 }
  | .taskStore k =>
    match s.pendingTasks[k]? with
    | none => s
    | some (g, id, t) =>
      { s with pendingTasks := s.pendingTasks.eraseIdx k, tasks := if g = s.taskGen then s.tasks ++ [(id, t)] else s.tasks }

def run (s : St) (h : List Step) : St := h.foldl step s

/-- timer.py:199-204, at any moment. -/
def isExpired (s : St) (name : String) : Bool :=
  match s.timers.get? name with
  | none => true
  | some v => v = 0

end St
end Verif.Tick
