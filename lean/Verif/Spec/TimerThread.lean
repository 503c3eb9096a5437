import Verif.Model.TimerThread
import Verif.Spec.Timer
/-! Moments at which a registration comes in between the steps of the timer thread. -/
namespace Verif.Spec
open Tick

/-- The thread is going through the timers. -/
def Counting (s : St) : Prop :=
  match s.pos with
  | .count .. | .write .. | .sweep .. => True
  | _ => False

/-- The thread is between reading and writing this timer, or is removing the timers that have run out. -/
def Overwrites (s : St) (name : String) : Prop :=
  match s.pos with
  | .write n .. => n = name
  | .sweep .. | .store _ => True
  | _ => False

/-- The thread is about to replace the list of tasks by one that it has already made. -/
def Replaces (s : St) : Prop :=
  match s.pos with
  | .storeTasks _ => True
  | _ => False

/-- The round in which a task registered now has its first tick. -/
def firstRound (s : St) : Nat :=
  match s.pos with
  | .keep .. => s.rounds + 1
  | _ => s.rounds

/-- A timer under a new name is stored while the thread goes through the timers. -/
def Disturbs (s : St) (e : Step) : Prop :=
  Counting s ∧ ∃ k n v, e = .timerStore k ∧ s.pending[k]? = some (s.gen, n, v) ∧ s.timers.get? n = none

/-- A method raises. -/
def Fails (s : St) (e : Step) : Prop :=
  ∃ i id t d, s.pos = .tick i ∧ s.tasks[i]? = some (id, t) ∧ e = .thread d ∧ (t.tick d.stop).2 = true ∧ d.raises = true

/-- The step registers a timer of this name. -/
def Mentions (name : String) : Step → Prop
  | .thread d => name ∈ d.regs.map (·.1)
  | .timerLoad n _ => n = name
  | _ => False

end Verif.Spec
