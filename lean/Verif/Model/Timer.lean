import Verif.Model.Dict
/-!
The stack timer (`/repo/pytcp/subsystems/timer.py`).  Simplifications: a round of the timer thread and a registration are atomic; what
a task's method does is left out (that it ran is the visible effect), and a stop condition is given by its value at each tick.
-/
namespace Verif

/-- timer.py:48-76; `hasStop` says whether there is a stop condition. -/
structure TimerTask where
  delay : Int
  delayExp : Bool
  repeatCount : Int
  hasStop : Bool
  remaining : Int
  factor : Nat
  deriving DecidableEq

/-- timer.py:53-76 -/
def TimerTask.new (delay : Int) (delayExp : Bool) (repeatCount : Int) (hasStop : Bool) : TimerTask :=
  ⟨delay, delayExp, repeatCount, hasStop, delay, 0⟩

/-- timer.py:85-109: `tick`, with the value `stop` of the stop condition; the task after it and whether its method ran. -/
def TimerTask.tick (t : TimerTask) (stop : Bool) : TimerTask × Bool :=
  if t.hasStop && stop then ({ t with remaining := 0 }, false)
  else if t.remaining - 1 ≠ 0 then ({ t with remaining := t.remaining - 1 }, false)
  else if t.repeatCount ≠ 0 then
    ({ t with
        remaining := if t.delayExp then t.delay * ((1 <<< t.factor : Nat) : Int) else t.delay
        factor := t.factor + 1
        repeatCount := if t.repeatCount > 0 then t.repeatCount - 1 else t.repeatCount }, true)
  else ({ t with remaining := 0 }, true)

/-- timer.py:112-123; the tasks carry the number of their registration, so that runs can be told apart. -/
structure Timer where
  tasks : List (Nat × TimerTask)
  timers : Dict String Int
  registered : Nat

/-- timer.py:117-123 -/
def Timer.new : Timer := ⟨[], [], 0⟩

inductive TimerEv where
  | registerMethod (delay : Int) (delayExp : Bool) (repeatCount : Int) (hasStop : Bool)
  | registerTimer (name : String) (timeout : Int)
  /-- one round of the timer thread, with the values of the stop conditions -/
  | tick (stop : Nat → Bool)

namespace Timer

/-- timer.py:152-157: the round's work on timers. -/
def tickTimers (d : Dict String Int) : Dict String Int := (d.map (fun e => (e.1, e.2 - 1))).filter (fun e => e.2 ≠ 0)

/-- timer.py:159-164: the round's work on tasks. -/
def tickTasks (l : List (Nat × TimerTask)) (stop : Nat → Bool) : List (Nat × TimerTask) :=
  (l.map (fun e => (e.1, (e.2.tick (stop e.1)).1))).filter (fun e => e.2.remaining ≠ 0)

/-- The tasks that run in a round, in order. -/
def ranTasks (l : List (Nat × TimerTask)) (stop : Nat → Bool) : List Nat :=
  (l.filter (fun e => (e.2.tick (stop e.1)).2)).map (·.1)

/-- timer.py:168-197 and 149-164; the numbers of the tasks that ran. -/
def step (t : Timer) : TimerEv → Timer × List Nat
  | .registerMethod d x r h => ({ t with tasks := t.tasks ++ [(t.registered, .new d x r h)], registered := t.registered + 1 }, [])
  | .registerTimer n v => ({ t with timers := t.timers.set n v }, [])
  | .tick stop => ({ t with tasks := tickTasks t.tasks stop, timers := tickTimers t.timers }, ranTasks t.tasks stop)

/-- The state after a history. -/
def run (t : Timer) (evs : List TimerEv) : Timer := evs.foldl (fun t e => (step t e).1) t

/-- timer.py:199-204 -/
def isExpired (t : Timer) (name : String) : Bool :=
  match t.timers.get? name with
  | none => true
  | some v => v = 0

/-- The tasks run at each tick of a history. -/
def trace (t : Timer) : List TimerEv → List (List Nat)
  | [] => []
  | .tick s :: es => (step t (.tick s)).2 :: trace (step t (.tick s)).1 es
  | e :: es => trace (step t e).1 es

end Timer
end Verif
