import Verif.Model.Timer
/-! When timers expire and tasks run, from the history alone. -/
namespace Verif.Spec

/-- The stop-condition values at the ticks of a history, in order; its length is the number of ticks. -/
def ticks (evs : List TimerEv) : List (Nat → Bool) := evs.filterMap (fun e => match e with | .tick s => some s | _ => none)

/-- The number of methods registered in a history. -/
def methods (evs : List TimerEv) : Nat := evs.countP (fun e => match e with | .registerMethod .. => true | _ => false)

/-- The tick, counted from registration, of the `j`-th run (counted from 0) of a task: `d, 2d, 3d, ...`, or `d, 2d, 4d, 8d, ...` with
exponential delay. -/
def due (d : Int) (exponential : Bool) (j : Nat) : Int := if exponential then d * 2 ^ j else d * (j + 1)

end Verif.Spec
