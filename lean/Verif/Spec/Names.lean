import Verif.Model.Names
/-! Specification vocabulary for C108: the names of sockets and timers. -/
namespace Verif.Spec

/-- The table of sockets under the names of its sockets. -/
def named (d : Dict SockId Nat) : Dict Text Nat := d.map fun e => (e.1.toText, e.2)

/-- What happens to the timers: a connection sets one of its own, or a millisecond passes. -/
inductive TimerUse where
  | sets (q : Quad) (n : TimerName) (v : Int)
  | tick

/-- This as an event of the stack's timer, under the name the connection makes. -/
def TimerUse.event : TimerUse → TimerEv
  | .sets q n v => .registerTimer (q.timer n) v
  | .tick => .tick fun _ => false

/-- The stack's one timer after such a history. -/
def allTimers (es : List TimerUse) : Timer := Timer.new.run (es.map TimerUse.event)

/-- What of a history a connection does itself, or time does. -/
def itsOwn (q : Quad) : TimerUse → Bool
  | .sets q' _ _ => q' == q
  | .tick => true

/-- A session that has its timers to itself, after what the connection does and the time that passes. -/
def ownTimers (q : Quad) (s : Sess) (es : List TimerUse) : Sess :=
  (es.filter (itsOwn q)).foldl (fun s e => match e with
    | .sets _ n v => s.setTimer n v
    | .tick => s.clock) s

end Verif.Spec
