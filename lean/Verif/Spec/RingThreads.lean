import Verif.Model.RingThreads
/-! The frame queues with several threads: what was put in, what was taken out, what became of it. -/
namespace Verif.Spec
open RingThreads
variable {F : Type}

/-- The frames put into the queue, in order. -/
def framesPut (l : List (RingThreads.Ev F)) : List F := l.filterMap fun e => match e with
  | .put f => some f
  | _ => none

/-- The frames taken from the queue, in order. -/
def framesTaken (l : List (RingThreads.Ev F)) : List F := l.filterMap fun e => match e with
  | .took f => some f
  | _ => none

/-- The frames dealt with: written, not written because the device failed, or left out because too long; in order. -/
def framesDealt (l : List (RingThreads.Ev F)) : List F := l.filterMap fun e => match e with
  | .wrote f => some f
  | .failed f => some f
  | .tooLong f => some f
  | _ => none

/-- The frames written, in order. -/
def framesWritten (l : List (RingThreads.Ev F)) : List F := l.filterMap fun e => match e with
  | .wrote f => some f
  | _ => none

/-- The history up to here, from a queue that was never used. -/
abbrev queueAfter (fits : F → Bool) (xs : List (RingThreads.Step F)) : RingThreads.St F := ({} : RingThreads.St F).steps fits xs

/-- `start` is called only when every thread started earlier has left its loop. -/
def OneThread (fits : F → Bool) (xs : List (RingThreads.Step F)) : Prop :=
  ∀ ys, ys ++ [.start] <+: xs → ∀ c ∈ (queueAfter fits ys).threads, c = .ended

/-- The steps the k-th thread makes. -/
def turns (k : Nat) (xs : List (RingThreads.Step F)) : Nat := xs.countP fun e => match e with
  | .go k' _ => k' = k
  | _ => false

end Verif.Spec
