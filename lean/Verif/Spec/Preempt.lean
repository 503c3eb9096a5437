import Verif.Model.Preempt
import Verif.Spec.Session
/-! Histories with thread switches, and histories without. -/
namespace Verif.Spec
open Sess

/-- The piece of work as an event of a history without thread switches. -/
def unbroken : Work → Ev
  | .segment m => .segment m
  | .close => .close
  | .timer => .timer
  | .clock => .clock
  | .table b => .table b

/-- The buffers that `send` has accepted, one by one. -/
def acceptedOnes (l : List Out) : List Bytes :=
  l.filterMap fun
    | .accepted d => some d
    | _ => none

/-- The buffers given to `send` in a history without thread switches. -/
def sends (evs : List Ev) : List Bytes :=
  evs.filterMap fun
    | .send d => some d
    | _ => none

/-- The history without them. -/
def besides (evs : List Ev) : List Ev :=
  evs.filter fun
    | .send _ => false
    | _ => true

/-- What the session does, apart from answers to the application's calls. -/
def deeds (l : List Out) : List Out :=
  l.filter fun
    | .received _ => false
    | .accepted _ => false
    | .rejected => false
    | .connected _ => false
    | _ => true

/-- The segments that arrive in a history with thread switches. -/
def arriving (h : List (Work × List (List App))) : List TcpMd :=
  h.filterMap fun
    | (.segment m, _) => some m
    | _ => none

/-- When `close` is called, no call of `send` is under way, and none comes after it. -/
def SendsFirst (h : List (Work × List (List App))) : Prop :=
  ∀ h₁ l h₂, h = h₁ ++ (.close, l) :: h₂ → ∀ x ∈ (Work.close, l) :: h₂, ∀ a ∈ x.2, ∀ k, App.sendPut k ∉ a

end Verif.Spec
