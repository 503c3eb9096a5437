import Verif.Model.Daytime
import Verif.Spec.Echo
/-! What the daytime service and the discard service promise. -/
namespace Verif.Spec
open Daytime

/-- `d` writes `n` with `w` decimal digits. -/
structure Figures (w n : Nat) (d : Bytes) : Prop where
  length : d.length = w
  digits : ∀ b ∈ d, 48 ≤ b ∧ b ≤ 57
  value : d.foldl (fun a b => 10 * a + (b.toNat - 48)) 0 = n

/-- Numbers that a clock shows. -/
structure OnClock (n : Now) : Prop where
  year : 1 ≤ n.year ∧ n.year ≤ 9999
  month : 1 ≤ n.month ∧ n.month ≤ 12
  day : 1 ≤ n.day ∧ n.day ≤ 31
  hour : n.hour < 24
  minute : n.minute < 60
  second : n.second < 60
  micro : n.micro < 1000000

/-- `x` is this time, written as 2026-11-16 21:41:13 or 2026-11-16 21:41:13.000007. -/
def TimeText (n : Now) (x : Bytes) : Prop :=
  ∃ y mo d h mi s u, Figures 4 n.year y ∧ Figures 2 n.month mo ∧ Figures 2 n.day d ∧ Figures 2 n.hour h ∧ Figures 2 n.minute mi ∧ Figures 2 n.second s ∧
    (n.micro = 0 ∧ u = [] ∨ 0 < n.micro ∧ ∃ v, Figures 6 n.micro v ∧ u = 46 :: v) ∧
    x = y ++ (45 :: mo) ++ (45 :: d) ++ (32 :: h) ++ (58 :: mi) ++ (58 :: s) ++ u

/-- What the clock says when the service runs. -/
def clockWhenRun (evs : List (Echo.Ev × Now)) : List Now := evs.filterMap fun
  | (.round _, now) => some now
  | _ => none

/-- The events without the turns of the service. -/
def withoutRuns (evs : List Echo.Ev) : List Echo.Ev := evs.filter fun
  | .round _ => false
  | _ => true

end Verif.Spec
