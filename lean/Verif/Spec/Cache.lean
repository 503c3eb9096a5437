import Verif.Model.Cache
/-! What the neighbour caches should remember, from the history alone.  Times in microseconds. -/
namespace Verif.Spec
open Cache (Ev)
variable {A : Type}

/-- At the end of `hist`, `ip` was last added with `mac`, at time `t`, and no maintenance visit since has found that to be more
than an hour ago. -/
def Fresh (hist : List (Ev A)) (ip : A) (mac : MacAddress) (t : Int) : Prop :=
  ∃ pre post, hist = pre ++ .add ip mac t :: post ∧ (∀ m t', .add ip m t' ∉ post) ∧
    ∀ v v', .visit ip v v' ∈ post → v - t ≤ 3600 * 1000000

/-- At the end of `hist`, `ip`, added at time `t`, has been looked up since it was added and since the last maintenance visit that
found it within five minutes of its end. -/
def Used (hist : List (Ev A)) (ip : A) (t : Int) : Prop :=
  ∃ pre post, hist = pre ++ .find ip :: post ∧ (∀ m t', .add ip m t' ∉ post) ∧
    ∀ v v', .visit ip v v' ∈ post → v' - t ≤ (3600 - 300) * 1000000

/-- A maintenance pass over the addresses `ips`, with calls (no visits) before each visit. -/
def PassOver (ips : List A) (rounds : List (List (Ev A) × A × Int × Int)) : Prop :=
  rounds.map (·.2.1) = ips ∧ ∀ r ∈ rounds, ∀ e ∈ r.1, ∀ ip v v', e ≠ .visit ip v v'

/-- The events of a pass. -/
def passEvents (rounds : List (List (Ev A) × A × Int × Int)) : List (Ev A) :=
  rounds.flatMap (fun r => r.1 ++ [.visit r.2.1 r.2.2.1 r.2.2.2])

end Verif.Spec
