import Verif.Model.CacheThreads
/-! The neighbour caches with several threads: what is known of an address. -/
namespace Verif.Spec
open CacheThreads
variable {A : Type} [DecidableEq A]

/-- What is known of the address after all this: the MAC address last added and when, if it has not been removed since. -/
def remembered (l : List (CacheThreads.Ev A)) (ip : A) : Option (MacAddress × Int) := l.foldl (fun r e => match e with
  | .added ip' mac t => if ip' = ip then some (mac, t) else r
  | .removed ip' => if ip' = ip then none else r
  | .asked _ => r) none

/-- The clock readings offered to the maintenance thread, one for each of its steps. -/
def readings (xs : List (CacheThreads.Step A)) : List Int := xs.filterMap fun e => match e with
  | .maint t => some t
  | _ => none

/-- Nothing is learned about the address. -/
def NotLearned (ip : A) (xs : List (CacheThreads.Step A)) : Prop := ∀ mac t, CacheThreads.Step.add ip mac t ∉ xs

/-- The maintenance thread is at the entry of the address. -/
def AtEntry (ip : A) : CacheThreads.Maint A → Prop
  | .perm i _ | .clock i _ | .age i _ _ | .pop i _ | .clock' i _ | .age' i _ _ | .hits i _ | .reset i _ | .send i _ => i = ip
  | _ => False

/-- An hour, in microseconds. -/
def hour : Int := 3600 * 1000000

end Verif.Spec
