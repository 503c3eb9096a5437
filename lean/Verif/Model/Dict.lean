import Verif.Model.Py
/-! Python dictionaries as association lists in insertion order.  Nothing here models PyTCP itself. -/
namespace Verif

/-- A `dict`.  The operations below keep the keys distinct. -/
abbrev Dict (K V : Type) := List (K × V)

namespace Dict
variable {K V : Type} [DecidableEq K]

/-- `d.get(k)` -/
def get? (d : Dict K V) (k : K) : Option V := (d.find? (fun e => e.1 = k)).map (·.2)

/-- `k in d` -/
def has (d : Dict K V) (k : K) : Bool := (get? d k).isSome

/-- `d[k] = v`: an existing key keeps its place, a new one goes to the end. -/
def set : Dict K V → K → V → Dict K V
  | [], k, v => [(k, v)]
  | (k', v') :: d, k, v => if k' = k then (k, v) :: d else (k', v') :: set d k v

/-- `d.pop(k, None)`; also `del d[k]` for a key that is there. -/
def erase (d : Dict K V) (k : K) : Dict K V := d.filter (fun e => e.1 ≠ k)

/-- `d.keys()` -/
def keys (d : Dict K V) : List K := d.map (·.1)

/-- Put a pair before the first pair with a key that is not smaller. -/
def insertItem (e : Nat × V) : List (Nat × V) → List (Nat × V)
  | [] => [e]
  | x :: l => if e.1 ≤ x.1 then e :: x :: l else x :: insertItem e l

/-- The pairs `(k, d[k])` visited by `for k in sorted(d)` for integer keys. -/
def sortedItems (d : Dict Nat V) : List (Nat × V) := d.foldr insertItem []

end Dict

/-- `b[i] = x` for a `bytearray` and `i ≥ 0`. -/
def setIdx (b : Bytes) (i : Nat) (x : UInt8) : Py Bytes :=
  if i < b.length then .ok (b.set i x) else .error .indexError

/-- `struct.pack_into(f"{len(d)}s", b, o, d)` -/
def packIntoBytes (b : Bytes) (o : Nat) (d : Bytes) : Py Bytes :=
  if o + d.length ≤ b.length then .ok (b.take o ++ d ++ b.drop (o + d.length)) else .error .structError

end Verif
