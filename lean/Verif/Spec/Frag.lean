import Verif.Model.Py
/-! What it means for a list of pieces to be a fragmentation of a block of data. -/
namespace Verif.Spec

/-- A fragment: its offset in the original data, its more-fragments flag and its data. -/
structure Piece where
  offset : Nat
  mf : Bool
  data : List UInt8
  deriving DecidableEq

/-- `fs` cuts `data` into non-empty pieces of at most `room` bytes, each starting, at a multiple of 8, where the one
before ends; exactly the last has the more-fragments flag clear. -/
structure IsFragmentation (data : List UInt8) (room : Nat) (fs : List Piece) : Prop where
  concat : (fs.map (·.data)).flatten = data
  offset : ∀ i f, fs[i]? = some f → f.offset = ((fs.take i).map (·.data)).flatten.length
  aligned : ∀ f ∈ fs, f.offset % 8 = 0
  nonempty : ∀ f ∈ fs, f.data ≠ []
  fits : ∀ f ∈ fs, f.data.length ≤ room
  mf : ∀ i f, fs[i]? = some f → (f.mf = true ↔ i + 1 < fs.length)

/-- What a receiver should make of the arrivals `xs` of pieces of the datagram cut into `fs`, having already got `got`
since it last delivered (or started): it delivers exactly when the arrival makes all pieces present, and then starts
afresh.  Arrivals carry a tag (the packet the piece came in); a delivery is shown by the tag of the first piece it used. -/
def deliveries {α : Type} (fs : List Piece) : List (Piece × α) → List (Piece × α) → List (Option α)
  | _, [] => []
  | got, x :: xs =>
    if ∀ p ∈ fs, p ∈ (got ++ [x]).map (·.1) then ((got ++ [x]).head?.map (·.2)) :: deliveries fs [] xs
    else none :: deliveries fs (got ++ [x]) xs

end Verif.Spec
