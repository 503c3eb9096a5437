/-
Python run-time vocabulary used by every model file.

Nothing here models PyTCP itself; these are the Python operations its source uses
(indexing, slicing, `struct.pack`/`unpack`, `assert`), with exceptions as values.
-/
namespace Verif

/-- The exceptions (by Python class) that the modelled code can raise.  `nonTermination` is not a Python exception: it is
the result the model gives to a loop that never ends. -/
inductive PyErr where
  | indexError
  | structError
  | assertionError
  | keyError
  | valueError
  | overflowError
  | osError
  | gaiError
  | connectionRefused
  | timeoutError
  | brokenPipe
  | receiveTimeout
  | formatError
  | gatewayError
  | unpackError
  | nonTermination
  deriving DecidableEq, Repr

deriving instance DecidableEq for Except

/-- Result of running a piece of Python: a value or a raised exception. -/
abbrev Py (α : Type) := Except PyErr α

/-- `bytes`, `bytearray` and `memoryview` contents. -/
abbrev Bytes := List UInt8

/-- `data[i]` for `i ≥ 0`: raises `IndexError` outside the buffer. -/
def idx (b : Bytes) (i : Nat) : Py Nat :=
  match b[i]? with
  | some x => .ok x.toNat
  | none => .error .indexError

/-- `data[i:j]` for `0 ≤ i`: never raises, clips at the end of the buffer. -/
def slice (b : Bytes) (i j : Nat) : Bytes := (b.take j).drop i

/-- `data[i:]` for `0 ≤ i`. -/
def sliceFrom (b : Bytes) (i : Nat) : Bytes := b.drop i

/-- `assert c`. -/
def pyAssert (c : Bool) : Py Unit :=
  if c then .ok () else .error .assertionError

/-- The big-endian value of a byte string: `int.from_bytes(b, "big")`. -/
def beNat (b : Bytes) : Nat := b.foldl (fun acc x => acc * 256 + x.toNat) 0

/-- `n` as `k` big-endian bytes (the low `8*k` bits of `n`). -/
def bePack : Nat → Nat → Bytes
  | 0, _ => []
  | k + 1, n => bePack k (n / 256) ++ [UInt8.ofNat n]

/-- `struct.pack("!B", n)`: raises when `n` does not fit. -/
def packB (n : Nat) : Py Bytes := if n < 2 ^ 8 then .ok (bePack 1 n) else .error .structError
/-- `struct.pack("!H", n)`. -/
def packH (n : Nat) : Py Bytes := if n < 2 ^ 16 then .ok (bePack 2 n) else .error .structError
/-- `struct.pack("!L", n)`. -/
def packL (n : Nat) : Py Bytes := if n < 2 ^ 32 then .ok (bePack 4 n) else .error .structError
/-- `struct.pack("!Q", n)`. -/
def packQ (n : Nat) : Py Bytes := if n < 2 ^ 64 then .ok (bePack 8 n) else .error .structError

/-- `struct.unpack("!B"/"!H"/"!L"/"!Q", b)[0]` of an exactly `k`-byte slice:
raises `struct.error` for any other length. -/
def unpackBE (k : Nat) (b : Bytes) : Py Nat :=
  if b.length = k then .ok (beNat b) else .error .structError

/-- `struct.unpack("!H", frame[i:i+2])[0]` -/
def u16 (f : Bytes) (i : Nat) : Py Nat := unpackBE 2 (slice f i (i + 2))
/-- `struct.unpack("!L", frame[i:i+4])[0]` -/
def u32 (f : Bytes) (i : Nat) : Py Nat := unpackBE 4 (slice f i (i + 4))

/-- `struct.pack_into("! H", frame, i, n)`: overwrites two bytes of the buffer. -/
def packIntoH (f : Bytes) (i n : Nat) : Py Bytes := do
  let h ← packH n
  if i + 2 ≤ f.length then return f.take i ++ h ++ f.drop (i + 2) else .error .structError

/-- What an assembler object carried by another one offers: its protocol number, `len()`, and `assemble` (which gets
the pseudo-header sum of the carrier and fills a buffer of `len()` bytes). -/
structure Carried where
  proto : Nat
  len : Nat
  assemble : Nat → Py Bytes

end Verif
