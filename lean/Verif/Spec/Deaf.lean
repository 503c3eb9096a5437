import Verif.Spec.Wire
import Verif.Model.Receiver
/-! Frames on which the receive code raises an exception, by their bytes.  Nothing catches it: the thread that receives ends. -/
namespace Verif.Spec

/-- Where the options of the TCP header of `s` start. -/
inductive OptionAt (s : Bytes) : Nat → Prop
  | first : OptionAt s 20
  | nop {o : Nat} : OptionAt s o → be s o 1 = 1 → OptionAt s (o + 1)
  | opt {o : Nat} : OptionAt s o → 2 ≤ be s o 1 → OptionAt s (o + be s (o + 1) 1)

/-- How many bytes of a TCP option of this kind are looked at, whatever length it has: kind and length; with them a maximum segment size, a window
scale or two timestamps. -/
def needs (k : Nat) : Nat := if k = 2 then 4 else if k = 3 then 3 else if k = 8 then 10 else 2

/-- A TCP segment (with what follows it in the frame) in which not even the header length is there, or in which the frame ends in the middle of an
option.  (In a segment that keeps to RFC 9293 no option goes beyond the header.) -/
def CutTcp (s : Bytes) : Prop :=
  s.length < 13 ∨ ∃ o, OptionAt s o ∧ o < be s 12 1 / 16 * 4 ∧ 2 ≤ be s o 1 ∧ s.length < o + needs (be s o 1)

/-- An IPv4 packet that ends with its header (nothing follows it in the frame either), whose last byte is not 0 or 1: where an option can only
begin. -/
def CutIp4 (p : Bytes) : Prop := 20 < p.length ∧ be p 0 1 % 16 * 4 = p.length ∧ 2 ≤ be p (p.length - 1) 1

/-- An IPv4 fragment: more follow, or it is not the first. -/
def IsFragment4 (p : Bytes) : Prop := be p 6 2 % 0x4000 ≠ 0

/-- Where the options of a neighbour discovery message start in it, by its type (RFC 4861 section 4). -/
def ndOffset (t : Nat) : Nat := if t = 133 then 8 else if t = 134 then 16 else 24

/-- Where an option starts, when the first starts at `start`: each gives its length in units of eight bytes. -/
inductive NdOptionAt (m : Bytes) (start : Nat) : Nat → Prop
  | first : NdOptionAt m start start
  | next {o : Nat} : NdOptionAt m start o → o + 1 < m.length → NdOptionAt m start (o + 8 * be m (o + 1) 1)

/-- A neighbour discovery message with one byte too many; or a router solicitation to ff02::2, from no address or with anything after its eight bytes
(the stack is no router and does not join that group); or another one with a prefix option that is cut off or has a prefix of more than 128 bits. -/
def OddNd (src dst : Nat) (m : Bytes) : Prop :=
  133 ≤ be m 0 1 ∧ be m 0 1 ≤ 136 ∧
    ((∃ k, m.length = ndOffset (be m 0 1) + 8 * k + 1) ∨ (be m 0 1 = 133 ∧ dst = 0xFF020000000000000000000000000002 ∧ (src = 0 ∨ 8 < m.length)) ∨
     (be m 0 1 ≠ 133 ∧ ∃ o, NdOptionAt m (ndOffset (be m 0 1)) o ∧ o < m.length ∧ be m o 1 = 3 ∧ (m.length < o + 32 ∨ 128 < be m (o + 2) 1)))

/-- The transport part of an IPv4 packet: what follows its header. -/
def body4 (p : Bytes) : Bytes := p.drop (be p 0 1 % 16 * 4)

/-- The frames that may end the receive thread while it reads them. -/
inductive Trap (F : Bytes) : Prop
  | cut4 : be F 12 2 = 0x0800 → CutIp4 (F.drop 14) → Trap F
  | fragment4 : be F 12 2 = 0x0800 → IsFragment4 (F.drop 14) → Trap F
  | tcp4 : be F 12 2 = 0x0800 → be (F.drop 14) 9 1 = 6 → CutTcp (body4 (F.drop 14)) → Trap F
  | fragment6 : be F 12 2 = 0x86DD → be (F.drop 14) 6 1 = 44 → Trap F
  | nd : be F 12 2 = 0x86DD → be (F.drop 14) 6 1 = 58 → OddNd (be (F.drop 14) 8 16) (be (F.drop 14) 24 16) (F.drop 54) → Trap F
  | tcp6 : be F 12 2 = 0x86DD → be (F.drop 14) 6 1 = 6 → CutTcp (F.drop 54) → Trap F

/-- A TCP segment whose sequence numbers run past 2^32 - 1, so that the acknowledgement number of the reset that answers it is 2^32 or more. -/
def RunsOver (s : Bytes) (len : Nat) : Prop :=
  2 ^ 32 ≤ be s 4 4 + (bit s 13 1).toNat + (bit s 13 0).toNat + (len - be s 12 1 / 16 * 4)

/-- The frames that may end it while it answers them. -/
inductive Spill (F : Bytes) : Prop
  | tcp4 : be F 12 2 = 0x0800 → be (F.drop 14) 9 1 = 6 → RunsOver (body4 (F.drop 14)) (be (F.drop 14) 2 2 - be (F.drop 14) 0 1 % 16 * 4) → Spill F
  | tcp6 : be F 12 2 = 0x86DD → be (F.drop 14) 6 1 = 6 → RunsOver (F.drop 54) (be (F.drop 14) 4 2) → Spill F

/-- The frames that arrive, in order. -/
def framesIn : List Receiver.Ev → List Bytes
  | [] => []
  | .frame _ _ _ _ F :: evs => F :: framesIn evs
  | .becomes _ :: evs => framesIn evs

end Verif.Spec
