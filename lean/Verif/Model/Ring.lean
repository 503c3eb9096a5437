import Verif.Model.Py
/-!
The frame queues (`/repo/pytcp/subsystems/rx_ring.py`, `tx_ring.py`) and the packet trackers (`/repo/pytcp/lib/tracker.py`).  The
semaphores only end a wait early: the code ignores what `acquire` returns, so they do not appear.
-/
namespace Verif

/-- What happens to a receive ring: a frame read from the TAP interface (rx_ring.py:93-99) or a call of `dequeue`. -/
inductive RxRingEv where
  | received (frame : Bytes)
  | dequeue

/-- rx_ring.py:99 and 110-119: the ring after it and the value `dequeue` returns. -/
def RxRing.step (ring : List Bytes) : RxRingEv → List Bytes × Option Bytes
  | .received f => (ring ++ [f], none)
  | .dequeue =>
    match ring with
    | [] => ([], none)
    | f :: ring => (ring, some f)

/-- What happens to a transmit ring: a call of `enqueue`, or a round of the transmitting thread (`ok` says whether writing to the
TAP interface succeeds). -/
inductive TxRingEv where
  | enqueue (frame : Bytes)
  | transmit (ok : Bool)

/-- tx_ring.py:92-130 and 134-143: the ring after it and the frame written.  A packet stands for the frame it assembles to (that
`len(packet)` is the frame's length is part of the codec theorems). -/
def TxRing.step (mtu : Nat) (ring : List Bytes) : TxRingEv → List Bytes × Option Bytes
  | .enqueue f => (ring ++ [f], none)
  | .transmit ok =>
    match ring with
    | [] => ([], none)
    | f :: ring => (ring, if f.length > mtu + 14 then none else if ok then some f else none)

/-- tracker.py:46-47 -/
structure TrackerState where
  serialRx : Nat
  serialTx : Nat

/-- The digit `x` of a format specification `x`, in upper case. -/
def hexDigit (n : Nat) : Char := if n < 10 then Char.ofNat (48 + n) else Char.ofNat (55 + n)

/-- `f"{n:0>4x}".upper()` for `n` of at most four hexadecimal digits. -/
def hex4 (n : Nat) : List Char := [hexDigit (n / 4096 % 16), hexDigit (n / 256 % 16), hexDigit (n / 16 % 16), hexDigit (n % 16)]

/-- tracker.py:68-83: the number given to a new tracker (`rx` for the prefix "RX"), the state after it. -/
def TrackerState.next (s : TrackerState) (rx : Bool) : TrackerState × Nat :=
  if rx then ({ s with serialRx := if s.serialRx + 1 > 0xFFFF then 0 else s.serialRx + 1 }, s.serialRx)
  else ({ s with serialTx := if s.serialTx + 1 > 0xFFFF then 0 else s.serialTx + 1 }, s.serialTx)

/-- tracker.py:70 and 78: the serial of a tracker as text. -/
def trackerText (rx : Bool) (n : Nat) : List Char :=
  (if rx then "<lg>RX".toList else "<lr>TX".toList) ++ hex4 n ++ "</>".toList

end Verif
