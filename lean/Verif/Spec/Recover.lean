import Verif.Spec.Net
/-! The loss of one segment, and how it is made good without waiting for a timer. -/
namespace Verif.Spec

/-- `m` is a segment of data from further on in the stream than `s` expects: something before it is missing.  It lies within the window
and acknowledges nothing that has not been sent. -/
structure Ahead (s : Sess) (m : TcpMd) : Prop where
  flags : m.ack = true ∧ m.syn = false ∧ m.rst = false ∧ m.fin = false
  seq : s.rcvNxt < m.seq
  fits : m.seq + m.data.length ≤ s.rcvNxt + 65535
  ackn : s.sndUna ≤ m.ackn ∧ m.ackn ≤ s.sndMax

/-- `m` asks again for what `s` has sent and is waiting to see acknowledged. -/
structure Again (s : Sess) (m : TcpMd) : Prop where
  flags : m.ack = true ∧ m.syn = false ∧ m.rst = false ∧ m.fin = false
  seq : m.seq = s.rcvNxt
  ackn : m.ackn = s.sndUna
  data : m.data = []

/-- The bare acknowledgement that tells what `s` expects next. -/
def ask (s : Sess) : Seg := ⟨false, true, false, false, s.sndNxt, s.rcvNxt, []⟩

/-- Segments with data that follow one another in the stream, from `q` on, and of which no later one acknowledges less. -/
inductive InRow : Nat → Nat → List TcpMd → Prop
  | nil {q u : Nat} : InRow q u []
  | cons {q u : Nat} {m : TcpMd} {ms : List TcpMd} : m.seq = q → u ≤ m.ackn → m.data ≠ [] →
      InRow (q + m.data.length) m.ackn ms → InRow q u (m :: ms)

/-- The data of some segments, one after the other. -/
def carriedBy (ms : List TcpMd) : Bytes := ms.flatMap fun m => m.data

end Verif.Spec
