import Verif.Spec.Session
/-! Two TCP sessions and the network between them. -/
namespace Verif.Spec

/-- `m` is the segment `g` as it arrives: the same flags, numbers and data.  (The window and the options may be anything.) -/
structure Carries (g : Seg) (m : TcpMd) : Prop where
  syn : m.syn = g.syn
  ack : m.ack = g.ack
  fin : m.fin = g.fin
  rst : m.rst = g.rst
  seq : m.seq = g.seq
  ackn : m.ackn = g.ackn
  data : m.data = g.data

/-- A reset: RST, with no data, no SYN and no FIN. -/
structure Resets (m : TcpMd) : Prop where
  rst : m.rst = true
  syn : m.syn = false
  fin : m.fin = false
  data : m.data = []

/-- What may happen at one end: anything, except that a segment arrives only if the other end has sent it, or it is a reset (which
anybody may send, and the other host does when it has no socket for a segment).  The network may lose segments, repeat them, delay
them and change their order, but not invent others or alter them. -/
def Arrives (other : Sess) (e : Sess.Ev) : Prop :=
  ∀ m, e = .segment m → Resets m ∨ ∃ g ∈ sent other.out, Carries g m

/-- The two ends of a connection, `x` and `y` at first, may come to be `a` and `b`. -/
inductive Joined (x y : Sess) : Sess → Sess → Prop
  | start : Joined x y x y
  | left {a b : Sess} {e : Sess.Ev} : Joined x y a b → Arrives b e → Joined x y (a.step e) b
  | right {a b : Sess} {e : Sess.Ev} : Joined x y a b → Arrives a e → Joined x y a (b.step e)

end Verif.Spec
