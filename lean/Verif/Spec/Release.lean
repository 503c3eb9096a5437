import Verif.Spec.Live
/-!
The end of a connection over a network that loses nothing, keeps the order, and delivers within a given time.
-/
namespace Verif.Spec

/-- The same two sessions and the same network, seen from the other side. -/
def Link.swap (l : Link) : Link := ⟨l.b, l.a, l.fromB, l.fromA, l.atB, l.atA, l.now⟩

/-- A connection over a network with delays of at most `d` milliseconds on which nobody has closed yet, seen from one of its ends.  The
initial sequence number of that end is `ia`, that of the other `ib`. -/
inductive Connection (d : Nat) : Nat → Nat → Link → Prop
  /-- seen from the end that called `connect` -/
  | client {ia ib : Nat} {lip rip lip' rip' : IpAddress} {lport rport lport' rport' : Nat} {l : Link} :
      Flows d (Link.new (Sess.opened true ia lip lport rip rport) (Sess.opened false ib lip' lport' rip' rport')) l → Connection d ia ib l
  /-- seen from the end that called `listen` -/
  | server {ia ib : Nat} {lip rip lip' rip' : IpAddress} {lport rport lport' rport' : Nat} {l : Link} :
      Flows d (Link.new (Sess.opened true ib lip lport rip rport) (Sess.opened false ia lip' lport' rip' rport')) l → Connection d ia ib l.swap

/-- The application calls, but not to send. -/
def Reads (e : Sess.Ev) : Prop := Call e ∧ ∀ d, e ≠ .send d

/-- The first end has closed.  The applications do not send any more; the second one closes when it likes, but not before the end of the
stream has reached it.  No segment is under way for more than `d` milliseconds. -/
def Link.mayPart (d : Nat) (l : Link) : Act → Prop
  | .callA e => Reads e ∨ e = .close
  | .callB e => Reads e ∨ e = .close ∧ l.b.state ≠ .established
  | .tick => l.may d .tick
  | _ => True

/-- `l'` comes about from `l`, in which the first end has closed. -/
inductive Parts (d : Nat) (l : Link) : Link → Prop
  | start : Parts d l l
  | next {l' : Link} {e : Act} : Parts d l l' → l'.mayPart d e → Parts d l (l'.act e)

/-- The first end closes. -/
def Link.close (l : Link) : Link := l.act (.callA .close)

/-- A list of segments with no RST in it and at most one FIN. -/
def Tidy (l : List (Nat × Seg)) : Prop := (∀ p ∈ l, p.2.rst = false) ∧ (l.filter fun p => p.2.fin).length ≤ 1

end Verif.Spec
