import Verif.Spec.WireTx
/-!
Two TCP sessions and a network that loses nothing, keeps the order, and delivers within a given time.
-/
namespace Verif.Spec

/-- The two ends, what each has sent and when, how much of it has arrived, and the time (in milliseconds). -/
structure Link where
  a : Sess
  b : Sess
  /-- everything `a` has sent, with the time -/
  fromA : List (Nat × Seg)
  /-- everything `b` has sent, with the time -/
  fromB : List (Nat × Seg)
  /-- how many of the segments of `b` have arrived at `a` -/
  atA : Nat
  /-- how many of the segments of `a` have arrived at `b` -/
  atB : Nat
  now : Nat

/-- Two sessions that have done nothing yet. -/
def Link.new (a b : Sess) : Link := ⟨a, b, [], [], 0, 0, 0⟩

/-- The segment `g` of the session `s`, as it arrives at the other end (C83 says that the bytes on the wire say so). -/
def asSeen (s : Sess) (g : Seg) : TcpMd := heard g s.lip s.lport s.rip s.rport

/-- What a session has sent between two moments, with the time. -/
def fresh (now : Nat) (s s' : Sess) : List (Nat × Seg) := ((sent s'.out).drop (sent s.out).length).map fun g => (now, g)

/-- Something happens to the first session, or to the second. -/
def Link.doA (l : Link) (e : Sess.Ev) : Link := { l with a := l.a.step e, fromA := l.fromA ++ fresh l.now l.a (l.a.step e) }
def Link.doB (l : Link) (e : Sess.Ev) : Link := { l with b := l.b.step e, fromB := l.fromB ++ fresh l.now l.b (l.b.step e) }

/-- What can happen. -/
inductive Act
  /-- the application at one of the ends calls (see `Call`) -/
  | callA (e : Sess.Ev)
  | callB (e : Sess.Ev)
  /-- the oldest segment under way arrives -/
  | arriveA
  | arriveB
  /-- a millisecond passes: at both ends the timers count down and the timer method runs -/
  | tick

def Link.act (l : Link) : Act → Link
  | .callA e => l.doA e
  | .callB e => l.doB e
  | .arriveA => match l.fromB[l.atA]? with
    | some g => { l with atA := l.atA + 1 }.doA (.segment (asSeen l.b g.2))
    | none => l
  | .arriveB => match l.fromA[l.atB]? with
    | some g => { l with atB := l.atB + 1 }.doB (.segment (asSeen l.a g.2))
    | none => l
  | .tick => ((({ l with now := l.now + 1 }.doA .clock).doA .timer).doB .clock).doB .timer

/-- The applications only send, receive and connect, and no segment is under way for more than `d` milliseconds. -/
def Link.may (d : Nat) (l : Link) : Act → Prop
  | .callA e => Call e
  | .callB e => Call e
  | .tick => (∀ x ∈ l.fromA.drop l.atB, l.now < x.1 + d) ∧ ∀ x ∈ l.fromB.drop l.atA, l.now < x.1 + d
  | _ => True

/-- `l'` comes about from `l` over a network with delays of at most `d` milliseconds. -/
inductive Flows (d : Nat) (l : Link) : Link → Prop
  | start : Flows d l l
  | next {l' : Link} {e : Act} : Flows d l l' → l'.may d e → Flows d l (l'.act e)

/-- Time passes, or the application calls, but not to send. -/
def Still (e : Sess.Ev) : Prop := e = .clock ∨ e = .timer ∨ Call e ∧ ∀ d, e ≠ .send d

/-- What a session has sent between two moments. -/
def since (s s' : Sess) : List Seg := (sent s'.out).drop (sent s.out).length

end Verif.Spec
