import Verif.Lemmas.LiveTime
import Verif.Props.SessionNet
/-!
C85: over a network that loses nothing, keeps the order and delivers within `d` milliseconds (`d` at most 400, the bound of the
round trip being the retransmission timeout of a second), a connection comes about and carries what the applications send in bounded
time.  What the applications do meanwhile is open, except that they do not close; they may send more at any time.  The numbers of the
bytes must stay within 32 bits (the code does not wrap them around).
-/
namespace Verif
open Sess Spec

/-- C85: the connection is open at both ends after three delays and three milliseconds, and stays open. -/
theorem C85_connects {d ia ib : Nat} (hd : d ≤ 400) {lip rip lip' rip' : IpAddress} {lport rport lport' rport' : Nat} {l : Link}
    (h : Flows d (Link.new (opened true ia lip lport rip rport) (opened false ib lip' lport' rip' rport')) l)
    (ha : ia + 1 + (accepted l.a.out).length ≤ 0xFFFFFFFF) (hb : ib + 1 + (accepted l.b.out).length ≤ 0xFFFFFFFF)
    (ht : 3 * d + 3 ≤ l.now) : l.a.state = .established ∧ l.b.state = .established := by
  have hs := stage hd h ⟨ha, hb⟩
  obtain ⟨h1, h2⟩ := hs.up ht
  exact ⟨(hs.viewA ⟨ha, hb⟩ h1).1.sends.state, (hs.viewB ⟨ha, hb⟩ h2).1.sends.state⟩

/-- C85: what the application that connected has sent by some moment (`l`) is with the other end, in order, when for every 1460 bytes
in the transmit buffer two delays and 104 milliseconds have passed (`l'`). -/
theorem C85_delivered {d ia ib : Nat} (hd : d ≤ 400) {lip rip lip' rip' : IpAddress} {lport rport lport' rport' : Nat} {l l' : Link}
    (h : Flows d (Link.new (opened true ia lip lport rip rport) (opened false ib lip' lport' rip' rport')) l) (h' : Flows d l l')
    (ha : ia + 1 + (accepted l'.a.out).length ≤ 0xFFFFFFFF) (hb : ib + 1 + (accepted l'.b.out).length ≤ 0xFFFFFFFF)
    (ht : l.now + (l.a.tx.length + 1459) / 1460 * (2 * d + 104) ≤ l'.now) :
    accepted l.a.out <+: received l'.b.out ++ l'.b.rx := by
  have hg := Logged.run logged_new h
  have g1 := hg.grows h'
  have hf : Fit ia ib l' := ⟨ha, hb⟩
  have f1 := hf.earlier g1.1 g1.2
  by_cases hl : 2 ≤ l.fromA.length
  · have e1 := roundsA hd _ h h' hf hl ht
    have e2 := (stage hd h f1).viewA f1 hl
    have e3 := (stage hd (h.trans h') hf).viewA hf (Nat.le_trans hl (later h').fromA.length_le)
    have e4 := e3.1.arrived
    have e5 := e2.1.sends.len
    have e6 := e2.1.ini
    have e7 := (C81_prefix _ _ _ _ _ _ _ _ _ _ _ _ (hg.run h').joined).2
    refine List.prefix_of_prefix_length_le (accepted_mono g1.1) e7 ?_
    change _ ≤ l'.b.delivered.length
    omega
  · rw [(stage hd h f1).quietA hl]
    exact List.nil_prefix

/-- C85: the same for what the application that listened has sent. -/
theorem C85_delivered_back {d ia ib : Nat} (hd : d ≤ 400) {lip rip lip' rip' : IpAddress} {lport rport lport' rport' : Nat} {l l' : Link}
    (h : Flows d (Link.new (opened true ia lip lport rip rport) (opened false ib lip' lport' rip' rport')) l) (h' : Flows d l l')
    (ha : ia + 1 + (accepted l'.a.out).length ≤ 0xFFFFFFFF) (hb : ib + 1 + (accepted l'.b.out).length ≤ 0xFFFFFFFF)
    (ht : l.now + (l.b.tx.length + 1459) / 1460 * (2 * d + 104) ≤ l'.now) :
    accepted l.b.out <+: received l'.a.out ++ l'.a.rx := by
  have hg := Logged.run logged_new h
  have g1 := hg.grows h'
  have hf : Fit ia ib l' := ⟨ha, hb⟩
  have f1 := hf.earlier g1.1 g1.2
  by_cases hl : 2 ≤ l.atB
  · have e1 := roundsB hd _ h h' hf hl ht
    have e2 := (stage hd h f1).viewB f1 hl
    have e3 := (stage hd (h.trans h') hf).viewB hf (Nat.le_trans hl (later h').atB)
    have e4 := e3.1.arrived
    have e5 := e2.1.sends.len
    have e6 := e2.1.ini
    have e7 := (C81_prefix _ _ _ _ _ _ _ _ _ _ _ _ (hg.run h').joined).1
    refine List.prefix_of_prefix_length_le (accepted_mono g1.2) e7 ?_
    change _ ≤ l'.a.delivered.length
    omega
  · rw [(stage hd h f1).quietB hl]
    exact List.nil_prefix

/-- How many bytes of data the segments carry. -/
def Spec.carried (l : List Seg) : Nat := (l.map fun g => g.data.length).sum

/-- C85: nothing is sent twice. -/
theorem C85_once {d ia ib : Nat} (hd : d ≤ 400) {lip rip lip' rip' : IpAddress} {lport rport lport' rport' : Nat} {l : Link}
    (h : Flows d (Link.new (opened true ia lip lport rip rport) (opened false ib lip' lport' rip' rport')) l)
    (ha : ia + 1 + (accepted l.a.out).length ≤ 0xFFFFFFFF) (hb : ib + 1 + (accepted l.b.out).length ≤ 0xFFFFFFFF) :
    carried (sent l.a.out) ≤ (accepted l.a.out).length ∧ carried (sent l.b.out) ≤ (accepted l.b.out).length := by
  have hl := (stage hd h ⟨ha, hb⟩).load ⟨ha, hb⟩
  have hg := Logged.run logged_new h
  rw [← hg.left, ← hg.right]
  simp only [Spec.carried, List.map_map]
  exact hl

namespace Example.Live

def isCall : Ev → Bool
  | .send _ => true
  | .recvAcquire => true
  | .recvTake _ => true
  | .connectReturn => true
  | _ => false

theorem call_of {e : Ev} (h : isCall e = true) : Call e := by
  cases e with
  | send d => exact .send d
  | recvAcquire => exact .recvAcquire
  | recvTake n => exact .recvTake n
  | connectReturn => exact .connectReturn
  | _ => cases h

def okay (d : Nat) (l : Link) : Act → Bool
  | .callA e => isCall e
  | .callB e => isCall e
  | .tick => (l.fromA.drop l.atB).all (fun x => l.now < x.1 + d) && (l.fromB.drop l.atA).all fun x => l.now < x.1 + d
  | _ => true

/-- The acts happen one after the other, as far as they may. -/
def follow (d : Nat) : Link → List Act → Link
  | l, [] => l
  | l, e :: es => if okay d l e then follow d (l.act e) es else l

theorem may_of {d : Nat} {l : Link} {e : Act} (h : okay d l e = true) : l.may d e := by
  cases e with
  | callA e => exact call_of h
  | callB e => exact call_of h
  | tick =>
    obtain ⟨h1, h2⟩ := Bool.and_eq_true_iff.1 h
    exact ⟨fun x hx => by simpa using List.all_eq_true.1 h1 x hx, fun x hx => by simpa using List.all_eq_true.1 h2 x hx⟩
  | arriveA => trivial
  | arriveB => trivial

theorem flows_follow {d : Nat} {l₀ l : Link} {es : List Act} (h : Flows d l₀ l) : Flows d l₀ (follow d l es) := by
  induction es generalizing l with
  | nil => exact h
  | cons e es ih =>
    unfold follow
    split
    · rename_i ho
      exact ih (.next h (may_of ho))
    · exact h

def x : Sess := opened true 100 Example.Session.lip 5000 Example.Session.rip 80
def y : Sess := opened false 500 Example.Session.rip 80 Example.Session.lip 5000

/-- The connection is opened; both ends send; the left end has three bytes to deliver, the right one two. -/
def first : List Act :=
  [.tick, .tick, .tick, .arriveB, .tick, .arriveA, .tick, .tick, .arriveB, .callA (.send [1, 2, 3]), .tick, .callB (.send [8, 9])]

/-- Time passes; within ten milliseconds everything arrives. -/
def second : List Act := (List.replicate 14 ([Act.arriveA, .arriveB] ++ List.replicate 9 Act.tick)).flatten

def l : Link := follow 10 (Link.new x y) first
def l' : Link := follow 10 l second

theorem flows_l : Flows 10 (Link.new x y) l := flows_follow .start
theorem flows_l' : Flows 10 l l' := flows_follow .start

/-- C85_connects, C85_delivered, C85_delivered_back, C85_once: there is something to deliver, nothing of it has arrived, and enough time
passes. -/
example : l.now = 7 ∧ l'.now = 133 ∧ accepted l.a.out = [1, 2, 3] ∧ accepted l.b.out = [8, 9] ∧ l.b.rx = [] ∧ l.a.rx = [] ∧
    l.a.tx.length = 3 ∧ l.b.tx.length = 2 := by decide +kernel

example : l'.a.state = .established ∧ l'.b.state = .established :=
  C85_connects (by decide) (flows_follow (es := second) flows_l) (by decide +kernel) (by decide +kernel) (by decide +kernel)

example : [1, 2, 3] <+: received l'.b.out ++ l'.b.rx := by
  have h := C85_delivered (by decide) flows_l flows_l' (by decide +kernel) (by decide +kernel) (by decide +kernel)
  rwa [show accepted l.a.out = [1, 2, 3] by decide +kernel] at h

example : [8, 9] <+: received l'.a.out ++ l'.a.rx := by
  have h := C85_delivered_back (by decide) flows_l flows_l' (by decide +kernel) (by decide +kernel) (by decide +kernel)
  rwa [show accepted l.b.out = [8, 9] by decide +kernel] at h

example : carried (sent l'.a.out) = 3 ∧ carried (sent l'.b.out) = 2 := by decide +kernel

end Example.Live

end Verif
