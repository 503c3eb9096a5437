import Verif.Lemmas.TcpClient
import Verif.Props.TcpServices
/-! C116: the TCP echo client, on its connection. -/
namespace Verif
open Spec TcpClient Echo Sess
open TcpEcho (send_outs)

section
variable {size count : Int} {p : Bool} {ia ib : Nat} {lip : IpAddress} {lport : Nat} {rip : IpAddress} {rport : Nat} {lip' : IpAddress} {lport' : Nat}
  {rip' : IpAddress} {rport' : Nat} {a b : Sess} {pc : Pc}

/-- C116: the form of a message; its length is 20 bytes for each block (while the numbers have five digits). -/
theorem C116_text (size : Int) : BlockMessage size (message size) ∧ (size ≤ 100001 → ((message size).length : Int) = 20 * max 2 size) := by
  constructor
  · refine ⟨(List.range (size - 2).toNat).map fun i => ascii "[------" ++ five (i + 1) ++ ascii "------] ", by simp, fun k hk => ?_, rfl⟩
    obtain ⟨w, h1, h2, -⟩ := five_figures (k + 1)
    rw [List.getElem_map, List.getElem_range]
    exact ⟨w, _, h1, h2, rfl⟩
  · intro h
    have e := blocks_length (size - 2).toNat (by omega)
    have e1 : (ascii "[------START------] ").length = 20 := by decide
    have e2 : (ascii "[-------END-------]\n").length = 20 := by decide
    unfold message
    rw [List.length_append, List.length_append, e, e1, e2]
    omega

/-- C116: whatever the other end and the network do: what the client has given to `send` is a number of messages, all the same, and no more than it was
made to send; what the other end has been given, and what waits for it, is the beginning of these. -/
theorem C116_stream (h : Dialled size count (opened p ia lip lport rip rport) (opened true ib lip' lport' rip' rport') a b pc) :
    ∃ (k : Nat) (m : Bytes), BlockMessage size m ∧ (0 ≤ count → (k : Int) ≤ count) ∧ accepted b.out = (List.replicate k m).flatten ∧
      received a.out ++ a.rx <+: (List.replicate k m).flatten := by
  obtain ⟨-, k, h2⟩ := TcpClient.script h (queue_opened ..) (TcpEcho.base ..).1
  have hp := (C81_prefix _ _ _ _ _ _ _ _ _ _ _ _ (TcpClient.joined h)).1
  have key : (0 ≤ count → (k : Int) ≤ count) ∧ accepted b.out = (List.replicate k (message size)).flatten := by
    cases pc with
    | connecting => exact ⟨fun x => by rw [h2.2]; simpa using x, by rw [h2.1, h2.2]; rfl⟩
    | failed => exact ⟨fun x => by rw [h2.2]; simpa using x, by rw [h2.1, h2.2]; rfl⟩
    | test n => exact ⟨fun x => by have := h2.2.2 x; have := h2.2.1; omega, h2.1⟩
    | saying n => exact ⟨fun x => by have := h2.2.2.2 x; have := h2.2.1; omega, h2.1⟩
    | closing => exact ⟨h2.2, h2.1⟩
    | ended => exact ⟨h2.2, h2.1⟩
    | died => exact ⟨h2.2, h2.1⟩
  exact ⟨k, message size, (C116_text size).1, key.1, key.2, key.2 ▸ hp⟩

/-- C116: a client whose session may send comes to its close only when it has sent as many messages as it was made to send, and so never if that is
negative. -/
theorem C116_count (h : Dialled size count (opened p ia lip lport rip rport) (opened true ib lip' lport' rip' rport') a b pc) (running : Bool)
    (hst : b.state = .established ∨ b.state = .closeWait) (ht : (turn running size count b pc).2 = .closing) :
    0 ≤ count ∧ ∃ m, BlockMessage size m ∧ accepted b.out = (List.replicate count.toNat m).flatten := by
  obtain ⟨-, k, h2⟩ := TcpClient.script h (queue_opened ..) (TcpEcho.base ..).1
  cases pc with
  | connecting =>
    rw [turn] at ht; dsimp only at ht; repeat' split at ht
    all_goals simp at ht
  | test n =>
    rw [turn] at ht
    dsimp only at ht
    split at ht
    · simp at ht
    · next hn =>
      have hk := h2.2.1
      refine ⟨by omega, message size, (C116_text size).1, ?_⟩
      rw [show count.toNat = k by omega]
      exact h2.1
  | saying n => rw [turn] at ht; dsimp only at ht; rw [if_pos hst] at ht; simp at ht
  | closing => rw [turn, close_quiet hst] at ht; simp at ht
  | failed => rw [turn] at ht; simp at ht
  | ended => rw [turn] at ht; simp at ht
  | died => rw [turn] at ht; simp at ht

/-- C116: when the client comes to say something, on a session that may send, it says a message; it comes to it whenever messages are left. -/
theorem C116_says (running : Bool) (n : Int) (hn : n ≠ 0) : (turn running size count b (.test n)) = (b, .saying n) ∧
    (b.state = .established ∨ b.state = .closeWait → ∃ m, BlockMessage size m ∧
      accepted (turn running size count b (.saying n)).1.out = accepted b.out ++ m ∧ (turn running size count b (.saying n)).2 = .test (n - 1)) := by
  refine ⟨by rw [turn, if_pos hn], fun hst => ⟨message size, (C116_text size).1, ?_, ?_⟩⟩
  · rw [turn]
    dsimp only
    rw [(send_outs b _).2.2, if_pos hst]
  · rw [turn]
    dsimp only
    rw [if_pos hst, show min n (n - 1) = n - 1 by omega]

/-- C116: when the other end has seen the client close, it has got whole messages, all that the client has sent. -/
theorem C116_complete (h : Dialled size count (opened p ia lip lport rip rport) (opened true ib lip' lport' rip' rport') a b pc)
    (hst : a.state = .closeWait ∨ a.state = .closing ∨ a.state = .lastAck ∨ a.state = .timeWait) :
    ∃ (k : Nat) (m : Bytes), BlockMessage size m ∧ (0 ≤ count → (k : Int) ≤ count) ∧ received a.out ++ a.rx = (List.replicate k m).flatten := by
  obtain ⟨k, m, h1, h2, h3, -⟩ := C116_stream h
  exact ⟨k, m, h1, h2, by rw [C81_fin_means_all _ _ _ _ _ _ _ _ _ _ _ _ (TcpClient.joined h) hst, h3]⟩

/-- C116: when the client has returned after its messages, for whatever reason, its end of the connection is closing. -/
theorem C116_closes (h : Dialled size count (opened p ia lip lport rip rport) (opened true ib lip' lport' rip' rport') a b .ended) : ClosesDown b :=
  TcpClient.close_inv h (queue_opened ..) (TcpEcho.base ..).1 rfl

/-- C116: the client sends nothing when the connection is not made. -/
theorem C116_failed (h : Dialled size count (opened p ia lip lport rip rport) (opened true ib lip' lport' rip' rport') a b pc)
    (hp : pc = .connecting ∨ pc = .failed) : accepted b.out = [] := by
  obtain ⟨-, k, h2⟩ := TcpClient.script h (queue_opened ..) (TcpEcho.base ..).1
  rcases hp with rfl | rfl <;> exact h2.1

/-- C116: a client whose `connect` has failed, refused or without an answer, returns, and does nothing more with its session: no send, no close. -/
theorem C116_returns (hw : b.evConnect ≠ 0) (hst : b.state ≠ .established) (he : b.err = .refused ∨ b.err = .timeout) (running : Bool) :
    (turn running size count b .connecting).2 = .failed ∧
    accepted (turn running size count b .connecting).1.out = accepted b.out ∧
    ∀ (rs : List Bool) (b' : Sess), rs.foldl (fun x r => turn r size count x.1 x.2) (b', .failed) = (b', .failed) := by
  refine ⟨by rw [turn, if_neg hw, if_pos ⟨hst, he⟩], by rw [turn]; exact TcpClient.connect_outs b, fun rs b' => ?_⟩
  induction rs with
  | nil => rfl
  | cons r rs ih => exact ih

/-- C116: the thread of the client does not end by an exception as long as its session may send; and no failure of `connect` or `send` ends it so. -/
theorem C116_lives (running : Bool) (pc : Pc) (hp : pc ≠ .died) (hst : (b.state = .established ∨ b.state = .closeWait) ∨ pc ≠ .closing) :
    (turn running size count b pc).2 ≠ .died := by
  cases pc with
  | connecting =>
    rw [turn]; dsimp only; repeat' split
    all_goals simp
  | test n => rw [turn]; dsimp only; split <;> simp
  | saying n => rw [turn]; dsimp only; split <;> simp
  | closing =>
    rcases hst with hst | hst
    · rw [turn, close_quiet hst]; simp
    · exact absurd rfl hst
  | failed => rw [turn]; simp
  | ended => rw [turn]; simp
  | died => exact absurd rfl hp

end

/-! ### Examples -/

namespace Example.TcpClient
open Example.Net (arrive isSeg)

/-- What happens: an event at the other end or, by the stack, at the client; the arrival there of the `n`-th segment of the other; a turn. -/
inductive Act
  | s (e : Sess.Ev)
  | timer
  | toS (n : Nat)
  | toC (n : Nat)
  | turn (running : Bool)

structure St where
  a : Sess
  b : Sess
  pc : TcpClient.Pc

def act (size count : Int) (z : St) : Act → St
  | .s e => if isSeg e then z else { z with a := z.a.step e }
  | .timer => { z with b := z.b.step .timer }
  | .toS n => match (sent z.b.out)[n]? with
    | some g => { z with a := z.a.step (.segment (arrive z.a.lip z.a.lport z.a.rip z.a.rport g)) }
    | none => z
  | .toC n => match (sent z.a.out)[n]? with
    | some g => { z with b := z.b.step (.segment (arrive z.b.lip z.b.lport z.b.rip z.b.rport g)) }
    | none => z
  | .turn r => { z with b := (Verif.TcpClient.turn r size count z.b z.pc).1, pc := (Verif.TcpClient.turn r size count z.b z.pc).2 }

def x : Sess := opened false 500 Example.Session.rip 7 Example.Session.lip 5000
def y : Sess := opened true 100 Example.Session.lip 5000 Example.Session.rip 7
def runs (size count : Int) (l : List Act) : St := l.foldl (act size count) ⟨x, y, .connecting⟩

theorem dialled {size count : Int} (l : List Act) : Dialled size count x y (runs size count l).a (runs size count l).b (runs size count l).pc := by
  induction l using List.reverseRecOn with
  | nil => exact .start
  | append_singleton l c ih =>
    have e : runs size count (l ++ [c]) = act size count (runs size count l) c := by simp [runs, List.foldl_append]
    rw [e]
    generalize runs size count l = z at ih
    cases c with
    | s e =>
      simp only [act]
      split
      · exact ih
      · next h =>
        refine .peer ih (fun m hm => ?_)
        rw [hm] at h; simp [isSeg] at h
    | timer => exact .stack ih .timer (fun m hm => nomatch hm)
    | toS n =>
      simp only [act]
      split
      · next g hg =>
        dsimp only
        refine .peer ih (fun m hm => .inr ⟨g, List.mem_of_getElem? hg, ?_⟩)
        injection hm with hm
        rw [← hm]; exact ⟨rfl, rfl, rfl, rfl, rfl, rfl, rfl⟩
      · exact ih
    | toC n =>
      simp only [act]
      split
      · next g hg =>
        dsimp only
        refine .stack ih (.segment _) (fun m hm => .inr ⟨g, List.mem_of_getElem? hg, ?_⟩)
        injection hm with hm
        rw [← hm]; exact ⟨rfl, rfl, rfl, rfl, rfl, rfl, rfl⟩
      · exact ih
    | turn r => exact .client r ih

/-- The connection is opened, and the client is given some turns. -/
def talk : List Act := [.timer, .toS 0, .s .timer, .toC 0, .toS 1, .turn true, .turn true, .turn true, .turn true, .turn true, .timer, .toS 2]

/-- Its first two messages are over; now it closes, and the other end learns of it. -/
def over : List Act := talk ++ [.s .clock, .s .timer, .toC 1, .turn true, .turn true, .timer, .timer, .toS 3]

/-- C116_stream, C116_count, C116_says, C116_lives: a client made to send two messages of three blocks has sent them and comes to its close. -/
example : (runs 3 2 talk).pc = .test 0 ∧ (runs 3 2 talk).b.state = .established ∧ (Verif.TcpClient.turn true 3 2 (runs 3 2 talk).b (.test 0)).2 = .closing ∧
    accepted (runs 3 2 talk).b.out =
      ascii "[------START------] [------00001------] [-------END-------]\n[------START------] [------00001------] [-------END-------]\n" ∧
    (runs 3 2 talk).a.rx = accepted (runs 3 2 talk).b.out := by decide +kernel

/-- C116_failed: before the handshake, the thread waits. -/
example : (runs 3 2 [.timer, .turn true]).pc = .connecting := by decide +kernel

/-- C116_returns: the other end answers the SYN with RST. -/
def refused : Sess := (y.step .timer).step (.segment ⟨y.lip, 5000, y.rip, 7, false, true, false, true, 0, 101, 0, none, 0, []⟩)
example : refused.evConnect ≠ 0 ∧ refused.state = .closed ∧ refused.err = .refused := by decide +kernel

end Example.TcpClient

/-- C116 fails here: a client that is to send without end goes on when it has been stopped: its turns are the same, and while its session may send,
no turn brings it to its close; at the test of its loop it comes to the next message. -/
theorem C116_stop_witness : (∃ a b n, Dialled 3 (-1) Example.TcpClient.x Example.TcpClient.y a b (.test n) ∧ b.state = .established ∧
      turn false 3 (-1) b (.test n) = (b, .saying n)) ∧
    ∀ (size count : Int) (a b : Sess) (pc : Pc), count < 0 → Dialled size count Example.TcpClient.x Example.TcpClient.y a b pc →
      turn false size count b pc = turn true size count b pc ∧
      (b.state = .established ∨ b.state = .closeWait → (turn false size count b pc).2 ≠ .closing) := by
  constructor
  · have h := Example.TcpClient.dialled (size := 3) (count := -1) Example.TcpClient.talk
    generalize hz : Example.TcpClient.runs 3 (-1) _ = z at h
    have e : z.pc = .test (-3) ∧ z.b.state = .established := by rw [← hz]; decide +kernel
    rw [e.1] at h
    exact ⟨z.a, z.b, -3, h, e.2, (C116_says false (-3) (by omega)).1⟩
  · intro size count a b pc hc h
    refine ⟨by cases pc <;> rfl, fun hst ht => ?_⟩
    have := (C116_count h false hst ht).1
    omega

namespace Example.TcpClient
/-- C116_complete, C116_closes -/
example : (runs 3 2 over).pc = .ended ∧ (runs 3 2 over).b.closes = true := by decide +kernel
example : (runs 3 2 over).a.state = .closeWait := by decide +kernel
end Example.TcpClient

end Verif
