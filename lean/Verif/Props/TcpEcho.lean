import Verif.Lemmas.TcpEcho
import Verif.Props.Echo
/-! C103: the TCP echo service, on a connection. -/
namespace Verif
open Spec TcpEcho Echo Sess

/-! ### The replies -/

theorem TcpEcho.reply_to (d : Bytes) : ReplyTo d (reply d) := by
  unfold reply
  split
  · exact .closed ‹_›
  · split
    · exact .ending ‹_› ((asksEnd_iff d).1 ‹_›)
    · exact .echo ‹_› (fun x => ‹¬ _› ((asksEnd_iff d).2 x)) (C102_message d).1

/-- C103: what the service sends for what it has read is determined: the closing message for the empty string, the other closing message for
one of the four words, and otherwise what the UDP service sends (C102). -/
theorem C103_reply (d : Bytes) : ∃ x, ReplyTo d x ∧ ∀ y, ReplyTo d y → y = x := by
  refine ⟨reply d, reply_to d, fun y hy => ?_⟩
  have ha := asksEnd_iff d
  unfold reply
  cases hy with
  | closed h => rw [if_pos h]; rfl
  | ending h1 h2 => rw [if_neg h1, if_pos (ha.2 h2)]; rfl
  | echo h1 h2 h3 => rw [if_neg h1, if_neg (fun x => h2 (ha.1 x))]; exact (C102_message d).2 y h3

theorem TcpEcho.base (q : Bool) (ib : Nat) (lip : IpAddress) (lport : Nat) (rip : IpAddress) (rport : Nat) :
    accepted (opened q ib lip lport rip rport).out = [] ∧ returned (opened q ib lip lport rip rport).out = [] ∧
      (opened q ib lip lport rip rport).readers = 0 := by
  rw [opened_eq]; cases q <;> simp [new, accepted, returned]

theorem TcpEcho.replies (l : List Bytes) : List.Forall₂ ReplyTo l (l.map reply) := by
  induction l with
  | nil => exact .nil
  | cons d l ih => exact .cons (reply_to d) ih

theorem TcpEcho.replies_eq {l rs : List Bytes} (h : List.Forall₂ ReplyTo l rs) : rs = l.map reply := by
  induction h with
  | nil => rfl
  | @cons d x l rs hx _ ih =>
    rw [ih, List.map_cons]
    obtain ⟨y, -, h2⟩ := C103_reply d
    rw [h2 _ hx, h2 _ (reply_to _)]

section
variable {calm : Prop} {p q : Bool} {ia ib : Nat} {lip : IpAddress} {lport : Nat} {rip : IpAddress} {rport : Nat} {lip' : IpAddress} {lport' : Nat}
  {rip' : IpAddress} {rport' : Nat} {a b : Sess} {pc : Pc}

/-- C103: whatever the client and the network do: what the service has given to `send` is its greeting and then the replies to what it has
read, in order, each once; the first so many of these, and all of them while it waits for more and when it has ended. -/
theorem C103_stream (h : Served calm (opened p ia lip lport rip rport) (opened q ib lip' lport' rip' rport') a b pc) :
    ∃ rs, List.Forall₂ ReplyTo (returned b.out) rs ∧
      (∃ k, accepted b.out = ((greeting :: rs).take k).flatten ∧ rs.length ≤ k) ∧
      (pc = .recv ∨ pc = .ended → accepted b.out = greeting ++ rs.flatten) := by
  have hs := (script h (queue_opened ..) (base ..)).2
  refine ⟨(returned b.out).map reply, replies _, ?_, ?_⟩
  · have all : accepted b.out = hello ++ ((returned b.out).map reply).flatten → ∃ k, accepted b.out =
        ((greeting :: (returned b.out).map reply).take k).flatten ∧ ((returned b.out).map reply).length ≤ k :=
      fun e => ⟨((returned b.out).map reply).length + 1, by rw [List.take_of_length_le (by simp), List.flatten_cons]; exact e, by omega⟩
    have one : ∀ l d, returned b.out = l ++ [d] → accepted b.out = hello ++ (l.map reply).flatten → ∃ k, accepted b.out =
        ((greeting :: (returned b.out).map reply).take k).flatten ∧ ((returned b.out).map reply).length ≤ k := by
      intro l d e1 e2
      refine ⟨l.length + 1, ?_, by rw [e1]; simp⟩
      rw [e1, e2, List.take_succ_cons, List.map_append, List.take_append_of_le_length (by simp), List.take_of_length_le (by simp)]
      rfl
    cases pc with
    | hello => exact ⟨0, by rw [hs.1]; rfl, by rw [hs.2.1]; simp⟩
    | test => exact all hs.1
    | recv => exact all hs.1
    | taking => exact all hs.1
    | got d => obtain ⟨_, l, e1, e2, _⟩ := hs; exact one l d e1 e2
    | closing again => exact all hs.1
    | ended => exact all hs.1
    | died =>
      rcases hs.2 with x | ⟨l, d, e1, e2, _⟩ | x
      · exact ⟨0, by rw [x.1]; rfl, by rw [x.2]; simp⟩
      · exact one l d e1 e2
      · exact all x.1
  · rintro (rfl | rfl)
    · exact hs.1
    · exact hs.1

/-- C103: the service reads nothing more once it has read the empty string. -/
theorem C103_last (h : Served calm (opened p ia lip lport rip rport) (opened q ib lip' lport' rip' rport') a b pc) (l₁ l₂ : List Bytes)
    (hr : returned b.out = l₁ ++ [] :: l₂) : l₂ = [] ∧ [] ∉ l₁ := by
  have hs := (script h (queue_opened ..) (base ..)).2
  have no : [] ∉ returned b.out → l₂ = [] ∧ [] ∉ l₁ := fun x => absurd (by rw [hr]; simp) x
  have last : ∀ l d, returned b.out = l ++ [d] → [] ∉ l → l₂ = [] ∧ [] ∉ l₁ := by
    intro l d e hl
    rw [hr] at e
    rcases List.eq_nil_or_concat l₂ with x | ⟨l', d', x⟩
    · subst x
      obtain ⟨e1, -⟩ := List.append_inj' e rfl
      exact ⟨rfl, by rw [e1]; exact hl⟩
    · subst x
      rw [List.concat_eq_append, ← List.cons_append, ← List.append_assoc] at e
      obtain ⟨e1, -⟩ := List.append_inj' e rfl
      exact absurd (by rw [← e1]; simp) hl
  cases pc with
  | hello => exact no (by rw [hs.2.1]; simp)
  | test => exact no hs.2.1
  | recv => exact no hs.2.1
  | taking => exact no hs.2.1
  | got d => obtain ⟨_, l, e1, _, e3⟩ := hs; exact last l d e1 e3
  | closing again =>
    obtain ⟨-, -, h3⟩ := hs
    cases again
    · obtain ⟨l, e1, e2⟩ : ∃ l, returned b.out = l ++ [[]] ∧ [] ∉ l := by simpa using h3
      exact last l _ e1 e2
    · exact no (by simpa using h3)
  | ended =>
    rcases hs.2.2 with x | ⟨l, e1, e2⟩
    · exact no x
    · exact last l _ e1 e2
  | died =>
    rcases hs.2 with x | ⟨l, d, e1, _, e3⟩ | ⟨_, x | ⟨l, e1, e2⟩⟩
    · exact no (by rw [x.2]; simp)
    · exact last l d e1 e3
    · exact no x
    · exact last l _ e1 e2

/-- C103: what the client has been given, and what waits for it, is the beginning of greeting and replies; what the service has read is the
beginning of what the client has sent. -/
theorem C103_client (h : Served calm (opened p ia lip lport rip rport) (opened q ib lip' lport' rip' rport') a b pc) :
    ∃ rs, List.Forall₂ ReplyTo (returned b.out) rs ∧ received a.out ++ a.rx <+: greeting ++ rs.flatten ∧
      (returned b.out).flatten <+: accepted a.out := by
  obtain ⟨rs, h1, ⟨k, h2, -⟩, -⟩ := C103_stream h
  obtain ⟨h3, h4⟩ := C81_prefix _ _ _ _ _ _ _ _ _ _ _ _ (joined h)
  refine ⟨rs, h1, h3.trans ?_, ?_⟩
  · rw [h2, show greeting ++ rs.flatten = (greeting :: rs).flatten from rfl]
    obtain ⟨t, ht⟩ := List.take_prefix k (greeting :: rs)
    exact ⟨t.flatten, by rw [← List.flatten_append, ht]⟩
  · rw [← received_eq]
    exact (List.prefix_append _ _).trans h4

/-- C103: once the service has read the end of the stream or one of the four words, and goes on from there or has ended, its end of the
connection is closing. -/
theorem C103_closes (h : Served calm (opened p ia lip lport rip rport) (opened q ib lip' lport' rip' rport') a b pc)
    (hd : ∃ d ∈ returned b.out, d = [] ∨ SaysEnd d) (hp : pc = .recv ∨ pc = .ended) : ClosesDown b := by
  have hi := close_inv h (queue_opened ..) (base ..)
  have : Over (returned b.out) := by
    obtain ⟨d, h1, h2⟩ := hd
    exact ⟨d, h1, h2.imp id (asksEnd_iff d).2⟩
  rcases hp with rfl | rfl <;> exact hi this

/-- C103: a service that is not stopped returns only after it has read the end of the stream. -/
theorem C103_goes_on (h : Served calm (opened p ia lip lport rip rport) (opened q ib lip' lport' rip' rport') a b pc)
    (ht : (turn true b pc).2 = .ended) (hp : pc ≠ .ended) : [] ∈ returned b.out := by
  have hs := (script h (queue_opened ..) (base ..)).2
  have no : ∀ x next, next ≠ Pc.ended → (say b x next).2 ≠ .ended := by
    intro x next hn
    rw [say]; dsimp only; split
    · exact hn
    · simp
  cases pc with
  | hello => exact absurd ht (no _ _ (by simp))
  | test => rw [turn] at ht; simp at ht
  | recv => rw [turn] at ht; split at ht <;> simp at ht
  | taking => rw [turn] at ht; simp at ht
  | got d =>
    rw [turn] at ht
    split at ht
    · exact absurd ht (no _ _ (by simp))
    · split at ht
      · exact absurd ht (no _ _ (by simp))
      · exact absurd ht (no _ _ (by simp))
  | closing again =>
    cases again
    · obtain ⟨l, e, -⟩ : ∃ l, returned b.out = l ++ [[]] ∧ [] ∉ l := by simpa using hs.2.2
      rw [e]; simp
    · rw [turn] at ht
      dsimp only at ht
      split at ht <;> simp at ht
  | ended => exact absurd rfl hp
  | died => rw [turn] at ht; simp at ht

theorem Spec.Occurs.infix {w c d : Bytes} (h : Occurs w c) (hc : c <:+: d) : Occurs w d := by
  obtain ⟨a, x, b, rfl, hx⟩ := h
  obtain ⟨s, t, rfl⟩ := hc
  exact ⟨s ++ a, x, b ++ t, by simp, hx⟩

theorem TcpEcho.plain {d x : Bytes} (hw : ∀ w ∈ echoWords, ¬ Occurs w d) (h0 : d ≠ []) (h : ReplyTo d x) : x = d := by
  cases h with
  | closed h => exact absurd h h0
  | ending _ h =>
    obtain ⟨w, hm, a, c, b, e, _, hl, hp⟩ := h
    refine absurd ⟨a, c, b, e, hl, hp⟩ (hw w ?_)
    have sub : [ascii "quit", ascii "close", ascii "bye", ascii "exit"] ⊆ echoWords := by
      intro x hx
      exact List.mem_append_left [ascii "malpka", ascii "malpa", ascii "malpi"] hx
    exact sub hm
  | echo _ _ h =>
    cases h with
    | malpka h => exact absurd h (hw _ (by simp [echoWords]))
    | malpa _ h => exact absurd h (hw _ (by simp [echoWords]))
    | malpi _ _ h => exact absurd h (hw _ (by simp [echoWords]))
    | same => rfl

theorem TcpEcho.plain_all {l : List Bytes} (hw : ∀ w ∈ echoWords, ¬ Occurs w l.flatten) (h0 : [] ∉ l) : l.map reply = l := by
  have : ∀ d ∈ l, reply d = d := by
    intro d hd
    refine plain (fun w hm ho => hw w hm (ho.infix ?_)) (fun e => h0 (e ▸ hd)) (reply_to d)
    obtain ⟨s, t, rfl⟩ := List.append_of_mem hd
    exact ⟨s.flatten, t.flatten, by simp⟩
  exact (List.map_congr_left this).trans (List.map_id l)

theorem TcpEcho.plain_stream {l : List Bytes} (hw : ∀ w ∈ echoWords, ¬ Occurs w l.flatten) (hl : ∀ l₁ l₂, l = l₁ ++ [] :: l₂ → l₂ = [] ∧ [] ∉ l₁) :
    (l.map reply).flatten = l.flatten ++ (if [] ∈ l then closedMsg else []) := by
  by_cases hm : [] ∈ l
  · obtain ⟨l₁, l₂, e⟩ := List.append_of_mem hm
    obtain ⟨e1, e2⟩ := hl l₁ l₂ e
    rw [if_pos hm, e, e1, List.map_append, plain_all (fun w hw' ho => hw w hw' (ho.infix ⟨[], l₂.flatten, by rw [e]; simp⟩)) e2]
    simp [reply]
  · rw [if_neg hm, plain_all hw hm, List.append_nil]

/-- C103: to a client that sends none of the service's words, however its bytes are cut into pieces on their way: it is given the greeting, and
then its own bytes, in order, and nothing else but, after them, the closing message; and while the service waits for more, all that it has
read has been sent back. -/
theorem C103_echo (h : Served calm (opened p ia lip lport rip rport) (opened q ib lip' lport' rip' rport') a b pc)
    (hw : ∀ w ∈ echoWords, ¬ Occurs w (accepted a.out)) :
    (∃ d, d <+: accepted a.out ∧ received a.out ++ a.rx <+: greeting ++ d ++ ascii "***CLIENT CLOSED, SERVICE CLOSING***\n") ∧
    (pc = .recv → accepted b.out = greeting ++ received b.out) := by
  have hp := (C81_prefix _ _ _ _ _ _ _ _ _ _ _ _ (joined h)).2
  have hr : received b.out <+: accepted a.out := (List.prefix_append _ _).trans hp
  have hw' : ∀ w ∈ echoWords, ¬ Occurs w (returned b.out).flatten := fun w hm ho =>
    hw w hm (ho.infix (by rw [← received_eq]; exact hr.isInfix))
  have hf := plain_stream hw' (fun l₁ l₂ => C103_last h l₁ l₂)
  constructor
  · refine ⟨received b.out, hr, ?_⟩
    obtain ⟨rs, h1, h2, -⟩ := C103_client h
    have e := replies_eq h1
    refine h2.trans ?_
    rw [e, hf, ← received_eq, ← List.append_assoc]
    split
    · exact List.prefix_refl _
    · rw [List.append_nil]; exact List.prefix_append _ _
  · rintro rfl
    have hs := (script h (queue_opened ..) (base ..)).2
    rw [hs.1, hf, if_neg hs.2.1, ← received_eq, List.append_nil]
    rfl

end

/-- C103: when no receive call of the service is interrupted by the stack, and the service has come to its end after reading the end of the
stream: it has read all that the client has sent and ever will; and if the client has sent none of the service's words, what the service has
sent is the greeting, all of the client's bytes and the closing message, and that is what the client has got once it has taken the service's
FIN.  Partial: a call that is interrupted may read an end that is not there, see `C103_race_witness`. -/
theorem C103_all_partial {p q : Bool} {ia ib : Nat} {lip : IpAddress} {lport : Nat} {rip : IpAddress} {rport : Nat} {lip' : IpAddress} {lport' : Nat}
    {rip' : IpAddress} {rport' : Nat} {a b : Sess} (h : Served True (opened p ia lip lport rip rport) (opened q ib lip' lport' rip' rport') a b .ended)
    (hr : [] ∈ returned b.out) :
    received b.out = accepted a.out ∧
    ((∀ w ∈ echoWords, ¬ Occurs w (accepted a.out)) →
      accepted b.out = greeting ++ accepted a.out ++ ascii "***CLIENT CLOSED, SERVICE CLOSING***\n" ∧
      (a.state = .closeWait ∨ a.state = .closing ∨ a.state = .lastAck ∨ a.state = .timeWait →
        received a.out ++ a.rx = greeting ++ accepted a.out ++ ascii "***CLIENT CLOSED, SERVICE CLOSING***\n")) := by
  have hC : Complete a b := end_inv h hr
  refine ⟨hC.2, fun hw => ?_⟩
  have hs := (script h (queue_opened ..) (base ..)).2
  have e : accepted b.out = greeting ++ accepted a.out ++ ascii "***CLIENT CLOSED, SERVICE CLOSING***\n" := by
    rw [hs.1, plain_stream (fun w hm ho => hw w hm (by rw [← received_eq, hC.2] at ho; exact ho)) (fun l₁ l₂ => C103_last h l₁ l₂), if_pos hr,
      ← received_eq, hC.2, List.append_assoc]
    rfl
  refine ⟨e, fun hst => ?_⟩
  rw [← e]
  exact C81_fin_means_all _ _ _ _ _ _ _ _ _ _ _ _ (joined h) hst

/-- C103: the thread of the service does not end by an exception as long as its session may send. -/
theorem C103_lives {b : Sess} (hst : b.state = .established ∨ b.state = .closeWait) (pc : Pc) (hp : pc ≠ .died) (running : Bool) :
    (turn running b pc).2 ≠ .died := by
  have close : (b.fsm (.sys .close)).exc = none := by
    rcases hst with h | h
    · rw [fsm_established h]; rfl
    · unfold fsm; rw [fsmFuel]; unfold fsmWith; rw [h]; rfl
  cases pc with
  | hello => rw [turn, say]; dsimp only; rw [if_pos hst]; simp
  | test => rw [turn]; dsimp only; split <;> simp
  | recv => rw [turn]; split <;> simp
  | taking => rw [turn]; simp
  | got d => rw [turn]; repeat' split
             all_goals rw [say]; dsimp only; rw [if_pos hst]; simp
  | closing again => rw [turn]; dsimp only; rw [close]; cases again <;> simp
  | ended => rw [turn]; simp
  | died => exact absurd rfl hp

/-! ### Examples -/

namespace Example.TcpEcho
open Example.Net (arrive isSeg x)

/-- What happens: an event at the client or, by the stack, at the service; the arrival there of the `n`-th segment of the other; a turn. -/
inductive Act
  | c (e : Sess.Ev)
  | timer
  | clock
  | toC (n : Nat)
  | toS (n : Nat)
  | turn

structure St where
  a : Sess
  b : Sess
  pc : Pc

def act (calm : Bool) (z : St) : Act → St
  | .c e => if isSeg e then z else { z with a := z.a.step e }
  | .timer => if calm && z.pc = .taking then z else { z with b := z.b.step .timer }
  | .clock => if calm && z.pc = .taking then z else { z with b := z.b.step .clock }
  | .toC n => match (sent z.b.out)[n]? with
    | some g => { z with a := z.a.step (.segment (arrive z.a.lip z.a.lport z.a.rip z.a.rport g)) }
    | none => z
  | .toS n => match (sent z.a.out)[n]? with
    | some g => if calm && z.pc = .taking then z else { z with b := z.b.step (.segment (arrive z.b.lip z.b.lport z.b.rip z.b.rport g)) }
    | none => z
  | .turn => if Out.queued ∈ z.b.out then { z with b := (Verif.TcpEcho.turn true z.b z.pc).1, pc := (Verif.TcpEcho.turn true z.b z.pc).2 } else z

def y : Sess := opened false 500 Example.Session.rip 7 Example.Session.lip 5000
def x' : Sess := opened true 100 Example.Session.lip 5000 Example.Session.rip 7
def runs (calm : Bool) (l : List Act) : St := l.foldl (act calm) ⟨x', y, .hello⟩

theorem served {calm : Bool} (l : List Act) : Served (calm = true) x' y (runs calm l).a (runs calm l).b (runs calm l).pc := by
  induction l using List.reverseRecOn with
  | nil => exact .start
  | append_singleton l c ih =>
    have e : runs calm (l ++ [c]) = act calm (runs calm l) c := by simp [runs, List.foldl_append]
    rw [e]
    generalize runs calm l = z at ih
    have free : ∀ {pc : Pc} {e : Sess.Ev}, ¬ (calm && decide (pc = .taking)) = true → (calm = true → pc = .taking → ∃ r, e = .table r) := by
      intro pc e h h1 h2
      rw [h1, h2] at h; exact absurd rfl h
    cases c with
    | c e =>
      simp only [act]
      split
      · exact ih
      · next h =>
        refine .client ih (fun m hm => ?_)
        rw [hm] at h; simp [isSeg] at h
    | timer =>
      simp only [act]
      split
      · exact ih
      · next h => exact .stack ih .timer (fun m hm => nomatch hm) (free h)
    | clock =>
      simp only [act]
      split
      · exact ih
      · next h => exact .stack ih .clock (fun m hm => nomatch hm) (free h)
    | toC n =>
      simp only [act]
      split
      · next g hg =>
        dsimp only
        refine .client ih (fun m hm => .inr ⟨g, List.mem_of_getElem? hg, ?_⟩)
        injection hm with hm
        rw [← hm]; exact ⟨rfl, rfl, rfl, rfl, rfl, rfl, rfl⟩
      · exact ih
    | toS n =>
      simp only [act]
      split
      · next g hg =>
        split
        · exact ih
        · next h =>
          dsimp only
          refine .stack ih (.segment _) (fun m hm => .inr ⟨g, List.mem_of_getElem? hg, ?_⟩) (free h)
          injection hm with hm
          rw [← hm]; exact ⟨rfl, rfl, rfl, rfl, rfl, rfl, rfl⟩
      · exact ih
    | turn =>
      simp only [act]
      split
      · next h => exact .service true ih h
      · exact ih

/-- The connection is opened, the service greets the client, and waits. -/
def opening : List Act := [.c .timer, .toS 0, .timer, .toC 0, .toS 1, .turn, .turn, .timer, .toC 1]

/-- The client sends "ab" and "Cd", which the service reads at once, and then again "e"; it closes. -/
def talk : List Act := opening ++
  [.c (.send (ascii "ab")), .c .timer, .toS 2, .c (.send (ascii "Cd")), .c .timer, .toS 3, .turn, .turn, .turn, .turn, .timer, .toC 2,
   .c (.send (ascii "e")), .c .timer, .toS 4, .turn, .turn, .turn, .turn, .timer, .toC 3, .c .close, .c .timer, .c .timer, .toS 5,
   .turn, .turn, .turn, .turn, .timer, .toC 4, .timer, .timer, .toC 4, .toC 5, .c .timer]

def ends : List Act := talk ++ List.replicate 100 (.c .clock) ++ [.c .timer, .toS 6, .timer, .timer, .toC 5]

/-- C103_stream, C103_client, C103_echo, C103_all_partial: what has been read, what has been sent and what has come; the client has taken the FIN. -/
example : returned (runs true talk).b.out = [ascii "abCd", ascii "e", []] ∧ (runs true talk).pc = .ended ∧
    accepted (runs true talk).b.out = ascii "***CLIENT OPEN / SERVICE OPEN***\nabCde***CLIENT CLOSED, SERVICE CLOSING***\n" ∧
    (runs true ends).a.rx = accepted (runs true talk).b.out ∧ (runs true ends).pc = .ended ∧ (runs true ends).a.state = .timeWait := by decide +kernel

/-- The hypotheses of C103_echo and C103_all_partial. -/
example : ∀ w ∈ echoWords, ¬ Occurs w (ascii "abCde") := by
  have h : ∀ w ∈ echoWords, (w ≠ [] ∧ ∀ y ∈ w, 97 ≤ y ∧ y ≤ 122) ∧ within w (lower (strip (ascii "abCde"))) = false := by decide +kernel
  intro w hw ho
  have := (occurs_iff (h w hw).1.1 (h w hw).1.2 _).2 ho
  rw [(h w hw).2] at this; cases this
example : [] ∈ returned (runs true ends).b.out ∧ (runs true ends).pc = .ended ∧ accepted (runs true ends).a.out = ascii "abCde" := by decide +kernel

/-- C103_goes_on: there is such a turn. -/
example : (runs true (talk.take 37)).pc = .closing false ∧ (Verif.TcpEcho.turn true (runs true (talk.take 37)).b (.closing false)).2 = .ended := by
  decide +kernel

/-- "quit", as "Quit" with a newline: the service says its last message, closes, and waits for more. -/
def quit : List Act := opening ++
  [.c (.send (ascii "Quit\n")), .c .timer, .toS 2, .turn, .turn, .turn, .turn, .turn, .timer, .toC 2]

/-- The client's answer, and the service's FIN. -/
def left : List Act := quit ++ List.replicate 100 (.c .clock) ++ [.c .timer, .toS 3, .timer, .timer, .toC 3]

/-- The client closes as well, and the connection ends as it should. -/
def stuck : List Act := left ++ List.replicate 100 (.c .clock) ++ [.c .timer, .toS 4, .c .close, .c .timer, .c .timer, .toS 5]

/-- C103_lives: the session may send.  C103_closes: it is closing. -/
example : (runs true quit).b.closes = true ∧ (runs true quit).b.state = .established ∧ (runs true quit).pc = .recv ∧
    accepted (runs true quit).b.out = ascii "***CLIENT OPEN / SERVICE OPEN***\n***CLIENT OPEN, SERVICE CLOSING***\n" := by decide +kernel

end Example.TcpEcho

/-! ### Where the service fails -/

/-- C103 fails when a segment arrives while the service is in a receive call: it then reads the empty string although the client has neither
closed nor been reset, says that the client has closed, and closes the connection. -/
theorem C103_race_witness : ∃ a b, Served False Example.TcpEcho.x' Example.TcpEcho.y a b .ended ∧ a.state = .established ∧ b.state = .established ∧
    b.closes = true ∧ (∀ g ∈ sent a.out, g.fin = false ∧ g.rst = false) ∧
    accepted b.out = greeting ++ ascii "abcd" ++ ascii "***CLIENT CLOSED, SERVICE CLOSING***\n" := by
  have h := Example.TcpEcho.served (calm := false) (Example.TcpEcho.opening ++
    [.c (.send (ascii "ab")), .c .timer, .toS 2, .turn, .c (.send (ascii "cd")), .c .timer, .toS 3, .turn, .turn, .turn, .turn, .turn, .turn, .turn])
  generalize hz : Example.TcpEcho.runs false _ = z at h
  have e : z.pc = .ended ∧ z.a.state = .established ∧ z.b.state = .established ∧ z.b.closes = true ∧
      (∀ g ∈ sent z.a.out, g.fin = false ∧ g.rst = false) ∧
      accepted z.b.out = greeting ++ ascii "abcd" ++ ascii "***CLIENT CLOSED, SERVICE CLOSING***\n" := by
    rw [← hz]; decide +kernel
  rw [e.1] at h
  rw [show (False : Prop) = (false = true) by simp]
  exact ⟨z.a, z.b, h, e.2⟩

/-- What the stack does with a session in TIME-WAIT or CLOSED. -/
theorem over_step {s : Sess} (h : (s.state = .timeWait ∨ s.state = .closed) ∧ s.evRx = 0) {e : Sess.Ev} (he : ByStack e) :
    ((s.step e).state = .timeWait ∨ (s.step e).state = .closed) ∧ (s.step e).evRx = 0 := by
  have done : ∀ r : Sess.Res, (r.s.state = .timeWait ∨ r.s.state = .closed) ∧ r.s.evRx = 0 →
      (r.done.state = .timeWait ∨ r.done.state = .closed) ∧ r.done.evRx = 0 := by
    intro r hr
    unfold Sess.Res.done
    split <;> exact hr
  have stay : ∀ i, (∀ c, i ≠ .sys c) → ((s.fsm i).s.state = .timeWait ∨ (s.fsm i).s.state = .closed) ∧ (s.fsm i).s.evRx = 0 := by
    intro i hi
    obtain ⟨h1, h2⟩ := h
    have e : s.fsm i = match s.state with | .closed => s.fsmClosed i | _ => s.fsmTimeWait i := by
      unfold fsm; rw [fsmFuel]; unfold fsmWith
      rcases h1 with x | x <;> rw [x]
    rw [e]
    rcases h1 with x | x
    · rw [x]
      dsimp only
      unfold fsmTimeWait
      split
      · split
        · unfold changeState
          dsimp only
          split
          · split <;> exact ⟨.inr rfl, h2⟩
          · exact ⟨.inr rfl, h2⟩
        · exact ⟨.inl x, h2⟩
      · exact ⟨.inl x, h2⟩
    · rw [x]
      dsimp only
      cases i with
      | sys c => exact absurd rfl (hi c)
      | timer => exact ⟨.inr x, h2⟩
      | packet m => exact ⟨.inr x, h2⟩
  cases he with
  | segment m => exact done _ (stay _ (by simp))
  | timer => exact done _ (stay _ (by simp))
  | clock => exact h
  | table b => exact h

/-- C103 fails after one of the four words: the service goes on to receive on the connection that it has closed; when the connection has ended
in good order, its thread waits in that call for ever, whatever the stack does. -/
theorem C103_stuck_witness : ∃ a b, Served True Example.TcpEcho.x' Example.TcpEcho.y a b .recv ∧ a.state = .lastAck ∧ b.state = .timeWait ∧
    ∀ (evs : List Sess.Ev) (running : Bool), (∀ e ∈ evs, ByStack e) → turn running (b.run evs) .recv = (b.run evs, .recv) := by
  have h := Example.TcpEcho.served (calm := true) Example.TcpEcho.stuck
  generalize hz : Example.TcpEcho.runs true _ = z at h
  have e : z.pc = .recv ∧ z.a.state = .lastAck ∧ z.b.state = .timeWait ∧ z.b.evRx = 0 := by
    rw [← hz]; decide +kernel
  rw [e.1] at h
  rw [show (True : Prop) = (true = true) by simp]
  refine ⟨z.a, z.b, h, e.2.1, e.2.2.1, fun evs running he => ?_⟩
  have : ((z.b.run evs).state = .timeWait ∨ (z.b.run evs).state = .closed) ∧ (z.b.run evs).evRx = 0 := by
    induction evs using List.reverseRecOn with
    | nil => exact ⟨.inl e.2.2.1, e.2.2.2⟩
    | append_singleton evs f ih =>
      have hr : z.b.run (evs ++ [f]) = (z.b.run evs).step f := by simp [Sess.run, List.foldl_append]
      rw [hr]
      exact over_step (ih (fun e he' => he e (List.mem_append_left _ he'))) (he f (by simp))
  rw [turn, if_pos this.2]

/-- C103 fails after one of the four words: if the client sends something more, the service reads it and wants to answer on the connection that
it has closed, and its thread ends with `BrokenPipeError`. -/
theorem C103_dies_witness : ∃ a b, Served True Example.TcpEcho.x' Example.TcpEcho.y a b .died ∧ a.state = .closeWait ∧
    returned b.out = [ascii "Quit\n", ascii "more"] := by
  have h := Example.TcpEcho.served (calm := true) (Example.TcpEcho.quit ++
    [.c (.send (ascii "more")), .c .timer, .c .timer, .toS 3, .timer, .timer, .timer, .toC 3, .turn, .turn, .turn])
  generalize hz : Example.TcpEcho.runs true _ = z at h
  have e : z.pc = .died ∧ z.a.state = .closeWait ∧ returned z.b.out = [ascii "Quit\n", ascii "more"] := by
    rw [← hz]; decide +kernel
  rw [e.1] at h
  rw [show (True : Prop) = (true = true) by simp]
  exact ⟨z.a, z.b, h, e.2⟩

end Verif
