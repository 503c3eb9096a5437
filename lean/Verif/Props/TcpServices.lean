import Verif.Lemmas.TcpDiscard
import Verif.Lemmas.TcpDaytime
import Verif.Props.TcpEcho
import Verif.Props.Daytime
/-! C114: the TCP discard and daytime services, on a connection. -/
namespace Verif
open Spec TcpDiscard Echo Sess
open TcpEcho (hello closedMsg quitMsg asksEnd lastRead asksEnd_iff returned_append received_eq step_outs queue_step send_outs take_outs acquire_outs
  finTaken_sent Complete Complete.client Complete.other eof_step closed_step shut_step close_shut Over)

/-! ### The discard service -/

theorem TcpDiscard.reply_to (d : Bytes) : DiscardReply d (reply d) := by
  unfold reply
  split
  · exact .closed ‹_›
  · split
    · exact .ending ‹_› ((asksEnd_iff d).1 ‹_›)
    · exact .nothing ‹_› (fun x => ‹¬ _› ((asksEnd_iff d).2 x))

/-- C114: what the service sends for what it has read is determined. -/
theorem C114_discard_reply (d : Bytes) : ∃ x, DiscardReply d x ∧ ∀ y, DiscardReply d y → y = x := by
  refine ⟨reply d, reply_to d, fun y hy => ?_⟩
  have ha := asksEnd_iff d
  unfold reply
  cases hy with
  | closed h => rw [if_pos h]; rfl
  | ending h1 h2 => rw [if_neg h1, if_pos (ha.2 h2)]; rfl
  | nothing h1 h2 => rw [if_neg h1, if_neg (fun x => h2 (ha.1 x))]

theorem TcpDiscard.replies (l : List Bytes) : List.Forall₂ DiscardReply l (l.map reply) := by
  induction l with
  | nil => exact .nil
  | cons d l ih => exact .cons (reply_to d) ih

theorem TcpDiscard.replies_eq {l rs : List Bytes} (h : List.Forall₂ DiscardReply l rs) : rs = l.map reply := by
  induction h with
  | nil => rfl
  | @cons d x l rs hx _ ih =>
    rw [ih, List.map_cons]
    obtain ⟨y, -, h2⟩ := C114_discard_reply d
    rw [h2 _ hx, h2 _ (reply_to _)]

section
variable {calm : Prop} {p q : Bool} {ia ib : Nat} {lip : IpAddress} {lport : Nat} {rip : IpAddress} {rport : Nat} {lip' : IpAddress} {lport' : Nat}
  {rip' : IpAddress} {rport' : Nat} {a b : Sess} {pc : Pc}

/-- C114: whatever the client and the network do: what the service has given to `send` is its greeting and then the replies to what it has
read, in order, each once; the first so many of these, and all of them while it waits for more and when it has ended. -/
theorem C114_discard_stream (h : Discarded calm (opened p ia lip lport rip rport) (opened q ib lip' lport' rip' rport') a b pc) :
    ∃ rs, List.Forall₂ DiscardReply (returned b.out) rs ∧
      (∃ k, accepted b.out = ((greeting :: rs).take k).flatten ∧ rs.length ≤ k) ∧
      (pc = .recv ∨ pc = .ended → accepted b.out = greeting ++ rs.flatten) := by
  have hs := (script h (queue_opened ..) (TcpEcho.base ..)).2
  refine ⟨(returned b.out).map reply, replies _, ?_, ?_⟩
  · have all : accepted b.out = hello ++ ((returned b.out).map reply).flatten → ∃ k, accepted b.out =
        ((greeting :: (returned b.out).map reply).take k).flatten ∧ ((returned b.out).map reply).length ≤ k :=
      fun e => ⟨((returned b.out).map reply).length + 1, by rw [List.take_of_length_le (by simp), List.flatten_cons]; exact e, by omega⟩
    have one : ∀ l d, returned b.out = l ++ [d] → accepted b.out = hello ++ (l.map reply).flatten → ∃ k, accepted b.out =
        ((greeting :: (returned b.out).map reply).take k).flatten ∧ ((returned b.out).map reply).length ≤ k := by
      intro l d e1 e2
      refine ⟨l.length + 1, ?_, by rw [e1]; simp⟩
      rw [e1, e2, List.take_succ_cons, List.map_append, List.take_append_of_le_length (by simp), List.take_of_length_le (by simp)]
      rfl
    cases pc with
    | hello => exact ⟨0, by rw [hs.1]; rfl, by rw [hs.2.1]; simp⟩
    | test => exact all hs.1
    | recv => exact all hs.1
    | taking => exact all hs.1
    | got d => obtain ⟨_, l, e1, e2, _⟩ := hs; exact one l d e1 e2
    | closing again => exact all hs.1
    | last => exact all hs.1
    | ended => exact all hs.1
    | died =>
      rcases hs.2 with x | ⟨l, d, e1, e2, _⟩ | x
      · exact ⟨0, by rw [x.1]; rfl, by rw [x.2]; simp⟩
      · exact one l d e1 e2
      · exact all x.1
  · rintro (rfl | rfl)
    · exact hs.1
    · exact hs.1

/-- C114: the service reads nothing more once it has read the empty string. -/
theorem C114_discard_last (h : Discarded calm (opened p ia lip lport rip rport) (opened q ib lip' lport' rip' rport') a b pc) (l₁ l₂ : List Bytes)
    (hr : returned b.out = l₁ ++ [] :: l₂) : l₂ = [] ∧ [] ∉ l₁ := by
  have hs := (script h (queue_opened ..) (TcpEcho.base ..)).2
  have no : [] ∉ returned b.out → l₂ = [] ∧ [] ∉ l₁ := fun x => absurd (by rw [hr]; simp) x
  have last : ∀ l d, returned b.out = l ++ [d] → [] ∉ l → l₂ = [] ∧ [] ∉ l₁ := by
    intro l d e hl
    rw [hr] at e
    rcases List.eq_nil_or_concat l₂ with x | ⟨l', d', x⟩
    · subst x
      obtain ⟨e1, -⟩ := List.append_inj' e rfl
      exact ⟨rfl, by rw [e1]; exact hl⟩
    · subst x
      rw [List.concat_eq_append, ← List.cons_append, ← List.append_assoc] at e
      obtain ⟨e1, -⟩ := List.append_inj' e rfl
      exact absurd (by rw [← e1]; simp) hl
  cases pc with
  | hello => exact no (by rw [hs.2.1]; simp)
  | test => exact no hs.2.1
  | recv => exact no hs.2.1
  | taking => exact no hs.2.1
  | got d => obtain ⟨_, l, e1, _, e3⟩ := hs; exact last l d e1 e3
  | closing again =>
    obtain ⟨-, -, h3⟩ := hs
    cases again
    · obtain ⟨l, e1, e2⟩ : ∃ l, returned b.out = l ++ [[]] ∧ [] ∉ l := by simpa using h3
      exact last l _ e1 e2
    · exact no (by simpa using h3)
  | last =>
    rcases hs.2.2 with x | ⟨l, e1, e2⟩
    · exact no x
    · exact last l _ e1 e2
  | ended =>
    rcases hs.2.2 with x | ⟨l, e1, e2⟩
    · exact no x
    · exact last l _ e1 e2
  | died =>
    rcases hs.2 with x | ⟨l, d, e1, _, e3⟩ | ⟨_, x | ⟨l, e1, e2⟩⟩
    · exact no (by rw [x.2]; simp)
    · exact last l d e1 e3
    · exact no x
    · exact last l _ e1 e2

/-- C114: what the client has been given, and what waits for it, is the beginning of greeting and replies; what the service has read is the
beginning of what the client has sent. -/
theorem C114_discard_client (h : Discarded calm (opened p ia lip lport rip rport) (opened q ib lip' lport' rip' rport') a b pc) :
    ∃ rs, List.Forall₂ DiscardReply (returned b.out) rs ∧ received a.out ++ a.rx <+: greeting ++ rs.flatten ∧
      (returned b.out).flatten <+: accepted a.out := by
  obtain ⟨rs, h1, ⟨k, h2, -⟩, -⟩ := C114_discard_stream h
  obtain ⟨h3, h4⟩ := C81_prefix _ _ _ _ _ _ _ _ _ _ _ _ (joined h)
  refine ⟨rs, h1, h3.trans ?_, ?_⟩
  · rw [h2, show greeting ++ rs.flatten = (greeting :: rs).flatten from rfl]
    obtain ⟨t, ht⟩ := List.take_prefix k (greeting :: rs)
    exact ⟨t.flatten, by rw [← List.flatten_append, ht]⟩
  · rw [← received_eq]
    exact (List.prefix_append _ _).trans h4

/-- C114: once the service has read the end of the stream or one of the four words, and goes on from there, its end of the connection is closing; and
it is closing whenever the service has returned, for whatever reason. -/
theorem C114_discard_closes (h : Discarded calm (opened p ia lip lport rip rport) (opened q ib lip' lport' rip' rport') a b pc)
    (hp : pc = .recv ∧ (∃ d ∈ returned b.out, d = [] ∨ SaysEnd d) ∨ pc = .ended) : ClosesDown b := by
  have hi := close_inv h (queue_opened ..) (TcpEcho.base ..)
  rcases hp with ⟨rfl, d, h1, h2⟩ | rfl
  · exact hi ⟨d, h1, h2.imp id (asksEnd_iff d).2⟩
  · exact hi

/-- C114: a service that is not stopped leaves its loop only after it has read the end of the stream. -/
theorem C114_discard_goes_on (h : Discarded calm (opened p ia lip lport rip rport) (opened q ib lip' lport' rip' rport') a b pc)
    (ht : (turn true b pc).2 = .last) : [] ∈ returned b.out := by
  have hs := (script h (queue_opened ..) (TcpEcho.base ..)).2
  have no : ∀ x next, next ≠ Pc.last → (say b x next).2 ≠ .last := by
    intro x next hn
    rw [say]; dsimp only; split
    · exact hn
    · simp
  cases pc with
  | hello => exact absurd ht (no _ _ (by simp))
  | test => rw [turn] at ht; simp at ht
  | recv => rw [turn] at ht; split at ht <;> simp at ht
  | taking => rw [turn] at ht; simp at ht
  | got d =>
    rw [turn] at ht
    split at ht
    · exact absurd ht (no _ _ (by simp))
    · split at ht
      · exact absurd ht (no _ _ (by simp))
      · simp at ht
  | closing again =>
    cases again
    · obtain ⟨l, e, -⟩ : ∃ l, returned b.out = l ++ [[]] ∧ [] ∉ l := by simpa using hs.2.2
      rw [e]; simp
    · rw [turn, shut] at ht
      dsimp only at ht
      split at ht <;> simp at ht
  | last => rw [turn, shut] at ht; dsimp only at ht; split at ht <;> simp at ht
  | ended => rw [turn] at ht; simp at ht
  | died => rw [turn] at ht; simp at ht

theorem TcpDiscard.plain_all {l : List Bytes} (hw : ∀ w ∈ endWords, ¬ Occurs w l.flatten) (h0 : [] ∉ l) : (l.map reply).flatten = [] := by
  rw [List.flatten_eq_nil_iff]
  intro x hx
  obtain ⟨d, hd, rfl⟩ := List.mem_map.1 hx
  have hn : d ≠ [] := fun e => h0 (e ▸ hd)
  rw [reply, if_neg hn, if_neg]
  intro ha
  obtain ⟨w, hm, s, c, t, e, -, hl, hp⟩ := (asksEnd_iff d).1 ha
  refine hw w hm (Occurs.infix (c := d) ⟨s, c, t, e, hl, hp⟩ ?_)
  obtain ⟨u, v, rfl⟩ := List.append_of_mem hd
  exact ⟨u.flatten, v.flatten, by simp⟩

theorem TcpDiscard.plain_stream {l : List Bytes} (hw : ∀ w ∈ endWords, ¬ Occurs w l.flatten) (hl : ∀ l₁ l₂, l = l₁ ++ [] :: l₂ → l₂ = [] ∧ [] ∉ l₁) :
    (l.map reply).flatten = if [] ∈ l then closedMsg else [] := by
  by_cases hm : [] ∈ l
  · obtain ⟨l₁, l₂, e⟩ := List.append_of_mem hm
    obtain ⟨e1, e2⟩ := hl l₁ l₂ e
    rw [if_pos hm, e, e1, List.map_append, List.flatten_append,
      plain_all (fun w hw' ho => hw w hw' (ho.infix ⟨[], l₂.flatten, by rw [e]; simp⟩)) e2]
    simp [reply]
  · rw [if_neg hm, plain_all hw hm]

/-- C114: to a client that sends none of the four words the service is silent: whatever the client sends, and however its bytes are cut into pieces
on their way, it is given the greeting, and nothing else but, at the end, the closing message; and while the service waits for more, it has sent
nothing but the greeting. -/
theorem C114_discard_silent (h : Discarded calm (opened p ia lip lport rip rport) (opened q ib lip' lport' rip' rport') a b pc)
    (hw : ∀ w ∈ endWords, ¬ Occurs w (accepted a.out)) :
    received a.out ++ a.rx <+: greeting ++ ascii "***CLIENT CLOSED, SERVICE CLOSING***\n" ∧
    (pc = .recv → accepted b.out = greeting) := by
  have hp := (C81_prefix _ _ _ _ _ _ _ _ _ _ _ _ (joined h)).2
  have hr : received b.out <+: accepted a.out := (List.prefix_append _ _).trans hp
  have hw' : ∀ w ∈ endWords, ¬ Occurs w (returned b.out).flatten := fun w hm ho =>
    hw w hm (ho.infix (by rw [← received_eq]; exact hr.isInfix))
  have hf := plain_stream hw' (fun l₁ l₂ => C114_discard_last h l₁ l₂)
  constructor
  · obtain ⟨rs, h1, h2, -⟩ := C114_discard_client h
    have e := replies_eq h1
    refine h2.trans ?_
    rw [e, hf]
    split
    · exact List.prefix_refl _
    · rw [List.append_nil]; exact List.prefix_append _ _
  · rintro rfl
    have hs := (script h (queue_opened ..) (TcpEcho.base ..)).2
    rw [hs.1, hf, if_neg hs.2.1, List.append_nil]
    rfl

end

/-- C114: when no receive call of the service is interrupted by the stack, and the service has come to its end after reading the end of the
stream: it has read all that the client has sent and ever will; and if the client has sent none of the four words, the client has got greeting and
closing message once it has taken the service's FIN.  Partial: a call that is interrupted may read an end that is not there, see
`C114_discard_race_witness`. -/
theorem C114_discard_all_partial {p q : Bool} {ia ib : Nat} {lip : IpAddress} {lport : Nat} {rip : IpAddress} {rport : Nat} {lip' : IpAddress} {lport' : Nat}
    {rip' : IpAddress} {rport' : Nat} {a b : Sess} (h : Discarded True (opened p ia lip lport rip rport) (opened q ib lip' lport' rip' rport') a b .ended)
    (hr : [] ∈ returned b.out) :
    received b.out = accepted a.out ∧
    ((∀ w ∈ endWords, ¬ Occurs w (accepted a.out)) →
      accepted b.out = greeting ++ ascii "***CLIENT CLOSED, SERVICE CLOSING***\n" ∧
      (a.state = .closeWait ∨ a.state = .closing ∨ a.state = .lastAck ∨ a.state = .timeWait →
        received a.out ++ a.rx = greeting ++ ascii "***CLIENT CLOSED, SERVICE CLOSING***\n")) := by
  have hC : Complete a b := end_inv h hr
  refine ⟨hC.2, fun hw => ?_⟩
  have hs := (script h (queue_opened ..) (TcpEcho.base ..)).2
  have e : accepted b.out = greeting ++ ascii "***CLIENT CLOSED, SERVICE CLOSING***\n" := by
    rw [hs.1, plain_stream (fun w hm ho => hw w hm (by rw [← received_eq, hC.2] at ho; exact ho)) (fun l₁ l₂ => C114_discard_last h l₁ l₂), if_pos hr]
    rfl
  refine ⟨e, fun hst => ?_⟩
  rw [← e]
  exact C81_fin_means_all _ _ _ _ _ _ _ _ _ _ _ _ (joined h) hst

theorem close_quiet {b : Sess} (hst : b.state = .established ∨ b.state = .closeWait) : (b.fsm (.sys .close)).exc = none := by
  rcases hst with h | h
  · rw [fsm_established h]; rfl
  · unfold fsm; rw [fsmFuel]; unfold fsmWith; rw [h]; rfl

/-- C114: the thread of the service does not end by an exception as long as its session may send. -/
theorem C114_discard_lives {b : Sess} (hst : b.state = .established ∨ b.state = .closeWait) (pc : Pc) (hp : pc ≠ .died) (running : Bool) :
    (turn running b pc).2 ≠ .died := by
  cases pc with
  | hello => rw [turn, say]; dsimp only; rw [if_pos hst]; simp
  | test => rw [turn]; dsimp only; split <;> simp
  | recv => rw [turn]; split <;> simp
  | taking => rw [turn]; simp
  | got d =>
    rw [turn]
    split
    · rw [say]; dsimp only; rw [if_pos hst]; simp
    · split
      · rw [say]; dsimp only; rw [if_pos hst]; simp
      · simp
  | closing again => rw [turn, shut]; dsimp only; rw [close_quiet hst]; cases again <;> simp
  | last => rw [turn, shut]; dsimp only; rw [close_quiet hst]; simp
  | ended => rw [turn]; simp
  | died => exact absurd rfl hp

/-! ### Examples -/

namespace Example.TcpDiscard
open Example.Net (arrive isSeg x)

/-- What happens: an event at the client or, by the stack, at the service; the arrival there of the `n`-th segment of the other; a turn. -/
inductive Act
  | c (e : Sess.Ev)
  | timer
  | clock
  | toC (n : Nat)
  | toS (n : Nat)
  | turn

structure St where
  a : Sess
  b : Sess
  pc : TcpDiscard.Pc

def act (calm : Bool) (z : St) : Act → St
  | .c e => if isSeg e then z else { z with a := z.a.step e }
  | .timer => if calm && z.pc = .taking then z else { z with b := z.b.step .timer }
  | .clock => if calm && z.pc = .taking then z else { z with b := z.b.step .clock }
  | .toC n => match (sent z.b.out)[n]? with
    | some g => { z with a := z.a.step (.segment (arrive z.a.lip z.a.lport z.a.rip z.a.rport g)) }
    | none => z
  | .toS n => match (sent z.a.out)[n]? with
    | some g => if calm && z.pc = .taking then z else { z with b := z.b.step (.segment (arrive z.b.lip z.b.lport z.b.rip z.b.rport g)) }
    | none => z
  | .turn => if Out.queued ∈ z.b.out then { z with b := (Verif.TcpDiscard.turn true z.b z.pc).1, pc := (Verif.TcpDiscard.turn true z.b z.pc).2 } else z

def y : Sess := opened false 500 Example.Session.rip 9 Example.Session.lip 5000
def x' : Sess := opened true 100 Example.Session.lip 5000 Example.Session.rip 9
def runs (calm : Bool) (l : List Act) : St := l.foldl (act calm) ⟨x', y, .hello⟩

theorem served {calm : Bool} (l : List Act) : Discarded (calm = true) x' y (runs calm l).a (runs calm l).b (runs calm l).pc := by
  induction l using List.reverseRecOn with
  | nil => exact .start
  | append_singleton l c ih =>
    have e : runs calm (l ++ [c]) = act calm (runs calm l) c := by simp [runs, List.foldl_append]
    rw [e]
    generalize runs calm l = z at ih
    have free : ∀ {pc : TcpDiscard.Pc} {e : Sess.Ev}, ¬ (calm && decide (pc = .taking)) = true → (calm = true → pc = .taking → ∃ r, e = .table r) := by
      intro pc e h h1 h2
      rw [h1, h2] at h; exact absurd rfl h
    cases c with
    | c e =>
      simp only [act]
      split
      · exact ih
      · next h =>
        refine .client ih (fun m hm => ?_)
        rw [hm] at h; simp [isSeg] at h
    | timer =>
      simp only [act]
      split
      · exact ih
      · next h => exact .stack ih .timer (fun m hm => nomatch hm) (free h)
    | clock =>
      simp only [act]
      split
      · exact ih
      · next h => exact .stack ih .clock (fun m hm => nomatch hm) (free h)
    | toC n =>
      simp only [act]
      split
      · next g hg =>
        dsimp only
        refine .client ih (fun m hm => .inr ⟨g, List.mem_of_getElem? hg, ?_⟩)
        injection hm with hm
        rw [← hm]; exact ⟨rfl, rfl, rfl, rfl, rfl, rfl, rfl⟩
      · exact ih
    | toS n =>
      simp only [act]
      split
      · next g hg =>
        split
        · exact ih
        · next h =>
          dsimp only
          refine .stack ih (.segment _) (fun m hm => .inr ⟨g, List.mem_of_getElem? hg, ?_⟩) (free h)
          injection hm with hm
          rw [← hm]; exact ⟨rfl, rfl, rfl, rfl, rfl, rfl, rfl⟩
      · exact ih
    | turn =>
      simp only [act]
      split
      · next h => exact .service true ih h
      · exact ih

/-- The connection is opened, the service greets the client, and waits. -/
def opening : List Act := [.c .timer, .toS 0, .timer, .toC 0, .toS 1, .turn, .turn, .timer, .toC 1]

/-- The client sends "ab" and "Cd", which the service reads at once, and then again "e"; it closes. -/
def talk : List Act := opening ++
  [.c (.send (ascii "ab")), .c .timer, .toS 2, .c (.send (ascii "Cd")), .c .timer, .toS 3, .turn, .turn, .turn, .turn] ++ List.replicate 100 .clock ++
  [.timer, .toC 2, .c (.send (ascii "e")), .c .timer, .toS 4, .turn, .turn, .turn, .turn] ++ List.replicate 100 .clock ++
  [.timer, .toC 3, .c .close, .c .timer, .c .timer, .toS 5, .turn, .turn, .turn, .turn, .turn]

/-- The rest of the connection, up to the service's FIN. -/
def ends : List Act := talk ++ [.timer, .toC 4] ++ List.replicate 100 (.c .clock) ++ [.c .timer, .toS 6, .timer, .timer, .toC 4, .toC 5, .toC 6]

/-- C114_discard_stream, C114_discard_last, C114_discard_client, C114_discard_silent, C114_discard_all_partial, C114_discard_closes. -/
example : returned (runs true talk).b.out = [ascii "abCd", ascii "e", []] ∧ (runs true talk).pc = .ended ∧ accepted (runs true talk).a.out = ascii "abCde" ∧
    accepted (runs true talk).b.out = ascii "***CLIENT OPEN / SERVICE OPEN***\n***CLIENT CLOSED, SERVICE CLOSING***\n" ∧
    (runs true talk).a.rx = ascii "***CLIENT OPEN / SERVICE OPEN***\n" ∧ (runs true talk).b.closes = true ∧ (runs true ends).pc = .ended ∧
    (runs true ends).a.state = .timeWait ∧ (runs true ends).a.rx = accepted (runs true talk).b.out := by decide +kernel
example : ∀ w ∈ endWords, ¬ Occurs w (ascii "abCde") := by
  have h : ∀ w ∈ endWords, (w ≠ [] ∧ ∀ y ∈ w, 97 ≤ y ∧ y ≤ 122) ∧ within w (lower (strip (ascii "abCde"))) = false := by decide +kernel
  intro w hw ho
  have := (occurs_iff (h w hw).1.1 (h w hw).1.2 _).2 ho
  rw [(h w hw).2] at this; cases this

/-- C114_discard_goes_on: there is such a turn. -/
example : (runs true (talk.take 237)).pc = .closing false ∧ (Verif.TcpDiscard.turn true (runs true (talk.take 237)).b (.closing false)).2 = .last := by
  decide +kernel

/-- "quit", as "Quit" with a newline: the service says its last message, closes, and waits for more. -/
def quit : List Act := opening ++
  [.c (.send (ascii "Quit\n")), .c .timer, .toS 2, .turn, .turn, .turn, .turn, .turn, .timer, .toC 2]

/-- The client's answer, and the service's FIN. -/
def left : List Act := quit ++ List.replicate 100 (.c .clock) ++ [.c .timer, .toS 3, .timer, .timer, .toC 3]

/-- The client closes as well, and the connection ends as it should. -/
def stuck : List Act := left ++ List.replicate 100 (.c .clock) ++ [.c .timer, .toS 4, .c .close, .c .timer, .c .timer, .toS 5]

/-- C114_discard_lives: the session may send.  C114_discard_closes: it is closing. -/
example : (runs true quit).b.closes = true ∧ (runs true quit).b.state = .established ∧ (runs true quit).pc = .recv ∧
    accepted (runs true quit).b.out = ascii "***CLIENT OPEN / SERVICE OPEN***\n***CLIENT OPEN, SERVICE CLOSING***\n" := by decide +kernel

end Example.TcpDiscard

/-! ### Where the discard service fails -/

/-- C114 fails when a segment arrives while the service is in a receive call: it then reads the empty string although the client has neither
closed nor been reset, says that the client has closed, and closes the connection. -/
theorem C114_discard_race_witness : ∃ a b, Discarded False Example.TcpDiscard.x' Example.TcpDiscard.y a b .ended ∧ a.state = .established ∧ b.state = .established ∧
    b.closes = true ∧ (∀ g ∈ sent a.out, g.fin = false ∧ g.rst = false) ∧
    accepted b.out = greeting ++ ascii "***CLIENT CLOSED, SERVICE CLOSING***\n" := by
  have h := Example.TcpDiscard.served (calm := false) (Example.TcpDiscard.opening ++
    [.c (.send (ascii "ab")), .c .timer, .toS 2, .turn, .c (.send (ascii "cd")), .c .timer, .toS 3, .turn, .turn, .turn, .turn, .turn, .turn, .turn, .turn])
  generalize hz : Example.TcpDiscard.runs false _ = z at h
  have e : z.pc = .ended ∧ z.a.state = .established ∧ z.b.state = .established ∧ z.b.closes = true ∧
      (∀ g ∈ sent z.a.out, g.fin = false ∧ g.rst = false) ∧
      accepted z.b.out = greeting ++ ascii "***CLIENT CLOSED, SERVICE CLOSING***\n" := by
    rw [← hz]; decide +kernel
  rw [e.1] at h
  rw [show (False : Prop) = (false = true) by simp]
  exact ⟨z.a, z.b, h, e.2⟩

/-- C114 fails after one of the four words: the service goes on to receive on the connection that it has closed; when the connection has ended
in good order, its thread waits in that call for ever, whatever the stack does. -/
theorem C114_discard_stuck_witness : ∃ a b, Discarded True Example.TcpDiscard.x' Example.TcpDiscard.y a b .recv ∧ a.state = .lastAck ∧ b.state = .timeWait ∧
    ∀ (evs : List Sess.Ev) (running : Bool), (∀ e ∈ evs, ByStack e) → turn running (b.run evs) .recv = (b.run evs, .recv) := by
  have h := Example.TcpDiscard.served (calm := true) Example.TcpDiscard.stuck
  generalize hz : Example.TcpDiscard.runs true _ = z at h
  have e : z.pc = .recv ∧ z.a.state = .lastAck ∧ z.b.state = .timeWait ∧ z.b.evRx = 0 := by
    rw [← hz]; decide +kernel
  rw [e.1] at h
  rw [show (True : Prop) = (true = true) by simp]
  refine ⟨z.a, z.b, h, e.2.1, e.2.2.1, fun evs running he => ?_⟩
  have : ((z.b.run evs).state = .timeWait ∨ (z.b.run evs).state = .closed) ∧ (z.b.run evs).evRx = 0 := by
    induction evs using List.reverseRecOn with
    | nil => exact ⟨.inl e.2.2.1, e.2.2.2⟩
    | append_singleton evs f ih =>
      have hr : z.b.run (evs ++ [f]) = (z.b.run evs).step f := by simp [Sess.run, List.foldl_append]
      rw [hr]
      exact over_step (ih (fun e he' => he e (List.mem_append_left _ he'))) (he f (by simp))
  rw [turn, if_pos this.2]

/-! ### The daytime service -/

section
open Daytime
variable {count : Int} {p q : Bool} {ia ib : Nat} {lip : IpAddress} {lport : Nat} {rip : IpAddress} {rport : Nat} {lip' : IpAddress} {lport' : Nat}
  {rip' : IpAddress} {rport' : Nat} {a b : Sess} {pc : TcpDaytime.Pc} {l : List (Bool × Now)}

theorem TcpDaytime.lines (ts : List Now) (h : ∀ t ∈ ts, OnClock t) : List.Forall₂ TimeLine ts (ts.map line) := by
  induction ts with
  | nil => exact .nil
  | cons t ts ih => exact .cons ⟨str t, (C112_text (h t (by simp))).1, rfl⟩ (ih fun x hx => h x (by simp [hx]))

/-- C114: whatever the client and the network do: what the service has given to `send` is its greeting and then lines with the time at some of its
turns, in order, no more than it was made to send; what the client has been given, and what waits for it, is the beginning of these. -/
theorem C114_daytime_stream (h : Timed count (opened p ia lip lport rip rport) (opened q ib lip' lport' rip' rport') a b pc l)
    (hc : ∀ i ∈ l, OnClock i.2) :
    ∃ ts lines, ts.Sublist (l.map Prod.snd) ∧ List.Forall₂ TimeLine ts lines ∧ (0 ≤ count → (ts.length : Int) ≤ count) ∧
      (accepted b.out = [] ∧ ts = [] ∨ accepted b.out = greeting ++ lines.flatten) ∧ received a.out ++ a.rx <+: greeting ++ lines.flatten := by
  obtain ⟨-, ts, h1, h2⟩ := TcpDaytime.script h (queue_opened ..) (TcpEcho.base ..).1
  have hp := (C81_prefix _ _ _ _ _ _ _ _ _ _ _ _ (TcpDaytime.joined h)).1
  have hall : ∀ t ∈ ts, OnClock t := by
    intro t ht
    obtain ⟨i, hi, rfl⟩ := List.mem_map.1 (h1.subset ht)
    exact hc i hi
  have key : (0 ≤ count → (ts.length : Int) ≤ count) ∧
      (accepted b.out = [] ∧ ts = [] ∨ accepted b.out = greeting ++ (ts.map TcpDaytime.line).flatten) := by
    cases pc with
    | hello => exact ⟨fun x => by rw [h2.2]; simpa using x, .inl h2⟩
    | test n => exact ⟨fun x => by have := h2.2.2 x; have := h2.2.1; omega, .inr h2.1⟩
    | saying n => exact ⟨fun x => by have := h2.2.2 x; have := h2.2.1; omega, .inr h2.1⟩
    | closing => exact ⟨h2.2, .inr h2.1⟩
    | ended => exact ⟨h2.2, .inr h2.1⟩
    | died =>
      rcases h2 with h2 | h2
      · exact ⟨fun x => by rw [h2.2]; simpa using x, .inl h2⟩
      · exact ⟨h2.2, .inr h2.1⟩
  refine ⟨ts, ts.map TcpDaytime.line, h1, TcpDaytime.lines ts hall, key.1, key.2, hp.trans ?_⟩
  rcases key.2 with x | x
  · rw [x.1]; exact List.nil_prefix
  · rw [x]

/-- C114: a service that is not stopped, on a session that may send, goes on until it has sent as many lines as it was made to send, and so for ever
if that is negative. -/
theorem C114_daytime_count (h : Timed count (opened p ia lip lport rip rport) (opened q ib lip' lport' rip' rport') a b pc l)
    (hc : ∀ i ∈ l, OnClock i.2) (hst : b.state = .established ∨ b.state = .closeWait) (now : Now)
    (ht : (TcpDaytime.turn count (true, now) b pc).2 = .closing) :
    ∃ ts lines, ts.Sublist (l.map Prod.snd) ∧ List.Forall₂ TimeLine ts lines ∧ (ts.length : Int) = count ∧ accepted b.out = greeting ++ lines.flatten := by
  obtain ⟨-, ts, h1, h2⟩ := TcpDaytime.script h (queue_opened ..) (TcpEcho.base ..).1
  have hall : ∀ t ∈ ts, OnClock t := by
    intro t ht
    obtain ⟨i, hi, rfl⟩ := List.mem_map.1 (h1.subset ht)
    exact hc i hi
  cases pc with
  | hello => rw [TcpDaytime.turn] at ht; dsimp only at ht; split at ht <;> simp at ht
  | test n =>
    rw [TcpDaytime.turn] at ht
    dsimp only at ht
    split at ht
    · simp at ht
    · next hn =>
      have : n = 0 := by
        apply Classical.byContradiction
        intro x; exact hn ⟨rfl, x⟩
      exact ⟨ts, _, h1, TcpDaytime.lines ts hall, by have := h2.2.1; omega, h2.1⟩
  | saying n => rw [TcpDaytime.turn] at ht; dsimp only at ht; rw [if_pos hst] at ht; simp at ht
  | closing => rw [TcpDaytime.turn, close_quiet hst] at ht; simp at ht
  | ended => rw [TcpDaytime.turn] at ht; simp at ht
  | died => rw [TcpDaytime.turn] at ht; simp at ht

/-- C114: when the service comes to say something, on a session that may send, it says the time at that turn. -/
theorem C114_daytime_says (hst : b.state = .established ∨ b.state = .closeWait) (n : Int) (i : Bool × Now) (hi : OnClock i.2) :
    ∃ x, TimeLine i.2 x ∧ accepted (TcpDaytime.turn count i b (.saying n)).1.out = accepted b.out ++ x := by
  refine ⟨TcpDaytime.line i.2, ⟨str i.2, (C112_text hi).1, rfl⟩, ?_⟩
  rw [TcpDaytime.turn]
  dsimp only
  rw [(send_outs b _).2.2, if_pos hst]

/-- C114: when the service has returned, for whatever reason, its end of the connection is closing. -/
theorem C114_daytime_closes (h : Timed count (opened p ia lip lport rip rport) (opened q ib lip' lport' rip' rport') a b .ended l) : ClosesDown b :=
  TcpDaytime.close_inv h (queue_opened ..) (TcpEcho.base ..).1 rfl

/-- C114: the thread of the service does not end by an exception as long as its session may send; and no failure of `send` after the greeting
ends it so: it goes on to close. -/
theorem C114_daytime_lives (i : Bool × Now) (pc : TcpDaytime.Pc) (hp : pc ≠ .died)
    (hst : (b.state = .established ∨ b.state = .closeWait) ∨ pc ≠ .hello ∧ pc ≠ .closing) : (TcpDaytime.turn count i b pc).2 ≠ .died := by
  cases pc with
  | hello =>
    rcases hst with hst | hst
    · rw [TcpDaytime.turn]; dsimp only; rw [if_pos hst]; simp
    · exact absurd rfl hst.1
  | test n => rw [TcpDaytime.turn]; dsimp only; split <;> simp
  | saying n => rw [TcpDaytime.turn]; dsimp only; split <;> simp
  | closing =>
    rcases hst with hst | hst
    · rw [TcpDaytime.turn, close_quiet hst]; simp
    · exact absurd rfl hst.2
  | ended => rw [TcpDaytime.turn]; simp
  | died => exact absurd rfl hp

end

/-! ### Examples -/

namespace Example.TcpDaytime
open Example.Net (arrive isSeg)
open Verif.Daytime

/-- What happens: an event at the client or, by the stack, at the service; the arrival there of the `n`-th segment of the other; a turn. -/
inductive Act
  | c (e : Sess.Ev)
  | timer
  | toC (n : Nat)
  | toS (n : Nat)
  | turn (i : Bool × Now)

structure St where
  a : Sess
  b : Sess
  pc : TcpDaytime.Pc
  l : List (Bool × Now)

def act (count : Int) (z : St) : Act → St
  | .c e => if isSeg e then z else { z with a := z.a.step e }
  | .timer => { z with b := z.b.step .timer }
  | .toC n => match (sent z.b.out)[n]? with
    | some g => { z with a := z.a.step (.segment (arrive z.a.lip z.a.lport z.a.rip z.a.rport g)) }
    | none => z
  | .toS n => match (sent z.a.out)[n]? with
    | some g => { z with b := z.b.step (.segment (arrive z.b.lip z.b.lport z.b.rip z.b.rport g)) }
    | none => z
  | .turn i => if Out.queued ∈ z.b.out then
      { z with b := (Verif.TcpDaytime.turn count i z.b z.pc).1, pc := (Verif.TcpDaytime.turn count i z.b z.pc).2, l := z.l ++ [i] } else z

def y : Sess := opened false 500 Example.Session.rip 13 Example.Session.lip 5000
def x' : Sess := opened true 100 Example.Session.lip 5000 Example.Session.rip 13
def runs (count : Int) (l : List Act) : St := l.foldl (act count) ⟨x', y, .hello, []⟩

theorem timed {count : Int} (l : List Act) : Timed count x' y (runs count l).a (runs count l).b (runs count l).pc (runs count l).l := by
  induction l using List.reverseRecOn with
  | nil => exact .start
  | append_singleton l c ih =>
    have e : runs count (l ++ [c]) = act count (runs count l) c := by simp [runs, List.foldl_append]
    rw [e]
    generalize runs count l = z at ih
    cases c with
    | c e =>
      simp only [act]
      split
      · exact ih
      · next h =>
        refine .client ih (fun m hm => ?_)
        rw [hm] at h; simp [isSeg] at h
    | timer => exact .stack ih .timer (fun m hm => nomatch hm)
    | toC n =>
      simp only [act]
      split
      · next g hg =>
        dsimp only
        refine .client ih (fun m hm => .inr ⟨g, List.mem_of_getElem? hg, ?_⟩)
        injection hm with hm
        rw [← hm]; exact ⟨rfl, rfl, rfl, rfl, rfl, rfl, rfl⟩
      · exact ih
    | toS n =>
      simp only [act]
      split
      · next g hg =>
        dsimp only
        refine .stack ih (.segment _) (fun m hm => .inr ⟨g, List.mem_of_getElem? hg, ?_⟩)
        injection hm with hm
        rw [← hm]; exact ⟨rfl, rfl, rfl, rfl, rfl, rfl, rfl⟩
      · exact ih
    | turn i =>
      simp only [act]
      split
      · next h => exact .service i ih h
      · exact ih

/-- some times, the second with no microseconds -/
def t (k : Nat) : Bool × Now := (true, ⟨2026, 11, 16, 22, 5, k, if k = 4 then 0 else 17⟩)

/-- The connection is opened, and the service is given its turns. -/
def talk : List Act := [.c .timer, .toS 0, .timer, .toC 0, .toS 1, .turn (t 0), .turn (t 1), .turn (t 2), .turn (t 3), .turn (t 4), .timer, .toC 1]

/-- C114_daytime_stream, C114_daytime_says, C114_daytime_count, C114_daytime_lives: a service made to send two lines has sent them and comes to its
close. -/
example : (runs 2 talk).pc = .test 0 ∧ (runs 2 talk).b.state = .established ∧ (Verif.TcpDaytime.turn 2 (t 5) (runs 2 talk).b (.test 0)).2 = .closing ∧
    accepted (runs 2 talk).b.out = ascii "***CLIENT OPEN / SERVICE OPEN***\n2026-11-16 22:05:02.000017\n2026-11-16 22:05:04\n" ∧
    (runs 2 talk).a.rx = accepted (runs 2 talk).b.out := by decide +kernel
example : ∀ k < 60, OnClock (t k).2 := by
  intro k hk
  have h : (t k).2.micro < 1000000 := by dsimp only [t]; split <;> decide
  exact ⟨by simp [t], by simp [t], by simp [t], by simp [t], by simp [t], hk, h⟩

/-- One made to send without end goes on; C114_daytime_closes: one that is stopped closes. -/
example : (runs (-1) talk).pc = .test (-3) ∧ (Verif.TcpDaytime.turn (-1) (t 5) (runs (-1) talk).b (.test (-3))).2 = .saying (-3) ∧
    (runs (-1) (talk ++ [.turn (false, (t 5).2), .turn (t 6)])).pc = .ended ∧
    (runs (-1) (talk ++ [.turn (false, (t 5).2), .turn (t 6)])).b.closes = true := by decide +kernel

end Example.TcpDaytime

end Verif
