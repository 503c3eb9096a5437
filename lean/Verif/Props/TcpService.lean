import Verif.Lemmas.TcpService
import Verif.Props.TcpEcho
import Verif.Props.Hosts
/-! C105: the TCP echo service with all its connections. -/
namespace Verif
open Spec TcpEcho Echo TcpService

/-! ### The threads -/

/-- C105: the connections that have come in through the service's socket and were established, in the order in which they were: first those that
have a thread, one each, then those that wait to be accepted. -/
theorem C105_threads {g : Config} {ss : List Step} (h : Alone g ss) {l : Nat} (hd : door (TcpService.run g ss) = some l) :
    (TcpService.run g ss).workers.map (·.sock) ++ (TcpService.run g ss).t.queue l = inbound (TcpService.run g ss).t l ∧
    (∀ n w, (TcpService.run g ss).workers[n]? = some w → ∃ j c, ThreadOf (TcpService.run g ss) n j w.pc ∧
      (TcpService.run g ss).t.conns[j]? = some c ∧ c.sock = w.sock) ∧
    ∀ n n' j pc pc', ThreadOf (TcpService.run g ss) n j pc → ThreadOf (TcpService.run g ss) n' j pc' → n = n' := by
  refine ⟨?_, ?_, fun n n' j pc pc' => one_thread h⟩
  · rw [(sinv h).socks l hd, run_t]
    exact (TcpStack.inv (events g ss)).acc l
  · intro n w hw
    obtain ⟨l, h1, h2⟩ := door_of_worker h hw
    obtain ⟨j, c, k1, k2, k3, -⟩ := (sinv h).kids l h1 _ h2
    exact ⟨j, c, ⟨w.sock, hw, k1⟩, k2, k3⟩

/-- C105: a thread stays with its connection. -/
theorem C105_stays {g : Config} {ss suf : List Step} (h : Alone g (ss ++ suf)) {n j : Nat} {pc : Pc} (ht : ThreadOf (TcpService.run g ss) n j pc) :
    ∃ pc', ThreadOf (TcpService.run g (ss ++ suf)) n j pc' := by
  induction suf using List.reverseRecOn with
  | nil => rw [List.append_nil]; exact ⟨pc, ht⟩
  | append_singleton suf s ih =>
    rw [← List.append_assoc] at h ⊢
    obtain ⟨pc', h'⟩ := ih (h.prefix [s])
    rw [TcpService.run_snoc]
    exact (threads_step h j).1 n pc' h'

/-- C105: the service's own thread dies of an exception only if its port is not a port. -/
theorem C105_main_lives {g : Config} {ss : List Step} (h : Alone g ss) (hp : 0 ≤ g.port ∧ g.port < 65536) : (TcpService.run g ss).main ≠ .died := by
  induction h with
  | start => simp [TcpService.run, init]
  | @snoc ss s ha hs ih =>
    rw [TcpService.run_snoc]
    cases s with
    | net e => exact ih
    | stop => exact ih
    | worker n =>
      unfold TcpService.step
      dsimp only
      split <;> exact ih
    | main st c i =>
      show mainAfter g (TcpService.run g ss) st c ≠ .died
      unfold mainAfter
      cases hm : (TcpService.run g ss).main with
      | socket => dsimp only; split <;> simp
      | bind r =>
        dsimp only
        have hlt := (sinv ha).lt r (by unfold door; rw [hm])
        have : ∀ e, ((TcpService.run g ss).t.ss.bind st r g.addr g.port c).2 = .error e → e = .osError ∨ e = .gaiError := by
          intro e
          unfold Socks.bind
          split
          · next x => rw [List.getElem?_eq_none_iff] at x; omega
          · split
            · intro h; cases h; exact .inl rfl
            · split
              · intro h; cases h; exact .inr rfl
              · split
                · intro h; cases h; exact .inr rfl
                · split
                  · intro h; cases h; exact .inl rfl
                  · split
                    · split
                      · intro h; cases h; exact .inl rfl
                      · intro h; cases h
                    · unfold Socks.pickLocalPort
                      split
                      · next e' x => intro h; cases h; left; revert x; dsimp only; split <;> (intro x; cases x; try rfl)
                      · intro h; cases h
        split
        · simp
        · simp
        · simp
        · next e h1 h2 x => rcases this e x with rfl | rfl <;> simp_all
      | listen r => simp
      | accept r =>
        dsimp only
        split
        · simp
        · next hq =>
          split
          · next e =>
            rw [run_t] at hq e
            exact absurd (by rw [(TcpStack.inv (events g ss)).perm r, e]; rfl) hq
          · simp
      | ended => simp
      | died => exact absurd hm ih

/-- C105: while a connection waits to be accepted, the next step of the service's own thread starts the thread of the first that waits. -/
theorem C105_next {g : Config} {ss : List Step} {l r : Nat} {rest : List Nat} (hm : (TcpService.run g ss).main = .accept l)
    (hq : (TcpService.run g ss).t.queue l = r :: rest) (st : Stack) (choice iss : Nat) :
    (TcpService.run g (ss ++ [.main st choice iss])).workers = (TcpService.run g ss).workers ++ [⟨r, .hello⟩] ∧
    (TcpService.run g (ss ++ [.main st choice iss])).main = .accept l ∧
    (TcpService.run g (ss ++ [.main st choice iss])).t.queue l = rest := by
  have hp : (TcpService.run g ss).t.permits l ≠ 0 := by
    have := (TcpStack.inv (events g ss)).perm l
    rw [← run_t, hq] at this
    rw [this]; simp
  rw [TcpService.run_snoc]
  refine ⟨?_, ?_, ?_⟩
  · show _ ++ spawned _ = _
    unfold spawned; rw [hm]; dsimp only; rw [if_neg hp, hq]
  · show mainAfter _ _ _ _ = _
    unfold mainAfter; rw [hm]; dsimp only; rw [if_neg hp, hq]
  · rw [step_t]
    unfold emits; rw [hm]; dsimp only
    rw [TcpStack.step, TcpStack.accept, if_neg hp]
    dsimp only
    rw [hq]
    dsimp only
    rw [upd_eq, if_pos rfl]

/-! ### A connection -/

section
variable {calm : Prop} {g : Config} {k : Ends} {xs : List TcpStack.Ev} {ss : List Step} {i j n : Nat} {a b : Sess} {pc : Pc}

theorem TcpService.seen (ha : Only k (TcpStack.run xs) i a) (hb : Only k.flip (TcpService.run g ss).t j b) :
    seenOf (TcpStack.run xs).log i = a.out ∧ seenOf (TcpService.run g ss).t.log j = b.out := by
  obtain ⟨_, hai⟩ := ha.1
  rw [run_t] at hb ⊢
  obtain ⟨_, hbj⟩ := hb.1
  exact ⟨(C61_independent xs i _ hai).2, (C61_independent (events g ss) j _ hbj).2⟩

/-- C105: on every connection that has a thread, whatever happens at the two hosts and between them: what the service has given to `send` is its
greeting and then the replies to what it has read, in order, each once; the first so many of these, and all of them while it waits for more and
when its thread has ended. -/
theorem C105_stream (hk : k.lport ≠ 0 ∧ k.rport ≠ 0) (h : Clients calm g k xs ss) (ha : Only k (TcpStack.run xs) i a)
    (hb : Only k.flip (TcpService.run g ss).t j b) (ht : ThreadOf (TcpService.run g ss) n j pc) :
    ∃ rs, List.Forall₂ ReplyTo (returned (seenOf (TcpService.run g ss).t.log j)) rs ∧
      (∃ m, accepted (seenOf (TcpService.run g ss).t.log j) = ((greeting :: rs).take m).flatten ∧ rs.length ≤ m) ∧
      (pc = .recv ∨ pc = .ended → accepted (seenOf (TcpService.run g ss).t.log j) = greeting ++ rs.flatten) := by
  obtain ⟨p, ia, l, lp, r, rp, q, ib, l', lp', r', rp', hs⟩ := served hk h ha hb ht
  rw [(TcpService.seen ha hb).2]
  exact C103_stream hs

/-- C105: on every such connection, what the client has been given, and what waits for it, is the beginning of greeting and replies to what the
service has read; and that is the beginning of what the client has sent. -/
theorem C105_client (hk : k.lport ≠ 0 ∧ k.rport ≠ 0) (h : Clients calm g k xs ss) (ha : Only k (TcpStack.run xs) i a)
    (hb : Only k.flip (TcpService.run g ss).t j b) (ht : ThreadOf (TcpService.run g ss) n j pc) :
    ∃ rs, List.Forall₂ ReplyTo (returned (seenOf (TcpService.run g ss).t.log j)) rs ∧
      received (seenOf (TcpStack.run xs).log i) ++ a.rx <+: greeting ++ rs.flatten ∧
      (returned (seenOf (TcpService.run g ss).t.log j)).flatten <+: accepted (seenOf (TcpStack.run xs).log i) := by
  obtain ⟨p, ia, l, lp, r, rp, q, ib, l', lp', r', rp', hs⟩ := served hk h ha hb ht
  rw [(TcpService.seen ha hb).1, (TcpService.seen ha hb).2]
  exact C103_client hs

/-- C105: a client that sends none of the service's words is given the greeting and then its own bytes, in order, none of another client's, and
nothing else but, after them, the closing message; and while the service waits for more, all that it has read has been sent back. -/
theorem C105_echo (hk : k.lport ≠ 0 ∧ k.rport ≠ 0) (h : Clients calm g k xs ss) (ha : Only k (TcpStack.run xs) i a)
    (hb : Only k.flip (TcpService.run g ss).t j b) (ht : ThreadOf (TcpService.run g ss) n j pc)
    (hw : ∀ w ∈ echoWords, ¬ Occurs w (accepted (seenOf (TcpStack.run xs).log i))) :
    (∃ d, d <+: accepted (seenOf (TcpStack.run xs).log i) ∧
      received (seenOf (TcpStack.run xs).log i) ++ a.rx <+: greeting ++ d ++ ascii "***CLIENT CLOSED, SERVICE CLOSING***\n") ∧
    (pc = .recv → accepted (seenOf (TcpService.run g ss).t.log j) = greeting ++ received (seenOf (TcpService.run g ss).t.log j)) := by
  obtain ⟨p, ia, l, lp, r, rp, q, ib, l', lp', r', rp', hs⟩ := served hk h ha hb ht
  rw [(TcpService.seen ha hb).1] at hw ⊢
  rw [(TcpService.seen ha hb).2]
  exact C103_echo hs hw

/-- C105: on every such connection, once the service has read the end of the stream or one of the four words, and goes on from there or its
thread has ended, its end of the connection is closing. -/
theorem C105_closes (hk : k.lport ≠ 0 ∧ k.rport ≠ 0) (h : Clients calm g k xs ss) (ha : Only k (TcpStack.run xs) i a)
    (hb : Only k.flip (TcpService.run g ss).t j b) (ht : ThreadOf (TcpService.run g ss) n j pc)
    (hd : ∃ d ∈ returned (seenOf (TcpService.run g ss).t.log j), d = [] ∨ SaysEnd d) (hp : pc = .recv ∨ pc = .ended) : ClosesDown b := by
  obtain ⟨p, ia, l, lp, r, rp, q, ib, l', lp', r', rp', hs⟩ := served hk h ha hb ht
  rw [(TcpService.seen ha hb).2] at hd
  exact C103_closes hs hd hp

/-- C105: when no receive call of the service is interrupted and the thread of a connection has ended after reading the end of the stream: it has
read all that the client has sent; and if the client has sent none of the service's words, what the service has sent is the greeting, all of the
client's bytes and the closing message, and that is what the client has got once it has taken the service's FIN.  Partial: a call that is
interrupted may read an end that is not there, see `C103_race_witness`. -/
theorem C105_all_partial (hk : k.lport ≠ 0 ∧ k.rport ≠ 0) (h : Clients True g k xs ss) (ha : Only k (TcpStack.run xs) i a)
    (hb : Only k.flip (TcpService.run g ss).t j b) (ht : ThreadOf (TcpService.run g ss) n j .ended)
    (hr : [] ∈ returned (seenOf (TcpService.run g ss).t.log j)) :
    received (seenOf (TcpService.run g ss).t.log j) = accepted (seenOf (TcpStack.run xs).log i) ∧
    ((∀ w ∈ echoWords, ¬ Occurs w (accepted (seenOf (TcpStack.run xs).log i))) →
      accepted (seenOf (TcpService.run g ss).t.log j) =
        greeting ++ accepted (seenOf (TcpStack.run xs).log i) ++ ascii "***CLIENT CLOSED, SERVICE CLOSING***\n" ∧
      (a.state = .closeWait ∨ a.state = .closing ∨ a.state = .lastAck ∨ a.state = .timeWait →
        received (seenOf (TcpStack.run xs).log i) ++ a.rx =
          greeting ++ accepted (seenOf (TcpStack.run xs).log i) ++ ascii "***CLIENT CLOSED, SERVICE CLOSING***\n")) := by
  obtain ⟨p, ia, l, lp, r, rp, q, ib, l', lp', r', rp', hs⟩ := served hk h ha hb ht
  rw [(TcpService.seen ha hb).2] at hr ⊢
  rw [(TcpService.seen ha hb).1]
  exact C103_all_partial hs hr

end

/-! ### `stop` -/

/-- C105: on a connection that is accepted after `stop`, the service makes no call but the `send` of its greeting: it neither reads nor closes. -/
theorem C105_stopped {g : Config} {ss suf : List Step} (hs : (TcpService.run g ss).running = false) {n : Nat} {w : Worker} {j : Nat} {s : Sess}
    (hn : (TcpService.run g ss).workers.length ≤ n) (h : sessionOf (TcpService.run g (ss ++ suf)) n = some (w, j, s)) :
    ∀ q, callOf s w.pc = some q → q = .send greeting := by
  have key : (TcpService.run g (ss ++ suf)).running = false ∧ ∀ m w, (TcpService.run g ss).workers.length ≤ m →
      (TcpService.run g (ss ++ suf)).workers[m]? = some w → w.pc = .hello ∨ w.pc = .test ∨ w.pc = .ended ∨ w.pc = .died := by
    clear h
    induction suf using List.reverseRecOn with
    | nil =>
      rw [List.append_nil]
      refine ⟨hs, fun m w hm hw => ?_⟩
      rw [List.getElem?_eq_none_iff.2 hm] at hw; cases hw
    | append_singleton suf s ih =>
      rw [← List.append_assoc, TcpService.run_snoc]
      obtain ⟨ih1, ih2⟩ := ih
      generalize TcpService.run g (ss ++ suf) = v at ih1 ih2 ⊢
      cases s with
      | net e => exact ⟨ih1, ih2⟩
      | stop => exact ⟨rfl, ih2⟩
      | main st c i =>
        refine ⟨ih1, fun m w hm hw => ?_⟩
        have hw' : (v.workers ++ spawned v)[m]? = some w := hw
        rcases snoc_get hw' with x | ⟨-, x⟩
        · exact ih2 m w hm x
        · left
          unfold spawned at x
          split at x
          · split at x
            · cases x
            · split at x
              · cases x
              · rw [List.mem_singleton] at x; rw [x]
          · cases x
      | worker n =>
        unfold TcpService.step
        dsimp only
        split
        · exact ⟨ih1, ih2⟩
        · next w' j' s' hw' =>
          refine ⟨ih1, fun m w hm hw => ?_⟩
          dsimp only at hw
          rcases TcpStack.get_set hw with ⟨rfl, x⟩ | ⟨_, x⟩
          · subst x
            dsimp only
            have := ih2 m w' hm (sessionOf_some hw').1
            rw [ih1]
            rcases this with y | y | y | y <;> rw [y]
            · rw [turn, say]; dsimp only
              split <;> simp
            · simp [turn]
            · simp [turn]
            · simp [turn]
          · exact ih2 m w hm x
  intro q hq
  rcases key.2 n w hn (sessionOf_some h).1 with y | y | y | y <;> rw [y] at hq <;> simp [callOf] at hq
  exact hq.symm

/-! ### Examples -/

namespace Example.TcpService
open Example.Session (lip rip)
open Example.Hosts (aside aside_ok brought brought_ok only only_ok)

/-- What happens: something at the client's host, a step at the service's; or the arrival of the `n`-th segment that session `j` of the other
host has sent. -/
inductive Act
  | c (e : TcpStack.Ev)
  | s (x : Step)
  | toC (j n : Nat)
  | toS (j n iss : Nat)

def its (t : TcpStack) (l r : Nat) : Bool := r == l || t.parent r == some l

theorem its_ok {t : TcpStack} {l r : Nat} (h : (!its t l r) = true) : ¬ Its t l r := by
  simp only [its, Bool.not_eq_true', Bool.or_eq_false_iff, beq_eq_false_iff_ne, ne_eq] at h
  rintro (x | x)
  · exact h.1 x
  · exact h.2 x

def handsOff (l : Nat) (t : TcpStack) : TcpStack.Ev → Bool
  | .bind _ r _ _ _ => !its t l r
  | .connect _ r _ _ _ _ => !its t l r
  | .listen r _ => !its t l r
  | .accept r => !its t l r
  | .call i _ => !its t l (t.sockOf i)
  | _ => true

theorem handsOff_ok {l : Nat} {t : TcpStack} {e : TcpStack.Ev} (h : handsOff l t e = true) : HandsOff l t e := by
  cases e <;> first | exact its_ok h | exact trivial

/-- What the service's host may do, as far as the service is concerned. -/
def free (v : Srv) : Step → Bool
  | .net e => match door v with
    | some l => handsOff l v.t e
    | none => true
  | _ => true

/-- No thread is in the middle of a receive call, or this goes on with it. -/
def calm (v : Srv) (s : Step) : Bool :=
  (List.range v.workers.length).all fun n => match v.workers[n]?, s with
    | some w, .worker m => !(w.pc == .taking) || m == n
    | some w, _ => !(w.pc == .taking)
    | none, _ => true

theorem calm_ok {v : Srv} {s : Step} (h : calm v s = true) (n : Nat) (w : Worker) (hw : v.workers[n]? = some w) (ht : w.pc = .taking) : s = .worker n := by
  simp only [calm, List.all_eq_true, List.mem_range] at h
  have := h n (List.getElem?_eq_some_iff.mp hw).1
  rw [hw] at this
  cases s <;> simp_all

def away (k : Ends) : Step → Bool
  | .net e => aside k e
  | _ => true

def act (g : Config) (k : Ends) (x : List TcpStack.Ev × List Step) : Act → List TcpStack.Ev × List Step
  | .c e => if aside k e then (x.1 ++ [e], x.2) else x
  | .s e => if away k.flip e && free (TcpService.run g x.2) e && calm (TcpService.run g x.2) e then (x.1, x.2 ++ [e]) else x
  | .toC j n => match brought k (TcpService.run g x.2).t j n with
    | some m => (x.1 ++ [.segment m 0], x.2)
    | none => x
  | .toS j n iss => match brought k.flip (TcpStack.run x.1) j n with
    | some m => if calm (TcpService.run g x.2) (.net (.segment m iss)) then (x.1, x.2 ++ [.net (.segment m iss)]) else x
    | none => x

theorem clients (g : Config) (k : Ends) (acts : List Act) :
    Clients True g k (acts.foldl (act g k) ([], [])).1 (acts.foldl (act g k) ([], [])).2 := by
  induction acts using List.reverseRecOn with
  | nil => exact .start
  | append_singleton acts c ih =>
    rw [List.foldl_append]
    simp only [List.foldl_cons, List.foldl_nil]
    generalize acts.foldl (act g k) ([], []) = z at ih
    cases c with
    | c e => simp only [act]; split; exacts [.client ih (aside_ok ‹_› _), ih]
    | s e =>
      simp only [act]
      split
      · next h =>
        simp only [Bool.and_eq_true] at h
        refine .service ih ?_ (fun _ => calm_ok h.2)
        rintro e' rfl
        refine ⟨aside_ok h.1.1 _, fun l hl => ?_⟩
        have := h.1.2
        simp only [free, hl] at this
        exact handsOff_ok this
      · exact ih
    | toC j n => simp only [act]; split; exacts [.client ih (brought_ok ‹_›), ih]
    | toS j n iss =>
      simp only [act]
      split
      · next m hm =>
        split
        · next h =>
          refine .service ih ?_ (fun _ => calm_ok h)
          rintro e' he
          cases he
          exact ⟨brought_ok hm, fun l _ => trivial⟩
        · exact ih
      · exact ih

/-- The service on any address, port 7. -/
def g : Config := ⟨some (.v4 .zero), 7⟩

/-- The connection: 10.0.1.7 port 32168 with 10.0.1.9 port 7. -/
def k : Ends := ⟨lip, 32168, rip, 7⟩

/-- A segment to 10.0.1.9:7 from port 7001 of 10.0.1.7. -/
def other (syn ack : Bool) (seq ackn : Nat) (data : Bytes) : TcpMd :=
  ⟨rip, 7, lip, 7001, syn, ack, false, false, seq, ackn, 1000, none, 1000, data⟩

def go (n : Nat) (m : Nat) : List Act := List.replicate m (.s (.worker n))

/-- The service starts; another client connects first and sends "zz"; then the client connects.  Both are accepted, and their threads run by
turns. -/
def opening : List Act :=
  [.s (.main stack 0 0), .s (.main stack 0 0), .s (.main stack 0 500), .s (.main stack 0 0),
   .c (.socket .inet4), .c (.connect stack 0 (some rip) 7 0 100),
   .s (.net (.segment (other true false 700 0 []) 600)), .s (.net (.timer 0)), .s (.net (.segment (other false true 701 501 []) 0)),
   .c (.timer 0), .toS 0 0 800, .s (.net (.timer 1)), .toC 1 0, .toS 0 1 0,
   .s (.net (.segment (other false true 701 501 (ascii "zz")) 0)),
   .s (.main stack 0 0), .s (.main stack 0 0), .s (.worker 1), .s (.worker 0), .s (.worker 1), .s (.net (.timer 1)), .toC 1 1]

/-- The client sends "ab" and closes; the service answers both clients, and closes the client's connection. -/
def talk : List Act := opening ++
  [.c (.call 0 (.send (ascii "ab"))), .c (.timer 0), .toS 0 2 0] ++ go 1 2 ++ go 0 4 ++ go 1 2 ++ [.s (.net (.timer 1)), .toC 1 2,
   .c (.call 0 .close), .c (.timer 0), .c (.timer 0), .toS 0 3 0] ++ go 1 4 ++ [.s (.net (.timer 1)), .toC 1 3] ++
  List.replicate 100 (.c .clock) ++ [.c (.timer 0), .toS 0 4 0, .s (.net (.timer 1)), .s (.net (.timer 1)), .toC 1 4]

def xs : List TcpStack.Ev := (talk.foldl (act g k) ([], [])).1
def ss : List Step := (talk.foldl (act g k) ([], [])).2

theorem ok : Clients True g k xs ss := clients g k talk

theorem ends : ∃ a b, Only k (TcpStack.run xs) 0 a ∧ Only k.flip (TcpService.run g ss).t 1 b ∧ a.state = .timeWait ∧
    ThreadOf (TcpService.run g ss) 1 1 .ended := by
  have e : (match (TcpStack.run xs).conns[0]?, (TcpService.run g ss).t.conns[1]? with
      | some c, some d => only k (TcpStack.run xs) 0 && only k.flip (TcpService.run g ss).t 1 && c.s.state == .timeWait &&
          (TcpService.run g ss).workers[1]? == some ⟨2, .ended⟩ && (TcpService.run g ss).t.session 2 == some 1
      | _, _ => false) = true := by decide +kernel
  split at e
  · rename_i c d hc hd
    simp only [Bool.and_eq_true, beq_iff_eq] at e
    exact ⟨_, _, only_ok hc e.1.1.1.1, only_ok hd e.1.1.1.2, e.1.1.2, 2, e.1.2, e.2⟩
  · cases e

/-- The hypotheses are met, and what the theorems say of this history is what a run of it shows. -/
example : returned (seenOf (TcpService.run g ss).t.log 1) = [ascii "ab", []] ∧ accepted (seenOf (TcpStack.run xs).log 0) = ascii "ab" ∧
    accepted (seenOf (TcpService.run g ss).t.log 1) = ascii "***CLIENT OPEN / SERVICE OPEN***\nab***CLIENT CLOSED, SERVICE CLOSING***\n" ∧
    accepted (seenOf (TcpService.run g ss).t.log 0) = ascii "***CLIENT OPEN / SERVICE OPEN***\nzz" ∧
    ((TcpStack.run xs).conns[0]?).map (·.s.rx) = some (ascii "***CLIENT OPEN / SERVICE OPEN***\nab***CLIENT CLOSED, SERVICE CLOSING***\n") ∧
    (TcpService.run g ss).workers.map (·.sock) = [1, 2] ∧ inbound (TcpService.run g ss).t 0 = [1, 2] ∧ door (TcpService.run g ss) = some 0 := by
  decide +kernel

example : ∃ a b, Only k (TcpStack.run xs) 0 a ∧ Only k.flip (TcpService.run g ss).t 1 b ∧ ClosesDown b := by
  obtain ⟨a, b, ha, hb, -, ht⟩ := ends
  refine ⟨a, b, ha, hb, C105_closes (by decide) ok ha hb ht ⟨[], by decide +kernel, .inl rfl⟩ (.inr rfl)⟩

/-- C105_next: connections wait while the service's own thread is in `accept`. -/
example : (TcpService.run g (ss.take 11)).main = .accept 0 ∧ (TcpService.run g (ss.take 11)).t.queue 0 = [1, 2] := by decide +kernel

/-- The service is stopped; then the other client connects and sends "zz". -/
def late : List Step :=
  [.main stack 0 0, .main stack 0 0, .main stack 0 500, .main stack 0 0, .stop, .net (.segment (other true false 700 0 []) 600), .net (.timer 0),
   .net (.segment (other false true 701 501 []) 0), .net (.segment (other false true 701 501 (ascii "zz")) 0), .main stack 0 0, .worker 0, .worker 0]

theorem late_ok : Alone g late := by
  have : ∀ l : List Step, (∀ s ∈ l, ∀ e, s = .net e → (∃ m i, e = .segment m i) ∨ ∃ i, e = .timer i) → Alone g l := by
    intro l
    induction l using List.reverseRecOn with
    | nil => exact fun _ => .start
    | append_singleton l s ih =>
      intro h
      refine .snoc (ih (fun s hs => h s (List.mem_append_left _ hs))) (fun e he l _ => ?_)
      rcases h s (by simp) e he with ⟨m, i, rfl⟩ | ⟨i, rfl⟩ <;> exact trivial
  apply this
  intro s hs e he
  subst he
  simp only [late, List.mem_cons, List.not_mem_nil, or_false, Step.net.injEq, reduceCtorEq, false_or] at hs
  rcases hs with rfl | rfl | rfl | rfl
  · exact .inl ⟨_, _, rfl⟩
  · exact .inr ⟨_, rfl⟩
  · exact .inl ⟨_, _, rfl⟩
  · exact .inl ⟨_, _, rfl⟩

end Example.TcpService

/-! ### Where the service fails -/

/-- C105 fails for `stop`: it stops nothing.  A client that connects afterwards is accepted and greeted; then its thread ends, and nobody will ever
read what it sends, answer it or close the connection. -/
theorem C105_stop_witness : ∃ ss, Alone Example.TcpService.g ss ∧ (TcpService.run Example.TcpService.g ss).running = false ∧
    (TcpService.run Example.TcpService.g (ss.take 5)).running = false ∧ (TcpService.run Example.TcpService.g (ss.take 5)).t.conns.length = 1 ∧
    ThreadOf (TcpService.run Example.TcpService.g ss) 0 0 .ended ∧
    (∃ c, (TcpService.run Example.TcpService.g ss).t.conns[0]? = some c ∧ c.s.state = .established ∧ c.s.closes = false ∧ c.s.rx = ascii "zz" ∧
      accepted c.s.out = greeting) ∧
    ∀ suf w s, sessionOf (TcpService.run Example.TcpService.g (ss ++ suf)) 0 = some (w, 0, s) → callOf s w.pc = none := by
  refine ⟨Example.TcpService.late, Example.TcpService.late_ok, by decide +kernel, by decide +kernel, by decide +kernel,
    ⟨1, by decide +kernel, by decide +kernel⟩, ?_, ?_⟩
  · have e : (match (TcpService.run Example.TcpService.g Example.TcpService.late).t.conns[0]? with
        | some c => c.s.state == .established && c.s.closes == false && c.s.rx == ascii "zz" && accepted c.s.out == greeting
        | none => false) = true := by decide +kernel
    split at e
    · rename_i c hc
      simp only [Bool.and_eq_true, beq_iff_eq] at e
      exact ⟨c, hc, e.1.1.1, e.1.1.2, e.1.2, e.2⟩
    · cases e
  · intro suf w s h
    have key : ((TcpService.run Example.TcpService.g (Example.TcpService.late ++ suf)).workers[0]?).map (·.pc) = some .ended := by
      clear h
      induction suf using List.reverseRecOn with
      | nil => decide +kernel
      | append_singleton suf x ih =>
        rw [← List.append_assoc, TcpService.run_snoc]
        generalize TcpService.run Example.TcpService.g (Example.TcpService.late ++ suf) = v at ih
        obtain ⟨w', h1, h2⟩ := Option.map_eq_some_iff.1 ih
        cases x with
        | net e => exact ih
        | stop => exact ih
        | main st c i =>
          show ((v.workers ++ spawned v)[0]?).map _ = _
          rw [List.getElem?_append_left (TcpStack.get_lt' h1)]; exact ih
        | worker n =>
          unfold TcpService.step
          dsimp only
          split
          · exact ih
          · next w'' j' s' hw' =>
            dsimp only
            by_cases hn : n = 0
            · subst hn
              have := (sessionOf_some hw').1
              rw [h1] at this; cases this
              rw [List.getElem?_set_self (TcpStack.get_lt' h1), h2, turn]; rfl
            · rw [List.getElem?_set_ne hn]; exact ih
    obtain ⟨w', h1, h2⟩ := Option.map_eq_some_iff.1 key
    rw [(sessionOf_some h).1] at h1; cases h1
    rw [h2]; rfl

end Verif
