import Verif.Lemmas.PreemptWake
/-! With thread switches, `connect` does not return without an error unless the connection was established. -/
namespace Verif.Sess
open Verif Prog

/-- The connection has been established. -/
def Was (l : List Out) : Prop := ∃ a, (a, FsmState.established) ∈ Spec.moves l

theorem Was.append {l : List Out} (h : Was l) (l' : List Out) : Was (l ++ l') := by
  obtain ⟨a, h⟩ := h
  exact ⟨a, by unfold Spec.moves at h ⊢; rw [List.filterMap_append]; exact List.mem_append_left _ h⟩

/-- What is known of a session in the course of a run. -/
inductive Mood where
  | fine
  | over
  | lost
  | late
  | both
  | dead

def Mood.holds : Mood → Sess → Prop
  | .fine, s => s.err = .none
  | .over, s => s.state ≠ .synSent
  | .lost, s => s.err = .none ∧ s.state ≠ .synSent
  | .late, s => s.err ≠ .none
  | .both, s => s.err ≠ .none ∧ s.state ≠ .synSent
  | .dead, _ => False

structure Onward (s s' : Sess) : Prop where
  state : s'.state ≠ .established
  err : s.err ≠ .none → s'.err ≠ .none
  timeout : s.err = .timeout → s'.err = .timeout
  conn : s.evConnect < s'.evConnect → s'.err ≠ .none

/-- A program that tells `connect` the truth, if begun in this mood. -/
def Tells : Mood → Prog → Prop
  | φ, .done _ => φ ≠ .late
  | φ, .step f k => ∀ s, (∃ l, (f s).out = s.out ++ l ∧ Spec.outcomes l = []) ∧
      ∃ φ', Tells φ' (k s) ∧ (s.state ≠ .established → φ.holds s → ¬ Was (f s).out → φ'.holds (f s) ∧ Onward s (f s))

theorem Tells.mono {φ ψ : Mood} (h : ∀ s, ψ.holds s → φ.holds s) (hψ : ψ ≠ .late) {p : Prog} (hp : Tells φ p) : Tells ψ p := by
  cases p with
  | done e => exact hψ
  | step f k =>
    intro s
    obtain ⟨h1, φ', h2, h3⟩ := hp s
    exact ⟨h1, φ', h2, fun x y => h3 x (h s y)⟩

theorem Tells.dead {φ : Mood} {p : Prog} (hp : Tells φ p) : Tells .dead p := hp.mono (ψ := .dead) (fun _ h => h.elim) (by simp)

/-- In either mood. -/
def Both (p : Prog) : Prop := Tells .fine p ∧ Tells .over p

theorem Both.any {q : Prog} (h : Both q) {φ : Mood} (hφ : φ ≠ .late) : Tells φ q := by
  cases φ with
  | fine => exact h.1
  | over => exact h.2
  | lost => exact h.1.mono (φ := .fine) (ψ := .lost) (fun s x => And.left x) (by simp)
  | late => exact absurd rfl hφ
  | both => exact h.2.mono (φ := .over) (ψ := .both) (fun s x => And.right x) (by simp)
  | dead => exact h.1.dead

theorem Tells.andThen {φ : Mood} {p q : Prog} (hp : Tells φ p) (hq : Both q) : Tells φ (p ;; q) := by
  induction p generalizing φ with
  | done e =>
    cases e with
    | none => exact hq.any hp
    | some e => exact hp
  | step f k ih =>
    intro s
    obtain ⟨h1, φ', h2, h3⟩ := hp s
    exact ⟨h1, φ', ih s h2, h3⟩

theorem Both.andThen {p q : Prog} (hp : Both p) (hq : Both q) : Both (p ;; q) := ⟨hp.1.andThen hq, hp.2.andThen hq⟩

theorem both_done (e : Option PyErr) : Both (.done e) := ⟨by simp [Tells], by simp [Tells]⟩
theorem both_skip : Both skip := both_done none

/-- What concerns `connect` is left alone, but for the state. -/
structure Apart (a b : Sess) : Prop where
  syn : b.state = .synSent → a.state = .synSent
  est : ¬ Was b.out → a.state ≠ .established → b.state ≠ .established
  err : b.err = a.err
  conn : b.evConnect = a.evConnect
  out : ∃ l, b.out = a.out ++ l ∧ Spec.outcomes l = []

theorem Apart.same {a b : Sess} (h : b.state = a.state) (h2 : b.err = a.err) (h3 : b.evConnect = a.evConnect)
    (h4 : ∃ l, b.out = a.out ++ l ∧ Spec.outcomes l = []) : Apart a b := ⟨by rw [h]; exact id, by rw [h]; exact fun _ => id, h2, h3, h4⟩

theorem Apart.of {a b : Sess} (h : b.state = a.state ∧ b.err = a.err ∧ b.evConnect = a.evConnect ∧ b.out = a.out) : Apart a b :=
  .same h.1 h.2.1 h.2.2.1 ⟨[], by rw [h.2.2.2, List.append_nil], rfl⟩

theorem Apart.refl (a : Sess) : Apart a a := .of ⟨rfl, rfl, rfl, rfl⟩

theorem outcomes_append (a b : List Out) : Spec.outcomes (a ++ b) = Spec.outcomes a ++ Spec.outcomes b := List.filterMap_append

theorem Apart.trans {a b c : Sess} (h : Apart a b) (h' : Apart b c) : Apart a c := by
  obtain ⟨l, h1, h2⟩ := h.out
  obtain ⟨l', h3, h4⟩ := h'.out
  exact ⟨fun x => h.syn (h'.syn x), fun x y => h'.est x (h.est (fun z => x (by rw [h3]; exact z.append l')) y), h'.err.trans h.err, h'.conn.trans h.conn,
    l ++ l', by rw [h3, h1, List.append_assoc], by rw [outcomes_append, h2, h4]; rfl⟩

theorem Apart.onward {a b : Sess} (h : Apart a b) (hw : ¬ Was b.out) (ha : a.state ≠ .established) : Onward a b :=
  ⟨h.est hw ha, by rw [h.err]; exact id, by rw [h.err]; exact id, fun x => absurd x (by rw [h.conn]; exact Nat.lt_irrefl _)⟩

theorem both_step {f : Sess → Sess} {k : Sess → Prog} (h : ∀ s, Apart s (f s)) (hk : ∀ s, Both (k s)) : Both (.step f k) := by
  constructor
  · exact fun s => ⟨(h s).out, .fine, (hk s).1, fun hs hφ hw => ⟨(h s).err.trans hφ, (h s).onward hw hs⟩⟩
  · exact fun s => ⟨(h s).out, .over, (hk s).2, fun hs (hφ : s.state ≠ .synSent) hw => ⟨fun x => hφ ((h s).syn x), (h s).onward hw hs⟩⟩

theorem both_act {f : Sess → Sess} (h : ∀ s, Apart s (f s)) : Both (act f) := both_step h fun _ => both_skip
theorem both_look {k : Sess → Prog} (h : ∀ s, Both (k s)) : Both (look k) := both_step Apart.refl h
theorem both_call {g : Sess → Res} (h : ∀ s, Apart s (g s).s) : Both (call g) := both_step h fun _ => both_done _

theorem both_ite {P : Prop} [Decidable P] {a b : Prog} (ha : Both a) (hb : Both b) : Both (if P then a else b) := by
  split
  · exact ha
  · exact hb

theorem state_changeState (s : Sess) (st : FsmState) : (s.changeState st).s.state = st := by
  unfold changeState
  dsimp only
  split
  · split <;> rfl
  · rfl

theorem apart_changeState (s : Sess) {st : FsmState} (h : st ≠ .synSent) : Apart s (s.changeState st).s := by
  have key : (s.changeState st).s.state = st ∧ (s.changeState st).s.err = s.err ∧ (s.changeState st).s.evConnect = s.evConnect ∧
      ∃ l, (s.changeState st).s.out = s.out ++ (.moved s.state st :: l) ∧ Spec.outcomes l = [] := by
    unfold changeState
    dsimp only
    split
    · split
      · exact ⟨rfl, rfl, rfl, [.unregistered], by simp [ok], rfl⟩
      · exact ⟨rfl, rfl, rfl, [], by simp, rfl⟩
    · exact ⟨rfl, rfl, rfl, [], by simp [ok], rfl⟩
  obtain ⟨k1, k2, k3, l, k4, k5⟩ := key
  refine ⟨by rw [k1]; exact fun x => absurd x h, fun hw _ => ?_, k2, k3, _, k4, k5⟩
  rw [k1]
  rintro rfl
  refine hw ⟨s.state, ?_⟩
  rw [k4]
  unfold Spec.moves
  rw [List.filterMap_append]
  exact List.mem_append_right _ (by simp)

theorem both_changeState {st : FsmState} (h : st ≠ .synSent) : Both (changeStateP st) :=
  both_step (fun s => apart_changeState s h) fun _ => both_done _

theorem apart_transmitPacket (s : Sess) (seq : Option Nat) (syn ack fin rst : Bool) (data : Bytes) :
    Apart s (s.transmitPacket seq syn ack fin rst data).s := by
  rcases transmit_cases s seq syn ack fin rst data with x | x
  · rw [x.1]; exact .same (sentAs_state ..) (sentAs_err ..) (sentAs_evConnect ..) ⟨_, sentAs_out .., rfl⟩
  · rw [x]; exact .refl s

theorem both_transmitPacket (seq : Option Nat) (syn ack fin rst : Bool) (data : Bytes) : Both (transmitPacketP seq syn ack fin rst data) :=
  both_call fun s => apart_transmitPacket s _ _ _ _ _ _

theorem apart_next {a : Sess} {r : Res} {k : Sess → Res} (h : Apart a r.s) (hk : ∀ s, Apart s (k s).s) : Apart a (r.next k).s := by
  unfold Res.next
  split
  · exact h.trans (hk _)
  · exact h

theorem apart_delayedAck (s : Sess) : Apart s s.delayedAck.s := by
  unfold delayedAck
  split
  · refine apart_next ?_ fun _ => .of ⟨rfl, rfl, rfl, rfl⟩
    split
    · exact apart_transmitPacket _ _ _ _ _ _ _
    · exact .refl _
  · exact .refl _

theorem apart_outOfOrder (s : Sess) (m : TcpMd) : Apart s (s.outOfOrder m).s := by
  unfold outOfOrder
  dsimp only
  split
  · refine Apart.trans (.of ?_) (apart_transmitPacket _ _ _ _ _ _ _)
    exact ⟨rfl, rfl, rfl, rfl⟩
  · exact .of ⟨rfl, rfl, rfl, rfl⟩

theorem apart_retransmitRequest (s : Sess) (m : TcpMd) : Apart s (s.retransmitRequest m) := by
  unfold retransmitRequest
  dsimp only
  split <;> exact .of ⟨rfl, rfl, rfl, rfl⟩

theorem apart_fsmListen (i : Input) (s : Sess) : Apart s (s.fsmListen i).s := by
  cases i with
  | packet m =>
    show Apart s (if _ then _ else _ : Res).s
    split
    · refine Apart.trans (.same ?_ ?_ ?_ ⟨[.spawned], ?_, rfl⟩) (apart_changeState _ (by simp)) <;> rfl
    · exact .refl _
  | timer => exact .refl _
  | sys c => cases c <;> first | exact apart_changeState _ (by simp) | exact .refl _

theorem apart_fsmClosing (i : Input) (s : Sess) : Apart s (s.fsmClosing i).s := by
  cases i with
  | packet m =>
    show Apart s (if _ then _ else if _ then if _ then _ else _ else _ : Res).s
    split
    · refine apart_next (Apart.trans (.of ?_) (apart_changeState _ (by simp))) fun _ => .of ⟨rfl, rfl, rfl, rfl⟩
      exact ⟨rfl, rfl, rfl, rfl⟩
    · split
      · split
        · exact apart_changeState _ (by simp)
        · exact .refl _
      · exact .refl _
  | timer => exact .refl _
  | sys c => exact .refl _

theorem apart_fsmTimeWait (i : Input) (s : Sess) : Apart s (s.fsmTimeWait i).s := by
  cases i with
  | timer =>
    show Apart s (if _ then _ else _ : Res).s
    split
    · exact apart_changeState _ (by simp)
    · exact .refl _
  | packet => exact .refl _
  | sys c => exact .refl _

theorem both_releaseRx : Both releaseRx := both_act fun _ => .of ⟨rfl, rfl, rfl, rfl⟩

theorem both_enqueue (d : Bytes) : Both (enqueueRxP d) :=
  Both.andThen (both_act fun _ => .of ⟨rfl, rfl, rfl, rfl⟩) (both_look fun _ => both_ite both_releaseRx (both_act fun s => .refl s))

theorem both_transmitData : Both transmitDataP := by
  refine both_look fun s => ?_
  refine both_ite (both_done _) (both_ite (both_transmitPacket _ _ _ _ _ _) (both_ite (both_transmitPacket _ _ _ _ _ _)
    (both_ite (both_ite (both_look fun s => both_transmitPacket _ _ _ _ _ _) both_skip) (both_ite (both_transmitPacket _ _ _ _ _ _) both_skip))))

/-- The semaphore is released after the error was noted. -/
theorem tells_releaseConnect {φ : Mood} (h : φ = .both ∨ φ = .late) {k : Sess → Prog} (hk : ∀ s, Tells φ (k s)) :
    Tells φ (.step (fun s => { s with evConnect := s.evConnect + 1 }) k) := by
  intro s
  refine ⟨⟨[], (List.append_nil _).symm, rfl⟩, φ, hk s, fun hs hφ _ => ⟨?_, hs, id, id, fun _ => ?_⟩⟩
  · rcases h with rfl | rfl <;> exact hφ
  · rcases h with rfl | rfl
    · exact hφ.1
    · exact hφ

theorem tells_timeout {st : FsmState} :
    (st ≠ .synSent → Tells .over ((if st = .established ∨ st = .finWait1 ∨ st = .finWait2 ∨ st = .closeWait then
          act (fun s => { s with err := .timeout }) ;; releaseRx
        else skip) ;;
        (if st = .synSent then act (fun s => { s with err := .timeout }) ;; releaseConnect else skip) ;;
        changeStateP .closed)) ∧
    (st = .synSent → Tells .fine ((if st = .established ∨ st = .finWait1 ∨ st = .finWait2 ∨ st = .closeWait then
          act (fun s => { s with err := .timeout }) ;; releaseRx
        else skip) ;;
        (if st = .synSent then act (fun s => { s with err := .timeout }) ;; releaseConnect else skip) ;;
        changeStateP .closed)) := by
  constructor
  · intro h
    rw [if_neg h]
    refine Tells.andThen ?_ (both_skip.andThen (both_changeState (by simp)))
    split
    · refine Tells.andThen ?_ both_releaseRx
      intro s
      exact ⟨⟨[], (List.append_nil _).symm, rfl⟩, .over, by simp [Tells, skip], fun hs hφ _ => ⟨hφ, hs, by simp, fun _ => rfl, fun x => absurd x (Nat.lt_irrefl _)⟩⟩
    · exact both_skip.2
  · rintro rfl
    rw [if_neg (by simp), if_pos rfl]
    show Tells .fine (.step _ _)
    intro s
    refine ⟨⟨[], (List.append_nil _).symm, rfl⟩, .late, ?_, fun hs hφ _ => ⟨by simp [Mood.holds], hs, by simp, fun _ => rfl, fun x => absurd x (Nat.lt_irrefl _)⟩⟩
    refine tells_releaseConnect (.inr rfl) fun s => ?_
    show Tells .late (.step _ _)
    intro s
    have ha := apart_changeState s (st := .closed) (by simp)
    refine ⟨ha.out, .both, by simp [Tells], fun hs hφ hw => ⟨⟨by rw [ha.err]; exact hφ, ?_⟩, ha.onward hw hs⟩⟩
    rw [state_changeState]
    simp

theorem tells_callThen {φ : Mood} (hφ : φ = .fine ∨ φ = .over) {g : Sess → Res} (h : ∀ s, Apart s (g s).s) {q : Prog} (hq : Tells φ q) :
    Tells φ (call g ;; q) := by
  intro s
  refine ⟨(h s).out, φ, ?_, fun hs hh hw => ⟨?_, (h s).onward hw hs⟩⟩
  · show Tells φ ((Prog.done (g s).exc) ;; q)
    cases (g s).exc with
    | none => exact hq
    | some e =>
      show φ ≠ .late
      rcases hφ with rfl | rfl <;> simp
  · rcases hφ with rfl | rfl
    · exact (h s).err.trans hh
    · exact fun x => hh ((h s).syn x)

/-- `_retransmit_packet_timeout` in a session that was `s` when it looked. -/
def timeoutBody (s : Sess) : Prog :=
  match s.txTmo.get? s.sndUna with
  | none => skip
  | some c =>
    if s.expired (.retransmit s.sndUna) then
      if c = 3 then
        transmitPacketP (some s.sndUna) false true false true [] ;;
        (if s.state = .established ∨ s.state = .finWait1 ∨ s.state = .finWait2 ∨ s.state = .closeWait then
          act (fun s => { s with err := .timeout }) ;; releaseRx
        else skip) ;;
        (if s.state = .synSent then act (fun s => { s with err := .timeout }) ;; releaseConnect else skip) ;;
        changeStateP .closed
      else
        act fun s => { s with
          sndEwn := s.sndMss
          sndNxt := s.sndUna
          seqMod := if s.sndUna = s.sndIni ∨ s.sndUna = s.sndFin then s.seqMod - 1 else s.seqMod }
    else skip

theorem tells_timeoutBody (s : Sess) : (s.state ≠ .synSent → Tells .over (timeoutBody s)) ∧ (s.state = .synSent → Tells .fine (timeoutBody s)) := by
  have ha : Both (act fun s : Sess => { s with
          sndEwn := s.sndMss
          sndNxt := s.sndUna
          seqMod := if s.sndUna = s.sndIni ∨ s.sndUna = s.sndFin then s.seqMod - 1 else s.seqMod }) := both_act fun _ => .of ⟨rfl, rfl, rfl, rfl⟩
  unfold timeoutBody
  cases s.txTmo.get? s.sndUna with
  | none => exact ⟨fun _ => both_skip.2, fun _ => both_skip.1⟩
  | some c =>
    dsimp only
    by_cases h1 : s.expired (.retransmit s.sndUna) = true
    · rw [if_pos h1]
      by_cases h2 : c = 3
      · rw [if_pos h2]
        exact ⟨fun h => tells_callThen (.inr rfl) (fun s => apart_transmitPacket s _ _ _ _ _ _) (tells_timeout.1 h),
          fun h => tells_callThen (.inl rfl) (fun s => apart_transmitPacket s _ _ _ _ _ _) (tells_timeout.2 h)⟩
      · rw [if_neg h2]
        exact ⟨fun _ => ha.2, fun _ => ha.1⟩
    · rw [if_neg h1]
      exact ⟨fun _ => both_skip.2, fun _ => both_skip.1⟩

theorem both_retransmitTimeout : Both retransmitTimeoutP := by
  constructor
  · intro s
    by_cases h : s.state = .synSent
    · exact ⟨(Apart.refl s).out, .fine, (tells_timeoutBody s).2 h, fun hs hφ hw => ⟨hφ, (Apart.refl s).onward hw hs⟩⟩
    · exact ⟨(Apart.refl s).out, .over, (tells_timeoutBody s).1 h, fun hs hφ hw => ⟨h, (Apart.refl s).onward hw hs⟩⟩
  · intro s
    by_cases h : s.state = .synSent
    · exact ⟨(Apart.refl s).out, .dead, ((tells_timeoutBody s).2 h).dead, fun hs hφ hw => absurd h hφ⟩
    · exact ⟨(Apart.refl s).out, .over, (tells_timeoutBody s).1 h, fun hs hφ hw => ⟨h, (Apart.refl s).onward hw hs⟩⟩

theorem tells_step_dead (e : Option PyErr) : Tells .dead (Prog.done e ;; releaseConnect) := by
  cases e with
  | none =>
    intro s
    exact ⟨⟨[], (List.append_nil _).symm, rfl⟩, .dead, by simp [Tells, skip], fun _ h => h.elim⟩
  | some e => exact (by simp : Mood.dead ≠ Mood.late)

theorem was_changeState (s : Sess) : Was (s.changeState .established).s.out := ⟨s.state, by simp [changeState, ok, Spec.moves]⟩

theorem both_processAck {fsm : TcpMd → Prog} (h : ∀ m, Both (fsm m)) (m : TcpMd) : Both (processAckP fsm m) := by
  refine Both.andThen ?_ ?_
  · exact Both.andThen (both_act fun _ => .of ⟨rfl, rfl, rfl, rfl⟩) (Both.andThen (both_ite (both_enqueue _) both_skip)
      (Both.andThen (both_act fun _ => .of ⟨rfl, rfl, rfl, rfl⟩) (both_act fun _ => .of ⟨rfl, rfl, rfl, rfl⟩)))
  · refine both_step (fun s => ?_) fun s => ?_
    · split <;> exact .of ⟨rfl, rfl, rfl, rfl⟩
    · split
      · exact both_skip
      · exact h _

/-- As below, with something in between. -/
theorem both_established' (f : Sess → Sess) (hf : ∀ s, Apart s (f s)) : Both (changeStateP .established ;; act f ;; releaseConnect) := by
  have key : ∀ φ, Tells φ (changeStateP .established ;; act f ;; releaseConnect) := by
    intro φ s
    have ha := apart_changeState s (st := .established) (by simp)
    refine ⟨ha.out, .dead, ?_, fun _ _ hw => absurd ?_ hw⟩
    · show Tells .dead (Prog.done (s.changeState .established).exc ;; _)
      cases (s.changeState .established).exc with
      | none =>
        intro s
        refine ⟨(hf s).out, .dead, ?_, fun _ h => h.elim⟩
        exact tells_step_dead none
      | some e => exact (by simp : Mood.dead ≠ Mood.late)
    · exact was_changeState s
  exact ⟨key _, key _⟩

/-- The semaphore is released after the connection was established. -/
theorem both_established : Both (changeStateP .established ;; releaseConnect) := by
  have key : ∀ φ, Tells φ (changeStateP .established ;; releaseConnect) := by
    intro φ s
    have ha := apart_changeState s (st := .established) (by simp)
    refine ⟨ha.out, .dead, ?_, fun _ _ hw => absurd ?_ hw⟩
    · exact tells_step_dead _
    · exact was_changeState s
  exact ⟨key _, key _⟩

theorem tells_refused : Tells .fine (changeStateP .closed ;; act (fun s => { s with err := .refused }) ;; releaseConnect) := by
  intro s
  have ha := apart_changeState s (st := .closed) (by simp)
  refine ⟨ha.out, .lost, ?_, fun hs hφ hw => ⟨⟨ha.err.trans hφ, by rw [state_changeState]; simp⟩, ha.onward hw hs⟩⟩
  show Tells .lost (Prog.done (s.changeState .closed).exc ;; _)
  cases (s.changeState .closed).exc with
  | some e => exact (by simp : Mood.lost ≠ Mood.late)
  | none =>
    intro s
    refine ⟨⟨[], (List.append_nil _).symm, rfl⟩, .both, ?_, fun hs hφ hw => ⟨⟨by simp, hφ.2⟩, hs, by simp, fun x => ?_, fun x => absurd x (Nat.lt_irrefl _)⟩⟩
    · exact tells_releaseConnect (.inl rfl) fun s => (by simp : Mood.both ≠ Mood.late)
    · rw [hφ.1] at x; cases x

theorem both_fsm (n : Nat) {i : Input} (hi : i ≠ .sys .connect) : Both (fsmP n i) := by
  induction n generalizing i with
  | zero => exact both_done _
  | succ n ih =>
    have pa : ∀ m, Both (processAckP (fun m => fsmP n (.packet m)) m) := both_processAck fun m => ih (by simp)
    have tp := both_transmitPacket
    have cs : ∀ {st : FsmState}, st ≠ .synSent → Both (changeStateP st) := both_changeState
    have sk := both_skip
    have da : Both delayedAckP := both_call apart_delayedAck
    have ac : ∀ {f : Sess → Sess}, (∀ s, Apart s (f s)) → Both (act f) := both_act
    have rt := both_retransmitTimeout.andThen both_transmitData
    -- In SYN_SENT.
    have hsyn : ∀ s : Sess, Tells .fine (fsmSynSentP (fun m => fsmP n (.packet m)) s i) := by
      intro s
      cases i with
      | timer => exact rt.1
      | sys c => cases c <;> first | exact (cs (by simp)).1 | exact sk.1
      | packet m =>
        dsimp only [fsmSynSentP]
        split
        · have h0 := (pa m).andThen ((tp none false true false false []).andThen both_established)
          refine (Both.andThen (ac ?_) h0).1
          exact fun _ => .of ⟨rfl, rfl, rfl, rfl⟩
        · split
          · exact ((tp _ _ _ _ _ _).andThen (cs (by simp))).1
          · split
            · split
              · exact tells_refused
              · exact sk.1
            · exact sk.1
    have key : ∀ s : Sess, s.state ≠ .synSent → Both (match s.state with
        | .closed => fsmClosedP i
        | .listen => call (·.fsmListen i)
        | .synSent => fsmSynSentP (fun m => fsmP n (.packet m)) s i
        | .synRcvd => fsmSynRcvdP (fun m => fsmP n (.packet m)) s i
        | .established => fsmEstablishedP (fun m => fsmP n (.packet m)) s i
        | .finWait1 => fsmFinWait1P (fun m => fsmP n (.packet m)) s i
        | .finWait2 => fsmFinWait2P (fun m => fsmP n (.packet m)) s i
        | .closing => call (·.fsmClosing i)
        | .closeWait => fsmCloseWaitP (fun m => fsmP n (.packet m)) s i
        | .lastAck => fsmLastAckP s i
        | .timeWait => call (·.fsmTimeWait i)) := by
      intro s hs
      cases hst : s.state with
      | closed => cases i with
        | sys c => cases c <;> first | exact absurd rfl hi | exact cs (by simp) | exact sk
        | packet => exact sk
        | timer => exact sk
      | listen => exact both_call (apart_fsmListen i)
      | synSent => exact absurd hst hs
      | synRcvd => cases i with
        | timer => exact rt
        | sys c => cases c <;> first | exact cs (by simp) | exact sk
        | packet m =>
          refine both_ite ?_ (both_ite (both_ite (cs (by simp)) sk) (both_ite (both_ite (cs (by simp)) sk) sk))
          refine (pa m).andThen ?_
          exact both_established' _ fun _ => .same rfl rfl rfl ⟨[.queued], rfl, rfl⟩
      | established => cases i with
        | timer =>
          refine both_retransmitTimeout.andThen (both_transmitData.andThen (da.andThen ?_))
          exact both_look fun s => both_ite (cs (by simp)) sk
        | sys c => cases c <;> first | exact ac fun _ => .of ⟨rfl, rfl, rfl, rfl⟩ | exact sk
        | packet m =>
          refine both_ite sk (both_ite (both_ite ?_ (both_ite (both_call fun s => apart_outOfOrder s m) (both_ite (pa m) sk)))
            (both_ite (both_ite ?_ sk) (both_ite (both_ite ?_ sk) sk)))
          · exact ac fun s => apart_retransmitRequest s m
          · exact (pa m).andThen ((both_ite (tp _ _ _ _ _ _) sk).andThen (both_releaseRx.andThen (cs (by simp))))
          · exact both_releaseRx.andThen (cs (by simp))
      | finWait1 => cases i with
        | timer => exact rt
        | sys c => cases c <;> exact sk
        | packet m =>
          refine both_ite (both_ite ?_ sk) (both_ite (both_ite ?_ sk) (both_ite (both_ite (cs (by simp)) sk) sk))
          · exact (pa m).andThen ((both_ite (tp _ _ _ _ _ _) sk).andThen (both_look fun s => both_ite (cs (by simp)) sk))
          · refine (pa m).andThen ((tp _ _ _ _ _ _).andThen (both_look fun s => both_ite ?_ (cs (by simp))))
            exact (cs (by simp)).andThen (ac fun _ => .of ⟨rfl, rfl, rfl, rfl⟩)
      | finWait2 => cases i with
        | timer => exact sk
        | sys c => cases c <;> exact sk
        | packet m =>
          refine both_ite ?_ (both_ite ?_ (both_ite (both_ite (cs (by simp)) sk) sk))
          · exact (pa m).andThen (both_ite (tp _ _ _ _ _ _) sk)
          · exact (pa m).andThen ((tp _ _ _ _ _ _).andThen ((cs (by simp)).andThen (ac fun _ => .of ⟨rfl, rfl, rfl, rfl⟩)))
      | closing => exact both_call (apart_fsmClosing i)
      | closeWait => cases i with
        | timer =>
          refine both_retransmitTimeout.andThen (both_transmitData.andThen (da.andThen ?_))
          exact both_look fun s => both_ite (cs (by simp)) sk
        | sys c => cases c <;> first | exact ac fun _ => .of ⟨rfl, rfl, rfl, rfl⟩ | exact sk
        | packet m =>
          refine both_ite (both_ite ?_ (both_ite (both_call fun s => apart_outOfOrder s m) (both_ite (pa m) sk)))
            (both_ite (both_ite (cs (by simp)) sk) sk)
          exact ac fun s => apart_retransmitRequest s m
      | lastAck => cases i with
        | timer => exact rt
        | sys c => cases c <;> exact sk
        | packet m =>
          exact both_ite (both_ite (cs (by simp)) sk) (both_ite (both_ite (cs (by simp)) sk) sk)
      | timeWait => exact both_call (apart_fsmTimeWait i)
    constructor
    · intro s
      refine ⟨(Apart.refl s).out, .fine, ?_, fun hs hφ hw => ⟨hφ, (Apart.refl s).onward hw hs⟩⟩
      by_cases h : s.state = .synSent
      · dsimp only; rw [h]; exact hsyn s
      · exact (key s h).1
    · intro s
      by_cases h : s.state = .synSent
      · refine ⟨(Apart.refl s).out, .dead, ?_, fun hs hφ hw => absurd h hφ⟩
        dsimp only; rw [h]; exact (hsyn s).dead
      · exact ⟨(Apart.refl s).out, .over, (key s h).2, fun hs hφ hw => ⟨hφ, (Apart.refl s).onward hw hs⟩⟩

/-! ### The application -/

/-- What `connect` has been told, and what it is about to be. -/
structure Told (c : Conc) : Prop where
  out : ConnError.none ∉ Spec.outcomes c.s.out
  state : c.s.state ≠ .established
  early : 0 < c.s.evConnect ∨ 0 < c.conn1 ∨ 0 < c.conn2 → c.s.err ≠ .none
  late : 0 < c.conn3 ∨ 0 < c.conn4 → c.s.err = .timeout

def Truly (c : Conc) : Prop := ¬ Was c.s.out → Told c

/-- The application's steps leave state and error alone, and establish nothing. -/
theorem app_moves (c : Conc) (a : App) : (c.app a).s.state = c.s.state ∧ (c.app a).s.err = c.s.err ∧ (Was (c.app a).s.out ↔ Was c.s.out) := by
  have key : ∀ o : Out, Spec.moves [o] = [] → (Was (c.s.out ++ [o]) ↔ Was c.s.out) := by
    intro o ho
    unfold Was
    rw [show Spec.moves (c.s.out ++ [o]) = Spec.moves c.s.out ++ Spec.moves [o] from List.filterMap_append, ho, List.append_nil]
  cases a with
  | sendTest d =>
    dsimp only [Conc.app]
    split
    · exact ⟨rfl, rfl, .rfl⟩
    · exact ⟨rfl, rfl, key _ rfl⟩
  | sendPut k =>
    dsimp only [Conc.app]
    split
    · exact ⟨rfl, rfl, .rfl⟩
    · exact ⟨rfl, rfl, key _ rfl⟩
  | recvAcquire =>
    dsimp only [Conc.app, recvAcquire]
    split <;> exact ⟨rfl, rfl, .rfl⟩
  | recvLook =>
    dsimp only [Conc.app]
    split
    · exact ⟨rfl, rfl, .rfl⟩
    · split <;> exact ⟨rfl, rfl, .rfl⟩
  | recvState =>
    dsimp only [Conc.app]
    split
    · exact ⟨rfl, rfl, .rfl⟩
    · split
      · exact ⟨rfl, rfl, key _ rfl⟩
      · exact ⟨rfl, rfl, .rfl⟩
  | recvTake n =>
    dsimp only [Conc.app]
    split
    · exact ⟨rfl, rfl, .rfl⟩
    · exact ⟨rfl, rfl, key _ rfl⟩
  | recvRelease k =>
    dsimp only [Conc.app]
    split
    · exact ⟨rfl, rfl, .rfl⟩
    · split <;> exact ⟨rfl, rfl, .rfl⟩
  | connAcquire =>
    dsimp only [Conc.app]
    split <;> exact ⟨rfl, rfl, .rfl⟩
  | connState =>
    dsimp only [Conc.app]
    split
    · exact ⟨rfl, rfl, .rfl⟩
    · split <;> exact ⟨rfl, rfl, .rfl⟩
  | connRefused =>
    dsimp only [Conc.app]
    split
    · exact ⟨rfl, rfl, .rfl⟩
    · split
      · exact ⟨rfl, rfl, key _ rfl⟩
      · exact ⟨rfl, rfl, .rfl⟩
  | connState' =>
    dsimp only [Conc.app]
    split
    · exact ⟨rfl, rfl, .rfl⟩
    · split
      · exact ⟨rfl, rfl, .rfl⟩
      · exact ⟨rfl, rfl, key _ rfl⟩
  | connTimeout =>
    dsimp only [Conc.app]
    split
    · exact ⟨rfl, rfl, .rfl⟩
    · split <;> exact ⟨rfl, rfl, key _ rfl⟩

theorem told_app {c : Conc} (h : Told c) (a : App) : Told (c.app a) := by
  have say : ∀ o : Out, Spec.outcomes [o] = [] → ConnError.none ∉ Spec.outcomes (c.s.out ++ [o]) := by
    intro o ho
    rw [outcomes_append, ho, List.append_nil]
    exact h.out
  have say' : ∀ e : ConnError, e ≠ .none → ConnError.none ∉ Spec.outcomes (c.s.out ++ [.connected e]) := by
    intro e he
    rw [outcomes_append]
    intro x
    rcases List.mem_append.1 x with x | x
    · exact h.out x
    · have : ConnError.none ∈ [e] := x
      exact he (List.mem_singleton.1 this).symm
  cases a with
  | sendTest d =>
    dsimp only [Conc.app]
    split
    · exact ⟨h.out, h.state, h.early, h.late⟩
    · exact ⟨say _ rfl, h.state, h.early, h.late⟩
  | sendPut k =>
    dsimp only [Conc.app]
    split
    · exact h
    · exact ⟨say _ rfl, h.state, h.early, h.late⟩
  | recvAcquire =>
    dsimp only [Conc.app, recvAcquire]
    split
    · exact h
    · exact ⟨h.out, h.state, h.early, h.late⟩
  | recvLook =>
    dsimp only [Conc.app]
    split
    · exact h
    · split <;> exact ⟨h.out, h.state, h.early, h.late⟩
  | recvState =>
    dsimp only [Conc.app]
    split
    · exact h
    · split
      · exact ⟨say _ rfl, h.state, h.early, h.late⟩
      · exact ⟨h.out, h.state, h.early, h.late⟩
  | recvTake n =>
    dsimp only [Conc.app]
    split
    · exact h
    · exact ⟨say _ rfl, h.state, h.early, h.late⟩
  | recvRelease k =>
    dsimp only [Conc.app]
    split
    · exact h
    · split <;> exact ⟨h.out, h.state, h.early, h.late⟩
  | connAcquire =>
    dsimp only [Conc.app]
    split
    · exact h
    · rename_i hn
      exact ⟨h.out, h.state, fun _ => h.early (.inl (Nat.pos_of_ne_zero hn)), h.late⟩
  | connState =>
    dsimp only [Conc.app]
    split
    · exact h
    · rename_i hn
      rw [if_pos h.state]
      exact ⟨h.out, h.state, fun _ => h.early (.inr (.inl (Nat.pos_of_ne_zero hn))), h.late⟩
  | connRefused =>
    dsimp only [Conc.app]
    split
    · exact h
    · rename_i hn
      have he := h.early (.inr (.inr (Nat.pos_of_ne_zero hn)))
      split
      · exact ⟨say' _ (by simp), h.state, fun _ => he, h.late⟩
      · rename_i hr
        refine ⟨h.out, h.state, fun _ => he, fun _ => ?_⟩
        show c.s.err = .timeout
        cases hx : c.s.err with
        | none => exact absurd hx he
        | refused => exact absurd hx hr
        | timeout => rfl
  | connState' =>
    dsimp only [Conc.app]
    split
    · exact h
    · rename_i hn
      rw [if_pos h.state]
      exact ⟨h.out, h.state, h.early, fun _ => h.late (.inl (Nat.pos_of_ne_zero hn))⟩
  | connTimeout =>
    dsimp only [Conc.app]
    split
    · exact h
    · rename_i hn
      have he := h.late (.inr (Nat.pos_of_ne_zero hn))
      rw [if_pos he]
      exact ⟨say' _ (by simp), h.state, h.early, fun _ => he⟩

theorem truly_apps (l : List App) {c : Conc} (h : Truly c) : Truly (c.apps l) ∧ (c.apps l).s.state = c.s.state ∧ (c.apps l).s.err = c.s.err ∧
    (Was (c.apps l).s.out ↔ Was c.s.out) := by
  induction l generalizing c with
  | nil => exact ⟨h, rfl, rfl, .rfl⟩
  | cons a l ih =>
    obtain ⟨a1, a2, a3⟩ := app_moves c a
    obtain ⟨b1, b2, b3, b4⟩ := ih (c := c.app a) fun hw => told_app (h fun x => hw (a3.2 x)) a
    exact ⟨b1, b2.trans a1, b3.trans a2, b4.trans a3⟩

/-- Between runs: an error is not noted before the session has left SYN_SENT. -/
def Settled (s : Sess) : Prop := ¬ Was s.out → s.err = .none ∨ s.state ≠ .synSent

theorem settled_of {s t : Sess} (h1 : t.state = s.state) (h2 : t.err = s.err) (h3 : Was t.out ↔ Was s.out) (h : Settled s) : Settled t := by
  intro hw
  rw [h1, h2]
  exact h fun x => hw (h3.2 x)

theorem holds_of {s t : Sess} (h1 : t.state = s.state) (h2 : t.err = s.err) {φ : Mood} (h : φ.holds s) : φ.holds t := by
  cases φ <;> unfold Mood.holds at h ⊢ <;> dsimp only at h ⊢ <;> (try rw [h1]) <;> (try rw [h2]) <;> exact h

theorem truly_weave (p : Prog) {φ : Mood} (hp : Tells φ p) {l : List (List App)} {c : Conc} (h : Truly c) (hφ : ¬ Was c.s.out → φ.holds c.s) :
    Truly (Conc.weave p l c).1 ∧ Settled (Conc.weave p l c).1.s := by
  induction p generalizing φ l c with
  | done e =>
    refine ⟨h, fun hw => ?_⟩
    have hh := hφ hw
    cases φ with
    | fine => exact .inl hh
    | over => exact .inr hh
    | lost => exact .inl hh.1
    | late => exact absurd rfl hp
    | both => exact .inr hh.2
    | dead => exact hh.elim
  | step f k ih =>
    obtain ⟨a1, a2, a3, a4⟩ := truly_apps (l.headD []) h
    obtain ⟨⟨o, ho, hoo⟩, φ', h2, h3⟩ := hp (c.apps (l.headD [])).s
    have hback : ¬ Was (f (c.apps (l.headD [])).s).out → ¬ Was (c.apps (l.headD [])).s.out := fun hw x => hw (by rw [ho]; exact x.append o)
    have hgo : ¬ Was (f (c.apps (l.headD [])).s).out → φ'.holds (f (c.apps (l.headD [])).s) ∧ Onward (c.apps (l.headD [])).s (f (c.apps (l.headD [])).s) :=
      fun hw => h3 (a1 (hback hw)).state (holds_of a2 a3 (hφ fun x => hback hw (a4.2 x))) hw
    refine ih _ h2 (fun hw => ?_) fun hw => (hgo hw).1
    have t := a1 (hback hw)
    have g := (hgo hw).2
    refine ⟨?_, g.state, fun x => ?_, fun x => g.timeout (t.late x)⟩
    · show ConnError.none ∉ Spec.outcomes (f _).out
      rw [ho, outcomes_append, hoo, List.append_nil]
      exact t.out
    · rcases x with x | x
      · by_cases hlt : (c.apps (l.headD [])).s.evConnect < (f (c.apps (l.headD [])).s).evConnect
        · exact g.conn hlt
        · exact g.err (t.early (.inl (Nat.lt_of_lt_of_le x (Nat.le_of_not_lt hlt))))
      · exact g.err (t.early (.inr x))

theorem truly_fsm {c : Conc} (h : Truly c) (hs : Settled c.s) {i : Input} (hi : i ≠ .sys .connect) (l : List (List App)) :
    Truly (c.fsm i l) ∧ Settled (c.fsm i l).s := by
  have hw : Truly (Conc.weave (fsmP (c.s.ooo.length + 1) i) l c).1 ∧ Settled (Conc.weave (fsmP (c.s.ooo.length + 1) i) l c).1.s := by
    by_cases hx : Was c.s.out
    · exact truly_weave _ (both_fsm _ hi).1.dead h fun y => absurd hx y
    · rcases hs hx with x | x
      · exact truly_weave _ (both_fsm _ hi).1 h fun _ => x
      · exact truly_weave _ (both_fsm _ hi).2 h fun _ => x
  unfold Conc.fsm
  generalize Conc.weave (fsmP (c.s.ooo.length + 1) i) l c = r at hw
  obtain ⟨c', l', e⟩ := r
  cases e with
  | none =>
    obtain ⟨a1, a2, a3, a4⟩ := truly_apps l'.flatten hw.1
    exact ⟨a1, settled_of a2 a3 a4 hw.2⟩
  | some e =>
    have key : Was (c'.s.out ++ [.raised e]) ↔ Was c'.s.out := by
      unfold Was
      rw [show Spec.moves (c'.s.out ++ [.raised e]) = Spec.moves c'.s.out ++ [] from List.filterMap_append, List.append_nil]
    have h1 : Truly { c' with s := c'.s.emit (.raised e) } := by
      intro hx
      have t := hw.1 fun y => hx (key.2 y)
      refine ⟨?_, t.state, t.early, t.late⟩
      show ConnError.none ∉ Spec.outcomes (c'.s.out ++ [.raised e])
      rw [outcomes_append]
      exact (List.append_nil _).symm ▸ t.out
    obtain ⟨a1, a2, a3, a4⟩ := truly_apps l'.flatten h1
    exact ⟨a1, settled_of a2 a3 a4 (settled_of (s := c'.s) (t := c'.s.emit (.raised e)) rfl rfl key hw.2)⟩

theorem truly_run {c : Conc} (h : Truly c) (hs : Settled c.s) (x : List (Work × List (List App))) : Truly (c.run x) := by
  induction x generalizing c with
  | nil => exact h
  | cons x xs ih =>
    obtain ⟨w, l⟩ := x
    have plain : ∀ s' : Sess, s'.state = c.s.state → s'.err = c.s.err → s'.out = c.s.out → s'.evConnect = c.s.evConnect →
        Truly ({ c with s := s' }.apps l.flatten) ∧ Settled ({ c with s := s' }.apps l.flatten).s := by
      intro s' h1 h2 h3 h4
      have ht : Truly { c with s := s' } := by
        intro hw
        have t := h (by rw [← h3]; exact hw)
        refine ⟨?_, ?_, ?_, ?_⟩
        · show ConnError.none ∉ Spec.outcomes s'.out
          rw [h3]; exact t.out
        · show s'.state ≠ _
          rw [h1]; exact t.state
        · show 0 < s'.evConnect ∨ _ → s'.err ≠ .none
          rw [h4, h2]; exact t.early
        · show _ → s'.err = .timeout
          rw [h2]; exact t.late
      obtain ⟨a1, a2, a3, a4⟩ := truly_apps l.flatten ht
      exact ⟨a1, settled_of (a2.trans h1) (a3.trans h2) (a4.trans (by show Was s'.out ↔ _; rw [h3])) hs⟩
    have hstep : Truly (c.step (w, l)) ∧ Settled (c.step (w, l)).s := by
      cases w with
      | segment m => exact truly_fsm h hs (by simp) l
      | close => exact truly_fsm h hs (by simp) l
      | timer => exact truly_fsm h hs (by simp) l
      | clock => exact plain c.s.clock rfl rfl rfl rfl
      | table b => exact plain { c.s with registered := b } rfl rfl rfl rfl
    exact ih hstep.1 hstep.2

end Verif.Sess
