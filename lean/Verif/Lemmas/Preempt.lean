import Verif.Model.Preempt
import Verif.Lemmas.SessionSend
/-! Runs of `tcp_fsm` as programs: without interruption they are those of `Model/Session.lean`. -/
namespace Verif.Sess
open Verif Prog

theorem run_done (e : Option PyErr) (s : Sess) : (done e).run s = ⟨s, e⟩ := rfl
theorem run_skip (s : Sess) : skip.run s = ok s := rfl
theorem run_step (f : Sess → Sess) (k : Sess → Prog) (s : Sess) : (Prog.step f k).run s = (k s).run (f s) := rfl
theorem run_act (f : Sess → Sess) (s : Sess) : (act f).run s = ok (f s) := rfl
theorem run_look (k : Sess → Prog) (s : Sess) : (look k).run s = (k s).run s := rfl
theorem run_call (g : Sess → Res) (s : Sess) : (call g).run s = g s := rfl

theorem run_andThen (p q : Prog) (s : Sess) : (p ;; q).run s = (p.run s).next q.run := by
  induction p generalizing s with
  | done e => cases e <;> rfl
  | step f k ih => exact ih s (f s)

theorem run_ite (c : Prop) [Decidable c] (p q : Prog) (s : Sess) : (if c then p else q).run s = if c then p.run s else q.run s := by
  split <;> rfl

theorem ok_next (s : Sess) (k : Sess → Res) : (ok s).next k = k s := rfl
theorem mk_next (s : Sess) (k : Sess → Res) : (Res.next ⟨s, none⟩ k) = k s := rfl

theorem Res.next_assoc (r : Res) (f g : Sess → Res) : (r.next f).next g = r.next fun s => (f s).next g := by
  cases r with
  | mk s e => cases e <;> rfl

theorem Res.next_ok (r : Res) : r.next ok = r := by
  cases r with
  | mk s e => cases e <;> rfl

theorem run_enqueue (d : Bytes) (s : Sess) : (enqueueRxP d).run s = ok (s.enqueueRx d) := by
  unfold enqueueRxP enqueueRx releaseRx
  simp only [run_andThen, run_act, ok_next, run_look, run_ite, run_skip]
  split
  · rename_i h
    simp [ok, h]
  · rfl

/-! ### What is not touched by the application's threads -/

/-- What a run of `tcp_fsm` notes. -/
def own : Out → Bool
  | .sent _ => true
  | .moved _ _ => true
  | .unregistered => true
  | .spawned => true
  | .queued => true
  | .raised _ => true
  | _ => false

/-- The session without what the steps of `receive` and `connect` change. -/
def core (s : Sess) : Sess :=
  { s with rx := Spec.received s.out ++ s.rx, evRx := 0, readers := 0, evConnect := 0, out := s.out.filter own }

theorem received_own (l : List Out) : Spec.received (l.filter own) = [] := by
  induction l with
  | nil => rfl
  | cons o l ih =>
    rw [List.filter_cons]
    split
    · rename_i h
      cases o <;> first | exact ih | cases h
    · exact ih

theorem core_core (s : Sess) : core (core s) = core s := by
  unfold core
  simp [received_own]

/-- The buffers that `send` has accepted, in order. -/
def puts (l : List Out) : List Bytes := l.filterMap fun | .accepted d => some d | _ => none

theorem puts_append (a b : List Out) : puts (a ++ b) = puts a ++ puts b := List.filterMap_append

theorem puts_own {o : Out} (h : own o = true) : puts [o] = [] := by cases o <;> first | rfl | cases h

theorem puts_emit (s : Sess) {o : Out} (h : own o = true) : puts (s.emit o).out = puts s.out := by
  show puts (s.out ++ [o]) = _
  rw [puts_append, puts_own h, List.append_nil]

/-- Two programs that do the same in lockstep, in sessions that differ in nothing but that, and accept nothing. -/
def Same : Prog → Prog → Prop
  | .done e, .done e' => e = e'
  | .step f k, .step f' k' => ∀ s s', core s = core s' → core (f s) = core (f' s') ∧ puts (f s).out = puts s.out ∧ Same (k s) (k' s')
  | _, _ => False

/-- A program that does not depend on that. -/
def Blind (p : Prog) : Prop := Same p p

theorem Same.andThen {p p' q q' : Prog} (h : Same p p') (h' : Same q q') : Same (p ;; q) (p' ;; q') := by
  induction p generalizing p' with
  | done e =>
    cases p' with
    | done e' =>
      have : e = e' := h
      subst this
      cases e with
      | none => exact h'
      | some e => exact rfl
    | step => exact h.elim
  | step f k ih =>
    cases p' with
    | done => exact h.elim
    | step f' k' => exact fun s s' hs => ⟨(h s s' hs).1, (h s s' hs).2.1, ih s (h s s' hs).2.2⟩

theorem Blind.andThen {p q : Prog} (h : Blind p) (h' : Blind q) : Blind (p ;; q) := Same.andThen h h'
theorem blind_done (e : Option PyErr) : Blind (done e) := rfl
theorem blind_skip : Blind skip := rfl

theorem blind_act {f : Sess → Sess} (h : ∀ s, core (f s) = core (f (core s))) (hp : ∀ s, puts (f s).out = puts s.out := by intro s; rfl) :
    Blind (act f) := by
  intro s s' hs
  refine ⟨?_, hp s, rfl⟩
  rw [h s, h s', hs]

theorem blind_step {f : Sess → Sess} {k : Sess → Prog} (h : ∀ s, core (f s) = core (f (core s))) (hk : ∀ s, k s = k (core s)) (hb : ∀ s, Blind (k s))
    (hp : ∀ s, puts (f s).out = puts s.out := by intro s; rfl) : Blind (Prog.step f k) := by
  intro s s' hs
  refine ⟨by rw [h s, h s', hs], hp s, ?_⟩
  rw [hk s, hs, ← hk s']
  exact hb s'

theorem blind_look {k : Sess → Prog} (hk : ∀ s, k s = k (core s)) (h : ∀ s, Blind (k s)) : Blind (look k) :=
  blind_step (fun s => (core_core s).symm) hk h

theorem blind_call {g : Sess → Res} (h : ∀ s, core (g s).s = core (g (core s)).s ∧ (g s).exc = (g (core s)).exc)
    (hp : ∀ s, puts (g s).s.out = puts s.out) : Blind (call g) := by
  intro s s' hs
  refine ⟨by rw [(h s).1, (h s').1, hs], hp s, ?_⟩
  show (g s).exc = (g s').exc
  rw [(h s).2, (h s').2, hs]

theorem blind_ite {c : Prop} [Decidable c] {p q : Prog} (h : Blind p) (h' : Blind q) : Blind (if c then p else q) := by
  split
  · exact h
  · exact h'

theorem core_emit (s : Sess) {o : Out} (h : own o = true) : core (s.emit o) = (core s).emit o := by
  have : Spec.received [o] = [] := by cases o <;> first | rfl | cases h
  unfold core emit
  simp [Spec.received_append, this, List.filter_append, h]

theorem own_emit (s : Sess) {o : Out} (h : own o = true) : core (core s |>.emit o) = core (s.emit o) := by
  rw [core_emit _ h, core_emit _ h, core_core]

theorem core_transmitPacket (s : Sess) (seq : Option Nat) (syn ack fin rst : Bool) (data : Bytes) :
    core (s.transmitPacket seq syn ack fin rst data).s = ((core s).transmitPacket seq syn ack fin rst data).s ∧
      (s.transmitPacket seq syn ack fin rst data).exc = ((core s).transmitPacket seq syn ack fin rst data).exc := by
  rw [transmitPacket_eq, transmitPacket_eq]
  have e : ((seq.getD s.sndNxt ≤ 0xFFFFFFFF ∧ (if ack then s.rcvNxt else 0) ≤ 0xFFFFFFFF) =
    (seq.getD (core s).sndNxt ≤ 0xFFFFFFFF ∧ (if ack then (core s).rcvNxt else 0) ≤ 0xFFFFFFFF)) := rfl
  by_cases h : seq.getD s.sndNxt ≤ 0xFFFFFFFF ∧ (if ack then s.rcvNxt else 0) ≤ 0xFFFFFFFF
  · rw [if_pos h, if_pos (e ▸ h)]
    refine ⟨?_, rfl⟩
    show core (s.sentAs _ _ _ _ _ _) = (core s).sentAs _ _ _ _ _ _
    have ht : ((core s).sentAs (seq.getD s.sndNxt) syn ack fin rst data).timers = (s.sentAs (seq.getD s.sndNxt) syn ack fin rst data).timers := by
      unfold sentAs core emit setTimer
      dsimp only
      split <;> split <;> rfl
    rw [sentAs_eq, sentAs_eq (core s)]
    rw [show seq.getD (core s).sndNxt = seq.getD s.sndNxt from rfl, ht]
    simp [core, Spec.received_append, Spec.received, own, tmoAfter]
  · rw [if_neg h, if_neg (e ▸ h)]
    exact ⟨rfl, rfl⟩

theorem puts_transmitPacket (s : Sess) (seq : Option Nat) (syn ack fin rst : Bool) (data : Bytes) :
    puts (s.transmitPacket seq syn ack fin rst data).s.out = puts s.out := by
  rw [transmitPacket_eq]
  by_cases h : seq.getD s.sndNxt ≤ 0xFFFFFFFF ∧ (if ack then s.rcvNxt else 0) ≤ 0xFFFFFFFF
  · rw [if_pos h]
    show puts (s.sentAs _ _ _ _ _ _).out = _
    rw [sentAs_out, puts_append]
    exact List.append_nil _
  · rw [if_neg h]

theorem puts_changeState (s : Sess) (st : FsmState) : puts (s.changeState st).s.out = puts s.out := by
  show puts (s.moveAs st).out = _
  rw [moveAs_out, puts_append]
  split <;> exact List.append_nil _

theorem blind_transmitPacket (seq : Option Nat) (syn ack fin rst : Bool) (data : Bytes) : Blind (transmitPacketP seq syn ack fin rst data) :=
  blind_call (hp := fun s => puts_transmitPacket s seq syn ack fin rst data) fun s => by
    obtain ⟨h1, h2⟩ := core_transmitPacket s seq syn ack fin rst data
    obtain ⟨h3, _⟩ := core_transmitPacket (core s) seq syn ack fin rst data
    rw [core_core] at h3
    exact ⟨by rw [h1, h3], h2⟩

theorem core_changeState (s : Sess) (st : FsmState) :
    core (s.changeState st).s = ((core s).changeState st).s ∧ (s.changeState st).exc = ((core s).changeState st).exc := by
  unfold changeState core ok
  dsimp only
  split
  · split <;> simp [Spec.received_append, Spec.received, own]
  · simp [Spec.received_append, Spec.received, own]

theorem blind_changeState (st : FsmState) : Blind (changeStateP st) :=
  blind_call (hp := fun s => puts_changeState s st) fun s => by
    obtain ⟨h1, h2⟩ := core_changeState s st
    obtain ⟨h3, _⟩ := core_changeState (core s) st
    rw [core_core] at h3
    exact ⟨by rw [h1, h3], h2⟩

theorem run_transmitData (s : Sess) : transmitDataP.run s = s.transmitData := by
  unfold transmitDataP transmitData transmitPacketP
  simp only [run_look, run_ite, run_call, run_skip, run_done]

theorem transmitPacket_state (s : Sess) (seq : Option Nat) (syn ack fin rst : Bool) (data : Bytes) :
    (s.transmitPacket seq syn ack fin rst data).s.state = s.state := by
  unfold transmitPacket
  dsimp only
  split <;> split <;> first | rfl | (split <;> split <;> rfl)

theorem run_retransmitTimeout (s : Sess) : retransmitTimeoutP.run s = s.retransmitTimeout := by
  unfold retransmitTimeoutP retransmitTimeout
  rw [run_look]
  cases s.txTmo.get? s.sndUna with
  | none => rfl
  | some c =>
    dsimp only
    rw [run_ite]
    split
    · rw [run_ite]
      split
      · rw [run_andThen, transmitPacketP, run_call]
        have hst := transmitPacket_state s (some s.sndUna) false true false true []
        generalize s.transmitPacket (some s.sndUna) false true false true [] = r at hst
        cases r with
        | mk a e =>
          dsimp only at hst
          cases e with
          | some e => rfl
          | none =>
            rw [mk_next, mk_next]
            simp only [run_andThen, run_ite, run_act, releaseRx, releaseConnect, run_skip, changeStateP, run_call, ok_next]
            rw [← hst]
            by_cases h1 : a.state = .established ∨ a.state = .finWait1 ∨ a.state = .finWait2 ∨ a.state = .closeWait
            · have h2 : a.state ≠ .synSent := by intro h; rw [h] at h1; simp at h1
              simp [h1, h2, ok_next]
              rfl
            · by_cases h2 : a.state = .synSent
              · simp only [if_neg h1, if_pos h2]
                rfl
              · simp [h1, h2, ok_next]
                rfl
      · rfl
    · rfl

theorem run_ackUpdate (m : TcpMd) (s : Sess) : (ackUpdateP m).run s = ok (s.ackUpdate m) := by
  unfold ackUpdateP ackUpdate
  simp only [run_andThen, run_act, ok_next, run_ite, run_enqueue, run_skip]
  split <;> rfl

theorem run_processAck {fsm : TcpMd → Prog} {f : Sess → TcpMd → Res} (h : ∀ s m, (fsm m).run s = f s m) (s : Sess) (m : TcpMd) :
    (processAckP fsm m).run s = processAck f s m := by
  unfold processAckP processAck
  rw [run_andThen, run_ackUpdate, ok_next, run_step]
  dsimp only
  cases hg : (s.ackUpdate m).ooo.get? (s.ackUpdate m).rcvNxt with
  | none => rfl
  | some p => exact h _ p

/-- A run of `tcp_fsm` that no thread interrupts. -/
theorem run_fsmP (n : Nat) (i : Input) (s : Sess) : (fsmP n i).run s = fsmFuel n s i := by
  induction n generalizing i s with
  | zero => rfl
  | succ n ih =>
    have hf : ∀ s m, (fsmP n (.packet m)).run s = fsmFuel n s (.packet m) := fun s m => ih (.packet m) s
    unfold fsmP fsmFuel fsmWith
    rw [run_look]
    cases hs : s.state with
    | closed =>
      unfold fsmClosedP fsmClosed
      cases i with
      | sys c => cases c <;> rfl
      | packet => rfl
      | timer => rfl
    | listen => rfl
    | synSent =>
      cases i with
      | timer => simp only [fsmSynSentP, fsmSynSent, run_andThen, run_retransmitTimeout, run_transmitData]; exact congrArg (Res.next _) (funext run_transmitData)
      | sys c => cases c <;> rfl
      | packet m =>
        simp only [fsmSynSentP, fsmSynSent, run_ite, run_andThen, run_act, ok_next, run_processAck hf, transmitPacketP, run_call, changeStateP,
          releaseConnect, run_skip]
        split
        · refine congrArg (Res.next _) (funext fun s => ?_)
          simp only [run_andThen, run_call]
          refine congrArg (Res.next _) (funext fun s => ?_)
          simp only [run_andThen, run_call]
          rfl
        · split
          · rfl
          · split
            · split
              · rfl
              · rfl
            · rfl
    | synRcvd =>
      cases i with
      | timer => simp only [fsmSynRcvdP, fsmSynRcvd, run_andThen, run_retransmitTimeout, run_transmitData]; exact congrArg (Res.next _) (funext run_transmitData)
      | sys c => cases c <;> rfl
      | packet m =>
        simp only [fsmSynRcvdP, fsmSynRcvd, run_ite, run_andThen, run_act, ok_next, run_processAck hf, transmitPacketP, run_call, changeStateP,
          releaseConnect, run_skip]
        split
        · rfl
        · rfl
    | established =>
      cases i with
      | timer =>
        simp only [fsmEstablishedP, fsmEstablished, run_andThen, run_retransmitTimeout]
        refine congrArg (Res.next _) (funext fun s => ?_)
        simp only [run_andThen, run_transmitData]
        refine congrArg (Res.next _) (funext fun s => ?_)
        simp only [run_andThen, delayedAckP, run_call]
        refine congrArg (Res.next _) (funext fun s => ?_)
        simp only [run_look, run_ite, changeStateP, run_call, run_skip]
      | sys c => cases c <;> rfl
      | packet m =>
        simp only [fsmEstablishedP, fsmEstablished, run_ite, run_andThen, run_act, ok_next, run_processAck hf, outOfOrderP, run_call, changeStateP,
          releaseRx, run_skip]
        split
        · rfl
        · split
          · rfl
          · split
            · split
              · refine congrArg (Res.next _) (funext fun s => ?_)
                simp only [run_andThen, run_ite, transmitPacketP, run_call, run_skip]
                congr
              · rfl
            · rfl
    | finWait1 =>
      cases i with
      | timer => simp only [fsmFinWait1P, fsmFinWait1, run_andThen, run_retransmitTimeout, run_transmitData]; exact congrArg (Res.next _) (funext run_transmitData)
      | sys c => cases c <;> rfl
      | packet m =>
        simp only [fsmFinWait1P, fsmFinWait1, run_ite, run_andThen, run_processAck hf, run_call, changeStateP, run_skip]
        split
        · split
          · refine congrArg (Res.next _) (funext fun s => ?_)
            simp only [run_andThen, run_ite, transmitPacketP, run_call, run_skip]
            refine congrArg (Res.next _) (funext fun s => ?_)
            simp only [run_look, run_ite, run_call, run_skip]
          · rfl
        · split
          · split
            · refine congrArg (Res.next _) (funext fun s => ?_)
              simp only [run_andThen, transmitPacketP, run_call]
              refine congrArg (Res.next _) (funext fun s => ?_)
              simp only [run_look, run_ite, run_andThen, run_call, run_act]
              congr
            · rfl
          · rfl
    | finWait2 =>
      cases i with
      | timer => rfl
      | sys c => cases c <;> rfl
      | packet m =>
        simp only [fsmFinWait2P, fsmFinWait2, run_ite, run_andThen, run_processAck hf, run_call, changeStateP, run_skip]
        split
        · refine congrArg (Res.next _) (funext fun s => ?_)
          simp only [run_ite, transmitPacketP, run_call, run_skip]
        · split
          · refine congrArg (Res.next _) (funext fun s => ?_)
            simp only [run_andThen, run_call, transmitPacketP]
            refine congrArg (Res.next _) (funext fun s => ?_)
            simp only [run_andThen, run_call]
            rfl
          · rfl
    | closing => rfl
    | closeWait =>
      cases i with
      | timer =>
        simp only [fsmCloseWaitP, fsmCloseWait, run_andThen, run_retransmitTimeout]
        refine congrArg (Res.next _) (funext fun s => ?_)
        simp only [run_andThen, run_transmitData]
        refine congrArg (Res.next _) (funext fun s => ?_)
        simp only [run_andThen, delayedAckP, run_call]
        refine congrArg (Res.next _) (funext fun s => ?_)
        simp only [run_look, run_ite, changeStateP, run_call, run_skip]
      | sys c => cases c <;> rfl
      | packet m =>
        simp only [fsmCloseWaitP, fsmCloseWait, run_ite, run_act, run_processAck hf, outOfOrderP, run_call, changeStateP, run_skip]
    | lastAck =>
      cases i with
      | timer => simp only [fsmLastAckP, fsmLastAck, run_andThen, run_retransmitTimeout, run_transmitData]; exact congrArg (Res.next _) (funext run_transmitData)
      | sys c => cases c <;> rfl
      | packet m =>
        simp only [fsmLastAckP, fsmLastAck, run_ite, run_call, changeStateP, run_skip]
    | timeWait => rfl

/-! ### `tcp_fsm` does not depend on it -/

theorem blind_same {f : Sess → Sess} (h : ∀ s, core (f s) = core s) (hp : ∀ s, puts (f s).out = puts s.out := by intro s; rfl) : Blind (act f) :=
  blind_act (fun s => by rw [h, h, core_core]) hp

theorem blind_map {f : Sess → Sess} (h : ∀ s, core (f s) = f (core s)) (hp : ∀ s, puts (f s).out = puts s.out := by intro s; rfl) : Blind (act f) :=
  blind_act (fun s => by rw [h, h, core_core]) hp

theorem blind_mapCall {g : Sess → Res} (h : ∀ s, core (g s).s = (g (core s)).s ∧ (g s).exc = (g (core s)).exc)
    (hp : ∀ s, puts (g s).s.out = puts s.out) : Blind (call g) :=
  blind_call (fun s => ⟨by rw [(h s).1, (h (core s)).1, core_core], (h s).2⟩) hp

theorem puts_next {r : Res} {k : Sess → Res} {l : List Bytes} (h : puts r.s.out = l) (hk : ∀ s, puts s.out = l → puts (k s).s.out = l) :
    puts (r.next k).s.out = l := by
  rcases next_cases r k with x | x <;> rw [x]
  · exact h
  · exact hk _ h

theorem blind_releaseRx : Blind releaseRx := blind_same fun _ => rfl
theorem blind_releaseConnect : Blind releaseConnect := blind_same fun _ => rfl

theorem blind_enqueue (d : Bytes) : Blind (enqueueRxP d) := by
  refine Blind.andThen (blind_act fun s => ?_) ?_
  · simp [core, received_own]
  · intro s s' hs
    refine ⟨hs, rfl, ?_⟩
    have e : ∀ f g : Sess → Sess, (∀ s, core (f s) = core s) → (∀ s, core (g s) = core s) → (∀ s, puts (f s).out = puts s.out) →
        Same (act f) (act g) := fun f g hf hg hp a b hab => ⟨by rw [hf, hg, hab], hp a, rfl⟩
    dsimp only
    split <;> split <;> exact e _ _ (fun _ => rfl) (fun _ => rfl) (fun _ => rfl)

theorem blind_transmitData : Blind transmitDataP := by
  refine blind_look (fun _ => rfl) fun s => ?_
  dsimp only
  repeat' first | exact blind_transmitPacket _ _ _ _ _ _ | exact blind_done _ | apply blind_ite
  exact blind_look (fun _ => rfl) fun s => blind_transmitPacket _ _ _ _ _ _

theorem res_next_core {r r' : Res} {k : Sess → Res} (h : core r.s = r'.s ∧ r.exc = r'.exc)
    (hk : ∀ s, core (k s).s = (k (core s)).s ∧ (k s).exc = (k (core s)).exc) :
    core (r.next k).s = (r'.next k).s ∧ (r.next k).exc = (r'.next k).exc := by
  obtain ⟨s, e⟩ := r
  obtain ⟨s', e'⟩ := r'
  obtain ⟨h1, h2⟩ := h
  dsimp only at h1 h2
  subst h1 h2
  cases e with
  | none => exact hk s
  | some e => exact ⟨rfl, rfl⟩

theorem core_delayedAck (s : Sess) : core s.delayedAck.s = (core s).delayedAck.s ∧ s.delayedAck.exc = (core s).delayedAck.exc := by
  unfold delayedAck
  rw [show (core s).expired .delayedAck = s.expired .delayedAck from rfl, show (core s).rcvNxt = s.rcvNxt from rfl,
    show (core s).rcvUna = s.rcvUna from rfl]
  split
  · refine res_next_core ?_ fun s => ⟨rfl, rfl⟩
    split
    · exact core_transmitPacket s none false true false false []
    · exact ⟨rfl, rfl⟩
  · exact ⟨rfl, rfl⟩

theorem blind_delayedAck : Blind delayedAckP := blind_mapCall core_delayedAck fun s => by
  unfold delayedAck
  split
  · refine puts_next ?_ fun _ h => h
    split
    · exact puts_transmitPacket s _ _ _ _ _ _
    · rfl
  · rfl

theorem core_outOfOrder (m : TcpMd) (s : Sess) :
    core (s.outOfOrder m).s = ((core s).outOfOrder m).s ∧ (s.outOfOrder m).exc = ((core s).outOfOrder m).exc := by
  unfold outOfOrder
  dsimp only
  rw [show (core s).rxReq = s.rxReq from rfl, show (core s).rcvNxt = s.rcvNxt from rfl]
  split
  · exact core_transmitPacket { s with ooo := s.ooo.set m.seq m, rxReq := s.rxReq.set s.rcvNxt (((s.rxReq.get? s.rcvNxt).getD 0) + 1) }
      none false true false false []
  · exact ⟨rfl, rfl⟩

theorem blind_outOfOrder (m : TcpMd) : Blind (outOfOrderP m) := blind_mapCall (core_outOfOrder m) fun s => by
  unfold outOfOrder
  dsimp only
  split
  · exact puts_transmitPacket _ _ _ _ _ _ _
  · rfl

theorem blind_retransmitTimeout : Blind retransmitTimeoutP := by
  refine blind_look (fun _ => rfl) fun s => ?_
  split
  · exact blind_skip
  · refine blind_ite (blind_ite ?_ ?_) blind_skip
    · refine (blind_transmitPacket _ _ _ _ _ _).andThen (Blind.andThen ?_ (Blind.andThen ?_ (blind_changeState _)))
      · exact blind_ite (Blind.andThen (blind_map fun _ => rfl) blind_releaseRx) blind_skip
      · exact blind_ite (Blind.andThen (blind_map fun _ => rfl) blind_releaseConnect) blind_skip
    · exact blind_map fun _ => rfl

theorem blind_ackUpdate (m : TcpMd) : Blind (ackUpdateP m) := by
  refine Blind.andThen (blind_map fun _ => rfl) (Blind.andThen ?_ (Blind.andThen (blind_map fun _ => rfl) (blind_map fun _ => rfl)))
  exact blind_ite (blind_enqueue _) blind_skip

theorem blind_processAck {fsm : TcpMd → Prog} (h : ∀ m, Blind (fsm m)) (m : TcpMd) : Blind (processAckP fsm m) := by
  refine (blind_ackUpdate m).andThen (blind_step (fun s => ?_) (fun s => rfl) (fun s => ?_) fun s => ?_)
  · rw [show (core s).rcvNxt = s.rcvNxt from rfl, show (core s).ooo = s.ooo from rfl]
    cases s.ooo.get? s.rcvNxt with
    | none => exact (core_core s).symm
    | some p => exact (core_core { s with ooo := s.ooo.erase s.rcvNxt }).symm
  · split
    · exact blind_skip
    · exact h _
  · split <;> rfl

theorem puts_fsmListen (i : Input) (s : Sess) : puts (s.fsmListen i).s.out = puts s.out := by
  unfold fsmListen
  split
  · dsimp only
    split
    · exact (puts_changeState _ _).trans (puts_emit s rfl)
    · rfl
  · exact puts_changeState _ _
  · rfl

theorem puts_fsmClosing (i : Input) (s : Sess) : puts (s.fsmClosing i).s.out = puts s.out := by
  unfold fsmClosing
  split
  · split
    · exact puts_next (puts_changeState _ _) fun _ h => h
    · split
      · split
        · exact puts_changeState _ _
        · rfl
      · rfl
  · rfl

theorem puts_fsmTimeWait (i : Input) (s : Sess) : puts (s.fsmTimeWait i).s.out = puts s.out := by
  unfold fsmTimeWait
  split
  · split
    · exact puts_changeState _ _
    · rfl
  · rfl

theorem core_fsmListen (i : Input) (s : Sess) : core (s.fsmListen i).s = ((core s).fsmListen i).s ∧ (s.fsmListen i).exc = ((core s).fsmListen i).exc := by
  unfold fsmListen
  cases i with
  | timer => exact ⟨rfl, rfl⟩
  | sys c => cases c <;> first | exact core_changeState s .closed | exact ⟨rfl, rfl⟩
  | packet m =>
    dsimp only
    split
    · rename_i h
      have e := core_changeState { s.emit .spawned with
        lip := m.lip
        lport := m.lport
        rip := m.rip
        rport := m.rport
        registered := true
        sndMss := min m.mss 1460
        sndWnd := m.win * s.sndWsc
        sndWsc := peerScale m
        rcvIni := m.seq
        sndEwn := min m.mss 1460
        rcvNxt := m.seq + m.syn.toNat } .synRcvd
      have e' : core { s.emit .spawned with
        lip := m.lip
        lport := m.lport
        rip := m.rip
        rport := m.rport
        registered := true
        sndMss := min m.mss 1460
        sndWnd := m.win * s.sndWsc
        sndWsc := peerScale m
        rcvIni := m.seq
        sndEwn := min m.mss 1460
        rcvNxt := m.seq + m.syn.toNat } = { (core s).emit .spawned with
        lip := m.lip
        lport := m.lport
        rip := m.rip
        rport := m.rport
        registered := true
        sndMss := min m.mss 1460
        sndWnd := m.win * s.sndWsc
        sndWsc := peerScale m
        rcvIni := m.seq
        sndEwn := min m.mss 1460
        rcvNxt := m.seq + m.syn.toNat } := by
        rw [← core_emit s (o := .spawned) rfl]
        rfl
      rw [e'] at e
      exact e
    · exact ⟨rfl, rfl⟩

theorem core_fsmClosing (i : Input) (s : Sess) : core (s.fsmClosing i).s = ((core s).fsmClosing i).s ∧ (s.fsmClosing i).exc = ((core s).fsmClosing i).exc := by
  unfold fsmClosing
  cases i with
  | timer => exact ⟨rfl, rfl⟩
  | sys c => exact ⟨rfl, rfl⟩
  | packet m =>
    dsimp only
    rw [show (core s).acceptable m = s.acceptable m from rfl, show (core s).rcvNxt = s.rcvNxt from rfl, show (core s).sndNxt = s.sndNxt from rfl]
    split
    · exact res_next_core (core_changeState { s with sndUna := m.ackn } _) fun _ => ⟨rfl, rfl⟩
    · split
      · split
        · exact core_changeState s _
        · exact ⟨rfl, rfl⟩
      · exact ⟨rfl, rfl⟩

theorem core_fsmTimeWait (i : Input) (s : Sess) : core (s.fsmTimeWait i).s = ((core s).fsmTimeWait i).s ∧ (s.fsmTimeWait i).exc = ((core s).fsmTimeWait i).exc := by
  unfold fsmTimeWait
  cases i with
  | sys c => exact ⟨rfl, rfl⟩
  | packet m => exact ⟨rfl, rfl⟩
  | timer =>
    dsimp only
    rw [show (core s).expired .timeWait = s.expired .timeWait from rfl]
    split
    · exact core_changeState s _
    · exact ⟨rfl, rfl⟩

theorem blind_dup (m : TcpMd) : Blind (act (·.retransmitRequest m)) := by
  refine blind_map (fun s => ?_) fun s => ?_
  · unfold retransmitRequest
    dsimp only
    rw [show (core s).txReq = s.txReq from rfl]
    split <;> rfl
  · unfold retransmitRequest
    dsimp only
    split <;> rfl

theorem blind_fsm (n : Nat) (i : Input) : Blind (fsmP n i) := by
  induction n generalizing i with
  | zero => exact rfl
  | succ n ih =>
    have hf : ∀ m, Blind (fsmP n (.packet m)) := fun m => ih (.packet m)
    have pa : ∀ m, Blind (processAckP (fun m => fsmP n (.packet m)) m) := blind_processAck hf
    have tp := blind_transmitPacket
    have cs := blind_changeState
    refine blind_look (fun s => ?_) fun s => ?_
    · rw [show (core s).state = s.state from rfl]
      cases s.state <;> rfl
    · cases s.state with
      | closed => cases i with
        | sys c => cases c <;> first | exact cs _ | exact blind_skip
        | packet => exact blind_skip
        | timer => exact blind_skip
      | listen => exact blind_mapCall (core_fsmListen i) (puts_fsmListen i)
      | synSent => cases i with
        | timer => exact blind_retransmitTimeout.andThen blind_transmitData
        | sys c => cases c <;> first | exact cs _ | exact blind_skip
        | packet m =>
          refine blind_ite ?_ (blind_ite ?_ (blind_ite (blind_ite ?_ blind_skip) blind_skip))
          · exact Blind.andThen (blind_map fun _ => rfl) ((pa m).andThen ((tp _ _ _ _ _ _).andThen ((cs _).andThen blind_releaseConnect)))
          · exact (tp _ _ _ _ _ _).andThen (cs _)
          · exact (cs _).andThen (Blind.andThen (blind_map fun _ => rfl) blind_releaseConnect)
      | synRcvd => cases i with
        | timer => exact blind_retransmitTimeout.andThen blind_transmitData
        | sys c => cases c <;> first | exact cs _ | exact blind_skip
        | packet m =>
          refine blind_ite ?_ (blind_ite (blind_ite (cs _) blind_skip) (blind_ite (blind_ite (cs _) blind_skip) blind_skip))
          exact (pa m).andThen ((cs _).andThen (Blind.andThen (blind_map (fun s => core_emit s rfl) fun s => puts_emit s rfl) blind_releaseConnect))
      | established => cases i with
        | timer =>
          refine blind_retransmitTimeout.andThen (blind_transmitData.andThen (blind_delayedAck.andThen ?_))
          exact blind_look (fun _ => rfl) fun s => blind_ite (cs _) blind_skip
        | sys c => cases c <;> first | exact blind_map fun _ => rfl | exact blind_skip
        | packet m =>
          refine blind_ite blind_skip (blind_ite (blind_ite ?_ (blind_ite (blind_outOfOrder m) (blind_ite (pa m) blind_skip)))
            (blind_ite (blind_ite ?_ blind_skip) (blind_ite (blind_ite ?_ blind_skip) blind_skip)))
          · exact blind_dup m
          · exact (pa m).andThen ((blind_ite (tp _ _ _ _ _ _) blind_skip).andThen (blind_releaseRx.andThen (cs _)))
          · exact blind_releaseRx.andThen (cs _)
      | finWait1 => cases i with
        | timer => exact blind_retransmitTimeout.andThen blind_transmitData
        | sys c => cases c <;> exact blind_skip
        | packet m =>
          refine blind_ite (blind_ite ?_ blind_skip) (blind_ite (blind_ite ?_ blind_skip) (blind_ite (blind_ite (cs _) blind_skip) blind_skip))
          · exact (pa m).andThen ((blind_ite (tp _ _ _ _ _ _) blind_skip).andThen (blind_look (fun _ => rfl) fun s => blind_ite (cs _) blind_skip))
          · refine (pa m).andThen ((tp _ _ _ _ _ _).andThen (blind_look (fun _ => rfl) fun s => blind_ite ?_ (cs _)))
            exact (cs _).andThen (blind_map fun _ => rfl)
      | finWait2 => cases i with
        | timer => exact blind_skip
        | sys c => cases c <;> exact blind_skip
        | packet m =>
          refine blind_ite ?_ (blind_ite ?_ (blind_ite (blind_ite (cs _) blind_skip) blind_skip))
          · exact (pa m).andThen (blind_ite (tp _ _ _ _ _ _) blind_skip)
          · exact (pa m).andThen ((tp _ _ _ _ _ _).andThen ((cs _).andThen (blind_map fun _ => rfl)))
      | closing => exact blind_mapCall (core_fsmClosing i) (puts_fsmClosing i)
      | closeWait => cases i with
        | timer =>
          refine blind_retransmitTimeout.andThen (blind_transmitData.andThen (blind_delayedAck.andThen ?_))
          exact blind_look (fun _ => rfl) fun s => blind_ite (cs _) blind_skip
        | sys c => cases c <;> first | exact blind_map fun _ => rfl | exact blind_skip
        | packet m =>
          refine blind_ite (blind_ite ?_ (blind_ite (blind_outOfOrder m) (blind_ite (pa m) blind_skip)))
            (blind_ite (blind_ite (cs _) blind_skip) blind_skip)
          exact blind_dup m
      | lastAck => cases i with
        | timer => exact blind_retransmitTimeout.andThen blind_transmitData
        | sys c => cases c <;> exact blind_skip
        | packet m =>
          exact blind_ite (blind_ite (cs _) blind_skip) (blind_ite (blind_ite (cs _) blind_skip) blind_skip)
      | timeWait => exact blind_mapCall (core_fsmTimeWait i) (puts_fsmTimeWait i)

end Verif.Sess
