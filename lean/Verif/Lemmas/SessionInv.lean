import Verif.Lemmas.Session
import Verif.Spec.Session
import Mathlib.Data.List.Induction
/-! Invariants of sessions. -/
namespace Verif.Sess
open Verif

variable {Q : TcpMd → Prop} {G : Prop}

/-- An invariant of the small steps and of the other events holds after every history. -/
theorem run_keeps {P : Sess → Prop} (hq : ∀ s, P s → QueueOk Q G s) (hmicro : ∀ a b, P a → Micro Q G a b → P b)
    (hraise : ∀ s e, P s → P (s.emit (.raised e))) (hsend : ∀ s d, P s → P (s.send d)) (hacq : ∀ s, P s → P s.recvAcquire)
    (htake : ∀ s n, P s → P (s.recvTake n)) (hconn : ∀ s, P s → P s.connectReturn) (hclock : ∀ s, P s → P s.clock)
    (htable : ∀ s b, P s → P { s with registered := b }) {s : Sess} {evs : List Ev}
    (hs : ∀ m ∈ Spec.arrivals evs, Q m) (h : P s) : P (s.run evs) := by
  have hdone : ∀ s i, P s → InputOk Q i → P (s.fsm i).done := by
    intro s i h hi
    have h1 := (fsm_path (hq s h) hi).keeps hmicro h
    unfold Res.done
    split
    · exact h1
    · exact hraise _ _ h1
  induction evs using List.reverseRecOn with
  | nil => exact h
  | append_singleton evs e ih =>
    have ih := ih (fun m hm => hs m (by simp only [Spec.arrivals, List.filterMap_append, List.mem_append] at hm ⊢; exact .inl hm))
    unfold run at ih ⊢
    rw [List.foldl_append]
    change P (step _ e)
    cases e with
    | segment m => exact hdone _ _ ih (hs m (by simp [Spec.arrivals]))
    | close => exact hdone _ _ ih rfl
    | send d => exact hsend _ _ ih
    | recvAcquire => exact hacq _ ih
    | recvTake n => exact htake _ _ ih
    | connectReturn => exact hconn _ ih
    | clock => exact hclock _ ih
    | timer => exact hdone _ _ ih trivial
    | table b => exact htable _ _ ih

theorem retransmitRequest_eq (s : Sess) (m : TcpMd) : s.retransmitRequest m =
    { s with txReq := (s.retransmitRequest m).txReq, sndNxt := (s.retransmitRequest m).sndNxt } := by
  unfold retransmitRequest
  dsimp only
  split <;> rfl

theorem retransmitRequest_nxt (s : Sess) (m : TcpMd) :
    (s.retransmitRequest m).sndNxt = s.sndNxt ∨ (s.retransmitRequest m).sndNxt = s.sndUna := by
  unfold retransmitRequest
  dsimp only
  split
  · exact .inr rfl
  · exact .inl rfl

theorem mem_set_cases {K V : Type} [DecidableEq K] {d : Dict K V} {k : K} {v : V} {e : K × V} (h : e ∈ d.set k v) : e = (k, v) ∨ e ∈ d := by
  induction d with
  | nil => simpa [Dict.set] using h
  | cons x d ih =>
    obtain ⟨k', v'⟩ := x
    simp only [Dict.set] at h
    split at h
    · rcases List.mem_cons.1 h with h | h
      · exact .inl h
      · exact .inr (List.mem_cons_of_mem _ h)
    · rcases List.mem_cons.1 h with h | h
      · exact .inr (by rw [h]; exact List.mem_cons_self)
      · rcases ih h with h | h
        · exact .inl h
        · exact .inr (List.mem_cons_of_mem _ h)

/-- The out-of-order queue, first half. -/
structure Queue (Q : TcpMd → Prop) (s : Sess) : Prop where
  each : ∀ e ∈ s.ooo, e.1 = e.2.seq ∧ isAck e.2 = true ∧ Q e.2
  early : s.state = .listen ∨ s.state = .synSent ∨ s.state = .synRcvd → s.ooo = []

theorem Queue.same {a b : Sess} (h : Queue Q a) (ho : b.ooo = a.ooo) (hs : b.state = a.state) : Queue Q b :=
  ⟨by rw [ho]; exact h.each, by rw [ho, hs]; exact h.early⟩

theorem Queue.later {a b : Sess} (h : Queue Q a) (ho : b.ooo = a.ooo)
    (hs : ¬ (b.state = .listen ∨ b.state = .synSent ∨ b.state = .synRcvd)) : Queue Q b :=
  ⟨by rw [ho]; exact h.each, fun x => absurd x hs⟩

theorem queue_micro {a b : Sess} (h : Queue Q a) (hm : Micro Q G a b) : Queue Q b := by
  cases hm with
  | reset => exact h.same rfl rfl
  | abort => exact h.later (by rw [abortAs_eq]) (by rw [abortAs_eq]; simp)
  | abortMove hst => exact h.later (by simp; rw [abortAs_eq]) (by rcases hst with x | x <;> simp [x.2])
  | synOut => exact h.same (by simp) (by simp)
  | synAckOut => exact h.same (by simp) (by simp)
  | dataOut => exact h.same (by simp) (by simp)
  | finOut => exact h.same (by simp) (by simp)
  | ackOut => exact h.same (by simp) (by simp)
  | timerSet => exact h.same rfl rfl
  | finClose => exact h.later (by simp) (by simp)
  | lastClose => exact h.later (by simp) (by simp)
  | dup => exact h.same (by rw [retransmitRequest_eq]) (by rw [retransmitRequest_eq])
  | @store m c hq hst hf hm =>
    refine ⟨fun e he => ?_, fun hc => ?_⟩
    · rcases mem_set_cases he with x | x
      · rw [x]; exact ⟨rfl, hf, hq⟩
      · exact h.each e x
    · simp only [storeAs] at hc
      rcases hst with x | x <;> simp [x] at hc
  | pop =>
    refine ⟨fun e he => h.each e (List.mem_filter.1 he).1, fun hc => ?_⟩
    show Dict.erase _ _ = []
    rw [h.early hc]; rfl
  | synIn hq hst =>
    have := h.early (.inl hst)
    exact ⟨by simp [synAs, paramsAs, this], fun _ => by simp [synAs, paramsAs, this]⟩
  | synAckIn hq hst => exact h.same (by rw [ackUpdate_eq]; rfl) (by rw [ackUpdate_eq]; rfl)
  | establish => exact h.later (by simp) (by simp)
  | ackIn => exact h.same (by simp) (by simp)
  | establish' => exact h.later (by simp [emit]) (by simp [emit])
  | refused => exact h.later (by simp) (by simp)
  | closes => exact h.same rfl rfl
  | finEarly => exact h.later (by simp) (by simp)
  | dataIn => exact h.same (by simp) (by simp)
  | finIn => exact h.same (by simp) (by simp)
  | toCloseWait => exact h.later (by simp) (by simp)
  | toFinWait2 => exact h.later (by simp) (by simp)
  | toTimeWait => exact h.later (by simp [setTimer]) (by simp [setTimer])
  | toClosing => exact h.later (by simp) (by simp)
  | closingAck => exact h.later (by simp [setTimer]) (by simp [setTimer])
  | shut => exact h.later (by simp) (by simp)

end Verif.Sess
