import Verif.Spec.Recover
import Verif.Lemmas.SessionNet
import Verif.Lemmas.TcpStack
import Verif.Lemmas.SessionTimeout
/-! What C94 needs: the counters of the requests, and single steps of an open session. -/
namespace Verif.Sess
open Spec

/-- A request for a number has been counted only if that number has been passed or a segment from further on is kept. -/
structure GapInv (s : Sess) : Prop where
  queue : Queue (fun _ => True) s
  early : s.state = .listen ∨ s.state = .synSent ∨ s.state = .synRcvd → s.rxReq = []
  low : ∀ r ∈ s.rxReq, r.1 ≤ s.rcvNxt ∧ (r.1 = s.rcvNxt → ∃ e ∈ s.ooo, s.rcvNxt < e.1)

theorem GapInv.move {a b : Sess} (h : GapInv a) (hq : Queue (fun _ => True) b) (hr : ∀ r ∈ b.rxReq, r ∈ a.rxReq) (ho : b.ooo = a.ooo)
    (hn : a.rcvNxt ≤ b.rcvNxt) (hs : b.state = .listen ∨ b.state = .synSent ∨ b.state = .synRcvd → a.rxReq = []) : GapInv b := by
  refine ⟨hq, fun x => ?_, fun r hk => ?_⟩
  · have := hs x
    rw [this] at hr
    exact List.eq_nil_iff_forall_not_mem.2 fun r hx => nomatch hr r hx
  · obtain ⟨h1, h2⟩ := h.low r (hr r hk)
    refine ⟨by omega, fun hx => ?_⟩
    obtain ⟨e, he, hl⟩ := h2 (by omega)
    exact ⟨e, by rw [ho]; exact he, by omega⟩

theorem GapInv.fresh {b : Sess} (hq : Queue (fun _ => True) b) (hr : b.rxReq = []) : GapInv b :=
  ⟨hq, fun _ => hr, fun r hk => by rw [hr] at hk; exact nomatch hk⟩

theorem ackUpdate_rxReq (s : Sess) (m : TcpMd) : ∀ r ∈ (s.ackUpdate m).rxReq, r ∈ s.rxReq := by
  intro r hr
  rw [ackUpdate_eq] at hr
  exact (List.mem_filter.1 hr).1

theorem gap_micro {G : Prop} {a b : Sess} (h : GapInv a) (hm : Micro (fun _ => True) G a b) : GapInv b := by
  have hq := queue_micro h.queue hm
  cases hm with
  | reset => exact h.move hq (fun _ x => x) rfl (Nat.le_refl _) h.early
  | abort => exact h.move hq (by rw [abortAs_eq]; exact fun _ x => x) (by rw [abortAs_eq]) (by rw [abortAs_eq]; exact Nat.le_refl _) (by rw [abortAs_eq]; simp)
  | abortMove hst =>
    exact h.move hq (by simp only [moveAs_rxReq]; rw [abortAs_eq]; exact fun _ x => x) (by simp; rw [abortAs_eq]) (by simp only [moveAs_rcvNxt]; rw [abortAs_eq]; exact Nat.le_refl _)
      (by rcases hst with x | x <;> simp [x.2])
  | synOut => exact h.move hq (by simp) (by simp) (by simp) (by simpa using h.early)
  | synAckOut => exact h.move hq (by simp) (by simp) (by simp) (by simpa using h.early)
  | dataOut => exact h.move hq (by simp) (by simp) (by simp) (by simpa using h.early)
  | finOut => exact h.move hq (by simp) (by simp) (by simp) (by simpa using h.early)
  | ackOut => exact h.move hq (by simp) (by simp) (by simp) (by simpa using h.early)
  | timerSet => exact h.move hq (fun _ x => x) rfl (Nat.le_refl _) h.early
  | finClose => exact h.move hq (by simp) (by simp) (by simp) (by simp)
  | lastClose => exact h.move hq (by simp) (by simp) (by simp) (by simp)
  | dup =>
    exact h.move hq (by rw [retransmitRequest_eq]; exact fun _ x => x) (by rw [retransmitRequest_eq]) (by rw [retransmitRequest_eq]; exact Nat.le_refl _)
      (by rw [retransmitRequest_eq]; exact h.early)
  | @store m c _ hst hf hm =>
    refine ⟨hq, ?_, fun r hk => ?_⟩
    · intro x
      simp only [storeAs] at x
      rcases hst with y | y <;> simp [y] at x
    · simp only [storeAs] at hk ⊢
      refine ⟨?_, fun _ => ⟨(m.seq, m), Dict.get?_mem (Dict.get?_set_self ..), hm.1⟩⟩
      rcases mem_set_cases hk with x | x
      · rw [x]; exact Nat.le_refl _
      · exact (h.low r x).1
  | @pop k hk =>
    refine ⟨hq, h.early, fun r hc => ?_⟩
    obtain ⟨h1, h2⟩ := h.low r hc
    refine ⟨h1, fun hx => ?_⟩
    obtain ⟨e, he, hl⟩ := h2 hx
    refine ⟨e, ?_, hl⟩
    show e ∈ a.ooo.erase k
    refine List.mem_filter.2 ⟨he, ?_⟩
    have : e.1 ≠ k := by omega
    simpa using this
  | synIn hq' hst => exact .fresh hq (by simp [synAs, paramsAs, h.early (.inl hst)])
  | synAckIn hq' hst => exact .fresh hq (by rw [ackUpdate_eq]; simp [paramsAs, h.early (.inr (.inl hst))])
  | establish hq' hst => exact h.move hq (by simp) (by simp) (by simp) (by simp)
  | ackIn hq' hst => exact .fresh hq (by rw [ackUpdate_eq]; simp [h.early (.inr (.inr hst))])
  | establish' hq' hst => exact h.move hq (by simp [emit]) (by simp [emit]) (by simp [emit]) (by simp [emit])
  | refused => exact h.move hq (by simp) (by simp) (by simp) (by simp)
  | closes => exact h.move hq (fun _ x => x) rfl (Nat.le_refl _) h.early
  | finEarly => exact h.move hq (by simp) (by simp) (by simp) (by simp)
  | dataIn _ hst hf hm =>
    exact h.move hq (ackUpdate_rxReq _ _) (by simp) (by simp; omega) (by simpa using h.early)
  | finIn _ hst hf hm =>
    exact h.move hq (ackUpdate_rxReq _ _) (by simp) (by simp; omega) (by simpa using h.early)
  | toCloseWait => exact h.move hq (by simp) (by simp) (by simp) (by simp)
  | toFinWait2 => exact h.move hq (by simp) (by simp) (by simp) (by simp)
  | toTimeWait => exact h.move hq (by simp [setTimer]) (by simp [setTimer]) (by simp [setTimer]) (by simp [setTimer])
  | toClosing => exact h.move hq (by simp) (by simp) (by simp) (by simp)
  | closingAck => exact h.move hq (by simp [setTimer]) (by simp [setTimer]) (by simp [setTimer]) (by simp [setTimer])
  | shut => exact h.move hq (by simp) (by simp) (by simp) (by simp)

theorem gap_run {s : Sess} {evs : List Ev} (h : GapInv s) : GapInv (s.run evs) := by
  refine run_keeps_aside (Q := fun _ => True) (G := False) (fun s h => h.queue.queueOk) (fun a b h hm => gap_micro h hm) ?_
    (fun _ _ => trivial) h
  intro a b h hb
  have hb := hb.beside
  exact h.move (h.queue.beside hb) (by rw [hb]; exact fun _ x => x) (by rw [hb]) (by rw [hb]; exact Nat.le_refl _) (by rw [hb]; exact h.early)

theorem gap_opened (active : Bool) (iss : Nat) (lip : IpAddress) (lport : Nat) (rip : IpAddress) (rport : Nat) :
    GapInv (opened active iss lip lport rip rport) := by
  cases active <;> exact .fresh ⟨fun e he => (nomatch he), fun _ => rfl⟩ rfl

end Verif.Sess
