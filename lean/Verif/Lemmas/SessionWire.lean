import Verif.Lemmas.SessionNet
/-! What the segments of a session look like, whatever it receives. -/
namespace Verif.Sess
open Spec

variable {Q : TcpMd → Prop} {G : Prop}

/-- Numbers that fit their fields, at most 1460 bytes of data, no contradictory flags. -/
structure SegOk (g : Seg) : Prop where
  seq : g.seq ≤ 0xFFFFFFFF
  ackn : g.ackn ≤ 0xFFFFFFFF
  data : g.data.length ≤ 1460
  syn : g.syn = true → g.data = [] ∧ g.fin = false ∧ g.rst = false
  fin : g.fin = true → g.data = [] ∧ g.rst = false ∧ g.ack = true
  noAck : g.ack = false → g.syn = true ∧ g.ackn = 0
  rst : g.rst = true → g.data = []

theorem pySlice_length (b : Bytes) (i n : Int) (h : 0 ≤ i → 0 ≤ i + n) : ((pySlice b i (i + n)).length : Int) ≤ max n 0 := by
  unfold pySlice
  dsimp only
  rw [List.length_take, List.length_drop]
  split <;> split <;> omega

/-- The maximum segment size in use, and the segments sent. -/
structure WireInv (s : Sess) : Prop where
  mss : s.sndMss ≤ 1460
  segs : ∀ g ∈ Spec.sent s.out, SegOk g

theorem WireInv.kept {a b : Sess} (h : WireInv a) (hm : b.sndMss = a.sndMss) (ho : Spec.sent b.out = Spec.sent a.out) : WireInv b :=
  ⟨by rw [hm]; exact h.mss, by rw [ho]; exact h.segs⟩

theorem WireInv.more {a b : Sess} {g : Seg} (h : WireInv a) (hm : b.sndMss = a.sndMss) (ho : Spec.sent b.out = Spec.sent a.out ++ [g])
    (hg : SegOk g) : WireInv b := by
  refine ⟨by rw [hm]; exact h.mss, ?_⟩
  rw [ho]
  intro x hx
  rcases List.mem_append.1 hx with y | y
  · exact h.segs x y
  · rw [List.mem_singleton.1 y]; exact hg

theorem wire_micro {a b : Sess} (h : WireInv a) (hm : Micro Q G a b) : WireInv b := by
  cases hm with
  | abort _ _ _ hs ha =>
    refine h.more (by rw [abortAs_eq]) (by rw [abortAs_eq]; simp; rfl) ⟨hs, ?_, ?_, ?_, ?_, ?_, ?_⟩ <;> simp <;> exact ha
  | abortMove _ _ _ _ _ hs ha =>
    refine h.more (by rw [moveAs_sndMss, abortAs_eq]) (by rw [moveAs_out, abortAs_eq]; simp; rfl) ⟨hs, ?_, ?_, ?_, ?_, ?_, ?_⟩ <;> simp <;> exact ha
  | synOut _ _ _ hs => refine h.more (by simp) (by simp; rfl) ⟨hs, ?_, ?_, ?_, ?_, ?_, ?_⟩ <;> simp
  | synAckOut _ _ _ hs ha => refine h.more (by simp) (by simp; rfl) ⟨hs, ?_, ?_, ?_, ?_, ?_, ?_⟩ <;> simp <;> exact ha
  | finOut _ _ _ hs ha => refine h.more (by simp) (by simp; rfl) ⟨hs, ?_, ?_, ?_, ?_, ?_, ?_⟩ <;> simp <;> exact ha
  | ackOut _ hs ha => refine h.more (by simp [ackAs]) (by simp [ackAs]; rfl) ⟨hs, ?_, ?_, ?_, ?_, ?_, ?_⟩ <;> simp <;> exact ha
  | dataOut _ _ _ _ hs ha =>
    refine h.more (by simp) (by simp; rfl) ⟨hs, by simpa using ha, ?_, ?_, ?_, ?_, ?_⟩
    · have h1 := pySlice_length a.tx a.txNxt a.sendLen (by unfold sendLen; omega)
      have h2 : a.sendLen ≤ a.sndMss := by unfold sendLen; omega
      have h3 := h.mss
      simp only
      omega
    all_goals simp
  | dup => exact h.kept (by rw [retransmitRequest_eq]) (by rw [retransmitRequest_eq])
  | synAckIn =>
    refine ⟨?_, by rw [ackUpdate_out]; exact h.segs⟩
    rw [ackUpdate_eq]
    show min _ 1460 ≤ _
    omega
  | synIn =>
    refine ⟨?_, by simp [synAs]; exact h.segs⟩
    rw [moveAs_sndMss]
    show min _ 1460 ≤ _
    omega
  | ackIn => exact h.kept (by rw [ackUpdate_eq]) (by rw [ackUpdate_out])
  | dataIn => exact h.kept (by rw [ackUpdate_eq]) (by rw [ackUpdate_out])
  | finIn => exact h.kept (by rw [ackUpdate_eq]) (by rw [ackUpdate_out])
  | reset => exact h.kept rfl rfl
  | timerSet => exact h.kept rfl rfl
  | store => exact h.kept rfl rfl
  | pop => exact h.kept rfl rfl
  | closes => exact h.kept rfl rfl
  | _ => exact h.kept (by simp [emit, setTimer]) (by simp [emit, setTimer])

theorem wire_run {active : Bool} {iss : Nat} {lip : IpAddress} {lport : Nat} {rip : IpAddress} {rport : Nat} {evs : List Ev} :
    WireInv ((opened active iss lip lport rip rport).run evs) := by
  refine (run_keeps_aside (Q := fun _ => True) (G := False)
    (P := fun s => Queue (fun _ => True) s ∧ WireInv s) (fun s h => h.1.queueOk)
    (fun a b h hm => ⟨queue_micro h.1 hm, wire_micro h.2 hm⟩)
    (fun a b h hb => ⟨h.1.beside hb.beside, h.2.kept ?_ hb.sent⟩) (fun _ _ => trivial) ⟨queue_opened' .., ?_⟩).2
  · have := hb.beside
    rw [this]
  · rw [opened_eq]
    refine ⟨by cases active <;> simp [new], fun g hg => ?_⟩
    simp [new] at hg

end Verif.Sess
