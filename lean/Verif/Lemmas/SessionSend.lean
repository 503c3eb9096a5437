import Verif.Lemmas.SessionRecv
/-! The sending side of sessions: what is sent is what the application gave. -/
namespace Verif.Sess
open Verif

/-- `m` does not acknowledge the sequence number before the first one the peer may have seen used. -/
def AckOk (iss : Nat) (m : TcpMd) : Prop := m.ack = true → m.rst = false → m.ackn ≠ iss

/-- The states before the session's FIN. -/
def Early (st : FsmState) : Prop :=
  st = .listen ∨ st = .synSent ∨ st = .synRcvd ∨ st = .established ∨ st = .closeWait

/-- What was sent so far. -/
structure Sent (iss : Nat) (a : Bytes) (st : FsmState) (l : List Seg) : Prop where
  data : ∀ g ∈ l, g.data ≠ [] → iss < g.seq ∧ (a.drop (g.seq - (iss + 1))).take g.data.length = g.data
  fin : ∀ g ∈ l, g.fin = true → (a = [] ∨ g.seq = iss + 1 + a.length) ∧ ¬ Early st
  syn : ∀ g ∈ l, g.syn = true → g.seq = iss

/-- Nothing but the SYN has been sent. -/
structure SynPhase (iss : Nat) (s : Sess) : Prop where
  acc : Spec.accepted s.out = []
  tx : s.tx = []
  fin : s.sndFin = 0
  num : (s.sndUna = iss ∧ s.sndNxt ≤ s.sndMax ∧ iss ≤ s.sndNxt ∧ s.sndMax ≤ iss + 1 ∧ s.seqMod ≤ s.sndNxt ∧ ∀ e ∈ s.txTmo, e.1 = iss) ∨
    (s.sndUna = iss + 1 ∧ s.sndNxt = iss + 1 ∧ s.sndMax = iss + 1 ∧ s.seqMod = iss + 1 ∧ s.txTmo = [])

/-- The application may send. -/
structure OpenPhase (iss : Nat) (s : Sess) : Prop where
  una : iss < s.sndUna
  nxt : s.sndUna ≤ s.sndNxt
  most : s.sndNxt ≤ s.sndMax
  top : s.sndMax ≤ iss + 1 + (Spec.accepted s.out).length
  mod : s.seqMod = s.sndUna
  tx : s.tx = (Spec.accepted s.out).drop (s.sndUna - (iss + 1))
  fin : s.sndFin = 0
  tmo : ∀ e ∈ s.txTmo, s.sndUna ≤ e.1 → e.1 < s.sndMax
  ooo : ∀ e ∈ s.ooo, e.2.ackn ≤ s.sndMax

/-- Everything has been sent, and the FIN has or is going to be. -/
structure FinPhase (iss : Nat) (s : Sess) : Prop where
  tx : s.tx = []
  num : (Spec.accepted s.out = [] ∧ s.ooo = []) ∨
    (iss + 1 + (Spec.accepted s.out).length ≤ s.sndUna ∧ s.sndUna ≤ s.sndNxt ∧ s.sndNxt ≤ s.sndMax ∧
      ((s.sndFin = 0 ∧ s.sndMax = iss + 1 + (Spec.accepted s.out).length) ∨
        (s.sndFin = iss + 1 + (Spec.accepted s.out).length + 1 ∧ s.sndMax = iss + 1 + (Spec.accepted s.out).length + 1)) ∧
      ∀ e ∈ s.ooo, e.2.ackn ≤ iss + 1 + (Spec.accepted s.out).length)

/-- The numbers, by state. -/
def Phase (iss : Nat) (st : FsmState) (s : Sess) : Prop :=
  match st with
  | .closed => True
  | .listen => SynPhase iss s ∧ s.sndNxt = iss ∧ s.txTmo = []
  | .synSent | .synRcvd => SynPhase iss s
  | .established | .closeWait => OpenPhase iss s
  | _ => FinPhase iss s

structure SendInv (iss : Nat) (s : Sess) : Prop where
  ini : s.sndIni = iss
  queue : Queue (AckOk iss) s
  sent : Sent iss (Spec.accepted s.out) s.state (Spec.sent s.out)
  phase : Phase iss s.state s

variable {iss : Nat}

theorem Sent.mono {a : Bytes} {st st' : FsmState} {l l' : List Seg} (h : Sent iss a st l)
    (hl : ∀ g ∈ l', g ∈ l ∨ (g.data = [] ∧ g.fin = false ∧ g.syn = false)) (he : Early st' → Early st) : Sent iss a st' l' := by
  refine ⟨fun g hg hd => ?_, fun g hg hf => ?_, fun g hg hs => ?_⟩
  · rcases hl g hg with x | x
    · exact h.data g x hd
    · exact absurd x.1 hd
  · rcases hl g hg with x | x
    · exact ⟨(h.fin g x hf).1, fun y => (h.fin g x hf).2 (he y)⟩
    · rw [x.2.1] at hf; cases hf
  · rcases hl g hg with x | x
    · exact h.syn g x hs
    · rw [x.2.2] at hs; cases hs

theorem Sent.snoc {a : Bytes} {st : FsmState} {l : List Seg} {g : Seg} (h : Sent iss a st l)
    (hd : g.data ≠ [] → iss < g.seq ∧ (a.drop (g.seq - (iss + 1))).take g.data.length = g.data)
    (hf : g.fin = true → (a = [] ∨ g.seq = iss + 1 + a.length) ∧ ¬ Early st) (hs : g.syn = true → g.seq = iss) :
    Sent iss a st (l ++ [g]) := by
  refine ⟨fun x hx => ?_, fun x hx => ?_, fun x hx => ?_⟩ <;> rcases List.mem_append.1 hx with y | y
  · exact h.data x y
  · rw [List.mem_singleton.1 y]; exact hd
  · exact h.fin x y
  · rw [List.mem_singleton.1 y]; exact hf
  · exact h.syn x y
  · rw [List.mem_singleton.1 y]; exact hs

theorem Sent.grow {a d : Bytes} {st : FsmState} {l : List Seg} (h : Sent iss a st l) (he : Early st) : Sent iss (a ++ d) st l := by
  refine ⟨fun g hg hd => ?_, fun g hg hf => absurd he (h.fin g hg hf).2, h.syn⟩
  obtain ⟨h1, h2⟩ := h.data g hg hd
  refine ⟨h1, ?_⟩
  have hl := congrArg List.length h2
  simp only [List.length_take, List.length_drop] at hl
  have hp : g.data.length ≠ 0 := fun y => hd (List.length_eq_zero_iff.1 y)
  rw [List.drop_append_of_le_length (by omega), List.take_append_of_le_length (by simp; omega)]
  exact h2

/-- Only things the sending side does not look at change, and the state stays. -/
theorem SendInv.same {a b : Sess} (h : SendInv iss a) (hq : Queue (AckOk iss) b) (hs : b.state = a.state) (hi : b.sndIni = a.sndIni)
    (ho : Spec.sent b.out = Spec.sent a.out) (hac : Spec.accepted b.out = Spec.accepted a.out)
    (h1 : b.tx = a.tx) (h2 : b.sndFin = a.sndFin) (h3 : b.sndUna = a.sndUna) (h4 : b.sndNxt = a.sndNxt) (h5 : b.sndMax = a.sndMax)
    (h6 : b.seqMod = a.seqMod) (h7 : b.txTmo = a.txTmo) (h8 : b.ooo = a.ooo) : SendInv iss b := by
  refine ⟨hi.trans h.ini, hq, by rw [ho, hac, hs]; exact h.sent, ?_⟩
  have hp := h.phase
  rw [hs]
  unfold Phase at hp ⊢
  split at hp
  · trivial
  · exact ⟨⟨by rw [hac]; exact hp.1.acc, h1 ▸ hp.1.tx, h2 ▸ hp.1.fin, by rw [h3, h4, h5, h6, h7]; exact hp.1.num⟩, by rw [h4, h7]; exact hp.2⟩
  · exact ⟨by rw [hac]; exact hp.acc, h1 ▸ hp.tx, h2 ▸ hp.fin, by rw [h3, h4, h5, h6, h7]; exact hp.num⟩
  · exact ⟨by rw [hac]; exact hp.acc, h1 ▸ hp.tx, h2 ▸ hp.fin, by rw [h3, h4, h5, h6, h7]; exact hp.num⟩
  · exact ⟨h3 ▸ hp.una, by rw [h3, h4]; exact hp.nxt, by rw [h4, h5]; exact hp.most, by rw [h5, hac]; exact hp.top,
      by rw [h6, h3]; exact hp.mod, by rw [h1, hac, h3]; exact hp.tx, h2 ▸ hp.fin, by rw [h7, h3, h5]; exact hp.tmo,
      by rw [h8, h5]; exact hp.ooo⟩
  · exact ⟨h3 ▸ hp.una, by rw [h3, h4]; exact hp.nxt, by rw [h4, h5]; exact hp.most, by rw [h5, hac]; exact hp.top,
      by rw [h6, h3]; exact hp.mod, by rw [h1, hac, h3]; exact hp.tx, h2 ▸ hp.fin, by rw [h7, h3, h5]; exact hp.tmo,
      by rw [h8, h5]; exact hp.ooo⟩
  · exact ⟨h1 ▸ hp.tx, by rw [hac, h8, h3, h4, h5, h2]; exact hp.num⟩

/-- To CLOSED. -/
theorem SendInv.close {a b : Sess} (h : SendInv iss a) (hq : Queue (AckOk iss) b) (hs : b.state = .closed) (hi : b.sndIni = a.sndIni)
    (ho : ∀ g ∈ Spec.sent b.out, g ∈ Spec.sent a.out ∨ (g.data = [] ∧ g.fin = false ∧ g.syn = false))
    (hac : Spec.accepted b.out = Spec.accepted a.out) : SendInv iss b := by
  refine ⟨hi.trans h.ini, hq, ?_, by rw [hs]; trivial⟩
  rw [hac, hs]
  exact h.sent.mono ho (by simp [Early])

/-- Another number, the same history. -/
theorem SendInv.quiet {a b : Sess} (h : SendInv iss a) (hq : Queue (AckOk iss) b) (hi : b.sndIni = a.sndIni)
    (ho : ∀ g ∈ Spec.sent b.out, g ∈ Spec.sent a.out ∨ (g.data = [] ∧ g.fin = false ∧ g.syn = false))
    (hac : Spec.accepted b.out = Spec.accepted a.out) (he : Early b.state → Early a.state) (hp : Phase iss b.state b) :
    SendInv iss b :=
  ⟨hi.trans h.ini, hq, by rw [hac]; exact h.sent.mono ho he, hp⟩

theorem early_of_open {st : FsmState} (h : st = .established ∨ st = .closeWait) : Early st := by
  rcases h with h | h <;> simp [Early, h]

theorem SendInv.openPhase {a : Sess} (h : SendInv iss a) (hst : a.state = .established ∨ a.state = .closeWait) : OpenPhase iss a := by
  have := h.phase
  rcases hst with x | x <;> · rw [x] at this; exact this

theorem SendInv.synPhase {a : Sess} (h : SendInv iss a) (hst : a.state = .synSent ∨ a.state = .synRcvd) : SynPhase iss a := by
  have := h.phase
  rcases hst with x | x <;> · rw [x] at this; exact this

/-- The states after the session's FIN is due. -/
def Late (st : FsmState) : Prop :=
  st = .finWait1 ∨ st = .finWait2 ∨ st = .closing ∨ st = .lastAck ∨ st = .timeWait

theorem SendInv.finPhase {a : Sess} (h : SendInv iss a) (hst : Late a.state) : FinPhase iss a := by
  have := h.phase
  rcases hst with x | x | x | x | x <;> · rw [x] at this; exact this

theorem phase_open {st : FsmState} {s : Sess} (hst : st = .established ∨ st = .closeWait) (h : OpenPhase iss s) : Phase iss st s := by
  rcases hst with x | x <;> · rw [x]; exact h

theorem phase_syn {st : FsmState} {s : Sess} (hst : st = .synSent ∨ st = .synRcvd) (h : SynPhase iss s) : Phase iss st s := by
  rcases hst with x | x <;> · rw [x]; exact h

theorem phase_fin {st : FsmState} {s : Sess} (hst : Late st) (h : FinPhase iss s) : Phase iss st s := by
  rcases hst with x | x | x | x | x <;> · rw [x]; exact h

theorem late_not_early {st : FsmState} (h : Late st) : ¬ Early st := by
  rcases h with x | x | x | x | x <;> simp [x, Early]

theorem get?_key {V : Type} {d : Dict Nat V} {k : Nat} {v : V} (h : d.get? k = some v) : ∃ e ∈ d, e.1 = k :=
  ⟨_, Dict.get?_mem h, rfl⟩

/-- The invariant says no byte is unacknowledged once the buffer is empty. -/
theorem OpenPhase.empty {s : Sess} (h : OpenPhase iss s) (ht : s.tx = []) :
    s.sndUna = iss + 1 + (Spec.accepted s.out).length ∧ s.sndNxt = s.sndUna ∧ s.sndMax = s.sndUna := by
  have h1 := h.tx
  rw [ht] at h1
  have h2 := List.drop_eq_nil_iff.1 h1.symm
  have := h.una; have := h.nxt; have := h.most; have := h.top
  omega

theorem OpenPhase.toFin {s s' : Sess} (h : OpenPhase iss s) (ht : s.tx = []) (h0 : s'.tx = s.tx)
    (h1 : Spec.accepted s'.out = Spec.accepted s.out) (h2 : s'.sndUna = s.sndUna) (h3 : s'.sndNxt = s.sndNxt)
    (h4 : s'.sndMax = s.sndMax) (h5 : s'.sndFin = s.sndFin) (h6 : s'.ooo = s.ooo) : FinPhase iss s' := by
  have e := h.empty ht
  have hf := h.fin
  have ho := h.ooo
  refine ⟨h0.trans ht, .inr ?_⟩
  rw [h1, h2, h3, h4, h5, h6]
  refine ⟨by omega, by omega, by omega, .inl ⟨hf, by omega⟩, fun x hx => ?_⟩
  have := ho x hx
  omega

/-- An acceptable segment, while the application may send. -/
theorem OpenPhase.ack {s : Sess} {m : TcpMd} (h : OpenPhase iss s) (hm : s.sndUna ≤ m.ackn ∧ m.ackn ≤ s.sndMax) :
    OpenPhase iss (s.ackUpdate m) := by
  obtain ⟨h1, h2, h3, h4, h5, h6, h7, h8, h9⟩ := h
  have hu : max s.sndUna m.ackn = m.ackn := by omega
  rw [ackUpdate_eq]
  refine ⟨?_, ?_, ?_, h4, ?_, ?_, h7, ?_, h9⟩ <;> simp only [hu]
  · omega
  · split <;> omega
  · split <;> omega
  · omega
  · rw [h6, h5, List.drop_drop]
    congr 1
    omega
  · intro e he hk
    exact h8 e (List.mem_filter.1 he).1 (by omega)

/-- An acceptable segment, afterwards. -/
theorem FinPhase.ack {s : Sess} {m : TcpMd} (h : FinPhase iss s) (hm : s.sndUna ≤ m.ackn ∧ m.ackn ≤ s.sndMax) :
    FinPhase iss (s.ackUpdate m) := by
  obtain ⟨h1, h2⟩ := h
  have hu : max s.sndUna m.ackn = m.ackn := by omega
  rw [ackUpdate_eq]
  refine ⟨by simp [h1], ?_⟩
  rcases h2 with x | ⟨a, b, c, d, e⟩
  · exact .inl x
  · right
    simp only [hu]
    refine ⟨by omega, ?_, ?_, d, e⟩
    · split <;> omega
    · split <;> omega

/-- The acknowledgement of the SYN. -/
theorem SynPhase.ack {s : Sess} {m : TcpMd} (h : SynPhase iss s) (hm : m.ackn = s.sndNxt) (hq : m.ackn ≠ iss) :
    SynPhase iss (s.ackUpdate m) := by
  obtain ⟨h1, h2, h3, h4⟩ := h
  rw [ackUpdate_eq]
  refine ⟨h1, by simp [h2], h3, .inr ?_⟩
  dsimp only
  have hn : s.sndNxt = iss + 1 ∧ s.sndMax = iss + 1 ∧ s.sndUna ≤ iss + 1 ∧ s.seqMod ≤ iss + 1 ∧ ∀ e ∈ s.txTmo, e.1 = iss := by
    rcases h4 with ⟨a, b, c, d, e, f⟩ | ⟨a, b, c, d, e⟩
    · exact ⟨by omega, by omega, by omega, by omega, f⟩
    · exact ⟨b, c, by omega, by omega, by simp [e]⟩
  obtain ⟨a, b, c, d, e⟩ := hn
  have hu : max s.sndUna m.ackn = iss + 1 := by omega
  rw [hu]
  refine ⟨rfl, ?_, b, by omega, ?_⟩
  · split <;> omega
  · rw [List.filter_eq_nil_iff]
    intro x hx
    have := e x hx
    simp
    omega

theorem SynPhase.establish {s s' : Sess} {m : TcpMd} (h : SynPhase iss s) (hx : m.ackn = s.sndUna) (hq : m.ackn ≠ iss) (ho : s.ooo = [])
    (h0 : s'.tx = s.tx) (h1 : Spec.accepted s'.out = Spec.accepted s.out) (h2 : s'.sndUna = s.sndUna) (h3 : s'.sndNxt = s.sndNxt)
    (h4 : s'.sndMax = s.sndMax) (h5 : s'.sndFin = s.sndFin) (h6 : s'.ooo = s.ooo) (h7 : s'.seqMod = s.seqMod)
    (h8 : s'.txTmo = s.txTmo) : OpenPhase iss s' := by
  obtain ⟨a1, a2, a3, a4⟩ := h
  rcases a4 with ⟨a, _⟩ | ⟨a, b, c, d, e⟩
  · omega
  · exact ⟨by omega, by omega, by omega, by rw [h1, a1]; simp; omega, by rw [h7, h2]; omega, by rw [h0, h1, a1, a2]; simp,
      by omega, by rw [h8, e]; simp, by rw [h6, ho]; simp⟩

theorem pySlice_nat {b : Bytes} {i n : Nat} (h : i + n ≤ b.length) : pySlice b i (i + n : Int) = (b.drop i).take n := by
  unfold pySlice
  simp only []
  rw [if_neg (by omega), if_neg (by omega)]
  have h1 : min (↑i : Int).toNat b.length = i := by omega
  have h2 : min (↑i + ↑n : Int).toNat b.length = i + n := by omega
  rw [h1, h2]
  congr 1
  omega

theorem OpenPhase.send {s : Sess} (h : OpenPhase iss s) (hw : s.inWindow) (hl : s.sendLen ≠ 0) :
    ∃ n : Nat, n ≠ 0 ∧ s.sendLen = n ∧ s.txNxt = s.sndNxt - s.sndUna ∧ s.sndNxt + n ≤ iss + 1 + (Spec.accepted s.out).length ∧
      s.sndNxt + n ≤ s.sndUna + s.sndEwn ∧ n ≤ s.sndMss ∧
      pySlice s.tx s.txNxt (s.txNxt + s.sendLen) = ((Spec.accepted s.out).drop (s.sndNxt - (iss + 1))).take n ∧
      (((Spec.accepted s.out).drop (s.sndNxt - (iss + 1))).take n).length = n := by
  obtain ⟨h1, h2, h3, h4, h5, h6, h7, h8, h9⟩ := h
  have ht : s.txNxt = s.sndNxt - s.sndUna := by unfold txNxt; omega
  have hlen : s.tx.length = iss + 1 + (Spec.accepted s.out).length - s.sndUna := by rw [h6]; simp; omega
  have hw2 := hw.2
  unfold sendLen at hl ⊢
  rw [ht, hlen] at hl ⊢
  obtain ⟨n, hn⟩ : ∃ n : Nat, min (min (s.sndMss : Int) ((s.sndEwn : Int) - ↑(s.sndNxt - s.sndUna)))
      (↑(iss + 1 + (Spec.accepted s.out).length - s.sndUna) - ↑(s.sndNxt - s.sndUna)) = (n : Int) :=
    ⟨_, (Int.toNat_of_nonneg (by omega)).symm⟩
  refine ⟨n, by omega, hn, rfl, by omega, by omega, by omega, ?_, ?_⟩
  · rw [hn, pySlice_nat (by omega), h6, List.drop_drop]
    congr 2
    omega
  · rw [List.length_take, List.length_drop]
    omega

theorem mem_tmoAfter {s : Sess} {seq : Nat} {syn fin : Bool} {data : Bytes} {e : Nat × Nat} (h : e ∈ s.tmoAfter seq syn fin data) :
    e.1 = seq ∨ e ∈ s.txTmo := by
  unfold tmoAfter at h
  split at h
  · rcases mem_set_cases h with x | x
    · exact .inl (by rw [x])
    · exact .inr x
  · exact .inr h

theorem tmoAfter_ack (s : Sess) (seq : Nat) : s.tmoAfter seq false false [] = s.txTmo := by
  unfold tmoAfter; simp

theorem SendInv.queueOk {s : Sess} (h : SendInv iss s) : QueueOk (AckOk iss) True s := by
  refine ⟨h.queue.each, h.queue.early, ?_, ?_⟩
  · intro _ hst e he
    rcases (h.finPhase (.inl hst)).num with x | x
    · rw [x.2] at he; cases he
    · have := x.2.2.2.2 e he
      rcases x.2.2.2.1 with y | y
      · exact .inr y.1
      · left; omega
  · intro _ hst
    rcases (h.synPhase hst).num with x | x <;> omega

theorem send_micro {a b : Sess} (h : SendInv iss a) (hm : Micro (AckOk iss) True a b) : SendInv iss b := by
  have hqq := queue_micro h.queue hm
  cases hm with
  | reset hst hc hc3 he =>
    refine h.quiet hqq rfl (fun g hg => .inl hg) rfl (fun x => x) ?_
    obtain ⟨e, he1, he2⟩ := get?_key hc
    dsimp only
    rcases hst with x | x | x | x | x | x
    · obtain ⟨h1, h2, h3, h4⟩ := h.synPhase (.inl x)
      refine phase_syn (.inl x) ⟨h1, h2, h3, ?_⟩
      rcases h4 with y | y
      · refine .inl ⟨y.1, by dsimp only; omega, by dsimp only; omega, y.2.2.2.1, ?_, y.2.2.2.2.2⟩
        dsimp only
        rw [if_pos (.inl (by rw [h.ini]; exact y.1))]
        omega
      · rw [y.2.2.2.2] at he1; cases he1
    · obtain ⟨h1, h2, h3, h4⟩ := h.synPhase (.inr x)
      refine phase_syn (.inr x) ⟨h1, h2, h3, ?_⟩
      rcases h4 with y | y
      · refine .inl ⟨y.1, by dsimp only; omega, by dsimp only; omega, y.2.2.2.1, ?_, y.2.2.2.2.2⟩
        dsimp only
        rw [if_pos (.inl (by rw [h.ini]; exact y.1))]
        omega
      · rw [y.2.2.2.2] at he1; cases he1
    · obtain ⟨h1, h2, h3, h4, h5, h6, h7, h8, h9⟩ := h.openPhase (.inl x)
      refine phase_open (.inl x) ⟨h1, Nat.le_refl _, by dsimp only; omega, h4, ?_, h6, h7, h8, h9⟩
      have := h.ini
      dsimp only
      rw [if_neg (by omega)]
      exact h5
    · obtain ⟨h1, h2⟩ := h.finPhase (.inl x)
      refine phase_fin (.inl x) ⟨h1, ?_⟩
      dsimp only
      rcases h2 with y | y
      · exact .inl y
      · exact .inr ⟨y.1, by omega, by omega, y.2.2.2⟩
    · obtain ⟨h1, h2, h3, h4, h5, h6, h7, h8, h9⟩ := h.openPhase (.inr x)
      refine phase_open (.inr x) ⟨h1, Nat.le_refl _, by dsimp only; omega, h4, ?_, h6, h7, h8, h9⟩
      have := h.ini
      dsimp only
      rw [if_neg (by omega)]
      exact h5
    · have hl : Late a.state := by simp [Late, x]
      obtain ⟨h1, h2⟩ := h.finPhase hl
      refine phase_fin hl ⟨h1, ?_⟩
      dsimp only
      rcases h2 with y | y
      · exact .inl y
      · exact .inr ⟨y.1, by omega, by omega, y.2.2.2⟩
  | abort =>
    refine h.close hqq ?_ ?_ ?_ ?_ <;> rw [abortAs_eq]
    · intro g hg
      simp at hg
      rcases hg with x | x
      · exact .inl x
      · exact .inr (by rw [x]; simp)
    · simp
  | @abortMove st t hst hc hcl htx =>
    have ho : OpenPhase iss a := h.openPhase (by rcases hst with ⟨x, _⟩ | ⟨x, _⟩ <;> simp [x])
    obtain ⟨e, he1, he2⟩ := get?_key hc
    have h1 := ho.empty htx
    have h2 := ho.tmo e he1 (by omega)
    omega
  | synOut hst hn =>
    have hp := h.synPhase (.inl hst)
    have hi := h.ini
    refine ⟨by simpa using hi, hqq, ?_, ?_⟩
    · simpa using h.sent.snoc (g := ⟨true, false, false, false, a.sndNxt, 0, []⟩) (by simp) (by simp) (by simp; omega)
    · refine phase_syn (.inl (by simpa using hst)) ⟨by simpa using hp.acc, by simpa using hp.tx, by simpa using hp.fin, ?_⟩
      rcases hp.num with y | y
      · refine .inl ⟨by simpa using y.1, by simp; omega, by simp; omega, by simp; omega, by simp; omega, ?_⟩
        intro e he
        rw [sentAs_txTmo] at he
        rcases mem_tmoAfter he with z | z
        · omega
        · exact y.2.2.2.2.2 e z
      · omega
  | synAckOut hst hn =>
    have hp := h.synPhase (.inr hst)
    have hi := h.ini
    refine ⟨by simpa using hi, hqq, ?_, ?_⟩
    · simpa using h.sent.snoc (g := ⟨true, true, false, false, a.sndNxt, a.rcvNxt, []⟩) (by simp) (by simp) (by simp; omega)
    · refine phase_syn (.inr (by simpa using hst)) ⟨by simpa using hp.acc, by simpa using hp.tx, by simpa using hp.fin, ?_⟩
      rcases hp.num with y | y
      · refine .inl ⟨by simpa using y.1, by simp; omega, by simp; omega, by simp; omega, by simp; omega, ?_⟩
        intro e he
        rw [sentAs_txTmo] at he
        rcases mem_tmoAfter he with z | z
        · omega
        · exact y.2.2.2.2.2 e z
      · omega
  | dataOut hst hw hr hl =>
    have hp := h.openPhase hst
    obtain ⟨n, n0, n1, n2, n3, n4, n5, n6, n7⟩ := hp.send hw hl
    obtain ⟨h1, h2, h3, h4, h5, h6, h7, h8, h9⟩ := hp
    rw [n6] at hqq ⊢
    refine ⟨by simpa using h.ini, hqq, ?_, ?_⟩
    · have := h.sent.snoc (g := ⟨false, true, false, false, a.sndNxt, a.rcvNxt,
        ((Spec.accepted a.out).drop (a.sndNxt - (iss + 1))).take n⟩) (fun _ => ⟨by dsimp only; omega, by dsimp only; rw [n7]⟩)
        (by simp) (by simp)
      simpa using this
    · refine phase_open (by simpa using hst) ⟨by simpa using h1, ?_, ?_, ?_, by simpa using h5, by simpa using h6, by simpa using h7, ?_,
        ?_⟩
      · simp only [sentAs_sndUna, sentAs_sndNxt]; omega
      · simp only [sentAs_sndMax, sentAs_sndNxt]; omega
      · simp only [sentAs_sndMax, sentAs_out, n7]
        simp
        omega
      · intro e he hk
        simp only [sentAs_sndMax, sentAs_sndUna, sentAs_txTmo, n7] at he hk ⊢
        simp
        rcases mem_tmoAfter he with z | z
        · omega
        · have := h8 e z hk
          omega
      · intro e he
        simp only [sentAs_sndMax, sentAs_ooo] at he ⊢
        have := h9 e he
        omega
  | finOut hst hw hn =>
    have hl : Late a.state := by rcases hst with x | x <;> simp [Late, x]
    have hp := h.finPhase hl
    have hseq : Spec.accepted a.out = [] ∨ a.sndNxt = iss + 1 + (Spec.accepted a.out).length := by
      rcases hp.num with x | x
      · exact .inl x.1
      · right; omega
    refine ⟨by simpa using h.ini, hqq, ?_, ?_⟩
    · simpa using h.sent.snoc (g := ⟨false, true, true, false, a.sndNxt, a.rcvNxt, []⟩) (by simp)
        (fun _ => ⟨hseq, late_not_early hl⟩) (by simp)
    · refine phase_fin (by simpa using hl) ⟨by simpa using hp.tx, ?_⟩
      rcases hp.num with x | x
      · exact .inl (by simpa using x)
      · right
        simp only [sentAs_sndMax, sentAs_sndUna, sentAs_sndFin, sentAs_sndNxt, sentAs_ooo, sentAs_out]
        simp
        exact ⟨x.1, by omega, by omega, ⟨by omega, by omega⟩, by simpa using x.2.2.2.2⟩
  | ackOut hst =>
    refine h.quiet hqq (by simp) (by simp +contextual [or_imp]) (by simp) (by simp) ?_
    have hmax : ∀ n, a.sndNxt ≤ n → max n a.sndNxt = n := by omega
    rw [sentAs_state]
    rcases hst with x | x | x | x | x
    · have hp := h.synPhase (.inl x)
      refine phase_syn (.inl x) ⟨by simpa using hp.acc, by simpa using hp.tx, by simpa using hp.fin, ?_⟩
      rw [sentAs_sndUna, sentAs_sndNxt, sentAs_sndMax, sentAs_seqMod, sentAs_txTmo, tmoAfter_ack]
      rcases hp.num with y | y
      · left
        simp only [List.length_nil, Bool.toNat_false, Nat.add_zero, hmax _ y.2.1]
        simpa using y
      · right
        simp only [List.length_nil, Bool.toNat_false, Nat.add_zero, hmax _ (show a.sndNxt ≤ a.sndMax by omega)]
        simpa using y
    · have hp := h.openPhase (.inl x)
      refine phase_open (.inl x) ⟨by simpa using hp.una, by simpa using hp.nxt, by simp; omega, ?_, by simpa using hp.mod, by simpa using hp.tx,
        by simpa using hp.fin, ?_, ?_⟩
      · simpa [hmax _ hp.most] using hp.top
      · simpa [hmax _ hp.most, tmoAfter_ack] using hp.tmo
      · simpa [hmax _ hp.most] using hp.ooo
    · have hl : Late a.state := by simp [Late, x]
      have hp := h.finPhase hl
      refine phase_fin hl ⟨by simpa using hp.tx, ?_⟩
      rcases hp.num with y | y
      · exact .inl (by simpa using y)
      · right
        simpa [hmax _ y.2.2.1] using y
    · have hl : Late a.state := by simp [Late, x]
      have hp := h.finPhase hl
      refine phase_fin hl ⟨by simpa using hp.tx, ?_⟩
      rcases hp.num with y | y
      · exact .inl (by simpa using y)
      · right
        simpa [hmax _ y.2.2.1] using y
    · have hp := h.openPhase (.inr x)
      refine phase_open (.inr x) ⟨by simpa using hp.una, by simpa using hp.nxt, by simp; omega, ?_, by simpa using hp.mod, by simpa using hp.tx,
        by simpa using hp.fin, ?_, ?_⟩
      · simpa [hmax _ hp.most] using hp.top
      · simpa [hmax _ hp.most, tmoAfter_ack] using hp.tmo
      · simpa [hmax _ hp.most] using hp.ooo
  | timerSet => exact h.same hqq rfl rfl rfl rfl rfl rfl rfl rfl rfl rfl rfl rfl
  | finClose hst hc ht =>
    refine h.quiet hqq (by simp) (by simp +contextual [or_imp]) (by simp) (by simp [Early]) ?_
    rw [moveAs_state]
    exact (h.openPhase (.inl hst)).toFin ht (by simp) (by simp) (by simp) (by simp) (by simp) (by simp) (by simp)
  | lastClose hst hc ht =>
    refine h.quiet hqq (by simp) (by simp +contextual [or_imp]) (by simp) (by simp [Early]) ?_
    rw [moveAs_state]
    exact (h.openPhase (.inr hst)).toFin ht (by simp) (by simp) (by simp) (by simp) (by simp) (by simp) (by simp)
  | @dup m hq hst hf hm =>
    have hp := h.openPhase hst
    have hn := retransmitRequest_nxt a m
    rw [retransmitRequest_eq] at hqq ⊢
    refine h.quiet hqq rfl (fun g hg => .inl hg) rfl (fun x => x) ?_
    obtain ⟨h1, h2, h3, h4, h5, h6, h7, h8, h9⟩ := hp
    refine phase_open hst ⟨h1, ?_, ?_, h4, h5, h6, h7, h8, h9⟩
    · dsimp only; omega
    · dsimp only; omega
  | @store m c hq hst hf hm =>
    refine h.quiet hqq rfl (fun g hg => .inl hg) rfl (fun x => x) ?_
    obtain ⟨h1, h2, h3, h4, h5, h6, h7, h8, h9⟩ := h.openPhase hst
    refine phase_open hst ⟨h1, h2, h3, h4, h5, h6, h7, h8, ?_⟩
    intro e he
    rcases mem_set_cases he with z | z
    · rw [z]; exact hm.2.2
    · exact h9 e z
  | @pop k =>
    refine h.quiet hqq rfl (fun g hg => .inl hg) rfl (fun x => x) ?_
    have hp := h.phase
    dsimp only
    unfold Phase at hp ⊢
    split at hp
    · trivial
    · exact ⟨⟨hp.1.acc, hp.1.tx, hp.1.fin, hp.1.num⟩, hp.2⟩
    · exact ⟨hp.acc, hp.tx, hp.fin, hp.num⟩
    · exact ⟨hp.acc, hp.tx, hp.fin, hp.num⟩
    · exact ⟨hp.una, hp.nxt, hp.most, hp.top, hp.mod, hp.tx, hp.fin, hp.tmo, fun e he => hp.ooo e (List.mem_filter.1 he).1⟩
    · exact ⟨hp.una, hp.nxt, hp.most, hp.top, hp.mod, hp.tx, hp.fin, hp.tmo, fun e he => hp.ooo e (List.mem_filter.1 he).1⟩
    · refine ⟨hp.tx, ?_⟩
      rcases hp.num with y | y
      · exact .inl ⟨y.1, by show Dict.erase _ _ = []; rw [y.2]; rfl⟩
      · exact .inr ⟨y.1, y.2.1, y.2.2.1, y.2.2.2.1, fun e he => y.2.2.2.2 e (List.mem_filter.1 he).1⟩
  | @synIn m hq hst hf hm =>
    refine h.quiet hqq (by simp [synAs, paramsAs]) (by simp +contextual [synAs, paramsAs]) (by simp [synAs, paramsAs]) ?_ ?_
    · intro _; simp [Early, hst]
    · have hp := h.phase
      rw [hst] at hp
      rw [moveAs_state]
      refine phase_syn (.inr rfl) ⟨?_, ?_, ?_, ?_⟩
      · simpa [synAs, paramsAs] using hp.1.acc
      · simpa [synAs, paramsAs] using hp.1.tx
      · simpa [synAs, paramsAs] using hp.1.fin
      · simpa [synAs, paramsAs] using hp.1.num
  | @synAckIn m hq hst hf hm =>
    have hfl := isSynAck_flags hf
    refine h.quiet hqq (by rw [ackUpdate_eq]; rfl) (by rw [ackUpdate_out]; exact fun g hg => .inl hg) (by rw [ackUpdate_out]; rfl) (fun x => by simpa using x) ?_
    rw [ackUpdate_state, paramsAs_state]
    have hp := h.synPhase (.inl hst)
    have hp' : SynPhase iss (a.paramsAs m) := ⟨hp.acc, hp.tx, hp.fin, hp.num⟩
    exact phase_syn (.inl hst) (hp'.ack hm.1 (hq hfl.1 hfl.2.2.1))
  | @establish m hq hst hf hr ha hx =>
    have hfl := isSynAck_flags hf
    refine h.quiet hqq (by simp) (by simp +contextual [or_imp]) (by simp) (by simp [Early, hst]) ?_
    refine phase_open (.inl (by simp)) ?_
    exact (h.synPhase (.inl hst)).establish (hx trivial) (hq hfl.1 hfl.2.2.1) (h.queue.early (by simp [hst])) (by simp) (by simp) (by simp) (by simp)
      (by simp) (by simp) (by simp) (by simp) (by simp)
  | @ackIn m hq hst hf hm =>
    refine h.quiet hqq (by rw [ackUpdate_eq]) (by rw [ackUpdate_out]; exact fun g hg => .inl hg) (by rw [ackUpdate_out]) (fun x => by simpa using x) ?_
    rw [ackUpdate_state]
    exact phase_syn (.inr hst) ((h.synPhase (.inr hst)).ack hm.2.1 (hq (isAck_flags hf).1 (isAck_flags hf).2.2.1))
  | @establish' m hq hst hf ha hx =>
    refine h.quiet hqq (by simp [emit]) (by simp +contextual [emit]) (by simp [emit]) (by simp [Early, hst]) ?_
    refine phase_open (.inl (by simp [emit])) ?_
    exact (h.synPhase (.inr hst)).establish (hx trivial) (hq (isAck_flags hf).1 (isAck_flags hf).2.2.1) (h.queue.early (by simp [hst])) (by simp [emit]) (by simp [emit])
      (by simp [emit]) (by simp [emit]) (by simp [emit]) (by simp [emit]) (by simp [emit]) (by simp [emit]) (by simp [emit])
  | refused => exact h.close hqq (by simp) (by simp) (by simp +contextual [or_imp]) (by simp)
  | closes => exact h.same hqq rfl rfl rfl rfl rfl rfl rfl rfl rfl rfl rfl rfl
  | finEarly hst =>
    have hp := h.synPhase (.inr hst)
    refine h.quiet hqq (by simp) (by simp +contextual [or_imp]) (by simp) (by simp [Early]) ?_
    rw [moveAs_state]
    exact ⟨by simpa using hp.tx, .inl ⟨by simpa using hp.acc, by simpa using h.queue.early (by simp [hst])⟩⟩
  | @dataIn m hq hst hf hm =>
    refine h.quiet hqq (by rw [ackUpdate_eq]) (by rw [ackUpdate_out]; exact fun g hg => .inl hg) (by rw [ackUpdate_out]) (fun x => by simpa using x) ?_
    rw [ackUpdate_state]
    rcases hst with x | x | x | x
    · exact phase_open (.inl x) ((h.openPhase (.inl x)).ack hm.2)
    · exact phase_fin (by simp [Late, x]) ((h.finPhase (by simp [Late, x])).ack hm.2)
    · exact phase_fin (by simp [Late, x]) ((h.finPhase (by simp [Late, x])).ack hm.2)
    · exact phase_open (.inr x.1) ((h.openPhase (.inr x.1)).ack hm.2)
  | @finIn m hq hst hf hm =>
    refine h.quiet hqq (by rw [ackUpdate_eq]) (by rw [ackUpdate_out]; exact fun g hg => .inl hg) (by rw [ackUpdate_out]) (fun x => by simpa using x) ?_
    rw [ackUpdate_state]
    rcases hst with x | x | x
    · exact phase_open (.inl x) ((h.openPhase (.inl x)).ack hm.2)
    · exact phase_fin (by simp [Late, x]) ((h.finPhase (by simp [Late, x])).ack hm.2)
    · exact phase_fin (by simp [Late, x]) ((h.finPhase (by simp [Late, x])).ack hm.2)
  | toCloseWait hq hst =>
    refine h.quiet hqq (by simp) (by simp +contextual [or_imp]) (by simp) (by simp [Early, hst]) ?_
    obtain ⟨h1, h2, h3, h4, h5, h6, h7, h8, h9⟩ := h.openPhase (.inl hst)
    refine phase_open (.inr (by simp)) ⟨by simpa using h1, by simpa using h2, by simpa using h3, by simpa using h4, by simpa using h5,
      by simpa using h6, by simpa using h7, by simpa using h8, by simpa using h9⟩
  | toFinWait2 hq hst =>
    refine h.quiet hqq (by simp) (by simp +contextual [or_imp]) (by simp) (by simp [Early]) ?_
    have hp := h.finPhase (by rcases hst with x | x <;> simp [Late, x])
    exact phase_fin (by simp [Late]) ⟨by simpa using hp.tx, by simpa using hp.num⟩
  | toTimeWait hq hst =>
    refine h.quiet hqq (by simp [setTimer]) (by simp +contextual [setTimer]) (by simp [setTimer]) (by simp [Early, setTimer]) ?_
    have hp := h.finPhase (by rcases hst with x | x <;> simp [Late, x])
    exact phase_fin (by simp [Late, setTimer]) ⟨by simpa [setTimer] using hp.tx, by simpa [setTimer] using hp.num⟩
  | toClosing hq hst =>
    refine h.quiet hqq (by simp) (by simp +contextual [or_imp]) (by simp) (by simp [Early]) ?_
    have hp := h.finPhase (by rcases hst with x | x <;> simp [Late, x])
    exact phase_fin (by simp [Late]) ⟨by simpa using hp.tx, by simpa using hp.num⟩
  | @closingAck m hq hst hf hm =>
    refine h.quiet hqq (by simp [setTimer]) (by simp +contextual [setTimer]) (by simp [setTimer]) (by simp [Early, setTimer]) ?_
    have hp := h.finPhase (by simp [Late, hst])
    refine phase_fin (by simp [Late, setTimer]) ⟨by simpa [setTimer] using hp.tx, ?_⟩
    rcases hp.num with y | y
    · exact .inl (by simpa [setTimer] using y)
    · right
      simp [setTimer]
      exact ⟨by omega, by omega, by omega, y.2.2.2.1, by simpa using y.2.2.2.2⟩
  | shut => exact h.close hqq (by simp) (by simp) (by simp +contextual [or_imp]) (by simp)

theorem send_run {s : Sess} {evs : List Ev} (hs : ∀ m ∈ Spec.arrivals evs, AckOk iss m) (h : SendInv iss s) :
    SendInv iss (s.run evs) := by
  have quiet : ∀ (s : Sess) (o : Out), Spec.quiet o = true → SendInv iss s → SendInv iss (s.emit o) := by
    intro s o ho h
    exact h.same (h.queue.same rfl rfl) rfl rfl (by simp [emit, Spec.sent_one ho]) (by simp [emit, Spec.accepted_one ho]) rfl rfl rfl rfl rfl
      rfl rfl rfl
  refine run_keeps (G := True) (fun s h => h.queueOk) (fun a b h hm => send_micro h hm) (fun s e h => quiet s _ rfl h) ?_ ?_ ?_ ?_ ?_ ?_ hs h
  · intro s d h
    unfold send
    split
    · rename_i hst
      obtain ⟨h1, h2, h3, h4, h5, h6, h7, h8, h9⟩ := h.openPhase hst
      refine ⟨h.ini, h.queue.same rfl rfl, ?_, ?_⟩
      · simpa using h.sent.grow (early_of_open hst)
      · refine phase_open hst ⟨h1, h2, h3, ?_, h5, ?_, h7, h8, h9⟩
        · simp; omega
        · simp
          rw [h6, List.drop_append_of_le_length (by omega)]
    · exact quiet _ _ rfl h
  · intro s h
    unfold recvAcquire
    split
    · exact h
    · exact h.same (h.queue.same rfl rfl) rfl rfl rfl rfl rfl rfl rfl rfl rfl rfl rfl rfl
  · intro s n h
    rcases recvTake_cases s n with x | ⟨k, e, x⟩
    · rw [x]; exact h
    · rw [x]
      exact h.same (h.queue.same rfl rfl) rfl rfl (by simp) (by simp) rfl rfl rfl rfl rfl rfl rfl rfl
  · intro s h
    unfold connectReturn
    split
    · exact h
    · have h' : SendInv iss { s with evConnect := s.evConnect - 1 } :=
        h.same (h.queue.same rfl rfl) rfl rfl rfl rfl rfl rfl rfl rfl rfl rfl rfl rfl
      dsimp only
      split
      · exact quiet _ _ rfl h'
      · split
        · exact quiet _ _ rfl h'
        · exact quiet _ _ rfl h'
  · intro s h
    exact h.same (h.queue.same rfl rfl) rfl rfl rfl rfl rfl rfl rfl rfl rfl rfl rfl rfl
  · intro s b h
    exact h.same (h.queue.same rfl rfl) rfl rfl rfl rfl rfl rfl rfl rfl rfl rfl rfl rfl

theorem send_opened (active : Bool) (lip : IpAddress) (lport : Nat) (rip : IpAddress) (rport : Nat) :
    SendInv iss (opened active iss lip lport rip rport) := by
  have hp : ∀ st, SynPhase iss ((new iss lip lport rip rport).moveAs st) := by
    intro st
    refine ⟨by simp [new], by simp [new], by simp [new], .inl ?_⟩
    simp [new]
  rw [opened_eq]
  refine ⟨by simp [new], ⟨by simp [new], by simp [new]⟩, ⟨by simp [new], by simp [new], by simp [new]⟩, ?_⟩
  cases active
  · exact ⟨hp _, by simp [new], by simp [new]⟩
  · exact hp _

end Verif.Sess
