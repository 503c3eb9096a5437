import Verif.Lemmas.SessionEnd
import Verif.Lemmas.SessionAck
/-! Retransmission. -/
namespace Verif.Sess
open Verif.Spec (transmissions)

variable {Q : TcpMd → Prop} {G : Prop}

theorem get?_filter {V : Type} (d : Dict Nat V) (n k : Nat) (h : ¬ k < n) : Dict.get? (d.filter (fun e => ¬ e.1 < n)) k = d.get? k := by
  induction d with
  | nil => rfl
  | cons e d ih =>
    rw [List.filter_cons]
    by_cases he : e.1 < n
    · rw [if_neg (by simpa using he), ih, Dict.get?_cons, if_neg (by omega)]
    · rw [if_pos (by simpa using he), Dict.get?_cons, Dict.get?_cons, ih]

/-- How often the counters say a number was sent. -/
def counted (s : Sess) (q : Nat) : Nat :=
  match s.txTmo.get? q with
  | none => 0
  | some c => c + 1

/-- The counters are right, for the numbers not yet acknowledged; and the numbers are in order. -/
structure CountInv (s : Sess) : Prop where
  count : ∀ q, s.sndUna ≤ q → s.counted q = transmissions q s.out
  num : s.sndUna ≤ s.sndNxt ∧ s.sndNxt ≤ s.sndMax

theorem transmissions_append (q : Nat) (l l' : List Out) : transmissions q (l ++ l') = transmissions q l + transmissions q l' := by
  simp [transmissions, Spec.sent]

theorem transmissions_sent (q : Nat) (g : Seg) :
    transmissions q [.sent g] = if g.seq = q ∧ (g.data ≠ [] ∨ g.syn = true ∨ g.fin = true) then 1 else 0 := by
  simp only [transmissions, Spec.sent, List.filterMap_cons, List.filterMap_nil, List.filter_cons, List.filter_nil]
  by_cases h : g.seq = q ∧ (g.data ≠ [] ∨ g.syn = true ∨ g.fin = true)
  · rw [if_pos h, if_pos (by simpa using h)]; rfl
  · rw [if_neg h, if_neg (by simpa using h)]; rfl

theorem counted_sentAs (s : Sess) (seq : Nat) (syn ack fin rst : Bool) (data : Bytes) (q : Nat) :
    (s.sentAs seq syn ack fin rst data).counted q =
      s.counted q + if seq = q ∧ (data ≠ [] ∨ syn = true ∨ fin = true) then 1 else 0 := by
  unfold counted
  rw [sentAs_txTmo]
  unfold tmoAfter
  by_cases h : data ≠ [] ∨ syn = true ∨ fin = true
  · rw [if_pos h, Dict.get?_set]
    by_cases hq : q = seq
    · subst hq
      simp only [if_true, true_and, if_pos h]
      cases s.txTmo.get? q <;> rfl
    · rw [if_neg hq, if_neg (fun x => hq x.1.symm)]
      rfl
  · rw [if_neg h, if_neg (fun x => h x.2)]
    rfl

theorem CountInv.sentAs {a : Sess} (h : CountInv a) (seq : Nat) (syn ack fin rst : Bool) (data : Bytes) (hs : a.sndUna ≤ seq) :
    CountInv (a.sentAs seq syn ack fin rst data) := by
  refine ⟨fun q hq => ?_, ?_⟩
  · rw [sentAs_sndUna] at hq
    rw [counted_sentAs, h.count q hq, sentAs_out, transmissions_append, transmissions_sent]
  · simp; omega

theorem CountInv.same {a b : Sess} (h : CountInv a) (h1 : b.txTmo = a.txTmo) (h2 : ∀ q, transmissions q b.out = transmissions q a.out)
    (h3 : b.sndUna = a.sndUna) (h4 : b.sndNxt = a.sndNxt) (h5 : b.sndMax = a.sndMax) : CountInv b := by
  refine ⟨fun q hq => ?_, by rw [h3, h4, h5]; exact h.num⟩
  rw [h2, ← h.count q (h3 ▸ hq)]
  unfold counted
  rw [h1]

theorem CountInv.ack {a : Sess} {m : TcpMd} (h : CountInv a) (hm : m.ackn ≤ a.sndMax) : CountInv (a.ackUpdate m) := by
  refine ⟨fun q hq => ?_, ?_⟩
  · rw [ackUpdate_sndUna] at hq
    rw [ackUpdate_out, ← h.count q (by omega)]
    unfold counted
    rw [ackUpdate_eq]
    dsimp only
    rw [get?_filter _ _ _ (by omega)]
  · have := h.num
    rw [ackUpdate_eq]
    dsimp only
    split <;> omega

theorem transmissions_nil {q : Nat} {l : List Out} (h : Spec.sent l = []) : transmissions q l = 0 := by
  simp [transmissions, h]

theorem count_micro {a b : Sess} (h : CountInv a) (hm : Micro Q G a b) : CountInv b := by
  have hn := h.num
  cases hm with
  | reset => exact ⟨h.count, by show a.sndUna ≤ a.sndUna ∧ a.sndUna ≤ a.sndMax; omega⟩
  | abort =>
    have hsent : Spec.sent a.abortAs.out = Spec.sent a.out ++ [⟨false, true, false, true, a.sndUna, a.rcvNxt, []⟩] := by
      rw [abortAs_eq]; simp
    refine ⟨fun q hq => ?_, by rw [abortAs_eq]; dsimp only; omega⟩
    have h1 : a.abortAs.counted q = a.counted q := by rw [abortAs_eq]; rfl
    rw [h1, h.count q (by rw [abortAs_eq] at hq; exact hq)]
    unfold transmissions
    rw [hsent]
    simp
  | @abortMove st t hst =>
    have hsent : Spec.sent ({ a.abortAs with timers := t }.moveAs st).out =
        Spec.sent a.out ++ [⟨false, true, false, true, a.sndUna, a.rcvNxt, []⟩] := by
      rw [moveAs_out, abortAs_eq]; simp
    refine ⟨fun q hq => ?_, by rw [abortAs_eq]; simp; omega⟩
    have h1 : ({ a.abortAs with timers := t }.moveAs st).counted q = a.counted q := by
      unfold counted; rw [moveAs_txTmo, abortAs_eq]
    rw [h1, h.count q (by rw [moveAs_sndUna, abortAs_eq] at hq; exact hq)]
    unfold transmissions
    rw [hsent]
    simp
  | synOut _ _ hw => exact h.sentAs _ _ _ _ _ _ hw.1
  | synAckOut _ _ hw => exact h.sentAs _ _ _ _ _ _ hw.1
  | dataOut _ hw => exact h.sentAs _ _ _ _ _ _ hw.1
  | finOut _ hw => exact h.sentAs _ _ _ _ _ _ hw.1
  | ackOut => exact h.sentAs _ _ _ _ _ _ hn.1
  | dup hq hst =>
    have hr := retransmitRequest_nxt a (by assumption)
    refine ⟨fun q hq => ?_, ?_⟩
    · rw [retransmitRequest_eq] at hq ⊢
      exact h.count q hq
    · rw [show (a.retransmitRequest _).sndUna = a.sndUna by rw [retransmitRequest_eq],
        show (a.retransmitRequest _).sndMax = a.sndMax by rw [retransmitRequest_eq]]
      omega
  | synAckIn hq hst hf hm => exact CountInv.ack (a := a.paramsAs _) (h.same rfl (fun _ => rfl) rfl rfl rfl) (by show _ ≤ a.sndMax; omega)
  | @synIn m =>
    have h1 : (a.synAs m).txTmo = a.txTmo ∧ (a.synAs m).sndUna = a.sndUna ∧ (a.synAs m).sndNxt = a.sndNxt ∧ (a.synAs m).sndMax = a.sndMax :=
      ⟨rfl, rfl, rfl, rfl⟩
    have h2 : Spec.sent ((a.synAs m).moveAs .synRcvd).out = Spec.sent a.out := by simp [synAs]
    exact h.same (by simp [h1]) (fun q => by unfold transmissions; rw [h2]) (by simp [h1]) (by simp [h1]) (by simp [h1])
  | ackIn hq hst hf hm => exact h.ack (by omega)
  | dataIn hq hst hf hm => exact h.ack (by omega)
  | finIn hq hst hf hm => exact h.ack (by omega)
  | closingAck hq hst hf hm =>
    refine ⟨fun q hq => ?_, ?_⟩
    · simp only [setTimer, moveAs_sndUna] at hq
      have := h.count q (by omega)
      simp [setTimer, transmissions, counted] at this ⊢
      exact this
    · simp [setTimer]
      omega
  | timerSet => exact h.same rfl (fun _ => rfl) rfl rfl rfl
  | store => exact h.same rfl (fun _ => rfl) rfl rfl rfl
  | pop => exact h.same rfl (fun _ => rfl) rfl rfl rfl
  | closes => exact h.same rfl (fun _ => rfl) rfl rfl rfl
  | _ => refine h.same ?_ (fun q => ?_) ?_ ?_ ?_ <;> simp [transmissions, emit, setTimer]

theorem transmissions_eq {a b : Sess} (h : Spec.sent b.out = Spec.sent a.out) (q : Nat) : transmissions q b.out = transmissions q a.out := by
  unfold transmissions; rw [h]

/-- The events that are not calls of `tcp_fsm`, but for the timers. -/
def Aside (a b : Sess) : Prop := Beside a b ∧ b.timers = a.timers ∧ Spec.sent b.out = Spec.sent a.out

theorem aside_raised (s : Sess) (e : PyErr) : Aside s (s.emit (.raised e)) := ⟨rfl, rfl, sent_raised s e⟩
theorem aside_send (s : Sess) (d : Bytes) : Aside s (s.send d) := ⟨beside_send s d, send_timers s d, sent_send s d⟩
theorem aside_acquire (s : Sess) : Aside s s.recvAcquire := ⟨beside_acquire s, acquire_timers s, sent_acquire s⟩
theorem aside_take (s : Sess) (n : Option Nat) : Aside s (s.recvTake n) := ⟨beside_take s n, take_timers s n, sent_take s n⟩
theorem aside_connect (s : Sess) : Aside s s.connectReturn := ⟨beside_connect s, connectReturn_timers s, sent_connect s⟩
theorem aside_table (s : Sess) (b : Bool) : Aside s { s with registered := b } := ⟨rfl, rfl, rfl⟩

/-- An invariant of the small steps that may use `SendInv`, and looks at the timers and at what was sent. -/
theorem send_keeps'' {iss : Nat} {A : TcpMd → Prop} {P : Sess → Prop}
    (hmicro : ∀ a b, SendInv iss a → P a → Micro (fun m => AckOk iss m ∧ A m) True a b → P b) (hside : ∀ a b, P a → Aside a b → P b)
    (hclock : ∀ s, P s → P s.clock) {s : Sess} {evs : List Ev}
    (hs : ∀ m ∈ Spec.arrivals evs, AckOk iss m ∧ A m) (h0 : SendInv iss s) (hqu : Queue (fun m => AckOk iss m ∧ A m) s) (h : P s) :
    SendInv iss (s.run evs) ∧ P (s.run evs) :=
  send_keeps hmicro (fun s e h => hside _ _ h (aside_raised s e)) (fun s d h => hside _ _ h (aside_send s d))
    (fun s h => hside _ _ h (aside_acquire s)) (fun s n h => hside _ _ h (aside_take s n)) (fun s h => hside _ _ h (aside_connect s))
    hclock (fun s b h => hside _ _ h (aside_table s b)) hs h0 hqu h

theorem CountInv.aside {a b : Sess} (h : CountInv a) (hb : Aside a b) : CountInv b :=
  h.same (by rw [hb.1]) (fun q => transmissions_eq hb.2.2 q) (by rw [hb.1]) (by rw [hb.1]) (by rw [hb.1])

theorem CountInv.clock {a : Sess} (h : CountInv a) : CountInv a.clock := h.same rfl (fun _ => rfl) rfl rfl rfl

theorem count_opened (active : Bool) (iss : Nat) (lip : IpAddress) (lport : Nat) (rip : IpAddress) (rport : Nat) :
    CountInv (opened active iss lip lport rip rport) := by
  rw [opened_eq]
  refine ⟨fun q _ => ?_, ?_⟩
  · cases active <;> rfl
  · cases active <;> exact ⟨Nat.le_refl _, Nat.le_refl _⟩

theorem count_run {iss : Nat} {s : Sess} {evs : List Ev} (hs : ∀ m ∈ Spec.arrivals evs, AckOk iss m) (h0 : SendInv iss s) (h : CountInv s) :
    CountInv (s.run evs) :=
  (send_keeps'' (A := fun _ => True) (fun a b _ h hm => count_micro h hm) (fun a b h hb => h.aside hb) (fun s h => h.clock)
    (fun m hm => ⟨hs m hm, trivial⟩) h0 ⟨fun e he => by simpa using h0.queue.each e he, h0.queue.early⟩ h).2

/-- The number `q` has been sent at most four times, and not four times if it is to be sent again. -/
structure Bound (q : Nat) (s : Sess) : Prop where
  una : q ≤ s.sndUna
  four : transmissions q s.out ≤ 4
  three : s.state ≠ .closed → s.sndUna = q → s.sndNxt = q → transmissions q s.out ≤ 3

theorem Bound.same {q : Nat} {a b : Sess} (h : Bound q a) (h1 : b.sndUna = a.sndUna) (h2 : b.sndNxt = a.sndNxt)
    (h3 : Spec.sent b.out = Spec.sent a.out) (h4 : b.state ≠ .closed → a.state ≠ .closed) : Bound q b := by
  refine ⟨by rw [h1]; exact h.una, by rw [transmissions_eq h3]; exact h.four, ?_⟩
  intro x
  rw [h1, h2, transmissions_eq h3]
  exact h.three (h4 x)

theorem Bound.sentAs {q : Nat} {a : Sess} (h : Bound q a) (hst : a.state ≠ .closed) (syn ack fin rst : Bool) (data : Bytes)
    (hw : a.sndUna ≤ a.sndNxt) (hl : data ≠ [] ∨ syn = true ∨ fin = true) : Bound q (a.sentAs a.sndNxt syn ack fin rst data) := by
  have h1 := h.una
  have h2 := h.four
  have hpos : 1 ≤ data.length + syn.toNat + fin.toNat := by
    rcases hl with x | x | x
    · have := List.length_pos_iff.2 x; omega
    · simp [x]; omega
    · simp [x]
  have ht : transmissions q (a.sentAs a.sndNxt syn ack fin rst data).out = transmissions q a.out + if a.sndNxt = q then 1 else 0 := by
    rw [sentAs_out, transmissions_append, transmissions_sent]
    simp only [and_iff_left hl]
  refine ⟨by simpa using h1, ?_, fun _ x y => ?_⟩
  · rw [ht]
    split
    · rename_i hn
      have := h.three hst (by omega) hn
      omega
    · omega
  · simp at x y
    omega

theorem Bound.ack {q : Nat} {a : Sess} {m : TcpMd} (h : Bound q a) (hn : a.sndUna ≤ a.sndNxt) : Bound q (a.ackUpdate m) := by
  have h1 := h.una
  refine ⟨by rw [ackUpdate_sndUna]; omega, by rw [ackUpdate_out]; exact h.four, ?_⟩
  rw [ackUpdate_state, ackUpdate_sndUna, ackUpdate_out]
  intro x y z
  refine h.three x (by omega) ?_
  rw [ackUpdate_eq] at z
  dsimp only at z
  rw [if_neg (by omega)] at z
  exact z

theorem bound_micro {iss q : Nat} {a b : Sess} (hS : SendInv iss a) (hC : CountInv a) (h : Bound q a)
    (hQ : ∀ m, Q m → ¬ (isAck m = true ∧ m.data = [] ∧ m.ackn = q)) (hm : Micro Q G a b) : Bound q b := by
  have hn := hC.num
  cases hm with
  | @reset c hst hc h3 he =>
    refine ⟨h.una, h.four, fun x y z => ?_⟩
    have y : a.sndUna = q := y
    have h1 := hC.count q (by omega)
    have h2 := h.four
    unfold counted at h1
    rw [y] at hc
    rw [hc] at h1
    show transmissions q a.out ≤ 3
    dsimp only at h1
    omega
  | abort =>
    have hsent : Spec.sent a.abortAs.out = Spec.sent a.out ++ [⟨false, true, false, true, a.sndUna, a.rcvNxt, []⟩] := by
      rw [abortAs_eq]; simp
    have ht : transmissions q a.abortAs.out = transmissions q a.out := by unfold transmissions; rw [hsent]; simp
    refine ⟨by rw [abortAs_eq]; exact h.una, by rw [ht]; exact h.four, fun x => absurd (abortAs_state a) x⟩
  | abortMove hst hc hcl htx => exact (no_abortMove hS (by rcases hst with x | x <;> simp [x.1]) hc htx).elim
  | synOut hst _ hw => exact h.sentAs (by simp [hst]) _ _ _ _ _ hw.1 (by simp)
  | synAckOut hst _ hw => exact h.sentAs (by simp [hst]) _ _ _ _ _ hw.1 (by simp)
  | dataOut hst hw hr hl =>
    obtain ⟨n, n0, _, _, _, _, _, hp, hlen⟩ := (hS.openPhase hst).send hw hl
    refine h.sentAs (by rcases hst with x | x <;> simp [x]) _ _ _ _ _ hw.1 (.inl ?_)
    rw [hp]
    intro x
    rw [x] at hlen
    exact n0 hlen.symm
  | finOut hst hw => exact h.sentAs (by rcases hst with x | x <;> simp [x]) _ _ _ _ _ hw.1 (by simp)
  | ackOut hst =>
    have ht : transmissions q a.ackAs.out = transmissions q a.out := by
      show transmissions q (a.sentAs _ _ _ _ _ _).out = _
      rw [sentAs_out, transmissions_append, transmissions_sent]
      simp
    refine ⟨by simpa [ackAs] using h.una, by rw [ht]; exact h.four, ?_⟩
    rw [ht]
    simpa [ackAs] using h.three
  | @dup m hq hst hf hm =>
    have hr := retransmitRequest_nxt a m
    by_cases hx : a.sndUna = q
    · exact absurd ⟨hf, hm.2.2, hm.2.1.trans hx⟩ (hQ m hq)
    · rw [retransmitRequest_eq]
      exact ⟨h.una, h.four, fun _ y => absurd y hx⟩
  | synAckIn => exact Bound.ack (a := a.paramsAs _) (h.same rfl rfl rfl (fun x => x)) hn.1
  | @synIn m hq hst =>
    exact h.same (by rw [moveAs_sndUna]; rfl) (by rw [moveAs_sndNxt]; rfl) (by simp [synAs]) (by simp [hst])
  | ackIn => exact h.ack hn.1
  | dataIn => exact h.ack hn.1
  | finIn => exact h.ack hn.1
  | closingAck hq hst hf hm =>
    have h1 := h.una
    refine ⟨by simp [setTimer]; omega, ?_, fun _ x y => ?_⟩
    · rw [transmissions_eq (a := a) (by simp [setTimer])]; exact h.four
    · simp [setTimer] at x y
      rw [transmissions_eq (a := a) (by simp [setTimer])]
      exact h.three (by simp [hst]) (by omega) y
  | timerSet => exact h.same rfl rfl rfl (fun x => x)
  | store => exact h.same rfl rfl rfl (fun x => x)
  | pop => exact h.same rfl rfl rfl (fun x => x)
  | closes => exact h.same rfl rfl rfl (fun x => x)
  | refused => exact h.same (by simp) (by simp) (by simp) (by simp)
  | shut => exact h.same (by simp) (by simp) (by simp) (by simp)
  | finClose hst => exact h.same (by simp) (by simp) (by simp) (by simp [hst])
  | lastClose hst => exact h.same (by simp) (by simp) (by simp) (by simp [hst])
  | establish hq hst => exact h.same (by simp) (by simp) (by simp) (by simp [hst])
  | establish' hq hst => exact h.same (by simp [emit]) (by simp [emit]) (by simp [emit]) (by simp [hst])
  | finEarly hst => exact h.same (by simp) (by simp) (by simp) (by simp [hst])
  | toCloseWait hq hst => exact h.same (by simp) (by simp) (by simp) (by simp [hst])
  | toFinWait2 hq hst => exact h.same (by simp) (by simp) (by simp) (by rcases hst with x | x <;> simp [x])
  | toTimeWait hq hst => exact h.same (by simp [setTimer]) (by simp [setTimer]) (by simp [setTimer]) (by rcases hst with x | x <;> simp [x])
  | toClosing hq hst => exact h.same (by simp) (by simp) (by simp) (by rcases hst with x | x <;> simp [x])

/-- The number `q` has been sent `n` times, and is not going to be sent again before `k` milliseconds have passed. -/
structure Hold (q n : Nat) (k : Int) (s : Sess) : Prop where
  count : transmissions q s.out = n
  una : q ≤ s.sndUna
  timer : s.state ≠ .closed → s.sndUna = q → q < s.sndNxt ∧ ∃ v, s.timers.get? (.retransmit q) = some v ∧ k ≤ v

variable {q n : Nat} {k : Int}

theorem Hold.same {a b : Sess} (h : Hold q n k a) (h1 : b.sndUna = a.sndUna) (h2 : b.sndNxt = a.sndNxt)
    (h3 : Spec.sent b.out = Spec.sent a.out) (h4 : b.state ≠ .closed → a.state ≠ .closed)
    (h5 : b.timers.get? (.retransmit q) = a.timers.get? (.retransmit q)) : Hold q n k b := by
  refine ⟨by rw [transmissions_eq h3]; exact h.count, by rw [h1]; exact h.una, ?_⟩
  intro x
  rw [h1, h2, h5]
  exact h.timer (h4 x)

theorem get?_ackTimers (a : Sess) (q : Nat) : a.ackTimers.get? (.retransmit q) = a.timers.get? (.retransmit q) := by
  unfold ackTimers
  split
  · rw [Dict.get?_set, if_neg (by simp)]
  · rfl

theorem Hold.sentAs {a : Sess} (h : Hold q n k a) (hst : a.state ≠ .closed) (syn ack fin rst : Bool) (data : Bytes)
    (hw : a.sndUna ≤ a.sndNxt) : Hold q n k (a.sentAs a.sndNxt syn ack fin rst data) := by
  have h1 := h.una
  have hne : a.sndNxt ≠ q := by
    intro x
    have := (h.timer hst (by omega)).1
    omega
  refine ⟨?_, by simpa using h1, fun x y => ?_⟩
  · rw [sentAs_out, transmissions_append, transmissions_sent, if_neg (fun x => hne x.1)]
    exact h.count
  · rw [sentAs_sndUna] at y
    obtain ⟨t1, v, t2, t3⟩ := h.timer hst y
    refine ⟨by simp; omega, v, ?_, t3⟩
    rw [sentAs_timers]
    split
    · rw [Dict.get?_set, if_neg (by simp; omega), get?_ackTimers, t2]
    · rw [get?_ackTimers, t2]

theorem Hold.ack {a : Sess} {m : TcpMd} (h : Hold q n k a) (hn : a.sndUna ≤ a.sndNxt) : Hold q n k (a.ackUpdate m) := by
  have h1 := h.una
  refine ⟨by rw [ackUpdate_out]; exact h.count, by rw [ackUpdate_sndUna]; omega, ?_⟩
  rw [ackUpdate_state, ackUpdate_sndUna]
  intro x y
  obtain ⟨t1, v, t2, t3⟩ := h.timer x (by omega)
  rw [ackUpdate_eq]
  dsimp only
  rw [if_neg (by omega)]
  exact ⟨t1, v, t2, t3⟩

theorem expired_false {a : Sess} {n : TimerName} {v : Int} (h : a.timers.get? n = some v) (hv : v ≠ 0) : a.expired n = false := by
  unfold expired
  rw [h]
  simpa using hv

theorem hold_micro {iss : Nat} {a b : Sess} (hk : 0 < k) (hS : SendInv iss a) (hC : CountInv a) (h : Hold q n k a)
    (hQ : ∀ m, Q m → ¬ (isAck m = true ∧ m.data = [] ∧ m.ackn = q)) (hm : Micro Q G a b) : Hold q n k b := by
  have hn := hC.num
  cases hm with
  | @reset c hst hc h3 he =>
    refine ⟨h.count, h.una, fun x y => ?_⟩
    have y : a.sndUna = q := y
    obtain ⟨t1, v, t2, t3⟩ := h.timer x y
    rw [y, expired_false t2 (by omega)] at he
    cases he
  | abort =>
    have hsent : Spec.sent a.abortAs.out = Spec.sent a.out ++ [⟨false, true, false, true, a.sndUna, a.rcvNxt, []⟩] := by
      rw [abortAs_eq]; simp
    have ht : transmissions q a.abortAs.out = transmissions q a.out := by unfold transmissions; rw [hsent]; simp
    refine ⟨by rw [ht]; exact h.count, by rw [abortAs_eq]; exact h.una, fun x => absurd (abortAs_state a) x⟩
  | abortMove hst hc hcl htx => exact (no_abortMove hS (by rcases hst with x | x <;> simp [x.1]) hc htx).elim
  | synOut hst _ hw => exact h.sentAs (by simp [hst]) _ _ _ _ _ hw.1
  | synAckOut hst _ hw => exact h.sentAs (by simp [hst]) _ _ _ _ _ hw.1
  | dataOut hst hw hr hl => exact h.sentAs (by rcases hst with x | x <;> simp [x]) _ _ _ _ _ hw.1
  | finOut hst hw => exact h.sentAs (by rcases hst with x | x <;> simp [x]) _ _ _ _ _ hw.1
  | ackOut hst => exact h.sentAs (by rcases hst with x | x | x | x | x <;> simp [x]) _ _ _ _ _ hn.1
  | @dup m hq hst hf hm =>
    have hx : a.sndUna ≠ q := fun hx => hQ m hq ⟨hf, hm.2.2, hm.2.1.trans hx⟩
    rw [retransmitRequest_eq]
    exact ⟨h.count, h.una, fun _ y => absurd y hx⟩
  | synAckIn => exact Hold.ack (a := a.paramsAs _) (h.same rfl rfl rfl (fun x => x) rfl) hn.1
  | @synIn m hq hst =>
    exact h.same (by rw [moveAs_sndUna]; rfl) (by rw [moveAs_sndNxt]; rfl) (by simp [synAs]) (by simp [hst]) (by simp [synAs, paramsAs])
  | ackIn => exact h.ack hn.1
  | dataIn => exact h.ack hn.1
  | finIn => exact h.ack hn.1
  | closingAck hq hst hf hm =>
    have h1 := h.una
    refine ⟨?_, by simp [setTimer]; omega, fun _ x => ?_⟩
    · rw [transmissions_eq (a := a) (by simp [setTimer])]; exact h.count
    · simp [setTimer] at x ⊢
      rw [Dict.get?_set, if_neg (by simp)]
      exact h.timer (by simp [hst]) (by omega)
  | timerSet _ _ hv =>
    refine h.same rfl rfl rfl (fun x => x) ?_
    rw [hv.1]
    unfold setTimer
    dsimp only
    rw [Dict.get?_set, if_neg (by simp)]
  | store => exact h.same rfl rfl rfl (fun x => x) rfl
  | pop => exact h.same rfl rfl rfl (fun x => x) rfl
  | closes => exact h.same rfl rfl rfl (fun x => x) rfl
  | refused => exact h.same (by simp) (by simp) (by simp) (by simp) (by simp)
  | shut => exact h.same (by simp) (by simp) (by simp) (by simp) (by simp)
  | finClose hst => exact h.same (by simp) (by simp) (by simp) (by simp [hst]) (by simp)
  | lastClose hst => exact h.same (by simp) (by simp) (by simp) (by simp [hst]) (by simp)
  | establish hq hst => exact h.same (by simp) (by simp) (by simp) (by simp [hst]) (by simp)
  | establish' hq hst => exact h.same (by simp [emit]) (by simp [emit]) (by simp [emit]) (by simp [hst]) (by simp [emit])
  | finEarly hst => exact h.same (by simp) (by simp) (by simp) (by simp [hst]) (by simp)
  | toCloseWait hq hst => exact h.same (by simp) (by simp) (by simp) (by simp [hst]) (by simp)
  | toFinWait2 hq hst => exact h.same (by simp) (by simp) (by simp) (by rcases hst with x | x <;> simp [x]) (by simp)
  | toTimeWait hq hst =>
    refine h.same (by simp [setTimer]) (by simp [setTimer]) (by simp [setTimer]) (by rcases hst with x | x <;> simp [x]) ?_
    unfold setTimer
    dsimp only
    rw [Dict.get?_set, if_neg (by simp), moveAs_timers]
  | toClosing hq hst => exact h.same (by simp) (by simp) (by simp) (by rcases hst with x | x <;> simp [x]) (by simp)

theorem Hold.aside {a b : Sess} (h : Hold q n k a) (hb : Aside a b) : Hold q n k b :=
  h.same (by rw [hb.1]) (by rw [hb.1]) hb.2.2 (fun x => by rw [hb.1] at x; exact x) (by rw [hb.2.1])

theorem get?_clock_some {a : Sess} {t : TimerName} {v : Int} (h : a.timers.get? t = some v) (hv : v ≠ 1) :
    a.clock.timers.get? t = some (v - 1) := by
  unfold clock
  dsimp only
  generalize a.timers = d at h
  induction d with
  | nil => cases h
  | cons e d ih =>
    rw [Dict.get?_cons] at h
    rw [List.map_cons, List.filter_cons]
    by_cases he : e.1 = t
    · rw [if_pos he] at h
      obtain rfl : e.2 = v := by simpa using h
      rw [if_pos (by simp; omega), Dict.get?_cons, if_pos he]
    · rw [if_neg he] at h
      split
      · rw [Dict.get?_cons, if_neg he]; exact ih h
      · exact ih h

theorem Hold.clock {a : Sess} (h : Hold q n k a) (hk : 1 < k) : Hold q n (k - 1) a.clock := by
  refine ⟨h.count, h.una, fun x y => ?_⟩
  obtain ⟨t1, v, t2, t3⟩ := h.timer x y
  exact ⟨t1, v - 1, get?_clock_some t2 (by omega), by omega⟩

theorem pos_of {data : Bytes} {syn fin : Bool} (h : data ≠ [] ∨ syn = true ∨ fin = true) : 1 ≤ data.length + syn.toNat + fin.toNat := by
  rcases h with x | x | x
  · have := List.length_pos_iff.2 x; omega
  · simp [x]; omega
  · simp [x]

theorem sends_micro {iss : Nat} {a b : Sess} (hS : SendInv iss a) (hC : CountInv a) (hm : Micro Q G a b) : a.sndUna ≤ b.sndUna ∧
    ((∀ q, transmissions q b.out = transmissions q a.out) ∨
    ∃ (syn ack fin : Bool) (data : Bytes), b = a.sentAs a.sndNxt syn ack fin false data ∧ (data ≠ [] ∨ syn = true ∨ fin = true)) := by
  have hn := hC.num
  cases hm with
  | abort =>
    have hsent : Spec.sent a.abortAs.out = Spec.sent a.out ++ [⟨false, true, false, true, a.sndUna, a.rcvNxt, []⟩] := by
      rw [abortAs_eq]; simp
    exact ⟨by rw [abortAs_eq]; exact Nat.le_refl _, .inl fun q => by unfold transmissions; rw [hsent]; simp⟩
  | abortMove hst hc hcl htx => exact (no_abortMove hS (by rcases hst with x | x <;> simp [x.1]) hc htx).elim
  | synOut => exact ⟨by simp, .inr ⟨_, _, _, _, rfl, by simp⟩⟩
  | synAckOut => exact ⟨by simp, .inr ⟨_, _, _, _, rfl, by simp⟩⟩
  | dataOut hst hw hr hl =>
    refine ⟨by simp, .inr ⟨_, _, _, _, rfl, .inl ?_⟩⟩
    obtain ⟨n, n0, _, _, _, _, _, hp, hlen⟩ := (hS.openPhase hst).send hw hl
    rw [hp]
    intro x
    rw [x] at hlen
    exact n0 hlen.symm
  | finOut => exact ⟨by simp, .inr ⟨_, _, _, _, rfl, by simp⟩⟩
  | ackOut =>
    refine ⟨by simp [ackAs], .inl fun q => ?_⟩
    show transmissions q (a.sentAs _ _ _ _ _ _).out = _
    rw [sentAs_out, transmissions_append, transmissions_sent]
    simp
  | dup => rw [retransmitRequest_eq]; exact ⟨Nat.le_refl _, .inl fun _ => rfl⟩
  | synAckIn => exact ⟨by rw [ackUpdate_sndUna]; exact Nat.le_max_left _ _, .inl fun q => by rw [ackUpdate_out]; rfl⟩
  | ackIn => exact ⟨by rw [ackUpdate_sndUna]; exact Nat.le_max_left _ _, .inl fun q => by rw [ackUpdate_out]⟩
  | dataIn => exact ⟨by rw [ackUpdate_sndUna]; exact Nat.le_max_left _ _, .inl fun q => by rw [ackUpdate_out]⟩
  | finIn => exact ⟨by rw [ackUpdate_sndUna]; exact Nat.le_max_left _ _, .inl fun q => by rw [ackUpdate_out]⟩
  | synIn => exact ⟨by simp [synAs, paramsAs], .inl fun q => transmissions_eq (by simp [synAs]) q⟩
  | closingAck hq hst hf hm => exact ⟨by simp [setTimer]; omega, .inl fun q => transmissions_eq (by simp [setTimer]) q⟩
  | reset => exact ⟨Nat.le_refl _, .inl fun _ => rfl⟩
  | timerSet => exact ⟨Nat.le_refl _, .inl fun _ => rfl⟩
  | store => exact ⟨Nat.le_refl _, .inl fun _ => rfl⟩
  | pop => exact ⟨Nat.le_refl _, .inl fun _ => rfl⟩
  | closes => exact ⟨Nat.le_refl _, .inl fun _ => rfl⟩
  | _ => exact ⟨by simp [emit, setTimer], .inl fun q => transmissions_eq (by simp [emit, setTimer]) q⟩

/-- `q` has just been sent. -/
def Fresh (q n : Nat) (s : Sess) : Prop := q ≤ s.sndUna ∧ (transmissions q s.out = n ∨ Hold q (n + 1) (1000 * 2 ^ n) s)

/-! ### A peer that is silent -/

/-- How long the retransmission timer of `q` is still running. -/
def left (s : Sess) (q : Nat) : Int := (s.timers.get? (.retransmit q)).getD 0

theorem expired_left (s : Sess) (q : Nat) : s.expired (.retransmit q) = true ↔ s.left q = 0 := by
  unfold expired left
  cases s.timers.get? (.retransmit q) <;> simp

/-- The retransmission timers run at most as long as they were set for. -/
structure TimerInv (s : Sess) : Prop where
  nodup : (Dict.keys s.timers).Nodup
  run : ∀ q c v, s.txTmo.get? q = some c → s.timers.get? (.retransmit q) = some v → 0 < v ∧ v ≤ 1000 * 2 ^ c

theorem get?_sentAs (a : Sess) (seq : Nat) (syn ack fin rst : Bool) (data : Bytes) (q : Nat) :
    (a.sentAs seq syn ack fin rst data).timers.get? (.retransmit q) =
      if seq = q ∧ (data ≠ [] ∨ syn = true ∨ fin = true) then some (1000 * 2 ^ (a.counted q)) else a.timers.get? (.retransmit q) := by
  unfold counted
  rw [sentAs_timers]
  by_cases h : data ≠ [] ∨ syn = true ∨ fin = true
  · rw [if_pos h, Dict.get?_set]
    by_cases hq : seq = q
    · subst hq
      rw [if_pos rfl, if_pos ⟨rfl, h⟩]
      rfl
    · rw [if_neg (by simpa using fun x => hq x.symm), if_neg (fun x => hq x.1), get?_ackTimers]
  · rw [if_neg h, if_neg (fun x => h x.2), get?_ackTimers]

theorem tmo_sentAs (a : Sess) (seq : Nat) (syn ack fin rst : Bool) (data : Bytes) (q : Nat) :
    (a.sentAs seq syn ack fin rst data).txTmo.get? q =
      if seq = q ∧ (data ≠ [] ∨ syn = true ∨ fin = true) then some (a.counted q) else a.txTmo.get? q := by
  rw [sentAs_txTmo]
  unfold tmoAfter counted
  by_cases h : data ≠ [] ∨ syn = true ∨ fin = true
  · rw [if_pos h, Dict.get?_set]
    by_cases hq : seq = q
    · subst hq
      rw [if_pos rfl, if_pos ⟨rfl, h⟩]; rfl
    · rw [if_neg (fun x => hq x.symm), if_neg (fun x => hq x.1)]
  · rw [if_neg h, if_neg (fun x => h x.2)]

theorem nodup_ackTimers {a : Sess} (h : (Dict.keys a.timers).Nodup) : (Dict.keys a.ackTimers).Nodup := by
  unfold ackTimers
  split
  · exact Dict.nodup_set _ _ h
  · exact h

theorem TimerInv.sentAs {a : Sess} (h : TimerInv a) (seq : Nat) (syn ack fin rst : Bool) (data : Bytes) :
    TimerInv (a.sentAs seq syn ack fin rst data) := by
  refine ⟨?_, fun q c v hc hv => ?_⟩
  · rw [sentAs_timers]
    split
    · exact Dict.nodup_set _ _ (nodup_ackTimers h.nodup)
    · exact nodup_ackTimers h.nodup
  · rw [tmo_sentAs] at hc
    rw [get?_sentAs] at hv
    split at hc
    · rename_i x
      rw [if_pos x] at hv
      obtain rfl : a.counted q = c := by simpa using hc
      obtain rfl : 1000 * 2 ^ a.counted q = v := by simpa using hv
      have : (0 : Int) < 2 ^ a.counted q := Int.pow_pos (by decide)
      omega
    · rename_i x
      rw [if_neg x] at hv
      exact h.run q c v hc hv

theorem TimerInv.same {a b : Sess} (h : TimerInv a) (h1 : b.txTmo = a.txTmo)
    (h2 : b.timers = a.timers ∨ ∃ t v, b.timers = a.timers.set t v ∧ ∀ q, t ≠ .retransmit q) : TimerInv b := by
  rcases h2 with h2 | ⟨t, v, h2, h3⟩
  · exact ⟨h2 ▸ h.nodup, fun q c v hc hv => h.run q c v (h1 ▸ hc) (h2 ▸ hv)⟩
  · refine ⟨h2 ▸ Dict.nodup_set _ _ h.nodup, fun q c w hc hv => ?_⟩
    rw [h2, Dict.get?_set, if_neg (fun x => h3 q x.symm)] at hv
    exact h.run q c w (h1 ▸ hc) hv

theorem get?_of_filter {V : Type} (d : Dict Nat V) (n k : Nat) {v : V} (h : Dict.get? (d.filter (fun e => ¬ e.1 < n)) k = some v) :
    d.get? k = some v := by
  by_cases hk : k < n
  · obtain ⟨e, he, rfl⟩ := get?_key h
    have := (List.mem_filter.1 he).2
    simp at this
    omega
  · rwa [get?_filter _ _ _ hk] at h

theorem TimerInv.ack {a : Sess} {m : TcpMd} (h : TimerInv a) : TimerInv (a.ackUpdate m) := by
  refine ⟨by rw [ackUpdate_eq]; exact h.nodup, fun q c v hc hv => ?_⟩
  rw [ackUpdate_eq] at hc hv
  exact h.run q c v (get?_of_filter _ _ _ hc) hv

theorem abortAs_timers (a : Sess) : a.abortAs.timers = a.ackTimers := by
  rw [abortAs_eq]
  dsimp only
  rw [sentAs_timers, if_neg (by simp)]

theorem ackTimers_forms (a : Sess) : a.ackTimers = a.timers ∨ a.ackTimers = a.timers.set .delayedAck 100 := by
  unfold ackTimers
  split
  · exact .inr rfl
  · exact .inl rfl

theorem timer_micro {a b : Sess} (h : TimerInv a) (hm : Micro Q G a b) : TimerInv b := by
  cases hm with
  | abort =>
    refine h.same (by rw [abortAs_eq]) ?_
    rw [abortAs_timers]
    rcases ackTimers_forms a with x | x
    · exact .inl x
    · exact .inr ⟨_, _, x, by simp⟩
  | abortMove hst hc hcl htx ht =>
    have h1 : TimerInv a.abortAs := by
      refine h.same (by rw [abortAs_eq]) ?_
      rw [abortAs_timers]
      rcases ackTimers_forms a with x | x
      · exact .inl x
      · exact .inr ⟨_, _, x, by simp⟩
    refine h1.same (by rw [moveAs_txTmo]) ?_
    rw [moveAs_timers]
    rcases ht with x | x
    · exact .inl x
    · exact .inr ⟨_, _, x, by simp⟩
  | synOut => exact h.sentAs _ _ _ _ _ _
  | synAckOut => exact h.sentAs _ _ _ _ _ _
  | dataOut => exact h.sentAs _ _ _ _ _ _
  | finOut => exact h.sentAs _ _ _ _ _ _
  | ackOut => exact h.sentAs _ _ _ _ _ _
  | dup => rw [retransmitRequest_eq]; exact h.same rfl (.inl rfl)
  | synAckIn => exact TimerInv.ack (a := a.paramsAs _) (h.same rfl (.inl rfl))
  | ackIn => exact h.ack
  | dataIn => exact h.ack
  | finIn => exact h.ack
  | synIn => exact h.same (by simp [synAs, paramsAs]) (.inl (by simp [synAs, paramsAs]))
  | closingAck => exact h.same (by simp [setTimer]) (.inr ⟨.timeWait, 30000, by simp [setTimer], by simp⟩)
  | timerSet _ _ hv => exact h.same rfl (.inr ⟨_, _, rfl, by simp [hv.1]⟩)
  | toTimeWait => exact h.same (by simp [setTimer]) (.inr ⟨.timeWait, 30000, by simp [setTimer], by simp⟩)
  | reset => exact h.same rfl (.inl rfl)
  | store => exact h.same rfl (.inl rfl)
  | pop => exact h.same rfl (.inl rfl)
  | closes => exact h.same rfl (.inl rfl)
  | _ => exact h.same (by simp [emit]) (.inl (by simp [emit]))

theorem TimerInv.aside {a b : Sess} (h : TimerInv a) (hb : Aside a b) : TimerInv b :=
  h.same (by rw [hb.1]) (.inl hb.2.1)

theorem nodup_clock {a : Sess} (h : (Dict.keys a.timers).Nodup) : (Dict.keys a.clock.timers).Nodup := by
  refine Dict.nodup_filter _ ?_
  unfold Dict.keys at h ⊢
  rw [List.map_map]
  exact h

theorem clock_left {a : Sess} (h : (Dict.keys a.timers).Nodup) (q : Nat)
    (hq : ∀ v, a.timers.get? (.retransmit q) = some v → 0 < v) : a.clock.left q = max 0 (a.left q - 1) := by
  cases hv : a.timers.get? (.retransmit q) with
  | none =>
    have h1 : a.clock.timers.get? (.retransmit q) = none := by
      cases hw : a.clock.timers.get? (.retransmit q) with
      | none => rfl
      | some w =>
        have := (mem_clock (Dict.get?_mem hw)).1
        rw [(Dict.mem_iff h _ _).1 this] at hv
        cases hv
    unfold left
    rw [h1, hv]
    rfl
  | some v =>
    by_cases h1 : v = 1
    · have h2 : a.clock.timers.get? (.retransmit q) = none := by
        cases hw : a.clock.timers.get? (.retransmit q) with
        | none => rfl
        | some w =>
          have := mem_clock (Dict.get?_mem hw)
          have h3 := (Dict.mem_iff h _ _).1 this.1
          dsimp only at h3 this
          rw [hv] at h3
          have : v = w + 1 := by simpa using h3
          omega
      unfold left
      rw [h2, hv, h1]
      rfl
    · have := hq v hv
      unfold left
      rw [get?_clock_some hv h1, hv]
      simp
      omega

theorem TimerInv.clock {a : Sess} (h : TimerInv a) : TimerInv a.clock := by
  refine ⟨nodup_clock h.nodup, fun q c v hc hv => ?_⟩
  have h1 := mem_clock (Dict.get?_mem hv)
  have h2 := h.run q c _ hc ((Dict.mem_iff h.nodup _ _).1 h1.1)
  dsimp only at h2 h1
  omega

theorem timer_opened (active : Bool) (iss : Nat) (lip : IpAddress) (lport : Nat) (rip : IpAddress) (rport : Nat) :
    TimerInv (opened active iss lip lport rip rport) := by
  rw [opened_eq]
  refine ⟨?_, fun q c v hc => ?_⟩
  · cases active <;> exact List.nodup_nil
  · cases active <;> cases hc

theorem timer_run {iss : Nat} {s : Sess} {evs : List Ev} (hs : ∀ m ∈ Spec.arrivals evs, AckOk iss m) (h0 : SendInv iss s) (h : TimerInv s) :
    TimerInv (s.run evs) :=
  (send_keeps'' (A := fun _ => True) (fun a b _ h hm => timer_micro h hm) (fun a b h hb => h.aside hb) (fun s h => h.clock)
    (fun m hm => ⟨hs m hm, trivial⟩) h0 ⟨fun e he => by simpa using h0.queue.each e he, h0.queue.early⟩ h).2

/-- Waiting for the acknowledgement of `q`, sent `c + 1` times. -/
structure Waits (iss q c : Nat) (s : Sess) : Prop where
  send : SendInv iss s
  timer : TimerInv s
  state : Retransmits s.state
  una : s.sndUna = q
  nxt : q < s.sndNxt
  tmo : s.txTmo.get? q = some c
  mss : s.state = .established ∨ s.state = .closeWait → s.sndMss ≠ 0
  fin : s.state = .finWait1 ∨ s.state = .lastAck → s.sndFin ≠ q
  num : q ≤ 0xFFFFFFFF ∧ s.rcvNxt ≤ 0xFFFFFFFF

/-- What is kept while nothing happens to `q`. -/
structure Kept (q : Nat) (a b : Sess) : Prop where
  state : b.state = a.state
  una : b.sndUna = a.sndUna
  rcv : b.rcvNxt = a.rcvNxt
  mss : b.sndMss = a.sndMss
  tx : b.tx = [] → a.tx = []
  nxt : q < b.sndNxt
  tmo : b.txTmo.get? q = a.txTmo.get? q
  timer : b.timers.get? (.retransmit q) = a.timers.get? (.retransmit q)
  fin : b.sndFin = a.sndFin ∨ q < b.sndFin

theorem Kept.refl {a : Sess} (h : q < a.sndNxt) : Kept q a a := ⟨rfl, rfl, rfl, rfl, id, h, rfl, rfl, .inl rfl⟩

theorem Kept.trans {a b c : Sess} (h : Kept q a b) (h' : Kept q b c) : Kept q a c :=
  ⟨h'.state.trans h.state, h'.una.trans h.una, h'.rcv.trans h.rcv, h'.mss.trans h.mss, fun x => h.tx (h'.tx x), h'.nxt, h'.tmo.trans h.tmo,
    h'.timer.trans h.timer, by have := h.fin; have := h'.fin; omega⟩

theorem Kept.sentAs {a : Sess} (h : q < a.sndNxt) (syn ack fin rst : Bool) (data : Bytes) :
    Kept q a (a.sentAs a.sndNxt syn ack fin rst data) := by
  refine ⟨by simp, by simp, by simp, by simp, by simp, by simp; omega, ?_, ?_, ?_⟩
  · rw [tmo_sentAs, if_neg (by omega)]
  · rw [get?_sentAs, if_neg (by omega)]
  · rw [sentAs_sndFin]
    split
    · right; omega
    · exact .inl rfl

theorem Kept.delayed {a : Sess} (h : q < a.sndNxt) (v : Int) : Kept q a (a.setTimer .delayedAck v) :=
  ⟨rfl, rfl, rfl, rfl, id, h, rfl, by unfold setTimer; dsimp only; rw [Dict.get?_set, if_neg (by simp)], .inl rfl⟩

theorem Kept.raised {a : Sess} (h : q < a.sndNxt) (o : Out) : Kept q a (a.emit o) := ⟨rfl, rfl, rfl, rfl, id, h, rfl, rfl, .inl rfl⟩

theorem transmitData_sends (s : Sess) : s.transmitData.s = s ∨
    ∃ (syn ack fin : Bool) (data : Bytes), s.transmitData = ok (s.sentAs s.sndNxt syn ack fin false data) := by
  have key : ∀ (syn ack fin : Bool) (data : Bytes), (s.transmitPacket none syn ack fin false data).s = s ∨
      ∃ (syn' ack' fin' : Bool) (data' : Bytes),
        s.transmitPacket none syn ack fin false data = ok (s.sentAs s.sndNxt syn' ack' fin' false data') := by
    intro syn ack fin data
    rcases transmit_cases s none syn ack fin false data with ⟨x, _⟩ | x
    · exact .inr ⟨_, _, _, _, x⟩
    · exact .inl (by rw [x])
  unfold transmitData
  split
  · exact .inl rfl
  · split
    · exact key _ _ _ _
    · split
      · exact key _ _ _ _
      · dsimp only
        split
        · split
          · exact key _ _ _ _
          · exact .inl rfl
        · split
          · exact key _ _ _ _
          · exact .inl rfl

theorem Kept.transmitData {a : Sess} (h : q < a.sndNxt) : Kept q a a.transmitData.s := by
  rcases transmitData_sends a with x | ⟨syn, ack, fin, data, x⟩
  · rw [x]; exact .refl h
  · rw [x]; exact .sentAs h _ _ _ _ _

theorem Kept.delayedAck {a : Sess} (h : q < a.sndNxt) : Kept q a a.delayedAck.s := by
  unfold Sess.delayedAck
  split
  · split
    · rcases transmitAck_cases a with ⟨x, _⟩ | x
      · rw [x, next_ok]
        have h1 : Kept q a a.ackAs := .sentAs h _ _ _ _ _
        exact h1.trans (.delayed h1.nxt _)
      · rw [x]
        exact .refl h
    · exact .delayed h _
  · exact .refl h

theorem next_s (r : Res) (k : Sess → Res) : (r.next k).s = r.s ∨ (r.next k).s = (k r.s).s := by
  unfold Res.next
  split
  · exact .inr rfl
  · exact .inl rfl

/-- What a timer method does after the retransmissions are dealt with. -/
def rest (s : Sess) (st : FsmState) : Res :=
  if st = .established ∨ st = .closeWait then
    s.delayedAck.next fun s => if s.closes ∧ s.tx = [] then s.changeState (if st = .established then .finWait1 else .lastAck) else ok s
  else ok s

theorem next_ok' (r : Res) : r.next (fun s => ok s) = r := by
  obtain ⟨s, e⟩ := r
  cases e <;> rfl

theorem fsm_timer {s : Sess} (h : Retransmits s.state) :
    s.fsm .timer = s.retransmitTimeout.next fun s' => s'.transmitData.next fun s'' => s''.rest s.state := by
  unfold fsm fsmFuel fsmWith
  rcases h with x | x | x | x | x | x <;> rw [x]
  · simp [rest, next_ok', fsmSynSent]
  · simp [rest, next_ok', fsmSynRcvd]
  · simp [rest, fsmEstablished]
  · simp [rest, next_ok', fsmFinWait1]
  · simp [rest, fsmCloseWait]
  · simp [rest, next_ok', fsmLastAck]

theorem Kept.rest {a : Sess} {st : FsmState} (h : q < a.sndNxt) (htx : st = .established ∨ st = .closeWait → a.tx ≠ []) :
    Kept q a (a.rest st).s := by
  unfold Sess.rest
  split
  · rename_i hst
    have h1 : Kept q a a.delayedAck.s := .delayedAck h
    rcases next_s a.delayedAck (fun s => if s.closes ∧ s.tx = [] then s.changeState (if st = .established then .finWait1 else .lastAck) else ok s)
      with x | x
    · rw [x]; exact h1
    · rw [x, if_neg (fun y => htx hst (h1.tx y.2))]
      exact h1
  · exact .refl h

theorem Kept.tail {a : Sess} {st : FsmState} (h : q < a.sndNxt) (htx : st = .established ∨ st = .closeWait → a.tx ≠ []) :
    Kept q a (a.transmitData.next fun s => s.rest st).s := by
  have h1 : Kept q a a.transmitData.s := .transmitData h
  rcases next_s a.transmitData (fun s => s.rest st) with x | x
  · rw [x]; exact h1
  · rw [x]
    exact h1.trans (.rest h1.nxt (fun y z => htx y (h1.tx z)))

theorem done_s (r : Res) : r.done = r.s ∨ ∃ e, r.done = r.s.emit (.raised e) := by
  unfold Res.done
  split
  · exact .inl rfl
  · exact .inr ⟨_, rfl⟩

theorem Kept.done {a : Sess} {r : Res} (h : Kept q a r.s) : Kept q a r.done := by
  rcases done_s r with x | ⟨e, x⟩
  · rw [x]; exact h
  · rw [x]; exact h.trans (.raised h.nxt _)

theorem Waits.kept {iss c : Nat} {a b : Sess} (h : Waits iss q c a) (hS : SendInv iss b) (hT : TimerInv b) (hk : Kept q a b) : Waits iss q c b := by
  refine ⟨hS, hT, by rw [hk.state]; exact h.state, by rw [hk.una]; exact h.una, hk.nxt, by rw [hk.tmo]; exact h.tmo, ?_, ?_, ?_⟩
  · rw [hk.state, hk.mss]; exact h.mss
  · rw [hk.state]
    intro x
    have := h.fin x
    have := hk.fin
    omega
  · rw [hk.rcv]; exact h.num

theorem Waits.tx {iss c : Nat} {a : Sess} (h : Waits iss q c a) (hst : a.state = .established ∨ a.state = .closeWait) : a.tx ≠ [] := by
  intro htx
  obtain ⟨h1, h2, h3⟩ := (h.send.openPhase hst).empty htx
  have := h.una
  have := h.nxt
  omega

theorem no_arrivals {e : Ev} (he : ∀ m, e ≠ .segment m) {P : TcpMd → Prop} : ∀ m ∈ Spec.arrivals [e], P m := by
  intro m hm
  cases e <;> first | (simp [Spec.arrivals] at hm; done) | exact absurd rfl (he _)

/-- A call of the application changes nothing. -/
theorem Waits.call {iss c : Nat} {a : Sess} {e : Ev} (h : Waits iss q c a) (he : Spec.Call e) :
    Waits iss q c (a.step e) ∧ (a.step e).left q = a.left q := by
  have hna : ∀ m, e ≠ .segment m := by cases he <;> simp
  have hS := send_run (evs := [e]) (no_arrivals hna) h.send
  have hT := timer_run (evs := [e]) (no_arrivals hna) h.send h.timer
  have hk : Kept q a (a.step e) := by
    have hA : Aside a (a.step e) := by
      cases he with
      | send d => exact aside_send a d
      | recvAcquire => exact aside_acquire a
      | recvTake n => exact aside_take a n
      | connectReturn => exact aside_connect a
    have htx : (a.step e).tx = [] → a.tx = [] := by
      cases he with
      | send d =>
        show (a.send d).tx = [] → _
        unfold Sess.send
        split
        · intro x; exact (List.append_eq_nil_iff.1 x).1
        · exact id
      | recvAcquire => show a.recvAcquire.tx = [] → _; unfold recvAcquire; split <;> exact id
      | recvTake n => show (a.recvTake n).tx = [] → _; rcases recvTake_cases a n with x | ⟨k, e, x⟩ <;> rw [x] <;> simp
      | connectReturn =>
        show a.connectReturn.tx = [] → _
        unfold connectReturn
        split
        · exact id
        · dsimp only
          split
          · exact id
          · split <;> exact id
    have h1 := h.nxt
    generalize a.step e = b at hA htx
    obtain ⟨h2, h3, _⟩ := hA
    refine ⟨by rw [h2], by rw [h2], by rw [h2], by rw [h2], htx, by rw [h2]; exact h1, by rw [h2], by rw [h3], by rw [h2]; exact .inl rfl⟩
  refine ⟨h.kept hS hT hk, ?_⟩
  unfold left
  rw [hk.timer]

theorem Waits.calls {iss c : Nat} {a : Sess} {l : List Ev} (h : Waits iss q c a) (hl : ∀ e ∈ l, Spec.Call e) :
    Waits iss q c (a.run l) ∧ (a.run l).left q = a.left q := by
  induction l generalizing a with
  | nil => exact ⟨h, rfl⟩
  | cons e l ih =>
    obtain ⟨h1, h2⟩ := h.call (hl e (by simp))
    obtain ⟨h3, h4⟩ := ih h1 (fun e he => hl e (List.mem_cons_of_mem _ he))
    exact ⟨h3, h4.trans h2⟩

theorem Waits.clock {iss c : Nat} {a : Sess} (h : Waits iss q c a) :
    Waits iss q c a.clock ∧ a.clock.left q = max 0 (a.left q - 1) := by
  refine ⟨⟨send_run (evs := [.clock]) (no_arrivals (by simp)) h.send, h.timer.clock, h.state, h.una, h.nxt, h.tmo, h.mss, h.fin, h.num⟩, ?_⟩
  exact clock_left h.timer.nodup q (fun v hv => (h.timer.run q c v h.tmo hv).1)

/-- The timer method, before the timer has run out. -/
theorem Waits.early {iss c : Nat} {a : Sess} (h : Waits iss q c a) (hl : a.left q ≠ 0) :
    Waits iss q c (a.step .timer) ∧ (a.step .timer).left q = a.left q := by
  have hS := send_run (evs := [.timer]) (no_arrivals (by simp)) h.send
  have hT := timer_run (evs := [.timer]) (no_arrivals (by simp)) h.send h.timer
  have hr : a.retransmitTimeout = ok a := by
    rcases retransmitTimeout_forms a with ⟨x, _⟩ | ⟨c', _, _, he, _⟩ | ⟨_, he, _⟩
    · exact x
    · rw [h.una] at he; exact absurd ((expired_left a q).1 he) hl
    · rw [h.una] at he; exact absurd ((expired_left a q).1 he) hl
  have hk : Kept q a (a.step .timer) := by
    show Kept q a (a.fsm .timer).done
    rw [fsm_timer h.state, hr, next_ok]
    exact (Kept.tail h.nxt h.tx).done
  refine ⟨h.kept hS hT hk, ?_⟩
  unfold left
  rw [hk.timer]

theorem transmit_fits (s : Sess) (seq : Option Nat) (syn ack fin rst : Bool) (data : Bytes) (h1 : seq.getD s.sndNxt ≤ 0xFFFFFFFF)
    (h2 : s.rcvNxt ≤ 0xFFFFFFFF) : s.transmitPacket seq syn ack fin rst data = ok (s.sentAs (seq.getD s.sndNxt) syn ack fin rst data) := by
  rw [transmitPacket_eq, if_pos]
  refine ⟨h1, ?_⟩
  split
  · exact h2
  · omega

/-- After the timer has run out, the number is sent again. -/
theorem Waits.sends {iss c : Nat} {a : Sess} (h : Waits iss q c a) : ∃ (syn ack fin : Bool) (data : Bytes),
    a.resetAs.transmitData = ok (a.resetAs.sentAs q syn ack fin false data) ∧ (data ≠ [] ∨ syn = true ∨ fin = true) := by
  have hu := h.una
  have hnx : a.resetAs.sndNxt = q := hu
  have hfit : ∀ (syn ack fin : Bool) (data : Bytes),
      a.resetAs.transmitPacket none syn ack fin false data = ok (a.resetAs.sentAs q syn ack fin false data) := by
    intro syn ack fin data
    rw [transmit_fits a.resetAs none _ _ _ _ _ (by show a.sndUna ≤ _; rw [hu]; exact h.num.1) h.num.2]
    show ok (a.resetAs.sentAs a.resetAs.sndNxt _ _ _ _ _) = _
    rw [hnx]
  obtain ⟨e, he1, he2⟩ := get?_key h.tmo
  have hw : ¬ ¬ (a.resetAs.sndUna ≤ a.resetAs.sndNxt ∧ a.resetAs.sndNxt ≤ a.resetAs.sndUna + a.resetAs.sndEwn) := by
    rw [not_not]
    show a.sndUna ≤ a.sndUna ∧ a.sndUna ≤ a.sndUna + a.sndMss
    omega
  have hst : a.resetAs.state = a.state := rfl
  have hini : a.state = .synSent ∨ a.state = .synRcvd → a.resetAs.sndNxt = a.resetAs.sndIni := by
    intro x
    show a.sndUna = a.sndIni
    rw [h.send.ini]
    rcases (h.send.synPhase x).num with y | y
    · exact y.1
    · rw [y.2.2.2.2] at he1; cases he1
  have data : a.state = .established ∨ a.state = .closeWait → ∃ (syn ack fin : Bool) (data : Bytes),
      a.resetAs.transmitData = ok (a.resetAs.sentAs q syn ack fin false data) ∧ (data ≠ [] ∨ syn = true ∨ fin = true) := by
    intro x
    have hop := h.send.openPhase x
    have hr : OpenPhase iss a.resetAs := by
      refine ⟨hop.una, Nat.le_refl _, by show a.sndUna ≤ a.sndMax; have := hop.nxt; have := hop.most; omega, hop.top, ?_, hop.tx, hop.fin,
        hop.tmo, hop.ooo⟩
      have h1 := hop.una
      have h2 := hop.fin
      show (if a.sndUna = a.sndIni ∨ a.sndUna = a.sndFin then a.seqMod - 1 else a.seqMod) = a.sndUna
      rw [if_neg (by rw [h.send.ini, h2]; omega), hop.mod]
    have hx : a.resetAs.txNxt = 0 := by
      have h1 := hr.mod
      unfold txNxt
      rw [h1]
      show ((a.sndUna : Int) - (a.sndUna : Int)).toNat = 0
      omega
    have htx : (a.resetAs.tx.length : Int) - a.resetAs.txNxt ≠ 0 := by
      have := List.length_pos_iff.2 (h.tx x)
      rw [hx]
      show (a.tx.length : Int) - _ ≠ 0
      omega
    have hlen : a.resetAs.sendLen ≠ 0 := by
      have := List.length_pos_iff.2 (h.tx x)
      have := h.mss x
      unfold sendLen
      rw [hx]
      show min (min (a.sndMss : Int) ((a.sndMss : Int) - _)) ((a.tx.length : Int) - _) ≠ 0
      omega
    obtain ⟨n, n0, _, _, _, _, _, hp, hl⟩ := hr.send (Classical.not_not.1 hw) hlen
    unfold transmitData
    rw [if_neg hw, if_neg (by rcases x with x | x <;> simp [hst, x]), if_neg (by rcases x with x | x <;> simp [hst, x])]
    dsimp only
    rw [if_pos ⟨x, htx⟩]
    have := hfit false true false (pySlice a.resetAs.tx a.resetAs.txNxt (a.resetAs.txNxt + a.resetAs.sendLen))
    refine ⟨_, _, _, _, (if_pos hlen).trans this, .inl ?_⟩
    rw [hp]
    intro y
    rw [y] at hl
    exact n0 hl.symm
  have last : a.state = .finWait1 ∨ a.state = .lastAck → ∃ (syn ack fin : Bool) (data : Bytes),
      a.resetAs.transmitData = ok (a.resetAs.sentAs q syn ack fin false data) ∧ (data ≠ [] ∨ syn = true ∨ fin = true) := by
    intro x
    unfold transmitData
    rw [if_neg hw, if_neg (by rcases x with x | x <;> simp [hst, x]), if_neg (by rcases x with x | x <;> simp [hst, x])]
    dsimp only
    rw [if_neg (by rcases x with x | x <;> simp [hst, x]), if_pos ⟨x, by rw [hnx]; exact fun y => h.fin x y.symm⟩]
    exact ⟨_, _, _, _, hfit _ _ _ _, by simp⟩
  rcases h.state with x | x | x | x | x | x
  · unfold transmitData
    rw [if_neg hw, if_pos ⟨hst.trans x, hini (.inl x)⟩]
    exact ⟨_, _, _, _, hfit _ _ _ _, by simp⟩
  · unfold transmitData
    rw [if_neg hw, if_neg (by simp [hst, x]), if_pos ⟨hst.trans x, hini (.inr x)⟩]
    exact ⟨_, _, _, _, hfit _ _ _ _, by simp⟩
  · exact data (.inl x)
  · exact last (.inl x)
  · exact data (.inr x)
  · exact last (.inr x)

/-- The timer has run out, and the number has not been sent four times. -/
theorem Waits.again {iss c : Nat} {a : Sess} (h : Waits iss q c a) (hl : a.left q = 0) (hc : c ≠ 3) :
    Waits iss q (c + 1) (a.step .timer) ∧ (a.step .timer).left q = 1000 * 2 ^ (c + 1) := by
  have hS := send_run (evs := [.timer]) (no_arrivals (by simp)) h.send
  have hT := timer_run (evs := [.timer]) (no_arrivals (by simp)) h.send h.timer
  have hu := h.una
  have hr : a.retransmitTimeout = ok a.resetAs := by
    unfold retransmitTimeout
    rw [hu, h.tmo]
    dsimp only
    rw [if_pos ((expired_left a q).2 hl), if_neg hc]
    unfold resetAs
    rw [hu]
  obtain ⟨syn, ack, fin, data, hx, hd⟩ := h.sends
  have hpos : 1 ≤ data.length + syn.toNat + fin.toNat := by
    rcases hd with x | x | x
    · have := List.length_pos_iff.2 x; omega
    · simp [x]; omega
    · simp [x]
  have hcnt : a.resetAs.counted q = c + 1 := by
    unfold counted
    rw [show a.resetAs.txTmo = a.txTmo from rfl, h.tmo]
  have hk : Kept q (a.resetAs.sentAs q syn ack fin false data) (a.step .timer) := by
    show Kept q _ (a.fsm .timer).done
    rw [fsm_timer h.state, hr, next_ok, hx, next_ok]
    refine (Kept.rest (by simp; omega) (fun x => ?_)).done
    rw [sentAs_tx]
    exact h.tx x
  have h1 : (a.step .timer).state = a.state := by rw [hk.state]; simp [resetAs]
  refine ⟨⟨hS, hT, by rw [h1]; exact h.state, by rw [hk.una, sentAs_sndUna]; exact hu, hk.nxt, ?_, ?_, ?_, ?_⟩, ?_⟩
  · rw [hk.tmo, tmo_sentAs, if_pos ⟨rfl, hd⟩, hcnt]
  · rw [h1, hk.mss, sentAs_sndMss]; exact h.mss
  · rw [h1]
    intro x
    have h2 := h.fin x
    have h3 : (a.resetAs.sentAs q syn ack fin false data).sndFin ≠ q := by
      rw [sentAs_sndFin]
      split
      · omega
      · exact h2
    have := hk.fin
    omega
  · rw [hk.rcv, sentAs_rcvNxt]; exact h.num
  · unfold left
    rw [hk.timer, get?_sentAs, if_pos ⟨rfl, hd⟩, hcnt]
    rfl

theorem closed_transmitData {s : Sess} (h : s.state = .closed) : s.transmitData.s = s := by
  unfold transmitData
  simp only [h]
  split
  · rfl
  · simp [ok]

/-- The timer has run out, and the number has been sent four times. -/
theorem Waits.ends {iss : Nat} {a : Sess} (h : Waits iss q 3 a) (hl : a.left q = 0) :
    (a.step .timer).state = .closed ∧ (⟨false, true, false, true, q, a.rcvNxt, []⟩ : Seg) ∈ Spec.sent (a.step .timer).out := by
  have hu := h.una
  have hr : a.retransmitTimeout.s = a.abortAs := by
    unfold retransmitTimeout
    rw [hu, h.tmo]
    dsimp only
    rw [if_pos ((expired_left a q).2 hl), if_pos rfl, transmit_fits a (some q) _ _ _ _ _ h.num.1 h.num.2]
    simp only [Option.getD_some]
    rw [← hu, next_ok]
    rfl
  have hrest : ∀ s : Sess, s.state = .closed → s.rcvUna = s.rcvNxt → (a.state = .established ∨ a.state = .closeWait → s.tx ≠ []) →
      (s.rest a.state).s.state = .closed ∧ (s.rest a.state).s.out = s.out := by
    intro s hs hu htx
    unfold rest
    split
    · rename_i hst
      unfold delayedAck
      split
      · rw [if_neg (by omega), next_ok, next_ok, if_neg (fun x => htx hst x.2)]
        exact ⟨hs, rfl⟩
      · rw [next_ok, if_neg (fun x => htx hst x.2)]
        exact ⟨hs, rfl⟩
    · exact ⟨hs, rfl⟩
  have key : (a.fsm .timer).s.state = .closed ∧ (a.fsm .timer).s.out = a.abortAs.out := by
    rw [fsm_timer h.state]
    rcases next_s a.retransmitTimeout (fun s' => s'.transmitData.next fun s'' => s''.rest a.state) with x | x
    · rw [x, hr]; exact ⟨abortAs_state a, rfl⟩
    · rw [x, hr]
      rcases next_s a.abortAs.transmitData (fun s'' => s''.rest a.state) with y | y
      · rw [y, closed_transmitData (abortAs_state a)]; exact ⟨abortAs_state a, rfl⟩
      · rw [y, closed_transmitData (abortAs_state a)]
        exact hrest _ (abortAs_state a) (by simp) (by rw [abortAs_tx]; exact h.tx)
  have hsent : Spec.sent a.abortAs.out = Spec.sent a.out ++ [⟨false, true, false, true, a.sndUna, a.rcvNxt, []⟩] := by
    rw [abortAs_eq]; simp
  show (a.fsm .timer).done.state = .closed ∧ _ ∈ Spec.sent (a.fsm .timer).done.out
  have hmem : (⟨false, true, false, true, q, a.rcvNxt, []⟩ : Seg) ∈ Spec.sent (a.fsm .timer).s.out := by
    rw [key.2, hsent, hu]; simp
  rcases done_s (a.fsm .timer) with x | ⟨e, x⟩
  · rw [x]; exact ⟨key.1, hmem⟩
  · rw [x, sent_raised]; exact ⟨key.1, hmem⟩

theorem closed_calls {g : Seg} {l : List Ev} (hl : ∀ e ∈ l, Spec.Call e) {s : Sess} (h : s.state = .closed ∧ g ∈ Spec.sent s.out) :
    (s.run l).state = .closed ∧ g ∈ Spec.sent (s.run l).out := by
  induction l generalizing s with
  | nil => exact h
  | cons e l ih =>
    refine ih (fun e he => hl e (List.mem_cons_of_mem _ he)) (s := s.step e) ?_
    have hA : Aside s (s.step e) := by
      cases hl e (by simp) with
      | send d => exact aside_send s d
      | recvAcquire => exact aside_acquire s
      | recvTake n => exact aside_take s n
      | connectReturn => exact aside_connect s
    rw [hA.2.2]
    exact ⟨by rw [hA.1]; exact h.1, h.2⟩

theorem run_ms (s : Sess) (x y : List Ev) : s.run (.clock :: (x ++ .timer :: y)) = ((s.clock.run x).step .timer).run y := by
  unfold run
  rw [List.foldl_cons, List.foldl_append, List.foldl_cons]
  rfl

theorem run_blocks (s : Sess) (b : List Ev) (l : List (List Ev)) : s.run (b :: l).flatten = (s.run b).run l.flatten := by
  rw [List.flatten_cons]; unfold run; rw [List.foldl_append]

/-- A closed session stays closed while nothing arrives, and has sent what it has. -/
theorem closed_quiet {s : Sess} {g : Seg} (blocks : List (List Ev)) (hb : ∀ b ∈ blocks, Spec.Quiet b) (h : s.state = .closed ∧ g ∈ Spec.sent s.out) :
    (s.run blocks.flatten).state = .closed ∧ g ∈ Spec.sent (s.run blocks.flatten).out := by
  induction blocks generalizing s with
  | nil => exact h
  | cons b l ih =>
    rw [run_blocks]
    refine ih (fun b hb' => hb b (List.mem_cons_of_mem _ hb')) ?_
    cases hb b (by simp) with
    | @ms x y hx hy =>
      have h1 := closed_calls hx (s := s.clock) h
      have h2 : (s.clock.run x).step .timer = s.clock.run x := by
        show ((s.clock.run x).fsm .timer).done = _
        unfold fsm fsmFuel fsmWith
        rw [h1.1]
        rfl
      rw [run_ms, h2]
      exact closed_calls hy h1

/-- One quiet millisecond. -/
theorem Waits.ms {iss c : Nat} {s : Sess} {b : List Ev} (h : Waits iss q c s) (hc : c ≤ 3) (hb : Spec.Quiet b) :
    (1 < s.left q ∧ Waits iss q c (s.run b) ∧ (s.run b).left q = s.left q - 1) ∨
    (c < 3 ∧ Waits iss q (c + 1) (s.run b) ∧ (s.run b).left q = 1000 * 2 ^ (c + 1)) ∨
    (c = 3 ∧ (s.run b).state = .closed ∧ ∃ r, (⟨false, true, false, true, q, r, []⟩ : Seg) ∈ Spec.sent (s.run b).out) := by
  cases hb with
  | @ms x y hx hy =>
    rw [run_ms]
    obtain ⟨h1, h2⟩ := h.clock
    obtain ⟨h3, h4⟩ := h1.calls hx
    rw [h2] at h4
    by_cases h0 : (s.clock.run x).left q = 0
    · by_cases h3' : c = 3
      · subst h3'
        right; right
        obtain ⟨k1, k2⟩ := closed_calls hy (h3.ends h0)
        exact ⟨rfl, k1, _, k2⟩
      · right; left
        obtain ⟨k1, k2⟩ := h3.again h0 h3'
        obtain ⟨k3, k4⟩ := k1.calls hy
        exact ⟨by omega, k3, k4.trans k2⟩
    · left
      obtain ⟨k1, k2⟩ := h3.early h0
      obtain ⟨k3, k4⟩ := k1.calls hy
      refine ⟨by omega, k3, ?_⟩
      rw [k4, k2, h4]
      omega

/-- Enough quiet milliseconds. -/
theorem Waits.silent {iss c : Nat} {s : Sess} (h : Waits iss q c s) (hc : c ≤ 3) {n : Nat}
    (hn : max (s.left q) 1 + 16000 - 1000 * 2 ^ (c + 1) ≤ n) {blocks : List (List Ev)} (hb : ∀ b ∈ blocks, Spec.Quiet b) (hl : n ≤ blocks.length) :
    (s.run blocks.flatten).state = .closed ∧ ∃ r, (⟨false, true, false, true, q, r, []⟩ : Seg) ∈ Spec.sent (s.run blocks.flatten).out := by
  have hpow : ∀ c : Nat, c ≤ 3 → (2 : Int) ^ (c + 1) ≤ 16 := by
    intro c hc
    have : c = 0 ∨ c = 1 ∨ c = 2 ∨ c = 3 := by omega
    rcases this with rfl | rfl | rfl | rfl <;> decide
  induction blocks generalizing n c s with
  | nil =>
    exfalso
    have := hpow c hc
    simp at hl
    omega
  | cons b l ih =>
    rw [run_blocks]
    rcases h.ms hc (hb b (by simp)) with ⟨h1, h2, h3⟩ | ⟨h1, h2, h3⟩ | ⟨-, h1, r, h2⟩
    · refine ih h2 hc (n := n - 1) ?_ (fun b hb' => hb b (List.mem_cons_of_mem _ hb')) (by simp at hl; omega)
      have := hpow c hc
      omega
    · refine ih h2 (by omega) (n := n - 1) ?_ (fun b hb' => hb b (List.mem_cons_of_mem _ hb')) (by simp at hl; omega)
      have := hpow c hc
      have e : (2 : Int) ^ (c + 1 + 1) = 2 * 2 ^ (c + 1) := by rw [Int.pow_succ]; omega
      have : (0 : Int) < 2 ^ (c + 1) := Int.pow_pos (by decide)
      omega
    · obtain ⟨k1, k2⟩ := closed_quiet l (fun b hb' => hb b (List.mem_cons_of_mem _ hb')) ⟨h1, h2⟩
      exact ⟨k1, r, k2⟩

theorem fresh_micro {iss q n : Nat} {a b : Sess} (hS : SendInv iss a) (hC : CountInv a) (h : Fresh q n a)
    (hQ : ∀ m, Q m → ¬ (isAck m = true ∧ m.data = [] ∧ m.ackn = q)) (hm : Micro Q G a b) : Fresh q n b := by
  obtain ⟨h1, h2⟩ := sends_micro hS hC hm
  have h3 := h.1
  refine ⟨by omega, ?_⟩
  rcases h.2 with x | x
  · rcases h2 with y | ⟨syn, ack, fin, data, rfl, hd⟩
    · exact .inl (by rw [y, x])
    · by_cases hq : a.sndNxt = q
      · right
        have hn := hC.num
        have hu : a.sndUna = q := by omega
        have hp := pos_of hd
        refine ⟨?_, by simp; omega, fun _ _ => ⟨by simp; omega, _, ?_, Int.le_refl _⟩⟩
        · rw [sentAs_out, transmissions_append, transmissions_sent, if_pos ⟨hq, hd⟩, x]
        · rw [get?_sentAs, if_pos ⟨hq, hd⟩, hC.count q (by omega), x]
      · left
        rw [sentAs_out, transmissions_append, transmissions_sent, if_neg (fun z => hq z.1), x]
        rfl
  · right
    exact hold_micro (by have : (0 : Int) < 2 ^ n := Int.pow_pos (by decide); omega) hS hC x hQ hm

/-- One event that is not a tick. -/
theorem step_keeps {iss : Nat} {A : TcpMd → Prop} {P : Sess → Prop}
    (hmicro : ∀ a b, SendInv iss a → P a → Micro (fun m => AckOk iss m ∧ A m) True a b → P b) (hside : ∀ a b, P a → Aside a b → P b)
    {s : Sess} {e : Ev} (he : e ≠ .clock) (hs : ∀ m ∈ Spec.arrivals [e], AckOk iss m ∧ A m) (h0 : SendInv iss s)
    (hqu : Queue (fun m => AckOk iss m ∧ A m) s) (h : P s) :
    SendInv iss (s.step e) ∧ Queue (fun m => AckOk iss m ∧ A m) (s.step e) ∧ P (s.step e) := by
  have hS : SendInv iss (s.step e) := send_run (evs := [e]) (fun m hm => (hs m hm).1) h0
  refine ⟨hS, ?_⟩
  have aside : ∀ a b, Aside a b → Queue (fun m => AckOk iss m ∧ A m) a ∧ P a → Queue (fun m => AckOk iss m ∧ A m) b ∧ P b :=
    fun a b hb h => ⟨h.1.beside hb.1, hside a b h.2 hb⟩
  have done : ∀ i, InputOk (fun m => AckOk iss m ∧ A m) i →
      Queue (fun m => AckOk iss m ∧ A m) (s.fsm i).done ∧ P (s.fsm i).done := by
    intro i hi
    have hq : QueueOk (fun m => AckOk iss m ∧ A m) True s := ⟨hqu.each, hqu.early, h0.queueOk.fin, h0.queueOk.syn⟩
    have := ((fsm_path hq hi).keeps (P := fun s => SendInv iss s ∧ Queue (fun m => AckOk iss m ∧ A m) s ∧ P s)
      (fun a b h hm => ⟨send_micro h.1 (hm.mono fun _ x => x.1), queue_micro h.2.1 hm, hmicro a b h.1 h.2.2 hm⟩) ⟨h0, hqu, h⟩).2
    rcases done_s (s.fsm i) with x | ⟨e, x⟩
    · rw [x]; exact this
    · rw [x]; exact aside _ _ (aside_raised _ e) this
  cases e with
  | segment m => exact done _ (hs m (by simp [Spec.arrivals]))
  | close => exact done _ rfl
  | timer => exact done _ trivial
  | send d => exact aside _ _ (aside_send s d) ⟨hqu, h⟩
  | recvAcquire => exact aside _ _ (aside_acquire s) ⟨hqu, h⟩
  | recvTake n => exact aside _ _ (aside_take s n) ⟨hqu, h⟩
  | connectReturn => exact aside _ _ (aside_connect s) ⟨hqu, h⟩
  | clock => exact absurd rfl he
  | table b => exact aside _ _ (aside_table s b) ⟨hqu, h⟩

theorem hold_run {iss q n : Nat} {k : Int} {A : TcpMd → Prop} (hA : ∀ m, A m → ¬ (isAck m = true ∧ m.data = [] ∧ m.ackn = q))
    {s : Sess} {later : List Ev} (hs : ∀ m ∈ Spec.arrivals later, AckOk iss m ∧ A m) (h0 : SendInv iss s)
    (hqu : Queue (fun m => AckOk iss m ∧ A m) s) (hC : CountInv s) (h : Hold q n k s) (hk : (Spec.millis later : Int) < k) :
    transmissions q (s.run later).out = n := by
  induction later generalizing s k with
  | nil => exact h.count
  | cons e l ih =>
    have hcons : Spec.arrivals (e :: l) = Spec.arrivals [e] ++ Spec.arrivals l := List.filterMap_append (l := [e])
    have hm : Spec.millis (e :: l) = Spec.millis [e] + Spec.millis l := by
      show (List.filter _ ([e] ++ l)).length = _
      rw [List.filter_append, List.length_append]; rfl
    rw [hcons] at hs
    show transmissions q ((s.step e).run l).out = n
    by_cases he : e = .clock
    · subst he
      have h1 : Spec.millis [Ev.clock] = 1 := rfl
      exact ih (fun m hm => hs m (List.mem_append_right _ hm)) (send_run (evs := [.clock]) (no_arrivals (by simp)) h0)
        (hqu.beside rfl) hC.clock (h.clock (by omega)) (by omega)
    · have hk0 : 0 < k := by omega
      obtain ⟨h1, h2, h3, h4⟩ := step_keeps (P := fun s => CountInv s ∧ Hold q n k s)
        (fun a b hS h hm => ⟨count_micro h.1 hm, hold_micro hk0 hS h.1 h.2 (fun m hm => hA m hm.2) hm⟩)
        (fun a b h hb => ⟨h.1.aside hb, h.2.aside hb⟩) he (fun m hm => hs m (List.mem_append_left _ hm)) h0 hqu ⟨hC, h⟩
      exact ih (fun m hm => hs m (List.mem_append_right _ hm)) h1 h2 h3 h4 (by omega)

/-- The counter was pushed past the limit: no end. -/
theorem Waits.forever {iss q c : Nat} {s : Sess} (h : Waits iss q c s) (hc : 3 < c) (blocks : List (List Ev)) (hb : ∀ b ∈ blocks, Spec.Quiet b) :
    ∃ c', 3 < c' ∧ Waits iss q c' (s.run blocks.flatten) := by
  induction blocks generalizing s c with
  | nil => exact ⟨c, hc, h⟩
  | cons b l ih =>
    rw [run_blocks]
    have hl : ∀ b ∈ l, Spec.Quiet b := fun b hb' => hb b (List.mem_cons_of_mem _ hb')
    cases hb b (by simp) with
    | @ms x y hx hy =>
      rw [run_ms]
      obtain ⟨h1, h2⟩ := h.clock
      obtain ⟨h3, h4⟩ := h1.calls hx
      by_cases h0 : (s.clock.run x).left q = 0
      · exact ih ((h3.again h0 (by omega)).1.calls hy).1 (by omega) hl
      · exact ih ((h3.early h0).1.calls hy).1 hc hl

end Verif.Sess
