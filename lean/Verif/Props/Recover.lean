import Verif.Lemmas.Recover
import Verif.Props.SessionNet
/-!
C94: one lost segment is made good without waiting for a timer.  The end that sees later data first asks for what is missing, at once
and at most twice; the other end, asked twice, sends it again the next time its timer runs; and when it arrives, what has been kept is
delivered with it.
-/
namespace Verif
open Spec Sess

theorem Spec.Ahead.isAck {s : Sess} {m : TcpMd} (h : Ahead s m) : isAck m = true := by
  obtain ⟨h1, h2, h3, h4⟩ := h.flags
  simp [Sess.isAck, h1, h2, h3, h4]

/-- A segment from further on. -/
theorem Spec.Ahead.step {s : Sess} {m : TcpMd} (h : Ahead s m) (hs : s.state = .established) : s.step (.segment m) = (s.outOfOrder m).done := by
  show (s.fsm (.packet m)).done = _
  unfold fsm fsmFuel fsmWith
  rw [hs]
  show (s.fsmEstablished _ (.packet m)).done = _
  unfold fsmEstablished
  dsimp only
  have := h.seq
  rw [if_neg (fun x => x ⟨by omega, h.fits⟩), if_pos h.isAck, if_neg (by omega), if_pos ⟨this, acceptable_iff.2 h.ackn⟩]

/-- How often the number expected has been asked for. -/
def Sess.requested (s : Sess) : Nat := (s.rxReq.get? s.rcvNxt).getD 0

/-- What a segment from further on does. -/
theorem Spec.Ahead.effect {s : Sess} {m : TcpMd} (h : Ahead s m) (hs : s.state = .established) (h1 : s.sndNxt ≤ 0xFFFFFFFF)
    (h2 : s.rcvNxt ≤ 0xFFFFFFFF) :
    (s.step (.segment m)).state = .established ∧ (s.step (.segment m)).rcvNxt = s.rcvNxt ∧ (s.step (.segment m)).sndNxt = s.sndNxt ∧
    (s.step (.segment m)).sndUna = s.sndUna ∧ s.sndMax ≤ (s.step (.segment m)).sndMax ∧ (s.step (.segment m)).rx = s.rx ∧
    (s.step (.segment m)).ooo = s.ooo.set m.seq m ∧ (s.step (.segment m)).requested = s.requested + 1 ∧
    Spec.sent (s.step (.segment m)).out = Spec.sent s.out ++ (if s.requested < 2 then [ask s] else []) ∧
    received (s.step (.segment m)).out = received s.out := by
  rw [h.step hs]
  unfold outOfOrder
  dsimp only
  change (_ ∧ _)
  by_cases hc : s.requested < 2
  · rw [if_pos (show (s.rxReq.get? s.rcvNxt).getD 0 + 1 ≤ 2 from by unfold requested at hc; omega)]
    rw [transmitPacket_eq, if_pos ⟨h1, h2⟩, if_pos hc]
    simp [ok, Res.done, Sess.requested, hs, ask, Spec.sent, Spec.received]
    omega
  · rw [if_neg (show ¬ (s.rxReq.get? s.rcvNxt).getD 0 + 1 ≤ 2 from by unfold requested at hc; omega), if_neg hc]
    simp [ok, Res.done, Sess.requested, hs]

theorem Spec.Ahead.keep {s s' : Sess} {m : TcpMd} (h : Ahead s m) (h1 : s'.rcvNxt = s.rcvNxt) (h2 : s'.sndUna = s.sndUna) (h3 : s.sndMax ≤ s'.sndMax) :
    Ahead s' m := by
  refine ⟨h.flags, by rw [h1]; exact h.seq, by rw [h1]; exact h.fits, by rw [h2]; exact h.ackn.1, ?_⟩
  have := h.ackn.2
  omega

theorem ahead_run {s : Sess} {ms : List TcpMd} (hs : s.state = .established) (h1 : s.sndNxt ≤ 0xFFFFFFFF) (h2 : s.rcvNxt ≤ 0xFFFFFFFF)
    (hm : ∀ m ∈ ms, Ahead s m) :
    let s' := s.run (ms.map .segment)
    s'.state = .established ∧ s'.rcvNxt = s.rcvNxt ∧ s'.sndNxt = s.sndNxt ∧ s'.sndUna = s.sndUna ∧ s.sndMax ≤ s'.sndMax ∧ s'.rx = s.rx ∧
    s'.ooo = ms.foldl (fun d m => d.set m.seq m) s.ooo ∧ Spec.sent s'.out = Spec.sent s.out ++ List.replicate (min (2 - s.requested) ms.length) (ask s) ∧
    received s'.out = received s.out := by
  induction ms generalizing s with
  | nil => simp [hs, Sess.run]
  | cons m ms ih =>
    obtain ⟨e1, e2, e3, e4, e5, e6, e7, e8, e9, e10⟩ := (hm m (by simp)).effect hs h1 h2
    have := ih (s := s.step (.segment m)) e1 (by omega) (by omega) (fun x hx => (hm x (by simp [hx])).keep e2 e4 e5)
    obtain ⟨f1, f2, f3, f4, f5, f6, f7, f8, f9⟩ := this
    refine ⟨f1, f2.trans e2, f3.trans e3, f4.trans e4, Nat.le_trans e5 f5, f6.trans e6, ?_, ?_, f9.trans e10⟩
    · rw [List.foldl_cons, ← e7]; exact f7
    · refine f8.trans ?_
      rw [e9, e8, show ask (s.step (.segment m)) = ask s from by simp [ask, e2, e3], List.append_assoc]
      congr 1
      by_cases hc : s.requested < 2
      · rw [if_pos hc, show min (2 - s.requested) (m :: ms).length = min (2 - (s.requested + 1)) ms.length + 1 from by
          rw [List.length_cons]; omega, List.replicate_succ]
        rfl
      · rw [if_neg hc, show min (2 - s.requested) (m :: ms).length = 0 from by omega, show min (2 - (s.requested + 1)) ms.length = 0 from by omega]
        rfl

/-- C94: an open session, with no gap in what it has received, gets segments from further on.  It asks for what is missing at once, for
each of the first two, and not again; nothing is delivered. -/
theorem C94_asks {iss : Nat} (active : Bool) (lip : IpAddress) (lport : Nat) (rip : IpAddress) (rport : Nat) (evs : List Ev) {s : Sess}
    (hr : s = (opened active iss lip lport rip rport).run evs) (hs : s.state = .established) (ho : s.ooo = [])
    (h1 : s.sndNxt ≤ 0xFFFFFFFF) (h2 : s.rcvNxt ≤ 0xFFFFFFFF) {ms : List TcpMd} (hm : ∀ m ∈ ms, Ahead s m) :
    let s' := s.run (ms.map .segment)
    Spec.sent s'.out = Spec.sent s.out ++ List.replicate (min 2 ms.length) (ask s) ∧ s'.rcvNxt = s.rcvNxt ∧
      received s'.out ++ s'.rx = received s.out ++ s.rx := by
  have hg : GapInv s := by rw [hr]; exact gap_run (gap_opened ..)
  have h0 : s.requested = 0 := by
    unfold requested
    cases hx : s.rxReq.get? s.rcvNxt with
    | none => rfl
    | some c =>
      obtain ⟨e, he, -⟩ := (hg.low _ (Dict.get?_mem hx)).2 rfl
      rw [ho] at he
      exact nomatch he
  obtain ⟨-, f2, -, -, -, f6, -, f8, f9⟩ := ahead_run hs h1 h2 hm
  rw [h0] at f8
  exact ⟨f8, f2, by rw [f6, f9]⟩

theorem Spec.Again.step {s : Sess} {m : TcpMd} (h : Again s m) (hs : s.state = .established) : s.step (.segment m) = s.retransmitRequest m := by
  show (s.fsm (.packet m)).done = _
  unfold fsm fsmFuel fsmWith
  rw [hs]
  show (s.fsmEstablished _ (.packet m)).done = _
  unfold fsmEstablished
  dsimp only
  obtain ⟨h1, h2, h3, h4⟩ := h.flags
  have h5 := h.seq
  have h6 : m.data.length = 0 := by rw [h.data]; rfl
  rw [if_neg (fun x => x ⟨by omega, by omega⟩), if_pos (by simp [Sess.isAck, h1, h2, h3, h4]), if_pos ⟨h5, h.ackn, h.data⟩]
  rfl

/-- Asked twice, a session goes back to the first number not acknowledged. -/
theorem again_twice {s : Sess} {m m' : TcpMd} (h : Again s m) (h' : Again s m') (hs : s.state = .established) :
    ∃ t, (s.step (.segment m)).step (.segment m') = { s with txReq := t, sndNxt := s.sndUna } := by
  rw [h.step hs]
  have hb : Again (s.retransmitRequest m) m' := by
    refine ⟨h'.flags, ?_, ?_, h'.data⟩
    · rw [retransmitRequest_eq]; exact h'.seq
    · rw [retransmitRequest_eq]; exact h'.ackn
  rw [hb.step (by rw [retransmitRequest_eq]; exact hs)]
  have e : m'.ackn = m.ackn := by rw [h.ackn, h'.ackn]
  unfold retransmitRequest
  dsimp only
  rw [e]
  split
  · rw [if_pos (by simp)]; exact ⟨_, rfl⟩
  · rw [if_pos (by simp)]; exact ⟨_, rfl⟩

/-- The timer of an open session that has gone back. -/
theorem resend_timer {iss : Nat} {s : Sess} (ho : OpenPhase iss s) (hi : s.sndIni = iss) (hs : s.state = .established) (hn : s.sndNxt = s.sndUna)
    (ht : s.tx ≠ []) (hm : s.sndMss ≠ 0) (hw : s.sndEwn ≠ 0) (hc : s.txTmo.get? s.sndUna ≠ some 3) (h1 : s.sndUna ≤ 0xFFFFFFFF)
    (h2 : s.rcvNxt ≤ 0xFFFFFFFF) :
    ∃ n, Spec.sent (s.step .timer).out = Spec.sent s.out ++ [⟨false, true, false, false, s.sndUna, s.rcvNxt, s.tx.take n⟩] ∧ 0 < n ∧
      (s.step .timer).sndUna = s.sndUna := by
  have hmod := ho.mod
  have hu := ho.una
  -- the retransmission timer
  have hR : ∃ w, w ≠ 0 ∧ s.retransmitTimeout = ok { s with sndEwn := w } := by
    unfold retransmitTimeout
    split
    · exact ⟨s.sndEwn, hw, rfl⟩
    · rename_i c hcc
      split
      · rw [if_neg (fun x => hc (by rw [hcc, x]))]
        refine ⟨s.sndMss, hm, ?_⟩
        rw [if_neg (by have := ho.fin; omega), ← hn]
      · exact ⟨s.sndEwn, hw, rfl⟩
  obtain ⟨w, hw0, hR⟩ := hR
  have hlen : 0 < s.tx.length := List.length_pos_iff.2 ht
  have hx : ({ s with sndEwn := w } : Sess).txNxt = 0 := by
    show (s.sndNxt - s.seqMod).toNat = 0
    rw [hn, hmod]; simp
  -- the data
  have hT : ({ s with sndEwn := w } : Sess).transmitData = ok (({ s with sndEwn := w } : Sess).sentAs s.sndUna false true false false
      (s.tx.take (min (min s.sndMss w) s.tx.length))) := by
    unfold transmitData
    dsimp only
    rw [if_neg (by simp only [hn]; omega), if_neg (by simp [hs]), if_neg (by simp [hs]), hx,
      if_pos ⟨.inl hs, by simp; omega⟩, if_pos (by simp; omega), transmitPacket_eq, if_pos ⟨by simp [hn]; exact h1, h2⟩]
    have : pySlice s.tx 0 (0 + min (min (s.sndMss : Int) ((w : Int) - (0 : Nat))) ((s.tx.length : Int) - (0 : Nat))) =
        s.tx.take (min (min s.sndMss w) s.tx.length) := by
      unfold pySlice
      dsimp only
      rw [if_neg (by omega), if_neg (by omega)]
      simp only [Int.toNat_zero, Nat.zero_min, List.drop_zero, Nat.sub_zero]
      congr 1
      omega
    simp only [Option.getD_none, hn]
    congr 2
  have hd : s.tx.take (min (min s.sndMss w) s.tx.length) ≠ [] := by
    intro x
    rcases List.take_eq_nil_iff.1 x with y | y
    · omega
    · exact ht y
  have hst : ∃ t, s.step .timer = { ({ s with sndEwn := w } : Sess).sentAs s.sndUna false true false false
      (s.tx.take (min (min s.sndMss w) s.tx.length)) with timers := t } := by
    show ∃ t, (s.fsm .timer).done = _
    have hf : ∃ f, s.fsm .timer = s.fsmEstablished f .timer := ⟨_, by unfold fsm fsmFuel fsmWith; rw [hs]⟩
    obtain ⟨f, hf⟩ := hf
    rw [hf]
    unfold fsmEstablished
    dsimp only
    rw [hR, next_ok, hT, next_ok]
    unfold delayedAck
    split
    · rw [if_neg (by simp), next_ok, next_ok, if_neg (by simp [setTimer, ht])]
      exact ⟨_, rfl⟩
    · rw [next_ok, if_neg (by simp [ht])]
      exact ⟨_, rfl⟩
  obtain ⟨t, hst⟩ := hst
  rw [hst]
  refine ⟨min (min s.sndMss w) s.tx.length, ?_, by omega, by simp⟩
  simp [Spec.sent]

/-- C94: an end of a connection that has unacknowledged data - not sent four times yet - and is asked for them twice sends them again,
from the first byte not acknowledged, the next time its timer runs. -/
theorem C94_resends (p q : Bool) (ia ib : Nat) (lip : IpAddress) (lport : Nat) (rip : IpAddress) (rport : Nat) (lip' : IpAddress)
    (lport' : Nat) (rip' : IpAddress) (rport' : Nat) {a b : Sess}
    (h : Joined (opened p ia lip lport rip rport) (opened q ib lip' lport' rip' rport') a b) (hs : a.state = .established)
    (ht : a.tx ≠ []) (hm : a.sndMss ≠ 0) (hw : a.sndEwn ≠ 0) (hk : transmissions a.sndUna a.out ≤ 3) (h1 : a.sndUna ≤ 0xFFFFFFFF)
    (h2 : a.rcvNxt ≤ 0xFFFFFFFF) {m m' : TcpMd} (hm1 : Again a m) (hm2 : Again a m') :
    ∃ n, Spec.sent (a.run [.segment m, .segment m', .timer]).out =
      Spec.sent a.out ++ [⟨false, true, false, false, a.sndUna, a.rcvNxt, a.tx.take n⟩] ∧ 0 < n := by
  obtain ⟨⟨evs, e1, e2⟩, -, h5, -, -, h8⟩ := pair_joined h
  have ho := h5.openPhase (.inl hs)
  have hC : CountInv a := by
    rw [e1]
    refine Sess.count_run (fun m hm ha hr => ?_) (send_opened p lip lport rip rport) (count_opened ..)
    obtain r | ⟨g, hg, hc⟩ := e2 m hm
    · rw [r.rst] at hr; cases hr
    rcases h8.acks g hg (by rw [← hc.ack]; exact ha) with x | x
    · rw [← hc.rst, hr] at x; cases x
    · rw [hc.ackn]; omega
  obtain ⟨t, ht'⟩ := again_twice hm1 hm2 hs
  have hc : a.txTmo.get? a.sndUna ≠ some 3 := by
    intro x
    have := hC.count a.sndUna (Nat.le_refl _)
    unfold counted at this
    rw [x] at this
    dsimp only at this
    omega
  have := ho.most
  obtain ⟨n, n1, n2, -⟩ := resend_timer (iss := ia) (s := { a with txReq := t, sndNxt := a.sndUna })
    ⟨ho.una, Nat.le_refl _, by have := ho.nxt; show a.sndUna ≤ a.sndMax; omega, ho.top, ho.mod, ho.tx, ho.fin, ho.tmo, ho.ooo⟩
    h5.ini hs rfl ht hm hw hc h1 h2
  refine ⟨n, ?_, n2⟩
  show Spec.sent (((a.step (.segment m)).step (.segment m')).step .timer).out = _
  rw [ht']
  exact n1

theorem Spec.InRow.ge {q u : Nat} {ms : List TcpMd} (h : InRow q u ms) : ∀ m ∈ ms, q ≤ m.seq ∧ u ≤ m.ackn ∧ m.data ≠ [] := by
  induction h with
  | nil => exact fun m hm => nomatch hm
  | cons h1 h2 h3 _ ih =>
    intro x hx
    rcases List.mem_cons.1 hx with y | y
    · subst y; exact ⟨by omega, h2, h3⟩
    · have := ih x y
      exact ⟨by omega, by omega, this.2.2⟩

theorem fsm_open {s : Sess} (hs : s.state = .established) (n : Nat) (m : TcpMd) :
    fsmFuel (n + 1) s (.packet m) = s.fsmEstablished (fun s m => fsmFuel n s (.packet m)) (.packet m) := by
  rw [show fsmFuel (n + 1) s (.packet m) = fsmWith (fun s m => fsmFuel n s (.packet m)) s (.packet m) from rfl]
  unfold fsmWith
  rw [hs]

/-- Data that arrive in their turn. -/
theorem fsm_data {s : Sess} (hs : s.state = .established) (n : Nat) {m : TcpMd} (hf : isAck m = true) (hq : m.seq = s.rcvNxt)
    (hl : m.data.length ≤ 65535) (hd : m.data ≠ []) (ha : s.sndUna ≤ m.ackn ∧ m.ackn ≤ s.sndMax) :
    fsmFuel (n + 1) s (.packet m) = processAck (fun s m => fsmFuel n s (.packet m)) s m := by
  rw [fsm_open hs]
  unfold fsmEstablished
  dsimp only
  rw [if_neg (fun x => x ⟨by omega, by omega⟩), if_pos hf, if_neg (fun x => hd x.2.2), if_neg (by omega), if_pos ⟨hq, acceptable_iff.2 ha⟩]

theorem processAck_some (f : Sess → TcpMd → Sess.Res) {s : Sess} {m x : TcpMd} {q : Nat} (e : (s.ackUpdate m).rcvNxt = q) (h : s.ooo.get? q = some x) :
    processAck f s m = f { s.ackUpdate m with ooo := s.ooo.erase q } x := by
  subst e
  unfold processAck
  dsimp only
  rw [ackUpdate_ooo, h]

theorem erase_shorter {K V : Type} [DecidableEq K] {d : Dict K V} {k : K} {v : V} (h : d.get? k = some v) : (d.erase k).length < d.length := by
  refine Nat.lt_of_le_of_ne (List.length_filter_le ..) fun hx => ?_
  have := List.length_filter_eq_length_iff.1 hx _ (Dict.get?_mem h)
  simp at this

/-- Data that arrive in their turn, and those kept behind them. -/
theorem fill {ms : List TcpMd} : ∀ {n : Nat} {s : Sess} {m : TcpMd}, s.state = .established → s.ooo.length ≤ n → isAck m = true →
    m.seq = s.rcvNxt → m.data.length ≤ 65535 → m.data ≠ [] → s.sndUna ≤ m.ackn → m.ackn ≤ s.sndMax → InRow (m.seq + m.data.length) m.ackn ms →
    (∀ x ∈ ms, s.ooo.get? x.seq = some x ∧ isAck x = true ∧ x.data.length ≤ 65535 ∧ x.ackn ≤ s.sndMax) →
    (∀ e ∈ s.ooo, e.1 < m.seq + m.data.length + (carriedBy ms).length) →
    ∃ s', fsmFuel (n + 1) s (.packet m) = ok s' ∧ s'.rx = s.rx ++ m.data ++ carriedBy ms ∧ s'.out = s.out ∧
      s'.rcvNxt = m.seq + m.data.length + (carriedBy ms).length := by
  induction ms with
  | nil =>
    intro n s m hs hn hf hq hl hd h1 h2 hr hx hk
    rw [fsm_data hs n hf hq hl hd ⟨h1, h2⟩]
    unfold processAck
    dsimp only
    obtain ⟨f1, f2, f3, f4⟩ := isAck_flags hf
    have : (s.ackUpdate m).ooo.get? (s.ackUpdate m).rcvNxt = none := by
      cases hg : (s.ackUpdate m).ooo.get? (s.ackUpdate m).rcvNxt with
      | none => rfl
      | some v =>
        have := hk _ (by have := Dict.get?_mem hg; rwa [ackUpdate_ooo] at this)
        simp [f2, f4, carriedBy] at this
    rw [this]
    refine ⟨_, rfl, ?_, by simp, by simp [f2, f4, carriedBy]⟩
    rw [ackUpdate_eq]
    simp [carriedBy]
  | cons x ms ih =>
    intro n s m hs hn hf hq hl hd h1 h2 hr hx hk
    rw [fsm_data hs n hf hq hl hd ⟨h1, h2⟩]
    obtain ⟨f1, f2, f3, f4⟩ := isAck_flags hf
    obtain ⟨x1, x2, x3, x4⟩ := hx x (by simp)
    cases hr with
    | cons r1 r2 r3 r4 =>
      have e : (s.ackUpdate m).rcvNxt = x.seq := by simp [f2, f4, r1]
      rw [processAck_some _ e x1]
      have hsh := erase_shorter x1
      obtain ⟨k, rfl⟩ : ∃ k, n = k + 1 := ⟨n - 1, by omega⟩
      have hge := r4.ge
      obtain ⟨s', g1, g2, g3, g4⟩ := ih (n := k) (s := { s.ackUpdate m with ooo := s.ooo.erase x.seq }) (m := x)
        (by simpa using hs) (by dsimp only; omega) x2 (by simpa using e.symm) x3 r3 (by simp; omega)
        (by rw [ackUpdate_eq]; exact x4) (by rw [r1]; exact r4)
        (fun y hy => by
          obtain ⟨y1, y2, y3, y4⟩ := hx y (by simp [hy])
          refine ⟨?_, y2, y3, by rw [ackUpdate_eq]; exact y4⟩
          have hz := (hge y hy).1
          have hp : 0 < x.data.length := List.length_pos_iff.2 r3
          show (s.ooo.erase x.seq).get? y.seq = _
          rw [Dict.get?_erase_ne _ (by omega)]
          exact y1)
        (fun y hy => by
          have := hk y (List.mem_filter.1 hy).1
          simp only [carriedBy, List.flatMap_cons, List.length_append] at this ⊢
          omega)
      refine ⟨s', g1, ?_, by simpa using g3, ?_⟩
      · rw [g2, ackUpdate_eq]
        simp [carriedBy]
      · rw [g4]
        simp only [carriedBy, List.flatMap_cons, List.length_append]
        omega

theorem foldl_get {ms : List TcpMd} {q u : Nat} (h : InRow q u ms) (d : Dict Nat TcpMd) :
    (∀ m ∈ ms, (ms.foldl (fun d m => d.set m.seq m) d).get? m.seq = some m) ∧
    (∀ k, k < q → (ms.foldl (fun d m => d.set m.seq m) d).get? k = d.get? k) ∧
    (∀ e ∈ ms.foldl (fun d m => d.set m.seq m) d, e ∈ d ∨ e.1 < q + (carriedBy ms).length) := by
  induction h generalizing d with
  | nil => exact ⟨fun m hm => (nomatch hm), fun k _ => rfl, fun e he => .inl he⟩
  | @cons q u m ms h1 h2 h3 h4 ih =>
    have hp : 0 < m.data.length := List.length_pos_iff.2 h3
    obtain ⟨i1, i2, i3⟩ := ih (d.set m.seq m)
    refine ⟨fun x hx => ?_, fun k hk => ?_, fun e he => ?_⟩
    · rcases List.mem_cons.1 hx with y | y
      · subst y
        exact (i2 x.seq (by omega)).trans (Dict.get?_set_self ..)
      · exact i1 x y
    · exact (i2 k (by omega)).trans (Dict.get?_set_ne _ _ (by omega))
    · simp only [carriedBy, List.flatMap_cons, List.length_append] at i3 ⊢
      rcases i3 e he with y | y
      · rcases mem_set_cases y with z | z
        · right; rw [z]; dsimp only; omega
        · exact .inl z
      · right; omega

/-- C94: the segments that follow the missing one arrive first, in their order; then the missing one.  At that moment all of their data
are there.

Missing: it is so only if the missing segment does not acknowledge more than those that follow it (`InRow`, with its acknowledgement
number); `C94_thrown_away` shows what happens otherwise. -/
theorem C94_filled_partial {s : Sess} (hs : s.state = .established) (ho : s.ooo = []) (h1 : s.sndNxt ≤ 0xFFFFFFFF)
    (h2 : s.rcvNxt ≤ 0xFFFFFFFF) {m : TcpMd} {ms : List TcpMd} (hm : ∀ x ∈ ms, Ahead s x) (hf : isAck m = true) (hq : m.seq = s.rcvNxt)
    (hl : m.data.length ≤ 65535) (hd : m.data ≠ []) (ha : s.sndUna ≤ m.ackn ∧ m.ackn ≤ s.sndMax)
    (hr : InRow (m.seq + m.data.length) m.ackn ms) :
    let s' := s.run (ms.map .segment ++ [.segment m])
    received s'.out ++ s'.rx = received s.out ++ s.rx ++ m.data ++ carriedBy ms ∧
      s'.rcvNxt = s.rcvNxt + m.data.length + (carriedBy ms).length := by
  obtain ⟨f1, f2, -, f4, f5, f6, f7, -, f9⟩ := ahead_run hs h1 h2 hm
  rw [ho] at f7
  obtain ⟨g1, g2, g3⟩ := foldl_get hr []
  have hrun : s.run (ms.map .segment ++ [.segment m]) = (s.run (ms.map .segment)).step (.segment m) := by
    unfold Sess.run; rw [List.foldl_append]; rfl
  intro s'
  generalize s.run (ms.map .segment) = t at *
  obtain ⟨t', k1, k2, k3, k4⟩ := fill (ms := ms) (n := t.ooo.length) (s := t) (m := m) f1 (Nat.le_refl _) hf (by omega) hl hd (by omega) (by omega) hr
    (fun x hx => ⟨by rw [f7]; exact g1 x hx, (hm x hx).isAck, by have := (hm x hx).fits; have := (hm x hx).seq; omega,
      by have := (hm x hx).ackn.2; omega⟩)
    (fun e he => by
      rw [f7] at he
      rcases g3 e he with y | y
      · exact nomatch y
      · exact y)
  have : s' = t' := by
    show s.run _ = _
    rw [hrun]
    show (t.fsm (.packet m)).done = _
    unfold fsm
    rw [k1]; rfl
  rw [this, k2, k3, k4, f6, f9, hq]
  simp

/-- C94: what has been kept is thrown away, when the segment that fills the gap acknowledges more than it: the sender has to send it
again. -/
theorem C94_thrown_away {s : Sess} (hs : s.state = .established) {m x : TcpMd} (hf : isAck m = true) (hq : m.seq = s.rcvNxt)
    (hl : m.data.length ≤ 65535) (hd : m.data ≠ []) (ha : s.sndUna ≤ m.ackn ∧ m.ackn ≤ s.sndMax)
    (hx : s.ooo.get? (m.seq + m.data.length) = some x) (hy : x.seq = m.seq + m.data.length ∧ isAck x = true ∧ x.data ≠ []) (hz : x.ackn < m.ackn) :
    (s.step (.segment m)).rx = s.rx ++ m.data ∧ (s.step (.segment m)).rcvNxt = s.rcvNxt + m.data.length ∧
      (s.step (.segment m)).ooo = s.ooo.erase (m.seq + m.data.length) := by
  obtain ⟨f1, f2, f3, f4⟩ := isAck_flags hf
  have hlen := erase_shorter hx
  obtain ⟨k, hk⟩ : ∃ k, s.ooo.length = k + 1 := ⟨s.ooo.length - 1, by omega⟩
  have e : (s.ackUpdate m).rcvNxt = m.seq + m.data.length := by simp [f2, f4]
  have : s.step (.segment m) = { s.ackUpdate m with ooo := s.ooo.erase (m.seq + m.data.length) } := by
    show (s.fsm (.packet m)).done = _
    unfold fsm
    rw [fsm_data hs _ hf hq hl hd ha, hk, processAck_some _ e hx]
    rw [fsm_open (by simpa using hs)]
    unfold fsmEstablished
    dsimp only
    by_cases hw : (s.ackUpdate m).rcvNxt ≤ x.seq ∧ x.seq + x.data.length ≤ (s.ackUpdate m).rcvNxt + 65535
    · rw [if_neg (fun z => z hw), if_pos hy.2.1, if_neg (fun z => hy.2.2 z.2.2), if_neg (by rw [e]; omega), if_neg]
      · rfl
      · rintro ⟨-, z⟩
        have := (acceptable_iff.1 z).1
        simp at this
        omega
    · rw [if_pos hw]; rfl
  rw [this]
  refine ⟨by rw [ackUpdate_eq], by rw [← hq]; exact e, rfl⟩

namespace Example.Recover
open Example.Net (x y act arrive joined)

/-- A connection is made; the left end sends [1, 2], [3, 4] and [5, 6]. -/
def acts : List Example.Net.Act :=
  [.l .timer, .toR 0, .r .timer, .toL 0, .toR 1, .l (.send [1, 2]), .l .timer, .l (.send [3, 4]), .l .timer, .l (.send [5, 6]), .l .timer]

def l : Sess := (acts.foldl act (x, y)).1
def r : Sess := (acts.foldl act (x, y)).2

/-- Its segments, as they arrive at the right end. -/
def m1 : TcpMd := arrive Example.Session.rip 80 Example.Session.lip 5000 ⟨false, true, false, false, 101, 501, [1, 2]⟩
def m2 : TcpMd := arrive Example.Session.rip 80 Example.Session.lip 5000 ⟨false, true, false, false, 103, 501, [3, 4]⟩
def m3 : TcpMd := arrive Example.Session.rip 80 Example.Session.lip 5000 ⟨false, true, false, false, 105, 501, [5, 6]⟩
/-- What the right end asks, as it arrives at the left end. -/
def q : TcpMd := arrive Example.Session.lip 5000 Example.Session.rip 80 ⟨false, true, false, false, 501, 101, []⟩

theorem both : Joined x y l r := joined x y acts

theorem numbers : r.state = .established ∧ r.ooo = [] ∧ r.sndNxt = 501 ∧ r.rcvNxt = 101 ∧ r.sndUna = 501 ∧ r.sndMax = 501 ∧
    l.state = .established ∧ l.tx = [1, 2, 3, 4, 5, 6] ∧ l.sndMss = 1460 ∧ l.sndEwn ≠ 0 ∧ transmissions l.sndUna l.out = 1 ∧ l.sndUna = 101 ∧
    l.rcvNxt = 501 ∧ l.sndNxt = 107 := by decide +kernel

theorem ahead : ∀ m ∈ [m2, m3], Ahead r m := by
  obtain ⟨h1, h2, h3, h4, h5, h6, -⟩ := numbers
  intro m hm
  simp only [List.mem_cons, List.not_mem_nil, or_false] at hm
  rcases hm with rfl | rfl
  · exact ⟨by decide, by rw [h4]; decide, by rw [h4]; decide, by rw [h5, h6]; decide⟩
  · exact ⟨by decide, by rw [h4]; decide, by rw [h4]; decide, by rw [h5, h6]; decide⟩

/-- C94_asks: the first segment is late, the others arrive: the right end asks for byte 101, twice. -/
example : ∃ evs : List Ev, r = y.run evs ∧ Spec.sent (r.run [.segment m2, .segment m3]).out =
    Spec.sent r.out ++ [⟨false, true, false, false, 501, 101, []⟩, ⟨false, true, false, false, 501, 101, []⟩] := by
  obtain ⟨h1, h2, h3, h4, -⟩ := numbers
  obtain ⟨-, ⟨evs, e, -⟩, -⟩ := pair_joined both
  refine ⟨evs, e, ?_⟩
  have := (C94_asks false _ _ _ _ evs e h1 h2 (by rw [h3]; decide) (by rw [h4]; decide) ahead).1
  simpa [ask, h3, h4] using this

/-- C94_resends: the two questions arrive; the left end sends everything again that it has in its buffer. -/
example : ∃ n, Spec.sent (l.run [.segment q, .segment q, .timer]).out =
    Spec.sent l.out ++ [⟨false, true, false, false, l.sndUna, l.rcvNxt, l.tx.take n⟩] ∧ 0 < n := by
  obtain ⟨-, -, -, -, -, -, h1, h2, h3, h4, h5, h6, h7, h8⟩ := numbers
  have ha : Again l q := ⟨by decide, by rw [h7]; rfl, by rw [h6]; rfl, rfl⟩
  exact C94_resends true false 100 500 _ _ _ _ _ _ _ _ both h1 (by rw [h2]; decide) (by rw [h3]; decide) h4 (by rw [h5]; decide)
    (by rw [h6]; decide) (by rw [h7]; decide) ha ha

/-- One question is not enough; the timer would have done it only a second later. -/
example : Spec.sent (l.run [.segment q, .segment q, .timer]).out = Spec.sent l.out ++ [⟨false, true, false, false, 101, 501, [1, 2, 3, 4, 5, 6]⟩] ∧
    Spec.sent (l.run [.segment q, .timer]).out = Spec.sent l.out := by decide +kernel

/-- C94_filled_partial: the first segment arrives last. -/
example : (r.run [.segment m2, .segment m3, .segment m1]).rx = [1, 2, 3, 4, 5, 6] ∧
    received (r.run [.segment m2, .segment m3, .segment m1]).out ++ (r.run [.segment m2, .segment m3, .segment m1]).rx =
      received r.out ++ r.rx ++ [1, 2] ++ [3, 4, 5, 6] := by
  obtain ⟨h1, h2, h3, h4, h5, h6, -⟩ := numbers
  refine ⟨by decide +kernel, (C94_filled_partial (m := m1) (ms := [m2, m3]) h1 h2 (by rw [h3]; decide) (by rw [h4]; decide) ahead (by decide)
    (by rw [h4]; rfl) (by decide) (by decide) (by rw [h5, h6]; decide) ?_).1⟩
  exact .cons rfl (by decide) (by decide) (.cons rfl (by decide) (by decide) .nil)

/-- C94_thrown_away: the right end sends a byte in between; the first segment is sent again and acknowledges it. -/
def r' : Sess := r.run [.segment m2, .send [9], .timer]

example : (r'.step (.segment { m1 with ackn := 502 })).rx = [1, 2] ∧ (r'.step (.segment { m1 with ackn := 502 })).ooo = [] ∧
    (r'.step (.segment { m1 with ackn := 501 })).rx = [1, 2, 3, 4] := by decide +kernel

example : (r'.step (.segment { m1 with ackn := 502 })).rcvNxt = r'.rcvNxt + 2 := by
  have h : r'.state = .established ∧ r'.rcvNxt = 101 ∧ r'.sndUna = 501 ∧ r'.sndMax = 502 := by decide +kernel
  exact (C94_thrown_away (s := r') (m := { m1 with ackn := 502 }) (x := m2) h.1 (by decide) (by rw [h.2.1]; rfl) (by decide) (by decide)
    (by rw [h.2.2.1, h.2.2.2]; decide) (by decide +kernel) ⟨rfl, by decide, by decide⟩ (by decide)).2.1

end Example.Recover

end Verif
