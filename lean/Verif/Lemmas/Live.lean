import Verif.Lemmas.SessionTimeout
import Verif.Lemmas.SessionNet
import Verif.Lemmas.Timer
import Verif.Spec.Live
/-! One end of a connection over a network that loses nothing. -/
namespace Verif.Sess
open Verif

/-- The segment carries data or an acknowledgement and nothing else. -/
def Plain (g : Seg) : Prop := g.ack = true ∧ g.syn = false ∧ g.fin = false ∧ g.rst = false

/-- The first number after the data. -/
def _root_.Verif.Seg.stop (g : Seg) : Nat := g.seq + g.data.length

/-- Segments that follow each other: numbers from `x` to `y`, acknowledgements from `u` to `w`. -/
def Trail : Nat → Nat → List (Nat × Seg) → Nat → Nat → Prop
  | x, u, [], y, w => x = y ∧ u = w
  | x, u, p :: l, y, w => Plain p.2 ∧ p.2.seq = x ∧ u ≤ p.2.ackn ∧ (p.2.data = [] → u < p.2.ackn) ∧ p.2.data.length ≤ 1460 ∧
      Trail p.2.stop p.2.ackn l y w

theorem Trail.append {x u y w z v : Nat} {l l' : List (Nat × Seg)} (h : Trail x u l y w) (h' : Trail y w l' z v) : Trail x u (l ++ l') z v := by
  induction l generalizing x u with
  | nil => obtain ⟨rfl, rfl⟩ := h; exact h'
  | cons p l ih => exact ⟨h.1, h.2.1, h.2.2.1, h.2.2.2.1, h.2.2.2.2.1, ih h.2.2.2.2.2⟩

theorem Trail.mono {x u y w : Nat} {l : List (Nat × Seg)} (h : Trail x u l y w) : x ≤ y ∧ u ≤ w := by
  induction l generalizing x u with
  | nil => obtain ⟨rfl, rfl⟩ := h; exact ⟨Nat.le_refl _, Nat.le_refl _⟩
  | cons p l ih =>
    have := ih h.2.2.2.2.2
    have h1 := h.2.1
    have h2 := h.2.2.1
    unfold Seg.stop at this
    omega

theorem Trail.mem {x u y w : Nat} {l : List (Nat × Seg)} (h : Trail x u l y w) {p : Nat × Seg} (hp : p ∈ l) :
    x ≤ p.2.seq ∧ p.2.stop ≤ y ∧ u ≤ p.2.ackn ∧ p.2.ackn ≤ w := by
  induction l generalizing x u with
  | nil => cases hp
  | cons q l ih =>
    have h0 := h.2.2.2.2.2.mono
    have h1 := h.2.1
    have h2 := h.2.2.1
    rcases List.mem_cons.1 hp with rfl | hp
    · exact ⟨by omega, h0.1, h2, h0.2⟩
    · have := ih h.2.2.2.2.2 hp
      unfold Seg.stop at *
      omega

/-- If numbers were used, there is a last segment with data. -/
theorem Trail.last {x u y w : Nat} {l : List (Nat × Seg)} (h : Trail x u l y w) (hx : x < y) : ∃ p ∈ l, p.2.data ≠ [] ∧ p.2.stop = y := by
  induction l generalizing x u with
  | nil => obtain ⟨rfl, rfl⟩ := h; omega
  | cons q l ih =>
    by_cases hq : q.2.stop < y
    · obtain ⟨p, hp, h1, h2⟩ := ih h.2.2.2.2.2 hq
      exact ⟨p, List.mem_cons_of_mem _ hp, h1, h2⟩
    · have := h.2.2.2.2.2.mono.1
      refine ⟨q, List.mem_cons_self, fun hd => ?_, by omega⟩
      have h1 := h.2.1
      unfold Seg.stop at hq this
      rw [hd, List.length_nil] at hq this
      omega

/-- What is left of the delayed acknowledgement timer. -/
def dl (s : Sess) : Int := (s.timers.get? .delayedAck).getD 0

/-- An established session that has sent `L` (after its SYN) on a network that loses nothing. -/
structure Sends (s : Sess) (L : List (Nat × Seg)) (now : Nat) : Prop where
  state : s.state = .established
  closes : s.closes = false
  ooo : s.ooo = []
  una : s.sndIni + 1 ≤ s.sndUna
  unaNxt : s.sndUna ≤ s.sndNxt
  max : s.sndMax = s.sndNxt
  mod : s.seqMod = s.sndUna
  tx : s.sndNxt ≤ s.sndUna + s.tx.length
  len : s.sndUna + s.tx.length = s.sndIni + 1 + (Spec.accepted s.out).length
  ewn : s.sndNxt ≤ s.sndUna + s.sndEwn
  ewn1 : 1460 ≤ s.sndEwn
  ewn2 : s.sndEwn ≤ 65535
  mss : s.sndMss = 1460
  wsc : s.sndWsc = 1
  ack : s.rcvUna ≤ s.rcvNxt
  nodup : (Dict.keys s.timers).Nodup
  tmo : ∀ q c, s.txTmo.get? q = some c → c = 0 ∧ q < s.sndNxt ∧ ∃ x ∈ L, x.2.seq = q ∧ x.2.data ≠ [] ∧
    (now < x.1 + 1000 → s.timers.get? (.retransmit q) = some ((x.1 : Int) + 1000 - now))
  delay : ∀ v, s.timers.get? .delayedAck = some v → 1 ≤ v ∧ v ≤ 100
  times : ∀ x ∈ L, x.1 ≤ now

theorem clock_get {s : Sess} (h : (Dict.keys s.timers).Nodup) (n : TimerName) :
    s.clock.timers.get? n = (s.timers.get? n).bind fun v => if v - 1 = 0 then none else some (v - 1) := by
  have := Dict.get?_mapFilter s.timers h (fun _ v => v - 1) (fun v => decide (v ≠ 0)) n
  unfold clock
  dsimp only
  rw [this]
  congr 1
  funext v
  by_cases h : v - 1 = 0 <;> simp [h]

theorem Sends.clock {s : Sess} {L : List (Nat × Seg)} {now : Nat} (h : Sends s L now) : Sends s.clock L (now + 1) := by
  refine ⟨h.state, h.closes, h.ooo, h.una, h.unaNxt, h.max, h.mod, h.tx, h.len, h.ewn, h.ewn1, h.ewn2, h.mss, h.wsc, h.ack, nodup_clock h.nodup, ?_, ?_, ?_⟩
  · intro q c hc
    obtain ⟨h1, h2, x, hx, h3, h4, h5⟩ := h.tmo q c hc
    refine ⟨h1, h2, x, hx, h3, h4, fun hn => ?_⟩
    have := h.times x hx
    rw [clock_get h.nodup, h5 (by omega)]
    rw [Option.bind_some, if_neg (by omega)]
    exact congrArg some (by omega)
  · intro v hv
    rw [clock_get h.nodup] at hv
    cases hw : s.timers.get? .delayedAck with
    | none => rw [hw] at hv; cases hv
    | some w =>
      rw [hw] at hv
      have := h.delay w hw
      rw [Option.bind_some] at hv
      split at hv
      · cases hv
      · cases hv; omega
  · intro x hx
    exact Nat.le_succ_of_le (h.times x hx)

/-- A segment with these data is sent on an established connection. -/
def xmit (s : Sess) (d : Bytes) : Sess :=
  { s with
    out := s.out ++ [.sent ⟨false, true, false, false, s.sndNxt, s.rcvNxt, d⟩]
    rcvUna := s.rcvNxt
    sndNxt := s.sndNxt + d.length
    sndMax := Max.max s.sndMax (s.sndNxt + d.length)
    timers := if d = [] then s.timers.set .delayedAck 100 else (s.timers.set .delayedAck 100).set (.retransmit s.sndNxt) 1000
    txTmo := if d = [] then s.txTmo else s.txTmo.set s.sndNxt 0 }

theorem transmit_xmit {s : Sess} {d : Bytes} (hs : s.state = .established) (h1 : s.sndNxt ≤ 0xFFFFFFFF) (h2 : s.rcvNxt ≤ 0xFFFFFFFF)
    (ht : s.txTmo.get? s.sndNxt = none) : s.transmitPacket none false true false false d = ok (s.xmit d) := by
  unfold transmitPacket xmit
  by_cases hd : d = [] <;> simp [h1, h2, hs, ht, emit, setTimer, ok, hd]

theorem Sends.tmo_none {s : Sess} {L : List (Nat × Seg)} {now : Nat} (h : Sends s L now) : s.txTmo.get? s.sndNxt = none := by
  cases hc : s.txTmo.get? s.sndNxt with
  | none => rfl
  | some c => have := (h.tmo _ c hc).2.1; omega

theorem Sends.xmit {s : Sess} {L : List (Nat × Seg)} {now : Nat} (h : Sends s L now) {d : Bytes}
    (h1 : s.sndNxt + d.length ≤ s.sndUna + s.tx.length) (h2 : s.sndNxt + d.length ≤ s.sndUna + s.sndEwn) :
    Sends (s.xmit d) (L ++ [(now, ⟨false, true, false, false, s.sndNxt, s.rcvNxt, d⟩)]) now := by
  refine ⟨h.state, h.closes, h.ooo, h.una, Nat.le_trans h.unaNxt (Nat.le_add_right _ _), ?_, h.mod, h1, ?_, h2, h.ewn1, h.ewn2, h.mss, h.wsc, Nat.le_refl _, ?_, ?_, ?_, ?_⟩
  · show Max.max s.sndMax (s.sndNxt + d.length) = s.sndNxt + d.length
    rw [h.max]; omega
  · show s.sndUna + s.tx.length = s.sndIni + 1 + (Spec.accepted (s.out ++ [.sent _])).length
    simp [h.len]
  · show (Dict.keys (if d = [] then _ else _)).Nodup
    split
    · exact Dict.nodup_set _ _ h.nodup
    · exact Dict.nodup_set _ _ (Dict.nodup_set _ _ h.nodup)
  · intro q c hc
    show c = 0 ∧ q < s.sndNxt + d.length ∧ _
    by_cases hd : d = []
    · subst hd
      simp only [Sess.xmit, if_true] at hc
      obtain ⟨h3, h4, x, hx, h5, h6, h7⟩ := h.tmo q c hc
      refine ⟨h3, by simpa using h4, x, List.mem_append_left _ hx, h5, h6, fun hn => ?_⟩
      simp only [Sess.xmit, if_true]
      rw [Dict.get?_set_ne _ _ (by simp)]
      exact h7 hn
    · have hl : 0 < d.length := List.length_pos_iff.2 hd
      simp only [Sess.xmit, if_neg hd] at hc ⊢
      rw [Dict.get?_set] at hc
      split at hc
      · rename_i hq
        cases hc
        subst hq
        refine ⟨rfl, by omega, _, List.mem_append_right _ (List.mem_singleton.2 rfl), rfl, hd, fun _ => ?_⟩
        rw [Dict.get?_set_self]
        exact congrArg some (by dsimp only; omega)
      · rename_i hq
        obtain ⟨h3, h4, x, hx, h5, h6, h7⟩ := h.tmo q c hc
        refine ⟨h3, by omega, x, List.mem_append_left _ hx, h5, h6, fun hn => ?_⟩
        rw [Dict.get?_set_ne _ _ (by simpa using hq), Dict.get?_set_ne _ _ (by simp)]
        exact h7 hn
  · intro v hv
    have : (s.xmit d).timers.get? .delayedAck = some 100 := by
      simp only [Sess.xmit]
      split
      · exact Dict.get?_set_self ..
      · rw [Dict.get?_set_ne _ _ (by simp), Dict.get?_set_self]
    rw [this] at hv
    cases hv
    omega
  · intro x hx
    rcases List.mem_append.1 hx with hx | hx
    · exact h.times x hx
    · rw [List.mem_singleton.1 hx]

theorem Sends.setDelay {s : Sess} {L : List (Nat × Seg)} {now : Nat} (h : Sends s L now) : Sends (s.setTimer .delayedAck 100) L now := by
  refine ⟨h.state, h.closes, h.ooo, h.una, h.unaNxt, h.max, h.mod, h.tx, h.len, h.ewn, h.ewn1, h.ewn2, h.mss, h.wsc, h.ack, Dict.nodup_set _ _ h.nodup, ?_, ?_, h.times⟩
  · intro q c hc
    obtain ⟨h1, h2, x, hx, h3, h4, h5⟩ := h.tmo q c hc
    refine ⟨h1, h2, x, hx, h3, h4, fun hn => ?_⟩
    show Dict.get? (Dict.set _ _ _) _ = _
    rw [Dict.get?_set_ne _ _ (by simp)]
    exact h5 hn
  · intro v hv
    have : (s.setTimer .delayedAck 100).timers.get? .delayedAck = some 100 := Dict.get?_set_self ..
    rw [this] at hv
    cases hv
    omega

/-- What one millisecond does to one end. -/
structure Ticked (s s' : Sess) (new : List Seg) : Prop where
  out : s'.out = s.out ++ new.map .sent
  ini : s'.sndIni = s.sndIni
  una : s'.sndUna = s.sndUna
  rcv : s'.rcvNxt = s.rcvNxt
  rx : s'.rx = s.rx
  trail : ∀ t, Trail s.sndNxt s.rcvUna (new.map fun g => (t, g)) s'.sndNxt s'.rcvUna
  acks : s'.rcvUna = s.rcvNxt ∨ s'.rcvUna = s.rcvUna ∧ 1 ≤ s'.dl ∧ s'.dl + 1 = s.dl
  prog : min (s.sndUna + s.tx.length) (s.sndUna + 1460) ≤ s'.sndNxt

theorem timeout_ok {s : Sess} (h : ∀ c, s.txTmo.get? s.sndUna = some c → s.expired (.retransmit s.sndUna) = false) : s.retransmitTimeout = ok s := by
  unfold retransmitTimeout
  cases hc : s.txTmo.get? s.sndUna with
  | none => rfl
  | some c => simp [h c hc]

theorem Sends.timeout {s : Sess} {L : List (Nat × Seg)} {now : Nat} (h : Sends s L now)
    (hot : ∀ x ∈ L, x.2.data ≠ [] → s.sndUna < x.2.stop → now < x.1 + 1000) : s.retransmitTimeout = ok s := by
  refine timeout_ok fun c hc => ?_
  obtain ⟨-, -, x, hx, h1, h2, h3⟩ := h.tmo _ c hc
  have hn := hot x hx h2 (by unfold Seg.stop; have := List.length_pos_iff.2 h2; omega)
  unfold expired
  rw [h3 hn]
  simp
  omega

theorem Sends.transmit {s : Sess} {L : List (Nat × Seg)} {now : Nat} (h : Sends s L now) (h1 : s.sndNxt ≤ 0xFFFFFFFF) (h2 : s.rcvNxt ≤ 0xFFFFFFFF) :
    (s.transmitData = ok s ∧ min (s.sndUna + s.tx.length) (s.sndUna + 1460) ≤ s.sndNxt) ∨
    ∃ d, d ≠ [] ∧ s.transmitData = ok (s.xmit d) ∧ d.length ≤ 1460 ∧ s.sndNxt + d.length ≤ s.sndUna + s.tx.length ∧
      s.sndNxt + d.length ≤ s.sndUna + s.sndEwn ∧ min (s.sndUna + s.tx.length) (s.sndUna + 1460) ≤ s.sndNxt + d.length := by
  have hn : s.txNxt = s.sndNxt - s.sndUna := by unfold txNxt; rw [h.mod]; omega
  have a1 := h.unaNxt
  have a2 := h.tx
  have a3 := h.ewn
  have a4 := h.ewn1
  by_cases hr : s.sndNxt = s.sndUna + s.tx.length ∨ s.sndNxt = s.sndUna + s.sndEwn
  · refine .inl ⟨?_, by omega⟩
    unfold transmitData
    rw [if_neg (by simp; exact ⟨a1, a3⟩), if_neg (by simp [h.state]), if_neg (by simp [h.state])]
    dsimp only
    rw [hn]
    by_cases hr' : s.sndNxt = s.sndUna + s.tx.length
    · rw [if_neg (by rw [h.state]; simp; omega), if_neg (by simp [h.state])]
    · rw [if_pos (by rw [h.state]; simp; omega), if_neg ?_]
      rw [h.mss]
      omega
  · obtain ⟨n, hn0⟩ : ∃ n, n = min (min 1460 (s.sndUna + s.sndEwn - s.sndNxt)) (s.sndUna + s.tx.length - s.sndNxt) := ⟨_, rfl⟩
    have hlen : ((s.tx.drop s.txNxt).take n).length = n := by rw [List.length_take, List.length_drop]; omega
    refine .inr ⟨(s.tx.drop s.txNxt).take n, ?_, ?_, by omega, by omega, by omega, by omega⟩
    · intro h0
      rw [h0] at hlen
      simp at hlen
      omega
    · rw [← transmit_xmit h.state h1 h2 h.tmo_none]
      unfold transmitData
      rw [if_neg (by simp; exact ⟨a1, a3⟩), if_neg (by simp [h.state]), if_neg (by simp [h.state])]
      dsimp only
      have e : min (min (s.sndMss : Int) ((s.sndEwn : Int) - s.txNxt)) ((s.tx.length : Int) - s.txNxt) = (n : Int) := by
        rw [h.mss, hn]; omega
      rw [e, if_pos (by rw [h.state, hn]; simp; omega), if_pos (by omega), pySlice_nat (by omega)]

theorem fsm_established {s : Sess} (h : s.state = .established) (hc : s.closes = false) :
    s.fsm .timer = s.retransmitTimeout.next fun s => s.transmitData.next fun s => s.delayedAck.next fun s =>
      if s.closes ∧ s.tx = [] then s.changeState .finWait1 else ok s := by
  unfold fsm fsmFuel fsmWith
  rw [h]
  rfl

@[simp] theorem ok_next (s : Sess) (k : Sess → Res) : (ok s).next k = k s := rfl
@[simp] theorem ok_done (s : Sess) : (ok s).done = s := rfl

theorem dl_set (s : Sess) : (s.setTimer .delayedAck 100).dl = 100 := by
  unfold dl setTimer
  dsimp only
  rw [Dict.get?_set_self]; rfl

theorem Sends.tick {s : Sess} {L : List (Nat × Seg)} {now : Nat} (h : Sends s L now)
    (hot : ∀ x ∈ L, x.2.data ≠ [] → s.sndUna < x.2.stop → now + 1 < x.1 + 1000)
    (h1 : s.sndIni + 1 + (Spec.accepted s.out).length ≤ 0xFFFFFFFF) (h2 : s.rcvNxt ≤ 0xFFFFFFFF) :
    ∃ new : List Seg, Ticked s ((s.step .clock).step .timer) new ∧
      Sends ((s.step .clock).step .timer) (L ++ new.map fun g => (now + 1, g)) (now + 1) := by
  have hc := h.clock
  have hd : s.clock.dl = s.dl - 1 ∧ 1 ≤ s.clock.dl ∨ s.clock.expired .delayedAck = true := by
    unfold dl expired
    rw [clock_get h.nodup]
    cases hw : s.timers.get? .delayedAck with
    | none => right; rfl
    | some w =>
      have := h.delay w hw
      rw [Option.bind_some]
      split
      · right; rfl
      · left; simp; omega
  have he : ∀ t : Sess, 1 ≤ t.dl → t.expired .delayedAck = false := by
    intro t ht
    unfold dl at ht
    unfold expired
    cases hw : t.timers.get? .delayedAck with
    | none => rw [hw] at ht; simp at ht
    | some w => rw [hw] at ht; simp at ht ⊢; omega
  have htx := h.tx
  have hlen := h.len
  have hcl : s.clock.closes = false := h.closes
  have e0 : (s.step .clock).step .timer = (s.clock.fsm .timer).done := rfl
  rw [e0, fsm_established hc.state hcl, hc.timeout hot]
  rw [ok_next]
  rcases hc.transmit (show s.sndNxt ≤ _ by omega) h2 with ⟨e1, hp⟩ | ⟨d, hd0, e1, hd1, hd2, hd3, hp⟩
  · rw [e1, ok_next]
    unfold delayedAck
    rcases hd with ⟨hd, hd'⟩ | hd
    · rw [he _ hd', if_neg (by simp), ok_next, hcl]
      simp only [Bool.false_eq_true, false_and, if_false, ok_done]
      exact ⟨[], ⟨by simp [Sess.clock], rfl, rfl, rfl, rfl, fun _ => ⟨rfl, rfl⟩, .inr ⟨rfl, hd', by omega⟩, hp⟩, by simpa using hc⟩
    · rw [hd, if_pos rfl]
      by_cases hr : s.clock.rcvNxt > s.clock.rcvUna
      · rw [if_pos hr, transmit_xmit hc.state (show s.sndNxt ≤ _ by omega) h2 hc.tmo_none, ok_next, ok_next]
        have : ((s.clock.xmit []).setTimer .delayedAck 100).closes = false := hcl
        rw [if_neg (by rw [this]; simp), ok_done]
        refine ⟨[⟨false, true, false, false, s.sndNxt, s.rcvNxt, []⟩], ⟨rfl, rfl, rfl, rfl, rfl, fun _ => ?_, .inl rfl, hp⟩, ?_⟩
        · exact ⟨⟨rfl, rfl, rfl, rfl⟩, rfl, h.ack, fun _ => hr, by simp, rfl, rfl⟩
        · exact (hc.xmit (d := []) hc.tx hc.ewn).setDelay
      · rw [if_neg hr, ok_next, ok_next]
        have : (s.clock.setTimer .delayedAck 100).closes = false := hcl
        rw [if_neg (by rw [this]; simp), ok_done]
        have ha : s.rcvUna ≤ s.rcvNxt := h.ack
        have hr' : ¬ s.rcvNxt > s.rcvUna := hr
        exact ⟨[], ⟨(List.append_nil _).symm, rfl, rfl, rfl, rfl, fun _ => ⟨rfl, rfl⟩, .inl (show s.rcvUna = s.rcvNxt by omega), hp⟩, by
          simpa using hc.setDelay⟩
  · rw [e1, ok_next]
    have hx := hc.xmit hd2 hd3
    have hdl : (s.clock.xmit d).dl = 100 := by
      unfold dl Sess.xmit
      dsimp only
      rw [if_neg hd0, Dict.get?_set_ne _ _ (by simp), Dict.get?_set_self]; rfl
    unfold delayedAck
    have : (s.clock.xmit d).closes = false := hcl
    rw [he _ (by omega), if_neg (by simp), ok_next, this]
    simp only [Bool.false_eq_true, false_and, if_false, ok_done]
    refine ⟨[⟨false, true, false, false, s.sndNxt, s.rcvNxt, d⟩], ⟨rfl, rfl, rfl, rfl, rfl, fun _ => ?_, .inl rfl, hp⟩, hx⟩
    exact ⟨⟨rfl, rfl, rfl, rfl⟩, rfl, h.ack, fun h0 => absurd h0 hd0, hd1, rfl, rfl⟩

/-- What the arrival of the next segment does to one end. -/
structure Arrived (s s' : Sess) (m : TcpMd) : Prop where
  out : s'.out = s.out
  ini : s'.sndIni = s.sndIni
  una : s'.sndUna = m.ackn
  nxt : s'.sndNxt = s.sndNxt
  rcv : s'.rcvNxt = s.rcvNxt + m.data.length
  rcvUna : s'.rcvUna = s.rcvUna
  rx : s'.rx = s.rx ++ m.data
  timers : s'.timers = s.timers

theorem Sends.arrive {s : Sess} {L : List (Nat × Seg)} {now : Nat} (h : Sends s L now) {m : TcpMd} (hf : isAck m = true)
    (hs : m.seq = s.rcvNxt) (hu : s.sndUna ≤ m.ackn) (hn : m.ackn ≤ s.sndNxt) (hd : m.data = [] → s.sndUna < m.ackn)
    (hl : m.data.length ≤ 1460) (hw : m.win = 65535) :
    Arrived s (s.step (.segment m)) m ∧ Sends (s.step (.segment m)) L now := by
  have hf' : m.syn = false ∧ m.fin = false := by
    simp only [isAck, Bool.and_eq_true, Bool.not_eq_true'] at hf
    exact ⟨hf.1.1.2, hf.2⟩
  have a1 := h.una
  have a2 := h.tx
  have a3 := h.ewn
  have a4 := h.ewn1
  have a5 := h.ewn2
  have a6 := h.len
  have e : s.step (.segment m) = s.ackUpdate m := by
    show (s.fsm (.packet m)).done = _
    unfold fsm fsmFuel fsmWith
    rw [h.state]
    unfold fsmEstablished
    dsimp only
    rw [if_neg (by simp; omega), if_pos hf, if_neg (by rintro ⟨-, x, y⟩; have := hd y; omega), if_neg (by omega),
      if_pos ⟨hs, by simp [acceptable, h.max, hu, hn]⟩]
    unfold processAck
    dsimp only
    rw [show (s.ackUpdate m).ooo = [] from by rw [ackUpdate_eq]; exact h.ooo]
    rfl
  have hmax : Max.max s.sndUna m.ackn = m.ackn := by omega
  have hz : (((m.ackn : Nat) : Int) - s.seqMod).toNat = m.ackn - s.sndUna := by rw [h.mod]; omega
  have e' : s.ackUpdate m = { s with
      sndUna := m.ackn
      rcvNxt := s.rcvNxt + m.data.length
      rx := s.rx ++ m.data
      evRx := if m.data ≠ [] ∧ s.evRx = 0 then 1 else s.evRx
      tx := s.tx.drop (m.ackn - s.sndUna)
      seqMod := m.ackn
      sndWnd := 65535
      sndEwn := min (s.sndEwn * 2) 65535
      txReq := s.txReq.filter (fun e => ¬ e.1 < m.ackn)
      txTmo := s.txTmo.filter (fun e => ¬ e.1 < m.ackn)
      rxReq := s.rxReq.filter (fun e => ¬ e.1 < s.rcvNxt + m.data.length) } := by
    rw [ackUpdate_eq, hmax, hz, hf'.1, hf'.2, if_neg (by omega), hw, h.wsc, hs]
    have : s.seqMod + ((m.ackn - s.sndUna : Nat) : Int) = m.ackn := by rw [h.mod]; omega
    rw [this]
    rfl
  rw [e, e']
  refine ⟨⟨rfl, rfl, rfl, rfl, rfl, rfl, rfl, rfl⟩, h.state, h.closes, h.ooo, by dsimp only; omega, hn, h.max, rfl, ?_, ?_, by dsimp only; omega, by dsimp only; omega,
    by dsimp only; omega, h.mss, h.wsc, Nat.le_trans h.ack (Nat.le_add_right _ _), h.nodup, ?_, h.delay, h.times⟩
  · dsimp only; rw [List.length_drop]; omega
  · dsimp only; rw [List.length_drop]; omega
  · intro q c hc
    exact h.tmo q c (get?_of_filter _ _ _ hc)

/-- What a call does to one end. -/
structure Called (s s' : Sess) : Prop where
  aside : Aside s s'
  rx : Spec.received s'.out ++ s'.rx = Spec.received s.out ++ s.rx
  tx : ∃ d, s'.tx = s.tx ++ d ∧ Spec.accepted s'.out = Spec.accepted s.out ++ d ∧ (d ≠ [] → s.state = .established ∨ s.state = .closeWait)

theorem call {s : Sess} {e : Ev} (h : Spec.Call e) : Called s (s.step e) := by
  cases h with
  | send d =>
    refine ⟨aside_send s d, ?_, ?_⟩
    · show Spec.received (s.send d).out ++ (s.send d).rx = _
      unfold send; split <;> simp [emit, Spec.received_one (o := .rejected) rfl]
    · show ∃ d', (s.send d).tx = _ ∧ Spec.accepted (s.send d).out = _ ∧ _
      unfold send
      split
      · rename_i hst
        exact ⟨d, rfl, by simp, fun _ => hst⟩
      · exact ⟨[], by simp [emit], by simp [emit, Spec.accepted_one (o := .rejected) rfl], fun hn => absurd rfl hn⟩
  | recvAcquire =>
    refine ⟨aside_acquire s, ?_, [], ?_⟩
    · show Spec.received s.recvAcquire.out ++ s.recvAcquire.rx = _
      unfold recvAcquire; split <;> rfl
    · show s.recvAcquire.tx = _ ∧ Spec.accepted s.recvAcquire.out = _ ∧ _
      unfold recvAcquire; split <;> simp
  | recvTake n =>
    refine ⟨aside_take s n, ?_, [], ?_⟩
    · show Spec.received (s.recvTake n).out ++ (s.recvTake n).rx = _
      rcases recvTake_cases s n with x | ⟨k, e, x⟩ <;> rw [x]
      simp
    · show (s.recvTake n).tx = _ ∧ Spec.accepted (s.recvTake n).out = _ ∧ _
      rcases recvTake_cases s n with x | ⟨k, e, x⟩ <;> rw [x] <;> simp
  | connectReturn =>
    refine ⟨aside_connect s, ?_, [], ?_⟩
    · show Spec.received s.connectReturn.out ++ s.connectReturn.rx = _
      unfold connectReturn
      split
      · rfl
      · dsimp only
        split
        · simp [emit, Spec.received_one (o := .connected .refused) rfl]
        · split
          · simp [emit, Spec.received_one (o := .connected .timeout) rfl]
          · simp [emit, Spec.received_one (o := .connected .none) rfl]
    · show s.connectReturn.tx = _ ∧ Spec.accepted s.connectReturn.out = _ ∧ _
      unfold connectReturn
      split
      · simp
      · dsimp only
        split
        · simp [emit, Spec.accepted_one (o := .connected .refused) rfl]
        · split
          · simp [emit, Spec.accepted_one (o := .connected .timeout) rfl]
          · simp [emit, Spec.accepted_one (o := .connected .none) rfl]

theorem Sends.call {s s' : Sess} {L : List (Nat × Seg)} {now : Nat} (h : Sends s L now) (hc : Called s s') : Sends s' L now := by
  obtain ⟨d, h1, h2, -⟩ := hc.tx
  have ht := hc.aside.2.1
  have hb := hc.aside.1
  unfold Beside at hb
  have hl := h.len
  have htx := h.tx
  refine ⟨by rw [hb]; exact h.state, by rw [hb]; exact h.closes, by rw [hb]; exact h.ooo, by rw [hb]; exact h.una, by rw [hb]; exact h.unaNxt,
    by rw [hb]; exact h.max, by rw [hb]; exact h.mod, ?_, ?_, by rw [hb]; exact h.ewn, by rw [hb]; exact h.ewn1, by rw [hb]; exact h.ewn2,
    by rw [hb]; exact h.mss, by rw [hb]; exact h.wsc, by rw [hb]; exact h.ack, by rw [ht]; exact h.nodup, ?_, by rw [ht]; exact h.delay, h.times⟩
  · rw [h1, List.length_append, show s'.sndNxt = s.sndNxt by rw [hb], show s'.sndUna = s.sndUna by rw [hb]]
    omega
  · rw [h1, h2, List.length_append, List.length_append, show s'.sndIni = s.sndIni by rw [hb], show s'.sndUna = s.sndUna by rw [hb]]
    omega
  · intro q c hq
    rw [show s'.txTmo = s.txTmo by rw [hb]] at hq
    rw [ht, show s'.sndNxt = s.sndNxt by rw [hb]]
    exact h.tmo q c hq

end Verif.Sess
