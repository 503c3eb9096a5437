import Verif.Lemmas.Release
/-! Both ends of a connection that is being closed, over a network that loses nothing. -/
namespace Verif.Release
open Verif Spec Sess

/-- The other end, before it knows that we have closed. -/
structure Up (b : Sess) (y x : Nat) (WB : Bytes) : Prop where
  rest : Rest b .established y x WB
  delay : DelayOk b
  una : b.rcvUna = x
  closes : b.closes = false

/-- The other end has got the FIN and has not gone on to its own.  It has acknowledged what is below `u`.  If its application has closed,
it did not do so after `tc`. -/
structure Told (b : Sess) (y x : Nat) (WB : Bytes) (u tc now : Nat) : Prop where
  rest : Rest b .closeWait y (x + 1) WB
  delay : DelayOk b
  una : b.rcvUna = u
  closes : b.closes = true → now ≤ tc

/-- The other end is about to send its FIN. -/
structure Last (b : Sess) (y x : Nat) (WB : Bytes) (tc now : Nat) : Prop where
  rest : Rest b .lastAck y (x + 1) WB
  closes : now ≤ tc + 1

/-- The other end has sent its FIN. -/
structure Out (b : Sess) (y x : Nat) (WB : Bytes) (t tc now : Nat) : Prop where
  fin : FinOut b .lastAck y (x + 1) WB t now
  closes : t ≤ tc + 2

/-- The phases.  Before, `L` was sent from the left, `M` from the right, and all of it has arrived.  `x` and `y` are the numbers of the two
FINs.  The left end has gone to FIN_WAIT_1 not after `T`. -/
inductive Rel (D x y : Nat) (WA WB : Bytes) (L M : List (Nat × Seg)) (T tc : Nat) : Link → Prop
  | calm {a b : Sess} {now : Nat} : Rest a .finWait1 x y WA → Up b y x WB → now ≤ T → Rel D x y WA WB L M T tc ⟨a, b, L, M, M.length, L.length, now⟩
  | fin {a b : Sess} {t now : Nat} : FinOut a .finWait1 x y WA t now → Up b y x WB → t ≤ T + 1 → now ≤ t + D →
      Rel D x y WA WB L M T tc ⟨a, b, L ++ [(t, finOf x y)], M, M.length, L.length, now⟩
  | told {a b : Sess} {t now : Nat} : FinOut a .finWait1 x y WA t now → Told b y x WB x tc now → t ≤ T + 1 → (now : Int) + b.dl ≤ t + D + 100 →
      Rel D x y WA WB L M T tc ⟨a, b, L ++ [(t, finOf x y)], M, M.length, L.length + 1, now⟩
  | last {a b : Sess} {t now : Nat} : FinOut a .finWait1 x y WA t now → Last b y x WB tc now → t ≤ T + 1 → now ≤ t + D + 101 →
      Rel D x y WA WB L M T tc ⟨a, b, L ++ [(t, finOf x y)], M, M.length, L.length + 1, now⟩
  | acked {a b : Sess} {t t' now : Nat} : FinOut a .finWait1 x y WA t now → Told b y x WB (x + 1) tc now ∨ Last b y x WB tc now → t ≤ T + 1 →
      t' ≤ t + D + 101 → now ≤ t' + D →
      Rel D x y WA WB L M T tc ⟨a, b, L ++ [(t, finOf x y)], M ++ [(t', ackOf y (x + 1))], M.length, L.length + 1, now⟩
  | ackedOut {a b : Sess} {t t' t'' now : Nat} : FinOut a .finWait1 x y WA t now → Out b y x WB t'' tc now → t ≤ T + 1 →
      t' ≤ t + D + 101 → now ≤ t' + D → now ≤ t'' + D →
      Rel D x y WA WB L M T tc ⟨a, b, L ++ [(t, finOf x y)], M ++ [(t', ackOf y (x + 1)), (t'', finOf y (x + 1))], M.length, L.length + 1, now⟩
  | direct {a b : Sess} {t t'' now : Nat} : FinOut a .finWait1 x y WA t now → Out b y x WB t'' tc now → t ≤ T + 1 →
      t'' ≤ t + D + 102 → now ≤ t'' + D →
      Rel D x y WA WB L M T tc ⟨a, b, L ++ [(t, finOf x y)], M ++ [(t'', finOf y (x + 1))], M.length, L.length + 1, now⟩
  | half {a b : Sess} {t t' now : Nat} : FinDone a .finWait2 x y WA → Told b y x WB (x + 1) tc now ∨ Last b y x WB tc now →
      Rel D x y WA WB L M T tc ⟨a, b, L ++ [(t, finOf x y)], M ++ [(t', ackOf y (x + 1))], M.length + 1, L.length + 1, now⟩
  | halfOut {a b : Sess} {t t' t'' now : Nat} : FinDone a .finWait2 x y WA → Out b y x WB t'' tc now → now ≤ t'' + D →
      Rel D x y WA WB L M T tc ⟨a, b, L ++ [(t, finOf x y)], M ++ [(t', ackOf y (x + 1)), (t'', finOf y (x + 1))], M.length + 1, L.length + 1, now⟩
  | wait {a b : Sess} {t t'' s now : Nat} {N : List (Nat × Seg)} : Waits a WA s now → Out b y x WB t'' tc now → s ≤ t'' + D → now ≤ s + D →
      (∀ p ∈ N, p.2.rst = false) → (N.filter fun p => p.2.fin).length = 1 →
      Rel D x y WA WB L M T tc ⟨a, b, L ++ [(t, finOf x y), (s, ackOf (x + 1) (y + 1))], M ++ N, M.length + N.length, L.length + 1, now⟩
  | alone {a b : Sess} {t s now : Nat} {N : List (Nat × Seg)} : Waits a WA s now ∧ now < s + 30000 ∨ Gone a WA → Gone b WB → s ≤ tc + 2 + D →
      (∀ p ∈ N, p.2.rst = false) → (N.filter fun p => p.2.fin).length = 1 →
      Rel D x y WA WB L M T tc ⟨a, b, L ++ [(t, finOf x y), (s, ackOf (x + 1) (y + 1))], M ++ N, M.length + N.length, L.length + 2, now⟩

section
variable {D x y : Nat} {WA WB : Bytes} {L M : List (Nat × Seg)} {T tc : Nat} {l : Link}

theorem callA_looks {l : Link} {e : Ev} (h : Looks l.a (l.a.step e)) : l.act (.callA e) = { l with a := l.a.step e } := by
  show l.doA e = _
  rw [doA_eq (new := []) (by rw [h.sent, List.append_nil])]
  simp

theorem callB_looks {l : Link} {e : Ev} (h : Looks l.b (l.b.step e)) : l.act (.callB e) = { l with b := l.b.step e } := by
  show l.doB e = _
  rw [doB_eq (new := []) (by rw [h.sent, List.append_nil])]
  simp

theorem Rel.stateA (h : Rel D x y WA WB L M T tc l) : l.a.state = .finWait1 ∨ l.a.state = .finWait2 ∨ l.a.state = .timeWait ∨ l.a.state = .closed := by
  cases h with
  | calm h => exact .inl h.base.state
  | fin h => exact .inl h.base.state
  | told h => exact .inl h.base.state
  | last h => exact .inl h.base.state
  | acked h => exact .inl h.base.state
  | ackedOut h => exact .inl h.base.state
  | direct h => exact .inl h.base.state
  | half h => exact .inr (.inl h.base.state)
  | halfOut h => exact .inr (.inl h.base.state)
  | wait h => exact .inr (.inr (.inl h.state))
  | alone h =>
    rcases h with h | h
    · exact .inr (.inr (.inl h.1.state))
    · exact .inr (.inr (.inr h.state))

theorem Rel.looksA (h : Rel D x y WA WB L M T tc l) {a' : Sess} (hl : Looks l.a a') : Rel D x y WA WB L M T tc { l with a := a' } := by
  cases h with
  | calm h1 h2 h3 => exact .calm (h1.looks hl) h2 h3
  | fin h1 h2 h3 h4 => exact .fin (h1.looks hl) h2 h3 h4
  | told h1 h2 h3 h4 => exact .told (h1.looks hl) h2 h3 h4
  | last h1 h2 h3 h4 => exact .last (h1.looks hl) h2 h3 h4
  | acked h1 h2 h3 h4 h5 => exact .acked (h1.looks hl) h2 h3 h4 h5
  | ackedOut h1 h2 h3 h4 h5 h6 => exact .ackedOut (h1.looks hl) h2 h3 h4 h5 h6
  | direct h1 h2 h3 h4 h5 => exact .direct (h1.looks hl) h2 h3 h4 h5
  | half h1 h2 => exact .half (h1.looks hl) h2
  | halfOut h1 h2 h3 => exact .halfOut (h1.looks hl) h2 h3
  | wait h1 h2 h3 h4 h5 h6 => exact .wait (h1.looks hl) h2 h3 h4 h5 h6
  | alone h1 h2 h3 h4 h5 =>
    refine .alone ?_ h2 h3 h4 h5
    rcases h1 with h1 | h1
    · exact .inl ⟨h1.1.looks hl, h1.2⟩
    · exact .inr (h1.looks hl)

theorem Up.looks {b b' : Sess} (h : Up b y x WB) (hl : Looks b b') (hc : b'.closes = b.closes) : Up b' y x WB :=
  ⟨h.rest.looks hl, h.delay.looks hl, by rw [hl.eq]; exact h.una, by rw [hc]; exact h.closes⟩

theorem Told.looks {b b' : Sess} {u now : Nat} (h : Told b y x WB u tc now) (hl : Looks b b') (hc : b'.closes = b.closes ∨ now ≤ tc) :
    Told b' y x WB u tc now :=
  ⟨h.rest.looks hl, h.delay.looks hl, by rw [hl.eq]; exact h.una, fun k => by
    rcases hc with hc | hc
    · exact h.closes (by rw [← hc]; exact k)
    · exact hc⟩

theorem Last.looks {b b' : Sess} {now : Nat} (h : Last b y x WB tc now) (hl : Looks b b') : Last b' y x WB tc now := ⟨h.rest.looks hl, h.closes⟩

theorem Out.looks {b b' : Sess} {t now : Nat} (h : Out b y x WB t tc now) (hl : Looks b b') : Out b' y x WB t tc now := ⟨h.fin.looks hl, h.closes⟩

/-- The second application looks at what is there, or closes, in time. -/
theorem Rel.looksB (h : Rel D x y WA WB L M T tc l) {b' : Sess} (hl : Looks l.b b')
    (hc : b'.closes = l.b.closes ∨ l.b.state ≠ .established ∧ l.now ≤ tc) : Rel D x y WA WB L M T tc { l with b := b' } := by
  have hc' : b'.closes = l.b.closes ∨ l.now ≤ tc := by
    rcases hc with hc | hc
    · exact .inl hc
    · exact .inr hc.2
  cases h with
  | calm h1 h2 h3 =>
    rcases hc with hc | hc
    · exact .calm h1 (h2.looks hl hc) h3
    · exact absurd h2.rest.base.state hc.1
  | fin h1 h2 h3 h4 =>
    rcases hc with hc | hc
    · exact .fin h1 (h2.looks hl hc) h3 h4
    · exact absurd h2.rest.base.state hc.1
  | told h1 h2 h3 h4 => exact .told h1 (h2.looks hl hc') h3 (by rw [hl.dl]; exact h4)
  | last h1 h2 h3 h4 => exact .last h1 (h2.looks hl) h3 h4
  | acked h1 h2 h3 h4 h5 =>
    refine .acked h1 ?_ h3 h4 h5
    rcases h2 with h2 | h2
    · exact .inl (h2.looks hl hc')
    · exact .inr (h2.looks hl)
  | ackedOut h1 h2 h3 h4 h5 h6 => exact .ackedOut h1 (h2.looks hl) h3 h4 h5 h6
  | direct h1 h2 h3 h4 h5 => exact .direct h1 (h2.looks hl) h3 h4 h5
  | half h1 h2 =>
    refine .half h1 ?_
    rcases h2 with h2 | h2
    · exact .inl (h2.looks hl hc')
    · exact .inr (h2.looks hl)
  | halfOut h1 h2 h3 => exact .halfOut h1 (h2.looks hl) h3
  | wait h1 h2 h3 h4 h5 h6 => exact .wait h1 (h2.looks hl) h3 h4 h5 h6
  | alone h1 h2 h3 h4 h5 => exact .alone h1 (h2.looks hl) h3 h4 h5

/-! ### Arrivals -/

theorem Rel.arriveB (h : Rel D x y WA WB L M T tc l) (hD : D ≤ 400) : Rel D x y WA WB L M T tc (l.act .arriveB) := by
  cases h with
  | calm h1 h2 h3 => rw [arriveB_none (by simp)]; exact .calm h1 h2 h3
  | @fin a b t now h1 h2 h3 h4 =>
    obtain ⟨k1, k2, k3, k4, k5⟩ := h2.rest.told (o := a)
    rw [arriveB_eq (x := (t, finOf x y)) (new := []) (by simp) k5]
    simp only [List.map_nil, List.append_nil]
    have hd : DelayOk (b.step (.segment (asSeen a (finOf x y)))) := by unfold DelayOk; rw [k3]; exact h2.delay
    refine .told h1 ⟨k1, hd, by rw [k2]; exact h2.una, fun k => ?_⟩ h3 ?_
    · rw [k4, h2.closes] at k; cases k
    · have : (b.step (.segment (asSeen a (finOf x y)))).dl ≤ 100 := by
        unfold Sess.dl
        cases hw : (b.step (.segment (asSeen a (finOf x y)))).timers.get? .delayedAck with
        | none => simp
        | some w => have := (hd w hw).2; simpa using this
      omega
  | told h1 h2 h3 h4 => rw [arriveB_none (by simp)]; exact .told h1 h2 h3 h4
  | last h1 h2 h3 h4 => rw [arriveB_none (by simp)]; exact .last h1 h2 h3 h4
  | acked h1 h2 h3 h4 h5 => rw [arriveB_none (by simp)]; exact .acked h1 h2 h3 h4 h5
  | ackedOut h1 h2 h3 h4 h5 h6 => rw [arriveB_none (by simp)]; exact .ackedOut h1 h2 h3 h4 h5 h6
  | direct h1 h2 h3 h4 h5 => rw [arriveB_none (by simp)]; exact .direct h1 h2 h3 h4 h5
  | half h1 h2 => rw [arriveB_none (by simp)]; exact .half h1 h2
  | halfOut h1 h2 h3 => rw [arriveB_none (by simp)]; exact .halfOut h1 h2 h3
  | @wait a b t t'' s now N h1 h2 h3 h4 h5 h6 =>
    obtain ⟨k1, k2⟩ := h2.fin.last (o := a)
    rw [arriveB_eq (x := (s, ackOf (x + 1) (y + 1))) (new := []) (by simp) k2]
    simp only [List.map_nil, List.append_nil]
    have := h2.closes
    exact .alone (.inl ⟨h1, by omega⟩) k1 (by omega) h5 h6
  | alone h1 h2 h3 h4 h5 => rw [arriveB_none (by simp)]; exact .alone h1 h2 h3 h4 h5

theorem Rel.arriveA (h : Rel D x y WA WB L M T tc l) (hx : x + 1 ≤ 0xFFFFFFFF) (hy : y + 1 ≤ 0xFFFFFFFF) : Rel D x y WA WB L M T tc (l.act .arriveA) := by
  cases h with
  | calm h1 h2 h3 => rw [arriveA_none (by simp)]; exact .calm h1 h2 h3
  | fin h1 h2 h3 h4 => rw [arriveA_none (by simp)]; exact .fin h1 h2 h3 h4
  | told h1 h2 h3 h4 => rw [arriveA_none (by simp)]; exact .told h1 h2 h3 h4
  | last h1 h2 h3 h4 => rw [arriveA_none (by simp)]; exact .last h1 h2 h3 h4
  | @acked a b t t' now h1 h2 h3 h4 h5 =>
    obtain ⟨k1, k2⟩ := h1.acked (o := b)
    rw [arriveA_eq (x := (t', ackOf y (x + 1))) (new := []) (by simp) k2]
    simp only [List.map_nil, List.append_nil]
    exact .half k1 h2
  | @ackedOut a b t t' t'' now h1 h2 h3 h4 h5 h6 =>
    obtain ⟨k1, k2⟩ := h1.acked (o := b)
    rw [arriveA_eq (x := (t', ackOf y (x + 1))) (new := []) (by simp) k2]
    simp only [List.map_nil, List.append_nil]
    exact .halfOut k1 h2 h6
  | @direct a b t t'' now h1 h2 h3 h4 h5 =>
    obtain ⟨k1, k2⟩ := h1.both (o := b) hx hy now
    rw [arriveA_eq (x := (t'', finOf y (x + 1))) (new := [ackOf (x + 1) (y + 1)]) (by simp) k2]
    simp only [List.map_cons, List.map_nil, List.append_assoc, List.cons_append, List.nil_append]
    exact .wait (N := [(t'', finOf y (x + 1))]) k1 h2 h5 (by omega) (by simp [finOf]) (by simp [finOf])
  | half h1 h2 => rw [arriveA_none (by simp)]; exact .half h1 h2
  | @halfOut a b t t' t'' now h1 h2 h3 =>
    obtain ⟨k1, k2⟩ := h1.both (o := b) hx hy now
    rw [arriveA_eq (x := (t'', finOf y (x + 1))) (new := [ackOf (x + 1) (y + 1)]) (by simp) k2]
    simp only [List.map_cons, List.map_nil, List.append_assoc, List.cons_append, List.nil_append]
    exact .wait (N := [(t', ackOf y (x + 1)), (t'', finOf y (x + 1))]) k1 h2 h3 (by omega) (by simp [finOf, ackOf]) (by simp [finOf, ackOf])
  | wait h1 h2 h3 h4 h5 h6 => rw [arriveA_none (by simp)]; exact .wait h1 h2 h3 h4 h5 h6
  | alone h1 h2 h3 h4 h5 => rw [arriveA_none (by simp)]; exact .alone h1 h2 h3 h4 h5

/-! ### Milliseconds -/

theorem Up.tick {b : Sess} (h : Up b y x WB) (hx : x + 1 ≤ 0xFFFFFFFF) (hy : y + 1 ≤ 0xFFFFFFFF) :
    Up b.tick y x WB ∧ Spec.sent b.tick.out = Spec.sent b.out ++ [] := by
  obtain ⟨k1, k2, k3, new, k4, k5⟩ := h.rest.stays (.inl rfl) h.delay (by omega) (by omega) h.closes
  have hu := h.una
  rcases k5 with ⟨rfl, k5, -⟩ | ⟨-, -, k5⟩
  · exact ⟨⟨k1, k2, by rw [k5]; exact hu, k3⟩, k4⟩
  · omega

/-- The other end, when it has been told and has acknowledged. -/
theorem acked_tick {b : Sess} {now : Nat} (h : Told b y x WB (x + 1) tc now ∨ Last b y x WB tc now) (hx : x + 1 ≤ 0xFFFFFFFF) (hy : y + 1 ≤ 0xFFFFFFFF) :
    ((Told b.tick y x WB (x + 1) tc (now + 1) ∨ Last b.tick y x WB tc (now + 1)) ∧ Spec.sent b.tick.out = Spec.sent b.out ++ []) ∨
    (Out b.tick y x WB (now + 1) tc (now + 1) ∧ Spec.sent b.tick.out = Spec.sent b.out ++ [finOf y (x + 1)]) := by
  rcases h with h | h
  · have hu := h.una
    left
    cases hc : b.closes with
    | false =>
      obtain ⟨k1, k2, k3, new, k4, k5⟩ := h.rest.stays (.inr rfl) h.delay (by omega) (by omega) hc
      rcases k5 with ⟨rfl, k5, -⟩ | ⟨-, -, k5⟩
      · exact ⟨.inl ⟨k1, k2, by rw [k5]; exact hu, fun k => by rw [k3] at k; cases k⟩, k4⟩
      · omega
    | true =>
      obtain ⟨k1, new, k4, k5⟩ := h.rest.moves (.inr rfl) h.delay (by omega) (by omega) hc
      have := h.closes hc
      rcases k5 with rfl | ⟨-, k5⟩
      · exact ⟨.inr ⟨k1, by omega⟩, k4⟩
      · omega
  · right
    obtain ⟨k1, k2⟩ := h.rest.fins (.inr rfl) (by omega) (by omega) now
    have := h.closes
    exact ⟨⟨k1, by omega⟩, k2⟩

theorem Out.tick {b : Sess} {t now : Nat} (h : Out b y x WB t tc now) (hn : now + 1 < t + 1000) :
    Out b.tick y x WB t tc (now + 1) ∧ Spec.sent b.tick.out = Spec.sent b.out ++ [] := by
  obtain ⟨k1, k2⟩ := h.fin.tick (.inr rfl) hn
  exact ⟨⟨k1, h.closes⟩, k2⟩

theorem dl_nonneg {s : Sess} (h : DelayOk s) : 0 ≤ s.dl := by
  unfold Sess.dl
  cases hw : s.timers.get? .delayedAck with
  | none => simp
  | some w => have := (h w hw).1; simp; omega

theorem Rel.tick (h : Rel D x y WA WB L M T tc l) (hD : D ≤ 400) (hx : x + 1 ≤ 0xFFFFFFFF) (hy : y + 1 ≤ 0xFFFFFFFF) (hm : l.may D .tick) :
    Rel D x y WA WB L M T tc (l.act .tick) := by
  obtain ⟨mA, mB⟩ := hm
  cases h with
  | @calm a b now h1 h2 h3 =>
    obtain ⟨k1, k2⟩ := h1.fins (.inl rfl) (by omega) (by omega) now
    obtain ⟨k3, k4⟩ := h2.tick hx hy
    rw [tick_eq (l := ⟨a, b, _, _, _, _, now⟩) (p := [finOf x y]) (q := []) k2 k4]
    simp only [List.map_cons, List.map_nil, List.append_nil]
    exact .fin k1 k3 (by omega) (by omega)
  | @fin a b t now h1 h2 h3 h4 =>
    have := mA (t, finOf x y) (by simp)
    dsimp only at this
    obtain ⟨k1, k2⟩ := h1.tick (.inl rfl) (by omega)
    obtain ⟨k3, k4⟩ := h2.tick hx hy
    rw [tick_eq (l := ⟨a, b, _, _, _, _, now⟩) (p := []) (q := []) k2 k4]
    simp only [List.map_nil, List.append_nil]
    exact .fin k1 k3 h3 (by omega)
  | @told a b t now h1 h2 h3 h4 =>
    have hd := dl_nonneg h2.delay
    have hu := h2.una
    obtain ⟨k1, k2⟩ := h1.tick (.inl rfl) (by omega)
    cases hc : b.closes with
    | false =>
      obtain ⟨j1, j2, j3, new, j4, j5⟩ := h2.rest.stays (.inr rfl) h2.delay (by omega) (by omega) hc
      rcases j5 with ⟨rfl, j5, j6⟩ | ⟨rfl, j5, -⟩
      · rw [tick_eq (l := ⟨a, b, _, _, _, _, now⟩) (p := []) (q := []) k2 j4]
        simp only [List.map_nil, List.append_nil]
        have := j6 (by omega)
        exact .told k1 ⟨j1, j2, by rw [j5]; exact hu, fun k => by rw [j3] at k; cases k⟩ h3 (by omega)
      · rw [tick_eq (l := ⟨a, b, _, _, _, _, now⟩) (p := []) (q := [ackOf y (x + 1)]) k2 j4]
        simp only [List.map_cons, List.map_nil, List.append_nil]
        exact .acked k1 (.inl ⟨j1, j2, j5, fun k => by rw [j3] at k; cases k⟩) h3 (by omega) (by omega)
    | true =>
      obtain ⟨j1, new, j4, j5⟩ := h2.rest.moves (.inr rfl) h2.delay (by omega) (by omega) hc
      have := h2.closes hc
      rcases j5 with rfl | ⟨rfl, -⟩
      · rw [tick_eq (l := ⟨a, b, _, _, _, _, now⟩) (p := []) (q := []) k2 j4]
        simp only [List.map_nil, List.append_nil]
        exact .last k1 ⟨j1, by omega⟩ h3 (by omega)
      · rw [tick_eq (l := ⟨a, b, _, _, _, _, now⟩) (p := []) (q := [ackOf y (x + 1)]) k2 j4]
        simp only [List.map_cons, List.map_nil, List.append_nil]
        exact .acked k1 (.inr ⟨j1, by omega⟩) h3 (by omega) (by omega)
  | @last a b t now h1 h2 h3 h4 =>
    obtain ⟨k1, k2⟩ := h1.tick (.inl rfl) (by omega)
    obtain ⟨j1, j2⟩ := h2.rest.fins (.inr rfl) (by omega) (by omega) now
    have := h2.closes
    rw [tick_eq (l := ⟨a, b, _, _, _, _, now⟩) (p := []) (q := [finOf y (x + 1)]) k2 j2]
    simp only [List.map_cons, List.map_nil, List.append_nil]
    exact .direct k1 ⟨j1, by omega⟩ h3 (by omega) (by omega)
  | @acked a b t t' now h1 h2 h3 h4 h5 =>
    have := mB (t', ackOf y (x + 1)) (by simp)
    dsimp only at this
    obtain ⟨k1, k2⟩ := h1.tick (.inl rfl) (by omega)
    rcases acked_tick h2 hx hy with ⟨j1, j2⟩ | ⟨j1, j2⟩
    · rw [tick_eq (l := ⟨a, b, _, _, _, _, now⟩) (p := []) (q := []) k2 j2]
      simp only [List.map_nil, List.append_nil]
      exact .acked k1 j1 h3 h4 (by omega)
    · rw [tick_eq (l := ⟨a, b, _, _, _, _, now⟩) (p := []) (q := [finOf y (x + 1)]) k2 j2]
      simp only [List.map_cons, List.map_nil, List.append_nil, List.append_assoc, List.cons_append, List.nil_append]
      exact .ackedOut k1 j1 h3 h4 (by omega) (by omega)
  | @ackedOut a b t t' t'' now h1 h2 h3 h4 h5 h6 =>
    have := mB (t', ackOf y (x + 1)) (by simp)
    have := mB (t'', finOf y (x + 1)) (by simp)
    dsimp only at *
    obtain ⟨k1, k2⟩ := h1.tick (.inl rfl) (by omega)
    obtain ⟨j1, j2⟩ := h2.tick (by omega)
    rw [tick_eq (l := ⟨a, b, _, _, _, _, now⟩) (p := []) (q := []) k2 j2]
    simp only [List.map_nil, List.append_nil]
    exact .ackedOut k1 j1 h3 h4 (by omega) (by omega)
  | @direct a b t t'' now h1 h2 h3 h4 h5 =>
    have := mB (t'', finOf y (x + 1)) (by simp)
    dsimp only at *
    obtain ⟨k1, k2⟩ := h1.tick (.inl rfl) (by omega)
    obtain ⟨j1, j2⟩ := h2.tick (by omega)
    rw [tick_eq (l := ⟨a, b, _, _, _, _, now⟩) (p := []) (q := []) k2 j2]
    simp only [List.map_nil, List.append_nil]
    exact .direct k1 j1 h3 h4 (by omega)
  | @half a b t t' now h1 h2 =>
    obtain ⟨k1, k2⟩ := h1.tick
    rcases acked_tick h2 hx hy with ⟨j1, j2⟩ | ⟨j1, j2⟩
    · rw [tick_eq (l := ⟨a, b, _, _, _, _, now⟩) (p := []) (q := []) k2 j2]
      simp only [List.map_nil, List.append_nil]
      exact .half k1 j1
    · rw [tick_eq (l := ⟨a, b, _, _, _, _, now⟩) (p := []) (q := [finOf y (x + 1)]) k2 j2]
      simp only [List.map_cons, List.map_nil, List.append_nil, List.append_assoc, List.cons_append, List.nil_append]
      exact .halfOut k1 j1 (by omega)
  | @halfOut a b t t' t'' now h1 h2 h3 =>
    have := mB (t'', finOf y (x + 1)) (by simp)
    dsimp only at *
    obtain ⟨k1, k2⟩ := h1.tick
    obtain ⟨j1, j2⟩ := h2.tick (by omega)
    rw [tick_eq (l := ⟨a, b, _, _, _, _, now⟩) (p := []) (q := []) k2 j2]
    simp only [List.map_nil, List.append_nil]
    exact .halfOut k1 j1 (by omega)
  | @wait a b t t'' s now N h1 h2 h3 h4 h5 h6 =>
    have := mA (s, ackOf (x + 1) (y + 1)) (by simp)
    dsimp only at this
    obtain ⟨k1, k2⟩ := h1.tick (by omega)
    obtain ⟨j1, j2⟩ := h2.tick (by omega)
    rw [tick_eq (l := ⟨a, b, _, _, _, _, now⟩) (p := []) (q := []) k2 j2]
    simp only [List.map_nil, List.append_nil]
    rcases k1 with ⟨-, k1⟩ | ⟨k0, -⟩
    · exact .wait k1 j1 h3 (by omega) h5 h6
    · omega
  | @alone a b t s now N h1 h2 h3 h4 h5 =>
    obtain ⟨j1, j2⟩ := h2.tick
    rcases h1 with ⟨h1, h0⟩ | h1
    · obtain ⟨k1, k2⟩ := h1.tick h0
      rw [tick_eq (l := ⟨a, b, _, _, _, _, now⟩) (p := []) (q := []) k2 j2]
      simp only [List.map_nil, List.append_nil]
      rcases k1 with ⟨k0, k1⟩ | ⟨-, k1⟩
      · exact .alone (.inl ⟨k1, k0⟩) j1 h3 h4 h5
      · exact .alone (.inr k1) j1 h3 h4 h5
    · obtain ⟨k1, k2⟩ := h1.tick
      rw [tick_eq (l := ⟨a, b, _, _, _, _, now⟩) (p := []) (q := []) k2 j2]
      simp only [List.map_nil, List.append_nil]
      exact .alone (.inr k1) j1 h3 h4 h5

theorem Rel.stateB (h : Rel D x y WA WB L M T tc l) : l.b.state = .established ∨ l.b.state = .closeWait ∨ l.b.state = .lastAck ∨ l.b.state = .closed := by
  cases h with
  | calm _ h => exact .inl h.rest.base.state
  | fin _ h => exact .inl h.rest.base.state
  | told _ h => exact .inr (.inl h.rest.base.state)
  | last _ h => exact .inr (.inr (.inl h.rest.base.state))
  | acked _ h =>
    rcases h with h | h
    · exact .inr (.inl h.rest.base.state)
    · exact .inr (.inr (.inl h.rest.base.state))
  | ackedOut _ h => exact .inr (.inr (.inl h.fin.base.state))
  | direct _ h => exact .inr (.inr (.inl h.fin.base.state))
  | half _ h =>
    rcases h with h | h
    · exact .inr (.inl h.rest.base.state)
    · exact .inr (.inr (.inl h.rest.base.state))
  | halfOut _ h => exact .inr (.inr (.inl h.fin.base.state))
  | wait _ h => exact .inr (.inr (.inl h.fin.base.state))
  | alone _ h => exact .inr (.inr (.inr h.state))

theorem Rel.act (h : Rel D x y WA WB L M T tc l) (hD : D ≤ 400) (hx : x + 1 ≤ 0xFFFFFFFF) (hy : y + 1 ≤ 0xFFFFFFFF) {e : Act} (hm : l.mayPart D e)
    (hc : e = .callB .close → l.b.closes = true ∨ l.now ≤ tc) : Rel D x y WA WB L M T tc (l.act e) := by
  cases e with
  | callA e =>
    rcases hm with hm | rfl
    · have k := (looks_reads (s := l.a) hm).1
      rw [callA_looks k]
      exact h.looksA k
    · have k := (looks_close (s := l.a) (by rcases h.stateA with y | y | y | y <;> simp [y])).1
      rw [callA_looks k]
      exact h.looksA k
  | callB e =>
    rcases hm with hm | ⟨rfl, hs⟩
    · have k := looks_reads (s := l.b) hm
      rw [callB_looks k.1]
      exact h.looksB k.1 (.inl k.2)
    · have k := looks_close (s := l.b) (by rcases h.stateB with y | y | y | y <;> simp [y])
      rw [callB_looks k.1]
      refine h.looksB k.1 ?_
      rcases k.2 with k2 | ⟨k2, -⟩
      · rcases hc rfl with hc | hc
        · exact .inl (by rw [k2, hc])
        · exact .inr ⟨hs, hc⟩
      · exact .inl (by rw [k2])
  | arriveA => exact h.arriveA hx hy
  | arriveB => exact h.arriveB hD
  | tick => exact h.tick hD hx hy hm

end
end Verif.Release
