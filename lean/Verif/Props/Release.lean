import Verif.Lemmas.ReleaseAll
import Verif.Props.Live
/-!
C93: over a network that loses nothing, keeps the order and delivers within `d` milliseconds, a connection is closed in bounded time.
The first end closes with data left to send.  The other end has nothing to send; the theorem `C93_race` shows that the FIN
may never go out otherwise.
-/
namespace Verif
open Spec Sess Release

/-- C93: an end closes while the connection is open and the other end has nothing to send.  When for every 1460 bytes left to send two
delays and 104 milliseconds have passed, and one delay and three milliseconds more, the other end has everything that was sent, and has
seen the end of the stream. -/
theorem C93_end_of_stream {d ia ib : Nat} {l l' : Link} (hd : d ≤ 400) (h : Connection d ia ib l) (ha : l.a.state = .established)
    (hb : l.b.state = .established) (ht : l.b.tx = []) (fa : ia + 2 + (accepted l.a.out).length ≤ 0xFFFFFFFF)
    (fb : ib + 2 + (accepted l.b.out).length ≤ 0xFFFFFFFF) (hp : Parts d l.close l')
    (hn : l.now + (l.a.tx.length + 1459) / 1460 * (2 * d + 104) + d + 3 ≤ l'.now) :
    (l'.b.state = .closeWait ∨ l'.b.state = .lastAck ∨ l'.b.state = .closed) ∧ received l'.b.out ++ l'.b.rx = accepted l.a.out := by
  obtain ⟨S, s1, s2, -⟩ := ready hd h ha hb ht fa fb
  have hg := (going_start (tc := l'.now) s2 s1 rfl rfl (Nat.le_add_right _ _)).parts s2 hd hp (Nat.le_refl _)
  unfold Release.rest at hg
  rcases hg with ⟨k, -, -, -, rfl, h4⟩ | ⟨k, x, y, -, -, -, -, -, h6⟩
  · rw [clk_now] at hn
    omega
  · cases h6 with
    | calm h1 h2 h3 => dsimp only at hn; omega
    | fin h1 h2 h3 h4 => dsimp only at hn; omega
    | told h1 h2 => exact ⟨.inl h2.rest.base.state, h2.rest.base.got⟩
    | last h1 h2 => exact ⟨.inr (.inl h2.rest.base.state), h2.rest.base.got⟩
    | acked h1 h2 =>
      rcases h2 with h2 | h2
      · exact ⟨.inl h2.rest.base.state, h2.rest.base.got⟩
      · exact ⟨.inr (.inl h2.rest.base.state), h2.rest.base.got⟩
    | ackedOut h1 h2 => exact ⟨.inr (.inl h2.fin.base.state), h2.fin.base.got⟩
    | direct h1 h2 => exact ⟨.inr (.inl h2.fin.base.state), h2.fin.base.got⟩
    | half h1 h2 =>
      rcases h2 with h2 | h2
      · exact ⟨.inl h2.rest.base.state, h2.rest.base.got⟩
      · exact ⟨.inr (.inl h2.rest.base.state), h2.rest.base.got⟩
    | halfOut h1 h2 => exact ⟨.inr (.inl h2.fin.base.state), h2.fin.base.got⟩
    | wait h1 h2 => exact ⟨.inr (.inl h2.fin.base.state), h2.fin.base.got⟩
    | alone h1 h2 => exact ⟨.inr (.inr h2.state), h2.got⟩

theorem Release.DelayOk.dl {s : Sess} (h : DelayOk s) : 0 ≤ s.dl := by
  unfold Sess.dl
  cases hw : s.timers.get? .delayedAck with
  | none => simp
  | some w => have := (h w hw).1; simp; omega

/-- C93: one delay and 102 milliseconds later the end that closed knows that its FIN has arrived. -/
theorem C93_acknowledged {d ia ib : Nat} {l l' : Link} (hd : d ≤ 400) (h : Connection d ia ib l) (ha : l.a.state = .established)
    (hb : l.b.state = .established) (ht : l.b.tx = []) (fa : ia + 2 + (accepted l.a.out).length ≤ 0xFFFFFFFF)
    (fb : ib + 2 + (accepted l.b.out).length ≤ 0xFFFFFFFF) (hp : Parts d l.close l')
    (hn : l.now + (l.a.tx.length + 1459) / 1460 * (2 * d + 104) + 2 * d + 105 ≤ l'.now) :
    l'.a.state = .finWait2 ∨ l'.a.state = .timeWait ∨ l'.a.state = .closed := by
  obtain ⟨S, s1, s2, -⟩ := ready hd h ha hb ht fa fb
  have hg := (going_start (tc := l'.now) s2 s1 rfl rfl (Nat.le_add_right _ _)).parts s2 hd hp (Nat.le_refl _)
  unfold Release.rest at hg
  rcases hg with ⟨k, -, -, -, rfl, h4⟩ | ⟨k, x, y, -, -, -, -, -, h6⟩
  · rw [clk_now] at hn
    omega
  · cases h6 with
    | calm h1 h2 h3 => dsimp only at hn; omega
    | fin h1 h2 h3 h4 => dsimp only at hn; omega
    | told h1 h2 h3 h4 =>
      dsimp only at hn
      have := h2.delay.dl
      omega
    | last h1 h2 h3 h4 => dsimp only at hn; omega
    | acked h1 h2 h3 h4 h5 => dsimp only at hn; omega
    | ackedOut h1 h2 h3 h4 h5 => dsimp only at hn; omega
    | direct h1 h2 h3 h4 h5 => dsimp only at hn; omega
    | half h1 h2 => exact .inl h1.base.state
    | halfOut h1 h2 => exact .inl h1.base.state
    | wait h1 h2 => exact .inr (.inl h1.state)
    | alone h1 h2 =>
      rcases h1 with h1 | h1
      · exact .inr (.inl h1.1.state)
      · exact .inr (.inr h1.state)

/-- C93: the other end closes some time after it has seen the end of the stream.  Two delays and three milliseconds later its session is
closed and out of the table of sockets, and the first end waits in TIME_WAIT or is closed.  One delay and 30002 milliseconds later the
first end is closed and out of the table too.  Each has everything that the other has sent, and nothing is under way. -/
theorem C93_closed {d ia ib : Nat} {l l' l'' : Link} (hd : d ≤ 400) (h : Connection d ia ib l) (ha : l.a.state = .established)
    (hb : l.b.state = .established) (ht : l.b.tx = []) (fa : ia + 2 + (accepted l.a.out).length ≤ 0xFFFFFFFF)
    (fb : ib + 2 + (accepted l.b.out).length ≤ 0xFFFFFFFF) (hp : Parts d l.close l') (hs : l'.b.state = .closeWait)
    (hp' : Parts d (l'.act (.callB .close)) l'') :
    (l'.now + 2 * d + 3 ≤ l''.now → l''.b.state = .closed ∧ l''.b.registered = false ∧ (l''.a.state = .timeWait ∨ l''.a.state = .closed) ∧
      received l''.b.out ++ l''.b.rx = accepted l.a.out ∧ received l''.a.out ++ l''.a.rx = accepted l.b.out ∧
      l''.atA = l''.fromB.length ∧ l''.atB = l''.fromA.length) ∧
    (l'.now + d + 30002 ≤ l''.now → l''.a.state = .closed ∧ l''.a.registered = false) := by
  obtain ⟨S, s1, s2, -⟩ := ready hd h ha hb ht fa fb
  have hg := (going_start (tc := l'.now) s2 s1 rfl rfl (Nat.le_add_right _ _)).parts s2 hd hp (Nat.le_refl _)
  have hm : l'.mayPart d (.callB .close) := .inr ⟨rfl, by rw [hs]; simp⟩
  have hg1 := hg.act s2 hd hm fun _ => .inr (Nat.le_refl _)
  have hq : Queue (fun _ => True) l.b := by
    obtain ⟨⟨p, q, L, M, n, m, u, v, fA, fB, aA, aB, o⟩, -⟩ := s2.up l s1 rfl rfl
    exact ⟨by rw [o.right.ooo]; exact fun e he => (nomatch he), fun _ => o.right.ooo⟩
  have hq1 : Queue (fun _ => True) (l'.act (.callB .close)).b := by
    obtain ⟨evs, e⟩ := parts_runB (hp.next hm)
    rw [e]
    exact queue_run hq
  have hc : (l'.act (.callB .close)).b.closes = true := by
    obtain ⟨k1, k2⟩ := looks_close (s := l'.b) (.inr (.inr (.inr (.inl hs))))
    rw [callB_looks k1]
    rcases k2 with k2 | k2
    · dsimp only; rw [k2]
    · exact absurd hs k2.2.2
  obtain ⟨hg2, hc2⟩ := hg1.closed s2 hd hq1 hc hp'
  have tell : ∀ {now : Nat} {y x u : Nat} {W : Bytes} {b : Sess}, b.closes = true → Told b y x W u l'.now now → now ≤ l'.now :=
    fun hb h => h.closes hb
  have fin : ∀ {x y : Nat} {k : Link}, Rel d x y (accepted l.b.out) (accepted l.a.out) k.fromA k.fromB
      (l.now + Release.rest d l.a + 1) l'.now l'' → l'.now + 2 * d + 3 ≤ l''.now →
      (l''.atA = l''.fromB.length ∧ l''.atB = l''.fromA.length) ∧ (Gone l''.b (accepted l.a.out)) ∧
      ∃ s, (Waits l''.a (accepted l.b.out) s l''.now ∧ l''.now < s + 30000 ∨ Gone l''.a (accepted l.b.out)) ∧ s ≤ l'.now + 2 + d := by
    intro x y k h6 hn
    cases h6 with
    | calm h1 h2 h3 => rw [h2.closes] at hc2; cases hc2
    | fin h1 h2 h3 h4 => rw [h2.closes] at hc2; cases hc2
    | told h1 h2 => have := tell hc2 h2; dsimp only at hn; omega
    | last h1 h2 => have := h2.closes; dsimp only at hn; omega
    | acked h1 h2 =>
      rcases h2 with h2 | h2
      · have := tell hc2 h2; dsimp only at hn; omega
      · have := h2.closes; dsimp only at hn; omega
    | ackedOut h1 h2 => have := h2.closes; dsimp only at hn; omega
    | direct h1 h2 => have := h2.closes; dsimp only at hn; omega
    | half h1 h2 =>
      rcases h2 with h2 | h2
      · have := tell hc2 h2; dsimp only at hn; omega
      · have := h2.closes; dsimp only at hn; omega
    | halfOut h1 h2 => have := h2.closes; dsimp only at hn; omega
    | wait h1 h2 => have := h2.closes; dsimp only at hn; omega
    | alone h1 h2 h3 => exact ⟨by simp, h2, _, h1, h3⟩
  rcases hg2 with ⟨k, k1, k2, k3, rfl, h4⟩ | ⟨k, x, y, -, -, -, -, -, h6⟩
  · obtain ⟨⟨p, q, L, M, n, m, u, v, fA, fB, aA, aB, o⟩, -⟩ := s2.up k k1 k2 k3
    have : k.b.closes = true := hc2
    rw [o.right.closes] at this
    cases this
  · refine ⟨fun hn => ?_, fun hn => ?_⟩
    · obtain ⟨f0, f1, s, f2, f3⟩ := fin h6 hn
      refine ⟨f1.state, f1.registered, ?_, f1.got, ?_, f0⟩
      · rcases f2 with f2 | f2
        · exact .inl f2.1.state
        · exact .inr f2.state
      · rcases f2 with f2 | f2
        · exact f2.1.got
        · exact f2.got
    · obtain ⟨f0, f1, s, f2, f3⟩ := fin h6 (by omega)
      rcases f2 with f2 | f2
      · omega
      · exact ⟨f2.state, f2.registered⟩

theorem tidy_of {n : Nat} {L N : List (Nat × Seg)} (hn : n ≤ L.length) (h1 : ∀ p ∈ L.drop n, p.2.fin = false ∧ p.2.rst = false) (h2 : Tidy N) :
    Tidy ((L ++ N).drop n) := by
  rw [List.drop_append_of_le_length hn]
  refine ⟨fun p hp => ?_, ?_⟩
  · rcases List.mem_append.1 hp with hp | hp
    · exact (h1 p hp).2
    · exact h2.1 p hp
  · rw [List.filter_append, List.filter_eq_nil_iff.2 (fun p hp => by simp [(h1 p hp).1])]
    exact h2.2

theorem Release.plain {x u y w : Nat} {l : List (Nat × Seg)} (h : Trail x u l y w) : ∀ p ∈ l, p.2.fin = false ∧ p.2.rst = false := by
  induction l generalizing x u with
  | nil => exact fun p hp => (nomatch hp)
  | cons q l ih =>
    intro p hp
    rcases List.mem_cons.1 hp with rfl | hp
    · exact ⟨h.1.2.2.1, h.1.2.2.2⟩
    · exact ih h.2.2.2.2.2 p hp

/-- C93: from the moment of the close on no end sends a RST, and none sends more than one FIN (nothing is retransmitted). -/
theorem C93_clean {d ia ib : Nat} {l l' : Link} (hd : d ≤ 400) (h : Connection d ia ib l) (ha : l.a.state = .established)
    (hb : l.b.state = .established) (ht : l.b.tx = []) (fa : ia + 2 + (accepted l.a.out).length ≤ 0xFFFFFFFF)
    (fb : ib + 2 + (accepted l.b.out).length ≤ 0xFFFFFFFF) (hp : Parts d l.close l') :
    Tidy (l'.fromA.drop l.fromA.length) ∧ Tidy (l'.fromB.drop l.fromB.length) := by
  obtain ⟨S, s1, s2, s3⟩ := ready hd h ha hb ht fa fb
  have hg := (going_start (tc := l'.now) s2 s1 rfl rfl (Nat.le_add_right _ _)).parts s2 hd hp (Nat.le_refl _)
  have hl : 1 ≤ l.fromA.length ∧ 1 ≤ l.fromB.length := by
    obtain ⟨⟨p, q, L, M, n, m, u, v, fA, fB, aA, aB, o⟩, -⟩ := s2.up l s1 rfl rfl
    rw [fA, fB]
    simp
  have ok : ∀ k, S k → accepted k.a.out = accepted l.a.out → accepted k.b.out = accepted l.b.out → ∀ {N N' : List (Nat × Seg)}, Tidy N → Tidy N' →
      Tidy ((k.fromA ++ N).drop l.fromA.length) ∧ Tidy ((k.fromB ++ N').drop l.fromB.length) := by
    intro k hk k2 k3 N N' h1 h2
    have hlk := s3 k hk
    obtain ⟨⟨p, q, L, M, n, m, u, v, fA, fB, aA, aB, o⟩, -⟩ := s2.up k hk k2 k3
    have t1 := o.out.done.append o.out.rest
    have t2 := o.back.done.append o.back.rest
    rw [List.take_append_drop] at t1 t2
    refine ⟨tidy_of hlk.fromA.length_le (fun p hp => Release.plain t1 p ?_) h1, tidy_of hlk.fromB.length_le (fun p hp => Release.plain t2 p ?_) h2⟩
    · rw [fA, show l.fromA.length = (l.fromA.length - 1) + 1 by omega, List.drop_succ_cons] at hp
      exact List.mem_of_mem_drop hp
    · rw [fB, show l.fromB.length = (l.fromB.length - 1) + 1 by omega, List.drop_succ_cons] at hp
      exact List.mem_of_mem_drop hp
  have t0 : Tidy [] := ⟨fun p hp => (nomatch hp), Nat.zero_le _⟩
  have t1 : ∀ {t x y : Nat}, Tidy [(t, finOf x y)] := ⟨by simp [finOf], by simp [finOf]⟩
  have t2 : ∀ {t x y : Nat}, Tidy [(t, ackOf x y)] := ⟨by simp [ackOf], by simp [ackOf]⟩
  have t3 : ∀ {t x y t' x' y' : Nat}, Tidy [(t, finOf x y), (t', ackOf x' y')] := ⟨by simp [finOf, ackOf], by simp [finOf, ackOf]⟩
  have t4 : ∀ {t x y t' x' y' : Nat}, Tidy [(t, ackOf x y), (t', finOf x' y')] := ⟨by simp [finOf, ackOf], by simp [finOf, ackOf]⟩
  rcases hg with ⟨k, k1, k2, k3, rfl, h4⟩ | ⟨k, x, y, k1, k2, k3, -, -, h6⟩
  · have := ok k k1 k2 k3 t0 t0
    rwa [List.append_nil, List.append_nil] at this
  · have ok' := @ok k k1 k2 k3
    have e2 := fun {N} => @ok' N []
    simp only [List.append_nil] at e2
    cases h6 with
    | calm h1 h2 h3 => have := e2 t0 t0; simpa only [List.append_nil] using this
    | fin h1 h2 h3 h4 => exact e2 t1 t0
    | told h1 h2 => exact e2 t1 t0
    | last h1 h2 => exact e2 t1 t0
    | acked h1 h2 => exact ok' t1 t2
    | ackedOut h1 h2 => exact ok' t1 t4
    | direct h1 h2 => exact ok' t1 t1
    | half h1 h2 => exact ok' t1 t2
    | halfOut h1 h2 => exact ok' t1 t4
    | wait h1 h2 h3 h4 h5 h6 => exact ok' t3 ⟨h5, Nat.le_of_eq h6⟩
    | alone h1 h2 h3 h4 h5 => exact ok' t3 ⟨h4, Nat.le_of_eq h5⟩

/-! ### Without the condition that the other end has nothing to send -/

/-- A session that has gone past FIN_WAIT_1. -/
def Past (F : List Seg) (s : Sess) : Prop :=
  Queue (fun _ => True) s ∧ (s.state = .finWait2 ∨ s.state = .closing ∨ s.state = .timeWait ∨ s.state = .closed) ∧
    ∀ g ∈ Spec.sent s.out, g.fin = true → g ∈ F

theorem past_run {F : List Seg} {s : Sess} {evs : List Ev} (h : Past F s) : Past F (s.run evs) := by
  refine run_keeps_aside (Q := fun _ => True) (G := False) (P := Past F) (fun s h => h.1.queueOk) (fun a b h hm => ⟨queue_micro h.1 hm, ?_⟩)
    (fun a b h hs => ?_) (fun _ _ => trivial) h
  · obtain ⟨-, h1, h2⟩ := h
    have no : ∀ {P : Prop}, a.state = .listen ∨ a.state = .synSent ∨ a.state = .synRcvd ∨ a.state = .established ∨ a.state = .finWait1 ∨
        a.state = .closeWait ∨ a.state = .lastAck → P := by
      intro P e
      rcases h1 with x | x | x | x <;> simp [x] at e
    cases hm with
    | reset h => exact no (by rcases h with x | x | x | x | x | x <;> simp [x])
    | abort h => exact no (by rcases h with x | x | x | x | x | x <;> simp [x])
    | abortMove h => exact no (by rcases h with ⟨x, -⟩ | ⟨x, -⟩ <;> simp [x])
    | synOut h => exact no (by simp [h])
    | synAckOut h => exact no (by simp [h])
    | dataOut h => exact no (by rcases h with x | x <;> simp [x])
    | finOut h => exact no (by rcases h with x | x <;> simp [x])
    | ackOut => exact ⟨by simpa [ackAs] using h1, fun g hg hf => by
        simp only [ackAs, sentAs_out, sent_append] at hg
        rcases List.mem_append.1 hg with hg | hg
        · exact h2 g hg hf
        · simp [Spec.sent] at hg; subst hg; cases hf⟩
    | timerSet => exact ⟨h1, h2⟩
    | finClose h => exact no (by simp [h])
    | lastClose h => exact no (by simp [h])
    | dup _ h => exact no (by rcases h with x | x <;> simp [x])
    | store _ h => exact no (by rcases h with x | x <;> simp [x])
    | pop => exact ⟨h1, h2⟩
    | synIn _ h => exact no (by simp [h])
    | synAckIn _ h => exact no (by simp [h])
    | establish _ h => exact no (by simp [h])
    | ackIn _ h => exact no (by simp [h])
    | establish' _ h => exact no (by simp [h])
    | refused _ h => exact no (by simp [h])
    | closes h => exact no (by rcases h with x | x <;> simp [x])
    | finEarly h => exact no (by simp [h])
    | dataIn => exact ⟨by simpa using h1, by simpa using h2⟩
    | finIn => exact ⟨by simpa using h1, by simpa using h2⟩
    | toCloseWait _ h => exact no (by simp [h])
    | toFinWait2 => exact ⟨.inl (by simp), by simpa using h2⟩
    | toTimeWait => exact ⟨.inr (.inr (.inl (by simp [setTimer]))), by simpa [setTimer] using h2⟩
    | toClosing => exact ⟨.inr (.inl (by simp)), by simpa using h2⟩
    | closingAck => exact ⟨.inr (.inr (.inl (by simp [setTimer]))), by simpa [setTimer] using h2⟩
    | shut => exact ⟨.inr (.inr (.inr (by simp))), by simpa using h2⟩
  · have hb := hs.beside
    exact ⟨h.1.beside hb, by rw [hb]; exact h.2.1, by rw [hs.sent]; exact h.2.2⟩

namespace Example.Release
open Example.Live

def parting (d : Nat) (l : Link) : Act → Bool
  | .callA e => isCall e && (match e with | .send _ => false | _ => true) || (match e with | .close => true | _ => false)
  | .callB e => isCall e && (match e with | .send _ => false | _ => true) || (match e with | .close => true | _ => false) && l.b.state != .established
  | .tick => okay d l .tick
  | _ => true

theorem parting_of {d : Nat} {l : Link} {e : Act} (h : parting d l e = true) : l.mayPart d e := by
  cases e with
  | callA e =>
    cases e with
    | close => exact .inr rfl
    | recvAcquire => exact .inl ⟨.recvAcquire, fun _ => nofun⟩
    | recvTake n => exact .inl ⟨.recvTake n, fun _ => nofun⟩
    | connectReturn => exact .inl ⟨.connectReturn, fun _ => nofun⟩
    | _ => cases h
  | callB e =>
    cases e with
    | close => exact .inr ⟨rfl, by simpa [parting, isCall] using h⟩
    | recvAcquire => exact .inl ⟨.recvAcquire, fun _ => nofun⟩
    | recvTake n => exact .inl ⟨.recvTake n, fun _ => nofun⟩
    | connectReturn => exact .inl ⟨.connectReturn, fun _ => nofun⟩
    | _ => cases h
  | tick => exact may_of (e := .tick) h
  | arriveA => trivial
  | arriveB => trivial

/-- The acts happen one after the other, as far as they may. -/
def walk (d : Nat) : Link → List Act → Link
  | l, [] => l
  | l, e :: es => if parting d l e then walk d (l.act e) es else l

theorem parts_walk {d : Nat} {l₀ l : Link} {es : List Act} (h : Parts d l₀ l) : Parts d l₀ (walk d l es) := by
  induction es generalizing l with
  | nil => exact h
  | cons e es ih =>
    unfold walk
    split
    · rename_i ho
      exact ih (.next h (parting_of ho))
    · exact h

/-- The connection is opened; the right end sends two bytes, which arrive and are acknowledged with a first byte of the left end; the left
end has two more. -/
def start : List Act :=
  [.tick, .arriveB, .tick, .arriveA, .tick, .arriveB, .callB (.send [8, 9]), .tick, .arriveA, .callA (.send [1]), .tick, .tick, .arriveB,
    .callA (.send [2, 3])]

def l : Link := follow 10 (Link.new Example.Live.x y) start

theorem connection : Connection 10 100 500 l := .client (flows_follow .start)

/-- Time passes; within ten milliseconds everything arrives. -/
def wait : List Act := (List.replicate 28 ([Act.arriveA, .arriveB] ++ List.replicate 9 Act.tick)).flatten

def l' : Link := walk 10 l.close wait
def l'' : Link := walk 10 (l'.act (.callB .close)) (wait.take 60)

/-- C93_end_of_stream, C93_acknowledged, C93_clean, C93_closed: there is something left to send at the close. -/
theorem before : l.a.state = .established ∧ l.b.state = .established ∧ l.b.tx = [] ∧ accepted l.a.out = [1, 2, 3] ∧ accepted l.b.out = [8, 9] ∧
    l.a.tx.length = 3 ∧ received l.b.out ++ l.b.rx = [1] ∧ l.now = 6 := by decide +kernel

theorem fits : 100 + 2 + (accepted l.a.out).length ≤ 0xFFFFFFFF ∧ 500 + 2 + (accepted l.b.out).length ≤ 0xFFFFFFFF := by
  rw [before.2.2.2.1, before.2.2.2.2.1]
  decide

/-- Enough time passes.  The data is followed by the FIN. -/
theorem after : l'.now = 258 ∧ l'.b.state = .closeWait ∧
    (l'.fromA.drop l.fromA.length).map (fun p => (p.2.fin, p.2.data)) = [(false, [2, 3]), (true, [])] := by decide +kernel

/-- C93_end_of_stream, for all the ways in which the events can follow each other. -/
theorem first {k : Link} (h : Parts 10 l.close k) (hn : 143 ≤ k.now) :
    (k.b.state = .closeWait ∨ k.b.state = .lastAck ∨ k.b.state = .closed) ∧ received k.b.out ++ k.b.rx = [1, 2, 3] := by
  obtain ⟨h1, h2, h3, h4, h5, h6, h7, h8⟩ := before
  rw [← h4]
  refine C93_end_of_stream (by decide) connection h1 h2 h3 fits.1 fits.2 h ?_
  rw [h6, h8]
  exact hn

example : (l'.b.state = .closeWait ∨ l'.b.state = .lastAck ∨ l'.b.state = .closed) ∧ received l'.b.out ++ l'.b.rx = [1, 2, 3] :=
  first (k := l') (parts_walk .start) (by rw [after.1]; decide)

example : l'.a.state = .finWait2 ∨ l'.a.state = .timeWait ∨ l'.a.state = .closed := by
  obtain ⟨h1, h2, h3, h4, h5, h6, h7, h8⟩ := before
  refine C93_acknowledged (by decide) connection h1 h2 h3 fits.1 fits.2 (parts_walk .start) ?_
  rw [h6, h8, after.1]
  decide

example : Tidy (l'.fromA.drop l.fromA.length) ∧ Tidy (l'.fromB.drop l.fromB.length) := by
  obtain ⟨h1, h2, h3, h4, h5, h6, h7, h8⟩ := before
  exact C93_clean (by decide) connection h1 h2 h3 fits.1 fits.2 (parts_walk .start)

/-- C93_closed: the other end closes at `l'`; whatever the order of the further events, both sessions end. -/
theorem second {k : Link} (h : Parts 10 (l'.act (.callB .close)) k) :
    (281 ≤ k.now → k.b.state = .closed ∧ k.b.registered = false ∧ k.atA = k.fromB.length ∧ k.atB = k.fromA.length) ∧
    (30270 ≤ k.now → k.a.state = .closed ∧ k.a.registered = false) := by
  obtain ⟨h1, h2, h3, h4, h5, h6, h7, h8⟩ := before
  have := C93_closed (d := 10) (l' := l') (by decide) connection h1 h2 h3 fits.1 fits.2 (parts_walk .start) after.2.1 h
  rw [after.1] at this
  refine ⟨fun hn => ?_, fun hn => this.2 hn⟩
  obtain ⟨h1, h2, -, -, -, h3, h4⟩ := this.1 hn
  exact ⟨h1, h2, h3, h4⟩

/-- And so much time can pass. -/
theorem later (n : Nat) : ∃ k, Parts 10 (l'.act (.callB .close)) k ∧ k.now = 306 + n := by
  induction n with
  | zero => exact ⟨l'', parts_walk .start, by decide +kernel⟩
  | succ n ih =>
    obtain ⟨k, h1, h2⟩ := ih
    obtain ⟨-, -, h3, h4⟩ := (second h1).1 (by omega)
    refine ⟨k.act .tick, h1.next ?_, by show k.now + 1 = _; omega⟩
    constructor
    · rw [h4, List.drop_length]; exact fun x hx => (nomatch hx)
    · rw [h3, List.drop_length]; exact fun x hx => (nomatch hx)

example : ∃ k, Parts 10 (l'.act (.callB .close)) k ∧ k.a.state = .closed ∧ k.a.registered = false := by
  obtain ⟨k, h1, h2⟩ := later 29964
  exact ⟨k, h1, (second h1).2 (by omega)⟩

end Example.Release

/-- C93 without the condition that the other end has nothing to send fails, on a network that delivers everything at once: both ends have
nothing left to send; the first closes; the other sends a byte, which arrives in the millisecond after.  The first end goes to FIN_WAIT_2 and
has not sent its FIN; whatever happens from then on, it never does. -/
theorem C93_race : ∃ (d ia ib : Nat) (l : Link), Connection d ia ib l ∧ l.a.state = .established ∧ l.b.state = .established ∧ l.a.tx = [] ∧ l.b.tx = [] ∧
    let l' := ((((l.act (.callA .close)).act (.callB (.send [7]))).act .tick).act .arriveA)
    l'.a.state = .finWait2 ∧ l'.b.state = .established ∧ ∀ evs, ∀ g ∈ Spec.sent (l'.a.run evs).out, g.fin = false := by
  refine ⟨10, 100, 500, Example.Live.follow 10 Example.Release.l (Example.Release.wait.take 150), ?_, by decide +kernel, by decide +kernel,
    by decide +kernel, by decide +kernel, by decide +kernel, by decide +kernel, ?_⟩
  · exact .client (Example.Live.flows_follow (Example.Live.flows_follow .start))
  · intro evs g hg
    generalize hs : (((((Example.Live.follow 10 Example.Release.l (Example.Release.wait.take 150)).act (.callA .close)).act
      (.callB (.send [7]))).act .tick).act .arriveA).a = s at hg
    have h1 : s.ooo = [] := by rw [← hs]; decide +kernel
    have h2 : s.state = .finWait2 := by rw [← hs]; decide +kernel
    have h3 : ∀ g ∈ Spec.sent s.out, g.fin = false := by rw [← hs]; decide +kernel
    have hp : Past [] s := ⟨⟨by rw [h1]; exact fun e he => (nomatch he), fun _ => h1⟩, .inl h2, fun g hg hf => by rw [h3 g hg] at hf; cases hf⟩
    have := (past_run (evs := evs) hp).2.2 g hg
    cases hf : g.fin with
    | false => rfl
    | true => exact absurd (this hf) (by simp)

end Verif
