import Verif.Lemmas.LiveNet
/-! The whole connection over a network that loses nothing: what holds at every moment. -/
namespace Verif.Sess
open Verif Spec

theorem fresh_eq {now : Nat} {s s' : Sess} {new : List Seg} (h : sent s'.out = sent s.out ++ new) : fresh now s s' = new.map fun g => (now, g) := by
  unfold fresh
  rw [h, List.drop_left]

theorem doA_eq {l : Link} {e : Ev} {new : List Seg} (h : sent (l.a.step e).out = sent l.a.out ++ new) :
    l.doA e = { l with a := l.a.step e, fromA := l.fromA ++ new.map fun g => (l.now, g) } := by
  unfold Link.doA
  rw [fresh_eq h]

theorem doB_eq {l : Link} {e : Ev} {new : List Seg} (h : sent (l.b.step e).out = sent l.b.out ++ new) :
    l.doB e = { l with b := l.b.step e, fromB := l.fromB ++ new.map fun g => (l.now, g) } := by
  unfold Link.doB
  rw [fresh_eq h]

/-- A millisecond at one end. -/
def tick (s : Sess) : Sess := (s.step .clock).step .timer

theorem tick_eq {l : Link} {p q : List Seg} (hp : sent l.a.tick.out = sent l.a.out ++ p) (hq : sent l.b.tick.out = sent l.b.out ++ q) :
    l.act .tick = ⟨l.a.tick, l.b.tick, l.fromA ++ p.map (fun g => (l.now + 1, g)), l.fromB ++ q.map (fun g => (l.now + 1, g)), l.atA, l.atB, l.now + 1⟩ := by
  have c : ∀ s : Sess, sent (s.step .clock).out = sent s.out ++ [] := fun s => (List.append_nil _).symm
  unfold Link.act
  dsimp only
  rw [doA_eq (l := { l with now := l.now + 1 }) (c _)]
  rw [doA_eq (new := p) (by exact hp)]
  rw [doB_eq (c _)]
  rw [doB_eq (new := q) (by exact hq)]
  simp [tick]

theorem callA_eq {l : Link} {e : Ev} (h : Called l.a (l.a.step e)) : l.act (.callA e) = { l with a := l.a.step e } := by
  show l.doA e = _
  rw [doA_eq (new := []) (by rw [h.aside.2.2, List.append_nil])]
  simp

theorem callB_eq {l : Link} {e : Ev} (h : Called l.b (l.b.step e)) : l.act (.callB e) = { l with b := l.b.step e } := by
  show l.doB e = _
  rw [doB_eq (new := []) (by rw [h.aside.2.2, List.append_nil])]
  simp

theorem arriveA_eq {l : Link} {x : Nat × Seg} {new : List Seg} (hx : l.fromB[l.atA]? = some x)
    (h : sent (l.a.step (.segment (asSeen l.b x.2))).out = sent l.a.out ++ new) :
    l.act .arriveA = { l with a := l.a.step (.segment (asSeen l.b x.2)), fromA := l.fromA ++ new.map (fun g => (l.now, g)), atA := l.atA + 1 } := by
  unfold Link.act
  dsimp only
  rw [hx]
  dsimp only
  rw [doA_eq (l := { l with atA := l.atA + 1 }) h]

theorem arriveB_eq {l : Link} {x : Nat × Seg} {new : List Seg} (hx : l.fromA[l.atB]? = some x)
    (h : sent (l.b.step (.segment (asSeen l.a x.2))).out = sent l.b.out ++ new) :
    l.act .arriveB = { l with b := l.b.step (.segment (asSeen l.a x.2)), fromB := l.fromB ++ new.map (fun g => (l.now, g)), atB := l.atB + 1 } := by
  unfold Link.act
  dsimp only
  rw [hx]
  dsimp only
  rw [doB_eq (l := { l with atB := l.atB + 1 }) h]

theorem arriveA_none {l : Link} (hx : l.fromB[l.atA]? = none) : l.act .arriveA = l := by
  unfold Link.act
  dsimp only
  rw [hx]

theorem arriveB_none {l : Link} (hx : l.fromA[l.atB]? = none) : l.act .arriveB = l := by
  unfold Link.act
  dsimp only
  rw [hx]

/-! ### The two ends are joined -/

structure Logged (x y : Sess) (l : Link) : Prop where
  joined : Joined x y l.a l.b
  left : l.fromA.map Prod.snd = sent l.a.out
  right : l.fromB.map Prod.snd = sent l.b.out

theorem sent_mono {l l' : List Out} (h : l <+: l') : sent l <+: sent l' := by
  obtain ⟨t, rfl⟩ := h
  rw [sent_append]
  exact List.prefix_append _ _

theorem map_fresh {now : Nat} {s s' : Sess} {l : List (Nat × Seg)} (h : s.out <+: s'.out) (hl : l.map Prod.snd = sent s.out) :
    (l ++ fresh now s s').map Prod.snd = sent s'.out := by
  obtain ⟨t, ht⟩ := sent_mono h
  rw [fresh_eq ht.symm, List.map_append, hl, List.map_map, ← ht]
  congr 1
  exact List.map_id _

section
variable {p q : Bool} {ia ib : Nat} {lip : IpAddress} {lport : Nat} {rip : IpAddress} {rport : Nat} {lip' : IpAddress} {lport' : Nat}
  {rip' : IpAddress} {rport' : Nat}

local notation "X" => opened p ia lip lport rip rport
local notation "Y" => opened q ib lip' lport' rip' rport'

theorem joined_out {a b : Sess} (h : Joined X Y a b) (e : Ev) : a.out <+: (a.step e).out ∧ b.out <+: (b.step e).out := by
  have hp := pair_joined h
  obtain ⟨evs, rfl, -⟩ := hp.left
  obtain ⟨evs', rfl, -⟩ := hp.right
  exact ⟨out_step (queue_run (queue_opened ..)) e, out_step (queue_run (queue_opened ..)) e⟩

theorem Logged.doA {l : Link} (h : Logged X Y l) {e : Ev} (he : Arrives l.b e) : Logged X Y (l.doA e) :=
  ⟨.left h.joined he, map_fresh (joined_out h.joined e).1 h.left, h.right⟩

theorem Logged.doB {l : Link} (h : Logged X Y l) {e : Ev} (he : Arrives l.a e) : Logged X Y (l.doB e) :=
  ⟨.right h.joined he, h.left, map_fresh (joined_out h.joined e).2 h.right⟩

theorem arrives_call {s : Sess} {e : Ev} (h : Call e) : Arrives s e := by
  rintro m rfl
  cases h

theorem arrives_of {s : Sess} {e : Ev} (h : ∀ m, e ≠ .segment m) : Arrives s e := fun m hm => absurd hm (h m)

theorem arrives_seen {s : Sess} {l : List (Nat × Seg)} {n : Nat} {x : Nat × Seg} (hl : l.map Prod.snd = sent s.out) (hx : l[n]? = some x) :
    Arrives s (.segment (asSeen s x.2)) := by
  intro m hm
  cases hm
  refine .inr ⟨x.2, ?_, ⟨rfl, rfl, rfl, rfl, rfl, rfl, rfl⟩⟩
  rw [← hl]
  exact List.mem_map_of_mem (List.mem_of_getElem? hx)

theorem Logged.act {l : Link} (h : Logged X Y l) {D : Nat} {e : Act} (he : l.may D e) : Logged X Y (l.act e) := by
  cases e with
  | callA e => exact h.doA (arrives_call he)
  | callB e => exact h.doB (arrives_call he)
  | arriveA =>
    unfold Link.act
    dsimp only
    split
    · rename_i x hx
      exact Logged.doA (l := { l with atA := l.atA + 1 }) ⟨h.joined, h.left, h.right⟩ (arrives_seen h.right hx)
    · exact h
  | arriveB =>
    unfold Link.act
    dsimp only
    split
    · rename_i x hx
      exact Logged.doB (l := { l with atB := l.atB + 1 }) ⟨h.joined, h.left, h.right⟩ (arrives_seen h.left hx)
    · exact h
  | tick =>
    have h0 : Logged X Y { l with now := l.now + 1 } := ⟨h.joined, h.left, h.right⟩
    exact (((h0.doA (e := .clock) (arrives_of (by simp))).doA (e := .timer) (arrives_of (by simp))).doB (e := .clock) (arrives_of (by simp))).doB
      (e := .timer) (arrives_of (by simp))

theorem Logged.run {l l' : Link} {D : Nat} (h : Logged X Y l) (hf : Flows D l l') : Logged X Y l' := by
  induction hf with
  | start => exact h
  | next _ he ih => exact ih.act he

theorem sent_opened : sent (X).out = [] := by cases p <;> rfl

theorem logged_new : Logged X Y (Link.new X Y) := ⟨.start, sent_opened.symm, sent_opened.symm⟩

theorem accepted_mono {l l' : List Out} (h : l <+: l') : accepted l <+: accepted l' := by
  obtain ⟨t, rfl⟩ := h
  rw [accepted_append]
  exact List.prefix_append _ _

/-- What is seen only grows. -/
theorem Logged.grow {l : Link} (h : Logged X Y l) {D : Nat} {e : Act} (he : l.may D e) : l.a.out <+: (l.act e).a.out ∧ l.b.out <+: (l.act e).b.out := by
  cases e with
  | callA e => exact ⟨(joined_out h.joined e).1, List.prefix_refl _⟩
  | callB e => exact ⟨List.prefix_refl _, (joined_out h.joined e).2⟩
  | arriveA =>
    unfold Link.act
    dsimp only
    split
    · exact ⟨(joined_out h.joined _).1, List.prefix_refl _⟩
    · exact ⟨List.prefix_refl _, List.prefix_refl _⟩
  | arriveB =>
    unfold Link.act
    dsimp only
    split
    · exact ⟨List.prefix_refl _, (joined_out h.joined _).2⟩
    · exact ⟨List.prefix_refl _, List.prefix_refl _⟩
  | tick =>
    have j1 := (h.joined.left (e := .clock) (arrives_of (by simp)))
    have j2 := (h.joined.right (e := .clock) (arrives_of (by simp)))
    exact ⟨(joined_out h.joined .clock).1.trans (joined_out j1 .timer).1, (joined_out h.joined .clock).2.trans (joined_out j2 .timer).2⟩

theorem Logged.grows {l l' : Link} {D : Nat} (h : Logged X Y l) (hf : Flows D l l') : l.a.out <+: l'.a.out ∧ l.b.out <+: l'.b.out := by
  induction hf with
  | start => exact ⟨List.prefix_refl _, List.prefix_refl _⟩
  | next hf he ih =>
    have := (h.run hf).grow he
    exact ⟨ih.1.trans this.1, ih.2.trans this.2⟩
end

/-! ### The phases of a connection -/

/-- The SYN of the first session. -/
def theSyn (ia : Nat) : Seg := ⟨true, false, false, false, ia, 0, []⟩
/-- The answer of the second. -/
def theSynAck (ia ib : Nat) : Seg := ⟨true, true, false, false, ib, ia + 1, []⟩
/-- The acknowledgement of the answer. -/
def theAck (ia ib : Nat) : Seg := ⟨false, true, false, false, ia + 1, ib + 1, []⟩

/-- The second session before the acknowledgement of its SYN. -/
structure Answered (b : Sess) (ia ib t now : Nat) : Prop where
  waiting : Waiting b .synRcvd ib t now
  rcv : b.rcvNxt = ia + 1
  una : b.rcvUna = ia + 1
  mss : b.sndMss = 1460
  ewn : b.sndEwn = 1460

inductive Stage (ia ib D : Nat) : Link → Prop
  | idle {a b : Sess} : Unsent a .synSent ia → 1 ≤ a.sndEwn → a.rcvNxt = 0 → Unsent b .listen ib → Stage ia ib D ⟨a, b, [], [], 0, 0, 0⟩
  | syn {a b : Sess} {now : Nat} : Waiting a .synSent ia 1 now → Unsent b .listen ib → now ≤ 1 + D →
      Stage ia ib D ⟨a, b, [(1, theSyn ia)], [], 0, 0, now⟩
  | got {a b : Sess} {now : Nat} : Waiting a .synSent ia 1 now → Unsent b .synRcvd ib → b.rcvNxt = ia + 1 → b.sndMss = 1460 → b.sndEwn = 1460 →
      now ≤ 1 + D → Stage ia ib D ⟨a, b, [(1, theSyn ia)], [], 0, 1, now⟩
  | synAck {a b : Sess} {t now : Nat} : Waiting a .synSent ia 1 now → Answered b ia ib t now → t ≤ D + 2 → now ≤ t + D →
      Stage ia ib D ⟨a, b, [(1, theSyn ia)], [(t, theSynAck ia ib)], 0, 1, now⟩
  | half {a b : Sess} {L : List (Nat × Seg)} {t t' now : Nat} : a.sndIni = ia → Sends a ((t', theAck ia ib) :: L) now → Answered b ia ib t now →
      Half a b ((t', theAck ia ib) :: L) 0 [] ib D now → Half b a [] 0 ((t', theAck ia ib) :: L) (ia + 1) D now →
      t ≤ D + 2 → t' ≤ t + D → Stage ia ib D ⟨a, b, (1, theSyn ia) :: (t', theAck ia ib) :: L, [(t, theSynAck ia ib)], 1, 1, now⟩
  | full {a b : Sess} {x y : Nat × Seg} {L M : List (Nat × Seg)} {n m now : Nat} : 1 ≤ n ∧ x.2.data = [] ∧ y.2.data = [] → a.sndIni = ia → b.sndIni = ib → Sends a L now → Sends b M now →
      Half a b L n M ib D now → Half b a M m L (ia + 1) D now → Stage ia ib D ⟨a, b, x :: L, y :: M, m + 1, n + 1, now⟩

/-- The numbers do not reach their end. -/
structure Fit (ia ib : Nat) (l : Link) : Prop where
  left : ia + 1 + (accepted l.a.out).length ≤ 0xFFFFFFFF
  right : ib + 1 + (accepted l.b.out).length ≤ 0xFFFFFFFF

theorem Answered.call {b b' : Sess} {ia ib t now : Nat} (h : Answered b ia ib t now) (hc : Called b b') : Answered b' ia ib t now := by
  have hb := hc.aside.1
  unfold Beside at hb
  exact ⟨h.waiting.call hc (by simp), by rw [hb]; exact h.rcv, by rw [hb]; exact h.una, by rw [hb]; exact h.mss, by rw [hb]; exact h.ewn⟩

theorem Called.dl {s s' : Sess} (h : Called s s') : s'.dl = s.dl := by unfold Sess.dl; rw [h.aside.2.1]

theorem Half.callA {a b a' : Sess} {L M : List (Nat × Seg)} {n u D now : Nat} (h : Half a b L n M u D now) (hc : Called a a') : Half a' b L n M u D now := by
  have hb := hc.aside.1
  unfold Beside at hb
  exact h.same (by rw [hb]) (by rw [hb]) (by rw [hb]) rfl rfl rfl rfl rfl

theorem Half.callB {a b b' : Sess} {L M : List (Nat × Seg)} {n u D now : Nat} (h : Half a b L n M u D now) (hc : Called b b') : Half a b' L n M u D now := by
  have hb := hc.aside.1
  unfold Beside at hb
  exact h.same rfl rfl rfl (by rw [hb]) (by rw [hb]) (by rw [hb]) hc.dl (by rw [hc.delivered])

theorem Stage.call {ia ib D : Nat} {l : Link} (h : Stage ia ib D l) {e : Ev} (he : Call e) : Stage ia ib D (l.act (.callA e)) ∧ Stage ia ib D (l.act (.callB e)) := by
  have ca : Called l.a (l.a.step e) := Sess.call he
  have cb : Called l.b (l.b.step e) := Sess.call he
  rw [callA_eq ca, callB_eq cb]
  have ba := ca.aside.1
  have bb := cb.aside.1
  unfold Beside at ba bb
  cases h with
  | idle h1 h2 h3 h4 => exact ⟨.idle (h1.call ca (by simp)) (by rw [ba]; exact h2) (by rw [ba]; exact h3) h4, .idle h1 h2 h3 (h4.call cb (by simp))⟩
  | syn h1 h2 h3 => exact ⟨.syn (h1.call ca (by simp)) h2 h3, .syn h1 (h2.call cb (by simp)) h3⟩
  | got h1 h2 h3 h4 h5 h6 =>
    exact ⟨.got (h1.call ca (by simp)) h2 h3 h4 h5 h6, .got h1 (h2.call cb (by simp)) (by rw [bb]; exact h3) (by rw [bb]; exact h4) (by rw [bb]; exact h5) h6⟩
  | synAck h1 h2 h3 h4 => exact ⟨.synAck (h1.call ca (by simp)) h2 h3 h4, .synAck h1 (h2.call cb) h3 h4⟩
  | half h1 h2 h3 h4 h5 h6 h7 =>
    exact ⟨.half (by rw [ba]; exact h1) (h2.call ca) h3 (h4.callA ca) (h5.callB ca) h6 h7, .half h1 h2 (h3.call cb) (h4.callB cb) (h5.callA cb) h6 h7⟩
  | full h0 h1 h2 h3 h4 h5 h6 =>
    exact ⟨.full h0 (by rw [ba]; exact h1) h2 (h3.call ca) h4 (h5.callA ca) (h6.callB ca),
      .full h0 h1 (by rw [bb]; exact h2) h3 (h4.call cb) (h5.callB cb) (h6.callA cb)⟩

/-! #### Arrivals -/

theorem asSeen_isAck {s : Sess} {g : Seg} (h : Plain g) : isAck (asSeen s g) = true := by
  simp [isAck, asSeen, heard, h.1, h.2.1, h.2.2.1, h.2.2.2]

/-- The next segment of `a` arrives at `b`, on a connection that is up. -/
theorem arrive_up {a b : Sess} {L M : List (Nat × Seg)} {n m u v D now : Nat} {x : Nat × Seg} (hb : Sends b M now) (h : Half a b L n M u D now)
    (h' : Half b a M m L v D now) (ha : a.rcvUna ≤ b.sndNxt) (hx : L[n]? = some x) :
    let b' := b.step (.segment (asSeen a x.2))
    sent b'.out = sent b.out ∧ b'.sndIni = b.sndIni ∧ Sends b' M now ∧ Half a b' L (n + 1) M u D now ∧ Half b' a M m L v D now := by
  intro b'
  have hlt := (List.getElem?_eq_some_iff.1 hx).1
  have hdrop : L.drop n = x :: L.drop (n + 1) := by
    rw [List.drop_eq_getElem_cons hlt, (List.getElem?_eq_some_iff.1 hx).2]
  have hr := h.rest
  rw [hdrop] at hr
  have hle := hr.2.2.2.2.2.mono.2
  obtain ⟨A, S⟩ := hb.arrive (m := asSeen a x.2) (asSeen_isAck hr.1) hr.2.1 hr.2.2.1 (Nat.le_trans hle ha) hr.2.2.2.1 hr.2.2.2.2.1 rfl
  have hdl : b'.dl = b.dl := by unfold Sess.dl; rw [A.timers]
  have hdel : b'.delivered = b.delivered ++ x.2.data := by
    unfold delivered
    rw [A.out, A.rx, List.append_assoc]
    rfl
  exact ⟨by rw [A.out], A.ini, S, h.arrive hx A.rcv A.una A.rcvUna hdl hdel, h'.same A.ini A.nxt A.rcvUna rfl rfl rfl rfl rfl⟩

theorem Half.rcv_le {a b : Sess} {L M : List (Nat × Seg)} {n u D now : Nat} (h : Half a b L n M u D now) : b.rcvNxt ≤ a.sndNxt := h.rest.mono.1

theorem Stage.arrive {ia ib D : Nat} {l : Link} (h : Stage ia ib D l) (hf : Fit ia ib l) : Stage ia ib D (l.act .arriveA) ∧ Stage ia ib D (l.act .arriveB) := by
  cases h with
  | idle h1 h2 h3 h4 =>
    rw [arriveA_none rfl, arriveB_none rfl]
    exact ⟨.idle h1 h2 h3 h4, .idle h1 h2 h3 h4⟩
  | @syn a b now h1 h2 h3 =>
    obtain ⟨k1, k2, k3, k4, k5⟩ := h2.syn (m := asSeen a (theSyn ia)) rfl rfl rfl rfl rfl
    rw [arriveA_none rfl, arriveB_eq (x := (1, theSyn ia)) (new := []) rfl (by rw [List.append_nil]; exact k2)]
    exact ⟨.syn h1 h2 h3, .got h1 k1 k3 k4 k5 h3⟩
  | got h1 h2 h3 h4 h5 h6 =>
    rw [arriveA_none rfl, arriveB_none rfl]
    exact ⟨.got h1 h2 h3 h4 h5 h6, .got h1 h2 h3 h4 h5 h6⟩
  | @synAck a b t now h1 h2 h3 h4 =>
    have fl := hf.left
    have fr := hf.right
    obtain ⟨k1, k2, k3, k4, k5, k6, k7, k8, k9, -⟩ := h1.synAck (m := asSeen b (theSynAck ia ib)) rfl rfl rfl rfl rfl rfl
      (by dsimp only at fl; omega) (by show ib + 1 ≤ _; dsimp only at fr; omega)
    rw [arriveB_none rfl, arriveA_eq (x := (t, theSynAck ia ib)) (new := [theAck ia ib]) rfl k2]
    refine ⟨.half (L := []) k3 k1 h2 ?_ ?_ h3 h4, .synAck h1 h2 h3 h4⟩
    · refine ⟨Nat.zero_le _, ?_, ?_, fun x hx => by simp at hx, ?_, ?_, ?_, ?_, ?_⟩
      · exact ⟨by rw [k3, h2.rcv], h2.waiting.una.symm⟩
      · refine ⟨⟨rfl, rfl, rfl, rfl⟩, h2.rcv.symm, ?_, fun _ => ?_, by simp [theAck], ?_⟩
        · rw [h2.waiting.una]; exact Nat.le_succ _
        · rw [h2.waiting.una]; exact Nat.lt_succ_self _
        · exact ⟨k5.symm, k7.symm⟩
      · intro x hx hd
        rw [List.mem_singleton.1 hx] at hd
        exact absurd rfl hd
      · intro x hx
        rw [List.mem_singleton.1 hx]
        exact Nat.le_add_right _ _
      · rw [h2.rcv, h2.una]
      · unfold Sess.dl; rw [h2.waiting.delay]; simp
      · rw [h2.rcv, k3, h2.waiting.got]; rfl
    · refine ⟨Nat.zero_le _, ?_, ?_, fun x hx => by simp at hx, fun x hx => by simp at hx, fun x hx => by simp at hx, ?_, ?_, ?_⟩
      · exact ⟨by rw [h2.waiting.ini]; exact k6.symm, k4.symm⟩
      · exact ⟨by rw [h2.waiting.nxt]; exact k6, by rw [h2.una]; exact k4⟩
      · rw [k6, k7]
      · rw [k8]; simp
      · rw [k6, k9, h2.waiting.ini]; rfl
  | @half a b L t t' now h1 h2 h3 h4 h5 h6 h7 =>
    rw [arriveA_none rfl]
    refine ⟨.half h1 h2 h3 h4 h5 h6 h7, ?_⟩
    obtain ⟨k1, k2, k3, k4, k5, k6, k7, k8, k9, -⟩ := h3.waiting.acked h3.mss h3.ewn (m := asSeen a (theAck ia ib)) rfl (by rw [h3.rcv]; rfl) rfl rfl rfl
      (by rw [h3.una, h3.rcv])
    rw [arriveB_eq (x := (t', theAck ia ib)) (new := []) rfl (by rw [List.append_nil]; exact k2)]
    refine .full (m := 0) (n := 1) ⟨Nat.le_refl _, rfl, rfl⟩ h1 k3 h2 k1 ?_ ?_
    · refine h4.arrive (x := (t', theAck ia ib)) rfl (by rw [k6]; rfl) (by rw [k4]; rfl) k7 ?_ ?_
      · rw [k8]; unfold Sess.dl; rw [h3.waiting.delay]; rfl
      · rw [k9, h3.waiting.got]; rfl
    · exact h5.same (by rw [k3, h3.waiting.ini]) (by rw [k5, h3.waiting.nxt]) k7 rfl rfl rfl rfl rfl
  | @full a b x y L M n m now h0 h1 h2 h3 h4 h5 h6 =>
    have ra : a.rcvUna ≤ b.sndNxt := Nat.le_trans h3.ack h6.rcv_le
    have rb : b.rcvUna ≤ a.sndNxt := Nat.le_trans h4.ack h5.rcv_le
    constructor
    · cases hx : M[m]? with
      | none => rw [arriveA_none (by exact hx)]; exact .full h0 h1 h2 h3 h4 h5 h6
      | some z =>
        obtain ⟨k1, k2, k3, k4, k5⟩ := arrive_up h3 h6 h5 rb hx
        rw [arriveA_eq (x := z) (new := []) (by exact hx) (by rw [List.append_nil]; exact k1)]
        simp only [List.map_nil, List.append_nil]
        exact .full h0 (by rw [k2]; exact h1) h2 k3 h4 k5 k4
    · cases hx : L[n]? with
      | none => rw [arriveB_none (by exact hx)]; exact .full h0 h1 h2 h3 h4 h5 h6
      | some z =>
        obtain ⟨k1, k2, k3, k4, k5⟩ := arrive_up h4 h5 h6 ra hx
        rw [arriveB_eq (x := z) (new := []) (by exact hx) (by rw [List.append_nil]; exact k1)]
        simp only [List.map_nil, List.append_nil]
        exact .full ⟨Nat.le_succ_of_le h0.1, h0.2⟩ h1 (by rw [k2]; exact h2) h3 k3 k4 k5

/-! #### Milliseconds -/

theorem Answered.tick {b : Sess} {ia ib t now : Nat} (h : Answered b ia ib t now) (hn : now + 1 < t + 1000) :
    Answered b.tick ia ib t (now + 1) ∧ Ticked b b.tick [] := by
  obtain ⟨e, hw⟩ := h.waiting.tick (.inr rfl) hn
  have e' : b.tick = b.clock := e
  rw [e']
  refine ⟨⟨hw, h.rcv, h.una, h.mss, h.ewn⟩, ⟨(List.append_nil _).symm, rfl, rfl, rfl, rfl, fun _ => ⟨rfl, rfl⟩, .inl ?_, ?_⟩⟩
  · show b.rcvUna = b.rcvNxt
    rw [h.una, h.rcv]
  · show min (b.sndUna + b.tx.length) _ ≤ b.sndNxt
    rw [h.waiting.una, h.waiting.nxt, h.waiting.tx]
    simp only [List.length_nil]
    omega

theorem Ticked.sent {s s' : Sess} {new : List Seg} (h : Ticked s s' new) : Spec.sent s'.out = Spec.sent s.out ++ new := by
  rw [h.out, sent_append, sent_sents]

theorem Stage.tick {ia ib D : Nat} {l : Link} (h : Stage ia ib D l) (hD : D ≤ 400) (hf : Fit ia ib l) (hm : l.may D .tick) : Stage ia ib D (l.act .tick) := by
  obtain ⟨mA, mB⟩ := hm
  have fl := hf.left
  have fr := hf.right
  cases h with
  | @idle a b h1 h2 h3 h4 =>
    dsimp only at fl fr
    obtain ⟨k1, k2, k3, k4, k5, k6⟩ := h1.tick 0 (.inl rfl) (by omega) (by omega) h2
    have hb : b.tick = b := h4.listen_tick
    rw [tick_eq (p := [theSyn ia]) (q := []) (by show Spec.sent _ = _; exact (congrArg Spec.sent k2).trans (by simp [theSyn])) (by dsimp only; rw [hb, List.append_nil])]
    dsimp only
    rw [hb]
    exact .syn k1 h4 (by omega)
  | @syn a b now h1 h2 h3 =>
    have := mA _ List.mem_cons_self
    dsimp only at this
    obtain ⟨e, hw⟩ := h1.tick (.inl rfl) (by omega)
    have hb : b.tick = b := h2.listen_tick
    have ha : a.tick = a.clock := e
    rw [tick_eq (p := []) (q := []) (by dsimp only; rw [ha]; exact (List.append_nil _).symm) (by dsimp only; rw [hb, List.append_nil])]
    dsimp only
    rw [hb, ha]
    exact .syn hw h2 (by omega)
  | @got a b now h1 h2 h3 h4 h5 h6 =>
    obtain ⟨e, hw⟩ := h1.tick (.inl rfl) (by omega)
    have ha : a.tick = a.clock := e
    dsimp only at fl fr
    obtain ⟨k1, k2, k3, k4, k5, k6⟩ := h2.tick now (.inr rfl) (by omega) (by omega) (by omega)
    rw [tick_eq (p := []) (q := [theSynAck ia ib]) (by dsimp only; rw [ha]; exact (List.append_nil _).symm)
      (by show Spec.sent _ = _; exact (congrArg Spec.sent k2).trans (by simp [theSynAck, h3]))]
    dsimp only
    rw [ha]
    exact .synAck hw ⟨k1, by rw [← h3]; exact k3, by rw [← h3]; exact k4, by rw [← h4]; exact k5, by rw [← h5]; exact k6⟩ (by omega) (by omega)
  | @synAck a b t now h1 h2 h3 h4 =>
    have := mB _ List.mem_cons_self
    dsimp only at this
    obtain ⟨e, hw⟩ := h1.tick (.inl rfl) (by omega)
    have ha : a.tick = a.clock := e
    obtain ⟨k1, k2⟩ := h2.tick (by omega)
    rw [tick_eq (p := []) (q := []) (by dsimp only; rw [ha]; exact (List.append_nil _).symm) k2.sent]
    dsimp only
    rw [ha]
    exact .synAck hw k1 h3 (by omega)
  | @half a b L t t' now h1 h2 h3 h4 h5 h6 h7 =>
    dsimp only at fl fr mA mB
    have := mA (t', theAck ia ib) List.mem_cons_self
    dsimp only at this
    have ra := h5.rcv_le
    rw [h3.waiting.nxt] at ra
    obtain ⟨p, k1, k2⟩ := h2.tick (fun x hx hd hs => by have := h4.hot h5 hx hd hs; omega) (by rw [h1]; exact fl) (by omega)
    obtain ⟨k3, k4⟩ := h3.tick (by omega)
    rw [tick_eq (l := ⟨a, b, _, _, _, _, now⟩) (p := p) (q := []) k1.sent k4.sent]
    refine .half (by rw [← h1]; exact k1.ini) k2 k3 ?_ ?_ h6 h7
    · exact h4.tick (M := []) k1 k4 (by unfold Sess.dl; rw [k3.waiting.delay]; simp) mA
    · exact h5.tick (L := []) k4 k1 k2.dl_le (by simp)
  | @full a b x y L M n m now h0 h1 h2 h3 h4 h5 h6 =>
    dsimp only at fl fr mA mB
    have ra := h6.rcv_le
    have rb := h5.rcv_le
    have e1 := h3.tx
    have e2 := h3.len
    have e3 := h4.tx
    have e4 := h4.len
    obtain ⟨p, k1, k2⟩ := h3.tick (fun x hx hd hs => by have := h5.hot h6 hx hd hs; omega) (by rw [h1]; exact fl) (by omega)
    obtain ⟨q, k3, k4⟩ := h4.tick (fun x hx hd hs => by have := h6.hot h5 hx hd hs; omega) (by rw [h2]; exact fr) (by omega)
    rw [tick_eq (l := ⟨a, b, _, _, _, _, now⟩) (p := p) (q := q) k1.sent k3.sent]
    refine .full h0 (by rw [← h1]; exact k1.ini) (by rw [← h2]; exact k3.ini) k2 k4 ?_ ?_
    · exact h5.tick k1 k3 k4.dl_le mA
    · exact h6.tick k3 k1 k2.dl_le mB

theorem Stage.act {ia ib D : Nat} {l : Link} (h : Stage ia ib D l) (hD : D ≤ 400) (hf : Fit ia ib l) {e : Act} (hm : l.may D e) : Stage ia ib D (l.act e) := by
  cases e with
  | callA e => exact (h.call hm).1
  | callB e => exact (h.call hm).2
  | arriveA => exact (h.arrive hf).1
  | arriveB => exact (h.arrive hf).2
  | tick => exact h.tick hD hf hm

end Verif.Sess
