import Verif.Lemmas.LiveInv
/-! How long it takes. -/
namespace Verif.Sess
open Verif Spec

/-! ### Flows -/

theorem _root_.Verif.Spec.Flows.trans {D : Nat} {l k l' : Link} (h : Flows D l k) (h' : Flows D k l') : Flows D l l' := by
  induction h' with
  | start => exact h
  | next _ he ih => exact .next ih he

/-- Nothing is taken back. -/
structure Later (l l' : Link) : Prop where
  fromA : l.fromA <+: l'.fromA
  fromB : l.fromB <+: l'.fromB
  atA : l.atA ≤ l'.atA
  atB : l.atB ≤ l'.atB
  now : l.now ≤ l'.now

theorem later_act (l : Link) (e : Act) : Later l (l.act e) ∧ (l.act e).now ≤ l.now + 1 ∧ ((l.act e).now ≠ l.now → e = .tick) := by
  cases e with
  | callA e => exact ⟨⟨List.prefix_append _ _, List.prefix_refl _, Nat.le_refl _, Nat.le_refl _, Nat.le_refl _⟩, Nat.le_succ _, fun h => absurd rfl h⟩
  | callB e => exact ⟨⟨List.prefix_refl _, List.prefix_append _ _, Nat.le_refl _, Nat.le_refl _, Nat.le_refl _⟩, Nat.le_succ _, fun h => absurd rfl h⟩
  | arriveA =>
    unfold Link.act
    dsimp only
    split
    · exact ⟨⟨List.prefix_append _ _, List.prefix_refl _, Nat.le_succ _, Nat.le_refl _, Nat.le_refl _⟩, Nat.le_succ _, fun h => absurd rfl h⟩
    · exact ⟨⟨List.prefix_refl _, List.prefix_refl _, Nat.le_refl _, Nat.le_refl _, Nat.le_refl _⟩, Nat.le_succ _, fun h => absurd rfl h⟩
  | arriveB =>
    unfold Link.act
    dsimp only
    split
    · exact ⟨⟨List.prefix_refl _, List.prefix_append _ _, Nat.le_refl _, Nat.le_succ _, Nat.le_refl _⟩, Nat.le_succ _, fun h => absurd rfl h⟩
    · exact ⟨⟨List.prefix_refl _, List.prefix_refl _, Nat.le_refl _, Nat.le_refl _, Nat.le_refl _⟩, Nat.le_succ _, fun h => absurd rfl h⟩
  | tick =>
    refine ⟨⟨?_, ?_, Nat.le_refl _, Nat.le_refl _, Nat.le_succ _⟩, Nat.le_refl _, fun _ => rfl⟩
    · exact (List.prefix_append _ _).trans (List.prefix_append _ _)
    · exact (List.prefix_append _ _).trans (List.prefix_append _ _)

theorem later {D : Nat} {l l' : Link} (h : Flows D l l') : Later l l' := by
  induction h with
  | start => exact ⟨List.prefix_refl _, List.prefix_refl _, Nat.le_refl _, Nat.le_refl _, Nat.le_refl _⟩
  | @next l' e _ _ ih =>
    have := (later_act l' e).1
    exact ⟨ih.1.trans this.1, ih.2.trans this.2, Nat.le_trans ih.3 this.3, Nat.le_trans ih.4 this.4, Nat.le_trans ih.5 this.5⟩

/-- A moment in between. -/
theorem _root_.Verif.Spec.Flows.split {D : Nat} {l l' : Link} (h : Flows D l l') {T : Nat} (h1 : l.now ≤ T) (h2 : T ≤ l'.now) :
    ∃ k, Flows D l k ∧ k.now = T ∧ Flows D k l' := by
  induction h with
  | start => exact ⟨l, .start, by omega, .start⟩
  | @next l'' e h he ih =>
    by_cases hT : T ≤ l''.now
    · obtain ⟨k, a, b, c⟩ := ih hT
      exact ⟨k, a, b, .next c he⟩
    · have := (later_act l'' e).2.1
      exact ⟨l''.act e, .next h he, by omega, .start⟩

/-- The first millisecond. -/
theorem _root_.Verif.Spec.Flows.ticked {D : Nat} {l l' : Link} (h : Flows D l l') (h1 : l.now < l'.now) :
    ∃ k, Flows D l k ∧ k.now = l.now ∧ k.may D .tick ∧ Flows D (k.act .tick) l' := by
  induction h with
  | start => omega
  | @next l'' e h he ih =>
    by_cases hT : l.now < l''.now
    · obtain ⟨k, a, b, c, d⟩ := ih hT
      exact ⟨k, a, b, c, .next d he⟩
    · have hl := (later h).now
      have := (later_act l'' e).2.2 (by omega)
      subst this
      exact ⟨l'', h, by omega, he, .start⟩

theorem unsent_opened (p : Bool) (ini : Nat) (lip : IpAddress) (lport : Nat) (rip : IpAddress) (rport : Nat) :
    Unsent (opened p ini lip lport rip rport) (if p then .synSent else .listen) ini := by
  cases p <;> exact ⟨rfl, rfl, rfl, rfl, rfl, rfl, rfl, rfl, rfl, rfl, rfl, rfl, rfl, rfl⟩

section
variable {ia ib D : Nat} {lip : IpAddress} {lport : Nat} {rip : IpAddress} {rport : Nat} {lip' : IpAddress} {lport' : Nat}
  {rip' : IpAddress} {rport' : Nat}

local notation "X" => opened true ia lip lport rip rport
local notation "Y" => opened false ib lip' lport' rip' rport'

theorem Fit.earlier {l l' : Link} (h : Fit ia ib l') (ha : l.a.out <+: l'.a.out) (hb : l.b.out <+: l'.b.out) : Fit ia ib l := by
  have h1 := (accepted_mono ha).length_le
  have h2 := (accepted_mono hb).length_le
  exact ⟨by have := h.left; omega, by have := h.right; omega⟩

theorem stage {l : Link} (hD : D ≤ 400) (h : Flows D (Link.new X Y) l) (hf : Fit ia ib l) : Stage ia ib D l := by
  induction h with
  | start => exact .idle (unsent_opened true ..) (show 1 ≤ 536 by decide) rfl (unsent_opened false ..)
  | next h he ih =>
    have hl := Logged.run logged_new h
    have hg := hl.grow he
    have hf' := hf.earlier hg.1 hg.2
    exact (ih hf').act hD hf' he
end

/-! ### One end, seen at two moments -/

theorem Trail.end_unique {x u y w y' w' : Nat} {l : List (Nat × Seg)} (h : Trail x u l y w) (h' : Trail x u l y' w') : y = y' ∧ w = w' := by
  induction l generalizing x u with
  | nil => exact ⟨h.1.symm.trans h'.1, h.2.symm.trans h'.2⟩
  | cons p l ih => exact ih h.2.2.2.2.2 h'.2.2.2.2.2

theorem Trail.of_append {x u z v : Nat} {l l' : List (Nat × Seg)} (h : Trail x u (l ++ l') z v) : ∃ y w, Trail x u l y w ∧ Trail y w l' z v := by
  induction l generalizing x u with
  | nil => exact ⟨x, u, ⟨rfl, rfl⟩, h⟩
  | cons p l ih =>
    obtain ⟨y, w, h1, h2⟩ := ih h.2.2.2.2.2
    exact ⟨y, w, ⟨h.1, h.2.1, h.2.2.1, h.2.2.2.1, h.2.2.2.2.1, h1⟩, h2⟩

theorem Trail.prefix {x u y w y' w' : Nat} {l l' : List (Nat × Seg)} (h : Trail x u l y w) (h' : Trail x u l' y' w') (hp : l <+: l') : y ≤ y' ∧ w ≤ w' := by
  obtain ⟨t, rfl⟩ := hp
  obtain ⟨z, v, h1, h2⟩ := h'.of_append
  obtain ⟨rfl, rfl⟩ := h.end_unique h1
  exact h2.mono

/-- An end of a connection that is up, with the other end. -/
structure View (D : Nat) (i u v : Nat) (s o : Sess) (L : List (Nat × Seg)) (n : Nat) (M : List (Nat × Seg)) (m now : Nat) : Prop where
  ini : s.sndIni = i
  sends : Sends s L now
  out : Half s o L n M u D now
  back : Half o s M m L v D now

variable {D i u v n m now n' m' now' : Nat} {s o s' o' : Sess} {L M L' M' : List (Nat × Seg)}

theorem View.nxt_le (h : View D i u v s o L n M m now) (h' : View D i u v s' o' L' n' M' m' now') (hL : L <+: L') : s.sndNxt ≤ s'.sndNxt := by
  have h1 := h.out.done.append h.out.rest
  have h2 := h'.out.done.append h'.out.rest
  rw [List.take_append_drop, h.ini] at h1
  rw [List.take_append_drop, h'.ini] at h2
  exact (h1.prefix h2 hL).1

theorem take_prefix {α : Type} {l l' : List α} {n n' : Nat} (h : l <+: l') (hn : n ≤ n') (hl : n ≤ l.length) : l.take n <+: l'.take n' := by
  obtain ⟨t, rfl⟩ := h
  rw [show l.take n = (l ++ t).take n by rw [List.take_append_of_le_length hl]]
  exact List.take_prefix_take_left hn

theorem drop_prefix {α : Type} {l l' : List α} (h : l <+: l') : l.drop 1 <+: l'.drop 1 := by
  cases l with
  | nil => exact List.nil_prefix
  | cons x l =>
    obtain ⟨t, rfl⟩ := h
    exact List.prefix_append _ _

theorem View.una_le (h : View D i u v s o L n M m now) (h' : View D i u v s' o' L' n' M' m' now') (ho : o.sndIni = o'.sndIni) (hM : M <+: M')
    (hm : m ≤ m') : s.sndUna ≤ s'.sndUna := by
  have h1 := h.back.done
  have h2 := h'.back.done
  rw [← ho] at h2
  exact (h1.prefix h2 (take_prefix hM hm h.back.count)).2

/-- Everything sent before some moment is acknowledged later. -/
theorem View.acked (h : View D i u v s o L n M m now) (h' : View D i u v s' o' L' n' M' m' now') (hL : L <+: L') (hn : now + 2 * D + 102 < now') :
    s.sndNxt ≤ s'.sndUna := by
  refine Classical.byContradiction fun hc => ?_
  have h1 := h.out.done.append h.out.rest
  rw [List.take_append_drop] at h1
  have := h'.sends.una
  have hi := h.ini
  have hi' := h'.ini
  obtain ⟨p, hp, hd, hs⟩ := h1.last (by omega)
  have h2 := h'.out.hot h'.back (hL.subset hp) hd (by omega)
  have h3 := h.sends.times p hp
  omega

/-- What has arrived, from what is acknowledged. -/
theorem View.arrived (h : View D i u v s o L n M m now) : s.sndUna ≤ i + 1 + o.delivered.length := by
  have h1 := h.back.rest.mono.2
  have h2 := h.out.ack
  have h3 := h.out.got
  have := h.ini
  omega

theorem View.prog (h : View D i u v s o L n M m now) (hD : D ≤ 400) (h1 : i + 1 + (accepted s.out).length ≤ 0xFFFFFFFF) (h2 : o.sndNxt ≤ 0xFFFFFFFF) :
    min (s.sndUna + s.tx.length) (s.sndUna + 1460) ≤ s.tick.sndNxt := by
  have h3 := h.back.rcv_le
  obtain ⟨p, k1, -⟩ := h.sends.tick (fun x hx hd hs => by have := h.out.hot h.back hx hd hs; omega) (by rw [h.ini]; exact h1) (by omega)
  exact k1.prog

/-! ### The connection as a whole -/

section
variable {ia ib D : Nat} {l l' k : Link}

theorem Stage.viewA (h : Stage ia ib D l) (hf : Fit ia ib l) (hl : 2 ≤ l.fromA.length) :
    View D ia ib (ia + 1) l.a l.b (l.fromA.drop 1) (l.atB - 1) (l.fromB.drop 1) (l.atA - 1) l.now ∧ l.b.sndIni = ib ∧ l.b.sndNxt ≤ 0xFFFFFFFF := by
  have := hf.right
  cases h with
  | idle => simp at hl
  | syn => simp at hl
  | got => simp at hl
  | synAck => simp at hl
  | half h1 h2 h3 h4 h5 h6 h7 =>
    dsimp only at this
    exact ⟨⟨h1, h2, h4, h5⟩, h3.waiting.ini, by show _ ≤ _; rw [h3.waiting.nxt]; omega⟩
  | full h0 h1 h2 h3 h4 h5 h6 =>
    dsimp only at this
    have e3 := h4.tx
    have e4 := h4.len
    exact ⟨⟨h1, h3, h5, h6⟩, h2, Nat.le_trans e3 (by omega)⟩

theorem Stage.viewB (h : Stage ia ib D l) (hf : Fit ia ib l) (hl : 2 ≤ l.atB) :
    View D ib (ia + 1) ib l.b l.a (l.fromB.drop 1) (l.atA - 1) (l.fromA.drop 1) (l.atB - 1) l.now ∧ l.a.sndIni = ia ∧ l.a.sndNxt ≤ 0xFFFFFFFF := by
  have := hf.left
  cases h with
  | idle => simp at hl
  | syn => simp at hl
  | got => simp at hl
  | synAck => simp at hl
  | half => simp at hl
  | full h0 h1 h2 h3 h4 h5 h6 =>
    dsimp only at this
    have e3 := h3.tx
    have e4 := h3.len
    exact ⟨⟨h2, h4, h6, h5⟩, h1, Nat.le_trans e3 (by omega)⟩

/-- Before the connection is up, nothing is accepted. -/
theorem Stage.quietA (h : Stage ia ib D l) (hl : ¬ 2 ≤ l.fromA.length) : accepted l.a.out = [] := by
  cases h with
  | idle h => exact h.acc
  | syn h => exact h.acc
  | got h => exact h.acc
  | synAck h => exact h.acc
  | half => simp at hl
  | full h0 _ _ _ _ h5 =>
    have := h5.count
    have := h0.1
    rw [List.length_cons] at hl
    omega

theorem Stage.quietB (h : Stage ia ib D l) (hl : ¬ 2 ≤ l.atB) : accepted l.b.out = [] := by
  cases h with
  | idle _ _ _ h => exact h.acc
  | syn _ h => exact h.acc
  | got _ h => exact h.acc
  | synAck _ h => exact h.waiting.acc
  | half _ _ h => exact h.waiting.acc
  | full h0 => have := h0.1; simp at hl; omega

theorem Stage.up (h : Stage ia ib D l) (hn : 3 * D + 3 ≤ l.now) : 2 ≤ l.fromA.length ∧ 2 ≤ l.atB := by
  cases h with
  | idle => simp at hn
  | syn => dsimp only at hn; omega
  | got => dsimp only at hn; omega
  | synAck => dsimp only at hn; omega
  | half _ _ _ h4 _ _ _ =>
    have := h4.under _ List.mem_cons_self
    dsimp only at hn this
    omega
  | full h0 _ _ _ _ h5 =>
    have := h5.count
    have := h0.1
    simp
    omega

/-- How much data there is in segments. -/
def load (l : List (Nat × Seg)) : Nat := (l.map fun p => p.2.data.length).sum

theorem Trail.load {x u y w : Nat} {l : List (Nat × Seg)} (h : Trail x u l y w) : x + Sess.load l = y := by
  induction l generalizing x u with
  | nil => exact h.1
  | cons p l ih =>
    have h1 := h.2.1
    have h2 := ih h.2.2.2.2.2
    unfold Sess.load at h2 ⊢
    simp only [Seg.stop, List.map_cons, List.sum_cons] at h2 ⊢
    omega

theorem View.load {i u v n m now : Nat} {s o : Sess} {L M : List (Nat × Seg)} (h : View D i u v s o L n M m now) : Sess.load L ≤ (accepted s.out).length := by
  have h1 := h.out.done.append h.out.rest
  rw [List.take_append_drop] at h1
  have h2 := h1.load
  have := h.sends.len
  have := h.sends.tx
  omega

theorem Stage.load (h : Stage ia ib D l) (hf : Fit ia ib l) : load l.fromA ≤ (accepted l.a.out).length ∧ load l.fromB ≤ (accepted l.b.out).length := by
  cases h with
  | idle => exact ⟨Nat.zero_le _, Nat.zero_le _⟩
  | syn => exact ⟨Nat.zero_le _, Nat.zero_le _⟩
  | got => exact ⟨Nat.zero_le _, Nat.zero_le _⟩
  | synAck => exact ⟨Nat.zero_le _, Nat.zero_le _⟩
  | half h1 h2 h3 h4 h5 h6 h7 => 
    have := View.load ⟨h1, h2, h4, h5⟩
    refine ⟨?_, Nat.zero_le _⟩
    simpa [Sess.load, theSyn] using this
  | full h0 h1 h2 h3 h4 h5 h6 =>
    have e1 := View.load ⟨h1, h3, h5, h6⟩
    have e2 := View.load ⟨h2, h4, h6, h5⟩
    constructor
    · simpa [Sess.load, h0.2.1] using e1
    · simpa [Sess.load, h0.2.2] using e2

variable {lip : IpAddress} {lport : Nat} {rip : IpAddress} {rport : Nat} {lip' : IpAddress} {lport' : Nat} {rip' : IpAddress} {rport' : Nat}

local notation "X" => opened true ia lip lport rip rport
local notation "Y" => opened false ib lip' lport' rip' rport'

theorem roundA (hD : D ≤ 400) (h : Flows D (Link.new X Y) l) (h' : Flows D l l') (hf : Fit ia ib l') (hl : 2 ≤ l.fromA.length)
    (hn : l.now + (2 * D + 104) ≤ l'.now) : min (l.a.sndUna + l.a.tx.length) (l.a.sndUna + 1460) ≤ l'.a.sndUna := by
  obtain ⟨k, k1, k2, k3, k4⟩ := h'.ticked (by omega)
  have hg := Logged.run logged_new h
  have g1 := hg.grows k1
  have g2 := (hg.run k1).grows (.next .start k3)
  have g3 := ((hg.run k1).run (.next .start k3)).grows k4
  have f3 := hf.earlier g3.1 g3.2
  have f2 := f3.earlier g2.1 g2.2
  have f1 := f2.earlier g1.1 g1.2
  have a1 := later k1
  have a2 := later (.next .start k3 : Flows D k _)
  have a3 := later k4
  have hk := Nat.le_trans hl a1.fromA.length_le
  have hk' := Nat.le_trans hk a2.fromA.length_le
  have hk'' := Nat.le_trans hk' a3.fromA.length_le
  obtain ⟨v1, i1, -⟩ := (stage hD h f1).viewA f1 hl
  obtain ⟨v2, i2, n2⟩ := (stage hD (h.trans k1) f2).viewA f2 hk
  obtain ⟨v3, i3, -⟩ := (stage hD ((h.trans k1).next k3) f3).viewA f3 hk'
  obtain ⟨v4, i4, -⟩ := (stage hD (h.trans h') hf).viewA hf hk''
  have e1 := v1.una_le v2 (i1.trans i2.symm) (drop_prefix a1.fromB) (Nat.sub_le_sub_right a1.atA 1)
  have e2 := v2.prog hD f2.left n2
  have e3 := v3.acked v4 (drop_prefix a3.fromA) (by
    have : (k.act .tick).now = k.now + 1 := rfl
    omega)
  have e4 : (k.act .tick).a = k.a.tick := rfl
  rw [e4] at e3
  have e5 := v1.sends.len
  have e6 := v2.sends.len
  have e7 := (accepted_mono g1.1).length_le
  have := v1.ini
  have := v2.ini
  omega

theorem roundB (hD : D ≤ 400) (h : Flows D (Link.new X Y) l) (h' : Flows D l l') (hf : Fit ia ib l') (hl : 2 ≤ l.atB)
    (hn : l.now + (2 * D + 104) ≤ l'.now) : min (l.b.sndUna + l.b.tx.length) (l.b.sndUna + 1460) ≤ l'.b.sndUna := by
  obtain ⟨k, k1, k2, k3, k4⟩ := h'.ticked (by omega)
  have hg := Logged.run logged_new h
  have g1 := hg.grows k1
  have g2 := (hg.run k1).grows (.next .start k3)
  have g3 := ((hg.run k1).run (.next .start k3)).grows k4
  have f3 := hf.earlier g3.1 g3.2
  have f2 := f3.earlier g2.1 g2.2
  have f1 := f2.earlier g1.1 g1.2
  have a1 := later k1
  have a2 := later (.next .start k3 : Flows D k _)
  have a3 := later k4
  have hk := Nat.le_trans hl a1.atB
  have hk' := Nat.le_trans hk a2.atB
  have hk'' := Nat.le_trans hk' a3.atB
  obtain ⟨v1, i1, -⟩ := (stage hD h f1).viewB f1 hl
  obtain ⟨v2, i2, n2⟩ := (stage hD (h.trans k1) f2).viewB f2 hk
  obtain ⟨v3, i3, -⟩ := (stage hD ((h.trans k1).next k3) f3).viewB f3 hk'
  obtain ⟨v4, i4, -⟩ := (stage hD (h.trans h') hf).viewB hf hk''
  have e1 := v1.una_le v2 (i1.trans i2.symm) (drop_prefix a1.fromA) (Nat.sub_le_sub_right a1.atB 1)
  have e2 := v2.prog hD f2.right n2
  have e3 := v3.acked v4 (drop_prefix a3.fromB) (by
    have : (k.act .tick).now = k.now + 1 := rfl
    omega)
  have e4 : (k.act .tick).b = k.b.tick := rfl
  rw [e4] at e3
  have e5 := v1.sends.len
  have e6 := v2.sends.len
  have e7 := (accepted_mono g1.2).length_le
  have := v1.ini
  have := v2.ini
  omega

theorem roundsA (hD : D ≤ 400) (r : Nat) (h : Flows D (Link.new X Y) l) (h' : Flows D l l') (hf : Fit ia ib l') (hl : 2 ≤ l.fromA.length)
    (hn : l.now + r * (2 * D + 104) ≤ l'.now) : min (l.a.sndUna + l.a.tx.length) (l.a.sndUna + 1460 * r) ≤ l'.a.sndUna := by
  induction r generalizing l' with
  | zero =>
    have a1 := later h'
    have f1 := hf.earlier ((Logged.run logged_new h).grows h').1 ((Logged.run logged_new h).grows h').2
    obtain ⟨v1, i1, -⟩ := (stage hD h f1).viewA f1 hl
    obtain ⟨v2, i2, n2⟩ := (stage hD (h.trans h') hf).viewA hf (Nat.le_trans hl a1.fromA.length_le)
    have e1 := v1.una_le v2 (i1.trans i2.symm) (drop_prefix a1.fromB) (Nat.sub_le_sub_right a1.atA 1)
    omega
  | succ r ih =>
    rw [Nat.succ_mul] at hn
    obtain ⟨k, k1, k2, k3⟩ := h'.split (T := l.now + r * (2 * D + 104)) (by omega) (by omega)
    have g1 := (Logged.run logged_new h).grows k1
    have g2 := (Logged.run logged_new (h.trans k1)).grows k3
    have f2 := hf.earlier g2.1 g2.2
    have f1 := f2.earlier g1.1 g1.2
    have hk := Nat.le_trans hl (later k1).fromA.length_le
    have e1 := ih k1 f2 (by omega)
    have e2 := roundA hD (h.trans k1) k3 hf hk (by omega)
    obtain ⟨v1, i1, -⟩ := (stage hD h f1).viewA f1 hl
    obtain ⟨v2, i2, -⟩ := (stage hD (h.trans k1) f2).viewA f2 hk
    have e5 := v1.sends.len
    have e6 := v2.sends.len
    have e7 := (accepted_mono g1.1).length_le
    have := v1.ini
    have := v2.ini
    omega

theorem roundsB (hD : D ≤ 400) (r : Nat) (h : Flows D (Link.new X Y) l) (h' : Flows D l l') (hf : Fit ia ib l') (hl : 2 ≤ l.atB)
    (hn : l.now + r * (2 * D + 104) ≤ l'.now) : min (l.b.sndUna + l.b.tx.length) (l.b.sndUna + 1460 * r) ≤ l'.b.sndUna := by
  induction r generalizing l' with
  | zero =>
    have a1 := later h'
    have f1 := hf.earlier ((Logged.run logged_new h).grows h').1 ((Logged.run logged_new h).grows h').2
    obtain ⟨v1, i1, -⟩ := (stage hD h f1).viewB f1 hl
    obtain ⟨v2, i2, n2⟩ := (stage hD (h.trans h') hf).viewB hf (Nat.le_trans hl a1.atB)
    have e1 := v1.una_le v2 (i1.trans i2.symm) (drop_prefix a1.fromA) (Nat.sub_le_sub_right a1.atB 1)
    omega
  | succ r ih =>
    rw [Nat.succ_mul] at hn
    obtain ⟨k, k1, k2, k3⟩ := h'.split (T := l.now + r * (2 * D + 104)) (by omega) (by omega)
    have g1 := (Logged.run logged_new h).grows k1
    have g2 := (Logged.run logged_new (h.trans k1)).grows k3
    have f2 := hf.earlier g2.1 g2.2
    have f1 := f2.earlier g1.1 g1.2
    have hk := Nat.le_trans hl (later k1).atB
    have e1 := ih k1 f2 (by omega)
    have e2 := roundB hD (h.trans k1) k3 hf hk (by omega)
    obtain ⟨v1, i1, -⟩ := (stage hD h f1).viewB f1 hl
    obtain ⟨v2, i2, -⟩ := (stage hD (h.trans k1) f2).viewB f2 hk
    have e5 := v1.sends.len
    have e6 := v2.sends.len
    have e7 := (accepted_mono g1.2).length_le
    have := v1.ini
    have := v2.ini
    omega

end

end Verif.Sess
