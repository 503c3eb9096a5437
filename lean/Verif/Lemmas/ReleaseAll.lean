import Verif.Lemmas.ReleaseDrain
/-! From the call of `close` to the end. -/
namespace Verif.Release
open Verif Spec Sess

/-- The same, seen from the other side. -/
def mirror : Act → Act
  | .callA e => .callB e
  | .callB e => .callA e
  | .arriveA => .arriveB
  | .arriveB => .arriveA
  | .tick => .tick

theorem swap_act (k : Link) (e : Act) : (k.act e).swap = k.swap.act (mirror e) := by
  cases e with
  | callA e => rfl
  | callB e => rfl
  | tick => rfl
  | arriveA =>
    simp only [Link.act, mirror, Link.swap]
    cases k.fromB[k.atA]? <;> rfl
  | arriveB =>
    simp only [Link.act, mirror, Link.swap]
    cases k.fromA[k.atB]? <;> rfl

theorem swap_may {D : Nat} {k : Link} {e : Act} (h : k.may D e) : k.swap.may D (mirror e) := by
  cases e with
  | callA e => exact h
  | callB e => exact h
  | tick => exact ⟨h.2, h.1⟩
  | arriveA => trivial
  | arriveB => trivial

/-- A set of links of which nobody has closed, closed under what can happen: everything accepted so far is `PA` and `PB`; the first end has
nothing left to send after `t`. -/
structure Ready (S : Link → Prop) (D : Nat) (PA PB : Bytes) (t : Nat) : Prop where
  act : ∀ k e, S k → k.may D e → S (k.act e)
  up : ∀ k, S k → accepted k.a.out = PA → accepted k.b.out = PB → OpenLink D PA PB k ∧ k.b.tx = [] ∧ (t ≤ k.now → k.a.tx = [])

/-- The two phases. -/
def Going (S : Link → Prop) (D : Nat) (PA PB : Bytes) (t tc : Nat) (l : Link) : Prop :=
  (∃ k, S k ∧ accepted k.a.out = PA ∧ accepted k.b.out = PB ∧ l = clk k ∧ k.now ≤ t) ∨
    ∃ k x y, S k ∧ accepted k.a.out = PA ∧ accepted k.b.out = PB ∧ x + 1 ≤ 0xFFFFFFFF ∧ y + 1 ≤ 0xFFFFFFFF ∧
      Rel D x y PB PA k.fromA k.fromB (t + 1) tc l

theorem Rel.sooner {D x y : Nat} {WA WB : Bytes} {L M : List (Nat × Seg)} {T T' tc : Nat} {l : Link} (h : Rel D x y WA WB L M T tc l) (hT : T ≤ T') :
    Rel D x y WA WB L M T' tc l := by
  cases h with
  | calm h1 h2 h3 => exact .calm h1 h2 (by omega)
  | fin h1 h2 h3 h4 => exact .fin h1 h2 (by omega) h4
  | told h1 h2 h3 h4 => exact .told h1 h2 (by omega) h4
  | last h1 h2 h3 h4 => exact .last h1 h2 (by omega) h4
  | acked h1 h2 h3 h4 h5 => exact .acked h1 h2 (by omega) h4 h5
  | ackedOut h1 h2 h3 h4 h5 h6 => exact .ackedOut h1 h2 (by omega) h4 h5 h6
  | direct h1 h2 h3 h4 h5 => exact .direct h1 h2 (by omega) h4 h5
  | half h1 h2 => exact .half h1 h2
  | halfOut h1 h2 h3 => exact .halfOut h1 h2 h3
  | wait h1 h2 h3 h4 h5 h6 => exact .wait h1 h2 h3 h4 h5 h6
  | alone h1 h2 h3 h4 h5 => exact .alone h1 h2 h3 h4 h5

section
variable {S : Link → Prop} {D : Nat} {PA PB : Bytes} {t tc : Nat} {l l' : Link}

theorem Going.act (r : Ready S D PA PB t) (hD : D ≤ 400) (h : Going S D PA PB t tc l) {e : Act} (hm : l.mayPart D e)
    (hc : e = .callB .close → l.b.closes = true ∨ l.now ≤ tc) : Going S D PA PB t tc (l.act e) := by
  rcases h with ⟨k, h1, h2, h3, rfl, h4⟩ | ⟨k, x, y, h1, h2, h3, h4, h5, h6⟩
  · obtain ⟨o1, o2, o3⟩ := r.up k h1 h2 h3
    rcases o1.drain hD hm o2 with ⟨e', g1, g2, g3, g4⟩ | ⟨g1, x, y, g2, g3, g4⟩
    · by_cases hn : ((e'.map k.act).getD k).now ≤ t
      · refine .inl ⟨(e'.map k.act).getD k, ?_, g2, g3, g4, hn⟩
        cases e' with
        | none => exact h1
        | some e' => exact r.act _ _ h1 (g1 _ rfl)
      · exfalso
        cases e' with
        | none => exact hn h4
        | some e' =>
          have hl := later_act k e'
          have he := hl.2.2 (by intro h; exact hn (by show (k.act e').now ≤ t; omega))
          have hk : k.now = t := by
            have := hl.2.1
            have : ¬ (k.act e').now ≤ t := hn
            omega
          have ht := o3 (by omega)
          have hee : e = .tick := by
            have : ((clk k).act e).now = (k.act e').now := by rw [g4]; rfl
            refine (later_act (clk k) e).2.2 fun h => hn ?_
            show (k.act e').now ≤ t
            rw [← this, h]
            exact h4
          subst hee
          subst he
          obtain ⟨p, q, L, M, n, m, u, v, fA, fB, aA, aB, h⟩ := o1
          obtain ⟨e1, e2, x, y, hx, hy, i1, i2, i3, i4⟩ := h.idle ht o2
          have := ((i1.looks (looks_cl _)).moves (.inl rfl) (i3.looks (looks_cl _)) (by omega) (by omega) rfl).1.base.state
          have e3 : ((clk k).act .tick).a.state = (cl k.a).tick.state := rfl
          have e4 : (clk (k.act .tick)).a.state = .established := by
            have hu := r.up _ (r.act _ _ h1 (g1 _ rfl)) g2 g3
            obtain ⟨⟨_, _, _, _, _, _, _, _, _, _, _, _, h⟩, -⟩ := hu
            exact h.left.state
          have g5 : (clk k).act .tick = clk (k.act .tick) := g4
          rw [← g5, e3, this] at e4
          cases e4
    · exact .inr ⟨k, x, y, h1, h2, h3, g2, g3, (g4 tc).sooner (by omega)⟩
  · exact .inr ⟨k, x, y, h1, h2, h3, h4, h5, h6.act hD h4 h5 hm hc⟩

theorem Going.parts (r : Ready S D PA PB t) (hD : D ≤ 400) (h : Going S D PA PB t tc l) (hp : Parts D l l') (hc : l'.now ≤ tc) : Going S D PA PB t tc l' := by
  induction hp with
  | start => exact h
  | @next k e _ he ih =>
    have := (later_act k e).1.now
    exact (ih (by omega)).act r hD he fun _ => .inr (by omega)

/-- The second end has closed. -/
theorem Going.closed (r : Ready S D PA PB t) (hD : D ≤ 400) (h : Going S D PA PB t tc l) (hq : Queue (fun _ => True) l.b) (hb : l.b.closes = true)
    (hp : Parts D l l') : Going S D PA PB t tc l' ∧ l'.b.closes = true := by
  induction hp with
  | start => exact ⟨h, hb⟩
  | @next k e hk he ih =>
    obtain ⟨evs, h1⟩ := parts_runB (hk.next he)
    exact ⟨ih.1.act r hD he fun _ => .inl ih.2, by rw [h1]; exact closes_run hq hb⟩
end

/-! ### A connection is such a set -/

section
variable {ia ib D : Nat} {PA PB : Bytes} {l k : Link} {lip : IpAddress} {lport : Nat} {rip : IpAddress} {rport : Nat} {lip' : IpAddress}
  {lport' : Nat} {rip' : IpAddress} {rport' : Nat}

local notation "X" => opened true ia lip lport rip rport
local notation "Y" => opened false ib lip' lport' rip' rport'

theorem open_link (hD : D ≤ 400) (h : Flows D (Link.new X Y) k) (ha : accepted k.a.out = PA) (hb : accepted k.b.out = PB)
    (fa : ia + 2 + PA.length ≤ 0xFFFFFFFF) (fb : ib + 2 + PB.length ≤ 0xFFFFFFFF) (h2 : 2 ≤ k.atB) : OpenLink D PA PB k := by
  have hf : Fit ia ib k := ⟨by rw [ha]; omega, by rw [hb]; omega⟩
  have hg := Logged.run logged_new h
  have hp := C81_prefix _ _ _ _ _ _ _ _ _ _ _ _ hg.joined
  obtain ⟨-, -, h5, -, h7, -⟩ := pair_joined hg.joined
  have hs := stage hD h hf
  revert h5 h7 hp
  cases hs with
  | idle => simp at h2
  | syn => simp at h2
  | got => simp at h2
  | synAck => simp at h2
  | half => simp at h2
  | full h0 s1 s2 s3 s4 s5 s6 =>
    intro hp h5 h7
    exact ⟨_, _, _, _, _, _, _, _, rfl, rfl, rfl, rfl, s3, s4, s5, s6, (h5.openPhase (.inl s3.state)).fin, (h7.openPhase (.inl s4.state)).fin, ha, hb,
      by rw [← hb]; exact hp.1, by rw [← ha]; exact hp.2, by rw [s1]; exact fa, by rw [s2]; exact fb⟩

theorem at_two (hD : D ≤ 400) (h : Flows D (Link.new X Y) k) (hf : Fit ia ib k) (hs : k.b.state = .established) : 2 ≤ k.atB := by
  have := stage hD h hf
  cases this with
  | idle _ _ _ hu => have := hu.state; simp_all
  | syn _ hu => have := hu.state; simp_all
  | got _ hu => have := hu.state; simp_all
  | synAck _ hu => have := hu.waiting.state; simp_all
  | half _ _ hu => have := hu.waiting.state; simp_all
  | full h0 => show 2 ≤ _ + 1; omega

/-- An end that has nothing left to send, and to which nothing is given, has nothing left later. -/
theorem still_none {D i u v n m now n' m' now' : Nat} {s o s' o' : Sess} {L M L' M' : List (Nat × Seg)} (h : View D i u v s o L n M m now)
    (h' : View D i u v s' o' L' n' M' m' now') (ho : o.sndIni = o'.sndIni) (hM : M <+: M') (hm : m ≤ m') (ha : accepted s'.out = accepted s.out)
    {c : Nat} (hc : min (s.sndUna + s.tx.length) c ≤ s'.sndUna) (hx : s.sndUna + s.tx.length ≤ c) : s'.tx = [] := by
  have h1 := h.sends.len
  have h2 := h'.sends.len
  have h3 := h.ini
  have h4 := h'.ini
  rw [ha] at h2
  refine List.eq_nil_of_length_eq_zero ?_
  omega

theorem ready_client (hD : D ≤ 400) (h : Flows D (Link.new X Y) l) (ha : accepted l.a.out = PA) (hb : accepted l.b.out = PB)
    (fa : ia + 2 + PA.length ≤ 0xFFFFFFFF) (fb : ib + 2 + PB.length ≤ 0xFFFFFFFF) (hs : l.b.state = .established) (ht : l.b.tx = []) :
    Ready (Flows D l) D PA PB (l.now + (l.a.tx.length + 1459) / 1460 * (2 * D + 104)) := by
  have hf : Fit ia ib l := ⟨by rw [ha]; omega, by rw [hb]; omega⟩
  have h2 := at_two hD h hf hs
  refine ⟨fun k e hk he => .next hk he, fun k hk hka hkb => ?_⟩
  have hl := later hk
  have hf' : Fit ia ib k := ⟨by rw [hka]; omega, by rw [hkb]; omega⟩
  have h2' := Nat.le_trans h2 hl.atB
  have la : 2 ≤ l.fromA.length := by
    have hk := open_link hD h ha hb fa fb h2
    obtain ⟨p, q, L, M, n, m, u, v, fA, fB, aA, aB, o⟩ := hk
    have := o.out.count
    rw [fA, List.length_cons]
    omega
  have lb := Nat.le_trans la hl.fromA.length_le
  refine ⟨open_link hD (h.trans hk) hka hkb fa fb h2', ?_, fun hn => ?_⟩
  · obtain ⟨v1, i1, -⟩ := (stage hD h hf).viewB hf h2
    obtain ⟨v2, i2, -⟩ := (stage hD (h.trans hk) hf').viewB hf' h2'
    refine still_none v1 v2 (i1.trans i2.symm) (drop_prefix hl.fromA) (Nat.sub_le_sub_right hl.atB 1) (hkb.trans hb.symm) (c := l.b.sndUna) ?_ (by rw [ht]; exact Nat.le_refl _)
    refine Nat.le_trans (Nat.min_le_right _ _) ?_
    have := v1.una_le v2 (i1.trans i2.symm) (drop_prefix hl.fromA) (Nat.sub_le_sub_right hl.atB 1)
    exact this
  · obtain ⟨v1, i1, -⟩ := (stage hD h hf).viewA hf la
    obtain ⟨v2, i2, -⟩ := (stage hD (h.trans hk) hf').viewA hf' lb
    exact still_none v1 v2 (i1.trans i2.symm) (drop_prefix hl.fromB) (Nat.sub_le_sub_right hl.atA 1) (hka.trans ha.symm) (roundsA hD _ h hk hf' la hn) (by omega)

theorem OpenLink.swap (h : OpenLink D PA PB k) : OpenLink D PB PA k.swap := by
  obtain ⟨p, q, L, M, n, m, u, v, fA, fB, aA, aB, o⟩ := h
  exact ⟨q, p, M, L, m, n, v, u, fB, fA, aB, aA, o.swap⟩

theorem ready_server (hD : D ≤ 400) (h : Flows D (Link.new X Y) l) (ha : accepted l.a.out = PA) (hb : accepted l.b.out = PB)
    (fa : ia + 2 + PA.length ≤ 0xFFFFFFFF) (fb : ib + 2 + PB.length ≤ 0xFFFFFFFF) (hs : l.b.state = .established) (ht : l.a.tx = []) :
    Ready (fun k => Flows D l k.swap) D PB PA (l.now + (l.b.tx.length + 1459) / 1460 * (2 * D + 104)) := by
  have hf : Fit ia ib l := ⟨by rw [ha]; omega, by rw [hb]; omega⟩
  have h2 := at_two hD h hf hs
  refine ⟨fun k e hk he => by rw [swap_act]; exact .next hk (swap_may he), fun k' hk hkb hka => ?_⟩
  generalize hkk : k'.swap = k at hk
  obtain rfl : k' = k.swap := by rw [← hkk]; rfl
  change accepted k.b.out = PB at hkb
  change accepted k.a.out = PA at hka
  have hl := later hk
  have hf' : Fit ia ib k := ⟨by rw [hka]; omega, by rw [hkb]; omega⟩
  have h2' := Nat.le_trans h2 hl.atB
  have la : 2 ≤ l.fromA.length := by
    have hk := open_link hD h ha hb fa fb h2
    obtain ⟨p, q, L, M, n, m, u, v, fA, fB, aA, aB, o⟩ := hk
    have := o.out.count
    rw [fA, List.length_cons]
    omega
  have lb := Nat.le_trans la hl.fromA.length_le
  refine ⟨(open_link hD (h.trans hk) hka hkb fa fb h2').swap, ?_, fun hn => ?_⟩
  · obtain ⟨v1, i1, -⟩ := (stage hD h hf).viewA hf la
    obtain ⟨v2, i2, -⟩ := (stage hD (h.trans hk) hf').viewA hf' lb
    refine still_none v1 v2 (i1.trans i2.symm) (drop_prefix hl.fromB) (Nat.sub_le_sub_right hl.atA 1) (hka.trans ha.symm) (c := l.a.sndUna) ?_ (by rw [ht]; exact Nat.le_refl _)
    refine Nat.le_trans (Nat.min_le_right _ _) ?_
    have := v1.una_le v2 (i1.trans i2.symm) (drop_prefix hl.fromB) (Nat.sub_le_sub_right hl.atA 1)
    exact this
  · obtain ⟨v1, i1, -⟩ := (stage hD h hf).viewB hf h2
    obtain ⟨v2, i2, -⟩ := (stage hD (h.trans hk) hf').viewB hf' h2'
    exact still_none v1 v2 (i1.trans i2.symm) (drop_prefix hl.fromA) (Nat.sub_le_sub_right hl.atB 1) (hkb.trans hb.symm) (roundsB hD _ h hk hf' h2 hn) (by omega)
end

/-- How long what is left takes. -/
def rest (D : Nat) (s : Sess) : Nat := (s.tx.length + 1459) / 1460 * (2 * D + 104)

theorem ready {D ia ib : Nat} {l : Link} (hD : D ≤ 400) (h : Connection D ia ib l) (hsa : l.a.state = .established) (hs : l.b.state = .established)
    (ht : l.b.tx = []) (fa : ia + 2 + (accepted l.a.out).length ≤ 0xFFFFFFFF) (fb : ib + 2 + (accepted l.b.out).length ≤ 0xFFFFFFFF) :
    ∃ S : Link → Prop, S l ∧ Ready S D (accepted l.a.out) (accepted l.b.out) (l.now + rest D l.a) ∧ ∀ k, S k → Later l k := by
  cases h with
  | client h => exact ⟨_, .start, ready_client hD h rfl rfl fa fb hs ht, fun k hk => later hk⟩
  | server h =>
    refine ⟨_, ?_, ready_server hD h rfl rfl fb fa hsa ht, fun k hk => ?_⟩
    · exact .start
    · have := later hk
      exact ⟨this.2, this.1, this.4, this.3, this.5⟩

theorem going_start {S : Link → Prop} {D : Nat} {PA PB : Bytes} {t tc : Nat} {l : Link} (r : Ready S D PA PB t) (hl : S l) (ha : accepted l.a.out = PA)
    (hb : accepted l.b.out = PB) (hn : l.now ≤ t) : Going S D PA PB t tc l.close := by
  refine .inl ⟨l, hl, ha, hb, ?_, hn⟩
  obtain ⟨⟨p, q, L, M, n, m, u, v, fA, fB, aA, aB, o⟩, -⟩ := r.up l hl ha hb
  obtain ⟨k1, k2⟩ := looks_close (s := l.a) (.inl o.left.state)
  unfold Link.close
  rw [callA_looks k1]
  rcases k2 with k2 | k2
  · rw [k2]; rfl
  · exact absurd o.left.state k2.2.1

end Verif.Release
