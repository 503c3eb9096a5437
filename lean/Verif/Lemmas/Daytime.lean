import Verif.Spec.Daytime
import Verif.Lemmas.Echo
/-! The daytime service: how the time is written, and the service's record. -/
namespace Verif
open Spec Echo

namespace Daytime

theorem pad_figures (w : Nat) : ∀ n, n < 10 ^ w → Figures w n (pad w n) := by
  induction w with
  | zero =>
    intro n hn
    have : n = 0 := by simpa using hn
    exact ⟨rfl, by simp [pad], by rw [this]; rfl⟩
  | succ w ih =>
    intro n hn
    have hd : n / 10 < 10 ^ w := by rw [Nat.div_lt_iff_lt_mul (by omega)]; rw [Nat.pow_succ] at hn; exact hn
    obtain ⟨h1, h2, h3⟩ := ih _ hd
    have hv : (UInt8.ofNat (48 + n % 10)).toNat = 48 + n % 10 := by
      rw [UInt8.toNat_ofNat']; omega
    refine ⟨by rw [pad, List.length_append, h1]; rfl, ?_, ?_⟩
    · intro b hb
      rw [pad, List.mem_append] at hb
      rcases hb with hb | hb
      · exact h2 b hb
      · rw [List.mem_singleton] at hb
        subst hb
        rw [UInt8.le_iff_toNat_le, UInt8.le_iff_toNat_le, hv]
        have e1 : (48 : UInt8).toNat = 48 := rfl
        have e2 : (57 : UInt8).toNat = 57 := rfl
        omega
    · rw [pad, List.foldl_append, h3, List.foldl_cons, List.foldl_nil, hv]
      omega

theorem str_text {n : Now} (h : OnClock n) : TimeText n (str n) := by
  obtain ⟨h1, h2, h3, h4, h5, h6, h7⟩ := h
  refine ⟨_, _, _, _, _, _, _, pad_figures 4 _ (by omega), pad_figures 2 _ (by omega), pad_figures 2 _ (by omega), pad_figures 2 _ (by omega),
    pad_figures 2 _ (by omega), pad_figures 2 _ (by omega), ?_, rfl⟩
  by_cases h : n.micro = 0
  · rw [if_pos h]; exact .inl ⟨h, rfl⟩
  · rw [if_neg h]; exact .inr ⟨by omega, _, pad_figures 6 _ (by omega), rfl⟩

theorem figures_inj {w n n' : Nat} {d : Bytes} (h : Figures w n d) (h' : Figures w n' d) : n = n' := h.value.symm.trans h'.value

theorem text_inj {n n' : Now} {x : Bytes} (h : TimeText n x) (h' : TimeText n' x) : n = n' := by
  obtain ⟨y, mo, d, hh, mi, s, u, f1, f2, f3, f4, f5, f6, f7, rfl⟩ := h
  obtain ⟨y', mo', d', hh', mi', s', u', g1, g2, g3, g4, g5, g6, g7, e⟩ := h'
  simp only [List.append_assoc] at e
  have cut : ∀ {a a' b b' : Bytes}, a ++ b = a' ++ b' → a.length = a'.length → a = a' ∧ b = b' := fun h hl => List.append_inj h hl
  obtain ⟨e1, k1⟩ := cut e (by rw [f1.length, g1.length])
  obtain ⟨e2, k2⟩ := cut k1 (by rw [List.length_cons, List.length_cons, f2.length, g2.length])
  obtain ⟨e3, k3⟩ := cut k2 (by rw [List.length_cons, List.length_cons, f3.length, g3.length])
  obtain ⟨e4, k4⟩ := cut k3 (by rw [List.length_cons, List.length_cons, f4.length, g4.length])
  obtain ⟨e5, k5⟩ := cut k4 (by rw [List.length_cons, List.length_cons, f5.length, g5.length])
  obtain ⟨e6, k6⟩ := cut k5 (by rw [List.length_cons, List.length_cons, f6.length, g6.length])
  clear e k1 k2 k3 k4 k5
  subst e1 k6
  cases e2; cases e3; cases e4; cases e5; cases e6
  have a1 := figures_inj f1 g1
  have a2 := figures_inj f2 g2
  have a3 := figures_inj f3 g3
  have a4 := figures_inj f4 g4
  have a5 := figures_inj f5 g5
  have a6 := figures_inj f6 g6
  have a7 : n.micro = n'.micro := by
    rcases f7 with ⟨z, rfl⟩ | ⟨z, v, fv, rfl⟩
    · rcases g7 with ⟨z', -⟩ | ⟨-, v, -, e⟩
      · rw [z, z']
      · cases e
    · rcases g7 with ⟨-, e⟩ | ⟨-, v', gv, e⟩
      · cases e
      · cases e; exact figures_inj fv gv
  cases n; cases n'
  simp_all

/-! ### A round, and the record -/

theorem round_queue {h : Host} {r : Nat} {s : Sock} (hs : h.node.socks.socks[r]? = some s) (choice : Nat) (now : Now) :
    (s.queue = [] ∧ round h r choice now = (h, .waits)) ∨
    ∃ m q h' s', s.queue = m :: q ∧ (round h r choice now).1 = h' ∧ h'.node.socks.socks[r]? = some s' ∧ s'.queue = q ∧
      ((∃ n outs, (round h r choice now).2 = .answered m.rip m.rport (str now) n outs) ∨ ∃ e, (round h r choice now).2 = .died e) := by
  cases hq : s.queue with
  | nil => exact .inl ⟨rfl, by rw [round, Socks.recvfrom, hs]; dsimp only; rw [hq]⟩
  | cons m q =>
    right
    have hr : h.node.socks.recvfrom r = (h.node.socks.put r { s with queue := q }, .ok (m.data, m.rip, m.rport)) := by
      rw [Socks.recvfrom, hs]; dsimp only; rw [hq]
    have hg : (h.withSocks (h.node.socks.put r { s with queue := q })).node.socks.socks[r]? = some { s with queue := q } := get_put _ hs
    obtain ⟨s', a1, a2⟩ := sendto_queue hg (str now) (some m.rip) m.rport choice
    rw [round, hr]
    dsimp only
    revert a1
    generalize (h.withSocks (h.node.socks.put r { s with queue := q })).sendto r (str now) (some m.rip) m.rport choice = x
    obtain ⟨h', x⟩ := x
    intro a1
    cases x with
    | error e => exact ⟨m, q, h', s', rfl, rfl, a1, a2, .inr ⟨e, rfl⟩⟩
    | ok y => exact ⟨m, q, h', s', rfl, rfl, a1, a2, .inl ⟨_, _, rfl⟩⟩

/-- What the record says about the queue, after events with the clock at `ts` when the service ran. -/
structure Told (r : Nat) (s : Service) (ts : List Now) : Prop where
  sock : ∃ x, s.host.node.socks.socks[r]? = some x
  told : ∃ k, (replied s).map (fun x => (x.1, x.2.1)) = ((requested s).take k).map (fun m => (m.rip, m.rport)) ∧
    (if s.alive then k else k + 1) ≤ (requested s).length ∧ unread s.host r = (requested s).drop (if s.alive then k else k + 1)
  clock : ((replied s).map (·.2.2)).Sublist (ts.map str)

theorem Told.step {r : Nat} {s : Service} {ts : List Now} (h : Told r s ts) (e : Ev × Now) : Told r (step r s e) (ts ++ clockWhenRun [e]) := by
  obtain ⟨⟨x, hx⟩, ⟨k, h1, h2, h3⟩, h4⟩ := h
  obtain ⟨e, now⟩ := e
  cases e with
  | caches a n =>
    refine ⟨⟨x, hx⟩, ⟨k, h1, h2, h3⟩, ?_⟩
    rw [show clockWhenRun [(Ev.caches a n, now)] = [] from rfl, List.append_nil]
    exact h4
  | frame t₀ t₁ t d F =>
    obtain ⟨x', a1, a2, -⟩ := receive_queue hx t₀ t₁ t d F
    have er : requested (Daytime.step r s (.frame t₀ t₁ t d F, now)) = requested s ++ broughtBy r s.host t₀ t₁ t d F := by
      simp only [requested, Daytime.step, List.filterMap_append]
      rw [came_requested]
    have ep : replied (Daytime.step r s (.frame t₀ t₁ t d F, now)) = replied s := by
      simp only [replied, Daytime.step, List.filterMap_append]
      rw [came_replied, List.append_nil]
    have ea : (Daytime.step r s (.frame t₀ t₁ t d F, now)).alive = s.alive := rfl
    refine ⟨⟨x', a1⟩, ⟨k, ?_, ?_, ?_⟩, ?_⟩
    · rw [ep, er, h1, List.take_append_of_le_length (by split at h2 <;> omega)]
    · rw [er, ea, List.length_append]; omega
    · rw [er, ea, List.drop_append_of_le_length h2, ← h3]
      exact (unread_some a1).trans (by rw [a2, unread_some hx])
    · rw [ep]; simpa [clockWhenRun] using h4
  | round c =>
    have hsub : ((replied s).map (·.2.2)).Sublist ((ts ++ clockWhenRun [(.round c, now)]).map str) := by
      rw [List.map_append]; exact h4.trans (List.sublist_append_left _ _)
    by_cases ha : s.alive = true
    · rw [ha, if_pos rfl] at h2 h3
      rw [Daytime.step, if_pos ha]
      rcases round_queue hx c now with ⟨-, e⟩ | ⟨m, q, h', x', q1, q2, q3, q4, q5⟩
      · rw [e]; exact ⟨⟨x, hx⟩, ⟨k, h1, by rw [ha]; exact h2, by rw [ha]; exact h3⟩, hsub⟩
      · have hd : (requested s).drop k = m :: q := by rw [← h3, unread_some hx, q1]
        have hk : k < (requested s).length := by
          apply Nat.lt_of_not_le
          intro hle
          rw [List.drop_of_length_le hle] at hd; cases hd
        have hd' : (requested s).drop (k + 1) = q := by rw [List.drop_add_one_eq_tail_drop, hd]; rfl
        have ht : (requested s).take (k + 1) = (requested s).take k ++ [m] := by
          rw [List.take_add_one]
          have : (requested s)[k]? = some m := by
            have := List.getElem?_drop (xs := requested s) (i := k) (j := 0)
            rw [hd] at this
            simpa using this.symm
          rw [this]; rfl
        obtain ⟨h₂, y, hy⟩ : ∃ h₂ y, Daytime.round s.host r c now = (h₂, y) := ⟨_, _, rfl⟩
        rw [hy] at q2 q5 ⊢
        dsimp only at q2 q5
        subst q2
        rcases q5 with ⟨n, outs, rfl⟩ | ⟨e, rfl⟩
        · have er : requested { s with host := h₂, log := s.log ++ [.answered m.rip m.rport (str now) n outs] } = requested s := by
            simp [requested, requested.asRequest]
          have ep : replied { s with host := h₂, log := s.log ++ [.answered m.rip m.rport (str now) n outs] } =
              replied s ++ [(m.rip, m.rport, str now)] := by simp [replied, replied.asReply]
          refine ⟨⟨x', q3⟩, ⟨k + 1, ?_, ?_, ?_⟩, ?_⟩
          · dsimp only
            rw [er, ep, List.map_append, h1, ht]; simp
          · dsimp only
            rw [er, if_pos ha]; exact hk
          · dsimp only
            rw [er, if_pos ha, hd', unread_some q3, q4]
          · dsimp only
            rw [ep, List.map_append, List.map_append]
            exact h4.append (by simp [clockWhenRun])
        · exact ⟨⟨x', q3⟩, ⟨k, h1, hk, by dsimp only; rw [unread_some q3, q4]; exact hd'.symm⟩, hsub⟩
    · rw [Daytime.step, if_neg ha]; exact ⟨⟨x, hx⟩, ⟨k, h1, h2, h3⟩, hsub⟩

theorem Told.run {r : Nat} {s : Service} {ts : List Now} (h : Told r s ts) (evs : List (Ev × Now)) : Told r (run r s evs) (ts ++ clockWhenRun evs) := by
  induction evs generalizing s ts with
  | nil => rw [show clockWhenRun [] = [] from rfl, List.append_nil]; exact h
  | cons e evs ih =>
    have := ih (h.step e)
    rw [List.append_assoc] at this
    have hc : clockWhenRun [e] ++ clockWhenRun evs = clockWhenRun (e :: evs) := by
      rw [clockWhenRun, clockWhenRun, clockWhenRun, ← List.filterMap_append]; rfl
    rw [hc] at this
    exact this

end Daytime
end Verif
