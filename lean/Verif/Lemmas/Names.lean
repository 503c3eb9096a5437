import Verif.Spec.Names
import Verif.Lemmas.AddrTextMask
import Verif.Lemmas.Dict
/-! Lemmas about the names of sockets and timers. -/
namespace Verif

theorem IpAddress.toText_noSlash (a : IpAddress) : '/' ∉ a.toText := by
  cases a with
  | v4 a => exact Verif.toText_noSlash a
  | v6 a => exact toText6_noSlash a

theorem toText4_noColon (a : Ip4Address) : ':' ∉ a.toText := by
  rw [a.toText_eq]; intro h
  rcases dotText_chars _ _ _ _ _ h with h | h <;> revert h <;> decide

theorem ntop6_colon (best : Option (Nat × Nat)) (v4 : Text) (w5 w w' : Nat) (ws : List Nat) : ':' ∈ ntop6Loop best v4 w5 0 (w :: w' :: ws) := by
  have h1 : (∀ p l, best = some (p, l) → p ≠ 0) → ':' ∈ ntop6Loop best v4 w5 1 (w' :: ws) := by
    intro hp
    unfold ntop6Loop
    cases best with
    | none => simp
    | some x =>
      obtain ⟨p, l⟩ := x
      have := hp p l rfl
      by_cases h : p ≤ 1 ∧ 1 < p + l
      · have e : (1 : Nat) = p := by omega
        dsimp only; rw [if_pos h, if_pos e]; simp
      · dsimp only; rw [if_neg h]; simp
  unfold ntop6Loop
  cases best with
  | none => have := h1 (by intro p l h; cases h); simp [this]
  | some x =>
    obtain ⟨p, l⟩ := x
    by_cases hp : p = 0
    · subst hp
      by_cases hl : 0 < l
      · simp [hl]
      · have : l = 0 := by omega
        subst this
        have : ':' ∈ ntop6Loop (some (0, 0)) v4 w5 1 (w' :: ws) := by unfold ntop6Loop; simp
        simp [this]
    · have := h1 (by intro p' l' h; cases h; exact hp)
      have h0 : ¬ (p ≤ 0 ∧ 0 < p + l) := by omega
      dsimp only
      rw [if_neg h0]; simp [this]

theorem toText6_colon (a : Ip6Address) : ':' ∈ a.toText := by
  unfold Ip6Address.toText inetNtop6
  have h := a.toBytes_length
  match hb : a.toBytes, h with
  | b0 :: b1 :: b2 :: b3 :: t, h => simp only [be16s]; exact ntop6_colon _ _ _ _ _ _

theorem IpAddress.toText_inj {a b : IpAddress} (h : a.toText = b.toText) : a = b := by
  cases a with
  | v4 a =>
    cases b with
    | v4 b =>
      have h1 := a.ofText_toText
      rw [show a.toText = b.toText from h, b.ofText_toText] at h1; injection h1 with h1; rw [h1]
    | v6 b => exact absurd ((show a.toText = b.toText from h) ▸ toText6_colon b) (toText4_noColon a)
  | v6 a =>
    cases b with
    | v4 b => exact absurd ((show a.toText = b.toText from h) ▸ toText6_colon a) (toText4_noColon b)
    | v6 b =>
      have h1 := a.ofText_toText
      rw [show a.toText = b.toText from h, b.ofText_toText] at h1; injection h1 with h1; rw [h1]

theorem Family.toText_noSlash (f : Family) : '/' ∉ f.toText := by cases f <;> decide
theorem SockType.toText_noSlash (f : SockType) : '/' ∉ f.toText := by cases f <;> decide
theorem Family.toText_inj {a b : Family} (h : a.toText = b.toText) : a = b := by revert h; cases a <;> cases b <;> decide
theorem SockType.toText_inj {a b : SockType} (h : a.toText = b.toText) : a = b := by revert h; cases a <;> cases b <;> decide

theorem SockId.toText_inj {a b : SockId} (h : a.toText = b.toText) : a = b := by
  unfold SockId.toText at h
  obtain ⟨h1, h⟩ := slash_inj a.family.toText_noSlash b.family.toText_noSlash h
  obtain ⟨h2, h⟩ := slash_inj a.type.toText_noSlash b.type.toText_noSlash h
  obtain ⟨h3, h⟩ := slash_inj a.lip.toText_noSlash b.lip.toText_noSlash h
  obtain ⟨h4, h⟩ := slash_inj (decText_noSlash _) (decText_noSlash _) h
  obtain ⟨h5, h⟩ := slash_inj a.rip.toText_noSlash b.rip.toText_noSlash h
  cases a; cases b
  simp only [SockId.mk.injEq]
  exact ⟨Family.toText_inj h1, SockType.toText_inj h2, IpAddress.toText_inj h3, decText_inj h4, IpAddress.toText_inj h5, decText_inj h⟩

theorem dec_dash {m n : Nat} {c d : Text} (h : decText m ++ '-' :: c = decText n ++ '-' :: d) : m = n ∧ c = d := by
  have key : ∀ a b : Text, '-' ∉ a → '-' ∉ b → a ++ '-' :: c = b ++ '-' :: d → a = b ∧ c = d := by
    intro a
    induction a with
    | nil =>
      intro b _ hb h
      cases b with
      | nil => simpa using h
      | cons y b => simp at h hb; exact absurd h.1 hb.1
    | cons x a ih =>
      intro b ha hb h
      cases b with
      | nil => simp at h ha; exact absurd h.1.symm ha.1
      | cons y b =>
        simp at h ha hb
        obtain ⟨h1, h2⟩ := ih b ha.2 hb.2 h.2
        exact ⟨by rw [h.1, h1], h2⟩
  have nd : ∀ n, '-' ∉ decText n := fun n h => (isDec_facts (decText_dec n _ h)).2.1 rfl
  obtain ⟨h1, h2⟩ := key _ _ (nd m) (nd n) h
  exact ⟨decText_inj h1, h2⟩

theorem retransmit_text : "-retransmit_seq-".toList = '-' :: 'r' :: "etransmit_seq-".toList := by decide +kernel
theorem delayed_text : "-delayed_ack".toList = '-' :: 'd' :: "elayed_ack".toList := by decide +kernel
theorem wait_text : "-time_wait".toList = '-' :: 't' :: "ime_wait".toList := by decide +kernel

theorem TimerName.toText_dash (n : TimerName) : ∃ t, n.toText = '-' :: t := by
  cases n
  · exact ⟨_, delayed_text⟩
  · unfold TimerName.toText; rw [retransmit_text]; exact ⟨_, List.cons_append⟩
  · exact ⟨_, wait_text⟩

theorem TimerName.toText_inj {a b : TimerName} (h : a.toText = b.toText) : a = b := by
  cases a <;> cases b <;> unfold TimerName.toText at h <;> dsimp only at h
  · rfl
  · rw [delayed_text, retransmit_text, List.cons_append, List.cons_append] at h
    injection h with _ h; injection h with h; exfalso; revert h; decide
  · rw [delayed_text, wait_text] at h
    injection h with _ h; injection h with h; exfalso; revert h; decide
  · rw [delayed_text, retransmit_text, List.cons_append, List.cons_append] at h
    injection h with _ h; injection h with h; exfalso; revert h; decide
  · rw [decText_inj (List.append_cancel_left h)]
  · rw [wait_text, retransmit_text, List.cons_append, List.cons_append] at h
    injection h with _ h; injection h with h; exfalso; revert h; decide
  · rw [delayed_text, wait_text] at h
    injection h with _ h; injection h with h; exfalso; revert h; decide
  · rw [wait_text, retransmit_text, List.cons_append, List.cons_append] at h
    injection h with _ h; injection h with h; exfalso; revert h; decide
  · rfl

theorem Quad.timer_inj {p q : Quad} {m n : TimerName} (h : p.timer m = q.timer n) : p = q ∧ m = n := by
  unfold Quad.timer at h
  have h := congrArg String.toList h
  simp only [String.toList_ofList] at h
  unfold Quad.toText at h
  simp only [List.append_assoc, List.cons_append] at h
  obtain ⟨h3, h⟩ := slash_inj p.lip.toText_noSlash q.lip.toText_noSlash h
  obtain ⟨h4, h⟩ := slash_inj (decText_noSlash _) (decText_noSlash _) h
  obtain ⟨h5, h⟩ := slash_inj p.rip.toText_noSlash q.rip.toText_noSlash h
  obtain ⟨x, hx⟩ := m.toText_dash
  obtain ⟨y, hy⟩ := n.toText_dash
  rw [hx, hy] at h
  obtain ⟨h6, h⟩ := dec_dash h
  refine ⟨?_, TimerName.toText_inj (by rw [hx, hy, h])⟩
  cases p; cases q
  simp only [Quad.mk.injEq]
  exact ⟨IpAddress.toText_inj h3, decText_inj h4, IpAddress.toText_inj h5, h6⟩

theorem pySplit_cons (sep : Char) (a b : Text) (ha : sep ∉ a) : pySplit sep (a ++ sep :: b) = a :: pySplit sep b := by
  induction a with
  | nil => simp [pySplit]
  | cons c a ih =>
    simp at ha
    have : c ≠ sep := fun e => ha.1 e.symm
    show pySplit sep (c :: (a ++ sep :: b)) = _
    rw [pySplit, if_neg this, ih ha.2]

theorem SockId.portOfKey (i : SockId) : Verif.portOfKey i.toText = .ok (i.lport : Int) := by
  unfold Verif.portOfKey SockId.toText
  rw [pySplit_cons _ _ _ i.family.toText_noSlash, pySplit_cons _ _ _ i.type.toText_noSlash, pySplit_cons _ _ _ i.lip.toText_noSlash,
    pySplit_cons _ _ _ (decText_noSlash _)]
  simp only [List.getElem?_cons_succ, List.getElem?_cons_zero]
  exact pyInt_dec _

theorem Dict.get?_down {K : Type} [DecidableEq K] (d : Dict K Int) (k : K) (hd : d.keys.Nodup) :
    Dict.get? ((d.map (fun e => (e.1, e.2 - 1))).filter (fun e => e.2 ≠ 0)) k = (d.get? k).bind fun v => if v - 1 = 0 then none else some (v - 1) := by
  induction d with
  | nil => rfl
  | cons e d ih =>
    have hn := List.nodup_cons.mp hd
    have ih := ih hn.2
    rw [Dict.get?_cons]
    simp only [List.map_cons]
    by_cases hz : e.2 - 1 = 0
    · rw [List.filter_cons_of_neg (by simpa using hz), ih]
      by_cases hk : e.1 = k
      · rw [if_pos hk]
        have : Dict.get? d k = none := (Dict.get?_eq_none_iff d k).mpr (hk ▸ hn.1)
        simp [this, hz]
      · rw [if_neg hk]
    · rw [List.filter_cons_of_pos (by simpa using hz), Dict.get?_cons, ih]
      by_cases hk : e.1 = k
      · simp [hk, hz]
      · simp [hk]

theorem Dict.nodup_down {K : Type} [DecidableEq K] (d : Dict K Int) (hd : d.keys.Nodup) :
    Dict.keys ((d.map (fun e => (e.1, e.2 - 1))).filter (fun e => e.2 ≠ 0)) |>.Nodup := by
  apply Dict.nodup_filter
  have : Dict.keys (d.map (fun e => (e.1, e.2 - 1))) = Dict.keys d := by simp [Dict.keys, Function.comp_def]
  rw [this]; exact hd

end Verif
