import Verif.Lemmas.AddrFormsRx
import Verif.Spec.Ip4Forms
import Mathlib.Data.List.Induction
/-! Lemmas on the texts of IPv4 addresses. -/
namespace Verif
open Spec

theorem canon_dec (c : Char) (hc : isDec c = true) (h0 : c ≠ '0') (ds : Text) (h : ∀ d ∈ ds, isDec d = true) :
    decText (numVal 10 (c :: ds)) = c :: ds ∧ 0 < numVal 10 (c :: ds) := by
  induction ds using List.reverseRecOn with
  | nil =>
    have e : ∀ c ∈ "0123456789abcdefABCDEF".toList, isDec c = true → c ≠ '0' → decText (numVal 10 [c]) = [c] ∧ 0 < numVal 10 [c] := by decide +kernel
    exact e c (isHex_mem (isDec_hex hc)) hc h0
  | append_singleton ds d ih =>
    obtain ⟨i1, i2⟩ := ih (fun x hx => h x (by simp [hx]))
    have hd := h d (by simp)
    rw [← List.cons_append, numVal_append]
    exact ⟨by rw [decText_snoc _ i2 _ hd, i1], by omega⟩

theorem dot_not_dec {ds : Text} (h : ∀ d ∈ ds, isDec d = true) : '.' ∉ ds := fun hm => absurd (h _ hm) (by decide)

theorem first_part (s : Text) : ∃ u x, s = u ++ x ∧ '.' ∉ u ∧ (x = [] ∨ ∃ t, x = '.' :: t) := by
  induction s with
  | nil => exact ⟨[], [], rfl, by simp, .inl rfl⟩
  | cons c s ih =>
    by_cases hc : c = '.'
    · exact ⟨[], c :: s, rfl, by simp, .inr ⟨s, by rw [hc]⟩⟩
    · obtain ⟨u, x, rfl, h1, h2⟩ := ih
      exact ⟨c :: u, x, rfl, by simp [h1, Ne.symm hc], h2⟩

theorem NoLeadingZeros.first {u x : Text} (h : NoLeadingZeros (u ++ x)) (hu : '.' ∉ u) (hx : x = [] ∨ ∃ t, x = '.' :: t) :
    u.head? = some '0' → u = ['0'] := by
  refine h u ?_
  rcases hx with rfl | ⟨t, rfl⟩
  · rw [List.append_nil, List.splitOn_eq_singleton hu]; simp
  · rw [List.splitOn_append_cons_self_of_not_mem hu]; simp

theorem NoLeadingZeros.rest {u t : Text} (h : NoLeadingZeros (u ++ '.' :: t)) (hu : '.' ∉ u) : NoLeadingZeros t := by
  intro p hp
  refine h p ?_
  rw [List.splitOn_append_cons_self_of_not_mem hu]; simp [hp]

/-- a number, read without leading zeros -/
theorem strtoul_canon (c : Char) (s : Text) (hc : isDec c = true) (h : NoLeadingZeros (c :: s)) :
    ∃ n x, c :: s = decText n ++ x ∧ strtoul (c :: s) = (n, x) := by
  by_cases h0 : c = '0'
  · subst h0
    obtain ⟨u, x, e, h1, h2⟩ := first_part ('0' :: s)
    have hu : u = ['0'] := by
      refine NoLeadingZeros.first (e ▸ h) h1 h2 ?_
      cases u with
      | nil => rcases h2 with rfl | ⟨t, rfl⟩ <;> simp at e
      | cons d u => simp at e; simp [← e.1]
    subst hu
    have hz : decText 0 = ['0'] := by decide +kernel
    refine ⟨0, x, by rw [e, hz], ?_⟩
    rw [e, ← hz]
    refine strtoul_dec 0 x ?_
    rcases h2 with rfl | ⟨t, rfl⟩
    · simp
    · simp; decide
  · have hall : ∀ d ∈ s.takeWhile isDec, isDec d = true := fun d hd => List.all_eq_true.1 List.all_takeWhile d hd
    have k := canon_dec c hc h0 _ hall
    refine ⟨numVal 10 (c :: s.takeWhile isDec), s.dropWhile isDec, ?_, ?_⟩
    · rw [k.1, List.cons_append, List.takeWhile_append_dropWhile]
    · unfold strtoul
      split
      · rename_i e; simp at e; exact absurd e.1 h0
      · rename_i e; simp at e; exact absurd e.1 h0
      · simp [hc]

theorem aton_step (k acc v : Nat) (s : Text) (h : atonLoop k acc s = some v) (hu : Unbroken s) (hz : NoLeadingZeros s) :
    ∃ n x, s = decText n ++ x ∧ ((x = [] ∧ n < 256 ^ (k + 1)) ∨ ∃ t k', k = k' + 1 ∧ x = '.' :: t ∧ n < 256 ∧ atonLoop k' (acc * 256 + n) t = some v) := by
  unfold atonLoop at h
  cases s with
  | nil => simp at h
  | cons c s =>
    dsimp only at h
    cases hc : isDec c with
    | false => simp [hc] at h
    | true =>
      obtain ⟨n, x, e1, e2⟩ := strtoul_canon c s hc hz
      refine ⟨n, x, e1, ?_⟩
      simp only [hc, e2, Bool.not_true, Bool.false_eq_true, if_false] at h
      by_cases hb : n > 0xFFFFFFFF
      · simp [hb] at h
      · rw [if_neg hb] at h
        cases x with
        | nil =>
          refine .inl ⟨rfl, ?_⟩
          by_cases hn : n ≥ 256 ^ (k + 1)
          · simp [hn] at h
          · omega
        | cons e t =>
          by_cases he : e = '.'
          · subst he
            cases k with
            | zero => simp at h
            | succ k =>
              replace h : (if n > 255 then none else atonLoop k (acc * 256 + n) t) = some v := h
              by_cases hn : n > 255
              · simp [hn] at h
              · rw [if_neg hn] at h
                exact .inr ⟨t, k, rfl, rfl, by omega, h⟩
          · exfalso
            have hm := hu e (by rw [e1]; simp)
            have hw : (e == ' ' || (decide (9 ≤ e.toNat) && decide (e.toNat ≤ 13))) = false := by
              rw [Bool.or_eq_false_iff]
              constructor
              · rw [beq_eq_false_iff_ne]; rintro rfl; exact hm.2.1 (by decide)
              · have := hm.2.2
                simp only [Bool.and_eq_false_iff, decide_eq_false_iff_not]; omega
            split at h
            · rename_i q; simp at q; exact he q.1
            · rename_i q; simp at q; exact he q.1
            · rename_i q; simp at q
            · rename_i q _ _; simp at q
              obtain ⟨rfl, rfl⟩ := q
              rw [hw] at h
              simp at h

/-- the texts `inet_aton` takes, without white space and leading zeros: numbers with dots between -/
theorem aton_back : ∀ k acc (s : Text) v, atonLoop k acc s = some v → Unbroken s → NoLeadingZeros s →
    ∃ (ns : List Nat) (n : Nat), s = (ns.map (fun m => decText m ++ ['.'])).flatten ++ decText n ∧ (∀ m ∈ ns, m < 256) ∧ ns.length ≤ k ∧
      n < 256 ^ (k + 1 - ns.length) := by
  intro k
  induction k with
  | zero =>
    intro acc s v h hu hz
    obtain ⟨n, x, rfl, ⟨rfl, hn⟩ | ⟨t, k', hk, -⟩⟩ := aton_step _ _ _ _ h hu hz
    · exact ⟨[], n, by simp, by simp, by simp, by simpa using hn⟩
    · omega
  | succ k ih =>
    intro acc s v h hu hz
    obtain ⟨n, x, rfl, ⟨rfl, hn⟩ | ⟨t, k', hk, rfl, hn, ht⟩⟩ := aton_step _ _ _ _ h hu hz
    · exact ⟨[], n, by simp, by simp, by simp, by simpa using hn⟩
    · obtain rfl : k = k' := by omega
      obtain ⟨ns, m, rfl, h1, h2, h3⟩ := ih _ t v ht (fun c hc => hu c (by simp [hc])) (NoLeadingZeros.rest hz (dot_not_dec (decText_dec n)))
      refine ⟨n :: ns, m, by simp, ?_, by simp; omega, ?_⟩
      · intro q hq
        rcases List.mem_cons.1 hq with rfl | hq
        · exact hn
        · exact h1 q hq
      · simpa using h3

theorem octetRx_eats : octetRx.Eats (fun _ => True) := by
  unfold octetRx
  have c := fun p => (Rx.Eats.chr p)
  refine Rx.Eats.alt ?_ ?_
  · exact (Rx.Eats.seq (c _) (Rx.Eats.seq (c _) (c _))).mono fun _ _ => trivial
  · refine (Rx.Eats.seq (Rx.Eats.any (P := fun _ => True) (Rx.Eats.alt ?_ ?_) _ _) (c _)).mono fun _ _ => trivial
    · exact (Rx.Eats.seq (c _) (c _)).mono fun _ _ => trivial
    · exact (Rx.Eats.seq (Rx.Eats.any (c _) _ _) (c _)).mono fun _ _ => trivial

theorem ip4Rx_eats : ip4Rx.Eats (fun u => 3 ≤ u.count '.') := by
  have g : (Rx.seq octetRx (Rx.chr (· == '.'))).Eats (fun u => 1 ≤ u.count '.') := by
    refine (Rx.Eats.seq octetRx_eats (Rx.Eats.chr _)).mono ?_
    rintro u ⟨x, y, rfl, -, c, hc, rfl⟩
    simp at hc; subst hc
    simp
  have r : ∀ n, (Rx.rep (Rx.seq octetRx (Rx.chr (· == '.'))) n 0).Eats (fun u => n ≤ u.count '.') := by
    intro n
    induction n with
    | zero => intro s t h; simp [Rx.rep, Rx.upTo] at h; exact ⟨[], by simp [h], by simp⟩
    | succ n ih =>
      refine (Rx.Eats.seq g ih).mono ?_
      rintro u ⟨x, y, rfl, h1, h2⟩
      rw [List.count_append]; omega
  refine (Rx.Eats.seq (r 3) octetRx_eats).mono ?_
  rintro u ⟨x, y, rfl, h1, -⟩
  rw [List.count_append]; omega

theorem count_parts (ns : List Nat) (n : Nat) : ((ns.map (fun m => decText m ++ ['.'])).flatten ++ decText n).count '.' = ns.length := by
  have z : ∀ n, (decText n).count '.' = 0 := fun n => List.count_eq_zero.2 (dot_not_dec (decText_dec n))
  induction ns with
  | nil => simp [z]
  | cons m ns ih => simp [z] at ih ⊢; exact ih

theorem ip4_back (s : Text) (v : Nat) (hs : Rx.search ip4Rx s = true) (hv : inetAton s = some v) (hu : Unbroken s) (hz : NoLeadingZeros s) :
    ∃ a b c d, a < 256 ∧ b < 256 ∧ c < 256 ∧ d < 256 ∧ s = dotText a b c d := by
  obtain ⟨ns, n, e, h1, h2, h3⟩ := aton_back _ _ _ _ hv hu hz
  obtain ⟨u, hi, hc⟩ := search_eats ip4Rx_eats s hs
  have hl : 3 ≤ ns.length := by
    rw [← count_parts ns n, ← e]
    exact Nat.le_trans hc (hi.sublist.count_le _)
  have hl : ns.length = 3 := by omega
  match ns, hl, e, h1, h3 with
  | [a, b, c], _, e, h1, h3 =>
    refine ⟨a, b, c, n, h1 a (by simp), h1 b (by simp), h1 c (by simp), by simpa using h3, ?_⟩
    rw [e]; simp [dotText]

/-- the texts refused are refused with the format error -/
theorem ip4_refused (s : Text) (hu : Unbroken s) (hz : NoLeadingZeros s)
    (h : ¬ ∃ a b c d, a < 256 ∧ b < 256 ∧ c < 256 ∧ d < 256 ∧ s = dotText a b c d) : Ip4Address.ofText s = .error .formatError := by
  unfold Ip4Address.ofText
  cases hs : Rx.search ip4Rx s with
  | false => simp
  | true =>
    rw [if_pos rfl, if_neg]
    · cases hv : inetAton s with
      | none => rfl
      | some v => exact absurd (ip4_back s v hs hv hu hz) h
    · intro hm
      simp at hm
      exact (hu _ hm).1 (by decide)

theorem dotText_eq (a b c d : Nat) : dotText a b c d = dotted a b c d := by simp only [dotText, dotted, decText_eq]

theorem atonLoop_blank (k acc n : Nat) (hn : n < 256) (e : Char) (he : e.toNat = 32 ∨ (9 ≤ e.toNat ∧ e.toNat ≤ 13)) (t : Text) :
    atonLoop k acc (decText n ++ e :: t) = some (acc * 256 ^ (k + 1) + n) := by
  have hx : isHex e = false ∧ e ≠ 'x' ∧ e ≠ 'X' := by
    refine ⟨?_, ?_, ?_⟩
    · cases hh : isHex e with
      | false => rfl
      | true =>
        exfalso
        have q : ∀ c ∈ "0123456789abcdefABCDEF".toList, ¬ (c.toNat = 32 ∨ (9 ≤ c.toNat ∧ c.toNat ≤ 13)) := by decide +kernel
        exact q e (isHex_mem hh) he
    · rintro rfl; revert he; decide
    · rintro rfl; revert he; decide
  have hd : e ≠ '.' := by rintro rfl; revert he; decide
  have hs := strtoul_dec n (e :: t) (by simpa using hx)
  have hw : (e == ' ' || (decide (9 ≤ e.toNat) && decide (e.toNat ≤ 13))) = true := by
    rcases he with he | he
    · have : e = ' ' := Char.toNat_inj.1 (by rw [he]; decide)
      simp [this]
    · simp [he]
  unfold atonLoop
  cases hdt : decText n with
  | nil => exact absurd hdt (decText_ne n)
  | cons c ds =>
    have hc : isDec c = true := decText_dec n c (by rw [hdt]; simp)
    rw [hdt] at hs
    simp only [List.cons_append] at hs ⊢
    simp only [hc, hs]
    have hp : 256 ≤ 256 ^ (k + 1) := by rw [Nat.pow_succ]; have := Nat.pow_pos (n := k) (show 0 < 256 by decide); omega
    rw [if_neg (by simp), if_neg (by omega)]
    split
    · rename_i q; simp at q; exact absurd q.1 hd
    · rename_i q; simp at q; exact absurd q.1 hd
    · rename_i q; simp at q
    · rename_i q _ _; simp at q
      obtain ⟨rfl, rfl⟩ := q
      rw [hw, if_neg (by simp), if_neg (by omega)]

/-- after white space, anything -/
theorem ip4_blank (a b c d : Nat) (ha : a < 256) (hb : b < 256) (hc : c < 256) (hd : d < 256) (e : Char)
    (he : e.toNat = 32 ∨ (9 ≤ e.toNat ∧ e.toNat ≤ 13)) (t : Text) (ht : '\x00' ∉ t) :
    Ip4Address.ofText (dotText a b c d ++ e :: t) = Ip4Address.ofInt ((dot a b c d : Nat) : Int) := by
  unfold Ip4Address.ofText
  rw [if_pos (search_dot a b c d ha hb hc hd _), if_neg]
  · have : inetAton (dotText a b c d ++ e :: t) = some (dot a b c d) := by
      unfold inetAton dotText
      simp only [List.append_assoc, List.cons_append]
      rw [atonLoop_dot _ _ _ _ ha, atonLoop_dot _ _ _ _ hb, atonLoop_dot _ _ _ _ hc, atonLoop_blank _ _ _ hd e he]
      simp [dot]
    rw [this]
  · intro h
    simp at h
    rcases h with h | h | h
    · rcases dotText_chars _ _ _ _ _ h with h | h
      · revert h; decide
      · revert h; decide
    · subst h; revert he; decide
    · exact ht h

end Verif
