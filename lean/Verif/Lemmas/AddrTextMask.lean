import Verif.Props.Addr
import Verif.Lemmas.AddrText6
/-! Lemmas about the text forms of masks, networks and hosts. -/
namespace Verif
theorem pySplit_length (sep : Char) (s : Text) : (pySplit sep s).length = s.count sep + 1 := by
  induction s with
  | nil => rfl
  | cons c s ih =>
    unfold pySplit
    by_cases h : c = sep
    · simp [h, ih]
    · rw [if_neg h, List.count_cons_of_ne h]
      cases hp : pySplit sep s with
      | nil => rw [hp] at ih; simp at ih
      | cons p ps => rw [hp] at ih; simpa using ih

theorem toText6_noSlash (a : Ip6Address) : '/' ∉ a.toText := by
  intro h
  rcases a.toText_chars _ h with h | h | h <;> revert h <;> decide

theorem slash_inj {a b c d : Text} (ha : '/' ∉ a) (hb : '/' ∉ b) (h : a ++ '/' :: c = b ++ '/' :: d) : a = b ∧ c = d := by
  induction a generalizing b with
  | nil =>
    cases b with
    | nil => simpa using h
    | cons y b => simp at h hb; exact absurd h.1 hb.1
  | cons x a ih =>
    cases b with
    | nil => simp at h ha; exact absurd h.1.symm ha.1
    | cons y b =>
      simp at h ha hb
      obtain ⟨h1, h2⟩ := ih ha.2 hb.2 h.2
      exact ⟨by rw [h.1, h1], h2⟩

theorem Rx.mem_upTo_chr {p : Char → Bool} {k : Nat} {s x : Text} :
    x ∈ Rx.upTo (Rx.chr p) k s ↔ ∃ pre, s = pre ++ x ∧ (∀ c ∈ pre, p c = true) ∧ pre.length ≤ k := by
  induction k generalizing s with
  | zero =>
    simp only [Rx.upTo, List.mem_singleton]
    constructor
    · intro h; exact ⟨[], by simp [h], by simp, by simp⟩
    · rintro ⟨pre, rfl, -, h⟩; simp at h; simp [h]
  | succ k ih =>
    simp only [Rx.upTo, List.mem_cons, Rx.seq, List.mem_flatMap]
    constructor
    · rintro (h | ⟨t, ht, hx⟩)
      · exact ⟨[], by simp [h], by simp, by simp⟩
      · obtain ⟨pre, rfl, h2, h3⟩ := ih.1 hx
        cases s with
        | nil => simp [Rx.chr] at ht
        | cons c s =>
          simp only [Rx.chr] at ht
          split at ht
          · simp at ht; subst ht
            refine ⟨c :: pre, rfl, ?_, by simpa using h3⟩
            intro d hd; rcases List.mem_cons.1 hd with rfl | hd
            · assumption
            · exact h2 d hd
          · simp at ht
    · rintro ⟨pre, rfl, h2, h3⟩
      cases pre with
      | nil => left; rfl
      | cons c pre =>
        right
        refine ⟨pre ++ x, by simp [Rx.chr, h2 c (by simp)], ih.2 ⟨pre, rfl, fun d hd => h2 d (by simp [hd]), by simpa using h3⟩⟩

theorem whole_slash (k : Nat) (t : Text) (ht : ∀ c ∈ t, isDec c = true) :
    Rx.whole (Rx.seq (Rx.chr (· == '/')) (Rx.rep (Rx.chr isDec) 1 k)) ('/' :: t) = true ↔ 1 ≤ t.length ∧ t.length ≤ k + 1 := by
  have e : Rx.seq (Rx.chr (· == '/')) (Rx.rep (Rx.chr isDec) 1 k) ('/' :: t) = Rx.seq (Rx.chr isDec) (Rx.upTo (Rx.chr isDec) k) t := by
    simp [Rx.seq, Rx.chr, Rx.rep]
  rw [Rx.whole, e]
  cases t with
  | nil => simp [Rx.seq, Rx.chr]
  | cons c t =>
    have : Rx.seq (Rx.chr isDec) (Rx.upTo (Rx.chr isDec) k) (c :: t) = Rx.upTo (Rx.chr isDec) k t := by
      simp [Rx.seq, Rx.chr, ht c (by simp)]
    rw [this, List.any_eq_true]
    constructor
    · rintro ⟨x, hx, hh⟩
      obtain ⟨pre, rfl, h2, h3⟩ := Rx.mem_upTo_chr.1 hx
      have : x = [] := by
        simp at hh
        rcases hh with rfl | rfl
        · rfl
        · have := ht '\n' (by simp); revert this; decide
      subst this
      simp; omega
    · intro h
      exact ⟨[], Rx.mem_upTo_chr.2 ⟨t, by simp, fun d hd => ht d (by simp [hd]), by simp at h; omega⟩, by simp⟩

theorem decText_length (n k : Nat) (hk : 0 < k) : (decText n).length ≤ k ↔ n < 10 ^ k := by
  unfold decText
  exact Nat.length_toDigits_le_iff (by decide) hk

theorem Ip6Mask.ofText_dec (n : Nat) : Ip6Mask.ofText ('/' :: decText n) = Ip6Mask.ofPrefix n := by
  have hpos : 1 ≤ (decText n).length := by
    have := decText_ne n; cases h : decText n; · exact absurd h this
    · simp
  have hw := whole_slash 2 (decText n) (decText_dec n)
  unfold Ip6Mask.ofText
  by_cases hn : n < 1000
  · rw [if_pos (hw.2 ⟨hpos, (decText_length n 3 (by decide)).2 hn⟩)]
    simp only [List.drop_succ_cons, List.drop_zero, pyInt_dec]
    by_cases h : n ≤ 128
    · rw [if_pos (by omega)]; rfl
    · rw [if_neg (by omega), C10_ip6_mask.2.2 n (by omega)]
  · rw [if_neg, C10_ip6_mask.2.2 n (by omega)]
    intro h; have := (hw.1 h).2
    have := (decText_length n 3 (by decide)).1 this; omega

def Rx.Suf (r : Rx) : Prop := ∀ s t, t ∈ r s → ∀ c ∈ t, c ∈ s
theorem Rx.Suf.chr (p : Char → Bool) : (Rx.chr p).Suf := by
  intro s t h c hc
  cases s with
  | nil => simp [Rx.chr] at h
  | cons d s => simp only [Rx.chr] at h; split at h <;> simp at h; subst h; simp [hc]
theorem Rx.Suf.seq {a b : Rx} (ha : a.Suf) (hb : b.Suf) : (Rx.seq a b).Suf := by
  intro s t h c hc
  simp only [Rx.seq, List.mem_flatMap] at h
  obtain ⟨u, h1, h2⟩ := h
  exact ha _ _ h1 _ (hb _ _ h2 _ hc)
theorem Rx.Suf.alt {a b : Rx} (ha : a.Suf) (hb : b.Suf) : (Rx.alt a b).Suf := by
  intro s t h c hc
  simp only [Rx.alt, List.mem_append] at h
  rcases h with h | h
  · exact ha _ _ h _ hc
  · exact hb _ _ h _ hc
theorem Rx.Suf.upTo {a : Rx} (ha : a.Suf) (k : Nat) : (Rx.upTo a k).Suf := by
  induction k with
  | zero => intro s t h c hc; simp [Rx.upTo] at h; subst h; exact hc
  | succ k ih =>
    intro s t h c hc
    simp only [Rx.upTo, List.mem_cons] at h
    rcases h with rfl | h
    · exact hc
    · exact Rx.Suf.seq ha ih _ _ h _ hc
theorem Rx.Suf.rep {a : Rx} (ha : a.Suf) (n k : Nat) : (Rx.rep a n k).Suf := by
  induction n with
  | zero => exact Rx.Suf.upTo ha k
  | succ n ih => exact Rx.Suf.seq ha ih
theorem octetRx_suf : octetRx.Suf := by
  unfold octetRx
  repeat' first | apply Rx.Suf.alt | apply Rx.Suf.seq | apply Rx.Suf.rep | apply Rx.Suf.upTo | apply Rx.Suf.chr
theorem search_noDot (s : Text) (h : '.' ∉ s) : Rx.search ip4Rx s = false := by
  have key : ∀ s : Text, '.' ∉ s → ip4Rx s = [] := by
    intro s h
    rw [List.eq_nil_iff_forall_not_mem]
    intro x hx
    simp only [ip4Rx, Rx.rep, Rx.seq, List.mem_flatMap] at hx
    obtain ⟨u, ⟨v, ⟨w, h1, h2⟩, -⟩, -⟩ := hx
    cases w with
    | nil => simp [Rx.chr] at h2
    | cons c w =>
      simp only [Rx.chr] at h2
      split at h2
      · rename_i e; simp at e; subst e
        exact h (octetRx_suf _ _ h1 _ (by simp))
      · simp at h2
  induction s with
  | nil => simp [Rx.search, key [] h]
  | cons c s ih =>
    simp only [Rx.search, key _ h, ih (fun hh => h (by simp [hh]))]; rfl

theorem Ip4Mask.ofText_dec (n : Nat) : Ip4Mask.ofText ('/' :: decText n) = Ip4Mask.ofPrefix n := by
  have hpos : 1 ≤ (decText n).length := by
    have := decText_ne n; cases h : decText n; · exact absurd h this
    · simp
  have hw := whole_slash 1 (decText n) (decText_dec n)
  have hd : Rx.search ip4Rx ('/' :: decText n) = false := by
    apply search_noDot
    intro h
    rcases List.mem_cons.1 h with h | h
    · revert h; decide
    · exact (isDec_facts (decText_dec n _ h)).2.2.2.2.2 rfl
  unfold Ip4Mask.ofText
  simp only [hd]
  by_cases hn : n < 100
  · rw [if_pos (hw.2 ⟨hpos, (decText_length n 2 (by decide)).2 hn⟩)]
    simp only [List.drop_succ_cons, List.drop_zero, pyInt_dec]
    by_cases h : n ≤ 32
    · rw [if_pos (by omega)]; rfl
    · rw [if_neg (by omega), C10_ip4_mask.2.2 n (by omega)]; rfl
  · rw [if_neg, C10_ip4_mask.2.2 n (by omega)]; · rfl
    intro h; have := (hw.1 h).2
    have := (decText_length n 2 (by decide)).1 this; omega

theorem Ip4Network.of_member (n : Ip4Network) (a : Ip4Address) (h : n.contains a = true) : n = Ip4Network.ofMask a n.mask := by
  rw [(C11_ip4_membership n).1] at h
  obtain ⟨hl, hm⟩ := n.mask.len_form
  have hk := n.masked
  rw [hm, and_high n.address.lt (by omega)] at hk
  have : n.address = (Ip4Network.ofMask a n.mask).address := by
    have e : (Ip4Network.ofMask a n.mask).address.int = a.int / 2 ^ (32 - n.mask.len) * 2 ^ (32 - n.mask.len) := by
      show a.int &&& n.mask.int = _
      rw [hm]; exact and_high a.lt (by omega)
    unfold Spec.cidr at h
    rw [h, hk] at e
    cases h1 : n.address; cases h2 : (Ip4Network.ofMask a n.mask).address
    rw [h1, h2] at e; simp at e; simp [e]
  obtain ⟨x, m, hm⟩ := n
  simp only [Ip4Network.ofMask, Ip4Network.mk.injEq, and_true] at this ⊢
  exact this

theorem Ip6Network.of_member (n : Ip6Network) (a : Ip6Address) (h : n.contains a = true) : n = Ip6Network.ofMask a n.mask := by
  rw [(C11_ip6_membership n).1] at h
  obtain ⟨hl, hm⟩ := n.mask.len_form
  have hk := n.masked
  rw [hm, and_high n.address.lt (by omega)] at hk
  have : n.address = (Ip6Network.ofMask a n.mask).address := by
    have e : (Ip6Network.ofMask a n.mask).address.int = a.int / 2 ^ (128 - n.mask.len) * 2 ^ (128 - n.mask.len) := by
      show a.int &&& n.mask.int = _
      rw [hm]; exact and_high a.lt (by omega)
    unfold Spec.cidr at h
    rw [h, hk] at e
    cases h1 : n.address; cases h2 : (Ip6Network.ofMask a n.mask).address
    rw [h1, h2] at e; simp at e; simp [e]
  obtain ⟨x, m, hm⟩ := n
  simp only [Ip6Network.ofMask, Ip6Network.mk.injEq, and_true] at this ⊢
  exact this

/-- a match needs a colon -/
def Rx.Need (r : Rx) : Prop := ∀ s t, t ∈ r s → ':' ∈ s
theorem Rx.Need.left {a b : Rx} (h : a.Need) : (Rx.seq a b).Need := by
  intro s t ht
  simp only [Rx.seq, List.mem_flatMap] at ht
  obtain ⟨u, h1, -⟩ := ht
  exact h _ _ h1
theorem Rx.Need.right {a b : Rx} (ha : a.Suf) (h : b.Need) : (Rx.seq a b).Need := by
  intro s t ht
  simp only [Rx.seq, List.mem_flatMap] at ht
  obtain ⟨u, h1, h2⟩ := ht
  exact ha _ _ h1 _ (h _ _ h2)
theorem Rx.Need.alt {a b : Rx} (ha : a.Need) (hb : b.Need) : (Rx.alt a b).Need := by
  intro s t ht
  simp only [Rx.alt, List.mem_append] at ht
  exact ht.elim (ha _ _) (hb _ _)
theorem colonRx_need : colonRx.Need := by
  intro s t ht
  cases s with
  | nil => simp [colonRx, Rx.chr] at ht
  | cons c s =>
    simp only [colonRx, Rx.chr] at ht
    split at ht
    · rename_i e; simp at e; simp [e]
    · simp at ht
theorem h16Rx_suf : h16Rx.Suf := Rx.Suf.rep (Rx.Suf.chr _) _ _
theorem h16sRx_need (n k : Nat) : (h16sRx (n + 1) k).Need := Rx.Need.left (Rx.Need.right h16Rx_suf colonRx_need)
theorem search6_noColon (s : Text) (h : ':' ∉ s) : Rx.search ip6Rx s = false := by
  have hn : ip6Rx.Need := by
    unfold ip6Rx
    repeat' apply Rx.Need.alt
    all_goals first
      | exact Rx.Need.left (h16sRx_need _ _)
      | exact Rx.Need.left colonRx_need
      | exact Rx.Need.right h16Rx_suf (Rx.Need.left colonRx_need)
  have key : ∀ s : Text, ':' ∉ s → ip6Rx s = [] := fun s h => List.eq_nil_iff_forall_not_mem.2 (fun x hx => h (hn _ _ hx))
  induction s with
  | nil => simp [Rx.search, key [] h]
  | cons c s ih =>
    simp only [Rx.search, key _ h, ih (fun hh => h (by simp [hh]))]; rfl
theorem Ip6Address.ofText_noColon (s : Text) (h : ':' ∉ s) : Ip6Address.ofText s = .error .formatError := by
  unfold Ip6Address.ofText
  rw [search6_noColon s h]; rfl
theorem toText_noColon (a : Ip4Address) : ':' ∉ a.toText := by
  rw [a.toText_eq]; intro h
  rcases dotText_chars _ _ _ _ _ h with h | h <;> revert h <;> decide
end Verif
