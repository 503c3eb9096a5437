import Verif.Lemmas.AddrTextMask
import Verif.Lemmas.AddrText6
import Verif.Spec.AddrForms
/-! Which texts `Ip6Address` accepts (C111). -/
namespace Verif
open Spec

/-- A group, as the code sees it. -/
def Grp (t : Text) (w : Nat) : Prop := t ≠ [] ∧ t.length ≤ 4 ∧ (∀ c ∈ t, isHex c = true) ∧ numVal 16 t = w

theorem hexGroup_iff (t : Text) (w : Nat) : HexGroup t w ↔ Grp t w := by
  have key : ∀ (t : Text) (vs : List Nat) (a : Nat), t.map hexValue = vs.map some →
      (∀ c ∈ t, isHex c = true) ∧ t.foldl (fun acc c => acc * 16 + digitVal c) a = vs.foldl (fun a v => 16 * a + v) a := by
    intro t
    induction t with
    | nil => intro vs a h; cases vs with
      | nil => simp
      | cons => simp at h
    | cons c t ih =>
      intro vs a h
      cases vs with
      | nil => simp at h
      | cons v vs =>
        simp only [List.map_cons, List.cons.injEq] at h
        have hc := isHex_of_hexValue h.1
        have hv := (hex_facts hc).1
        rw [h.1] at hv
        injection hv with hv
        obtain ⟨h1, h2⟩ := ih vs (a * 16 + digitVal c) h.2
        refine ⟨by simpa [hc] using h1, ?_⟩
        rw [List.foldl_cons, List.foldl_cons, h2, hv, Nat.mul_comm]
  constructor
  · rintro ⟨h1, h2, vs, h3, rfl⟩
    obtain ⟨h4, h5⟩ := key t vs 0 h3
    exact ⟨by rintro rfl; simp at h1, h2, h4, h5⟩
  · rintro ⟨h1, h2, h3, rfl⟩
    have h3' : t.map hexValue = (t.map digitVal).map some := by
      rw [List.map_map]
      exact List.map_congr_left fun c hc => (hex_facts (h3 c hc)).1
    exact ⟨by cases t with | nil => exact absurd rfl h1 | cons => simp, h2, t.map digitVal, h3', (key t _ 0 h3').2⟩

theorem Grp.lt {t : Text} {w : Nat} (h : Grp t w) : w < 65536 := by
  obtain ⟨h1, h2, h3, rfl⟩ := h
  have : ∀ (t : Text) (a : Nat), (∀ c ∈ t, isHex c = true) → t.foldl (fun acc c => acc * 16 + digitVal c) a < (a + 1) * 16 ^ t.length := by
    intro t
    induction t with
    | nil => intro a _; simp
    | cons c t ih =>
      intro a h
      have hc := (hex_facts (h c (by simp))).2.2.2.1
      have := ih (a * 16 + digitVal c) (fun c hc => h c (by simp [hc]))
      rw [List.foldl_cons, List.length_cons, Nat.pow_succ, Nat.mul_comm (16 ^ _) 16, ← Nat.mul_assoc]
      exact Nat.lt_of_lt_of_le this (Nat.mul_le_mul_right _ (by omega))
  have h := this t 0 h3
  simp only [Nat.zero_add, Nat.one_mul] at h
  exact Nat.lt_of_lt_of_le h (Nat.pow_le_pow_right (n := 16) (by omega) h2)

theorem isHex_ne {c : Char} (h : isHex c = true) : c ≠ ':' ∧ c ≠ '.' := by constructor <;> rintro rfl <;> revert h <;> decide

/-! ### The loop, forwards -/

theorem pton6_grp {t : Text} {w : Nat} (g : Grp t w) (src : Text) (tp : List Nat) (cp : Option Nat) (ct : Text) (hs : src ≠ [])
    (hl : tp.length + 2 ≤ 16) : pton6Loop tp cp ct 0 0 (t ++ ':' :: src) = pton6Loop (tp ++ [w / 256, w % 256]) cp src 0 0 src := by
  obtain ⟨h0, h4, hh, e⟩ := g
  rw [pton6_digits _ _ _ _ _ _ _ hh (by omega)]
  rw [show t.foldl (fun acc c => acc * 16 + digitVal c) 0 = w from e]
  have h0 : t.length ≠ 0 := by simp [h0]
  conv => lhs; unfold pton6Loop
  rw [if_neg (by decide), if_pos rfl, if_neg (by omega), if_neg hs, if_neg (by omega)]

theorem pton6_grp_last {t : Text} {w : Nat} (g : Grp t w) (tp : List Nat) (cp : Option Nat) (ct : Text) (hl : tp.length + 2 ≤ 16) :
    pton6Loop tp cp ct 0 0 t = pton6End (tp ++ [w / 256, w % 256]) cp := by
  obtain ⟨h0, h4, hh, e⟩ := g
  have := pton6_digits t [] tp cp ct 0 0 hh (by omega)
  rw [List.append_nil] at this
  rw [this]
  have h0 : t.length ≠ 0 := by simp [h0]
  rw [show t.foldl (fun acc c => acc * 16 + digitVal c) 0 = w from e, pton6Loop, if_pos (by omega), if_neg (by omega)]

theorem dotted_eq (a b c d : Nat) : dotText a b c d = dotted a b c d := by simp [dotText, dotted, decText_eq]

theorem Hextets.ne {q : Bool} {s : Text} {bs : List Nat} (h : Hextets q s bs) : s ≠ [] := by
  cases h with
  | one g => exact ((hexGroup_iff _ _).1 g).1
  | dotted => rw [← dotted_eq]; exact dotText_ne _ _ _ _
  | more => simp

theorem pton6_hextets {q : Bool} {s : Text} {qs : List Nat} (h : Hextets q s qs) (tp : List Nat) (cp : Option Nat) (hl : tp.length + qs.length ≤ 16) :
    pton6Loop tp cp s 0 0 s = pton6End (tp ++ qs) cp := by
  induction h generalizing tp with
  | one g => exact pton6_grp_last ((hexGroup_iff _ _).1 g) tp cp _ (by simpa using hl)
  | dotted _ ha hb hc hd => rw [← dotted_eq]; exact pton6_v4 _ _ _ _ ha hb hc hd tp cp (by simpa using hl)
  | @more t s w bs g h ih =>
    simp only [List.length_cons] at hl
    rw [pton6_grp ((hexGroup_iff _ _).1 g) s tp cp _ (Hextets.ne h) (by omega), ih _ (by simp; omega)]
    simp

/-- Groups, each with `:` behind it. -/
inductive Heads : Text → List Nat → Prop
  | nil : Heads [] []
  | cons {t s : Text} {w : Nat} {bs : List Nat} : Grp t w → Heads s bs → Heads (t ++ ':' :: s) (w / 256 :: w % 256 :: bs)

theorem heads_of_hextets {q : Bool} {s : Text} {bs : List Nat} (h : Hextets q s bs) (hq : q = false) : Heads (s ++ [':']) bs := by
  induction h with
  | one g => exact .cons ((hexGroup_iff _ _).1 g) .nil
  | dotted h => rw [hq] at h; cases h
  | more g h ih => rw [List.append_assoc]; exact .cons ((hexGroup_iff _ _).1 g) ih

theorem hextets_of_heads {s : Text} {bs : List Nat} (h : Heads s bs) : s = [] ∧ bs = [] ∨ ∃ t, s = t ++ [':'] ∧ Hextets false t bs := by
  induction h with
  | nil => exact .inl ⟨rfl, rfl⟩
  | @cons t s w bs g h ih =>
    refine .inr ?_
    rcases ih with ⟨rfl, rfl⟩ | ⟨u, rfl, hu⟩
    · exact ⟨t, rfl, .one ((hexGroup_iff _ _).2 g)⟩
    · exact ⟨t ++ ':' :: u, by simp, .more ((hexGroup_iff _ _).2 g) hu⟩

theorem pton6_heads {pre : Text} {ps : List Nat} (h : Heads pre ps) (rest : Text) (hr : rest ≠ []) (tp : List Nat) (cp : Option Nat)
    (hl : tp.length + ps.length ≤ 16) :
    pton6Loop tp cp (pre ++ rest) 0 0 (pre ++ rest) = pton6Loop (tp ++ ps) cp rest 0 0 rest := by
  induction h generalizing tp with
  | nil => simp
  | @cons t s w bs g h ih =>
    simp only [List.length_cons] at hl
    rw [List.append_assoc, List.cons_append, pton6_grp g _ tp cp _ (by simp [hr]) (by omega), ih _ (by simp; omega)]
    simp

/-! ### The loop, backwards -/

theorem decText_snoc (v : Nat) (hv : 0 < v) (c : Char) (hc : isDec c = true) : decText (v * 10 + digitVal c) = decText v ++ [c] := by
  have hd : digitVal c < 10 ∧ Nat.digitChar (digitVal c) = c := by
    have e : ∀ c ∈ "0123456789abcdefABCDEF".toList, isDec c = true → digitVal c < 10 ∧ Nat.digitChar (digitVal c) = c := by decide +kernel
    exact e c (isHex_mem (isDec_hex hc)) hc
  unfold decText
  conv => lhs; rw [Nat.toDigits_eq_if (by decide)]
  rw [if_neg (by omega), show (v * 10 + digitVal c) / 10 = v by omega, show (v * 10 + digitVal c) % 10 = digitVal c by omega, hd.2]

theorem decText_digit (c : Char) (hc : isDec c = true) : decText (digitVal c) = [c] ∧ digitVal c < 10 := by
  have e : ∀ c ∈ "0123456789abcdefABCDEF".toList, isDec c = true → decText (digitVal c) = [c] ∧ digitVal c < 10 := by decide +kernel
  exact e c (isHex_mem (isDec_hex hc)) hc

/-- what comes after a number -/
def After4 (acc : List Nat) (n : Nat) (o : List Nat) (t : Text) : Prop :=
  (t = [] ∧ 4 ≤ acc.length + 1 ∧ o = acc ++ [n]) ∨ ∃ u, t = '.' :: u ∧ acc.length + 1 ≠ 4 ∧ pton4Loop (acc ++ [n]) none u = some o

theorem pton4_some (acc o : List Nat) (t : Text) : ∀ v, v < 256 → pton4Loop acc (some v) t = some o →
    ∃ n < 256, ∃ u, decText v ++ t = decText n ++ u ∧ After4 acc n o u := by
  induction t with
  | nil =>
    intro v hv h
    rw [pton4Loop] at h
    split at h
    · cases h
    · rename_i h4
      injection h with h
      exact ⟨v, hv, [], rfl, .inl ⟨rfl, by omega, h.symm⟩⟩
  | cons c t ih =>
    intro v hv h
    rw [pton4Loop] at h
    split at h
    · rename_i hc
      split at h
      · cases h
      rename_i h0
      simp only [Option.getD_some] at h
      split at h
      · cases h
      rw [if_neg (by simp)] at h
      have h0 : 0 < v := by
        rcases Nat.eq_zero_or_pos v with rfl | h'
        · exact absurd rfl h0
        · exact h'
      obtain ⟨n, hn, u, e, ha⟩ := ih _ (by omega) h
      rw [decText_snoc v h0 c hc, List.append_assoc] at e
      exact ⟨n, hn, u, e, ha⟩
    · split at h
      · rename_i hc
        split at h
        · cases h
        · rename_i h4
          exact ⟨v, hv, c :: t, rfl, .inr ⟨t, by rw [hc], h4, h⟩⟩
      · cases h

theorem pton4_none (acc o : List Nat) (t : Text) (h : pton4Loop acc none t = some o) : ∃ n < 256, ∃ u, t = decText n ++ u ∧ After4 acc n o u := by
  cases t with
  | nil => rw [pton4Loop] at h; cases h
  | cons c t =>
    rw [pton4Loop] at h
    split at h
    · rename_i hc
      rw [if_neg (by simp)] at h
      simp only [Option.getD_none, Nat.zero_mul, Nat.zero_add] at h
      split at h
      · cases h
      split at h
      · cases h
      obtain ⟨e, hl⟩ := decText_digit c hc
      obtain ⟨n, hn, u, e', ha⟩ := pton4_some acc o t _ (by omega) h
      rw [e] at e'
      exact ⟨n, hn, u, e', ha⟩
    · cases h

theorem pton4_sound (o : List Nat) (t : Text) (h : pton4Loop [] none t = some o) :
    ∃ a b c d, a < 256 ∧ b < 256 ∧ c < 256 ∧ d < 256 ∧ t = dotText a b c d ∧ o = [a, b, c, d] := by
  obtain ⟨a, ha, u, rfl, h1⟩ := pton4_none _ _ _ h
  rcases h1 with ⟨-, h1, -⟩ | ⟨u, rfl, -, h1⟩
  · simp at h1
  obtain ⟨b, hb, u, rfl, h2⟩ := pton4_none _ _ _ h1
  rcases h2 with ⟨-, h2, -⟩ | ⟨u, rfl, -, h2⟩
  · simp at h2
  obtain ⟨c, hc, u, rfl, h3⟩ := pton4_none _ _ _ h2
  rcases h3 with ⟨-, h3, -⟩ | ⟨u, rfl, -, h3⟩
  · simp at h3
  obtain ⟨d, hd, u, rfl, h4⟩ := pton4_none _ _ _ h3
  rcases h4 with ⟨rfl, -, rfl⟩ | ⟨u, rfl, h4, -⟩
  · exact ⟨a, b, c, d, ha, hb, hc, hd, by simp [dotText], rfl⟩
  · simp at h4

theorem pton6_many (tp : List Nat) (cp : Option Nat) (ct : Text) (ds : Text) : ∀ (seen val : Nat) (r : Text), (∀ c ∈ ds, isHex c = true) → seen ≤ 4 →
    4 < seen + ds.length → pton6Loop tp cp ct seen val (ds ++ r) = none := by
  induction ds with
  | nil => intro seen val r _ h1 h2; simp at h2; omega
  | cons c ds ih =>
    intro seen val r h h1 h2
    rw [List.cons_append, pton6Loop, if_pos (h c (by simp))]
    split
    · rfl
    · exact ih _ _ _ (fun c hc => h c (by simp [hc])) (by omega) (by simp at h2; omega)

/-- What the loop finds at the start of a token. -/
inductive Token (tp : List Nat) (cp : Option Nat) (b : List Nat) : Text → Prop
  | nothing : pton6End tp cp = some b → Token tp cp b []
  | double {s : Text} : cp = none → pton6Loop tp (some tp.length) s 0 0 s = some b → Token tp cp b (':' :: s)
  | last {t : Text} {w : Nat} : Grp t w → tp.length + 2 ≤ 16 → pton6End (tp ++ [w / 256, w % 256]) cp = some b → Token tp cp b t
  | group {t s : Text} {w : Nat} : Grp t w → s ≠ [] → tp.length + 2 ≤ 16 → pton6Loop (tp ++ [w / 256, w % 256]) cp s 0 0 s = some b →
      Token tp cp b (t ++ ':' :: s)
  | quad {x y z u : Nat} : x < 256 → y < 256 → z < 256 → u < 256 → tp.length + 4 ≤ 16 → pton6End (tp ++ [x, y, z, u]) cp = some b →
      Token tp cp b (dotText x y z u)

theorem pton6_token {tp : List Nat} {cp : Option Nat} {b : List Nat} {s : Text} (h : pton6Loop tp cp s 0 0 s = some b) : Token tp cp b s := by
  have hs : s = s.takeWhile isHex ++ s.dropWhile isHex := List.takeWhile_append_dropWhile.symm
  have hd : ∀ c ∈ s.takeWhile isHex, isHex c = true := fun c hc => List.all_eq_true.1 List.all_takeWhile c hc
  have hr : ∀ c r, s.dropWhile isHex = c :: r → isHex c = false := by
    intro c r e
    have := List.head?_dropWhile_not isHex s
    rw [e] at this
    simpa using this
  revert hs hd hr
  generalize s.takeWhile isHex = ds
  generalize s.dropWhile isHex = r
  intro hs hd hr
  have h4 : ds.length ≤ 4 := by
    refine Classical.byContradiction fun hn => ?_
    have := pton6_many tp cp s ds 0 0 r hd (by omega) (by omega)
    rw [← hs, h] at this
    cases this
  have h' : pton6Loop tp cp s ds.length (numVal 16 ds) r = some b := by
    have := pton6_digits ds r tp cp s 0 0 hd (by omega)
    rw [← hs, h, Nat.zero_add] at this
    exact this.symm
  cases r with
  | nil =>
    rw [pton6Loop] at h'
    rw [List.append_nil] at hs
    subst hs
    split at h'
    · rename_i h0
      split at h'
      · cases h'
      · exact .last ⟨by rintro rfl; simp at h0, h4, hd, rfl⟩ (by omega) h'
    · rename_i h0
      have : s = [] := List.eq_nil_of_length_eq_zero (by omega)
      subst this
      exact .nothing h'
  | cons c r =>
    rw [pton6Loop, if_neg (by simp [hr c r rfl])] at h'
    split at h'
    · rename_i hc
      subst hc
      split at h'
      · rename_i h0
        have : ds = [] := List.eq_nil_of_length_eq_zero h0
        subst this
        split at h'
        · cases h'
        · rename_i hcp
          rw [hs]
          exact .double (by simpa using hcp) h'
      · rename_i h0
        split at h'
        · cases h'
        rename_i hr0
        split at h'
        · cases h'
        rw [hs]
        exact .group ⟨by rintro rfl; simp at h0, h4, hd, rfl⟩ hr0 (by omega) h'
    · split at h'
      · rename_i hc
        split at h'
        · rename_i o ho
          obtain ⟨x, y, z, u, hx, hy, hz, hu, e, rfl⟩ := pton4_sound o s ho
          rw [e]
          exact .quad hx hy hz hu hc.2 h'
        · cases h'
      · cases h'

theorem pton6_soundA : ∀ (n : Nat) (s : Text), s.length ≤ n → ∀ (tp : List Nat) (p : Nat) (b : List Nat), tp.length ≤ 16 →
    pton6Loop tp (some p) s 0 0 s = some b →
    ∃ qs, SomeHextets true s qs ∧ tp.length + qs.length ≤ 16 ∧ pton6End (tp ++ qs) (some p) = some b
  | 0, s, hn, tp, p, b, ht, h => by
    have : s = [] := List.eq_nil_of_length_eq_zero (by omega)
    subst this
    rw [pton6Loop, if_neg (by omega)] at h
    exact ⟨[], .inl ⟨rfl, rfl⟩, by simpa using ht, by simpa using h⟩
  | n + 1, s, hn, tp, p, b, ht, h => by
    have k := pton6_token h
    clear h
    cases k with
    | nothing h => exact ⟨[], .inl ⟨rfl, rfl⟩, by simpa using ht, by simpa using h⟩
    | double hc => cases hc
    | last g hl h => exact ⟨_, .inr (.one ((hexGroup_iff _ _).2 g)), by simpa using hl, h⟩
    | @group t s w g hs hl h =>
      obtain ⟨qs, h1, h2, h3⟩ := pton6_soundA n s (by simp at hn; omega) _ p b (by simp; omega) h
      rcases h1 with ⟨h1, -⟩ | h1
      · exact absurd h1 hs
      exact ⟨_, .inr (.more ((hexGroup_iff _ _).2 g) h1), by simp at h2 ⊢; omega, by simpa using h3⟩
    | quad hx hy hz hu hl h => exact ⟨_, .inr (by rw [dotted_eq]; exact .dotted rfl hx hy hz hu), by simpa using hl, h⟩

theorem pton6_soundB : ∀ (n : Nat) (s : Text), s.length ≤ n → s ≠ [] → ∀ (tp : List Nat) (b : List Nat), tp.length ≤ 16 →
    pton6Loop tp none s 0 0 s = some b →
    (∃ qs, Hextets true s qs ∧ tp.length + qs.length ≤ 16 ∧ pton6End (tp ++ qs) none = some b) ∨
    ∃ pre ps post qs, Heads pre ps ∧ s = pre ++ ':' :: post ∧ SomeHextets true post qs ∧ tp.length + ps.length + qs.length ≤ 16 ∧
      pton6End (tp ++ ps ++ qs) (some (tp.length + ps.length)) = some b
  | 0, s, hn, h0, tp, b, ht, h => absurd (List.eq_nil_of_length_eq_zero (by omega)) h0
  | n + 1, s, hn, h0, tp, b, ht, h => by
    have k := pton6_token h
    clear h
    cases k with
    | nothing h => exact absurd rfl h0
    | double _ h =>
      obtain ⟨qs, h1, h2, h3⟩ := pton6_soundA _ _ (Nat.le_refl _) tp _ b ht h
      exact .inr ⟨[], [], _, qs, .nil, rfl, h1, by simpa using h2, by simpa using h3⟩
    | last g hl h => exact .inl ⟨_, .one ((hexGroup_iff _ _).2 g), by simpa using hl, h⟩
    | @group t s w g hs hl h =>
      rcases pton6_soundB n s (by simp at hn; omega) hs _ b (by simp; omega) h with ⟨qs, h1, h2, h3⟩ | ⟨pre, ps, post, qs, h1, rfl, h3, h4, h5⟩
      · exact .inl ⟨_, .more ((hexGroup_iff _ _).2 g) h1, by simp at h2 ⊢; omega, by simpa using h3⟩
      · refine .inr ⟨_, _, post, qs, .cons g h1, by simp, h3, by simp at h4 ⊢; omega, ?_⟩
        rw [show tp.length + (w / 256 :: w % 256 :: ps).length = (tp ++ [w / 256, w % 256]).length + ps.length by simp; omega]
        simpa using h5
    | quad hx hy hz hu hl h => exact .inl ⟨_, by rw [dotted_eq]; exact .dotted rfl hx hy hz hu, by simpa using hl, h⟩

theorem pton6End_gap (ps qs b : List Nat) : ps.length + qs.length ≤ 16 → (pton6End (ps ++ qs) (some ps.length) = some b ↔
    ps.length + qs.length < 16 ∧ b = ps ++ List.replicate (16 - (ps.length + qs.length)) 0 ++ qs) := by
  intro hl
  unfold pton6End
  dsimp only
  rw [List.length_append, List.take_left, List.drop_left]
  split
  · constructor
    · intro h; cases h
    · rintro ⟨h, -⟩; omega
  · constructor
    · intro h; injection h with h; exact ⟨by omega, h.symm⟩
    · rintro ⟨-, rfl⟩; rfl

theorem inetPton6_iff (s : Text) (b : List Nat) : inetPton6 s = some b ↔ Ip6Text s b := by
  constructor
  · intro h
    have fin : ∀ pre ps post qs, SomeHextets false pre ps → s = pre ++ ':' :: ':' :: post → SomeHextets true post qs → ps.length + qs.length ≤ 16 →
        pton6End (ps ++ qs) (some ps.length) = some b → Ip6Text s b := by
      intro pre ps post qs h1 h2 h3 h4 h5
      obtain ⟨h6, rfl⟩ := (pton6End_gap ps qs b h4).1 h5
      rw [h2]; exact .short h1 h3 h6
    have two : ∀ u : Text, pton6Loop [] none (':' :: u) 0 0 (':' :: u) = some b → s = ':' :: ':' :: u → Ip6Text s b := by
      intro u hu hs
      rw [pton6_double] at hu
      obtain ⟨qs, h1, h2, h3⟩ := pton6_soundA _ _ (Nat.le_refl _) [] _ b (by simp) hu
      exact fin [] [] u qs (.inl ⟨rfl, rfl⟩) hs h1 (by simpa using h2) (by simpa using h3)
    unfold inetPton6 at h
    split at h
    · cases h
    rename_i c t
    split at h
    · rename_i hc
      subst hc
      split at h
      · exact two _ h rfl
      · cases h
    · rename_i hc
      rcases pton6_soundB _ _ (Nat.le_refl _) (by simp) [] b (by simp) h with ⟨qs, h1, h2, h3⟩ | ⟨pre, ps, post, qs, h1, e, h3, h4, h5⟩
      · unfold pton6End at h3
        dsimp only at h3
        split at h3
        · rename_i h16
          injection h3 with h3
          simp only [List.nil_append] at h16 h3
          subst h3
          exact .full h1 h16
        · cases h3
      · simp only [List.nil_append, List.length_nil, Nat.zero_add] at h4 h5
        rcases hextets_of_heads h1 with ⟨rfl, rfl⟩ | ⟨u, rfl, hu⟩
        · simp only [List.nil_append, List.cons.injEq] at e
          exact absurd e.1 hc
        · exact fin u ps post qs (.inr hu) (by rw [e]; simp) h3 h4 h5
  · intro h
    have start : ∀ {q : Bool} {t : Text} {bs : List Nat} (x : Text), Hextets q t bs → inetPton6 (t ++ x) = pton6Loop [] none (t ++ x) 0 0 (t ++ x) := by
      intro q t bs x ht
      have : ∃ c r, t = c :: r ∧ isHex c = true := by
        have hg : ∀ {t : Text} {w : Nat} (y : Text), HexGroup t w → ∃ c r, t ++ y = c :: r ∧ isHex c = true := by
          intro t w y g
          obtain ⟨h1, -, h3, -⟩ := (hexGroup_iff _ _).1 g
          cases t with
          | nil => exact absurd rfl h1
          | cons c t => exact ⟨c, t ++ y, rfl, h3 c (by simp)⟩
        cases ht with
        | one g => simpa using hg [] g
        | @dotted a b c d _ _ _ _ _ =>
          rw [← dotted_eq, dotText]
          have h1 := decText_ne a
          have h2 := decText_dec a
          revert h1 h2
          generalize decText a = u
          intro h1 h2
          cases u with
          | nil => exact absurd rfl h1
          | cons c u => exact ⟨c, _, rfl, isDec_hex (h2 c (by simp))⟩
        | more g _ => exact hg _ g
      obtain ⟨c, r, rfl, hc⟩ := this
      rw [List.cons_append]
      unfold inetPton6
      dsimp only
      rw [if_neg (isHex_ne hc).1]
    have tail : ∀ (tp : List Nat) (cp : Option Nat) (post : Text) (qs : List Nat), SomeHextets true post qs → tp.length + qs.length ≤ 16 →
        pton6Loop tp cp post 0 0 post = pton6End (tp ++ qs) cp := by
      rintro tp cp post qs (⟨rfl, rfl⟩ | h) hl
      · rw [pton6Loop, if_neg (by omega), List.append_nil]
      · exact pton6_hextets h tp cp hl
    cases h with
    | full h1 h2 =>
      have := start [] h1
      rw [List.append_nil] at this
      rw [this, pton6_hextets h1 [] none (by simp [h2])]
      unfold pton6End
      dsimp only
      rw [List.nil_append, if_pos h2]
    | @short pre post ps qs h1 h2 h3 =>
      have key : inetPton6 (pre ++ ':' :: ':' :: post) = pton6Loop ps (some ps.length) post 0 0 post := by
        rcases h1 with ⟨rfl, rfl⟩ | h1
        · exact inetPton6_colons post
        · rw [start _ h1]
          have := pton6_heads (heads_of_hextets h1 rfl) (':' :: post) (by simp) [] none (by simp; omega)
          rw [List.append_assoc] at this
          simp only [List.cons_append, List.nil_append] at this
          rw [this, pton6_double]
      rw [key, tail ps _ post qs h2 (by omega), pton6End_gap _ _ _ (by omega)]
      exact ⟨h3, rfl⟩

end Verif
