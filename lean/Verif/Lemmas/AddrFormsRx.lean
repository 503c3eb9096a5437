import Verif.Lemmas.AddrForms
/-! Which of these texts the regular expression of `Ip6Address` finds an address in (C111). -/
namespace Verif
open Spec

theorem h16Rx_grp {t : Text} {w : Nat} (g : Grp t w) (x : Text) : x ∈ h16Rx (t ++ x) := by
  have step : ∀ (d : Text) (k : Nat), d.length ≤ k → (∀ c ∈ d, isHex c = true) → x ∈ Rx.upTo (Rx.chr isHex) k (d ++ x) := by
    intro d
    induction d with
    | nil => intro k _ _; cases k <;> simp [Rx.upTo]
    | cons c d ih =>
      intro k hk hd
      cases k with
      | zero => simp at hk
      | succ k =>
        simp at hk hd
        simp only [Rx.upTo, List.mem_cons, List.cons_append]
        right
        rw [Rx.mem_seq]
        exact ⟨d ++ x, by simp [Rx.chr, hd.1], ih k hk hd.2⟩
  obtain ⟨h0, hl, hh, -⟩ := g
  cases t with
  | nil => exact absurd rfl h0
  | cons c d =>
    simp at hl hh
    show x ∈ Rx.seq (Rx.chr isHex) (Rx.upTo (Rx.chr isHex) 3) (c :: (d ++ x))
    rw [Rx.mem_seq]
    exact ⟨d ++ x, by simp [Rx.chr, hh.1], step d 3 (by omega) hh.2⟩

theorem grpColon {t : Text} {w : Nat} (g : Grp t w) (x : Text) : x ∈ Rx.seq h16Rx colonRx (t ++ ':' :: x) := by
  rw [Rx.mem_seq]
  exact ⟨':' :: x, h16Rx_grp g _, by simp [colonRx, Rx.chr]⟩

theorem heads_upTo {pre : Text} {ps : List Nat} (h : Heads pre ps) (x : Text) : ∀ k, ps.length ≤ 2 * k →
    x ∈ Rx.upTo (Rx.seq h16Rx colonRx) k (pre ++ x) := by
  induction h with
  | nil => intro k _; cases k <;> simp [Rx.upTo]
  | @cons t s w bs g h ih =>
    intro k hk
    cases k with
    | zero => simp at hk
    | succ k =>
      simp at hk
      simp only [Rx.upTo, List.mem_cons]
      right
      rw [Rx.mem_seq]
      refine ⟨s ++ x, ?_, ih k (by omega)⟩
      simpa using grpColon g (s ++ x)

theorem heads_rep {pre : Text} {ps : List Nat} (h : Heads pre ps) (x : Text) : ∀ n, ps.length = 2 * n →
    x ∈ Rx.rep (Rx.seq h16Rx colonRx) n 0 (pre ++ x) := by
  induction h with
  | nil => intro n hn; simp at hn; subst hn; simp [Rx.rep, Rx.upTo]
  | @cons t s w bs g h ih =>
    intro n hn
    cases n with
    | zero => simp at hn
    | succ n =>
      simp at hn
      rw [Rx.mem_rep_succ, Rx.mem_seq]
      refine ⟨s ++ x, ?_, ih n (by omega)⟩
      simpa using grpColon g (s ++ x)

theorem search6_gap {pre post : Text} {ps : List Nat} (h : SomeHextets false pre ps) (hl : ps.length ≤ 14) :
    Rx.search ip6Rx (pre ++ ':' :: ':' :: post) = true := by
  rcases h with ⟨rfl, -⟩ | h
  · exact search6_colons post
  · have hh := heads_of_hextets h rfl
    generalize e : pre ++ [':'] = u at hh
    have e' : pre ++ ':' :: ':' :: post = u ++ ':' :: post := by rw [← e]; simp
    rw [e']
    apply search_of_mem (t := post)
    unfold ip6Rx
    rw [Rx.mem_alt]; right
    rw [Rx.mem_alt]; left
    rw [Rx.mem_seq]
    refine ⟨':' :: post, ?_, by simp [colonRx, Rx.chr]⟩
    cases hh with
    | nil => simp at e
    | @cons t s w bs g hs =>
      unfold h16sRx
      rw [rep_eq_seq, Rx.mem_seq]
      simp at hl
      exact ⟨s ++ ':' :: post, by simpa using grpColon g (s ++ ':' :: post), heads_upTo hs _ 6 (by omega)⟩

theorem hextets_last {q : Bool} {s : Text} {bs : List Nat} (h : Hextets q s bs) (hq : q = false) :
    ∃ pre ps t w, Heads pre ps ∧ Grp t w ∧ s = pre ++ t ∧ bs = ps ++ [w / 256, w % 256] := by
  induction h with
  | one g => exact ⟨[], [], _, _, .nil, (hexGroup_iff _ _).1 g, rfl, rfl⟩
  | dotted h => rw [hq] at h; cases h
  | @more t s w bs g h ih =>
    obtain ⟨pre, ps, t', w', h1, h2, rfl, rfl⟩ := ih
    exact ⟨_, _, t', w', .cons ((hexGroup_iff _ _).1 g) h1, h2, by simp, by simp⟩

theorem search6_eight {s : Text} {bs : List Nat} (h : Hextets false s bs) (hl : bs.length = 16) : Rx.search ip6Rx s = true := by
  obtain ⟨pre, ps, t, w, h1, h2, rfl, rfl⟩ := hextets_last h rfl
  simp at hl
  apply search_of_mem (t := [])
  unfold ip6Rx
  rw [Rx.mem_alt]; left
  rw [Rx.mem_seq]
  exact ⟨t, heads_rep h1 t 7 (by omega), by simpa using h16Rx_grp h2 []⟩

/-! ### Where it finds none -/

/-- What a match takes has the property. -/
def Rx.Eats (r : Rx) (P : Text → Prop) : Prop := ∀ s t, t ∈ r s → ∃ u, s = u ++ t ∧ P u

theorem Rx.Eats.chr (p : Char → Bool) : (Rx.chr p).Eats (fun u => ∃ c, p c = true ∧ u = [c]) := by
  intro s t h
  obtain ⟨c, hc, rfl⟩ := Rx.mem_chr.1 h
  exact ⟨[c], rfl, c, hc, rfl⟩
theorem Rx.Eats.seq {a b : Rx} {P Q : Text → Prop} (ha : a.Eats P) (hb : b.Eats Q) : (Rx.seq a b).Eats (fun u => ∃ x y, u = x ++ y ∧ P x ∧ Q y) := by
  intro s t h
  obtain ⟨v, h1, h2⟩ := Rx.mem_seq.1 h
  obtain ⟨x, rfl, hx⟩ := ha _ _ h1
  obtain ⟨y, rfl, hy⟩ := hb _ _ h2
  exact ⟨x ++ y, by simp, x, y, rfl, hx, hy⟩
theorem Rx.Eats.alt {a b : Rx} {P : Text → Prop} (ha : a.Eats P) (hb : b.Eats P) : (Rx.alt a b).Eats P := by
  intro s t h
  rcases Rx.mem_alt.1 h with h | h
  · exact ha _ _ h
  · exact hb _ _ h
theorem Rx.Eats.mono {a : Rx} {P Q : Text → Prop} (ha : a.Eats P) (h : ∀ u, P u → Q u) : a.Eats Q := by
  intro s t ht
  obtain ⟨u, h1, h2⟩ := ha s t ht
  exact ⟨u, h1, h u h2⟩
theorem Rx.Eats.upTo {a : Rx} {P : Text → Prop} (ha : a.Eats P) {Q : Text → Prop} (h0 : Q []) (h1 : ∀ x y, P x → Q y → Q (x ++ y)) (k : Nat) :
    (Rx.upTo a k).Eats Q := by
  induction k with
  | zero => intro s t h; simp [Rx.upTo] at h; exact ⟨[], by simp [h], h0⟩
  | succ k ih =>
    intro s t h
    simp only [Rx.upTo, List.mem_cons] at h
    rcases h with rfl | h
    · exact ⟨[], rfl, h0⟩
    · obtain ⟨u, e, x, y, rfl, hx, hy⟩ := Rx.Eats.seq ha ih _ _ h
      exact ⟨_, e, h1 x y hx hy⟩

theorem Rx.Eats.any {a : Rx} {P : Text → Prop} (ha : a.Eats P) (n k : Nat) : (Rx.rep a n k).Eats (fun _ => True) := by
  induction n with
  | zero => exact Rx.Eats.upTo ha trivial (fun _ _ _ _ => trivial) k
  | succ n ih => exact (Rx.Eats.seq ha ih).mono fun _ _ => trivial

theorem colonRx_eats : colonRx.Eats (fun u => u = [':']) := (Rx.Eats.chr _).mono (by rintro u ⟨c, hc, rfl⟩; simp at hc; rw [hc])
theorem h16Rx_eats : h16Rx.Eats (fun _ => True) := Rx.Eats.any (Rx.Eats.chr _) _ _
theorem group_eats : (Rx.seq h16Rx colonRx).Eats (fun u => ∃ v, u = v ++ [':']) :=
  (Rx.Eats.seq h16Rx_eats colonRx_eats).mono (by rintro u ⟨x, y, rfl, -, rfl⟩; exact ⟨x, rfl⟩)
theorem h16sRx_eats (k : Nat) : (h16sRx 1 k).Eats (fun u => ∃ v, u = v ++ [':']) := by
  unfold h16sRx
  rw [rep_eq_seq]
  refine (Rx.Eats.seq group_eats (Rx.Eats.upTo (Q := fun u => u = [] ∨ ∃ v, u = v ++ [':']) group_eats (.inl rfl) ?_ k)).mono ?_
  · rintro x y ⟨v, rfl⟩ (rfl | ⟨z, rfl⟩)
    · exact .inr ⟨v, by simp⟩
    · exact .inr ⟨v ++ [':'] ++ z, by simp⟩
  · rintro u ⟨x, y, rfl, ⟨v, rfl⟩, rfl | ⟨z, rfl⟩⟩
    · exact ⟨v, by simp⟩
    · exact ⟨v ++ [':'] ++ z, by simp⟩
theorem colons_eats (r : Rx) {P : Text → Prop} (h : r.Eats P) : (Rx.seq colonRx r).Eats (fun u => ∃ v, u = ':' :: v) :=
  (Rx.Eats.seq colonRx_eats h).mono (by rintro u ⟨x, y, rfl, rfl, -⟩; exact ⟨y, rfl⟩)
theorem colonsRx_eats (k : Nat) : (colonsRx 1 k).Eats (fun u => ∃ v, u = ':' :: v) := by
  unfold colonsRx
  rw [rep_eq_seq]
  have g : (Rx.seq colonRx h16Rx).Eats (fun u => ∃ v, u = ':' :: v) := colons_eats _ h16Rx_eats
  refine (Rx.Eats.seq g (Rx.Eats.upTo (Q := fun _ => True) g trivial (fun _ _ _ _ => trivial) k)).mono ?_
  rintro u ⟨x, y, rfl, ⟨v, rfl⟩, -⟩
  exact ⟨v ++ y, rfl⟩
theorem h16s_count (n : Nat) : (h16sRx n 0).Eats (fun u => n ≤ u.count ':') := by
  unfold h16sRx
  induction n with
  | zero => intro s t h; simp [Rx.rep, Rx.upTo] at h; exact ⟨[], by simp [h], by simp⟩
  | succ n ih =>
    refine (Rx.Eats.seq group_eats ih).mono ?_
    rintro u ⟨x, y, rfl, ⟨v, rfl⟩, h⟩
    simp only [List.count_append, List.count_singleton_self]
    omega

theorem ip6Rx_eats : ip6Rx.Eats (fun u => 7 ≤ u.count ':' ∨ [':', ':'] <:+: u) := by
  have two : ∀ {a b : Rx}, a.Eats (fun u => ∃ v, u = v ++ [':']) → b.Eats (fun u => ∃ v, u = ':' :: v) →
      (Rx.seq a b).Eats (fun u => 7 ≤ u.count ':' ∨ [':', ':'] <:+: u) := by
    intro a b ha hb
    refine (Rx.Eats.seq ha hb).mono ?_
    rintro u ⟨x, y, rfl, ⟨v, rfl⟩, ⟨w, rfl⟩⟩
    exact .inr ⟨v, w, by simp⟩
  have one : colonRx.Eats (fun u => ∃ v, u = ':' :: v) := colonRx_eats.mono (by rintro u rfl; exact ⟨[], rfl⟩)
  have one' : colonRx.Eats (fun u => ∃ v, u = v ++ [':']) := colonRx_eats.mono (by rintro u rfl; exact ⟨[], rfl⟩)
  unfold ip6Rx
  refine Rx.Eats.alt ((Rx.Eats.seq (h16s_count 7) h16Rx_eats).mono ?_) ?_
  · rintro u ⟨x, y, rfl, h, -⟩
    left; rw [List.count_append]; omega
  refine Rx.Eats.alt (two (h16sRx_eats _) one) ?_
  refine Rx.Eats.alt (two (h16sRx_eats _) (colons_eats _ h16Rx_eats)) ?_
  iterate 4 refine Rx.Eats.alt (two (h16sRx_eats _) (colonsRx_eats _)) ?_
  refine Rx.Eats.alt ((Rx.Eats.seq h16Rx_eats (two one' (colonsRx_eats _))).mono ?_) (two one' (Rx.Eats.alt (colonsRx_eats _) one))
  rintro u ⟨x, y, rfl, -, h | h⟩
  · left; rw [List.count_append]; omega
  · right; exact h.trans ⟨x, [], by simp⟩

theorem search_eats {r : Rx} {P : Text → Prop} (h : r.Eats P) : ∀ s, r.search s = true → ∃ u, u <:+: s ∧ P u
  | [], hs => by
    rw [Rx.search] at hs
    cases hr : r [] with
    | nil => simp [hr] at hs
    | cons t l =>
      obtain ⟨u, e, hu⟩ := h [] t (by simp [hr])
      exact ⟨u, ⟨[], t, by simp [← e]⟩, hu⟩
  | c :: s, hs => by
    rw [Rx.search, Bool.or_eq_true] at hs
    rcases hs with hs | hs
    · cases hr : r (c :: s) with
      | nil => simp [hr] at hs
      | cons t l =>
        obtain ⟨u, e, hu⟩ := h (c :: s) t (by simp [hr])
        exact ⟨u, ⟨[], t, by simp [← e]⟩, hu⟩
    · obtain ⟨u, h1, h2⟩ := search_eats h s hs
      exact ⟨u, h1.trans ⟨[c], [], by simp⟩, h2⟩

theorem Grp.plain {t : Text} {w : Nat} (g : Grp t w) : ':' ∉ t ∧ '.' ∉ t :=
  ⟨fun h => (isHex_ne (g.2.2.1 _ h)).1 rfl, fun h => (isHex_ne (g.2.2.1 _ h)).2 rfl⟩

theorem dotText_noColon (a b c d : Nat) : ':' ∉ dotText a b c d := by
  intro h
  rcases dotText_chars a b c d _ h with h | h
  · exact absurd h (by decide)
  · exact absurd h (by decide)

/-- without a dotted number the two kinds are the same; with one there are so many colons -/
theorem hextets_dot {q : Bool} {s : Text} {bs : List Nat} (h : Hextets q s bs) :
    ('.' ∉ s → Hextets false s bs) ∧ ('.' ∈ s → bs.length = 2 * s.count ':' + 4) := by
  induction h with
  | one g => exact ⟨fun _ => .one g, fun h => absurd h ((hexGroup_iff _ _).1 g).plain.2⟩
  | @dotted a b c d _ _ _ _ _ =>
    rw [← dotted_eq]
    refine ⟨fun h => absurd (by simp [dotText]) h, fun _ => ?_⟩
    rw [List.count_eq_zero_of_not_mem (dotText_noColon a b c d)]
    rfl
  | @more t s w bs g h ih =>
    have hp := ((hexGroup_iff _ _).1 g).plain
    refine ⟨fun h => .more g (ih.1 fun h' => h (by simp [h'])), fun h => ?_⟩
    have : '.' ∈ s := by simpa [hp.2] using h
    have := ih.2 this
    simp only [List.length_cons, List.count_append, List.count_cons_self, List.count_eq_zero_of_not_mem hp.1]
    omega

theorem hextets_gaps {q : Bool} {s : Text} {bs : List Nat} (h : Hextets q s bs) : ∀ x y, s ≠ x ++ ':' :: ':' :: y ∧ s ≠ ':' :: x := by
  induction h with
  | one g =>
    have := ((hexGroup_iff _ _).1 g).plain.1
    exact fun x y => ⟨fun e => this (by rw [e]; simp), fun e => this (by rw [e]; simp)⟩
  | @dotted a b c d _ _ _ _ _ =>
    have := dotText_noColon a b c d
    rw [dotted_eq] at this
    exact fun x y => ⟨fun e => this (by rw [e]; simp), fun e => this (by rw [e]; simp)⟩
  | @more t s w bs g h ih =>
    have g' := (hexGroup_iff _ _).1 g
    have hp := g'.plain.1
    refine fun x y => ⟨fun e => ?_, fun e => ?_⟩
    · rcases List.append_eq_append_iff.1 e with ⟨z, rfl, e2⟩ | ⟨z, rfl, e2⟩
      · cases z with
        | nil =>
          simp only [List.nil_append, List.cons.injEq, true_and] at e2
          exact (ih y y).2 e2
        | cons c z =>
          simp only [List.cons_append, List.cons.injEq] at e2
          exact (ih z y).1 e2.2
      · cases z with
        | nil =>
          simp only [List.nil_append, List.cons.injEq, true_and] at e2
          exact (ih y y).2 e2.symm
        | cons c z =>
          simp only [List.cons_append, List.cons.injEq] at e2
          exact hp (by rw [← e2.1]; simp)
    · cases t with
      | nil => exact g'.1 rfl
      | cons c t =>
        simp only [List.cons_append, List.cons.injEq] at e
        exact hp (by rw [e.1]; simp)

theorem hextets_gap {q : Bool} {s : Text} {bs : List Nat} (h : Hextets q s bs) (x y : Text) : s ≠ x ++ ':' :: ':' :: y := (hextets_gaps h x y).1

/-- the regular expression finds an address in all of them but those that end in a dotted number and have no `::` -/
theorem search6_iff {s : Text} {bs : List Nat} (h : Ip6Text s bs) : Rx.search ip6Rx s = true ↔ ('.' ∈ s → [':', ':'] <:+: s) := by
  constructor
  · intro hs hd
    obtain ⟨u, h1, h2 | h2⟩ := search_eats ip6Rx_eats s hs
    · cases h with
      | full h hl =>
        have := (hextets_dot h).2 hd
        have := h1.sublist.count_le ':'
        omega
      | @short pre post _ _ _ _ _ => exact ⟨pre, post, by simp⟩
    · exact h2.trans h1
  · intro hd
    cases h with
    | full h hl =>
      by_cases hdot : '.' ∈ s
      · exfalso
        obtain ⟨x, y, e⟩ := hd hdot
        exact hextets_gap h x y (by rw [← e]; simp)
      · exact search6_eight ((hextets_dot h).1 hdot) hl
    | short h1 _ h3 => exact search6_gap h1 (by
        have : ∀ {q : Bool} {s : Text} {bs : List Nat}, Hextets q s bs → bs.length % 2 = 0 := by
          intro q s bs h
          induction h with
          | one => simp
          | dotted => simp
          | more _ _ ih => simp only [List.length_cons]; omega
        rcases h1 with ⟨-, rfl⟩ | h1
        · simp
        · have := this h1; omega)

end Verif
