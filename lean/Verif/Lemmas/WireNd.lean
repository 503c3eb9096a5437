import Mathlib.Data.Nat.Bitwise
import Verif.Spec.WireNd
import Verif.Lemmas.WireTcp
import Verif.Lemmas.Addrs
/-! What the ICMPv6 parser does with the messages `Spec/WireNd.lean` describes. -/
namespace Verif
open Spec

theorem cons_of_drop' {f : Bytes} {optr : Nat} {a : UInt8} {t : Bytes} (h : f.drop optr = a :: t) :
    optr < f.length ∧ idx f optr = .ok a.toNat ∧ f.drop (optr + 1) = t := by
  obtain ⟨h1, h2, h3, h4⟩ := cons_of_drop (f := f) (hlen := f.length) (optr := optr) (a := a) (t := t) (by rw [List.take_length]; exact h)
  rw [List.take_length] at h4
  exact ⟨h2, h3, h4⟩

theorem be_add {f : Bytes} {i j k : Nat} (h : i + j + k ≤ f.length) : be f i (j + k) = be f i j * 256 ^ k + be f (i + j) k := by
  have e : (f.drop i).take (j + k) = (f.drop i).take j ++ (f.drop (i + j)).take k := by
    rw [List.take_add, List.drop_drop]
  rw [be, e, beNat_append, be, be]
  congr 3
  simp
  omega

/-- What the parsed options say. -/
structure NdRel (xs : List Icmp6.RxOpt) (l : List (Nat × Bytes)) : Prop where
  slla : (Icmp6.sllaOf xs).map (·.int) = firstMac 1 l
  tlla : (Icmp6.tllaOf xs).map (·.int) = firstMac 2 l

theorem firstMac_cons_ne {k k' : Nat} {v : Bytes} {l : List (Nat × Bytes)} (h : k' ≠ k) : firstMac k ((k', v) :: l) = firstMac k l := by
  simp [firstMac, List.find?_cons, h]
theorem firstMac_cons_eq {k : Nat} {v : Bytes} {l : List (Nat × Bytes)} : firstMac k ((k, v) :: l) = some (be v 0 6) := by
  simp [firstMac, List.find?_cons]

/-- The parsed prefixes. -/
def PiRel (xs : List Icmp6.RxOpt) (l : List (Nat × Bytes)) : Prop :=
  (Icmp6.piOf xs).map (fun x => (x.address.int, x.mask.len)) = (autoPrefixes l).map (fun x => (x * 2 ^ 64, 64))

theorem Icmp6.walk {o : Bytes} {l : List (Nat × Bytes)} (H : NdOptions o l) :
    ∀ (f : Bytes) (fuel optr : Nat), f.drop optr = o → f.length ≤ optr + fuel →
      Icmp6.ndOptionCheck f fuel optr = .ok none ∧
      (∀ xs, Icmp6.readNdOptions f fuel optr = .ok xs → NdRel xs l) ∧
      (GoodPrefixes l → ∃ xs, Icmp6.readNdOptions f fuel optr = .ok xs ∧ PiRel xs l) := by
  induction H with
  | nil =>
    intro f fuel optr h hl
    have := congrArg List.length h
    simp at this
    refine ⟨?_, ?_, ?_⟩
    · rw [Icmp6.ndOptionCheck.eq_def]; simp [show ¬ optr < f.length by omega]
    · intro xs hx
      rw [Icmp6.readNdOptions.eq_def] at hx
      simp [show ¬ optr < f.length by omega] at hx
      subst hx
      exact ⟨rfl, rfl⟩
    · intro _
      rw [Icmp6.readNdOptions.eq_def]
      simp [show ¬ optr < f.length by omega]
      rfl
  | @opt t l k n v hn hv _ ih =>
    intro f fuel optr h hl
    obtain ⟨h2, h3, h4⟩ := cons_of_drop' h
    obtain ⟨g2, g3, g4⟩ := cons_of_drop' h4
    obtain ⟨fuel, rfl⟩ : ∃ m, fuel = m + 1 := ⟨fuel - 1, by omega⟩
    have hlen' := congrArg List.length g4
    simp at hlen'
    have e : n.toNat <<< 3 = 8 * n.toNat := by rw [Nat.shiftLeft_eq]; omega
    obtain ⟨i1, i2, i3⟩ := ih f fuel (optr + 8 * n.toNat) (by
      rw [show optr + 8 * n.toNat = optr + 1 + 1 + v.length by omega, ← List.drop_drop, g4]
      simp) (by omega)
    have s0 : sliceFrom f optr = k :: n :: (v ++ t) := h
    have q0 : idx (sliceFrom f optr) 0 = .ok k.toNat := by rw [s0]; rfl
    have q1 : idx (sliceFrom f optr) 1 = .ok n.toNat := by rw [s0]; rfl
    have hlv : (sliceFrom f optr).length = 2 + v.length + t.length := by rw [s0]; simp; omega
    have hbe : ∀ i j, i + j ≤ v.length → be (sliceFrom f optr) (2 + i) j = be v i j := by
      intro i j hij
      rw [s0, be, be]
      congr 1
      rw [show 2 + i = i + 1 + 1 by omega]
      simp only [List.drop_succ_cons]
      rw [List.drop_append_of_le_length (by omega), List.take_append_of_le_length (by simp; omega)]
    obtain ⟨m, hm, hmi⟩ := mac_be (f := sliceFrom f optr) (i := 2) (by omega)
    rw [hbe 0 6 (by omega)] at hmi
    refine ⟨?_, ?_, ?_⟩
    · rw [Icmp6.ndOptionCheck]
      simp only [h2, if_true, if_neg (show ¬ optr + 1 > f.length by omega), g3, py_ok_bind, py_pure, e]
      rw [if_neg (by omega), if_neg (by omega), i1]
    · intro xs hx
      rw [Icmp6.readNdOptions] at hx
      simp only [h2, if_true] at hx
      cases ho : Icmp6.readOpt (sliceFrom f optr) with
      | error er => simp [ho] at hx
      | ok o =>
        simp only [ho, g3, py_ok_bind, e] at hx
        cases hr : Icmp6.readNdOptions f fuel (optr + 8 * n.toNat) with
        | error er => simp [hr] at hx
        | ok ys =>
          simp only [hr, py_ok_bind, py_pure] at hx
          have hx := (Except.ok.inj hx).symm
          subst hx
          obtain ⟨r1, r2⟩ := i2 ys hr
          simp only [Icmp6.readOpt, q0, q1, py_ok_bind] at ho
          by_cases k1 : k.toNat = 1
          · rw [if_pos k1, hm] at ho
            have ho := (Except.ok.inj ho).symm
            subst ho
            rw [k1]
            exact ⟨by rw [firstMac_cons_eq]; simp [Icmp6.sllaOf, hmi], by rw [firstMac_cons_ne (by decide)]; exact r2⟩
          · rw [if_neg k1] at ho
            by_cases k2 : k.toNat = 2
            · rw [if_pos k2, hm] at ho
              have ho := (Except.ok.inj ho).symm
              subst ho
              rw [k2]
              exact ⟨by rw [firstMac_cons_ne (by decide)]; exact r1, by rw [firstMac_cons_eq]; simp [Icmp6.tllaOf, hmi]⟩
            · rw [if_neg k2] at ho
              constructor
              · rw [firstMac_cons_ne k1, ← r1]
                congr 1
                split at ho
                · revert ho
                  cases idx (sliceFrom f optr) 3 <;> simp
                  cases u32 (sliceFrom f optr) 4 <;> simp
                  cases u32 (sliceFrom f optr) 8 <;> simp
                  cases Ip6Address.ofBytes (slice (sliceFrom f optr) 16 32) <;> simp
                  cases idx (sliceFrom f optr) 2 <;> simp
                  rename_i pl
                  cases Ip6Mask.ofPrefix pl <;> simp
                  intro ho
                  subst ho
                  rfl
                · have ho := (Except.ok.inj ho).symm
                  subst ho
                  rfl
              · rw [firstMac_cons_ne k2, ← r2]
                congr 1
                split at ho
                · revert ho
                  cases idx (sliceFrom f optr) 3 <;> simp
                  cases u32 (sliceFrom f optr) 4 <;> simp
                  cases u32 (sliceFrom f optr) 8 <;> simp
                  cases Ip6Address.ofBytes (slice (sliceFrom f optr) 16 32) <;> simp
                  cases idx (sliceFrom f optr) 2 <;> simp
                  rename_i pl
                  cases Ip6Mask.ofPrefix pl <;> simp
                  intro ho
                  subst ho
                  rfl
                · have ho := (Except.ok.inj ho).symm
                  subst ho
                  rfl
    · intro hg
      obtain ⟨ys, y1, y2⟩ := i3 (fun w hw => hg w (by simp [hw]))
      rw [Icmp6.readNdOptions]
      simp only [h2, if_true, g3, py_ok_bind, e, y1, py_pure]
      by_cases k3 : k.toNat = 3
      · obtain ⟨v1, v2⟩ := hg v (by simp [k3])
        have c2 := idx_be (f := sliceFrom f optr) (i := 2) (by omega)
        have c3 := idx_be (f := sliceFrom f optr) (i := 3) (by omega)
        have c4 := u32_be (f := sliceFrom f optr) (i := 4) (by omega)
        have c8 := u32_be (f := sliceFrom f optr) (i := 8) (by omega)
        obtain ⟨a, ha, hai⟩ := ip6_be (f := sliceFrom f optr) (i := 16) (by omega)
        rw [hbe 14 16 (by omega)] at hai
        rw [hbe 0 1 (by omega)] at c2
        rw [hbe 1 1 (by omega)] at c3
        obtain ⟨mk, m1, m2, m3⟩ : ∃ m, Ip6Mask.ofPrefix (be v 0 1) = .ok m ∧ m.len = be v 0 1 ∧ m.int = 2 ^ 128 - 2 ^ (128 - be v 0 1) := by
          simp only [Ip6Mask.ofPrefix, v2, ↓reduceDIte]
          exact ⟨_, rfl, by simp only [Ip6Mask.len, onesThenZeros_eq _ _ v2, maskLen_prefix 128 _ v2], onesThenZeros_eq _ _ v2⟩
        have n1 : (Ip6Network.ofMask a mk).mask.len = be v 0 1 := m2
        have n2 : be v 0 1 = 64 → (Ip6Network.ofMask a mk).address.int = be v 14 8 * 2 ^ 64 := by
          intro h64
          show a.int &&& mk.int = _
          have hlt := be_lt v 14 16
          have hlt' := be_lt v (14 + 8) 8
          rw [hai, m3, h64, and_high (by simpa using hlt) (by omega), be_add (j := 8) (k := 8) (by omega)]
          omega
        have fa : ((be v 1 1 &&& 0b01000000) != 0) = bit v 1 6 := bit_eq _ 6
        simp only [Icmp6.readOpt, q0, q1, k3, c2, c3, c4, c8, ha, m1, py_ok_bind, py_pure, fa]
        refine ⟨_, rfl, ?_⟩
        generalize Ip6Network.ofMask a mk = net at n1 n2
        rw [PiRel, autoPrefixes, Icmp6.piOf, List.filterMap_cons, List.filterMap_cons]
        rw [PiRel, autoPrefixes, Icmp6.piOf] at y2
        dsimp only
        by_cases hc : be v 0 1 = 64 ∧ bit v 1 6 = true
        · obtain ⟨hc1, hc2⟩ := hc
          rw [if_pos (by simp [hc2, n1, hc1]), if_pos ⟨rfl, hc1, hc2⟩]
          simp only [List.map_cons]
          rw [n1, n2 hc1, hc1]
          exact congrArg _ y2
        · rw [if_neg (by
            rw [Bool.and_eq_true, beq_iff_eq]
            rintro ⟨x1, x2⟩
            exact hc ⟨by omega, x1⟩), if_neg (fun h => hc h.2)]
          exact y2
      · have hr : ∃ o, Icmp6.readOpt (sliceFrom f optr) = .ok o ∧ Icmp6.piOf (o :: ys) = Icmp6.piOf ys := by
          simp only [Icmp6.readOpt, q0, q1, py_ok_bind, hm, if_neg k3, py_pure]
          split
          · exact ⟨_, rfl, rfl⟩
          · split
            · exact ⟨_, rfl, rfl⟩
            · exact ⟨_, rfl, rfl⟩
        obtain ⟨o, o1, o2⟩ := hr
        rw [o1]
        refine ⟨_, rfl, ?_⟩
        rw [PiRel, o2, autoPrefixes, List.filterMap_cons, if_neg (fun h => k3 h.1)]
        exact y2

/-- What the length check of the options accepts is a list of options. -/
theorem Icmp6.options_of_check (f : Bytes) : ∀ (fuel optr : Nat), Icmp6.ndOptionCheck f fuel optr = .ok none → optr ≤ f.length →
    ∃ l, NdOptions (f.drop optr) l := by
  intro fuel
  induction fuel with
  | zero =>
    intro optr h hl
    rw [Icmp6.ndOptionCheck] at h
    split at h
    · cases h
    · exact ⟨[], by rw [List.drop_eq_nil_of_le (by omega)]; exact .nil⟩
  | succ fuel ih =>
    intro optr h hl
    rw [Icmp6.ndOptionCheck] at h
    split at h
    · split at h
      · cases h
      · cases hn : idx f (optr + 1) with
        | error e => simp [hn] at h
        | ok n =>
          simp only [hn, py_ok_bind] at h
          split at h
          · cases h
          · split at h
            · cases h
            · rename_i h1 h2 h3 h4
              have e : n <<< 3 = 8 * n := by rw [Nat.shiftLeft_eq]; omega
              rw [e] at h h4
              obtain ⟨l, hl'⟩ := ih _ h (by omega)
              obtain ⟨x, hx, hxn⟩ := idx_some hn
              obtain ⟨y, hy⟩ : ∃ y, f[optr]? = some y := ⟨_, List.getElem?_eq_getElem h1⟩
              have d0 : f.drop optr = y :: f.drop (optr + 1) := by
                rw [List.getElem?_eq_some_iff] at hy
                obtain ⟨w, rfl⟩ := hy
                exact List.drop_eq_getElem_cons w
              have d1 : f.drop (optr + 1) = x :: f.drop (optr + 2) := by
                rw [List.getElem?_eq_some_iff] at hx
                obtain ⟨w, rfl⟩ := hx
                exact List.drop_eq_getElem_cons w
              have d2 : f.drop (optr + 2) = (f.drop (optr + 2)).take (8 * n - 2) ++ f.drop (optr + 8 * n) := by
                rw [show optr + 8 * n = optr + 2 + (8 * n - 2) by omega, ← List.drop_drop (i := 8 * n - 2), List.take_append_drop]
              rw [d0, d1, d2]
              refine ⟨_, .opt y x _ (by omega) ?_ hl'⟩
              simp
              omega
    · exact ⟨[], by rw [List.drop_eq_nil_of_le (by omega)]; exact .nil⟩

theorem unicast6_iff (a : Ip6Address) : a.isUnicast = true ↔ Unicast6 a := (C09_ip6_classes a).2.2.2.2.2.2.2
theorem linkLocal6_iff (a : Ip6Address) : a.isLinkLocal = true ↔ cidr 128 (hextet 0xFE80) 10 a.int := (C09_ip6_classes a).2.2.2.2.1
theorem unspecified6_iff (a : Ip6Address) : a.isUnspecified = true ↔ a.int = 0 := (C09_ip6_classes a).1

theorem solicitedNode_eq (t : Ip6Address) : t.solicitedNodeMulticast = .ok (solicitedNode t) := by
  obtain ⟨a, h1, h2⟩ := Icmp6.solicited t
  rw [h1]
  exact congrArg _ (Ip6Address.ext' h2)

/-- The parser on a neighbour solicitation. -/
theorem Icmp6.parse_ns {p : Bytes} {ps hop : Nat} {src dst target : Ip6Address} {opts : List (Nat × Bytes)} (H : IsNd 135 24 p opts)
    {xs : List Icmp6.RxOpt} (x1 : Icmp6.readNdOptions p p.length 24 = .ok xs) (hck : inetCksum p ps = 0) (ht : target.int = be p 8 16) :
    (GoodNs src dst hop p target opts → Icmp6.parse p p.length ps src dst hop = .ok none ∧
      Icmp6.read p p.length = .ok (.neighborSolicitation target xs)) ∧
    (¬ GoodNs src dst hop p target opts → ∃ s, Icmp6.parse p p.length ps src dst hop = .ok (some s)) := by
  obtain ⟨h1, h2, h3⟩ := H
  obtain ⟨w1, w2, w3⟩ := Icmp6.walk h3 p p.length 24 rfl (by omega)
  have x2 := w2 xs x1
  have b0 : idx p 0 = .ok 135 := by rw [idx_be (by omega), h2]
  have b1 := idx_be (f := p) (i := 1) (by omega)
  obtain ⟨t, t1, t2⟩ := ip6_be (f := p) (i := 8) (by omega)
  have : t = target := Ip6Address.ext' (by omega)
  subst this
  have hint : Icmp6.integrity p p.length ps = .ok none := by
    rw [Icmp6.integrity, List.take_length, hck, if_neg (by simp), if_neg (by omega), b0]
    simp only [py_ok_bind, Icmp6.integrityOf]
    rw [if_neg (by omega), if_neg (by omega), if_neg (by omega), if_neg (by omega), if_neg (by omega), if_pos trivial, if_neg (by omega), w1]
  have hos : Icmp6.ndOptions p = .ok xs := by
    simp only [Icmp6.ndOptions, Icmp6.type, b0, py_ok_bind]
    exact x1
  have hsan : Icmp6.sanity p src dst hop = Icmp6.sanityNs p src dst hop (be p 1 1) := by
    simp only [Icmp6.sanity, Icmp6.type, Icmp6.code, b0, b1, py_ok_bind]
    rfl
  have hread : Icmp6.read p p.length = .ok (.neighborSolicitation t xs) := by
    simp only [Icmp6.read, Icmp6.type, Icmp6.code, b0, b1, py_ok_bind, Icmp6.nsTarget, t1, hos]
    rfl
  have hslla : (Icmp6.sllaOf xs).isSome = true ↔ firstMac 1 opts ≠ none := by
    rw [← x2.slla]
    cases Icmp6.sllaOf xs <;> simp
  have key : ∃ r, Icmp6.sanityNs p src dst hop (be p 1 1) = .ok r ∧ (r = none ↔ GoodNs src dst hop p t opts) := by
    simp only [Icmp6.sanityNs, Icmp6.nsTarget, t1, solicitedNode_eq, hos, py_ok_bind, GoodNs]
    by_cases c1 : be p 1 1 = 0
    · rw [if_neg (by simpa using c1)]
      by_cases c2 : hop = 255
      · rw [if_neg (by simpa using c2)]
        by_cases c3 : src.int = 0 ∨ Unicast6 src
        · rw [if_neg (by simp only [Bool.not_eq_true', Bool.not_eq_false, Bool.or_eq_true, unicast6_iff, unspecified6_iff]; exact c3.symm)]
          by_cases c4 : dst = t ∨ dst = solicitedNode t
          · rw [if_neg (not_not.2 c4)]
            by_cases c5 : Unicast6 t
            · rw [if_neg (by simp only [Bool.not_eq_true', Bool.not_eq_false, unicast6_iff]; exact c5)]
              by_cases c6 : src.int = 0
              · rw [if_pos ((unspecified6_iff src).mpr c6)]
                by_cases c7 : firstMac 1 opts = none
                · rw [if_neg (by rw [hslla]; exact fun h => h c7)]
                  exact ⟨_, rfl, by simp [c1, c2, c3, c4, c5, c7]⟩
                · rw [if_pos (hslla.mpr c7)]
                  exact ⟨_, rfl, by simp [c6, c7]⟩
              · rw [if_neg (by rw [unspecified6_iff]; exact c6)]
                exact ⟨_, rfl, ⟨fun _ => ⟨c1, c2, c3, c4, c5, fun h => (c6 h).elim⟩, fun _ => rfl⟩⟩
            · rw [if_pos (by simp only [Bool.not_eq_true', Bool.eq_false_iff, ne_eq, unicast6_iff]; exact c5)]
              exact ⟨_, rfl, by simp [c5]⟩
          · rw [if_pos c4]
            exact ⟨_, rfl, by simp [c4]⟩
        · rw [if_pos (by
            simp only [Bool.not_eq_true', Bool.eq_false_iff, ne_eq, Bool.or_eq_true, unicast6_iff, unspecified6_iff]
            exact fun h => c3 h.symm)]
          exact ⟨_, rfl, by simp [c3]⟩
      · rw [if_pos c2]
        exact ⟨_, rfl, by simp [c2]⟩
    · rw [if_pos c1]
      exact ⟨_, rfl, by simp [c1]⟩
  obtain ⟨r, r1, r2⟩ := key
  have hparse : Icmp6.parse p p.length ps src dst hop = .ok r := by
    simp only [Icmp6.parse, hint, py_ok_bind, hsan, r1]
  constructor
  · intro hgood
    rw [hparse, r2.mpr hgood]
    exact ⟨rfl, hread⟩
  · intro hbad
    cases r with
    | none => exact (hbad (r2.mp rfl)).elim
    | some s => exact ⟨s, hparse⟩

/-- The parser on a neighbour advertisement. -/
theorem Icmp6.parse_na {p : Bytes} {ps hop : Nat} {src dst target : Ip6Address} {opts : List (Nat × Bytes)} (H : IsNd 136 24 p opts)
    {xs : List Icmp6.RxOpt} (x1 : Icmp6.readNdOptions p p.length 24 = .ok xs) (hck : inetCksum p ps = 0) (ht : target.int = be p 8 16) :
    (GoodNa src dst hop p → Icmp6.parse p p.length ps src dst hop = .ok none ∧
      ∃ a b c, Icmp6.read p p.length = .ok (.neighborAdvertisement a b c target xs)) ∧
    (¬ GoodNa src dst hop p → ∃ s, Icmp6.parse p p.length ps src dst hop = .ok (some s)) := by
  obtain ⟨h1, h2, h3⟩ := H
  obtain ⟨w1, w2, w3⟩ := Icmp6.walk h3 p p.length 24 rfl (by omega)
  have b0 : idx p 0 = .ok 136 := by rw [idx_be (by omega), h2]
  have b1 := idx_be (f := p) (i := 1) (by omega)
  have b4 := idx_be (f := p) (i := 4) (by omega)
  obtain ⟨t, t1, t2⟩ := ip6_be (f := p) (i := 8) (by omega)
  have : t = target := Ip6Address.ext' (by omega)
  subst this
  have hint : Icmp6.integrity p p.length ps = .ok none := by
    rw [Icmp6.integrity, List.take_length, hck, if_neg (by simp), if_neg (by omega), b0]
    simp only [py_ok_bind, Icmp6.integrityOf]
    rw [if_neg (by omega), if_neg (by omega), if_neg (by omega), if_neg (by omega), if_neg (by omega), if_neg (by omega), if_pos trivial,
      if_neg (by omega), w1]
  have hos : Icmp6.ndOptions p = .ok xs := by
    simp only [Icmp6.ndOptions, Icmp6.type, b0, py_ok_bind]
    exact x1
  have hsan : Icmp6.sanity p src dst hop = Icmp6.sanityNa p src dst hop (be p 1 1) := by
    simp only [Icmp6.sanity, Icmp6.type, Icmp6.code, b0, b1, py_ok_bind]
    rfl
  have hs : Icmp6.naFlagS p = .ok (bit p 4 6) := by
    simp only [Icmp6.naFlagS, b4, py_ok_bind, py_pure]
    exact congrArg _ (bit_eq _ 6)
  have hall : Icmp6.allNodes = allNodes6 := rfl
  have key : ∃ r, Icmp6.sanityNa p src dst hop (be p 1 1) = .ok r ∧ (r = none ↔ GoodNa src dst hop p) := by
    simp only [Icmp6.sanityNa, hs, py_ok_bind, GoodNa, hall]
    by_cases c1 : be p 1 1 = 0
    · rw [if_neg (by simpa using c1)]
      by_cases c2 : hop = 255
      · rw [if_neg (by simpa using c2)]
        by_cases c3 : Unicast6 src
        · rw [if_neg (by simp only [Bool.not_eq_true', Bool.not_eq_false, unicast6_iff]; exact c3)]
          have hu := unicast6_iff dst
          by_cases c4 : bit p 4 6 = true
          · by_cases c5 : Unicast6 dst ∨ dst = allNodes6
            · rw [if_neg (by
                simp only [c4, Bool.true_and, Bool.not_eq_true', Bool.not_eq_false, Bool.or_eq_true, hu, decide_eq_true_eq]
                exact c5), if_neg (by simp [c4])]
              exact ⟨_, rfl, by simp [c1, c2, c3, c4]; tauto⟩
            · rw [if_pos (by
                simp only [c4, Bool.true_and, Bool.not_eq_true', Bool.eq_false_iff, ne_eq, Bool.or_eq_true, hu, decide_eq_true_eq]
                exact c5)]
              exact ⟨_, rfl, by simp; tauto⟩
          · by_cases c5 : dst = allNodes6
            · rw [if_neg (by simp [c4]), if_neg (by simp [c5])]
              exact ⟨_, rfl, by simp [c1, c2, c3, c5]⟩
            · rw [if_neg (by simp [c4]), if_pos (by simp [c4, c5])]
              exact ⟨_, rfl, by simp [c4, c5]⟩
        · rw [if_pos (by simp only [Bool.not_eq_true', Bool.eq_false_iff, ne_eq, unicast6_iff]; exact c3)]
          exact ⟨_, rfl, by simp [c3]⟩
      · rw [if_pos c2]
        exact ⟨_, rfl, by simp [c2]⟩
    · rw [if_pos c1]
      exact ⟨_, rfl, by simp [c1]⟩
  obtain ⟨r, r1, r2⟩ := key
  have hparse : Icmp6.parse p p.length ps src dst hop = .ok r := by
    simp only [Icmp6.parse, hint, py_ok_bind, hsan, r1]
  constructor
  · intro hgood
    rw [hparse, r2.mpr hgood]
    have : ∃ a b c, Icmp6.read p p.length = .ok (.neighborAdvertisement a b c t xs) := by
      rw [show Icmp6.read p p.length = Icmp6.readNa p by simp only [Icmp6.read, Icmp6.type, Icmp6.code, b0, b1, py_ok_bind]; rfl]
      simp only [Icmp6.readNa, Icmp6.naTarget, b4, t1, hos, py_ok_bind]
      exact ⟨_, _, _, rfl⟩
    obtain ⟨a, b, c, e⟩ := this
    exact ⟨rfl, a, b, c, e⟩
  · intro hbad
    cases r with
    | none => exact (hbad (r2.mp rfl)).elim
    | some s => exact ⟨s, hparse⟩

/-- The parser on a router advertisement. -/
theorem Icmp6.parse_ra {p : Bytes} {ps hop : Nat} {src dst : Ip6Address} {opts : List (Nat × Bytes)} (H : IsNd 134 16 p opts)
    {xs : List Icmp6.RxOpt} (x1 : Icmp6.readNdOptions p p.length 16 = .ok xs) (hck : inetCksum p ps = 0) :
    (GoodRa src dst hop p → Icmp6.parse p p.length ps src dst hop = .ok none ∧
      ∃ a b c d e f, Icmp6.read p p.length = .ok (.routerAdvertisement a b c d e f xs)) ∧
    (¬ GoodRa src dst hop p → ∃ s, Icmp6.parse p p.length ps src dst hop = .ok (some s)) := by
  obtain ⟨h1, h2, h3⟩ := H
  obtain ⟨w1, w2, w3⟩ := Icmp6.walk h3 p p.length 16 rfl (by omega)
  have b0 : idx p 0 = .ok 134 := by rw [idx_be (by omega), h2]
  have b1 := idx_be (f := p) (i := 1) (by omega)
  have b4 := idx_be (f := p) (i := 4) (by omega)
  have b5 := idx_be (f := p) (i := 5) (by omega)
  have b6 := u16_be (f := p) (i := 6) (by omega)
  have b8 := u32_be (f := p) (i := 8) (by omega)
  have b12 := u32_be (f := p) (i := 12) (by omega)
  have hint : Icmp6.integrity p p.length ps = .ok none := by
    rw [Icmp6.integrity, List.take_length, hck, if_neg (by simp), if_neg (by omega), b0]
    simp only [py_ok_bind, Icmp6.integrityOf]
    rw [if_neg (by omega), if_neg (by omega), if_neg (by omega), if_neg (by omega), if_pos trivial, if_neg (by omega), w1]
  have hos : Icmp6.ndOptions p = .ok xs := by
    simp only [Icmp6.ndOptions, Icmp6.type, b0, py_ok_bind]
    exact x1
  have hsan : Icmp6.sanity p src dst hop = .ok (Icmp6.sanityRa src dst hop (be p 1 1)) := by
    simp only [Icmp6.sanity, Icmp6.type, Icmp6.code, b0, b1, py_ok_bind]
    rfl
  have hall : Icmp6.allNodes = allNodes6 := rfl
  have key : Icmp6.sanityRa src dst hop (be p 1 1) = none ↔ GoodRa src dst hop p := by
    have hu := unicast6_iff dst
    have hl := linkLocal6_iff src
    simp only [Icmp6.sanityRa, GoodRa, hall]
    by_cases c1 : be p 1 1 = 0
    · by_cases c2 : hop = 255
      · by_cases c3 : src.isLinkLocal = true
        · by_cases c4 : Unicast6 dst ∨ dst = allNodes6
          · rw [if_neg (by simpa using c1), if_neg (by simpa using c2), if_neg (by simpa using c3), if_neg (by
              simp only [Bool.not_eq_true', Bool.not_eq_false, Bool.or_eq_true, hu, decide_eq_true_eq]
              exact c4)]
            simp [c1, c2, hl.mp c3, c4]
          · rw [if_neg (by simpa using c1), if_neg (by simpa using c2), if_neg (by simpa using c3), if_pos (by
              simp only [Bool.not_eq_true', Bool.eq_false_iff, ne_eq, Bool.or_eq_true, hu, decide_eq_true_eq]
              exact c4)]
            simp [c4]
        · rw [if_neg (by simpa using c1), if_neg (by simpa using c2), if_pos (by simpa using c3)]
          simp [mt hl.mpr c3]
      · rw [if_neg (by simpa using c1), if_pos c2]
        simp [c2]
    · rw [if_pos c1]
      simp [c1]
  have hparse : Icmp6.parse p p.length ps src dst hop = .ok (Icmp6.sanityRa src dst hop (be p 1 1)) := by
    simp only [Icmp6.parse, hint, py_ok_bind, hsan]
  constructor
  · intro hgood
    rw [hparse, key.mpr hgood]
    have : ∃ a b c d e f, Icmp6.read p p.length = .ok (.routerAdvertisement a b c d e f xs) := by
      rw [show Icmp6.read p p.length = Icmp6.readRa p by simp only [Icmp6.read, Icmp6.type, Icmp6.code, b0, b1, py_ok_bind]; rfl]
      simp only [Icmp6.readRa, b4, b5, b6, b8, b12, hos, py_ok_bind]
      exact ⟨_, _, _, _, _, _, rfl⟩
    obtain ⟨a, b, c, d, e, f, e'⟩ := this
    exact ⟨rfl, a, b, c, d, e, f, e'⟩
  · intro hbad
    rw [hparse]
    cases hr : Icmp6.sanityRa src dst hop (be p 1 1) with
    | none => exact (hbad (key.mp hr)).elim
    | some s => exact ⟨s, rfl⟩

/-- What a successful read says about the first byte and the options. -/
theorem Icmp6.read_inv {f : Bytes} {plen : Nat} {q : Icmp6.Hdr} (hr : Icmp6.read f plen = .ok q) :
    match q with
    | .neighborSolicitation t xs => idx f 0 = .ok 135 ∧ Icmp6.nsTarget f = .ok t ∧ Icmp6.readNdOptions f f.length 24 = .ok xs
    | .neighborAdvertisement _ _ _ t xs => idx f 0 = .ok 136 ∧ Icmp6.naTarget f = .ok t ∧ Icmp6.readNdOptions f f.length 24 = .ok xs
    | .routerAdvertisement _ _ _ _ _ _ xs => idx f 0 = .ok 134 ∧ Icmp6.readNdOptions f f.length 16 = .ok xs
    | _ => True := by
  rw [Icmp6.read] at hr
  cases h0 : Icmp6.type f with
  | error e => simp [h0] at hr
  | ok t' =>
  cases h1 : Icmp6.code f with
  | error e => simp [h0, h1] at hr
  | ok c' =>
  simp only [h0, h1, py_ok_bind] at hr
  split at hr
  · cases h4 : Icmp6.unData f plen with
    | error e => simp [h4] at hr
    | ok d => simp [h4] at hr; subst hr; trivial
  split at hr
  · rename_i ht
    cases h2 : Icmp6.ecId f with
    | error e => simp [h2] at hr
    | ok i =>
    cases h3 : Icmp6.ecSeq f with
    | error e => simp [h2, h3] at hr
    | ok s =>
    cases h4 : Icmp6.ecData f plen with
    | error e => simp [h2, h3, h4] at hr
    | ok d => simp [h2, h3, h4] at hr; subst hr; trivial
  split at hr
  · cases h4 : Icmp6.ndOptions f with
    | error e => simp [h4] at hr
    | ok d => simp [h4] at hr; subst hr; trivial
  split at hr
  · rename_i ht
    subst ht
    rw [Icmp6.readRa] at hr
    cases h2 : idx f 4 with
    | error e => simp [h2] at hr
    | ok a2 =>
    cases h3 : idx f 5 with
    | error e => simp [h2, h3] at hr
    | ok a3 =>
    cases h4 : u16 f 6 with
    | error e => simp [h2, h3, h4] at hr
    | ok a4 =>
    cases h5 : u32 f 8 with
    | error e => simp [h2, h3, h4, h5] at hr
    | ok a5 =>
    cases h6 : u32 f 12 with
    | error e => simp [h2, h3, h4, h5, h6] at hr
    | ok a6 =>
    cases h7 : Icmp6.ndOptions f with
    | error e => simp [h2, h3, h4, h5, h6, h7] at hr
    | ok a7 =>
      simp [h2, h3, h4, h5, h6, h7] at hr
      subst hr
      refine ⟨h0, ?_⟩
      simpa [Icmp6.ndOptions, h0, Icmp6.optStart] using h7
  split at hr
  · rename_i ht
    subst ht
    cases h2 : Icmp6.nsTarget f with
    | error e => simp [h2] at hr
    | ok a2 =>
    cases h7 : Icmp6.ndOptions f with
    | error e => simp [h2, h7] at hr
    | ok a7 =>
      simp [h2, h7] at hr
      subst hr
      refine ⟨h0, rfl, ?_⟩
      simpa [Icmp6.ndOptions, h0, Icmp6.optStart] using h7
  split at hr
  · rename_i ht
    subst ht
    rw [Icmp6.readNa] at hr
    cases h2 : idx f 4 with
    | error e => simp [h2] at hr
    | ok a2 =>
    cases h3 : Icmp6.naTarget f with
    | error e => simp [h2, h3] at hr
    | ok a3 =>
    cases h7 : Icmp6.ndOptions f with
    | error e => simp [h2, h3, h7] at hr
    | ok a7 =>
      simp [h2, h3, h7] at hr
      subst hr
      refine ⟨h0, rfl, ?_⟩
      simpa [Icmp6.ndOptions, h0, Icmp6.optStart] using h7
  · cases hr; trivial

/-- An accepted message of one of these types has options and a right checksum. -/
theorem Icmp6.nd_sound {f : Bytes} {ps hop t size : Nat} {src dst : Ip6Address} (hp : Icmp6.parse f f.length ps src dst hop = .ok none)
    (h0 : idx f 0 = .ok t) (ht : (t = 134 ∧ size = 16) ∨ (t = 135 ∧ size = 24) ∨ (t = 136 ∧ size = 24) ∨ (t = 133 ∧ size = 8)) :
    inetCksum f ps = 0 ∧ ∃ opts, IsNd t size f opts := by
  rw [Icmp6.parse, Icmp6.integrity, List.take_length] at hp
  by_cases h1 : inetCksum f ps ≠ 0
  · simp [h1] at hp
  refine ⟨by simpa using h1, ?_⟩
  by_cases h2 : 4 ≤ f.length
  · have e := h0
    rw [idx_be (by omega)] at e
    have e := Except.ok.inj e
    rw [if_neg h1, if_neg (by omega), h0] at hp
    simp only [py_ok_bind] at hp
    have key : size ≤ f.length ∧ Icmp6.ndOptionCheck f f.length size = .ok none := by
      rcases ht with ⟨rfl, rfl⟩ | ⟨rfl, rfl⟩ | ⟨rfl, rfl⟩ | ⟨rfl, rfl⟩ <;>
      · simp only [Icmp6.integrityOf, Icmp6.badLength] at hp
        simp at hp
        split at hp
        · simp at hp
        · refine ⟨by omega, ?_⟩
          rename_i hl
          cases hc : Icmp6.ndOptionCheck f f.length _ with
          | error x => simp [hc] at hp
          | ok r =>
            cases r with
            | none => rfl
            | some x => simp [hc] at hp
    obtain ⟨l, hl⟩ := Icmp6.options_of_check f f.length size key.2 key.1
    exact ⟨l, key.1, e, hl⟩
  · simp [h1, h2] at hp

end Verif
