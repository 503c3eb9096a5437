import Verif.Model.Tcp
import Verif.Lemmas.Codec
/-! Option walks and header layout of the TCP codec. -/
namespace Verif

theorem idx_add (f : Bytes) (i j : Nat) : idx f (i + j) = idx (f.drop i) j := by
  simp [idx, List.getElem?_drop]
theorem slice_add (f : Bytes) (i j k : Nat) : slice f (i + j) (i + k) = slice (f.drop i) j k := by
  simp [slice, List.drop_take, Nat.add_sub_add_left, List.drop_drop]
theorem u16_add (f : Bytes) (i j : Nat) : u16 f (i + j) = u16 (f.drop i) j := by
  rw [u16, u16, Nat.add_assoc, slice_add]
theorem u32_add (f : Bytes) (i j : Nat) : u32 f (i + j) = u32 (f.drop i) j := by
  rw [u32, u32, Nat.add_assoc, slice_add]

namespace Tcp

theorem Flags.byte_eq (f : Flags) : f.byte = f.crw.toNat * 128 + f.ece.toNat * 64 + f.urg.toNat * 32 + f.ack.toNat * 16 +
    f.psh.toNat * 8 + f.rst.toNat * 4 + f.syn.toNat * 2 + f.fin.toNat := by
  obtain ⟨a, b, c, d, e, g, h, i, j⟩ := f
  revert a b c d e g h i j; decide

theorem Flags.byte_lt (f : Flags) : f.byte < 256 := by
  obtain ⟨a, b, c, d, e, g, h, i, j⟩ := f
  revert a b c d e g h i j; decide

theorem Flags.byte_read (f : Flags) :
    ((f.byte &&& 0b10000000) != 0) = f.crw ∧ ((f.byte &&& 0b01000000) != 0) = f.ece ∧
    ((f.byte &&& 0b00100000) != 0) = f.urg ∧ ((f.byte &&& 0b00010000) != 0) = f.ack ∧
    ((f.byte &&& 0b00001000) != 0) = f.psh ∧ ((f.byte &&& 0b00000100) != 0) = f.rst ∧
    ((f.byte &&& 0b00000010) != 0) = f.syn ∧ ((f.byte &&& 0b00000001) != 0) = f.fin := by
  obtain ⟨a, b, c, d, e, g, h, i, j⟩ := f
  revert a b c d e g h i j; decide

theorem b12_eq {hl : Nat} {ns : Bool} : hl <<< 2 ||| ns.toNat = hl * 4 + ns.toNat := by
  have : ns.toNat ≤ 1 := by cases ns <;> decide
  rw [Nat.shiftLeft_eq]; exact or_disjoint (k := 2) (by omega)

theorem b12_hlen {hl : Nat} {ns : Bool} (h : hl < 64) (h4 : hl % 4 = 0) :
    ((hl * 4 + ns.toNat) &&& 0b11110000) >>> 2 = hl := by
  have : ns.toNat ≤ 1 := by cases ns <;> decide
  rw [show (0b11110000 : Nat) = 2 ^ 8 - 2 ^ 4 from rfl, and_high (by omega) (by omega), Nat.shiftRight_eq_div_pow]
  omega

theorem b12_ns {hl : Nat} {ns : Bool} : (((hl * 4 + ns.toNat) &&& 0b00000001) != 0) = ns := by
  rw [show (0b00000001 : Nat) = 1 from rfl, and_1]
  cases ns <;> simp <;> omega

/-- the bytes of an option -/
def Opt.raw : Opt → Bytes
  | .eol => bePack 1 0
  | .nop => bePack 1 1
  | .mss m => bePack 1 2 ++ bePack 1 4 ++ bePack 2 m
  | .wscale w => bePack 1 3 ++ bePack 1 3 ++ bePack 1 w
  | .sackPerm => bePack 1 4 ++ bePack 1 2
  | .timestamp a b => bePack 1 8 ++ bePack 1 10 ++ bePack 4 a ++ bePack 4 b

def rawAll (os : List Opt) : Bytes := (os.map Opt.raw).flatten

/-- The option values the constructors accept. -/
def Opt.Ok : Opt → Prop
  | .mss m => m < 65536
  | .wscale w => w < 256
  | .timestamp a b => a < 4294967296 ∧ b < 4294967296
  | _ => True

theorem Opt.bytes_ok (o : Opt) (h : o.Ok) : o.bytes = .ok o.raw := by
  cases o with
  | eol => rfl
  | nop => rfl
  | sackPerm => rfl
  | mss m =>
    simp only [Opt.Ok] at h
    simp only [Opt.bytes, Opt.raw, packB_ok (show 2 < 256 by omega), packB_ok (show 4 < 256 by omega), packH_ok h,
      show decide (m ≤ 0xFFFF) = true by simp; omega, codec]
  | wscale m =>
    simp only [Opt.Ok] at h
    simp only [Opt.bytes, Opt.raw, packB_ok (show 3 < 256 by omega), packB_ok h,
      show decide (m ≤ 0xFF) = true by simp; omega, codec]
  | timestamp a b =>
    simp only [Opt.Ok] at h
    simp only [Opt.bytes, Opt.raw, packB_ok (show 8 < 256 by omega), packB_ok (show 10 < 256 by omega), packL_ok h.1,
      packL_ok h.2, show decide (a ≤ 0xFFFFFFFF) = true by simp; omega, show decide (b ≤ 0xFFFFFFFF) = true by simp; omega,
      codec]

theorem rawOptions_ok (os : List Opt) (h : ∀ o ∈ os, o.Ok) : rawOptions os = .ok (rawAll os) := by
  induction os with
  | nil => rfl
  | cons o os ih =>
    simp only [rawOptions, o.bytes_ok (h o (by simp)), ih (fun o ho => h o (by simp [ho])), codec]
    simp [rawAll]

theorem Opt.raw_length (o : Opt) : o.raw.length = o.len := by cases o <;> simp [Opt.raw, Opt.len]

theorem rawAll_length (os : List Opt) : (rawAll os).length = (os.map Opt.len).sum := by
  induction os with
  | nil => rfl
  | cons o os ih => simp only [rawAll, List.map_cons, List.flatten_cons, List.length_append, List.sum_cons] at *
                    rw [ih, o.raw_length]

/-- What the parser should return for an option list: each option with its value, in order, up to and including the
first end-of-list. -/
def parsedOptions : List Opt → List RxOpt
  | [] => []
  | .eol :: _ => [.eol]
  | .nop :: r => .nop :: parsedOptions r
  | .mss m :: r => .mss 4 m :: parsedOptions r
  | .wscale w :: r => .wscale 3 w :: parsedOptions r
  | .sackPerm :: r => .sackPerm 2 :: parsedOptions r
  | .timestamp a b :: r => .timestamp 10 a b :: parsedOptions r

/-- an option other than EOL/NOP at `optr` -/
theorem walk_step {f : Bytes} {hlen fuel optr k l : Nat} {x : RxOpt} {tail : List RxOpt} (hlt : optr < hlen) (hk : idx f optr = .ok k)
    (h0 : k ≠ 0) (h1 : k ≠ 1) (hl : idx f (optr + 1) = .ok l) (hl0 : l ≠ 0) (hle : optr + l ≤ hlen)
    (hx : readOpt f optr k = .ok x)
    (ih : optionCheck f hlen fuel (optr + l) = .ok none ∧ optionsLoop f hlen fuel (optr + l) = .ok tail) :
    optionCheck f hlen (fuel + 1) optr = .ok none ∧ optionsLoop f hlen (fuel + 1) optr = .ok (x :: tail) := by
  rw [optionCheck, optionsLoop]
  simp only [hlt, hk, h0, h1, hl, hl0, hx, ih.1, ih.2, codec, if_true, if_false, show ¬ optr + 1 > hlen by omega,
    show ¬ optr + l > hlen by omega]
  exact ⟨trivial, trivial⟩

theorem options_walk (f : Bytes) (hlen : Nat) (opts : List Opt) (hok : ∀ o ∈ opts, o.Ok) (rest : Bytes) (fuel optr : Nat)
    (hd : f.drop optr = rawAll opts ++ rest) (hh : hlen = optr + (opts.map Opt.len).sum)
    (hf : (opts.map Opt.len).sum ≤ fuel) :
    optionCheck f hlen fuel optr = .ok none ∧ optionsLoop f hlen fuel optr = .ok (parsedOptions opts) := by
  induction opts generalizing fuel optr with
  | nil =>
    have : ¬ optr < hlen := by simp at hh; omega
    rw [optionCheck.eq_def, optionsLoop.eq_def]
    simp [this, parsedOptions]
  | cons o os ih =>
    have hok1 := hok o (by simp)
    have hok2 : ∀ o ∈ os, o.Ok := fun o ho => hok o (by simp [ho])
    simp only [List.map_cons, List.sum_cons] at hh hf
    have hd1 : f.drop optr = o.raw ++ (rawAll os ++ rest) := by rw [hd]; simp [rawAll]
    have hd2 : f.drop (optr + o.len) = rawAll os ++ rest := by
      rw [← List.drop_drop, hd1, ← o.raw_length, List.drop_left]
    have h1 : 1 ≤ o.len := by cases o <;> simp [Opt.len]
    obtain ⟨fuel, rfl⟩ : ∃ g, fuel = g + 1 := ⟨fuel - 1, by omega⟩
    have hlt : optr < hlen := by omega
    have hle : ¬ hlen < optr + 1 := by omega
    have IH := ih hok2 fuel (optr + o.len) hd2 (by omega) (by omega)
    have hi0 : idx f optr = idx (f.drop optr) 0 := by rw [← idx_add, Nat.add_zero]
    cases o with
    | eol =>
      rw [optionCheck, optionsLoop, hi0, hd1]
      simp [Opt.raw, codec, parsedOptions, hlt]
    | nop =>
      simp only [Opt.len] at IH
      rw [optionCheck, optionsLoop, hi0, hd1]
      simp [Opt.raw, codec, parsedOptions, hlt, hle, IH.1, IH.2]
    | mss m =>
      simp only [Opt.len] at IH hh
      simp only [Opt.Ok] at hok1
      refine walk_step (k := 2) (l := 4) hlt ?_ (by omega) (by omega) ?_ (by omega) (by omega) ?_ IH
      · rw [hi0, hd1]; simp [Opt.raw, codec]
      · rw [idx_add, hd1]; simp [Opt.raw, codec]
      · rw [readOpt, idx_add, u16_add, hd1]; simp [Opt.raw, codec]; omega
    | wscale m =>
      simp only [Opt.len] at IH hh
      simp only [Opt.Ok] at hok1
      refine walk_step (k := 3) (l := 3) hlt ?_ (by omega) (by omega) ?_ (by omega) (by omega) ?_ IH
      · rw [hi0, hd1]; simp [Opt.raw, codec]
      · rw [idx_add, hd1]; simp [Opt.raw, codec]
      · rw [readOpt, idx_add, idx_add, hd1]; simp [Opt.raw, codec]; omega
    | sackPerm =>
      simp only [Opt.len] at IH hh
      refine walk_step (k := 4) (l := 2) hlt ?_ (by omega) (by omega) ?_ (by omega) (by omega) ?_ IH
      · rw [hi0, hd1]; simp [Opt.raw, codec]
      · rw [idx_add, hd1]; simp [Opt.raw, codec]
      · rw [readOpt, idx_add, hd1]; simp [Opt.raw, codec]
    | timestamp a b =>
      simp only [Opt.len] at IH hh
      simp only [Opt.Ok] at hok1
      refine walk_step (k := 8) (l := 10) hlt ?_ (by omega) (by omega) ?_ (by omega) (by omega) ?_ IH
      · rw [hi0, hd1]; simp [Opt.raw, codec]
      · rw [idx_add, hd1]; simp [Opt.raw, codec]
      · rw [readOpt, idx_add, u32_add, u32_add, hd1]; simp [Opt.raw, codec]; omega

/-- the check walk raises only at the end of the frame -/
theorem optionCheck_total (f : Bytes) (hlen : Nat) (hl : hlen ≤ f.length) (fuel optr : Nat) (hf : hlen ≤ optr + fuel) :
    (∃ r, optionCheck f hlen fuel optr = .ok r) ∨
      (optionCheck f hlen fuel optr = .error .indexError ∧ hlen = f.length ∧ ∃ k, idx f (hlen - 1) = .ok k ∧ 2 ≤ k) := by
  induction fuel generalizing optr with
  | zero => left; rw [optionCheck, if_neg (by omega)]; exact ⟨_, rfl⟩
  | succ fuel ih =>
    rw [optionCheck]
    split
    · rename_i ho
      obtain ⟨k, hk, -, -⟩ := idx_ex (f := f) (i := optr) (by omega)
      simp only [hk, codec]
      split
      · left; exact ⟨_, rfl⟩
      · split
        · rw [if_neg (by omega)]; exact ih _ (by omega)
        · rw [if_neg (by omega)]
          by_cases hlast : optr + 1 < f.length
          · obtain ⟨l, hl', -, -⟩ := idx_ex (f := f) (i := optr + 1) hlast
            simp only [hl', codec]
            split
            · left; exact ⟨_, rfl⟩
            · split
              · left; exact ⟨_, rfl⟩
              · exact ih _ (by omega)
          · right
            have e : hlen = f.length := by omega
            refine ⟨?_, e, k, ?_, by omega⟩
            · simp [idx, List.getElem?_eq_none (show f.length ≤ optr + 1 by omega)]
            · rw [show hlen - 1 = optr by omega]; exact hk
    · left; exact ⟨_, rfl⟩

theorem readOpt_total {f : Bytes} {optr k : Nat} (h : optr + 10 ≤ f.length) : ∃ o, readOpt f optr k = .ok o := by
  obtain ⟨l, hl, -, -⟩ := idx_ex (f := f) (i := optr + 1) (by omega)
  obtain ⟨a, ha, -, -⟩ := u16_ex (f := f) (i := optr + 2) (by omega)
  obtain ⟨b, hb, -, -⟩ := idx_ex (f := f) (i := optr + 2) (by omega)
  obtain ⟨c, hc, -, -⟩ := u32_ex (f := f) (i := optr + 2) (by omega)
  obtain ⟨d, hd, -, -⟩ := u32_ex (f := f) (i := optr + 6) (by omega)
  simp only [readOpt, hl, ha, hb, hc, hd, codec]
  repeat' split
  all_goals exact ⟨_, rfl⟩

/-- after a successful check the options can be read, provided nine more bytes follow the header -/
theorem optionsLoop_of_check (f : Bytes) (hlen : Nat) (hroom : hlen + 9 ≤ f.length) (fuel optr : Nat)
    (hc : optionCheck f hlen fuel optr = .ok none) : ∃ l, optionsLoop f hlen fuel optr = .ok l := by
  induction fuel generalizing optr with
  | zero =>
    rw [optionCheck] at hc
    rw [optionsLoop]
    split
    · rename_i h; rw [if_pos h] at hc; cases hc
    · exact ⟨_, rfl⟩
  | succ fuel ih =>
    rw [optionCheck] at hc
    rw [optionsLoop]
    split
    · rename_i h
      rw [if_pos h] at hc
      cases hk : idx f optr with
      | error e => rw [hk] at hc; simp at hc
      | ok k =>
        simp only [hk, codec] at hc ⊢
        split
        · exact ⟨_, rfl⟩
        · rename_i h0
          rw [if_neg h0] at hc
          split
          · rename_i h1
            rw [if_pos h1] at hc
            split at hc
            · cases hc
            · obtain ⟨l, hl⟩ := ih _ hc
              exact ⟨.nop :: l, by simp [hl]⟩
          · rename_i h1
            rw [if_neg h1] at hc
            split at hc
            · cases hc
            · cases hn : idx f (optr + 1) with
              | error e => rw [hn] at hc; simp at hc
              | ok l =>
                obtain ⟨o, ho⟩ := readOpt_total (f := f) (optr := optr) (k := k) (by omega)
                simp only [hn, ho, codec] at hc ⊢
                split at hc
                · cases hc
                · split at hc
                  · cases hc
                  · obtain ⟨l', hl'⟩ := ih _ hc
                    exact ⟨_, by rw [hl']; rfl⟩
    · exact ⟨_, rfl⟩

end Tcp
end Verif
