import Verif.Model.Ip4
import Verif.Lemmas.Codec
/-! Option walks and header layout of the IPv4 codec. -/
namespace Verif.Ip4

theorem rawOptions_length (opts : List Opt) : (rawOptions opts).length = opts.length := by
  induction opts with
  | nil => rfl
  | cons o os ih =>
    simp only [rawOptions, List.map_cons, List.flatten_cons, List.length_append, List.length_cons] at *
    rw [ih]; cases o <;> simp [Opt.bytes] <;> omega

theorem rawOptions_cons (o : Opt) (os : List Opt) : rawOptions (o :: os) = o.bytes ++ rawOptions os := by
  simp [rawOptions]

theorem idx_drop {f : Bytes} {i : Nat} {x : UInt8} {t : Bytes} (h : f.drop i = x :: t) : idx f i = .ok x.toNat := by
  have : (f.drop i)[0]? = some x := by rw [h]; rfl
  rw [List.getElem?_drop] at this
  simp at this
  simp [idx, this]

/-- the check walk never raises except at the end of the frame -/
theorem optionCheck_total (f : Bytes) (hlen : Nat) (hl : hlen ≤ f.length) (fuel optr : Nat) (hf : hlen ≤ optr + fuel) :
    (∃ r, optionCheck f hlen fuel optr = .ok r) ∨
      (optionCheck f hlen fuel optr = .error .indexError ∧ hlen = f.length ∧ ∃ k, idx f (hlen - 1) = .ok k ∧ 2 ≤ k) := by
  induction fuel generalizing optr with
  | zero => left; rw [optionCheck, if_neg (by omega)]; exact ⟨_, rfl⟩
  | succ fuel ih =>
    rw [optionCheck]
    split
    · rename_i ho
      obtain ⟨k, hk, -, -⟩ := idx_ex (f := f) (i := optr) (by omega)
      simp only [hk, codec]
      split
      · left; exact ⟨_, rfl⟩
      · split
        · rw [if_neg (by omega)]; exact ih _ (by omega)
        · rw [if_neg (by omega)]
          by_cases hlast : optr + 1 < f.length
          · obtain ⟨l, hl', -, -⟩ := idx_ex (f := f) (i := optr + 1) hlast
            simp only [hl', codec]
            split
            · left; exact ⟨_, rfl⟩
            · split
              · left; exact ⟨_, rfl⟩
              · exact ih _ (by omega)
          · right
            have e : hlen = f.length := by omega
            refine ⟨?_, e, k, ?_, by omega⟩
            · simp [idx, List.getElem?_eq_none (show f.length ≤ optr + 1 by omega)]
            · rw [show hlen - 1 = optr by omega]; exact hk
    · left; exact ⟨_, rfl⟩

/-- after a successful check the options can be read -/
theorem optionsLoop_of_check (f : Bytes) (hlen : Nat) (fuel optr : Nat)
    (hc : optionCheck f hlen fuel optr = .ok none) : ∃ l, optionsLoop f hlen fuel optr = .ok l := by
  induction fuel generalizing optr with
  | zero =>
    rw [optionCheck] at hc
    rw [optionsLoop]
    split
    · rename_i h; rw [if_pos h] at hc; cases hc
    · exact ⟨_, rfl⟩
  | succ fuel ih =>
    rw [optionCheck] at hc
    rw [optionsLoop]
    split
    · rename_i h
      rw [if_pos h] at hc
      cases hk : idx f optr with
      | error e => rw [hk] at hc; simp at hc
      | ok k =>
        simp only [hk, codec] at hc ⊢
        split
        · exact ⟨_, rfl⟩
        · rename_i h0
          rw [if_neg h0] at hc
          split
          · rename_i h1
            rw [if_pos h1] at hc
            split at hc
            · cases hc
            · obtain ⟨l, hl⟩ := ih _ hc
              exact ⟨.nop :: l, by simp [hl]⟩
          · rename_i h1
            rw [if_neg h1] at hc
            split at hc
            · cases hc
            · cases hn : idx f (optr + 1) with
              | error e => rw [hn] at hc; simp at hc
              | ok l =>
                simp only [hn, codec] at hc ⊢
                split at hc
                · cases hc
                · split at hc
                  · cases hc
                  · obtain ⟨l', hl'⟩ := ih _ hc
                    exact ⟨_, by rw [hl']; rfl⟩
    · exact ⟨_, rfl⟩

/-- What the parser should return for an option list: everything up to and including the first end-of-list. -/
def parsedOptions : List Opt → List RxOpt
  | [] => []
  | .eol :: _ => [.eol]
  | .nop :: r => .nop :: parsedOptions r

theorem options_walk (f : Bytes) (hlen : Nat) (opts : List Opt) (rest : Bytes) (fuel optr : Nat)
    (hd : f.drop optr = rawOptions opts ++ rest) (hh : hlen = optr + opts.length) (hf : opts.length ≤ fuel) :
    optionCheck f hlen fuel optr = .ok none ∧ optionsLoop f hlen fuel optr = .ok (parsedOptions opts) := by
  induction opts generalizing fuel optr with
  | nil =>
    have : ¬ optr < hlen := by simp at hh; omega
    rw [optionCheck.eq_def, optionsLoop.eq_def]
    simp [this, parsedOptions]
  | cons o os ih =>
    cases fuel with
    | zero => simp at hf
    | succ fuel =>
      simp only [List.length_cons] at hh hf
      have hlt : optr < hlen := by omega
      have hle : ¬ hlen < optr + 1 := by omega
      rw [optionCheck, optionsLoop]
      cases o with
      | eol =>
        have := idx_drop (f := f) (i := optr) (x := 0) (t := rawOptions os ++ rest) (by rw [hd]; rfl)
        simp [this, parsedOptions, hlt]
      | nop =>
        have hi := idx_drop (f := f) (i := optr) (x := 1) (t := rawOptions os ++ rest) (by rw [hd]; rfl)
        have hd' : f.drop (optr + 1) = rawOptions os ++ rest := by
          rw [← List.drop_drop, hd]; rfl
        obtain ⟨h1, h2⟩ := ih fuel (optr + 1) hd' (by omega) (by omega)
        simp [hi, parsedOptions, h1, h2, hlt, hle]

theorem b0_eq {n : Nat} (h : n < 64) : 4 <<< 4 ||| n >>> 2 = 64 + n / 4 := by
  rw [Nat.shiftRight_eq_div_pow]
  exact or_disjoint (a := 4) (k := 4) (by omega)

theorem b1_eq {d e : Nat} (he : e ≤ 3) : d <<< 2 ||| e = d * 4 + e := by
  rw [Nat.shiftLeft_eq]; exact or_disjoint (k := 2) (by omega)

theorem fl_eq {df mf : Bool} {o : Nat} (ho : o < 65536) :
    df.toNat <<< 14 ||| mf.toNat <<< 13 ||| o >>> 3 = df.toNat * 16384 + mf.toNat * 8192 + o / 8 := by
  have h1 : mf.toNat ≤ 1 := by cases mf <;> decide
  rw [Nat.shiftRight_eq_div_pow, Nat.shiftLeft_eq, Nat.shiftLeft_eq, Nat.or_assoc, or_disjoint (k := 13) (by omega),
    or_disjoint (k := 14) (by omega)]
  omega

/-- the header bytes, with checksum `ck` -/
def headerWith (h : Tx) (plen ck : Nat) : Bytes :=
  bePack 1 (64 + h.hlen / 4) ++ bePack 1 (h.dscp * 4 + h.ecn) ++ bePack 2 plen ++ bePack 2 h.id ++
    bePack 2 (h.df.toNat * 16384 + h.mf.toNat * 8192 + h.offset / 8) ++ bePack 1 h.ttl ++ bePack 1 h.proto ++
    bePack 2 ck ++ h.src.toBytes ++ h.dst.toBytes ++ rawOptions h.options

theorem headerWith_length (h : Tx) (plen ck : Nat) : (headerWith h plen ck).length = h.hlen := by
  simp [headerWith, codec, Tx.hlen]; omega

/-- What the assembler accepts for a payload of `n` bytes. -/
def Tx.Ok (h : Tx) (n : Nat) : Prop :=
  h.ttl ≤ 255 ∧ h.dscp ≤ 63 ∧ h.ecn ≤ 3 ∧ h.id < 65536 ∧ (h.proto = 1 ∨ h.proto = 17 ∨ h.proto = 6 ∨ h.proto = 255) ∧
    h.options.length % 4 = 0 ∧ h.options.length ≤ 40 ∧ 20 + h.options.length + n < 65536 ∧
    h.offset % 8 = 0 ∧ h.offset < 65536

/-- The same without the restriction on the protocol. -/
def Tx.Fits (h : Tx) (n : Nat) : Prop :=
  h.ttl ≤ 255 ∧ h.dscp ≤ 63 ∧ h.ecn ≤ 3 ∧ h.id < 65536 ∧ h.proto < 256 ∧
    h.options.length % 4 = 0 ∧ h.options.length ≤ 40 ∧ 20 + h.options.length + n < 65536 ∧
    h.offset % 8 = 0 ∧ h.offset < 65536

theorem Tx.Ok.fits {h : Tx} {n : Nat} (hok : h.Ok n) : h.Fits n := by
  obtain ⟨k1, k2, k3, k4, k5, k6⟩ := hok
  exact ⟨k1, k2, k3, k4, by omega, k6⟩

theorem Tx.hlen_eq (h : Tx) : h.hlen = 20 + h.options.length := by rw [Tx.hlen, rawOptions_length]

theorem header0_ok (h : Tx) (n : Nat) (hok : h.Ok n) : header0 h (h.hlen + n) = .ok (headerWith h (h.hlen + n) 0) := by
  obtain ⟨k1, k2, k3, k4, k5, k6, k7, k8, k9, k10⟩ := hok
  have kh := h.hlen_eq
  have kd : h.df.toNat ≤ 1 := by cases h.df <;> decide
  have km : h.mf.toNat ≤ 1 := by cases h.mf <;> decide
  simp only [header0, b0_eq (show h.hlen < 64 by omega), b1_eq k3, fl_eq k10,
    packB_ok (show 64 + h.hlen / 4 < 256 by omega), packB_ok (show h.dscp * 4 + h.ecn < 256 by omega),
    packH_ok (show h.hlen + n < 65536 by omega), packH_ok k4,
    packH_ok (show h.df.toNat * 16384 + h.mf.toNat * 8192 + h.offset / 8 < 65536 by omega),
    packB_ok (show h.ttl < 256 by omega), packB_ok (show h.proto < 256 by omega), packH_ok (show 0 < 65536 by omega),
    codec, headerWith]

theorem asserts_ok (h : Tx) (n : Nat) (hok : h.Ok n) : h.asserts = .ok () := by
  obtain ⟨k1, k2, k3, k4, k5, -⟩ := hok
  have : (h.proto == 1 || h.proto == 17 || h.proto == 6 || h.proto == 255) = true := by simp; omega
  simp [Tx.asserts, k1, k2, k3, show h.id ≤ 65535 by omega, this]

theorem pshdr_ok (src dst : Ip4Address) (proto dlen : Nat) (hp : proto < 256) (hd : dlen < 65536) :
    pshdrSum src dst proto dlen =
      .ok (wordSum 4 3 (src.toBytes ++ dst.toBytes ++ [0] ++ bePack 1 proto ++ bePack 2 dlen)) := by
  simp only [pshdrSum, packH_ok hd, packB_ok (show 0 < 256 by omega), packB_ok hp, codec]
  rfl

/-- the stored header -/
theorem stored (h : Tx) (n : Nat) (hok : h.Ok n) :
    packIntoH (headerWith h (h.hlen + n) 0) 10 (inetCksum (headerWith h (h.hlen + n) 0)) =
      .ok (headerWith h (h.hlen + n) (inetCksum (headerWith h (h.hlen + n) 0))) := by
  generalize hck : inetCksum (headerWith h (h.hlen + n) 0) = ck
  have hc : ck < 65536 := by rw [← hck]; exact inetCksum_lt _ _
  rw [packIntoH_ok hc (by rw [headerWith_length, h.hlen_eq]; omega)]
  simp [headerWith, codec]

theorem assembleFrag_ok (h : Tx) (data : Bytes) (hok : h.Ok data.length) :
    assembleFrag h data = .ok (headerWith h (h.hlen + data.length) (inetCksum (headerWith h (h.hlen + data.length) 0)) ++
      data) := by
  simp only [assembleFrag, asserts_ok h _ hok, header0_ok h _ hok, stored h _ hok, codec]

end Verif.Ip4
