import Verif.Spec.Origin
import Verif.Props.Wire
import Verif.Lemmas.EndToEnd6
/-! The fragments a stack stores are those it has received. -/
namespace Verif
open Spec

namespace Frag

theorem walk_cover {l : List (Nat × Bytes)} : ∀ {len n : Nat}, walk len l = some n →
    ∀ i, i < n → i < len ∨ ∃ e ∈ l, e.1 ≤ i ∧ i < e.1 + e.2.length := by
  induction l with
  | nil => intro len n h i hi; cases h; exact .inl hi
  | cons e l ih =>
    intro len n h i hi
    obtain ⟨o, d⟩ := e
    rw [walk] at h
    split at h
    · cases h
    · rename_i ho
      rcases ih h i hi with h1 | ⟨e, he, h1⟩
      · by_cases h2 : i < o
        · exact .inl (by omega)
        · exact .inr ⟨(o, d), by simp, by simpa using (by omega : o ≤ i ∧ i < o + d.length)⟩
      · exact .inr ⟨e, by simp [he], h1⟩

theorem fill_byte {l : List (Nat × Bytes)} : ∀ {b r : Bytes}, fill b l = .ok r → r.length = b.length ∧
    ∀ i x, r[i]? = some x → (∃ e ∈ l, e.1 ≤ i ∧ e.2[i - e.1]? = some x) ∨ ∀ e ∈ l, ¬ (e.1 ≤ i ∧ i < e.1 + e.2.length) := by
  induction l with
  | nil => intro b r h; cases h; exact ⟨rfl, fun i x _ => .inr (by simp)⟩
  | cons e l ih =>
    intro b r h
    obtain ⟨o, d⟩ := e
    rw [fill, packIntoBytes] at h
    split at h
    · cases h
    · rename_i c hc
      split at hc
      · rename_i hle
        cases hc
        obtain ⟨h1, h2⟩ := ih h
        have hlen : (b.take o ++ d ++ b.drop (o + d.length)).length = b.length := by simp; omega
        refine ⟨by rw [h1, hlen], fun i x hx => ?_⟩
        rcases h2 i x hx with ⟨e, he, h3⟩ | h3
        · exact .inl ⟨e, by simp [he], h3⟩
        · by_cases hi : o ≤ i ∧ i < o + d.length
          · left
            refine ⟨(o, d), by simp, hi.1, ?_⟩
            -- no later piece covers position `i`, so it still has the byte of this one
            have key : ∀ {l : List (Nat × Bytes)} {b r : Bytes}, fill b l = .ok r →
                (∀ e ∈ l, ¬ (e.1 ≤ i ∧ i < e.1 + e.2.length)) → r[i]? = b[i]? := by
              intro l
              induction l with
              | nil => intro b r h _; cases h; rfl
              | cons e l ih =>
                intro b r h hn
                obtain ⟨o, d⟩ := e
                rw [fill, packIntoBytes] at h
                split at h
                · cases h
                · rename_i c hc
                  split at hc
                  · rename_i hle
                    cases hc
                    rw [ih h (fun e he => hn e (by simp [he]))]
                    have := hn (o, d) (by simp)
                    simp only at this
                    by_cases hlt : i < o
                    · rw [List.append_assoc, List.getElem?_append_left (by simp; omega), List.getElem?_take, if_pos hlt]
                    · rw [List.getElem?_append_right (by simp; omega), List.getElem?_drop]
                      congr 1
                      simp
                      omega
                  · cases hc
            rw [key h h3, List.append_assoc, List.getElem?_append_right (by simp; omega),
              List.getElem?_append_left (by simp; omega)] at hx
            rw [← hx]
            congr 1
            simp
            omega
          · right
            intro e he
            rcases List.mem_cons.mp he with rfl | he
            · exact hi
            · exact h3 e he
      · cases hc

/-- The length found is that of the last piece. -/
theorem walk_end {l : List (Nat × Bytes)} : ∀ {len n : Nat}, walk len l = some n → l ≠ [] →
    ∃ e, l.getLast? = some e ∧ n = e.1 + e.2.length := by
  induction l with
  | nil => intro _ _ _ h; exact absurd rfl h
  | cons e l ih =>
    intro len n h _
    obtain ⟨o, d⟩ := e
    rw [walk] at h
    split at h
    · cases h
    · cases l with
      | nil => cases h; exact ⟨(o, d), rfl, rfl⟩
      | cons e' l' =>
        obtain ⟨e, h1, h2⟩ := ih h (by simp)
        exact ⟨e, by rw [List.getLast?_cons_cons]; exact h1, h2⟩

/-- What reassembly makes is put together from the pieces. -/
theorem assembled {D : Dict Nat Bytes} {len : Nat} {d : Bytes} (hD : D ≠ []) (hw : walk 0 D.sortedItems = some len)
    (hd : fill (List.replicate len 0) D.sortedItems = .ok d) : Assembled D d := by
  obtain ⟨h1, h2⟩ := fill_byte hd
  have hmem : ∀ e, e ∈ D.sortedItems ↔ e ∈ D := fun e => (Dict.sortedItems_perm _).mem_iff
  have hs : D.sortedItems.Pairwise (fun a b => a.1 ≤ b.1) := by
    clear hD hw hd h1 h2 hmem
    induction D with
    | nil => exact .nil
    | cons e D ih => exact Dict.insertItem_pairwise e ih
  have hne : D.sortedItems ≠ [] := by
    intro h
    have := (Dict.sortedItems_perm D).length_eq
    rw [h] at this
    exact hD (List.length_eq_zero_iff.mp this.symm)
  refine ⟨?_, fun i b hb => ?_⟩
  · obtain ⟨e, he, hn⟩ := walk_end hw hne
    obtain ⟨l, hl⟩ := List.getLast?_eq_some_iff.mp he
    refine ⟨e, (hmem e).mp (by rw [hl]; simp), fun q hq => ?_, by rw [h1]; simpa using hn⟩
    have hq := (hmem q).mpr hq
    rw [hl] at hq hs
    rcases List.mem_append.mp hq with hq | hq
    · exact (List.pairwise_append.mp hs).2.2 q hq e (by simp)
    · rw [List.mem_singleton.mp hq]
  · rcases h2 i b hb with ⟨e, he, h3⟩ | h3
    · exact ⟨e, (hmem e).mp he, h3⟩
    · have hi : i < len := by
        have := (List.getElem?_eq_some_iff.mp hb).1
        rw [h1] at this
        simpa using this
      rcases walk_cover hw i hi with h4 | ⟨e, he, h4⟩
      · omega
      · exact (h3 e he h4).elim

variable {K : Type} [DecidableEq K]

/-- What holds of everything stored: of the header kept for a key (`H`), of the pieces (`I`), and that an end has been seen at one of
their places (`L`). -/
def Kept (H : K → Bytes → Prop) (L : K → Nat → Prop) (I : K → Nat → Bytes → Prop) (flows : Dict K Flow) : Prop :=
  ∀ e ∈ flows, H e.1 e.2.header ∧ (e.2.last = true → ∃ x ∈ e.2.data, L e.1 x.1) ∧ ∀ x ∈ e.2.data, I e.1 x.1 x.2

omit [DecidableEq K] in
theorem Kept.mono {H H' : K → Bytes → Prop} {L L' : K → Nat → Prop} {I I' : K → Nat → Bytes → Prop} {flows : Dict K Flow}
    (h : Kept H L I flows) (h1 : ∀ k x, H k x → H' k x) (h2 : ∀ k o, L k o → L' k o) (h3 : ∀ k o x, I k o x → I' k o x) : Kept H' L' I' flows :=
  fun e he => ⟨h1 _ _ (h e he).1, fun hl => (((h e he).2.1 hl).imp fun _ y => ⟨y.1, h2 _ _ y.2⟩), fun x hx => h3 _ _ _ ((h e he).2.2 x hx)⟩

theorem mem_set_other {V : Type} {l : Dict K V} {k k' : K} {v v' : V} (h : (k', v') ∈ l) (hk : k' ≠ k) : (k', v') ∈ l.set k v := by
  induction l with
  | nil => cases h
  | cons x l ih =>
    obtain ⟨a, b⟩ := x
    rw [Dict.set]
    split
    · rename_i ha
      rcases List.mem_cons.mp h with h | h
      · cases h; exact absurd ha hk
      · exact List.mem_cons_of_mem _ h
    · rcases List.mem_cons.mp h with h | h
      · rw [h]; exact List.mem_cons_self
      · exact List.mem_cons_of_mem _ (ih h)

theorem mem_set_self {V : Type} (l : Dict K V) (k : K) (v : V) : (k, v) ∈ l.set k v :=
  Dict.get?_mem (by rw [Dict.get?_set, if_pos rfl])

theorem defrag_kept {H : K → Bytes → Prop} {L : K → Nat → Prop} {I : K → Nat → Bytes → Prop} {finish : Bytes → Bytes → Py Bytes}
    {flows : Dict K Flow} {t₀ t₁ : Int} {key : K} {header : Bytes} {offset : Nat} {mf : Bool} {data : Bytes} (hk : Kept H L I flows)
    (hH : H key header) (hI : I key offset data) (hL : mf = false → L key offset) :
    Kept H L I (defrag finish flows t₀ t₁ key header offset mf data).1 ∧
    ∀ g, (defrag finish flows t₀ t₁ key header offset mf data).2 = .ok (some g) → ∃ hd d ps, H key hd ∧ finish hd d = .ok g ∧
      (∃ x ∈ ps, L key x.1) ∧ (∀ x ∈ ps, I key x.1 x.2) ∧ Assembled ps d := by
  have hc : Kept H L I (cleanup flows t₀) := fun e he => hk e (List.mem_filter.mp he).1
  have hr : H key (record (cleanup flows t₀) t₁ key header offset mf data).header ∧
      ((record (cleanup flows t₀) t₁ key header offset mf data).last = true →
        ∃ x ∈ (record (cleanup flows t₀) t₁ key header offset mf data).data, L key x.1) ∧
      ∀ x ∈ (record (cleanup flows t₀) t₁ key header offset mf data).data, I key x.1 x.2 := by
    unfold record
    cases hg : (cleanup flows t₀).get? key with
    | none =>
      cases mf with
      | true => exact ⟨hH, by simp, by simpa using hI⟩
      | false => exact ⟨hH, fun _ => ⟨(offset, data), by simp, hL rfl⟩, by simpa using hI⟩
    | some fl =>
      obtain ⟨h1, h2, h3⟩ := hc _ (Dict.get?_mem hg)
      have h4 : ∀ x ∈ fl.data.set offset data, I key x.1 x.2 := by
        intro x hx
        rcases mem_set hx with rfl | hx
        · exact hI
        · exact h3 x hx
      cases mf with
      | true =>
        refine ⟨h1, fun hl => ?_, h4⟩
        obtain ⟨⟨o, y⟩, hx, hxL⟩ := h2 hl
        by_cases ho : o = offset
        · subst ho
          exact ⟨(o, data), mem_set_self _ _ _, hxL⟩
        · exact ⟨(o, y), mem_set_other hx ho, hxL⟩
      | false => exact ⟨h1, fun _ => ⟨(offset, data), mem_set_self _ _ _, hL rfl⟩, h4⟩
  have hs : Kept H L I ((cleanup flows t₀).set key (record (cleanup flows t₀) t₁ key header offset mf data)) := by
    intro e he
    rcases mem_set he with rfl | he
    · exact hr
    · exact hc e he
  unfold defrag
  dsimp only
  split
  · exact ⟨hs, fun g h => by cases h⟩
  · rename_i hlast
    split
    · exact ⟨hs, fun g h => by cases h⟩
    · rename_i len hw
      split
      · exact ⟨hs, fun g h => by cases h⟩
      · rename_i d hd
        refine ⟨fun e he => hs e (List.mem_filter.mp he).1, fun g hg => ?_⟩
        cases hf : finish (record (cleanup flows t₀) t₁ key header offset mf data).header d with
        | error e => rw [hf] at hg; cases hg
        | ok g' =>
          rw [hf] at hg
          cases hg
          obtain ⟨x, hx, hxL⟩ := hr.2.1 (by simpa using hlast)
          exact ⟨_, d, _, hr.1, hf, ⟨x, hx, hxL⟩, hr.2.2, assembled (List.ne_nil_of_mem hx) hw hd⟩

end Frag

/-! ### IPv4 -/

/-- What an accepted packet says about its place in a datagram. -/
theorem Ip4.frag {p : Bytes} {h : Ip4.Hdr} (H : Ip4.parse p = .ok none) (hr : Ip4.read p = .ok h) :
    h.id = be p 4 2 ∧ h.offset = be p 6 2 % 0x2000 * 8 ∧ h.mf = bit p 6 5 ∧ h.dataCopy = h.rest.take h.dlen ∧
      Ip4.pshdrSum h.src h.dst h.proto h.dlen = .ok h.pshdrSum ∧ h.dlen ≤ h.rest.length := by
  obtain ⟨r, hr', h1, h2, h3, h4, h5, h6, h7, -⟩ := C26_ip4_accepted_partial p H
  have := Except.ok.inj (hr'.symm.trans hr)
  subst this
  have b0 := idx_be (f := p) (i := 0) (by omega)
  have b1 := idx_be (f := p) (i := 1) (by omega)
  have b2 := u16_be (f := p) (i := 2) (by omega)
  have b4 := u16_be (f := p) (i := 4) (by omega)
  have b6 := idx_be (f := p) (i := 6) (by omega)
  have b6' := u16_be (f := p) (i := 6) (by omega)
  have b8 := idx_be (f := p) (i := 8) (by omega)
  have b9 := idx_be (f := p) (i := 9) (by omega)
  obtain ⟨s, b12, s'⟩ := ip4_be (f := p) (i := 12) (by omega)
  obtain ⟨d, b16, d'⟩ := ip4_be (f := p) (i := 16) (by omega)
  have hh : Ip4.hlen p = .ok (be p 0 1 % 16 * 4) := by
    simp only [Ip4.hlen, b0, py_ok_bind, py_pure]
    rw [and_F, Nat.shiftLeft_eq, show (2 : Nat) ^ 2 = 4 from rfl]
  simp only [Ip4.read, hh, Ip4.plen, b2, Ip4.src, b12, Ip4.dst, b16, Ip4.proto, b9, Ip4.dscp, Ip4.ecn, b1, Ip4.id, b4, Ip4.flagDf, b6,
    Ip4.flagMf, Ip4.offset, b6', Ip4.ttl, b8, py_ok_bind, py_pure] at hr
  cases ho : Ip4.options p with
  | error e => simp [ho] at hr
  | ok o =>
    cases hps : Ip4.pshdrSum s d (be p 9 1) (be p 2 2 - be p 0 1 % 16 * 4) with
    | error e => simp [ho, hps] at hr
    | ok ps =>
      simp only [ho, hps, py_ok_bind] at hr
      have hr := Except.ok.inj hr
      subst hr
      dsimp only at *
      refine ⟨rfl, ?_, ?_, ?_, hps, ?_⟩
      · rw [Nat.shiftLeft_eq, show (0b0001111111111111 : Nat) = 2 ^ 13 - 1 from rfl, Nat.and_two_pow_sub_one_eq_mod]
      · exact bit_eq (be p 6 1) 5
      · simp only [slice, sliceFrom]
        rw [List.drop_take]
      · simp [sliceFrom]; omega

def FromHdr4 (past : List Bytes) (k : Frag.Key4) (hd : Bytes) : Prop :=
  ∃ F ∈ past, be F 12 2 = 0x0800 ∧ ∃ h, Ip4.parse (F.drop 14) = .ok none ∧ Ip4.read (F.drop 14) = .ok h ∧ (h.offset ≠ 0 ∨ h.mf = true) ∧
    hd = h.headerCopy ∧ k = (h.src, h.dst, h.id)
def FromEnd4 (past : List Bytes) (k : Frag.Key4) (off : Nat) : Prop :=
  ∃ F ∈ past, be F 12 2 = 0x0800 ∧ ∃ pr x, Frag4 (F.drop 14) k.1 k.2.1 pr k.2.2 off false x
def FromPiece4 (past : List Bytes) (k : Frag.Key4) (off : Nat) (x : Bytes) : Prop :=
  ∃ F ∈ past, be F 12 2 = 0x0800 ∧ ∃ pr more, Frag4 (F.drop 14) k.1 k.2.1 pr k.2.2 off more x

/-- The stored IPv4 fragments are from these frames. -/
abbrev Inv4 (past : List Bytes) (flows : Dict Frag.Key4 Frag.Flow) : Prop := Frag.Kept (FromHdr4 past) (FromEnd4 past) (FromPiece4 past) flows

theorem Inv4.mono {past past' : List Bytes} {flows : Dict Frag.Key4 Frag.Flow} (h : Inv4 past flows) (hs : ∀ F ∈ past, F ∈ past') :
    Inv4 past' flows :=
  Frag.Kept.mono h (fun _ _ ⟨F, hF, h⟩ => ⟨F, hs F hF, h⟩) (fun _ _ ⟨F, hF, h⟩ => ⟨F, hs F hF, h⟩) (fun _ _ _ ⟨F, hF, h⟩ => ⟨F, hs F hF, h⟩)

theorem Ip4.frag4 {p : Bytes} {h : Ip4.Hdr} (H : Ip4.parse p = .ok none) (hr : Ip4.read p = .ok h) (ho : h.offset ≠ 0 ∨ h.mf = true) :
    Frag4 p h.src h.dst h.proto h.id h.offset h.mf h.dataCopy := by
  obtain ⟨h1, h2, h3, h4, -⟩ := Ip4.frag H hr
  exact ⟨by rw [h4]; exact (Ip4.sound H hr).1, h1.symm, h2, h3, ho⟩

/-- A packet whose header and data are from the frames. -/
theorem defragIp4_made {past : List Bytes} {F : Bytes} {flows : Dict Frag.Key4 Frag.Flow} {h : Ip4.Hdr} {t₀ t₁ : Int} (hk : Inv4 past flows)
    (hF : F ∈ past) (ht : be F 12 2 = 0x0800) (hp : Ip4.parse (F.drop 14) = .ok none) (hr : Ip4.read (F.drop 14) = .ok h)
    (ho : h.offset ≠ 0 ∨ h.mf = true) :
    Inv4 past (Frag.defragIp4 flows t₀ t₁ h).1 ∧
    ∀ g, (Frag.defragIp4 flows t₀ t₁ h).2 = .ok (some g) → Ip4.parse g = .ok none ∧ ∃ h', Ip4.read g = .ok h' ∧
      h'.src = h.src ∧ h'.dst = h.dst ∧ Made4 past h'.src h'.dst h'.proto (h'.rest.take h'.dlen) := by
  have hf := Ip4.frag4 hp hr ho
  obtain ⟨h1, h2⟩ := Frag.defrag_kept (finish := Frag.finishIp4) (t₀ := t₀) (t₁ := t₁) (key := (h.src, h.dst, h.id)) (header := h.headerCopy)
    (offset := h.offset) (mf := h.mf) (data := h.dataCopy) hk ⟨F, hF, ht, h, hp, hr, ho, rfl, rfl⟩ ⟨F, hF, ht, h.proto, h.mf, hf⟩
    (fun hm => ⟨F, hF, ht, h.proto, h.dataCopy, by rw [← hm]; exact hf⟩)
  refine ⟨h1, fun g hg => ?_⟩
  obtain ⟨hd, d, ps, ⟨F₀, hF₀, ht₀, h₀, hp₀, hr₀, ho₀, rfl, hkey⟩, hfin, hL, hI, hA⟩ := h2 g hg
  have hparsed : Ip4.Parsed h₀ := ⟨_, hp₀, hr₀⟩
  by_cases hle : d.length ≤ 65515
  · obtain ⟨g1, g2, g3⟩ := finishIp4_ok h₀ hparsed d hle
    have hps := Ip4.pshdr_ok h₀.src h₀.dst h₀.proto d.length g1.2.2.2.2.1 (by omega)
    have hh20 : h₀.wholeTx.hlen = 20 := by simp [Ip4.Hdr.wholeTx, Ip4.Tx.hlen, Ip4.rawOptions]
    have hv := Ip4.header_verifies h₀.wholeTx (20 + d.length) rfl
    have hcore := Ip4.core h₀.wholeTx d [] _ _ g1 g2 (by rw [hh20]; exact hv) hps
    simp only [List.append_nil, hh20] at hcore
    have := Except.ok.inj (g3.symm.trans hfin)
    subst this
    obtain ⟨k1, k2⟩ := Prod.mk.inj hkey
    obtain ⟨k2, k3⟩ := Prod.mk.inj k2
    refine ⟨hcore.1, _, hcore.2, k1.symm, k2.symm, ?_⟩
    simp only [Ip4.Hdr.wholeTx, List.take_length]
    rw [← k1, ← k2]
    refine .inr ⟨h.id, ps, ⟨F₀, hF₀, ht₀, h₀.offset, h₀.mf, h₀.dataCopy, ?_⟩, hL, hI, hA⟩
    rw [k1, k2, k3]
    exact Ip4.frag4 hp₀ hr₀ ho₀
  · have := Transit4.finishIp4_long h₀ hparsed d (by omega)
    rw [this] at hfin
    cases hfin

/-- What a frame with an IPv4 packet does to the stored fragments, and what packet it gives the stack to handle. -/
theorem ip4_made {past : List Bytes} {F : Bytes} {n : Node} {t₀ t₁ : Int} (hk : Inv4 past n.flows4) (hF : F ∈ past)
    (ht : be F 12 2 = 0x0800) :
    Inv4 past (Rx.ip4 n t₀ t₁ (F.drop 14)).1.flows4 ∧
    ∀ g h, Gives4 n t₀ t₁ (F.drop 14) g → Ip4.read g = .ok h → Ip4.parse g = .ok none ∧
      (n.stack.ip4Host = [] ∨ Listens4 n h.dst) ∧ Made4 past h.src h.dst h.proto (h.rest.take h.dlen) := by
  constructor
  · rw [Rx.ip4]
    split
    · exact hk
    · exact hk
    · rename_i h hr
      obtain ⟨hr1, hr2⟩ := parsed_some hr
      split
      · exact hk
      · split
        · rename_i ho
          obtain ⟨m1, -⟩ := defragIp4_made (t₀ := t₀) (t₁ := t₁) hk hF ht hr1 hr2 ho
          dsimp only
          split <;> exact m1
        · exact hk
  · intro g h hg hr
    cases hg with
    | @whole h' h1 h2 h3 h4 h5 =>
      have := Except.ok.inj (h2.symm.trans hr)
      subst this
      obtain ⟨-, f2, f3, -⟩ := Ip4.frag h1 h2
      exact ⟨h1, h3, .inl ⟨F, hF, ht, (Ip4.sound h1 h2).1, by omega, by rw [← f3, h5]⟩⟩
    | last h1 h2 h3 h4 h5 =>
      obtain ⟨m1, m2⟩ := defragIp4_made (t₀ := t₀) (t₁ := t₁) hk hF ht h1 h2 h4
      obtain ⟨p1, h', p2, p3, p4, p5⟩ := m2 g (by rw [h5])
      have := Except.ok.inj (p2.symm.trans hr)
      subst this
      exact ⟨p1, by rw [p4]; exact h3, p5⟩

/-! ### IPv6 -/

/-- What an accepted fragment header says. -/
theorem Ip6.frag6 {p : Bytes} {h : Ip6.Hdr} {x : Ip6Frag.Hdr} (H : Ip6.parse p = .ok none) (hr : Ip6.read p = .ok h) (hn : h.next = 44)
    (H' : Ip6Frag.parse h.rest = .ok none) (hr' : Ip6Frag.read h.rest h.dlen = .ok x) :
    Frag6 p h.src h.dst x.next x.id x.offset x.mf x.dataCopy ∧ x.next < 256 := by
  obtain ⟨h1, h2, -⟩ := Ip6.sound H hr
  rw [hn] at h1
  have hl : 8 ≤ h.rest.length := by
    simp only [Ip6Frag.parse] at H'
    split at H'
    · cases H'
    · omega
  have b0 := idx_be (f := h.rest) (i := 0) (by omega)
  have b2 := u16_be (f := h.rest) (i := 2) (by omega)
  have b3 := idx_be (f := h.rest) (i := 3) (by omega)
  have b4 := u32_be (f := h.rest) (i := 4) (by omega)
  simp only [Ip6Frag.read, Ip6Frag.next, b0, Ip6Frag.offset, b2, Ip6Frag.flagMf, b3, Ip6Frag.id, b4, py_ok_bind, py_pure] at hr'
  have hr' := Except.ok.inj hr'
  subst hr'
  have hlt := be_lt h.rest 2 2
  refine ⟨⟨h.hop, h.rest, h1, hl, rfl, rfl, ?_, ?_, ?_⟩, be_lt h.rest 0 1⟩
  · show be h.rest 2 2 &&& 0b1111111111111000 = _
    generalize be h.rest 2 2 = y at hlt
    have h1 : y &&& 0b1111111111111000 = (y >>> 3) <<< 3 := by
      apply Nat.eq_of_testBit_eq
      intro i
      rw [Nat.testBit_and, Nat.testBit_shiftLeft, Nat.testBit_shiftRight]
      by_cases hi : i < 16
      · rcases (by omega : i = 0 ∨ i = 1 ∨ i = 2 ∨ i = 3 ∨ i = 4 ∨ i = 5 ∨ i = 6 ∨ i = 7 ∨ i = 8 ∨ i = 9 ∨ i = 10 ∨ i = 11 ∨ i = 12 ∨
          i = 13 ∨ i = 14 ∨ i = 15) with rfl | rfl | rfl | rfl | rfl | rfl | rfl | rfl | rfl | rfl | rfl | rfl | rfl | rfl | rfl | rfl <;> simp <;> exact fun _ => by decide
      · have : y.testBit i = false := Nat.testBit_lt_two_pow (Nat.lt_of_lt_of_le (show y < 2 ^ 16 from hlt) (Nat.pow_le_pow_right (by omega) (by omega : 16 ≤ i)))
        rw [this, show 3 + (i - 3) = i by omega, this]
        simp
    rw [h1, Nat.shiftLeft_eq, Nat.shiftRight_eq_div_pow]
  · exact bit_eq (be h.rest 3 1) 0
  · show slice h.rest 8 h.dlen = _
    rw [h2, slice, List.take_length]

def FromHdr6 (past : List Bytes) (k : Frag.Key6) (hd : Bytes) : Prop :=
  ∃ q, Made6 past q ∧ ∃ h x, Ip6.ParsedFrag (h, x) ∧ hd = h.headerCopy ∧ k = (h.src, h.dst, x.id)
def FromEnd6 (past : List Bytes) (k : Frag.Key6) (off : Nat) : Prop :=
  ∃ q, Made6 past q ∧ ∃ next x, Frag6 q k.1 k.2.1 next k.2.2 off false x
def FromPiece6 (past : List Bytes) (k : Frag.Key6) (off : Nat) (x : Bytes) : Prop :=
  ∃ q, Made6 past q ∧ ∃ next more, Frag6 q k.1 k.2.1 next k.2.2 off more x

/-- The stored IPv6 fragments are from these frames. -/
abbrev Inv6 (past : List Bytes) (flows : Dict Frag.Key6 Frag.Flow) : Prop := Frag.Kept (FromHdr6 past) (FromEnd6 past) (FromPiece6 past) flows

theorem Made6.mono {past past' : List Bytes} {g : Bytes} (h : Made6 past g) (hs : ∀ F ∈ past, F ∈ past') : Made6 past' g := by
  induction h with
  | frame F hF ht => exact .frame F (hs F hF) ht
  | whole ps h1 _ h3 _ h5 h6 _ h8 h9 i2 i4 i7 => exact .whole ps h1 i2 h3 i4 h5 h6 i7 h8 h9

theorem Inv6.mono {past past' : List Bytes} {flows : Dict Frag.Key6 Frag.Flow} (h : Inv6 past flows) (hs : ∀ F ∈ past, F ∈ past') :
    Inv6 past' flows :=
  Frag.Kept.mono h (fun _ _ ⟨F, hF, h⟩ => ⟨F, Made6.mono hF hs, h⟩) (fun _ _ ⟨F, hF, h⟩ => ⟨F, Made6.mono hF hs, h⟩)
    (fun _ _ _ ⟨F, hF, h⟩ => ⟨F, Made6.mono hF hs, h⟩)

theorem defragIp6_made {past : List Bytes} {q : Bytes} {flows : Dict Frag.Key6 Frag.Flow} {h : Ip6.Hdr} {x : Ip6Frag.Hdr} {t₀ t₁ : Int}
    (hk : Inv6 past flows) (hq : Made6 past q) (H : Ip6.parse q = .ok none) (hr : Ip6.read q = .ok h) (hn : h.next = 44)
    (H' : Ip6Frag.parse h.rest = .ok none) (hr' : Ip6Frag.read h.rest h.dlen = .ok x) :
    Inv6 past (Frag.defragIp6 flows t₀ t₁ h x).1 ∧
    ∀ g, (Frag.defragIp6 flows t₀ t₁ h x).2 = .ok (some g) → Made6 past g := by
  obtain ⟨hf, hx⟩ := Ip6.frag6 H hr hn H' hr'
  obtain ⟨h1, h2⟩ := Frag.defrag_kept (finish := Frag.finishIp6 x.next) (t₀ := t₀) (t₁ := t₁) (key := (h.src, h.dst, x.id))
    (header := h.headerCopy) (offset := x.offset) (mf := x.mf) (data := x.dataCopy) hk ⟨q, hq, h, x, ⟨q, H, hr, H', hr'⟩, rfl, rfl⟩
    ⟨q, hq, x.next, x.mf, hf⟩ (fun hm => ⟨q, hq, x.next, x.dataCopy, by rw [← hm]; exact hf⟩)
  refine ⟨h1, fun g hg => ?_⟩
  obtain ⟨hd, d, ps, ⟨q₀, hq₀, h₀, x₀, hp₀, rfl, hkey⟩, hfin, ⟨e₁, he₁, q₁, hq₁, n₁, y₁, hf₁⟩, hI, hA⟩ := h2 g hg
  obtain ⟨k1, k2⟩ := Prod.mk.inj hkey
  obtain ⟨k2, k3⟩ := Prod.mk.inj k2
  by_cases hle : d.length < 65536
  · obtain ⟨w, hw, hwp, h', hwr, e1, e2, e3, -, -, -, -, e4, e5, e6⟩ := finishIp6_ok (h₀, x₀) hp₀ x.next hx d hle
    have := Except.ok.inj (hw.symm.trans hfin)
    subst this
    have hs := (Ip6.sound hwp hwr).1
    simp only at e1 e2
    rw [e1, e2, e3, e5, ← k1, ← k2] at hs
    have hc : ∀ e : Nat × Bytes, ∃ p, e ∈ ps → Made6 past p ∧ ∃ next more, Frag6 p h.src h.dst next x.id e.1 more e.2 := by
      intro e
      by_cases he : e ∈ ps
      · obtain ⟨p, hp, nx, more, hfp⟩ := hI e he
        exact ⟨p, fun _ => ⟨hp, nx, more, hfp⟩⟩
      · exact ⟨[], fun h => (he h).elim⟩
    obtain ⟨part, hpart⟩ := Classical.skolem.mp hc
    refine .whole (ps.map fun e => (part e, e)) hs hq hf hq₁ hf₁ ⟨(part e₁, e₁), List.mem_map.mpr ⟨e₁, he₁, rfl⟩, rfl⟩ ?_ ?_ ?_
    · intro y hy
      obtain ⟨e, he, rfl⟩ := List.mem_map.mp hy
      exact (hpart e he).1
    · intro y hy
      obtain ⟨e, he, rfl⟩ := List.mem_map.mp hy
      exact (hpart e he).2
    · rw [List.map_map, show ((·.2) ∘ fun e : Nat × Bytes => (part e, e)) = id from rfl, List.map_id]
      exact hA
  · obtain ⟨f₀, a1, a2, -⟩ := hp₀
    have h40 : h₀.headerCopy.length = 40 := by
      obtain ⟨r, b1, b2, -⟩ := C26_ip6_accepted f₀ a1
      simp only at a2
      have hhc : h₀.headerCopy = f₀.take 40 := by
        rw [Ip6.read] at a2
        simp only [bind, Except.bind, pure, Except.pure] at a2
        repeat' split at a2
        all_goals try cases a2
        rfl
      rw [hhc, List.length_take]
      omega
    rcases finishIp6_raises x.next h₀.headerCopy d h40 with ⟨h3, -⟩ | ⟨-, h3⟩
    · omega
    · rw [h3] at hfin; cases hfin

theorem ip6_inv6 {past : List Bytes} (t₀ t₁ : Int) : ∀ (depth : Nat) (n : Node) (f : Bytes), Inv6 past n.flows6 → Made6 past f →
    Inv6 past (Rx.ip6 n t₀ t₁ depth f).1.flows6 := by
  intro depth
  induction depth with
  | zero =>
    intro n f hk hq
    rw [Rx.ip6]
    split
    · exact hk
    · exact hk
    · rename_i h hr
      obtain ⟨hr1, hr2⟩ := parsed_some hr
      split
      · exact hk
      · split
        · rename_i hn
          split
          · exact hk
          · exact hk
          · rename_i x hx
            obtain ⟨hx1, hx2⟩ := parsed_some hx
            obtain ⟨m1, m2⟩ := defragIp6_made (t₀ := t₀) (t₁ := t₁) hk hq hr1 hr2 hn hx1 hx2
            split
            · rename_i fl e hd; rw [hd] at m1; exact m1
            · rename_i fl hd; rw [hd] at m1; exact m1
            · rename_i fl g hd; rw [hd] at m1; exact m1
        · repeat' split
          all_goals exact hk
  | succ depth ih =>
    intro n f hk hq
    rw [Rx.ip6]
    split
    · exact hk
    · exact hk
    · rename_i h hr
      obtain ⟨hr1, hr2⟩ := parsed_some hr
      split
      · exact hk
      · split
        · rename_i hn
          split
          · exact hk
          · exact hk
          · rename_i x hx
            obtain ⟨hx1, hx2⟩ := parsed_some hx
            obtain ⟨m1, m2⟩ := defragIp6_made (t₀ := t₀) (t₁ := t₁) hk hq hr1 hr2 hn hx1 hx2
            split
            · rename_i fl e hd; rw [hd] at m1; exact m1
            · rename_i fl hd; rw [hd] at m1; exact m1
            · rename_i fl g hd
              rw [hd] at m1 m2
              exact ih { n with flows6 := fl } g m1 (m2 g rfl)
        · repeat' split
          all_goals exact hk

theorem gives6_made {past : List Bytes} {t₀ t₁ : Int} {n : Node} {p g : Bytes} (h : Gives6 t₀ t₁ n p g) :
    Inv6 past n.flows6 → Made6 past p → Made6 past g := by
  induction h with
  | whole n p => exact fun _ h => h
  | last h1 h2 h3 h4 h5 h6 h7 _ ih =>
    intro hk hq
    obtain ⟨m1, m2⟩ := defragIp6_made (t₀ := t₀) (t₁ := t₁) hk hq h1 h2 h4 h5 h6
    rw [h7] at m1 m2
    exact ih m1 (m2 _ rfl)

/-! ### Any frame -/

theorem Spec.Received.inv {past : List Bytes} {n : Node} (h : Received past n) : Inv4 past n.flows4 ∧ Inv6 past n.flows6 := by
  induction h with
  | start n h4 h6 =>
    rw [h4, h6]
    exact ⟨(fun e he => nomatch he), (fun e he => nomatch he)⟩
  | @frame past n n' t₀ t₁ d F _ e4 e6 ih =>
    have hs : ∀ G ∈ past, G ∈ past ++ [F] := fun G hG => by simp [hG]
    have i4 := ih.1.mono hs
    have i6 := ih.2.mono hs
    have hF : F ∈ past ++ [F] := by simp
    rw [e4, e6]
    by_cases hh : ∃ e, HoldsEther n F e
    · obtain ⟨e, he⟩ := hh
      obtain ⟨f1, f2, f3⟩ := ether_fields he.1 he.2.1
      rw [ether_holds he]
      split
      · exact ⟨i4, i6⟩
      · split
        · rename_i ht
          rw [f3]
          have ht : be F 12 2 = 0x0800 := by rw [← f2, ht]
          exact ⟨(ip4_made i4 hF ht).1, by rw [(ip4_keeps t₀ t₁ n _).2]; exact i6⟩
        · split
          · rename_i ht
            rw [f3]
            have ht : be F 12 2 = 0x86DD := by rw [← f2, ht]
            exact ⟨by rw [(ip6_keeps t₀ t₁ d n _).2]; exact i4, ip6_inv6 t₀ t₁ d n _ i6 (.frame F hF ht)⟩
          · exact ⟨i4, i6⟩
    · rw [ether_other (fun e he => hh ⟨e, he⟩)]
      exact ⟨i4, i6⟩

end Verif
