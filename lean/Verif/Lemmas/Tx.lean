import Verif.Model.Tx
import Verif.Spec.Frag
import Verif.Lemmas.Py
import Verif.Lemmas.Bits
import Verif.Lemmas.Codec
import Verif.Lemmas.Ip4
/-! Helper lemmas about fragmentation and the transmit path. -/
namespace Verif
open Spec (Piece IsFragmentation)

/-- The fragments the loop sends, as pieces. -/
def piecesOf : Nat → List Bytes → List Piece
  | _, [] => []
  | off, d :: ds => ⟨off, !ds.isEmpty, d⟩ :: piecesOf (off + d.length) ds

@[simp] theorem piecesOf_length (off : Nat) (ds : List Bytes) : (piecesOf off ds).length = ds.length := by
  induction ds generalizing off with
  | nil => rfl
  | cons d ds ih => simp [piecesOf, ih]

@[simp] theorem piecesOf_data (off : Nat) (ds : List Bytes) : (piecesOf off ds).map (·.data) = ds := by
  induction ds generalizing off with
  | nil => rfl
  | cons d ds ih => simp [piecesOf, ih]

theorem piecesOf_get (ds : List Bytes) (off i : Nat) (f : Piece) (h : (piecesOf off ds)[i]? = some f) :
    f.offset = off + ((ds.take i).flatten).length ∧ (f.mf = true ↔ i + 1 < ds.length) ∧ ds[i]? = some f.data := by
  induction ds generalizing off i with
  | nil => simp [piecesOf] at h
  | cons d ds ih =>
    cases i with
    | zero =>
      simp [piecesOf] at h
      subst h
      cases ds <;> simp
    | succ i =>
      simp only [piecesOf, List.getElem?_cons_succ] at h
      obtain ⟨h1, h2, h3⟩ := ih _ _ h
      refine ⟨?_, ?_, ?_⟩
      · rw [h1]; simp; omega
      · rw [h2]; simp
      · simpa using h3

theorem flatten_slices (data : Bytes) (m j : Nat) :
    ((List.range j).map (fun i => slice data (i * m) (m + i * m))).flatten = data.take (j * m) := by
  induction j with
  | zero => simp
  | succ j ih =>
    rw [List.range_succ, List.map_append, List.flatten_append, ih]
    simp only [List.map_cons, List.map_nil, List.flatten_cons, List.flatten_nil, List.append_nil, slice]
    rw [List.drop_take, Nat.add_sub_cancel, Nat.succ_mul, List.take_add]

/-- The pieces of `data` cut every `m` bytes are a fragmentation of it. -/
theorem isFragmentation (data : Bytes) (m room : Nat) (frags : List Bytes) (hm : m % 8 = 0) (hr : m ≤ room)
    (h : dataFrags data m = .ok frags) : IsFragmentation data room (piecesOf 0 frags) := by
  rw [dataFrags] at h
  by_cases h0 : m = 0
  · simp [h0] at h
  rw [if_neg h0] at h
  injection h with h
  have hk : ∀ i, i < (data.length + m - 1) / m → i * m < data.length := by
    intro i hi
    have := (Nat.le_div_iff_mul_le (by omega)).mp hi
    rw [Nat.succ_mul] at this
    omega
  have htake : ∀ i, i ≤ (data.length + m - 1) / m → (frags.take i).flatten = data.take (i * m) := by
    intro i hi
    rw [← h, ← List.map_take, List.take_range, Nat.min_eq_left hi]
    exact flatten_slices data m i
  have hlen : frags.length = (data.length + m - 1) / m := by rw [← h]; simp
  have hget : ∀ i f, frags[i]? = some f → i < frags.length ∧ f = slice data (i * m) (m + i * m) := by
    intro i f hf
    obtain ⟨hi, -⟩ := List.getElem?_eq_some_iff.mp hf
    refine ⟨hi, ?_⟩
    rw [← h] at hf
    rw [List.getElem?_map] at hf
    rw [List.getElem?_range (by omega)] at hf
    simpa using hf.symm
  have hoff : ∀ i f, (piecesOf 0 frags)[i]? = some f → i < frags.length ∧ f.offset = i * m ∧
      f.data = slice data (i * m) (m + i * m) := by
    intro i f hf
    obtain ⟨h1, h2, h3⟩ := piecesOf_get frags 0 i f hf
    obtain ⟨h4, h5⟩ := hget i _ h3
    refine ⟨h4, ?_, h5⟩
    rw [h1, htake i (by omega), List.length_take]
    have := hk i (by omega)
    omega
  have hmem : ∀ f ∈ piecesOf 0 frags, ∃ i, i < frags.length ∧ f.offset = i * m ∧
      f.data = slice data (i * m) (m + i * m) := by
    intro f hf
    obtain ⟨i, hi⟩ := List.mem_iff_getElem?.mp hf
    exact ⟨i, hoff i f hi⟩
  refine ⟨?_, ?_, ?_, ?_, ?_, ?_⟩
  · rw [piecesOf_data]
    have := htake frags.length (by omega)
    rw [List.take_length] at this
    rw [this]
    apply List.take_of_length_le
    rw [hlen]
    have := Nat.lt_div_mul_add (a := data.length + m - 1) (b := m) (by omega)
    omega
  · intro i f hf
    obtain ⟨h1, -, -⟩ := piecesOf_get frags 0 i f hf
    rw [h1, Nat.zero_add, List.map_take, piecesOf_data]
  · intro f hf
    obtain ⟨i, -, h2, -⟩ := hmem f hf
    rw [h2, Nat.mul_mod, hm]; simp
  · intro f hf
    obtain ⟨i, h1, -, h3⟩ := hmem f hf
    intro hn
    have := congrArg List.length (h3.symm.trans hn)
    rw [slice_length] at this
    have := hk i (by omega)
    simp at *
    omega
  · intro f hf
    obtain ⟨i, -, -, h3⟩ := hmem f hf
    rw [h3, slice_length]
    omega
  · intro i f hf
    rw [piecesOf_length]
    exact (piecesOf_get frags 0 i f hf).2.1

theorem mtu_room {x : Nat} (h : x < 65536) : x &&& 0b1111111111111000 = x / 8 * 8 :=
  and_high (n := 16) (k := 3) h (by omega)

/-- What the sending loop returns when no send raises. -/
theorem sendFrags_ok (send : Nat → Bool → Bytes → Py (TxStatus × List Outgoing)) (g : Piece → TxStatus × List Outgoing)
    (off : Nat) (ds : List Bytes) (h : ∀ f ∈ piecesOf off ds, send f.offset f.mf f.data = .ok (g f)) :
    sendFrags send off ds = .ok ((piecesOf off ds).map (fun f => (g f).1), (piecesOf off ds).flatMap (fun f => (g f).2)) := by
  induction ds generalizing off with
  | nil => rfl
  | cons d ds ih =>
    have h1 := h ⟨off, !ds.isEmpty, d⟩ (by simp [piecesOf])
    have h2 := ih (off + d.length) (fun f hf => h f (by simp [piecesOf, hf]))
    simp only [] at h1
    rw [sendFrags, h1, py_ok_bind]
    simp only [h2, py_ok_bind, py_pure, piecesOf, List.map_cons, List.flatMap_cons]

/-- Conversely, what a loop that returned has sent. -/
theorem sendFrags_inv {send : Nat → Bool → Bytes → Py (TxStatus × List Outgoing)} {off : Nat} {ds : List Bytes}
    {sts : List TxStatus} {outs : List Outgoing} (h : sendFrags send off ds = .ok (sts, outs)) :
    ∃ g : Piece → TxStatus × List Outgoing, (∀ f ∈ piecesOf off ds, send f.offset f.mf f.data = .ok ((g f).1, (g f).2)) ∧
      sts = (piecesOf off ds).map (fun f => (g f).1) ∧ outs = (piecesOf off ds).flatMap (fun f => (g f).2) := by
  refine ⟨fun f => match send f.offset f.mf f.data with | .ok r => r | .error _ => (.passedEtherToTxRing, []), ?_⟩
  induction ds generalizing off sts outs with
  | nil => simp [sendFrags] at h; simp [piecesOf, h]
  | cons d ds ih =>
    rw [sendFrags] at h
    cases h1 : send off (!ds.isEmpty) d with
    | error e => rw [h1] at h; simp at h
    | ok r =>
      rw [h1, py_ok_bind] at h
      cases h2 : sendFrags send (off + d.length) ds with
      | error e => rw [h2] at h; simp at h
      | ok r2 =>
        simp only [h2, py_ok_bind, py_pure, Except.ok.injEq, Prod.mk.injEq] at h
        obtain ⟨i1, i2, i3⟩ := ih h2
        refine ⟨?_, ?_, ?_⟩
        · intro f hf
          simp only [piecesOf, List.mem_cons] at hf
          rcases hf with rfl | hf
          · simp [h1]
          · exact i1 f hf
        · rw [← h.1, i2]; simp [piecesOf, h1]
        · rw [← h.2, i3]; simp [piecesOf, h1]

end Verif
