import Verif.Model.Py
/-! Helper lemmas about the Python vocabulary. -/
namespace Verif

@[simp] theorem py_ok_bind {α β : Type} (a : α) (f : α → Py β) : ((Except.ok a : Py α) >>= f) = f a := by
  exact id (Eq.refl _)
@[simp] theorem py_error_bind {α β : Type} (e : PyErr) (f : α → Py β) : ((Except.error e : Py α) >>= f) = .error e := by
  exact id (Eq.refl _)
@[simp] theorem py_pure {α : Type} (a : α) : (pure a : Py α) = .ok a := by
  exact id (Eq.refl _)
@[simp] theorem py_map_ok {α β : Type} (a : α) (f : α → β) : (f <$> (Except.ok a : Py α)) = .ok (f a) := by
  exact id (Eq.refl _)
@[simp] theorem pyAssert_true : pyAssert true = .ok () := rfl
@[simp] theorem pyAssert_false : pyAssert false = .error .assertionError := rfl

theorem idx_ok {b : Bytes} {i : Nat} (h : i < b.length) : idx b i = .ok (b[i].toNat) := by
  simp [idx, h]

theorem idx_eq_ok {b : Bytes} {i n : Nat} : idx b i = .ok n ↔ ∃ h : i < b.length, b[i].toNat = n := by
  unfold idx
  by_cases h : i < b.length
  · simp [h]
  · simp [h]

@[simp] theorem beNat_nil : beNat [] = 0 := rfl

theorem beNat_foldl (b : Bytes) (a : Nat) :
    b.foldl (fun acc x => acc * 256 + x.toNat) a = a * 256 ^ b.length + beNat b := by
  induction b generalizing a with
  | nil => simp
  | cons x xs ih =>
    simp only [List.foldl_cons, beNat, List.length_cons]
    rw [ih, ih (0 * 256 + x.toNat)]
    grind

@[simp] theorem beNat_cons (x : UInt8) (xs : Bytes) :
    beNat (x :: xs) = x.toNat * 256 ^ xs.length + beNat xs := by
  rw [beNat, List.foldl_cons, beNat_foldl]; simp

theorem beNat_append (a b : Bytes) : beNat (a ++ b) = beNat a * 256 ^ b.length + beNat b := by
  rw [beNat, List.foldl_append, beNat_foldl]; rfl

theorem beNat_lt (b : Bytes) : beNat b < 256 ^ b.length := by
  induction b with
  | nil => simp
  | cons x xs ih =>
    have hx := x.toNat_lt
    simp only [beNat_cons, List.length_cons, Nat.pow_succ]
    have : x.toNat * 256 ^ xs.length ≤ 255 * 256 ^ xs.length := Nat.mul_le_mul_right _ (by omega)
    omega

@[simp] theorem bePack_length (k n : Nat) : (bePack k n).length = k := by
  induction k generalizing n with
  | zero => rfl
  | succ k ih => simp [bePack, ih]

theorem beNat_bePack (k n : Nat) : beNat (bePack k n) = n % 256 ^ k := by
  induction k generalizing n with
  | zero => simp [bePack, Nat.mod_one]
  | succ k ih =>
    rw [bePack, beNat_append, ih]
    simp only [List.length_cons, List.length_nil, beNat_cons, beNat_nil, Nat.pow_zero, Nat.mul_one,
      Nat.add_zero, UInt8.toNat_ofNat', Nat.zero_add, Nat.pow_one]
    rw [show 256 ^ (k + 1) = 256 * 256 ^ k by grind, Nat.mod_mul]
    grind

theorem beNat_bePack_of_lt {k n : Nat} (h : n < 256 ^ k) : beNat (bePack k n) = n := by
  rw [beNat_bePack, Nat.mod_eq_of_lt h]

theorem bePack_beNat (b : Bytes) : bePack b.length (beNat b) = b := by
  suffices ∀ (k : Nat) (b : Bytes), b.length = k → bePack k (beNat b) = b from this _ _ rfl
  intro k
  induction k with
  | zero => intro b hb; simp [bePack, List.length_eq_zero_iff.mp hb]
  | succ k ih =>
    intro b hb
    have hne : b ≠ [] := by intro h; simp [h] at hb
    obtain ⟨xs, x, rfl⟩ : ∃ xs x, b = xs ++ [x] := ⟨b.dropLast, b.getLast hne, (List.dropLast_concat_getLast hne).symm⟩
    simp only [List.length_append, List.length_cons, List.length_nil, Nat.zero_add, Nat.add_right_cancel_iff] at hb
    have hx := x.toNat_lt
    rw [bePack, beNat_append]
    simp only [List.length_cons, List.length_nil, beNat_cons, beNat_nil, Nat.pow_zero, Nat.mul_one,
      Nat.add_zero, Nat.zero_add, Nat.pow_one]
    rw [show (beNat xs * 256 + x.toNat) / 256 = beNat xs by omega, ih xs hb]
    congr 2
    apply UInt8.toNat_inj.mp
    simp only [UInt8.toNat_ofNat']
    omega

theorem bePack_inj {k a b : Nat} (ha : a < 256 ^ k) (hb : b < 256 ^ k) (h : bePack k a = bePack k b) : a = b := by
  have := congrArg beNat h
  rwa [beNat_bePack_of_lt ha, beNat_bePack_of_lt hb] at this

@[simp] theorem slice_length (b : Bytes) (i j : Nat) : (slice b i j).length = min j b.length - i := by
  simp [slice]

end Verif
