import Verif.Spec.WireTx
import Verif.Lemmas.Wire
/-! The checksums that the assemblers write. -/
namespace Verif
open Spec

theorem sum16_pack (a b : Bytes) (ha : a.length % 2 = 0) {c : Nat} (hc : c < 65536) : sum16 (a ++ bePack 2 c ++ b) = sum16 a + c + sum16 b := by
  rw [sum16_append _ _ (by simp; omega), sum16_append _ _ ha]
  simp only [sum16, bePack, List.nil_append, List.cons_append, words16, UInt8.toNat_ofNat', List.sum_cons, List.sum_nil]
  omega

theorem valid_sum16 (b : Bytes) : Valid b ↔ sum16 b % 65535 = 0 ∧ sum16 b ≠ 0 := by
  have h := ocSum_spec b
  unfold Valid
  omega

/-- What the routine computes for a block with a zero field, stored there. -/
theorem nearly_stored {ph : Bytes} {k n : Nat} (hk : k % 2 = 0) (hph : ph.length = k * n) (hi : wordSum k n ph < 2 ^ 72) {a b : Bytes}
    (ha : a.length % 2 = 0) (hl : (a ++ bePack 2 0 ++ b).length < 2 ^ 63) :
    NearlyValid ph (a ++ bePack 2 (inetCksum (a ++ bePack 2 0 ++ b) (wordSum k n ph)) ++ b) a.length := by
  have hp2 : ph.length % 2 = 0 := by rw [hph, Nat.mul_mod, hk]; simp
  obtain ⟨w1, w2, -⟩ := wordSum_spec k hk n ph (by omega)
  rw [List.take_of_length_le (by omega)] at w1 w2
  have e0 := sum16_pack a b ha (c := 0) (by omega)
  generalize hD : a ++ bePack 2 0 ++ b = D at *
  have h1 := cksumAcc_spec D (wordSum k n ph)
  have h2 := cksumAcc_lt D (wordSum k n ph) hl hi
  have h3 := folds_spec (cksumAcc D (wordSum k n ph))
  have h4 := folds_lt _ h2
  obtain ⟨s, s1, s2, s3, s4⟩ := last_fold _ h4
  have h5 : inetCksum D (wordSum k n ph) = 65535 - s % 65536 := by rw [inetCksum_eq, s4]
  have hlt : inetCksum D (wordSum k n ph) < 65536 := by omega
  generalize hc : inetCksum D (wordSum k n ph) = c at *
  by_cases hs : s < 65536
  · left
    rw [valid_sum16, sum16_append _ _ hp2, sum16_pack a b ha hlt]
    omega
  · right
    refine ⟨c - 1, by omega, ?_, ?_⟩
    · rw [List.append_assoc, List.drop_left, show c - 1 + 1 = c by omega, List.take_left' (by simp)]
    · have t1 : (a ++ bePack 2 c ++ b).take a.length = a := by rw [List.append_assoc, List.take_left]
      have t2 : (a ++ bePack 2 c ++ b).drop (a.length + 2) = b := List.drop_left' (by simp)
      rw [t1, t2, valid_sum16, sum16_append _ _ hp2, sum16_pack a b ha (c := c - 1) (by omega)]
      omega

/-- `ps` is the sum of the pseudo-header `ph`, taken in words of an even number of bytes. -/
def Under (ps : Nat) (ph : Bytes) : Prop := ∃ k n, k % 2 = 0 ∧ ph.length = k * n ∧ ps = wordSum k n ph ∧ ps < 2 ^ 72

theorem under_nil : Under 0 [] := ⟨2, 0, rfl, rfl, rfl, by decide⟩

theorem under4 {src dst : Ip4Address} {proto len ps : Nat} (hp : proto < 256) (hd : len < 65536) (h : Ip4.pshdrSum src dst proto len = .ok ps) :
    Under ps (pseudoHdr4 src dst proto len) := by
  obtain ⟨h1, h2⟩ := Ip4.pshdrSum_eq src dst hp hd
  rw [h1] at h
  cases h
  have hb := wordSum_bound 4 3 (pseudoHdr4 src dst proto len)
  have : 3 * 256 ^ 4 < 2 ^ 72 := by decide
  exact ⟨4, 3, rfl, h2, rfl, by omega⟩

theorem under6 {src dst : Ip6Address} {next len ps : Nat} (hp : next < 256) (hd : len < 65536) (h : Ip6.pshdrSum src dst len next = .ok ps) :
    Under ps (pseudoHdr6 src dst next len) := by
  obtain ⟨h1, h2⟩ := Ip6.pshdrSum_eq src dst hp hd
  have h := Except.ok.inj (h1.symm.trans h)
  subst h
  have hb := wordSum_bound 8 5 (pseudoHdr6 src dst next len)
  have : 5 * 256 ^ 8 < 2 ^ 72 := by decide
  exact ⟨8, 5, rfl, h2, rfl, by omega⟩

theorem nearly_packed {f q ph : Bytes} {i ps : Nat} (h : packIntoH f i (inetCksum f ps) = .ok q) (hi : i % 2 = 0) (hz : (f.drop i).take 2 = bePack 2 0)
    (hu : Under ps ph) (hl : f.length < 2 ^ 63) : q.length = f.length ∧ NearlyValid ph q i := by
  obtain ⟨k, n, u1, u2, u3, u4⟩ := hu
  have hi2 : i + 2 ≤ f.length := by
    have := congrArg List.length hz
    simp at this
    omega
  rw [packIntoH_ok (inetCksum_lt _ _) hi2] at h
  cases h
  have hf : f = f.take i ++ bePack 2 0 ++ f.drop (i + 2) := by
    rw [← hz, List.append_assoc, ← List.drop_drop, List.take_append_drop, List.take_append_drop]
  have := nearly_stored (ph := ph) (k := k) (n := n) u1 u2 (by omega) (a := f.take i) (b := f.drop (i + 2)) (by simp; omega) (by rw [← hf]; exact hl)
  rw [← hf, ← u3] at this
  rw [show (f.take i).length = i by simp; omega] at this
  exact ⟨by simp; omega, this⟩

theorem drop_take {a b c : Bytes} {i : Nat} (h : a.length = i) (hb : b.length = 2) : ((a ++ b ++ c).drop i).take 2 = b := by
  rw [List.append_assoc, List.drop_left' h, List.take_left' hb]

theorem py_bind_ok {α β : Type} {x : Py α} {f : α → Py β} {b : β} (h : (x >>= f) = .ok b) : ∃ a, x = .ok a ∧ f a = .ok b := by
  cases x with
  | error e => simp at h
  | ok a => exact ⟨a, rfl, by simpa using h⟩

theorem packB_length {n : Nat} {b : Bytes} (h : packB n = .ok b) : b.length = 1 := by
  rw [packB] at h; split at h <;> cases h; simp
theorem packH_length {n : Nat} {b : Bytes} (h : packH n = .ok b) : b.length = 2 := by
  rw [packH] at h; split at h <;> cases h; simp
theorem packL_length {n : Nat} {b : Bytes} (h : packL n = .ok b) : b.length = 4 := by
  rw [packL] at h; split at h <;> cases h; simp
theorem packH_zero {b : Bytes} (h : packH 0 = .ok b) : b = bePack 2 0 := by
  rw [packH_ok (by omega)] at h; cases h; rfl

theorem packInto_length {f q : Bytes} {i n : Nat} (h : packIntoH f i n = .ok q) : q.length = f.length := by
  rw [packIntoH] at h
  obtain ⟨a, h1, h⟩ := py_bind_ok h
  split at h <;> cases h
  have := packH_length h1
  simp; omega

theorem Icmp4.nearly {m : Icmp4.Msg} {q : Bytes} (h : Icmp4.assemble m = .ok q) (hl : q.length < 2 ^ 63) : NearlyValid [] q 2 := by
  have echo : ∀ {t id seq : Nat} {data : Bytes}, Icmp4.assembleEcho t id seq data = .ok q → NearlyValid [] q 2 := by
    intro t id seq data h
    rw [assembleEcho] at h
    obtain ⟨-, -, h⟩ := py_bind_ok h
    obtain ⟨-, -, h⟩ := py_bind_ok h
    obtain ⟨b1, h1, h⟩ := py_bind_ok h
    obtain ⟨b2, h2, h⟩ := py_bind_ok h
    obtain ⟨b3, h3, h⟩ := py_bind_ok h
    obtain ⟨b4, h4, h⟩ := py_bind_ok h
    obtain ⟨b5, h5, h⟩ := py_bind_ok h
    refine (nearly_packed h rfl ?_ under_nil (by rw [← packInto_length h]; exact hl)).2
    rw [packH_zero h3, show b1 ++ b2 ++ bePack 2 0 ++ b4 ++ b5 ++ data = b1 ++ b2 ++ bePack 2 0 ++ (b4 ++ b5 ++ data) by simp]
    exact drop_take (by simp [packB_length h1, packB_length h2]) rfl
  cases m with
  | echoReply id seq data => exact echo h
  | echoRequest id seq data => exact echo h
  | portUnreachable data =>
    rw [assemble] at h
    obtain ⟨b1, h1, h⟩ := py_bind_ok h
    obtain ⟨b2, h2, h⟩ := py_bind_ok h
    obtain ⟨b3, h3, h⟩ := py_bind_ok h
    obtain ⟨b4, h4, h⟩ := py_bind_ok h
    refine (nearly_packed h rfl ?_ under_nil (by rw [← packInto_length h]; exact hl)).2
    rw [packH_zero h3, show b1 ++ b2 ++ bePack 2 0 ++ b4 ++ data.take 520 = b1 ++ b2 ++ bePack 2 0 ++ (b4 ++ data.take 520) by simp]
    exact drop_take (by simp [packB_length h1, packB_length h2]) rfl

theorem Icmp6.nearly {m : Icmp6.Msg} {ps : Nat} {q ph : Bytes} (h : Icmp6.assemble m ps = .ok q) (hu : Under ps ph) (hl : q.length < 2 ^ 63) :
    NearlyValid ph q 2 := by
  rw [assemble] at h
  obtain ⟨b, -, h⟩ := py_bind_ok h
  obtain ⟨st, h1, h⟩ := py_bind_ok h
  rw [start] at h1
  obtain ⟨b1, h2, h1⟩ := py_bind_ok h1
  obtain ⟨b2, h3, h1⟩ := py_bind_ok h1
  obtain ⟨b3, h4, h1⟩ := py_bind_ok h1
  cases h1
  rw [finish] at h
  refine (nearly_packed h rfl ?_ hu (by rw [← packInto_length h]; exact hl)).2
  rw [packH_zero h4]
  exact drop_take (by simp [packB_length h2, packB_length h3]) rfl

theorem Udp.nearly {sport dport ps : Nat} {data q ph : Bytes} (h : Udp.assemble sport dport data ps = .ok q) (hu : Under ps ph)
    (hl : q.length < 2 ^ 63) : NearlyValid ph q 6 := by
  rw [assemble] at h
  obtain ⟨-, -, h⟩ := py_bind_ok h
  obtain ⟨-, -, h⟩ := py_bind_ok h
  obtain ⟨b1, h1, h⟩ := py_bind_ok h
  obtain ⟨b2, h2, h⟩ := py_bind_ok h
  obtain ⟨b3, h3, h⟩ := py_bind_ok h
  obtain ⟨b4, h4, h⟩ := py_bind_ok h
  refine (nearly_packed h rfl ?_ hu (by rw [← packInto_length h]; exact hl)).2
  rw [packH_zero h4]
  exact drop_take (by simp [packH_length h1, packH_length h2, packH_length h3]) rfl

theorem Tcp.nearly {x : Tcp.Tx} {ps : Nat} {q ph : Bytes} (h : Tcp.assemble x ps = .ok q) (hu : Under ps ph) (hl : q.length < 2 ^ 63) :
    NearlyValid ph q 16 := by
  rw [assemble] at h
  obtain ⟨opts, -, h⟩ := py_bind_ok h
  iterate 7 obtain ⟨-, -, h⟩ := py_bind_ok h
  obtain ⟨b1, h1, h⟩ := py_bind_ok h
  obtain ⟨b2, h2, h⟩ := py_bind_ok h
  obtain ⟨b3, h3, h⟩ := py_bind_ok h
  obtain ⟨b4, h4, h⟩ := py_bind_ok h
  obtain ⟨b5, h5, h⟩ := py_bind_ok h
  obtain ⟨b6, h6, h⟩ := py_bind_ok h
  obtain ⟨b7, h7, h⟩ := py_bind_ok h
  obtain ⟨b8, h8, h⟩ := py_bind_ok h
  obtain ⟨b9, h9, h⟩ := py_bind_ok h
  refine (nearly_packed h rfl ?_ hu (by rw [← packInto_length h]; exact hl)).2
  rw [packH_zero h8, show b1 ++ b2 ++ b3 ++ b4 ++ b5 ++ b6 ++ b7 ++ bePack 2 0 ++ b9 ++ opts ++ x.data =
    b1 ++ b2 ++ b3 ++ b4 ++ b5 ++ b6 ++ b7 ++ bePack 2 0 ++ (b9 ++ opts ++ x.data) by simp]
  exact drop_take (by simp [packH_length h1, packH_length h2, packL_length h3, packL_length h4, packB_length h5, packB_length h6,
    packH_length h7]) rfl

end Verif
