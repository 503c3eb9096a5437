import Verif.Lemmas.Echo
import Verif.Props.Fragment
/-! Sending a datagram of any size: no exception, up to the largest size there is, and one beyond. -/
namespace Verif
open Spec

namespace Host

theorem frags_ok {send : Host → Nat → Bool → Bytes → Res} {P : Host → Prop} {Q : Bytes → Prop}
    (hs : ∀ h o mf d, P h → Q d → P (send h o mf d).1 ∧ ∃ x, (send h o mf d).2 = .ok x) (ds : List Bytes) :
    ∀ (h : Host) (o : Nat), P h → (∀ d ∈ ds, Q d) → ∃ x, (frags send h o ds).2 = .ok x := by
  induction ds with
  | nil => intro h o _ _; exact ⟨_, rfl⟩
  | cons d ds ih =>
    intro h o hP hQ
    obtain ⟨p1, x, e⟩ := hs h o (!ds.isEmpty) d hP (hQ d (by simp))
    rw [frags]
    revert p1 e
    generalize send h o (!ds.isEmpty) d = r
    obtain ⟨h', r⟩ := r
    intro p1 e
    dsimp only at e p1
    subst e
    obtain ⟨st, out⟩ := x
    dsimp only
    obtain ⟨y, e'⟩ := ih h' (o + d.length) p1 (fun d' hd => hQ d' (by simp [hd]))
    revert e'
    generalize frags send h' (o + d.length) ds = r
    obtain ⟨h'', r⟩ := r
    intro e'
    dsimp only at e'
    subst e'
    obtain ⟨a, b⟩ := y
    exact ⟨_, rfl⟩

theorem dataFrags_each {data : Bytes} {m : Nat} {ds : List Bytes} (h : dataFrags data m = .ok ds) : ∀ d ∈ ds, d.length ≤ m := by
  rw [dataFrags] at h
  split at h
  · cases h
  · cases h
    intro d hd
    obtain ⟨i, -, rfl⟩ := List.mem_map.1 hd
    rw [slice_length]
    omega

theorem ip4_big (h : Host) (src dst : Ip4Address) {ttl : Nat} {c : L4} (ht : 0 < ttl ∧ ttl < 256)
    (hp : c.proto = 1 ∨ c.proto = 17 ∨ c.proto = 6 ∨ c.proto = 255) (hm : 28 ≤ h.stack.mtu ∧ h.stack.mtu < 65536) (hl : c.len < 65536)
    (ha : ∀ ps, ∃ q, c.assemble ps = .ok q) (hid : h.stack.ip4Id < 65535) : ∃ x, (h.ip4 src dst ttl c).2 = .ok x := by
  by_cases hf : 20 + c.len ≤ h.stack.mtu
  · exact ip4_ok h src dst ht hp hf
  cases hv : validateSrcIp4 h.stack src dst c.kind with
  | error e => exact ⟨_, by rw [ip4, if_neg (not_not.2 ht), hv]⟩
  | ok a =>
    rw [ip4, if_neg (not_not.2 ht), hv]
    dsimp only
    cases hd : validateDstIp4 dst with
    | error e => exact ⟨_, rfl⟩
    | ok d =>
      have h20 : (packetTx a d ttl c.proto).hlen = 20 := rfl
      have hr : (h.stack.mtu - 20) &&& 0b1111111111111000 = (h.stack.mtu - 20) / 8 * 8 := mtu_room (by omega)
      obtain ⟨ps, hps⟩ : ∃ ps, Ip4.pshdrSum a d c.proto c.len = .ok ps := ⟨_, Ip4.pshdr_ok a d c.proto c.len (by omega) hl⟩
      obtain ⟨q, hq⟩ := ha ps
      obtain ⟨ds, hds⟩ : ∃ ds, dataFrags q ((h.stack.mtu - 20) / 8 * 8) = .ok ds := by
        rw [dataFrags, if_neg (by omega)]; exact ⟨_, rfl⟩
      dsimp only
      rw [packetTx_asserts a d ttl c.proto ht.2 hp, h20]
      dsimp only
      rw [if_neg hf, hps, py_ok_bind, hq, py_ok_bind, hr, hds]
      dsimp only
      obtain ⟨⟨x, y⟩, e⟩ := frags_ok (P := fun _ => True) (Q := fun _ => True)
        (send := frag4 a d ttl c.proto (h.withStack { h.stack with ip4Id := h.stack.ip4Id + 1 }).stack.ip4Id) (fun h' o mf b _ _ => by
          refine ⟨trivial, ?_⟩
          rw [frag4]
          dsimp only
          rw [fragTx_asserts a d ttl _ c.proto o mf ht.2 hp, if_pos (show (h.withStack { h.stack with ip4Id := h.stack.ip4Id + 1 }).stack.ip4Id ≤ 65535 from hid)]
          exact link4_ok h' _ _ rfl) ds (h.withStack { h.stack with ip4Id := h.stack.ip4Id + 1 }) 0 trivial (fun _ _ => trivial)
      revert e
      generalize frags (frag4 a d ttl c.proto (h.withStack { h.stack with ip4Id := h.stack.ip4Id + 1 }).stack.ip4Id) (h.withStack { h.stack with ip4Id := h.stack.ip4Id + 1 }) 0 ds = r
      obtain ⟨h'', r⟩ := r
      intro e
      dsimp only at e
      subst e
      exact ⟨_, rfl⟩

theorem frag6_ok (h : Host) (src dst : Ip6Address) {next : Nat} (id o : Nat) (mf : Bool) {d : Bytes}
    (hn : next = 58 ∨ next = 17 ∨ next = 6 ∨ next = 255) (hm : 72 ≤ h.stack.mtu) (hd : 48 + d.length ≤ h.stack.mtu) :
    ∃ x, (frag6 src dst next id h o mf d).2 = .ok x := by
  have hf : 40 + ({ Ip6Frag.carried next o mf id d with kind := .other } : L4).len ≤ h.stack.mtu := by
    simp only [Ip6Frag.carried]; omega
  rw [frag6, if_neg (by omega), ip6Small, if_neg (by omega)]
  cases validateSrcIp6 h.stack src dst ({ Ip6Frag.carried next o mf id d with kind := .other } : L4).kind with
  | error e => exact ⟨_, rfl⟩
  | ok a =>
    dsimp only
    cases validateDstIp6 dst with
    | error e => exact ⟨_, rfl⟩
    | ok b =>
      dsimp only
      rw [show (Ip6Frag.carried next o mf id d).proto = 44 from rfl, packetTx6_asserts a b 64 44 (by omega) (by omega)]
      dsimp only
      rw [if_pos hf]
      obtain ⟨x, e⟩ := link6_ok h (.ip6 (packetTx6 a b 64) (Ip6Frag.carried next o mf id d)) _ rfl hm
      revert e
      generalize h.link (.ip6 (packetTx6 a b 64) (Ip6Frag.carried next o mf id d)) = r
      obtain ⟨h', r⟩ := r
      intro e
      dsimp only at e
      subst e
      exact ⟨_, rfl⟩

theorem ip6_big (h : Host) (src dst : Ip6Address) {hop : Nat} {c : L4} (ht : 0 < hop ∧ hop < 256)
    (hp : c.proto = 58 ∨ c.proto = 17 ∨ c.proto = 6 ∨ c.proto = 255) (hm : 72 ≤ h.stack.mtu ∧ h.stack.mtu < 65536) (hl : c.len < 65536)
    (ha : ∀ ps, ∃ q, c.assemble ps = .ok q) : ∃ x, (h.ip6 src dst hop c).2 = .ok x := by
  by_cases hf : 40 + c.len ≤ h.stack.mtu
  · exact ip6_ok h src dst ht (by omega) hm.1 hf
  cases hv : validateSrcIp6 h.stack src dst c.kind with
  | error e => exact ⟨_, by rw [ip6, ip6Small, if_neg (not_not.2 ht), hv]⟩
  | ok a =>
    cases hd : validateDstIp6 dst with
    | error e => exact ⟨_, by rw [ip6, ip6Small, if_neg (not_not.2 ht), hv, hd]⟩
    | ok d =>
      have hs : h.ip6Small src dst hop c = (h, .ok (.inr (a, d))) := by
        rw [ip6Small, if_neg (not_not.2 ht), hv, hd]
        dsimp only
        rw [packetTx6_asserts a d hop c.proto ht.2 (by omega)]
        dsimp only
        rw [if_neg hf]
      have hr : (h.stack.mtu - 40 - 8) &&& 0b1111111111111000 = (h.stack.mtu - 48) / 8 * 8 := mtu_room (by omega)
      obtain ⟨ps, hps⟩ : ∃ ps, Ip6.pshdrSum a d c.len c.proto = .ok ps := ⟨_, Ip6.pshdr_ok a d c.len c.proto (by omega) (by omega)⟩
      obtain ⟨q, hq⟩ := ha ps
      obtain ⟨ds, hds⟩ : ∃ ds, dataFrags q ((h.stack.mtu - 48) / 8 * 8) = .ok ds := by
        rw [dataFrags, if_neg (by omega)]; exact ⟨_, rfl⟩
      rw [ip6, hs]
      dsimp only
      rw [hps, py_ok_bind, hq, py_ok_bind, hr, hds]
      dsimp only
      obtain ⟨⟨x, y⟩, e⟩ := frags_ok (P := fun z => z.stack = (h.withStack { h.stack with ip6Id := h.stack.ip6Id + 1 }).stack)
        (Q := fun b => b.length ≤ (h.stack.mtu - 48) / 8 * 8)
        (send := frag6 a d c.proto (h.withStack { h.stack with ip6Id := h.stack.ip6Id + 1 }).stack.ip6Id) (fun h' o mf b x1 x2 => by
          have em : h'.stack.mtu = h.stack.mtu := by rw [x1]; rfl
          refine ⟨?_, frag6_ok h' a d _ o mf hp (by omega) (by omega)⟩
          rw [Host.stack, frag6_node]
          exact x1) ds (h.withStack { h.stack with ip6Id := h.stack.ip6Id + 1 }) 0 rfl (dataFrags_each hds)
      revert e
      generalize frags (frag6 a d c.proto (h.withStack { h.stack with ip6Id := h.stack.ip6Id + 1 }).stack.ip6Id) (h.withStack { h.stack with ip6Id := h.stack.ip6Id + 1 }) 0 ds = r
      obtain ⟨h'', r⟩ := r
      intro e
      dsimp only at e
      subst e
      exact ⟨_, rfl⟩

/-- No exception, for any datagram that there is. -/
theorem udp_big (h : Host) (lip rip : IpAddress) {lport rport : Nat} {data : Bytes} (hl : lport < 65536) (hr : rport < 65536)
    (hm : 72 ≤ h.stack.mtu ∧ h.stack.mtu < 65536) (hd : data.length < 65528) (hid : h.stack.ip4Id < 65535) :
    ∃ x, (h.udp lip rip lport rport data).2 = .ok x := by
  have ha : ∀ ps, ∃ q, (Udp.carried lport rport data).assemble ps = .ok q := by
    intro ps
    obtain ⟨q, h1, -⟩ := Udp.bytes hl hr (show 8 + data.length < 65536 by omega) ps
    exact ⟨q, h1⟩
  have hlen : (Udp.carried lport rport data).len < 65536 := by simp only [Udp.carried]; omega
  rw [udp, if_neg (not_not.2 ⟨by omega, by omega⟩)]
  cases lip <;> cases rip
  · exact ip4_big h _ _ (by omega) (.inr (.inl rfl)) ⟨by omega, hm.2⟩ hlen ha hid
  · exact ⟨_, rfl⟩
  · exact ⟨_, rfl⟩
  · exact ip6_big h _ _ (by omega) (.inr (.inl rfl)) hm hlen ha

theorem udp4_big (h : Host) (src dst : Ip4Address) {lport rport : Nat} {data : Bytes} (hl : lport < 65536) (hr : rport < 65536)
    (hd : 28 + data.length ≤ h.stack.mtu ∨ (data.length < 65528 ∧ (28 ≤ h.stack.mtu ∧ h.stack.mtu < 65536) ∧ h.stack.ip4Id < 65535)) :
    ∃ x, (h.udp (.v4 src) (.v4 dst) lport rport data).2 = .ok x := by
  rcases hd with hd | ⟨hd, hm, hid⟩
  · exact h.udp4_ok src dst hl hr hd
  rw [udp, if_neg (not_not.2 ⟨by omega, by omega⟩)]
  refine ip4_big h _ _ (by omega) (.inr (.inl rfl)) hm (by simp only [Udp.carried]; omega) (fun ps => ?_) hid
  obtain ⟨q, h1, -⟩ := Udp.bytes hl hr (show 8 + data.length < 65536 by omega) ps
  exact ⟨q, h1⟩

theorem udp6_big (h : Host) (src dst : Ip6Address) {lport rport : Nat} {data : Bytes} (hl : lport < 65536) (hr : rport < 65536)
    (hd : data.length < 65528) (hm : 72 ≤ h.stack.mtu ∧ h.stack.mtu < 65536) : ∃ x, (h.udp (.v6 src) (.v6 dst) lport rport data).2 = .ok x := by
  rw [udp, if_neg (not_not.2 ⟨by omega, by omega⟩)]
  refine ip6_big h _ _ (by omega) (.inr (.inl rfl)) hm (by simp only [Udp.carried]; omega) (fun ps => ?_)
  obtain ⟨q, h1, -⟩ := Udp.bytes hl hr (show 8 + data.length < 65536 by omega) ps
  exact ⟨q, h1⟩

/-- When the identifications have run out, whatever needs fragments raises `AssertionError`. -/
theorem udp4_exhausted (h : Host) {src dst a : Ip4Address} {lport rport : Nat} {data : Bytes} (hl : lport < 65536) (hr : rport < 65536)
    (hm : 28 ≤ h.stack.mtu ∧ h.stack.mtu < 65536) (hd : h.stack.mtu < 28 + data.length ∧ data.length < 65528) (hid : 65535 ≤ h.stack.ip4Id)
    (hv : validateSrcIp4 h.stack src dst (.udp lport rport) = .ok a) (h0 : dst.int ≠ 0) :
    (h.udp (.v4 src) (.v4 dst) lport rport data).2 = .error .assertionError := by
  have hz : validateDstIp4 dst = .ok dst := by
    have : dst.isUnspecified = false := by rw [Ip4Address.isUnspecified, beq_eq_false_iff_ne]; exact h0
    rw [validateDstIp4, this]; rfl
  obtain ⟨q, hq, hql, -⟩ := Udp.bytes hl hr (show 8 + data.length < 65536 by omega)
    (wordSum 4 3 (a.toBytes ++ dst.toBytes ++ [0] ++ bePack 1 17 ++ bePack 2 (8 + data.length)))
  have hr' : (h.stack.mtu - 20) &&& 0b1111111111111000 = (h.stack.mtu - 20) / 8 * 8 := mtu_room (by omega)
  obtain ⟨ds, hds⟩ : ∃ ds, dataFrags q ((h.stack.mtu - 20) / 8 * 8) = .ok ds := by
    rw [dataFrags, if_neg (by omega)]; exact ⟨_, rfl⟩
  have hne : ds ≠ [] := by
    have := (isFragmentation q _ (h.stack.mtu - 20) ds (by omega) (by omega) hds).ne_nil (by rintro rfl; simp at hql; omega)
    rintro rfl
    exact this rfl
  have hps : Ip4.pshdrSum a dst (Udp.carried lport rport data).proto (8 + data.length) = _ := Ip4.pshdr_ok a dst 17 (8 + data.length) (by omega) (by omega)
  have hlen : (Udp.carried lport rport data).len = 8 + data.length := rfl
  have h20 : (packetTx a dst 64 (Udp.carried lport rport data).proto).hlen = 20 := rfl
  have has : (Udp.carried lport rport data).assemble = Udp.assemble lport rport data := rfl
  rw [udp, if_neg (not_not.2 ⟨by omega, by omega⟩)]
  dsimp only
  rw [ip4, if_neg (by omega)]
  dsimp only
  rw [hv, hz]
  dsimp only
  rw [packetTx_asserts a dst 64 (Udp.carried lport rport data).proto (by omega) (.inr (.inl rfl))]
  dsimp only
  rw [h20, hlen, if_neg (by omega), hps, py_ok_bind, has, hq, py_ok_bind, hr', hds]
  dsimp only
  cases ds with
  | nil => exact absurd rfl hne
  | cons d ds =>
    rw [frags, frag4, fragTx_asserts a dst 64 _ (Udp.carried lport rport data).proto 0 _ (by omega) (.inr (.inl rfl)),
      if_neg (show ¬ (h.withStack { h.stack with ip4Id := h.stack.ip4Id + 1 }).stack.ip4Id ≤ 65535 from by show ¬ h.stack.ip4Id + 1 ≤ 65535; omega)]

theorem packH_long {n : Nat} (h : 65536 ≤ n) : packH n = .error .structError := by
  rw [packH]; simp; omega

/-- Any longer one raises `struct.error`, if the host would send it at all. -/
theorem udp4_long (h : Host) {src dst a : Ip4Address} {lport rport : Nat} {data : Bytes} (hl : lport < 65536) (hr : rport < 65536)
    (hm : h.stack.mtu < 65536) (hd : 65528 ≤ data.length) (hv : validateSrcIp4 h.stack src dst (.udp lport rport) = .ok a) (h0 : dst.int ≠ 0) :
    h.udp (.v4 src) (.v4 dst) lport rport data = (h, .error .structError) := by
  have hz : validateDstIp4 dst = .ok dst := by
    have : dst.isUnspecified = false := by rw [Ip4Address.isUnspecified, beq_eq_false_iff_ne]; exact h0
    rw [validateDstIp4, this]; rfl
  rw [udp, if_neg (not_not.2 ⟨by omega, by omega⟩)]
  dsimp only
  rw [ip4, if_neg (by omega)]
  dsimp only
  rw [hv, hz]
  dsimp only
  rw [packetTx_asserts a dst 64 (Udp.carried lport rport data).proto (by omega) (.inr (.inl rfl))]
  dsimp only
  have hlen : (Udp.carried lport rport data).len = 8 + data.length := rfl
  have h20 : (packetTx a dst 64 (Udp.carried lport rport data).proto).hlen = 20 := rfl
  have : Ip4.pshdrSum a dst (Udp.carried lport rport data).proto (8 + data.length) = .error .structError := by
    rw [Ip4.pshdrSum, packH_long (by omega)]
    rfl
  rw [h20, hlen, if_neg (by omega), this]
  rfl

theorem udp6_long (h : Host) {src dst a : Ip6Address} {lport rport : Nat} {data : Bytes} (hl : lport < 65536) (hr : rport < 65536)
    (hm : h.stack.mtu < 65536) (hd : 65528 ≤ data.length) (hd' : 8 + data.length < 2 ^ 32)
    (hv : validateSrcIp6 h.stack src dst (.udp lport rport) = .ok a) (h0 : dst.int ≠ 0) :
    h.udp (.v6 src) (.v6 dst) lport rport data = (h, .error .structError) := by
  have hz : validateDstIp6 dst = .ok dst := by
    have : dst.isUnspecified = false := by rw [Ip6Address.isUnspecified, beq_eq_false_iff_ne]; exact h0
    rw [validateDstIp6, this]; rfl
  have hlen : (Udp.carried lport rport data).len = 8 + data.length := rfl
  rw [udp, if_neg (not_not.2 ⟨by omega, by omega⟩)]
  dsimp only
  have hs : h.ip6Small src dst 64 { Udp.carried lport rport data with kind := .udp lport rport } = (h, .ok (.inr (a, dst))) := by
    rw [ip6Small, if_neg (by omega)]
    dsimp only
    rw [hv, hz]
    dsimp only
    rw [packetTx6_asserts a dst 64 (Udp.carried lport rport data).proto (by omega) (.inr (.inl rfl))]
    dsimp only
    rw [hlen, if_neg (by omega)]
  rw [ip6, hs]
  dsimp only
  have : ∀ ps, (Udp.carried lport rport data).assemble ps = .error .structError := by
    intro ps
    show Udp.assemble lport rport data ps = _
    rw [Udp.assemble]
    dsimp only
    rw [packH_long (n := 8 + data.length) (by omega), packH_ok hl, packH_ok hr,
      show decide (lport ≤ 65535) = true by simp; omega, show decide (rport ≤ 65535) = true by simp; omega]
    rfl
  rw [hlen, Ip6.pshdr_ok a dst (8 + data.length) (Udp.carried lport rport data).proto hd' (show (17 : Nat) < 256 by omega), py_ok_bind, this]
  rfl

end Host
end Verif
