import Verif.Spec.Addrs
import Verif.Props.Addr
import Mathlib.Data.List.Induction
/-! Lemmas about the addresses of the stack. -/
namespace Verif.Addrs
open Spec

theorem solicited_eq (a : Ip6Address) : a.solicitedNodeMulticast = .ok (solicitedNode a) := by
  obtain ⟨g, h1, h2, -⟩ := C13_solicited_node a
  rw [h1]
  congr 1
  exact Ip6Address.ext' (by rw [h2]; rfl)

theorem solicited_multicast (a : Ip6Address) : (solicitedNode a).isMulticast = true := by
  obtain ⟨g, h1, -, -, h4, -⟩ := C13_solicited_node a
  rw [solicited_eq] at h1
  cases h1; exact h4

theorem mac_eq {g : Ip6Address} (h : g.isMulticast = true) : g.multicastMac = .ok (groupMac g) := by
  obtain ⟨m, h1, h2, -⟩ := (C13_ip6_multicast_mac g).1 h
  rw [h1]
  congr 1
  exact MacAddress.ext' (by rw [h2]; rfl)

theorem report_eq (a : Addrs) : ∃ o, a.report = { a with out := o } := by
  unfold report; dsimp only; split
  · exact ⟨a.out, rfl⟩
  · exact ⟨_, rfl⟩

theorem join_eq {g : Ip6Address} (h : g.isMulticast = true) (a : Addrs) :
    ∃ o, a.joinGroup g = ({ a with ip6Multicast := a.ip6Multicast ++ [g], macMulticast := a.macMulticast ++ [groupMac g], out := o }, .ok ()) ∧
      ∀ n ∈ a.out, n ∈ o := by
  unfold joinGroup
  rw [mac_eq h]
  dsimp only
  unfold report
  dsimp only
  split
  · exact ⟨a.out, rfl, fun n hn => hn⟩
  · exact ⟨_, rfl, fun n hn => List.mem_append_left _ hn⟩

/-- The groups are those joined on their own, `gs`, and those of the addresses, with multiplicity; so are the MAC addresses. -/
structure Inv (a : Addrs) (gs : List Ip6Address) : Prop where
  groups : a.ip6Multicast.Perm (gs ++ a.ip6Host.map (fun h => solicitedNode h.address))
  macs : a.macMulticast.Perm (a.ip6Multicast.map groupMac)
  multi : ∀ g ∈ gs, g.isMulticast = true

theorem Inv.same {a b : Addrs} {gs : List Ip6Address} (h : Inv a gs) (h1 : b.ip6Multicast = a.ip6Multicast)
    (h2 : b.macMulticast = a.macMulticast) (h3 : b.ip6Host = a.ip6Host) : Inv b gs :=
  ⟨by rw [h1, h3]; exact h.groups, by rw [h1, h2]; exact h.macs, h.multi⟩

theorem Inv.all {a : Addrs} {gs : List Ip6Address} (h : Inv a gs) {g : Ip6Address} (hg : g ∈ a.ip6Multicast) : g.isMulticast = true := by
  rcases List.mem_append.1 (h.groups.mem_iff.1 hg) with x | x
  · exact h.multi g x
  · obtain ⟨y, -, rfl⟩ := List.mem_map.1 x
    exact solicited_multicast _

theorem Inv.join {a : Addrs} {gs : List Ip6Address} (h : Inv a gs) {g : Ip6Address} (hg : g.isMulticast = true) :
    Inv (a.joinGroup g).1 (gs ++ [g]) := by
  obtain ⟨o, e, -⟩ := join_eq hg a
  rw [e]
  refine ⟨?_, ?_, ?_⟩
  · show (a.ip6Multicast ++ [g]).Perm (gs ++ [g] ++ a.ip6Host.map _)
    refine (h.groups.append_right [g]).trans ?_
    rw [List.append_assoc, List.append_assoc]
    exact (List.perm_append_comm).append_left gs
  · show (a.macMulticast ++ [groupMac g]).Perm ((a.ip6Multicast ++ [g]).map groupMac)
    rw [List.map_append]
    exact h.macs.append_right _
  · intro x hx
    rcases List.mem_append.1 hx with y | y
    · exact h.multi x y
    · simp at y; subst y; exact hg

theorem Inv.assign {a : Addrs} {gs : List Ip6Address} (h : Inv a gs) (x : Ip6Host) : Inv (a.assignIp6 x).1 gs ∧
    (a.assignIp6 x).1.ip6Host = a.ip6Host ++ [x] := by
  unfold assignIp6
  rw [solicited_eq]
  dsimp only
  obtain ⟨o, e, -⟩ := join_eq (solicited_multicast x.address) { a with ip6Host := a.ip6Host ++ [x] }
  rw [e]
  refine ⟨⟨?_, ?_, h.multi⟩, rfl⟩
  · show (a.ip6Multicast ++ [_]).Perm (gs ++ (a.ip6Host ++ [x]).map _)
    rw [List.map_append, ← List.append_assoc]
    exact h.groups.append_right _
  · show (a.macMulticast ++ [groupMac _]).Perm ((a.ip6Multicast ++ [_]).map groupMac)
    rw [List.map_append]
    exact h.macs.append_right _

theorem map_erase_perm {α β : Type} [DecidableEq α] [DecidableEq β] (f : α → β) {l : List α} {x : α} (h : x ∈ l) :
    ((l.map f).erase (f x)).Perm ((l.erase x).map f) := by
  have h1 : (l.map f).Perm (f x :: (l.erase x).map f) := (List.perm_cons_erase h).map f
  have := h1.erase (f x)
  rw [List.erase_cons_head] at this
  exact this

theorem leave_eq {a : Addrs} {gs : List Ip6Address} (h : Inv a gs) {g : Ip6Address} (hg : g ∈ a.ip6Multicast) :
    a.leaveGroup g = ({ a with ip6Multicast := a.ip6Multicast.erase g, macMulticast := a.macMulticast.erase (groupMac g) }, .ok ()) := by
  unfold leaveGroup
  rw [if_neg (by simpa using hg), mac_eq (h.all hg)]
  dsimp only
  have : groupMac g ∈ a.macMulticast := h.macs.mem_iff.2 (List.mem_map_of_mem hg)
  rw [if_neg (by simpa using this)]

theorem erase_macs {a : Addrs} {gs : List Ip6Address} (h : Inv a gs) {g : Ip6Address} (hg : g ∈ a.ip6Multicast) :
    (a.macMulticast.erase (groupMac g)).Perm ((a.ip6Multicast.erase g).map groupMac) :=
  (h.macs.erase _).trans (map_erase_perm groupMac hg)

theorem Inv.leave {a : Addrs} {gs : List Ip6Address} (h : Inv a gs) {g : Ip6Address} (hg : g ∈ gs) :
    a.leaveGroup g = ({ a with ip6Multicast := a.ip6Multicast.erase g, macMulticast := a.macMulticast.erase (groupMac g) }, .ok ()) ∧
    Inv (a.leaveGroup g).1 (gs.erase g) := by
  have hm : g ∈ a.ip6Multicast := h.groups.mem_iff.2 (List.mem_append_left _ hg)
  refine ⟨leave_eq h hm, ?_⟩
  rw [leave_eq h hm]
  refine ⟨?_, erase_macs h hm, fun x hx => h.multi x (List.mem_of_mem_erase hx)⟩
  show (a.ip6Multicast.erase g).Perm _
  have := h.groups.erase g
  rw [List.erase_append_left _ hg] at this
  exact this

theorem Inv.remove {a : Addrs} {gs : List Ip6Address} (h : Inv a gs) (x : Ip6Host) : Inv (a.removeIp6 x).1 gs ∧
    (a.removeIp6 x).1.ip6Host = a.ip6Host.eraseP (fun y => SameHost x y) := by
  have hp : (fun y => decide (SameHost x y)) = sameHost x := by
    funext y; simp only [SameHost, sameHost]; exact Bool.decide_and _ _
  rw [hp]
  unfold removeIp6
  split
  · rename_i hany
    rw [solicited_eq]
    dsimp only
    obtain ⟨y, hy, hxy⟩ := List.any_eq_true.1 hany
    obtain ⟨z, l₁, l₂, -, hz, hl, he⟩ := List.exists_of_eraseP hy hxy
    have hza : z.address = x.address := by
      simp [sameHost] at hz; exact hz.1.symm
    have hperm : a.ip6Host.Perm (z :: a.ip6Host.eraseP (sameHost x)) := by
      rw [he, hl]; exact List.perm_middle
    have hmem : solicitedNode x.address ∈ a.ip6Multicast := by
      refine h.groups.mem_iff.2 (List.mem_append_right _ ?_)
      refine List.mem_map.2 ⟨z, hperm.mem_iff.2 (by simp), by rw [hza]⟩
    have hm : (solicitedNode x.address).multicastMac = .ok (groupMac (solicitedNode x.address)) := mac_eq (solicited_multicast _)
    have hlv : leaveGroup { a with ip6Host := a.ip6Host.eraseP (sameHost x) } (solicitedNode x.address) =
        ({ a with ip6Host := a.ip6Host.eraseP (sameHost x), ip6Multicast := a.ip6Multicast.erase (solicitedNode x.address),
                  macMulticast := a.macMulticast.erase (groupMac (solicitedNode x.address)) }, .ok ()) := by
      have := leave_eq h hmem
      unfold leaveGroup at this ⊢
      rw [if_neg (by simpa using hmem), hm] at this ⊢
      dsimp only at this ⊢
      have hmm : groupMac (solicitedNode x.address) ∈ a.macMulticast := h.macs.mem_iff.2 (List.mem_map_of_mem hmem)
      rw [if_neg (by simpa using hmm)]
    rw [hlv]
    refine ⟨⟨?_, erase_macs h hmem, h.multi⟩, rfl⟩
    show (a.ip6Multicast.erase _).Perm (gs ++ (a.ip6Host.eraseP (sameHost x)).map _)
    have h1 : a.ip6Multicast.Perm (solicitedNode x.address :: (gs ++ (a.ip6Host.eraseP (sameHost x)).map (fun h => solicitedNode h.address))) := by
      refine h.groups.trans ?_
      refine ((hperm.map (fun h : Ip6Host => solicitedNode h.address)).append_left gs).trans ?_
      rw [List.map_cons, hza]
      exact List.perm_middle
    have := h1.erase (solicitedNode x.address)
    rw [List.erase_cons_head] at this
    exact this
  · rename_i hany
    refine ⟨h, ?_⟩
    rw [List.eraseP_of_forall_not]
    intro y hy hxy
    exact hany (List.any_eq_true.2 ⟨y, hy, hxy⟩)

theorem run_snoc (mac : MacAddress) (ops : List Op) (op : Op) : run mac (ops ++ [op]) = (run mac ops).step op := by simp [run]

theorem run_inv (mac : MacAddress) (ops : List Op) {hs : List Ip6Host} {gs : List Ip6Address} (h : holdings ops = some (hs, gs)) :
    Inv (run mac ops) gs ∧ (run mac ops).ip6Host = hs := by
  induction ops using List.reverseRecOn generalizing hs gs with
  | nil =>
    simp [holdings] at h
    obtain ⟨rfl, rfl⟩ := h
    exact ⟨⟨by simp [run, start], by simp [run, start], by simp⟩, rfl⟩
  | append_singleton ops op ih =>
    unfold holdings at h
    rw [List.foldl_append] at h
    simp only [List.foldl_cons, List.foldl_nil] at h
    rw [run_snoc]
    cases hh : List.foldl hold (some ([], [])) ops with
    | none => rw [hh] at h; cases op <;> simp [hold] at h
    | some p =>
      obtain ⟨hs₀, gs₀⟩ := p
      obtain ⟨hi, he⟩ := ih hh
      rw [hh] at h
      cases op with
      | assign x =>
        simp only [hold, Option.some.injEq, Prod.mk.injEq] at h
        obtain ⟨rfl, rfl⟩ := h
        obtain ⟨h1, h2⟩ := hi.assign x
        exact ⟨h1, by rw [← he]; exact h2⟩
      | remove x =>
        simp only [hold, Option.some.injEq, Prod.mk.injEq] at h
        obtain ⟨rfl, rfl⟩ := h
        obtain ⟨h1, h2⟩ := hi.remove x
        exact ⟨h1, by rw [← he]; exact h2⟩
      | join g =>
        simp only [hold] at h
        split at h
        · rename_i hg
          simp only [Option.some.injEq, Prod.mk.injEq] at h
          obtain ⟨rfl, rfl⟩ := h
          refine ⟨hi.join hg, ?_⟩
          obtain ⟨o, e, -⟩ := join_eq hg (run mac ops)
          simp only [step, e]; exact he
        · cases h
      | leave g =>
        simp only [hold] at h
        split at h
        · rename_i hg
          simp only [Option.some.injEq, Prod.mk.injEq] at h
          obtain ⟨rfl, rfl⟩ := h
          obtain ⟨h1, h2⟩ := hi.leave hg
          refine ⟨h2, ?_⟩
          simp only [step, h1]; exact he
        · cases h

/-- What hearing something leaves as it is. -/
structure Kept (a b : Addrs) : Prop where
  mac : b.mac = a.mac
  macMulticast : b.macMulticast = a.macMulticast
  ip6Pending : b.ip6Pending = a.ip6Pending
  ip6Host : b.ip6Host = a.ip6Host
  ip6Multicast : b.ip6Multicast = a.ip6Multicast
  ip4Pending : b.ip4Pending = a.ip4Pending
  ip4Host : b.ip4Host = a.ip4Host
  conflict : b.conflict = a.conflict
  candidate : b.candidate = a.candidate
  out : b.out = a.out

theorem Kept.refl (a : Addrs) : Kept a a := ⟨rfl, rfl, rfl, rfl, rfl, rfl, rfl, rfl, rfl, rfl⟩

theorem Kept.trans {a b c : Addrs} (h : Kept a b) (g : Kept b c) : Kept a c :=
  ⟨g.1.trans h.1, g.2.trans h.2, g.3.trans h.3, g.4.trans h.4, g.5.trans h.5, g.6.trans h.6, g.7.trans h.7, g.8.trans h.8, g.9.trans h.9,
   g.10.trans h.10⟩

theorem hear_kept (a : Addrs) (x : Heard) : Kept a (a.hear x) ∧ (a.hear x).steps = a.steps := by
  unfold hear; split
  · split <;> exact ⟨⟨rfl, rfl, rfl, rfl, rfl, rfl, rfl, rfl, rfl, rfl⟩, rfl⟩
  · split <;> exact ⟨⟨rfl, rfl, rfl, rfl, rfl, rfl, rfl, rfl, rfl, rfl⟩, rfl⟩
  · exact ⟨⟨rfl, rfl, rfl, rfl, rfl, rfl, rfl, rfl, rfl, rfl⟩, rfl⟩

theorem heard_kept (l : List Heard) (a : Addrs) : Kept a (l.foldl hear a) ∧ (l.foldl hear a).steps = a.steps := by
  induction l generalizing a with
  | nil => exact ⟨.refl a, rfl⟩
  | cons x l ih =>
    obtain ⟨h1, h2⟩ := hear_kept a x
    obtain ⟨h3, h4⟩ := ih (a.hear x)
    exact ⟨h1.trans h3, h4.trans h2⟩

theorem tick_kept (σ : Nat → List Heard) (a : Addrs) : Kept a (a.tick σ) ∧ (a.tick σ).steps = a.steps + 1 := by
  obtain ⟨h, -⟩ := heard_kept (σ a.steps) a
  exact ⟨⟨h.1, h.2, h.3, h.4, h.5, h.6, h.7, h.8, h.9, h.10⟩, rfl⟩

/-- The advertisements that count with this candidate. -/
def got (c : Option Ip6Address) (l : List Heard) : Nat :=
  match c with
  | none => 0
  | some c => adverts c l

theorem hear_dad (a : Addrs) (x : Heard) : (a.hear x).dadEvent = a.dadEvent + got a.candidate [x] := by
  unfold hear got adverts; split
  · rename_i t
    split
    · rename_i h; rw [h]; simp
    · rename_i h
      split
      · rfl
      · rename_i c hc; rw [hc] at h
        simp at h
        simp [Ne.symm h]
  · split <;> split <;> simp
  · split <;> simp

theorem got_cons (c : Option Ip6Address) (x : Heard) (l : List Heard) : got c (x :: l) = got c [x] + got c l := by
  unfold got adverts; split
  · rfl
  · rw [List.countP_cons, List.countP_cons]; simp; omega

theorem heard_dad (l : List Heard) (a : Addrs) : (l.foldl hear a).dadEvent = a.dadEvent + got a.candidate l := by
  induction l generalizing a with
  | nil => simp [got, adverts]; split <;> rfl
  | cons x l ih =>
    rw [List.foldl_cons, ih, hear_dad, (hear_kept a x).1.candidate, got_cons a.candidate x l]; omega

theorem tick_dad (σ : Nat → List Heard) (a : Addrs) : (a.tick σ).dadEvent = a.dadEvent + got a.candidate (σ a.steps) :=
  heard_dad (σ a.steps) a

theorem waitDad_spec (l : List Heard) (a : Addrs) : Kept a (waitDad l a).1 ∧ (waitDad l a).1.steps = a.steps ∧
    ((waitDad l a).2 = true ↔ 0 < a.dadEvent + got a.candidate l) ∧
    (waitDad l a).1.dadEvent + (if (waitDad l a).2 then 1 else 0) = a.dadEvent + got a.candidate l := by
  induction l generalizing a with
  | nil =>
    unfold waitDad
    have hz : got a.candidate [] = 0 := by unfold got; split <;> rfl
    split
    · refine ⟨⟨rfl, rfl, rfl, rfl, rfl, rfl, rfl, rfl, rfl, rfl⟩, rfl, by simp; omega, ?_⟩
      simp only [List.foldl_nil, if_true]
      omega
    · refine ⟨.refl a, rfl, by simp; omega, ?_⟩
      simp; omega
  | cons x l ih =>
    unfold waitDad
    split
    · obtain ⟨h1, h2⟩ := heard_kept (x :: l) { a with dadEvent := a.dadEvent - 1 }
      refine ⟨⟨h1.1, h1.2, h1.3, h1.4, h1.5, h1.6, h1.7, h1.8, h1.9, h1.10⟩, h2, by simp; omega, ?_⟩
      have := heard_dad (x :: l) { a with dadEvent := a.dadEvent - 1 }
      simp only [if_true]
      rw [this]
      show a.dadEvent - 1 + got a.candidate _ + 1 = _
      omega
    · dsimp only
      obtain ⟨h1, h2, h3, h4⟩ := ih (a.hear x)
      obtain ⟨k1, k2⟩ := hear_kept a x
      rw [hear_dad, k1.candidate] at h3 h4
      have := got_cons a.candidate x l
      exact ⟨k1.trans h1, h2.trans k2, by rw [h3]; omega, by rw [h4]; omega⟩

theorem Inv.kept {a b : Addrs} {gs : List Ip6Address} (h : Inv a gs) (k : Kept a b) : Inv b gs :=
  h.same k.ip6Multicast k.macMulticast k.ip6Host

/-- What a call of `_perform_ip6_nd_dad` does. -/
theorem performDad_spec (σ : Nat → List Heard) {a : Addrs} {gs : List Ip6Address} (h : Inv a gs) (hc : a.candidate = none) (c : Ip6Address) :
    ∃ b free, a.performDad σ c = (b, .ok free) ∧ Inv b gs ∧ b.ip6Host = a.ip6Host ∧ b.candidate = none ∧ b.steps = a.steps + 4 ∧
      b.mac = a.mac ∧ b.ip6Pending = a.ip6Pending ∧
      (free = true ↔ a.dadEvent = 0 ∧ adverts c (σ (a.steps + 1)) = 0 ∧ adverts c (σ (a.steps + 2)) = 0) ∧
      b.dadEvent + (if free then 0 else 1) =
        a.dadEvent + adverts c (σ (a.steps + 1)) + adverts c (σ (a.steps + 2)) + adverts c (σ (a.steps + 3)) ∧
      (∀ n ∈ a.out, n ∈ b.out) ∧ AddrNote.dad c (a.steps + 1) ∈ b.out := by
  unfold performDad
  rw [solicited_eq]
  dsimp only
  have hm := solicited_multicast c
  have hj := h.join hm
  obtain ⟨o, e, ho⟩ := join_eq hm a
  rw [e] at hj ⊢
  dsimp only at hj ⊢
  generalize ha₁ : ({ a with ip6Multicast := a.ip6Multicast ++ [solicitedNode c], macMulticast := a.macMulticast ++ [groupMac (solicitedNode c)],
                             out := o } : Addrs) = a₁ at hj ⊢
  have s1 : a₁.steps = a.steps := by rw [← ha₁]
  have d1 : a₁.dadEvent = a.dadEvent := by rw [← ha₁]
  have c1 : a₁.candidate = none := by rw [← ha₁]; exact hc
  have o1 : a₁.out = o := by rw [← ha₁]
  have h1 : a₁.ip6Host = a.ip6Host := by rw [← ha₁]
  have m1 : a₁.mac = a.mac := by rw [← ha₁]
  have p1 : a₁.ip6Pending = a.ip6Pending := by rw [← ha₁]
  clear ha₁
  -- candidate set
  obtain ⟨k2, s2⟩ := tick_kept σ a₁
  have d2 := tick_dad σ a₁
  generalize ha₂ : ({ a₁.tick σ with candidate := some c } : Addrs) = a₂
  have i2 : Inv a₂ (gs ++ [solicitedNode c]) := by rw [← ha₂]; exact hj.same k2.5 k2.2 k2.4
  have s2' : a₂.steps = a.steps + 1 := by rw [← ha₂, ← s1]; exact s2
  have d2' : a₂.dadEvent = a.dadEvent := by rw [← ha₂]; show (a₁.tick σ).dadEvent = _; rw [d2, c1, d1]; rfl
  have c2 : a₂.candidate = some c := by rw [← ha₂]
  have o2 : a₂.out = o := by rw [← ha₂, ← o1]; exact k2.out
  have h2 : a₂.ip6Host = a.ip6Host := by rw [← ha₂, ← h1]; exact k2.ip6Host
  have m2 : a₂.mac = a.mac := by rw [← ha₂, ← m1]; exact k2.mac
  have p2 : a₂.ip6Pending = a.ip6Pending := by rw [← ha₂, ← p1]; exact k2.ip6Pending
  rw [s2, s1]
  clear ha₂ k2 s2 d2
  -- solicitation
  obtain ⟨k3, s3⟩ := tick_kept σ a₂
  have d3 := tick_dad σ a₂
  rw [c2, d2', s2'] at d3
  rw [s2'] at s3
  generalize ha₃ : (a₂.tick σ).send (.dad c (a.steps + 1)) = a₃
  have s3' : a₃.steps = a.steps + 2 := by rw [← ha₃]; exact s3
  have i3 : Inv { a₃ with steps := a₃.steps + 1 } (gs ++ [solicitedNode c]) := by rw [← ha₃]; exact i2.same k3.5 k3.2 k3.4
  have d3' : a₃.dadEvent = a.dadEvent + adverts c (σ (a.steps + 1)) := by rw [← ha₃]; exact d3
  have c3 : a₃.candidate = some c := by rw [← ha₃]; exact k3.candidate.trans c2
  have o3 : a₃.out = o ++ [.dad c (a.steps + 1)] := by rw [← ha₃, ← o2]; show (a₂.tick σ).out ++ _ = _; rw [k3.out]
  have h3 : a₃.ip6Host = a.ip6Host := by rw [← ha₃, ← h2]; exact k3.ip6Host
  have m3 : a₃.mac = a.mac := by rw [← ha₃, ← m2]; exact k3.mac
  have p3 : a₃.ip6Pending = a.ip6Pending := by rw [← ha₃, ← p2]; exact k3.ip6Pending
  clear ha₃ k3 s3 d3
  -- wait
  obtain ⟨k4, s4, e4, d4⟩ := waitDad_spec (σ a₃.steps) { a₃ with steps := a₃.steps + 1 }
  generalize waitDad (σ a₃.steps) { a₃ with steps := a₃.steps + 1 } = w at *
  obtain ⟨a₄, ev⟩ := w
  dsimp only at *
  rw [d3', c3, s3'] at e4 d4
  have i4 := i3.kept k4
  have c4 : a₄.candidate = some c := k4.candidate.trans c3
  have s4' : a₄.steps = a.steps + 3 := by rw [s4, s3']
  -- candidate dropped
  obtain ⟨k5, s5⟩ := tick_kept σ a₄
  have d5 := tick_dad σ a₄
  rw [c4, s4'] at d5
  have i5 : Inv { a₄.tick σ with candidate := none } (gs ++ [solicitedNode c]) := i4.same k5.5 k5.2 k5.4
  obtain ⟨l1, l2⟩ := i5.leave (g := solicitedNode c) (by simp)
  rw [l1] at l2 ⊢
  dsimp only at l2 ⊢
  have i6 := l2
  refine ⟨_, _, rfl, ⟨?_, l2.macs, h.multi⟩, ?_, rfl, ?_, ?_, ?_, ?_, ?_, ?_, ?_⟩
  · refine l2.groups.trans ?_
    refine List.Perm.append_right _ ?_
    have : (gs ++ [solicitedNode c]).Perm (solicitedNode c :: gs) := List.perm_append_comm
    have := this.erase (solicitedNode c)
    rw [List.erase_cons_head] at this
    exact this
  · exact (k5.ip6Host.trans k4.ip6Host).trans h3
  · show (a₄.tick σ).steps = _; rw [s5, s4']
  · exact (k5.mac.trans k4.mac).trans m3
  · exact (k5.ip6Pending.trans k4.ip6Pending).trans p3
  · unfold got at e4
    cases ev <;> simp at e4 ⊢ <;> omega
  · show (a₄.tick σ).dadEvent + _ = _
    rw [d5]
    unfold got at *
    cases ev <;> simp at d4 ⊢ <;> omega
  · intro n hn
    show n ∈ (a₄.tick σ).out
    rw [k5.out, k4.out]
    show n ∈ a₃.out
    rw [o3]
    exact List.mem_append_left _ (ho n hn)
  · show _ ∈ (a₄.tick σ).out
    rw [k5.out, k4.out]
    show _ ∈ a₃.out
    rw [o3]; simp

theorem assign_out {a : Addrs} (x : Ip6Host) : (∀ n ∈ a.out, n ∈ (a.assignIp6 x).1.out) ∧ (a.assignIp6 x).2 = .ok () ∧
    (a.assignIp6 x).1.candidate = a.candidate ∧ (a.assignIp6 x).1.steps = a.steps ∧ (a.assignIp6 x).1.mac = a.mac ∧
    (a.assignIp6 x).1.ip6Pending = a.ip6Pending ∧ (a.assignIp6 x).1.dadEvent = a.dadEvent := by
  unfold assignIp6
  rw [solicited_eq]
  dsimp only
  obtain ⟨o, e, ho⟩ := join_eq (solicited_multicast x.address) { a with ip6Host := a.ip6Host ++ [x] }
  rw [e]
  exact ⟨ho, rfl, rfl, rfl, rfl, rfl, rfl⟩

/-- What a claim does. -/
theorem claim_spec (σ : Nat → List Heard) {a : Addrs} {gs : List Ip6Address} (h : Inv a gs) (hc : a.candidate = none) (x : Ip6Host) :
    ∃ b, a.claim σ x = (b, .ok ()) ∧ Inv b gs ∧ b.candidate = none ∧ b.steps = a.steps + 4 ∧ b.mac = a.mac ∧ b.ip6Pending = a.ip6Pending ∧
      b.ip6Host = (if a.dadEvent = 0 ∧ adverts x.address (σ (a.steps + 1)) = 0 ∧ adverts x.address (σ (a.steps + 2)) = 0
        then a.ip6Host ++ [x] else a.ip6Host) ∧
      b.dadEvent + (if a.dadEvent = 0 ∧ adverts x.address (σ (a.steps + 1)) = 0 ∧ adverts x.address (σ (a.steps + 2)) = 0 then 0 else 1) =
        a.dadEvent + adverts x.address (σ (a.steps + 1)) + adverts x.address (σ (a.steps + 2)) + adverts x.address (σ (a.steps + 3)) ∧
      (∀ n ∈ a.out, n ∈ b.out) ∧ AddrNote.dad x.address (a.steps + 1) ∈ b.out := by
  obtain ⟨b, free, e, hi, hh, hcn, hs, hm, hp, hf, hd, ho, hn⟩ := performDad_spec σ h hc x.address
  unfold claim
  rw [e]
  dsimp only
  cases free with
  | true =>
    have hf' := hf.1 rfl
    obtain ⟨i1, i2⟩ := hi.assign x
    obtain ⟨a1, a2, a3, a4, a5, a6, a7⟩ := assign_out (a := b) x
    rw [if_pos rfl, if_pos hf', if_pos hf']
    refine ⟨(b.assignIp6 x).1, by rw [← a2], i1, a3.trans hcn, a4.trans hs, a5.trans hm, a6.trans hp, ?_, ?_, fun n h => a1 n (ho n h), a1 _ hn⟩
    · rw [i2, hh]
    · rw [a7, ← hd]; simp
  | false =>
    have hf' : ¬ _ := fun q => Bool.noConfusion (hf.2 q)
    rw [if_neg (by simp), if_neg hf', if_neg hf']
    exact ⟨b, rfl, hi, hcn, hs, hm, hp, hh, by rw [← hd]; simp, ho, hn⟩

/-- Every address that is assigned was asked for before, and nobody answered in time. -/
def Asked (σ : Nat → List Heard) (a : Addrs) : Prop :=
  ∀ h ∈ a.ip6Host, ∃ n, AddrNote.dad h.address n ∈ a.out ∧ Heard.advert h.address ∉ σ n ∧ Heard.advert h.address ∉ σ (n + 1)

theorem adverts_zero {c : Ip6Address} {l : List Heard} : adverts c l = 0 ↔ Heard.advert c ∉ l := by
  unfold adverts
  rw [List.countP_eq_zero]
  constructor
  · intro h hm
    have := h _ hm
    simp at this
  · intro h x hx
    split
    · rename_i t
      simp
      rintro rfl
      exact h hx
    · simp

/-- What start-up keeps. -/
structure Good (σ : Nat → List Heard) (gs : List Ip6Address) (a : Addrs) : Prop where
  inv : Inv a gs
  cand : a.candidate = none
  asked : Asked σ a

theorem Good.claim {σ : Nat → List Heard} {gs : List Ip6Address} {a : Addrs} (h : Good σ gs a) (x : Ip6Host) :
    ∃ b, a.claim σ x = (b, .ok ()) ∧ Good σ gs b := by
  obtain ⟨b, e, hi, hc, -, -, -, hh, -, ho, hn⟩ := claim_spec σ h.inv h.cand x
  refine ⟨b, e, hi, hc, ?_⟩
  intro y hy
  rw [hh] at hy
  have old : y ∈ a.ip6Host → ∃ n, AddrNote.dad y.address n ∈ b.out ∧ Heard.advert y.address ∉ σ n ∧ Heard.advert y.address ∉ σ (n + 1) :=
    fun q => by
      obtain ⟨n, h1, h2⟩ := h.asked y q
      exact ⟨n, ho _ h1, h2⟩
  split at hy
  · rename_i q
    rcases List.mem_append.1 hy with z | z
    · exact old z
    · simp at z; subst z
      exact ⟨_, hn, adverts_zero.1 q.2.1, adverts_zero.1 q.2.2⟩
  · exact old hy

theorem Good.claimAll {σ : Nat → List Heard} {gs : List Ip6Address} (l : List Ip6Host) {a : Addrs} (h : Good σ gs a) :
    ∃ b, claimAll σ l a = (b, .ok ()) ∧ Good σ gs b := by
  induction l generalizing a with
  | nil => exact ⟨a, rfl, h⟩
  | cons x l ih =>
    have h' : Good σ gs { a with ip6Pending := a.ip6Pending.eraseP (sameHost x) } := ⟨h.inv.same rfl rfl rfl, h.cand, h.asked⟩
    obtain ⟨b, e, hb⟩ := h'.claim x
    unfold Addrs.claimAll
    rw [e]
    exact ih hb

theorem Good.claimPrefixes {σ : Nat → List Heard} {gs : List Ip6Address} (l : List (Ip6Network × Ip6Address)) {a : Addrs} (h : Good σ gs a) :
    Good σ gs (claimPrefixes σ l a).1 := by
  induction l generalizing a with
  | nil => exact h
  | cons x l ih =>
    obtain ⟨p, g⟩ := x
    unfold Addrs.claimPrefixes
    split
    · exact h
    · rename_i y _
      obtain ⟨b, e, hb⟩ := h.claim y
      rw [e]
      exact ih hb

theorem Good.kept {σ : Nat → List Heard} {gs : List Ip6Address} {a b : Addrs} (h : Good σ gs a) (k : Kept a b) : Good σ gs b :=
  ⟨h.inv.kept k, k.candidate.trans h.cand, by unfold Asked; rw [k.ip6Host, k.out]; exact h.asked⟩

theorem waitRouter_kept (l : List Heard) (a : Addrs) : Kept a (waitRouter l a) := by
  induction l generalizing a with
  | nil => unfold waitRouter; split <;> exact ⟨rfl, rfl, rfl, rfl, rfl, rfl, rfl, rfl, rfl, rfl⟩
  | cons x l ih =>
    unfold waitRouter
    split
    · obtain ⟨h1, -⟩ := heard_kept (x :: l) { a with raEvent := a.raEvent - 1 }
      exact ⟨h1.1, h1.2, h1.3, h1.4, h1.5, h1.6, h1.7, h1.8, h1.9, h1.10⟩
    · exact (hear_kept a x).1.trans (ih _)

theorem Good.createIp6 {σ : Nat → List Heard} {gs : List Ip6Address} (lla gua : Bool) {a : Addrs} (h : Good σ gs a) :
    Good σ gs (a.createIp6 σ lla gua).1 := by
  unfold Addrs.createIp6
  obtain ⟨b, e, hb⟩ := h.claimAll (a.ip6Pending.filter (·.address.isLinkLocal))
  rw [e]
  dsimp only
  have h2 : Good σ gs (if lla then b.claimLinkLocal σ else (b, .ok ())).1 := by
    split
    · unfold claimLinkLocal
      split
      · exact hb
      · rename_i y _
        obtain ⟨b', e', hb'⟩ := hb.claim y
        rw [e']; exact hb'
    · exact hb
  generalize (if lla then b.claimLinkLocal σ else (b, .ok ())) = r at h2 ⊢
  obtain ⟨c, re⟩ := r
  dsimp only at h2 ⊢
  cases re with
  | error e => exact h2
  | ok _ =>
    dsimp only
    split
    · exact ⟨h2.inv.same rfl rfl rfl, h2.cand, h2.asked⟩
    · obtain ⟨d, e', hd⟩ := h2.claimAll c.ip6Pending
      rw [e']
      dsimp only
      split
      · apply Good.claimPrefixes
        refine Good.kept ?_ (waitRouter_kept _ _)
        have k := (tick_kept σ d).1
        have h3 := hd.kept k
        refine ⟨h3.inv.same rfl rfl rfl, h3.cand, ?_⟩
        intro y hy
        obtain ⟨n, h4, h5⟩ := h3.asked y hy
        exact ⟨n, List.mem_append_left _ h4, h5⟩
      · exact hd

theorem Good.acquireIp6 {σ : Nat → List Heard} {a : Addrs} (h : Good σ [] a) (hs : a.ip6Support = true) (lla gua : Bool) :
    Good σ [Icmp6.allNodes] (a.acquireIp6 σ lla gua).1 := by
  unfold Addrs.acquireIp6
  rw [if_pos hs]
  have hm : Icmp6.allNodes.isMulticast = true := by decide
  obtain ⟨o, e, ho⟩ := join_eq hm a
  have hj := h.inv.join hm
  rw [e] at hj ⊢
  dsimp only at hj ⊢
  apply Good.createIp6
  refine ⟨hj, h.cand, ?_⟩
  intro y hy
  obtain ⟨n, h4, h5⟩ := h.asked y hy
  exact ⟨n, ho _ h4, h5⟩

/-! ### IPv4 -/

theorem probeAll_kept (σ : Nat → List Heard) (l : List Ip4Address) (a : Addrs) :
    (probeAll σ l a).ip4Pending = a.ip4Pending ∧ (probeAll σ l a).ip4Host = a.ip4Host ∧ (probeAll σ l a).conflict = a.conflict := by
  induction l generalizing a with
  | nil => exact ⟨rfl, rfl, rfl⟩
  | cons ip l ih =>
    unfold probeAll
    have k := (tick_kept σ a).1
    dsimp only
    obtain ⟨h1, h2, h3⟩ := ih (if ip ∈ (a.tick σ).conflict then a.tick σ else (a.tick σ).send (.probe ip))
    rw [h1, h2, h3]
    split <;> exact ⟨k.ip4Pending, k.ip4Host, k.conflict⟩

theorem probeRound_kept (σ : Nat → List Heard) (a : Addrs) :
    (probeRound σ a).ip4Pending = a.ip4Pending ∧ (probeRound σ a).ip4Host = a.ip4Host ∧ (probeRound σ a).conflict = a.conflict := by
  unfold probeRound
  have k := (tick_kept σ (probeAll σ (a.ip4Pending.map (·.address)) a)).1
  obtain ⟨h1, h2, h3⟩ := probeAll_kept σ (a.ip4Pending.map (·.address)) a
  exact ⟨k.ip4Pending.trans h1, k.ip4Host.trans h2, k.conflict.trans h3⟩

theorem probeAll_out (σ : Nat → List Heard) (l : List Ip4Address) (a : Addrs) (hc : a.conflict = []) :
    (probeAll σ l a).out = a.out ++ l.map .probe := by
  induction l generalizing a with
  | nil => simp [probeAll]
  | cons ip l ih =>
    unfold probeAll
    have k := (tick_kept σ a).1
    dsimp only
    rw [if_neg (by rw [k.conflict, hc]; simp), ih ((a.tick σ).send (.probe ip)) (k.conflict.trans hc)]
    simp [Addrs.send, k.out]

theorem probeRound_out (σ : Nat → List Heard) (a : Addrs) (hc : a.conflict = []) :
    (probeRound σ a).out = a.out ++ a.ip4Pending.map fun h => AddrNote.probe h.address := by
  unfold probeRound
  rw [(tick_kept σ _).1.out, probeAll_out σ _ _ hc]
  simp

theorem claimIp4_out (σ : Nat → List Heard) (l : List Ip4Host) (a : Addrs) (hc : a.conflict = []) :
    (claimIp4 σ l a).out = a.out ++ l.map fun h => AddrNote.announce h.address := by
  induction l generalizing a with
  | nil => simp [claimIp4]
  | cons x l ih =>
    unfold claimIp4
    dsimp only
    have k1 := (tick_kept σ a).1
    have k2 := (tick_kept σ { a.tick σ with ip4Pending := (a.tick σ).ip4Pending.eraseP (sameHost4 x) }).1
    have e1 := k2.conflict.trans (k1.conflict.trans hc)
    have e3 := k2.out.trans k1.out
    generalize tick σ { a.tick σ with ip4Pending := (a.tick σ).ip4Pending.eraseP (sameHost4 x) } = b at e1 e3 ⊢
    rw [if_neg (by rw [e1]; simp)]
    refine (ih ({ b with ip4Host := b.ip4Host ++ [x] }.send (.announce x.address)) e1).trans ?_
    simp [Addrs.send, e3]

theorem claimIp4_eq (σ : Nat → List Heard) (l : List Ip4Host) (a : Addrs) (hc : a.conflict = []) :
    (claimIp4 σ l a).ip4Host = a.ip4Host ++ l ∧ (∀ n ∈ a.out, n ∈ (claimIp4 σ l a).out) ∧
    ∀ h ∈ l, AddrNote.announce h.address ∈ (claimIp4 σ l a).out := by
  induction l generalizing a with
  | nil => simp [claimIp4]
  | cons x l ih =>
    unfold claimIp4
    dsimp only
    have k1 := (tick_kept σ a).1
    have k2 := (tick_kept σ { a.tick σ with ip4Pending := (a.tick σ).ip4Pending.eraseP (sameHost4 x) }).1
    have e1 := k2.conflict.trans (k1.conflict.trans hc)
    have e2 := k2.ip4Host.trans k1.ip4Host
    have e3 := k2.out.trans k1.out
    generalize tick σ { a.tick σ with ip4Pending := (a.tick σ).ip4Pending.eraseP (sameHost4 x) } = b at e1 e2 e3 ⊢
    rw [if_neg (by rw [e1]; simp)]
    obtain ⟨h1, h2, h3⟩ := ih ({ b with ip4Host := b.ip4Host ++ [x] }.send (.announce x.address)) e1
    refine ⟨?_, ?_, ?_⟩
    · rw [h1]; show b.ip4Host ++ [x] ++ l = _; rw [e2]; simp
    · intro n hn
      refine h2 n ?_
      show n ∈ b.out ++ _
      rw [e3]; exact List.mem_append_left _ hn
    · intro y hy
      rcases List.mem_cons.1 hy with rfl | q
      · exact h2 _ (by show _ ∈ b.out ++ _; simp)
      · exact h3 y q

end Verif.Addrs

namespace Verif.Addrs
open Spec

theorem adverts_append (c : Ip6Address) (l m : List Heard) : adverts c (l ++ m) = adverts c l + adverts c m := by
  unfold adverts; exact List.countP_append

/-- One claim where nobody answers twice, or late. -/
theorem claim_orderly {σ : Nat → List Heard} {a : Addrs} {gs : List Ip6Address} (h : Inv a gs) (hc : a.candidate = none)
    (hd : a.dadEvent = 0) (x : Ip6Host) (h1 : adverts x.address (σ (a.steps + 1) ++ σ (a.steps + 2)) ≤ 1)
    (h2 : Heard.advert x.address ∉ σ (a.steps + 3)) :
    ∃ b, a.claim σ x = (b, .ok ()) ∧ Inv b gs ∧ b.candidate = none ∧ b.steps = a.steps + 4 ∧ b.mac = a.mac ∧ b.dadEvent = 0 ∧
      b.ip6Host = a.ip6Host ++ (if Heard.advert x.address ∈ σ (a.steps + 1) ++ σ (a.steps + 2) then [] else [x]) := by
  obtain ⟨b, e, hi, hcn, hs, hm, -, hh, hde, -⟩ := claim_spec σ h hc x
  have h3 := adverts_zero.2 h2
  rw [adverts_append] at h1
  have hiff : (a.dadEvent = 0 ∧ adverts x.address (σ (a.steps + 1)) = 0 ∧ adverts x.address (σ (a.steps + 2)) = 0) ↔
      ¬ Heard.advert x.address ∈ σ (a.steps + 1) ++ σ (a.steps + 2) := by
    rw [← adverts_zero, adverts_append]; omega
  refine ⟨b, e, hi, hcn, hs, hm, ?_, ?_⟩
  · split at hde <;> omega
  · rw [hh]
    by_cases q : Heard.advert x.address ∈ σ (a.steps + 1) ++ σ (a.steps + 2)
    · rw [if_neg (fun w => hiff.1 w q), if_pos q]; simp
    · rw [if_pos (hiff.2 q), if_neg q]

theorem claimAll_orderly {σ : Nat → List Heard} {gs : List Ip6Address} (l : List Ip6Host) {a : Addrs} (h : Inv a gs)
    (hc : a.candidate = none) (hd : a.dadEvent = 0) (ho : Orderly σ a.steps l) :
    ∃ b, claimAll σ l a = (b, .ok ()) ∧ b.ip6Host = a.ip6Host ++ winners σ a.steps l := by
  induction l generalizing a with
  | nil => exact ⟨a, rfl, by simp [winners]⟩
  | cons x l ih =>
    have h' : Inv { a with ip6Pending := a.ip6Pending.eraseP (sameHost x) } gs := h.same rfl rfl rfl
    obtain ⟨b, e, b1, b2, b3, -, b5, b6⟩ := claim_orderly (σ := σ) h' hc hd x ho.1 ho.2.1
    replace b3 : b.steps = a.steps + 4 := b3
    obtain ⟨c, e', hh⟩ := ih b1 b2 b5 (by rw [b3]; exact ho.2.2)
    refine ⟨c, ?_, ?_⟩
    · unfold claimAll; rw [e]; exact e'
    · rw [hh, b6, b3]; simp [winners]

theorem linkLocal_iff (g : Ip6Address) : g.isLinkLocal = true ↔ ip6LinkLocalNet.contains g = true := by
  rw [(C11_ip6_membership ip6LinkLocalNet).1]

  have e : ip6LinkLocalNet.mask.len = 10 := by decide
  rw [e]
  show _ ↔ cidr 128 (hextet 0xFE80) 10 g.int
  exact (C09_ip6_classes g).2.2.2.2.1

theorem prefix_host (mac : MacAddress) (p : Ip6Network × Ip6Address) (h1 : p.1.mask.len = 64) (h2 : p.2.isLinkLocal = true) :
    ∃ h, (do (← p.1.eui64 mac).setGateway (some p.2) : Py Ip6Host) = .ok h ∧ HostOf mac p h := by
  obtain ⟨h, e, b, -, n⟩ := C13_eui64 p.1 mac h1
  refine ⟨{ h with gateway := some p.2 }, ?_, b, n, rfl⟩
  rw [e]
  show h.setGateway (some p.2) = _
  unfold Ip6Host.setGateway
  dsimp only
  rw [(linkLocal_iff p.2).1 h2]; rfl

theorem claimPrefixes_orderly {σ : Nat → List Heard} {gs : List Ip6Address} (mac : MacAddress) (l : List (Ip6Network × Ip6Address))
    (hl : ∀ p ∈ l, p.1.mask.len = 64 ∧ p.2.isLinkLocal = true) :
    ∃ hs : List Ip6Host, hs.length = l.length ∧ (∀ (k : Nat) p h, l[k]? = some p → hs[k]? = some h → HostOf mac p h) ∧
      ∀ a : Addrs, Inv a gs → a.candidate = none → a.mac = mac → a.dadEvent = 0 → Orderly σ a.steps hs →
        ∃ b, claimPrefixes σ l a = (b, .ok ()) ∧ b.ip6Host = a.ip6Host ++ winners σ a.steps hs := by
  induction l with
  | nil => exact ⟨[], rfl, by simp, fun a _ _ _ _ _ => ⟨a, rfl, by simp [winners]⟩⟩
  | cons p l ih =>
    obtain ⟨hs, h1, h2, h3⟩ := ih (fun q hq => hl q (List.mem_cons_of_mem _ hq))
    obtain ⟨q1, q2⟩ := hl p List.mem_cons_self
    obtain ⟨h, e, ho⟩ := prefix_host mac p q1 q2
    refine ⟨h :: hs, by simp [h1], ?_, ?_⟩
    · intro k p' h' e1 e2
      cases k with
      | zero => simp at e1 e2; subst e1 e2; exact ho
      | succ k => simp at e1 e2; exact h2 k p' h' e1 e2
    · intro a ha hc hm hd hord
      obtain ⟨b, e', b1, b2, b3, b4, b5, b6⟩ := claim_orderly (σ := σ) ha hc hd h hord.1 hord.2.1
      obtain ⟨c, e2, hh⟩ := h3 b b1 b2 (b4.trans hm) b5 (by rw [b3]; exact hord.2.2)
      refine ⟨c, ?_, ?_⟩
      · obtain ⟨p1, p2⟩ := p
        unfold claimPrefixes
        rw [hm]
        dsimp only at e ⊢
        rw [e]
        dsimp only
        rw [e']; exact e2
      · rw [hh, b6, b3]; simp [winners]

/-! ### Router advertisements -/

theorem hear_pf (a : Addrs) (x : Heard) : (a.hear x).prefixes = routerPrefixes a.prefixes [x] := by
  unfold hear routerPrefixes; split
  · split <;> rfl
  · split <;> rfl
  · rfl

theorem pf_cons (p : List (Ip6Network × Ip6Address)) (x : Heard) (l : List Heard) : routerPrefixes p (x :: l) = routerPrefixes (routerPrefixes p [x]) l := rfl

theorem pf_append (p : List (Ip6Network × Ip6Address)) (l m : List Heard) : routerPrefixes p (l ++ m) = routerPrefixes (routerPrefixes p l) m := by
  unfold routerPrefixes; exact List.foldl_append

theorem heard_pf (l : List Heard) (a : Addrs) : (l.foldl hear a).prefixes = routerPrefixes a.prefixes l := by
  induction l generalizing a with
  | nil => rfl
  | cons x l ih => rw [List.foldl_cons, ih, hear_pf]; rfl

theorem tick_pf (σ : Nat → List Heard) (a : Addrs) : (a.tick σ).prefixes = routerPrefixes a.prefixes (σ a.steps) := heard_pf (σ a.steps) a

theorem waitDad_pf (l : List Heard) (a : Addrs) : (waitDad l a).1.prefixes = routerPrefixes a.prefixes l := by
  induction l generalizing a with
  | nil => unfold waitDad; split <;> rfl
  | cons x l ih =>
    unfold waitDad; split
    · exact heard_pf (x :: l) _
    · dsimp only; rw [ih, hear_pf]; rfl

theorem waitRouter_pf (l : List Heard) (a : Addrs) : (waitRouter l a).prefixes = routerPrefixes a.prefixes l ∧ (waitRouter l a).steps = a.steps ∧
    (waitRouter l a).dadEvent = a.dadEvent + got a.candidate l ∧ (waitRouter l a).candidate = a.candidate := by
  induction l generalizing a with
  | nil =>
    have hz : got a.candidate [] = 0 := by unfold got; split <;> rfl
    unfold waitRouter; split <;> exact ⟨rfl, rfl, by rw [hz]; rfl, rfl⟩
  | cons x l ih =>
    unfold waitRouter; split
    · exact ⟨heard_pf (x :: l) _, (heard_kept (x :: l) _).2, heard_dad (x :: l) _, (heard_kept (x :: l) _).1.candidate⟩
    · dsimp only
      obtain ⟨h1, h2, h3, h4⟩ := ih (a.hear x)
      obtain ⟨k1, k2⟩ := hear_kept a x
      refine ⟨by rw [h1, hear_pf]; rfl, h2.trans k2, ?_, h4.trans k1.candidate⟩
      rw [h3, hear_dad, k1.candidate, got_cons a.candidate x l]; omega

theorem leave_pf (a : Addrs) (g : Ip6Address) : (a.leaveGroup g).1.prefixes = a.prefixes := by
  unfold leaveGroup; split
  · rfl
  · dsimp only; split
    · rfl
    · split <;> rfl

theorem assign_pf (a : Addrs) (x : Ip6Host) : (a.assignIp6 x).1.prefixes = a.prefixes := by
  unfold assignIp6
  rw [solicited_eq]
  dsimp only
  obtain ⟨o, e, -⟩ := join_eq (solicited_multicast x.address) { a with ip6Host := a.ip6Host ++ [x] }
  rw [e]

theorem performDad_pf (σ : Nat → List Heard) (a : Addrs) (c : Ip6Address) :
    (a.performDad σ c).1.prefixes = routerPrefixes a.prefixes (σ a.steps ++ σ (a.steps + 1) ++ σ (a.steps + 2) ++ σ (a.steps + 3)) := by
  unfold performDad
  rw [solicited_eq]
  dsimp only
  obtain ⟨o, e, -⟩ := join_eq (solicited_multicast c) a
  rw [e]
  dsimp only
  generalize ha₁ : ({ a with ip6Multicast := a.ip6Multicast ++ [solicitedNode c], macMulticast := a.macMulticast ++ [groupMac (solicitedNode c)],
                             out := o } : Addrs) = a₁
  have q1 : a₁.prefixes = a.prefixes := by rw [← ha₁]
  have s1 : a₁.steps = a.steps := by rw [← ha₁]
  clear ha₁
  have q2 := tick_pf σ a₁
  have s2 := (tick_kept σ a₁).2
  rw [q1, s1] at q2
  rw [s1] at s2
  generalize ha₂ : ({ a₁.tick σ with candidate := some c } : Addrs) = a₂
  have q2' : a₂.prefixes = routerPrefixes a.prefixes (σ a.steps) := by rw [← ha₂]; exact q2
  have s2' : a₂.steps = a.steps + 1 := by rw [← ha₂]; exact s2
  rw [s2]
  clear ha₂ q2 s2
  have q3 := tick_pf σ a₂
  have s3 := (tick_kept σ a₂).2
  rw [q2', s2'] at q3
  rw [s2'] at s3
  generalize ha₃ : (a₂.tick σ).send (.dad c (a.steps + 1)) = a₃
  have q3' : a₃.prefixes = routerPrefixes (routerPrefixes a.prefixes (σ a.steps)) (σ (a.steps + 1)) := by rw [← ha₃]; exact q3
  have s3' : a₃.steps = a.steps + 2 := by rw [← ha₃]; exact s3
  clear ha₃ q3 s3
  have q4 := waitDad_pf (σ a₃.steps) { a₃ with steps := a₃.steps + 1 }
  have s4 := (waitDad_spec (σ a₃.steps) { a₃ with steps := a₃.steps + 1 }).2.1
  generalize waitDad (σ a₃.steps) { a₃ with steps := a₃.steps + 1 } = w at *
  obtain ⟨a₄, ev⟩ := w
  dsimp only at *
  rw [q3', s3'] at q4
  rw [s3'] at s4
  have q5 := tick_pf σ a₄
  rw [q4, s4] at q5
  have q6 := leave_pf { a₄.tick σ with candidate := none } (solicitedNode c)
  generalize leaveGroup { a₄.tick σ with candidate := none } (solicitedNode c) = w at *
  obtain ⟨a₆, r⟩ := w
  have : a₆.prefixes = routerPrefixes a.prefixes (σ a.steps ++ σ (a.steps + 1) ++ σ (a.steps + 2) ++ σ (a.steps + 3)) := by
    rw [pf_append, pf_append, pf_append, ← q5]; exact q6
  cases r <;> exact this

theorem claim_pf (σ : Nat → List Heard) (a : Addrs) (x : Ip6Host) :
    (a.claim σ x).1.prefixes = routerPrefixes a.prefixes (σ a.steps ++ σ (a.steps + 1) ++ σ (a.steps + 2) ++ σ (a.steps + 3)) := by
  rw [← performDad_pf σ a x.address]
  unfold claim
  generalize a.performDad σ x.address = w
  obtain ⟨b, r⟩ := w
  cases r with
  | error e => rfl
  | ok free =>
    dsimp only
    split
    · exact assign_pf b x
    · rfl

theorem linkLocal64_ok : ∃ n, linkLocal64 = .ok n ∧ n.mask.len = 64 ∧ n.address.int = hextet 0xFE80 := by
  unfold linkLocal64 Ip6Mask.ofPrefix
  rw [dif_pos (by decide)]
  exact ⟨_, rfl, by decide +kernel, by decide +kernel⟩

end Verif.Addrs
