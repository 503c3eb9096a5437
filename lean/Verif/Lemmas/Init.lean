import Verif.Lemmas.Addrs
import Verif.Model.Init
/-! Lemmas about making and starting the stack: what the IPv6 part of start-up leaves as it is. -/
namespace Verif.Addrs
open Spec

/-- `b` comes from `a` without a change to what concerns IPv4; without a router solicitation, if `g` is not set. -/
structure Only6 (g : Bool) (a b : Addrs) : Prop where
  mac : b.mac = a.mac
  ip4Pending : b.ip4Pending = a.ip4Pending
  ip4Host : b.ip4Host = a.ip4Host
  conflict : b.conflict = a.conflict
  ip4Support : b.ip4Support = a.ip4Support
  ip6Support : b.ip6Support = a.ip6Support
  quiet : g = false → AddrNote.solicit ∈ b.out → AddrNote.solicit ∈ a.out

theorem Only6.refl (g : Bool) (a : Addrs) : Only6 g a a := ⟨rfl, rfl, rfl, rfl, rfl, rfl, fun _ h => h⟩

theorem Only6.trans {g : Bool} {a b c : Addrs} (h : Only6 g a b) (k : Only6 g b c) : Only6 g a c :=
  ⟨k.1.trans h.1, k.2.trans h.2, k.3.trans h.3, k.4.trans h.4, k.5.trans h.5, k.6.trans h.6, fun q w => h.7 q (k.7 q w)⟩

/-- with other fields set -/
theorem Only6.of {g : Bool} {a b c : Addrs} (h : Only6 g a b) (h1 : c.mac = b.mac) (h2 : c.ip4Pending = b.ip4Pending)
    (h3 : c.ip4Host = b.ip4Host) (h4 : c.conflict = b.conflict) (h5 : c.ip4Support = b.ip4Support) (h6 : c.ip6Support = b.ip6Support)
    (h7 : c.out = b.out) : Only6 g a c :=
  h.trans ⟨h1, h2, h3, h4, h5, h6, fun _ w => h7 ▸ w⟩

theorem hear_support (a : Addrs) (x : Heard) : (a.hear x).ip4Support = a.ip4Support ∧ (a.hear x).ip6Support = a.ip6Support := by
  unfold hear
  split <;> (try split) <;> exact ⟨rfl, rfl⟩

theorem heard_support (l : List Heard) (a : Addrs) :
    (l.foldl hear a).ip4Support = a.ip4Support ∧ (l.foldl hear a).ip6Support = a.ip6Support := by
  induction l generalizing a with
  | nil => exact ⟨rfl, rfl⟩
  | cons x l ih => exact ⟨(ih _).1.trans (hear_support a x).1, (ih _).2.trans (hear_support a x).2⟩

theorem only6_heard (g : Bool) (l : List Heard) (a : Addrs) : Only6 g a (l.foldl hear a) :=
  have k := (heard_kept l a).1
  ⟨k.mac, k.ip4Pending, k.ip4Host, k.conflict, (heard_support l a).1, (heard_support l a).2, fun _ h => k.out ▸ h⟩

theorem only6_tick (g : Bool) (σ : Nat → List Heard) (a : Addrs) : Only6 g a (a.tick σ) :=
  (only6_heard g (σ a.steps) a).of rfl rfl rfl rfl rfl rfl rfl

theorem only6_report (g : Bool) (a : Addrs) : Only6 g a a.report := by
  unfold report
  dsimp only
  split
  · exact .refl g a
  · exact ⟨rfl, rfl, rfl, rfl, rfl, rfl, fun _ h => by simpa [Addrs.send] using h⟩

theorem only6_join (g : Bool) (a : Addrs) (x : Ip6Address) : Only6 g a (a.joinGroup x).1 := by
  unfold joinGroup
  dsimp only
  split
  · exact ⟨rfl, rfl, rfl, rfl, rfl, rfl, fun _ h => h⟩
  · refine Only6.trans ?_ (only6_report g _)
    exact ⟨rfl, rfl, rfl, rfl, rfl, rfl, fun _ h => h⟩

theorem only6_leave (g : Bool) (a : Addrs) (x : Ip6Address) : Only6 g a (a.leaveGroup x).1 := by
  unfold leaveGroup
  dsimp only
  split
  · exact .refl g a
  · split
    · exact ⟨rfl, rfl, rfl, rfl, rfl, rfl, fun _ h => h⟩
    · split <;> exact ⟨rfl, rfl, rfl, rfl, rfl, rfl, fun _ h => h⟩

theorem only6_assign (g : Bool) (a : Addrs) (x : Ip6Host) : Only6 g a (a.assignIp6 x).1 := by
  unfold assignIp6
  dsimp only
  split
  · exact ⟨rfl, rfl, rfl, rfl, rfl, rfl, fun _ h => h⟩
  · refine Only6.trans ?_ (only6_join g _ _)
    exact ⟨rfl, rfl, rfl, rfl, rfl, rfl, fun _ h => h⟩

theorem only6_waitDad (g : Bool) (l : List Heard) (a : Addrs) : Only6 g a (waitDad l a).1 := by
  induction l generalizing a with
  | nil => unfold waitDad; split <;> exact (Only6.refl g a).of rfl rfl rfl rfl rfl rfl rfl
  | cons x l ih =>
    unfold waitDad
    split
    · exact Only6.trans ((Only6.refl g a).of (c := { a with dadEvent := a.dadEvent - 1 }) rfl rfl rfl rfl rfl rfl rfl) (only6_heard g (x :: l) _)
    · exact (only6_heard g [x] a).trans (ih _)

theorem only6_dad (g : Bool) (σ : Nat → List Heard) (a : Addrs) (c : Ip6Address) : Only6 g a (a.performDad σ c).1 := by
  unfold performDad
  split
  · exact .refl g a
  · rename_i x _
    have hj := only6_join g a x
    split
    · rename_i e; rw [e] at hj; exact hj
    · rename_i b _ e
      rw [e] at hj
      dsimp only
      have h1 : Only6 g a { b.tick σ with candidate := some c } := hj.trans ((only6_tick g σ b).of rfl rfl rfl rfl rfl rfl rfl)
      generalize ({ b.tick σ with candidate := some c } : Addrs) = d at h1 ⊢
      generalize (b.tick σ).steps = n
      have h2 : Only6 g a ((d.tick σ).send (.dad c n)) := by
        refine (h1.trans (only6_tick g σ d)).trans ⟨rfl, rfl, rfl, rfl, rfl, rfl, fun _ h => by simpa [Addrs.send] using h⟩
      generalize (d.tick σ).send (.dad c n) = d' at h2 ⊢
      have h3 := h2.trans (Only6.trans ((Only6.refl g d').of (c := { d' with steps := d'.steps + 1 }) rfl rfl rfl rfl rfl rfl rfl)
        (only6_waitDad g (σ d'.steps) { d' with steps := d'.steps + 1 }))
      generalize waitDad (σ d'.steps) { d' with steps := d'.steps + 1 } = w at h3 ⊢
      obtain ⟨w, ev⟩ := w
      dsimp only at h3 ⊢
      have h4 : Only6 g a { w.tick σ with candidate := none } := h3.trans ((only6_tick g σ w).of rfl rfl rfl rfl rfl rfl rfl)
      generalize ({ w.tick σ with candidate := none } : Addrs) = v at h4 ⊢
      have h5 := h4.trans (only6_leave g v x)
      split <;> (rename_i e'; rw [e'] at h5; exact h5)

theorem only6_claim (g : Bool) (σ : Nat → List Heard) (a : Addrs) (x : Ip6Host) : Only6 g a (a.claim σ x).1 := by
  unfold claim
  have h := only6_dad g σ a x.address
  split
  · rename_i e; rw [e] at h; exact h
  · rename_i b f e
    rw [e] at h
    split
    · exact h.trans (only6_assign g b x)
    · exact h

theorem only6_claimAll (g : Bool) (σ : Nat → List Heard) (l : List Ip6Host) (a : Addrs) : Only6 g a (claimAll σ l a).1 := by
  induction l generalizing a with
  | nil => exact .refl g a
  | cons x l ih =>
    unfold claimAll
    have h := Only6.trans ((Only6.refl g a).of (c := { a with ip6Pending := a.ip6Pending.eraseP (sameHost x) }) rfl rfl rfl rfl rfl rfl rfl)
      (only6_claim g σ { a with ip6Pending := a.ip6Pending.eraseP (sameHost x) } x)
    split
    · rename_i e; rw [e] at h; exact h
    · rename_i b f e; rw [e] at h; exact h.trans (ih b)

theorem only6_linkLocal (g : Bool) (σ : Nat → List Heard) (a : Addrs) : Only6 g a (a.claimLinkLocal σ).1 := by
  unfold claimLinkLocal
  split
  · exact .refl g a
  · exact only6_claim g σ a _

theorem only6_prefixes (g : Bool) (σ : Nat → List Heard) (l : List (Ip6Network × Ip6Address)) (a : Addrs) :
    Only6 g a (claimPrefixes σ l a).1 := by
  induction l generalizing a with
  | nil => exact .refl g a
  | cons x l ih =>
    unfold claimPrefixes
    split
    · exact .refl g a
    · rename_i h _
      have k := only6_claim g σ a h
      split
      · rename_i e; rw [e] at k; exact k
      · rename_i b f e; rw [e] at k; exact k.trans (ih b)

theorem only6_waitRouter (g : Bool) (l : List Heard) (a : Addrs) : Only6 g a (waitRouter l a) := by
  induction l generalizing a with
  | nil => unfold waitRouter; split <;> exact (Only6.refl g a).of rfl rfl rfl rfl rfl rfl rfl
  | cons x l ih =>
    unfold waitRouter
    split
    · exact Only6.trans ((Only6.refl g a).of (c := { a with raEvent := a.raEvent - 1 }) rfl rfl rfl rfl rfl rfl rfl) (only6_heard g (x :: l) _)
    · exact (only6_heard g [x] a).trans (ih _)

theorem only6_create (σ : Nat → List Heard) (lla gua : Bool) (a : Addrs) :
    ∃ v, Only6 gua { a with ip6Support := v } (createIp6 σ lla gua a).1 := by
  have up : ∀ {b : Addrs}, Only6 gua a b → ∃ v, Only6 gua { a with ip6Support := v } b := fun h => ⟨a.ip6Support, h⟩
  unfold createIp6
  have h := only6_claimAll gua σ (a.ip6Pending.filter (·.address.isLinkLocal)) a
  split
  · rename_i e; rw [e] at h; exact up h
  · rename_i b f e
    rw [e] at h
    have k : Only6 gua a (if lla then b.claimLinkLocal σ else (b, .ok ())).1 := by
      split
      · exact h.trans (only6_linkLocal gua σ b)
      · exact h
    split
    · rename_i e; rw [e] at k; exact up k
    · rename_i c f e
      rw [e] at k
      split
      · exact ⟨false, k.1, k.2, k.3, k.4, k.5, rfl, k.7⟩
      · have m := k.trans (only6_claimAll gua σ c.ip6Pending c)
        split
        · rename_i e; rw [e] at m; exact up m
        · rename_i d f e
          rw [e] at m
          cases gua with
          | false => exact up m
          | true =>
            rw [if_pos rfl]
            dsimp only
            have h2 : Only6 true a ((d.tick σ).send .solicit) := (m.trans (only6_tick true σ d)).trans ⟨rfl, rfl, rfl, rfl, rfl, rfl, nofun⟩
            generalize (d.tick σ).send .solicit = d' at h2 ⊢
            have h3 := h2.trans (Only6.trans ((Only6.refl true d').of (c := { d' with steps := d'.steps + 1 }) rfl rfl rfl rfl rfl rfl rfl)
              (only6_waitRouter true (σ d'.steps) { d' with steps := d'.steps + 1 }))
            exact up (h3.trans (only6_prefixes true σ _ _))

theorem only6_acquire (σ : Nat → List Heard) (lla gua : Bool) (a : Addrs) :
    ∃ v, Only6 gua { a with ip6Support := v } (acquireIp6 σ lla gua a).1 := by
  unfold acquireIp6
  split
  · have h := only6_join gua a Icmp6.allNodes
    split
    · rename_i e; rw [e] at h; exact ⟨a.ip6Support, h⟩
    · rename_i b f e
      rw [e] at h
      obtain ⟨v, k⟩ := only6_create σ lla gua b
      refine ⟨v, Only6.trans ?_ k⟩
      exact ⟨h.1, h.2, h.3, h.4, h.5, rfl, h.7⟩
  · exact ⟨a.ip6Support, .refl gua a⟩

/-! ### IPv4 leaves IPv6 as it is -/

/-- `b` comes from `a` without a change to what concerns IPv6, and without switching IPv4 off. -/
structure Only4 (a b : Addrs) : Prop where
  mac : b.mac = a.mac
  ip6Host : b.ip6Host = a.ip6Host
  ip6Multicast : b.ip6Multicast = a.ip6Multicast
  macMulticast : b.macMulticast = a.macMulticast
  ip6Support : b.ip6Support = a.ip6Support
  ip4Support : b.ip4Support = a.ip4Support
  quiet : AddrNote.solicit ∈ b.out → AddrNote.solicit ∈ a.out

theorem Only4.trans {a b c : Addrs} (h : Only4 a b) (k : Only4 b c) : Only4 a c :=
  ⟨k.1.trans h.1, k.2.trans h.2, k.3.trans h.3, k.4.trans h.4, k.5.trans h.5, k.6.trans h.6, fun w => h.7 (k.7 w)⟩

theorem only4_tick (σ : Nat → List Heard) (a : Addrs) : Only4 a (a.tick σ) :=
  have k := (tick_kept σ a).1
  have s := heard_support (σ a.steps) a
  ⟨k.mac, k.ip6Host, k.ip6Multicast, k.macMulticast, s.2, s.1, fun h => k.out ▸ h⟩

theorem only4_probes (σ : Nat → List Heard) (l : List Ip4Address) (a : Addrs) : Only4 a (probeAll σ l a) := by
  induction l generalizing a with
  | nil => exact ⟨rfl, rfl, rfl, rfl, rfl, rfl, fun h => h⟩
  | cons ip l ih =>
    unfold probeAll
    refine ((only4_tick σ a).trans ?_).trans (ih _)
    split
    · exact ⟨rfl, rfl, rfl, rfl, rfl, rfl, fun h => h⟩
    · exact ⟨rfl, rfl, rfl, rfl, rfl, rfl, fun h => by simpa [Addrs.send] using h⟩

theorem only4_round (σ : Nat → List Heard) (a : Addrs) : Only4 a (probeRound σ a) := (only4_probes σ _ a).trans (only4_tick σ _)

theorem only4_claim (σ : Nat → List Heard) (l : List Ip4Host) (a : Addrs) : Only4 a (claimIp4 σ l a) := by
  induction l generalizing a with
  | nil => exact ⟨rfl, rfl, rfl, rfl, rfl, rfl, fun h => h⟩
  | cons x l ih =>
    unfold claimIp4
    dsimp only
    have h1 : Only4 a { a.tick σ with ip4Pending := (a.tick σ).ip4Pending.eraseP (sameHost4 x) } :=
      (only4_tick σ a).trans ⟨rfl, rfl, rfl, rfl, rfl, rfl, fun h => h⟩
    generalize ({ a.tick σ with ip4Pending := (a.tick σ).ip4Pending.eraseP (sameHost4 x) } : Addrs) = b at h1 ⊢
    refine ((h1.trans (only4_tick σ b)).trans ?_).trans (ih _)
    split
    · exact ⟨rfl, rfl, rfl, rfl, rfl, rfl, fun h => h⟩
    · exact ⟨rfl, rfl, rfl, rfl, rfl, rfl, fun h => by simpa [Addrs.send] using h⟩

end Verif.Addrs
