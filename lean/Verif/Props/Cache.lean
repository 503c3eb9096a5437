import Verif.Lemmas.Cache
/-! C40, C41: the ARP and neighbour caches. -/
namespace Verif
open Spec (Fresh Used PassOver passEvents)

section generic
variable {A : Type} [DecidableEq A]

theorem Cache.find_spec (hist : List (Cache.Ev A)) (ip : A) :
    let r := Cache.find (Cache.run [] hist) ip
    (∀ mac, r.2.1 = some mac ↔ ∃ t, Fresh hist ip mac t) ∧ r.2.2 = if r.2.1 = none then [ip] else [] := by
  obtain ⟨h1, -⟩ := Cache.run_inv hist ip
  simp only [← h1]
  generalize Cache.run [] hist = c
  unfold Cache.find
  cases hg : c.get? ip with
  | none => simp
  | some e => simp

theorem Cache.visit_spec (hist : List (Cache.Ev A)) (ip : A) (v v' : Int) {l : List A}
    (h : (Cache.visit (Cache.run [] hist) ip v v').2 = .ok l) :
    (l = [] ∨ l = [ip]) ∧ (l = [ip] ↔ ∃ mac t, Fresh hist ip mac t ∧ Used hist ip t ∧ v - t ≤ 3600 * 1000000 ∧
      v' - t > (3600 - 300) * 1000000) := by
  obtain ⟨h1, h2⟩ := Cache.run_inv hist ip
  simp only [Cache.visit] at h
  cases hg : (Cache.run [] hist).get? ip with
  | none => rw [hg] at h; cases h
  | some e =>
    obtain ⟨hp, hu⟩ := h2 e hg
    rw [hg] at h
    simp only [hp, Bool.false_eq_true, if_false] at h
    have key : (∃ mac t, Fresh hist ip mac t ∧ Used hist ip t ∧ v - t ≤ 3600 * 1000000 ∧ v' - t > (3600 - 300) * 1000000) ↔
        e.hits ≠ 0 ∧ v - e.created ≤ 3600 * 1000000 ∧ v' - e.created > (3600 - 300) * 1000000 := by
      constructor
      · rintro ⟨mac, t, hf, hus, hv⟩
        rw [← h1, hg] at hf
        obtain ⟨e', he, rfl, rfl⟩ := hf
        obtain rfl := Option.some.inj he
        exact ⟨hu.mpr hus, hv⟩
      · rintro ⟨hus, hv⟩
        exact ⟨e.mac, e.created, (h1 _ _).mp ⟨e, hg, rfl, rfl⟩, hu.mp hus, hv⟩
    rw [key]
    by_cases h3 : v - e.created > Cache.maxAge
    · rw [if_pos h3] at h
      simp [Cache.maxAge] at h h3; subst h; simp; omega
    · rw [if_neg h3] at h
      by_cases h4 : (decide (v' - e.created > Cache.maxAge - Cache.refreshTime) && decide (e.hits ≠ 0)) = true
      · rw [if_pos h4] at h
        simp [Cache.maxAge, Cache.refreshTime] at h h3 h4; subst h
        simp [h4]; omega
      · rw [if_neg h4] at h
        simp [Cache.maxAge, Cache.refreshTime] at h h3 h4; subst h
        simp; grind

theorem Cache.pass_spec_aux (c : Cache A) (rounds : List (List (Cache.Ev A) × A × Int × Int))
    (hn : (rounds.map (·.2.1)).Nodup) (hin : ∀ r ∈ rounds, (c.get? r.2.1).isSome)
    (hc : ∀ r ∈ rounds, ∀ e ∈ r.1, ∀ ip v v', e ≠ .visit ip v v') (pre post : List (Cache.Ev A)) (e : Cache.Ev A)
    (hs : passEvents rounds = pre ++ e :: post) : ∃ l, (Cache.step (Cache.run c pre) e).2.requests = .ok l := by
  induction rounds generalizing c pre with
  | nil => simp [passEvents] at hs
  | cons r rs ih =>
    rw [passEvents, List.flatMap_cons, ← passEvents] at hs
    rw [List.map_cons, List.nodup_cons] at hn
    have hkeep : ∀ (l : List (Cache.Ev A)) (c : Cache A) (ip : A), (∀ e ∈ l, ∀ v v', e ≠ .visit ip v v') → (c.get? ip).isSome →
        ((Cache.run c l).get? ip).isSome := by
      intro l
      induction l with
      | nil => exact fun c ip _ h => h
      | cons e l ih =>
        intro c ip h1 h2
        exact ih _ ip (fun x hx => h1 x (by simp [hx])) (Cache.step_keeps c e ip (h1 e (by simp)) h2)
    have hstepc : ∀ (c : Cache A) (e : Cache.Ev A), (∀ ip v v', e ≠ .visit ip v v') →
        ∃ l, (Cache.step c e).2.requests = .ok l := by
      intro c e he
      cases e with
      | add => exact ⟨_, rfl⟩
      | find => exact ⟨_, rfl⟩
      | visit ip v v' => exact absurd rfl (he ip v v')
    rcases List.append_eq_append_iff.mp hs with ⟨a, h1, h2⟩ | ⟨a, h1, h2⟩
    · -- the event lies in a later round
      rw [h1, Cache.run, List.foldl_append, ← Cache.run, ← Cache.run]
      refine ih _ hn.2 ?_ (fun r' hr' => hc r' (by simp [hr'])) a h2
      intro r' hr'
      refine hkeep _ _ _ ?_ (hin r' (by simp [hr']))
      intro x hx v v'
      rcases List.mem_append.mp hx with hx | hx
      · exact hc r (by simp) x hx _ v v'
      · rw [List.mem_singleton] at hx
        rw [hx]
        intro h
        injection h with h
        exact hn.1 (List.mem_map.mpr ⟨r', hr', h.symm⟩)
    · cases a with
      | nil =>
        rw [List.append_nil] at h1
        rw [List.nil_append] at h2
        rw [← h1, ← List.append_nil (r.1 ++ _), Cache.run, List.foldl_append, ← Cache.run, ← Cache.run]
        refine ih _ hn.2 ?_ (fun r' hr' => hc r' (by simp [hr'])) [] h2.symm
        intro r' hr'
        refine hkeep _ _ _ ?_ (hin r' (by simp [hr']))
        intro x hx v v'
        rcases List.mem_append.mp hx with hx | hx
        · exact hc r (by simp) x hx _ v v'
        · rw [List.mem_singleton] at hx
          rw [hx]
          intro h
          injection h with h
          exact hn.1 (List.mem_map.mpr ⟨r', hr', h.symm⟩)
      | cons x a =>
        rw [List.cons_append] at h2
        obtain ⟨rfl, -⟩ := List.cons.inj h2
        rcases Cache.snoc_split.mp h1 with ⟨rfl, rfl, rfl⟩ | ⟨b, -, hb⟩
        · have := hkeep r.1 c r.2.1 (fun x hx v v' => hc r (by simp) x hx _ v v') (hin r (by simp))
          obtain ⟨y, hy⟩ := Option.isSome_iff_exists.mp this
          simp only [Cache.step, Cache.visit, hy]
          split
          · exact ⟨_, rfl⟩
          split
          · exact ⟨_, rfl⟩
          split <;> exact ⟨_, rfl⟩
        · exact hstepc _ _ (hc r (by simp) e (by rw [hb]; simp))

/-- A pass over the addresses present at its start never fails, whatever calls come between its visits. -/
theorem Cache.pass_spec (hist : List (Cache.Ev A)) (rounds : List (List (Cache.Ev A) × A × Int × Int))
    (hp : PassOver (Cache.run [] hist).keys rounds) (pre post : List (Cache.Ev A)) (e : Cache.Ev A)
    (hs : passEvents rounds = pre ++ e :: post) :
    ∃ l, (Cache.step (Cache.run [] (hist ++ pre)) e).2.requests = .ok l := by
  rw [Cache.run, List.foldl_append, ← Cache.run, ← Cache.run]
  refine Cache.pass_spec_aux _ rounds (by rw [hp.1]; exact Cache.run_nodup hist) ?_ hp.2 pre post e hs
  intro r hr
  obtain ⟨v, hv⟩ := (Dict.mem_keys_iff (Cache.run [] hist) r.2.1).mp (by rw [← hp.1]; exact List.mem_map.mpr ⟨r, hr, rfl⟩)
  rw [hv]; rfl

end generic

/-- C40, lookups: after every history of adds, lookups and maintenance visits on the ARP cache, `find_entry` returns exactly the
MAC address last added for the address if no visit since found it more than an hour old, and nothing otherwise; it sends one
request, for that address, exactly when it returns nothing. -/
theorem C40_arp_lookup (hist : List (Cache.Ev Ip4Address)) (ip : Ip4Address) :
    let r := Cache.find (Cache.run [] hist) ip
    (∀ mac, r.2.1 = some mac ↔ ∃ t, Fresh hist ip mac t) ∧ r.2.2 = if r.2.1 = none then [ip] else [] :=
  Cache.find_spec hist ip

/-- C40, refreshing: a maintenance visit sends at most one request, for the address visited, and sends it exactly when the entry is
there, is at most an hour old, is within five minutes of that, and has been used since the last such request. -/
theorem C40_arp_refresh (hist : List (Cache.Ev Ip4Address)) (ip : Ip4Address) (v v' : Int) {l : List Ip4Address}
    (h : (Cache.visit (Cache.run [] hist) ip v v').2 = .ok l) :
    (l = [] ∨ l = [ip]) ∧ (l = [ip] ↔ ∃ mac t, Fresh hist ip mac t ∧ Used hist ip t ∧ v - t ≤ 3600 * 1000000 ∧
      v' - t > (3600 - 300) * 1000000) := Cache.visit_spec hist ip v v' h

/-- C40: a maintenance pass never raises, whatever calls come in between. -/
theorem C40_arp_pass (hist : List (Cache.Ev Ip4Address)) (rounds : List (List (Cache.Ev Ip4Address) × Ip4Address × Int × Int))
    (hp : PassOver (Cache.run [] hist).keys rounds) (pre post : List (Cache.Ev Ip4Address)) (e : Cache.Ev Ip4Address)
    (hs : passEvents rounds = pre ++ e :: post) :
    ∃ l, (Cache.step (Cache.run [] (hist ++ pre)) e).2.requests = .ok l := Cache.pass_spec hist rounds hp pre post e hs

/-- C40: a request is an ARP request for the address, broadcast from the stack's MAC and first address. -/
theorem C40_arp_request (s : Stack) (tpa : Ip4Address) :
    s.arpRequest tpa = (s.mac, ⟨0xFFFFFFFFFFFF, by decide⟩,
      .arp 1 s.mac ((s.ip4Host.map (·.address)).headD ⟨0, by decide⟩) ⟨0, by decide⟩ tpa) := by
  rw [Stack.arpRequest, Stack.ip4Unicast]
  cases s.ip4Host <;> rfl

/-- C41: as C40 for the neighbour cache. -/
theorem C41_nd_lookup (hist : List (Cache.Ev Ip6Address)) (ip : Ip6Address) :
    let r := Cache.find (Cache.run [] hist) ip
    (∀ mac, r.2.1 = some mac ↔ ∃ t, Fresh hist ip mac t) ∧ r.2.2 = if r.2.1 = none then [ip] else [] :=
  Cache.find_spec hist ip

theorem C41_nd_refresh (hist : List (Cache.Ev Ip6Address)) (ip : Ip6Address) (v v' : Int) {l : List Ip6Address}
    (h : (Cache.visit (Cache.run [] hist) ip v v').2 = .ok l) :
    (l = [] ∨ l = [ip]) ∧ (l = [ip] ↔ ∃ mac t, Fresh hist ip mac t ∧ Used hist ip t ∧ v - t ≤ 3600 * 1000000 ∧
      v' - t > (3600 - 300) * 1000000) := Cache.visit_spec hist ip v v' h

theorem C41_nd_pass (hist : List (Cache.Ev Ip6Address)) (rounds : List (List (Cache.Ev Ip6Address) × Ip6Address × Int × Int))
    (hp : PassOver (Cache.run [] hist).keys rounds) (pre post : List (Cache.Ev Ip6Address)) (e : Cache.Ev Ip6Address)
    (hs : passEvents rounds = pre ++ e :: post) :
    ∃ l, (Cache.step (Cache.run [] (hist ++ pre)) e).2.requests = .ok l := Cache.pass_spec hist rounds hp pre post e hs

/-- C41: the solicitation is sent from an address of the stack whose network has the target, or from `::` if there is none. -/
theorem C41_nd_source (s : Stack) (target : Ip6Address) :
    (∃ h ∈ s.ip6Host, h.network.contains target ∧ s.ndSource target = h.address) ∨
      ((∀ h ∈ s.ip6Host, h.network.contains target = false) ∧ s.ndSource target = ⟨0, by decide⟩) := by
  have aux : ∀ (l : List Ip6Host) (z : Ip6Address),
      (∃ h ∈ l, h.network.contains target ∧
        l.foldl (fun src h => if h.network.contains target then h.address else src) z = h.address) ∨
      ((∀ h ∈ l, h.network.contains target = false) ∧
        l.foldl (fun src h => if h.network.contains target then h.address else src) z = z) := by
    intro l
    induction l with
    | nil => intro z; exact Or.inr ⟨by simp, rfl⟩
    | cons h l ih =>
      intro z
      rw [List.foldl_cons]
      rcases ih (if h.network.contains target then h.address else z) with ⟨x, h1, h2, h3⟩ | ⟨h1, h2⟩
      · exact Or.inl ⟨x, by simp [h1], h2, h3⟩
      · rw [h2]
        cases hc : h.network.contains target
        · right; exact ⟨by simpa [hc] using h1, rfl⟩
        · left; exact ⟨h, by simp, hc, rfl⟩
  exact aux s.ip6Host .zero

namespace Example

def m1 : MacAddress := ⟨0x020000000001, by decide⟩
def m2 : MacAddress := ⟨0x020000000002, by decide⟩
def a1 : Ip4Address := ⟨0x0A000101, by decide⟩
def a2 : Ip4Address := ⟨0x0A000102, by decide⟩

/-- Added, used, replaced; another address expires. -/
def cacheHistory : List (Cache.Ev Ip4Address) :=
  [.add a1 m1 0, .find a1, .add a2 m2 0, .add a1 m2 3000000000, .visit a1 3600000001 3600000001,
    .visit a2 3600000001 3600000001]

example : (Cache.find (Cache.run [] cacheHistory) a1).2 = (some m2, []) ∧
    (Cache.find (Cache.run [] cacheHistory) a2).2 = (none, [a2]) ∧ Fresh cacheHistory a1 m2 3000000000 := by
  refine ⟨by decide +kernel, by decide +kernel, ⟨[.add a1 m1 0, .find a1, .add a2 m2 0],
    [.visit a1 3600000001 3600000001, .visit a2 3600000001 3600000001], rfl, ?_, ?_⟩⟩
  · simp
  · intro v v' h
    simp at h
    rcases h with ⟨rfl, rfl⟩ | ⟨h, -⟩
    · decide
    · exact absurd h (by decide)

/-- A used entry near its end is refreshed once. -/
example : ((Cache.visit (Cache.run [] [.add a1 m1 0, .find a1]) a1 3300000001 3300000001).2,
    (Cache.visit (Cache.run [] [.add a1 m1 0, .find a1, .visit a1 3300000001 3300000001]) a1 3300100001 3300100001).2) =
    (.ok [a1], .ok []) := by decide +kernel

/-- The same does not hold without the assumption that a visit is atomic: if an address is added anew between the maintenance
thread's finding the old entry too old and its removing it, the new entry is lost. -/
theorem C40_race_witness : let c := Cache.run [] [.add a1 m1 0]
    (c.get? a1).map (Cache.expired · 3600000001) = some true ∧
      (Cache.find ((Cache.add c a1 m2 3600000002).erase a1) a1).2.1 = none := by decide +kernel

end Example
end Verif
