import Verif.Lemmas.CacheThreads
/-!
C100: the ARP and neighbour caches with a thread switch possible between any two accesses to the dict, to an entry or to the clock.  `A` is the type of
the addresses; the two classes have the same code for IPv4 and IPv6.
-/
namespace Verif
open Spec CacheThreads
variable {A : Type} [DecidableEq A]

/-- The maintenance thread never ends by an exception, whatever the other threads do meanwhile. -/
theorem C100_alive (xs : List (CacheThreads.Step A)) : (({} : CacheThreads.St A).run xs).maint ≠ .dead := (inv xs).alive

/-- **C100.** What a lookup returns is what was known of the address at the moment it looked: the MAC address last learned for it and not removed since,
or nothing if there was none. -/
theorem C100_lookup (xs : List (CacheThreads.Step A)) (k : Nat) (ip : A) (r : Option MacAddress)
    (h : (({} : CacheThreads.St A).run xs).finds[k]? = some (ip, .done r)) :
    ∃ ws, ws <+: xs ∧ (({} : CacheThreads.St A).run ws).finds[k]? = some (ip, .look) ∧
      (remembered (({} : CacheThreads.St A).run ws).log ip).map (·.1) = r :=
  found xs k ip (.done r) h

/-- If nothing is known when it looks, the call returns nothing and a request for the address goes out. -/
theorem C100_asks (xs : List (CacheThreads.Step A)) (k : Nat) (ip : A) (h : (({} : CacheThreads.St A).run xs).finds[k]? = some (ip, .look))
    (hn : remembered (({} : CacheThreads.St A).run xs).log ip = none) :
    (({} : CacheThreads.St A).run (xs ++ [.go k])).finds[k]? = some (ip, .done none) ∧
    (({} : CacheThreads.St A).run (xs ++ [.go k])).log = (({} : CacheThreads.St A).run xs).log ++ [.asked ip] := by
  have hd : (({} : CacheThreads.St A).run xs).dict.get? ip = none := by
    cases hd : (({} : CacheThreads.St A).run xs).dict.get? ip with
    | none => rfl
    | some e =>
      obtain ⟨x, -, hr⟩ := (inv xs).valid ip e hd
      rw [hn] at hr
      cases hr
  rw [CacheThreads.run_snoc, CacheThreads.St.step, h]
  dsimp only
  rw [CacheThreads.St.look, hd]
  exact ⟨List.getElem?_set_self (List.getElem?_eq_some_iff.1 h).1, rfl⟩

/-- If the address is known when it looks, the call sends no request, at this step or later, and three steps of it, whatever comes between them,
bring back the MAC address known when it looked. -/
theorem C100_finds (xs ys zs : List (CacheThreads.Step A)) (k : Nat) (ip : A) (mac : MacAddress) (t : Int)
    (h : (({} : CacheThreads.St A).run xs).finds[k]? = some (ip, .look)) (hn : remembered (({} : CacheThreads.St A).run xs).log ip = some (mac, t))
    (hy : .go k ∉ ys) (hz : .go k ∉ zs) :
    (({} : CacheThreads.St A).run (xs ++ .go k :: ys ++ .go k :: zs ++ [.go k])).finds[k]? = some (ip, .done (some mac)) ∧
    (({} : CacheThreads.St A).run (xs ++ [.go k])).log = (({} : CacheThreads.St A).run xs).log ∧
    (({} : CacheThreads.St A).run (xs ++ .go k :: ys ++ [.go k])).log = (({} : CacheThreads.St A).run (xs ++ .go k :: ys)).log ∧
    (({} : CacheThreads.St A).run (xs ++ .go k :: ys ++ .go k :: zs ++ [.go k])).log = (({} : CacheThreads.St A).run (xs ++ .go k :: ys ++ .go k :: zs)).log := by
  cases hd : (({} : CacheThreads.St A).run xs).dict.get? ip with
  | none => rw [(inv xs).none ip hd] at hn; cases hn
  | some e =>
    obtain ⟨x, hx, hr⟩ := (inv xs).valid ip e hd
    rw [hn] at hr
    obtain ⟨hm⟩ : mac = x.mac := by cases hr; rfl
    have h1 : ({} : CacheThreads.St A).run (xs ++ [.go k]) =
        { ({} : CacheThreads.St A).run xs with finds := (({} : CacheThreads.St A).run xs).finds.set k (ip, .bump e) } := by
      rw [CacheThreads.run_snoc, CacheThreads.St.step, h]
      dsimp only
      rw [CacheThreads.St.look, hd]
    obtain ⟨hf, y, hy1, hy2⟩ := waits (xs ++ [.go k]) ys k (ip, .bump e) e x hy
      (by rw [h1]; exact List.getElem?_set_self (List.getElem?_eq_some_iff.1 h).1) (by rw [h1]; exact hx)
    rw [← List.append_cons] at hf hy1
    have h2 : ({} : CacheThreads.St A).run (xs ++ .go k :: ys ++ [.go k]) = { ({} : CacheThreads.St A).run (xs ++ .go k :: ys) with
        finds := (({} : CacheThreads.St A).run (xs ++ .go k :: ys)).finds.set k (ip, .write e y.hits) } := by
      rw [CacheThreads.run_snoc, CacheThreads.St.step, hf]
      dsimp only
      rw [CacheThreads.St.look, hy1]
    obtain ⟨hf', z, hz1, hz2⟩ := waits (xs ++ .go k :: ys ++ [.go k]) zs k (ip, .write e y.hits) e y hz
      (by rw [h2]; exact List.getElem?_set_self (List.getElem?_eq_some_iff.1 hf).1) (by rw [h2]; exact hy1)
    rw [← List.append_cons] at hf' hz1
    have h3 : ({} : CacheThreads.St A).run (xs ++ .go k :: ys ++ .go k :: zs ++ [.go k]) = { ({} : CacheThreads.St A).run (xs ++ .go k :: ys ++ .go k :: zs) with
        objs := (({} : CacheThreads.St A).run (xs ++ .go k :: ys ++ .go k :: zs)).objs.set e { z with hits := y.hits + 1 }
        finds := (({} : CacheThreads.St A).run (xs ++ .go k :: ys ++ .go k :: zs)).finds.set k (ip, .done (some z.mac)) } := by
      rw [CacheThreads.run_snoc, CacheThreads.St.step, hf']
      dsimp only
      rw [CacheThreads.St.look, hz1]
    refine ⟨?_, by rw [h1], by rw [h2], by rw [h3]⟩
    rw [h3, hz2, hy2]
    exact List.getElem?_set_self (List.getElem?_eq_some_iff.1 hf').1

/-- An entry is removed only by the maintenance thread at a visit to it, and unless the address was learned anew during this visit, the entry was over
an hour old when the thread read the clock at this visit.  (Missing, and false: the same when it was learned anew; see `C100_lost`.) -/
theorem C100_removed_partial (xs : List (CacheThreads.Step A)) (e : CacheThreads.Step A) (ip : A)
    (h : (({} : CacheThreads.St A).run (xs ++ [e])).log = (({} : CacheThreads.St A).run xs).log ++ [.removed ip]) :
    ∃ ys zs todo, xs = ys ++ zs ∧ (({} : CacheThreads.St A).run ys).maint = .perm ip todo ∧
      (∀ ws, ws <+: zs → AtEntry ip (({} : CacheThreads.St A).run (ys ++ ws)).maint) ∧
      (NotLearned ip zs → ∃ mac t₀ t, remembered (({} : CacheThreads.St A).run xs).log ip = some (mac, t₀) ∧ t ∈ readings zs ∧ t - t₀ > hour) := by
  rw [CacheThreads.run_snoc] at h
  rcases log_step (({} : CacheThreads.St A).run xs) e with h' | ⟨i, h'⟩ | ⟨i, mac, t, -, h'⟩ | ⟨t, i, todo, -, hm, -, h'⟩
  · rw [h'] at h
    exact absurd (congrArg List.length h) (by simp)
  · rw [h'] at h
    exact absurd (List.append_cancel_left h) (by simp)
  · rw [h'] at h
    exact absurd (List.append_cancel_left h) (by simp)
  · rw [h'] at h
    have : i = ip := by simpa using List.append_cancel_left h
    subst this
    obtain ⟨ys, zs, td, rfl, h1, h2, h3⟩ := visit xs i (by rw [hm]; rfl)
    refine ⟨ys, zs, td, rfl, h1, h2, ?_⟩
    rw [hm] at h3
    intro hn
    obtain ⟨mac, t₀, t, h4, h5, h6⟩ := h3 hn
    exact ⟨mac, t₀, t, h4, mem_readings.2 h5, h6⟩

/-- What was learned stays, as long as the clock has not gone past an hour after it was learned and nothing else is learned for the address, provided the
maintenance thread was not already about to remove the entry that was there before. -/
theorem C100_kept (xs zs : List (CacheThreads.Step A)) (ip : A) (mac : MacAddress) (t₀ : Int)
    (hr : remembered (({} : CacheThreads.St A).run xs).log ip = some (mac, t₀))
    (hp : ∀ todo, (({} : CacheThreads.St A).run xs).maint ≠ .pop ip todo)
    (ha : ∀ t todo, (({} : CacheThreads.St A).run xs).maint = .age ip t todo → t - t₀ ≤ hour)
    (h1 : NotLearned ip zs) (h2 : ∀ t ∈ readings zs, t - t₀ ≤ hour) :
    remembered (({} : CacheThreads.St A).run (xs ++ zs)).log ip = some (mac, t₀) := by
  refine (kept xs zs hr ?_ h1 h2).1
  cases hq : (({} : CacheThreads.St A).run xs).maint with
  | pop i todo => rintro rfl; exact hp todo hq
  | age i t todo => rintro rfl; exact ha t todo hq
  | sleep => trivial
  | pass _ => trivial
  | perm _ _ => trivial
  | clock _ _ => trivial
  | clock' _ _ => trivial
  | age' _ _ _ => trivial
  | hits _ _ => trivial
  | reset _ _ => trivial
  | send _ _ => trivial
  | dead => trivial

/-- An entry over an hour old goes: once the maintenance thread has come to it, four steps of this thread remove it, if nothing is learned for the address
meanwhile, whatever else the other threads do. -/
theorem C100_swept (xs zs : List (CacheThreads.Step A)) (ip : A) (todo : List A) (mac : MacAddress) (t₀ a t b c : Int)
    (hm : (({} : CacheThreads.St A).run xs).maint = .perm ip todo) (hr : remembered (({} : CacheThreads.St A).run xs).log ip = some (mac, t₀))
    (h1 : NotLearned ip zs) (h2 : readings zs = [a, t, b, c]) (h3 : t - t₀ > hour) :
    remembered (({} : CacheThreads.St A).run (xs ++ zs)).log ip = none := swept xs zs hm hr h1 h2 h3

/-- A round of the maintenance thread goes through every address known when it began: an address known then is still to be visited, is being visited, or
has been. -/
theorem C100_round (xs zs : List (CacheThreads.Step A)) (ip : A) (hm : (({} : CacheThreads.St A).run xs).maint = .sleep)
    (hr : remembered (({} : CacheThreads.St A).run xs).log ip ≠ none) (hz : 0 < (readings zs).length)
    (he : (({} : CacheThreads.St A).run (xs ++ zs)).maint = .sleep) :
    ∃ us vs, zs = us ++ vs ∧ ∃ todo, (({} : CacheThreads.St A).run (xs ++ us)).maint = .perm ip todo := by
  rcases round xs zs ip hm hr with h | ⟨h, -, -⟩ | h
  · exact h
  · rw [h] at hz
    exact absurd hz (by simp)
  · rw [he] at h
    cases h

/-- **Counterexample.** An address learned two hours ago is learned again after the maintenance thread has judged the old entry and before it removes
it; the removal takes the new entry, and the next lookup finds nothing although the address was learned a moment ago. -/
theorem C100_lost : ∃ (xs : List (CacheThreads.Step Nat)) (ip : Nat) (mac : MacAddress) (now : Int), 
    CacheThreads.Step.add ip mac now ∈ xs ∧ (∀ t ∈ readings xs, t ≤ now) ∧ (∀ mac' t, CacheThreads.Step.add ip mac' t ∈ xs → t ≤ now) ∧
    remembered (({} : CacheThreads.St Nat).run xs).log ip = none ∧
    (({} : CacheThreads.St Nat).run (xs ++ [.find ip, .go 0])).finds[0]? = some (ip, .done none) := by
  refine ⟨[.add 7 ⟨1, by decide⟩ 0, .maint (2 * hour), .maint (2 * hour), .maint (2 * hour), .maint (2 * hour), .maint (2 * hour), .add 7 ⟨2, by decide⟩ (2 * hour),
    .maint (2 * hour)], 7, ⟨2, by decide⟩, 2 * hour, by decide, by decide, ?_, by decide +kernel, by decide +kernel⟩
  intro mac' t h
  simp at h
  rcases h with ⟨-, rfl⟩ | ⟨-, rfl⟩ <;> decide

namespace Example.CacheThreads
open CacheThreads

/-- Two addresses learned, a lookup under way while the maintenance thread visits the first. -/
def before : List (Step Nat) := [.add 7 ⟨1, by decide⟩ 0, .add 8 ⟨3, by decide⟩ 5, .find 7, .go 0, .maint 10, .maint 10]

example : (({} : St Nat).run before).maint = .perm 7 [8] ∧ remembered (({} : St Nat).run before).log 7 = some (⟨1, by decide⟩, 0) ∧
    (({} : St Nat).run before).finds[0]? = some (7, .bump 0) := by decide +kernel

/-- C100_lookup: the call goes on while the address is learned anew, and returns what it found. -/
example : (({} : St Nat).run (before ++ [.add 7 ⟨2, by decide⟩ 20, .go 0, .maint 30, .go 0])).finds[0]? = some (7, .done (some ⟨1, by decide⟩)) := by decide +kernel

/-- C100_finds. -/
example : (({} : St Nat).run (before ++ [.find 8])).finds[1]? = some (8, .look) ∧
    remembered (({} : St Nat).run (before ++ [.find 8])).log 8 = some (⟨3, by decide⟩, 5) := by decide +kernel

/-- C100_asks. -/
example : (({} : St Nat).run (before ++ [.find 9])).finds[1]? = some (9, .look) ∧
    remembered (({} : St Nat).run (before ++ [.find 9])).log 9 = none := by decide +kernel

/-- C100_kept: the thread goes on, and a lookup goes on, within the hour. -/
example : (∀ todo, (({} : St Nat).run before).maint ≠ .pop 7 todo) ∧ (∀ t todo, (({} : St Nat).run before).maint = .age 7 t todo → t - 0 ≤ hour) ∧
    (∀ t ∈ readings [Step.maint 10, .go 0, .maint 3600000000, .add 8 ⟨4, by decide⟩ 11, .maint (A := Nat) 12], t - 0 ≤ hour) := by
  have h : (({} : St Nat).run before).maint = .perm 7 [8] := by decide +kernel
  refine ⟨?_, ?_, by decide⟩
  · intro todo; rw [h]; simp
  · intro t todo; rw [h]; simp

/-- C100_swept, C100_removed_partial: the visit more than an hour later. -/
example : remembered (({} : St Nat).run (before ++ [.maint 10, .go 0, .maint 3600000001, .maint 12, .find 7, .maint 13])).log 7 = none ∧
    (({} : St Nat).run (before ++ [.maint 10, .go 0, .maint 3600000001, .maint 12, .find 7] ++ [.maint 13])).log =
      (({} : St Nat).run (before ++ [.maint 10, .go 0, .maint 3600000001, .maint 12, .find 7])).log ++ [.removed 7] := by decide +kernel

/-- C100_round: a round begun with an address known comes to its end. -/
example : (({} : St Nat).run [.add 7 ⟨1, by decide⟩ 0]).maint = .sleep ∧ remembered (({} : St Nat).run [.add 7 ⟨1, by decide⟩ 0]).log 7 ≠ none ∧
    (({} : St Nat).run ([.add 7 ⟨1, by decide⟩ 0] ++ [.maint 1, .maint 1, .maint 1, .maint 1, .maint 1, .maint 1, .maint 1, .maint 1])).maint = .sleep := by decide +kernel

end Example.CacheThreads
end Verif
