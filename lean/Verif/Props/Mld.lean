import Verif.Props.Addrs
/-! Listener reports: what routers are told about the groups the stack is a member of. -/
namespace Verif
namespace Spec
open Addrs

/-- The operation makes the stack a member of a group. -/
def Joins : Op → Prop
  | .assign _ | .join _ => True
  | .remove _ | .leave _ => False

/-- The groups a report is to list, given the addresses and the groups joined on their own: all but that of all nodes, of which
every node is a member (RFC 3810 6). -/
def Reported (hs : List Ip6Host) (gs : List Ip6Address) (g : Ip6Address) : Prop :=
  g ≠ Icmp6.allNodes ∧ (g ∈ gs ∨ ∃ x ∈ hs, g = solicitedNode x.address)

/-- The groups in the last report among what was sent. -/
def lastReport (out : List AddrNote) : Option (List Ip6Address) :=
  out.foldl (fun r n => match n with
    | .report l => some l
    | _ => r) none

end Spec
open Spec Addrs

theorem nodup_eraseDups' {α : Type} [DecidableEq α] : ∀ (n : Nat) (l : List α), l.length ≤ n → l.eraseDups.Nodup
  | _, [], _ => by simp
  | 0, _ :: _, h => by simp at h
  | n + 1, a :: l, h => by
    rw [List.eraseDups_cons, List.nodup_cons]
    refine ⟨by rw [List.mem_eraseDups, List.mem_filter]; simp, nodup_eraseDups' n _ ?_⟩
    have := List.length_filter_le (fun b => !b == a) l
    simp only [List.length_cons] at h
    omega

theorem Addrs.report_out (a : Addrs) :
    (∃ l, a.report.out = a.out ++ [.report l] ∧ l ≠ [] ∧ l.Nodup ∧ ∀ g, g ∈ l ↔ g ≠ Icmp6.allNodes ∧ g ∈ a.ip6Multicast) ∨
    a.report.out = a.out ∧ ∀ g ∈ a.ip6Multicast, g = Icmp6.allNodes := by
  unfold Addrs.report
  dsimp only
  split
  · rename_i h
    refine .inr ⟨rfl, fun g hg => Classical.byContradiction fun hn => ?_⟩
    have : g ∈ (a.ip6Multicast.filter (· ≠ Icmp6.allNodes)).eraseDups := by
      rw [List.mem_eraseDups, List.mem_filter]; exact ⟨hg, by simpa using hn⟩
    rw [h] at this; cases this
  · rename_i h
    refine .inl ⟨_, rfl, h, nodup_eraseDups' _ _ (Nat.le_refl _), fun g => ?_⟩
    rw [List.mem_eraseDups, List.mem_filter]
    simp [and_comm]

/-- Nothing is sent but a report of the groups, by an operation that joins. -/
theorem Addrs.step_out (mac : MacAddress) (ops : List Op) (op : Op) (p : List Ip6Host × List Ip6Address)
    (h : holdings (ops ++ [op]) = some p) :
    (Joins op → (∃ l, (run mac (ops ++ [op])).out = (run mac ops).out ++ [.report l] ∧ l ≠ [] ∧ l.Nodup ∧
        ∀ g, g ∈ l ↔ g ≠ Icmp6.allNodes ∧ g ∈ (run mac (ops ++ [op])).ip6Multicast) ∨
      (run mac (ops ++ [op])).out = (run mac ops).out ∧ ∀ g ∈ (run mac (ops ++ [op])).ip6Multicast, g = Icmp6.allNodes) ∧
    (¬ Joins op → (run mac (ops ++ [op])).out = (run mac ops).out) := by
  rw [run_snoc]
  have hj : ∀ g, g.isMulticast = true → ∀ a : Addrs,
      (∃ l, (a.joinGroup g).1.out = a.out ++ [.report l] ∧ l ≠ [] ∧ l.Nodup ∧
        ∀ x, x ∈ l ↔ x ≠ Icmp6.allNodes ∧ x ∈ (a.joinGroup g).1.ip6Multicast) ∨
      (a.joinGroup g).1.out = a.out ∧ ∀ x ∈ (a.joinGroup g).1.ip6Multicast, x = Icmp6.allNodes := by
    intro g hg a
    unfold joinGroup
    rw [mac_eq hg]
    dsimp only
    obtain ⟨o, e⟩ := report_eq { a with ip6Multicast := a.ip6Multicast ++ [g], macMulticast := a.macMulticast ++ [groupMac g] }
    have := report_out { a with ip6Multicast := a.ip6Multicast ++ [g], macMulticast := a.macMulticast ++ [groupMac g] }
    rw [e] at this ⊢
    exact this
  have hl : ∀ g, ∀ a : Addrs, (a.leaveGroup g).1.out = a.out := by
    intro g a
    unfold leaveGroup
    split
    · rfl
    · dsimp only
      split
      · rfl
      · split <;> rfl
  cases op with
  | assign x =>
    refine ⟨fun _ => ?_, fun hn => absurd trivial hn⟩
    show _ ∨ _
    simp only [step, assignIp6, solicited_eq]
    exact hj _ (solicited_multicast _) _
  | join g =>
    refine ⟨fun _ => ?_, fun hn => absurd trivial hn⟩
    refine hj g ?_ _
    unfold holdings at h
    rw [List.foldl_append] at h
    simp only [List.foldl_cons, List.foldl_nil] at h
    cases hh : List.foldl hold (some ([], [])) ops with
    | none => rw [hh] at h; simp [hold] at h
    | some q =>
      obtain ⟨a, b⟩ := q
      rw [hh] at h
      simp only [hold] at h
      split at h
      · assumption
      · cases h
  | remove x =>
    refine ⟨fun hn => False.elim hn, fun _ => ?_⟩
    simp only [step, removeIp6]
    split
    · rw [solicited_eq]; exact hl _ _
    · rfl
  | leave g => exact ⟨fun hn => False.elim hn, fun _ => hl _ _⟩

/-- **C82** after every history: an operation that makes the stack a member of a group sends one report, the groups in which are those
the stack is a member of then, each once, without that of all nodes; no report if there is no such group. -/
theorem C82_join (mac : MacAddress) (ops : List Op) (op : Op) (hs : List Ip6Host) (gs : List Ip6Address)
    (h : holdings (ops ++ [op]) = some (hs, gs)) (hj : Joins op) :
    (∃ l, (run mac (ops ++ [op])).out = (run mac ops).out ++ [.report l] ∧ l.Nodup ∧ (∃ g, Reported hs gs g) ∧
        ∀ g, g ∈ l ↔ Reported hs gs g) ∨
    (run mac (ops ++ [op])).out = (run mac ops).out ∧ ∀ g, ¬ Reported hs gs g := by
  obtain ⟨-, h2, -⟩ := C64_membership mac (ops ++ [op]) hs gs h
  rcases (step_out mac ops op _ h).1 hj with ⟨l, e, hne, nd, hl⟩ | ⟨e, hall⟩
  · refine .inl ⟨l, e, nd, ?_, fun g => by rw [hl, h2]; rfl⟩
    obtain ⟨g, hg⟩ := List.exists_mem_of_ne_nil l hne
    exact ⟨g, by have := (hl g).1 hg; rw [h2] at this; exact this⟩
  · exact .inr ⟨e, fun g hg => hg.1 (hall g ((h2 g).2 hg.2))⟩

/-- **C82** for histories without removals: the last report lists the groups, and there is none only if there are no groups to list.
What is missing: removals, which are not reported (`C82_leave_silent`). -/
theorem C82_last_report_partial (mac : MacAddress) (ops : List Op) (hs : List Ip6Host) (gs : List Ip6Address)
    (h : holdings ops = some (hs, gs)) (hj : ∀ op ∈ ops, Joins op) :
    match lastReport (run mac ops).out with
    | some l => l.Nodup ∧ ∀ g, g ∈ l ↔ Reported hs gs g
    | none => ∀ g, ¬ Reported hs gs g := by
  rcases List.eq_nil_or_concat ops with rfl | ⟨ops', op, rfl⟩
  · simp [holdings] at h
    obtain ⟨rfl, rfl⟩ := h
    intro g hg
    rcases hg.2 with x | ⟨x, x', -⟩
    · cases x
    · cases x'
  · rw [List.concat_eq_append] at h hj ⊢
    rcases C82_join mac ops' op hs gs h (hj _ (by simp)) with ⟨l, e, nd, -, hl⟩ | ⟨e, hn⟩
    · rw [e]
      simp only [lastReport, List.foldl_append, List.foldl_cons, List.foldl_nil]
      exact ⟨nd, hl⟩
    · rw [e]
      have ih : ∀ ops' : List Op, (∀ op ∈ ops', Joins op) → ∀ p, holdings ops' = some p → (∀ g ∈ (run mac ops').ip6Multicast, g = Icmp6.allNodes) →
          lastReport (run mac ops').out = none := by
        intro ops'
        induction ops' using List.reverseRecOn with
        | nil => intros; rfl
        | append_singleton l o ih =>
          intro hj p hp hall
          have hp' : ∃ q, holdings l = some q := by
            unfold holdings at hp ⊢
            rw [List.foldl_append] at hp
            cases hh : List.foldl hold (some ([], [])) l with
            | none => rw [hh] at hp; cases o <;> simp [hold] at hp
            | some q => exact ⟨q, rfl⟩
          obtain ⟨q, hq⟩ := hp'
          have hsub : ∀ g ∈ (run mac l).ip6Multicast, g ∈ (run mac (l ++ [o])).ip6Multicast := by
            intro g hg
            have h1 := C64_membership mac l q.1 q.2 hq
            have h2 := C64_membership mac (l ++ [o]) p.1 p.2 hp
            rw [h2.2.1]
            rw [h1.2.1] at hg
            have hp2 := hp
            unfold holdings at hp2 hq
            rw [List.foldl_append, hq] at hp2
            simp only [List.foldl_cons, List.foldl_nil] at hp2
            obtain ⟨q1, q2⟩ := q
            have hjo := hj o (by simp)
            cases o with
            | remove => exact nomatch hjo
            | leave => exact nomatch hjo
            | assign x =>
              simp only [hold, Option.some.injEq] at hp2
              subst hp2
              rcases hg with a | ⟨y, hy, e⟩
              · exact .inl a
              · exact .inr ⟨y, List.mem_append_left _ hy, e⟩
            | join x =>
              simp only [hold] at hp2
              split at hp2
              · simp only [Option.some.injEq] at hp2
                subst hp2
                rcases hg with a | b
                · exact .inl (List.mem_append_left _ a)
                · exact .inr b
              · cases hp2
          rcases (step_out mac l o p hp).1 (hj _ (by simp)) with ⟨m, -, hne, -, hl⟩ | ⟨e, -⟩
          · obtain ⟨g, hg⟩ := List.exists_mem_of_ne_nil m hne
            exact absurd (hall g ((hl g).1 hg).2) ((hl g).1 hg).1
          · rw [e]
            exact ih (fun x hx => hj x (List.mem_append_left _ hx)) q hq (fun g hg => hall g (hsub g hg))
      have h2 := (C64_membership mac (ops' ++ [op]) hs gs h).2.1
      have hx := ih (ops' ++ [op]) hj _ h (fun g hg => Classical.byContradiction fun hne => hn g ⟨hne, (h2 g).1 hg⟩)
      rw [e] at hx
      rw [hx]
      exact hn

/-- **C82** leaving is never reported, by no history: RFC 3810 6.1 asks for a report whenever the membership changes. -/
theorem C82_leave_silent (mac : MacAddress) (ops : List Op) (op : Op) (p : List Ip6Host × List Ip6Address)
    (h : holdings (ops ++ [op]) = some p) (hj : ¬ Joins op) : (run mac (ops ++ [op])).out = (run mac ops).out :=
  (step_out mac ops op p h).2 hj

namespace Example.Mld
open Example.Addrs

/-- An address is assigned and another, then a group is joined: the hypotheses of `C82_join` and of `C82_last_report_partial`. -/
def ops : List Op := [.join Icmp6.allNodes, .assign (host 1 (by decide)), .assign (host 2 (by decide))]

example : (∃ p, holdings ops = some p) ∧ (∀ op ∈ ops, Joins op) ∧
    lastReport (run mac ops).out = some [solicitedNode (addr 1 (by decide)), solicitedNode (addr 2 (by decide))] := by
  refine ⟨⟨_, rfl⟩, ?_, by decide +kernel⟩
  intro op hop
  simp [ops] at hop
  rcases hop with rfl | rfl | rfl <;> trivial

/-- Then the first address is removed. -/
def removed : List Op := ops ++ [.remove (host 1 (by decide))]

end Example.Mld

open Example.Mld Example.Addrs in
/-- **C82** is false for removals: the stack has left the group of an address, and the last report still lists it. -/
theorem C82_stale_report :
    ∃ (ops : List Op) (hs : List Ip6Host) (gs l : List Ip6Address) (g : Ip6Address), holdings ops = some (hs, gs) ∧
      lastReport (run mac ops).out = some l ∧ g ∈ l ∧ ¬ Reported hs gs g := by
  refine ⟨removed, _, _, [solicitedNode (addr 1 (by decide)), solicitedNode (addr 2 (by decide))], solicitedNode (addr 1 (by decide)), rfl,
    by decide +kernel, by decide +kernel, ?_⟩
  unfold Reported
  decide +kernel

end Verif
