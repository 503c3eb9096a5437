import Verif.Lemmas.Genuine
import Verif.Props.Fragment
import Verif.Spec.Senders
/-! Packets sent in fragments by several threads. -/
namespace Verif
open Spec
namespace Senders

/-- The packet handed to the link layer is what this call is to send. -/
def Direct (o : Outgoing) : Step → Prop
  | .ip4 _ _ dst ttl c => ∃ a, o.pkt = .ip4 (packetTx a dst ttl c.proto) c.toCarried
  | .ip6 _ _ dst hop c => ∃ a, o.pkt = .ip6 (packetTx6 a dst hop) c.toCarried
  | _ => False

/-- This call begins to send these fragments. -/
def Starts (w : Way) (frags : List Bytes) : Step → Prop
  | .ip4 _ _ dst ttl c => ∃ a ps data m, w = .v4 a dst ttl c.proto ∧ c.assemble ps = .ok data ∧ m % 8 = 0 ∧ dataFrags data m = .ok frags
  | .ip6 _ _ dst _ c => ∃ a ps data m, w = .v6 a dst c.proto ∧ c.assemble ps = .ok data ∧ m % 8 = 0 ∧ dataFrags data m = .ok frags
  | _ => False

/-- A fragment as it is queued. -/
def Made (s : Stack) (id : Nat) (f : Piece) (o : Outgoing) : Way → Prop
  | .v4 src dst ttl proto => o.pkt = .ip4Frag (fragTx src dst ttl id proto f.offset f.mf) f.data
  | .v6 src dst next => (next = 58 ∨ next = 17 ∨ next = 6 ∨ next = 255) ∧ ∃ a, validateSrcIp6 s src dst .other = .ok a ∧
      o.pkt = .ip6 (packetTx6 a dst 64) (Ip6Frag.carried next f.offset f.mf id f.data)

/-- What a step may do. -/
inductive Tr (s : St) (e : Step) : St → Prop
  | stay : Tr s e s
  | out (outs : List Outgoing) : (∀ o ∈ outs, Direct o e) → Tr s e { s with out := s.out ++ outs.map fun o => (none, o) }
  | new (w : Way) (frags : List Bytes) : Starts w frags e → Tr s e { s with jobs := s.jobs ++ [{ way := w, frags := frags }] }
  | bump (k : Nat) (j : Job) : s.jobs[k]? = some j → j.pos = .start →
      Tr s e { s.put k { j with pos := .loop } with stack := j.way.setId s.stack (j.way.id s.stack + 1) }
  | load (k : Nat) (j : Job) : e = .load k → s.jobs[k]? = some j → j.pos = .start → Tr s e (s.put k { j with pos := .held (j.way.id s.stack) })
  | store (k : Nat) (j : Job) (v : Nat) : s.jobs[k]? = some j → j.pos = .held v →
      Tr s e { s.put k { j with pos := .loop } with stack := j.way.setId s.stack (v + 1) }
  | build (k : Nat) (j : Job) : s.jobs[k]? = some j → j.pos = .loop → j.i < j.frags.length →
      Tr s e (s.put k { j with pos := .built (j.way.id s.stack) })
  | finish (k : Nat) (j : Job) (r : Py TxStatus) : s.jobs[k]? = some j → Tr s e (s.put k { j with pos := .done r })
  | emit (k : Nat) (j : Job) (id : Nat) (d : Bytes) (st : TxStatus) (outs : List Outgoing) : s.jobs[k]? = some j → j.pos = .built id →
      j.frags[j.i]? = some d → outs.length ≤ 1 → (∀ o ∈ outs, Made s.stack id ⟨j.offset, decide (j.i + 1 < j.frags.length), d⟩ o j.way) →
      Tr s e { s.put k { j with pos := .loop, i := j.i + 1, offset := j.offset + d.length, sts := j.sts ++ [st] } with
            out := s.out ++ outs.map fun o => (some (k, id), o) }

theorem begin4_inl {s : Stack} {arp : ArpLookup} {src dst : Ip4Address} {ttl : Nat} {c : L4} {st : TxStatus} {outs : List Outgoing}
    (h : begin4 s arp src dst ttl c = .ok (.inl (st, outs))) : ∀ o ∈ outs, Direct o (.ip4 arp src dst ttl c) := by
  intro o ho
  rw [begin4] at h
  split at h
  · cases h
  split at h
  · cases h; cases ho
  rename_i a ha
  cases hd : validateDstIp4 dst with
  | error e => rw [hd] at h; cases h; cases ho
  | ok d =>
    rw [hd] at h
    cases Host.validateDstIp4_ok hd
    dsimp only at h
    split at h
    · cases h
    split at h
    · split at h
      · cases h
      · rename_i r hr
        cases h
        rcases phtxEther_pkt hr with ⟨-, m, rfl⟩ | ⟨-, rfl⟩
        · rw [List.mem_singleton] at ho
          subst ho
          exact ⟨a, rfl⟩
        · cases ho
    · split at h <;> cases h

theorem begin4_inr {s : Stack} {arp : ArpLookup} {src dst : Ip4Address} {ttl : Nat} {c : L4} {w : Way} {frags : List Bytes}
    (h : begin4 s arp src dst ttl c = .ok (.inr (w, frags))) : Starts w frags (.ip4 arp src dst ttl c) := by
  rw [begin4] at h
  split at h
  · cases h
  split at h
  · cases h
  rename_i a ha
  cases hd : validateDstIp4 dst with
  | error e => rw [hd] at h; cases h
  | ok d =>
    rw [hd] at h
    cases Host.validateDstIp4_ok hd
    dsimp only at h
    split at h
    · cases h
    split at h
    · split at h <;> cases h
    · split at h
      · cases h
      · rename_i fr hr
        cases h
        obtain ⟨ps, -, hr⟩ := py_bind_ok hr
        obtain ⟨data, h1, h2⟩ := py_bind_ok hr
        exact ⟨a, ps, data, _, rfl, h1, (and_low _).1, h2⟩

theorem begin6_inl {s : Stack} {nd : NdLookup} {src dst : Ip6Address} {hop : Nat} {c : L4} {st : TxStatus} {outs : List Outgoing}
    (h : begin6 s nd src dst hop c = .ok (.inl (st, outs))) : ∀ o ∈ outs, Direct o (.ip6 nd src dst hop c) := by
  intro o ho
  rw [begin6] at h
  split at h
  · cases h
  · rename_i r hr
    cases h
    obtain ⟨a, hd, h1, h2, rfl, -⟩ := phtxIp6Small_hdr hr o ho
    exact ⟨a, h2⟩
  · split at h <;> cases h

theorem begin6_inr {s : Stack} {nd : NdLookup} {src dst : Ip6Address} {hop : Nat} {c : L4} {w : Way} {frags : List Bytes}
    (h : begin6 s nd src dst hop c = .ok (.inr (w, frags))) : Starts w frags (.ip6 nd src dst hop c) := by
  rw [begin6] at h
  split at h
  · cases h
  · cases h
  · rename_i a b hr
    obtain ⟨-, rfl, -⟩ := phtxIp6Small_inr hr
    split at h
    · cases h
    · rename_i fr hr
      cases h
      obtain ⟨ps, -, hr⟩ := py_bind_ok hr
      obtain ⟨data, h1, h2⟩ := py_bind_ok hr
      exact ⟨a, ps, data, _, rfl, h1, (and_low _).1, h2⟩

theorem small_one {s : Stack} {nd : NdLookup} {src dst : Ip6Address} {hop : Nat} {c : L4} {st : TxStatus} {outs : List Outgoing}
    (h : phtxIp6Small s nd src dst hop c = .ok (.inl (st, outs))) : outs.length ≤ 1 := by
  rw [phtxIp6Small] at h
  obtain ⟨u, -, h⟩ := py_bind_ok h
  cases hv : validateSrcIp6 s src dst c.kind with
  | error e => rw [hv] at h; cases h; exact Nat.zero_le _
  | ok a =>
    rw [hv] at h
    cases hd : validateDstIp6 dst with
    | error e => rw [hd] at h; cases h; exact Nat.zero_le _
    | ok b =>
      rw [hd] at h
      dsimp only at h
      obtain ⟨u, -, h⟩ := py_bind_ok h
      split at h
      · obtain ⟨r, hr, h⟩ := py_bind_ok h
        cases h
        rcases phtxEther_pkt hr with ⟨-, m, rfl⟩ | ⟨-, rfl⟩ <;> simp
      · cases h

theorem send_one {s : Stack} {arp : ArpLookup} {nd : NdLookup} {id off : Nat} {mf : Bool} {d : Bytes} {w : Way} {st : TxStatus} {outs : List Outgoing}
    (h : w.send s arp nd id off mf d = .ok (st, outs)) : outs.length ≤ 1 := by
  cases w with
  | v4 src dst ttl proto =>
    rw [Way.send, sendFragIp4] at h
    obtain ⟨u, -, h⟩ := py_bind_ok h
    rcases phtxEther_pkt h with ⟨-, m, rfl⟩ | ⟨-, rfl⟩ <;> simp
  | v6 src dst next =>
    rw [Way.send, sendFragIp6] at h
    obtain ⟨u, -, h⟩ := py_bind_ok h
    obtain ⟨r, hr, h⟩ := py_bind_ok h
    cases r with
    | inr r => cases h
    | inl r => cases h; exact small_one hr

theorem send_made {s : Stack} {arp : ArpLookup} {nd : NdLookup} {id off : Nat} {mf : Bool} {d : Bytes} {w : Way} {st : TxStatus} {outs : List Outgoing}
    (h : w.send s arp nd id off mf d = .ok (st, outs)) : ∀ o ∈ outs, Made s id ⟨off, mf, d⟩ o w := by
  intro o ho
  cases w with
  | v4 src dst ttl proto =>
    rw [Way.send, sendFragIp4] at h
    obtain ⟨-, -, h⟩ := py_bind_ok h
    rcases phtxEther_pkt h with ⟨-, m, rfl⟩ | ⟨-, rfl⟩
    · rw [List.mem_singleton] at ho
      subst ho
      rfl
    · cases ho
  | v6 src dst next =>
    rw [Way.send, sendFragIp6] at h
    obtain ⟨u, hp, h⟩ := py_bind_ok h
    obtain ⟨r, hr, h⟩ := py_bind_ok h
    cases r with
    | inr r => cases h
    | inl r =>
      cases h
      obtain ⟨a, hd, h1, h2, rfl, -⟩ := phtxIp6Small_hdr hr o ho
      refine ⟨?_, a, h1, h2⟩
      have : (next == 58 || next == 17 || next == 6 || next == 255) = true := by
        cases hb : (next == 58 || next == 17 || next == 6 || next == 255) with
        | false => rw [hb] at hp; cases hp
        | true => rfl
      simpa [or_assoc] using this

theorem step_tr (s : St) (e : Step) : Tr s e (s.step e) := by
  cases e with
  | ip4 arp src dst ttl c =>
    rw [St.step]
    cases h : begin4 s.stack arp src dst ttl c with
    | error x => exact .stay
    | ok r =>
      rcases r with ⟨st, outs⟩ | ⟨w, fr⟩
      · exact .out outs (begin4_inl h)
      · exact .new w fr (begin4_inr h)
  | ip6 nd src dst hop c =>
    rw [St.step]
    cases h : begin6 s.stack nd src dst hop c with
    | error x => exact .stay
    | ok r =>
      rcases r with ⟨st, outs⟩ | ⟨w, fr⟩
      · exact .out outs (begin6_inl h)
      · exact .new w fr (begin6_inr h)
  | bump k =>
    rw [St.step]
    split
    · rename_i j hj
      split
      · rename_i hp; exact .bump k j hj hp
      · exact .stay
    · exact .stay
  | load k =>
    rw [St.step]
    split
    · rename_i j hj
      split
      · rename_i hp; exact .load k j rfl hj hp
      · exact .stay
    · exact .stay
  | store k =>
    rw [St.step]
    split
    · rename_i j hj
      split
      · rename_i v hp; exact .store k j v hj hp
      · exact .stay
    · exact .stay
  | build k =>
    rw [St.step]
    split
    · rename_i j hj
      split
      · rename_i hp
        split
        · rename_i hi; exact .build k j hj hp hi
        · exact .finish k j _ hj
      · exact .stay
    · exact .stay
  | emit k arp nd =>
    rw [St.step]
    split
    · rename_i j hj
      split
      · rename_i id d hp hd
        split
        · exact .finish k j _ hj
        · rename_i st outs hs
          exact .emit k j id d st outs hj hp hd (send_one hs) (send_made hs)
      · exact .stay
    · exact .stay

theorem run_snoc (s : St) (xs : List Step) (e : Step) : s.run (xs ++ [e]) = (s.run xs).step e := by
  rw [St.run, List.foldl_append]; rfl

/-! ### What the calls send -/

/-- Only the counters differ. -/
def Kept (s t : Stack) : Prop := ∃ i j, t = { s with ip4Id := i, ip6Id := j }

theorem Kept.set {s t : Stack} (h : Kept s t) (w : Way) (v : Nat) : Kept s (w.setId t v) := by
  obtain ⟨i, j, rfl⟩ := h
  cases w
  · exact ⟨v, j, rfl⟩
  · exact ⟨i, v, rfl⟩

theorem Made.kept {s t : Stack} (h : Kept s t) {id : Nat} {f : Piece} {o : Outgoing} {w : Way} (H : Made t id f o w) : Made s id f o w := by
  obtain ⟨i, j, rfl⟩ := h
  cases w
  · exact H
  · exact H

/-- A call among the steps cut the packet up like this. -/
def Source (xs : List Step) (j : Job) : Prop := ∃ e ∈ xs, Starts j.way j.frags e

structure Sound (s₀ : St) (xs : List Step) (s : St) : Prop where
  kept : Kept s₀.stack s.stack
  jobs : ∀ j ∈ s.jobs, Source xs j ∧ j.offset = ((j.frags.take j.i).flatten).length
  whole : ∀ o, (none, o) ∈ s.out → ∃ e ∈ xs, Direct o e
  frag : ∀ k id o, (some (k, id), o) ∈ s.out → ∃ j, s.jobs[k]? = some j ∧ ∃ f ∈ piecesOf 0 j.frags, Made s₀.stack id f o j.way

theorem piecesOf_at {ds : List Bytes} {i : Nat} {d : Bytes} (h : ds[i]? = some d) :
    (piecesOf 0 ds)[i]? = some ⟨((ds.take i).flatten).length, decide (i + 1 < ds.length), d⟩ := by
  have hl : i < (piecesOf 0 ds).length := by rw [piecesOf_length]; exact (List.getElem?_eq_some_iff.1 h).1
  have hf := List.getElem?_eq_getElem hl
  obtain ⟨h1, h2, h3⟩ := piecesOf_get ds 0 i _ hf
  have e : (piecesOf 0 ds)[i] = ⟨((ds.take i).flatten).length, decide (i + 1 < ds.length), d⟩ := by
    revert h1 h2 h3
    generalize (piecesOf 0 ds)[i] = g
    obtain ⟨o, m, x⟩ := g
    intro h1 h2 h3
    rw [h] at h3
    cases h3
    simp only [Nat.zero_add] at h1
    simp only [Piece.mk.injEq, and_true]
    refine ⟨h1, ?_⟩
    cases m
    · simp only [Bool.false_eq_true, false_iff] at h2; simp [h2]
    · simp only [true_iff] at h2; simp [h2]
  rw [hf, e]

theorem piece_at {ds : List Bytes} {i : Nat} {d : Bytes} (h : ds[i]? = some d) :
    (⟨((ds.take i).flatten).length, decide (i + 1 < ds.length), d⟩ : Piece) ∈ piecesOf 0 ds := List.mem_of_getElem? (piecesOf_at h)

/-- A step leaves the calls what they are. -/
theorem Tr.job {s s' : St} {e : Step} (h : Tr s e s') {k : Nat} {j : Job} (hj : s.jobs[k]? = some j) :
    ∃ j', s'.jobs[k]? = some j' ∧ j'.way = j.way ∧ j'.frags = j.frags := by
  have put : ∀ (k' : Nat) (j' j₁ : Job), s.jobs[k']? = some j' → j₁.way = j'.way → j₁.frags = j'.frags →
      ∃ j'', (s.put k' j₁).jobs[k]? = some j'' ∧ j''.way = j.way ∧ j''.frags = j.frags := by
    intro k' j' j₁ h1 h2 h3
    simp only [St.put, List.getElem?_set]
    by_cases hk : k' = k
    · subst hk
      rw [hj] at h1
      cases h1
      rw [if_pos rfl, if_pos (List.getElem?_eq_some_iff.1 hj).1]
      exact ⟨_, rfl, h2, h3⟩
    · rw [if_neg hk]
      exact ⟨j, hj, rfl, rfl⟩
  cases h with
  | stay => exact ⟨j, hj, rfl, rfl⟩
  | out => exact ⟨j, hj, rfl, rfl⟩
  | new w fr =>
    refine ⟨j, ?_, rfl, rfl⟩
    dsimp only
    rw [List.getElem?_append_left (List.getElem?_eq_some_iff.1 hj).1, hj]
  | bump k' j' h1 => exact put k' j' _ h1 rfl rfl
  | load k' j' _ h1 => exact put k' j' _ h1 rfl rfl
  | store k' j' v h1 => exact put k' j' _ h1 rfl rfl
  | build k' j' h1 => exact put k' j' _ h1 rfl rfl
  | finish k' j' r h1 => exact put k' j' _ h1 rfl rfl
  | emit k' j' id d st outs h1 => exact put k' j' _ h1 rfl rfl

theorem Sound.step {s₀ s s' : St} {xs : List Step} {e : Step} (h : Sound s₀ xs s) (t : Tr s e s') : Sound s₀ (xs ++ [e]) s' := by
  have src : ∀ j, Source xs j → Source (xs ++ [e]) j := fun j ⟨x, hx, H⟩ => ⟨x, List.mem_append_left _ hx, H⟩
  have whole : ∀ o, (none, o) ∈ s.out → ∃ x ∈ xs ++ [e], Direct o x := fun o ho => by
    obtain ⟨x, hx, H⟩ := h.whole o ho
    exact ⟨x, List.mem_append_left _ hx, H⟩
  have frag : ∀ k id o, (some (k, id), o) ∈ s.out → ∃ j, s'.jobs[k]? = some j ∧ ∃ f ∈ piecesOf 0 j.frags, Made s₀.stack id f o j.way := by
    intro k id o ho
    obtain ⟨j, hj, f, hf, hm⟩ := h.frag k id o ho
    obtain ⟨j', h1, h2, h3⟩ := t.job hj
    exact ⟨j', h1, f, by rw [h3]; exact hf, by rw [h2]; exact hm⟩
  have put : ∀ (k : Nat) (j j₁ : Job), s.jobs[k]? = some j → j₁.way = j.way → j₁.frags = j.frags →
      j₁.offset = ((j₁.frags.take j₁.i).flatten).length → ∀ x ∈ (s.put k j₁).jobs, Source (xs ++ [e]) x ∧ x.offset = ((x.frags.take x.i).flatten).length := by
    intro k j j₁ hj h1 h2 h3 x hx
    rcases List.mem_or_eq_of_mem_set hx with hx | rfl
    · exact ⟨src x (h.jobs x hx).1, (h.jobs x hx).2⟩
    · obtain ⟨y, hy, H⟩ := (h.jobs j (List.mem_of_getElem? hj)).1
      exact ⟨⟨y, List.mem_append_left _ hy, by rw [h1, h2]; exact H⟩, h3⟩
  have off : ∀ (k : Nat) (j : Job), s.jobs[k]? = some j → j.offset = ((j.frags.take j.i).flatten).length := fun k j hj => (h.jobs j (List.mem_of_getElem? hj)).2
  cases t with
  | stay => exact ⟨h.kept, fun j hj => ⟨src j (h.jobs j hj).1, (h.jobs j hj).2⟩, whole, frag⟩
  | out outs ho =>
    refine ⟨h.kept, fun j hj => ⟨src j (h.jobs j hj).1, (h.jobs j hj).2⟩, ?_, ?_⟩
    · intro o hm
      rcases List.mem_append.1 hm with hm | hm
      · exact whole o hm
      · obtain ⟨o', h1, h2⟩ := List.mem_map.1 hm
        cases h2
        exact ⟨e, by simp, ho o h1⟩
    · intro k id o hm
      rcases List.mem_append.1 hm with hm | hm
      · exact frag k id o hm
      · obtain ⟨o', h1, h2⟩ := List.mem_map.1 hm
        cases h2
  | new w fr hs =>
    refine ⟨h.kept, ?_, whole, frag⟩
    intro j hj
    rcases List.mem_append.1 hj with hj | hj
    · exact ⟨src j (h.jobs j hj).1, (h.jobs j hj).2⟩
    · rw [List.mem_singleton] at hj
      subst hj
      exact ⟨⟨e, by simp, hs⟩, by simp⟩
  | bump k j hj hp => exact ⟨h.kept.set _ _, put k j _ hj rfl rfl (off k j hj), whole, frag⟩
  | load k j _ hj hp => exact ⟨h.kept, put k j _ hj rfl rfl (off k j hj), whole, frag⟩
  | store k j v hj hp => exact ⟨h.kept.set _ _, put k j _ hj rfl rfl (off k j hj), whole, frag⟩
  | build k j hj hp => exact ⟨h.kept, put k j _ hj rfl rfl (off k j hj), whole, frag⟩
  | finish k j r hj => exact ⟨h.kept, put k j _ hj rfl rfl (off k j hj), whole, frag⟩
  | emit k j id d st outs hj hp hd h1 hm =>
    refine ⟨h.kept, put k j _ hj rfl rfl ?_, ?_, ?_⟩
    · dsimp only
      rw [List.take_add_one, hd, off k j hj]
      simp
    · intro o ho
      rcases List.mem_append.1 ho with ho | ho
      · exact whole o ho
      · obtain ⟨o', h1, h2⟩ := List.mem_map.1 ho
        cases h2
    · intro k' id' o ho
      rcases List.mem_append.1 ho with ho | ho
      · exact frag k' id' o ho
      · obtain ⟨o', h1, h2⟩ := List.mem_map.1 ho
        cases h2
        refine ⟨_, by simp only [St.put, List.getElem?_set, if_true, if_pos (List.getElem?_eq_some_iff.1 hj).1]; rfl, ?_⟩
        refine ⟨_, ?_, Made.kept h.kept (hm o h1)⟩
        rw [off k j hj]
        exact piece_at hd

theorem Sound.start {s₀ : St} (h : Unused s₀) : Sound s₀ [] s₀ :=
  ⟨⟨_, _, rfl⟩, by rw [h.jobs]; simp, by rw [h.out]; simp, by rw [h.out]; simp⟩

theorem sound {s₀ : St} (h : Unused s₀) (xs : List Step) : Sound s₀ xs (s₀.run xs) := by
  induction xs using List.reverseRecOn with
  | nil => exact .start h
  | append_singleton xs e ih => rw [run_snoc]; exact ih.step (step_tr _ _)

/-- What a call has queued are fragments of its packet, in order. -/
def InOrder (s₀ s : St) : Prop := ∀ (k : Nat) j, s.jobs[k]? = some j →
  ∃ fs, fs.Sublist ((piecesOf 0 j.frags).take j.i) ∧ List.Forall₂ (fun f x => Made s₀.stack x.1 f x.2 j.way) fs (queuedBy s k)

theorem queuedBy_none {s : St} {outs : List Outgoing} {k : Nat} :
    queuedBy { s with out := s.out ++ outs.map fun o => (none, o) } k = queuedBy s k := by
  have : (outs.map fun o => ((none : Option (Nat × Nat)), o)).filterMap (fun x => match x.1 with
    | some (k', id) => if k' = k then some (id, x.2) else none
    | none => none) = [] := by
    rw [List.filterMap_map]
    exact List.filterMap_eq_nil_iff.2 fun _ _ => rfl
  rw [queuedBy, List.filterMap_append]
  exact (congrArg _ this).trans (List.append_nil _)

theorem queuedBy_some {s : St} {outs : List Outgoing} {k k' id : Nat} :
    queuedBy { s with out := s.out ++ outs.map fun o => (some (k', id), o) } k = queuedBy s k ++ if k' = k then outs.map (fun o => (id, o)) else [] := by
  have : (outs.map fun o => (some (k', id), o)).filterMap (fun x => match x.1 with
    | some (k', id) => if k' = k then some (id, x.2) else none
    | none => none) = if k' = k then outs.map (fun o => (id, o)) else [] := by
    rw [List.filterMap_map]
    by_cases h : k' = k
    · rw [if_pos h]
      induction outs with
      | nil => rfl
      | cons o l ih =>
        rw [List.filterMap_cons, ih]
        simp [h]
    · rw [if_neg h]
      exact List.filterMap_eq_nil_iff.2 fun _ _ => if_neg h
  rw [queuedBy, List.filterMap_append]
  exact congrArg _ this

theorem forall₂_snoc {α β : Type} {R : α → β → Prop} {l : List α} {l' : List β} {a : α} {b : β} (h : List.Forall₂ R l l') (hr : R a b) :
    List.Forall₂ R (l ++ [a]) (l' ++ [b]) := by
  induction h with
  | nil => exact .cons hr .nil
  | cons h _ ih => exact .cons h ih

theorem InOrder.step {s₀ s s' : St} {xs : List Step} {e : Step} (hS : Sound s₀ xs s) (h : InOrder s₀ s) (t : Tr s e s') : InOrder s₀ s' := by
  have put : ∀ (k : Nat) (j j₁ : Job), s.jobs[k]? = some j → j₁.way = j.way → j₁.frags = j.frags → j₁.i = j.i → InOrder s₀ (s.put k j₁) := by
    intro k j j₁ hj h1 h2 h3 k' j' hj'
    have hg : (s.put k j₁).jobs[k']? = if k = k' then some j₁ else s.jobs[k']? := by
      simp only [St.put, List.getElem?_set]
      by_cases h : k = k'
      · subst h
        rw [if_pos rfl, if_pos rfl, if_pos (List.getElem?_eq_some_iff.1 hj).1]
      · rw [if_neg h, if_neg h]
    rw [hg] at hj'
    by_cases hk : k = k'
    · rw [if_pos hk] at hj'
      cases hj'
      subst hk
      obtain ⟨fs, a, b⟩ := h k j hj
      exact ⟨fs, by rw [h2, h3]; exact a, by rw [h1]; exact b⟩
    · rw [if_neg hk] at hj'
      exact h k' j' hj'
  cases t with
  | stay => exact h
  | out outs ho =>
    intro k j hj
    rw [queuedBy_none]
    exact h k j hj
  | new w fr hst =>
    intro k j hj
    rcases Nat.lt_trichotomy k s.jobs.length with hk | hk | hk
    · dsimp only at hj
      rw [List.getElem?_append_left hk] at hj; exact h k j hj
    · have hn : queuedBy s k = [] := by
        refine List.filterMap_eq_nil_iff.2 fun ⟨tag, o⟩ hm => ?_
        cases tag with
        | none => rfl
        | some tag =>
          obtain ⟨k', id⟩ := tag
          obtain ⟨j', hj', -⟩ := hS.frag k' id o hm
          have := (List.getElem?_eq_some_iff.1 hj').1
          exact if_neg (by omega)
      refine ⟨[], List.nil_sublist _, ?_⟩
      show List.Forall₂ _ _ (queuedBy s k)
      rw [hn]
      exact .nil
    · rw [List.getElem?_eq_none (by simp; omega)] at hj; cases hj
  | bump k j hj hp => exact put k j _ hj rfl rfl rfl
  | load k j _ hj hp => exact put k j _ hj rfl rfl rfl
  | store k j v hj hp => exact put k j _ hj rfl rfl rfl
  | build k j hj hp => exact put k j _ hj rfl rfl rfl
  | finish k j r hj => exact put k j _ hj rfl rfl rfl
  | emit k j id d st outs hj hp hd h1 hm =>
    intro k' j' hj'
    have hq := queuedBy_some (s := s.put k { j with pos := .loop, i := j.i + 1, offset := j.offset + d.length, sts := j.sts ++ [st] })
      (outs := outs) (k := k') (k' := k) (id := id)
    have hq' : queuedBy (s.put k { j with pos := .loop, i := j.i + 1, offset := j.offset + d.length, sts := j.sts ++ [st] }) k' = queuedBy s k' := rfl
    rw [hq'] at hq
    erw [hq]
    simp only [St.put, List.getElem?_set] at hj'
    by_cases hk : k = k'
    · subst hk
      rw [if_pos rfl, if_pos (List.getElem?_eq_some_iff.1 hj).1] at hj'
      cases hj'
      rw [if_pos rfl]
      obtain ⟨fs, a, b⟩ := h k j hj
      have hlt : j.i < (piecesOf 0 j.frags).length := by rw [piecesOf_length]; exact (List.getElem?_eq_some_iff.1 hd).1
      have hpc := piecesOf_at hd
      have htake : (piecesOf 0 j.frags).take (j.i + 1) = (piecesOf 0 j.frags).take j.i ++ [⟨j.offset, decide (j.i + 1 < j.frags.length), d⟩] := by
        rw [List.take_add_one, hpc, (hS.jobs j (List.mem_of_getElem? hj)).2]
        rfl
      dsimp only
      rw [htake]
      match outs, h1, hm with
      | [], _, _ =>
        exact ⟨fs, a.trans (List.sublist_append_left _ _), by simpa using b⟩
      | [o], _, hm =>
        refine ⟨fs ++ [_], a.append (List.Sublist.refl _), ?_⟩
        exact forall₂_snoc b (Made.kept hS.kept (hm o (by simp)))
    · rw [if_neg hk] at hj' ⊢
      rw [List.append_nil]
      exact h k' j' hj'

theorem inOrder {s₀ : St} (h : Unused s₀) (xs : List Step) : InOrder s₀ (s₀.run xs) := by
  induction xs using List.reverseRecOn with
  | nil => intro k j hj; rw [show (s₀.run []).jobs = _ from h.jobs] at hj; cases hj
  | append_singleton xs e ih => rw [run_snoc]; exact InOrder.step (sound h xs) ih (step_tr _ _)

/-! ### Identifications -/

def Way.v (w : Way) : Bool := match w with | .v4 .. => false | .v6 .. => true

theorem sameVersion_iff {w w' : Way} : SameVersion w w' ↔ w.v = w'.v := by
  cases w <;> cases w' <;> simp [SameVersion, Way.v]

theorem id_of_v {w w' : Way} (h : w.v = w'.v) (s : Stack) : w.id s = w'.id s := by
  cases w <;> cases w' <;> simp [Way.v] at h <;> rfl

theorem id_setId {w w' : Way} {s : Stack} {n : Nat} : w.id (w'.setId s n) = if w.v = w'.v then n else w.id s := by
  cases w <;> cases w' <;> rfl

/-- Call `k` has read `id` for one of its fragments. -/
def Used (s : St) (k id : Nat) : Prop := (∃ o, (some (k, id), o) ∈ s.out) ∨ ∃ j, s.jobs[k]? = some j ∧ j.pos = .built id

/-- The call has raised the counter, and is still under way. -/
def Mid (j : Job) : Prop := j.pos = .loop ∨ ∃ id, j.pos = .built id

theorem Mid.alive {s : St} {k : Nat} {j : Job} (h : Mid j) (hj : s.jobs[k]? = some j) : UnderWay s k j.way :=
  ⟨j, hj, rfl, fun r e => by rcases h with h | ⟨id, h⟩ <;> rw [h] at e <;> cases e⟩

theorem start_alive {s : St} {k : Nat} {j : Job} (h : j.pos = .start) (hj : s.jobs[k]? = some j) : UnderWay s k j.way :=
  ⟨j, hj, rfl, fun r e => by rw [h] at e; cases e⟩

theorem _root_.Verif.Spec.Overlap.more {s : St} {xs : List Step} {k k' : Nat} {w w' : Way} (h : Overlap s xs k w k' w') (e : Step) : Overlap s (xs ++ [e]) k w k' w' := by
  obtain ⟨ys, h1, h2⟩ := h
  exact ⟨ys, h1.trans (List.prefix_append _ _), h2⟩

theorem overlap_now {s₀ : St} {xs : List Step} {k k' : Nat} {w w' : Way} (h : UnderWay (s₀.run xs) k w) (h' : UnderWay (s₀.run xs) k' w') (e : Step) :
    Overlap s₀ (xs ++ [e]) k w k' w' := ⟨xs, List.prefix_append _ _, h, h'⟩

/-- As long as the counters are raised without a thread switch. -/
structure Apt (s₀ : St) (xs : List Step) (s : St) : Prop where
  noHeld : ∀ (k : Nat) j v, s.jobs[k]? = some j → j.pos ≠ .held v
  used : ∀ k id, Used s k id → ∃ j, s.jobs[k]? = some j ∧ id ≤ j.way.id s.stack ∧ j.pos ≠ .start
  mid : ∀ (k k' : Nat) j j', s.jobs[k]? = some j → s.jobs[k']? = some j' → j.way.v = j'.way.v → Used s k (j.way.id s.stack) → Mid j' → k ≠ k' →
    Overlap s₀ xs k j.way k' j'.way
  passed : ∀ (k id : Nat) j, s.jobs[k]? = some j → Used s k id → id < j.way.id s.stack → Mid j →
    ∃ k' w', k' ≠ k ∧ w'.v = j.way.v ∧ Overlap s₀ xs k j.way k' w'
  two : ∀ (k k' id : Nat) j j', s.jobs[k]? = some j → s.jobs[k']? = some j' → j.way.v = j'.way.v → Used s k id → Used s k' id → k ≠ k' →
    Overlap s₀ xs k j.way k' j'.way
  one : ∀ (k id id' : Nat) j, s.jobs[k]? = some j → Used s k id → Used s k id' → id ≠ id' → ∃ k' w', k' ≠ k ∧ w'.v = j.way.v ∧ Overlap s₀ xs k j.way k' w'

theorem Apt.shrink {s₀ s s' : St} {xs : List Step} (e : Step) (h : Apt s₀ xs s) (hid : ∀ w : Way, w.id s'.stack = w.id s.stack)
    (hu : ∀ k id, Used s' k id → Used s k id) (hf : ∀ (k : Nat) j, s.jobs[k]? = some j → ∃ j', s'.jobs[k]? = some j' ∧ j'.way = j.way)
    (hj : ∀ (k : Nat) j', s'.jobs[k]? = some j' → (∃ j, s.jobs[k]? = some j ∧ j'.way = j.way ∧ (Mid j' → Mid j) ∧ (j'.pos = .start → j.pos = .start) ∧
      ∀ v, j'.pos ≠ .held v) ∨ (j'.pos = .start ∧ s.jobs[k]? = none)) : Apt s₀ (xs ++ [e]) s' := by
  have hused : ∀ (k id : Nat) j', s'.jobs[k]? = some j' → Used s' k id → ∃ j, s.jobs[k]? = some j ∧ j'.way = j.way ∧ (Mid j' → Mid j) ∧
      (j'.pos = .start → j.pos = .start) := by
    intro k id j' h1 h2
    obtain ⟨j, h3, -⟩ := h.used k id (hu _ _ h2)
    rcases hj k j' h1 with ⟨j₁, a1, a2, a3, a4, -⟩ | ⟨-, a⟩
    · exact ⟨j₁, a1, a2, a3, a4⟩
    · rw [h3] at a; cases a
  have hmid : ∀ (k : Nat) j', s'.jobs[k]? = some j' → Mid j' → ∃ j, s.jobs[k]? = some j ∧ j'.way = j.way ∧ Mid j := by
    intro k j' h1 h2
    rcases hj k j' h1 with ⟨j₁, a1, a2, a3, -⟩ | ⟨a, -⟩
    · exact ⟨j₁, a1, a2, a3 h2⟩
    · rcases h2 with h2 | ⟨id, h2⟩ <;> rw [a] at h2 <;> cases h2
  refine ⟨?_, ?_, ?_, ?_, ?_, ?_⟩
  · intro k j' v h1 h2
    rcases hj k j' h1 with ⟨j₁, -, -, -, -, a⟩ | ⟨a, -⟩
    · exact a v h2
    · rw [a] at h2; cases h2
  · intro k id hU
    obtain ⟨j, h3, h4, h5⟩ := h.used k id (hu _ _ hU)
    obtain ⟨j', h6, h7⟩ := hf k j h3
    refine ⟨j', h6, by rw [h7, hid]; exact h4, fun hs => ?_⟩
    obtain ⟨j₁, a1, -, -, a4⟩ := hused k id j' h6 hU
    rw [h3] at a1
    cases a1
    exact h5 (a4 hs)
  · intro k k' j j' h1 h2 h3 h4 h5 h6
    obtain ⟨j₁, a1, a2, -⟩ := hused k _ j h1 h4
    obtain ⟨j₂, b1, b2, b3⟩ := hmid k' j' h2 h5
    rw [a2, hid] at h4
    rw [a2, b2] at h3 ⊢
    exact (h.mid k k' j₁ j₂ a1 b1 h3 (hu _ _ h4) b3 h6).more e
  · intro k id j h1 h2 h3 h4
    obtain ⟨j₁, a1, a2, a3, -⟩ := hused k _ j h1 h2
    rw [a2, hid] at h3
    obtain ⟨k', w', c1, c2, c3⟩ := h.passed k id j₁ a1 (hu _ _ h2) h3 (a3 h4)
    rw [a2]
    exact ⟨k', w', c1, c2, c3.more e⟩
  · intro k k' id j j' h1 h2 h3 h4 h5 h6
    obtain ⟨j₁, a1, a2, -⟩ := hused k _ j h1 h4
    obtain ⟨j₂, b1, b2, -⟩ := hused k' _ j' h2 h5
    rw [a2, b2] at h3 ⊢
    exact (h.two k k' id j₁ j₂ a1 b1 h3 (hu _ _ h4) (hu _ _ h5) h6).more e
  · intro k id id' j h1 h2 h3 h4
    obtain ⟨j₁, a1, a2, -⟩ := hused k _ j h1 h2
    obtain ⟨k', w', c1, c2, c3⟩ := h.one k id id' j₁ a1 (hu _ _ h2) (hu _ _ h3) h4
    rw [a2]
    exact ⟨k', w', c1, c2, c3.more e⟩

theorem put_get {s : St} {k k' : Nat} {j j₁ : Job} (hj : s.jobs[k]? = some j) :
    (s.put k j₁).jobs[k']? = if k = k' then some j₁ else s.jobs[k']? := by
  simp only [St.put, List.getElem?_set]
  by_cases h : k = k'
  · subst h
    rw [if_pos rfl, if_pos rfl, if_pos (List.getElem?_eq_some_iff.1 hj).1]
  · rw [if_neg h, if_neg h]

theorem Apt.step {s₀ : St} {xs : List Step} {e : Step} {s' : St} (h : Apt s₀ xs (s₀.run xs)) (he : ∀ k, e ≠ .load k) (t : Tr (s₀.run xs) e s') :
    Apt s₀ (xs ++ [e]) s' := by
  have tj := fun {k : Nat} {j : Job} (hj : (s₀.run xs).jobs[k]? = some j) => t.job hj
  have fw : ∀ (k : Nat) j, (s₀.run xs).jobs[k]? = some j → ∃ j', s'.jobs[k]? = some j' ∧ j'.way = j.way := fun k j hj => by
    obtain ⟨j', h1, h2, -⟩ := tj hj
    exact ⟨j', h1, h2⟩
  clear tj
  generalize hs : s₀.run xs = s at *
  have same : ∀ (k : Nat) j, s.jobs[k]? = some j → (∃ j₁, s.jobs[k]? = some j₁ ∧ j.way = j₁.way ∧ (Mid j → Mid j₁) ∧ (j.pos = .start → j₁.pos = .start) ∧
      ∀ v, j.pos ≠ .held v) ∨ (j.pos = .start ∧ s.jobs[k]? = none) :=
    fun k j hj => .inl ⟨j, hj, rfl, id, id, fun v => h.noHeld k j v hj⟩
  cases t with
  | stay => exact h.shrink e (fun _ => rfl) (fun _ _ => id) fw same
  | out outs ho =>
    refine h.shrink e (fun _ => rfl) ?_ fw same
    rintro k id (⟨o, hm⟩ | hb)
    · rcases List.mem_append.1 hm with hm | hm
      · exact .inl ⟨o, hm⟩
      · obtain ⟨o', h1, h2⟩ := List.mem_map.1 hm
        cases h2
    · exact .inr hb
  | new w fr hst =>
    have hget : ∀ (k : Nat) j', (s.jobs ++ [({ way := w, frags := fr } : Job)])[k]? = some j' → s.jobs[k]? = some j' ∨ (j'.pos = .start ∧ s.jobs[k]? = none) := by
      intro k j' hj
      rcases Nat.lt_trichotomy k s.jobs.length with hk | hk | hk
      · rw [List.getElem?_append_left hk] at hj; exact .inl hj
      · subst hk
        simp at hj
        subst hj
        exact .inr ⟨rfl, by simp⟩
      · rw [List.getElem?_eq_none (by simp; omega)] at hj; cases hj
    refine h.shrink e (fun _ => rfl) ?_ fw ?_
    · rintro k id (⟨o, hm⟩ | ⟨j, hj, hp⟩)
      · exact .inl ⟨o, hm⟩
      · rcases hget k j hj with a | ⟨a, -⟩
        · exact .inr ⟨j, a, hp⟩
        · rw [a] at hp; cases hp
    · intro k j' hj
      rcases hget k j' hj with a | a
      · exact same k j' a
      · exact .inr a
  | load k j hl => exact absurd hl (he k)
  | store k j v hj hp => exact absurd hp (h.noHeld k j v hj)
  | finish k j r hj =>
    refine h.shrink e (fun _ => rfl) ?_ fw ?_
    · rintro k' id (⟨o, hm⟩ | ⟨j', hj', hp⟩)
      · exact .inl ⟨o, hm⟩
      · rw [put_get hj] at hj'
        by_cases hk : k = k'
        · rw [if_pos hk] at hj'
          cases hj'
          cases hp
        · rw [if_neg hk] at hj'
          exact .inr ⟨j', hj', hp⟩
    · intro k' j' hj'
      rw [put_get hj] at hj'
      by_cases hk : k = k'
      · rw [if_pos hk] at hj'
        cases hj'
        subst hk
        refine .inl ⟨j, hj, rfl, ?_, ?_, ?_⟩
        · rintro (x | ⟨id, x⟩) <;> cases x
        · intro x; cases x
        · intro v x; cases x
      · rw [if_neg hk] at hj'
        exact same k' j' hj'
  | emit k j id d st outs hj hp hd h1 hm =>
    refine h.shrink e (fun _ => rfl) ?_ fw ?_
    · rintro k' id' (⟨o, ho⟩ | ⟨j', hj', hp'⟩)
      · rcases List.mem_append.1 ho with ho | ho
        · exact .inl ⟨o, ho⟩
        · obtain ⟨o', h1, h2⟩ := List.mem_map.1 ho
          cases h2
          exact .inr ⟨j, hj, hp⟩
      · change (s.put k _).jobs[k']? = _ at hj'
        rw [put_get hj] at hj'
        by_cases hk : k = k'
        · rw [if_pos hk] at hj'
          cases hj'
          cases hp'
        · rw [if_neg hk] at hj'
          exact .inr ⟨j', hj', hp'⟩
    · intro k' j' hj'
      change (s.put k _).jobs[k']? = _ at hj'
      rw [put_get hj] at hj'
      by_cases hk : k = k'
      · rw [if_pos hk] at hj'
        cases hj'
        subst hk
        refine .inl ⟨j, hj, rfl, fun _ => .inr ⟨id, hp⟩, ?_, ?_⟩
        · intro x; cases x
        · intro v x; cases x
      · rw [if_neg hk] at hj'
        exact same k' j' hj'
  | bump k j hj hp =>
    have alive := start_alive hp hj
    have hget : ∀ (k' : Nat) j', (s.put k { j with pos := .loop }).jobs[k']? = some j' →
        (k' = k ∧ j' = { j with pos := .loop }) ∨ (k' ≠ k ∧ s.jobs[k']? = some j') := by
      intro k' j' hj'
      rw [put_get hj] at hj'
      by_cases hk : k = k'
      · rw [if_pos hk] at hj'; cases hj'; exact .inl ⟨hk.symm, rfl⟩
      · rw [if_neg hk] at hj'; exact .inr ⟨fun x => hk x.symm, hj'⟩
    have hu : ∀ k' id, Used { s.put k { j with pos := .loop } with stack := j.way.setId s.stack (j.way.id s.stack + 1) } k' id → Used s k' id ∧ k' ≠ k := by
      intro k' id hU
      have : Used s k' id := by
        rcases hU with ⟨o, ho⟩ | ⟨j', hj', hp'⟩
        · exact .inl ⟨o, ho⟩
        · rcases hget k' j' hj' with ⟨-, rfl⟩ | ⟨-, a⟩
          · cases hp'
          · exact .inr ⟨j', a, hp'⟩
      refine ⟨this, ?_⟩
      rintro rfl
      obtain ⟨j', h1, -, h2⟩ := h.used _ _ this
      rw [hj] at h1
      cases h1
      exact h2 hp
    have hle : ∀ w : Way, w.id s.stack ≤ w.id (j.way.setId s.stack (j.way.id s.stack + 1)) := by
      intro w
      rw [id_setId]
      by_cases hv : w.v = j.way.v
      · rw [if_pos hv]; have := id_of_v hv s.stack; omega
      · rw [if_neg hv]
    have hin : ∀ (k' id : Nat) j', (s.put k { j with pos := .loop }).jobs[k']? = some j' → Used s k' id → k' ≠ k → s.jobs[k']? = some j' := by
      intro k' id j' h1 h2 h3
      rcases hget k' j' h1 with ⟨a, -⟩ | ⟨-, a⟩
      · exact absurd a h3
      · exact a
    refine ⟨?_, ?_, ?_, ?_, ?_, ?_⟩
    · intro k' j' v h1 h2
      rcases hget k' j' h1 with ⟨-, rfl⟩ | ⟨-, a⟩
      · cases h2
      · exact h.noHeld k' j' v a h2
    · intro k' id hU
      obtain ⟨hU, hk⟩ := hu k' id hU
      obtain ⟨j', h1, h2, h3⟩ := h.used _ _ hU
      refine ⟨j', ?_, Nat.le_trans h2 (hle _), h3⟩
      show (s.put k _).jobs[k']? = _
      rw [put_get hj, if_neg (fun x => hk x.symm)]
      exact h1
    · intro k₁ k₂ j₁ j₂ h1 h2 h3 h4 h5 h6
      obtain ⟨hU, hk⟩ := hu _ _ h4
      have a1 := hin _ _ _ h1 hU hk
      dsimp only at hU
      rw [id_setId] at hU
      by_cases hv : j₁.way.v = j.way.v
      · rw [if_pos hv] at hU
        obtain ⟨j', b1, b2, -⟩ := h.used _ _ hU
        rw [a1] at b1
        cases b1
        rw [id_of_v hv] at b2
        omega
      · rw [if_neg hv] at hU
        rcases hget k₂ j₂ h2 with ⟨rfl, rfl⟩ | ⟨-, b⟩
        · exact absurd h3 hv
        · exact (h.mid k₁ k₂ j₁ j₂ a1 b h3 hU h5 h6).more e
    · intro k₁ id j₁ h1 h2 h3 h4
      obtain ⟨hU, hk⟩ := hu _ _ h2
      have a1 := hin _ _ _ h1 hU hk
      by_cases hv : j₁.way.v = j.way.v
      · exact ⟨k, j.way, fun x => hk x.symm, hv.symm, overlap_now (by rw [hs]; exact h4.alive a1) (by rw [hs]; exact alive) e⟩
      · dsimp only at h3
        rw [id_setId, if_neg hv] at h3
        obtain ⟨k', w', c1, c2, c3⟩ := h.passed k₁ id j₁ a1 hU h3 h4
        exact ⟨k', w', c1, c2, c3.more e⟩
    · intro k₁ k₂ id j₁ j₂ h1 h2 h3 h4 h5 h6
      obtain ⟨hU, hk⟩ := hu _ _ h4
      obtain ⟨hU', hk'⟩ := hu _ _ h5
      exact (h.two k₁ k₂ id j₁ j₂ (hin _ _ _ h1 hU hk) (hin _ _ _ h2 hU' hk') h3 hU hU' h6).more e
    · intro k₁ id id' j₁ h1 h2 h3 h4
      obtain ⟨hU, hk⟩ := hu _ _ h2
      obtain ⟨hU', -⟩ := hu _ _ h3
      obtain ⟨k', w', c1, c2, c3⟩ := h.one k₁ id id' j₁ (hin _ _ _ h1 hU hk) hU hU' h4
      exact ⟨k', w', c1, c2, c3.more e⟩
  | build k j hj hp hi =>
    have hmid : Mid j := .inl hp
    have hget : ∀ (k' : Nat) j', (s.put k { j with pos := .built (j.way.id s.stack) }).jobs[k']? = some j' →
        ∃ j₀, s.jobs[k']? = some j₀ ∧ j'.way = j₀.way ∧ (Mid j' → Mid j₀) ∧ (j'.pos = .start → j₀.pos = .start) ∧ ∀ v, j'.pos ≠ .held v := by
      intro k' j' hj'
      rw [put_get hj] at hj'
      by_cases hk : k = k'
      · rw [if_pos hk] at hj'; cases hj'; subst hk
        exact ⟨j, hj, rfl, fun _ => hmid, fun x => (by cases x), fun v x => (by cases x)⟩
      · rw [if_neg hk] at hj'; exact ⟨j', hj', rfl, id, id, fun v => h.noHeld k' j' v hj'⟩
    have hu : ∀ k' id, Used (s.put k { j with pos := .built (j.way.id s.stack) }) k' id → Used s k' id ∨ (k' = k ∧ id = j.way.id s.stack) := by
      intro k' id hU
      rcases hU with ⟨o, ho⟩ | ⟨j', hj', hp'⟩
      · exact .inl (.inl ⟨o, ho⟩)
      · rw [put_get hj] at hj'
        by_cases hk : k = k'
        · rw [if_pos hk] at hj'; cases hj'
          injection hp' with hp'
          exact .inr ⟨hk.symm, hp'.symm⟩
        · rw [if_neg hk] at hj'; exact .inl (.inr ⟨j', hj', hp'⟩)
    refine ⟨?_, ?_, ?_, ?_, ?_, ?_⟩
    · intro k' j' v h1 h2
      obtain ⟨-, -, -, -, -, a⟩ := hget k' j' h1
      exact a v h2
    · intro k' id hU
      rcases hu k' id hU with hU | ⟨rfl, rfl⟩
      · obtain ⟨j', h1, h2, h3⟩ := h.used _ _ hU
        obtain ⟨j'', h4, h5⟩ := fw k' j' h1
        obtain ⟨j₀, a1, a2, a3, a4, a5⟩ := hget k' j'' h4
        rw [h1] at a1
        cases a1
        exact ⟨j'', h4, by rw [h5]; exact h2, fun x => h3 (a4 x)⟩
      · exact ⟨{ j with pos := .built (j.way.id s.stack) }, by rw [put_get hj, if_pos rfl], Nat.le_refl _, fun x => by cases x⟩
    · intro k₁ k₂ j₁ j₂ h1 h2 h3 h4 h5 h6
      obtain ⟨i₁, a1, a2, -⟩ := hget k₁ j₁ h1
      obtain ⟨i₂, b1, b2, b3, -⟩ := hget k₂ j₂ h2
      rw [a2, b2] at h3 ⊢
      rw [a2] at h4
      rcases hu _ _ h4 with hU | ⟨rfl, hU⟩
      · exact (h.mid k₁ k₂ i₁ i₂ a1 b1 h3 hU (b3 h5) h6).more e
      · rw [hj] at a1
        cases a1
        exact overlap_now (by rw [hs]; exact hmid.alive hj) (by rw [hs]; exact (b3 h5).alive b1) e
    · intro k₁ id j₁ h1 h2 h3 h4
      obtain ⟨i₁, a1, a2, a3, -⟩ := hget k₁ j₁ h1
      rw [a2] at h3 ⊢
      rcases hu _ _ h2 with hU | ⟨rfl, hU⟩
      · obtain ⟨k', w', c1, c2, c3⟩ := h.passed k₁ id i₁ a1 hU h3 (a3 h4)
        exact ⟨k', w', c1, c2, c3.more e⟩
      · rw [hj] at a1
        cases a1
        change id < j.way.id s.stack at h3
        omega
    · intro k₁ k₂ id j₁ j₂ h1 h2 h3 h4 h5 h6
      obtain ⟨i₁, a1, a2, -⟩ := hget k₁ j₁ h1
      obtain ⟨i₂, b1, b2, -⟩ := hget k₂ j₂ h2
      rw [a2, b2] at h3 ⊢
      rcases hu _ _ h4 with hU | ⟨rfl, rfl⟩
      · rcases hu _ _ h5 with hU' | ⟨rfl, rfl⟩
        · exact (h.two k₁ k₂ id i₁ i₂ a1 b1 h3 hU hU' h6).more e
        · rw [hj] at b1
          cases b1
          rw [← id_of_v h3] at hU
          exact (h.mid k₁ k₂ i₁ j a1 hj h3 hU hmid h6).more e
      · rcases hu _ _ h5 with hU' | ⟨rfl, -⟩
        · rw [hj] at a1
          cases a1
          rw [id_of_v h3] at hU'
          obtain ⟨ys, c1, c2, c3⟩ := (h.mid k₂ k₁ i₂ j b1 hj h3.symm hU' hmid (fun x => h6 x.symm)).more e
          exact ⟨ys, c1, c3, c2⟩
        · exact absurd rfl h6
    · intro k₁ id id' j₁ h1 h2 h3 h4
      obtain ⟨i₁, a1, a2, -⟩ := hget k₁ j₁ h1
      rw [a2]
      have key : ∀ id, Used s k id → id ≠ j.way.id s.stack → ∃ k' w', k' ≠ k ∧ w'.v = j.way.v ∧ Overlap s₀ (xs ++ [e]) k j.way k' w' := by
        intro id hU hne
        obtain ⟨j', c1, c2, -⟩ := h.used _ _ hU
        rw [hj] at c1
        cases c1
        obtain ⟨k', w', c1, c2, c3⟩ := h.passed k id j hj hU (by omega) hmid
        exact ⟨k', w', c1, c2, c3.more e⟩
      rcases hu _ _ h2 with hU | ⟨rfl, rfl⟩
      · rcases hu _ _ h3 with hU' | ⟨rfl, rfl⟩
        · obtain ⟨k', w', c1, c2, c3⟩ := h.one k₁ id id' i₁ a1 hU hU' h4
          exact ⟨k', w', c1, c2, c3.more e⟩
        · rw [hj] at a1
          cases a1
          exact key id hU h4
      · rcases hu _ _ h3 with hU' | ⟨-, rfl⟩
        · rw [hj] at a1
          cases a1
          exact key id' hU' (fun x => h4 x.symm)
        · exact absurd rfl h4

theorem Apt.start {s₀ : St} (h : Unused s₀) : Apt s₀ [] s₀ := by
  have hj : ∀ (k : Nat), s₀.jobs[k]? = none := by rw [h.jobs]; simp
  have hu : ∀ k id, ¬ Used s₀ k id := by
    rintro k id (⟨o, ho⟩ | ⟨j, hj', -⟩)
    · rw [h.out] at ho; cases ho
    · rw [hj] at hj'; cases hj'
  exact ⟨fun k j v h => (by rw [hj] at h; cases h), fun k id h => absurd h (hu k id), fun k k' j j' h => (by rw [hj] at h; cases h),
    fun k id j h => (by rw [hj] at h; cases h), fun k k' id j j' h => (by rw [hj] at h; cases h), fun k id id' j h => (by rw [hj] at h; cases h)⟩

theorem apt {s₀ : St} (h : Unused s₀) (xs : List Step) (hx : RaisedAtOnce xs) : Apt s₀ xs (s₀.run xs) := by
  induction xs using List.reverseRecOn with
  | nil => exact .start h
  | append_singleton xs e ih =>
    rw [run_snoc]
    exact (ih (fun k hk => hx k (List.mem_append_left _ hk))).step (fun k hk => hx k (by rw [hk]; simp)) (step_tr _ _)

end Senders
end Verif
