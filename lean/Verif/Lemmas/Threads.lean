import Verif.Spec.Threads
import Verif.Lemmas.Socket
/-! Sockets used by several threads. -/
namespace Verif
open Spec
namespace Threads

theorem run_snoc (s : St) (xs : List Step) (e : Step) : s.run (xs ++ [e]) = (s.run xs).step e := by
  rw [St.run, List.foldl_append]; rfl

/-! ### Queues -/

/-- The queues are the same. -/
def SameQueues (a b : Socks) : Prop := ∀ r : Nat, (a.socks[r]?).map (·.queue) = (b.socks[r]?).map (·.queue)

theorem SameQueues.put {a : Socks} {r : Nat} {o o' : Sock} (h : a.socks[r]? = some o) (hq : o'.queue = o.queue) : SameQueues (a.put r o') a := by
  intro x
  simp only [Socks.put, List.getElem?_set]
  by_cases hx : r = x
  · subst hx
    rw [if_pos rfl, if_pos (List.getElem?_eq_some_iff.1 h).1, h]
    simp [hq]
  · rw [if_neg hx]

/-- What a step may do to the queues. -/
inductive Qr (s : St) (e : Step) : St → Prop
  | keep (t : St) : SameQueues t.ss s.ss → t.sem = s.sem → t.takers = s.takers → t.log = s.log → t.rx = s.rx → Qr s e t
  | new (t : St) (o : Sock) : o.queue = [] → t.ss.socks = s.ss.socks ++ [o] → t.sem = s.sem → t.takers = s.takers → t.log = s.log → t.rx = s.rx → Qr s e t
  | rx : (e = .rx ∨ ∃ m, e = .arrive m) → Qr s e (s.step e)
  | rcv : ((∃ r, e = .acquire r) ∨ ∃ r, e = .take r) → Qr s e (s.step e)

theorem same_refl (a : Socks) : SameQueues a a := fun _ => rfl

theorem step_qr (s : St) (e : Step) : Qr s e (s.step e) := by
  have hb : ∀ r choice (f : Sock → Bool × Pos), Qr s e (s.begin r choice f) := by
    intro r choice f
    rw [St.begin]
    split
    · exact .keep _ (same_refl _) rfl rfl rfl rfl
    · rename_i o ho
      exact .keep _ (SameQueues.put (o' := { o with unreachable := (f o).1 }) ho rfl) rfl rfl rfl rfl
  cases e with
  | socket f t => exact .new _ ⟨⟨f, t, f.any, 0, f.any, 0⟩, false, [], false⟩ rfl rfl rfl rfl rfl rfl
  | bind r addr port choice => exact hb _ _ _
  | connect r addr port choice => exact hb _ _ _
  | sendto r port choice => exact hb _ _ _
  | go k =>
    rw [St.step]
    split
    · exact .keep _ (same_refl _) rfl rfl rfl rfl
    · rename_i c hc
      split
      · exact .keep _ (same_refl _) rfl rfl rfl rfl
      · rename_i o ho
        rw [St.go]
        split
        · exact .keep _ (same_refl _) rfl rfl rfl rfl
        · split
          · exact .keep _ (same_refl _) rfl rfl rfl rfl
          · split
            · exact .keep _ (same_refl _) rfl rfl rfl rfl
            · split <;> exact .keep _ (same_refl _) rfl rfl rfl rfl
        · exact .keep _ (same_refl _) rfl rfl rfl rfl
        · exact .keep _ (same_refl _) rfl rfl rfl rfl
        · split
          · exact .keep _ (same_refl _) rfl rfl rfl rfl
          · split
            · exact .keep _ (SameQueues.put (o' := { o with unreachable := _ }) ho rfl) rfl rfl rfl rfl
            · exact .keep _ (same_refl _) rfl rfl rfl rfl
        · exact .keep _ (same_refl _) rfl rfl rfl rfl
        · exact .keep _ (SameQueues.put (o' := { o with id := _ }) ho rfl) rfl rfl rfl rfl
        · exact .keep _ (same_refl _) rfl rfl rfl rfl
        · exact .keep _ (same_refl _) rfl rfl rfl rfl
  | close r =>
    rw [St.step, Socks.close]
    split <;> exact .keep _ (same_refl _) rfl rfl rfl rfl
  | listen r =>
    rw [St.step, Socks.listen]
    split <;> exact .keep _ (same_refl _) rfl rfl rfl rfl
  | accepted id => exact .new _ ⟨id, false, [], true⟩ rfl rfl rfl rfl rfl rfl
  | gone r =>
    rw [St.step, Socks.gone]
    split <;> exact .keep _ (same_refl _) rfl rfl rfl rfl
  | arrive m => exact .rx (.inr ⟨m, rfl⟩)
  | rx => exact .rx (.inl rfl)
  | acquire r => exact .rcv (.inl ⟨r, rfl⟩)
  | take r => exact .rcv (.inr ⟨r, rfl⟩)

def pending (s : St) (r : Nat) : Nat := if s.rx = .release r then 1 else 0

structure QInv (s : St) : Prop where
  count : ∀ (r : Nat) o, s.ss.socks[r]? = some o → o.queue.length = s.sem r + s.takers r + pending s r
  absent : ∀ r : Nat, s.ss.socks[r]? = none → s.sem r = 0 ∧ s.takers r = 0 ∧ s.rx ≠ .release r
  order : ∀ (r : Nat) o, s.ss.socks[r]? = some o → queuedFor s.log r = returnedBy s.log r ++ o.queue
  nolog : ∀ r : Nat, s.ss.socks[r]? = none → queuedFor s.log r = [] ∧ returnedBy s.log r = []
  fine : ∀ r, .empty r ∉ s.log

theorem SameQueues.some {a b : Socks} (h : SameQueues a b) {r : Nat} {o : Sock} (ho : a.socks[r]? = .some o) : ∃ o', b.socks[r]? = .some o' ∧ o'.queue = o.queue := by
  have := h r
  rw [ho] at this
  cases hb : b.socks[r]? with
  | none => rw [hb] at this; cases this
  | some o' => rw [hb] at this; exact ⟨o', rfl, by simpa using this.symm⟩

theorem SameQueues.none {a b : Socks} (h : SameQueues a b) {r : Nat} (ho : a.socks[r]? = .none) : b.socks[r]? = .none := by
  have := h r
  rw [ho] at this
  cases hb : b.socks[r]? with
  | none => rfl
  | some o' => rw [hb] at this; cases this

theorem queuedFor_append (l l' : List Ev) (r : Nat) : queuedFor (l ++ l') r = queuedFor l r ++ queuedFor l' r := List.filterMap_append ..
theorem returnedBy_append (l l' : List Ev) (r : Nat) : returnedBy (l ++ l') r = returnedBy l r ++ returnedBy l' r := List.filterMap_append ..

theorem QInv.step {s : St} (h : QInv s) (e : Step) : QInv (s.step e) := by
  have hq := step_qr s e
  generalize ht : s.step e = t at hq
  cases hq with
  | keep _ h1 h2 h3 h4 h5 =>
    refine ⟨?_, ?_, ?_, ?_, ?_⟩
    · intro r o ho
      obtain ⟨o', ho', hq⟩ := h1.some ho
      rw [← hq, h.count r o' ho', h2, h3, pending, pending, h5]
    · intro r hr
      rw [h2, h3, h5]
      exact h.absent r (h1.none hr)
    · intro r o ho
      obtain ⟨o', ho', hq⟩ := h1.some ho
      rw [h4, h.order r o' ho', hq]
    · intro r hr
      rw [h4]
      exact h.nolog r (h1.none hr)
    · rw [h4]; exact h.fine
  | new _ o h0 h1 h2 h3 h4 h5 =>
    have hs : ∀ (r : Nat) x, t.ss.socks[r]? = some x → s.ss.socks[r]? = some x ∨ (s.ss.socks[r]? = none ∧ x = o) := by
      intro r x hx
      rw [h1, List.getElem?_append] at hx
      split at hx
      · exact .inl hx
      · rename_i hl
        refine .inr ⟨List.getElem?_eq_none (by omega), ?_⟩
        have := List.mem_of_getElem? hx
        simpa using this
    have hn : ∀ (r : Nat), t.ss.socks[r]? = none → s.ss.socks[r]? = none := by
      intro r hr
      rw [h1] at hr
      rw [List.getElem?_eq_none_iff] at hr ⊢
      simp at hr
      omega
    refine ⟨?_, ?_, ?_, ?_, ?_⟩
    · intro r x hx
      rcases hs r x hx with hx | ⟨hx, rfl⟩
      · rw [h.count r x hx, h2, h3, pending, pending, h5]
      · obtain ⟨a, b, c⟩ := h.absent r hx
        rw [h0, h2, h3, a, b, pending, h5, if_neg c]
        rfl
    · intro r hr
      rw [h2, h3, h5]
      exact h.absent r (hn r hr)
    · intro r x hx
      rw [h4]
      rcases hs r x hx with hx | ⟨hx, rfl⟩
      · exact h.order r x hx
      · obtain ⟨a, b⟩ := h.nolog r hx
        rw [a, b, h0]
        rfl
    · intro r hr
      rw [h4]
      exact h.nolog r (hn r hr)
    · rw [h4]; exact h.fine
  | rx he =>
    have quiet : ∀ x : Rx, (∀ r, s.rx ≠ .release r) → (∀ r, x ≠ .release r) → QInv { s with rx := x } := by
      intro x h1 h2
      refine ⟨?_, ?_, h.order, h.nolog, h.fine⟩
      · intro r o ho
        have := h.count r o ho
        rw [pending, if_neg (h1 r)] at this
        rw [pending, if_neg (h2 r)]
        exact this
      · intro r hr
        obtain ⟨a, b, -⟩ := h.absent r hr
        exact ⟨a, b, h2 r⟩
    rcases he with rfl | ⟨m, rfl⟩
    · rw [St.step, St.receive]
      split
      · exact h
      · rename_i hx; exact quiet _ (by rw [hx]; simp) (by simp)
      · rename_i hx
        split
        · exact quiet _ (by rw [hx]; simp) (by simp)
        · exact quiet _ (by rw [hx]; simp) (by simp)
      · rename_i r m hx
        split
        · exact quiet _ (by rw [hx]; simp) (by simp)
        · rename_i o ho
          have hs : ∀ (x : Nat) o', (s.ss.put r { o with queue := o.queue ++ [m] }).socks[x]? = some o' →
              (x = r ∧ o' = { o with queue := o.queue ++ [m] }) ∨ (x ≠ r ∧ s.ss.socks[x]? = some o') := by
            intro x o' hx'
            simp only [Socks.put, List.getElem?_set] at hx'
            by_cases hr : r = x
            · subst hr
              rw [if_pos rfl, if_pos (List.getElem?_eq_some_iff.1 ho).1] at hx'
              cases hx'
              exact .inl ⟨rfl, rfl⟩
            · rw [if_neg hr] at hx'
              exact .inr ⟨Ne.symm hr, hx'⟩
          have hn : ∀ (x : Nat), (s.ss.put r { o with queue := o.queue ++ [m] }).socks[x]? = none → x ≠ r ∧ s.ss.socks[x]? = none := by
            intro x hx'
            simp only [Socks.put, List.getElem?_eq_none_iff, List.length_set] at hx'
            have := (List.getElem?_eq_some_iff.1 ho).1
            exact ⟨by omega, List.getElem?_eq_none (by omega)⟩
          refine ⟨?_, ?_, ?_, ?_, ?_⟩
          · intro x o' hx'
            rcases hs x o' hx' with ⟨rfl, rfl⟩ | ⟨h1, h2⟩
            · have := h.count x o ho
              rw [pending, hx, if_neg (by simp)] at this
              rw [pending, if_pos rfl]
              simp only [List.length_append, List.length_singleton]
              omega
            · have := h.count x o' h2
              rw [pending, hx, if_neg (by simp)] at this
              rw [pending, if_neg (by simpa using Ne.symm h1)]
              exact this
          · intro x hx'
            obtain ⟨h1, h2⟩ := hn x hx'
            obtain ⟨a, b, -⟩ := h.absent x h2
            exact ⟨a, b, by simpa using Ne.symm h1⟩
          · intro x o' hx'
            dsimp only
            rw [queuedFor_append, returnedBy_append]
            rcases hs x o' hx' with ⟨rfl, rfl⟩ | ⟨h1, h2⟩
            · rw [h.order x o ho]
              simp [queuedFor, returnedBy]
            · rw [h.order x o' h2]
              simp [queuedFor, returnedBy, Ne.symm h1]
          · intro x hx'
            obtain ⟨h1, h2⟩ := hn x hx'
            obtain ⟨a, b⟩ := h.nolog x h2
            dsimp only
            rw [queuedFor_append, returnedBy_append, a, b]
            simp [queuedFor, returnedBy, Ne.symm h1]
          · intro x hx'
            rcases List.mem_append.1 hx' with hx' | hx'
            · exact h.fine x hx'
            · simp at hx'
      · rename_i r hx
        refine ⟨?_, ?_, h.order, h.nolog, h.fine⟩
        · intro x o ho
          have := h.count x o ho
          rw [pending, hx] at this
          rw [pending, if_neg (by simp)]
          dsimp only
          by_cases hr : x = r
          · subst hr
            rw [if_pos rfl] at this ⊢
            omega
          · rw [if_neg (by simpa using Ne.symm hr)] at this
            rw [if_neg hr]
            exact this
        · intro x hx'
          obtain ⟨a, b, c⟩ := h.absent x hx'
          have : x ≠ r := fun e => c (by rw [hx, e])
          exact ⟨by dsimp only; rw [if_neg this]; exact a, b, by simp⟩
      · rename_i m hx
        have := quiet .idle (by rw [hx]; simp) (by simp)
        refine ⟨this.count, this.absent, ?_, ?_, ?_⟩
        · intro r o ho
          dsimp only
          rw [queuedFor_append, returnedBy_append, this.order r o ho]
          simp [queuedFor, returnedBy]
        · intro r hr
          dsimp only
          obtain ⟨a, b⟩ := this.nolog r hr
          rw [queuedFor_append, returnedBy_append, a, b]
          simp [queuedFor, returnedBy]
        · intro x hx'
          rcases List.mem_append.1 hx' with hx' | hx'
          · exact h.fine x hx'
          · simp at hx'
    · rw [St.step]
      split
      · rename_i hx; exact quiet _ (by rw [hx]; simp) (by simp)
      · exact h
  | rcv he =>
    rcases he with ⟨r, rfl⟩ | ⟨r, rfl⟩
    · rw [St.step]
      split
      · exact h
      · rename_i hz
        refine ⟨?_, ?_, h.order, h.nolog, h.fine⟩
        · intro x o ho
          have := h.count x o ho
          rw [pending] at this ⊢
          dsimp only
          by_cases hr : x = r
          · subst hr
            rw [if_pos rfl, if_pos rfl]
            omega
          · rw [if_neg hr, if_neg hr]
            exact this
        · intro x hx
          obtain ⟨a, b, c⟩ := h.absent x hx
          have : x ≠ r := fun e => hz (e ▸ a)
          exact ⟨by dsimp only; rw [if_neg this]; exact a, by dsimp only; rw [if_neg this]; exact b, c⟩
    · rw [St.step]
      split
      · exact h
      · rename_i hz
        dsimp only
        cases ho : s.ss.socks[r]? with
        | none => exact absurd (h.absent r ho).2.1 hz
        | some o =>
          dsimp only
          have hc := h.count r o ho
          cases hq : o.queue with
          | nil =>
            rw [hq] at hc
            simp only [List.length_nil] at hc
            omega
          | cons m q =>
            dsimp only
            rw [hq] at hc
            simp only [List.length_cons] at hc
            have hs : ∀ (x : Nat) o', (s.ss.put r { o with queue := q }).socks[x]? = some o' →
                (x = r ∧ o' = { o with queue := q }) ∨ (x ≠ r ∧ s.ss.socks[x]? = some o') := by
              intro x o' hx'
              simp only [Socks.put, List.getElem?_set] at hx'
              by_cases hr : r = x
              · subst hr
                rw [if_pos rfl, if_pos (List.getElem?_eq_some_iff.1 ho).1] at hx'
                cases hx'
                exact .inl ⟨rfl, rfl⟩
              · rw [if_neg hr] at hx'
                exact .inr ⟨Ne.symm hr, hx'⟩
            have hn : ∀ (x : Nat), (s.ss.put r { o with queue := q }).socks[x]? = none → x ≠ r ∧ s.ss.socks[x]? = none := by
              intro x hx'
              simp only [Socks.put, List.getElem?_eq_none_iff, List.length_set] at hx'
              have := (List.getElem?_eq_some_iff.1 ho).1
              exact ⟨by omega, List.getElem?_eq_none (by omega)⟩
            refine ⟨?_, ?_, ?_, ?_, ?_⟩
            · intro x o' hx'
              rw [pending] at hc ⊢
              dsimp only
              rcases hs x o' hx' with ⟨rfl, rfl⟩ | ⟨h1, h2⟩
              · rw [if_pos rfl]
                dsimp only
                omega
              · rw [if_neg h1]
                exact h.count x o' h2
            · intro x hx'
              obtain ⟨h1, h2⟩ := hn x hx'
              obtain ⟨a, b, c⟩ := h.absent x h2
              exact ⟨a, by dsimp only; rw [if_neg h1]; exact b, c⟩
            · intro x o' hx'
              dsimp only
              rw [queuedFor_append, returnedBy_append]
              rcases hs x o' hx' with ⟨rfl, rfl⟩ | ⟨h1, h2⟩
              · rw [h.order x o ho, hq]
                simp [queuedFor, returnedBy]
              · rw [h.order x o' h2]
                simp [queuedFor, returnedBy, Ne.symm h1]
            · intro x hx'
              obtain ⟨h1, h2⟩ := hn x hx'
              obtain ⟨a, b⟩ := h.nolog x h2
              dsimp only
              rw [queuedFor_append, returnedBy_append, a, b]
              simp [queuedFor, returnedBy, Ne.symm h1]
            · intro x hx'
              rcases List.mem_append.1 hx' with hx' | hx'
              · exact h.fine x hx'
              · simp at hx'

theorem qinv {s₀ : St} (h : NoSockets s₀) (xs : List Step) : QInv (s₀.run xs) := by
  induction xs using List.reverseRecOn with
  | nil =>
    rw [h]
    exact ⟨by simp [St.run], by simp [St.run], by simp [St.run], by simp [St.run, queuedFor, returnedBy], by simp [St.run]⟩
  | append_singleton xs e ih => rw [run_snoc]; exact ih.step e

/-! ### Every datagram once -/

/-- The datagram the receive thread has in hand. -/
def inHand : Rx → List UdpMd
  | .look m _ => [m]
  | .append _ m => [m]
  | .refuse m => [m]
  | _ => []

theorem disposed_append (l l' : List Ev) : disposed (l ++ l') = disposed l ++ disposed l' := List.filterMap_append ..
theorem cameIn_append (l l' : List Step) : cameIn (l ++ l') = cameIn l ++ cameIn l' := List.filterMap_append ..

theorem disposed_sub {s₀ : St} (h : NoSockets s₀) (xs : List Step) : (disposed (s₀.run xs).log ++ inHand (s₀.run xs).rx).Sublist (cameIn xs) := by
  induction xs using List.reverseRecOn with
  | nil => rw [h]; exact .slnil
  | append_singleton xs e ih =>
    rw [run_snoc, cameIn_append]
    generalize s₀.run xs = s at ih ⊢
    have same : ∀ t : St, t.log = s.log → t.rx = s.rx → (disposed t.log ++ inHand t.rx).Sublist (cameIn xs ++ cameIn [e]) := by
      intro t h1 h2
      rw [h1, h2]
      exact ih.trans (List.sublist_append_left _ _)
    have hq := step_qr s e
    generalize ht : s.step e = t at hq
    cases hq with
    | keep _ _ _ _ h4 h5 => exact same _ h4 h5
    | new _ o _ _ _ _ h4 h5 => exact same _ h4 h5
    | rx he =>
      rcases he with rfl | ⟨m, rfl⟩
      · refine List.Sublist.trans ?_ (ih.trans (List.sublist_append_left _ _))
        rw [St.step, St.receive]
        split
        · rename_i hx; rw [hx]; exact .refl _
        · rename_i hx; rw [hx]; exact .refl _
        · rename_i hx
          rw [hx]
          split <;> exact .refl _
        · rename_i hx
          rw [hx]
          split
          · simp [inHand]
          · dsimp only
            rw [disposed_append]
            simp [disposed, inHand]
        · rename_i hx; rw [hx]; simp [inHand]
        · rename_i hx
          rw [hx]
          dsimp only
          rw [disposed_append]
          simp [disposed, inHand]
      · rw [St.step]
        split
        · rename_i hx
          rw [hx] at ih
          simp only [inHand, List.append_nil] at ih
          exact ih.append (.refl _)
        · exact same _ rfl rfl
    | rcv he =>
      rcases he with ⟨r, rfl⟩ | ⟨r, rfl⟩
      · rw [St.step]
        split
        · exact same _ rfl rfl
        · exact same _ rfl rfl
      · rw [St.step]
        split
        · exact same _ rfl rfl
        · dsimp only
          split
          · exact same _ rfl rfl
          · split
            · dsimp only
              rw [disposed_append]
              simp only [disposed, List.filterMap_cons, List.filterMap_nil, List.append_nil]
              exact ih.trans (List.sublist_append_left _ _)
            · dsimp only
              rw [disposed_append]
              simp only [disposed, List.filterMap_cons, List.filterMap_nil, List.append_nil]
              exact ih.trans (List.sublist_append_left _ _)

/-! ### Looking for the socket -/

theorem run_nil (s : St) : s.run [] = s := rfl

theorem prefix_snoc {α : Type} {a b : List α} {x : α} (h : a <+: b ++ [x]) : a <+: b ∨ a = b ++ [x] := by
  obtain ⟨t, ht⟩ := h
  rcases List.eq_nil_or_concat t with rfl | ⟨t', y, rfl⟩
  · exact .inr (by simpa using ht)
  · refine .inl ⟨t', ?_⟩
    rw [List.concat_eq_append, ← List.append_assoc] at ht
    exact (List.append_inj' ht rfl).1

theorem seeking_snoc {s : St} {xs ys : List Step} {m : UdpMd} {e : Step} (h : Seeking s xs ys m) (hb : (s.run (xs ++ [e])).rx ≠ .idle) :
    Seeking s (xs ++ [e]) ys m := by
  refine ⟨h.began.trans (List.prefix_append _ _), h.idle, ?_⟩
  intro ws h1 h2
  rcases prefix_snoc h2 with h2 | rfl
  · exact h.busy ws h1 h2
  · exact hb

theorem seeking_unique {s : St} {xs ys ys' : List Step} {m m' : UdpMd} (h : Seeking s xs ys m) (h' : Seeking s xs ys' m') : ys = ys' ∧ m = m' := by
  have key : ∀ {ys ys' : List Step} {m m' : UdpMd}, Seeking s xs ys m → Seeking s xs ys' m' → ys.length ≤ ys'.length → ys = ys' := by
    intro ys ys' m m' h h' hl
    by_cases he : ys.length = ys'.length
    · exact (List.prefix_of_prefix_length_le ((List.prefix_append _ _).trans h.began) ((List.prefix_append _ _).trans h'.began) (by omega)).eq_of_length he
    · have : ys ++ [.arrive m] <+: ys' := List.prefix_of_prefix_length_le h.began ((List.prefix_append _ _).trans h'.began) (by simp; omega)
      exact absurd h'.idle (h.busy _ this ((List.prefix_append _ _).trans h'.began))
  have hy : ys = ys' := by
    rcases Nat.le_total ys.length ys'.length with hl | hl
    · exact key h h' hl
    · exact (key h' h hl).symm
  subst hy
  refine ⟨rfl, ?_⟩
  have := (List.prefix_of_prefix_length_le h.began h'.began (by simp)).eq_of_length (by simp)
  simpa using this

theorem later_snoc {s : St} {xs ys : List Step} {P : St → Prop} (e : Step) (h : AtSomeTime s xs ys P) : AtSomeTime s (xs ++ [e]) ys P := by
  obtain ⟨ws, h1, h2, h3⟩ := h
  exact ⟨ws, h1, h2.trans (List.prefix_append _ _), h3⟩

/-- What the receive thread has found out so far. -/
def Looked (s : St) (xs : List Step) : Rx → Prop
  | .look m ps => ∃ ys, Seeking s xs ys m ∧ ∃ pre, m.patterns = pre ++ ps ∧
      ∀ q ∈ pre, AtSomeTime s xs (ys ++ [.arrive m]) fun t => t.ss.table.get? q = none
  | .append r m => ∃ ys, Seeking s xs ys m ∧ ∃ pre p suf, m.patterns = pre ++ p :: suf ∧
      (AtSomeTime s xs (ys ++ [.arrive m]) fun t => t.ss.table.get? p = some r) ∧
      ∀ q ∈ pre, AtSomeTime s xs (ys ++ [.arrive m]) fun t => t.ss.table.get? q = none
  | .refuse m => ∃ ys, Seeking s xs ys m ∧ ∀ q ∈ m.patterns, AtSomeTime s xs (ys ++ [.arrive m]) fun t => t.ss.table.get? q = none
  | _ => True

theorem Looked.snoc {s : St} {xs : List Step} {x : Rx} (e : Step) (h : Looked s xs x) (hx : (s.run (xs ++ [e])).rx = x) : Looked s (xs ++ [e]) x := by
  cases x with
  | idle => trivial
  | release r => trivial
  | look m ps =>
    obtain ⟨ys, h1, pre, h2, h3⟩ := h
    exact ⟨ys, seeking_snoc h1 (by rw [hx]; simp), pre, h2, fun q hq => later_snoc e (h3 q hq)⟩
  | append r m =>
    obtain ⟨ys, h1, pre, p, suf, h2, h3, h4⟩ := h
    exact ⟨ys, seeking_snoc h1 (by rw [hx]; simp), pre, p, suf, h2, later_snoc e h3, fun q hq => later_snoc e (h4 q hq)⟩
  | refuse m =>
    obtain ⟨ys, h1, h3⟩ := h
    exact ⟨ys, seeking_snoc h1 (by rw [hx]; simp), fun q hq => later_snoc e (h3 q hq)⟩

theorem looked {s : St} (h0 : NoSockets s) (xs : List Step) : Looked s xs (s.run xs).rx := by
  induction xs using List.reverseRecOn with
  | nil => rw [h0]; trivial
  | append_singleton xs e ih =>
    by_cases hx : (s.run (xs ++ [e])).rx = (s.run xs).rx
    · rw [hx]
      exact ih.snoc e hx
    · have hs := run_snoc s xs e
      have hq := step_qr (s.run xs) e
      rw [← hs] at hq
      generalize ht : s.run (xs ++ [e]) = t at hx hq hs
      cases hq with
      | keep _ _ _ _ _ h5 => exact absurd h5 hx
      | new _ _ _ _ _ _ _ h5 => exact absurd h5 hx
      | rcv he =>
        exfalso
        apply hx
        rcases he with ⟨r, rfl⟩ | ⟨r, rfl⟩
        · rw [St.step]; split <;> rfl
        · rw [St.step]
          split
          · rfl
          · dsimp only
            split
            · rfl
            · split <;> rfl
      | rx he =>
        rcases he with rfl | ⟨m, rfl⟩
        · have hw : ∀ ys, ys <+: xs → ys <+: xs ++ [Step.rx] := fun ys h => h.trans (List.prefix_append _ _)
          rw [St.step, St.receive] at hx ht ⊢
          split at hx
          · exact absurd rfl hx
          · rename_i m hr
            rw [hr] at ih ht
            dsimp only at ht ⊢
            obtain ⟨ys, h1, pre, h2, h3⟩ := ih
            refine ⟨ys, seeking_snoc h1 (by rw [ht]; simp), fun q hq => later_snoc _ (h3 q ?_)⟩
            rwa [h2, List.append_nil] at hq
          · rename_i m p ps hr
            rw [hr] at ih ht
            dsimp only at ht ⊢
            obtain ⟨ys, h1, pre, h2, h3⟩ := ih
            cases hp : (s.run xs).ss.table.get? p with
            | none =>
              rw [hp] at ht
              dsimp only at ht ⊢
              refine ⟨ys, seeking_snoc h1 (by rw [ht]; simp), pre ++ [p], by simpa using h2, fun q hq => ?_⟩
              rcases List.mem_append.1 hq with hq | hq
              · exact later_snoc _ (h3 q hq)
              · rw [List.mem_singleton] at hq
                subst hq
                exact ⟨xs, h1.began, List.prefix_append _ _, hp⟩
            | some r =>
              rw [hp] at ht
              dsimp only at ht ⊢
              refine ⟨ys, seeking_snoc h1 (by rw [ht]; simp), pre, p, ps, h2, ⟨xs, h1.began, List.prefix_append _ _, hp⟩, fun q hq => later_snoc _ (h3 q hq)⟩
          · split <;> trivial
          · trivial
          · trivial
        · rw [St.step] at hx ht ⊢
          by_cases hi : (s.run xs).rx = .idle
          · rw [if_pos hi] at ht ⊢
            refine ⟨xs, ⟨List.prefix_rfl, hi, ?_⟩, [], rfl, by simp⟩
            intro ws h1 h2
            have : ws = xs ++ [.arrive m] := h2.eq_of_length_le (h1.length_le)
            rw [this, ht]
            simp
          · rw [if_neg hi] at hx
            exact absurd rfl hx

/-- How a datagram comes to be written down as dealt with. -/
theorem dealt {s : St} {e : Step} {ev : Ev} (h : (s.step e).log = s.log ++ [ev]) :
    (∀ r m, ev = .queued r m → s.rx = .append r m) ∧ (∀ m, ev = .refused m → s.rx = .refuse m) := by
  have no : ∀ {l : List Ev} {x : Ev}, l ≠ l ++ [x] := by
    intro l x h
    have := congrArg List.length h
    simp at this
  have hq := step_qr s e
  generalize ht : s.step e = t at hq
  cases hq with
  | keep _ _ _ _ h4 _ => rw [ht, h4] at h; exact absurd h no
  | new _ _ _ _ _ _ h4 _ => rw [ht, h4] at h; exact absurd h no
  | rx he =>
    rcases he with rfl | ⟨m, rfl⟩
    · rw [St.step, St.receive] at h
      split at h
      · exact absurd h no
      · exact absurd h no
      · split at h <;> exact absurd h no
      · rename_i r m hr
        split at h
        · exact absurd h no
        · have := List.append_cancel_left h
          simp only [List.cons.injEq, and_true] at this
          subst this
          refine ⟨?_, by simp⟩
          rintro _ _ ⟨⟩
          exact hr
      · exact absurd h no
      · rename_i m hr
        have := List.append_cancel_left h
        simp only [List.cons.injEq, and_true] at this
        subst this
        refine ⟨by simp, ?_⟩
        rintro _ ⟨⟩
        exact hr
    · rw [St.step] at h
      split at h <;> exact absurd h no
  | rcv he =>
    rcases he with ⟨r, rfl⟩ | ⟨r, rfl⟩
    · rw [St.step] at h
      split at h <;> exact absurd h no
    · rw [St.step] at h
      split at h
      · exact absurd h no
      · dsimp only at h
        split at h
        · exact absurd h no
        · split at h
          · have := List.append_cancel_left h
            simp only [List.cons.injEq, and_true] at this
            subst this
            simp
          · have := List.append_cancel_left h
            simp only [List.cons.injEq, and_true] at this
            subst this
            simp

end Threads
end Verif
