import Verif.Lemmas.TcpEcho
import Verif.Spec.TcpServices
/-! The TCP discard service on a connection (the proofs follow `Lemmas/TcpEcho.lean`). -/
namespace Verif.TcpDiscard
open Echo Spec Sess
open TcpEcho (hello closedMsg quitMsg asksEnd lastRead asksEnd_iff returned_append received_eq step_outs queue_step send_outs take_outs acquire_outs
  finTaken_sent Complete Complete.client Complete.other eof_step closed_step shut_step close_shut Over)

def reply (d : Bytes) : Bytes := if d = [] then closedMsg else if asksEnd d then quitMsg else []

/-- A turn is a call on the session, or nothing. -/
theorem turn_step (running : Bool) (s : Sess) (pc : Pc) : (turn running s pc).1 = s ∨
    ∃ e, (∀ m, e ≠ Sess.Ev.segment m) ∧ (turn running s pc).1 = s.step e := by
  cases pc with
  | hello => exact .inr ⟨.send hello, by simp, rfl⟩
  | test => exact .inl rfl
  | recv =>
    rw [turn]
    split
    · exact .inl rfl
    · exact .inr ⟨.recvAcquire, by simp, rfl⟩
  | taking => exact .inr ⟨.recvTake none, by simp, rfl⟩
  | got d =>
    rw [turn]
    repeat' split
    · exact .inr ⟨.send closedMsg, by simp, rfl⟩
    · exact .inr ⟨.send quitMsg, by simp, rfl⟩
    · exact .inl rfl
  | closing again => exact .inr ⟨.close, by simp, rfl⟩
  | last => exact .inr ⟨.close, by simp, rfl⟩
  | ended => exact .inl rfl
  | died => exact .inl rfl

theorem joined {calm : Prop} {x y a b : Sess} {pc : Pc} (h : Discarded calm x y a b pc) : Joined x y a b := by
  induction h with
  | start => exact .start
  | client _ he ih => exact .left ih he
  | stack _ _ he _ ih => exact .right ih he
  | service running _ _ ih =>
    rcases turn_step running _ _ with e | ⟨e, he, h⟩
    · rw [e]; exact ih
    · rw [h]; exact .right ih (fun m hm => absurd hm (he m))


def Script (acc : Bytes) (ret : List Bytes) (readers : Nat) : Pc → Prop
  | .hello => acc = [] ∧ ret = [] ∧ readers = 0
  | .test => acc = hello ++ (ret.map reply).flatten ∧ [] ∉ ret ∧ readers = 0
  | .recv => acc = hello ++ (ret.map reply).flatten ∧ [] ∉ ret ∧ readers = 0
  | .taking => acc = hello ++ (ret.map reply).flatten ∧ [] ∉ ret ∧ readers = 1
  | .got d => readers = 0 ∧ ∃ l, ret = l ++ [d] ∧ acc = hello ++ (l.map reply).flatten ∧ [] ∉ l
  | .closing again => acc = hello ++ (ret.map reply).flatten ∧ readers = 0 ∧ if again then [] ∉ ret else ∃ l, ret = l ++ [[]] ∧ [] ∉ l
  | .last => acc = hello ++ (ret.map reply).flatten ∧ readers = 0 ∧ ([] ∉ ret ∨ ∃ l, ret = l ++ [[]] ∧ [] ∉ l)
  | .ended => acc = hello ++ (ret.map reply).flatten ∧ readers = 0 ∧ ([] ∉ ret ∨ ∃ l, ret = l ++ [[]] ∧ [] ∉ l)
  | .died => readers = 0 ∧ (acc = [] ∧ ret = [] ∨ (∃ l d, ret = l ++ [d] ∧ acc = hello ++ (l.map reply).flatten ∧ [] ∉ l) ∨
      acc = hello ++ (ret.map reply).flatten ∧ ([] ∉ ret ∨ ∃ l, ret = l ++ [[]] ∧ [] ∉ l))


theorem script_turn {s : Sess} {pc : Pc} (hq : Queue (fun _ => True) s) (h : Script (accepted s.out) (returned s.out) s.readers pc) (running : Bool) :
    Script (accepted (turn running s pc).1.out) (returned (turn running s pc).1.out) (turn running s pc).1.readers (turn running s pc).2 := by
  cases pc with
  | hello =>
    obtain ⟨h1, h2, h3⟩ := h
    obtain ⟨e1, e2, e3⟩ := send_outs s hello
    rw [turn, say]
    dsimp only
    rw [e1, e2, e3, h1, h2, h3]
    split
    · simp [Script]
    · simp [Script]
  | test =>
    rw [turn]
    dsimp only
    split
    · exact h
    · exact ⟨h.1, h.2.2, .inl h.2.1⟩
  | recv =>
    rw [turn]
    by_cases h0 : s.evRx = 0
    · rw [if_pos h0]; exact h
    · rw [if_neg h0]
      dsimp only
      rw [acquire_outs s h0]
      exact ⟨h.1, h.2.1, by have := h.2.2; dsimp only; omega⟩
  | taking =>
    rw [turn]
    obtain ⟨e1, e2, e3, e4⟩ := take_outs s h.2.2
    dsimp only
    rw [lastRead, e1, e3]
    simp only [List.getLast?_append, List.getLast?_singleton, Option.some_or]
    refine ⟨rfl, returned s.out, by rw [returned_append]; rfl, ?_, h.2.1⟩
    rw [← h.1]
    simp [accepted]
  | got d =>
    obtain ⟨h1, l, h2, h3, h4⟩ := h
    have all : ∀ x, x = reply d → accepted s.out ++ x = hello ++ ((returned s.out).map reply).flatten := by
      rintro x rfl
      rw [h2, h3]; simp
    have go : ∀ x next, x = reply d → (Script (accepted s.out ++ x) (returned s.out) 0 next) →
        Script (accepted (say s x next).1.out) (returned (say s x next).1.out) (say s x next).1.readers (say s x next).2 := by
      intro x next hx hn
      obtain ⟨e1, e2, e3⟩ := send_outs s x
      rw [say]
      dsimp only
      rw [e1, e2, e3, h1]
      split
      · exact hn
      · rw [List.append_nil]
        exact ⟨rfl, .inr (.inl ⟨l, d, h2, h3, h4⟩)⟩
    rw [turn]
    by_cases hd : d = []
    · rw [if_pos hd]
      have hx : closedMsg = reply d := by rw [reply, if_pos hd]
      exact go _ _ hx ⟨all _ hx, rfl, l, by rw [h2, hd], h4⟩
    · have hn : [] ∉ returned s.out := by
        rw [h2]; intro hm
        rcases List.mem_append.1 hm with hm | hm
        · exact h4 hm
        · exact hd (List.mem_singleton.1 hm).symm
      rw [if_neg hd]
      by_cases ha : asksEnd d = true
      · rw [if_pos ha]
        have hx : quitMsg = reply d := by rw [reply, if_neg hd, if_pos ha]
        exact go _ _ hx ⟨all _ hx, rfl, hn⟩
      · rw [if_neg ha]
        have hx : [] = reply d := by rw [reply, if_neg hd, if_neg ha]
        have := all _ hx
        rw [List.append_nil] at this
        exact ⟨this, hn, h1⟩
  | closing again =>
    obtain ⟨h1, h2, h3⟩ := h
    obtain ⟨e1, e2, e3⟩ := step_outs hq (e := .close) (.inr rfl)
    rw [turn, shut]
    dsimp only
    rw [e1, e2, e3]
    have h4 : [] ∉ returned s.out ∨ ∃ l, returned s.out = l ++ [[]] ∧ [] ∉ l := by
      cases again
      · exact .inr (by simpa using h3)
      · exact .inl (by simpa using h3)
    split
    · exact ⟨h2, .inr (.inr ⟨h1, h4⟩)⟩
    · cases again
      · exact ⟨h1, h2, h4⟩
      · exact ⟨h1, by simpa using h3, h2⟩
  | last =>
    obtain ⟨h1, h2, h4⟩ := h
    obtain ⟨e1, e2, e3⟩ := step_outs hq (e := .close) (.inr rfl)
    rw [turn, shut]
    dsimp only
    rw [e1, e2, e3]
    split
    · exact ⟨h2, .inr (.inr ⟨h1, h4⟩)⟩
    · exact ⟨h1, h2, h4⟩
  | ended => exact h
  | died => exact h

theorem script {calm : Prop} {x y a b : Sess} {pc : Pc} (h : Discarded calm x y a b pc) (hq : Queue (fun _ => True) y)
    (h0 : accepted y.out = [] ∧ returned y.out = [] ∧ y.readers = 0) :
    Queue (fun _ => True) b ∧ Script (accepted b.out) (returned b.out) b.readers pc := by
  induction h with
  | start => exact ⟨hq, h0⟩
  | client _ _ ih => exact ih
  | stack _ hs _ _ ih =>
    obtain ⟨e1, e2, e3⟩ := step_outs ih.1 (.inl hs)
    refine ⟨queue_step ih.1 _, ?_⟩
    rw [e1, e2, e3]; exact ih.2
  | service running _ _ ih =>
    refine ⟨?_, script_turn ih.1 ih.2 running⟩
    rcases turn_step running _ _ with e | ⟨e, _, h⟩
    · rw [e]; exact ih.1
    · rw [h]; exact queue_step ih.1 _

/-! ### The end of the client's stream -/

/-- The end of the stream, with where the thread is, when receive calls are not interrupted. -/
def EndInv (a b : Sess) : Pc → Prop
  | .taking => ∃ s, EofInv s ∧ s.evRx ≠ 0 ∧ b = s.recvAcquire
  | .got d => EofInv b ∧ (d = [] → b.state = .closed ∨ Complete a b)
  | .closing again => if again then EofInv b else Complete a b
  | .last => [] ∈ returned b.out → Complete a b
  | .ended => [] ∈ returned b.out → Complete a b
  | .died => True
  | _ => EofInv b

theorem end_inv {p q : Bool} {ia ib : Nat} {lip : IpAddress} {lport : Nat} {rip : IpAddress} {rport : Nat} {lip' : IpAddress} {lport' : Nat}
    {rip' : IpAddress} {rport' : Nat} {a b : Sess} {pc : Pc}
    (h : Discarded True (opened p ia lip lport rip rport) (opened q ib lip' lport' rip' rport') a b pc) : EndInv a b pc := by
  have base : accepted (opened q ib lip' lport' rip' rport').out = [] ∧ returned (opened q ib lip' lport' rip' rport').out = [] ∧
      (opened q ib lip' lport' rip' rport').readers = 0 := by
    rw [opened_eq]; cases q <;> simp [new, accepted, returned]
  induction h with
  | start =>
    show EofInv _
    rw [opened_eq]
    cases q <;> exact ⟨by simp [new], fun _ => by simp [new]⟩
  | @client a b pc e h he ih =>
    obtain ⟨⟨evs, h1, -⟩, -, hS, -⟩ := pair_joined (joined h)
    have hq : Queue (fun _ => True) a := by rw [h1]; exact queue_run (queue_opened ..)
    cases pc with
    | got d =>
      refine ⟨ih.1, fun hd => ?_⟩
      rcases ih.2 hd with x | x
      · exact .inl x
      · exact .inr (x.client hS hq e)
    | closing again =>
      cases again
      · exact Complete.client (show Complete a b from ih) hS hq e
      · exact ih
    | last => exact fun x => (ih x).client hS hq e
    | ended => exact fun x => (ih x).client hS hq e
    | _ => exact ih
  | @stack a b pc e h hs he hc ih =>
    obtain ⟨-, ⟨evs, h1, -⟩, -, hL, hS, -⟩ := pair_joined (joined h)
    have hq : Queue (fun _ => True) b := by rw [h1]; exact queue_run (queue_opened ..)
    have hA : ∀ m, e = .segment m → AckOk ib m := by
      intro m hm ha hr
      rcases he m hm with r | ⟨g, hg, hc⟩
      · rw [r.rst] at hr; cases hr
      · rcases hL.acks g hg (by rw [← hc.ack]; exact ha) with x | x
        · rw [← hc.rst, hr] at x; cases x
        · rw [hc.ackn]; omega
    have hr := (step_outs hq (.inl hs)).1
    cases pc with
    | taking =>
      obtain ⟨r, rfl⟩ := hc trivial rfl
      obtain ⟨s, hE, h0, hb⟩ := ih
      refine ⟨{ s with registered := r }, ⟨hE.none, hE.sem⟩, h0, ?_⟩
      rw [hb, acquire_outs s h0, acquire_outs { s with registered := r } h0]; rfl
    | got d =>
      refine ⟨eof_step hS ih.1 (.inl hs) hA, fun hd => ?_⟩
      rcases ih.2 hd with x | x
      · exact .inl (closed_step hS x (.inl hs) hA)
      · exact .inr (x.other hr)
    | closing again =>
      cases again
      · exact Complete.other (show Complete a b from ih) hr
      · exact eof_step hS (show EofInv b from ih) (.inl hs) hA
    | last => exact fun x => (ih (by rw [← hr]; exact x)).other hr
    | ended => exact fun x => (ih (by rw [← hr]; exact x)).other hr
    | died => trivial
    | hello => exact eof_step hS (show EofInv b from ih) (.inl hs) hA
    | test => exact eof_step hS (show EofInv b from ih) (.inl hs) hA
    | recv => exact eof_step hS (show EofInv b from ih) (.inl hs) hA
  | @service a b pc running h hq ih =>
    have hj := joined h
    obtain ⟨hqu, hsc⟩ := script h (queue_opened ..) base
    obtain ⟨-, -, -, hL, hS, -⟩ := pair_joined hj
    cases pc with
    | hello =>
      rw [turn, say]
      dsimp only
      split
      · exact TcpEcho.EofInv.send (show EofInv b from ih) _
      · trivial
    | test =>
      rw [turn]
      dsimp only
      split
      · exact ih
      · exact fun x => absurd x hsc.2.1
    | recv =>
      rw [turn]
      by_cases h0 : b.evRx = 0
      · rw [if_pos h0]; exact ih
      · rw [if_neg h0]; exact ⟨b, ih, h0, rfl⟩
    | taking =>
      obtain ⟨e1, e2, e3, e4⟩ := take_outs b hsc.2.2
      rw [turn]
      dsimp only
      rw [lastRead, e1]
      simp only [List.getLast?_append, List.getLast?_singleton, Option.some_or]
      obtain ⟨s, hE, h0, hb⟩ := ih
      have hst : s.state = b.state := by rw [hb, acquire_outs s h0]
      have hrx : s.rx = b.rx := by rw [hb, acquire_outs s h0]
      have hcl : b.rx = [] → finTaken b.state → Complete a (b.recvTake none) := by
        intro hx hf
        refine ⟨finTaken_sent hj hf, ?_⟩
        have := C81_fin_means_all _ _ _ _ _ _ _ _ _ _ _ _ hj.swap (by simpa [finTaken] using hf)
        rw [hx, List.append_nil] at this
        rw [e1, received_eq, returned_append, List.flatten_append, ← received_eq, this, hx]
        simp [returned]
      rcases receive_cases hE.none none with ⟨x, _⟩ | ⟨_, h1, h2, x⟩ | ⟨_, h1, k, hk, x⟩
      · exact absurd x h0
      · refine ⟨?_, fun hd => ?_⟩
        · rw [hb, x]
          refine ⟨hE.none, fun y => ?_⟩
          exfalso; apply y
          rcases h2 with h2 | h2 <;> simp [Ended, h2]
        · rw [hst] at h2
          rcases h2 with h2 | h2
          · exact .inr (hcl hd (.inl h2))
          · exact .inl (e4.trans h2)
      · refine ⟨?_, fun hd => ?_⟩
        · rw [hb, x]
          refine ⟨hE.none, fun y => ?_⟩
          have h3 := hE.sem y
          dsimp only at y ⊢
          split
          · rename_i hc
            refine ⟨h3.1, fun _ => ?_⟩
            rcases hc with hc | hc | hc
            · exact hc
            · exact absurd (by simp [Ended, hc]) y
            · exact absurd (by simp [Ended, hc]) y
          · exact ⟨by omega, fun z => by omega⟩
        · have hend : Ended s.state := by
            apply Classical.byContradiction
            intro hne
            have := hE.sem hne
            exact this.2 (by omega) (by rw [hrx]; exact hd)
          rw [hst] at hend
          rcases hend with y | y | y
          · exact .inr (hcl hd (.inl y))
          · exact .inr (hcl hd (.inr (.inr (.inl y))))
          · exact .inl (e4.trans y)
    | got d =>
      obtain ⟨hE, hC⟩ := ih
      rw [turn]
      by_cases hd : d = []
      · rw [if_pos hd, say]
        dsimp only
        split
        · next hst =>
          rcases hC hd with x | x
          · rw [x] at hst; rcases hst with y | y <;> cases y
          · exact Complete.other x (send_outs b closedMsg).1
        · trivial
      · rw [if_neg hd]
        split
        · rw [say]; dsimp only; split <;> first | trivial | exact TcpEcho.EofInv.send hE _
        · exact hE
    | closing again =>
      have hr := (step_outs hqu (e := .close) (.inr rfl)).1
      have hE' := fun hE => eof_step (e := .close) hS hE (.inr rfl) (fun m hm => nomatch hm)
      rw [turn, shut]
      dsimp only
      split
      · trivial
      · cases again
        · exact fun _ => Complete.other (show Complete a b from ih) hr
        · exact hE' (show EofInv b from ih)
    | last =>
      have hr := (step_outs hqu (e := .close) (.inr rfl)).1
      rw [turn, shut]
      dsimp only
      split
      · trivial
      · exact fun x => Complete.other (ih (by rw [← hr]; exact x)) hr
    | ended => exact ih
    | died => trivial


def CloseInv (b : Sess) : Pc → Prop
  | .got d => ∃ l, returned b.out = l ++ [d] ∧ (Over l → ClosesDown b)
  | .closing _ => True
  | .ended => ClosesDown b
  | .died => True
  | _ => Over (returned b.out) → ClosesDown b

theorem close_inv {calm : Prop} {x y a b : Sess} {pc : Pc} (h : Discarded calm x y a b pc) (hq : Queue (fun _ => True) y)
    (h0 : accepted y.out = [] ∧ returned y.out = [] ∧ y.readers = 0) : CloseInv b pc := by
  induction h with
  | start => rintro ⟨d, hd, _⟩; rw [h0.2.1] at hd; cases hd
  | client _ _ ih => exact ih
  | @stack a b pc e h hs _ _ ih =>
    have hqu := (script h hq h0).1
    have hr := (step_outs hqu (.inl hs)).1
    have hk : ClosesDown b → ClosesDown (b.step e) := fun x => shut_step hqu x (.inl hs)
    cases pc with
    | got d =>
      obtain ⟨l, e1, e2⟩ := ih
      exact ⟨l, by rw [hr]; exact e1, fun x => hk (e2 x)⟩
    | closing _ => trivial
    | died => trivial
    | hello => intro x; rw [hr] at x; exact hk (ih x)
    | test => intro x; rw [hr] at x; exact hk (ih x)
    | recv => intro x; rw [hr] at x; exact hk (ih x)
    | taking => intro x; rw [hr] at x; exact hk (ih x)
    | last => intro x; rw [hr] at x; exact hk (ih x)
    | ended => exact hk ih
  | @service a b pc running h _ ih =>
    obtain ⟨hqu, hs⟩ := script h hq h0
    cases pc with
    | hello =>
      rw [turn, say]
      dsimp only
      split
      · rintro ⟨d, hd, _⟩
        rw [(send_outs b hello).1, hs.2.1] at hd; cases hd
      · trivial
    | test =>
      rw [turn]
      dsimp only
      split <;> exact ih
    | recv =>
      rw [turn]
      by_cases h0 : b.evRx = 0
      · rw [if_pos h0]; exact ih
      · rw [if_neg h0]
        dsimp only
        rw [acquire_outs b h0]; exact ih
    | taking =>
      obtain ⟨e1, e2, e3, e4⟩ := take_outs b hs.2.2
      rw [turn]
      dsimp only
      rw [lastRead, e1]
      simp only [List.getLast?_append, List.getLast?_singleton, Option.some_or]
      refine ⟨returned b.out, by rw [e1, returned_append]; rfl, fun x => ?_⟩
      have := ih x
      rcases recvTake_cases b none with z | ⟨k, e, z⟩ <;> rw [z] <;> exact this
    | got d =>
      obtain ⟨l, e1, e2⟩ := ih
      rw [turn]
      by_cases hd : d = []
      · rw [if_pos hd, say]; dsimp only; split <;> trivial
      · rw [if_neg hd]
        by_cases ha : asksEnd d = true
        · rw [if_pos ha, say]; dsimp only; split <;> trivial
        · rw [if_neg ha]
          intro x
          rw [e1] at x
          refine e2 ?_
          obtain ⟨c, hc, hx⟩ := x
          rcases List.mem_append.1 hc with hc | hc
          · exact ⟨c, hc, hx⟩
          · rw [List.mem_singleton.1 hc] at hx
            rcases hx with hx | hx
            · exact absurd hx hd
            · exact absurd hx ha
    | closing again =>
      rw [turn, shut]
      dsimp only
      split
      · trivial
      · cases again
        · exact fun _ => close_shut b
        · exact fun _ => close_shut b
    | last =>
      rw [turn, shut]
      dsimp only
      split
      · trivial
      · exact close_shut b
    | ended => exact ih
    | died => trivial

end Verif.TcpDiscard
