import Verif.Lemmas.TcpEcho
import Verif.Lemmas.Daytime
import Verif.Spec.TcpClient
/-! The TCP echo client on a connection. -/
namespace Verif.TcpClient
open Echo Spec Sess
open TcpEcho (step_outs queue_step send_outs shut_step close_shut)

theorem five_figures (n : Nat) : ∃ w, Figures w n (five n) ∧ (w = 5 ∨ 5 < w ∧ 10 ^ (w - 1) ≤ n) ∧ (n < 100000 → w = 5) := by
  have h1 : n < 10 ^ (Nat.log 10 n + 1) := Nat.lt_pow_succ_log_self (by omega) n
  refine ⟨max 5 (Nat.log 10 n + 1), Daytime.pad_figures _ n (lt_of_lt_of_le h1 (Nat.pow_le_pow_right (by omega) (by omega))), ?_, fun h => ?_⟩
  · by_cases h : Nat.log 10 n + 1 ≤ 5
    · left; omega
    · right
      refine ⟨by omega, ?_⟩
      rw [show max 5 (Nat.log 10 n + 1) - 1 = Nat.log 10 n by omega]
      refine Nat.pow_log_le_self 10 (fun h0 => h ?_)
      rw [h0]; simp
  · have : Nat.log 10 n < 5 := Nat.log_lt_of_lt_pow' (by omega) (by simpa using h)
    omega

theorem blocks_length (n : Nat) (h : n < 100000) :
    (((List.range n).map fun i => ascii "[------" ++ five (i + 1) ++ ascii "------] ").flatten).length = 20 * n := by
  induction n with
  | zero => rfl
  | succ n ih =>
    obtain ⟨w, h1, -, h2⟩ := five_figures (n + 1)
    have h3 := h1.length
    rw [h2 h] at h3
    rw [List.range_succ, List.map_append, List.flatten_append, List.length_append, ih (by omega)]
    simp only [List.map_cons, List.map_nil, List.flatten_cons, List.flatten_nil, List.append_nil, List.length_append, h3]
    have e1 : (ascii "[------").length = 7 := by decide
    have e2 : (ascii "------] ").length = 8 := by decide
    omega

/-- A turn is a call on the session, or nothing. -/
theorem turn_step (r : Bool) (size count : Int) (s : Sess) (pc : Pc) : (turn r size count s pc).1 = s ∨
    ∃ e, (∀ m, e ≠ Sess.Ev.segment m) ∧ (turn r size count s pc).1 = s.step e := by
  cases pc with
  | connecting => exact .inr ⟨.connectReturn, by simp, rfl⟩
  | test n => exact .inl rfl
  | saying n => exact .inr ⟨.send (message size), by simp, rfl⟩
  | closing => exact .inr ⟨.close, by simp, rfl⟩
  | failed => exact .inl rfl
  | ended => exact .inl rfl
  | died => exact .inl rfl

theorem joined {size count : Int} {x y a b : Sess} {pc : Pc} (h : Dialled size count x y a b pc) : Joined x y a b := by
  induction h with
  | start => exact .start
  | peer _ he ih => exact .left ih he
  | stack _ _ he ih => exact .right ih he
  | client r _ ih =>
    rcases turn_step r size count _ _ with e | ⟨e, he, h⟩
    · rw [e]; exact ih
    · rw [h]; exact .right ih (fun m hm => absurd hm (he m))

/-- What has been said: `k` messages. -/
def Script (size count : Int) (acc : Bytes) (k : Nat) : Pc → Prop
  | .connecting => acc = [] ∧ k = 0
  | .failed => acc = [] ∧ k = 0
  | .test n => acc = (List.replicate k (message size)).flatten ∧ (k : Int) = count - n ∧ (0 ≤ count → 0 ≤ n)
  | .saying n => acc = (List.replicate k (message size)).flatten ∧ (k : Int) = count - n ∧ n ≠ 0 ∧ (0 ≤ count → 0 < n)
  | _ => acc = (List.replicate k (message size)).flatten ∧ (0 ≤ count → (k : Int) ≤ count)

theorem connect_outs (s : Sess) : accepted (s.step .connectReturn).out = accepted s.out := by
  show accepted (s.connectReturn).out = _
  unfold connectReturn
  dsimp only
  repeat' split
  all_goals simp [accepted, emit]

theorem script_turn {size count : Int} {s : Sess} {pc : Pc} {k : Nat} (hq : Queue (fun _ => True) s) (h : Script size count (accepted s.out) k pc)
    (r : Bool) : ∃ k', Script size count (accepted (turn r size count s pc).1.out) k' (turn r size count s pc).2 := by
  cases pc with
  | connecting =>
    refine ⟨0, ?_⟩
    obtain ⟨h1, h2⟩ := h
    rw [turn]
    dsimp only
    rw [connect_outs, h1]
    repeat' split
    all_goals simp [Script]
  | test n =>
    refine ⟨k, ?_⟩
    obtain ⟨h1, h2, h3⟩ := h
    rw [turn]
    dsimp only
    split
    · next hn => exact ⟨h1, h2, hn, fun x => by have := h3 x; omega⟩
    · exact ⟨h1, fun x => by have := h3 x; omega⟩
  | saying n =>
    obtain ⟨h1, h2, h4, h3⟩ := h
    rw [turn]
    dsimp only
    rw [(send_outs s _).2.2]
    split
    · refine ⟨k + 1, by rw [h1, List.replicate_succ']; simp, ?_, fun x => ?_⟩
      · push_cast; omega
      · have := h3 x; omega
    · refine ⟨k, ?_⟩
      rw [List.append_nil]
      exact ⟨h1, fun x => by have := h3 x; omega⟩
  | closing =>
    refine ⟨k, ?_⟩
    rw [turn]
    dsimp only
    rw [(step_outs hq (e := .close) (.inr rfl)).2.2]
    split
    · exact h
    · exact h
  | failed => exact ⟨k, h⟩
  | ended => exact ⟨k, h⟩
  | died => exact ⟨k, h⟩

theorem script {size count : Int} {x y a b : Sess} {pc : Pc} (h : Dialled size count x y a b pc) (hq : Queue (fun _ => True) y)
    (h0 : accepted y.out = []) : Queue (fun _ => True) b ∧ ∃ k, Script size count (accepted b.out) k pc := by
  induction h with
  | start => exact ⟨hq, 0, h0, rfl⟩
  | peer _ _ ih => exact ih
  | stack _ hs _ ih =>
    obtain ⟨i1, k, i3⟩ := ih
    refine ⟨queue_step i1 _, k, ?_⟩
    rw [(step_outs i1 (.inl hs)).2.2]; exact i3
  | client r _ ih =>
    obtain ⟨i1, k, i3⟩ := ih
    refine ⟨?_, script_turn i1 i3 r⟩
    rcases turn_step r size count _ _ with e | ⟨e, _, h⟩
    · rw [e]; exact i1
    · rw [h]; exact queue_step i1 _

theorem close_inv {size count : Int} {x y a b : Sess} {pc : Pc} (h : Dialled size count x y a b pc) (hq : Queue (fun _ => True) y)
    (h0 : accepted y.out = []) (hp : pc = .ended) : ClosesDown b := by
  induction h with
  | start => cases hp
  | peer _ _ ih => exact ih hp
  | stack h hs _ ih => exact shut_step (script h hq h0).1 (ih hp) (.inl hs)
  | @client a b pc r h ih =>
    cases pc with
    | connecting => rw [turn] at hp; dsimp only at hp; repeat' split at hp
                    all_goals simp at hp
    | test n => rw [turn] at hp; dsimp only at hp; split at hp <;> simp at hp
    | saying n => rw [turn] at hp; dsimp only at hp; split at hp <;> simp at hp
    | closing => exact close_shut b
    | failed => rw [turn] at hp; simp at hp
    | ended => exact ih rfl
    | died => rw [turn] at hp; simp at hp

end Verif.TcpClient
