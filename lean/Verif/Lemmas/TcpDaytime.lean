import Verif.Lemmas.TcpEcho
import Verif.Spec.TcpServices
/-! The TCP daytime service on a connection. -/
namespace Verif.TcpDaytime
open Echo Spec Sess Daytime
open TcpEcho (hello step_outs queue_step send_outs shut_step close_shut)

/-- A turn is a call on the session, or nothing. -/
theorem turn_step (count : Int) (i : Bool × Now) (s : Sess) (pc : Pc) : (turn count i s pc).1 = s ∨
    ∃ e, (∀ m, e ≠ Sess.Ev.segment m) ∧ (turn count i s pc).1 = s.step e := by
  cases pc with
  | hello => exact .inr ⟨.send hello, by simp, rfl⟩
  | test n => exact .inl rfl
  | saying n => exact .inr ⟨.send (line i.2), by simp, rfl⟩
  | closing => exact .inr ⟨.close, by simp, rfl⟩
  | ended => exact .inl rfl
  | died => exact .inl rfl

theorem joined {count : Int} {x y a b : Sess} {pc : Pc} {l : List (Bool × Now)} (h : Timed count x y a b pc l) : Joined x y a b := by
  induction h with
  | start => exact .start
  | client _ he ih => exact .left ih he
  | stack _ _ he ih => exact .right ih he
  | service i _ _ ih =>
    rcases turn_step count i _ _ with e | ⟨e, he, h⟩
    · rw [e]; exact ih
    · rw [h]; exact .right ih (fun m hm => absurd hm (he m))

/-- What has been said, with the times of the messages. -/
def Script (count : Int) (acc : Bytes) (ts : List Now) : Pc → Prop
  | .hello => acc = [] ∧ ts = []
  | .test n => acc = hello ++ (ts.map line).flatten ∧ (ts.length : Int) = count - n ∧ (0 ≤ count → 0 ≤ n)
  | .saying n => acc = hello ++ (ts.map line).flatten ∧ (ts.length : Int) = count - n ∧ (0 ≤ count → 0 < n)
  | .died => (acc = [] ∧ ts = []) ∨ acc = hello ++ (ts.map line).flatten ∧ (0 ≤ count → (ts.length : Int) ≤ count)
  | _ => acc = hello ++ (ts.map line).flatten ∧ (0 ≤ count → (ts.length : Int) ≤ count)

theorem script_turn {count : Int} {s : Sess} {pc : Pc} {ts : List Now} (hq : Queue (fun _ => True) s) (h : Script count (accepted s.out) ts pc)
    (i : Bool × Now) :
    ∃ us, (us = [] ∨ us = [i.2]) ∧ Script count (accepted (turn count i s pc).1.out) (ts ++ us) (turn count i s pc).2 := by
  cases pc with
  | hello =>
    refine ⟨[], .inl rfl, ?_⟩
    obtain ⟨h1, h2⟩ := h
    rw [turn]
    dsimp only
    rw [(send_outs s hello).2.2, h1, h2]
    split
    · simp [Script]
    · simp [Script]
  | test n =>
    refine ⟨[], .inl rfl, ?_⟩
    obtain ⟨h1, h2, h3⟩ := h
    rw [turn, List.append_nil]
    dsimp only
    split
    · next hn => exact ⟨h1, h2, fun x => by have := h3 x; omega⟩
    · exact ⟨h1, fun x => by have := h3 x; omega⟩
  | saying n =>
    obtain ⟨h1, h2, h3⟩ := h
    rw [turn]
    dsimp only
    rw [(send_outs s _).2.2]
    split
    · refine ⟨[i.2], .inr rfl, by rw [h1]; simp, ?_, fun x => ?_⟩
      · simp only [List.length_append, List.length_cons, List.length_nil]; omega
      · have := h3 x; omega
    · refine ⟨[], .inl rfl, ?_⟩
      rw [List.append_nil, List.append_nil]
      exact ⟨h1, fun x => by have := h3 x; omega⟩
  | closing =>
    refine ⟨[], .inl rfl, ?_⟩
    rw [turn, List.append_nil]
    dsimp only
    rw [(step_outs hq (e := .close) (.inr rfl)).2.2]
    split
    · exact .inr h
    · exact h
  | ended => exact ⟨[], .inl rfl, by rw [List.append_nil]; exact h⟩
  | died => exact ⟨[], .inl rfl, by rw [List.append_nil]; exact h⟩

theorem script {count : Int} {x y a b : Sess} {pc : Pc} {l : List (Bool × Now)} (h : Timed count x y a b pc l) (hq : Queue (fun _ => True) y)
    (h0 : accepted y.out = []) :
    Queue (fun _ => True) b ∧ ∃ ts, ts.Sublist (l.map Prod.snd) ∧ Script count (accepted b.out) ts pc := by
  induction h with
  | start => exact ⟨hq, [], List.Sublist.refl _, h0, rfl⟩
  | client _ _ ih => exact ih
  | stack _ hs _ ih =>
    obtain ⟨i1, ts, i2, i3⟩ := ih
    refine ⟨queue_step i1 _, ts, i2, ?_⟩
    rw [(step_outs i1 (.inl hs)).2.2]; exact i3
  | service i _ _ ih =>
    obtain ⟨i1, ts, i2, i3⟩ := ih
    obtain ⟨us, hu, hs⟩ := script_turn i1 i3 i
    refine ⟨?_, ts ++ us, ?_, hs⟩
    · rcases turn_step count i _ _ with e | ⟨e, _, h⟩
      · rw [e]; exact i1
      · rw [h]; exact queue_step i1 _
    · rw [List.map_append]
      refine List.Sublist.append i2 ?_
      rcases hu with rfl | rfl
      · exact List.nil_sublist _
      · exact List.Sublist.refl _

theorem close_inv {count : Int} {x y a b : Sess} {pc : Pc} {l : List (Bool × Now)} (h : Timed count x y a b pc l) (hq : Queue (fun _ => True) y)
    (h0 : accepted y.out = []) (hp : pc = .ended) : ClosesDown b := by
  induction h with
  | start => cases hp
  | client _ _ ih => exact ih hp
  | stack h hs _ ih => exact shut_step (script h hq h0).1 (ih hp) (.inl hs)
  | @service a b pc l i h _ ih =>
    cases pc with
    | hello => rw [turn] at hp; dsimp only at hp; split at hp <;> simp at hp
    | test n => rw [turn] at hp; dsimp only at hp; split at hp <;> simp at hp
    | saying n => rw [turn] at hp; dsimp only at hp; split at hp <;> simp at hp
    | closing => exact close_shut b
    | ended => exact ih rfl
    | died => rw [turn] at hp; simp at hp

end Verif.TcpDaytime
