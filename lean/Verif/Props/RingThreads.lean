import Verif.Lemmas.RingThreads
import Mathlib.Data.List.Infix
/-!
C101: the frame queues with a thread switch possible between any two accesses to the list, the semaphore and the flag, and `start` and `stop` at any
time.  `F` is the type of the frames and `fits` says which are not too long to be written (for received frames: all).
-/
namespace Verif
open Spec RingThreads
variable {F : Type} (fits : F → Bool)

/-- **C101.** However many threads put frames in and take frames out: the frames put in are, in order, those taken out and those waiting.  None is lost, none
is taken twice. -/
theorem C101_order (xs : List (RingThreads.Step F)) :
    framesPut (queueAfter fits xs).log = framesTaken (queueAfter fits xs).log ++ (queueAfter fits xs).ring := (order xs).symm

/-- If no thread is started while an earlier one goes on, the frames are dealt with in the order in which they were put in, with at most one being under
way, and no thread ends by an exception.  (Missing, and false: the same when `start` follows `stop` too soon; see `C101_dies`, `C101_overtakes`.) -/
theorem C101_exact_partial (xs : List (RingThreads.Step F)) (h : OneThread fits xs) :
    (∃ held, held.length ≤ 1 ∧ framesPut (queueAfter fits xs).log = framesDealt (queueAfter fits xs).log ++ held ++ (queueAfter fits xs).ring) ∧
    ∀ c ∈ (queueAfter fits xs).threads, c ≠ .dead := by
  have ho := order (fits := fits) xs
  rcases single xs h with ⟨h1, h2⟩ | ⟨l, c, h1, h2, h3⟩
  · rw [h1]
    refine ⟨⟨[], Nat.zero_le _, ?_⟩, by simp⟩
    rw [List.append_nil, h2]
    exact ho.symm
  · rw [h1]
    refine ⟨⟨holds c, by cases c <;> simp [holds], ?_⟩, ?_⟩
    · rw [h3.dealt]; exact ho.symm
    · intro x hx
      rcases List.mem_append.1 hx with hx | hx
      · rw [h2 x hx]; simp
      · rw [List.mem_singleton.1 hx]; exact h3.alive

/-- If no write fails, the frames written are those dealt with that are not too long. -/
theorem C101_written (xs : List (RingThreads.Step F)) (h : ∀ k, .go k false ∉ xs) :
    framesWritten (queueAfter fits xs).log = (framesDealt (queueAfter fits xs).log).filter fits := written_all xs h

/-- No frame stays in the queue: while a thread goes round and is not told to stop, 5·n + 1 steps of it are enough to deal with the n frames that were
waiting and the one under way, whether or not the semaphore has been released for them, and whatever the other threads put in meanwhile. -/
theorem C101_emptied_partial (xs zs : List (RingThreads.Step F)) (h : OneThread fits xs) (k : Nat) (c : RingThreads.Pc F)
    (hrun : (queueAfter fits xs).run = true) (hk : (queueAfter fits xs).threads[k]? = some c) (hc : c ≠ .ended) (hz : .start ∉ zs) (hz' : .stop ∉ zs)
    (hn : 5 * (queueAfter fits xs).ring.length + 1 ≤ turns k zs) :
    framesPut (queueAfter fits xs).log <+: framesDealt (queueAfter fits (xs ++ zs)).log := by
  rcases single xs h with ⟨h1, -⟩ | ⟨l, c', h1, h2, h3⟩
  · rw [h1] at hk; simp at hk
  · have hlast : k = l.length ∧ c = c' := by
      rw [h1, List.getElem?_append] at hk
      split at hk
      · exact absurd (h2 c (List.mem_of_getElem? hk)) hc
      · rename_i hlt
        have hkl := (List.getElem?_eq_some_iff.1 hk).1
        simp at hkl
        have hkl : k = l.length := by omega
        subst hkl
        simp at hk
        exact ⟨rfl, hk.symm⟩
    obtain ⟨rfl, rfl⟩ := hlast
    obtain ⟨-, c₂, g2, -, -, g⟩ := work xs zs h hrun h1 ⟨hc, h3.alive⟩ hz hz'
    have hlen : (framesPut (queueAfter fits xs).log).length ≤ (framesDealt (queueAfter fits (xs ++ zs)).log).length := by
      rcases g with g | g
      · exact g
      · have ho := congrArg List.length (order (fits := fits) xs)
        rw [List.length_append] at ho
        have hd := congrArg List.length h3.dealt
        rw [List.length_append] at hd
        have hpl : 5 * (holds c).length + place c ≤ 5 := by cases c <;> simp [holds, place]
        omega
    refine List.prefix_of_prefix_length_le (put_prefix xs zs) ?_ hlen
    rw [← order, ← ((single _ (one_more h hz)).good g2).2.dealt, List.append_assoc]
    exact List.prefix_append _ _

/-- After `stop`, unless there is another `start`, every thread leaves its loop within five of its steps. -/
theorem C101_stops (xs zs : List (RingThreads.Step F)) (k : Nat) (hk : k < (queueAfter fits xs).threads.length) (hz : .start ∉ zs)
    (hn : 5 ≤ turns k zs) :
    (queueAfter fits (xs ++ .stop :: zs)).threads[k]? = some .ended ∨ (queueAfter fits (xs ++ .stop :: zs)).threads[k]? = some .dead := by
  have hs : queueAfter fits (xs ++ [.stop]) = { queueAfter fits xs with run := false } := by rw [queueAfter, steps_snoc]; rfl
  obtain ⟨-, c', h1, h2⟩ := stopped (fits := fits) (xs ++ [.stop]) zs (by rw [hs]) (k := k) (c := (queueAfter fits xs).threads[k])
    (by rw [hs]; exact List.getElem?_eq_getElem hk) hz
  rw [← List.append_cons] at h1
  rw [h1]
  have : togo (queueAfter fits xs).threads[k] ≤ 5 := by cases (queueAfter fits xs).threads[k] <;> simp [togo]
  have h0 : togo c' = 0 := by omega
  cases c' <;> simp [togo] at h0
  · exact .inl rfl
  · exact .inr rfl

/-- After `stop`, unless there is another `start`, at most one more frame is taken for each thread that had not ended; the others stay in the queue. -/
theorem C101_leaves (xs zs : List (RingThreads.Step F)) (hz : .start ∉ zs) :
    (framesTaken (queueAfter fits (xs ++ .stop :: zs)).log).length ≤
      (framesTaken (queueAfter fits xs).log).length + (queueAfter fits xs).threads.countP (fun c => c matches .acquire | .check | .pop) := by
  have hs : queueAfter fits (xs ++ [.stop]) = { queueAfter fits xs with run := false } := by rw [queueAfter, steps_snoc]; rfl
  obtain ⟨-, h⟩ := take_stopped (fits := fits) (xs ++ [.stop]) zs (by rw [hs]) hz
  rw [hs, ← List.append_cons] at h
  dsimp only at h
  have hsum : ∀ l : List (Pc F), (l.map mayTake).sum = l.countP (fun c => c matches .acquire | .check | .pop) := by
    intro l
    induction l with
    | nil => rfl
    | cons c l ih => rw [List.map_cons, List.sum_cons, ih, List.countP_cons]; cases c <;> simp [mayTake] <;> omega
  rw [hsum (queueAfter fits xs).threads] at h
  omega

/-- **Counterexample.** `stop` and then `start` while the old thread waits for the semaphore: both threads go on, see the one frame that is put in, and the
second to take it ends by IndexError. -/
theorem C101_dies : ∃ xs : List (RingThreads.Step Nat), Step.go 0 false ∉ xs ∧ RingThreads.Pc.dead ∈ (queueAfter (fun _ => true) xs).threads := by
  refine ⟨[.start, .go 0 true, .stop, .start, .go 1 true, .append 7, .release, .go 0 true, .go 1 true, .go 0 true, .go 1 true, .go 0 true, .go 1 true],
    by decide, by decide +kernel⟩

/-- **Counterexample.** In the same situation a frame overtakes the one before it. -/
theorem C101_overtakes : ∃ xs : List (RingThreads.Step Nat), framesPut (queueAfter (fun _ => true) xs).log = [1, 2] ∧
    framesWritten (queueAfter (fun _ => true) xs).log = [2, 1] := by
  refine ⟨[.start, .go 0 true, .stop, .start, .go 1 true, .append 1, .release, .append 2, .release, .go 0 true, .go 1 true, .go 0 true, .go 1 true,
    .go 0 true, .go 1 true, .go 1 true, .go 0 true], by decide +kernel, by decide +kernel⟩

namespace Example.RingThreads

/-- A thread waiting for the semaphore, two frames put in, one of them not announced yet; then it is stopped, has ended, and is started again. -/
def before : List (RingThreads.Step Nat) := [.start, .go 0 true, .append 1, .release, .append 200, .stop, .go 0 true, .go 0 true, .go 0 true, .go 0 true,
  .go 0 true, .start]

example : (queueAfter (· < 100) before).threads = [.ended, .test] ∧ (queueAfter (· < 100) before).run = true ∧
    (queueAfter (· < 100) before).ring = [200] := by decide +kernel

theorem one : OneThread (· < 100) before := by
  intro ys hy
  have hmem : ys ++ [Step.start] ∈ before.inits := (List.mem_inits _ _).2 hy
  have : ∀ zs ∈ before.inits, zs.getLast? = some Step.start → ∀ c ∈ (queueAfter (· < 100) zs.dropLast).threads, c = .ended := by decide +kernel
  simpa using this _ hmem (by simp)

/-- C101_emptied_partial: the frame left over is dealt with by the new thread, though too long to be written. -/
example : framesDealt (queueAfter (· < 100) (before ++ [.go 1 true, .append 3, .go 1 true, .go 1 true, .go 1 true, .go 1 true, .go 1 true])).log = [1, 200] := by
  decide +kernel

/-- C101_stops, C101_leaves: one more frame is taken, the other waits. -/
example : (queueAfter (· < 100) (before.take 5)).threads = [.acquire] ∧ (queueAfter (· < 100) (before.take 11)).ring = [200] ∧
    framesTaken (queueAfter (· < 100) (before.take 11)).log = [1] := by decide +kernel

end Example.RingThreads
end Verif
