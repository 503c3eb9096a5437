import Verif.Spec.AddrForms
import Verif.Model.Ring
import Mathlib.Data.List.Induction
/-! C44 (frame queues) and C73 (packet trackers). -/
namespace Verif

/-- The frames received in a history of a receive ring. -/
def Spec.framesReceived (evs : List RxRingEv) : List Bytes := evs.filterMap (fun e => match e with | .received f => some f | .dequeue => none)

/-- The ring after a history, from empty. -/
def RxRing.run (evs : List RxRingEv) : List Bytes := evs.foldl (fun r e => (RxRing.step r e).1) []

/-- The frames `dequeue` has returned during a history, in order. -/
def RxRing.returned (evs : List RxRingEv) : List Bytes :=
  (evs.foldl (fun (s : List Bytes × List Bytes) e => ((RxRing.step s.1 e).1, s.2 ++ (RxRing.step s.1 e).2.toList)) ([], [])).2

theorem RxRing.fold_fst (evs : List RxRingEv) :
    (evs.foldl (fun (s : List Bytes × List Bytes) e => ((RxRing.step s.1 e).1, s.2 ++ (RxRing.step s.1 e).2.toList)) ([], [])).1 =
      RxRing.run evs := by
  induction evs using List.reverseRecOn with
  | nil => rfl
  | append_singleton l e ih => simp only [List.foldl_append, List.foldl_cons, List.foldl_nil, RxRing.run] at ih ⊢; rw [ih]

/-- C44, receiving: at every moment of every history, the frames received so far, in order, are those `dequeue` has returned followed
by some frames still waiting; and the next `dequeue` returns the first of those, or nothing only if there are none. -/
theorem C44_rx_ring (evs : List RxRingEv) : ∃ waiting,
    Spec.framesReceived evs = RxRing.returned evs ++ waiting ∧ (RxRing.step (RxRing.run evs) .dequeue).2 = waiting.head? := by
  refine ⟨RxRing.run evs, ?_, ?_⟩
  · induction evs using List.reverseRecOn with
    | nil => rfl
    | append_singleton l e ih =>
      rw [Spec.framesReceived] at ih ⊢
      have h2 : RxRing.returned (l ++ [e]) = RxRing.returned l ++ (RxRing.step (RxRing.run l) e).2.toList := by
        rw [RxRing.returned, List.foldl_append, ← RxRing.fold_fst]; rfl
      have h3 : RxRing.run (l ++ [e]) = (RxRing.step (RxRing.run l) e).1 := by simp [RxRing.run]
      rw [List.filterMap_append, ih, h2, h3]
      cases e with
      | received f => simp [RxRing.step]
      | dequeue => cases h : RxRing.run l <;> simp [RxRing.step, h]
  · cases h : RxRing.run evs <;> simp [RxRing.step, h]

/-- The frames enqueued in a history of a transmit ring. -/
def Spec.enqueued (evs : List TxRingEv) : List Bytes := evs.filterMap (fun e => match e with | .enqueue f => some f | _ => none)

/-- The ring after a history, from empty. -/
def TxRing.run (mtu : Nat) (evs : List TxRingEv) : List Bytes := evs.foldl (fun r e => (TxRing.step mtu r e).1) []

/-- The frames written during a history, in order. -/
def TxRing.written (mtu : Nat) (evs : List TxRingEv) : List Bytes :=
  (evs.foldl (fun (s : List Bytes × List Bytes) e => ((TxRing.step mtu s.1 e).1, s.2 ++ (TxRing.step mtu s.1 e).2.toList)) ([], [])).2

theorem TxRing.fold_fst (mtu : Nat) (evs : List TxRingEv) :
    (evs.foldl (fun (s : List Bytes × List Bytes) e => ((TxRing.step mtu s.1 e).1, s.2 ++ (TxRing.step mtu s.1 e).2.toList)) ([], [])).1 =
      TxRing.run mtu evs := by
  induction evs using List.reverseRecOn with
  | nil => rfl
  | append_singleton l e ih => simp only [List.foldl_append, List.foldl_cons, List.foldl_nil, TxRing.run] at ih ⊢; rw [ih]

theorem TxRing.written_snoc (mtu : Nat) (l : List TxRingEv) (e : TxRingEv) :
    TxRing.written mtu (l ++ [e]) = TxRing.written mtu l ++ (TxRing.step mtu (TxRing.run mtu l) e).2.toList := by
  rw [TxRing.written, List.foldl_append, ← TxRing.fold_fst]; rfl

theorem TxRing.run_snoc (mtu : Nat) (l : List TxRingEv) (e : TxRingEv) :
    TxRing.run mtu (l ++ [e]) = (TxRing.step mtu (TxRing.run mtu l) e).1 := by simp [TxRing.run]

/-- C44, transmitting: at every moment of every history in which no write fails, the frames enqueued so far that fit (at most the MTU
plus the 14 bytes of the Ethernet header) are, in order, those written so far followed by some still waiting: none is lost,
repeated, overtaken or added. -/
theorem C44_tx_ring (mtu : Nat) (evs : List TxRingEv) (hok : .transmit false ∉ evs) : ∃ waiting,
    (Spec.enqueued evs).filter (fun f => f.length ≤ mtu + 14) = TxRing.written mtu evs ++ waiting ∧
      waiting = (TxRing.run mtu evs).filter (fun f => f.length ≤ mtu + 14) := by
  refine ⟨_, ?_, rfl⟩
  induction evs using List.reverseRecOn with
  | nil => rfl
  | append_singleton l e ih =>
    have ih := ih (fun h => hok (by simp [h]))
    rw [Spec.enqueued] at ih ⊢
    rw [List.filterMap_append, List.filter_append, ih, TxRing.written_snoc, TxRing.run_snoc]
    cases e with
    | enqueue f => simp [TxRing.step]
    | transmit ok =>
      have : ok = true := by cases ok; exact absurd (by simp) hok; rfl
      subst this
      cases h : TxRing.run mtu l with
      | nil => simp [TxRing.step]
      | cons f r =>
        simp only [TxRing.step]
        by_cases hf : f.length > mtu + 14
        · rw [if_pos hf, List.filter_cons_of_neg (by simpa using hf)]; simp
        · rw [if_neg hf, List.filter_cons_of_pos (by simpa using hf)]; simp

/-- C44, transmitting, with writes that fail: what is written is still enqueued, in order and each at most once. -/
theorem C44_tx_ring_order (mtu : Nat) (evs : List TxRingEv) :
    List.Sublist (TxRing.written mtu evs ++ TxRing.run mtu evs) (Spec.enqueued evs) := by
  induction evs using List.reverseRecOn with
  | nil => exact .refl _
  | append_singleton l e ih =>
    rw [Spec.enqueued] at ih ⊢
    rw [List.filterMap_append, TxRing.written_snoc, TxRing.run_snoc]
    cases e with
    | enqueue f => simpa [TxRing.step] using List.Sublist.append ih (.refl [f])
    | transmit ok =>
      cases h : TxRing.run mtu l with
      | nil => rw [h] at ih; simpa [TxRing.step] using ih
      | cons f r =>
        rw [h] at ih
        simp only [TxRing.step, List.filterMap_cons_none, List.filterMap_nil, List.append_nil]
        refine List.Sublist.trans ?_ ih
        rw [List.append_assoc]
        refine List.Sublist.append (.refl _) ?_
        split
        · simp
        · split <;> simp

/-- C44, transmitting: every frame enqueued is dealt with after as many rounds as there are frames waiting. -/
theorem C44_tx_ring_drains (mtu : Nat) (evs : List TxRingEv) (rounds : List Bool) (h : (TxRing.run mtu evs).length ≤ rounds.length) :
    TxRing.run mtu (evs ++ rounds.map .transmit) = [] := by
  rw [TxRing.run, List.foldl_append, ← TxRing.run]
  generalize TxRing.run mtu evs = ring at h
  induction rounds generalizing ring with
  | nil => simp at h; rw [h]; rfl
  | cons b bs ih =>
    rw [List.map_cons, List.foldl_cons]
    refine ih _ ?_
    cases ring with
    | nil => simp [TxRing.step]
    | cons f r => simp [TxRing.step] at h ⊢; omega

/-- Tracker numbers after a history of trackers made (`true` for "RX"). -/
def TrackerState.run (hist : List Bool) : TrackerState := hist.foldl (fun s rx => (s.next rx).1) ⟨0, 0⟩

/-- C73: whatever trackers have been made, the next "RX" tracker's number is the number of "RX" trackers made before it, modulo 2^16,
and likewise for "TX". -/
theorem C73_tracker (hist : List Bool) (rx : Bool) : ((TrackerState.run hist).next rx).2 = hist.count rx % 65536 := by
  have : (TrackerState.run hist).serialRx = hist.count true % 65536 ∧ (TrackerState.run hist).serialTx = hist.count false % 65536 := by
    induction hist using List.reverseRecOn with
    | nil => exact ⟨rfl, rfl⟩
    | append_singleton l b ih =>
      rw [TrackerState.run, List.foldl_append, ← TrackerState.run]
      cases b <;> simp [TrackerState.next, ih] <;> split <;> omega
  cases rx
  · simp [TrackerState.next, this.2]
  · simp [TrackerState.next, this.1]

theorem hexDigit_inj : ∀ a < 16, ∀ b < 16, hexDigit a = hexDigit b → a = b := by decide

/-- **C73**, the text: between the colour marks, "RX" or "TX" and the number in four upper-case hexadecimal digits. -/
theorem C73_digits (rx : Bool) (n : Nat) (hn : n < 65536) :
    ∃ t, trackerText rx n = (if rx then "<lg>RX".toList else "<lr>TX".toList) ++ t ++ "</>".toList ∧ t.length = 4 ∧ Spec.HexGroup t n ∧
      ∀ c ∈ t, c.isLower = false := by
  have hv : ∀ d : Fin 16, Spec.hexValue (hexDigit d.val) = some d.val ∧ (hexDigit d.val).isLower = false := by decide +kernel
  have hv' : ∀ d < 16, Spec.hexValue (hexDigit d) = some d ∧ (hexDigit d).isLower = false := fun d hd => hv ⟨d, hd⟩
  refine ⟨hex4 n, rfl, rfl, ⟨by simp [hex4], by simp [hex4], [n / 4096 % 16, n / 256 % 16, n / 16 % 16, n % 16], ?_, ?_⟩, ?_⟩
  · simp only [hex4, List.map_cons, List.map_nil]
    rw [(hv' _ (Nat.mod_lt _ (by decide))).1, (hv' _ (Nat.mod_lt _ (by decide))).1, (hv' _ (Nat.mod_lt _ (by decide))).1,
      (hv' _ (Nat.mod_lt _ (by decide))).1]
  · simp only [List.foldl]
    omega
  · intro c hc
    simp only [hex4, List.mem_cons, List.not_mem_nil, or_false] at hc
    rcases hc with rfl | rfl | rfl | rfl
    all_goals exact (hv' _ (Nat.mod_lt _ (by decide))).2

/-- C73: the texts of two trackers are equal only if they are of the same kind and have the same number. -/
theorem C73_text (rx rx' : Bool) (n n' : Nat) (hn : n < 65536) (hn' : n' < 65536) (h : trackerText rx n = trackerText rx' n') :
    rx = rx' ∧ n = n' := by
  have hr : rx = rx' := by
    cases rx <;> cases rx' <;> simp [trackerText, hex4] at h <;> rfl
  subst hr
  refine ⟨rfl, ?_⟩
  have h' : hex4 n = hex4 n' := by
    cases rx <;> simpa [trackerText] using h
  simp only [hex4, List.cons.injEq, and_true] at h'
  obtain ⟨h1, h2, h3, h4⟩ := h'
  have := hexDigit_inj _ (Nat.mod_lt _ (by omega)) _ (Nat.mod_lt _ (by omega)) h1
  have := hexDigit_inj _ (Nat.mod_lt _ (by omega)) _ (Nat.mod_lt _ (by omega)) h2
  have := hexDigit_inj _ (Nat.mod_lt _ (by omega)) _ (Nat.mod_lt _ (by omega)) h3
  have := hexDigit_inj _ (Nat.mod_lt _ (by omega)) _ (Nat.mod_lt _ (by omega)) h4
  omega

namespace Example

example : RxRing.returned [.dequeue, .received [1], .received [2], .dequeue, .received [3], .dequeue] = [[1], [2]] := rfl

/-- The second frame is too long for an MTU of 2. -/
example : TxRing.written 2 [.enqueue [1], .enqueue (List.replicate 17 0), .transmit true, .enqueue [3], .transmit true,
    .transmit true, .transmit true] = [[1], [3]] := rfl

example : trackerText true 0xAB = "<lg>RX00AB</>".toList := by decide

end Example
end Verif
