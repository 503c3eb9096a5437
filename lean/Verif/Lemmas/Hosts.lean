import Verif.Lemmas.SessionNet
import Verif.Props.TcpStack
import Verif.Spec.Hosts
/-! One connection among all that two hosts have: its two sessions, taken alone. -/
namespace Verif.TcpStack
open Sess Spec

/-- A session after one event of all. -/
theorem evolve (evs : List TcpStack.Ev) (e : TcpStack.Ev) (i : Nat) :
    (∀ c, (TcpStack.run evs).conns[i]? = some c → ∃ c', ((TcpStack.run evs).step e).conns[i]? = some c' ∧
      c'.s = c.s.run (portion (TcpStack.run evs) i e)) ∧
    ((TcpStack.run evs).conns[i]? = none → ∀ c', ((TcpStack.run evs).step e).conns[i]? = some c' →
      ∃ a iss l lp r rp, c'.s = opened a iss l lp r rp) := by
  have hh := hist evs
  generalize hg : TcpStack.run evs = t at hh
  have keep : ∀ t' : TcpStack, t'.conns = t.conns → (∀ c, t.conns[i]? = some c → portion t i e = []) →
      (∀ c, t.conns[i]? = some c → ∃ c', t'.conns[i]? = some c' ∧ c'.s = c.s.run (portion t i e)) ∧
      (t.conns[i]? = none → ∀ c', t'.conns[i]? = some c' → ∃ a iss l lp r rp, c'.s = opened a iss l lp r rp) := by
    intro t' ht hp
    refine ⟨fun c hc => ⟨c, by rw [ht]; exact hc, by rw [hp c hc]; rfl⟩, fun hn c' hc' => ?_⟩
    rw [ht, hn] at hc'; cases hc'
  have openOn : ∀ (t' : TcpStack) r id a iss, t'.conns = t.conns → (∀ c, t.conns[i]? = some c → portion t i e = []) →
      (∀ c, t.conns[i]? = some c → ∃ c', (t'.openOn r id a iss).conns[i]? = some c' ∧ c'.s = c.s.run (portion t i e)) ∧
      (t.conns[i]? = none → ∀ c', (t'.openOn r id a iss).conns[i]? = some c' → ∃ a iss l lp r rp, c'.s = opened a iss l lp r rp) := by
    intro t' r id a iss ht hp
    refine ⟨fun c hc => ⟨c, ?_, by rw [hp c hc]; rfl⟩, fun hn c' hc' => ?_⟩
    · show (t'.conns ++ [_])[i]? = some c
      rw [ht, List.getElem?_append_left (get_lt' hc)]; exact hc
    · rcases get_snoc hc' with x | ⟨x, rfl⟩
      · rw [ht, hn] at x; cases x
      · exact ⟨_, _, _, _, _, _, rfl⟩
  have act : ∀ j ev iss, (∀ c, t.conns[i]? = some c → portion t i e = if j = i then [.table (t.has c.sock), ev] else []) →
      (∀ c, t.conns[i]? = some c → ∃ c', (t.act j ev iss).conns[i]? = some c' ∧ c'.s = c.s.run (portion t i e)) ∧
      (t.conns[i]? = none → ∀ c', (t.act j ev iss).conns[i]? = some c' → ∃ a iss l lp r rp, c'.s = opened a iss l lp r rp) := by
    intro j ev iss hp
    cases hc : t.conns[j]? with
    | none =>
      have : t.act j ev iss = t := by unfold TcpStack.act; rw [hc]
      rw [this]
      refine keep t rfl (fun c h => ?_)
      rw [hp c h, if_neg]
      rintro rfl; rw [hc] at h; cases h
    | some c =>
      have hlt := get_lt' hc
      have ha := act_cases hc (hh.runs j c hc).1.queue ev iss
      generalize hs' : Sess.step { c.s with registered := t.has c.sock } ev = s' at ha
      generalize t.act j ev iss = t' at ha
      have hset : ∀ (sock : Nat) c₀, t.conns[i]? = some c₀ → ∃ c', (t.conns.set j ⟨s', sock⟩)[i]? = some c' ∧
          c'.s = c₀.s.run (portion t i e) := by
        intro sock c₀ h₀
        by_cases eq : j = i
        · subst eq
          rw [hc] at h₀; cases h₀
          refine ⟨_, List.getElem?_set_self hlt, ?_⟩
          rw [hp c hc, if_pos rfl, ← hs']; rfl
        · exact ⟨c₀, by rw [List.getElem?_set_ne eq]; exact h₀, by rw [hp c₀ h₀, if_neg eq]; rfl⟩
      have hnone : ∀ (sock : Nat), t.conns[i]? = none → (t.conns.set j ⟨s', sock⟩)[i]? = none := by
        intro sock hn
        rw [List.getElem?_eq_none_iff] at hn ⊢
        simpa using hn
      cases ha with
      | calm => exact ⟨hset _, fun hn c' hc' => by rw [hnone _ hn] at hc'; cases hc'⟩
      | est => exact ⟨hset _, fun hn c' hc' => by rw [hnone _ hn] at hc'; cases hc'⟩
      | syn =>
        dsimp only
        rw [List.set_append_left _ _ hlt]
        refine ⟨fun c₀ h₀ => ?_, fun hn c' hc' => ?_⟩
        · obtain ⟨c', h1, h2⟩ := hset t.ss.socks.length c₀ h₀
          exact ⟨c', by rw [List.getElem?_append_left (get_lt' h1)]; exact h1, h2⟩
        · rcases get_snoc hc' with x | ⟨x, rfl⟩
          · rw [hnone _ hn] at x; cases x
          · exact ⟨false, iss, c.s.lip, c.s.lport, c.s.rip, c.s.rport, rfl⟩
  cases e with
  | socket f => exact keep _ rfl (fun c hc => by simp [portion, hc])
  | bind st r a p c => exact keep _ rfl (fun c hc => by simp [portion, hc])
  | connect st r a p c iss =>
    dsimp only [TcpStack.step]
    split
    · exact openOn _ _ _ _ _ rfl (fun c hc => by simp [portion, hc])
    · exact keep _ rfl (fun c hc => by simp [portion, hc])
  | listen r iss =>
    dsimp only [TcpStack.step]
    split
    · exact keep _ rfl (fun c hc => by simp [portion, hc])
    · exact openOn _ _ _ _ _ rfl (fun c hc => by simp [portion, hc])
  | accept r =>
    refine keep _ ?_ (fun c hc => by simp [portion, hc])
    dsimp only [TcpStack.step, TcpStack.accept]
    split
    · rfl
    · split <;> rfl
  | call j c => exact act j c.ev 0 (fun c hc => by simp [portion, hc, asked_eq])
  | timer j => exact act j .timer 0 (fun c hc => by simp [portion, hc])
  | clock =>
    refine ⟨fun c hc => ⟨{ c with s := c.s.clock }, by simp [TcpStack.step, hc], by simp [portion, hc, Sess.run, Sess.step]⟩, fun hn c' hc' => ?_⟩
    simp [TcpStack.step, hn] at hc'
  | segment m iss =>
    dsimp only [TcpStack.step]
    split
    · rename_i hr
      exact keep _ rfl (fun c hc => by simp [portion, hc, hr])
    · rename_i j hr
      exact act j (.segment m) iss (fun c hc => by simp [portion, hc, hr])

theorem run_append (s : Sess) (a b : List Sess.Ev) : s.run (a ++ b) = (s.run a).run b := List.foldl_append

/-- Sessions stay. -/
theorem persist (pre suf : List TcpStack.Ev) {i : Nat} {c : TcpConn} (h : (TcpStack.run pre).conns[i]? = some c) :
    ∃ c' evs', (TcpStack.run (pre ++ suf)).conns[i]? = some c' ∧ c'.s = c.s.run evs' := by
  induction suf using List.reverseRecOn with
  | nil => exact ⟨c, [], by simpa using h, rfl⟩
  | append_singleton suf e ih =>
    obtain ⟨c₁, evs₁, h1, h2⟩ := ih
    obtain ⟨c₂, h3, h4⟩ := (evolve (pre ++ suf) e i).1 c₁ h1
    refine ⟨c₂, evs₁ ++ portion (TcpStack.run (pre ++ suf)) i e, ?_, ?_⟩
    · rw [← List.append_assoc, run_snoc]; exact h3
    · rw [h4, h2, run_append]

/-- A session at every moment of the history in which it is. -/
theorem origin (evs : List TcpStack.Ev) (i : Nat) (c : TcpConn) (h : (TcpStack.run evs).conns[i]? = some c) :
    ∃ a iss l lp r rp, ∀ pre suf, evs = pre ++ suf → ∀ c', (TcpStack.run pre).conns[i]? = some c' →
      c'.s = (opened a iss l lp r rp).run (historyOf pre i) := by
  induction evs using List.reverseRecOn generalizing c with
  | nil => simp [TcpStack.run, TcpStack.empty] at h
  | append_singleton evs e ih =>
    have split : ∀ pre suf, evs ++ [e] = pre ++ suf → (pre = evs ++ [e]) ∨ ∃ suf', evs = pre ++ suf' := by
      intro pre suf hs
      rcases List.eq_nil_or_concat suf with rfl | ⟨suf', e', rfl⟩
      · exact .inl (by simpa using hs.symm)
      · rw [List.concat_eq_append, ← List.append_assoc] at hs
        exact .inr ⟨suf', (List.append_inj' hs rfl).1⟩
    cases h0 : (TcpStack.run evs).conns[i]? with
    | some c₀ =>
      obtain ⟨a, iss, l, lp, r, rp, hx⟩ := ih c₀ h0
      refine ⟨a, iss, l, lp, r, rp, fun pre suf hs c' hc' => ?_⟩
      rcases split pre suf hs with rfl | ⟨suf', hs'⟩
      · obtain ⟨c₁, h1, h2⟩ := (evolve evs e i).1 c₀ h0
        rw [run_snoc, h1] at hc'
        cases hc'
        rw [h2, hx evs [] (by simp) c₀ h0, historyOf_snoc, run_append]
      · exact hx pre suf' hs' c' hc'
    | none =>
      obtain ⟨a, iss, l, lp, r, rp, hx⟩ := (evolve evs e i).2 h0 c (by rw [← run_snoc]; exact h)
      refine ⟨a, iss, l, lp, r, rp, fun pre suf hs c' hc' => ?_⟩
      rcases split pre suf hs with rfl | ⟨suf', rfl⟩
      · rw [h] at hc'
        cases hc'
        have : historyOf (evs ++ [e]) i = [] := by
          rw [historyOf_snoc, ((hist evs).none i (List.getElem?_eq_none_iff.1 h0)).1]
          simp [portion, h0]
        rw [this, hx]; rfl
      · obtain ⟨c₁, _, h1, _⟩ := persist pre suf' hc'
        rw [h0] at h1; cases h1

/-- Addresses and ports change only when a listening session takes a connection. -/
theorem ends_run {k : Ends} {s : Sess} (hq : Queue (fun _ => True) s) (hs : s.state ≠ .listen) (evs : List Sess.Ev) :
    (k.of (s.run evs) ↔ k.of s) ∧ (s.run evs).state ≠ .listen := by
  induction evs using List.reverseRecOn with
  | nil => exact ⟨Iff.rfl, hs⟩
  | append_singleton evs e ih =>
    rw [sess_run_snoc]
    have hn := step_news (queue_run hq (evs := evs)) e
    generalize (s.run evs).step e = s' at hn
    cases hn with
    | calm h =>
      refine ⟨?_, ?_⟩
      · rw [← ih.1]; unfold Ends.of; rw [h.lip, h.lport, h.rip, h.rport]
      · rcases h.state with x | x
        · rw [x]; exact ih.2
        · exact x.1
    | syn h => exact absurd h ih.2
    | est h h' _ ha =>
      refine ⟨?_, by rw [h']; simp⟩
      rw [← ih.1]; unfold Ends.of; rw [ha.1, ha.2.1, ha.2.2.1, ha.2.2.2]

theorem fsm_listen {s : Sess} (h : s.state = .listen) (i : Input) : s.fsm i = s.fsmListen i := by
  show fsmWith _ s i = _; unfold fsmWith; rw [h]

/-- A segment does nothing to a listening session, unless it makes it a session for the addresses and ports of the segment. -/
theorem listen_segment {s : Sess} (h : s.state = .listen) (m : TcpMd) :
    s.step (.segment m) = s ∨ ((s.step (.segment m)).state = .synRcvd ∧ ∀ k : Ends, k.of (s.step (.segment m)) ↔ k.on m) := by
  show (s.fsm (.packet m)).done = s ∨ _ ∧ ∀ k : Ends, k.of (s.fsm (.packet m)).done ↔ _
  rw [show s.step (.segment m) = (s.fsm (.packet m)).done from rfl, fsm_listen h]
  unfold fsmListen
  by_cases c : isSyn m = true ∧ m.ackn = 0 ∧ m.data = []
  · right
    simp only [c, and_self, if_true]
    refine ⟨by simp [changeState, Res.done, ok], fun k => ?_⟩
    simp [changeState, Res.done, ok, Ends.of, Ends.on]
  · left
    simp only [c, if_false]; rfl

theorem closed_segment {s : Sess} (h : s.state = .closed) (m : TcpMd) : s.step (.segment m) = s := by
  show (s.fsm (.packet m)).done = s
  have : s.fsm (.packet m) = s.fsmClosed (.packet m) := by show fsmWith _ s _ = _; unfold fsmWith; rw [h]
  rw [this]; rfl

/-- A listening session has sent nothing. -/
theorem listen_quiet {a : Bool} {iss : Nat} {l : IpAddress} {lp : Nat} {r : IpAddress} {rp : Nat} (evs : List Sess.Ev) :
    ((opened a iss l lp r rp).run evs).state = .listen → Spec.sent ((opened a iss l lp r rp).run evs).out = [] := by
  induction evs using List.reverseRecOn with
  | nil => intro _; show Spec.sent (opened a iss l lp r rp).out = []; rw [opened_out]; rfl
  | append_singleton evs e ih =>
    rw [sess_run_snoc]
    have hq : Queue (fun _ => True) ((opened a iss l lp r rp).run evs) := queue_run (queue_opened ..)
    generalize (opened a iss l lp r rp).run evs = s at ih hq
    intro hst
    by_cases h : s.state = .listen
    · have hs := ih h
      have fsm : ∀ i, ((s.fsm i).done).state = .listen → (s.fsm i).done = s := by
        intro i hi
        rw [fsm_listen h] at hi ⊢
        unfold fsmListen at hi ⊢
        split at hi
        · split at hi
          · simp [changeState, Res.done, ok] at hi
          · rename_i c; rw [if_neg c]; rfl
        · simp only [changeState, if_true] at hi
          split at hi <;> simp [Res.done, ok, emit] at hi
        · rfl
      cases e with
      | segment m => rw [show s.step (.segment m) = s from fsm _ hst]; exact hs
      | close => rw [show s.step .close = s from fsm _ hst]; exact hs
      | timer => rw [show s.step .timer = s from fsm _ hst]; exact hs
      | send d => simp [Sess.step, send, h, emit, hs]; rfl
      | recvAcquire => show Spec.sent s.recvAcquire.out = []; unfold recvAcquire; split <;> exact hs
      | recvTake n =>
        show Spec.sent (s.recvTake n).out = []
        rcases recvTake_cases s n with x | ⟨k, e, x⟩ <;> rw [x]
        · exact hs
        · simp [hs]
      | connectReturn =>
        show Spec.sent s.connectReturn.out = []
        unfold connectReturn
        split
        · exact hs
        · dsimp only
          split
          · simp [emit, hs]; rfl
          · split <;> (simp [emit, hs]; rfl)
      | clock => exact hs
      | table b => exact hs
    · exact absurd hst (ends_run (k := ⟨l, lp, r, rp⟩) hq h [e]).2

theorem MayReach.ports {k : Ends} {xs ys : List TcpStack.Ev} (h : Hosts k xs ys) :
    (∀ m iss, TcpStack.Ev.segment m iss ∈ xs → 1 ≤ m.lport ∧ m.lport < 65536) ∧
    (∀ m iss, TcpStack.Ev.segment m iss ∈ ys → 1 ≤ m.lport ∧ m.lport < 65536) := by
  induction h with
  | start => simp
  | left _ hr ih =>
    refine ⟨fun m iss hm => ?_, ih.2⟩
    rcases List.mem_append.1 hm with x | x
    · exact ih.1 m iss x
    · rw [List.mem_singleton] at x; exact (hr m iss x.symm).1
  | right _ hr ih =>
    refine ⟨ih.1, fun m iss hm => ?_⟩
    rcases List.mem_append.1 hm with x | x
    · exact ih.2 m iss x
    · rw [List.mem_singleton] at x; exact (hr m iss x.symm).1

/-- One event at one host, for one session: what arrives there has been sent by the other session. -/
theorem one_step {k : Ends} (hk : k.rport ≠ 0) {pre suf : List TcpStack.Ev} {e : TcpStack.Ev} {i : Nat} {s : Sess} {x : Sess}
    (hp : ∀ m iss, TcpStack.Ev.segment m iss ∈ pre → 1 ≤ m.lport ∧ m.lport < 65536)
    (ho : Only k (TcpStack.run ((pre ++ [e]) ++ suf)) i s)
    (hx : ∀ c', (TcpStack.run pre).conns[i]? = some c' → c'.s = x.run (historyOf pre i))
    {J : Sess → Prop} {t : Sess} (hJ : J (x.run (historyOf pre i)))
    (hstep : ∀ a ev, J a → Spec.Arrives t ev → (∀ q, ev = Call.ev q → e = .call i q) → J (a.step ev))
    (harr : ∀ m iss, e = .segment m iss → k.on m → Resets m ∨ ∃ g ∈ Spec.sent t.out, Carries g m) :
    J (x.run (historyOf (pre ++ [e]) i)) := by
  obtain ⟨⟨r, hi⟩, hof, -⟩ := ho
  rw [historyOf_snoc, run_append]
  cases hc : (TcpStack.run pre).conns[i]? with
  | none => rw [show portion (TcpStack.run pre) i e = [] by simp [portion, hc]]; exact hJ
  | some c =>
    have hcs := hx c hc
    rw [← hcs] at hJ ⊢
    have hq : Queue (fun _ => True) c.s := ((hist pre).runs i c hc).1.queue
    have fixed : c.s.state ≠ .listen → k.of c.s := by
      intro hl
      obtain ⟨c', evs', h1, h2⟩ := persist pre ([e] ++ suf) hc
      rw [← List.append_assoc, hi] at h1
      cases h1
      dsimp only at h2
      subst h2
      exact (ends_run hq hl evs').1.1 hof
    have free : ∀ {a : Sess} {ev : Sess.Ev}, J a → (∀ m, ev ≠ .segment m) → (∀ q, ev = Call.ev q → e = .call i q) → J (a.step ev) :=
      fun h hn hq => hstep _ _ h (fun m hm => absurd hm (hn m)) hq
    have none : ∀ {ev : Sess.Ev}, (match ev with | .table _ => True | .clock => True | .timer => True | .segment _ => True | _ => False) →
        ∀ q, ev = Call.ev q → e = .call i q := by
      intro ev h q hq
      subst hq
      cases q <;> exact absurd h id
    have tbl : ∀ {a : Sess} (r : Bool), J a → J (a.step (.table r)) := fun r h => free h (by simp) (none trivial)
    cases e with
    | clock => rw [show portion (TcpStack.run pre) i .clock = [.clock] by simp [portion, hc]]; exact free (ev := .clock) hJ (by simp) (none trivial)
    | call j q =>
      by_cases ej : j = i
      · rw [show portion (TcpStack.run pre) i (.call j q) = [.table ((TcpStack.run pre).has c.sock), q.ev] by simp [portion, hc, ej, asked_eq]]
        exact free (ev := q.ev) (tbl _ hJ) (by cases q <;> simp [Call.ev]) (fun q' hq' => by
          have : q = q' := by cases q <;> cases q' <;> simp_all [Call.ev]
          rw [ej, this])
      · rw [show portion (TcpStack.run pre) i (.call j q) = [] by simp [portion, hc, ej]]; exact hJ
    | timer j =>
      by_cases ej : j = i
      · rw [show portion (TcpStack.run pre) i (.timer j) = [.table ((TcpStack.run pre).has c.sock), .timer] by simp [portion, hc, ej]]
        exact free (ev := .timer) (tbl _ hJ) (by simp) (none trivial)
      · rw [show portion (TcpStack.run pre) i (.timer j) = [] by simp [portion, hc, ej]]; exact hJ
    | segment m iss =>
      by_cases hr : (TcpStack.run pre).route m = some i
      · have hpo : portion (TcpStack.run pre) i (.segment m iss) = [.table ((TcpStack.run pre).has c.sock), .segment m] := by
          simp [portion, hc, hr]
        rw [hpo]
        have h1 : J (c.s.step (.table ((TcpStack.run pre).has c.sock))) := tbl _ hJ
        show J ((c.s.step (.table ((TcpStack.run pre).has c.sock))).step (.segment m))
        by_cases hm : k.on m
        · refine hstep _ _ h1 (fun m' hm' => ?_) (none trivial)
          injection hm' with hm'
          subst hm'
          exact harr m iss rfl hm
        · have same : (c.s.step (.table ((TcpStack.run pre).has c.sock))).step (.segment m) = c.s.step (.table ((TcpStack.run pre).has c.sock)) →
              J ((c.s.step (.table ((TcpStack.run pre).has c.sock))).step (.segment m)) := fun h => by rw [h]; exact h1
          by_cases hl : c.s.state = .listen
          · rcases listen_segment (s := c.s.step (.table ((TcpStack.run pre).has c.sock))) hl m with y | ⟨y, z⟩
            · exact same y
            · exfalso
              obtain ⟨c₁, g1, g2⟩ := (evolve pre (.segment m iss) i).1 c hc
              rw [← run_snoc] at g1
              rw [hpo] at g2
              have hq₁ := ((hist _).runs i c₁ g1).1.queue
              obtain ⟨c', evs', g3, g4⟩ := persist (pre ++ [.segment m iss]) suf g1
              rw [hi] at g3
              cases g3
              dsimp only at g4
              subst g4
              have g5 : c₁.s.state ≠ .listen := by
                rw [g2]
                show ((c.s.step (.table ((TcpStack.run pre).has c.sock))).step (.segment m)).state ≠ _
                rw [y]; simp
              have := (ends_run hq₁ g5 evs').1.1 hof
              rw [g2] at this
              exact hm ((z k).1 this)
          · have hof' := fixed hl
            obtain ⟨c', g1, g2⟩ := C61_own_segments pre hp m i hr
            rw [hc] at g1
            cases g1
            rcases g2 with y | y | y | y
            · exact absurd y hl
            · exact same (closed_segment (s := c.s.step (.table ((TcpStack.run pre).has c.sock))) y m)
            · exact absurd (hof'.2.2.2.symm.trans y) hk
            · exact absurd ⟨y.1.symm.trans hof'.1, y.2.1.symm.trans hof'.2.1, y.2.2.1.symm.trans hof'.2.2.1, y.2.2.2.symm.trans hof'.2.2.2⟩ hm
      · rw [show portion (TcpStack.run pre) i (.segment m iss) = [] by simp [portion, hc, hr]]; exact hJ
    | _ => simp only [portion, hc]; exact hJ

/-- The other end, as its host has it now, is the one that has sent what arrives. -/
theorem sender {k : Ends} {pre suf : List TcpStack.Ev} {j : Nat} {s y : Sess}
    (ho : Only k (TcpStack.run (pre ++ suf)) j s)
    (hy : ∀ c', (TcpStack.run pre).conns[j]? = some c' → c'.s = y.run (historyOf pre j)) {j' : Nat} {d : TcpConn}
    (hd : (TcpStack.run pre).conns[j']? = some d) (hof : k.of d.s) {g : Seg} (hg : g ∈ Spec.sent (seenOf (TcpStack.run pre).log j')) :
    g ∈ Spec.sent (y.run (historyOf pre j)).out := by
  obtain ⟨⟨a, iss, l, lp, r, rp, hr⟩, hsee⟩ := (hist pre).runs j' d hd
  rw [hsee] at hg
  have hl : d.s.state ≠ .listen := by
    intro hl
    rw [hr] at hl hg
    rw [listen_quiet _ hl] at hg
    cases hg
  obtain ⟨c', evs', h1, h2⟩ := persist pre suf hd
  have hq : Queue (fun _ => True) d.s := ((hist pre).runs j' d hd).1.queue
  have : j' = j := ho.2.2 j' c' h1 (by rw [h2]; exact (ends_run hq hl evs').1.2 hof)
  subst this
  rw [← hy d hd]; exact hg

/-- The two sessions of the connection are the two ends of a connection in the sense of `Joined`. -/
theorem joined_hosts {k : Ends} (hk : k.lport ≠ 0 ∧ k.rport ≠ 0) {xs ys : List TcpStack.Ev} (h : Hosts k xs ys) {i j : Nat} {a b : Sess}
    (ha : Only k (TcpStack.run xs) i a) (hb : Only k.flip (TcpStack.run ys) j b) :
    ∃ p ia l lp r rp q ib l' lp' r' rp', Joined (opened p ia l lp r rp) (opened q ib l' lp' r' rp') a b := by
  obtain ⟨ra, hai⟩ := ha.1
  obtain ⟨rb, hbj⟩ := hb.1
  obtain ⟨p, ia, l, lp, r, rp, hx⟩ := origin xs i _ hai
  obtain ⟨q, ib, l', lp', r', rp', hy⟩ := origin ys j _ hbj
  refine ⟨p, ia, l, lp, r, rp, q, ib, l', lp', r', rp', ?_⟩
  have key : ∀ us vs, Hosts k us vs → ∀ us' vs', xs = us ++ us' → ys = vs ++ vs' →
      Joined (opened p ia l lp r rp) (opened q ib l' lp' r' rp') ((opened p ia l lp r rp).run (historyOf us i))
        ((opened q ib l' lp' r' rp').run (historyOf vs j)) := by
    intro us vs huv
    induction huv with
    | start => intro _ _ _ _; exact .start
    | @left us vs e hh hr ih =>
      intro us' vs' hu hv
      refine one_step (t := (opened q ib l' lp' r' rp').run (historyOf vs j)) hk.2 (suf := us') (s := a) (MayReach.ports hh).1 (by rw [← hu]; exact ha)
        (hx us ([e] ++ us') (by rw [hu, List.append_assoc])) (ih ([e] ++ us') vs' (by rw [hu, List.append_assoc]) hv)
        (J := fun z => Joined _ _ z _) (fun _ _ h he _ => .left h he) (fun m iss he hm => ?_)
      rcases (hr m iss he).2 hm with z | ⟨j', d, h1, h2, g, h3, h4⟩
      · exact .inl z
      · exact .inr ⟨g, sender (suf := vs') (by rw [← hv]; exact hb) (hy vs vs' hv) h1 h2 h3, h4⟩
    | @right us vs e hh hr ih =>
      intro us' vs' hu hv
      refine one_step (t := (opened p ia l lp r rp).run (historyOf us i)) (k := k.flip) hk.1 (suf := vs') (s := b) (MayReach.ports hh).2 (by rw [← hv]; exact hb)
        (hy vs ([e] ++ vs') (by rw [hv, List.append_assoc])) (ih us' ([e] ++ vs') hu (by rw [hv, List.append_assoc]))
        (J := fun z => Joined _ _ _ z) (fun _ _ h he _ => .right h he) (fun m iss he hm => ?_)
      rcases (hr m iss he).2 hm with z | ⟨j', d, h1, h2, g, h3, h4⟩
      · exact .inl z
      · exact .inr ⟨g, sender (suf := us') (by rw [← hu]; exact ha) (hx us us' hu) h1 h2 h3, h4⟩
  have := key xs ys h [] [] (by simp) (by simp)
  rw [← hx xs [] (by simp) _ hai, ← hy ys [] (by simp) _ hbj] at this
  exact this

end Verif.TcpStack
