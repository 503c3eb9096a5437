import Verif.Lemmas.PreemptWeave
import Verif.Spec.Preempt
/-! A history with thread switches is like one without. -/
namespace Verif.Sess
open Verif Prog

variable {iss : Nat}

theorem run_puts {p : Prog} (h : Blind p) (t : Sess) : puts (p.run t).s.out = puts t.out := by
  have key : ∀ (p p' : Prog), Same p p' → ∀ t, puts (p.run t).s.out = puts t.out := by
    intro p
    induction p with
    | done => exact fun _ _ _ => rfl
    | step f k ih =>
      intro p' hp t
      cases p' with
      | done => exact hp.elim
      | step f' k' => exact (ih t _ (hp t t rfl).2.2 (f t)).trans (hp t t rfl).2.1
  exact key p p h t

theorem fuel_puts (n : Nat) (t : Sess) (i : Input) : puts (fsmFuel n t i).s.out = puts t.out := by
  rw [← run_fsmP]
  exact run_puts (blind_fsm n i) t

theorem puts_done (r : Res) : puts r.done.out = puts r.s.out := by
  unfold Res.done
  split
  · rfl
  · exact puts_emit _ rfl

theorem state_done (r : Res) : r.done.state = r.s.state := by
  unfold Res.done
  split <;> rfl

theorem closes_done (r : Res) : r.done.closes = r.s.closes := by
  unfold Res.done
  split <;> rfl

/-- The end of a run of `tcp_fsm`, and what the application does afterwards. -/
theorem fsm_end {c : Conc} {i : Input} {l : List (List App)} {q : Res} {D P : List Bytes}
    (h1 : core (Conc.weave (fsmP (c.s.ooo.length + 1) i) l c).1.s = core (more q.s D))
    (h2 : puts (Conc.weave (fsmP (c.s.ooo.length + 1) i) l c).1.s.out = P) (h3 : (Conc.weave (fsmP (c.s.ooo.length + 1) i) l c).2.2 = q.exc) :
    ∃ D', core (c.fsm i l).s = core (more q.done (D ++ D')) ∧ puts (c.fsm i l).s.out = P ++ D' ∧
      (((Conc.weave (fsmP (c.s.ooo.length + 1) i) l c).1.senders ≠ [] ∨ D ≠ [] → Alive q.s) →
        ((c.fsm i l).senders ≠ [] ∨ D ++ D' ≠ [] → Alive q.done)) ∧
      ((∀ x ∈ (Conc.weave (fsmP (c.s.ooo.length + 1) i) l c).2.1, ∀ a ∈ x, NoPut a) → D' = []) := by
  unfold Conc.fsm
  generalize Conc.weave (fsmP (c.s.ooo.length + 1) i) l c = r at h1 h2 h3
  obtain ⟨c', l', e⟩ := r
  dsimp only at h1 h2 h3
  have key : ∀ u : Conc, core u.s = core (more q.done D) → puts u.s.out = P → u.senders = c'.senders →
      ∃ D', core (u.apps l'.flatten).s = core (more q.done (D ++ D')) ∧ puts (u.apps l'.flatten).s.out = P ++ D' ∧
      ((c'.senders ≠ [] ∨ D ≠ [] → Alive q.s) → ((u.apps l'.flatten).senders ≠ [] ∨ D ++ D' ≠ [] → Alive q.done)) ∧
      ((∀ x ∈ l', ∀ a ∈ x, NoPut a) → D' = []) := by
    intro u hu hp hs
    obtain ⟨D', a1, a2, a3, a4, a5⟩ := apps_core l'.flatten u
    have hst : u.s.state = q.done.state := show (core u.s).state = (core (more q.done D)).state from congrArg Sess.state hu
    refine ⟨D', ?_, by rw [a2, hp], ?_, ?_⟩
    · rw [a1, core_more_eq D' hu, more_more]
    · intro ha h
      have hd : Alive q.s → Alive q.done := alive_of (state_done q)
      by_cases hD : D = []
      · have : D' ≠ [] ∨ (u.apps l'.flatten).senders ≠ [] := by
          rw [hD, List.nil_append] at h
          exact h.symm
        rcases a4 this with x | x
        · rw [hs] at x; exact hd (ha (.inl x))
        · exact alive_of hst.symm x.alive
      · exact hd (ha (.inr hD))
    · intro h
      refine a5 fun a ha => ?_
      obtain ⟨x, hx, hax⟩ := List.mem_flatten.1 ha
      exact h x hx a hax
  cases e with
  | none =>
    have hd : q.done = q.s := by unfold Res.done; rw [← h3]
    exact key c' (by rw [hd]; exact h1) h2 rfl
  | some e =>
    have hd : q.done = q.s.emit (.raised e) := by unfold Res.done; rw [← h3]
    refine key { c' with s := c'.s.emit (.raised e) } ?_ ((puts_emit c'.s rfl).trans h2) rfl
    show core (c'.s.emit (.raised e)) = _
    rw [core_emit c'.s rfl, h1, hd]
    exact (core_emit (more q.s D) rfl).symm

/-- The session `t` of a history without thread switches corresponds to the state `c` of one with them: `ds` are buffers accepted after the
connection was closed.  `b`: the application has closed. -/
structure Sim (iss : Nat) (b : Bool) (c : Conc) (t : Sess) (ds : List Bytes) : Prop where
  core : core c.s = core (more t ds)
  puts : puts c.s.out = puts t.out ++ ds
  late : ds ≠ [] → t.state = .closed
  alive : b = false → c.senders ≠ [] → Alive t
  calm : b = false → Placid t
  inv : SendInv iss t

theorem sends_map (D : List Bytes) : Spec.sends (D.map Ev.send) = D := by
  induction D with
  | nil => rfl
  | cons d D ih => show d :: Spec.sends (D.map Ev.send) = _; rw [ih]

theorem besides_map (D : List Bytes) : Spec.besides (D.map Ev.send) = [] := by
  induction D with
  | nil => rfl
  | cons d D ih => exact ih

theorem arrivals_map (D : List Bytes) : Spec.arrivals (D.map Ev.send) = [] := by
  induction D with
  | nil => rfl
  | cons d D ih => exact ih

theorem run_sends (D : List Bytes) {t : Sess} (h : Open t) :
    t.run (D.map .send) = { more t D with out := t.out ++ D.map .accepted } := by
  induction D generalizing t with
  | nil => simp [run, more]
  | cons d D ih =>
    show (t.send d).run _ = _
    have e : t.send d = { t with tx := t.tx ++ d, out := t.out ++ [.accepted d] } := if_pos h
    rw [ih (by rw [e]; exact h), e]
    simp [more]

theorem core_sends (D : List Bytes) {t : Sess} (h : Open t) : core (t.run (D.map .send)) = core (more t D) := by
  rw [run_sends D h]
  have h1 : ∀ D : List Bytes, Spec.received (D.map .accepted) = [] := fun D => by
    induction D with
    | nil => rfl
    | cons d D ih => exact ih
  have h2 : ∀ D : List Bytes, (D.map Out.accepted).filter own = [] := fun D => by
    induction D with
    | nil => rfl
    | cons d D ih => exact ih
  simp [core, h1, h2, more]

theorem puts_sends (D : List Bytes) {t : Sess} (h : Open t) : puts (t.run (D.map .send)).out = puts t.out ++ D := by
  rw [run_sends D h]
  show puts (t.out ++ D.map .accepted) = _
  rw [puts_append]
  congr 1
  induction D with
  | nil => rfl
  | cons d D ih => show d :: puts _ = _; rw [ih]

/-- What was put in the end is sent in the end, if the connection is still open. -/
theorem finish {c : Conc} {t : Sess} {D : List Bytes} (h1 : core c.s = core (more t D)) (h2 : puts c.s.out = puts t.out ++ D)
    (h3 : c.senders ≠ [] ∨ D ≠ [] → Alive t) (h4 : Placid t) (h5 : SendInv iss t) :
    ∃ S ds, Sim iss false c (t.run (S.map .send)) ds ∧ puts (t.run (S.map .send)).out = puts t.out ++ S := by
  by_cases ho : Open t
  · have hst : (t.run (D.map .send)).state = t.state := by rw [run_sends D ho]; rfl
    refine ⟨D, [], ⟨?_, ?_, fun h => absurd rfl h, fun _ h => alive_of hst (h3 (.inl h)), fun _ => ?_, ?_⟩, puts_sends D ho⟩
    · rw [h1, more_nil, core_sends D ho]
    · rw [h2, puts_sends D ho, List.append_nil]
    · exact placid_of hst (by rw [run_sends D ho]; rfl) h4
    · exact send_run (by rw [arrivals_map]; simp) h5
  · refine ⟨[], D, ⟨h1, h2, fun h => ?_, fun _ h => h3 (.inl h), fun _ => h4, h5⟩, (List.append_nil _).symm⟩
    rcases h3 (.inr h) with x | x | x
    · exact absurd (.inl x) ho
    · exact absurd (.inr x) ho
    · exact x

theorem fuel_closed (n : Nat) {t : Sess} {i : Input} (h : t.state = .closed) (hi : i ≠ .sys .connect ∧ i ≠ .sys .listen) :
    fsmFuel (n + 1) t i = ok t := by
  show fsmWith _ t i = _
  unfold fsmWith
  rw [h]
  cases i with
  | packet => rfl
  | timer => rfl
  | sys c => cases c <;> first | rfl | simp at hi

theorem Sim.level {b : Bool} {c : Conc} {t : Sess} {ds : List Bytes} (h : Sim iss b c t ds) (ho : Open t) : Level t :=
  (h.inv.openPhase ho).level h.inv.ini

theorem fine_timer (n : Nat) {t : Sess} (hc : Placid t) (h : ¬ Open t) : Fine (fsmP n .timer) t := by
  cases n with
  | zero => exact trivial
  | succ n =>
    have hr : ∀ t : Sess, ¬ Open t → Fine (retransmitTimeoutP ;; transmitDataP) t := by
      intro t h
      refine (fine_retransmitTimeout t).andThen fun he => fine_transmitData fun ho => ?_
      rw [run_retransmitTimeout] at he ho
      refine h ?_
      unfold retransmitTimeout at ho he
      cases e : t.txTmo.get? t.sndUna with
      | none => simp only [e] at ho; exact ho
      | some c =>
        simp only [e] at ho he
        by_cases hx : t.expired (.retransmit t.sndUna) = true
        · rw [if_pos hx] at ho he
          by_cases h3 : c = 3
          · rw [if_pos h3] at ho he
            generalize t.transmitPacket (some t.sndUna) false true false true [] = r at ho he
            obtain ⟨a, x⟩ := r
            cases x with
            | some x => cases he
            | none =>
              rw [mk_next] at ho
              rcases ho with y | y <;> (rw [changeState_state] at y; cases y)
          · rw [if_neg h3] at ho; exact ho
        · rw [if_neg hx] at ho; exact ho
    refine fine_look (.inl fun ds => ?_) ?_
    · rw [show (more t ds).state = t.state from rfl]
      cases t.state <;> rfl
    · rcases hc.2 with x | x | x | x | x | x <;> rw [x] <;> dsimp only
      · exact ⟨.inr (by simp [Alive, x]), id, id, trivial⟩
      · exact hr t h
      · exact hr t h
      · exact absurd (.inl x) h
      · exact absurd (.inr x) h
      · exact trivial

/-- What a run of `tcp_fsm` is called with. -/
def Proper (i : Input) : Prop := i ≠ .sys .connect ∧ i ≠ .sys .listen

theorem noPut_of {l : List (List App)} (h : ∀ a ∈ l, ∀ k, App.sendPut k ∉ a) : ∀ x ∈ l, ∀ a ∈ x, NoPut a := by
  intro x hx a ha
  cases a with
  | sendPut k => exact h x hx k ha
  | _ => exact trivial

theorem fuel_more (n : Nat) {t : Sess} {i : Input} {ds : List Bytes} (h : ds ≠ [] → t.state = .closed) (hi : Proper i) :
    fsmFuel (n + 1) (more t ds) i = ⟨more (fsmFuel (n + 1) t i).s ds, (fsmFuel (n + 1) t i).exc⟩ := by
  by_cases hd : ds = []
  · rw [hd, more_nil, more_nil]
  · rw [fuel_closed n (t := t) (h hd) hi, fuel_closed n (t := more t ds) (h hd) hi]
    rfl

theorem ooo_eq {a b : Sess} (h : core a = core b) : a.ooo = b.ooo := show (core a).ooo = (core b).ooo from congrArg Sess.ooo h

/-- A run in which nothing is put. -/
theorem Sim.quiet {b : Bool} {c : Conc} {t : Sess} {ds : List Bytes} (h : Sim iss b c t ds) {i : Input} (hi : Proper i) {l : List (List App)}
    (hl : ∀ a ∈ l, ∀ k, App.sendPut k ∉ a) (hinv : SendInv iss (t.fsm i).done) : Sim iss true (c.fsm i l) (t.fsm i).done ds := by
  have hooo : c.s.ooo.length = t.ooo.length := by rw [ooo_eq h.core]; rfl
  obtain ⟨w1, w2, w3, w4⟩ := weave_quiet (blind_fsm (c.s.ooo.length + 1) i) h.core (noPut_of hl)
  rw [run_fsmP, fuel_more _ h.late hi, hooo] at w1 w3
  rw [← hooo] at w1 w3
  obtain ⟨D', e1, e2, e3, e4⟩ := fsm_end (q := t.fsm i) (D := ds) (by rw [hooo] at w1 ⊢; exact w1) w2 (by rw [hooo] at w3 ⊢; exact w3)
  have hD := e4 fun x hx => noPut_of hl x (w4 x hx)
  subst hD
  rw [List.append_nil] at e1 e2
  refine ⟨e1, ?_, ?_, (nomatch ·), (nomatch ·), hinv⟩
  · rw [e2, h.puts, puts_done]
    exact congrArg (· ++ ds) (fuel_puts _ _ _).symm
  · intro hd
    rw [state_done, Sess.fsm, fuel_closed _ (h.late hd) hi]
    exact h.late hd

def Work.isClose : Work → Bool
  | .close => true
  | _ => false

theorem core_run {p : Prog} (h : Blind p) {a b : Sess} (hc : core a = core b) : core (p.run a).s = core (p.run b).s ∧ (p.run a).exc = (p.run b).exc := by
  have key : ∀ (p p' : Prog), Same p p' → ∀ a b, core a = core b → core (p.run a).s = core (p'.run b).s ∧ (p.run a).exc = (p'.run b).exc := by
    intro p
    induction p with
    | done e =>
      intro p' hp a b hc
      cases p' with
      | done e' => exact ⟨hc, hp⟩
      | step => exact hp.elim
    | step f k ih =>
      intro p' hp a b hc
      cases p' with
      | done e' => exact hp.elim
      | step f' k' => exact ih a _ (hp a b hc).2.2 _ _ (hp a b hc).1
  exact key p p h a b hc

theorem run_append (t : Sess) (a b : List Ev) : t.run (a ++ b) = (t.run a).run b := List.foldl_append

theorem sim_step {b : Bool} {c : Conc} {t : Sess} {ds : List Bytes} (h : Sim iss b c t ds) (x : Work × List (List App))
    (hm : ∀ m, x.1 = .segment m → AckOk iss m) (hb : (b || x.1.isClose) = true → ∀ a ∈ x.2, ∀ k, App.sendPut k ∉ a) :
    ∃ evs ds', Sim iss (b || x.1.isClose) (c.step x) (t.run evs) ds' ∧ Spec.besides evs = [Spec.unbroken x.1] ∧
      puts (t.run evs).out = puts t.out ++ Spec.sends evs := by
  obtain ⟨w, l⟩ := x
  dsimp only at hm hb ⊢
  have hinv : ∀ e : Ev, (∀ m, e = .segment m → AckOk iss m) → SendInv iss (t.step e) := by
    intro e he
    refine send_run (evs := [e]) (s := t) ?_ h.inv
    intro m hme
    cases e with
    | segment m' =>
      have : m = m' := by simpa [Spec.arrivals] using hme
      rw [this]; exact he m' rfl
    | _ => simp [Spec.arrivals] at hme
  by_cases hbb : (b || w.isClose) = true
  · -- the application has closed
    have hl := hb hbb
    rw [hbb]
    have quiet : ∀ (i : Input) (e : Ev), Proper i → c.step (w, l) = c.fsm i l → t.step e = (t.fsm i).done → Spec.besides [e] = [e] → Spec.sends [e] = [] →
        e = Spec.unbroken w → (∀ m, e = .segment m → AckOk iss m) →
        ∃ evs ds', Sim iss true (c.step (w, l)) (t.run evs) ds' ∧ Spec.besides evs = [Spec.unbroken w] ∧ puts (t.run evs).out = puts t.out ++ Spec.sends evs := by
      intro i e hi h1 h2 h3 h4 h5 h6
      refine ⟨[e], ds, ?_, by rw [h3, h5], ?_⟩
      · show Sim iss true _ (t.step e) ds
        rw [h1, h2]
        exact h.quiet hi hl (h2 ▸ hinv e h6)
      · show puts (t.step e).out = _
        rw [h4, List.append_nil, h2, puts_done]
        exact fuel_puts _ _ _
    have plain : ∀ (f : Sess → Sess) (e : Ev), c.step (w, l) = { c with s := f c.s }.apps l.flatten → t.step e = f t → e = Spec.unbroken w →
        (∀ m, e ≠ .segment m) → (∀ s, core (f s) = f (core s)) → (∀ s D, f (more s D) = more (f s) D) → (∀ s, (f s).out = s.out ∧ (f s).state = s.state) →
        Spec.besides [e] = [e] → Spec.sends [e] = [] →
        ∃ evs ds', Sim iss true (c.step (w, l)) (t.run evs) ds' ∧ Spec.besides evs = [Spec.unbroken w] ∧ puts (t.run evs).out = puts t.out ++ Spec.sends evs := by
      intro f e h1 h2 h3 h4 h5 h6 h7 h8 h9
      obtain ⟨D, a1, a2, a3, a4, a5⟩ := apps_core l.flatten { c with s := f c.s }
      have hD := a5 (by
        intro a ha
        obtain ⟨x, hx, hax⟩ := List.mem_flatten.1 ha
        exact noPut_of hl x hx a hax)
      subst hD
      rw [more_nil] at a1
      rw [List.append_nil] at a2
      refine ⟨[e], ds, ?_, by rw [h8, h3], ?_⟩
      · show Sim iss true _ (t.step e) ds
        rw [h1]
        refine ⟨?_, ?_, ?_, (nomatch ·), (nomatch ·), hinv e fun m he => absurd he (h4 m)⟩
        · rw [a1, h2, ← h6, h5, h.core, h5]
        · rw [a2, h2, (h7 c.s).1, (h7 t).1]; exact h.puts
        · intro hd; rw [h2, (h7 t).2]; exact h.late hd
      · show puts (t.step e).out = _
        rw [h9, List.append_nil, h2, (h7 t).1]
    cases w with
    | segment m => exact quiet (.packet m) (.segment m) ⟨by simp, by simp⟩ rfl rfl rfl rfl rfl fun m' he => hm m' (by cases he; rfl)
    | close => exact quiet (.sys .close) .close ⟨by simp, by simp⟩ rfl rfl rfl rfl rfl fun m' he => by cases he
    | timer => exact quiet .timer .timer ⟨by simp, by simp⟩ rfl rfl rfl rfl rfl fun m' he => by cases he
    | clock => exact plain clock .clock rfl rfl rfl (by simp) (fun _ => rfl) (fun _ _ => rfl) (fun _ => ⟨rfl, rfl⟩) rfl rfl
    | table r => exact plain (fun s => { s with registered := r }) (.table r) rfl rfl rfl (by simp) (fun _ => rfl) (fun _ _ => rfl) (fun _ => ⟨rfl, rfl⟩) rfl rfl
  · -- it has not
    have hbf : b = false := by cases b; · rfl
                               · simp at hbb
    have hw : w.isClose = false := by cases hx : w.isClose; · rfl
                                      · rw [hx] at hbb; simp at hbb
    have hcalm := h.calm hbf
    have halive : c.senders ≠ [] ∨ ds ≠ [] → Alive t := fun x => x.elim (h.alive hbf) fun hd => .inr (.inr (h.late hd))
    have hooo : c.s.ooo.length = t.ooo.length := by rw [ooo_eq h.core]; rfl
    rw [Bool.eq_false_iff.2 hbb]
    have late : ∀ (i : Input) (e : Ev), Fine (fsmP (c.s.ooo.length + 1) i) t → c.step (w, l) = c.fsm i l → t.step e = (t.fsm i).done →
        Spec.besides [e] = [e] → Spec.sends [e] = [] → e = Spec.unbroken w → (∀ m, e = .segment m → AckOk iss m) →
        ∃ evs ds', Sim iss false (c.step (w, l)) (t.run evs) ds' ∧ Spec.besides evs = [Spec.unbroken w] ∧ puts (t.run evs).out = puts t.out ++ Spec.sends evs := by
      intro i e hf h1 h2 h3 h4 h5 h6
      obtain ⟨d1, w1, w2, w3, w4⟩ := weave_late (blind_fsm (c.s.ooo.length + 1) i) hf (l := l) h.core halive
      have hc1 := hf.calm hcalm
      rw [run_fsmP] at w1 w3 w4 hc1
      have hfs : fsmFuel (c.s.ooo.length + 1) t i = t.fsm i := by rw [hooo]; rfl
      rw [hfs] at w1 w3 w4 hc1
      obtain ⟨d2, e1, e2, e3, _⟩ := fsm_end w1 w2 w3
      have hp : puts (t.fsm i).done.out = puts t.out := (puts_done _).trans (fuel_puts _ _ _)
      obtain ⟨S, ds', s1, s2⟩ := finish (iss := iss) e1 (by rw [e2, h.puts, hp]; simp) (e3 w4)
        (placid_of (state_done _) (closes_done _) hc1) (h2 ▸ hinv e h6)
      refine ⟨e :: S.map .send, ds', ?_, ?_, ?_⟩
      · show Sim iss false _ ((t.step e).run _) ds'
        rw [h1, h2]; exact s1
      · show Spec.besides ([e] ++ S.map .send) = _
        rw [show Spec.besides ([e] ++ S.map .send) = Spec.besides [e] ++ Spec.besides (S.map .send) from List.filter_append _ _, besides_map, h3, h5]
        rfl
      · show puts ((t.step e).run _).out = _
        rw [h2, s2, hp, show Spec.sends (e :: S.map .send) = Spec.sends [e] ++ Spec.sends (S.map .send) from List.filterMap_append (l := [e]), h4, sends_map]
        rfl
    have plain : ∀ (f : Sess → Sess) (e : Ev), c.step (w, l) = { c with s := f c.s }.apps l.flatten → t.step e = f t → e = Spec.unbroken w →
        (∀ m, e ≠ .segment m) → (∀ s, core (f s) = f (core s)) → (∀ s D, f (more s D) = more (f s) D) →
        (∀ s, (f s).out = s.out ∧ (f s).state = s.state ∧ (f s).closes = s.closes) →
        Spec.besides [e] = [e] → Spec.sends [e] = [] →
        ∃ evs ds', Sim iss false (c.step (w, l)) (t.run evs) ds' ∧ Spec.besides evs = [Spec.unbroken w] ∧ puts (t.run evs).out = puts t.out ++ Spec.sends evs := by
      intro f e h1 h2 h3 h4 h5 h6 h7 h8 h9
      obtain ⟨D, a1, a2, a3, a4, a5⟩ := apps_core l.flatten { c with s := f c.s }
      have hst : c.s.state = t.state := show (core c.s).state = (core (more t ds)).state from congrArg Sess.state h.core
      have hp : puts (f t).out = puts t.out := by rw [(h7 t).1]
      obtain ⟨S, ds', s1, s2⟩ := finish (iss := iss) (c := Conc.apps { c with s := f c.s } l.flatten) (t := f t) (D := ds ++ D) (by
          rw [a1, ← more_more, core_more_eq D]
          show core (f c.s) = _
          rw [h5, h.core, ← h5, h6]) (by
          rw [a2, hp, ← List.append_assoc, ← h.puts]
          show puts (f c.s).out ++ D = _
          rw [(h7 c.s).1]) (by
          intro hh
          refine alive_of (h7 t).2.1 ?_
          by_cases hd : ds = []
          · have : D ≠ [] ∨ (Conc.apps { c with s := f c.s } l.flatten).senders ≠ [] := by
              rw [hd, List.nil_append] at hh; exact hh.symm
            rcases a4 this with x | x
            · exact halive (.inl x)
            · refine alive_of ?_ x.alive
              show t.state = (f c.s).state
              rw [(h7 c.s).2.1, hst]
          · exact halive (.inr hd))
        (placid_of (h7 t).2.1 (h7 t).2.2 hcalm) (h2 ▸ hinv e fun m he => absurd he (h4 m))
      refine ⟨e :: S.map .send, ds', ?_, ?_, ?_⟩
      · show Sim iss false _ ((t.step e).run _) ds'
        rw [h1, h2]; exact s1
      · show Spec.besides ([e] ++ S.map .send) = _
        rw [show Spec.besides ([e] ++ S.map .send) = Spec.besides [e] ++ Spec.besides (S.map .send) from List.filter_append _ _, besides_map, h8, h3]
        rfl
      · show puts ((t.step e).run _).out = _
        rw [h2, s2, hp, show Spec.sends (e :: S.map .send) = Spec.sends [e] ++ Spec.sends (S.map .send) from List.filterMap_append (l := [e]), h9, sends_map]
        rfl
    cases w with
    | segment m =>
      exact late (.packet m) (.segment m) (fine_packet _ m t h.level hcalm.2) rfl rfl rfl rfl rfl fun m' he => hm m' (by cases he; rfl)
    | close => cases hw
    | timer =>
      by_cases ho : Open t
      · have hd : ds = [] := Classical.byContradiction fun hd => by
          have := h.late hd
          rcases ho with x | x <;> rw [this] at x <;> cases x
        subst hd
        obtain ⟨d, d1, w1, w2, w3, w4, w5⟩ := weave_timer c.s.ooo.length (l := l) (by rw [h.core, more_nil]) ho (h.level ho) hcalm.1
        have hst : (t.run (d.map .send)).state = t.state := by rw [run_sends d ho]; rfl
        have ho' : Open (t.run (d.map .send)) := by unfold Open; rw [hst]; exact ho
        have hcs : core (more t d) = core (t.run (d.map .send)) := (core_sends d ho).symm
        obtain ⟨v1, v2⟩ := core_run (blind_fsm (c.s.ooo.length + 1) .timer) hcs
        have hfs : fsmFuel (c.s.ooo.length + 1) (t.run (d.map .send)) .timer = (t.run (d.map .send)).fsm .timer := by
          rw [hooo, show t.ooo = (t.run (d.map .send)).ooo from ooo_eq (a := more t d) hcs]; rfl
        rw [run_fsmP, run_fsmP, hfs] at v1 v2
        generalize ht' : t.run (d.map .send) = t' at *
        have hst' : (fsmFuel (c.s.ooo.length + 1) (more t d) .timer).s.state = (t'.fsm .timer).s.state :=
          show (core _).state = (core _).state from congrArg Sess.state v1
        have hcl' : (fsmFuel (c.s.ooo.length + 1) (more t d) .timer).s.closes = (t'.fsm .timer).s.closes :=
          show (core _).closes = (core _).closes from congrArg Sess.closes v1
        obtain ⟨d2, e1, e2, e3, _⟩ := fsm_end (q := t'.fsm .timer) (by rw [w1, core_more_eq d1 v1]) w2 (by rw [w3, v2])
        have hp : puts (t'.fsm .timer).done.out = puts t'.out := (puts_done _).trans (fuel_puts _ _ _)
        have hp' : puts t'.out = puts t.out ++ d := by rw [← ht']; exact puts_sends d ho
        have hi' : SendInv iss t' := by rw [← ht']; exact send_run (by rw [arrivals_map]; simp) h.inv
        obtain ⟨S, ds', s1, s2⟩ := finish (iss := iss) e1 (by rw [e2, h.puts, hp, hp']; simp) (e3 fun x => alive_of hst'.symm (w4 x))
          (placid_of ((state_done _).trans hst'.symm) ((closes_done _).trans hcl'.symm) w5) (send_run (evs := [.timer]) (s := t') (by simp [Spec.arrivals]) hi')
        have hrun : t.run (d.map .send ++ .timer :: S.map .send) = ((t'.fsm .timer).done).run (S.map .send) := by
          rw [run_append, ht']; rfl
        refine ⟨d.map .send ++ .timer :: S.map .send, ds', ?_, ?_, ?_⟩
        · rw [hrun]; exact s1
        · rw [show Spec.besides (d.map .send ++ .timer :: S.map .send) = Spec.besides (d.map .send) ++ .timer :: Spec.besides (S.map .send) from List.filter_append _ _,
            besides_map, besides_map]; rfl
        · rw [hrun, s2, hp, hp', show Spec.sends (d.map .send ++ .timer :: S.map .send) = Spec.sends (d.map .send) ++ Spec.sends (S.map .send) from List.filterMap_append,
            sends_map, sends_map, List.append_assoc]
      · exact late .timer .timer (fine_timer _ hcalm ho) rfl rfl rfl rfl rfl fun m' he => by cases he
    | clock => exact plain clock .clock rfl rfl rfl (by simp) (fun _ => rfl) (fun _ _ => rfl) (fun _ => ⟨rfl, rfl, rfl⟩) rfl rfl
    | table r => exact plain (fun s => { s with registered := r }) (.table r) rfl rfl rfl (by simp) (fun _ => rfl) (fun _ _ => rfl) (fun _ => ⟨rfl, rfl, rfl⟩) rfl rfl

/-- `send` is not under way when the application closes, and is not called afterwards. -/
def OkFrom : Bool → List (Work × List (List App)) → Prop
  | _, [] => True
  | b, x :: h => ((b || x.1.isClose) = true → ∀ a ∈ x.2, ∀ k, App.sendPut k ∉ a) ∧ OkFrom (b || x.1.isClose) h

theorem okFrom_true {h : List (Work × List (List App))} (hh : ∀ x ∈ h, ∀ a ∈ x.2, ∀ k, App.sendPut k ∉ a) : OkFrom true h := by
  induction h with
  | nil => exact trivial
  | cons x h ih => exact ⟨fun _ => hh x (by simp), ih fun y hy => hh y (by simp [hy])⟩

theorem okFrom_of {h : List (Work × List (List App))} (hh : Spec.SendsFirst h) : OkFrom false h := by
  induction h with
  | nil => exact trivial
  | cons x h ih =>
    obtain ⟨w, l⟩ := x
    have hrest : Spec.SendsFirst h := fun h₁ l' h₂ e => hh ((w, l) :: h₁) l' h₂ (by rw [e]; rfl)
    cases w with
    | close =>
      have := hh [] l h rfl
      exact ⟨fun _ => this _ (by simp), okFrom_true fun y hy => this y (by simp [hy])⟩
    | _ => exact ⟨(nomatch ·), ih hrest⟩

theorem okFrom_true' {h : List (Work × List (List App))} (hh : OkFrom true h) : ∀ x ∈ h, ∀ a ∈ x.2, ∀ k, App.sendPut k ∉ a := by
  induction h with
  | nil => simp
  | cons x h ih =>
    intro y hy
    rcases List.mem_cons.1 hy with rfl | hy
    · exact hh.1 rfl
    · exact ih hh.2 y hy

theorem sendsFirst_of {h : List (Work × List (List App))} (hh : OkFrom false h) : Spec.SendsFirst h := by
  intro h₁ l h₂ e
  induction h₁ generalizing h with
  | nil =>
    subst e
    intro x hx
    rcases List.mem_cons.1 hx with rfl | hx
    · exact hh.1 rfl
    · exact okFrom_true' hh.2 x hx
  | cons y h₁ ih =>
    subst e
    have h2 := hh.2
    by_cases hy : y.1.isClose = true
    · rw [hy] at h2
      intro x hx
      exact okFrom_true' h2 x (List.mem_append_right _ hx)
    · rw [Bool.not_eq_true] at hy
      rw [hy] at h2
      exact ih h2 rfl

theorem sends_append (a b : List Ev) : Spec.sends (a ++ b) = Spec.sends a ++ Spec.sends b := List.filterMap_append
theorem besides_append (a b : List Ev) : Spec.besides (a ++ b) = Spec.besides a ++ Spec.besides b := List.filter_append _ _

theorem sim_run {h : List (Work × List (List App))} {b : Bool} {c : Conc} {t : Sess} {ds : List Bytes} (hs : Sim iss b c t ds)
    (hm : ∀ m ∈ Spec.arriving h, AckOk iss m) (hh : OkFrom b h) :
    ∃ evs ds' b', Sim iss b' (c.run h) (t.run evs) ds' ∧ Spec.besides evs = h.map (Spec.unbroken ·.1) ∧
      puts (t.run evs).out = puts t.out ++ Spec.sends evs := by
  induction h generalizing b c t ds with
  | nil => exact ⟨[], ds, b, hs, rfl, (List.append_nil _).symm⟩
  | cons x h ih =>
    obtain ⟨e1, d1, s1, s2, s3⟩ := sim_step hs x (fun m hx => hm m (by
      obtain ⟨w, l⟩ := x
      dsimp only at hx
      subst hx
      exact List.mem_cons_self)) hh.1
    obtain ⟨e2, d2, b2, r1, r2, r3⟩ := ih s1 (fun m hx => hm m (by
      obtain ⟨w, l⟩ := x
      cases w with
      | segment m' => exact List.mem_cons_of_mem _ hx
      | _ => exact hx)) hh.2
    refine ⟨e1 ++ e2, d2, b2, ?_, ?_, ?_⟩
    · rw [run_append]; exact r1
    · rw [besides_append, s2, r2]; rfl
    · rw [run_append, r3, s3, sends_append, List.append_assoc]

end Verif.Sess
