import Verif.Lemmas.Preempt
/-! Thread switches in a run of `tcp_fsm`: what the application does in between can be put before or after. -/
namespace Verif.Sess
open Verif Prog

/-- The application has put these buffers. -/
def more (s : Sess) (ds : List Bytes) : Sess := { s with tx := s.tx ++ ds.flatten }

theorem more_nil (s : Sess) : more s [] = s := by simp [more]
theorem more_more (s : Sess) (a b : List Bytes) : more (more s a) b = more s (a ++ b) := by simp [more]
theorem core_more (s : Sess) (ds : List Bytes) : core (more s ds) = more (core s) ds := rfl

theorem core_more_eq {a b : Sess} (ds : List Bytes) (h : core a = core b) : core (more a ds) = core (more b ds) := by
  rw [core_more, core_more, h]

/-- `send` finds the connection open. -/
def Open (s : Sess) : Prop := s.state = .established ∨ s.state = .closeWait

/-- The states in which a call of `send` that has found the connection open can be. -/
def Alive (s : Sess) : Prop := s.state = .established ∨ s.state = .closeWait ∨ s.state = .closed

theorem Open.alive {s : Sess} (h : Open s) : Alive s := h.elim .inl fun h => .inr (.inl h)

/-- Not a put. -/
def NoPut : App → Prop
  | .sendPut _ => False
  | _ => True

theorem app_core (c : Conc) (a : App) : ∃ ds, core (c.app a).s = core (more c.s ds) ∧ puts (c.app a).s.out = puts c.s.out ++ ds ∧
    (c.app a).s.state = c.s.state ∧ (ds ≠ [] ∨ (c.app a).senders ≠ [] → c.senders ≠ [] ∨ Open c.s) ∧ (NoPut a → ds = []) := by
  have still : ∀ (c' : Conc) {l : List Out}, c'.s.out = c.s.out ++ l → puts l = [] → core c'.s = core c.s → c'.s.state = c.s.state →
      (c'.senders ≠ [] → c.senders ≠ [] ∨ Open c.s) →
      ∃ ds, core c'.s = core (more c.s ds) ∧ puts c'.s.out = puts c.s.out ++ ds ∧
        c'.s.state = c.s.state ∧ (ds ≠ [] ∨ c'.senders ≠ [] → c.senders ≠ [] ∨ Open c.s) ∧ (NoPut a → ds = []) := by
    intro c' l h1 h2 h3 h4 h5
    refine ⟨[], by rw [more_nil, h3], by rw [h1, puts_append, h2], h4, ?_, fun _ => rfl⟩
    intro h
    rcases h with h | h
    · exact absurd rfl h
    · exact h5 h
  cases a with
  | sendTest d =>
    unfold Conc.app
    dsimp only
    split
    · rename_i h
      exact still _ (l := []) (by simp) rfl rfl rfl fun _ => .inr h
    · exact still _ (l := [.rejected]) rfl rfl (by simp [core, emit, Spec.received, own]) rfl fun h => .inl h
  | sendPut k =>
    unfold Conc.app
    dsimp only
    cases hk : c.senders[k]? with
    | none => exact still c (l := []) (by simp) rfl rfl rfl .inl
    | some d =>
      refine ⟨[d], ?_, ?_, rfl, ?_, fun h => h.elim⟩
      · simp [core, more, Spec.received, own]
      · show puts (c.s.out ++ [.accepted d]) = _
        rw [puts_append]
        rfl
      · intro _
        left
        intro h
        rw [h] at hk
        cases hk
  | recvAcquire =>
    show ∃ ds, core (c.s.recvAcquire) = _ ∧ _
    by_cases h : c.s.evRx = 0
    · refine still { c with s := c.s.recvAcquire } (l := []) ?_ rfl ?_ ?_ .inl <;> simp [recvAcquire, h]
    · refine still { c with s := c.s.recvAcquire } (l := []) ?_ rfl ?_ ?_ .inl <;> simp [recvAcquire, h, core]
  | recvLook =>
    unfold Conc.app
    dsimp only
    split
    · exact still c (l := []) (by simp) rfl rfl rfl .inl
    · split <;> exact still _ (l := []) (by simp) rfl rfl rfl .inl
  | recvState =>
    unfold Conc.app
    dsimp only
    split
    · exact still c (l := []) (by simp) rfl rfl rfl .inl
    · split
      · exact still _ (l := [.received []]) rfl rfl (by simp [core, emit, Spec.received, own]) rfl .inl
      · exact still _ (l := []) (by simp) rfl rfl rfl .inl
  | recvTake n =>
    unfold Conc.app
    dsimp only
    split
    · exact still c (l := []) (by simp) rfl rfl rfl .inl
    · exact still _ (l := [.received _]) rfl rfl (by simp [core, Spec.received, own]) rfl .inl
  | recvRelease k =>
    unfold Conc.app
    dsimp only
    cases c.taken[k]? with
    | none => exact still c (l := []) (by simp) rfl rfl rfl .inl
    | some b =>
      dsimp only
      split
      · exact still _ (l := []) (List.append_nil _).symm rfl rfl rfl .inl
      · exact still _ (l := []) (List.append_nil _).symm rfl rfl rfl .inl
  | connAcquire =>
    unfold Conc.app
    dsimp only
    split
    · exact still c (l := []) (by simp) rfl rfl rfl .inl
    · exact still _ (l := []) (by simp) rfl rfl rfl .inl
  | connState =>
    unfold Conc.app
    dsimp only
    split
    · exact still c (l := []) (by simp) rfl rfl rfl .inl
    · split <;> exact still _ (l := []) (by simp) rfl rfl rfl .inl
  | connRefused =>
    unfold Conc.app
    dsimp only
    split
    · exact still c (l := []) (by simp) rfl rfl rfl .inl
    · split
      · exact still _ (l := [.connected .refused]) rfl rfl (by simp [core, emit, Spec.received, own]) rfl .inl
      · exact still _ (l := []) (by simp) rfl rfl rfl .inl
  | connState' =>
    unfold Conc.app
    dsimp only
    split
    · exact still c (l := []) (by simp) rfl rfl rfl .inl
    · split
      · exact still _ (l := []) (by simp) rfl rfl rfl .inl
      · exact still _ (l := [.connected .none]) rfl rfl (by simp [core, emit, Spec.received, own]) rfl .inl
  | connTimeout =>
    unfold Conc.app
    dsimp only
    split
    · exact still c (l := []) (by simp) rfl rfl rfl .inl
    · split
      · exact still _ (l := [.connected .timeout]) rfl rfl (by simp [core, emit, Spec.received, own]) rfl .inl
      · exact still _ (l := [.connected .none]) rfl rfl (by simp [core, emit, Spec.received, own]) rfl .inl

theorem apps_core (l : List App) (c : Conc) : ∃ ds, core (c.apps l).s = core (more c.s ds) ∧ puts (c.apps l).s.out = puts c.s.out ++ ds ∧
    (c.apps l).s.state = c.s.state ∧ (ds ≠ [] ∨ (c.apps l).senders ≠ [] → c.senders ≠ [] ∨ Open c.s) ∧ ((∀ a ∈ l, NoPut a) → ds = []) := by
  induction l generalizing c with
  | nil => exact ⟨[], by rw [more_nil]; rfl, by simp [Conc.apps], rfl, fun h => h.elim (fun h => absurd rfl h) .inl, fun _ => rfl⟩
  | cons a l ih =>
    obtain ⟨d1, h1, h2, h3, h4, h5⟩ := app_core c a
    obtain ⟨d2, g1, g2, g3, g4, g5⟩ := ih (c.app a)
    have e : c.apps (a :: l) = (c.app a).apps l := rfl
    rw [e]
    have o : Open (c.app a).s → Open c.s := fun h => by unfold Open at h; rwa [h3] at h
    refine ⟨d1 ++ d2, ?_, ?_, g3.trans h3, ?_, ?_⟩
    · rw [g1, core_more_eq d2 h1, more_more]
    · rw [g2, h2, List.append_assoc]
    · intro h
      by_cases hd : d1 = []
      · rw [hd, List.nil_append] at h
        rcases g4 h with x | x
        · exact h4 (.inr x)
        · exact .inr (o x)
      · exact h4 (.inl hd)
    · intro h
      rw [h5 (h a (by simp)), g5 fun b hb => h b (by simp [hb])]
      rfl

/-- A run during which nothing is put. -/
theorem weave_quiet {p p' : Prog} (hp : Same p p') {t : Sess} {c : Conc} {l : List (List App)} (hc : core c.s = core t)
    (hl : ∀ x ∈ l, ∀ a ∈ x, NoPut a) :
    core (Conc.weave p l c).1.s = core (p'.run t).s ∧ puts (Conc.weave p l c).1.s.out = puts c.s.out ∧ (Conc.weave p l c).2.2 = (p'.run t).exc ∧
      (∀ x ∈ (Conc.weave p l c).2.1, x ∈ l) := by
  induction p generalizing p' t c l with
  | done e =>
    cases p' with
    | done e' => exact ⟨hc, rfl, hp, fun _ h => h⟩
    | step => exact hp.elim
  | step f k ih =>
    cases p' with
    | done => exact hp.elim
    | step f' k' =>
      obtain ⟨ds, h1, h2, h3, h4, h5⟩ := apps_core (l.headD []) c
      have hd := h5 (by
        cases l with
        | nil => simp
        | cons x l => exact hl x (by simp))
      subst hd
      rw [more_nil] at h1
      obtain ⟨s1, s2, s3⟩ := hp _ _ (h1.trans hc)
      obtain ⟨r1, r2, r3, r4⟩ := ih _ s3 (c := { c.apps (l.headD []) with s := f (c.apps (l.headD [])).s }) (t := f' t) (l := l.tail) s1
        (fun x hx => hl x (List.mem_of_mem_tail hx))
      refine ⟨r1, ?_, r3, fun x hx => List.mem_of_mem_tail (r4 x hx)⟩
      refine r2.trans (s2.trans ?_)
      rw [h2, List.append_nil]

/-- The application has not closed. -/
def Placid (s : Sess) : Prop :=
  s.closes = false ∧ (s.state = .listen ∨ s.state = .synSent ∨ s.state = .synRcvd ∨ s.state = .established ∨ s.state = .closeWait ∨ s.state = .closed)

/-- In this session, the buffers that are put during the program might as well be put after it. -/
def Fine : Prog → Sess → Prop
  | .done _, _ => True
  | .step f k, t => ((∀ ds, f (more t ds) = more (f t) ds ∧ k (more t ds) = k t) ∨ ¬ Alive t) ∧ (Alive t → Alive (f t)) ∧ (Placid t → Placid (f t)) ∧
      Fine (k t) (f t)

theorem Fine.calm {p : Prog} {t : Sess} (h : Fine p t) (hc : Placid t) : Placid (p.run t).s := by
  induction p generalizing t with
  | done => exact hc
  | step f k ih => exact ih t h.2.2.2 (h.2.2.1 hc)

theorem Fine.more {p : Prog} {t : Sess} (h : Fine p t) (ha : Alive t) (ds : List Bytes) :
    p.run (more t ds) = ⟨Sess.more (p.run t).s ds, (p.run t).exc⟩ := by
  induction p generalizing t with
  | done => rfl
  | step f k ih =>
    obtain ⟨m1, m2⟩ := (h.1.resolve_right fun h => h ha) ds
    rw [run_step, run_step, m1, m2]
    exact ih t h.2.2.2 (h.2.1 ha)

theorem weave_late {p p' : Prog} (hp : Same p p') {t : Sess} (hf : Fine p' t) {c : Conc} {l : List (List App)} {ds : List Bytes}
    (hc : core c.s = core (more t ds)) (hl : c.senders ≠ [] ∨ ds ≠ [] → Alive t) :
    ∃ ds', core (Conc.weave p l c).1.s = core (more (p'.run t).s (ds ++ ds')) ∧ puts (Conc.weave p l c).1.s.out = puts c.s.out ++ ds' ∧
      (Conc.weave p l c).2.2 = (p'.run t).exc ∧ ((Conc.weave p l c).1.senders ≠ [] ∨ ds ++ ds' ≠ [] → Alive (p'.run t).s) := by
  induction p generalizing p' t c l ds with
  | done e =>
    cases p' with
    | done e' => exact ⟨[], by rw [List.append_nil]; exact hc, by rw [List.append_nil]; rfl, hp, by rw [List.append_nil]; exact hl⟩
    | step => exact hp.elim
  | step f k ih =>
    cases p' with
    | done => exact hp.elim
    | step f' k' =>
      obtain ⟨d1, h1, h2, h3, h4, h5⟩ := apps_core (l.headD []) c
      have hst : c.s.state = t.state := show (core c.s).state = (core (more t ds)).state from congrArg Sess.state hc
      have h6 : core (c.apps (l.headD [])).s = core (more t (ds ++ d1)) := by rw [h1, core_more_eq d1 hc, more_more]
      have hal : (c.apps (l.headD [])).senders ≠ [] ∨ ds ++ d1 ≠ [] → Alive t := by
        intro h
        by_cases hd : ds = []
        · rcases h4 (h.elim .inr fun h => .inl (by rw [hd] at h; exact h)) with x | x
          · exact hl (.inl x)
          · unfold Open at x
            rw [hst] at x
            exact Open.alive x
        · exact hl (.inr hd)
      obtain ⟨s1, s2, s3⟩ := hp _ _ h6
      have key : core (f (c.apps (l.headD [])).s) = core (more (f' t) (ds ++ d1)) ∧ Same (k (c.apps (l.headD [])).s) (k' t) ∧
          ((c.apps (l.headD [])).senders ≠ [] ∨ ds ++ d1 ≠ [] → Alive (f' t)) := by
        have ha' := hf.2.1
        rcases hf.1 with hm | ha
        · obtain ⟨m1, m2⟩ := hm (ds ++ d1)
          rw [m1] at s1
          rw [m2] at s3
          exact ⟨s1, s3, fun h => ha' (hal h)⟩
        · have e : ds ++ d1 = [] := Classical.byContradiction fun h => ha (hal (.inr h))
          rw [e, more_nil] at s1 s3
          rw [e, more_nil]
          exact ⟨s1, s3, fun h => absurd (hal (by rw [e]; exact h)) ha⟩
      obtain ⟨k1, k2, k3⟩ := key
      obtain ⟨d2, r1, r2, r3, r4⟩ := ih _ k2 hf.2.2.2 (c := { c.apps (l.headD []) with s := f (c.apps (l.headD [])).s }) (l := l.tail) k1 k3
      refine ⟨d1 ++ d2, ?_, ?_, r3, ?_⟩
      · rw [← List.append_assoc]; exact r1
      · refine r2.trans ?_
        show puts (f _).out ++ d2 = _
        rw [s2, h2, List.append_assoc]
      · rw [← List.append_assoc]; exact r4

theorem Fine.andThen {p q : Prog} {t : Sess} (h : Fine p t) (hq : (p.run t).exc = none → Fine q (p.run t).s) : Fine (p ;; q) t := by
  induction p generalizing t with
  | done e =>
    cases e with
    | none => exact hq rfl
    | some e => exact trivial
  | step f k ih =>
    refine ⟨?_, h.2.1, h.2.2.1, ih t h.2.2.2 hq⟩
    rcases h.1 with h1 | h1
    · exact .inl fun ds => ⟨(h1 ds).1, by show k (Sess.more t ds) ;; q = _; rw [(h1 ds).2]⟩
    · exact .inr h1

/-- The application's steps before the first step of a program. -/
theorem weave_andThen (p q : Prog) (l : List (List App)) (c : Conc) :
    Conc.weave (p ;; q) l c = match Conc.weave p l c with
      | (c', l', none) => Conc.weave q l' c'
      | (c', l', some e) => (c', l', some e) := by
  induction p generalizing l c with
  | done e => cases e <;> rfl
  | step f k ih => exact ih _ _ _

/-! ### `tcp_fsm` -/

theorem fine_done (e : Option PyErr) (t : Sess) : Fine (done e) t := trivial
theorem fine_skip (t : Sess) : Fine skip t := trivial

theorem alive_of {a b : Sess} (h : b.state = a.state) (ha : Alive a) : Alive b := by unfold Alive; rw [h]; exact ha
theorem placid_of {a b : Sess} (h : b.state = a.state) (hc : b.closes = a.closes) (ha : Placid a) : Placid b := by unfold Placid; rw [h, hc]; exact ha

theorem fine_act {f : Sess → Sess} {t : Sess} (h : ∀ ds, f (more t ds) = more (f t) ds) (hs : (f t).state = t.state := by rfl)
    (hc : (f t).closes = t.closes := by rfl) : Fine (act f) t :=
  ⟨.inl fun ds => ⟨h ds, rfl⟩, alive_of hs, placid_of hs hc, trivial⟩

theorem fine_look {k : Sess → Prog} {t : Sess} (h : (∀ ds, k (more t ds) = k t) ∨ ¬ Alive t) (hk : Fine (k t) t) : Fine (look k) t :=
  ⟨h.imp_left fun h ds => ⟨rfl, h ds⟩, id, id, hk⟩

theorem fine_call {g : Sess → Res} {t : Sess} (h : ∀ ds, (g (more t ds)) = ⟨more (g t).s ds, (g t).exc⟩) (ha : Alive t → Alive (g t).s)
    (hc : Placid t → Placid (g t).s) : Fine (call g) t :=
  ⟨.inl fun ds => ⟨by show (g (more t ds)).s = _; rw [h], by show done (g (more t ds)).exc = _; rw [h]⟩, ha, hc, trivial⟩

theorem more_transmitPacket (t : Sess) (ds : List Bytes) (seq : Option Nat) (syn ack fin rst : Bool) (data : Bytes) :
    (more t ds).transmitPacket seq syn ack fin rst data =
      ⟨more (t.transmitPacket seq syn ack fin rst data).s ds, (t.transmitPacket seq syn ack fin rst data).exc⟩ := by
  have e : (seq.getD t.sndNxt ≤ 0xFFFFFFFF ∧ (if ack then t.rcvNxt else 0) ≤ 0xFFFFFFFF) =
    (seq.getD (more t ds).sndNxt ≤ 0xFFFFFFFF ∧ (if ack then (more t ds).rcvNxt else 0) ≤ 0xFFFFFFFF) := rfl
  rw [transmitPacket_eq, transmitPacket_eq]
  by_cases h : seq.getD t.sndNxt ≤ 0xFFFFFFFF ∧ (if ack then t.rcvNxt else 0) ≤ 0xFFFFFFFF
  · rw [if_pos h, if_pos (e ▸ h)]
    show ok ((more t ds).sentAs _ _ _ _ _ _) = ok (more (t.sentAs _ _ _ _ _ _) ds)
    congr 1
    unfold sentAs more emit setTimer
    dsimp only
    split <;> split <;> rfl
  · rw [if_neg h, if_neg (e ▸ h)]

theorem transmitPacket_closes (s : Sess) (seq : Option Nat) (syn ack fin rst : Bool) (data : Bytes) :
    (s.transmitPacket seq syn ack fin rst data).s.closes = s.closes := by
  unfold transmitPacket
  dsimp only
  split <;> split <;> first | rfl | (split <;> split <;> rfl)

theorem fine_transmitPacket (t : Sess) (seq : Option Nat) (syn ack fin rst : Bool) (data : Bytes) :
    Fine (transmitPacketP seq syn ack fin rst data) t :=
  fine_call (fun ds => more_transmitPacket t ds seq syn ack fin rst data) (alive_of (transmitPacket_state ..))
    (placid_of (transmitPacket_state ..) (transmitPacket_closes ..))

theorem more_changeState (t : Sess) (ds : List Bytes) (st : FsmState) :
    (more t ds).changeState st = ⟨more (t.changeState st).s ds, (t.changeState st).exc⟩ := by
  unfold changeState more
  dsimp only
  split
  · split <;> rfl
  · rfl

theorem changeState_state (t : Sess) (st : FsmState) : (t.changeState st).s.state = st := moveAs_state t st
theorem changeState_closes (t : Sess) (st : FsmState) : (t.changeState st).s.closes = t.closes := moveAs_closes t st

theorem fine_changeState (t : Sess) {st : FsmState} (h : st = .established ∨ st = .closeWait ∨ st = .closed) : Fine (changeStateP st) t :=
  fine_call (fun ds => more_changeState t ds st) (fun _ => by unfold Alive; rw [changeState_state]; exact h)
    fun hc => ⟨by rw [changeState_closes]; exact hc.1, by rw [changeState_state]; exact .inr (.inr (.inr h))⟩

theorem fine_ite {c : Prop} [Decidable c] {p q : Prog} {t : Sess} (h : c → Fine p t) (h' : ¬ c → Fine q t) : Fine (if c then p else q) t := by
  split
  · rename_i x; exact h x
  · rename_i x; exact h' x

theorem fine_releaseRx (t : Sess) : Fine releaseRx t := fine_act fun _ => rfl
theorem fine_releaseConnect (t : Sess) : Fine releaseConnect t := fine_act fun _ => rfl

theorem fine_enqueue (d : Bytes) (t : Sess) : Fine (enqueueRxP d) t := by
  refine Fine.andThen (fine_act fun _ => rfl) fun _ => fine_look (.inl fun _ => rfl) ?_
  exact fine_ite (fun _ => fine_releaseRx _) fun _ => fine_act fun _ => rfl

theorem more_delayedAck (t : Sess) (ds : List Bytes) : (more t ds).delayedAck = ⟨more t.delayedAck.s ds, t.delayedAck.exc⟩ := by
  unfold delayedAck
  rw [show (more t ds).expired .delayedAck = t.expired .delayedAck from rfl, show (more t ds).rcvNxt = t.rcvNxt from rfl,
    show (more t ds).rcvUna = t.rcvUna from rfl]
  split
  · split
    · rw [more_transmitPacket]
      generalize t.transmitPacket none false true false false [] = r
      obtain ⟨s, e⟩ := r
      cases e <;> rfl
    · rfl
  · rfl

theorem delayedAck_keeps (t : Sess) : t.delayedAck.s.state = t.state ∧ t.delayedAck.s.closes = t.closes := by
  unfold delayedAck
  split
  · split
    · have h1 := transmitPacket_state t none false true false false []
      have h2 := transmitPacket_closes t none false true false false []
      generalize t.transmitPacket none false true false false [] = r at h1 h2
      obtain ⟨s, e⟩ := r
      cases e <;> exact ⟨h1, h2⟩
    · exact ⟨rfl, rfl⟩
  · exact ⟨rfl, rfl⟩

theorem fine_delayedAck (t : Sess) : Fine delayedAckP t :=
  fine_call (more_delayedAck t) (alive_of (delayedAck_keeps t).1) (placid_of (delayedAck_keeps t).1 (delayedAck_keeps t).2)

theorem fine_outOfOrder (m : TcpMd) (t : Sess) : Fine (outOfOrderP m) t := by
  refine fine_call (fun ds => ?_) ?_ ?_
  · unfold outOfOrder
    dsimp only
    rw [show (more t ds).rxReq = t.rxReq from rfl, show (more t ds).rcvNxt = t.rcvNxt from rfl]
    split
    · exact more_transmitPacket { t with ooo := t.ooo.set m.seq m, rxReq := t.rxReq.set t.rcvNxt (((t.rxReq.get? t.rcvNxt).getD 0) + 1) } ds
        none false true false false []
    · rfl
  · unfold outOfOrder
    dsimp only
    split
    · exact fun h => alive_of (transmitPacket_state ..) h
    · exact id
  · unfold outOfOrder
    dsimp only
    split
    · exact fun h => placid_of (transmitPacket_state ..) (transmitPacket_closes ..) h
    · exact id

theorem fine_retransmitTimeout (t : Sess) : Fine retransmitTimeoutP t := by
  refine fine_look (.inl fun _ => rfl) ?_
  split
  · exact trivial
  · refine fine_ite (fun _ => fine_ite (fun _ => ?_) fun _ => fine_act fun _ => rfl) fun _ => trivial
    refine (fine_transmitPacket ..).andThen fun _ => Fine.andThen ?_ fun _ => Fine.andThen ?_ fun _ => fine_changeState _ (by simp)
    · exact fine_ite (fun _ => Fine.andThen (fine_act fun _ => rfl) fun _ => fine_releaseRx _) fun _ => trivial
    · exact fine_ite (fun _ => Fine.andThen (fine_act fun _ => rfl) fun _ => fine_releaseConnect _) fun _ => trivial

theorem fine_dup (m : TcpMd) (t : Sess) : Fine (act (·.retransmitRequest m)) t := by
  refine fine_act (fun ds => ?_) ?_ ?_ <;>
  · unfold retransmitRequest
    try unfold more
    dsimp only
    split <;> rfl

/-- The numbers of an open connection. -/
structure Level (s : Sess) : Prop where
  mod : s.seqMod = s.sndUna
  nxt : s.sndUna ≤ s.sndNxt
  most : s.sndNxt ≤ s.sndMax
  top : s.sndMax ≤ s.sndUna + s.tx.length
  ini : s.sndIni < s.sndUna
  fin : s.sndFin = 0

theorem OpenPhase.level {iss : Nat} {s : Sess} (h : OpenPhase iss s) (hi : s.sndIni = iss) : Level s := by
  have := h.una; have := h.nxt; have := h.most; have := h.top
  refine ⟨h.mod, h.nxt, h.most, ?_, by omega, h.fin⟩
  rw [h.tx, List.length_drop]
  omega

theorem Level.more {s : Sess} (h : Level s) (ds : List Bytes) : Level (more s ds) :=
  ⟨h.mod, h.nxt, h.most, Nat.le_trans h.top (by unfold Sess.more; dsimp only; rw [List.length_append]; omega), h.ini, h.fin⟩

theorem Level.ack {s : Sess} {m : TcpMd} (h : Level s) (hm : s.sndUna ≤ m.ackn ∧ m.ackn ≤ s.sndMax) :
    Level (s.ackUpdate m) := by
  have := h.mod; have := h.nxt; have := h.most; have := h.top; have := h.ini; have := h.fin
  rw [ackUpdate_eq]
  have e : max s.sndUna m.ackn = m.ackn := by omega
  refine ⟨?_, ?_, ?_, ?_, ?_, ?_⟩ <;> dsimp only <;> (try rw [e])
  · omega
  · split <;> omega
  · split <;> omega
  · rw [List.length_drop]; omega
  · omega
  · omega

theorem fine_ackUpdate {m : TcpMd} {t : Sess} (h : Alive t → Level t ∧ t.sndUna ≤ m.ackn ∧ m.ackn ≤ t.sndMax) : Fine (ackUpdateP m) t := by
  refine Fine.andThen (fine_act fun _ => rfl) fun _ => ?_
  refine Fine.andThen (fine_ite (fun _ => fine_enqueue _ _) fun _ => fine_skip _) fun _ => ?_
  rw [run_act]
  generalize hs : Res.s _ = a
  have hk : a.state = t.state ∧ a.closes = t.closes ∧ a.tx = t.tx ∧ a.txUna = ((max t.sndUna m.ackn : Nat) - t.seqMod).toNat := by
    rw [← hs, run_ite]
    split
    · rw [run_enqueue]; exact ⟨rfl, rfl, rfl, rfl⟩
    · exact ⟨rfl, rfl, rfl, rfl⟩
  obtain ⟨k1, k2, k3, k4⟩ := hk
  refine Fine.andThen ?_ fun _ => fine_act fun _ => rfl
  refine ⟨?_, id, id, trivial⟩
  by_cases ha : Alive t
  · left
    intro ds
    refine ⟨?_, rfl⟩
    obtain ⟨hl, h1, h2⟩ := h ha
    have := hl.mod; have := hl.top
    show { a with tx := (a.tx ++ ds.flatten).drop (Sess.more a ds).txUna } = { a with tx := a.tx.drop a.txUna ++ ds.flatten }
    rw [show (Sess.more a ds).txUna = a.txUna from rfl, List.drop_append_of_le_length]
    rw [k3, k4]
    omega
  · exact .inr fun h => ha (alive_of k1.symm h)

theorem fine_processAck {fsm : TcpMd → Prog} {m : TcpMd} {t : Sess} (hf : ∀ m u, u.state = t.state → (Alive u → Level u) → Fine (fsm m) u)
    (h : Alive t → Level t ∧ t.sndUna ≤ m.ackn ∧ m.ackn ≤ t.sndMax) : Fine (processAckP fsm m) t := by
  refine (fine_ackUpdate h).andThen fun _ => ?_
  rw [run_ackUpdate]
  show Fine _ (t.ackUpdate m)
  have hst : (t.ackUpdate m).state = t.state := ackUpdate_state t m
  have hl : Alive (t.ackUpdate m) → Level (t.ackUpdate m) := fun ha => (h (alive_of hst.symm ha)).1.ack (h (alive_of hst.symm ha)).2
  generalize t.ackUpdate m = a at hst hl
  refine ⟨.inl fun ds => ⟨?_, rfl⟩, ?_, ?_, ?_⟩
  · dsimp only
    rw [show (more a ds).ooo = a.ooo from rfl, show (more a ds).rcvNxt = a.rcvNxt from rfl]
    cases a.ooo.get? a.rcvNxt <;> rfl
  · dsimp only
    cases a.ooo.get? a.rcvNxt <;> exact id
  · dsimp only
    cases a.ooo.get? a.rcvNxt <;> exact id
  · dsimp only
    cases a.ooo.get? a.rcvNxt with
    | none => exact trivial
    | some p =>
      refine hf p _ hst fun ha => ?_
      have := hl ha
      exact ⟨this.mod, this.nxt, this.most, this.top, this.ini, this.fin⟩

theorem fine_packet (n : Nat) (m : TcpMd) (t : Sess) (hl : Open t → Level t)
    (hst : t.state = .listen ∨ t.state = .synSent ∨ t.state = .synRcvd ∨ t.state = .established ∨ t.state = .closeWait ∨ t.state = .closed) :
    Fine (fsmP n (.packet m)) t := by
  induction n generalizing m t with
  | zero => exact trivial
  | succ n ih =>
    have tp := fun t => fine_transmitPacket t none false true false false []
    have hrec : (Alive t → Open t) → ∀ m u, u.state = t.state → (Alive u → Level u) → Fine (fsmP n (.packet m)) u := by
      intro ho m u hu hlu
      exact ih m u (fun h => hlu h.alive) (by rw [hu]; exact hst)
    refine fine_look (.inl fun ds => ?_) ?_
    · rw [show (more t ds).state = t.state from rfl]
      cases t.state <;> rfl
    · rcases hst with x | x | x | x | x | x <;> rw [x] <;> dsimp only
      · -- listen
        refine ⟨.inr (by simp [Alive, x]), by simp [Alive, x], fun hc => ?_, trivial⟩
        unfold fsmListen
        dsimp only
        split
        · exact ⟨(changeState_closes _ _).trans hc.1, by rw [changeState_state]; simp⟩
        · exact hc
      · have na : ¬ Alive t := by simp [Alive, x]
        refine fine_ite (fun _ => ?_) fun _ => fine_ite (fun h => absurd (Or.inr (Or.inr h.1)) h.2.1) fun _ => fine_ite (fun _ => fine_ite (fun _ => ?_) fun _ => trivial)
          fun _ => trivial
        · refine Fine.andThen (fine_act fun _ => rfl) fun _ => Fine.andThen (fine_processAck ?_ ?_) fun _ => (tp _).andThen fun _ =>
            (fine_changeState _ (by simp)).andThen fun _ => fine_releaseConnect _
          · intro m u hu hlu
            exact ih m u (fun h => hlu h.alive) (by rw [hu]; exact .inr (.inl x))
          · exact fun h => absurd h na
        · exact (fine_changeState _ (by simp)).andThen fun _ => Fine.andThen (fine_act fun _ => rfl) fun _ => fine_releaseConnect _
      · have na : ¬ Alive t := by simp [Alive, x]
        refine fine_ite (fun _ => ?_) fun _ => fine_ite (fun _ => fine_ite (fun _ => fine_changeState _ (by simp)) fun _ => trivial)
          fun _ => fine_ite (fun _ => fine_ite (fun _ => fine_changeState _ (by simp)) fun _ => trivial) fun _ => trivial
        refine (fine_processAck (hrec fun h => absurd h na) fun h => absurd h na).andThen fun _ => (fine_changeState _ (by simp)).andThen fun _ =>
          Fine.andThen (fine_act fun _ => rfl) fun _ => fine_releaseConnect _
      · have ho : Open t := .inl x
        refine fine_ite (fun _ => trivial) fun _ => fine_ite (fun _ => ?_) fun _ => fine_ite (fun _ => fine_ite (fun h => ?_) fun _ => trivial)
          fun _ => fine_ite (fun _ => fine_ite (fun _ => ?_) fun _ => trivial) fun _ => trivial
        · refine fine_ite (fun _ => fine_dup m t) fun _ => fine_ite (fun _ => fine_outOfOrder m t) fun _ => fine_ite (fun h => ?_) fun _ => trivial
          exact fine_processAck (hrec fun _ => ho) fun _ => ⟨hl ho, acceptable_iff.1 h.2⟩
        · refine (fine_processAck (hrec fun _ => ho) fun _ => ⟨hl ho, acceptable_iff.1 h.2⟩).andThen fun _ => ?_
          exact Fine.andThen (fine_ite (fun _ => tp _) fun _ => trivial) fun _ => (fine_releaseRx _).andThen fun _ => fine_changeState _ (by simp)
        · exact (fine_releaseRx _).andThen fun _ => fine_changeState _ (by simp)
      · have ho : Open t := .inr x
        refine fine_ite (fun _ => ?_) fun _ => fine_ite (fun _ => fine_ite (fun _ => fine_changeState _ (by simp)) fun _ => trivial) fun _ => trivial
        refine fine_ite (fun _ => fine_dup m t) fun _ => fine_ite (fun _ => fine_outOfOrder m t) fun _ => fine_ite (fun h => ?_) fun _ => trivial
        exact fine_processAck (hrec fun _ => ho) fun _ => ⟨hl ho, acceptable_iff.1 h.2.1⟩
      · exact trivial

/-- `transmitDataP` after it has looked at the session. -/
def transmitRest (s : Sess) : Prog :=
  if ¬ (s.sndUna ≤ s.sndNxt ∧ s.sndNxt ≤ s.sndUna + s.sndEwn) then done (some .assertionError)
  else if s.state = .synSent ∧ s.sndNxt = s.sndIni then transmitPacketP none true false false false []
  else if s.state = .synRcvd ∧ s.sndNxt = s.sndIni then transmitPacketP none true true false false []
  else if (s.state = .established ∨ s.state = .closeWait) ∧ (s.tx.length : Int) - s.txNxt ≠ 0 then
    if s.sendLen ≠ 0 then look fun u => transmitPacketP none false true false false (pySlice u.tx u.txNxt (u.txNxt + s.sendLen))
    else skip
  else if (s.state = .finWait1 ∨ s.state = .lastAck) ∧ s.sndNxt ≠ s.sndFin then
    transmitPacketP none false true true false []
  else skip

theorem transmitDataP_eq : transmitDataP = look transmitRest := rfl

theorem fine_transmitRest {s : Sess} (h : Open s → Level s) : Fine (transmitRest s) s := by
  unfold transmitRest
  refine fine_ite (fun _ => trivial) fun hw => fine_ite (fun _ => fine_transmitPacket ..) fun _ => fine_ite (fun _ => fine_transmitPacket ..) fun _ =>
    fine_ite (fun ho => fine_ite (fun hn => ?_) fun _ => trivial) fun _ => fine_ite (fun _ => fine_transmitPacket ..) fun _ => trivial
  refine fine_look (.inl fun ds => ?_) (fine_transmitPacket ..)
  have hl := h ho.1
  have := hl.mod; have := hl.nxt; have := hl.most; have := hl.top
  have hw' : s.sndUna ≤ s.sndNxt ∧ s.sndNxt ≤ s.sndUna + s.sndEwn := Classical.byContradiction hw
  have hx : s.txNxt = s.sndNxt - s.sndUna := by unfold txNxt; omega
  have hlen : ∃ k : Nat, s.sendLen = k ∧ s.txNxt + k ≤ s.tx.length := by
    refine ⟨s.sendLen.toNat, ?_, ?_⟩ <;> unfold sendLen <;> omega
  obtain ⟨k, hk, hle⟩ := hlen
  rw [hk, show (more s ds).txNxt = s.txNxt from rfl, pySlice_nat (by show _ ≤ (s.tx ++ ds.flatten).length; rw [List.length_append]; omega),
    pySlice_nat hle]
  show transmitPacketP none false true false false (((s.tx ++ ds.flatten).drop s.txNxt).take k) = _
  rw [List.drop_append_of_le_length (by omega), List.take_append_of_le_length (by rw [List.length_drop]; omega)]

theorem fine_transmitData {s : Sess} (h : ¬ Open s) : Fine transmitDataP s := by
  refine fine_look ?_ (fine_transmitRest fun ho => absurd ho h)
  by_cases hc : s.state = .closed
  · left
    intro ds
    show transmitRest (more s ds) = transmitRest s
    unfold transmitRest
    rw [show (more s ds).state = s.state from rfl, hc]
    simp [more]
  · right
    intro ha
    rcases ha with x | x | x
    · exact h (.inl x)
    · exact h (.inr x)
    · exact hc x

theorem Level.retransmit {s : Sess} (h : Open s → Level s) (he : s.retransmitTimeout.exc = none) (ho : Open s.retransmitTimeout.s) :
    Level s.retransmitTimeout.s := by
  unfold retransmitTimeout at ho he ⊢
  cases e : s.txTmo.get? s.sndUna with
  | none =>
    simp only [e] at ho
    exact h ho
  | some c =>
    simp only [e] at ho he
    dsimp only
    by_cases hx : s.expired (.retransmit s.sndUna) = true
    · rw [if_pos hx] at ho he ⊢
      by_cases h3 : c = 3
      · rw [if_pos h3] at ho he
        generalize s.transmitPacket (some s.sndUna) false true false true [] = r at ho he
        obtain ⟨a, x⟩ := r
        cases x with
        | some x => cases he
        | none =>
          rw [mk_next] at ho
          rcases ho with y | y <;> (rw [changeState_state] at y; cases y)
      · rw [if_neg h3] at ho ⊢
        have ho' : Open s := ho
        have hl := h ho'
        have := hl.mod; have := hl.nxt; have := hl.most; have := hl.top; have := hl.ini; have := hl.fin
        refine ⟨?_, Nat.le_refl _, by show s.sndUna ≤ s.sndMax; omega, hl.top, hl.ini, hl.fin⟩
        show (if _ then _ else _) = _
        rw [if_neg (by omega)]
        exact hl.mod
    · rw [if_neg hx] at ho ⊢
      exact h ho

/-- What a run of the timer method does in an open connection: the buffers put before it looks at the length of the transmit buffer might have
been put before the run, the others after it. -/
theorem weave_timer (n : Nat) {t : Sess} {c : Conc} {l : List (List App)} (hc : core c.s = core t) (ho : Open t) (hl : Level t) (hcl : t.closes = false) :
    ∃ d d', core (Conc.weave (fsmP (n + 1) .timer) l c).1.s = core (more (fsmFuel (n + 1) (more t d) .timer).s d') ∧
      puts (Conc.weave (fsmP (n + 1) .timer) l c).1.s.out = puts c.s.out ++ d ++ d' ∧
      (Conc.weave (fsmP (n + 1) .timer) l c).2.2 = (fsmFuel (n + 1) (more t d) .timer).exc ∧
      ((Conc.weave (fsmP (n + 1) .timer) l c).1.senders ≠ [] ∨ d' ≠ [] → Alive (fsmFuel (n + 1) (more t d) .timer).s) ∧
      Placid (fsmFuel (n + 1) (more t d) .timer).s := by
  obtain ⟨tail, htail, hbt, hft⟩ : ∃ tail : Prog, (∀ s : Sess, s.state = t.state → (match s.state with
    | .closed => fsmClosedP .timer
    | .listen => call (·.fsmListen .timer)
    | .synSent => fsmSynSentP (fun m => fsmP n (.packet m)) s .timer
    | .synRcvd => fsmSynRcvdP (fun m => fsmP n (.packet m)) s .timer
    | .established => fsmEstablishedP (fun m => fsmP n (.packet m)) s .timer
    | .finWait1 => fsmFinWait1P (fun m => fsmP n (.packet m)) s .timer
    | .finWait2 => fsmFinWait2P (fun m => fsmP n (.packet m)) s .timer
    | .closing => call (·.fsmClosing .timer)
    | .closeWait => fsmCloseWaitP (fun m => fsmP n (.packet m)) s .timer
    | .lastAck => fsmLastAckP s .timer
    | .timeWait => call (·.fsmTimeWait .timer)) = retransmitTimeoutP ;; transmitDataP ;; tail) ∧
      Blind tail ∧ ∀ s : Sess, s.closes = false → Fine tail s := by
    have fl : ∀ (st : FsmState) (s : Sess), s.closes = false → Fine (look fun s => if s.closes ∧ s.tx = [] then changeStateP st else skip) s := by
      intro st s hs
      have e : ∀ u : Sess, u.closes = false → (if u.closes ∧ u.tx = [] then changeStateP st else skip) = skip := fun u hu => by
        rw [if_neg]; rintro ⟨h, _⟩; rw [hu] at h; cases h
      refine fine_look (.inl fun ds => ?_) ?_
      · rw [e _ hs, e (more s ds) hs]
      · rw [e _ hs]; exact trivial
    have bl : ∀ st, Blind (look fun s => if s.closes ∧ s.tx = [] then changeStateP st else skip) := fun st =>
      blind_look (fun _ => rfl) fun s => blind_ite (blind_changeState _) blind_skip
    rcases ho with x | x
    · refine ⟨delayedAckP ;; look fun s => if s.closes ∧ s.tx = [] then changeStateP .finWait1 else skip, fun s hs => ?_, blind_delayedAck.andThen (bl _),
        fun s hs => (fine_delayedAck s).andThen fun _ => fl _ _ ?_⟩
      · rw [hs, x]; rfl
      · exact (delayedAck_keeps s).2.trans hs
    · refine ⟨delayedAckP ;; look fun s => if s.closes ∧ s.tx = [] then changeStateP .lastAck else skip, fun s hs => ?_, blind_delayedAck.andThen (bl _),
        fun s hs => (fine_delayedAck s).andThen fun _ => fl _ _ ?_⟩
      · rw [hs, x]; rfl
      · exact (delayedAck_keeps s).2.trans hs
  have hcalm : Placid t := ⟨hcl, by rcases ho with x | x <;> simp [x]⟩
  have hfuel : ∀ d, fsmFuel (n + 1) (more t d) .timer =
      Res.next ⟨more (retransmitTimeoutP.run t).s d, (retransmitTimeoutP.run t).exc⟩ (transmitDataP ;; tail).run := by
    intro d
    rw [← run_fsmP, ← (fine_retransmitTimeout t).more ho.alive d, ← run_andThen, ← htail (more t d) rfl]
    rfl
  obtain ⟨d0, a1, a2, a3, a4, _⟩ := apps_core (l.headD []) c
  have hst : c.s.state = t.state := show (core c.s).state = (core t).state from congrArg Sess.state hc
  have hw : Conc.weave (fsmP (n + 1) .timer) l c = Conc.weave (retransmitTimeoutP ;; transmitDataP ;; tail) l.tail (c.apps (l.headD [])) := by
    rw [← htail (c.apps (l.headD [])).s (a3.trans hst)]
    rfl
  rw [hw, weave_andThen]
  obtain ⟨d1, b1, b2, b3, b4⟩ := weave_late blind_retransmitTimeout (fine_retransmitTimeout t) (c := c.apps (l.headD [])) (l := l.tail) (ds := d0)
    (a1.trans (core_more_eq d0 hc)) fun _ => ho.alive
  generalize Conc.weave retransmitTimeoutP l.tail (c.apps (l.headD [])) = r at b1 b2 b3 b4
  obtain ⟨c2, l2, e2⟩ := r
  dsimp only at b1 b2 b3 b4
  cases e2 with
  | some e =>
    refine ⟨d0 ++ d1, [], ?_⟩
    rw [hfuel, ← b3]
    dsimp only
    refine ⟨by rw [more_nil]; exact b1, by rw [b2, a2]; simp, rfl, fun h => ?_, ?_⟩
    · exact b4 (h.elim .inl fun h => absurd rfl h)
    · exact (fine_retransmitTimeout t).calm hcalm
  | none =>
    obtain ⟨d2, c1, c2', c3, c4, _⟩ := apps_core (l2.headD []) c2
    have hc2 : c2.s.state = (retransmitTimeoutP.run t).s.state := show (core c2.s).state = (core (more _ _)).state from congrArg Sess.state b1
    have h3 : core (c2.apps (l2.headD [])).s = core (more (retransmitTimeoutP.run t).s (d0 ++ d1 ++ d2)) := by
      rw [c1, core_more_eq d2 b1, more_more]
    have hcalm2 : Placid (more (retransmitTimeoutP.run t).s (d0 ++ d1 ++ d2)) := (fine_retransmitTimeout t).calm hcalm
    have hlev : Open (more (retransmitTimeoutP.run t).s (d0 ++ d1 ++ d2)) → Level (more (retransmitTimeoutP.run t).s (d0 ++ d1 ++ d2)) := by
      intro h
      refine Level.more ?_ _
      rw [run_retransmitTimeout] at b3 ⊢
      refine Level.retransmit (fun _ => hl) b3.symm ?_
      rw [run_retransmitTimeout] at h
      exact h
    generalize ht2 : more (retransmitTimeoutP.run t).s (d0 ++ d1 ++ d2) = t2 at h3 hcalm2 hlev
    have hfine : Fine (transmitRest t2 ;; tail) t2 := by
      refine (fine_transmitRest hlev).andThen fun _ => hft _ ?_
      exact ((fine_transmitRest hlev).calm hcalm2).1
    have hsame : Same (transmitRest (c2.apps (l2.headD [])).s ;; tail) (transmitRest t2 ;; tail) :=
      Same.andThen (blind_transmitData _ _ h3).2.2 hbt
    obtain ⟨d3, e1, e2, e3, e4⟩ := weave_late hsame hfine (c := c2.apps (l2.headD [])) (l := l2.tail) (ds := []) (by rw [more_nil]; exact h3) (by
      intro h
      have : (c2.apps (l2.headD [])).senders ≠ [] := h.resolve_right (by simp)
      rcases c4 (.inr this) with x | x
      · rw [← ht2]; exact b4 (.inl x)
      · rw [← ht2]; exact alive_of hc2.symm x.alive)
    refine ⟨d0 ++ d1 ++ d2, d3, ?_⟩
    rw [hfuel, ← b3, ht2]
    refine ⟨e1, ?_, e3, fun h => e4 h, hfine.calm hcalm2⟩
    refine e2.trans ?_
    rw [c2', b2, a2]
    simp

end Verif.Sess
