import Verif.Lemmas.TcpStack
/-! Invariants of all TCP sockets and sessions together. -/
namespace Verif.TcpStack
open Sess Spec

theorem run_snoc (evs : List TcpStack.Ev) (e : TcpStack.Ev) : TcpStack.run (evs ++ [e]) = (TcpStack.run evs).step e := by
  simp [TcpStack.run]

theorem sess_run_snoc (s : Sess) (evs : List Sess.Ev) (e : Sess.Ev) : s.run (evs ++ [e]) = (s.run evs).step e := by
  simp [Sess.run]

/-- The table may have lost the key of socket `r`. -/
structure Shrinks (r : Nat) (ss ss' : Socks) : Prop where
  socks : ss'.socks = ss.socks
  wf : ss.Wf → ss'.Wf
  key : ∀ k, ss'.table.get? k = ss.table.get? k ∨ (ss'.table.get? k = none ∧ (ss.socks[r]?).map (·.id) = some k)

theorem Shrinks.refl (r : Nat) (ss : Socks) : Shrinks r ss ss := ⟨rfl, id, fun _ => .inl rfl⟩

theorem Shrinks.gone {r : Nat} {ss ss' : Socks} (h : Shrinks r ss ss') : Shrinks r ss (ss'.gone r) := by
  unfold Socks.gone
  split
  · exact h
  · rename_i s hs
    refine ⟨h.socks, fun w => (h.wf w).erase s.id, fun k => ?_⟩
    rw [h.socks] at hs
    dsimp only
    rw [Dict.get?_erase]
    by_cases e : k = s.id
    · right; subst e; simp [hs]
    · rw [if_neg e]; exact h.key k

/-- Folding over what concerns nobody but the table. -/
theorem fold_calm {i : Nat} {c : TcpConn} {s : Sess} {iss : Nat} {r : Nat} :
    ∀ (news : List Out) (t : TcpStack), t.sockOf i = r →
    (∀ o ∈ news, o ≠ .spawned ∧ o ≠ .queued ∧ o ≠ .moved .synRcvd .established) →
    ∃ ss', Shrinks r t.ss ss' ∧ news.foldl (effect i c s iss) t = { t with ss := ss', log := t.log ++ news.map (.did i) } := by
  intro news
  induction news using List.reverseRecOn with
  | nil => intro t _ _; exact ⟨t.ss, Shrinks.refl _ _, by simp⟩
  | append_singleton news o ih =>
    intro t hr ho
    obtain ⟨ss', h1, h2⟩ := ih t hr (fun o h => ho o (by simp [h]))
    rw [List.foldl_append, h2]
    have hn := ho o (by simp)
    have hso : ∀ ss l, sockOf { t with ss := ss, log := l } i = r := fun _ _ => hr
    cases o with
    | spawned => simp at hn
    | queued => simp at hn
    | unregistered =>
      refine ⟨ss'.gone r, h1.gone, ?_⟩
      simp only [List.foldl_cons, List.foldl_nil, effect, unregister, hso, List.map_append, List.map_cons, List.map_nil, List.append_assoc]
    | _ => exact ⟨ss', h1, by simp [effect]⟩

/-- What a call of a method of a session does to everything. -/
inductive Acted (t : TcpStack) (i : Nat) (c : TcpConn) (iss : Nat) (s' : Sess) : Sess.Ev → TcpStack → Prop
  | calm {ev : Sess.Ev} {ss' : Socks} {news : List Out} (h : Calm c.s s') (hs : Shrinks c.sock t.ss ss') (ho : s'.out = c.s.out ++ news)
      (hn : ∀ o ∈ news, o ≠ .spawned ∧ o ≠ .queued ∧ o ≠ .moved .synRcvd .established) :
      Acted t i c iss s' ev { t with ss := ss', conns := t.conns.set i ⟨s', c.sock⟩, log := t.log ++ news.map (.did i) }
  | syn {m : TcpMd} (h : c.s.state = .listen) (hf : isSyn m = true) (hm : m.ackn = 0 ∧ m.data = []) (hst : s'.state = .synRcvd)
      (ho : s'.out = c.s.out ++ [.spawned, .moved .listen .synRcvd])
      (ha : s'.lip = m.lip ∧ s'.lport = m.lport ∧ s'.rip = m.rip ∧ s'.rport = m.rport) :
      Acted t i c iss s' (.segment m)
        { ss := (t.ss.accepted m.active).1
          conns := (t.conns ++ [TcpConn.mk (opened false iss c.s.lip c.s.lport c.s.rip c.s.rport) c.sock]).set i (TcpConn.mk s' t.ss.socks.length)
          session := upd (upd t.session c.sock (some t.conns.length)) t.ss.socks.length (some i)
          parent := upd t.parent t.ss.socks.length (some c.sock)
          queue := t.queue
          permits := t.permits
          log := t.log ++ (opened false iss c.s.lip c.s.lport c.s.rip c.s.rport).out.map (.did t.conns.length) ++
            [.did i .spawned, .did i (.moved .listen .synRcvd)] }
  | est {ev : Sess.Ev} (h : c.s.state = .synRcvd) (h' : s'.state = .established)
      (ho : s'.out = c.s.out ++ [.moved .synRcvd .established, .queued])
      (ha : s'.lip = c.s.lip ∧ s'.lport = c.s.lport ∧ s'.rip = c.s.rip ∧ s'.rport = c.s.rport) :
      Acted t i c iss s' ev
        { t with
          conns := t.conns.set i ⟨s', c.sock⟩
          queue := match t.parent c.sock with
            | none => t.queue
            | some p => upd t.queue p (t.queue p ++ [c.sock])
          permits := match t.parent c.sock with
            | none => t.permits
            | some p => upd t.permits p (t.permits p + 1)
          log := t.log ++ [.did i (.moved .synRcvd .established), .did i .queued] }

theorem act_cases {t : TcpStack} {i : Nat} {c : TcpConn} (hc : t.conns[i]? = some c) (hq : Queue (fun _ => True) c.s) (ev : Sess.Ev)
    (iss : Nat) :
    Acted t i c iss ({ c.s with registered := t.has c.sock }.step ev) ev (t.act i ev iss) := by
  have hi : i < t.conns.length := (List.getElem?_eq_some_iff.mp hc).1
  have hsock : ∀ s' l ss, sockOf { t with conns := t.conns.set i ⟨s', c.sock⟩, log := l, ss := ss } i = c.sock := by
    intro s' l ss
    simp [sockOf, List.getElem?_set_self hi]
  unfold act
  rw [hc]
  dsimp only
  have hn := step_news (s := { c.s with registered := t.has c.sock }) (hq.same rfl rfl) ev
  generalize hs' : Sess.step { c.s with registered := t.has c.sock } ev = s' at hn
  cases hn with
  | calm h =>
    obtain ⟨news, h1, h2⟩ := h.out
    have hd : s'.out.drop c.s.out.length = news := by rw [h1]; simp
    rw [hd]
    obtain ⟨ss', h3, h4⟩ := fold_calm (c := c) (s := s') (iss := iss) news { t with conns := t.conns.set i ⟨s', c.sock⟩ } (hsock s' t.log t.ss) h2
    rw [h4]
    have hcalm : Calm c.s s' := ⟨h.out, h.lip, h.lport, h.rip, h.rport, h.state⟩
    exact .calm hcalm h3 h1 h2
  | @syn m h hf hm =>
    have hout : ((synAs { c.s with registered := t.has c.sock } m).moveAs .synRcvd).out = c.s.out ++ [.spawned, .moved .listen .synRcvd] := by
      have : c.s.state = .listen := h
      rw [moveAs_out]; simp [synAs, paramsAs, this]
    rw [hout, List.drop_left]
    have := Acted.syn (t := t) (i := i) (c := c) (iss := iss) (m := m)
      (s' := (synAs { c.s with registered := t.has c.sock } m).moveAs .synRcvd) h hf hm (by simp) hout (by rw [moveAs_eq]; simp [synAs])
    have e1 : ((synAs { c.s with registered := t.has c.sock } m).moveAs .synRcvd).lip = m.lip := by rw [moveAs_eq]; simp [synAs]
    have e2 : ((synAs { c.s with registered := t.has c.sock } m).moveAs .synRcvd).lport = m.lport := by rw [moveAs_eq]; simp [synAs]
    have e3 : ((synAs { c.s with registered := t.has c.sock } m).moveAs .synRcvd).rip = m.rip := by rw [moveAs_eq]; simp [synAs]
    have e4 : ((synAs { c.s with registered := t.has c.sock } m).moveAs .synRcvd).rport = m.rport := by rw [moveAs_eq]; simp [synAs]
    simp only [List.foldl_cons, List.foldl_nil, effect, spawn, openOn, e1, e2, e3, e4, List.append_assoc, List.cons_append, List.nil_append,
      List.length_set]
    simp only [List.append_assoc] at this
    have e5 : (t.conns.set i ⟨(synAs { c.s with registered := t.has c.sock } m).moveAs .synRcvd, c.sock⟩ ++
        [TcpConn.mk (opened false iss c.s.lip c.s.lport c.s.rip c.s.rport) c.sock]).set i
          (TcpConn.mk ((synAs { c.s with registered := t.has c.sock } m).moveAs .synRcvd) t.ss.socks.length) =
        (t.conns ++ [TcpConn.mk (opened false iss c.s.lip c.s.lport c.s.rip c.s.rport) c.sock]).set i
          (TcpConn.mk ((synAs { c.s with registered := t.has c.sock } m).moveAs .synRcvd) t.ss.socks.length) := by
      rw [List.set_append_left _ _ (by simpa using hi), List.set_append_left _ _ hi, List.set_set]
    have e6 : (t.ss.accepted m.active).2 = t.ss.socks.length := rfl
    change Acted _ _ _ _ _ _ { ss := (t.ss.accepted m.active).1, conns := _, session := _, parent := _, queue := _, permits := _, log := _ }
    simp only [Socks.accepted, e5] at this ⊢
    exact this
  | est h h' ho ha =>
    have ho : s'.out = c.s.out ++ [.moved .synRcvd .established, .queued] := ho
    have h : c.s.state = .synRcvd := h
    rw [ho, List.drop_left]
    have := Acted.est (t := t) (i := i) (c := c) (iss := iss) (ev := ev) h h' ho ha
    simp only [List.foldl_cons, List.foldl_nil, effect, hsock, List.append_assoc, List.cons_append, List.nil_append]
    unfold enqueue
    dsimp only
    cases hp : t.parent c.sock with
    | none => simp only [hp] at this; simpa using this
    | some p => simp only [hp] at this; simpa using this

/-! ### Sessions are runs of their own -/

theorem historyOf_fst (evs : List TcpStack.Ev) (i : Nat) :
    (evs.foldl (share i) (TcpStack.empty, [])).1 = TcpStack.run evs := by
  induction evs using List.reverseRecOn with
  | nil => rfl
  | append_singleton evs e ih => rw [List.foldl_append, run_snoc, ← ih]; rfl

theorem historyOf_snoc (evs : List TcpStack.Ev) (e : TcpStack.Ev) (i : Nat) :
    historyOf (evs ++ [e]) i = historyOf evs i ++ portion (TcpStack.run evs) i e := by
  unfold historyOf
  rw [List.foldl_append, ← historyOf_fst evs i]
  rfl

/-- Session `s` is the run of a session of its own. -/
def RunOf (s : Sess) (evs : List Sess.Ev) : Prop :=
  ∃ active iss lip lport rip rport, s = (opened active iss lip lport rip rport).run evs

theorem RunOf.queue {s : Sess} {evs : List Sess.Ev} (h : RunOf s evs) : Queue (fun _ => True) s := by
  obtain ⟨a, i, l, lp, r, rp, rfl⟩ := h
  exact queue_run (queue_opened _ _ _ _ _ _)

theorem RunOf.opened (active : Bool) (iss : Nat) (lip : IpAddress) (lport : Nat) (rip : IpAddress) (rport : Nat) :
    RunOf (Sess.opened active iss lip lport rip rport) [] := ⟨active, iss, lip, lport, rip, rport, rfl⟩

theorem RunOf.step {s : Sess} {evs : List Sess.Ev} (h : RunOf s evs) (b : Bool) (ev : Sess.Ev) :
    RunOf ({ s with registered := b }.step ev) (evs ++ [.table b, ev]) := by
  obtain ⟨a, i, l, lp, r, rp, rfl⟩ := h
  refine ⟨a, i, l, lp, r, rp, ?_⟩
  rw [show evs ++ [.table b, ev] = (evs ++ [.table b]) ++ [ev] by simp, sess_run_snoc, sess_run_snoc]; rfl

theorem RunOf.clock {s : Sess} {evs : List Sess.Ev} (h : RunOf s evs) : RunOf s.clock (evs ++ [.clock]) := by
  obtain ⟨a, i, l, lp, r, rp, rfl⟩ := h
  exact ⟨a, i, l, lp, r, rp, by rw [sess_run_snoc]; rfl⟩

theorem seenOf_append (a b : List TcpNote) (i : Nat) : seenOf (a ++ b) i = seenOf a i ++ seenOf b i := List.filterMap_append

theorem seenOf_did (l : List Out) (i j : Nat) : seenOf (l.map (.did j)) i = if j = i then l else [] := by
  unfold seenOf
  induction l with
  | nil => simp
  | cons o l ih =>
    rw [List.map_cons, List.filterMap_cons, ih]
    by_cases e : j = i <;> simp [e]

/-- What holds of the sessions of a history. -/
structure Hist (t : TcpStack) (ps : Nat → List Sess.Ev) : Prop where
  lt : ∀ r i, t.session r = some i → i < t.conns.length
  none : ∀ i, t.conns.length ≤ i → ps i = [] ∧ seenOf t.log i = []
  runs : ∀ i c, t.conns[i]? = some c → RunOf c.s (ps i) ∧ seenOf t.log i = c.s.out

theorem get_set {α : Type} {l : List α} {i j : Nat} {x y : α} (h : (l.set i x)[j]? = some y) :
    (j = i ∧ y = x) ∨ (j ≠ i ∧ l[j]? = some y) := by
  by_cases e : j = i
  · subst e
    have hl : j < l.length := by
      have := (List.getElem?_eq_some_iff.mp h).1
      simpa using this
    rw [List.getElem?_set_self hl] at h
    exact .inl ⟨rfl, by injection h with h; exact h.symm⟩
  · rw [List.getElem?_set_ne (Ne.symm e)] at h
    exact .inr ⟨e, h⟩

theorem get_snoc {α : Type} {l : List α} {j : Nat} {x y : α} (h : (l ++ [x])[j]? = some y) :
    l[j]? = some y ∨ (j = l.length ∧ y = x) := by
  rw [List.getElem?_append] at h
  split at h
  · exact .inl h
  · right
    rw [List.getElem?_singleton] at h
    split at h
    · exact ⟨by omega, by injection h with h; exact h.symm⟩
    · cases h

theorem get_lt' {α : Type} {l : List α} {i : Nat} {x : α} (h : l[i]? = some x) : i < l.length := (List.getElem?_eq_some_iff.mp h).1

theorem Hist.openOn {t : TcpStack} {ps : Nat → List Sess.Ev} (h : Hist t ps) (r : Nat) (id : SockId) (a : Bool) (iss : Nat) :
    Hist (t.openOn r id a iss) ps := by
  refine ⟨?_, ?_, ?_⟩
  · intro r' i hi
    simp only [TcpStack.openOn, upd, List.length_append, List.length_cons, List.length_nil] at hi ⊢
    split at hi
    · injection hi with hi; omega
    · have := h.lt r' i hi; omega
  · intro i hi
    simp only [TcpStack.openOn, List.length_append, List.length_cons, List.length_nil] at hi ⊢
    obtain ⟨h1, h2⟩ := h.none i (by omega)
    rw [seenOf_append, h2, seenOf_did, if_neg (by omega)]
    exact ⟨h1, rfl⟩
  · intro i c hc
    rcases get_snoc hc with x | ⟨x, rfl⟩
    · obtain ⟨h1, h2⟩ := h.runs i c x
      have := get_lt' x
      simp only [TcpStack.openOn]
      rw [seenOf_append, h2, seenOf_did, if_neg (by omega)]
      exact ⟨h1, List.append_nil _⟩
    · obtain ⟨h1, h2⟩ := h.none i (by omega)
      simp only [TcpStack.openOn]
      rw [seenOf_append, h1, h2, seenOf_did, if_pos x.symm]
      exact ⟨RunOf.opened _ _ _ _ _ _, rfl⟩

/-- What a method call on session `i` is for session `j`. -/
def acts (t : TcpStack) (i : Nat) (ev : Sess.Ev) (j : Nat) : List Sess.Ev :=
  match t.conns[j]? with
  | none => []
  | some c => if i = j then [.table (t.has c.sock), ev] else []

theorem Hist.act {t : TcpStack} {ps : Nat → List Sess.Ev} (h : Hist t ps) (i : Nat) (ev : Sess.Ev) (iss : Nat) :
    Hist (t.act i ev iss) (fun j => ps j ++ acts t i ev j) := by
  cases hc : t.conns[i]? with
  | none =>
    have : t.act i ev iss = t := by unfold TcpStack.act; rw [hc]
    rw [this]
    have : (fun j => ps j ++ acts t i ev j) = ps := by
      funext j
      unfold acts
      split
      · exact List.append_nil _
      · rename_i c e
        rw [if_neg (by rintro rfl; rw [hc] at e; cases e)]; exact List.append_nil _
    rw [this]
    exact h
  | some c =>
    have hq := (h.runs i c hc).1.queue
    have hlt := get_lt' hc
    have hs := (h.runs i c hc).1.step (t.has c.sock) ev
    have hsee := (h.runs i c hc).2
    have ha := act_cases hc hq ev iss
    generalize Sess.step { c.s with registered := t.has c.sock } ev = s' at hs ha
    generalize t.act i ev iss = t' at ha
    have hacts : acts t i ev i = [.table (t.has c.sock), ev] := by unfold acts; rw [hc]; simp
    have hactsN : ∀ j, j ≠ i → acts t i ev j = [] := by
      intro j hj
      unfold acts
      split
      · rfl
      · rw [if_neg (Ne.symm hj)]
    have hnone : ∀ j, t.conns.length ≤ j → ps j ++ acts t i ev j = [] := by
      intro j hj
      rw [(h.none j hj).1, hactsN j (by omega)]; rfl
    have hset : ∀ (sock : Nat) j c', (t.conns.set i ⟨s', sock⟩)[j]? = some c' →
        RunOf c'.s (ps j ++ acts t i ev j) := by
      intro sock j c' hc'
      rcases get_set hc' with ⟨rfl, rfl⟩ | ⟨e, x⟩
      · rw [hacts]; exact hs
      · rw [hactsN j e, List.append_nil]; exact (h.runs j c' x).1
    have hsee' : ∀ (sock : Nat) (news : List Out) j c', s'.out = c.s.out ++ news → (t.conns.set i ⟨s', sock⟩)[j]? = some c' →
        seenOf (t.log ++ news.map (.did i)) j = c'.s.out := by
      intro sock news j c' hn hc'
      rw [seenOf_append, seenOf_did]
      rcases get_set hc' with ⟨rfl, rfl⟩ | ⟨e, x⟩
      · rw [if_pos rfl, hsee, hn]
      · rw [if_neg (Ne.symm e), List.append_nil]; exact (h.runs j c' x).2
    have hseeN : ∀ (news : List Out) j, t.conns.length ≤ j → seenOf (t.log ++ news.map (.did i)) j = [] := by
      intro news j hj
      rw [seenOf_append, seenOf_did, if_neg (by omega), List.append_nil]; exact (h.none j hj).2
    cases ha with
    | @calm _ _ news _ _ ho _ =>
      exact ⟨fun r j hj => by simpa using h.lt r j hj,
        fun j hj => ⟨hnone j (by simpa using hj), hseeN news j (by simpa using hj)⟩,
        fun j c' hj => ⟨hset _ j c' hj, hsee' _ news j c' ho hj⟩⟩
    | est _ _ ho _ =>
      exact ⟨fun r j hj => by simpa using h.lt r j hj,
        fun j hj => ⟨hnone j (by simpa using hj), hseeN [.moved .synRcvd .established, .queued] j (by simpa using hj)⟩,
        fun j c' hj => ⟨hset _ j c' hj, hsee' _ [.moved .synRcvd .established, .queued] j c' ho hj⟩⟩
    | @syn m _ _ _ _ ho _ =>
      have hlog : ∀ j, seenOf (t.log ++ (opened false iss c.s.lip c.s.lport c.s.rip c.s.rport).out.map (.did t.conns.length) ++
            [.did i .spawned, .did i (.moved .listen .synRcvd)]) j =
          if t.conns.length = j then (opened false iss c.s.lip c.s.lport c.s.rip c.s.rport).out
          else seenOf (t.log ++ [Out.spawned, .moved .listen .synRcvd].map (.did i)) j := by
        intro j
        rw [seenOf_append, seenOf_append, seenOf_append, seenOf_did]
        split
        · rename_i e
          subst e
          rw [(h.none _ (Nat.le_refl _)).2]
          have : i ≠ t.conns.length := by omega
          simp [seenOf, this]
        · simp
      refine ⟨?_, ?_, ?_⟩
      · intro r j hj
        simp only [upd, List.length_set, List.length_append, List.length_cons, List.length_nil] at hj ⊢
        split at hj
        · injection hj with hj; omega
        · split at hj
          · injection hj with hj; omega
          · have := h.lt r j hj; omega
      · intro j hj
        simp only [List.length_set, List.length_append, List.length_cons, List.length_nil] at hj
        refine ⟨hnone j (by omega), ?_⟩
        rw [hlog, if_neg (by omega)]
        exact hseeN _ j (by omega)
      · intro j c' hc'
        dsimp only at hc' ⊢
        rw [hlog]
        rw [List.set_append_left _ _ hlt] at hc'
        rcases get_snoc hc' with x | ⟨x, rfl⟩
        · have hj := get_lt' x
          rw [List.length_set] at hj
          rw [if_neg (by omega)]
          exact ⟨hset _ j c' x, hsee' _ _ j c' ho x⟩
        · rw [List.length_set] at x
          rw [hnone j (by omega), if_pos x.symm]
          exact ⟨⟨false, iss, c.s.lip, c.s.lport, c.s.rip, c.s.rport, rfl⟩, rfl⟩

theorem hist (evs : List TcpStack.Ev) : Hist (TcpStack.run evs) (historyOf evs) := by
  induction evs using List.reverseRecOn with
  | nil => exact ⟨by simp [TcpStack.run, TcpStack.empty], fun i _ => ⟨rfl, rfl⟩, by simp [TcpStack.run, TcpStack.empty]⟩
  | append_singleton evs e ih =>
    rw [run_snoc]
    have hfun : historyOf (evs ++ [e]) = fun i => historyOf evs i ++ portion (TcpStack.run evs) i e :=
      funext fun i => historyOf_snoc evs e i
    rw [hfun]
    have hsame : (∀ i, portion (TcpStack.run evs) i e = []) →
        (fun i => historyOf evs i ++ portion (TcpStack.run evs) i e) = historyOf evs :=
      fun h => funext fun i => by rw [h i, List.append_nil]
    have hss : ∀ ss, Hist { TcpStack.run evs with ss := ss } (historyOf evs) := fun ss => ⟨ih.lt, ih.none, ih.runs⟩
    cases e with
    | socket f => rw [hsame (fun i => by unfold portion; split <;> rfl)]; exact hss _
    | bind st r a p c => rw [hsame (fun i => by unfold portion; split <;> rfl)]; exact hss _
    | connect st r a p c iss =>
      rw [hsame (fun i => by unfold portion; split <;> rfl)]
      dsimp only [TcpStack.step]
      split
      · exact (hss _).openOn _ _ _ _
      · exact hss _
    | listen r iss =>
      rw [hsame (fun i => by unfold portion; split <;> rfl)]
      dsimp only [TcpStack.step]
      split
      · exact ih
      · exact (hss _).openOn _ _ _ _
    | accept r =>
      rw [hsame (fun i => by unfold portion; split <;> rfl)]
      dsimp only [TcpStack.step, TcpStack.accept]
      split
      · exact ih
      · split
        · exact ⟨ih.lt, ih.none, ih.runs⟩
        · have : ∀ c j, seenOf ((TcpStack.run evs).log ++ [TcpNote.accepted r c]) j = seenOf (TcpStack.run evs).log j := by
            intro c j; rw [seenOf_append]; exact List.append_nil _
          refine ⟨ih.lt, ?_, ?_⟩
          · intro i hi; dsimp only; rw [this]; exact ih.none i hi
          · intro i c hc; dsimp only; rw [this]; exact ih.runs i c hc
    | call i c =>
      exact ih.act i c.ev 0
    | clock =>
      refine ⟨fun r i hi => by simpa [TcpStack.step] using ih.lt r i hi, ?_, ?_⟩
      · intro i hi
        simp only [TcpStack.step, List.length_map] at hi
        refine ⟨?_, (ih.none i hi).2⟩
        rw [(ih.none i hi).1]
        unfold portion
        rw [List.getElem?_eq_none_iff.2 hi]; rfl
      intro i c hc
      simp only [TcpStack.step, List.getElem?_map, Option.map_eq_some_iff] at hc
      obtain ⟨c', h1, rfl⟩ := hc
      have : portion (TcpStack.run evs) i .clock = [.clock] := by unfold portion; rw [h1]
      dsimp only
      rw [this]
      exact ⟨(ih.runs i c' h1).1.clock, (ih.runs i c' h1).2⟩
    | timer i => exact ih.act i .timer 0
    | segment m iss =>
      dsimp only [TcpStack.step]
      split
      · rename_i hr
        rw [hsame (fun i => by unfold portion; split <;> simp [hr])]
        exact ih
      · rename_i i hr
        have := ih.act i (.segment m) iss
        have e : (fun j => historyOf evs j ++ portion (TcpStack.run evs) j (.segment m iss)) =
            fun j => historyOf evs j ++ acts (TcpStack.run evs) i (.segment m) j := by
          funext j
          congr 1
          unfold portion acts
          cases hj : (TcpStack.run evs).conns[j]? with
          | none => rfl
          | some c => simp only [hr, Option.some.injEq]
        rw [e]; exact this

/-! ### The accept queues -/

structure Inv (t : TcpStack) : Prop where
  wf : t.ss.Wf
  lt : ∀ (i : Nat) c, t.conns[i]? = some c → c.sock < t.ss.socks.length
  kid : ∀ (i : Nat) c, t.conns[i]? = some c → c.s.state = .synRcvd → .spawned ∈ c.s.out
  own : ∀ (i j : Nat) ci cj, t.conns[i]? = some ci → t.conns[j]? = some cj → .spawned ∈ ci.s.out → .spawned ∈ cj.s.out →
    ci.sock = cj.sock → i = j
  par : ∀ (i : Nat) c, t.conns[i]? = some c → .spawned ∈ c.s.out → ∃ p, t.parent c.sock = some p
  est : ∀ i, .did i (.moved .synRcvd .established) ∈ t.log →
    ∃ c, t.conns[i]? = some c ∧ c.s.state ≠ .listen ∧ c.s.state ≠ .synRcvd ∧ .spawned ∈ c.s.out
  perm : ∀ l, t.permits l = (t.queue l).length
  acc : ∀ l, accepts t.log l ++ t.queue l = inbound t l
  nodup : ∀ l, (inbound t l).Nodup

theorem filterMap_ext {α β : Type} {f g : α → Option β} : ∀ {l : List α}, (∀ x ∈ l, f x = g x) → l.filterMap f = l.filterMap g
  | [], _ => rfl
  | a :: l, h => by
    rw [List.filterMap_cons, List.filterMap_cons, h a (by simp), filterMap_ext (fun x hx => h x (by simp [hx]))]

theorem inbound_ext {t t' : TcpStack} {xs : List TcpNote} {l : Nat} (hl : t'.log = t.log ++ xs)
    (h : ∀ i, .did i (.moved .synRcvd .established) ∈ t.log →
      t'.sockOf i = t.sockOf i ∧ t'.parent (t.sockOf i) = t.parent (t.sockOf i)) :
    inbound t' l = inbound t l ++ xs.filterMap (inboundNote t' l) := by
  unfold inbound
  rw [hl, List.filterMap_append]
  congr 1
  refine filterMap_ext fun n hn => ?_
  cases n with
  | accepted => rfl
  | did i o =>
    by_cases ho : o = .moved .synRcvd .established
    · subst ho
      obtain ⟨h1, h2⟩ := h i hn
      simp only [inboundNote, h1, h2]
    · unfold inboundNote
      split
      · rename_i heq; cases heq; exact absurd rfl ho
      · rfl

/-- Notes that say nothing about accept queues. -/
def Quiet (xs : List TcpNote) : Prop := ∀ n ∈ xs, ∃ i o, n = .did i o ∧ o ≠ .moved .synRcvd .established

theorem Quiet.inbound {xs : List TcpNote} (h : Quiet xs) (t : TcpStack) (l : Nat) : xs.filterMap (inboundNote t l) = [] := by
  rw [List.filterMap_eq_nil_iff]
  intro n hn
  obtain ⟨i, o, rfl, ho⟩ := h n hn
  unfold inboundNote
  split
  · rename_i heq; cases heq; exact absurd rfl ho
  · rfl

theorem Quiet.accepts {xs : List TcpNote} (h : Quiet xs) (l : Nat) : accepts xs l = [] := by
  unfold Spec.accepts
  rw [List.filterMap_eq_nil_iff]
  intro n hn
  obtain ⟨i, o, rfl, ho⟩ := h n hn
  rfl

theorem Quiet.not_mem {xs : List TcpNote} (h : Quiet xs) (i : Nat) : TcpNote.did i (.moved .synRcvd .established) ∉ xs := by
  intro hn
  obtain ⟨j, o, h1, ho⟩ := h _ hn
  cases h1; exact ho rfl

theorem accepts_append (a b : List TcpNote) (l : Nat) : accepts (a ++ b) l = accepts a l ++ accepts b l := List.filterMap_append

/-- Nothing about sessions or queues changes, except that nothing is lost. -/
theorem Inv.ss {t : TcpStack} (h : Inv t) {ss : Socks} (hw : ss.Wf) (hl : t.ss.socks.length ≤ ss.socks.length) :
    Inv { t with ss := ss } :=
  ⟨hw, fun i c hc => Nat.lt_of_lt_of_le (h.lt i c hc) hl, h.kid, h.own, h.par, h.est, h.perm, h.acc, h.nodup⟩

theorem opened_out (active : Bool) (iss : Nat) (lip : IpAddress) (lport : Nat) (rip : IpAddress) (rport : Nat) :
    (opened active iss lip lport rip rport).out = [.moved .closed (if active then .synSent else .listen)] := by
  cases active <;> rfl

theorem opened_state (active : Bool) (iss : Nat) (lip : IpAddress) (lport : Nat) (rip : IpAddress) (rport : Nat) :
    (opened active iss lip lport rip rport).state = if active then .synSent else .listen := by
  cases active <;> rfl

theorem sockOf_eq {t : TcpStack} {i : Nat} {c : TcpConn} (h : t.conns[i]? = some c) : t.sockOf i = c.sock := by
  unfold sockOf; rw [h]

theorem quiet_opened (n : Nat) (active : Bool) (iss : Nat) (lip : IpAddress) (lport : Nat) (rip : IpAddress) (rport : Nat) :
    Quiet ((opened active iss lip lport rip rport).out.map (TcpNote.did n)) := by
  intro x hx
  rw [opened_out] at hx
  simp at hx
  exact ⟨_, _, hx, by simp⟩

theorem Inv.openOn {t : TcpStack} (h : Inv t) {r : Nat} (hr : r < t.ss.socks.length) (id : SockId) (a : Bool) (iss : Nat) :
    Inv (t.openOn r id a iss) := by
  have hq := quiet_opened t.conns.length a iss id.lip id.lport id.rip id.rport
  have hkeep : ∀ (i : Nat) c, t.conns[i]? = some c → (t.openOn r id a iss).conns[i]? = some c := by
    intro i c hc
    show (t.conns ++ [_])[i]? = some c
    rw [List.getElem?_append_left (get_lt' hc)]; exact hc
  have hin : ∀ l, inbound (t.openOn r id a iss) l = inbound t l := by
    intro l
    rw [inbound_ext (t := t) rfl, hq.inbound, List.append_nil]
    intro i hi
    obtain ⟨c, hc, -⟩ := h.est i hi
    rw [sockOf_eq hc, sockOf_eq (hkeep i c hc)]
    exact ⟨rfl, rfl⟩
  have hnew : TcpConn.mk (opened a iss id.lip id.lport id.rip id.rport) r = ⟨opened a iss id.lip id.lport id.rip id.rport, r⟩ := rfl
  have hns : Out.spawned ∉ (opened a iss id.lip id.lport id.rip id.rport).out := by rw [opened_out]; simp
  refine ⟨h.wf, ?_, ?_, ?_, ?_, ?_, h.perm, ?_, ?_⟩
  · intro i c hc
    rcases get_snoc hc with x | ⟨x, rfl⟩
    · exact h.lt i c x
    · exact hr
  · intro i c hc hs
    rcases get_snoc hc with x | ⟨x, rfl⟩
    · exact h.kid i c x hs
    · rw [opened_state] at hs; cases a <;> simp at hs
  · intro i j ci cj hi hj
    rcases get_snoc hi with x | ⟨x, rfl⟩
    · rcases get_snoc hj with y | ⟨y, rfl⟩
      · exact h.own i j ci cj x y
      · exact fun _ e => absurd e hns
    · exact fun e => absurd e hns
  · intro i c hc hs
    rcases get_snoc hc with x | ⟨x, rfl⟩
    · exact h.par i c x hs
    · exact absurd hs hns
  · intro i hi
    rcases List.mem_append.1 hi with x | x
    · obtain ⟨c, hc, hr⟩ := h.est i x
      exact ⟨c, hkeep i c hc, hr⟩
    · exact absurd x (hq.not_mem i)
  · intro l
    show accepts (t.log ++ _) l ++ t.queue l = _
    rw [hin, accepts_append, hq.accepts, List.append_nil]
    exact h.acc l
  · intro l; rw [hin]; exact h.nodup l

theorem Inv.act {t : TcpStack} (h : Inv t) (hq : ∀ (i : Nat) c, t.conns[i]? = some c → Queue (fun _ => True) c.s) (i : Nat)
    (ev : Sess.Ev) (iss : Nat) : Inv (t.act i ev iss) := by
  cases hc : t.conns[i]? with
  | none =>
    have : t.act i ev iss = t := by unfold TcpStack.act; rw [hc]
    rw [this]; exact h
  | some c =>
    have hlt := get_lt' hc
    have ha := act_cases hc (hq i c hc) ev iss
    generalize Sess.step { c.s with registered := t.has c.sock } ev = s' at ha
    generalize t.act i ev iss = t' at ha
    cases ha with
    | @calm _ ss' news hcalm hs ho hn =>
      have hquiet : Quiet (news.map (TcpNote.did i)) := by
        intro x hx
        obtain ⟨o, h1, rfl⟩ := List.mem_map.1 hx
        exact ⟨i, o, rfl, (hn o h1).2.2⟩
      have hspawn : Out.spawned ∈ s'.out ↔ .spawned ∈ c.s.out := by
        rw [ho, List.mem_append]
        exact ⟨fun x => x.elim id (fun y => absurd rfl (hn _ y).1), .inl⟩
      have hget : ∀ (j : Nat) c', (t.conns.set i ⟨s', c.sock⟩)[j]? = some c' → ∃ c₀, t.conns[j]? = some c₀ ∧ c'.sock = c₀.sock ∧
          (Out.spawned ∈ c'.s.out ↔ .spawned ∈ c₀.s.out) ∧ (c'.s.state = .synRcvd → c₀.s.state = .synRcvd) := by
        intro j c' hj
        rcases get_set hj with ⟨rfl, rfl⟩ | ⟨e, x⟩
        · refine ⟨c, hc, rfl, hspawn, fun e => ?_⟩
          rcases hcalm.state with x | x
          · rw [← x]; exact e
          · exact absurd e x.2.1
        · exact ⟨c', x, rfl, Iff.rfl, id⟩
      have hsock : ∀ j, sockOf { t with ss := ss', conns := t.conns.set i ⟨s', c.sock⟩, log := t.log ++ news.map (.did i) } j = t.sockOf j := by
        intro j
        simp only [sockOf]
        by_cases e : j = i
        · subst e; rw [List.getElem?_set_self hlt, hc]
        · rw [List.getElem?_set_ne (Ne.symm e)]
      have hin : ∀ l, inbound { t with ss := ss', conns := t.conns.set i ⟨s', c.sock⟩, log := t.log ++ news.map (.did i) } l = inbound t l := by
        intro l
        rw [inbound_ext (t := t) rfl, hquiet.inbound, List.append_nil]
        intro j _
        rw [hsock]; exact ⟨rfl, rfl⟩
      refine ⟨hs.wf h.wf, ?_, ?_, ?_, ?_, ?_, h.perm, ?_, ?_⟩
      · intro j c' hj
        obtain ⟨c₀, h1, h2, -⟩ := hget j c' hj
        show c'.sock < ss'.socks.length
        rw [hs.socks, h2]; exact h.lt j c₀ h1
      · intro j c' hj hst
        obtain ⟨c₀, h1, h2, h3, h4⟩ := hget j c' hj
        exact h3.2 (h.kid j c₀ h1 (h4 hst))
      · intro j k cj ck hj hk
        obtain ⟨c₀, h1, h2, h3, h4⟩ := hget j cj hj
        obtain ⟨c₁, g1, g2, g3, g4⟩ := hget k ck hk
        rw [h3, g3, h2, g2]
        exact h.own j k c₀ c₁ h1 g1
      · intro j c' hj
        obtain ⟨c₀, h1, h2, h3, h4⟩ := hget j c' hj
        rw [h3, h2]
        exact h.par j c₀ h1
      · intro j hj
        rcases List.mem_append.1 hj with x | x
        · obtain ⟨c₀, h1, h2, h3, h4⟩ := h.est j x
          by_cases e : j = i
          · subst e
            rw [hc] at h1; cases h1
            refine ⟨_, List.getElem?_set_self hlt, ?_, ?_, hspawn.2 h4⟩
            · rcases hcalm.state with y | y
              · dsimp only; rw [y]; exact h2
              · exact y.1
            · rcases hcalm.state with y | y
              · dsimp only; rw [y]; exact h3
              · exact y.2.1
          · exact ⟨c₀, by dsimp only; rw [List.getElem?_set_ne (Ne.symm e)]; exact h1, h2, h3, h4⟩
        · exact absurd x (hquiet.not_mem j)
      · intro l
        rw [hin]
        show accepts (t.log ++ _) l ++ t.queue l = _
        rw [accepts_append, hquiet.accepts, List.append_nil]
        exact h.acc l
      · intro l; rw [hin]; exact h.nodup l
    | @syn m hst hf hm hst' ho ha =>
      have hquiet : Quiet ((opened false iss c.s.lip c.s.lport c.s.rip c.s.rport).out.map (TcpNote.did t.conns.length) ++
            [.did i .spawned, .did i (.moved .listen .synRcvd)]) := by
        intro x hx
        rcases List.mem_append.1 hx with y | y
        · exact quiet_opened _ _ _ _ _ _ _ x y
        · simp at y
          rcases y with rfl | rfl
          · exact ⟨i, _, rfl, by simp⟩
          · exact ⟨i, _, rfl, by simp⟩
      have hns : Out.spawned ∉ (opened false iss c.s.lip c.s.lport c.s.rip c.s.rport).out := by rw [opened_out]; simp
      rw [List.append_assoc]
      have hget : ∀ (j : Nat) c', ((t.conns ++ [TcpConn.mk (opened false iss c.s.lip c.s.lport c.s.rip c.s.rport) c.sock]).set i
          (TcpConn.mk s' t.ss.socks.length))[j]? = some c' →
          (j = i ∧ c' = ⟨s', t.ss.socks.length⟩) ∨ (j ≠ i ∧ t.conns[j]? = some c') ∨
          (j = t.conns.length ∧ c' = ⟨opened false iss c.s.lip c.s.lport c.s.rip c.s.rport, c.sock⟩) := by
        intro j c' hj
        rcases get_set hj with ⟨rfl, rfl⟩ | ⟨e, x⟩
        · exact .inl ⟨rfl, rfl⟩
        · rcases get_snoc x with y | y
          · exact .inr (.inl ⟨e, y⟩)
          · exact .inr (.inr y)
      have hold : ∀ (j : Nat) c', j ≠ i → t.conns[j]? = some c' → ((t.conns ++ [TcpConn.mk (opened false iss c.s.lip c.s.lport c.s.rip c.s.rport) c.sock]).set i
          (TcpConn.mk s' t.ss.socks.length))[j]? = some c' := by
        intro j c' e hj
        rw [List.getElem?_set_ne (Ne.symm e), List.getElem?_append_left (get_lt' hj)]; exact hj
      have hestNe : ∀ j, .did j (.moved .synRcvd .established) ∈ t.log → j ≠ i := by
        intro j hj e
        subst e
        obtain ⟨c₀, h1, h2, -⟩ := h.est j hj
        rw [hc] at h1; cases h1
        exact h2 hst
      have hlen : (t.ss.accepted m.active).1.socks.length = t.ss.socks.length + 1 := by simp [Socks.accepted]
      have hin : ∀ (t' : TcpStack) l, t'.conns = (t.conns ++ [TcpConn.mk (opened false iss c.s.lip c.s.lport c.s.rip c.s.rport) c.sock]).set i
          (TcpConn.mk s' t.ss.socks.length) → t'.parent = upd t.parent t.ss.socks.length (some c.sock) →
          t'.log = t.log ++ ((opened false iss c.s.lip c.s.lport c.s.rip c.s.rport).out.map (TcpNote.did t.conns.length) ++
            [.did i .spawned, .did i (.moved .listen .synRcvd)]) → inbound t' l = inbound t l := by
        intro t' l e1 e2 e3
        rw [inbound_ext e3, hquiet.inbound, List.append_nil]
        intro j hj
        obtain ⟨c₀, h1, h2, -⟩ := h.est j hj
        have hs : t'.sockOf j = c₀.sock := sockOf_eq (by rw [e1]; exact hold j c₀ (hestNe j hj) h1)
        rw [hs, sockOf_eq h1, e2]
        refine ⟨rfl, ?_⟩
        have := h.lt j c₀ h1
        simp [upd, Nat.ne_of_lt this]
      have hmem : Out.spawned ∈ s'.out := by rw [ho]; simp
      have hin' := fun t' l e1 e2 e3 => hin t' l e1 e2 e3
      refine ⟨?_, ?_, ?_, ?_, ?_, ?_, h.perm, ?_, ?_⟩
      · exact Socks.create_wf h.wf _ _ (.inr rfl) (fun h => by cases h) (fun _ => rfl)
      · intro j c' hj
        dsimp only at hj ⊢
        rw [hlen]
        rcases hget j c' hj with ⟨rfl, rfl⟩ | ⟨e, x⟩ | ⟨rfl, rfl⟩
        · dsimp only; omega
        · have := h.lt j c' x; omega
        · have := h.lt i c hc; dsimp only; omega
      · intro j c' hj hs
        rcases hget j c' hj with ⟨rfl, rfl⟩ | ⟨e, x⟩ | ⟨rfl, rfl⟩
        · exact hmem
        · exact h.kid j c' x hs
        · rw [opened_state] at hs; simp at hs
      · intro j k cj ck hj hk
        rcases hget j cj hj with ⟨rfl, rfl⟩ | ⟨e, x⟩ | ⟨rfl, rfl⟩
        · rcases hget k ck hk with ⟨rfl, rfl⟩ | ⟨e', y⟩ | ⟨rfl, rfl⟩
          · exact fun _ _ _ => rfl
          · intro _ _ e2
            have := h.lt k ck y
            dsimp only at e2; omega
          · exact fun _ e => absurd e hns
        · rcases hget k ck hk with ⟨rfl, rfl⟩ | ⟨e', y⟩ | ⟨rfl, rfl⟩
          · intro _ _ e2
            have := h.lt j cj x
            dsimp only at e2; omega
          · exact h.own j k cj ck x y
          · exact fun _ e => absurd e hns
        · exact fun e => absurd e hns
      · intro j c' hj hs
        rcases hget j c' hj with ⟨rfl, rfl⟩ | ⟨e, x⟩ | ⟨rfl, rfl⟩
        · exact ⟨c.sock, by simp [upd]⟩
        · obtain ⟨p, hp⟩ := h.par j c' x hs
          have := h.lt j c' x
          exact ⟨p, by simp [upd, Nat.ne_of_lt this, hp]⟩
        · exact absurd hs hns
      · intro j hj
        rcases List.mem_append.1 hj with x | x
        · obtain ⟨c₀, h1, h2⟩ := h.est j x
          exact ⟨c₀, hold j c₀ (hestNe j x) h1, h2⟩
        · exact absurd x (hquiet.not_mem j)
      · intro l
        rw [hin _ l rfl rfl rfl]
        show accepts (t.log ++ _) l ++ t.queue l = _
        rw [accepts_append, hquiet.accepts, List.append_nil]
        exact h.acc l
      · intro l
        rw [hin _ l rfl rfl rfl]
        exact h.nodup l
    | est hst hst' ho ha =>
      have hsp : Out.spawned ∈ c.s.out := h.kid i c hc hst
      obtain ⟨p, hp⟩ := h.par i c hc hsp
      have hmem : Out.spawned ∈ s'.out := by rw [ho]; simp [hsp]
      simp only [hp]
      have hget : ∀ (j : Nat) c', (t.conns.set i ⟨s', c.sock⟩)[j]? = some c' → ∃ c₀, t.conns[j]? = some c₀ ∧ c'.sock = c₀.sock ∧
          (Out.spawned ∈ c'.s.out ↔ .spawned ∈ c₀.s.out) ∧ (c'.s.state = .synRcvd → c₀.s.state = .synRcvd) := by
        intro j c' hj
        rcases get_set hj with ⟨rfl, rfl⟩ | ⟨e, x⟩
        · exact ⟨c, hc, rfl, ⟨fun _ => hsp, fun _ => hmem⟩, fun _ => hst⟩
        · exact ⟨c', x, rfl, Iff.rfl, id⟩
      have hnot : .did i (.moved .synRcvd .established) ∉ t.log := by
        intro hj
        obtain ⟨c₀, h1, -, h2, -⟩ := h.est i hj
        rw [hc] at h1; cases h1
        exact h2 hst
      have hsock : ∀ (t' : TcpStack) j, t'.conns = t.conns.set i ⟨s', c.sock⟩ → t'.sockOf j = t.sockOf j := by
        intro t' j e
        simp only [sockOf, e]
        by_cases e : j = i
        · subst e; rw [List.getElem?_set_self hlt, hc]
        · rw [List.getElem?_set_ne (Ne.symm e)]
      have hin : ∀ (t' : TcpStack) l, t'.conns = t.conns.set i ⟨s', c.sock⟩ → t'.parent = t.parent →
          t'.log = t.log ++ [.did i (.moved .synRcvd .established), .did i .queued] →
          inbound t' l = inbound t l ++ if p = l then [c.sock] else [] := by
        intro t' l e1 e2 e3
        rw [inbound_ext e3]
        · congr 1
          have : t'.sockOf i = c.sock := by rw [hsock t' i e1, sockOf_eq hc]
          simp only [List.filterMap_cons, List.filterMap_nil, inboundNote, this, e2, hp, Option.some.injEq]
          by_cases e : p = l
          · simp [e]
          · simp [e]
        · intro j _
          rw [hsock t' j e1, e2]; exact ⟨rfl, rfl⟩
      have hacc : ∀ l, accepts (t.log ++ [.did i (.moved .synRcvd .established), .did i .queued]) l = accepts t.log l := by
        intro l; rw [accepts_append]; exact List.append_nil _
      refine ⟨h.wf, ?_, ?_, ?_, ?_, ?_, ?_, ?_, ?_⟩
      · intro j c' hj
        obtain ⟨c₀, h1, h2, -⟩ := hget j c' hj
        rw [h2]; exact h.lt j c₀ h1
      · intro j c' hj hst
        obtain ⟨c₀, h1, h2, h3, h4⟩ := hget j c' hj
        exact h3.2 (h.kid j c₀ h1 (h4 hst))
      · intro j k cj ck hj hk
        obtain ⟨c₀, h1, h2, h3, h4⟩ := hget j cj hj
        obtain ⟨c₁, g1, g2, g3, g4⟩ := hget k ck hk
        rw [h3, g3, h2, g2]
        exact h.own j k c₀ c₁ h1 g1
      · intro j c' hj
        obtain ⟨c₀, h1, h2, h3, h4⟩ := hget j c' hj
        rw [h3, h2]
        exact h.par j c₀ h1
      · intro j hj
        rcases List.mem_append.1 hj with x | x
        · obtain ⟨c₀, h1, h2⟩ := h.est j x
          have e : j ≠ i := fun e => hnot (e ▸ x)
          exact ⟨c₀, by dsimp only; rw [List.getElem?_set_ne (Ne.symm e)]; exact h1, h2⟩
        · simp at x
          subst x
          exact ⟨_, List.getElem?_set_self hlt, by simp [hst'], by simp [hst'], hmem⟩
      · intro l
        simp only [upd]
        split
        · rename_i e; subst e; simp [h.perm]
        · exact h.perm l
      · intro l
        rw [hin { t with conns := t.conns.set i ⟨s', c.sock⟩, queue := upd t.queue p (t.queue p ++ [c.sock]), permits := upd t.permits p (t.permits p + 1), log := t.log ++ [.did i (.moved .synRcvd .established), .did i .queued] } l rfl rfl rfl, ← h.acc l]
        dsimp only
        rw [hacc]
        simp only [upd]
        by_cases e : l = p
        · subst e; simp
        · simp [e, Ne.symm e]
      · intro l
        rw [hin { t with conns := t.conns.set i ⟨s', c.sock⟩, queue := upd t.queue p (t.queue p ++ [c.sock]), permits := upd t.permits p (t.permits p + 1), log := t.log ++ [.did i (.moved .synRcvd .established), .did i .queued] } l rfl rfl rfl]
        by_cases e : p = l
        · simp only [if_pos e]
          refine List.nodup_append.2 ⟨h.nodup l, by simp, ?_⟩
          intro a ha b hb hab
          simp at hb
          subst hb; subst hab
          unfold inbound at ha
          obtain ⟨n, hn, hb⟩ := List.mem_filterMap.1 ha
          unfold inboundNote at hb
          split at hb
          · rename_i j
            split at hb
            · injection hb with hb
              obtain ⟨c₀, h1, -, h3, h4⟩ := h.est j hn
              rw [sockOf_eq h1] at hb
              have := h.own j i c₀ c h1 hc h4 hsp hb
              subst this
              exact hnot hn
            · cases hb
          · cases hb
        · simp only [if_neg e, List.append_nil]; exact h.nodup l

/-- The table of sockets as the calls that are not about sessions change it. -/
theorem bind_ok {ss : Socks} (w : ss.Wf) (st : Stack) (r : Nat) (a : Option IpAddress) (p : Int) (c : Nat) :
    (ss.bind st r a p c).1.Wf ∧ (ss.bind st r a p c).1.socks.length = ss.socks.length := by
  refine ⟨w.step ⟨st, ⟨fun _ _ => none, fun _ _ => none⟩⟩ (.bind r a p c), ?_⟩
  rcases Socks.bind_cases st w r a p c with ⟨x, h⟩ | ⟨s, a, p, hs, h0, -, hf, h1, h2, -, -, h⟩ <;> rw [h]
  simp [Socks.register]

theorem connect_ok {ss : Socks} (w : ss.Wf) (st : Stack) (r : Nat) (a : Option IpAddress) (p : Int) (c : Nat) :
    (ss.connect st r a p c).1.Wf ∧ (ss.connect st r a p c).1.socks.length = ss.socks.length := by
  refine ⟨w.step ⟨st, ⟨fun _ _ => none, fun _ _ => none⟩⟩ (.connect r a p c), ?_⟩
  rcases Socks.connect_cases st ss r a p c with ⟨x, h⟩ | ⟨s, u, x, hs, h⟩ | ⟨s, u, l, lp, a, hs, hf, hl, h1, h2, -, h⟩ <;> rw [h]
  · simp [Socks.put]
  · simp [Socks.register]

theorem listen_ok {ss : Socks} (w : ss.Wf) (r : Nat) : (ss.listen r).1.Wf ∧ (ss.listen r).1.socks.length = ss.socks.length := by
  refine ⟨w.step ⟨⟨.zero, [], [], [], [], 0, 0, 0⟩, ⟨fun _ _ => none, fun _ _ => none⟩⟩ (.listen r), ?_⟩
  unfold Socks.listen; split <;> rfl

theorem idOf_lt {t : TcpStack} {r : Nat} {id : SockId} (h : t.idOf r = some id) : r < t.ss.socks.length := by
  unfold idOf at h
  rcases Nat.lt_or_ge r t.ss.socks.length with x | x
  · exact x
  · rw [List.getElem?_eq_none_iff.2 x] at h; cases h

theorem Inv.accept {t : TcpStack} (h : Inv t) (r : Nat) : Inv (t.accept r) := by
  unfold TcpStack.accept
  split
  · exact h
  · rename_i hp
    have hq := h.perm r
    dsimp only
    split
    · rename_i e; rw [e] at hq; exact absurd hq hp
    · rename_i c q e
      have hin : ∀ l, inbound { t with permits := upd t.permits r (t.permits r - 1), queue := upd t.queue r q, log := t.log ++ [TcpNote.accepted r c] } l = inbound t l := by
        intro l
        exact (inbound_ext (t := t) (t' := { t with permits := upd t.permits r (t.permits r - 1), queue := upd t.queue r q, log := t.log ++ [TcpNote.accepted r c] }) (xs := [TcpNote.accepted r c]) rfl (fun _ _ => ⟨rfl, rfl⟩)).trans (List.append_nil _)
      refine ⟨h.wf, h.lt, h.kid, h.own, h.par, ?_, ?_, ?_, ?_⟩
      · intro i hi
        rcases List.mem_append.1 hi with x | x
        · exact h.est i x
        · simp at x
      · intro l
        simp only [upd]
        split
        · rename_i el; rw [hq, e]; simp
        · exact h.perm l
      · intro l
        rw [hin, ← h.acc l]
        dsimp only
        rw [accepts_append]
        by_cases el : l = r
        · subst el; simp [upd, e, accepts]
        · simp [upd, accepts, el, Ne.symm el]
      · intro l; rw [hin]; exact h.nodup l

theorem Inv.clock {t : TcpStack} (h : Inv t) :
    Inv { t with conns := t.conns.map (fun c => { c with s := c.s.clock }) } := by
  have hget : ∀ (i : Nat) c', (t.conns.map (fun c => { c with s := c.s.clock }))[i]? = some c' →
      ∃ c, t.conns[i]? = some c ∧ c' = { c with s := c.s.clock } := by
    intro i c' hc
    rw [List.getElem?_map] at hc
    cases e : t.conns[i]? with
    | none => rw [e] at hc; cases hc
    | some c => rw [e] at hc; cases hc; exact ⟨c, rfl, rfl⟩
  have hto : ∀ (i : Nat) c, t.conns[i]? = some c →
      (t.conns.map (fun c => { c with s := c.s.clock }))[i]? = some { c with s := c.s.clock } := by
    intro i c hc; rw [List.getElem?_map, hc]; rfl
  have hin : ∀ l, inbound { t with conns := t.conns.map (fun c => { c with s := c.s.clock }) } l = inbound t l := by
    intro l
    refine (inbound_ext (t := t) (t' := { t with conns := t.conns.map (fun c => { c with s := c.s.clock }) }) (xs := []) (List.append_nil _).symm ?_).trans (List.append_nil _)
    · intro i hi
      obtain ⟨c, hc, -⟩ := h.est i hi
      rw [sockOf_eq hc, sockOf_eq (t := { t with conns := t.conns.map (fun c => { c with s := c.s.clock }) }) (hto i c hc)]
      exact ⟨rfl, rfl⟩
  refine ⟨h.wf, ?_, ?_, ?_, ?_, ?_, h.perm, ?_, ?_⟩
  · intro i c' hc; obtain ⟨c, h1, rfl⟩ := hget i c' hc; exact h.lt i c h1
  · intro i c' hc; obtain ⟨c, h1, rfl⟩ := hget i c' hc; exact h.kid i c h1
  · intro i j c' d' hc hd
    obtain ⟨c, h1, rfl⟩ := hget i c' hc
    obtain ⟨d, h2, rfl⟩ := hget j d' hd
    exact h.own i j c d h1 h2
  · intro i c' hc; obtain ⟨c, h1, rfl⟩ := hget i c' hc; exact h.par i c h1
  · intro i hi
    obtain ⟨c, hc, hr⟩ := h.est i hi
    exact ⟨_, hto i c hc, hr⟩
  · intro l; rw [hin]; exact h.acc l
  · intro l; rw [hin]; exact h.nodup l

theorem Inv.step {t : TcpStack} (h : Inv t) (hq : ∀ (i : Nat) c, t.conns[i]? = some c → Queue (fun _ => True) c.s) (e : Ev) :
    Inv (t.step e) := by
  cases e with
  | socket f =>
    exact h.ss (Socks.create_wf h.wf _ _ (.inl rfl) (fun _ => ⟨rfl, rfl, rfl, rfl⟩) (fun h => by cases h)) (by simp [Socks.create])
  | bind st r a p c => exact h.ss (bind_ok h.wf st r a p c).1 (Nat.le_of_eq (bind_ok h.wf st r a p c).2.symm)
  | connect st r a p c iss =>
    have h' := h.ss (connect_ok h.wf st r a p c).1 (Nat.le_of_eq (connect_ok h.wf st r a p c).2.symm)
    simp only [TcpStack.step]
    split
    · rename_i e; exact h'.openOn (idOf_lt e) _ _ _
    · exact h'
  | listen r iss =>
    simp only [TcpStack.step]
    split
    · exact h
    · rename_i id e
      have h' := h.ss (listen_ok h.wf r).1 (Nat.le_of_eq (listen_ok h.wf r).2.symm)
      refine h'.openOn ?_ _ _ _
      show r < (t.ss.listen r).1.socks.length
      rw [(listen_ok h.wf r).2]; exact idOf_lt e
  | accept r => exact h.accept r
  | call i c => exact h.act hq i _ _
  | segment m iss =>
    simp only [TcpStack.step]
    split
    · exact h
    · exact h.act hq _ _ _
  | clock => exact h.clock
  | timer i => exact h.act hq i _ _

theorem inv_empty : Inv empty := by
  refine ⟨⟨by simp [empty, Dict.keys], ?_, ?_, ?_⟩, ?_, ?_, ?_, ?_, ?_, ?_, ?_, ?_⟩ <;> simp [empty, Dict.get?, inbound, accepts]

theorem inv (evs : List Ev) : Inv (TcpStack.run evs) := by
  induction evs using List.reverseRecOn with
  | nil => exact inv_empty
  | append_singleton evs e ih =>
    rw [run_snoc]
    refine ih.step ?_ e
    intro i c hc
    exact ((hist evs).runs i c hc).1.queue

/-! ### Sockets and their sessions have the same addresses -/

/-- Session `s` is the one of the socket with this id. -/
def Mates (s : Sess) (id : SockId) : Prop :=
  id.lip = s.lip ∧ id.lport = s.lport ∧ id.rip = s.rip ∧ id.rport = s.rport ∧ 1 ≤ id.lport ∧ id.lport < 65536

def Own (t : TcpStack) : Prop := ∀ r i, t.session r = some i → ∃ c, t.conns[i]? = some c ∧ c.sock = r ∧
  (c.s.state = .listen ∨ c.s.state = .closed ∨ ∃ id, t.idOf r = some id ∧ Mates c.s id)

/-- The ids of sockets with a port stay. -/
def Keeps (t t' : TcpStack) : Prop := ∀ r id, t.idOf r = some id → 1 ≤ id.lport → id.lport < 65536 → t'.idOf r = some id

theorem Own.ss {t : TcpStack} (h : Own t) {ss : Socks} (hk : Keeps t { t with ss := ss }) : Own { t with ss := ss } := by
  intro r i hi
  obtain ⟨c, h1, h2, h3⟩ := h r i hi
  refine ⟨c, h1, h2, ?_⟩
  rcases h3 with x | x | ⟨id, x, y⟩
  · exact .inl x
  · exact .inr (.inl x)
  · exact .inr (.inr ⟨id, hk r id x y.2.2.2.2.1 y.2.2.2.2.2, y⟩)

theorem Own.act {t : TcpStack} (h : Own t) (hv : Inv t) (hlt : ∀ r i, t.session r = some i → i < t.conns.length)
    (hq : ∀ (i : Nat) c, t.conns[i]? = some c → Queue (fun _ => True) c.s) (i : Nat)
    (ev : Sess.Ev) (iss : Nat) (hp : ∀ m, ev = .segment m → 1 ≤ m.lport ∧ m.lport < 65536) : Own (t.act i ev iss) := by
  cases hc : t.conns[i]? with
  | none =>
    have : t.act i ev iss = t := by unfold TcpStack.act; rw [hc]
    rw [this]; exact h
  | some c =>
    have hli := get_lt' hc
    have ha := act_cases hc (hq i c hc) ev iss
    generalize Sess.step { c.s with registered := t.has c.sock } ev = s' at ha
    generalize t.act i ev iss = t' at ha
    cases ha with
    | @calm _ ss' news hcalm hs ho hn =>
      intro r j hj
      obtain ⟨c', h1, h2, h3⟩ := h r j hj
      have hid : ∀ id, t.idOf r = some id → (ss'.socks[r]?).map (·.id) = some id := by
        intro id hid; rw [hs.socks]; exact hid
      by_cases e : j = i
      · subst e
        rw [hc] at h1; cases h1
        refine ⟨_, List.getElem?_set_self hli, h2, ?_⟩
        rcases h3 with x | x | ⟨id, x, y⟩
        · rcases hcalm.state with z | z
          · exact .inl (z.trans x)
          · exact .inr (.inl (z.2.2.2 x))
        · rcases hcalm.state with z | z
          · exact .inr (.inl (z.trans x))
          · exact absurd x z.2.2.1
        · refine .inr (.inr ⟨id, hid id x, ?_⟩)
          unfold Mates at y ⊢
          rw [hcalm.lip, hcalm.lport, hcalm.rip, hcalm.rport]; exact y
      · refine ⟨c', by dsimp only; rw [List.getElem?_set_ne (Ne.symm e)]; exact h1, h2, ?_⟩
        rcases h3 with x | x | ⟨id, x, y⟩
        · exact .inl x
        · exact .inr (.inl x)
        · exact .inr (.inr ⟨id, hid id x, y⟩)
    | @est _ hst hst' ho ha =>
      intro r j hj
      obtain ⟨c', h1, h2, h3⟩ := h r j hj
      by_cases e : j = i
      · subst e
        rw [hc] at h1; cases h1
        refine ⟨_, List.getElem?_set_self hli, h2, ?_⟩
        rcases h3 with x | x | ⟨id, x, y⟩
        · rw [hst] at x; cases x
        · rw [hst] at x; cases x
        · refine .inr (.inr ⟨id, x, ?_⟩)
          unfold Mates at y ⊢
          rw [ha.1, ha.2.1, ha.2.2.1, ha.2.2.2]; exact y
      · exact ⟨c', by dsimp only; rw [List.getElem?_set_ne (Ne.symm e)]; exact h1, h2, h3⟩
    | @syn m hst hf hm hst' ho ha =>
      intro r j hj
      have hcs := hv.lt i c hc
      simp only [upd] at hj
      have hid : ∀ r id, t.idOf r = some id → (((t.ss.accepted m.active).1.socks)[r]?).map (·.id) = some id := by
        intro r id hid
        have hl := idOf_lt hid
        unfold idOf at hid
        simp only [Socks.accepted]
        rw [List.getElem?_append_left hl]; exact hid
      split at hj
      · rename_i er
        injection hj with hj
        subst hj er
        refine ⟨⟨s', t.ss.socks.length⟩, ?_, rfl, ?_⟩
        · dsimp only; rw [List.getElem?_set_self (by simp; omega)]
        · refine .inr (.inr ⟨m.active, ?_, ?_⟩)
          · simp [idOf, Socks.accepted]
          · obtain ⟨p1, p2⟩ := hp m rfl
            unfold Mates
            rw [ha.1, ha.2.1, ha.2.2.1, ha.2.2.2]
            exact ⟨rfl, rfl, rfl, rfl, p1, p2⟩
      · split at hj
        · rename_i er
          injection hj with hj
          subst hj er
          refine ⟨⟨opened false iss c.s.lip c.s.lport c.s.rip c.s.rport, c.sock⟩, ?_, rfl, .inl rfl⟩
          dsimp only
          rw [List.getElem?_set_ne (by omega)]
          simp
        · rename_i e1 e2
          obtain ⟨c', h1, h2, h3⟩ := h r j hj
          have hji : j ≠ i := by
            rintro rfl
            rw [hc] at h1; cases h1; exact e2 h2.symm
          refine ⟨c', ?_, h2, ?_⟩
          · dsimp only
            rw [List.getElem?_set_ne (Ne.symm hji), List.getElem?_append_left (get_lt' h1)]; exact h1
          · rcases h3 with x | x | ⟨id, x, y⟩
            · exact .inl x
            · exact .inr (.inl x)
            · exact .inr (.inr ⟨id, hid r id x, y⟩)

theorem Own.openOn {t t' : TcpStack} (h : Own t) (r : Nat) (id : SockId) (a : Bool) (iss : Nat) (hc : t'.conns = t.conns)
    (hs : t'.session = t.session) (hk : ∀ r', r' ≠ r → t'.idOf r' = t.idOf r') (hid : t'.idOf r = some id)
    (ha : a = true → 1 ≤ id.lport ∧ id.lport < 65536) : Own (t'.openOn r id a iss) := by
  intro r' i hi
  simp only [TcpStack.openOn, upd] at hi
  split at hi
  · rename_i e
    subst e
    injection hi with hi
    subst hi
    refine ⟨⟨opened a iss id.lip id.lport id.rip id.rport, r'⟩, by simp [TcpStack.openOn], rfl, ?_⟩
    cases a with
    | false => exact .inl rfl
    | true => exact .inr (.inr ⟨id, hid, rfl, rfl, rfl, rfl, ha rfl⟩)
  · rename_i e
    rw [hs] at hi
    obtain ⟨c, h1, h2, h3⟩ := h r' i hi
    refine ⟨c, ?_, h2, ?_⟩
    · simp only [TcpStack.openOn]
      rw [hc, List.getElem?_append_left (get_lt' h1)]; exact h1
    · have := hk r' e
      rw [← this] at h3
      exact h3

theorem Own.step {t : TcpStack} (h : Own t) (hv : Inv t) (hlt : ∀ r i, t.session r = some i → i < t.conns.length)
    (hq : ∀ (i : Nat) c, t.conns[i]? = some c → Queue (fun _ => True) c.s) (e : Ev)
    (hp : ∀ m iss, e = .segment m iss → 1 ≤ m.lport ∧ m.lport < 65536) : Own (t.step e) := by
  cases e with
  | socket f =>
    refine h.ss ?_
    intro r id hid _ _
    have hl := idOf_lt hid
    unfold idOf at hid ⊢
    simp only [Socks.create]
    rw [List.getElem?_append_left hl]; exact hid
  | bind st r a p c =>
    refine h.ss ?_
    intro r' id hid h1 h2
    unfold idOf at hid ⊢
    rcases Socks.bind_cases st hv.wf r a p c with ⟨x, hb⟩ | ⟨s, a, p, hs, h0, -, hf, -, -, -, -, hb⟩
    · rw [hb]; exact hid
    · rw [hb]
      by_cases er : r' = r
      · subst er
        rw [hs] at hid
        simp at hid
        subst hid
        exact absurd ⟨h1, h2⟩ h0
      · simp only [Socks.register]
        rw [List.getElem?_set_ne (Ne.symm er)]; exact hid
  | connect st r a p c iss =>
    simp only [TcpStack.step]
    rcases Socks.connect_cases st t.ss r a p c with ⟨x, hb⟩ | ⟨s, u, x, hs, hb⟩ | ⟨s, u, l, lp, a, hs, hf, hl, h1, h2, -, hb⟩
    · rw [hb]; exact h
    · rw [hb]
      refine h.ss ?_
      intro r' id hid h1 h2
      unfold idOf at hid ⊢
      by_cases er : r' = r
      · subst er
        rw [hs] at hid
        simp only [Socks.put, List.getElem?_set_self (get_lt' hs)]
        exact hid
      · simp only [Socks.put]
        rw [List.getElem?_set_ne (Ne.symm er)]; exact hid
    · rw [hb]
      have hi : idOf { t with ss := t.ss.register r { s with unreachable := u } { s.id with lip := l, lport := lp, rip := a, rport := p.toNat } } r =
          some { s.id with lip := l, lport := lp, rip := a, rport := p.toNat } := by
        simp [idOf, Socks.register, List.getElem?_set_self (get_lt' hs)]
      dsimp only
      rw [hi]
      refine h.openOn r _ true iss rfl rfl ?_ hi (fun _ => ⟨by dsimp only; omega, h1⟩)
      intro r' er
      simp only [idOf, Socks.register]
      rw [List.getElem?_set_ne (Ne.symm er)]
  | listen r iss =>
    simp only [TcpStack.step]
    split
    · exact h
    · rename_i id hid
      have hsocks : (t.ss.listen r).1.socks = t.ss.socks := by unfold Socks.listen; split <;> rfl
      refine h.openOn r id false iss rfl rfl ?_ ?_ (fun x => by cases x)
      · intro r' _
        simp only [idOf, hsocks]
      · simp only [idOf, hsocks]; exact hid
  | accept r =>
    simp only [TcpStack.step, TcpStack.accept]
    split
    · exact h
    · split <;> exact h
  | call i c => exact h.act hv hlt hq i _ _ (fun m e => by cases c <;> cases e)
  | segment m iss =>
    simp only [TcpStack.step]
    split
    · exact h
    · exact h.act hv hlt hq _ _ _ (fun m' e => by cases e; exact hp m iss rfl)
  | clock =>
    intro r i hi
    obtain ⟨c, h1, h2, h3⟩ := h r i hi
    refine ⟨{ c with s := c.s.clock }, ?_, h2, ?_⟩
    · simp only [TcpStack.step]
      rw [List.getElem?_map, h1]; rfl
    · exact h3
  | timer i => exact h.act hv hlt hq i _ _ (fun m e => by cases e)

theorem own (evs : List Ev) (hp : ∀ m iss, Ev.segment m iss ∈ evs → 1 ≤ m.lport ∧ m.lport < 65536) : Own (TcpStack.run evs) := by
  induction evs using List.reverseRecOn with
  | nil => intro r i hi; cases hi
  | append_singleton evs e ih =>
    rw [run_snoc]
    refine Own.step (ih (fun m iss hm => hp m iss (by simp [hm]))) (inv evs) (hist evs).lt
      (fun i c hc => ((hist evs).runs i c hc).1.queue) e (fun m iss he => hp m iss (by simp [he]))

end Verif.TcpStack
