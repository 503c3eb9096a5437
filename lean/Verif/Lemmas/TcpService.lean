import Verif.Lemmas.Hosts
import Verif.Lemmas.TcpEcho
import Verif.Spec.TcpService
/-! The TCP echo service with its connections: whose socket is whose, and each connection alone. -/
namespace Verif.TcpService
open Sess Spec TcpStack TcpEcho

/-! ### Sockets, sessions and parents, one event at a time -/

inductive Shape (t : TcpStack) (e : TcpStack.Ev) (t' : TcpStack) : Prop
  | same (hs : t'.session = t.session) (hp : t'.parent = t.parent) (hl : t.ss.socks.length ≤ t'.ss.socks.length)
      (h : ∀ (i : Nat) (c' : TcpConn), t'.conns[i]? = some c' → ∃ c : TcpConn, t.conns[i]? = some c ∧ c'.sock = c.sock ∧ (c'.s.state = .listen → c.s.state = .listen))
  | opened (r : Nat) (s : Sess) (he : (∃ st a p c iss, e = .connect st r a p c iss) ∨ ∃ iss, e = .listen r iss) (hr : r < t.ss.socks.length)
      (hs : t'.session = upd t.session r (some t.conns.length)) (hp : t'.parent = t.parent) (hl : t.ss.socks.length ≤ t'.ss.socks.length)
      (hc : t'.conns = t.conns ++ [⟨s, r⟩])
  | syn (i : Nat) (c : TcpConn) (s s' : Sess) (hi : t.conns[i]? = some c) (hst : c.s.state = .listen) (hst' : s'.state ≠ .listen)
      (hs : t'.session = upd (upd t.session c.sock (some t.conns.length)) t.ss.socks.length (some i))
      (hp : t'.parent = upd t.parent t.ss.socks.length (some c.sock))
      (hl : t'.ss.socks.length = t.ss.socks.length + 1)
      (hc : t'.conns = (t.conns ++ [TcpConn.mk s c.sock]).set i ⟨s', t.ss.socks.length⟩)

theorem shape_same (t : TcpStack) (e : TcpStack.Ev) (t' : TcpStack) (hs : t'.session = t.session) (hp : t'.parent = t.parent)
    (hl : t.ss.socks.length ≤ t'.ss.socks.length) (hc : t'.conns = t.conns) : Shape t e t' :=
  .same hs hp hl (fun i c' h => ⟨c', by rw [← hc]; exact h, rfl, id⟩)

theorem shape_act {t : TcpStack} {e : TcpStack.Ev} (hq : ∀ (i : Nat) c, t.conns[i]? = some c → Queue (fun _ => True) c.s) (i : Nat)
    (ev : Sess.Ev) (iss : Nat) : Shape t e (t.act i ev iss) := by
  cases hc : t.conns[i]? with
  | none =>
    have : t.act i ev iss = t := by unfold TcpStack.act; rw [hc]
    rw [this]; exact shape_same _ _ _ rfl rfl (Nat.le_refl _) rfl
  | some c =>
    have ha := act_cases hc (hq i c hc) ev iss
    generalize Sess.step { c.s with registered := t.has c.sock } ev = s' at ha
    generalize t.act i ev iss = t' at ha
    cases ha with
    | calm h hs _ _ =>
      refine .same rfl rfl (by dsimp only; rw [hs.socks]) (fun j c' hj => ?_)
      rcases get_set hj with ⟨rfl, rfl⟩ | ⟨_, x⟩
      · refine ⟨c, hc, rfl, fun x => ?_⟩
        rcases h.state with y | y
        · rw [← y]; exact x
        · exact absurd x y.1
      · exact ⟨c', x, rfl, id⟩
    | est h h' _ _ =>
      refine .same rfl rfl (Nat.le_refl _) (fun j c' hj => ?_)
      rcases get_set hj with ⟨rfl, rfl⟩ | ⟨_, x⟩
      · exact ⟨c, hc, rfl, fun x => by dsimp only at x; rw [h'] at x; cases x⟩
      · exact ⟨c', x, rfl, id⟩
    | @syn m h _ _ hst _ _ => exact .syn i c _ s' hc h (by rw [hst]; simp) rfl rfl (by simp [Socks.accepted]) rfl

theorem shape (evs : List TcpStack.Ev) (e : TcpStack.Ev) : Shape (TcpStack.run evs) e ((TcpStack.run evs).step e) := by
  have hq : ∀ (i : Nat) c, (TcpStack.run evs).conns[i]? = some c → Queue (fun _ => True) c.s := fun i c hc => ((hist evs).runs i c hc).1.queue
  have hw := (inv evs).wf
  generalize TcpStack.run evs = t at hq hw
  cases e with
  | socket f => exact shape_same _ _ _ rfl rfl (by simp [TcpStack.step, Socks.create]) rfl
  | bind st r a p c => exact shape_same _ _ _ rfl rfl (by simp only [TcpStack.step]; rw [(bind_ok hw st r a p c).2]) rfl
  | connect st r a p c iss =>
    have hl := (connect_ok hw st r a p c).2
    dsimp only [TcpStack.step]
    split
    · rename_i id h1 h2
      have hr := idOf_lt h2
      dsimp only at hr
      rw [hl] at hr
      exact .opened r _ (.inl ⟨st, a, p, c, iss, rfl⟩) hr rfl rfl (by simp only [openOn]; rw [hl]) rfl
    · exact shape_same _ _ _ rfl rfl (by dsimp only; rw [hl]) rfl
  | listen r iss =>
    dsimp only [TcpStack.step]
    split
    · exact shape_same _ _ _ rfl rfl (Nat.le_refl _) rfl
    · rename_i id h
      exact .opened r _ (.inr ⟨iss, rfl⟩) (idOf_lt h) rfl rfl (by simp only [openOn]; rw [(listen_ok hw r).2]) rfl
  | accept r =>
    dsimp only [TcpStack.step, TcpStack.accept]
    split
    · exact shape_same _ _ _ rfl rfl (Nat.le_refl _) rfl
    · split <;> exact shape_same _ _ _ rfl rfl (Nat.le_refl _) rfl
  | call i c => exact shape_act hq i c.ev 0
  | segment m iss =>
    dsimp only [TcpStack.step]
    split
    · exact shape_same _ _ _ rfl rfl (Nat.le_refl _) rfl
    · exact shape_act hq _ _ _
  | clock =>
    refine .same rfl rfl (Nat.le_refl _) (fun i c' h => ?_)
    simp only [TcpStack.step, List.getElem?_map, Option.map_eq_some_iff] at h
    obtain ⟨c, h1, rfl⟩ := h
    exact ⟨c, h1, rfl, id⟩
  | timer i => exact shape_act hq i .timer 0

theorem Shape.le {t t' : TcpStack} {e : TcpStack.Ev} (h : Shape t e t') : t.ss.socks.length ≤ t'.ss.socks.length := by
  cases h with
  | same _ _ h => exact h
  | opened _ _ _ _ _ _ h => exact h
  | syn _ _ _ _ _ _ _ _ _ h => omega

theorem upd_eq {α : Type} (f : Nat → α) (k : Nat) (v : α) (x : Nat) : upd f k v x = if x = k then v else f x := rfl

/-- Sockets with parents, and parents, exist. -/
theorem parents (evs : List TcpStack.Ev) : ∀ r p, (TcpStack.run evs).parent r = some p →
    r < (TcpStack.run evs).ss.socks.length ∧ p < r := by
  induction evs using List.reverseRecOn with
  | nil => intro r p h; cases h
  | append_singleton evs e ih =>
    have hs := shape evs e
    have hl := hs.le
    have hi := inv evs
    rw [TcpStack.run_snoc]
    generalize TcpStack.run evs = t at ih hs hl hi
    generalize t.step e = t' at hs hl
    intro r p h
    have old : t.parent r = some p → r < t'.ss.socks.length ∧ p < r := fun h => by
      have := ih r p h; omega
    cases hs with
    | same _ hp => rw [hp] at h; exact old h
    | opened _ _ _ _ _ hp => rw [hp] at h; exact old h
    | syn i c s s' hc _ _ _ hp hl =>
      rw [hp, upd_eq] at h
      split at h
      · injection h with h
        have := hi.lt i c hc
        omega
      · exact old h

/-- Every connection that came in through `l` has its own socket, and on that socket no other session. -/
def Kids (l : Nat) (t : TcpStack) : Prop :=
  ∀ r, t.parent r = some l → ∃ (i : Nat) (c : TcpConn), t.session r = some i ∧ t.conns[i]? = some c ∧ c.sock = r ∧ c.s.state ≠ .listen ∧
    ∀ (i' : Nat) (c' : TcpConn), t.conns[i']? = some c' → c'.sock = r → i' = i

theorem get_same {t t' : TcpStack} (hlen : ∀ (i : Nat) (c' : TcpConn), t'.conns[i]? = some c' → ∃ c : TcpConn, t.conns[i]? = some c ∧ c'.sock = c.sock ∧
    (c'.s.state = .listen → c.s.state = .listen)) {i : Nat} {c : TcpConn} (h : t'.conns[i]? = some c) : i < t.conns.length := by
  obtain ⟨c', h1, -⟩ := hlen i c h
  exact get_lt' h1

theorem kids_step (evs : List TcpStack.Ev) (e : TcpStack.Ev) (l : Nat) (hk : Kids l (TcpStack.run evs)) (hh : HandsOff l (TcpStack.run evs) e ∨
    ∀ r, (TcpStack.run evs).parent r = some l → (∀ st a p c iss, e ≠ .connect st r a p c iss) ∧ ∀ iss, e ≠ .listen r iss) :
    Kids l ((TcpStack.run evs).step e) ∧ ∀ r, (TcpStack.run evs).parent r = some l → ((TcpStack.run evs).step e).parent r = some l ∧
      ((TcpStack.run evs).step e).session r = (TcpStack.run evs).session r := by
  have hs := shape evs e
  have hi := inv evs
  have hpar := parents evs
  have hev := fun i => (evolve evs e i).1
  generalize TcpStack.run evs = t at *
  generalize t.step e = t' at *
  have hopen : ∀ r, t.parent r = some l → (∀ st a p c iss, e ≠ .connect st r a p c iss) ∧ ∀ iss, e ≠ .listen r iss := by
    intro r hr
    rcases hh with hh | hh
    · constructor
      · rintro st a p c iss rfl; exact hh (.inr hr)
      · rintro iss rfl; exact hh (.inr hr)
    · exact hh r hr
  cases hs with
  | same hs hp _ h =>
    refine ⟨fun r hr => ?_, fun r hr => ⟨by rw [hp]; exact hr, by rw [hs]⟩⟩
    rw [hp] at hr
    obtain ⟨i, c, h1, h2, h3, h4, h5⟩ := hk r hr
    obtain ⟨c', g1, -⟩ := hev i c h2
    obtain ⟨c₀, g2, g3, g4⟩ := h i c' g1
    rw [h2] at g2; cases g2
    refine ⟨i, c', by rw [hs]; exact h1, g1, g3.trans h3, fun x => h4 (g4 x), fun i' c'' k1 k2 => ?_⟩
    obtain ⟨c₀, k3, k4, -⟩ := h i' c'' k1
    exact h5 i' c₀ k3 (k4.symm.trans k2)
  | opened r₀ s he hr₀ hs hp _ hc =>
    have hne : ∀ r, t.parent r = some l → r ≠ r₀ := by
      rintro r hr rfl
      obtain ⟨h1, h2⟩ := hopen r hr
      rcases he with ⟨st, a, p, c, iss, x⟩ | ⟨iss, x⟩
      · exact h1 _ _ _ _ _ x
      · exact h2 _ x
    refine ⟨fun r hr => ?_, fun r hr => ⟨by rw [hp]; exact hr, by rw [hs, upd_eq, if_neg (hne r hr)]⟩⟩
    rw [hp] at hr
    obtain ⟨i, c, h1, h2, h3, h4, h5⟩ := hk r hr
    refine ⟨i, c, by rw [hs, upd_eq, if_neg (hne r hr)]; exact h1, ?_, h3, h4, fun i' c' k1 k2 => ?_⟩
    · rw [hc, List.getElem?_append_left (get_lt' h2)]; exact h2
    · rw [hc] at k1
      rcases get_snoc k1 with x | ⟨x, rfl⟩
      · exact h5 i' c' x k2
      · exact absurd k2.symm (hne r hr)
  | syn i₀ c₀ s s' hi₀ hst hst' hs hp _ hc =>
    have hlt := fun r hr => (hpar r l hr).1
    have hne : ∀ r, t.parent r = some l → r ≠ c₀.sock := by
      rintro r hr rfl
      obtain ⟨i, c, h1, h2, h3, h4, h5⟩ := hk _ hr
      have := h5 i₀ c₀ hi₀ rfl
      subst this
      rw [h2] at hi₀; cases hi₀
      exact h4 hst
    have keep : ∀ r, t.parent r = some l → t'.session r = t.session r := by
      intro r hr
      have := hlt r hr
      rw [hs, upd_eq, if_neg (by omega), upd_eq, if_neg (hne r hr)]
    refine ⟨fun r hr => ?_, fun r hr => ⟨by have := hlt r hr; rw [hp, upd_eq, if_neg (by omega)]; exact hr, keep r hr⟩⟩
    rw [hp, upd_eq] at hr
    have hgl := get_lt' hi₀
    split at hr
    · rename_i e
      subst e
      refine ⟨i₀, ⟨s', t.ss.socks.length⟩, by rw [hs, upd_eq, if_pos rfl], ?_, rfl, hst', fun i' c' k1 k2 => ?_⟩
      · rw [hc]; exact List.getElem?_set_self (by rw [List.length_append]; omega)
      · rw [hc] at k1
        rcases get_set k1 with ⟨x, _⟩ | ⟨_, x⟩
        · exact x
        · rcases get_snoc x with y | ⟨y, rfl⟩
          · have := hi.lt i' c' y; omega
          · have := hi.lt i₀ c₀ hi₀; dsimp only at k2; omega
    · obtain ⟨i, c, h1, h2, h3, h4, h5⟩ := hk r hr
      have hii : i ≠ i₀ := by
        rintro rfl
        rw [h2] at hi₀; cases hi₀
        exact h4 hst
      refine ⟨i, c, by rw [keep r hr]; exact h1, ?_, h3, h4, fun i' c' k1 k2 => ?_⟩
      · rw [hc, List.getElem?_set_ne (Ne.symm hii), List.getElem?_append_left (get_lt' h2)]; exact h2
      · rw [hc] at k1
        rcases get_set k1 with ⟨x, rfl⟩ | ⟨_, x⟩
        · have := hlt r hr; simp at k2; omega
        · rcases get_snoc x with y | ⟨y, rfl⟩
          · exact h5 i' c' y k2
          · exact absurd k2.symm (hne r hr)

/-- A session that is not at `l` or its connections never comes there. -/
theorem its_step (evs : List TcpStack.Ev) (e : TcpStack.Ev) (l : Nat) {i : Nat} {c : TcpConn} (hc : (TcpStack.run evs).conns[i]? = some c)
    (hl : l = (TcpStack.run evs).ss.socks.length → (∃ f, e = .socket f) ∨ ((TcpStack.run evs).step e).ss.socks.length ≤ l) (h : ¬ Its (TcpStack.run evs) l c.sock) : ∃ c', ((TcpStack.run evs).step e).conns[i]? = some c' ∧ ¬ Its ((TcpStack.run evs).step e) l c'.sock := by
  by_cases hf : ∃ f, e = .socket f
  · obtain ⟨f, rfl⟩ := hf
    exact ⟨c, hc, h⟩
  have hs := shape evs e
  have hi := inv evs
  obtain ⟨c', g1, -⟩ := (evolve evs e i).1 c hc
  refine ⟨c', g1, ?_⟩
  have hlt := hi.lt i c hc
  generalize TcpStack.run evs = t at *
  generalize t.step e = t' at *
  cases hs with
  | same hs hp _ hh =>
    obtain ⟨c₀, g2, g3, -⟩ := hh i c' g1
    rw [hc] at g2; cases g2
    rw [Its, g3, hp]; exact h
  | opened r₀ s he hr₀ hs hp _ hcc =>
    rw [hcc, List.getElem?_append_left (get_lt' hc), hc] at g1
    cases g1
    rw [Its, hp]; exact h
  | syn i₀ c₀ s s' hi₀ hst hst' hs hp hln hcc =>
    rw [hcc] at g1
    rcases get_set g1 with ⟨rfl, rfl⟩ | ⟨_, x⟩
    · rw [hi₀] at hc; cases hc
      rintro (x | x)
      · rcases hl x.symm with y | y
        · exact hf y
        · dsimp only at x; omega
      · rw [hp, upd_eq, if_pos rfl] at x
        injection x with x
        exact h (.inl x)
    · rw [List.getElem?_append_left (get_lt' hc), hc] at x
      cases x
      rw [Its, hp, upd_eq, if_neg (by omega)]; exact h

theorem accepts_did (o : List Out) (i l : Nat) : accepts (o.map (.did i)) l = [] := by
  unfold Spec.accepts
  rw [List.filterMap_eq_nil_iff]
  intro n hn
  obtain ⟨x, -, rfl⟩ := List.mem_map.1 hn
  rfl

theorem accepts_act {t : TcpStack} (hq : ∀ (i : Nat) c, t.conns[i]? = some c → Queue (fun _ => True) c.s) (i : Nat) (ev : Sess.Ev) (iss l : Nat) :
    accepts (t.act i ev iss).log l = accepts t.log l := by
  cases hc : t.conns[i]? with
  | none =>
    have : t.act i ev iss = t := by unfold TcpStack.act; rw [hc]
    rw [this]
  | some c =>
    have ha := act_cases hc (hq i c hc) ev iss
    generalize Sess.step { c.s with registered := t.has c.sock } ev = s' at ha
    generalize t.act i ev iss = t' at ha
    cases ha with
    | calm => dsimp only; rw [accepts_append, accepts_did, List.append_nil]
    | est => dsimp only; rw [accepts_append]; exact List.append_nil _
    | syn => dsimp only; rw [accepts_append, accepts_append, accepts_did, List.append_nil]; exact List.append_nil _

/-- Only `accept` on the socket adds to what it has returned. -/
theorem accepts_step (evs : List TcpStack.Ev) (e : TcpStack.Ev) (l : Nat) (h : e ≠ .accept l) :
    accepts ((TcpStack.run evs).step e).log l = accepts (TcpStack.run evs).log l := by
  have hq : ∀ (i : Nat) c, (TcpStack.run evs).conns[i]? = some c → Queue (fun _ => True) c.s := fun i c hc => ((hist evs).runs i c hc).1.queue
  generalize TcpStack.run evs = t at hq
  cases e with
  | socket f => rfl
  | bind st r a p c => rfl
  | connect st r a p c iss =>
    dsimp only [TcpStack.step]
    split
    · simp only [openOn]; rw [accepts_append, accepts_did, List.append_nil]
    · rfl
  | listen r iss =>
    dsimp only [TcpStack.step]
    split
    · rfl
    · simp only [openOn]; rw [accepts_append, accepts_did, List.append_nil]
  | accept r =>
    have hr : r ≠ l := fun e => h (by rw [e])
    dsimp only [TcpStack.step, TcpStack.accept]
    split
    · rfl
    · split
      · rfl
      · dsimp only; rw [accepts_append]; simp [accepts, hr]
  | call i c => exact accepts_act hq i c.ev 0 l
  | segment m iss =>
    dsimp only [TcpStack.step]
    split
    · rfl
    · exact accepts_act hq _ _ _ l
  | clock => rfl
  | timer i => exact accepts_act hq i .timer 0 l

/-! ### The steps of the service -/

/-- What has happened to the sockets and sessions. -/
def events (g : Config) (ss : List Step) : List TcpStack.Ev :=
  (ss.foldl (fun a s => (step g a.1 s, a.2 ++ (emits g a.1 s).toList)) (init, [])).2

theorem run_snoc (g : Config) (ss : List Step) (s : Step) : run g (ss ++ [s]) = step g (run g ss) s := by simp [run]

theorem events_snoc (g : Config) (ss : List Step) (s : Step) : events g (ss ++ [s]) = events g ss ++ (emits g (run g ss) s).toList := by
  have : ∀ ss : List Step, (ss.foldl (fun a s => (step g a.1 s, a.2 ++ (emits g a.1 s).toList)) (init, ([] : List TcpStack.Ev))).1 = run g ss := by
    intro ss
    induction ss using List.reverseRecOn with
    | nil => rfl
    | append_singleton ss s ih => rw [List.foldl_append, run_snoc, ← ih]; rfl
  unfold events
  rw [List.foldl_append, ← this ss]
  rfl

theorem step_t (g : Config) (v : Srv) (s : Step) : (step g v s).t = match emits g v s with | none => v.t | some e => v.t.step e := by
  cases s with
  | net e => rfl
  | stop => rfl
  | main st c i => rfl
  | worker n =>
    unfold step emits
    cases h : sessionOf v n with
    | none => simp only [h]; rfl
    | some x => simp only [h]; rfl

theorem run_t (g : Config) (ss : List Step) : (run g ss).t = TcpStack.run (events g ss) := by
  induction ss using List.reverseRecOn with
  | nil => rfl
  | append_singleton ss s ih =>
    rw [run_snoc, events_snoc, step_t]
    cases h : emits g (run g ss) s with
    | none => simp [ih]
    | some e => simp only [Option.toList_some]; rw [TcpStack.run_snoc, ih]

theorem _root_.Verif.Spec.Alone.of {calm : Prop} {g : Config} {k : Ends} {xs : List TcpStack.Ev} {ss : List Step} (h : Clients calm g k xs ss) : Alone g ss := by
  induction h with
  | start => exact .start
  | client _ _ ih => exact ih
  | service _ h _ ih => exact .snoc ih (fun e he => (h e he).2)

theorem accept_log {t : TcpStack} (hp : ∀ l, t.permits l = (t.queue l).length) (r : Nat) :
    accepts (t.accept r).log r = accepts t.log r ++ (if t.permits r = 0 then [] else (t.queue r).take 1) := by
  unfold TcpStack.accept
  split
  · simp
  · rename_i h
    dsimp only
    split
    · rename_i e; rw [hp r, e] at h; exact absurd rfl h
    · rename_i c q e; dsimp only; rw [accepts_append]; simp [accepts, e]

theorem spawned_socks (v : Srv) {r : Nat} (hm : v.main = .accept r) :
    (spawned v).map (·.sock) = if v.t.permits r = 0 then [] else (v.t.queue r).take 1 := by
  unfold spawned
  rw [hm]
  dsimp only
  split
  · rfl
  · split <;> rename_i e <;> simp [e]

theorem spawned_none (v : Srv) (hm : ∀ r, v.main ≠ .accept r) : spawned v = [] := by
  unfold spawned
  split
  · rename_i r e; exact absurd e (hm r)
  · rfl

/-- The service and its connections. -/
structure SInv (v : Srv) : Prop where
  none : (∀ r, v.main ≠ .accept r) → v.workers = []
  lt : ∀ l, door v = some l → l < v.t.ss.socks.length
  kids : ∀ l, door v = some l → Kids l v.t
  socks : ∀ l, door v = some l → v.workers.map (·.sock) = accepts v.t.log l

theorem sessionOf_some {v : Srv} {n : Nat} {w : Worker} {i : Nat} {s : Sess} (h : sessionOf v n = some (w, i, s)) :
    v.workers[n]? = some w ∧ v.t.session w.sock = some i ∧ ∃ c, v.t.conns[i]? = some c ∧ s = { c.s with registered := v.t.has c.sock } := by
  unfold sessionOf at h
  simp only [Option.bind_eq_some_iff, Option.map_eq_some_iff] at h
  obtain ⟨w', h1, i', h2, c, h3, h4⟩ := h
  cases h4
  exact ⟨h1, h2, c, h3, rfl⟩

theorem map_set_same {ws : List Worker} {n : Nat} {w : Worker} (h : ws[n]? = some w) (pc : Pc) :
    (ws.set n ⟨w.sock, pc⟩).map (·.sock) = ws.map (·.sock) := by
  rw [List.map_set]
  apply List.ext_getElem?
  intro m
  by_cases e : n = m
  · subst e
    rw [List.getElem?_set_self (by rw [List.length_map]; exact get_lt' h), List.getElem?_map, h]; rfl
  · rw [List.getElem?_set_ne e]

theorem inbound_none {evs : List TcpStack.Ev} {l : Nat} (h : (TcpStack.run evs).ss.socks.length ≤ l) : accepts (TcpStack.run evs).log l = [] := by
  have h1 := (inv evs).acc l
  have : inbound (TcpStack.run evs) l = [] := by
    unfold inbound
    rw [List.filterMap_eq_nil_iff]
    intro n _
    unfold inboundNote
    split
    · rw [if_neg]
      intro e
      have := parents evs _ _ e
      omega
    · rfl
  rw [this] at h1
  exact (List.append_eq_nil_iff.1 h1).1

/-- What the event of a step may not be. -/
theorem emits_fair {g : Config} {ss : List Step} {s : Step} (h : Alone g ss) (hi : SInv (run g ss)) (hs : ∀ e, s = .net e → ∀ l, door (run g ss) = some l →
    HandsOff l (run g ss).t e) {e : TcpStack.Ev} (he : emits g (run g ss) s = some e) {l : Nat} (hd : door (run g ss) = some l) :
    HandsOff l (TcpStack.run (events g ss)) e ∨ ∀ r, (TcpStack.run (events g ss)).parent r = some l →
      (∀ st a p c iss, e ≠ .connect st r a p c iss) ∧ ∀ iss, e ≠ .listen r iss := by
  have hlt := fun r p => parents (events g ss) r p
  rw [← run_t] at hlt ⊢
  cases s with
  | net e' => cases he; exact .inl (hs _ rfl l hd)
  | stop => cases he
  | main st c i =>
    right
    unfold emits at he
    dsimp only at he
    split at he
    · obtain ⟨a, -, rfl⟩ := Option.map_eq_some_iff.1 he; intro r _; simp
    · cases he; intro r _; simp
    · rename_i r' hm
      cases he
      have : r' = l := by simpa [door, hm] using hd
      subst this
      intro r hr
      have := (hlt r _ hr).2
      simp
      omega
    · cases he; intro r _; simp
    · cases he
    · cases he
  | worker n =>
    right
    unfold emits at he
    simp only [Option.bind_eq_some_iff, Option.map_eq_some_iff] at he
    obtain ⟨x, -, q, -, rfl⟩ := he
    intro r _; simp

theorem sinv {g : Config} {ss : List Step} (h : Alone g ss) : SInv (run g ss) := by
  induction h with
  | start => exact ⟨fun _ => rfl, fun l hl => (by cases hl), fun l hl => (by cases hl), fun l hl => (by cases hl)⟩
  | @snoc ss s ha hs ih =>
    rw [run_snoc]
    have hfair := fun e he l hd => emits_fair (e := e) (l := l) ha ih hs he hd
    have hkeep : ∀ l, door (run g ss) = some l → l < (step g (run g ss) s).t.ss.socks.length ∧ Kids l (step g (run g ss) s).t ∧
        ((∀ e, emits g (run g ss) s = some e → e ≠ .accept l) → (run g ss).workers.map (·.sock) = accepts (step g (run g ss) s).t.log l) := by
      intro l hd
      rw [step_t]
      cases he : emits g (run g ss) s with
      | none => exact ⟨ih.lt l hd, ih.kids l hd, fun _ => ih.socks l hd⟩
      | some e =>
        have h1 := ih.lt l hd
        have h2 := ih.kids l hd
        have h3 := ih.socks l hd
        rw [run_t] at h1 h2 h3 ⊢
        dsimp only
        refine ⟨Nat.lt_of_lt_of_le h1 (shape (events g ss) e).le, (kids_step (events g ss) e l h2 (hfair e he l hd)).1, fun hn => ?_⟩
        rw [accepts_step _ _ _ (hn e rfl)]; exact h3
    have hperm := (inv (events g ss)).perm
    have hlen := inbound_none (evs := events g ss) (l := (run g ss).t.ss.socks.length) (by rw [run_t])
    have hpar := parents (events g ss)
    rw [← run_t] at hperm hpar hlen
    cases s with
    | net e =>
      refine ⟨ih.none, fun l hl => (hkeep l hl).1, fun l hl => (hkeep l hl).2.1, fun l hl => (hkeep l hl).2.2 ?_⟩
      rintro e' he rfl
      cases he
      exact hs _ rfl l hl (.inl rfl)
    | stop => exact ⟨ih.none, ih.lt, ih.kids, ih.socks⟩
    | worker n =>
      have ht : (step g (run g ss) (.worker n)).main = (run g ss).main ∧
          (step g (run g ss) (.worker n)).workers.map (·.sock) = (run g ss).workers.map (·.sock) := by
        unfold step
        cases h : sessionOf (run g ss) n with
        | none => simp only [h]; exact ⟨trivial, trivial⟩
        | some x =>
          obtain ⟨w, i, s⟩ := x
          simp only [h]
          exact ⟨trivial, map_set_same (sessionOf_some h).1 _⟩
      have hd : door (step g (run g ss) (.worker n)) = door (run g ss) := by unfold door; rw [ht.1]
      refine ⟨fun hn => ?_, fun l hl => (hkeep l (hd ▸ hl)).1, fun l hl => (hkeep l (hd ▸ hl)).2.1, fun l hl => ?_⟩
      · have := ih.none (by rw [← ht.1]; exact hn)
        rw [this, List.map_nil, List.map_eq_nil_iff] at ht
        exact ht.2
      · rw [ht.2]
        refine (hkeep l (hd ▸ hl)).2.2 (fun e he => ?_)
        unfold emits at he
        simp only [Option.bind_eq_some_iff, Option.map_eq_some_iff] at he
        obtain ⟨x, -, q, -, rfl⟩ := he
        simp
    | main st c i =>
      have hmain : (step g (run g ss) (.main st c i)).main = mainAfter g (run g ss) st c := rfl
      have hwork : (step g (run g ss) (.main st c i)).workers = (run g ss).workers ++ spawned (run g ss) := rfl
      have hd' : door (step g (run g ss) (.main st c i)) = match mainAfter g (run g ss) st c with
        | .bind l => some l
        | .listen l => some l
        | .accept l => some l
        | _ => none := rfl
      cases hm : (run g ss).main with
      | socket =>
        have hw := ih.none (by rw [hm]; simp)
        have hsp := spawned_none (run g ss) (by rw [hm]; simp)
        have hw' : (step g (run g ss) (.main st c i)).workers = [] := by rw [hwork, hw, hsp]; rfl
        cases hg : g.addr with
        | none =>
          have : mainAfter g (run g ss) st c = .ended := by unfold mainAfter; rw [hm, hg]
          rw [this] at hd'
          exact ⟨fun _ => hw', by rw [hd']; simp, by rw [hd']; simp, by rw [hd']; simp⟩
        | some a =>
          have : mainAfter g (run g ss) st c = .bind (run g ss).t.ss.socks.length := by unfold mainAfter; rw [hm, hg]
          rw [this] at hd'
          have ht : (step g (run g ss) (.main st c i)).t = (run g ss).t.step (.socket a.family) := by
            rw [step_t]; unfold emits; rw [hm, hg]; rfl
          have hl' : ∀ l, door (step g (run g ss) (.main st c i)) = some l → l = (run g ss).t.ss.socks.length := by
            intro l hl; rw [hd'] at hl; exact (Option.some.inj hl).symm
          refine ⟨fun _ => hw', fun l hl => ?_, fun l hl => ?_, fun l hl => ?_⟩
          · rw [hl' l hl, ht]; simp [TcpStack.step, Socks.create]
          · rw [hl' l hl, ht]
            intro r hr
            have := hpar r _ hr
            omega
          · rw [hw', hl' l hl, ht]
            exact hlen.symm
      | bind r =>
        have hw := ih.none (by rw [hm]; simp)
        have hsp := spawned_none (run g ss) (by rw [hm]; simp)
        have hw' : (step g (run g ss) (.main st c i)).workers = (run g ss).workers := by rw [hwork, hsp, List.append_nil]
        have hd : ∀ l, door (step g (run g ss) (.main st c i)) = some l → door (run g ss) = some l := by
          intro l hl
          rw [hd'] at hl
          have : mainAfter g (run g ss) st c = .listen r ∨ mainAfter g (run g ss) st c = .ended ∨ mainAfter g (run g ss) st c = .died := by
            unfold mainAfter; rw [hm]; dsimp only; split <;> simp
          unfold door; rw [hm]
          rcases this with x | x | x <;> rw [x] at hl <;> simpa using hl
        have he : ∀ e, emits g (run g ss) (.main st c i) = some e → ∀ l, e ≠ .accept l := by
          intro e he l; unfold emits at he; rw [hm] at he; cases he; simp
        exact ⟨fun _ => hw'.trans hw, fun l hl => (hkeep l (hd l hl)).1, fun l hl => (hkeep l (hd l hl)).2.1,
          fun l hl => by rw [hw']; exact (hkeep l (hd l hl)).2.2 (fun e h => he e h l)⟩
      | listen r =>
        have hw := ih.none (by rw [hm]; simp)
        have hsp := spawned_none (run g ss) (by rw [hm]; simp)
        have hw' : (step g (run g ss) (.main st c i)).workers = (run g ss).workers := by rw [hwork, hsp, List.append_nil]
        have hd : ∀ l, door (step g (run g ss) (.main st c i)) = some l → door (run g ss) = some l := by
          intro l hl
          rw [hd', show mainAfter g (run g ss) st c = .accept r by unfold mainAfter; rw [hm]] at hl
          unfold door; rw [hm]; exact hl
        have he : ∀ e, emits g (run g ss) (.main st c i) = some e → ∀ l, e ≠ .accept l := by
          intro e he l; unfold emits at he; rw [hm] at he; cases he; simp
        exact ⟨fun _ => hw'.trans hw, fun l hl => (hkeep l (hd l hl)).1, fun l hl => (hkeep l (hd l hl)).2.1,
          fun l hl => by rw [hw']; exact (hkeep l (hd l hl)).2.2 (fun e h => he e h l)⟩
      | accept r =>
        have hma : mainAfter g (run g ss) st c = .accept r := by
          unfold mainAfter; rw [hm]; dsimp only
          split
          · rfl
          · rename_i h0
            split
            · rename_i e; rw [hperm r, e] at h0; exact absurd rfl h0
            · rfl
        rw [hma] at hd' hmain
        have hd : door (run g ss) = some r := by unfold door; rw [hm]
        have hl' : ∀ l, door (step g (run g ss) (.main st c i)) = some l → l = r := by
          intro l hl; rw [hd'] at hl; exact (Option.some.inj hl).symm
        refine ⟨fun hn => absurd hmain (hn r), fun l hl => ?_, fun l hl => ?_, fun l hl => ?_⟩
        · rw [hl' l hl]; exact (hkeep r hd).1
        · rw [hl' l hl]; exact (hkeep r hd).2.1
        · rw [hl' l hl, hwork, List.map_append, spawned_socks _ hm, ih.socks r hd]
          have ht : (step g (run g ss) (.main st c i)).t = (run g ss).t.step (.accept r) := by
            rw [step_t]; unfold emits; rw [hm]
          rw [ht]
          exact (accept_log hperm r).symm
      | ended =>
        have hw := ih.none (by rw [hm]; simp)
        have hsp := spawned_none (run g ss) (by rw [hm]; simp)
        rw [show mainAfter g (run g ss) st c = .ended by unfold mainAfter; rw [hm]] at hd'
        exact ⟨fun _ => by rw [hwork, hw, hsp]; rfl, by rw [hd']; simp, by rw [hd']; simp, by rw [hd']; simp⟩
      | died =>
        have hw := ih.none (by rw [hm]; simp)
        have hsp := spawned_none (run g ss) (by rw [hm]; simp)
        rw [show mainAfter g (run g ss) st c = .died by unfold mainAfter; rw [hm]] at hd'
        exact ⟨fun _ => by rw [hwork, hw, hsp]; rfl, by rw [hd']; simp, by rw [hd']; simp, by rw [hd']; simp⟩

/-! ### Going back in a history -/

theorem door_step {g : Config} {v : Srv} {s : Step} {l : Nat} (h : door (step g v s) = some l) :
    door v = some l ∨ (v.main = .socket ∧ l = v.t.ss.socks.length ∧ ∃ f, emits g v s = some (.socket f)) := by
  cases s with
  | net e => exact .inl h
  | stop => exact .inl h
  | worker n =>
    left
    unfold step at h
    cases hs : sessionOf v n with
    | none => simp only [hs] at h; exact h
    | some x => simp only [hs] at h; exact h
  | main st c i =>
    have h : door { v with main := mainAfter g v st c } = some l := h
    unfold mainAfter door at h
    unfold door emits
    cases hm : v.main with
    | socket =>
      rw [hm] at h
      cases hg : g.addr with
      | none => rw [hg] at h; cases h
      | some a => rw [hg] at h; right; exact ⟨rfl, (Option.some.inj h).symm, _, rfl⟩
    | bind r =>
      rw [hm] at h
      left
      dsimp only at h ⊢
      split at h
      all_goals rename_i hx; revert hx; split <;> intro hx <;> first | cases hx <;> exact h | cases hx | skip
      all_goals first | cases h | exact h
    | listen r => rw [hm] at h; exact .inl h
    | accept r =>
      rw [hm] at h
      left
      dsimp only at h ⊢
      split at h
      all_goals rename_i hx; revert hx; split <;> (try split) <;> intro hx <;> first | cases hx <;> exact h | cases hx | skip
      all_goals first | cases h | exact h
    | ended => rw [hm] at h; cases h
    | died => rw [hm] at h; cases h

theorem socket_step {g : Config} {v : Srv} {s : Step} (h : (step g v s).main = .socket) : v.main = .socket := by
  cases s with
  | net e => exact h
  | stop => exact h
  | worker n =>
    unfold step at h
    cases hs : sessionOf v n with
    | none => simp only [hs] at h; exact h
    | some x => simp only [hs] at h; exact h
  | main st c i =>
    have h : mainAfter g v st c = .socket := h
    unfold mainAfter at h
    cases hm : v.main with
    | socket => rfl
    | bind r => rw [hm] at h; dsimp only at h; split at h <;> cases h
    | listen r => rw [hm] at h; cases h
    | accept r => rw [hm] at h; dsimp only at h; split at h <;> (try split at h) <;> cases h
    | ended => rw [hm] at h; cases h
    | died => rw [hm] at h; cases h

theorem len_step (g : Config) (ss : List Step) (s : Step) : (run g ss).t.ss.socks.length ≤ (step g (run g ss) s).t.ss.socks.length := by
  rw [step_t]
  cases emits g (run g ss) s with
  | none => exact Nat.le_refl _
  | some e => dsimp only; rw [run_t]; exact (shape _ e).le

/-- `l` is the listening socket, or will be. -/
def Due (l : Nat) (v : Srv) : Prop := door v = some l ∨ (v.main = .socket ∧ v.t.ss.socks.length ≤ l)

theorem Due.back {g : Config} {ss : List Step} {s : Step} {l : Nat} (h : Due l (run g (ss ++ [s]))) : Due l (run g ss) := by
  rw [run_snoc] at h
  rcases h with h | ⟨h1, h2⟩
  · rcases door_step h with x | ⟨x, y, -⟩
    · exact .inl x
    · exact .inr ⟨x, by omega⟩
  · exact .inr ⟨socket_step h1, Nat.le_trans (len_step g ss s) h2⟩

theorem Due.prefix {g : Config} {ss : List Step} {l : Nat} (suf : List Step) (h : Due l (run g (ss ++ suf))) : Due l (run g ss) := by
  induction suf using List.reverseRecOn with
  | nil => simpa using h
  | append_singleton suf s ih => rw [← List.append_assoc] at h; exact ih h.back

theorem _root_.Verif.Spec.Alone.prefix {g : Config} {ss : List Step} (suf : List Step) (h : Alone g (ss ++ suf)) : Alone g ss := by
  induction suf using List.reverseRecOn with
  | nil => simpa using h
  | append_singleton suf s ih =>
    rw [← List.append_assoc] at h
    generalize hx : ss ++ suf ++ [s] = x at h
    cases h with
    | start => simp at hx
    | snoc h' _ => exact ih (by rw [(List.append_inj' hx rfl).1]; exact h')

theorem not_its {g : Config} {ss : List Step} {l : Nat} (suf : List Step) (ha : Alone g (ss ++ suf)) (hd : Due l (run g (ss ++ suf))) {j : Nat}
    {c : TcpConn} (hc : (run g ss).t.conns[j]? = some c) (hn : ¬ Its (run g ss).t l c.sock) :
    ∃ c', (run g (ss ++ suf)).t.conns[j]? = some c' ∧ ¬ Its (run g (ss ++ suf)).t l c'.sock := by
  induction suf using List.reverseRecOn with
  | nil => rw [List.append_nil]; exact ⟨c, hc, hn⟩
  | append_singleton suf s ih =>
    rw [← List.append_assoc] at hd ha ⊢
    have ha' := ha.prefix (ss := ss ++ suf) [s]
    obtain ⟨c', h1, h2⟩ := ih ha' hd.back
    rw [run_snoc] at hd ⊢
    have hi := sinv ha'
    have hls := len_step g (ss ++ suf) s
    rw [step_t] at hls ⊢
    cases he : emits g (run g (ss ++ suf)) s with
    | none => exact ⟨c', h1, h2⟩
    | some e =>
      rw [he] at hls
      dsimp only at hls ⊢
      have ht : (step g (run g (ss ++ suf)) s).t = (TcpStack.run (events g (ss ++ suf))).step e := by rw [step_t, he, run_t]
      rw [run_t] at h1 h2 ⊢
      refine its_step _ e l h1 (fun hl => ?_) h2
      rcases hd with hd | ⟨_, hd⟩
      · rcases door_step hd with x | ⟨_, _, f, x⟩
        · have := hi.lt l x
          rw [run_t] at this; omega
        · rw [he] at x; cases x; exact .inl ⟨f, rfl⟩
      · right; rw [← ht]; exact hd

/-- A session that is in the end one of the service's has been on the service's sockets all the time. -/
theorem its_back {g : Config} {ss suf : List Step} {l : Nat} (ha : Alone g (ss ++ suf)) (hd : door (run g (ss ++ suf)) = some l) {j : Nat}
    {c c' : TcpConn} (hc' : (run g (ss ++ suf)).t.conns[j]? = some c') (hit : Its (run g (ss ++ suf)).t l c'.sock)
    (hc : (run g ss).t.conns[j]? = some c) : door (run g ss) = some l ∧ Its (run g ss).t l c.sock := by
  have no : ¬ ¬ Its (run g ss).t l c.sock := by
    intro hn
    obtain ⟨c₁, h1, h2⟩ := not_its suf ha (.inl hd) hc hn
    rw [hc'] at h1; cases h1
    exact h2 hit
  have yes := Classical.byContradiction no
  refine ⟨?_, yes⟩
  rcases Due.prefix suf (.inl hd) with x | ⟨_, x⟩
  · exact x
  · exfalso
    rw [run_t] at hc x yes
    have h1 := (inv (events g ss)).lt j c hc
    rcases yes with y | y
    · omega
    · have := parents _ _ _ y; omega

theorem moved_queued {a : Bool} {iss : Nat} {l : IpAddress} {lp : Nat} {r : IpAddress} {rp : Nat} (evs : List Sess.Ev) :
    Out.moved .synRcvd .established ∈ ((opened a iss l lp r rp).run evs).out → Out.queued ∈ ((opened a iss l lp r rp).run evs).out := by
  induction evs using List.reverseRecOn with
  | nil => intro h; change _ ∈ (opened a iss l lp r rp).out at h; rw [opened_out] at h; cases a <;> simp at h
  | append_singleton evs e ih =>
    rw [sess_run_snoc]
    have hn := step_news (queue_run (queue_opened a iss l lp r rp) (evs := evs)) e
    generalize (opened a iss l lp r rp).run evs = s at ih hn
    generalize s.step e = s' at hn
    cases hn with
    | calm h =>
      obtain ⟨news, h1, h2⟩ := h.out
      rw [h1]
      intro h
      rcases List.mem_append.1 h with x | x
      · exact List.mem_append_left _ (ih x)
      · exact absurd rfl (h2 _ x).2.2
    | @syn m h hf hm =>
      rw [moveAs_out]
      intro h'
      simp [synAs, paramsAs, h] at h' ⊢
      exact ih h'
    | est h h' ho ha => intro _; rw [ho]; simp

/-- A thread's connection came in through the service's socket, and is the session of its own socket. -/
theorem thread_facts {g : Config} {ss : List Step} (ha : Alone g ss) {n j : Nat} {pc : Pc} {r : Nat} (hw : (run g ss).workers[n]? = some ⟨r, pc⟩)
    (hs : (run g ss).t.session r = some j) :
    ∃ l c, door (run g ss) = some l ∧ (run g ss).t.parent r = some l ∧ (run g ss).t.conns[j]? = some c ∧ c.sock = r ∧ Out.queued ∈ c.s.out := by
  have hi := sinv ha
  obtain ⟨l, hm⟩ : ∃ l, (run g ss).main = .accept l := by
    apply Classical.byContradiction
    intro hn
    have := hi.none (fun r hr => hn ⟨r, hr⟩)
    rw [this] at hw; cases hw
  have hd : door (run g ss) = some l := by unfold door; rw [hm]
  have hmem : r ∈ accepts (run g ss).t.log l := by
    rw [← hi.socks l hd]
    exact List.mem_map.2 ⟨_, List.mem_of_getElem? hw, rfl⟩
  have hk := hi.kids l hd
  rw [run_t] at hmem hk hs ⊢
  have hv := inv (events g ss)
  have hin : r ∈ inbound (TcpStack.run (events g ss)) l := by rw [← hv.acc l]; exact List.mem_append_left _ hmem
  obtain ⟨x, hx, hb⟩ := List.mem_filterMap.1 hin
  unfold inboundNote at hb
  split at hb
  · rename_i i
    split at hb
    · rename_i hp
      injection hb with hb
      obtain ⟨c, h1, -⟩ := hv.est i hx
      rw [hb] at hp
      rw [sockOf_eq h1] at hb
      obtain ⟨i', c', g1, g2, g3, -, g5⟩ := hk r hp
      have := g5 i c h1 hb
      rw [hs] at g1
      cases g1
      subst this
      rw [h1] at g2; cases g2
      refine ⟨l, c, hd, hp, h1, hb, ?_⟩
      obtain ⟨⟨a, iss, l', lp, r', rp, hr⟩, hsee⟩ := (hist (events g ss)).runs i c h1
      have : Out.moved .synRcvd .established ∈ c.s.out := by
        rw [← hsee]
        exact List.mem_filterMap.2 ⟨_, hx, by simp⟩
      rw [hr] at this ⊢
      exact moved_queued _ this
    · cases hb
  · cases hb

theorem stable {g : Config} {ss : List Step} {s : Step} (ha : Alone g (ss ++ [s])) {l r : Nat} (hd : door (run g ss) = some l)
    (hp : (run g ss).t.parent r = some l) : (step g (run g ss) s).t.session r = (run g ss).t.session r := by
  generalize hx : ss ++ [s] = x at ha
  cases ha with
  | start => simp at hx
  | @snoc ss' s' ha hs =>
    obtain ⟨rfl, e⟩ := List.append_inj' hx rfl
    cases e
    have hi := sinv ha
    rw [step_t]
    cases he : emits g (run g ss) s with
    | none => rfl
    | some e =>
      have hk := hi.kids l hd
      have hf := emits_fair ha hi hs he hd
      rw [run_t] at hk hp ⊢
      exact ((kids_step _ e l hk hf).2 r hp).2

/-- Each connection has one thread. -/
theorem one_thread {g : Config} {ss : List Step} (ha : Alone g ss) {n n' j : Nat} {pc pc' : Pc} (h : ThreadOf (run g ss) n j pc)
    (h' : ThreadOf (run g ss) n' j pc') : n = n' := by
  obtain ⟨r, h1, h2⟩ := h
  obtain ⟨r', h1', h2'⟩ := h'
  obtain ⟨l, c, k1, k2, k3, k4, -⟩ := thread_facts ha h1 h2
  obtain ⟨l', c', k1', k2', k3', k4', -⟩ := thread_facts ha h1' h2'
  rw [k3] at k3'; cases k3'
  have e : r = r' := k4.symm.trans k4'
  subst e
  have hn : ((run g ss).workers.map (·.sock)).Nodup := by
    rw [(sinv ha).socks l k1]
    have := (inv (events g ss)).nodup l
    rw [← (inv (events g ss)).acc l, ← run_t] at this
    exact (List.nodup_append.1 this).1
  have e1 : ((run g ss).workers.map (·.sock))[n]? = some r := by rw [List.getElem?_map, h1]; rfl
  have e2 : ((run g ss).workers.map (·.sock))[n']? = some r := by rw [List.getElem?_map, h1']; rfl
  exact (List.getElem?_inj (get_lt' e1) hn).1 (e1.trans e2.symm)

/-! ### Each connection alone -/

theorem turn_call (running : Bool) (s : Sess) (pc : Pc) : (turn running s pc).1 = match callOf s pc with | none => s | some q => s.step q.ev := by
  cases pc with
  | recv =>
    simp only [turn, callOf]
    split <;> rfl
  | got d =>
    simp only [turn, callOf]
    split
    · rfl
    · split <;> rfl
  | _ => rfl

theorem turn_wait (running : Bool) (s : Sess) (r : Bool) (pc : Pc) (h : callOf { s with registered := r } pc = none) :
    turn running s pc = (s, (turn running { s with registered := r } pc).2) := by
  cases pc with
  | recv =>
    simp only [callOf] at h
    split at h
    · rename_i e; rw [turn, if_pos e, turn, if_pos e]
    · cases h
  | test => rfl
  | ended => rfl
  | died => rfl
  | _ => cases h

theorem events_append (g : Config) (ss suf : List Step) : ∃ l, events g (ss ++ suf) = events g ss ++ l := by
  induction suf using List.reverseRecOn with
  | nil => exact ⟨[], by simp⟩
  | append_singleton suf s ih =>
    obtain ⟨l, hl⟩ := ih
    exact ⟨l ++ (emits g (run g (ss ++ suf)) s).toList, by rw [← List.append_assoc, events_snoc, hl, List.append_assoc]⟩

theorem emits_segment {g : Config} {v : Srv} {s : Step} {m : TcpMd} {iss : Nat} (h : emits g v s = some (.segment m iss)) : s = .net (.segment m iss) := by
  cases s with
  | net e => cases h; rfl
  | stop => cases h
  | main st c i =>
    unfold emits at h
    cases hm : v.main with
    | socket => rw [hm] at h; obtain ⟨a, -, x⟩ := Option.map_eq_some_iff.1 h; cases x
    | _ => rw [hm] at h; cases h
  | worker n =>
    unfold emits at h
    simp only [Option.bind_eq_some_iff, Option.map_eq_some_iff] at h
    obtain ⟨x, -, q, -, y⟩ := h
    cases y

theorem ports {calm : Prop} {g : Config} {k : Ends} {xs : List TcpStack.Ev} {ss : List Step} (h : Clients calm g k xs ss) :
    (∀ m iss, TcpStack.Ev.segment m iss ∈ xs → 1 ≤ m.lport ∧ m.lport < 65536) ∧
    (∀ m iss, TcpStack.Ev.segment m iss ∈ events g ss → 1 ≤ m.lport ∧ m.lport < 65536) := by
  induction h with
  | start => exact ⟨by simp, by simp [events]⟩
  | client _ hr ih =>
    refine ⟨fun m iss hm => ?_, ih.2⟩
    rcases List.mem_append.1 hm with x | x
    · exact ih.1 m iss x
    · rw [List.mem_singleton] at x; exact (hr m iss x.symm).1
  | service _ hr _ ih =>
    refine ⟨ih.1, fun m iss hm => ?_⟩
    rw [events_snoc] at hm
    rcases List.mem_append.1 hm with x | x
    · exact ih.2 m iss x
    · rw [Option.mem_toList] at x
      exact ((hr _ (emits_segment x)).1 m iss rfl).1

theorem byStack {e : Sess.Ev} (h : ∀ q, e ≠ Call.ev q) : ByStack e := by
  cases e with
  | send d => exact absurd rfl (h (.send d))
  | recvAcquire => exact absurd rfl (h .recvAcquire)
  | recvTake n => exact absurd rfl (h (.recvTake n))
  | close => exact absurd rfl (h .close)
  | connectReturn => exact absurd rfl (h .connectReturn)
  | segment m => exact .segment m
  | clock => exact .clock
  | timer => exact .timer
  | table b => exact .table b

theorem parent_of_worker {g : Config} {ss : List Step} (ha : Alone g ss) {l r : Nat} (hd : door (run g ss) = some l)
    (hr : r ∈ (run g ss).workers.map (·.sock)) : (run g ss).t.parent r = some l := by
  rw [(sinv ha).socks l hd, run_t] at hr
  rw [run_t]
  have hv := inv (events g ss)
  have hin : r ∈ inbound (TcpStack.run (events g ss)) l := by rw [← hv.acc l]; exact List.mem_append_left _ hr
  obtain ⟨x, hx, hb⟩ := List.mem_filterMap.1 hin
  unfold inboundNote at hb
  split at hb
  · split at hb
    · rename_i hp
      injection hb with hb
      rw [hb] at hp; exact hp
    · cases hb
  · cases hb

theorem door_of_worker {g : Config} {ss : List Step} (ha : Alone g ss) {n : Nat} {w : Worker} (h : (run g ss).workers[n]? = some w) :
    ∃ l, door (run g ss) = some l ∧ (run g ss).t.parent w.sock = some l := by
  obtain ⟨l, hm⟩ : ∃ l, (run g ss).main = .accept l := by
    apply Classical.byContradiction
    intro hn
    rw [(sinv ha).none (fun r hr => hn ⟨r, hr⟩)] at h; cases h
  have hd : door (run g ss) = some l := by unfold door; rw [hm]
  exact ⟨l, hd, parent_of_worker ha hd (List.mem_map.2 ⟨_, List.mem_of_getElem? h, rfl⟩)⟩

theorem snoc_get {ws ws' : List Worker} {n : Nat} {w : Worker} (h : (ws ++ ws')[n]? = some w) : ws[n]? = some w ∨ (ws.length ≤ n ∧ w ∈ ws') := by
  rw [List.getElem?_append] at h
  split at h
  · exact .inl h
  · exact .inr ⟨by omega, List.mem_of_getElem? h⟩

/-- The threads after a step. -/
theorem threads_step {g : Config} {ss : List Step} {s : Step} (ha : Alone g (ss ++ [s])) (j : Nat) :
    (∀ n pc, ThreadOf (run g ss) n j pc → ∃ pc', ThreadOf (step g (run g ss) s) n j pc') ∧
    ∀ n pc', ThreadOf (step g (run g ss) s) n j pc' →
      (∃ pc, ThreadOf (run g ss) n j pc ∧ (pc' = pc ∨ (s = .worker n ∧ ∃ w S, sessionOf (run g ss) n = some (w, j, S) ∧ w.pc = pc ∧
        pc' = (turn (run g ss).running S pc).2))) ∨
      (pc' = .hello ∧ ∀ m pc, ¬ ThreadOf (run g ss) m j pc) := by
  have ha₀ := ha.prefix (ss := ss) [s]
  have hst : ∀ (n : Nat) (w : Worker), (run g ss).workers[n]? = some w → (step g (run g ss) s).t.session w.sock = (run g ss).t.session w.sock := by
    intro n w h
    obtain ⟨l, h1, h2⟩ := door_of_worker ha₀ h
    exact stable ha h1 h2
  have same : (step g (run g ss) s).workers = (run g ss).workers → (∀ n pc, ThreadOf (run g ss) n j pc → ThreadOf (step g (run g ss) s) n j pc) ∧
      ∀ n pc, ThreadOf (step g (run g ss) s) n j pc → ThreadOf (run g ss) n j pc := by
    intro hw
    refine ⟨?_, ?_⟩
    · rintro n pc ⟨r, h1, h2⟩
      exact ⟨r, by rw [hw]; exact h1, by rw [hst n _ h1]; exact h2⟩
    · rintro n pc ⟨r, h1, h2⟩
      rw [hw] at h1
      exact ⟨r, h1, by rw [← hst n _ h1]; exact h2⟩
  cases s with
  | net e => exact (And.intro (fun n pc h => Exists.intro pc ((same rfl).1 n pc h)) (fun n pc h => Or.inl ⟨pc, (same rfl).2 n pc h, .inl rfl⟩))
  | stop => exact (And.intro (fun n pc h => Exists.intro pc ((same rfl).1 n pc h)) (fun n pc h => Or.inl ⟨pc, (same rfl).2 n pc h, .inl rfl⟩))
  | main st c i =>
    have hwork : (step g (run g ss) (.main st c i)).workers = (run g ss).workers ++ spawned (run g ss) := rfl
    refine ⟨?_, ?_⟩
    · rintro n pc ⟨r, h1, h2⟩
      exact ⟨pc, r, by rw [hwork, List.getElem?_append_left (get_lt' h1)]; exact h1, by rw [hst n _ h1]; exact h2⟩
    · rintro n pc ⟨r, h1, h2⟩
      have h1' := h1
      rw [hwork] at h1'
      rcases snoc_get h1' with x | ⟨x, y⟩
      · exact .inl ⟨pc, ⟨r, x, by rw [← hst n _ x]; exact h2⟩, .inl rfl⟩
      · right
        have hp : pc = .hello := by
          unfold spawned at y
          split at y
          · split at y
            · cases y
            · split at y
              · cases y
              · rw [List.mem_singleton] at y; cases y; rfl
          · cases y
        refine ⟨hp, fun m pc' hm => ?_⟩
        have : ∃ pc'', ThreadOf (step g (run g ss) (.main st c i)) m j pc'' ∧ m < (run g ss).workers.length := by
          obtain ⟨r', k1, k2⟩ := hm
          exact ⟨pc', ⟨r', by rw [hwork, List.getElem?_append_left (get_lt' k1)]; exact k1, by rw [hst m _ k1]; exact k2⟩, get_lt' k1⟩
        obtain ⟨pc'', k1, k2⟩ := this
        have hn : ThreadOf (step g (run g ss) (.main st c i)) n j pc := ⟨r, h1, h2⟩
        rw [← run_snoc] at k1 hn
        have := one_thread ha k1 hn
        omega
  | worker m =>
    cases hs : sessionOf (run g ss) m with
    | none =>
      have : step g (run g ss) (.worker m) = run g ss := by unfold step; simp only [hs]
      have this := congrArg Srv.workers this
      exact (And.intro (fun n pc h => Exists.intro pc ((same this).1 n pc h)) (fun n pc h => Or.inl ⟨pc, (same this).2 n pc h, .inl rfl⟩))
    | some x =>
      obtain ⟨w, i, S⟩ := x
      obtain ⟨h1, h2, -⟩ := sessionOf_some hs
      have hwork : (step g (run g ss) (.worker m)).workers = (run g ss).workers.set m ⟨w.sock, (turn (run g ss).running S w.pc).2⟩ := by
        unfold step; simp only [hs]
      have hlt := get_lt' h1
      refine ⟨?_, ?_⟩
      · rintro n pc ⟨r, k1, k2⟩
        by_cases e : m = n
        · subst e
          rw [h1] at k1; cases k1
          exact ⟨_, r, by rw [hwork]; exact List.getElem?_set_self hlt, by rw [← k2]; exact hst m _ h1⟩
        · exact ⟨pc, r, by rw [hwork, List.getElem?_set_ne e]; exact k1, by rw [hst n _ k1]; exact k2⟩
      · rintro n pc ⟨r, k1, k2⟩
        left
        rw [hwork] at k1
        rcases get_set k1 with ⟨rfl, x⟩ | ⟨_, x⟩
        · cases x
          rw [hst n _ h1] at k2
          refine ⟨w.pc, ⟨w.sock, h1, k2⟩, .inr ⟨rfl, w, S, ?_, rfl, rfl⟩⟩
          rw [h2] at k2; cases k2
          exact hs
        · exact ⟨pc, ⟨r, x, by rw [← hst n _ x]; exact k2⟩, .inl rfl⟩

/-- The two sessions of a connection, with the thread at the one. -/
theorem served {calm : Prop} {g : Config} {k : Ends} (hk : k.lport ≠ 0 ∧ k.rport ≠ 0) {xs : List TcpStack.Ev} {ss : List Step}
    (h : Clients calm g k xs ss) {i j n : Nat} {a b : Sess} {pc : Pc} (ha : Only k (TcpStack.run xs) i a) (hb : Only k.flip (run g ss).t j b)
    (ht : ThreadOf (run g ss) n j pc) :
    ∃ p ia l lp r rp q ib l' lp' r' rp', Served calm (opened p ia l lp r rp) (opened q ib l' lp' r' rp') a b pc := by
  have hal := Alone.of h
  obtain ⟨ra, hai⟩ := ha.1
  rw [run_t] at hb
  obtain ⟨rb, hbj⟩ := hb.1
  obtain ⟨p, ia, l, lp, r, rp, hx⟩ := origin xs i _ hai
  obtain ⟨q, ib, l', lp', r', rp', hy⟩ := origin (events g ss) j _ hbj
  refine ⟨p, ia, l, lp, r, rp, q, ib, l', lp', r', rp', ?_⟩
  obtain ⟨D, hD, hits⟩ : ∃ D, door (run g ss) = some D ∧ ∀ c, (run g ss).t.conns[j]? = some c → Its (run g ss).t D c.sock := by
    obtain ⟨r, h1, h2⟩ := ht
    obtain ⟨D, c, k1, k2, k3, k4, -⟩ := thread_facts hal h1 h2
    refine ⟨D, k1, fun c' hc' => ?_⟩
    rw [k3] at hc'; cases hc'
    rw [k4]; exact .inr k2
  generalize opened p ia l lp r rp = X at hx ⊢
  generalize opened q ib l' lp' r' rp' = Y at hy ⊢
  have key : ∀ us vs, Clients calm g k us vs → ∀ us' vs', xs = us ++ us' → ss = vs ++ vs' →
      (∀ n' pc', ThreadOf (run g vs) n' j pc' → Served calm X Y (X.run (historyOf us i)) (Y.run (historyOf (events g vs) j)) pc') ∧
      ((∀ n' pc', ¬ ThreadOf (run g vs) n' j pc') → Served calm X Y (X.run (historyOf us i)) (Y.run (historyOf (events g vs) j)) .hello) := by
    intro us vs huv
    induction huv with
    | start =>
      intro _ _ _ _
      refine ⟨?_, fun _ => .start⟩
      rintro n' pc' ⟨r, h1, -⟩
      cases h1
    | @client us vs e hh hr ih =>
      intro us' vs' hu hv
      have hih := ih ([e] ++ us') vs' (by rw [hu, List.append_assoc]) hv
      obtain ⟨suf, hsuf⟩ := events_append g vs vs'
      rw [← hv] at hsuf
      have go : ∀ pc', Served calm X Y (X.run (historyOf us i)) (Y.run (historyOf (events g vs) j)) pc' →
          Served calm X Y (X.run (historyOf (us ++ [e]) i)) (Y.run (historyOf (events g vs) j)) pc' := by
        intro pc' hJ
        refine one_step (t := Y.run (historyOf (events g vs) j)) hk.2 (suf := us') (s := a) (ports hh).1 (by rw [← hu]; exact ha)
          (hx us ([e] ++ us') (by rw [hu, List.append_assoc])) hJ (J := fun z => Served calm X Y z _ pc') (fun _ _ h he _ => .client h he)
          (fun m iss he hm => ?_)
        rcases (hr m iss he).2 hm with z | ⟨j', d, h1, h2, G, h3, h4⟩
        · exact .inl z
        · rw [run_t] at h1 h3
          exact .inr ⟨G, sender (suf := suf) (by rw [← hsuf]; exact hb) (hy (events g vs) suf hsuf) h1 h2 h3, h4⟩
      exact ⟨fun n' pc' h => go pc' (hih.1 n' pc' h), fun h => go _ (hih.2 h)⟩
    | @service us vs s hh hr hc ih =>
      intro us' vs' hu hv
      have hih := ih us' ([s] ++ vs') hu (by rw [hv, List.append_assoc])
      have halv : Alone g (vs ++ [s]) := Alone.prefix vs' (by rw [← hv]; exact hal)
      have hal₀ := halv.prefix (ss := vs) [s]
      obtain ⟨suf, hsuf⟩ := events_append g (vs ++ [s]) vs'
      rw [← hv] at hsuf
      obtain ⟨th1, th2⟩ := threads_step halv j
      have hitv : ∀ c, (run g vs).t.conns[j]? = some c → door (run g vs) = some D ∧ Its (run g vs).t D c.sock := by
        intro c hcv
        obtain ⟨c', e1, _⟩ : ∃ c', (run g ss).t.conns[j]? = some c' ∧ True := ⟨_, by rw [run_t]; exact hbj, trivial⟩
        have hss : ss = vs ++ ([s] ++ vs') := by rw [hv, List.append_assoc]
        rw [hss] at hal hD e1 hits
        exact its_back hal hD e1 (hits c' e1) hcv
      -- the step is not one of the thread of this session
      have go : (∀ m w S, s = .worker m → sessionOf (run g vs) m ≠ some (w, j, S)) → ∀ pc', (calm → pc' ≠ .taking) →
          Served calm X Y (X.run (historyOf us i)) (Y.run (historyOf (events g vs) j)) pc' →
          Served calm X Y (X.run (historyOf us i)) (Y.run (historyOf (events g (vs ++ [s])) j)) pc' := by
        intro hns pc' hcal hJ
        rw [events_snoc]
        cases he : emits g (run g vs) s with
        | none => rw [Option.toList_none, List.append_nil]; exact hJ
        | some e =>
          rw [Option.toList_some]
          have hsuf' : events g ss = (events g vs ++ [e]) ++ suf := by rw [hsuf, events_snoc, he]; rfl
          cases hcj : (TcpStack.run (events g vs)).conns[j]? with
          | none =>
            rw [historyOf_snoc, show portion (TcpStack.run (events g vs)) j e = [] by simp [portion, hcj], List.append_nil]
            exact hJ
          | some c =>
            have hnc : ∀ q, e ≠ .call j q := by
              rintro q rfl
              cases s with
              | net e' =>
                cases he
                have hcj' : (run g vs).t.conns[j]? = some c := by rw [run_t]; exact hcj
                obtain ⟨h1, h2⟩ := hitv c hcj'
                have := (hr _ rfl).2 D h1
                exact this (by rw [sockOf_eq hcj']; exact h2)
              | stop => cases he
              | main st c i =>
                unfold emits at he
                cases hm : (run g vs).main with
                | socket => rw [hm] at he; obtain ⟨a, -, x⟩ := Option.map_eq_some_iff.1 he; cases x
                | _ => rw [hm] at he; cases he
              | worker m =>
                unfold emits at he
                simp only [Option.bind_eq_some_iff, Option.map_eq_some_iff] at he
                obtain ⟨⟨w, i', S⟩, h1, q', h2, h3⟩ := he
                cases h3
                exact hns m w S rfl h1
            refine one_step (t := X.run (historyOf us i)) (k := k.flip) hk.1 (suf := suf) (s := b) (ports hh).2 (by rw [← hsuf']; exact hb)
              (hy (events g vs) ([e] ++ suf) (by rw [hsuf', List.append_assoc])) hJ (J := fun z => Served calm X Y _ z pc')
              (fun z ev h hev hq => ?_) (fun m iss hem hm => ?_)
            · exact .stack h (byStack (fun q hq' => hnc q (hq q hq'))) hev (fun c t => absurd t (hcal c))
            · subst hem
              have := emits_segment he
              rcases ((hr _ this).1 m iss rfl).2 hm with z | ⟨j', d, h1, h2, G, h3, h4⟩
              · exact .inl z
              · exact .inr ⟨G, sender (suf := us') (by rw [← hu]; exact ha) (hx us us' hu) h1 h2 h3, h4⟩
      rw [run_snoc]
      by_cases hsp : ∃ m w S, s = .worker m ∧ sessionOf (run g vs) m = some (w, j, S)
      · obtain ⟨m, w, S, rfl, hsm⟩ := hsp
        obtain ⟨h1, h2, c, h3, h4⟩ := sessionOf_some hsm
        have hth : ThreadOf (run g vs) m j w.pc := ⟨w.sock, h1, h2⟩
        have hJ := hih.1 m w.pc hth
        obtain ⟨_, c', -, -, k3, -, k5⟩ := thread_facts hal₀ h1 h2
        rw [h3] at k3; cases k3
        have hcB : c.s = Y.run (historyOf (events g vs) j) := by
          refine hy (events g vs) ((emits g (run g vs) (.worker m)).toList ++ suf) ?_ c ?_
          · rw [hsuf, events_snoc, List.append_assoc]
          · rw [← run_t]; exact h3
        have key : Served calm X Y (X.run (historyOf us i)) (Y.run (historyOf (events g (vs ++ [.worker m])) j)) (turn (run g vs).running S w.pc).2 := by
          rw [events_snoc]
          have he : emits g (run g vs) (.worker m) = (callOf S w.pc).map (.call j) := by
            unfold emits; simp only [hsm]; rfl
          rw [he]
          rw [← hcB] at hJ
          cases hcall : callOf S w.pc with
          | none =>
            rw [Option.map_none, Option.toList_none, List.append_nil, ← hcB]
            have := Served.service (run g vs).running hJ k5
            rw [h4] at hcall
            rw [turn_wait _ _ _ _ hcall, ← h4] at this
            exact this
          | some Q =>
            rw [Option.map_some, Option.toList_some, historyOf_snoc, run_append, ← hcB]
            have hp : portion (TcpStack.run (events g vs)) j (.call j Q) = [.table ((run g vs).t.has c.sock), Q.ev] := by
              rw [run_t] at h3 ⊢
              simp [portion, h3, asked_eq]
            rw [hp]
            have hS : S = c.s.step (.table ((run g vs).t.has c.sock)) := h4
            have h5 : Served calm X Y (X.run (historyOf us i)) S w.pc := by
              rw [hS]
              exact .stack hJ (.table _) (fun m hm => nomatch hm) (fun _ _ => ⟨_, rfl⟩)
            have := Served.service (run g vs).running h5 (by rw [h4]; exact k5)
            rw [turn_call, hcall] at this
            dsimp only at this
            rw [hS] at this
            rw [hS]
            exact this
        refine ⟨fun n' pc' hn' => ?_, fun hn => ?_⟩
        · rcases th2 n' pc' hn' with ⟨pc₀, g1, g2⟩ | ⟨_, g2⟩
          · have := one_thread hal₀ hth g1
            subst this
            rcases g2 with g2 | ⟨_, w', S', g3, g4, g5⟩
            · obtain ⟨r₁, e1, e2⟩ := g1
              obtain ⟨r₂, e3, e4⟩ := hn'
              have hwork : (step g (run g vs) (.worker m)).workers = (run g vs).workers.set m ⟨w.sock, (turn (run g vs).running S w.pc).2⟩ := by
                unfold step; simp only [hsm]
              rw [hwork, List.getElem?_set_self (get_lt' h1)] at e3
              cases e3
              exact key
            · rw [hsm] at g3; cases g3
              rw [g5, ← g4]; exact key
          · exact absurd hth (g2 m w.pc)
        · obtain ⟨pc', g1⟩ := th1 m w.pc hth
          exact absurd g1 (hn m pc')
      · have hns : ∀ m w S, s = .worker m → sessionOf (run g vs) m ≠ some (w, j, S) := fun m w S h1 h2 => hsp ⟨m, w, S, h1, h2⟩
        refine ⟨fun n' pc' hn' => ?_, fun hn => ?_⟩
        · rcases th2 n' pc' hn' with ⟨pc₀, g1, g2⟩ | ⟨g1, g2⟩
          · rcases g2 with rfl | ⟨g2, w, S, g3, -⟩
            · refine go hns _ (fun c t => ?_) (hih.1 n' _ g1)
              subst t
              obtain ⟨r₁, e1, e2⟩ := g1
              have := hc c n' _ e1 rfl
              obtain ⟨_, c', -, -, k3, -⟩ := thread_facts hal₀ e1 e2
              refine hns n' ⟨r₁, .taking⟩ { c'.s with registered := (run g vs).t.has c'.sock } this ?_
              unfold sessionOf
              simp [e1, e2, k3]
            · exact absurd g3 (hns n' w S g2)
          · rw [g1]
            exact go hns _ (fun _ => by simp) (hih.2 g2)
        · refine go hns _ (fun _ => by simp) (hih.2 (fun n' pc' h => ?_))
          obtain ⟨pc'', h'⟩ := th1 n' pc' h
          exact hn n' pc'' h'
  have := (key xs ss h [] [] (by simp) (by simp)).1 n pc ht
  rw [← hx xs [] (by simp) _ hai, ← hy (events g ss) [] (by simp) _ hbj] at this
  exact this

end Verif.TcpService
