import Verif.Lemmas.Threads
/-! A call on a socket, with no other call between its steps. -/
namespace Verif
open Spec
namespace Threads

attribute [local irreducible] Socks.ephemeral

/-! ### Keys -/

theorem nodup_step {s : St} (h : s.ss.table.keys.Nodup) (e : Step) : (s.step e).ss.table.keys.Nodup := by
  have hb : ∀ r choice (f : Sock → Bool × Pos), (s.begin r choice f).ss.table.keys.Nodup := by
    intro r choice f
    rw [St.begin]
    split <;> exact h
  cases e with
  | socket f t => exact h
  | bind r addr port choice => exact hb _ _ _
  | connect r addr port choice => exact hb _ _ _
  | sendto r port choice => exact hb _ _ _
  | go k =>
    rw [St.step]
    split
    · exact h
    · split
      · exact h
      · rw [St.go]
        split
        · exact h
        · split
          · exact h
          · split
            · exact h
            · split <;> exact h
        · exact Dict.nodup_erase _ h
        · exact h
        · split
          · exact h
          · split <;> exact h
        · exact Dict.nodup_erase _ h
        · exact h
        · exact Dict.nodup_set _ _ h
        · exact h
  | close r => rw [St.step, Socks.close]; split; exacts [h, Dict.nodup_erase _ h]
  | listen r => rw [St.step, Socks.listen]; split; exacts [h, Dict.nodup_set _ _ h]
  | accepted id => exact Dict.nodup_set _ _ h
  | gone r => rw [St.step, Socks.gone]; split; exacts [h, Dict.nodup_erase _ h]
  | arrive m => rw [St.step]; split <;> exact h
  | rx =>
    rw [St.step, St.receive]
    split
    · exact h
    · exact h
    · split <;> exact h
    · split <;> exact h
    · exact h
    · exact h
  | acquire r => rw [St.step]; split <;> exact h
  | take r =>
    rw [St.step]
    split
    · exact h
    · dsimp only
      split
      · exact h
      · split <;> exact h

theorem nodup_run {s : St} (h : NoSockets s) (xs : List Step) : (s.run xs).ss.table.keys.Nodup := by
  induction xs using List.reverseRecOn with
  | nil => rw [h]; exact List.nodup_nil
  | append_singleton xs e ih => rw [run_snoc]; exact nodup_step ih e

/-! ### Without the queues -/

def clear (k : Sock) : Sock := { k with queue := [] }

def bare (ss : Socks) : Socks := ⟨ss.socks.map clear, ss.table⟩

theorem same_of_bare {a b : Socks} (h : bare a = bare b) : SamePlaces a b := by
  rw [bare, bare, Socks.mk.injEq] at h
  refine ⟨h.2, ?_⟩
  have := congrArg (List.map fun k : Sock => (k.id, k.unreachable, k.accepted)) h.1
  simpa [Function.comp_def, clear] using this

theorem bare_put (ss : Socks) (r : Nat) (o : Sock) : bare (ss.put r o) = (bare ss).put r (clear o) := by
  simp [bare, Socks.put, List.map_set]

theorem bare_get (ss : Socks) (r : Nat) : (bare ss).socks[r]? = (ss.socks[r]?).map clear := by simp [bare]

theorem put_same {ss : Socks} {r : Nat} {o : Sock} (h : ss.socks[r]? = some o) : ss.put r o = ss := by
  obtain ⟨h1, h2⟩ := List.getElem?_eq_some_iff.1 h
  rw [Socks.put, ← h2, List.set_getElem_self]

theorem put_put (ss : Socks) (r : Nat) (o o' : Sock) : (ss.put r o).put r o' = ss.put r o' := by
  simp [Socks.put, List.set_set]

theorem put_get {ss : Socks} {r : Nat} {o : Sock} (h : ss.socks[r]? = some o) (o' : Sock) : (ss.put r o').socks[r]? = some o' := by
  rw [Socks.put, List.getElem?_set_self (List.getElem?_eq_some_iff.1 h).1]

/-! ### What a call comes to -/

/-- The rest of a call, once it has looked at everything. -/
def late (ss : Socks) (r : Nat) (o : Sock) : Pos → Socks × Res
  | .pop e => (ss.register r o (e.apply o.id), .ok)
  | .assign e => (⟨ss.socks.set r { o with id := e.apply o.id }, ss.table.set (e.apply o.id) r⟩, .ok)
  | .insert => (⟨ss.socks, ss.table.set o.id r⟩, .ok)
  | .done x => (ss, x)
  | _ => (ss, .ok)

/-- The sockets of these ids are at the wanted address. -/
def taken (ss : Socks) (o : Sock) (lip : IpAddress) (lport : Nat) (ids : List SockId) : Bool :=
  ids.any fun id => match (ss.table.get? id).bind (ss.socks[·]?) with
    | none => false
    | some x => conflicts o x lip lport

def withPort (st : Stack) (ss : Socks) (r choice : Nat) (o : Sock) (w : For) (seen : List Nat) : Socks × Res :=
  late (ss.put r { o with unreachable := (picked st o choice seen w).1 }) r { o with unreachable := (picked st o choice seen w).1 }
    (picked st o choice seen w).2

/-- The rest of a call. -/
def fin (st : Stack) (ss : Socks) (r choice : Nat) (o : Sock) : Pos → Socks × Res
  | .check e lip => if taken ss o lip e.lport ss.table.keys then (ss, .raised .osError) else late ss r o (.pop e)
  | .scan e lip todo _ => if taken ss o lip e.lport todo then (ss, .raised .osError) else late ss r o (.pop e)
  | .first => withPort st { ss with table := ss.table.erase o.id } r choice o .sendto (((ss.table.erase o.id).keys.filter fun id => (ss.table.erase o.id).has id).map (·.lport))
  | .enter w => withPort st ss r choice o w ((ss.table.keys.filter fun id => ss.table.has id).map (·.lport))
  | .ports w todo _ seen => withPort st ss r choice o w (seen ++ (todo.filter fun id => ss.table.has id).map (·.lport))
  | p => late ss r o p

/-- The dict has the size it had when the call began to go through it. -/
def Sized : Pos → Socks → Prop
  | .scan _ _ _ used, ss => ss.table.length = used
  | .ports _ _ used _, ss => ss.table.length = used
  | _, _ => True

theorem picked_clear (st : Stack) (o : Sock) (choice : Nat) (seen : List Nat) (w : For) : picked st (clear o) choice seen w = picked st o choice seen w := by
  unfold picked
  generalize Socks.ephemeral = l
  cases w <;> rfl

theorem conflicts_clear (o x : Sock) (lip : IpAddress) (lport : Nat) : conflicts (clear o) (clear x) lip lport = conflicts o x lip lport := rfl

theorem picked_late (st : Stack) (o : Sock) (choice : Nat) (seen : List Nat) (w : For) :
    (∃ x, (picked st o choice seen w).2 = .done x) ∨ (∃ e, (picked st o choice seen w).2 = .pop e) ∨ ∃ e, (picked st o choice seen w).2 = .assign e := by
  unfold picked
  generalize Socks.ephemeral = l
  dsimp only
  split
  · exact .inl ⟨_, rfl⟩
  · split
    · exact .inr (.inl ⟨_, rfl⟩)
    · rw [connectTo]
      split
      · exact .inl ⟨_, rfl⟩
      · exact .inr (.inl ⟨_, rfl⟩)
    · exact .inr (.inr ⟨_, rfl⟩)

/-- The call `k` is on its way to `F`. -/
structure Going (st : Stack) (k r choice : Nat) (F : Socks × Res) (t : St) : Prop where
  stack : t.stack = st
  call : ∃ pos o, t.calls[k]? = some ⟨r, choice, pos⟩ ∧ t.ss.socks[r]? = some o ∧ Sized pos t.ss ∧ fin st (bare t.ss) r choice (clear o) pos = F

theorem at_get {s : St} {k : Nat} {c c' : Call} (h : s.calls[k]? = some c') (p : Pos) : (s.at_ k c p).calls[k]? = some { c with pos := p } := by
  rw [St.at_]
  exact List.getElem?_set_self (List.getElem?_eq_some_iff.1 h).1

theorem Going.go {st : Stack} {k r choice : Nat} {F : Socks × Res} {t : St} (h : Going st k r choice F t) : Going st k r choice F (t.step (.go k)) := by
  obtain ⟨hst, pos, o, hc, ho, hz, hF⟩ := h
  rw [St.step, hc]
  dsimp only
  rw [ho]
  dsimp only
  rw [St.go]
  cases pos with
  | check e lip => exact ⟨hst, _, o, at_get hc _, ho, rfl, hF⟩
  | scan e lip todo used =>
    dsimp only
    rw [if_neg (by simpa [Sized] using hz)]
    cases todo with
    | nil => exact ⟨hst, _, o, at_get hc _, ho, trivial, by rw [← hF, fin, taken]; rfl⟩
    | cons id todo =>
      dsimp only
      rw [fin, taken, List.any_cons] at hF
      have hx : ((bare t.ss).table.get? id).bind ((bare t.ss).socks[·]?) = ((t.ss.table.get? id).bind (t.ss.socks[·]?)).map clear := by
        show (t.ss.table.get? id).bind _ = _
        cases t.ss.table.get? id with
        | none => rfl
        | some i => exact bare_get _ _
      rw [hx] at hF
      cases hy : (t.ss.table.get? id).bind (t.ss.socks[·]?) with
      | none =>
        rw [hy] at hF
        exact ⟨hst, _, o, at_get hc _, ho, hz, hF⟩
      | some x =>
        rw [hy] at hF
        refine ⟨hst, _, o, at_get hc _, ho, ?_, ?_⟩
        · split
          · trivial
          · exact hz
        · have hcc : conflicts (clear o) (clear x) lip e.lport = conflicts o x lip e.lport := conflicts_clear ..
          simp only [Option.map_some, hcc] at hF
          by_cases hb : conflicts o x lip e.lport = true
          · rw [if_pos (by rw [hb]; rfl)] at hF
            rw [if_pos hb]
            exact hF
          · rw [if_neg hb]
            rw [Bool.not_eq_true] at hb
            rw [hb, Bool.false_or] at hF
            exact hF
  | first => exact ⟨hst, _, o, at_get hc _, ho, trivial, hF⟩
  | enter w => exact ⟨hst, _, o, at_get hc _, ho, rfl, hF⟩
  | ports w todo used seen =>
    dsimp only
    rw [if_neg (by simpa [Sized] using hz)]
    cases todo with
    | nil =>
      dsimp only
      refine ⟨hst, _, _, at_get hc _, put_get ho _, ?_, ?_⟩
      · rcases picked_late t.stack o choice seen w with ⟨x, hx⟩ | ⟨x, hx⟩ | ⟨x, hx⟩ <;> (rw [hx]; trivial)
      · rw [← hF, fin, withPort]
        simp only [List.filter_nil, List.map_nil, List.append_nil, picked_clear]
        rw [← hst, bare_put]
        rcases picked_late t.stack o choice seen w with ⟨x, hx⟩ | ⟨x, hx⟩ | ⟨x, hx⟩ <;> (rw [hx]; rfl)
    | cons id todo =>
      refine ⟨hst, _, o, at_get hc _, ho, hz, ?_⟩
      rw [← hF, fin, fin, List.filter_cons]
      by_cases hh : t.ss.table.has id = true
      · rw [if_pos hh, if_pos (show (bare t.ss).table.has id = true from hh)]
        rw [List.map_cons, List.append_assoc]
        rfl
      · rw [if_neg hh, if_neg (show ¬ (bare t.ss).table.has id = true from hh)]
        rfl
  | pop e =>
    refine ⟨hst, _, o, at_get hc _, ho, trivial, hF⟩
  | assign e =>
    refine ⟨hst, _, _, at_get hc _, put_get ho _, trivial, ?_⟩
    rw [← hF]
    simp only [fin, late]
    rw [bare_put]
    rfl
  | insert => exact ⟨hst, _, o, at_get hc _, ho, trivial, hF⟩
  | done x => exact ⟨hst, _, o, hc, ho, trivial, hF⟩

/-- Steps that have nothing to do with where sockets are. -/
theorem elsewhere_same {s : St} {e : Step} (h : Elsewhere e) : (s.step e).stack = s.stack ∧ (s.step e).calls = s.calls ∧ bare (s.step e).ss = bare s.ss := by
  have hp : ∀ {r : Nat} {o o' : Sock}, s.ss.socks[r]? = some o → clear o' = clear o → bare (s.ss.put r o') = bare s.ss := by
    intro r o o' ho hc
    rw [bare_put, hc, put_same]
    rw [bare_get, ho]; rfl
  cases e with
  | arrive m => rw [St.step]; split <;> exact ⟨rfl, rfl, rfl⟩
  | rx =>
    rw [St.step, St.receive]
    split
    · exact ⟨rfl, rfl, rfl⟩
    · exact ⟨rfl, rfl, rfl⟩
    · split <;> exact ⟨rfl, rfl, rfl⟩
    · split
      · exact ⟨rfl, rfl, rfl⟩
      · rename_i ho
        exact ⟨rfl, rfl, hp ho rfl⟩
    · exact ⟨rfl, rfl, rfl⟩
    · exact ⟨rfl, rfl, rfl⟩
  | acquire r => rw [St.step]; split <;> exact ⟨rfl, rfl, rfl⟩
  | take r =>
    rw [St.step]
    split
    · exact ⟨rfl, rfl, rfl⟩
    · dsimp only
      split
      · exact ⟨rfl, rfl, rfl⟩
      · rename_i ho
        split
        · exact ⟨rfl, rfl, rfl⟩
        · exact ⟨rfl, rfl, hp ho rfl⟩
  | _ => exact absurd h (by simp [Elsewhere])

theorem Going.elsewhere {st : Stack} {k r choice : Nat} {F : Socks × Res} {t : St} (h : Going st k r choice F t) {e : Step} (he : Elsewhere e) :
    Going st k r choice F (t.step e) := by
  obtain ⟨hst, pos, o, hc, ho, hz, hF⟩ := h
  obtain ⟨h1, h2, h3⟩ := elsewhere_same (s := t) he
  have hg : (bare (t.step e).ss).socks[r]? = (bare t.ss).socks[r]? := by rw [h3]
  rw [bare_get, bare_get, ho] at hg
  cases ho' : (t.step e).ss.socks[r]? with
  | none => rw [ho'] at hg; cases hg
  | some o' =>
    rw [ho'] at hg
    have hcl : clear o' = clear o := by simpa using hg
    refine ⟨h1.trans hst, pos, o', by rw [h2]; exact hc, ho', ?_, by rw [h3, hcl]; exact hF⟩
    have : (bare (t.step e).ss).table = (bare t.ss).table := congrArg Socks.table h3
    change (t.step e).ss.table = t.ss.table at this
    cases pos <;> simp only [Sized, this] at hz ⊢ <;> exact hz

theorem Going.run {st : Stack} {k r choice : Nat} {F : Socks × Res} {t : St} (h : Going st k r choice F t) {ys : List Step}
    (hy : ∀ e ∈ ys, Elsewhere e ∨ e = .go k) : Going st k r choice F (t.run ys) := by
  induction ys using List.reverseRecOn with
  | nil => exact h
  | append_singleton ys e ih =>
    rw [run_snoc]
    have := ih fun x hx => hy x (List.mem_append_left _ hx)
    rcases hy e (by simp) with he | rfl
    · exact this.elsewhere he
    · exact this.go

theorem Going.done {st : Stack} {k r choice : Nat} {F : Socks × Res} {t : St} (h : Going st k r choice F t) {x : Res}
    (hd : (t.calls[k]?).map (·.pos) = some (.done x)) : bare t.ss = F.1 ∧ x = F.2 := by
  obtain ⟨hst, pos, o, hc, ho, hz, hF⟩ := h
  rw [hc] at hd
  simp only [Option.map_some, Option.some.injEq] at hd
  subst hd
  exact ⟨congrArg Prod.fst hF, congrArg Prod.snd hF⟩

/-! ### Where calls begin -/

theorem taken_keys {ss : Socks} (h : ss.table.keys.Nodup) (o : Sock) (lip : IpAddress) (lport : Nat) :
    taken ss o lip lport ss.table.keys = ss.inUse o lip lport := by
  rw [taken, Socks.inUse, Dict.keys, List.any_map]
  apply Bool.eq_iff_iff.2
  simp only [List.any_eq_true, Function.comp]
  constructor
  · rintro ⟨e, he, hx⟩
    refine ⟨e, he, ?_⟩
    rw [(Dict.mem_iff h _ _).1 he] at hx
    exact hx
  · rintro ⟨e, he, hx⟩
    refine ⟨e, he, ?_⟩
    rw [(Dict.mem_iff h _ _).1 he]
    exact hx

theorem filter_has (t : Dict SockId Nat) : (t.keys.filter fun id => t.has id) = t.keys := by
  rw [List.filter_eq_self]
  intro id hid
  exact (Dict.has_iff _ _).2 hid

theorem picked_keys (st : Stack) (ss : Socks) (o : Sock) (choice : Nat) (w : For) :
    picked st o choice (ss.table.keys.map (·.lport)) w = match ss.pickLocalPort choice with
      | .error e => (o.unreachable, .done (.raised e))
      | .ok p => match w with
        | .bind a => (o.unreachable, .pop { lip := some a, lport := p })
        | .connect addr port => connectTo st o addr p port
        | .sendto => (o.unreachable, .assign { lport := p }) := by
  unfold picked Socks.pickLocalPort
  generalize Socks.ephemeral = l
  dsimp only
  split
  · rename_i h; rw [h]
  · rename_i h; rw [h]; cases w <;> rfl

theorem bare_register (ss : Socks) (r : Nat) (o : Sock) (id : SockId) : bare (ss.register r o id) = (bare ss).register r (clear o) id := by
  simp [bare, Socks.register, List.map_set, clear]

theorem bare_inUse (ss : Socks) (o : Sock) (lip : IpAddress) (lport : Nat) : (bare ss).inUse (clear o) lip lport = ss.inUse o lip lport := by
  rw [Socks.inUse, Socks.inUse]
  congr 1
  funext e
  rw [bare_get]
  cases ss.socks[e.2]? <;> rfl

theorem put_unreachable {ss : Socks} {r : Nat} {o : Sock} (h : ss.socks[r]? = some o) : ss.put r { o with unreachable := o.unreachable } = ss := put_same h

theorem begun {s : St} {r choice : Nat} {f : Sock → Bool × Pos} {o : Sock} (ho : s.ss.socks[r]? = some o) {F : Socks × Res} (hz : Sized (f o).2 s.ss)
    (hF : fin s.stack ((bare s.ss).put r (clear { o with unreachable := (f o).1 })) r choice (clear { o with unreachable := (f o).1 }) (f o).2 = F) :
    Going s.stack s.calls.length r choice F (s.begin r choice f) := by
  rw [St.begin, ho]
  refine ⟨rfl, _, _, List.getElem?_concat_length .., put_get ho _, ?_, by dsimp only; rw [bare_put]; exact hF⟩
  generalize (f o).2 = p at hz
  cases p <;> exact hz

theorem Edit.apply_bind (a : IpAddress) (p : Nat) (id : SockId) : ({ lip := some a, lport := p } : Edit).apply id = { id with lip := a, lport := p } := rfl

theorem clear_get {ss : Socks} {r : Nat} {o : Sock} (ho : ss.socks[r]? = some o) : (bare ss).socks[r]? = some (clear o) := by rw [bare_get, ho]; rfl

theorem fin_bind {ss : Socks} (hn : ss.table.keys.Nodup) (st : Stack) {r : Nat} {o : Sock} (ho : ss.socks[r]? = some o) (addr : Option IpAddress) (port : Int) (choice : Nat) :
    fin st (bare ss) r choice (clear o) (beginBind st o addr port) =
      (bare (ss.bind st r addr port choice).1, endOf (ss.bind st r addr port choice).2) := by
  rw [Socks.bind, ho]
  dsimp only
  unfold beginBind
  by_cases h1 : 1 ≤ o.id.lport ∧ o.id.lport < 65536
  · rw [if_pos h1, if_pos h1]; rfl
  rw [if_neg h1, if_neg h1]
  cases addr with
  | none => rfl
  | some a =>
    dsimp only
    by_cases h2 : a.family ≠ o.id.family
    · rw [if_pos h2, if_pos h2]; rfl
    rw [if_neg h2, if_neg h2]
    by_cases h3 : (!(Socks.owned st a || a.isUnspecified)) = true
    · rw [if_pos h3, if_pos h3]; rfl
    rw [if_neg h3, if_neg h3]
    by_cases h4 : ¬ (0 ≤ port ∧ port < 65536)
    · rw [if_pos h4, if_pos h4]; rfl
    rw [if_neg h4, if_neg h4]
    by_cases h5 : port > 0
    · rw [if_pos h5, if_pos h5, fin, taken_keys (ss := bare ss) hn, bare_inUse]
      by_cases h6 : ss.inUse o a port.toNat = true
      · rw [if_pos h6, if_pos h6]; rfl
      · rw [if_neg h6, if_neg h6, bare_register]; rfl
    · rw [if_neg h5, if_neg h5, fin, filter_has, withPort, picked_clear, show (bare ss).table = ss.table from rfl, picked_keys]
      cases ss.pickLocalPort choice with
      | error e =>
        dsimp only [late]
        rw [show ({ clear o with unreachable := o.unreachable } : Sock) = clear o from rfl, put_same (clear_get ho)]
        rfl
      | ok p =>
        dsimp only [late]
        rw [show ({ clear o with unreachable := o.unreachable } : Sock) = clear o from rfl, put_same (clear_get ho), bare_register]
        rfl

theorem connectTo_clear (st : Stack) (o : Sock) (addr : Option IpAddress) (p q : Nat) : connectTo st (clear o) addr p q = connectTo st o addr p q := rfl

theorem put_register (ss : Socks) (r : Nat) (o o' : Sock) (id : SockId) (h : o.id = o'.id) : (ss.put r o).register r o' id = ss.register r o' id := by
  simp [Socks.put, Socks.register]

theorem late_connect {ss : Socks} (st : Stack) {r : Nat} {o : Sock} (addr : Option IpAddress) (lport port : Nat) :
    late ((bare ss).put r { clear o with unreachable := (connectTo st o addr lport port).1 }) r { clear o with unreachable := (connectTo st o addr lport port).1 }
      (connectTo st o addr lport port).2 =
    match Socks.setIpAddresses st o addr o.id.lip lport port with
      | (u, .error e) => (bare (ss.put r { o with unreachable := u }), .raised e)
      | (u, .ok (lip, rip)) =>
        (bare (ss.register r { o with unreachable := u } { o.id with lip := lip, lport := lport, rip := rip, rport := port }), .ok) := by
  unfold connectTo
  generalize Socks.setIpAddresses st o addr o.id.lip lport port = x
  obtain ⟨u, e | ⟨lip, rip⟩⟩ := x
  · dsimp only
    rw [bare_put]
    rfl
  · dsimp only
    rw [bare_register]
    dsimp only [late]
    rw [put_register _ _ _ _ _ rfl]
    rfl

theorem fin_connect {ss : Socks} (st : Stack) {r : Nat} {o : Sock} (ho : ss.socks[r]? = some o) (addr : Option IpAddress) (port : Int) (choice : Nat) :
    fin st ((bare ss).put r (clear { o with unreachable := (beginConnect st o addr port).1 })) r choice
        (clear { o with unreachable := (beginConnect st o addr port).1 }) (beginConnect st o addr port).2 =
      (bare (ss.connect st r addr port choice).1, endOf (ss.connect st r addr port choice).2) := by
  have hu : clear { o with unreachable := o.unreachable } = clear o := rfl
  rw [Socks.connect, ho]
  dsimp only
  rw [beginConnect]
  by_cases h4 : ¬ (0 ≤ port ∧ port < 65536)
  · rw [if_pos h4, if_pos h4]
    dsimp only
    rw [hu, put_same (clear_get ho)]
    rfl
  rw [if_neg h4, if_neg h4]
  by_cases h1 : 1 ≤ o.id.lport ∧ o.id.lport < 65536
  · rw [if_pos h1, if_pos h1]
    dsimp only
    have := late_connect (ss := ss) st (r := r) (o := o) addr o.id.lport port.toNat
    have hp : ∀ o', fin st ((bare ss).put r o') r choice o' (connectTo st o addr o.id.lport port.toNat).2 =
        late ((bare ss).put r o') r o' (connectTo st o addr o.id.lport port.toNat).2 := by
      intro o'
      rw [connectTo]
      split <;> rfl
    rw [hp]
    refine Eq.trans ?_ (this.trans ?_)
    · rfl
    · rcases Socks.setIpAddresses st o addr o.id.lip o.id.lport port.toNat with ⟨u, e | ⟨lip, rip⟩⟩ <;> rfl
  · rw [if_neg h1, if_neg h1]
    dsimp only
    rw [hu, put_same (clear_get ho), fin, filter_has, withPort, picked_clear, show (bare ss).table = ss.table from rfl, picked_keys]
    cases ss.pickLocalPort choice with
    | error e =>
      dsimp only [late]
      rw [show ({ clear o with unreachable := o.unreachable } : Sock) = clear o from rfl, put_same (clear_get ho)]
      rfl
    | ok p =>
      dsimp only
      rw [late_connect (ss := ss) st (r := r) (o := o) addr p port.toNat]
      rcases Socks.setIpAddresses st o addr o.id.lip p port.toNat with ⟨u, e | ⟨lip, rip⟩⟩ <;> rfl

theorem sized_begin (st : Stack) (o : Sock) (addr : Option IpAddress) (port : Int) (ss : Socks) : Sized (beginBind st o addr port) ss ∧ Sized (beginConnect st o addr port).2 ss := by
  constructor
  · unfold beginBind
    repeat' split
    all_goals trivial
  · rw [beginConnect]
    split
    · trivial
    · split
      · rw [connectTo]; split <;> trivial
      · trivial

theorem withPort_sendto (st : Stack) {out : Socks} {r : Nat} {o : Sock} (ho : out.socks[r]? = some o) (he : out.table.erase o.id = out.table) (choice : Nat) :
    withPort st (bare out) r choice (clear o) .sendto (out.table.keys.map (·.lport)) = match out.pickLocalPort choice with
      | .error e => (bare out, .raised e)
      | .ok p => (bare (out.register r o { o.id with lport := p }), .ok) := by
  rw [withPort, picked_clear, picked_keys]
  cases out.pickLocalPort choice with
  | error e =>
    dsimp only [late]
    rw [show ({ clear o with unreachable := o.unreachable } : Sock) = clear o from rfl, put_same (clear_get ho)]
  | ok p =>
    dsimp only [late]
    rw [show ({ clear o with unreachable := o.unreachable } : Sock) = clear o from rfl, put_same (clear_get ho), bare_register, Socks.register,
      show (bare out).table.erase (clear o).id = out.table from he]
    rfl

theorem fin_sendto {ss : Socks} (st : Stack) {r : Nat} {o : Sock} (ho : ss.socks[r]? = some o) (choice : Nat) :
    fin st (bare ss) r choice (clear o) .first = (bare (givenPort ss r o choice).1, endOf (givenPort ss r o choice).2) := by
  have h : fin st (bare ss) r choice (clear o) .first = withPort st (bare { ss with table := ss.table.erase o.id }) r choice (clear o) .sendto
      ((((ss.table.erase o.id)).keys.filter fun id => (ss.table.erase o.id).has id).map (·.lport)) := by rw [fin]; rfl
  rw [h, filter_has]
  have h' := withPort_sendto st (out := { ss with table := ss.table.erase o.id }) (r := r) (o := o) ho (by simp [Dict.erase, List.filter_filter]) choice
  refine h'.trans ?_
  unfold givenPort
  dsimp only
  generalize Socks.pickLocalPort { ss with table := ss.table.erase o.id } choice = x
  cases x <;> rfl

/-! ### Sockets left alone -/

/-- The socket keeps its place through a step that is none of its own, unless another has the same id. -/
theorem stays_step {s : St} {e : Step} {r : Nat} {id : SockId} (hl : LeftAlone r s e)
    (hid : (s.ss.socks[r]?).map (·.id) = some id) (ht : s.ss.table.get? id = some r)
    (ho : ∀ (x : Nat) o, x ≠ r → s.ss.socks[x]? = some o → o.id ≠ id)
    (ho' : ∀ (x : Nat) o, x ≠ r → (s.step e).ss.socks[x]? = some o → o.id ≠ id) :
    ((s.step e).ss.socks[r]?).map (·.id) = some id ∧ (s.step e).ss.table.get? id = some r := by
  have hlt : r < s.ss.socks.length := by
    cases h : s.ss.socks[r]? with
    | none => rw [h] at hid; cases hid
    | some o => exact (List.getElem?_eq_some_iff.1 h).1
  have hput : ∀ {x : Nat} {o o' : Sock}, s.ss.socks[x]? = some o → (x = r → o'.id = o.id) → ((s.ss.socks.set x o')[r]?).map (·.id) = some id := by
    intro x o o' hx hi
    rw [List.getElem?_set]
    by_cases h : x = r
    · subst h
      rw [if_pos rfl, if_pos hlt]
      rw [hx] at hid
      simpa [hi rfl] using hid
    · rw [if_neg h]; exact hid
  have her : ∀ {x : Nat} {o : Sock}, s.ss.socks[x]? = some o → x ≠ r → (s.ss.table.erase o.id).get? id = some r := by
    intro x o hx hn
    rw [Dict.get?_erase_ne _ (Ne.symm (ho x o hn hx))]
    exact ht
  have hset : ∀ {x : Nat} {o : Sock}, s.ss.socks[x]? = some o → (s.ss.table.set o.id x).get? id = some r := by
    intro x o hx
    by_cases hn : x = r
    · subst hn
      rw [hx] at hid
      simp only [Option.map_some, Option.some.injEq] at hid
      rw [hid, Dict.get?_set_self]
    · rw [Dict.get?_set_ne _ _ (Ne.symm (ho x o hn hx))]
      exact ht
  have happ : ∀ o : Sock, ((s.ss.socks ++ [o])[r]?).map (·.id) = some id := by
    intro o
    rw [List.getElem?_append_left hlt]
    exact hid
  have hb : ∀ x choice (f : Sock → Bool × Pos), ((s.begin x choice f).ss.socks[r]?).map (·.id) = some id ∧ (s.begin x choice f).ss.table.get? id = some r := by
    intro x choice f
    rw [St.begin]
    split
    · exact ⟨hid, ht⟩
    · rename_i hx
      exact ⟨hput hx fun _ => rfl, ht⟩
  cases e with
  | socket f t => exact ⟨happ _, ht⟩
  | bind x addr port choice => exact hb _ _ _
  | connect x addr port choice => exact hb _ _ _
  | sendto x port choice => exact hb _ _ _
  | go k =>
    rw [St.step] at ho' ⊢
    cases hk : s.calls[k]? with
    | none => exact ⟨hid, ht⟩
    | some c =>
      dsimp only
      cases hx : s.ss.socks[c.sock]? with
      | none => exact ⟨hid, ht⟩
      | some o =>
        dsimp only
        have hm : c ∈ s.calls := List.mem_of_getElem? hk
        by_cases hcr : c.sock = r
        · obtain ⟨x, hx'⟩ := hl.2.2 c hm hcr
          rw [St.go, hx']
          exact ⟨hid, ht⟩
        · rw [St.go]
          split
          · exact ⟨hid, ht⟩
          · split
            · exact ⟨hid, ht⟩
            · split
              · exact ⟨hid, ht⟩
              · split <;> exact ⟨hid, ht⟩
          · exact ⟨hid, her hx hcr⟩
          · exact ⟨hid, ht⟩
          · split
            · exact ⟨hid, ht⟩
            · split
              · exact ⟨hput hx fun _ => rfl, ht⟩
              · exact ⟨hid, ht⟩
          · exact ⟨hid, her hx hcr⟩
          · exact ⟨hput hx fun h => absurd h hcr, ht⟩
          · exact ⟨hid, hset hx⟩
          · exact ⟨hid, ht⟩
  | close x =>
    rw [St.step, Socks.close]
    split
    · exact ⟨hid, ht⟩
    · rename_i hx
      exact ⟨hid, her hx fun h => hl.1 (by rw [h])⟩
  | gone x =>
    rw [St.step, Socks.gone]
    split
    · exact ⟨hid, ht⟩
    · rename_i hx
      exact ⟨hid, her hx fun h => hl.2.1 (by rw [h])⟩
  | listen x =>
    rw [St.step, Socks.listen]
    split
    · exact ⟨hid, ht⟩
    · rename_i hx
      exact ⟨hid, hset hx⟩
  | accepted id' =>
    refine ⟨happ _, ?_⟩
    have := ho' s.ss.socks.length ⟨id', false, [], true⟩ (by omega) (List.getElem?_concat_length ..)
    show (s.ss.table.set id' s.ss.socks.length).get? id = some r
    rw [Dict.get?_set_ne _ _ (Ne.symm this)]
    exact ht
  | arrive m => rw [St.step]; split <;> exact ⟨hid, ht⟩
  | rx =>
    rw [St.step, St.receive]
    split
    · exact ⟨hid, ht⟩
    · exact ⟨hid, ht⟩
    · split <;> exact ⟨hid, ht⟩
    · split
      · exact ⟨hid, ht⟩
      · rename_i hx
        exact ⟨hput hx fun _ => rfl, ht⟩
    · exact ⟨hid, ht⟩
    · exact ⟨hid, ht⟩
  | acquire x => rw [St.step]; split <;> exact ⟨hid, ht⟩
  | take x =>
    rw [St.step]
    split
    · exact ⟨hid, ht⟩
    · dsimp only
      split
      · exact ⟨hid, ht⟩
      · rename_i hx
        split
        · exact ⟨hid, ht⟩
        · exact ⟨hput hx fun _ => rfl, ht⟩

/-! ### No datagram is left out -/

/-- The table, the calls and the receive thread know only sockets that are there. -/
structure Known (s : St) : Prop where
  table : ∀ id x, s.ss.table.get? id = some x → x < s.ss.socks.length
  rx : ∀ r m, s.rx = .append r m → r < s.ss.socks.length

theorem Known.step {s : St} (h : Known s) (e : Step) : Known (s.step e) := by
  have hlt : ∀ {x : Nat} {o : Sock}, s.ss.socks[x]? = some o → x < s.ss.socks.length := fun h => (List.getElem?_eq_some_iff.1 h).1
  have her : ∀ {id id' : SockId} {x : Nat}, (s.ss.table.erase id').get? id = some x → x < s.ss.socks.length := by
    intro id id' x hx
    rw [Dict.get?_erase] at hx
    split at hx
    · cases hx
    · exact h.table _ _ hx
  have hset : ∀ {id id' : SockId} {x y : Nat}, y < s.ss.socks.length → (s.ss.table.set id' y).get? id = some x → x < s.ss.socks.length := by
    intro id id' x y hy hx
    rw [Dict.get?_set] at hx
    split at hx
    · cases hx; exact hy
    · exact h.table _ _ hx
  have hput : ∀ {x : Nat} {o : Sock} {n : Nat}, n < s.ss.socks.length → n < (s.ss.put x o).socks.length := by
    intro x o n hn
    rwa [Socks.put, List.length_set]
  have hb : ∀ r choice (f : Sock → Bool × Pos), Known (s.begin r choice f) := by
    intro r choice f
    rw [St.begin]
    split
    · exact h
    · exact ⟨fun id x hx => hput (h.table id x hx), fun r m hr => hput (h.rx r m hr)⟩
  cases e with
  | socket f t =>
    refine ⟨fun id x hx => ?_, fun r m hr => ?_⟩
    · have := h.table id x hx
      simp only [St.step, Socks.create, List.length_append]
      omega
    · have := h.rx r m hr
      simp only [St.step, Socks.create, List.length_append]
      omega
  | bind r addr port choice => exact hb _ _ _
  | connect r addr port choice => exact hb _ _ _
  | sendto r port choice => exact hb _ _ _
  | go k =>
    rw [St.step]
    split
    · exact h
    · split
      · exact h
      · rename_i hx
        rw [St.go]
        split
        · exact ⟨h.table, h.rx⟩
        · split
          · exact ⟨h.table, h.rx⟩
          · split
            · exact ⟨h.table, h.rx⟩
            · split <;> exact ⟨h.table, h.rx⟩
        · exact ⟨fun _ _ hx => her hx, h.rx⟩
        · exact ⟨h.table, h.rx⟩
        · split
          · exact ⟨h.table, h.rx⟩
          · split
            · exact ⟨fun id x hx => hput (h.table id x hx), fun r m hr => hput (h.rx r m hr)⟩
            · exact ⟨h.table, h.rx⟩
        · exact ⟨fun _ _ hx => her hx, h.rx⟩
        · exact ⟨fun id x hx => hput (h.table id x hx), fun r m hr => hput (h.rx r m hr)⟩
        · exact ⟨fun _ _ hy => hset (hlt hx) hy, h.rx⟩
        · exact h
  | close x =>
    rw [St.step, Socks.close]
    split
    · exact h
    · exact ⟨fun _ _ hx => her hx, h.rx⟩
  | gone x =>
    rw [St.step, Socks.gone]
    split
    · exact h
    · exact ⟨fun _ _ hx => her hx, h.rx⟩
  | listen x =>
    rw [St.step, Socks.listen]
    split
    · exact h
    · rename_i hx
      exact ⟨fun _ _ hy => hset (hlt hx) hy, h.rx⟩
  | accepted id' =>
    refine ⟨fun id x hx => ?_, fun r m hr => ?_⟩
    · simp only [St.step, Socks.accepted, List.length_append, List.length_singleton] at hx ⊢
      rw [Dict.get?_set] at hx
      split at hx
      · cases hx; omega
      · have := h.table id x hx; omega
    · have := h.rx r m hr
      simp only [St.step, Socks.accepted, List.length_append]
      omega
  | arrive m =>
    rw [St.step]
    split
    · exact ⟨h.table, by simp⟩
    · exact h
  | rx =>
    rw [St.step, St.receive]
    split
    · exact h
    · exact ⟨h.table, by simp⟩
    · split
      · rename_i hx
        refine ⟨h.table, ?_⟩
        rintro _ _ ⟨⟩
        exact h.table _ _ hx
      · exact ⟨h.table, by simp⟩
    · split
      · exact ⟨h.table, by simp⟩
      · exact ⟨fun id x hx => hput (h.table id x hx), by simp⟩
    · exact ⟨h.table, by simp⟩
    · exact ⟨h.table, by simp⟩
  | acquire x => rw [St.step]; split <;> exact ⟨h.table, h.rx⟩
  | take x =>
    rw [St.step]
    split
    · exact h
    · dsimp only
      split
      · exact ⟨h.table, h.rx⟩
      · split
        · exact ⟨h.table, h.rx⟩
        · exact ⟨fun id x hx => hput (h.table id x hx), fun r m hr => hput (h.rx r m hr)⟩

def begins (s : St) (e : Step) : List UdpMd := match e with
  | .arrive m => if s.rx = .idle then [m] else []
  | _ => []

theorem begun_step {s : St} (h : Known s) (e : Step) :
    disposed (s.step e).log ++ inHand (s.step e).rx = disposed s.log ++ inHand s.rx ++ begins s e := by
  have hq := step_qr s e
  have no : (∀ m, e ≠ .arrive m) → begins s e = [] := by
    intro hn
    cases e <;> first | rfl | exact absurd rfl (hn _)
  have nq : ∀ {m : UdpMd}, e = .arrive m → (s.step e).log = s.log → (s.step e).rx = s.rx → s.rx ≠ .idle := by
    intro m he h1 h2 h3
    subst he
    rw [St.step, if_pos h3, h3] at h2
    cases h2
  have same : (s.step e).log = s.log → (s.step e).rx = s.rx → disposed (s.step e).log ++ inHand (s.step e).rx = disposed s.log ++ inHand s.rx ++ begins s e := by
    intro h1 h2
    rw [h1, h2]
    by_cases he : ∃ m, e = .arrive m
    · obtain ⟨m, rfl⟩ := he
      rw [begins, if_neg (nq rfl h1 h2), List.append_nil]
    · rw [no (fun m hm => he ⟨m, hm⟩), List.append_nil]
  generalize ht : s.step e = t at hq same
  cases hq with
  | keep _ _ _ _ h4 h5 => exact same h4 h5
  | new _ o _ _ _ _ h4 h5 => exact same h4 h5
  | rx he =>
    rcases he with rfl | ⟨m, rfl⟩
    · rw [no (by simp), List.append_nil, St.step, St.receive]
      split
      · rename_i hx; rw [hx]
      · rename_i hx; rw [hx]; rfl
      · rename_i hx
        rw [hx]
        split <;> rfl
      · rename_i r m hx
        rw [hx]
        split
        · rename_i hn
          have := h.rx r m hx
          rw [List.getElem?_eq_getElem this] at hn
          cases hn
        · dsimp only
          rw [disposed_append]
          simp [disposed, inHand]
      · rename_i hx; rw [hx]; simp [inHand]
      · rename_i hx
        rw [hx]
        dsimp only
        rw [disposed_append]
        simp [disposed, inHand]
    · rw [St.step, begins]
      by_cases hi : s.rx = .idle
      · rw [if_pos hi, if_pos hi, hi]
        simp [inHand]
      · rw [if_neg hi, if_neg hi, List.append_nil]
  | rcv he =>
    rcases he with ⟨r, rfl⟩ | ⟨r, rfl⟩
    · apply same
      · rw [St.step]; split <;> rfl
      · rw [St.step]; split <;> rfl
    · rw [no (by simp), List.append_nil, St.step]
      split
      · rfl
      · dsimp only
        split
        · rfl
        · split <;> (dsimp only; rw [disposed_append]; simp [disposed])

theorem begun_run {s : St} (h : Known s) (xs : List Step) : disposed (s.run xs).log ++ inHand (s.run xs).rx = disposed s.log ++ inHand s.rx ++ begunWith s xs := by
  induction xs generalizing s with
  | nil => simp [St.run, begunWith]
  | cons e es ih =>
    have := ih (h.step e)
    rw [show s.run (e :: es) = (s.step e).run es from rfl, this, begun_step h e, List.append_assoc]
    have hb : begunWith s (e :: es) = begins s e ++ begunWith (s.step e) es := by cases e <;> rfl
    rw [hb]

theorem known_none {s : St} (h : NoSockets s) : Known s := by
  rw [h]
  exact ⟨by simp, by simp⟩

end Threads
end Verif
