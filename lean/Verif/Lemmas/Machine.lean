import Verif.Lemmas.Genuine
import Verif.Lemmas.LiveInv
import Verif.Props.Hosts
import Verif.Props.Origin
import Verif.Props.WireTx
/-! What a machine has said and heard, in terms of what happened at it. -/
namespace Verif
open Spec Sess

/-- The segment with which the stack answers one that no socket takes. -/
def IsReset (x : Tcp.Tx) : Prop := x.flags = { rst := true, ack := true } ∧ x.options = [] ∧ x.data = []

theorem pyAssert_ok {c : Bool} {u : Unit} (h : pyAssert c = .ok u) : c = true := by
  cases c
  · cases h
  · rfl

theorem Tcp.assemble_num {x : Tcp.Tx} {ps : Nat} {q : Bytes} (h : Tcp.assemble x ps = .ok q) :
    x.sport < 65536 ∧ x.dport < 65536 ∧ x.seq < 4294967296 ∧ x.ack < 4294967296 ∧ x.win < 65536 ∧ x.urp < 65536 := by
  rw [Tcp.assemble] at h
  obtain ⟨_, -, h⟩ := py_bind_ok h
  obtain ⟨_, h1, h⟩ := py_bind_ok h
  obtain ⟨_, h2, h⟩ := py_bind_ok h
  obtain ⟨_, h3, h⟩ := py_bind_ok h
  obtain ⟨_, h4, h⟩ := py_bind_ok h
  obtain ⟨_, h5, h⟩ := py_bind_ok h
  obtain ⟨_, h6, h⟩ := py_bind_ok h
  have h1 := pyAssert_ok h1
  have h2 := pyAssert_ok h2
  have h3 := pyAssert_ok h3
  have h4 := pyAssert_ok h4
  have h5 := pyAssert_ok h5
  have h6 := pyAssert_ok h6
  simp only [decide_eq_true_eq] at h1 h2 h3 h4 h5 h6
  omega

theorem IsReset.ok {x : Tcp.Tx} (h : IsReset x) {ps : Nat} {q : Bytes} (hq : Tcp.assemble x ps = .ok q) : x.Ok := by
  obtain ⟨h1, h2, h3, h4, h5, h6⟩ := Tcp.assemble_num hq
  obtain ⟨-, ho, hd⟩ := h
  exact ⟨h1, h2, h3, h4, h5, h6, by simp [ho], by simp [ho], by simp [ho], by simp [hd]⟩

theorem Sess.SegOk.tx_ok {g : Seg} (hg : SegOk g) {sport dport : Nat} (hs : sport < 65536) (hd : dport < 65536) : (g.tx sport dport).Ok := by
  obtain ⟨k1, k2, k3, k4, k5, k6, k7⟩ := hg
  refine ⟨hs, hd, by simp only [Seg.tx]; omega, by simp only [Seg.tx]; omega, by simp [Seg.tx], by simp [Seg.tx], ?_, ?_, ?_,
    by simp only [Seg.tx]; omega⟩
  all_goals simp only [Seg.tx]; cases g.syn <;> simp [Tcp.Opt.Ok, Tcp.Opt.len]

theorem Tcp.assemble_length {x : Tcp.Tx} (hok : x.Ok) (hd : x.data.length ≤ 1460) {ps : Nat} {q : Bytes} (hq : Tcp.assemble x ps = .ok q) :
    q.length = x.hlen + x.data.length ∧ q.length < 65536 := by
  rw [Tcp.assemble_ok x ps hok] at hq
  cases hq
  rw [Tcp.frameWith_length]
  have : x.hlen = 20 + (x.options.map Tcp.Opt.len).sum := rfl
  have := hok.2.2.2.2.2.2.2.2.1
  exact ⟨rfl, by omega⟩

theorem Udp.assemble_bytes {sport dport : Nat} {data : Bytes} {ps : Nat} {q : Bytes} (h : Udp.assemble sport dport data ps = .ok q) :
    q.length = 8 + data.length ∧ q.length < 65536 ∧ be q 0 2 = sport ∧ be q 2 2 = dport ∧ q.drop 8 = data := by
  rw [Udp.assemble] at h
  obtain ⟨_, -, h⟩ := py_bind_ok h
  obtain ⟨_, -, h⟩ := py_bind_ok h
  obtain ⟨s, h1, h⟩ := py_bind_ok h
  obtain ⟨d, h2, h⟩ := py_bind_ok h
  obtain ⟨l, h3, h⟩ := py_bind_ok h
  obtain ⟨c, h4, h⟩ := py_bind_ok h
  obtain ⟨k1, rfl⟩ := packH_inv h1
  obtain ⟨k2, rfl⟩ := packH_inv h2
  obtain ⟨k3, rfl⟩ := packH_inv h3
  obtain ⟨k4, rfl⟩ := packH_inv h4
  rw [packIntoH] at h
  obtain ⟨x, h5, h⟩ := py_bind_ok h
  obtain ⟨k5, rfl⟩ := packH_inv h5
  have hf : (bePack 2 sport ++ bePack 2 dport ++ bePack 2 (8 + data.length) ++ bePack 2 0 ++ data).length = 8 + data.length := by
    simp; omega
  rw [if_pos (by rw [hf]; omega)] at h
  have e1 : (bePack 2 sport ++ bePack 2 dport ++ bePack 2 (8 + data.length) ++ bePack 2 0 ++ data).take 6 =
      bePack 2 sport ++ bePack 2 dport ++ bePack 2 (8 + data.length) := by
    rw [List.append_assoc (_ ++ _ ++ _)]; exact List.take_left' (by simp)
  have e2 : (bePack 2 sport ++ bePack 2 dport ++ bePack 2 (8 + data.length) ++ bePack 2 0 ++ data).drop (6 + 2) = data :=
    List.drop_left' (by simp)
  rw [e1, e2] at h
  generalize inetCksum _ _ = c at h
  cases h
  simp only [List.append_assoc]
  refine ⟨by simp; omega, by simp; omega, be_pack_front _ k1, ?_, ?_⟩
  · rw [be_pack_skip _ (by omega)]; exact be_pack_front _ k2
  · repeat rw [drop_pack _ (by omega)]
    rfl

theorem out_run {s : Sess} (hq : Queue (fun _ => True) s) (evs : List Sess.Ev) : s.out <+: (s.run evs).out := by
  induction evs using List.reverseRecOn with
  | nil => exact List.prefix_refl _
  | append_singleton evs e ih =>
    rw [TcpStack.sess_run_snoc]
    exact ih.trans (out_step (queue_run hq) e)

/-- A session that has sent something keeps its addresses and ports, and it has sent it for ever. -/
theorem speaks (pre suf : List TcpStack.Ev) {j : Nat} {c : TcpConn} {g : Seg} (hc : (TcpStack.run pre).conns[j]? = some c)
    (hg : g ∈ sent (seenOf (TcpStack.run pre).log j)) :
    ∃ c', (TcpStack.run (pre ++ suf)).conns[j]? = some c' ∧ (⟨c.s.lip, c.s.lport, c.s.rip, c.s.rport⟩ : Ends).of c'.s ∧
      g ∈ sent (seenOf (TcpStack.run (pre ++ suf)).log j) := by
  obtain ⟨⟨a, iss, l, lp, r, rp, hr⟩, hsee⟩ := (TcpStack.hist pre).runs j c hc
  rw [hsee] at hg
  have hl : c.s.state ≠ .listen := by
    intro hl
    rw [hr] at hl hg
    rw [TcpStack.listen_quiet _ hl] at hg
    cases hg
  have hq : Queue (fun _ => True) c.s := ((TcpStack.hist pre).runs j c hc).1.queue
  obtain ⟨c', evs', h1, h2⟩ := TcpStack.persist pre suf hc
  refine ⟨c', h1, by rw [h2]; exact (TcpStack.ends_run hq hl evs').1.2 ⟨rfl, rfl, rfl, rfl⟩, ?_⟩
  rw [((TcpStack.hist _).runs j c' h1).2, h2]
  exact (sent_mono (out_run hq evs')).subset hg

/-- What a machine has said: the datagrams that `_phtx_udp` was called for, the segments its sessions have sent, and resets. -/
def Said (evs : List Machine.Ev) (t : TcpStack) : Claim := fun _ dst proto q =>
  (proto = 17 → ∃ src sport dport data ps, .udp src dst sport dport data ∈ evs ∧ Udp.assemble sport dport data ps = .ok q) ∧
  (proto = 6 → (∃ x ps, IsReset x ∧ Tcp.assemble x ps = .ok q) ∨
    ∃ j c g ps, t.conns[j]? = some c ∧ dst = c.s.rip ∧ g ∈ sent (seenOf t.log j) ∧ Tcp.assemble (g.tx c.s.lport c.s.rport) ps = .ok q)

theorem Said.mono {evs evs' : List Machine.Ev} {pre suf : List TcpStack.Ev} {a b : IpAddress} {p : Nat} {q : Bytes}
    (h : Said evs (TcpStack.run pre) a b p q) : Said (evs ++ evs') (TcpStack.run (pre ++ suf)) a b p q := by
  refine ⟨fun hp => ?_, fun hp => ?_⟩
  · obtain ⟨s, sp, dp, d, ps, h1, h2⟩ := h.1 hp
    exact ⟨s, sp, dp, d, ps, List.mem_append_left _ h1, h2⟩
  · rcases h.2 hp with h | ⟨j, c, g, ps, h1, h2, h3, h4⟩
    · exact .inl h
    · obtain ⟨c', k1, k2, k3⟩ := speaks pre suf h1 h3
      exact .inr ⟨j, c', g, ps, k1, h2.trans k2.2.2.1.symm, k3, by rw [k2.2.1, k2.2.2.2]; exact h4⟩

namespace Machine

/-- From `m` to `m'` only the wire and what is behind the transmit functions has changed. -/
structure Same (S : Claim) (m m' : Machine) : Prop where
  tcp : m'.tcp = m.tcp
  mtu : m'.host.stack.mtu = m.host.stack.mtu
  flows4 : m'.host.node.flows4 = m.host.node.flows4
  flows6 : m'.host.node.flows6 = m.host.node.flows6
  wire : WireOk S m'.host m'.wire

theorem Same.trans {S : Claim} {a b c : Machine} (h : Same S a b) (h' : Same S b c) : Same S a c :=
  ⟨h'.tcp.trans h.tcp, h'.mtu.trans h.mtu, h'.flows4.trans h.flows4, h'.flows6.trans h.flows6, h'.wire⟩

theorem put_same {S : Claim} {m : Machine} {r : Host × Py (List Outgoing)} (h : TxOk S m.host m.wire r) : Same S m (m.put r) := by
  obtain ⟨⟨i, j, hk⟩, h1, h2⟩ := h
  obtain ⟨h', x⟩ := r
  dsimp only at hk h1 h2
  cases x with
  | error e => exact ⟨rfl, by show h'.node.stack.mtu = _; rw [hk]; rfl, by show h'.node.flows4 = _; rw [hk], by show h'.node.flows6 = _; rw [hk], h1⟩
  | ok outs =>
    exact ⟨rfl, by show h'.node.stack.mtu = _; rw [hk]; rfl, by show h'.node.flows4 = _; rw [hk], by show h'.node.flows6 = _; rw [hk], h2 outs rfl⟩

theorem note_sent {log : List TcpNote} {i : Nat} {g : Seg} (h : .did i (.sent g) ∈ log) : g ∈ sent (seenOf log i) := by
  unfold sent seenOf
  rw [List.mem_filterMap]
  refine ⟨.sent g, ?_, rfl⟩
  rw [List.mem_filterMap]
  exact ⟨_, h, by simp⟩

theorem transmit_same {evs : List Machine.Ev} {es : List TcpStack.Ev} {m : Machine} {o : TcpNote} (ht : m.tcp = TcpStack.run es)
    (hm : 72 ≤ m.host.stack.mtu) (hw : WireOk (Said evs m.tcp) m.host m.wire) (ho : o ∈ m.tcp.log) :
    Same (Said evs m.tcp) m (m.transmit o) := by
  unfold transmit
  split
  · rename_i i g
    split
    · exact ⟨rfl, rfl, rfl, rfl, hw⟩
    · rename_i c hc
      refine put_same (tx_tcp hm hw fun a ps q hq => ?_)
      have hg : g ∈ sent (seenOf m.tcp.log i) := note_sent ho
      have hgo : SegOk g := by
        have hr := (TcpStack.hist es).runs i c (by rw [← ht]; exact hc)
        rw [ht, hr.2] at hg
        obtain ⟨a, iss, l, lp, r, rp, e⟩ := hr.1
        rw [e] at hg
        exact wire_run.segs g hg
      obtain ⟨n1, n2, -⟩ := Tcp.assemble_num hq
      have hl := Tcp.assemble_length (hgo.tx_ok n1 n2) hgo.data hq
      exact ⟨hl.1, hl.2, ⟨(by intro h; cases h), fun _ => .inr ⟨i, c, g, ps, hc, rfl, hg, hq⟩⟩⟩
  · exact ⟨rfl, rfl, rfl, rfl, hw⟩

theorem fold_same {evs : List Machine.Ev} {es : List TcpStack.Ev} : ∀ (l : List TcpNote) (m : Machine), m.tcp = TcpStack.run es →
    72 ≤ m.host.stack.mtu → WireOk (Said evs m.tcp) m.host m.wire → (∀ o ∈ l, o ∈ m.tcp.log) → Same (Said evs m.tcp) m (l.foldl transmit m)
  | [], m, _, _, hw, _ => ⟨rfl, rfl, rfl, rfl, hw⟩
  | o :: l, m, ht, hm, hw, ho => by
    have h := transmit_same ht hm hw (ho o (by simp))
    have h' := fold_same l (m.transmit o) (h.tcp.trans ht) (by rw [h.mtu]; exact hm) (by rw [h.tcp]; exact h.wire)
      (fun x hx => by rw [h.tcp]; exact ho x (by simp [hx]))
    rw [h.tcp] at h'
    exact h.trans h'

theorem after_same {evs : List Machine.Ev} {pre suf : List TcpStack.Ev} {m : Machine} {t : TcpStack} (ht : m.tcp = TcpStack.run pre)
    (ht' : t = TcpStack.run (pre ++ suf)) (hm : 72 ≤ m.host.stack.mtu) (hw : WireOk (Said evs m.tcp) m.host m.wire) :
    Same (Said evs t) { m with tcp := t } (m.after t) := by
  refine fold_same _ { m with tcp := t } ht' hm ?_ (fun o ho => List.mem_of_mem_drop ho)
  refine hw.mono fun a b p q h => ?_
  show Said evs t a b p q
  rw [ht] at h
  rw [ht', ← List.append_nil evs]
  exact h.mono

theorem tx_arp {S : Claim} {h : Host} {w : List Bytes} {es ed : MacAddress} {p : Pkt} (hp : p.Req) (H : WireOk S h w) :
    TxOk S h w (Host.queued (h, phtxEther h.stack (fun _ => none) (fun _ => none) es ed p)) := by
  obtain ⟨d4, d6, H'⟩ := H
  refine .of (.refl h) ⟨d4, d6, H'⟩ fun st outs e => .append (d4 := d4) (d6 := d6) H' fun o ho F hF => ?_
  rcases phtxEther_pkt e with ⟨-, x, rfl⟩ | ⟨-, rfl⟩
  · cases List.mem_singleton.1 ho
    exact good_req hp hF
  · cases ho

theorem apply_same {S : Claim} {m : Machine} {t : Int} {e : Eff} (hm : 72 ≤ m.host.stack.mtu) (hw : WireOk S m.host m.wire)
    (he : ∀ a b x, e = .txTcp a b x → IsReset x) (hS : ∀ x ps q a b, IsReset x → Tcp.assemble x ps = .ok q → S a b 6 q) :
    Same S m (m.put (m.host.apply t e)) := by
  have still : ∀ h : Host, h.node.stack = m.host.node.stack → h.node.flows4 = m.host.node.flows4 → h.node.flows6 = m.host.node.flows6 →
      Same S m (m.put (h, .ok [])) := by
    intro h h1 h2 h3
    refine ⟨rfl, congrArg Stack.mtu h1, h2, h3, ?_⟩
    show WireOk S h (m.wire ++ [])
    rw [List.append_nil]
    unfold WireOk
    rw [h1]
    exact hw
  cases e with
  | txArp => exact put_same (tx_arp trivial hw)
  | txIcmp4 => exact put_same (tx_icmp4 hm hw)
  | txIcmp6 => exact put_same (tx_icmp6 hm hw)
  | txTcp a b x =>
    have hx := he a b x rfl
    refine put_same (tx_tcp hm hw fun c ps q hq => ?_)
    have hl := Tcp.assemble_length (hx.ok hq) (by rw [hx.2.2]; exact Nat.zero_le _) hq
    exact ⟨hl.1, hl.2, hS x ps q _ _ hx hq⟩
  | _ => exact still _ rfl rfl rfl

theorem handle_cons (t : Int) (iss : Nat) (m : Machine) (e : Eff) (l : List Eff) (hne : ∀ r md, e ≠ .tcpDeliver r md) :
    handle t iss m (e :: l) = match m.host.apply t e with
      | (h, .error _) => { m with host := h }
      | r => handle t iss (m.put r) l := by
  cases e with
  | tcpDeliver r md => exact absurd rfl (hne r md)
  | _ => rfl

theorem handle_same {S : Claim} {t : Int} {iss : Nat} (hS : ∀ x ps q a b, IsReset x → Tcp.assemble x ps = .ok q → S a b 6 q) :
    ∀ (l : List Eff) (m : Machine), 72 ≤ m.host.stack.mtu → WireOk S m.host m.wire → (∀ r md, .tcpDeliver r md ∉ l) →
      (∀ a b x, .txTcp a b x ∈ l → IsReset x) → Same S m (handle t iss m l)
  | [], m, _, hw, _, _ => by rw [handle]; exact ⟨rfl, rfl, rfl, rfl, hw⟩
  | e :: l, m, hm, hw, hd, he => by
    have h := apply_same (t := t) (e := e) hm hw (fun a b x hx => he a b x (by simp [hx])) hS
    have hne : ∀ r md, e ≠ .tcpDeliver r md := fun r md hx => hd r md (by simp [hx])
    rw [handle_cons t iss m e l hne]
    split
    · rename_i h' x hx
      rw [hx] at h
      exact h
    · exact h.trans (handle_same hS l _ (by rw [h.mtu]; exact hm) h.wire (fun r md hx => hd r md (by simp [hx])) (fun a b x hx => he a b x (by simp [hx])))

def heardOf (iss : Nat) : Py (List Eff) → List TcpStack.Ev
  | .ok [.tcpDeliver _ md] => [.segment md iss]
  | _ => []

/-- What happens at the TCP part. -/
def proj (m : Machine) : Ev → List TcpStack.Ev
  | .app (.segment _ _) => []
  | .app e => [e]
  | .frame u t₀ t₁ _ depth F iss =>
    heardOf iss (Rx.ether (m.node u) t₀ t₁ depth F).2
  | _ => []

/-- The frames among what happens. -/
def frameOf : Ev → Option Bytes
  | .frame _ _ _ _ _ F _ => some F
  | _ => none

def told (A : Machine) (evs : List Ev) : List TcpStack.Ev := (evs.foldl (fun x e => (x.1.step e, x.2 ++ proj x.1 e)) (A, [])).2

theorem told_fst (A : Machine) (evs : List Ev) : (evs.foldl (fun (x : Machine × List TcpStack.Ev) e => (x.1.step e, x.2 ++ proj x.1 e)) (A, [])).1 = A.run evs := by
  induction evs using List.reverseRecOn with
  | nil => rfl
  | append_singleton evs e ih => rw [List.foldl_append]; simp only [List.foldl_cons, List.foldl_nil]; rw [ih]; simp [run]

theorem told_snoc (A : Machine) (evs : List Ev) (e : Ev) : told A (evs ++ [e]) = told A evs ++ proj (A.run evs) e := by
  unfold told
  rw [List.foldl_append, ← told_fst]; rfl

theorem run_snoc (A : Machine) (evs : List Ev) (e : Ev) : A.run (evs ++ [e]) = (A.run evs).step e := by
  unfold run; rw [List.foldl_append]; rfl

theorem get?_append {V : Type} {a b : Dict SockId V} {k : SockId} (h : ∀ e ∈ b, e.1 ≠ k) : Dict.get? (a ++ b) k = Dict.get? a k := by
  unfold Dict.get?
  rw [List.find?_append]
  have : b.find? (fun e => e.1 = k) = none := by
    rw [List.find?_eq_none]
    intro e he
    simpa using h e he
  rw [this, Option.or_none]

theorem match_node (m : Machine) (u : Dict SockId Nat) (md : TcpMd) : Rx.tcpMatch (m.node u).socks md = Rx.tcpMatch m.tcp.ss md := by
  have key : ∀ k : SockId, k.type = .stream → (m.tcp.ss.table ++ u.filter fun e => e.1.type = .dgram).get? k = m.tcp.ss.table.get? k := by
    intro k hk
    refine get?_append fun e he hek => ?_
    have := (List.mem_filter.1 he).2
    rw [hek, hk] at this
    simp at this
  have hl : ∀ k ∈ md.listening, k.type = .stream := by
    intro k hk
    unfold TcpMd.listening at hk
    simp at hk
    rcases hk with rfl | rfl <;> rfl
  unfold Rx.tcpMatch
  dsimp only [node]
  rw [key _ rfl]
  have : md.listening.findSome? (m.tcp.ss.table ++ u.filter fun e => e.1.type = .dgram).get? = md.listening.findSome? m.tcp.ss.table.get? := by
    revert hl
    generalize md.listening = l
    induction l with
    | nil => intro _; rfl
    | cons k l ih => intro hl; rw [List.findSome?_cons, List.findSome?_cons, key k (hl k (by simp)), ih (fun x hx => hl x (by simp [hx]))]
  rw [this]

/-- The invariant of a machine: `es` is what has happened at its TCP part. -/
structure Inv (evs : List Ev) (es : List TcpStack.Ev) (m : Machine) : Prop where
  tcp : m.tcp = TcpStack.run es
  mtu : 72 ≤ m.host.stack.mtu
  recv : ∀ n : Node, n.flows4 = m.host.node.flows4 → n.flows6 = m.host.node.flows6 → Received (evs.filterMap frameOf) n
  wire : WireOk (Said evs m.tcp) m.host m.wire

theorem Said.reset {evs : List Ev} {t : TcpStack} (x : Tcp.Tx) (ps : Nat) (q : Bytes) (a b : IpAddress) (hx : IsReset x)
    (hq : Tcp.assemble x ps = .ok q) : Said evs t a b 6 q := ⟨(by intro h; cases h), fun _ => .inl ⟨x, ps, hx, hq⟩⟩

theorem Inv.same {evs : List Ev} {es es' : List TcpStack.Ev} {e : Ev} {m m₁ m' : Machine} (h : Inv evs es m) (he : frameOf e = none)
    (ht : m₁.tcp = TcpStack.run es') (hm : m₁.host = m.host) (hs : Same (Said (evs ++ [e]) m₁.tcp) m₁ m') : Inv (evs ++ [e]) es' m' := by
  refine ⟨hs.tcp.trans ht, by rw [hs.mtu, hm]; exact h.mtu, fun n h4 h6 => ?_, by rw [hs.tcp]; exact hs.wire⟩
  have := h.recv n (h4.trans (by rw [hs.flows4, hm])) (h6.trans (by rw [hs.flows6, hm]))
  rwa [List.filterMap_append, show [e].filterMap frameOf = [] by simp [he], List.append_nil]

theorem Inv.grown {evs : List Ev} {es : List TcpStack.Ev} {m : Machine} (h : Inv evs es m) (e : Ev) : WireOk (Said (evs ++ [e]) m.tcp) m.host m.wire :=
  h.wire.mono fun a b p q hs => by rw [h.tcp] at hs ⊢; rw [← List.append_nil es]; exact hs.mono

theorem ether_addrs (n : Node) (t₀ t₁ : Int) (depth : Nat) (F : Bytes) : SameAddrs n (Rx.ether n t₀ t₁ depth F).1 := by
  rcases ether_flows6 n t₀ t₁ depth F with h | ⟨_, _, -, -, h, -⟩
  · exact h.1
  · exact h

theorem run_step (es : List TcpStack.Ev) (e : TcpStack.Ev) : (TcpStack.run es).step e = TcpStack.run (es ++ [e]) := (TcpStack.run_snoc es e).symm

theorem Inv.step {evs : List Ev} {es : List TcpStack.Ev} {m : Machine} (h : Inv evs es m) (e : Ev) :
    Inv (evs ++ [e]) (es ++ proj m e) (m.step e) := by
  cases e with
  | app e =>
    by_cases he : ∃ md iss, e = .segment md iss
    · obtain ⟨md, iss, rfl⟩ := he
      refine h.same rfl (m₁ := m) (by rw [h.tcp]; show _ = TcpStack.run (es ++ []); rw [List.append_nil]) rfl ⟨rfl, rfl, rfl, rfl, h.grown _⟩
    · have h1 : m.step (.app e) = m.after (m.tcp.step e) := by
        cases e with
        | segment md iss => exact absurd ⟨md, iss, rfl⟩ he
        | _ => rfl
      have h2 : proj m (.app e) = [e] := by
        cases e with
        | segment md iss => exact absurd ⟨md, iss, rfl⟩ he
        | _ => rfl
      rw [h1, h2]
      have ht : m.tcp.step e = TcpStack.run (es ++ [e]) := by rw [h.tcp, run_step]
      exact h.same rfl (m₁ := { m with tcp := m.tcp.step e }) ht rfl (after_same h.tcp ht h.mtu (h.grown _))
  | udp src dst sport dport data =>
    refine h.same rfl (m₁ := m) (by rw [h.tcp]; show _ = TcpStack.run (es ++ []); rw [List.append_nil]) rfl ?_
    refine put_same (tx_udp h.mtu (h.grown _) fun a ps q hq => ?_)
    have := Udp.assemble_bytes hq
    exact ⟨this.1, this.2.1, ⟨fun _ => ⟨src, sport, dport, data, ps, by simp, hq⟩, (by intro h; cases h)⟩⟩
  | icmp4 src dst x =>
    exact h.same rfl (m₁ := m) (by rw [h.tcp]; show _ = TcpStack.run (es ++ []); rw [List.append_nil]) rfl (put_same (tx_icmp4 h.mtu (h.grown _)))
  | icmp6 src dst hop x =>
    exact h.same rfl (m₁ := m) (by rw [h.tcp]; show _ = TcpStack.run (es ++ []); rw [List.append_nil]) rfl (put_same (tx_icmp6 h.mtu (h.grown _)))
  | caches arp nd =>
    exact h.same rfl (m₁ := m) (by rw [h.tcp]; show _ = TcpStack.run (es ++ []); rw [List.append_nil]) rfl ⟨rfl, rfl, rfl, rfl, h.grown _⟩
  | frame u t₀ t₁ t depth F iss =>
    have hr : Received (evs.filterMap frameOf) (m.node u) := h.recv _ rfl rfl
    have hA := ether_addrs (m.node u) t₀ t₁ depth F
    have hF : (evs ++ [Ev.frame u t₀ t₁ t depth F iss]).filterMap frameOf = evs.filterMap frameOf ++ [F] := by
      rw [List.filterMap_append]; rfl
    have hw := h.grown (.frame u t₀ t₁ t depth F iss)
    generalize hE : Ev.frame u t₀ t₁ t depth F iss = E at hF hw
    -- what is kept, when only the wire changes after the handlers have run
    have fin : ∀ (es' : List TcpStack.Ev) (m₁ m' : Machine), m₁.host = { m.host with node := (Rx.ether (m.node u) t₀ t₁ depth F).1 } →
        m₁.tcp = TcpStack.run es' → Same (Said (evs ++ [E]) m₁.tcp) m₁ m' → Inv (evs ++ [E]) es' m' := by
      intro es' m₁ m' hm ht hs
      refine ⟨hs.tcp.trans ht, ?_, fun n h4 h6 => ?_, by rw [hs.tcp]; exact hs.wire⟩
      · rw [hs.mtu, hm]
        show 72 ≤ (Rx.ether (m.node u) t₀ t₁ depth F).1.stack.mtu
        rw [hA.1]; exact h.mtu
      · rw [hF]
        exact .frame t₀ t₁ depth F hr (h4.trans (by rw [hs.flows4, hm])) (h6.trans (by rw [hs.flows6, hm]))
    have hw₁ : WireOk (Said (evs ++ [E]) m.tcp) { m.host with node := (Rx.ether (m.node u) t₀ t₁ depth F).1 } m.wire := by
      unfold WireOk
      rw [show ({ m.host with node := (Rx.ether (m.node u) t₀ t₁ depth F).1 } : Host).node.stack = m.host.node.stack from hA.1]
      exact hw
    have hm₁ : 72 ≤ ({ m.host with node := (Rx.ether (m.node u) t₀ t₁ depth F).1 } : Host).stack.mtu := by
      show 72 ≤ (Rx.ether (m.node u) t₀ t₁ depth F).1.stack.mtu
      rw [hA.1]; exact h.mtu
    have hp : proj m E = heardOf iss (Rx.ether (m.node u) t₀ t₁ depth F).2 := by rw [← hE]; rfl
    have hs : m.step E = match Rx.ether (m.node u) t₀ t₁ depth F with
        | (n, .error _) => { m with host := { m.host with node := n } }
        | (n, .ok effs) => handle t iss { m with host := { m.host with node := n } } effs := by rw [← hE]; rfl
    rw [hp, hs]
    generalize hx : Rx.ether (m.node u) t₀ t₁ depth F = x at *
    obtain ⟨n', r⟩ := x
    cases r with
    | error e => exact fin _ { m with host := { m.host with node := n' } } { m with host := { m.host with node := n' } } rfl (by show m.tcp = TcpStack.run (es ++ []); rw [List.append_nil]; exact h.tcp) ⟨rfl, rfl, rfl, rfl, hw₁⟩
    | ok l =>
      dsimp only at *
      by_cases hd : ∃ r md, .tcpDeliver r md ∈ l
      · obtain ⟨r, md, hd⟩ := hd
        obtain ⟨ip, hh, p, -, -, -, -, -, -, -, ⟨r', hm, rfl⟩ | ⟨-, rfl⟩⟩ := tcp_origin hr hx ⟨_, hd, .inl ⟨_, _, rfl⟩⟩
        · generalize Rx.tcpMd ip hh = md' at *
          rw [match_node] at hm
          have ht : m.tcp.step (.segment md' iss) = TcpStack.run (es ++ [.segment md' iss]) := by rw [h.tcp, run_step]
          rw [show heardOf iss (.ok [.tcpDeliver r' md']) = [.segment md' iss] from rfl, handle, handle, deliver]
          rw [TcpStack.step, TcpStack.route, hm] at ht
          dsimp only [Option.bind_some] at ht
          cases hsess : m.tcp.session r' with
          | none =>
            rw [hsess] at ht
            exact fin _ { m with host := { m.host with node := n' } } { m with host := { m.host with node := n' } } rfl ht ⟨rfl, rfl, rfl, rfl, hw₁⟩
          | some i =>
            rw [hsess] at ht
            dsimp only at ht ⊢
            exact fin _ { m with host := { m.host with node := n' }, tcp := _ } _ rfl ht
              (after_same (m := { m with host := { m.host with node := n' } }) h.tcp ht hm₁ hw₁)
        · simp at hd
      · have hnd : ∀ r md, .tcpDeliver r md ∉ l := fun r md hx => hd ⟨r, md, hx⟩
        have hp : heardOf iss (.ok l) = [] := by
          unfold heardOf
          split
          · rename_i r md he; cases he; exact absurd (by simp) (hnd r md)
          · rfl
        rw [hp, List.append_nil]
        refine fin _ { m with host := { m.host with node := n' } } _ rfl h.tcp (handle_same Said.reset l _ hm₁ hw₁ hnd fun a b x hxl => ?_)
        obtain ⟨ip, hh, p, -, -, -, -, -, -, -, ⟨r', -, rfl⟩ | ⟨-, rfl⟩⟩ := tcp_origin hr hx ⟨_, hxl, .inr ⟨_, _, _, rfl⟩⟩
        · simp at hxl
        · simp at hxl
          obtain ⟨-, -, rfl⟩ := hxl
          exact ⟨rfl, rfl, rfl⟩

theorem inv {A : Machine} (hA : Started A) (evs : List Ev) : Inv evs (told A evs) (A.run evs) := by
  induction evs using List.reverseRecOn with
  | nil =>
    refine ⟨hA.tcp, hA.mtu, fun n h4 h6 => .start n (h4.trans hA.flows4) (h6.trans hA.flows6), ?_⟩
    show WireOk _ A.host A.wire
    rw [hA.wire]
    exact ⟨fun _ => ⟨.zero, .zero, 0, [], []⟩, fun _ => ⟨.zero, .zero, 0, [], []⟩, by simp⟩
  | append_singleton evs e ih => rw [told_snoc, run_snoc]; exact ih.step e

/-! ### The wire -/

theorem put_wire (m : Machine) (r : Host × Py (List Outgoing)) : m.wire <+: (m.put r).wire := by
  obtain ⟨h, x⟩ := r
  cases x with
  | error e => exact List.prefix_refl _
  | ok outs => exact List.prefix_append _ _

theorem transmit_wire (m : Machine) (o : TcpNote) : m.wire <+: (m.transmit o).wire := by
  unfold transmit
  split
  · split
    · exact List.prefix_refl _
    · exact put_wire _ _
  · exact List.prefix_refl _

theorem after_wire (m : Machine) (t : TcpStack) : m.wire <+: (m.after t).wire := by
  unfold after
  generalize t.log.drop m.tcp.log.length = l
  have : ∀ (l : List TcpNote) (m : Machine), m.wire <+: (l.foldl transmit m).wire := by
    intro l
    induction l with
    | nil => intro m; exact List.prefix_refl _
    | cons o l ih => intro m; exact (transmit_wire m o).trans (ih _)
  exact this l { m with tcp := t }

theorem handle_wire (t : Int) (iss : Nat) : ∀ (l : List Eff) (m : Machine), m.wire <+: (handle t iss m l).wire
  | [], m => by rw [handle]; exact List.prefix_refl _
  | e :: l, m => by
    have d : ∀ r md, m.wire <+: (m.deliver r md iss).wire := by
      intro r md
      unfold deliver
      split
      · exact List.prefix_refl _
      · exact after_wire _ _
    by_cases he : ∃ r md, e = .tcpDeliver r md
    · obtain ⟨r, md, rfl⟩ := he
      rw [handle]
      exact (d r md).trans (handle_wire t iss l _)
    · rw [handle_cons t iss m e l fun r md h => he ⟨r, md, h⟩]
      split
      · exact List.prefix_refl _
      · exact (put_wire m _).trans (handle_wire t iss l _)

theorem step_wire (m : Machine) (e : Ev) : m.wire <+: (m.step e).wire := by
  cases e with
  | app e =>
    cases e with
    | segment => exact List.prefix_refl _
    | _ => exact after_wire _ _
  | frame u t₀ t₁ t depth F iss =>
    show m.wire <+: (m.receive u t₀ t₁ t depth F iss).wire
    unfold receive
    split
    · exact List.prefix_refl _
    · rename_i n effs _
      exact handle_wire t iss effs { m with host := { m.host with node := n } }
  | caches => exact List.prefix_refl _
  | _ => exact put_wire _ _

/-- What a machine has got from the other's address was on the other's wire. -/
theorem ethernet_wire {a b : IpAddress} {A B : Machine} {xs ys : List Ev} (h : Ethernet a b A B xs ys) :
    (∀ F ∈ xs.filterMap frameOf, SaysFrom F b → F ∈ (B.run ys).wire) ∧ (∀ F ∈ ys.filterMap frameOf, SaysFrom F a → F ∈ (A.run xs).wire) := by
  have one : ∀ {c : IpAddress} {w : List Bytes} {zs : List Ev} {e : Ev}, (∀ F ∈ zs.filterMap frameOf, SaysFrom F c → F ∈ w) → MayArrive c w e →
      ∀ F ∈ (zs ++ [e]).filterMap frameOf, SaysFrom F c → F ∈ w := by
    intro c w zs e h1 h2 F hF hs
    rw [List.filterMap_append, List.mem_append] at hF
    rcases hF with hF | hF
    · exact h1 F hF hs
    · obtain ⟨e', he, hF⟩ := List.mem_filterMap.1 hF
      cases List.mem_singleton.1 he
      cases e with
      | frame u t₀ t₁ t d G iss => cases hF; exact h2 u t₀ t₁ t d _ iss rfl hs
      | _ => cases hF
  induction h with
  | start => exact ⟨by simp, by simp⟩
  | left _ he ih => exact ⟨one ih.1 he, fun F hF hs => by rw [run_snoc]; exact (step_wire _ _).subset (ih.2 F hF hs)⟩
  | right _ he ih => exact ⟨fun F hF hs => by rw [run_snoc]; exact (step_wire _ _).subset (ih.1 F hF hs), one ih.2 he⟩

/-- A segment that arrives from the other's address is a reset, or one that a session of the other has sent to this address and port. -/
theorem segment_genuine {A B : Machine} (hA : Started A) (hB : Started B) {xs ys : List Ev} {e : Ev} {b : IpAddress}
    (hw : ∀ F ∈ (xs ++ [e]).filterMap frameOf, SaysFrom F b → F ∈ (B.run ys).wire) {md : TcpMd} {iss : Nat}
    (hp : .segment md iss ∈ proj (A.run xs) e) :
    (1 ≤ md.lport ∧ md.lport < 65536) ∧ (md.rip = b → Resets md ∨ ∃ j c g, (B.run ys).tcp.conns[j]? = some c ∧ c.s.rip = md.lip ∧
      c.s.lport = md.rport ∧ c.s.rport = md.lport ∧ g ∈ sent (seenOf (B.run ys).tcp.log j) ∧ Carries g md) := by
  have iA := inv hA xs
  have iB := inv hB ys
  cases e with
  | app e =>
    exfalso
    cases e with
    | _ => simp [proj] at hp
  | frame u t₀ t₁ t depth F iss =>
    generalize hx : Rx.ether ((A.run xs).node u) t₀ t₁ depth F = x at *
    obtain ⟨n', r⟩ := x
    simp only [proj, hx] at hp
    unfold heardOf at hp
    split at hp
    · simp only [List.mem_singleton, TcpStack.Ev.segment.injEq] at hp
      obtain ⟨rfl, -⟩ := hp
      obtain ⟨ip, h, p, hbr, -, h3, h4, h5, h6, h7, ⟨r', -, he⟩ | ⟨-, he⟩⟩ :=
        tcp_origin (iA.recv ((A.run xs).node u) rfl rfl) hx ⟨_, List.mem_singleton_self _, .inl ⟨_, _, rfl⟩⟩
      · simp only [List.cons.injEq, Eff.tcpDeliver.injEq, and_true] at he
        obtain ⟨rfl, rfl⟩ := he
        have e1 : (Rx.tcpMd ip h).lport = be p 2 2 := congrArg TcpMd.lport h6
        have e2 : (Rx.tcpMd ip h).rport = be p 0 2 := congrArg TcpMd.rport h6
        have e3 : (Rx.tcpMd ip h).rst = bit p 13 2 := congrArg TcpMd.rst h6
        have e4 : (Rx.tcpMd ip h).syn = bit p 13 1 := congrArg TcpMd.syn h6
        have e5 : (Rx.tcpMd ip h).fin = bit p 13 0 := congrArg TcpMd.fin h6
        have e6 : (Rx.tcpMd ip h).data = p.drop (be p 12 1 / 16 * 4) := congrArg TcpMd.data h6
        have z0 : be p 0 2 ≠ 0 := fun z => h5 (.inl z)
        have z2 : be p 2 2 ≠ 0 := fun z => h5 (.inr (.inl z))
        have l2 := be_lt p 2 2
        refine ⟨by rw [e1]; omega, fun hb => ?_⟩
        have hb : ip.src = b := hb
        subst hb
        rw [List.filterMap_append] at hw
        rcases (brought_genuine hw iB.wire hbr (.inl rfl)).2 rfl with ⟨x, ps, hr, hq⟩ | ⟨j, c, g, ps, hc, hd, hg, hq⟩
        · left
          have hok := hr.ok hq
          rw [Tcp.assemble_ok x ps hok] at hq
          obtain ⟨f1, f2, f3, f4, f5, f6, f7, f8, f9, f10, f11, f12, f13, f14⟩ := Tcp.frame_bytes _ _ hok p (Except.ok.inj hq)
          rw [hr.1] at f6 f7 f8
          exact ⟨e3.trans f8, e4.trans f7, e5.trans f6, by rw [e6, f5, f14, hr.2.2]⟩
        · right
          obtain ⟨n1, n2, -⟩ := Tcp.assemble_num hq
          have hgo : SegOk g := by
            have hr := (TcpStack.hist _).runs j c (by rw [← iB.tcp]; exact hc)
            have hg' := hg
            rw [iB.tcp, hr.2] at hg'
            obtain ⟨a, iss, l, lp, r, rp, e⟩ := hr.1
            rw [e] at hg'
            exact wire_run.segs g hg'
          have hok : (g.tx c.s.lport c.s.rport).Ok := hgo.tx_ok n1 n2
          have hq' := hq
          rw [Tcp.assemble_ok _ ps hok] at hq'
          obtain ⟨f1, f2, -⟩ := Tcp.frame_bytes _ _ hok p (Except.ok.inj hq')
          have s1 : be p 0 2 = c.s.lport := f1
          have s2 : be p 2 2 = c.s.rport := f2
          have m1 : c.s.lport < 65536 := n1
          have m2 : c.s.rport < 65536 := n2
          obtain ⟨p', opts, a1, -, a2, -, a3⟩ := seg_bytes hgo (sport := c.s.lport) (dport := c.s.rport) ⟨by omega, m1⟩ ⟨by omega, m2⟩ ps
          cases a1.symm.trans hq
          rw [h7 opts a2, a3]
          exact ⟨j, c, g, hc, hd.symm, rfl, rfl, hg, ⟨rfl, rfl, rfl, rfl, rfl, rfl, rfl⟩⟩
      · simp at he
    · cases hp
  | _ => simp [proj] at hp

theorem sole_only {k : Ends} {t : TcpStack} {i : Nat} {s : Sess} (h : Sole k t i s) : Only k t i s :=
  ⟨h.1, h.2.1, fun i' c' hc hk => h.2.2 i' c' hc hk.2.1 hk.2.2.1 hk.2.2.2⟩

theorem heardOf_one (iss : Nat) (x : Py (List Eff)) : heardOf iss x = [] ∨ ∃ md, heardOf iss x = [.segment md iss] := by
  unfold heardOf
  split
  · exact .inr ⟨_, rfl⟩
  · exact .inl rfl

theorem proj_one (m : Machine) (e : Ev) : proj m e = [] ∨ ∃ x, proj m e = [x] := by
  cases e with
  | app e => cases e with
    | segment => exact .inl rfl
    | _ => exact .inr ⟨_, rfl⟩
  | frame => exact (heardOf_one _ _).imp id fun ⟨md, h⟩ => ⟨_, h⟩
  | _ => exact .inl rfl

/-- One event of a machine, as one of its TCP part. -/
theorem may_reach {k : Ends} {A B : Machine} (hA : Started A) (hB : Started B) {xs ys : List Ev} {e : Ev}
    (hw : ∀ F ∈ (xs ++ [e]).filterMap frameOf, SaysFrom F k.rip → F ∈ (B.run ys).wire) {x : TcpStack.Ev} (hx : proj (A.run xs) e = [x])
    {suf : List TcpStack.Ev} {j : Nat} {b : Sess} (hb : Sole k.flip (TcpStack.run (told B ys ++ suf)) j b) :
    MayReach k (TcpStack.run (told B ys)) x := by
  rintro md iss rfl
  obtain ⟨h1, h2⟩ := segment_genuine hA hB hw (md := md) (iss := iss) (by rw [hx]; simp)
  refine ⟨h1, fun hk => (h2 hk.2.2.1).imp id fun ⟨j', c, g, a1, a2, a3, a4, a5, a6⟩ => ?_⟩
  rw [(inv hB ys).tcp] at a1 a5
  obtain ⟨c', b1, b2, -⟩ := speaks _ suf a1 a5
  have p2 : c.s.lport = k.flip.lport := a3.trans hk.2.2.2
  have p3 : c.s.rip = k.flip.rip := a2.trans hk.1
  have p4 : c.s.rport = k.flip.rport := a4.trans hk.2.1
  have := hb.2.2 j' c' b1 (b2.2.1.trans p2) (b2.2.2.1.trans p3) (b2.2.2.2.trans p4)
  subst this
  obtain ⟨⟨r, hr⟩, hof, -⟩ := hb
  cases b1.symm.trans hr
  exact ⟨j', c, a1, ⟨b2.1.symm.trans hof.1, p2, p3, p4⟩, g, a5, a6⟩

theorem told_prefix (A : Machine) (evs evs' : List Ev) : ∃ suf, told A (evs ++ evs') = told A evs ++ suf := by
  induction evs' using List.reverseRecOn with
  | nil => exact ⟨[], by simp⟩
  | append_singleton evs' e ih =>
    obtain ⟨suf, h⟩ := ih
    exact ⟨suf ++ proj (A.run (evs ++ evs')) e, by rw [← List.append_assoc, told_snoc, h, List.append_assoc]⟩

/-- The TCP parts of two machines with the Ethernet between them are hosts with a network between them. -/
theorem ethernet_hosts {k : Ends} {A B : Machine} (hA : Started A) (hB : Started B) {xs ys : List Ev} (h : Ethernet k.lip k.rip A B xs ys)
    {i j : Nat} {a b : Sess} (ha : Sole k (A.run xs).tcp i a) (hb : Sole k.flip (B.run ys).tcp j b) :
    Hosts k (told A xs) (told B ys) ∧ (A.run xs).tcp = TcpStack.run (told A xs) ∧ (B.run ys).tcp = TcpStack.run (told B ys) := by
  refine ⟨?_, (inv hA xs).tcp, (inv hB ys).tcp⟩
  rw [(inv hA xs).tcp] at ha
  rw [(inv hB ys).tcp] at hb
  have key : ∀ us vs, Ethernet k.lip k.rip A B us vs → ∀ us' vs', told A xs = told A us ++ us' → told B ys = told B vs ++ vs' →
      Hosts k (told A us) (told B vs) := by
    intro us vs huv
    induction huv with
    | start => intro _ _ _ _; exact .start
    | @left us vs e hh he ih =>
      intro us' vs' hu hv
      rw [told_snoc] at hu ⊢
      have ih := ih (proj (A.run us) e ++ us') vs' (by rw [hu, List.append_assoc]) hv
      rcases proj_one (A.run us) e with h0 | ⟨x, hx⟩
      · rw [h0, List.append_nil]; exact ih
      · rw [hx]
        refine .left ih (may_reach hA hB (ethernet_wire (.left hh he)).1 hx (suf := vs') (b := b) (j := j) (by rw [← hv]; exact hb))
    | @right us vs e hh he ih =>
      intro us' vs' hu hv
      rw [told_snoc] at hv ⊢
      have ih := ih us' (proj (B.run vs) e ++ vs') hu (by rw [hv, List.append_assoc])
      rcases proj_one (B.run vs) e with h0 | ⟨x, hx⟩
      · rw [h0, List.append_nil]; exact ih
      · rw [hx]
        refine .right ih (may_reach (k := k.flip) hB hA (ethernet_wire (.right hh he)).2 hx (suf := us') (b := a) (j := i)
          (by rw [← hu]; exact ha))
  exact key xs ys h [] [] (by simp) (by simp)

end Machine
end Verif
