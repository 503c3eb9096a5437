import Verif.Model.Host
import Verif.Lemmas.Dict
import Verif.Props.Tx
import Verif.Lemmas.Addrs
/-! The transmit functions of a host are those of `Model/Tx.lean`, with the answers of its caches. -/
namespace Verif
open Spec
namespace Host

/-- Looking an address up changes the use counters only. -/
structure Touched (h h' : Host) : Prop where
  node : h'.node = h.node
  links : h'.links = h.links

theorem Touched.refl (h : Host) : Touched h h := ⟨rfl, rfl⟩

/-- The request for `a`. -/
def arpFrame (s : Stack) (a : Ip4Address) : Outgoing :=
  ⟨s.mac, .broadcast, .arp 1 s.mac (match s.ip4Unicast with | x :: _ => x | [] => .zero) .zero a⟩

theorem phtxEther_given (s : Stack) (arp : ArpLookup) (nd : NdLookup) (edst : MacAddress) (p : Pkt) (h : edst.isUnspecified = false) :
    phtxEther s arp nd s.mac edst p = .ok (.passedEtherToTxRing, [⟨s.mac, edst, p⟩]) := by
  rw [phtxEther, if_pos (by rw [h]; decide), ite_self]

theorem arpRequest_eq (s : Stack) (a : Ip4Address) : arpRequest s a = .ok [arpFrame s a] := by
  rw [arpRequest]
  have := phtxEther_given s (fun _ => none) (fun _ => none) (s.arpRequest a).2.1 (s.arpRequest a).2.2
    (show MacAddress.broadcast.isUnspecified = false by decide)
  change phtxEther s (fun _ => none) (fun _ => none) (s.arpRequest a).1 (s.arpRequest a).2.1 (s.arpRequest a).2.2 = _ at this
  rw [this]
  rfl

theorem find_links {A : Type} [DecidableEq A] (c : Cache A) (a : A) :
    (fun b => (((c.find a).1.get? b).map (·.mac) : Option MacAddress)) = fun b => (c.get? b).map (·.mac) := by
  funext b
  rw [Cache.find]
  cases hg : c.get? a with
  | none => rfl
  | some e =>
    dsimp only
    rw [Dict.get?_set]
    split
    · next hb => rw [hb, hg]; rfl
    · rfl

/-- Where an IPv4 packet goes depends on one answer of the cache. -/
theorem etherDst_ask4 (s : Stack) (arp : ArpLookup) (src dst : Ip4Address) :
    (ask4 s src dst = none ∧ ∀ arp', etherDstIp4 s arp' src dst = etherDstIp4 s arp src dst) ∨
    (∃ a e, ask4 s src dst = some a ∧ e ≠ .passedEtherToTxRing ∧
      ∀ arp', etherDstIp4 s arp' src dst = match arp' a with | some m => .ok (.ok m) | none => .ok (.error e)) := by
  simp only [ask4, etherDstIp4]
  split
  · exact .inl ⟨rfl, fun _ => rfl⟩
  split
  · exact .inl ⟨rfl, fun _ => rfl⟩
  split
  · exact .inl ⟨rfl, fun _ => rfl⟩
  cases List.find? (fun h => decide (h.address = src) && !h.network.contains dst) s.ip4Host with
  | some x =>
    cases hg : x.gateway with
    | none => exact .inl ⟨hg, fun _ => by dsimp only; rw [hg]⟩
    | some g => exact .inr ⟨g, .dropEtherGatewayArpCacheFail, hg, by simp, fun _ => by dsimp only; rw [hg]; rfl⟩
  | none => exact .inr ⟨dst, .dropEtherArpCacheFail, rfl, by simp, fun _ => rfl⟩

theorem etherDst_ask6 (s : Stack) (nd : NdLookup) (src dst : Ip6Address) :
    (ask6 s src dst = none ∧ ∀ nd', etherDstIp6 s nd' src dst = etherDstIp6 s nd src dst) ∨
    (∃ a e, ask6 s src dst = some a ∧ e ≠ .passedEtherToTxRing ∧
      ∀ nd', etherDstIp6 s nd' src dst = match nd' a with | some m => .ok (.ok m) | none => .ok (.error e)) := by
  simp only [ask6, etherDstIp6]
  split
  · exact .inl ⟨rfl, fun _ => rfl⟩
  cases List.find? (fun h => decide (h.address = src) && !h.network.contains dst) s.ip6Host with
  | some x =>
    cases hg : x.gateway with
    | none => exact .inl ⟨hg, fun _ => by dsimp only; rw [hg]⟩
    | some g => exact .inr ⟨g, .dropEtherGatewayNdCacheFail, hg, by simp, fun _ => by dsimp only; rw [hg]; rfl⟩
  | none => exact .inr ⟨dst, .dropEtherNdCacheFail, rfl, by simp, fun _ => rfl⟩

theorem finish_nil (s : Stack) (m : Option MacAddress) (p : Pkt) :
    finish s (.ok []) m p = phtxEther s (fun _ => m) (fun _ => m) .zero .zero p := by
  simp only [finish, py_ok_bind, List.nil_append, py_pure]
  cases phtxEther s (fun _ => m) (fun _ => m) .zero .zero p <;> rfl

/-- The cache has no entry for `a`, the next hop for `dst`. -/
def Missing4 (h : Host) (src dst a : Ip4Address) : Prop := ask4 h.stack src dst = some a ∧ h.links.arp 0 a = none
def Missing6 (h : Host) (src dst a : Ip6Address) : Prop := ask6 h.stack src dst = some a ∧ h.links.nd 0 a = none

theorem link_eq4 (h : Host) (p : Pkt) (hd : Ip4.Tx) (hp : p.ip4Hdr = some hd) :
    h.link p = match ask4 h.stack hd.src hd.dst with
    | none => (h, finish h.stack (.ok []) none p)
    | some a => ({ h with arp := (h.arp.find a).1 },
        finish h.stack (requests (arpRequest h.stack) (h.arp.find a).2.2) (h.arp.find a).2.1 p) := by
  cases p <;> simp only [Pkt.ip4Hdr, Option.some.injEq, reduceCtorEq] at hp <;> subst hp <;> rfl

theorem link_eq6 (h : Host) (p : Pkt) (hd : Ip6.Tx) (hp : p.ip6Hdr = some hd) :
    h.link p = match ask6 h.stack hd.src hd.dst with
    | none => (h, finish h.stack (.ok []) none p)
    | some a => ({ h with nd := (h.nd.find a).1 },
        finish h.stack (requests (ndRequest h.stack) (h.nd.find a).2.2) (h.nd.find a).2.1 p) := by
  cases p <;> simp only [Pkt.ip6Hdr, Option.some.injEq, reduceCtorEq] at hp <;> subst hp <;> rfl

/-- The link layer, for an IPv4 packet whose next hop is known (or not needed): it does what `phtxEther` does with the answers of the
cache. -/
theorem link4 (h : Host) (p : Pkt) (hd : Ip4.Tx) (hp : p.ip4Hdr = some hd) (hm : ∀ a, ¬ Missing4 h hd.src hd.dst a) (k : Nat) (nd : NdLookup) :
    ∃ h', h.link p = (h', phtxEther h.stack (h.links.arp k) nd .zero .zero p) ∧ Touched h h' := by
  rw [link_eq4 h p hd hp]
  rcases etherDst_ask4 h.stack (h.links.arp k) hd.src hd.dst with ⟨e1, e2⟩ | ⟨a, e, e1, e2, e3⟩
  · rw [e1]
    refine ⟨h, ?_, .refl h⟩
    rw [finish_nil, phtxEther_ip4 _ _ _ _ _ hp, phtxEther_ip4 _ _ _ _ _ hp, e2]
  · rw [e1]
    cases hg : h.arp.get? a with
    | some x =>
      have hf : h.arp.find a = (h.arp.set a { x with hits := x.hits + 1 }, some x.mac, []) := by rw [Cache.find, hg]
      refine ⟨{ h with arp := (h.arp.find a).1 }, ?_, ⟨rfl, ?_⟩⟩
      · dsimp only
        rw [hf]
        dsimp only [requests]
        rw [finish_nil, phtxEther_ip4 _ _ _ _ _ hp, phtxEther_ip4 _ _ _ _ _ hp, e3, e3, links]
        simp only [hg, Option.map_some]
      · rw [Host.links, Host.links]
        congr 1
        funext k
        exact find_links h.arp a
    | none => exact absurd ⟨e1, by rw [links]; simp only [hg, Option.map_none]⟩ (hm a)

/-- If it is not known, the one frame that goes out is a request for it. -/
theorem link4_missing (h : Host) (p : Pkt) (hd : Ip4.Tx) (hp : p.ip4Hdr = some hd) {a : Ip4Address} (hm : Missing4 h hd.src hd.dst a) (k : Nat)
    (nd : NdLookup) :
    ∃ s, s ≠ .passedEtherToTxRing ∧ h.link p = (h, .ok (s, [arpFrame h.stack a])) ∧
      phtxEther h.stack (h.links.arp k) nd .zero .zero p = .ok (s, []) := by
  obtain ⟨ha, hn⟩ := hm
  rw [link_eq4 h p hd hp]
  rcases etherDst_ask4 h.stack (h.links.arp k) hd.src hd.dst with ⟨e1, e2⟩ | ⟨a', e, e1, e2, e3⟩
  · rw [e1] at ha; cases ha
  · rw [ha] at e1
    cases e1
    have hg : h.arp.get? a = none := by rw [links] at hn; simpa using hn
    have hf : h.arp.find a = (h.arp, none, [a]) := by rw [Cache.find, hg]
    rw [ha]
    refine ⟨e, e2, ?_, ?_⟩
    · dsimp only
      rw [hf]
      simp only [requests, arpRequest_eq, finish, py_ok_bind, py_pure, List.append_nil, phtxEther_ip4 _ _ _ _ _ hp, e3]
    · rw [phtxEther_ip4 _ _ _ _ _ hp, e3, links]
      simp only [hg, Option.map_none]

theorem link6 (h : Host) (p : Pkt) (hd : Ip6.Tx) (hp : p.ip6Hdr = some hd) (hm : ∀ a, ¬ Missing6 h hd.src hd.dst a) (k : Nat) (arp : ArpLookup) :
    ∃ h', h.link p = (h', phtxEther h.stack arp (h.links.nd k) .zero .zero p) ∧ Touched h h' := by
  rw [link_eq6 h p hd hp]
  rcases etherDst_ask6 h.stack (h.links.nd k) hd.src hd.dst with ⟨e1, e2⟩ | ⟨a, e, e1, e2, e3⟩
  · rw [e1]
    refine ⟨h, ?_, .refl h⟩
    rw [finish_nil, phtxEther_ip6 _ _ _ _ _ hp, phtxEther_ip6 _ _ _ _ _ hp, e2]
  · rw [e1]
    cases hg : h.nd.get? a with
    | some x =>
      have hf : h.nd.find a = (h.nd.set a { x with hits := x.hits + 1 }, some x.mac, []) := by rw [Cache.find, hg]
      refine ⟨{ h with nd := (h.nd.find a).1 }, ?_, ⟨rfl, ?_⟩⟩
      · dsimp only
        rw [hf]
        dsimp only [requests]
        rw [finish_nil, phtxEther_ip6 _ _ _ _ _ hp, phtxEther_ip6 _ _ _ _ _ hp, e3, e3, links]
        simp only [hg, Option.map_some]
      · rw [Host.links, Host.links]
        congr 1
        funext k
        exact find_links h.nd a
    | none => exact absurd ⟨e1, by rw [links]; simp only [hg, Option.map_none]⟩ (hm a)

/-- The solicitation for `a`. -/
def ndFrame (s : Stack) (a : Ip6Address) (src : Ip6Address) : Outgoing :=
  ⟨s.mac, groupMac (solicitedNode a), .ip6 (packetTx6 src (solicitedNode a) 255) (Icmp6.carried (.neighborSolicitation a [.slla s.mac]))⟩

theorem link6_missing (h : Host) (p : Pkt) (hd : Ip6.Tx) (hp : p.ip6Hdr = some hd) {a : Ip6Address} (hm : Missing6 h hd.src hd.dst a) (k : Nat)
    (arp : ArpLookup) :
    ∃ s, s ≠ .passedEtherToTxRing ∧ h.link p = (h, (ndRequest h.stack a).map fun l => (s, l)) ∧
      phtxEther h.stack arp (h.links.nd k) .zero .zero p = .ok (s, []) := by
  obtain ⟨ha, hn⟩ := hm
  rw [link_eq6 h p hd hp]
  rcases etherDst_ask6 h.stack (h.links.nd k) hd.src hd.dst with ⟨e1, e2⟩ | ⟨a', e, e1, e2, e3⟩
  · rw [e1] at ha; cases ha
  · rw [ha] at e1
    cases e1
    have hg : h.nd.get? a = none := by rw [links] at hn; simpa using hn
    have hf : h.nd.find a = (h.nd, none, [a]) := by rw [Cache.find, hg]
    rw [ha]
    refine ⟨e, e2, ?_, ?_⟩
    · dsimp only
      rw [hf]
      simp only [requests]
      cases ndRequest h.stack a with
      | error x => rfl
      | ok l => simp only [finish, py_ok_bind, py_pure, List.append_nil, phtxEther_ip6 _ _ _ _ _ hp, e3]; rfl
    · rw [phtxEther_ip6 _ _ _ _ _ hp, e3, links]
      simp only [hg, Option.map_none]

theorem Touched.trans {a b c : Host} (h₁ : Touched a b) (h₂ : Touched b c) : Touched a c :=
  ⟨h₂.node.trans h₁.node, h₂.links.trans h₁.links⟩

theorem Touched.stack {h h' : Host} (t : Touched h h') : h'.stack = h.stack := by rw [Host.stack, Host.stack, t.node]

theorem Touched.missing4 {h h' : Host} (t : Touched h h') (s d a : Ip4Address) : Missing4 h' s d a ↔ Missing4 h s d a := by
  rw [Missing4, Missing4, t.stack, t.links]
theorem Touched.missing6 {h h' : Host} (t : Touched h h') (s d a : Ip6Address) : Missing6 h' s d a ↔ Missing6 h s d a := by
  rw [Missing6, Missing6, t.stack, t.links]

theorem links_eq (h : Host) (k : Nat) : h.links.arp k = h.links.arp 0 ∧ h.links.nd k = h.links.nd 0 := ⟨rfl, rfl⟩

theorem frags_known4 {src dst : Ip4Address} {ttl proto id : Nat} (ds : List Bytes) :
    ∀ (h : Host) (off : Nat), (∀ a, ¬ Missing4 h src dst a) →
      ∃ h', frags (frag4 src dst ttl proto id) h off ds = (h', sendFrags (sendFragIp4 h.stack h.links.arp src dst ttl proto id) off ds) ∧
        Touched h h' := by
  induction ds with
  | nil => intro h off _; exact ⟨h, rfl, .refl h⟩
  | cons d ds ih =>
    intro h off hm
    rw [frags, sendFrags, frag4, sendFragIp4]
    dsimp only
    cases hx : (fragTx src dst ttl id proto off (!ds.isEmpty)).asserts with
    | error e => exact ⟨h, rfl, .refl h⟩
    | ok u =>
      dsimp only
      obtain ⟨h', e1, t1⟩ := link4 h (.ip4Frag (fragTx src dst ttl id proto off (!ds.isEmpty)) d) _ rfl hm off (fun _ => none)
      rw [e1]
      simp only [py_ok_bind]
      cases phtxEther h.stack (h.links.arp off) (fun _ => none) .zero .zero (.ip4Frag (fragTx src dst ttl id proto off (!ds.isEmpty)) d) with
      | error e => exact ⟨h', rfl, t1⟩
      | ok r =>
        obtain ⟨h'', e2, t2⟩ := ih h' (off + d.length) (fun a hx => hm a ((t1.missing4 _ _ _).1 hx))
        dsimp only
        rw [e2, t1.stack, t1.links]
        simp only [py_ok_bind]
        refine ⟨h'', ?_, t1.trans t2⟩
        cases sendFrags (sendFragIp4 h.stack h.links.arp src dst ttl proto id) (off + d.length) ds <;> rfl

theorem frags_missing4 {src dst a : Ip4Address} {ttl proto id : Nat} (ds : List Bytes) :
    ∀ (h : Host) (off : Nat), Missing4 h src dst a →
      (∃ e, frags (frag4 src dst ttl proto id) h off ds = (h, .error e) ∧
        sendFrags (sendFragIp4 h.stack h.links.arp src dst ttl proto id) off ds = .error e) ∨
      ∃ l, frags (frag4 src dst ttl proto id) h off ds = (h, .ok (l, List.replicate ds.length (arpFrame h.stack a))) ∧
        sendFrags (sendFragIp4 h.stack h.links.arp src dst ttl proto id) off ds = .ok (l, []) := by
  induction ds with
  | nil => intro h off _; exact .inr ⟨[], rfl, rfl⟩
  | cons d ds ih =>
    intro h off hm
    rw [frags, sendFrags, frag4, sendFragIp4]
    dsimp only
    cases hx : (fragTx src dst ttl id proto off (!ds.isEmpty)).asserts with
    | error e => exact .inl ⟨e, rfl, rfl⟩
    | ok u =>
      dsimp only
      obtain ⟨s, -, e1, e2⟩ := link4_missing h (.ip4Frag (fragTx src dst ttl id proto off (!ds.isEmpty)) d) _ rfl hm off (fun _ => none)
      rw [e1]
      simp only [py_ok_bind]
      rw [e2]
      rcases ih h (off + d.length) hm with ⟨e, e3, e4⟩ | ⟨l, e3, e4⟩
      · left; refine ⟨e, ?_, ?_⟩
        · rw [e3]
        · simp only [py_ok_bind]; rw [e4]; rfl
      · right; refine ⟨s :: l, ?_, ?_⟩
        · rw [e3]; rfl
        · simp only [py_ok_bind]; rw [e4]; rfl

theorem missing4_id {h : Host} {n : Nat} {s d a : Ip4Address} :
    Missing4 (h.withStack { h.stack with ip4Id := n }) s d a ↔ Missing4 h s d a := Iff.rfl

/-- The host has done what the functions of `Model/Tx.lean` do, with the answers of its caches. -/
def Same (h : Host) (r : Res) (p : Stack × Py (TxStatus × List Outgoing)) : Prop := r.2 = p.2 ∧ Touched (h.withStack p.1) r.1

/-- The host has only asked, by frames `req`; those functions would have sent nothing. -/
def Asked (h : Host) (req : Outgoing) (r : Res) (p : Stack × Py (TxStatus × List Outgoing)) : Prop :=
  ∃ s n, r = (h.withStack p.1, .ok (s, List.replicate n req)) ∧ p.2 = .ok (s, [])

theorem validateDstIp4_ok {d d' : Ip4Address} (h : validateDstIp4 d = .ok d') : d' = d := by
  rw [validateDstIp4] at h
  split at h <;> cases h
  rfl
theorem validateDstIp6_ok {d d' : Ip6Address} (h : validateDstIp6 d = .ok d') : d' = d := by
  rw [validateDstIp6] at h
  split at h <;> cases h
  rfl

/-- The IPv4 layer of the host, and `phtxIp4` with the answers of its caches: they do the same, if the next hop is known. -/
theorem ip4_known (h : Host) (src dst : Ip4Address) (ttl : Nat) (c : L4)
    (hm : ∀ s, validateSrcIp4 h.stack src dst c.kind = .ok s → ∀ a, ¬ Missing4 h s dst a) :
    Same h (h.ip4 src dst ttl c) (phtxIp4 h.stack h.links.arp src dst ttl c) := by
  rw [ip4, phtxIp4]
  split
  · exact ⟨rfl, .refl h⟩
  cases hv : validateSrcIp4 h.stack src dst c.kind with
  | error e => exact ⟨rfl, .refl h⟩
  | ok s =>
    dsimp only
    specialize hm s hv
    cases hd : validateDstIp4 dst with
    | error e => exact ⟨rfl, .refl h⟩
    | ok d =>
    cases validateDstIp4_ok hd
    dsimp only
    cases (packetTx s dst ttl c.proto).asserts with
    | error e => exact ⟨rfl, .refl h⟩
    | ok u =>
      dsimp only
      split
      · obtain ⟨h', e1, t1⟩ := link4 h (.ip4 (packetTx s dst ttl c.proto) c.toCarried) _ rfl hm 0 (fun _ => none)
        rw [e1]
        exact ⟨rfl, t1⟩
      · generalize (do
            let ps ← Ip4.pshdrSum s dst c.proto c.len
            let data ← c.assemble ps
            dataFrags data ((h.stack.mtu - (packetTx s dst ttl c.proto).hlen) &&& 0b1111111111111000)) = G
        cases G with
        | error e => exact ⟨rfl, .refl h⟩
        | ok ds =>
          dsimp only
          obtain ⟨h', e1, t1⟩ := frags_known4 (ttl := ttl) (proto := c.proto) (id := h.stack.ip4Id + 1) ds
            (h.withStack { h.stack with ip4Id := h.stack.ip4Id + 1 }) 0 hm
          change frags (frag4 s dst ttl c.proto (h.withStack { h.stack with ip4Id := h.stack.ip4Id + 1 }).stack.ip4Id) _ 0 ds = _ at e1
          rw [e1]
          change Same h _ (_, (do
              let (sts, outs) ← sendFrags (sendFragIp4 (h.withStack { h.stack with ip4Id := h.stack.ip4Id + 1 }).stack
                (h.withStack { h.stack with ip4Id := h.stack.ip4Id + 1 }).links.arp s dst ttl c.proto (h.stack.ip4Id + 1)) 0 ds
              return (mostSevere severityIp4 .dropIp4Unknown sts, outs)))
          generalize sendFrags _ 0 ds = G
          cases G <;> exact ⟨rfl, t1⟩

/-- If it is not, it only asks, for each fragment; or there is an exception, the same. -/
theorem ip4_missing (h : Host) (src dst : Ip4Address) (ttl : Nat) (c : L4) {s a : Ip4Address} (hv : validateSrcIp4 h.stack src dst c.kind = .ok s)
    (hm : Missing4 h s dst a) :
    Same h (h.ip4 src dst ttl c) (phtxIp4 h.stack h.links.arp src dst ttl c) ∨
    Asked h (arpFrame h.stack a) (h.ip4 src dst ttl c) (phtxIp4 h.stack h.links.arp src dst ttl c) := by
  rw [ip4, phtxIp4]
  split
  · exact .inl ⟨rfl, .refl h⟩
  rw [hv]
  dsimp only
  cases hd : validateDstIp4 dst with
  | error e => exact .inl ⟨rfl, .refl h⟩
  | ok d =>
  cases validateDstIp4_ok hd
  dsimp only
  cases (packetTx s dst ttl c.proto).asserts with
  | error e => exact .inl ⟨rfl, .refl h⟩
  | ok u =>
    dsimp only
    split
    · obtain ⟨st, -, e1, e2⟩ := link4_missing h (.ip4 (packetTx s dst ttl c.proto) c.toCarried) _ rfl hm 0 (fun _ => none)
      rw [e1]
      exact .inr ⟨st, 1, rfl, e2⟩
    · generalize (do
          let ps ← Ip4.pshdrSum s dst c.proto c.len
          let data ← c.assemble ps
          dataFrags data ((h.stack.mtu - (packetTx s dst ttl c.proto).hlen) &&& 0b1111111111111000)) = G
      cases G with
      | error e => exact .inl ⟨rfl, .refl h⟩
      | ok ds =>
        dsimp only
        have hx := frags_missing4 (ttl := ttl) (proto := c.proto) (id := h.stack.ip4Id + 1) ds
          (h.withStack { h.stack with ip4Id := h.stack.ip4Id + 1 }) 0 (missing4_id.2 hm)
        have hc : ∀ X : Prop, (Same h (match frags (frag4 s dst ttl c.proto (h.stack.ip4Id + 1)) (h.withStack { h.stack with ip4Id := h.stack.ip4Id + 1 }) 0 ds with
            | (h', .error e) => (h', .error e)
            | (h', .ok (sts, outs)) => (h', .ok (mostSevere severityIp4 .dropIp4Unknown sts, outs)))
            ({ h.stack with ip4Id := h.stack.ip4Id + 1 }, (do
              let (sts, outs) ← sendFrags (sendFragIp4 (h.withStack { h.stack with ip4Id := h.stack.ip4Id + 1 }).stack
                (h.withStack { h.stack with ip4Id := h.stack.ip4Id + 1 }).links.arp s dst ttl c.proto (h.stack.ip4Id + 1)) 0 ds
              return (mostSevere severityIp4 .dropIp4Unknown sts, outs))) → X) → (Asked h (arpFrame h.stack a) (match frags (frag4 s dst ttl c.proto (h.stack.ip4Id + 1)) (h.withStack { h.stack with ip4Id := h.stack.ip4Id + 1 }) 0 ds with
            | (h', .error e) => (h', .error e)
            | (h', .ok (sts, outs)) => (h', .ok (mostSevere severityIp4 .dropIp4Unknown sts, outs)))
            ({ h.stack with ip4Id := h.stack.ip4Id + 1 }, (do
              let (sts, outs) ← sendFrags (sendFragIp4 (h.withStack { h.stack with ip4Id := h.stack.ip4Id + 1 }).stack
                (h.withStack { h.stack with ip4Id := h.stack.ip4Id + 1 }).links.arp s dst ttl c.proto (h.stack.ip4Id + 1)) 0 ds
              return (mostSevere severityIp4 .dropIp4Unknown sts, outs))) → X) → X := by
          intro X x1 x2
          rcases hx with ⟨e, e1, e2⟩ | ⟨l, e1, e2⟩
          · apply x1
            rw [e1, e2]
            exact ⟨rfl, .refl _⟩
          · apply x2
            rw [e1, e2]
            exact ⟨_, ds.length, rfl, rfl⟩
        exact hc _ .inl .inr


/-! ### A packet that fits the MTU -/

theorem ip4_fits (h : Host) {src dst a : Ip4Address} {ttl : Nat} {c : L4} (ht : 0 < ttl ∧ ttl < 256)
    (hv : validateSrcIp4 h.stack src dst c.kind = .ok a) (hd : dst.int ≠ 0) (hp : c.proto = 1 ∨ c.proto = 17 ∨ c.proto = 6 ∨ c.proto = 255)
    (hf : 20 + c.len ≤ h.stack.mtu) : h.ip4 src dst ttl c = h.link (.ip4 (packetTx a dst ttl c.proto) c.toCarried) := by
  have hz : dst.isUnspecified = false := by rw [Ip4Address.isUnspecified, beq_eq_false_iff_ne]; exact hd
  have h20 : (packetTx a dst ttl c.proto).hlen = 20 := rfl
  rw [ip4, if_neg (not_not.2 ht), hv, validateDstIp4, hz]
  simp only [Bool.false_eq_true, if_false, packetTx_asserts a dst ttl c.proto ht.2 hp, h20, if_pos hf]

theorem phtxIp4_fits (st : Stack) (arp : Nat → ArpLookup) {src dst a : Ip4Address} {ttl : Nat} {c : L4} (ht : 0 < ttl ∧ ttl < 256)
    (hv : validateSrcIp4 st src dst c.kind = .ok a) (hd : dst.int ≠ 0) (hp : c.proto = 1 ∨ c.proto = 17 ∨ c.proto = 6 ∨ c.proto = 255)
    (hf : 20 + c.len ≤ st.mtu) :
    phtxIp4 st arp src dst ttl c = (st, phtxEther st (arp 0) (fun _ => none) .zero .zero (.ip4 (packetTx a dst ttl c.proto) c.toCarried)) := by
  have hz : dst.isUnspecified = false := by rw [Ip4Address.isUnspecified, beq_eq_false_iff_ne]; exact hd
  have h20 : (packetTx a dst ttl c.proto).hlen = 20 := rfl
  rw [phtxIp4, if_neg (not_not.2 ht), hv, validateDstIp4, hz]
  simp only [Bool.false_eq_true, if_false, packetTx_asserts a dst ttl c.proto ht.2 hp, h20, if_pos hf]

theorem ip6_fits (h : Host) {src dst a : Ip6Address} {hop : Nat} {c : L4} (ht : 0 < hop ∧ hop < 256)
    (hv : validateSrcIp6 h.stack src dst c.kind = .ok a) (hd : dst.int ≠ 0)
    (hp : c.proto = 58 ∨ c.proto = 17 ∨ c.proto = 6 ∨ c.proto = 44 ∨ c.proto = 255)
    (hf : 40 + c.len ≤ h.stack.mtu) : h.ip6 src dst hop c = h.link (.ip6 (packetTx6 a dst hop) c.toCarried) := by
  have hz : dst.isUnspecified = false := by rw [Ip6Address.isUnspecified, beq_eq_false_iff_ne]; exact hd
  have e : h.ip6Small src dst hop c = match h.link (.ip6 (packetTx6 a dst hop) c.toCarried) with
      | (h, .error e) => (h, .error e)
      | (h, .ok r) => (h, .ok (.inl r)) := by
    rw [ip6Small, if_neg (not_not.2 ht), hv, validateDstIp6, hz]
    simp only [Bool.false_eq_true, if_false, packetTx6_asserts a dst hop c.proto ht.2 hp, if_pos hf]
    generalize h.link (.ip6 (packetTx6 a dst hop) c.toCarried) = r
    obtain ⟨h', r⟩ := r
    cases r <;> rfl
  rw [ip6, e]
  generalize h.link (.ip6 (packetTx6 a dst hop) c.toCarried) = r
  obtain ⟨h', r⟩ := r
  cases r <;> rfl

theorem phtxIp6_fits (st : Stack) (nd : Nat → NdLookup) {src dst a : Ip6Address} {hop : Nat} {c : L4} (ht : 0 < hop ∧ hop < 256)
    (hv : validateSrcIp6 st src dst c.kind = .ok a) (hd : dst.int ≠ 0)
    (hp : c.proto = 58 ∨ c.proto = 17 ∨ c.proto = 6 ∨ c.proto = 44 ∨ c.proto = 255) (hf : 40 + c.len ≤ st.mtu) :
    phtxIp6 st nd src dst hop c = (st, phtxEther st (fun _ => none) (nd 0) .zero .zero (.ip6 (packetTx6 a dst hop) c.toCarried)) := by
  have hz : dst.isUnspecified = false := by rw [Ip6Address.isUnspecified, beq_eq_false_iff_ne]; exact hd
  have e : phtxIp6Small st (nd 0) src dst hop c =
      (phtxEther st (fun _ => none) (nd 0) .zero .zero (.ip6 (packetTx6 a dst hop) c.toCarried)).map .inl := by
    rw [phtxIp6Small, hv, validateDstIp6, hz]
    simp only [ht.1, ht.2, decide_true, Bool.and_self, pyAssert_true, py_ok_bind, Bool.false_eq_true, if_false,
      packetTx6_asserts a dst hop c.proto ht.2 hp, if_pos hf]
    cases phtxEther st (fun _ => none) (nd 0) .zero .zero (.ip6 (packetTx6 a dst hop) c.toCarried) <;> rfl
  rw [phtxIp6, e]
  cases phtxEther st (fun _ => none) (nd 0) .zero .zero (.ip6 (packetTx6 a dst hop) c.toCarried) <;> rfl

/-- The solicitation is sent if it fits the MTU and a source address is found. -/
theorem ndRequest_eq (s : Stack) (a src : Ip6Address) (hmtu : 72 ≤ s.mtu)
    (hs : validateSrcIp6 s (s.ndSource a) (solicitedNode a) (.icmp6 135 1) = .ok src) :
    ndRequest s a = .ok [ndFrame s a src] := by
  have hmu := Addrs.solicited_multicast a
  have hun : (solicitedNode a).int ≠ 0 := by
    show ¬ 0xFF0200000000000000000001FF000000 + a.int % 2 ^ 24 = 0
    omega
  rw [ndRequest, Addrs.solicited_eq]
  dsimp only
  have : etherDstIp6 s (fun _ => none) src (solicitedNode a) = .ok (.ok (groupMac (solicitedNode a))) := by
    rw [etherDstIp6, if_pos hmu, Addrs.mac_eq hmu]; rfl
  have e := phtxIp6_fits s (fun _ _ => none) (hop := 255)
    (c := { Icmp6.carried (.neighborSolicitation a [.slla s.mac]) with kind := .icmp6 135 1 }) (by decide) hs hun (.inl rfl) (show 40 + 32 ≤ _ from hmtu)
  have e2 : phtxEther s (fun _ => none) (fun _ => none) .zero .zero (.ip6 (packetTx6 src (solicitedNode a) 255)
      (Icmp6.carried (.neighborSolicitation a [.slla s.mac]))) = .ok (.passedEtherToTxRing, [ndFrame s a src]) := by
    rw [phtxEther_ip6 _ _ _ _ (packetTx6 src (solicitedNode a) 255) rfl]
    simp only [packetTx6, this]
    rfl
  rw [e2] at e
  have e3 : phtxIcmp6 s ⟨fun _ _ => none, fun _ _ => none⟩ (s.ndSource a) (solicitedNode a) 255 (.neighborSolicitation a [.slla s.mac]) =
    (s, .ok (.passedEtherToTxRing, [ndFrame s a src])) := e
  rw [e3]

/-! ### IPv6, whole or in fragments -/

theorem small_known (h : Host) (src dst : Ip6Address) (hop : Nat) (c : L4) (k : Nat)
    (hm : ∀ s, validateSrcIp6 h.stack src dst c.kind = .ok s → ∀ a, ¬ Missing6 h s dst a) :
    ∃ h', h.ip6Small src dst hop c = (h', phtxIp6Small h.stack (h.links.nd k) src dst hop c) ∧ Touched h h' := by
  rw [ip6Small, phtxIp6Small]
  by_cases ht : 0 < hop ∧ hop < 256
  · rw [if_neg (not_not.2 ht)]
    simp only [ht.1, ht.2, decide_true, Bool.and_self, pyAssert_true, py_ok_bind]
    cases hv : validateSrcIp6 h.stack src dst c.kind with
    | error e => exact ⟨h, rfl, .refl h⟩
    | ok s =>
      dsimp only
      specialize hm s hv
      cases hd : validateDstIp6 dst with
      | error e => exact ⟨h, rfl, .refl h⟩
      | ok d =>
        cases validateDstIp6_ok hd
        dsimp only
        cases ip6Asserts (packetTx6 s dst hop) c.proto with
        | error e => exact ⟨h, rfl, .refl h⟩
        | ok u =>
          simp only [py_ok_bind]
          split
          · obtain ⟨h', e1, t1⟩ := link6 h (.ip6 (packetTx6 s dst hop) c.toCarried) _ rfl hm k (fun _ => none)
            rw [e1]
            cases phtxEther h.stack (fun _ => none) (h.links.nd k) .zero .zero (.ip6 (packetTx6 s dst hop) c.toCarried) <;> exact ⟨h', rfl, t1⟩
          · exact ⟨h, rfl, .refl h⟩
  · rw [if_pos ht]
    have : (decide (0 < hop) && decide (hop < 256)) = false := by simp; omega
    rw [this]
    exact ⟨h, rfl, .refl h⟩

theorem frag_known6 (h : Host) (src dst : Ip6Address) (next id off : Nat) (mf : Bool) (d : Bytes)
    (hm : ∀ s, validateSrcIp6 h.stack src dst .other = .ok s → ∀ a, ¬ Missing6 h s dst a) :
    ∃ h', frag6 src dst next id h off mf d = (h', sendFragIp6 h.stack h.links.nd src dst next id off mf d) ∧ Touched h h' := by
  rw [frag6, sendFragIp6]
  by_cases hn : next ≠ 58 ∧ next ≠ 17 ∧ next ≠ 6 ∧ next ≠ 255
  · rw [if_pos hn]
    have : (next == 58 || next == 17 || next == 6 || next == 255) = false := by simp; omega
    rw [this]
    exact ⟨h, rfl, .refl h⟩
  · rw [if_neg hn]
    have : (next == 58 || next == 17 || next == 6 || next == 255) = true := by simp; omega
    rw [this]
    obtain ⟨h', e1, t1⟩ := small_known h src dst 64 { Ip6Frag.carried next off mf id d with kind := .other } off hm
    rw [e1]
    simp only [pyAssert_true, py_ok_bind]
    refine ⟨h', ?_, t1⟩
    generalize phtxIp6Small h.stack (h.links.nd off) src dst 64 { Ip6Frag.carried next off mf id d with kind := .other } = G
    cases G with
    | error e => rfl
    | ok r => cases r <;> rfl

theorem frags_known6 {src dst : Ip6Address} {next id : Nat} (ds : List Bytes) :
    ∀ (h : Host) (off : Nat), (∀ s, validateSrcIp6 h.stack src dst .other = .ok s → ∀ a, ¬ Missing6 h s dst a) →
      ∃ h', frags (frag6 src dst next id) h off ds = (h', sendFrags (sendFragIp6 h.stack h.links.nd src dst next id) off ds) ∧
        Touched h h' := by
  induction ds with
  | nil => intro h off _; exact ⟨h, rfl, .refl h⟩
  | cons d ds ih =>
    intro h off hm
    rw [frags, sendFrags]
    obtain ⟨h', e1, t1⟩ := frag_known6 h src dst next id off (!ds.isEmpty) d hm
    rw [e1]
    cases sendFragIp6 h.stack h.links.nd src dst next id off (!ds.isEmpty) d with
    | error e => exact ⟨h', rfl, t1⟩
    | ok r =>
      obtain ⟨h'', e2, t2⟩ := ih h' (off + d.length) (by
        rw [t1.stack]; exact fun s hs a hx => hm s hs a ((t1.missing6 _ _ _).1 hx))
      dsimp only
      rw [e2, t1.stack, t1.links]
      simp only [py_ok_bind]
      refine ⟨h'', ?_, t1.trans t2⟩
      cases sendFrags (sendFragIp6 h.stack h.links.nd src dst next id) (off + d.length) ds <;> rfl

theorem small_inr {h h' : Host} {src dst a b : Ip6Address} {hop : Nat} {c : L4} (e : h.ip6Small src dst hop c = (h', .ok (.inr (a, b)))) :
    h' = h ∧ validateSrcIp6 h.stack src dst c.kind = .ok a ∧ b = dst := by
  rw [ip6Small] at e
  split at e
  · simp at e
  cases hv : validateSrcIp6 h.stack src dst c.kind with
  | error x => rw [hv] at e; simp at e
  | ok s =>
    rw [hv] at e
    dsimp only at e
    cases hd : validateDstIp6 dst with
    | error x => rw [hd] at e; simp at e
    | ok d =>
      rw [hd] at e
      dsimp only at e
      split at e
      · simp at e
      · split at e
        · split at e <;> simp at e
        · simp only [Prod.mk.injEq, Except.ok.injEq, Sum.inr.injEq] at e
          exact ⟨e.1.symm, by rw [e.2.1], by rw [← e.2.2, validateDstIp6_ok hd]⟩

/-- The IPv6 layer of the host, and `phtxIp6` with the answers of its caches: they do the same, if the next hop is known (for the source
address that is chosen for the packet, and for the one chosen for fragments from that address). -/
theorem ip6_known (h : Host) (src dst : Ip6Address) (hop : Nat) (c : L4)
    (hm : ∀ s, validateSrcIp6 h.stack src dst c.kind = .ok s → (∀ a, ¬ Missing6 h s dst a) ∧
      ∀ s', validateSrcIp6 h.stack s dst .other = .ok s' → ∀ a, ¬ Missing6 h s' dst a) :
    Same h (h.ip6 src dst hop c) (phtxIp6 h.stack h.links.nd src dst hop c) := by
  rw [ip6, phtxIp6]
  obtain ⟨h', e1, t1⟩ := small_known h src dst hop c 0 (fun s hs => (hm s hs).1)
  cases hr : phtxIp6Small h.stack (h.links.nd 0) src dst hop c with
  | error e => rw [e1, hr]; exact ⟨rfl, t1⟩
  | ok r =>
    rw [hr] at e1
    rw [e1]
    cases r with
    | inl r => exact ⟨rfl, t1⟩
    | inr r =>
      obtain ⟨s, d⟩ := r
      obtain ⟨rfl, hv, rfl⟩ := small_inr e1
      dsimp only
      generalize (do
            let ps ← Ip6.pshdrSum s d c.len c.proto
            let data ← c.assemble ps
            dataFrags data ((h'.stack.mtu - 40 - 8) &&& 0b1111111111111000)) = G
      cases G with
      | error e => exact ⟨rfl, .refl h'⟩
      | ok ds =>
        dsimp only
        obtain ⟨h'', e1, t1⟩ := frags_known6 (next := c.proto) (id := h'.stack.ip6Id + 1) ds
          (h'.withStack { h'.stack with ip6Id := h'.stack.ip6Id + 1 }) 0 (hm s hv).2
        change frags (frag6 s d c.proto (h'.withStack { h'.stack with ip6Id := h'.stack.ip6Id + 1 }).stack.ip6Id) _ 0 ds = _ at e1
        rw [e1]
        change Same h' _ (_, (do
            let (sts, outs) ← sendFrags (sendFragIp6 (h'.withStack { h'.stack with ip6Id := h'.stack.ip6Id + 1 }).stack
              (h'.withStack { h'.stack with ip6Id := h'.stack.ip6Id + 1 }).links.nd s d c.proto (h'.stack.ip6Id + 1)) 0 ds
            return (mostSevere severityIp6 .dropIp6ExtFragUnknown sts, outs)))
        generalize sendFrags _ 0 ds = G
        cases G <;> exact ⟨rfl, t1⟩

end Host
end Verif
