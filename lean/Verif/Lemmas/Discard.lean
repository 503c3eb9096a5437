import Verif.Spec.Daytime
import Verif.Lemmas.Echo
/-! The discard service: neither sending nor receiving depends on what waits in the sockets. -/
namespace Verif
open Spec Echo

namespace Host

/-- The result of a call, with other sockets. -/
def over {α : Type} (ss : Socks) (x : Host × α) : Host × α := (x.1.withSocks ss, x.2)

theorem link_over (h : Host) (ss : Socks) (p : Pkt) : (h.withSocks ss).link p = over ss (h.link p) := by
  unfold link
  split
  · dsimp only [withSocks, stack]; split <;> rfl
  · dsimp only [withSocks, stack]; split <;> rfl
  · dsimp only [withSocks, stack]; split <;> rfl
  · rfl

theorem frags_over {send : Host → Nat → Bool → Bytes → Res} {ss : Socks} (hs : ∀ h o mf d, send (h.withSocks ss) o mf d = over ss (send h o mf d)) (ds : List Bytes) :
    ∀ (h : Host) (o : Nat), frags send (h.withSocks ss) o ds = over ss (frags send h o ds) := by
  induction ds with
  | nil => intro h o; rfl
  | cons d ds ih =>
    intro h o
    rw [frags, frags, hs]
    obtain ⟨h', x⟩ := send h o (!ds.isEmpty) d
    cases x with
    | error e => rfl
    | ok y =>
      obtain ⟨st, out⟩ := y
      dsimp only [over]
      rw [ih]
      obtain ⟨h'', z⟩ := frags send h' (o + d.length) ds
      cases z <;> rfl

theorem frag4_over (src dst : Ip4Address) (ttl proto id : Nat) (ss : Socks) (h : Host) (o : Nat) (mf : Bool) (d : Bytes) :
    frag4 src dst ttl proto id (h.withSocks ss) o mf d = over ss (frag4 src dst ttl proto id h o mf d) := by
  unfold frag4
  dsimp only
  split
  · rfl
  · exact link_over h ss _

theorem ip4_over (h : Host) (ss : Socks) (src dst : Ip4Address) (ttl : Nat) (c : L4) : (h.withSocks ss).ip4 src dst ttl c = over ss (h.ip4 src dst ttl c) := by
  unfold ip4
  rw [show (h.withSocks ss).stack = h.stack from rfl]
  split
  · rfl
  split
  · rfl
  split
  · rfl
  dsimp only
  split
  · rfl
  split
  · exact link_over h ss _
  split
  · rfl
  · next s _ _ d _ _ _ _ _ ds _ =>
    have := frags_over (frag4_over s d ttl c.proto (h.stack.ip4Id + 1) ss) ds (h.withStack { h.stack with ip4Id := h.stack.ip4Id + 1 }) 0
    rw [show (h.withSocks ss).withStack { h.stack with ip4Id := h.stack.ip4Id + 1 } = (h.withStack { h.stack with ip4Id := h.stack.ip4Id + 1 }).withSocks ss from rfl]
    dsimp only [withStack, stack, withSocks] at this ⊢
    rw [this]
    generalize frags (frag4 s d ttl c.proto (h.node.stack.ip4Id + 1)) _ 0 ds = y
    obtain ⟨h', y⟩ := y
    cases y <;> rfl

theorem ip6Small_over (h : Host) (ss : Socks) (src dst : Ip6Address) (hop : Nat) (c : L4) :
    (h.withSocks ss).ip6Small src dst hop c = over ss (h.ip6Small src dst hop c) := by
  unfold ip6Small
  rw [show (h.withSocks ss).stack = h.stack from rfl]
  split
  · rfl
  split
  · rfl
  split
  · rfl
  dsimp only
  split
  · rfl
  split
  · rw [link_over]
    generalize h.link _ = y
    obtain ⟨h', y⟩ := y
    cases y <;> rfl
  · rfl

theorem frag6_over (src dst : Ip6Address) (next id : Nat) (ss : Socks) (h : Host) (o : Nat) (mf : Bool) (d : Bytes) :
    frag6 src dst next id (h.withSocks ss) o mf d = over ss (frag6 src dst next id h o mf d) := by
  unfold frag6
  split
  · rfl
  rw [ip6Small_over]
  generalize ip6Small h src dst 64 _ = y
  obtain ⟨h', y⟩ := y
  cases y with
  | error e => rfl
  | ok y => cases y <;> rfl

theorem ip6_over (h : Host) (ss : Socks) (src dst : Ip6Address) (hop : Nat) (c : L4) : (h.withSocks ss).ip6 src dst hop c = over ss (h.ip6 src dst hop c) := by
  unfold ip6
  rw [ip6Small_over]
  generalize ip6Small h src dst hop c = y
  obtain ⟨h', y⟩ := y
  cases y with
  | error e => rfl
  | ok y =>
    cases y with
    | inl r => rfl
    | inr a =>
      obtain ⟨s, d⟩ := a
      dsimp only [over]
      rw [show (h'.withSocks ss).stack = h'.stack from rfl]
      split
      · rfl
      · next ds _ =>
        have := frags_over (frag6_over s d c.proto (h'.stack.ip6Id + 1) ss) ds (h'.withStack { h'.stack with ip6Id := h'.stack.ip6Id + 1 }) 0
        dsimp only [withStack, stack, withSocks] at this ⊢
        rw [this]
        generalize frags (frag6 s d c.proto (h'.node.stack.ip6Id + 1)) _ 0 ds = y
        obtain ⟨h', y⟩ := y
        cases y <;> rfl

theorem tcp_over (h : Host) (ss : Socks) (src dst : IpAddress) (x : Tcp.Tx) : (h.withSocks ss).tcp src dst x = over ss (h.tcp src dst x) := by
  unfold tcp
  split
  · rfl
  dsimp only
  split
  · exact ip6_over ..
  · exact ip4_over ..
  · rfl

theorem queued_over (ss : Socks) (x : Res) : queued (over ss x) = over ss (queued x) := by
  obtain ⟨h, x⟩ := x
  cases x <;> rfl

theorem apply_over (t : Int) (h : Host) (ss : Socks) (e : Eff) :
    (h.withSocks ss).apply t e = over (e.onSocks ss) (h.apply t e) := by
  cases e <;> simp only [apply, Eff.onSocks]
  · rw [← queued_over]; rfl
  · rw [icmp4, icmp4, ip4_over, queued_over]
  · rw [icmp6, icmp6, ip6_over, queued_over]
  · rw [tcp_over, queued_over]
  all_goals rfl

end Host

/-! ### Receiving -/

/-- The same state of the packet handler, with other sockets. -/
def Node.over (n : Node) (ss : Socks) : Node := { n with socks := ss }

namespace Rx
variable {n : Node} {ss : Socks}

theorem match_over (ht : ss.table = n.socks.table) (m : UdpMd) : (n.over ss).socks.match? m = n.socks.match? m := by
  rw [Socks.match?, Socks.match?, show (n.over ss).socks = ss from rfl, ht]

theorem tcpMatch_over (ht : ss.table = n.socks.table) (m : TcpMd) : tcpMatch (n.over ss).socks m = tcpMatch n.socks m := by
  rw [tcpMatch, tcpMatch, show (n.over ss).socks = ss from rfl, ht]

theorem unreachable_over (ht : ss.table = n.socks.table) (m : Option UdpMd) : unreachable (n.over ss) m = unreachable n m := by
  cases m with
  | none => rfl
  | some m => rw [unreachable, unreachable, match_over ht]

theorem icmp4_over (ht : ss.table = n.socks.table) (src dst : Ip4Address) (dlen : Nat) (f : Bytes) : icmp4 (n.over ss) src dst dlen f = icmp4 n src dst dlen f := by
  unfold icmp4
  simp only [unreachable_over ht]

theorem icmp6_over (ht : ss.table = n.socks.table) (src dst : Ip6Address) (hop dlen ps : Nat) (f : Bytes) :
    icmp6 (n.over ss) src dst hop dlen ps f = icmp6 n src dst hop dlen ps f := by
  unfold icmp6
  simp only [unreachable_over ht]
  rfl

theorem udp_over (ht : ss.table = n.socks.table) (ip : IpHdr) (f : Bytes) : udp (n.over ss) ip f = udp n ip f := by
  unfold udp
  simp only [match_over ht]

theorem tcp_over (ht : ss.table = n.socks.table) (ip : IpHdr) (f : Bytes) : tcp (n.over ss) ip f = tcp n ip f := by
  unfold tcp
  simp only [tcpMatch_over ht]

theorem ip4Dispatch_over (ht : ss.table = n.socks.table) (h : Ip4.Hdr) (f : Bytes) : ip4Dispatch (n.over ss) h f = ip4Dispatch n h f := by
  unfold ip4Dispatch
  rw [icmp4_over ht, udp_over ht, tcp_over ht]

theorem ip4_over (ht : ss.table = n.socks.table) (t₀ t₁ : Int) (f : Bytes) : ip4 (n.over ss) t₀ t₁ f = ((ip4 n t₀ t₁ f).1.over ss, (ip4 n t₀ t₁ f).2) := by
  unfold ip4
  split
  · rfl
  · rfl
  · next h _ =>
    rw [show (n.over ss).stack = n.stack from rfl]
    split
    · rfl
    split
    · rw [show (n.over ss).flows4 = n.flows4 from rfl]
      obtain ⟨flows, r⟩ := Frag.defragIp4 n.flows4 t₀ t₁ h
      cases r with
      | error e => rfl
      | ok g =>
        cases g with
        | none => rfl
        | some g =>
          have : ∀ h f, ip4Dispatch ({ n with flows4 := flows }.over ss) h f = ip4Dispatch { n with flows4 := flows } h f :=
            fun h f => ip4Dispatch_over (n := { n with flows4 := flows }) ht h f
          refine Prod.ext rfl ?_
          show (do
            let failed ← Ip4.parse g
            let h ← Ip4.read g
            ip4Dispatch ({ n with flows4 := flows }.over ss) h (if failed.isSome then g else h.rest)) = _
          simp only [this]
    · rw [ip4Dispatch_over ht]

theorem ip6_over (t₀ t₁ : Int) (depth : Nat) : ∀ (n : Node) (f : Bytes), ss.table = n.socks.table →
    ip6 (n.over ss) t₀ t₁ depth f = ((ip6 n t₀ t₁ depth f).1.over ss, (ip6 n t₀ t₁ depth f).2) := by
  induction depth with
  | zero =>
    intro n f ht
    unfold ip6
    split
    · rfl
    · rfl
    rw [show (n.over ss).stack = n.stack from rfl]
    split
    · rfl
    split
    · split
      · rfl
      · rfl
      rw [show (n.over ss).flows6 = n.flows6 from rfl]
      split <;> rfl
    rw [icmp6_over ht, udp_over ht, tcp_over ht]
    split
    · rfl
    split
    · rfl
    split <;> rfl
  | succ depth ih =>
    intro n f ht
    unfold ip6
    split
    · rfl
    · rfl
    rw [show (n.over ss).stack = n.stack from rfl]
    split
    · rfl
    split
    · split
      · rfl
      · rfl
      rw [show (n.over ss).flows6 = n.flows6 from rfl]
      split
      · rfl
      · rfl
      · next flows g _ => exact ih { n with flows6 := flows } g ht
    rw [icmp6_over ht, udp_over ht, tcp_over ht]
    split
    · rfl
    split
    · rfl
    split <;> rfl

theorem ether_over (ht : ss.table = n.socks.table) (t₀ t₁ : Int) (depth : Nat) (f : Bytes) :
    ether (n.over ss) t₀ t₁ depth f = ((ether n t₀ t₁ depth f).1.over ss, (ether n t₀ t₁ depth f).2) := by
  unfold ether
  split
  · rfl
  · rfl
  rw [show ∀ d, etherForUs (n.over ss) d = etherForUs n d from fun _ => rfl, ip4_over ht, ip6_over _ _ _ _ _ ht]
  split
  · rfl
  split
  · rfl
  split
  · rfl
  split <;> rfl

end Rx

/-! ### Hosts that differ in what waits in one socket -/

theorem onSocks_table (ss : Socks) (e : Eff) : (e.onSocks ss).table = ss.table := by
  cases e <;> try rfl
  · simp only [Eff.onSocks, Socks.deliver]; split <;> rfl
  · simp only [Eff.onSocks, Socks.notify]; split <;> rfl

/-- The same sockets, but for the one at `r`. -/
structure Others (r : Nat) (ss ss' : Socks) : Prop where
  table : ss'.table = ss.table
  socks : ∀ r', r' ≠ r → ss'.socks[r']? = ss.socks[r']?

theorem put_others {r r' : Nat} (ss : Socks) (s : Sock) (h : r' ≠ r) : (ss.put r s).socks[r']? = ss.socks[r']? := get_put_ne _ (Ne.symm h)

theorem onSocks_others {r : Nat} {ss ss' : Socks} (h : Others r ss ss') (e : Eff) : Others r (e.onSocks ss) (e.onSocks ss') := by
  refine ⟨by rw [onSocks_table, onSocks_table, h.table], fun r' hr => ?_⟩
  have h0 := h.socks r' hr
  cases e <;> try exact h0
  case udpDeliver q m =>
    show (ss'.deliver q m).socks[r']? = (ss.deliver q m).socks[r']?
    by_cases hq : q = r'
    · subst hq
      rw [Socks.deliver, Socks.deliver, h0]
      cases hx : ss.socks[q]? with
      | none => dsimp only; rw [h0, hx]
      | some x => dsimp only; rw [get_put _ (h0.trans hx), get_put _ hx]
    · have : ∀ s : Socks, (s.deliver q m).socks[r']? = s.socks[r']? := by
        intro s
        rw [Socks.deliver]
        split
        · rfl
        · exact get_put_ne _ hq
      rw [this, this, h0]
  case udpUnreachable q =>
    show (ss'.notify q).socks[r']? = (ss.notify q).socks[r']?
    by_cases hq : q = r'
    · subst hq
      rw [Socks.notify, Socks.notify, h0]
      cases hx : ss.socks[q]? with
      | none => dsimp only; rw [h0, hx]
      | some x => dsimp only; rw [get_put _ (h0.trans hx), get_put _ hx]
    · have : ∀ s : Socks, (s.notify q).socks[r']? = s.socks[r']? := by
        intro s
        rw [Socks.notify]
        split
        · rfl
        · exact get_put_ne _ hq
      rw [this, this, h0]

theorem Host.withSocks_self (h : Host) : h.withSocks h.node.socks = h := rfl

theorem applyAll_others {r : Nat} {t : Int} : ∀ (es : List Eff) (h : Host) (ss : Socks), Others r h.node.socks ss →
    ∃ ss', Others r (Host.applyAll t h es).1.node.socks ss' ∧ Host.applyAll t (h.withSocks ss) es = Host.over ss' (Host.applyAll t h es) := by
  intro es
  induction es with
  | nil => exact fun h ss ho => ⟨ss, ho, rfl⟩
  | cons e es ih =>
    intro h ss ho
    rw [Host.applyAll, Host.applyAll, Host.apply_over]
    have hs := Host.apply_socks t h e
    generalize h.apply t e = y at hs
    obtain ⟨h', x⟩ := y
    dsimp only at hs
    have ho' : Others r h'.node.socks (e.onSocks ss) := by rw [hs]; exact onSocks_others ho e
    cases x with
    | error y => exact ⟨_, ho', rfl⟩
    | ok out =>
      obtain ⟨ss', o1, o2⟩ := ih h' _ ho'
      refine ⟨ss', ?_, ?_⟩
      · dsimp only
        generalize Host.applyAll t h' es = z at o1 ⊢
        obtain ⟨h'', z⟩ := z
        cases z <;> exact o1
      · dsimp only [Host.over] at o2 ⊢
        rw [o2]
        generalize Host.applyAll t h' es = z
        obtain ⟨h'', z⟩ := z
        cases z <;> rfl

theorem brought_over {r : Nat} {t : Int} : ∀ (es : List Eff) (h : Host) (ss : Socks), brought r t (h.withSocks ss) es = brought r t h es := by
  intro es
  induction es with
  | nil => exact fun _ _ => rfl
  | cons e es ih =>
    intro h ss
    unfold brought
    rw [Host.apply_over]
    obtain ⟨h', x⟩ := h.apply t e
    cases x with
    | error y => rfl
    | ok out => dsimp only [Host.over]; rw [ih]

theorem receive_others {r : Nat} {h : Host} {ss : Socks} (ho : Others r h.node.socks ss) (t₀ t₁ t : Int) (d : Nat) (F : Bytes) :
    ∃ ss', Others r (h.receive t₀ t₁ t d F).1.node.socks ss' ∧ (h.withSocks ss).receive t₀ t₁ t d F = Host.over ss' (h.receive t₀ t₁ t d F) ∧
      broughtBy r (h.withSocks ss) t₀ t₁ t d F = broughtBy r h t₀ t₁ t d F := by
  rw [Host.receive, Host.receive, broughtBy, broughtBy, show (h.withSocks ss).node = h.node.over ss from rfl, Rx.ether_over ho.table]
  have hs := Rx.ether_socks h.node t₀ t₁ d F
  generalize Rx.ether h.node t₀ t₁ d F = y at hs
  obtain ⟨n, x⟩ := y
  dsimp only at hs ⊢
  cases x with
  | error e => exact ⟨ss, by dsimp only; rw [hs]; exact ho, rfl, rfl⟩
  | ok effs =>
    obtain ⟨ss', o1, o2⟩ := applyAll_others (t := t) effs { h with node := n } ss (by dsimp only; rw [hs]; exact ho)
    exact ⟨ss', o1, o2, brought_over effs { h with node := n } ss⟩

end Verif
