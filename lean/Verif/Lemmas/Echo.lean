import Verif.Spec.Echo
import Verif.Props.Resolve
import Verif.Props.Socket
import Mathlib.Data.List.Infix
/-! The echo service: what the socket's queue and the service's record have to do with each other; the words; local addresses. -/
namespace Verif
open Spec

namespace Host

/-! ### Sending leaves the sockets alone -/

theorem link_node (h : Host) (p : Pkt) : (h.link p).1.node = h.node := by
  unfold link
  split
  · split <;> rfl
  · split <;> rfl
  · split <;> rfl
  · rfl

theorem frags_node {send : Host → Nat → Bool → Bytes → Res} (hs : ∀ h o mf d, (send h o mf d).1.node = h.node) (ds : List Bytes) :
    ∀ (h : Host) (o : Nat), (frags send h o ds).1.node = h.node := by
  induction ds with
  | nil => intro h o; rfl
  | cons d ds ih =>
    intro h o
    rw [frags]
    have := hs h o (!ds.isEmpty) d
    cases hx : send h o (!ds.isEmpty) d with
    | mk h' x =>
      rw [hx] at this
      cases x with
      | error e => exact this
      | ok y =>
        obtain ⟨st, out⟩ := y
        have i := ih h' (o + d.length)
        dsimp only
        cases hz : frags send h' (o + d.length) ds with
        | mk h'' z =>
          rw [hz] at i
          cases z with
          | error e => exact i.trans this
          | ok w => exact i.trans this

theorem frag4_node (src dst : Ip4Address) (ttl proto id : Nat) (h : Host) (o : Nat) (mf : Bool) (d : Bytes) :
    (frag4 src dst ttl proto id h o mf d).1.node = h.node := by
  unfold frag4
  dsimp only
  split
  · rfl
  · exact link_node h _

theorem ip4_socks (h : Host) (src dst : Ip4Address) (ttl : Nat) (c : L4) : (h.ip4 src dst ttl c).1.node.socks = h.node.socks := by
  unfold ip4
  split
  · rfl
  split
  · rfl
  split
  · rfl
  dsimp only
  split
  · rfl
  split
  · rw [link_node]
  split
  · rfl
  · next s _ _ d _ _ _ _ _ ds _ =>
    have := frags_node (frag4_node s d ttl c.proto (h.stack.ip4Id + 1)) ds (h.withStack { h.stack with ip4Id := h.stack.ip4Id + 1 }) 0
    have e : (h.withStack { h.stack with ip4Id := h.stack.ip4Id + 1 }).stack.ip4Id = h.stack.ip4Id + 1 := rfl
    rw [e]
    revert this
    generalize frags (frag4 s d ttl c.proto (h.stack.ip4Id + 1)) (h.withStack { h.stack with ip4Id := h.stack.ip4Id + 1 }) 0 ds = r
    rintro this
    obtain ⟨h', x⟩ := r
    cases x <;> (dsimp only at this ⊢; rw [this]; rfl)

theorem ip6Small_node (h : Host) (src dst : Ip6Address) (hop : Nat) (c : L4) : (h.ip6Small src dst hop c).1.node = h.node := by
  unfold ip6Small
  split
  · rfl
  split
  · rfl
  split
  · rfl
  dsimp only
  split
  · rfl
  split
  · next s _ _ d' _ _ _ _ =>
    have := link_node h (.ip6 (packetTx6 s d' hop) c.toCarried)
    revert this
    generalize h.link (.ip6 (packetTx6 s d' hop) c.toCarried) = r
    intro this
    obtain ⟨h', x⟩ := r
    cases x <;> exact this
  · rfl

theorem frag6_node (src dst : Ip6Address) (next id : Nat) (h : Host) (o : Nat) (mf : Bool) (d : Bytes) :
    (frag6 src dst next id h o mf d).1.node = h.node := by
  unfold frag6
  split
  · rfl
  have := ip6Small_node h src dst 64 { Ip6Frag.carried next o mf id d with kind := .other }
  revert this
  generalize h.ip6Small src dst 64 { Ip6Frag.carried next o mf id d with kind := .other } = r
  intro this
  obtain ⟨h', x⟩ := r
  cases x with
  | error e => exact this
  | ok y => cases y <;> exact this

theorem ip6_socks (h : Host) (src dst : Ip6Address) (hop : Nat) (c : L4) : (h.ip6 src dst hop c).1.node.socks = h.node.socks := by
  unfold ip6
  have := ip6Small_node h src dst hop c
  revert this
  generalize h.ip6Small src dst hop c = r
  intro this
  obtain ⟨h', x⟩ := r
  cases x with
  | error e => exact congrArg Node.socks this
  | ok y =>
    cases y with
    | inl y => exact congrArg Node.socks this
    | inr y =>
      obtain ⟨s, d⟩ := y
      dsimp only at this ⊢
      split
      · exact congrArg Node.socks this
      · next ds _ =>
        have e : (h'.withStack { h'.stack with ip6Id := h'.stack.ip6Id + 1 }).stack.ip6Id = h'.stack.ip6Id + 1 := rfl
        rw [e]
        have t := frags_node (frag6_node s d c.proto (h'.stack.ip6Id + 1)) ds (h'.withStack { h'.stack with ip6Id := h'.stack.ip6Id + 1 }) 0
        revert t
        generalize frags (frag6 s d c.proto (h'.stack.ip6Id + 1)) (h'.withStack { h'.stack with ip6Id := h'.stack.ip6Id + 1 }) 0 ds = r
        intro t
        obtain ⟨h'', z⟩ := r
        have u : h''.node.socks = h.node.socks := by
          dsimp only at t
          rw [t, ← this]; rfl
        cases z <;> exact u

theorem udp_socks (h : Host) (src dst : IpAddress) (sport dport : Nat) (data : Bytes) : (h.udp src dst sport dport data).1.node.socks = h.node.socks := by
  unfold udp
  split
  · rfl
  cases src <;> cases dst
  · exact ip4_socks ..
  · rfl
  · rfl
  · exact ip6_socks ..

theorem tcp_socks (h : Host) (src dst : IpAddress) (x : Tcp.Tx) : (h.tcp src dst x).1.node.socks = h.node.socks := by
  unfold tcp
  split
  · rfl
  cases src <;> cases dst
  · exact ip4_socks ..
  · rfl
  · rfl
  · exact ip6_socks ..

theorem queued_host (r : Res) : (queued r).1 = r.1 := by
  obtain ⟨h, x⟩ := r
  cases x <;> rfl

theorem apply_socks (t : Int) (h : Host) (e : Eff) : (h.apply t e).1.node.socks = e.onSocks h.node.socks := by
  cases e <;> simp only [apply, queued_host, Eff.onSocks]
  · exact ip4_socks ..
  · exact ip6_socks ..
  · exact tcp_socks ..
  all_goals rfl

end Host

/-! ### Receiving -/

theorem Rx.ip4_socks (n : Node) (t₀ t₁ : Int) (f : Bytes) : (Rx.ip4 n t₀ t₁ f).1.socks = n.socks := by
  unfold Rx.ip4
  split
  · rfl
  · rfl
  split
  · rfl
  split
  · dsimp only
    split <;> rfl
  · rfl

theorem Rx.ip6_socks (t₀ t₁ : Int) (depth : Nat) : ∀ (n : Node) (f : Bytes), (Rx.ip6 n t₀ t₁ depth f).1.socks = n.socks := by
  induction depth with
  | zero =>
    intro n f
    unfold Rx.ip6
    repeat' split
    all_goals first | rfl | omega
  | succ d ih =>
    intro n f
    unfold Rx.ip6
    split
    · rfl
    · rfl
    split
    · rfl
    split
    · split
      · rfl
      · rfl
      split
      · rfl
      · rfl
      · rw [ih]
    repeat' split
    all_goals rfl

theorem Rx.ether_socks (n : Node) (t₀ t₁ : Int) (depth : Nat) (f : Bytes) : (Rx.ether n t₀ t₁ depth f).1.socks = n.socks := by
  unfold Rx.ether
  split
  · rfl
  · rfl
  split
  · rfl
  split
  · rfl
  split
  · exact Rx.ip4_socks ..
  split
  · exact Rx.ip6_socks ..
  · rfl


/-! ### The queue of the socket -/

namespace Echo

theorem unread_some {h : Host} {r : Nat} {s : Sock} (hs : h.node.socks.socks[r]? = some s) : unread h r = s.queue := by rw [unread, hs]

theorem unread_socks {h h' : Host} (e : h'.node.socks = h.node.socks) (r : Nat) : unread h' r = unread h r := by rw [unread, unread, e]

/-- What an effect puts into the queue of the socket `r`. -/
def puts (r : Nat) : Eff → List UdpMd
  | .udpDeliver r' m => if r' = r then [m] else []
  | _ => []

theorem onSocks_length (ss : Socks) (e : Eff) : (e.onSocks ss).socks.length = ss.socks.length := by
  cases e <;> try rfl
  · simp only [Eff.onSocks, Socks.deliver]; split <;> simp [Socks.put]
  · simp only [Eff.onSocks, Socks.notify]; split <;> simp [Socks.put]

theorem onSocks_queue {ss : Socks} {r : Nat} {s : Sock} (hs : ss.socks[r]? = some s) (e : Eff) :
    ∃ s', (e.onSocks ss).socks[r]? = some s' ∧ s'.queue = s.queue ++ puts r e ∧ s'.id = s.id := by
  have hlt : r < ss.socks.length := (List.getElem?_eq_some_iff.1 hs).1
  cases e
  case udpDeliver r' m =>
    simp only [Eff.onSocks, Socks.deliver, puts]
    by_cases hr : r' = r
    · subst hr
      rw [hs, if_pos rfl]
      exact ⟨_, get_put _ hs, rfl, rfl⟩
    · rw [if_neg hr]
      cases hx : ss.socks[r']? with
      | none => exact ⟨s, hs, by simp, rfl⟩
      | some x => exact ⟨s, by dsimp only; rw [get_put_ne _ hr, hs], by simp, rfl⟩
  case udpUnreachable r' =>
    simp only [Eff.onSocks, Socks.notify, puts]
    by_cases hr : r' = r
    · subst hr
      rw [hs]
      exact ⟨_, get_put _ hs, by simp, rfl⟩
    · cases hx : ss.socks[r']? with
      | none => exact ⟨s, hs, by simp, rfl⟩
      | some x => exact ⟨s, by dsimp only; rw [get_put_ne _ hr, hs], by simp, rfl⟩
  all_goals exact ⟨s, hs, by simp [puts], rfl⟩

theorem applyAll_queue {r : Nat} {t : Int} : ∀ (es : List Eff) (h : Host) {s : Sock}, h.node.socks.socks[r]? = some s →
    ∃ s', (h.applyAll t es).1.node.socks.socks[r]? = some s' ∧ s'.queue = s.queue ++ brought r t h es ∧ s'.id = s.id := by
  intro es
  induction es with
  | nil => intro h s hs; exact ⟨s, hs, by simp [brought], rfl⟩
  | cons e es ih =>
    intro h s hs
    obtain ⟨s₁, a1, a2, a3⟩ := onSocks_queue hs e
    rw [← Host.apply_socks t] at a1
    have hb : brought r t h (e :: es) = puts r e ++ (match h.apply t e with | (_, .error _) => [] | (h, .ok _) => brought r t h es) := rfl
    rw [hb, Host.applyAll]
    revert a1
    generalize h.apply t e = x
    obtain ⟨h', x⟩ := x
    intro a1
    cases x with
    | error _ => exact ⟨s₁, a1, by simpa using a2, a3⟩
    | ok out =>
      obtain ⟨s₂, b1, b2, b3⟩ := ih h' a1
      dsimp only
      revert b1
      generalize h'.applyAll t es = y
      obtain ⟨h'', y⟩ := y
      intro b1
      have : s₂.queue = s.queue ++ (puts r e ++ brought r t h' es) := by rw [b2, a2]; simp
      cases y <;> exact ⟨s₂, b1, this, b3.trans a3⟩

theorem receive_queue {r : Nat} {h : Host} {s : Sock} (hs : h.node.socks.socks[r]? = some s) (t₀ t₁ t : Int) (d : Nat) (F : Bytes) :
    ∃ s', (h.receive t₀ t₁ t d F).1.node.socks.socks[r]? = some s' ∧ s'.queue = s.queue ++ broughtBy r h t₀ t₁ t d F ∧ s'.id = s.id := by
  have e := Rx.ether_socks h.node t₀ t₁ d F
  rw [Host.receive, broughtBy]
  revert e
  generalize Rx.ether h.node t₀ t₁ d F = x
  obtain ⟨n, x⟩ := x
  intro e
  dsimp only at e
  cases x with
  | error _ => exact ⟨s, by dsimp only; rw [e]; exact hs, by simp, rfl⟩
  | ok effs => exact applyAll_queue effs { h with node := n } (by dsimp only; rw [e]; exact hs)

theorem withSocks_udp (h : Host) (ss : Socks) (src dst : IpAddress) (sport dport : Nat) (data : Bytes) :
    ((h.withSocks ss).udp src dst sport dport data).1.node.socks = ss := Host.udp_socks ..

/-- `sendto` leaves the queue of its socket alone. -/
theorem sendto_queue {h : Host} {r : Nat} {s : Sock} (hs : h.node.socks.socks[r]? = some s) (data : Bytes) (addr : Option IpAddress) (port : Int)
    (choice : Nat) : ∃ s', (h.sendto r data addr port choice).1.node.socks.socks[r]? = some s' ∧ s'.queue = s.queue := by
  have key : ∀ (ss : Socks) (s₁ : Sock), ss.socks[r]? = some s₁ → s₁.queue = s.queue → ∀ u,
      ∃ s', (ss.put r { s₁ with unreachable := u }).socks[r]? = some s' ∧ s'.queue = s.queue :=
    fun ss s₁ h1 h2 u => ⟨_, get_put _ h1, h2⟩
  rw [Host.sendto, hs]
  dsimp only
  split
  · exact ⟨s, hs, rfl⟩
  have fin : ∀ (ss : Socks) (x : Sock), ss.socks[r]? = some x → x.queue = s.queue →
      ∃ s', (match Socks.setIpAddresses h.stack x addr x.id.lip x.id.lport port.toNat with
        | (u, .error e) => ((h.withSocks (ss.put r { x with unreachable := u }), .error e) : Host × Py (Nat × List Outgoing))
        | (u, .ok (lip, rip)) =>
          (((h.withSocks (ss.put r { x with unreachable := u })).udp lip rip x.id.lport port.toNat data).1,
            Socks.sentLen data ((h.withSocks (ss.put r { x with unreachable := u })).udp lip rip x.id.lport port.toNat data).2)).1.node.socks.socks[r]?
          = some s' ∧ s'.queue = s.queue := by
    intro ss x k1 k2
    generalize Socks.setIpAddresses h.stack x addr x.id.lip x.id.lport port.toNat = y
    obtain ⟨u, y⟩ := y
    cases y with
    | error e => exact key ss x k1 k2 u
    | ok z =>
      obtain ⟨lip, rip⟩ := z
      dsimp only
      rw [withSocks_udp]
      exact key ss x k1 k2 u
  by_cases hp : 1 ≤ s.id.lport ∧ s.id.lport < 65536
  · simp only [if_pos hp]
    exact fin _ s hs rfl
  · simp only [if_neg hp]
    generalize Socks.pickLocalPort _ choice = z
    cases z with
    | error e => exact ⟨s, hs, rfl⟩
    | ok p => exact fin _ _ (get_register _ _ hs) rfl

/-- A round, from the queue's point of view. -/
theorem round_queue {h : Host} {r : Nat} {s : Sock} (hs : h.node.socks.socks[r]? = some s) (choice : Nat) :
    (s.queue = [] ∧ round h r choice = (h, .waits)) ∨
    ∃ m q h' s', s.queue = m :: q ∧ (round h r choice).1 = h' ∧ h'.node.socks.socks[r]? = some s' ∧ s'.queue = q ∧
      ((∃ n outs, (round h r choice).2 = .answered m.rip m.rport (answer m.data) n outs) ∨ ∃ e, (round h r choice).2 = .died e) := by
  cases hq : s.queue with
  | nil => exact .inl ⟨rfl, by rw [round, Socks.recvfrom, hs]; dsimp only; rw [hq]⟩
  | cons m q =>
    right
    have hr : h.node.socks.recvfrom r = (h.node.socks.put r { s with queue := q }, .ok (m.data, m.rip, m.rport)) := by
      rw [Socks.recvfrom, hs]; dsimp only; rw [hq]
    have hg : (h.withSocks (h.node.socks.put r { s with queue := q })).node.socks.socks[r]? = some { s with queue := q } := get_put _ hs
    obtain ⟨s', a1, a2⟩ := sendto_queue hg (answer m.data) (some m.rip) m.rport choice
    rw [round, hr]
    dsimp only
    revert a1
    generalize (h.withSocks (h.node.socks.put r { s with queue := q })).sendto r (answer m.data) (some m.rip) m.rport choice = x
    obtain ⟨h', x⟩ := x
    intro a1
    cases x with
    | error e => exact ⟨m, q, h', s', rfl, rfl, a1, a2, .inr ⟨e, rfl⟩⟩
    | ok y => exact ⟨m, q, h', s', rfl, rfl, a1, a2, .inl ⟨_, _, rfl⟩⟩

/-! ### The service's record -/

/-- What the record says about the queue. -/
structure Told (r : Nat) (s : Service) : Prop where
  sock : ∃ x, s.host.node.socks.socks[r]? = some x
  told : ∃ k, replied s = ((requested s).take k).map (fun m => (m.rip, m.rport, answer m.data)) ∧
    (if s.alive then k else k + 1) ≤ (requested s).length ∧ unread s.host r = (requested s).drop (if s.alive then k else k + 1)

theorem came_requested (l : List UdpMd) : (l.map Note.came).filterMap requested.asRequest = l := by
  induction l with
  | nil => rfl
  | cons a l ih => rw [List.map_cons, List.filterMap_cons, requested.asRequest, ih]
theorem came_replied (l : List UdpMd) : (l.map Note.came).filterMap replied.asReply = [] := by
  induction l with
  | nil => rfl
  | cons a l ih => rw [List.map_cons, List.filterMap_cons, replied.asReply, ih]

theorem Told.step {r : Nat} {s : Service} (h : Told r s) (e : Ev) : Told r (step r s e) := by
  obtain ⟨⟨x, hx⟩, k, h1, h2, h3⟩ := h
  cases e with
  | caches a n => exact ⟨⟨x, hx⟩, k, h1, h2, h3⟩
  | frame t₀ t₁ t d F =>
    obtain ⟨x', a1, a2, -⟩ := receive_queue hx t₀ t₁ t d F
    have er : requested (Echo.step r s (.frame t₀ t₁ t d F)) = requested s ++ broughtBy r s.host t₀ t₁ t d F := by
      simp only [requested, Echo.step, List.filterMap_append]
      rw [came_requested]
    have ep : replied (Echo.step r s (.frame t₀ t₁ t d F)) = replied s := by
      simp only [replied, Echo.step, List.filterMap_append]
      rw [came_replied, List.append_nil]
    have ea : (Echo.step r s (.frame t₀ t₁ t d F)).alive = s.alive := rfl
    refine ⟨⟨x', a1⟩, k, ?_, ?_, ?_⟩
    · rw [ep, er, h1, List.take_append_of_le_length (by split at h2 <;> omega)]
    · rw [er, ea, List.length_append]; omega
    · rw [er, ea, List.drop_append_of_le_length h2, ← h3]
      exact (unread_some a1).trans (by rw [a2, unread_some hx])
  | round c =>
    by_cases ha : s.alive = true
    · rw [ha, if_pos rfl] at h2 h3
      rw [Echo.step, if_pos ha]
      rcases round_queue hx c with ⟨-, e⟩ | ⟨m, q, h', x', q1, q2, q3, q4, q5⟩
      · rw [e]; exact ⟨⟨x, hx⟩, k, h1, by rw [ha]; exact h2, by rw [ha]; exact h3⟩
      · have hd : (requested s).drop k = m :: q := by rw [← h3, unread_some hx, q1]
        have hk : k < (requested s).length := by
          apply Nat.lt_of_not_le
          intro hle
          rw [List.drop_of_length_le hle] at hd; cases hd
        have hd' : (requested s).drop (k + 1) = q := by rw [List.drop_add_one_eq_tail_drop, hd]; rfl
        have ht : (requested s).take (k + 1) = (requested s).take k ++ [m] := by
          rw [List.take_add_one]
          have : (requested s)[k]? = some m := by
            have := List.getElem?_drop (xs := requested s) (i := k) (j := 0)
            rw [hd] at this
            simpa using this.symm
          rw [this]; rfl
        obtain ⟨h₂, y, hy⟩ : ∃ h₂ y, Echo.round s.host r c = (h₂, y) := ⟨_, _, rfl⟩
        rw [hy] at q2 q5 ⊢
        dsimp only at q2 q5
        subst q2
        rcases q5 with ⟨n, outs, rfl⟩ | ⟨e, rfl⟩
        · refine ⟨⟨x', q3⟩, k + 1, ?_, ?_, ?_⟩
          · have er : requested { s with host := h₂, log := s.log ++ [.answered m.rip m.rport (answer m.data) n outs] } = requested s := by
              simp [requested, requested.asRequest]
            have ep : replied { s with host := h₂, log := s.log ++ [.answered m.rip m.rport (answer m.data) n outs] } =
                replied s ++ [(m.rip, m.rport, answer m.data)] := by simp [replied, replied.asReply]
            rw [er, ep, h1, ht]; simp
          · have er : requested { s with host := h₂, log := s.log ++ [.answered m.rip m.rport (answer m.data) n outs] } = requested s := by
              simp [requested, requested.asRequest]
            rw [er]; dsimp only; rw [if_pos ha]; exact hk
          · have er : requested { s with host := h₂, log := s.log ++ [.answered m.rip m.rport (answer m.data) n outs] } = requested s := by
              simp [requested, requested.asRequest]
            rw [er]; dsimp only; rw [if_pos ha, hd', unread_some q3, q4]
        · exact ⟨⟨x', q3⟩, k, h1, hk, by dsimp only; rw [unread_some q3, q4]; exact hd'.symm⟩
    · rw [Echo.step, if_neg ha]; exact ⟨⟨x, hx⟩, k, h1, h2, h3⟩

theorem Told.run {r : Nat} {s : Service} (h : Told r s) (evs : List Ev) : Told r (run r s evs) := by
  induction evs generalizing s with
  | nil => exact h
  | cons e evs ih => exact ih (h.step e)

/-! ### Words -/

theorem within_iff (w d : Bytes) : within w d = true ↔ w <:+: d := by
  induction d with
  | nil => simp [within, List.isPrefixOf_iff_prefix]
  | cons b d ih => rw [within, Bool.or_eq_true, ih, List.isPrefixOf_iff_prefix, List.infix_cons_iff]

/-- A small letter. -/
def Letter (b : UInt8) : Prop := 97 ≤ b ∧ b ≤ 122

theorem lower1_iff {x y : UInt8} (hy : Letter y) : lower1 x = y ↔ x = y ∨ x = y - 32 := by
  obtain ⟨h1, h2⟩ := hy
  rw [UInt8.le_iff_toNat_le] at h1 h2
  have n1 : (97 : UInt8).toNat = 97 := rfl
  have n2 : (122 : UInt8).toNat = 122 := rfl
  have n3 : (65 : UInt8).toNat = 65 := rfl
  have n4 : (90 : UInt8).toNat = 90 := rfl
  have n5 : (32 : UInt8).toNat = 32 := rfl
  have hs : (y - 32).toNat = y.toNat - 32 := UInt8.toNat_sub_of_le _ _ (by rw [UInt8.le_iff_toNat_le]; omega)
  unfold lower1
  simp only [Bool.and_eq_true, decide_eq_true_eq, UInt8.le_iff_toNat_le]
  constructor
  · intro h
    split at h
    · right; rw [← h]; simp
    · left; exact h
  · rintro (rfl | rfl)
    · rw [if_neg (by omega)]
    · rw [if_pos (by omega)]; simp

theorem dropWhile_infix {p : UInt8 → Bool} {c : Bytes} (hc : c ≠ []) (hp : ∀ x ∈ c, p x = false) (d : Bytes) : c <:+: d ↔ c <:+: d.dropWhile p := by
  constructor
  · induction d with
    | nil => exact id
    | cons x d ih =>
      intro h
      rw [List.dropWhile_cons]
      split
      · next hx =>
        rcases List.infix_cons_iff.1 h with h | h
        · obtain ⟨t, ht⟩ := h
          cases c with
          | nil => exact absurd rfl hc
          | cons y c =>
            cases ht
            rw [hp x (by simp)] at hx; cases hx
        · exact ih h
      · exact h
  · intro h
    exact h.trans (List.dropWhile_suffix p).isInfix

theorem strip_infix {c : Bytes} (hc : c ≠ []) (hp : ∀ x ∈ c, isSpace x = false) (d : Bytes) : c <:+: d ↔ c <:+: strip d := by
  rw [dropWhile_infix hc hp, ← List.reverse_infix, dropWhile_infix (by simpa using hc) (by simpa using hp), ← List.reverse_infix, List.reverse_reverse, strip]

theorem space_letter {x y : UInt8} (hy : Letter y) (h : lower1 x = y) : isSpace x = false := by
  have n1 : (97 : UInt8).toNat = 97 := rfl
  have n2 : (122 : UInt8).toNat = 122 := rfl
  have n3 : (9 : UInt8).toNat = 9 := rfl
  have n4 : (13 : UInt8).toNat = 13 := rfl
  have n5 : (32 : UInt8).toNat = 32 := rfl
  have hx : 65 ≤ x.toNat := by
    have hy' := hy
    obtain ⟨h1, h2⟩ := hy'
    rw [UInt8.le_iff_toNat_le] at h1 h2
    rcases (lower1_iff hy).1 h with rfl | rfl
    · omega
    · rw [UInt8.toNat_sub_of_le _ _ (by rw [UInt8.le_iff_toNat_le]; omega)]; omega
  simp only [isSpace, Bool.or_eq_false_iff, Bool.and_eq_false_iff, decide_eq_false_iff_not, UInt8.le_iff_toNat_le]
  refine ⟨fun e => ?_, .inr (by omega)⟩
  rw [e] at hx; omega

theorem letters_iff {w : Bytes} (hw : ∀ y ∈ w, Letter y) : ∀ c : Bytes,
    (c.length = w.length ∧ ∀ p ∈ c.zip w, p.1 = p.2 ∨ p.1 = p.2 - 32) ↔ lower c = w := by
  induction w with
  | nil => intro c; cases c <;> simp [lower]
  | cons y w ih =>
    intro c
    cases c with
    | nil => simp [lower]
    | cons x c =>
      have i := ih (fun z hz => hw z (List.mem_cons_of_mem _ hz)) c
      have j := lower1_iff (x := x) (hw y List.mem_cons_self)
      rw [show lower (x :: c) = lower1 x :: lower c from rfl, List.cons.injEq, j, ← i, List.zip_cons_cons, List.forall_mem_cons]
      simp only [List.length_cons, Nat.add_right_cancel_iff]
      constructor
      · rintro ⟨a, b, c⟩; exact ⟨b, a, c⟩
      · rintro ⟨b, a, c⟩; exact ⟨a, b, c⟩

theorem occurs_iff {w : Bytes} (h0 : w ≠ []) (hw : ∀ y ∈ w, Letter y) (d : Bytes) : within w (lower (strip d)) = true ↔ Occurs w d := by
  rw [within_iff]
  constructor
  · rintro ⟨a, b, h⟩
    obtain ⟨ac, b', e1, e2, e3⟩ := List.map_eq_append_iff.1 (show (strip d).map lower1 = a ++ w ++ b from h.symm)
    obtain ⟨a', c, e4, e5, e6⟩ := List.map_eq_append_iff.1 e2
    have hc : c <:+: d := by
      rw [strip_infix (fun e => h0 (by rw [← e6, e]; rfl)) (fun x hx => space_letter (hw _ (by rw [← e6]; exact List.mem_map_of_mem hx)) rfl)]
      exact ⟨a', b', by rw [e1, e4]⟩
    obtain ⟨p, q, hpq⟩ := hc
    exact ⟨p, c, q, hpq.symm, (letters_iff hw c).2 e6⟩
  · rintro ⟨a, c, b, rfl, hc⟩
    have e6 := (letters_iff hw c).1 hc
    obtain ⟨p, q, hpq⟩ := (strip_infix (d := a ++ c ++ b) (fun e => h0 (by rw [← e6, e]; rfl))
      (fun x hx => space_letter (hw _ (by rw [← e6]; exact List.mem_map_of_mem hx)) rfl)).1 ⟨a, b, rfl⟩
    exact ⟨lower p, lower q, by rw [← e6, ← hpq]; simp [lower]⟩

theorem letters (s : String) (h : (ascii s).all (fun y => 97 ≤ y && y ≤ 122) = true) : ∀ y ∈ ascii s, Letter y := by
  intro y hy
  have := List.all_eq_true.1 h y hy
  simpa [Letter] using this

end Echo

namespace Host

/-! ### Packets that fit are sent without an exception -/

theorem etherDst4_ok (s : Stack) (arp : ArpLookup) (src dst : Ip4Address) : ∃ x, etherDstIp4 s arp src dst = .ok x := by
  unfold etherDstIp4
  split
  · next hm =>
    obtain ⟨m, e, -⟩ := (C13_ip4_multicast_mac dst).1 hm
    rw [e]; exact ⟨_, rfl⟩
  split
  · exact ⟨_, rfl⟩
  split
  · exact ⟨_, rfl⟩
  split
  · split
    · exact ⟨_, rfl⟩
    · split <;> exact ⟨_, rfl⟩
  · split <;> exact ⟨_, rfl⟩

theorem etherDst6_ok (s : Stack) (nd : NdLookup) (src dst : Ip6Address) : ∃ x, etherDstIp6 s nd src dst = .ok x := by
  unfold etherDstIp6
  split
  · next hm =>
    rw [Addrs.mac_eq hm]; exact ⟨_, rfl⟩
  split
  · split
    · exact ⟨_, rfl⟩
    · split <;> exact ⟨_, rfl⟩
  · split <;> exact ⟨_, rfl⟩

theorem phtxEther4_ok (s : Stack) (arp : ArpLookup) (nd : NdLookup) (p : Pkt) (hd : Ip4.Tx) (hp : p.ip4Hdr = some hd) :
    ∃ x, phtxEther s arp nd .zero .zero p = .ok x := by
  rw [phtxEther_ip4 s arp nd p hd hp]
  obtain ⟨x, e⟩ := etherDst4_ok s arp hd.src hd.dst
  rw [e]
  cases x <;> exact ⟨_, rfl⟩

theorem phtxEther6_ok (s : Stack) (arp : ArpLookup) (nd : NdLookup) (p : Pkt) (hd : Ip6.Tx) (hp : p.ip6Hdr = some hd) :
    ∃ x, phtxEther s arp nd .zero .zero p = .ok x := by
  rw [phtxEther_ip6 s arp nd p hd hp]
  obtain ⟨x, e⟩ := etherDst6_ok s nd hd.src hd.dst
  rw [e]
  cases x <;> exact ⟨_, rfl⟩

theorem requests_ok {A : Type} {f : A → Py (List Outgoing)} (hf : ∀ a, ∃ l, f a = .ok l) (l : List A) : ∃ x, requests f l = .ok x := by
  induction l with
  | nil => exact ⟨_, rfl⟩
  | cons a l ih =>
    obtain ⟨x, e⟩ := hf a
    obtain ⟨y, e'⟩ := ih
    exact ⟨x ++ y, by rw [requests, e, e']; rfl⟩

theorem finish_ok {s : Stack} {asked : Py (List Outgoing)} {m : Option MacAddress} {p : Pkt} (ha : ∃ l, asked = .ok l)
    (hp : ∃ x, phtxEther s (fun _ => m) (fun _ => m) .zero .zero p = .ok x) : ∃ x, finish s asked m p = .ok x := by
  obtain ⟨l, rfl⟩ := ha
  obtain ⟨⟨a, b⟩, e⟩ := hp
  exact ⟨_, by rw [finish, py_ok_bind, e]; rfl⟩

theorem link4_ok (h : Host) (p : Pkt) (hd : Ip4.Tx) (hp : p.ip4Hdr = some hd) : ∃ x, (h.link p).2 = .ok x := by
  rw [link_eq4 h p hd hp]
  split
  · exact finish_ok ⟨_, rfl⟩ (phtxEther4_ok _ _ _ p hd hp)
  · exact finish_ok (requests_ok (fun a => ⟨_, arpRequest_eq _ a⟩) _) (phtxEther4_ok _ _ _ p hd hp)

theorem ndRequest_ok (s : Stack) (a : Ip6Address) (hmtu : 72 ≤ s.mtu) : ∃ l, ndRequest s a = .ok l := by
  cases hv : validateSrcIp6 s (s.ndSource a) (solicitedNode a) (.icmp6 135 1) with
  | ok src => exact ⟨_, ndRequest_eq s a src hmtu hv⟩
  | error e =>
    rw [ndRequest, Addrs.solicited_eq]
    dsimp only
    have : phtxIcmp6 s ⟨fun _ _ => none, fun _ _ => none⟩ (s.ndSource a) (solicitedNode a) 255 (.neighborSolicitation a [.slla s.mac]) =
        (s, .ok (e, [])) := by
      have hv' : validateSrcIp6 s (s.ndSource a) (solicitedNode a)
          ({ Icmp6.carried (.neighborSolicitation a [.slla s.mac]) with kind := (Icmp6.Msg.neighborSolicitation a [.slla s.mac]).kind } : L4).kind = .error e := hv
      rw [phtxIcmp6, phtxIp6, phtxIp6Small, hv']
      rfl
    rw [this]
    exact ⟨_, rfl⟩

theorem link6_ok (h : Host) (p : Pkt) (hd : Ip6.Tx) (hp : p.ip6Hdr = some hd) (hmtu : 72 ≤ h.stack.mtu) : ∃ x, (h.link p).2 = .ok x := by
  rw [link_eq6 h p hd hp]
  split
  · exact finish_ok ⟨_, rfl⟩ (phtxEther6_ok _ _ _ p hd hp)
  · exact finish_ok (requests_ok (fun a => ndRequest_ok _ a hmtu) _) (phtxEther6_ok _ _ _ p hd hp)

theorem ip4_ok (h : Host) (src dst : Ip4Address) {ttl : Nat} {c : L4} (ht : 0 < ttl ∧ ttl < 256)
    (hp : c.proto = 1 ∨ c.proto = 17 ∨ c.proto = 6 ∨ c.proto = 255) (hf : 20 + c.len ≤ h.stack.mtu) : ∃ x, (h.ip4 src dst ttl c).2 = .ok x := by
  cases hv : validateSrcIp4 h.stack src dst c.kind with
  | error e => exact ⟨_, by rw [ip4, if_neg (not_not.2 ht), hv]⟩
  | ok a =>
    by_cases hd : dst.int = 0
    · have : validateDstIp4 dst = .error .dropIp4DstUnspecified := by
        rw [validateDstIp4, if_pos (by rw [Ip4Address.isUnspecified, hd]; rfl)]
      exact ⟨_, by rw [ip4, if_neg (not_not.2 ht), hv, this]⟩
    · rw [ip4_fits h ht hv hd hp hf]
      exact link4_ok h _ _ rfl

theorem ip6_ok (h : Host) (src dst : Ip6Address) {hop : Nat} {c : L4} (ht : 0 < hop ∧ hop < 256)
    (hp : c.proto = 58 ∨ c.proto = 17 ∨ c.proto = 6 ∨ c.proto = 44 ∨ c.proto = 255) (hmtu : 72 ≤ h.stack.mtu)
    (hf : 40 + c.len ≤ h.stack.mtu) : ∃ x, (h.ip6 src dst hop c).2 = .ok x := by
  cases hv : validateSrcIp6 h.stack src dst c.kind with
  | error e => exact ⟨_, by rw [ip6, ip6Small, if_neg (not_not.2 ht), hv]⟩
  | ok a =>
    by_cases hd : dst.int = 0
    · have : validateDstIp6 dst = .error .dropIp6DstUnspecified := by
        rw [validateDstIp6, if_pos (by rw [Ip6Address.isUnspecified, hd]; rfl)]
      exact ⟨_, by rw [ip6, ip6Small, if_neg (not_not.2 ht), hv, this]⟩
    · rw [ip6_fits h ht hv hd hp hf]
      exact link6_ok h _ _ rfl hmtu

theorem udp4_ok (h : Host) (src dst : Ip4Address) {sport dport : Nat} {data : Bytes} (hs : sport < 65536) (hd : dport < 65536)
    (hf : 28 + data.length ≤ h.stack.mtu) : ∃ x, (h.udp (.v4 src) (.v4 dst) sport dport data).2 = .ok x := by
  rw [udp, if_neg (not_not.2 ⟨by omega, by omega⟩)]
  exact ip4_ok h src dst (by omega) (.inr (.inl rfl)) (show 20 + (8 + data.length) ≤ _ by omega)

theorem udp6_ok (h : Host) (src dst : Ip6Address) {sport dport : Nat} {data : Bytes} (hs : sport < 65536) (hd : dport < 65536)
    (hmtu : 72 ≤ h.stack.mtu) (hf : 48 + data.length ≤ h.stack.mtu) : ∃ x, (h.udp (.v6 src) (.v6 dst) sport dport data).2 = .ok x := by
  rw [udp, if_neg (not_not.2 ⟨by omega, by omega⟩)]
  exact ip6_ok h src dst (by omega) (.inr (.inl rfl)) hmtu (show 40 + (8 + data.length) ≤ _ by omega)

/-- `sendto` on a bound socket, in general. -/
theorem sendto_from (h : Host) {r : Nat} {s : Sock} (hs : h.node.socks.socks[r]? = some s) {dst : IpAddress} {port : Nat} (hl : 1 ≤ s.id.lport ∧ s.id.lport < 65536)
    (hp : port < 65536) (hf : s.id.family = dst.family) (ht : s.id.type = .dgram) (data : Bytes) (choice : Nat) :
    ∃ u, (s.id.lip.isUnspecified = true ∧ (Socks.pickLocalIp h.stack dst).isUnspecified = true ∧ ¬ (s.id.lport = 68 ∧ port = 67) →
        h.sendto r data (some dst) port choice = (h.withSocks (h.node.socks.put r { s with unreachable := u }), .error .gaiError)) ∧
      (¬ (s.id.lip.isUnspecified = true ∧ (Socks.pickLocalIp h.stack dst).isUnspecified = true ∧ ¬ (s.id.lport = 68 ∧ port = 67)) →
        ∀ lip, lip = (if s.id.lip.isUnspecified then Socks.pickLocalIp h.stack dst else s.id.lip) →
          h.sendto r data (some dst) port choice =
            (((h.withSocks (h.node.socks.put r { s with unreachable := u })).udp lip dst s.id.lport port data).1,
             Socks.sentLen data ((h.withSocks (h.node.socks.put r { s with unreachable := u })).udp lip dst s.id.lport port data).2)) := by
  refine ⟨if dst.isUnspecified then true else s.unreachable, ?_⟩
  rw [Host.sendto, hs]
  dsimp only
  rw [if_neg (not_not.2 ⟨by omega, by omega⟩), if_pos hl]
  dsimp only
  rw [show Int.toNat (port : Int) = port from rfl]
  have e : Socks.setIpAddresses h.stack s (some dst) s.id.lip s.id.lport port = (if dst.isUnspecified then true else s.unreachable,
      if s.id.lip.isUnspecified = true ∧ (Socks.pickLocalIp h.stack dst).isUnspecified = true ∧ ¬ (s.id.lport = 68 ∧ port = 67) then .error .gaiError
      else .ok (if s.id.lip.isUnspecified then Socks.pickLocalIp h.stack dst else s.id.lip, dst)) := by
    rw [Socks.setIpAddresses]
    dsimp only
    rw [if_neg (by rw [hf]; exact fun hne => hne rfl), if_neg (by rw [ht]; rintro ⟨-, h⟩; cases h)]
    generalize (if dst.isUnspecified then true else s.unreachable) = u
    by_cases h1 : s.id.lip.isUnspecified = true
    · rw [if_pos h1, if_pos h1]
      by_cases h2 : (Socks.pickLocalIp h.stack dst).isUnspecified = true ∧ ¬ (s.id.lport = 68 ∧ port = 67)
      · rw [if_pos h2, if_pos ⟨h1, h2⟩]
      · rw [if_neg h2, if_neg (fun x => h2 x.2)]
    · rw [if_neg h1, if_neg h1, if_neg (fun x => h1 x.1)]
  constructor
  · intro hc
    rw [e, if_pos hc]
  · rintro hc lip rfl
    rw [e, if_neg hc]

end Host

end Verif
