import Verif.Model.Boot
import Verif.Lemmas.Genuine
import Verif.Props.Resolve
/-! Duplicate address detection with frames. -/
namespace Verif
open Spec

/-! ### What the receive handlers leave alone -/

/-- Only identifications, flows and sockets change. -/
def Node.Later (n n' : Node) : Prop :=
  ∃ i4 i6 f4 f6 so, n' = { n with stack := { n.stack with ip4Id := i4, ip6Id := i6 }, flows4 := f4, flows6 := f6, socks := so }

theorem Node.Later.refl (n : Node) : n.Later n := ⟨_, _, _, _, _, rfl⟩

theorem Node.Later.trans {a b c : Node} (h₁ : a.Later b) (h₂ : b.Later c) : a.Later c := by
  obtain ⟨_, _, _, _, _, rfl⟩ := h₁
  obtain ⟨i, j, k, l, m, rfl⟩ := h₂
  exact ⟨i, j, k, l, m, rfl⟩

theorem Host.Kept.later {h h' : Host} (k : h.Kept h') : h.node.Later h'.node := by
  obtain ⟨i, j, e⟩ := k
  exact ⟨i, j, _, _, _, e⟩

theorem ip6_later (t₀ t₁ : Int) : ∀ (depth : Nat) (n : Node) (f : Bytes), n.Later (Rx.ip6 n t₀ t₁ depth f).1 := by
  intro depth
  induction depth with
  | zero =>
    intro n f
    rw [Rx.ip6]
    repeat' split
    all_goals first | exact ⟨_, _, _, _, _, rfl⟩ | contradiction
  | succ depth ih =>
    intro n f
    rw [Rx.ip6]
    repeat' split
    all_goals first
      | exact ⟨_, _, _, _, _, rfl⟩
      | contradiction
      | (rename_i e
         cases e
         exact .trans ⟨_, _, _, _, _, rfl⟩ (ih _ _))

theorem ip4_later (t₀ t₁ : Int) (n : Node) (f : Bytes) : n.Later (Rx.ip4 n t₀ t₁ f).1 := by
  rw [Rx.ip4]
  repeat' split
  all_goals exact ⟨_, _, _, _, _, rfl⟩

theorem ether_later (n : Node) (t₀ t₁ : Int) (depth : Nat) (F : Bytes) : n.Later (Rx.ether n t₀ t₁ depth F).1 := by
  rw [Rx.ether]
  repeat' split
  all_goals first
    | exact .refl _
    | exact ip4_later _ _ _ _
    | exact ip6_later _ _ _ _ _

theorem Host.icmp6_later (h : Host) (hm : 72 ≤ h.stack.mtu) (src dst : Ip6Address) (hop : Nat) (m : Icmp6.Msg) :
    h.node.Later (h.icmp6 src dst hop m).1.node := by
  rcases Host.ip6_out h src dst hop { Icmp6.carried m with kind := m.kind } hm with h1 | h1
  · exact ⟨_, _, _, _, _, h1.1⟩
  · exact ⟨_, _, _, _, _, h1.1⟩

theorem Host.ip4_later (h : Host) (hm : 72 ≤ h.stack.mtu) (src dst : Ip4Address) (hop : Nat) (c : L4) :
    h.node.Later (h.ip4 src dst hop c).1.node := by
  rcases Host.ip4_out h src dst hop c hm with h1 | h1
  · exact ⟨_, _, _, _, _, h1.1⟩
  · exact ⟨_, _, _, _, _, h1.1⟩

theorem Host.tcp_later (h : Host) (hm : 72 ≤ h.stack.mtu) (src dst : IpAddress) (x : Tcp.Tx) : h.node.Later (h.tcp src dst x).1.node := by
  rw [Host.tcp]
  split
  · exact .refl _
  · dsimp only
    split
    · rcases Host.ip6_out h _ _ 64 { Tcp.carried x with kind := .other } hm with h1 | h1
      · exact ⟨_, _, _, _, _, h1.1⟩
      · exact ⟨_, _, _, _, _, h1.1⟩
    · exact Host.ip4_later h hm _ _ _ _
    · exact .refl _

theorem Host.queued_fst (r : Host.Res) : (Host.queued r).1 = r.1 := by
  obtain ⟨h, r⟩ := r
  cases r <;> rfl

theorem Host.apply_later (t : Int) (h : Host) (hm : 72 ≤ h.stack.mtu) (e : Eff) : h.node.Later (h.apply t e).1.node := by
  cases e with
  | txArp => rw [Host.apply, Host.queued_fst]; exact .refl _
  | txIcmp4 => rw [Host.apply, Host.queued_fst]; exact Host.ip4_later h hm _ _ _ _
  | txIcmp6 => rw [Host.apply, Host.queued_fst]; exact Host.icmp6_later h hm _ _ _ _
  | txTcp => rw [Host.apply, Host.queued_fst]; exact Host.tcp_later h hm _ _ _
  | _ => exact ⟨_, _, _, _, _, rfl⟩

theorem Node.Later.mtu {n n' : Node} (h : n.Later n') : n'.stack.mtu = n.stack.mtu := by
  obtain ⟨_, _, _, _, _, rfl⟩ := h
  rfl

theorem Host.applyAll_later (t : Int) : ∀ (l : List Eff) (h : Host), 72 ≤ h.stack.mtu → h.node.Later (Host.applyAll t h l).1.node
  | [], h, _ => .refl _
  | e :: l, h, hm => by
    rw [Host.applyAll]
    have h1 := Host.apply_later t h hm e
    revert h1
    generalize h.apply t e = r
    obtain ⟨h', x⟩ := r
    intro h1
    cases x with
    | error x => exact h1
    | ok out =>
      have h2 := Host.applyAll_later t l h' (by show 72 ≤ h'.node.stack.mtu; rw [h1.mtu]; exact hm)
      dsimp only
      revert h2
      generalize Host.applyAll t h' l = r
      obtain ⟨h'', x⟩ := r
      intro h2
      cases x <;> exact h1.trans h2

namespace Boot

/-- The receive thread has worked, or something was sent. -/
structure Later (b b' : Boot) : Prop where
  node : b.host.node.Later b'.host.node
  event : b.dadEvent ≤ b'.dadEvent
  alive : b'.alive = true → b.alive = true
  out : b.out <+: b'.out

theorem Later.refl (b : Boot) : b.Later b := ⟨.refl _, Nat.le_refl _, id, List.prefix_refl _⟩

theorem Later.trans {a b c : Boot} (h₁ : a.Later b) (h₂ : b.Later c) : a.Later c :=
  ⟨h₁.node.trans h₂.node, Nat.le_trans h₁.event h₂.event, fun h => h₁.alive (h₂.alive h), h₁.out.trans h₂.out⟩

theorem hear_later (b : Boot) (hm : 72 ≤ b.host.stack.mtu) (i : In) : b.Later (b.hear i) := by
  rw [hear]
  split
  · rename_i ha
    have h1 := ether_later b.host.node i.t₀ i.t₁ i.depth i.frame
    revert h1
    generalize Rx.ether b.host.node i.t₀ i.t₁ i.depth i.frame = r
    obtain ⟨n, x⟩ := r
    intro h1
    cases x with
    | error e => exact ⟨h1, Nat.le_refl _, (fun h => by cases h), List.prefix_refl _⟩
    | ok effs =>
      have h2 := Host.applyAll_later i.t effs { b.host with node := n } (by show 72 ≤ n.stack.mtu; rw [h1.mtu]; exact hm)
      dsimp only
      revert h2
      generalize Host.applyAll i.t { b.host with node := n } effs = r
      obtain ⟨h', y⟩ := r
      intro h2
      cases y with
      | error e => exact ⟨h1.trans h2, Nat.le_add_right _ _, (fun h => by cases h), List.prefix_refl _⟩
      | ok outs => exact ⟨h1.trans h2, Nat.le_add_right _ _, fun _ => ha, List.prefix_append _ _⟩
  · exact .refl b

theorem Later.mtu {b b' : Boot} (h : b.Later b') (hm : 72 ≤ b.host.stack.mtu) : 72 ≤ b'.host.stack.mtu := by
  show 72 ≤ b'.host.node.stack.mtu
  rw [h.node.mtu]; exact hm

theorem hearAll_later : ∀ (l : List In) (b : Boot), 72 ≤ b.host.stack.mtu → b.Later (b.hearAll l)
  | [], b, _ => .refl b
  | i :: l, b, hm => (hear_later b hm i).trans (hearAll_later l _ ((hear_later b hm i).mtu hm))

theorem send_later (b : Boot) (hm : 72 ≤ b.host.stack.mtu) (src dst : Ip6Address) (hop : Nat) (m : Icmp6.Msg) :
    b.Later (b.send src dst hop m).1 := by
  rw [send]
  have h1 := Host.icmp6_later b.host hm src dst hop m
  revert h1
  generalize b.host.icmp6 src dst hop m = r
  obtain ⟨h, x⟩ := r
  intro h1
  cases x with
  | error e => exact ⟨h1, Nat.le_refl _, id, List.prefix_refl _⟩
  | ok r => exact ⟨h1, Nat.le_refl _, id, List.prefix_append _ _⟩

theorem report_later (b : Boot) (hm : 72 ≤ b.host.stack.mtu) : b.Later b.report.1 := by
  rw [report]
  split
  · exact .refl b
  · exact send_later b hm _ _ _ _

end Boot

/-! ### Messages to a group -/

/-- The bytes of the message of duplicate address detection. -/
theorem Icmp6.dad_bytes (a : Ip6Address) (ps : Nat) :
    ∃ q, Icmp6.assemble (.neighborSolicitation a []) ps = .ok q ∧ q.length = 24 ∧ IsNd 135 24 q [] ∧ be q 1 1 = 0 ∧ be q 8 16 = a.int := by
  have la := a.lt
  obtain ⟨ck, hck, h⟩ := Icmp6.assemble_ok (m := .neighborSolicitation a [])
    (b := bePack 4 0 ++ bePack 16 a.int) ps
    (by simp [Icmp6.body, Icmp6.rawNdOptions, packL_ok, Ip6Address.toBytes_eq])
  refine ⟨_, h, by simp, ⟨by simp, ?_, ?_⟩, ?_, ?_⟩
  · exact be_pack_front (v := 135) _ (by decide)
  · rw [List.drop_eq_nil_of_le (by simp)]
    exact .nil
  · rw [be_pack_skip _ (by omega)]; exact be_pack_front (v := 0) _ (by decide)
  · repeat rw [be_pack_skip _ (by omega)]
    have := be_pack_front (k := 16) (v := a.int) [] (by omega)
    rwa [List.append_nil] at this

/-- The frame in which an ICMPv6 message goes to a group. -/
def groupFrame (mac : MacAddress) (src dst : Ip6Address) (hop : Nat) (x : Icmp6.Msg) : Outgoing :=
  ⟨mac, groupMac dst, .ip6 (packetTx6 src dst hop) (Icmp6.carried x)⟩

theorem etherDst_group {s : Stack} {nd : NdLookup} {src dst : Ip6Address} (hd : dst.isMulticast = true) :
    etherDstIp6 s nd src dst = .ok (.ok (groupMac dst)) := by
  rw [etherDstIp6, if_pos hd, Addrs.mac_eq hd]; rfl

theorem group_nonzero {dst : Ip6Address} (hd : dst.isMulticast = true) : dst.int ≠ 0 := by
  have h := ((C09_ip6_classes dst).2.2.2.2.2.1).1 hd
  revert h
  simp only [cidr, hextet]
  omega

/-- An ICMPv6 message for a group is sent at once. -/
theorem Host.icmp6_group (h : Host) {src dst a : Ip6Address} {hop : Nat} {x : Icmp6.Msg} (hh : 0 < hop ∧ hop < 256)
    (hv : validateSrcIp6 h.stack src dst x.kind = .ok a) (hd : dst.isMulticast = true) (hf : 40 + Icmp6.len x ≤ h.stack.mtu) :
    h.icmp6 src dst hop x = (h, .ok (.passedEtherToTxRing, [groupFrame h.stack.mac a dst hop x])) := by
  rw [Host.icmp6, Host.ip6_fits h hh hv (group_nonzero hd) (.inl rfl) hf, Host.link_eq6 _ _ (packetTx6 a dst hop) rfl]
  rw [show ask6 h.stack (packetTx6 a dst hop).src (packetTx6 a dst hop).dst = none from if_pos hd]
  dsimp only
  rw [Host.finish_nil, phtxEther_ip6 _ _ _ _ (packetTx6 a dst hop) rfl]
  rw [show etherDstIp6 h.stack (fun _ => none) (packetTx6 a dst hop).src (packetTx6 a dst hop).dst = _ from etherDst_group hd]
  rfl

/-- Its bytes. -/
theorem groupFrame_bytes {st : Stack} {src dst a : Ip6Address} {hop : Nat} {x : Icmp6.Msg} (hh : 0 < hop ∧ hop < 256)
    (hv : validateSrcIp6 st src dst x.kind = .ok a) (hd : dst.isMulticast = true) (ha : a.isMulticast = false) (hf : 40 + Icmp6.len x ≤ st.mtu)
    (hmtu : st.mtu < 65536) {P : Bytes → Prop} (hx : ∀ ps, ∃ q, Icmp6.assemble x ps = .ok q ∧ q.length = Icmp6.len x ∧ P q) :
    ∃ G q, (groupFrame st.mac a dst hop x).frame = .ok G ∧ Sends6 G st.mac (groupMac dst) a dst hop 58 q ∧ P q ∧
      NearlyValid (pseudoHdr6 a dst 58 q.length) q 2 := by
  have e := Host.phtxIp6_fits st (fun _ _ => none) (c := { Icmp6.carried x with kind := x.kind }) hh hv (group_nonzero hd) (.inl rfl) hf
  have e2 : phtxEther st (fun _ => none) (fun _ => none) .zero .zero (.ip6 (packetTx6 a dst hop) (Icmp6.carried x)) =
      .ok (.passedEtherToTxRing, [groupFrame st.mac a dst hop x]) := by
    rw [phtxEther_ip6 _ _ _ _ (packetTx6 a dst hop) rfl]
    rw [show etherDstIp6 st (fun _ => none) (packetTx6 a dst hop).src (packetTx6 a dst hop).dst = _ from etherDst_group hd]
    rfl
  rw [e2] at e
  obtain ⟨-, a', o, ps, g1, g2, -, -, g5, g6⟩ := whole6 (.inl rfl) hf hmtu e
  rw [hv] at g1
  cases g1
  cases (List.cons.inj g2).1
  obtain ⟨q, q1, q2, q3⟩ := hx ps
  obtain ⟨b, b1, b2⟩ := g6 q q1 q2 ha
  obtain ⟨F, F1, F2⟩ := Outgoing.frame_bytes b1
  refine ⟨F, q, F1, ⟨b, F2, b2⟩, q3, ?_⟩
  rw [q2]
  have hf : 40 + Icmp6.len x ≤ st.mtu := hf
  exact Icmp6.nearly q1 (under6 (by omega) (by omega) g5) (by omega)

/-- An answer to a group. -/
theorem Host.icmp6_told (h : Host) {src dst a : Ip6Address} {hop : Nat} {x : Icmp6.Msg} (hh : 0 < hop ∧ hop < 256)
    (hv : validateSrcIp6 h.stack src dst x.kind = .ok a) (hd : dst.isMulticast = true) (ha : a.isMulticast = false)
    (hf : 40 + Icmp6.len x ≤ h.stack.mtu) (hmtu : h.stack.mtu < 65536) {P : Bytes → Prop}
    (hx : ∀ ps, ∃ q, Icmp6.assemble x ps = .ok q ∧ q.length = Icmp6.len x ∧ P q) {F : Bytes} {t₀ t₁ : Int} {d : Nat}
    (he : Rx.ether h.node t₀ t₁ d F = (h.node, .ok [.txIcmp6 src dst hop x])) (t : Int) :
    ∃ G q, Puts (h.receive t₀ t₁ t d F) [G] ∧ Unchanged h (h.receive t₀ t₁ t d F).1 ∧ Sends6 G h.stack.mac (groupMac dst) a dst hop 58 q ∧
      P q ∧ NearlyValid (pseudoHdr6 a dst 58 q.length) q 2 := by
  obtain ⟨G, q, g1, g2, g3, g4⟩ := groupFrame_bytes hh hv hd ha hf hmtu hx
  have hr := Host.receive_one (t := t) he (h' := h) (outs := [groupFrame h.stack.mac a dst hop x])
    (by rw [Host.apply, h.icmp6_group hh hv hd hf]; rfl)
  exact ⟨G, q, ⟨_, by rw [hr], by simp [g1]⟩, by rw [hr]; exact (Touched.refl h).unchanged, g2, g3, g4⟩

/-! ### The source of the message -/

/-- No address with a gateway: the message is from nobody. -/
theorem dadSource_none {s : Stack} {g : Ip6Address} (h : ∀ y ∈ s.ip6Host, y.gateway = none ∧ ¬ cidr 128 y.network.address.int y.network.mask.len g.int)
    (hz : Ip6Address.zero ∉ s.ip6Multicast) : validateSrcIp6 s .zero g (.icmp6 135 0) = .ok .zero := by
  have e1 : s.ip6Host.find? (·.network.contains g) = none := by
    rw [List.find?_eq_none]
    intro y hy hc
    exact (h y hy).2 ((Ip6Host.contains_iff y g).1 hc)
  have e2 : s.ip6Host.find? (·.gateway.isSome) = none := by
    rw [List.find?_eq_none]
    intro y hy
    rw [(h y hy).1]
    decide
  rw [validateSrcIp6, if_neg (by simp), if_neg hz, if_pos (by decide)]
  simp only [firstAddr6, e1, e2, Option.map_none]
  rfl

/-- The first address with a gateway is the source. -/
theorem dadSource_gateway {s : Stack} {g : Ip6Address} {pre post : List Ip6Host} {y : Ip6Host} (he : s.ip6Host = pre ++ y :: post)
    (hy : y.gateway ≠ none) (hp : ∀ z ∈ pre, z.gateway = none) (h : ∀ z ∈ s.ip6Host, ¬ cidr 128 z.network.address.int z.network.mask.len g.int)
    (hz : Ip6Address.zero ∉ s.ip6Multicast) (k : L4Kind) : validateSrcIp6 s .zero g k = .ok y.address := by
  have e1 : s.ip6Host.find? (·.network.contains g) = none := by
    rw [List.find?_eq_none]
    intro z hz hc
    exact h z hz ((Ip6Host.contains_iff z g).1 hc)
  have e2 : s.ip6Host.find? (·.gateway.isSome) = some y := by
    rw [he, List.find?_append, List.find?_eq_none.2 (fun z hz => by rw [hp z hz]; decide), List.find?_cons_of_pos (by
      cases hg : y.gateway with
      | none => exact absurd hg hy
      | some _ => rfl)]
    rfl
  rw [validateSrcIp6, if_neg (by simp), if_neg hz, if_pos (by decide)]
  simp only [firstAddr6, e1, e2, Option.map_none, Option.map_some]

namespace Boot

/-! ### The steps of duplicate address detection -/

/-- What the host is while it tries `c`. -/
def trying (n : Node) (c : Ip6Address) : Node :=
  { n with stack := { n.stack with ip6Multicast := n.stack.ip6Multicast ++ [solicitedNode c] },
           macMulticast := n.macMulticast ++ [groupMac (solicitedNode c)], ip6Candidate := some c }

theorem joinGroup_later (b : Boot) (hm : 72 ≤ b.host.stack.mtu) {g : Ip6Address} (hg : g.isMulticast = true) :
    ((b.withGroups (b.host.stack.ip6Multicast ++ [g])).withMacs (b.host.node.macMulticast ++ [groupMac g])).Later (b.joinGroup g).1 := by
  rw [joinGroup, Addrs.mac_eq hg]
  exact report_later _ hm

theorem leaveGroup_keeps (b : Boot) (g : Ip6Address) : (b.leaveGroup g).1.host.stack.ip6Host = b.host.stack.ip6Host ∧
    (b.leaveGroup g).1.alive = b.alive ∧ (b.leaveGroup g).1.out = b.out ∧ (b.leaveGroup g).1.host.stack.mtu = b.host.stack.mtu := by
  rw [leaveGroup]
  split
  · exact ⟨rfl, rfl, rfl, rfl⟩
  · dsimp only
    split
    · exact ⟨rfl, rfl, rfl, rfl⟩
    · split
      · exact ⟨rfl, rfl, rfl, rfl⟩
      · exact ⟨rfl, rfl, rfl, rfl⟩

/-- The permit that ends the wait is taken back, the rest stays. -/
structure Waited (b b' : Boot) : Prop where
  node : b.host.node.Later b'.host.node
  alive : b'.alive = true → b.alive = true
  out : b.out <+: b'.out

theorem waitDad_later : ∀ (l : List In) (b : Boot), 72 ≤ b.host.stack.mtu → Waited b (waitDad l b).1
  | l, b, hm => by
    rw [waitDad.eq_def]
    dsimp only
    split
    · have h := hearAll_later l { b with dadEvent := b.dadEvent - 1 } hm
      exact ⟨h.node, h.alive, h.out⟩
    · cases l with
      | nil => exact ⟨.refl _, id, List.prefix_refl _⟩
      | cons i l =>
        have h1 := hear_later b hm i
        have h2 := waitDad_later l (b.hear i) (h1.mtu hm)
        exact ⟨h1.node.trans h2.node, fun h => h1.alive (h2.alive h), h1.out.trans h2.out⟩

/-- If a frame raises the event whenever it is handled, then the wait ends with the event. -/
theorem waitDad_told {i : In} : ∀ (l : List In) (b : Boot), 72 ≤ b.host.stack.mtu → i ∈ l →
    (∀ b', b.Later b' → b'.alive = true → (b'.hear i).dadEvent ≠ 0) → (waitDad l b).1.alive = true → (waitDad l b).2 = true
  | l, b, hm, hi, hr, ha => by
    rw [waitDad.eq_def]
    rw [waitDad.eq_def] at ha
    dsimp only at ha ⊢
    split
    · rfl
    · rename_i hz
      rw [if_neg hz] at ha
      cases l with
      | nil => cases hi
      | cons j l =>
        have h1 := hear_later b hm j
        have h2 := waitDad_later l (b.hear j) (h1.mtu hm)
        dsimp only at ha ⊢
        rcases List.mem_cons.1 hi with rfl | hi
        · have h3 := hr b (.refl b) (h1.alive (h2.alive ha))
          rw [waitDad.eq_def]
          dsimp only
          rw [if_pos h3]
        · exact waitDad_told l (b.hear j) (h1.mtu hm) hi (fun b' hb => hr b' (h1.trans hb)) ha

theorem sendDad_later (b : Boot) (hm : 72 ≤ b.host.stack.mtu) (c : Ip6Address) : b.Later (b.sendDad c).1 := by
  rw [sendDad, Addrs.solicited_eq]
  exact send_later b hm _ _ _ _

theorem Waited.mtu {b b' : Boot} (h : Waited b b') (hm : 72 ≤ b.host.stack.mtu) : 72 ≤ b'.host.stack.mtu := by
  show 72 ≤ b'.host.node.stack.mtu
  rw [h.node.mtu]; exact hm

theorem Node.Later.hosts {n n' : Node} (h : n.Later n') : n'.stack.ip6Host = n.stack.ip6Host := by
  obtain ⟨_, _, _, _, _, rfl⟩ := h
  rfl

theorem Node.Later.trying {n n' : Node} {c : Ip6Address}
    (h : Node.Later { n with stack := { n.stack with ip6Multicast := n.stack.ip6Multicast ++ [solicitedNode c] },
                             macMulticast := n.macMulticast ++ [groupMac (solicitedNode c)] } n') :
    (Boot.trying n c).Later { n' with ip6Candidate := some c } := by
  obtain ⟨i, j, k, l, m, rfl⟩ := h
  exact ⟨i, j, k, l, m, rfl⟩

/-- Duplicate address detection, step by step. -/
theorem performDad_steps (φ : Nat → List In) (b : Boot) (hm : 72 ≤ b.host.stack.mtu) (c : Ip6Address) :
    (b.performDad φ c).1.host.stack.ip6Host = b.host.stack.ip6Host ∧
    ∀ r, (b.performDad φ c).2 = .ok r → ∃ b₁ b₂ b₃ : Boot, ((trying b.host.node c).Later b₁.host.node ∧
      b₁ = (((b.joinGroup (solicitedNode c)).1.hearAll (φ 0)).withCandidate (some c)).hearAll (φ 1)) ∧ b₁.sendDad c = (b₂, .ok ()) ∧
      waitDad (φ 2) b₂ = (b₃, !r) ∧ b₃.out <+: (b.performDad φ c).1.out ∧ ((b.performDad φ c).1.alive = true → b₃.alive = true) ∧
      72 ≤ (b.performDad φ c).1.host.stack.mtu := by
  rw [performDad, Addrs.solicited_eq]
  dsimp only
  have h1 := joinGroup_later b hm (Addrs.solicited_multicast c)
  revert h1
  generalize b.joinGroup (solicitedNode c) = r
  obtain ⟨b0, x⟩ := r
  intro h1
  dsimp only
  have hm0 : 72 ≤ b0.host.stack.mtu := h1.mtu hm
  cases x with
  | error e =>
    have hh := Node.Later.hosts h1.node
    exact ⟨hh, fun _ h => by cases h⟩
  | ok x =>
    dsimp only
    have h2 := hearAll_later (φ 0) b0 hm0
    have h3 : (trying b.host.node c).Later ((b0.hearAll (φ 0)).withCandidate (some c)).host.node := Node.Later.trying (h1.node.trans h2.node)
    have hm3 : 72 ≤ ((b0.hearAll (φ 0)).withCandidate (some c)).host.stack.mtu := h2.mtu hm0
    generalize (b0.hearAll (φ 0)).withCandidate (some c) = b₀ at h3 hm3 ⊢
    have h4 := hearAll_later (φ 1) b₀ hm3
    have hm4 := h4.mtu hm3
    have h5 := h3.trans h4.node
    generalize b₀.hearAll (φ 1) = b₁ at h4 hm4 h5 ⊢
    have h6 := sendDad_later b₁ hm4 c
    cases hs : b₁.sendDad c with
    | mk b₂ y =>
      rw [hs] at h6
      have hm6 := h6.mtu hm4
      cases y with
      | error e =>
        have hh := Node.Later.hosts (h5.trans h6.node)
        exact ⟨hh, fun _ h => by cases h⟩
      | ok y =>
        dsimp only
        have h7 := waitDad_later (φ 2) b₂ hm6
        cases hw : waitDad (φ 2) b₂ with
        | mk b₃ ev =>
          rw [hw] at h7
          have hm7 := h7.mtu hm6
          have h8 := hearAll_later (φ 3) b₃ hm7
          dsimp only at h8 ⊢
          have h9 := leaveGroup_keeps ((b₃.hearAll (φ 3)).withCandidate none) (solicitedNode c)
          have h10 : ((b₃.hearAll (φ 3)).withCandidate none).host.stack.ip6Host = b.host.stack.ip6Host := by
            have hh := Node.Later.hosts (((h5.trans h6.node).trans h7.node).trans h8.node)
            exact hh
          revert h9
          generalize ((b₃.hearAll (φ 3)).withCandidate none).leaveGroup (solicitedNode c) = r
          obtain ⟨b', z⟩ := r
          rintro ⟨k1, k2, k3, k4⟩
          cases z with
          | error e => exact ⟨k1.trans h10, fun _ h => by cases h⟩
          | ok z =>
            refine ⟨k1.trans h10, fun r hr => ?_⟩
            have hr := Except.ok.inj hr
            subst hr
            refine ⟨b₁, b₂, b₃, ⟨h5, rfl⟩, hs, by rw [Bool.not_not]; exact hw, ?_, ?_, ?_⟩
            · show b₃.out <+: b'.out
              rw [k3]; exact h8.out
            · intro ha
              refine h8.alive ?_
              have : b'.alive = true := ha
              rw [k2] at this
              exact this
            · show 72 ≤ b'.host.stack.mtu
              rw [k4]
              exact h8.mtu hm7

theorem assignIp6_later (b : Boot) (hm : 72 ≤ b.host.stack.mtu) (h : Ip6Host) :
    (b.assignIp6 h).1.host.stack.ip6Host = b.host.stack.ip6Host ++ [h] ∧ b.out <+: (b.assignIp6 h).1.out ∧
      ((b.assignIp6 h).1.alive = true → b.alive = true) := by
  rw [assignIp6, Addrs.solicited_eq]
  have h1 := joinGroup_later (b.withHosts (b.host.stack.ip6Host ++ [h])) hm (Addrs.solicited_multicast h.address)
  have hh := Node.Later.hosts h1.node
  exact ⟨hh, h1.out, h1.alive⟩

theorem send_event (b : Boot) (src dst : Ip6Address) (hop : Nat) (m : Icmp6.Msg) : (b.send src dst hop m).1.dadEvent = b.dadEvent := by
  rw [send]
  generalize b.host.icmp6 src dst hop m = r
  obtain ⟨h, x⟩ := r
  cases x <;> rfl

theorem joinGroup_event (b : Boot) (g : Ip6Address) : (b.joinGroup g).1.dadEvent = b.dadEvent := by
  rw [joinGroup]
  split
  · rfl
  · rw [report]
    split
    · rfl
    · exact send_event _ _ _ _ _

theorem sendDad_event (b : Boot) (c : Ip6Address) : (b.sendDad c).1.dadEvent = b.dadEvent := by
  rw [sendDad]
  split
  · rfl
  · exact send_event _ _ _ _ _

/-- Claiming a candidate, step by step. -/
theorem claim_steps (φ : Nat → List In) (b : Boot) (hm : 72 ≤ b.host.stack.mtu) (h : Ip6Host) :
    ((b.claim φ h).1.host.stack.ip6Host = b.host.stack.ip6Host ∨ (b.claim φ h).1.host.stack.ip6Host = b.host.stack.ip6Host ++ [h]) ∧
    ((b.claim φ h).2 = .ok () ∨ (b.claim φ h).1.host.stack.ip6Host ≠ b.host.stack.ip6Host →
      ∃ (b₁ b₂ b₃ : Boot) (r : Bool), ((trying b.host.node h.address).Later b₁.host.node ∧
        b₁ = (((b.joinGroup (solicitedNode h.address)).1.hearAll (φ 0)).withCandidate (some h.address)).hearAll (φ 1)) ∧ b₁.sendDad h.address = (b₂, .ok ()) ∧
        waitDad (φ 2) b₂ = (b₃, !r) ∧ b₃.out <+: (b.claim φ h).1.out ∧ ((b.claim φ h).1.alive = true → b₃.alive = true) ∧
        (b.claim φ h).1.host.stack.ip6Host = b.host.stack.ip6Host ++ if r then [h] else []) := by
  obtain ⟨h1, h2⟩ := performDad_steps φ b hm h.address
  rw [claim]
  revert h1 h2
  generalize b.performDad φ h.address = r
  obtain ⟨b', x⟩ := r
  intro h1 h2
  cases x with
  | error e => exact ⟨.inl h1, fun hh => by rcases hh with hh | hh; · cases hh
                                            · exact absurd h1 hh⟩
  | ok r =>
    obtain ⟨b₁, b₂, b₃, k1, k2, k3, k4, k5, k6⟩ := h2 r rfl
    cases r with
    | false =>
      exact ⟨.inl h1, fun _ => ⟨b₁, b₂, b₃, false, k1, k2, k3, k4, k5, by simpa using h1⟩⟩
    | true =>
      obtain ⟨a1, a2, a3⟩ := assignIp6_later b' k6 h
      dsimp only at h1
      rw [h1] at a1
      exact ⟨.inr a1, fun _ => ⟨b₁, b₂, b₃, true, k1, k2, k3, k4.trans a2, fun ha => k5 (a3 ha), a1⟩⟩

end Boot
end Verif
