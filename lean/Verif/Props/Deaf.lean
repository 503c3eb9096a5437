import Verif.Lemmas.Deaf
import Verif.Props.Wire
/-! C110: which frames end the receive thread. -/
namespace Verif
open Spec

theorem Rx.ether_total (n : Node) (t₀ t₁ : Int) (d : Nat) (F : Bytes) {mtu : Nat} (hm : 568 ≤ mtu) (hl : F.length ≤ 14 + mtu) (hF : F.length < 2 ^ 63)
    (h : ¬ Trap F) : ∃ l, (Rx.ether n t₀ t₁ d F).2 = .ok l ∧ ∀ e ∈ l, Fits mtu (Spill F) e := by
  by_cases hh : ∃ e, HoldsEther n F e
  · obtain ⟨e, he⟩ := hh
    obtain ⟨hlen, het, hed⟩ := ether_fields he.1 he.2.1
    rw [ether_holds he, het, hed]
    split
    · exact Rx.arp_total n e.dst _ mtu _
    split
    · rename_i ht
      obtain ⟨l, e1, e2⟩ := Rx.ip4_total n t₀ t₁ (F.drop 14) hm (by simp; omega) (by simp; omega) (fun x => h (.cut4 ht x))
        (fun x => h (.fragment4 ht x)) (fun x y => h (.tcp4 ht x y))
      refine ⟨l, e1, fun e he => ?_⟩
      have := e2 e he
      cases e <;> try exact this
      obtain ⟨a, b, c, d, e, f, g, i⟩ := this
      exact ⟨a, b, c, d, e, f, g, i.imp (fun x => .tcp4 ht x.1 x.2) id⟩
    split
    · rename_i ht
      have hd54 : (F.drop 14).drop 40 = F.drop 54 := by rw [List.drop_drop]
      obtain ⟨l, e1, e2⟩ := Rx.ip6_total n t₀ t₁ d (F.drop 14) hm (by simp; omega) (fun x => h (.fragment6 ht x))
        (fun x y => h (.nd ht x (by rw [hd54] at y; exact y))) (fun x y => h (.tcp6 ht x (by rw [hd54] at y; exact y)))
      refine ⟨l, e1, fun e he => ?_⟩
      have := e2 e he
      rw [hd54] at this
      cases e <;> try exact this
      obtain ⟨a, b, c, d, e, f, g, i⟩ := this
      exact ⟨a, b, c, d, e, f, g, i.imp (fun x => .tcp6 ht x.1 x.2) id⟩
    · exact ⟨[], rfl, by simp⟩
  · obtain ⟨r, hr, hn⟩ := C22_ether_total F
    refine ⟨[], ?_, by simp⟩
    cases r with
    | some s => simp [Rx.ether, hr]
    | none =>
      obtain ⟨e, he⟩ := hn rfl
      have : ¬ MacForUs n e.dst := fun x => hh ⟨e, hr, he, x⟩
      have : Rx.etherForUs n e.dst = false := by
        cases hx : Rx.etherForUs n e.dst with
        | false => rfl
        | true => exact absurd ((etherForUs_iff n e.dst).mp hx) this
      simp [Rx.ether, hr, he, this]

/-- C110, what is true of it: a frame on which the receive code raises is one of those in `Trap`.  (The full claim, that no frame makes it raise, is
false: see the witnesses.)  For whole packets, whatever the state of the stack, its caches, sockets and reassembly buffers. -/
theorem C110_read_partial (n : Node) (t₀ t₁ : Int) (depth : Nat) (F : Bytes) (hF : F.length < 2 ^ 63) (e : PyErr)
    (h : (Rx.ether n t₀ t₁ depth F).2 = .error e) : Trap F := by
  refine Classical.byContradiction fun hn => ?_
  obtain ⟨l, hl, -⟩ := Rx.ether_total n t₀ t₁ depth F (mtu := F.length + 568) (by omega) (by omega) hF hn
  rw [h] at hl
  cases hl

theorem Host.apply_fits (t : Int) (h : Host) (e : Eff) (hm : 568 ≤ h.stack.mtu) (hf : Fits h.stack.mtu False e) : ∃ x, (h.apply t e).2 = .ok x := by
  have q : ∀ r : Host.Res, (∃ x, r.2 = .ok x) → ∃ x, (Host.queued r).2 = .ok x := by
    rintro ⟨a, b⟩ ⟨⟨x, y⟩, hx⟩
    dsimp only at hx
    subst hx
    exact ⟨_, rfl⟩
  cases e with
  | txArp a b o c d x y =>
    rw [Host.apply]
    apply q
    dsimp only
    unfold phtxEther
    dsimp only
    split
    · exact ⟨_, rfl⟩
    · exact ⟨_, rfl⟩
  | txIcmp4 s d m =>
    rw [Host.apply]
    exact q _ (Host.ip4_ok h s d (by omega) (.inl rfl) hf)
  | txIcmp6 s d hop m =>
    rw [Host.apply]
    obtain ⟨h1, h2, h3⟩ := hf
    exact q _ (Host.ip6_ok h s d ⟨h1, h2⟩ (.inl rfl) (by omega) h3)
  | txTcp s d x =>
    rw [Host.apply]
    obtain ⟨h1, h2, h3, h4, h5, h6, h7, h8⟩ := hf
    have h8 : x.ack < 2 ^ 32 := h8.resolve_left id
    apply q
    rw [Host.tcp, if_neg (by omega)]
    have hlen : (Tcp.carried x).len = 20 := by
      show x.hlen + x.data.length = 20
      rw [h7, Tcp.Tx.hlen, h6]; rfl
    dsimp only
    split
    · exact Host.ip6_ok h _ _ (by omega) (.inr (.inr (.inl rfl))) (by omega) (show 40 + (Tcp.carried x).len ≤ _ by omega)
    · exact Host.ip4_ok h _ _ (by omega) (.inr (.inr (.inl rfl))) (show 20 + (Tcp.carried x).len ≤ _ by omega)
    · exact ⟨_, rfl⟩
  | _ => exact ⟨_, rfl⟩

theorem Host.applyAll_fits (t : Int) : ∀ (l : List Eff) (h : Host), 568 ≤ h.stack.mtu → (∀ e ∈ l, Fits h.stack.mtu False e) →
    ∃ x, (Host.applyAll t h l).2 = .ok x
  | [], _, _, _ => ⟨_, rfl⟩
  | e :: l, h, hm, hf => by
    obtain ⟨x, hx⟩ := Host.apply_fits t h e hm (hf e (by simp))
    have hmtu := (Host.apply_later t h (by omega) e).mtu
    rw [Host.applyAll]
    revert hx hmtu
    generalize h.apply t e = r
    obtain ⟨h', r⟩ := r
    intro hx hmtu
    dsimp only at hx hmtu
    subst hx
    dsimp only
    have hmtu : h'.stack.mtu = h.stack.mtu := hmtu
    obtain ⟨y, hy⟩ := Host.applyAll_fits t l h' (by omega) (by rw [hmtu]; exact fun e he => hf e (by simp [he]))
    revert hy
    generalize Host.applyAll t h' l = r
    obtain ⟨h'', r⟩ := r
    intro hy
    dsimp only at hy
    subst hy
    exact ⟨_, rfl⟩

/-- C110, what is true of it: on a link with an MTU of at least 568 bytes, taking in a frame that such a link carries, and answering it, raises only
if the frame is one of those in `Trap`, or a TCP segment that runs past the last sequence number.  (What TCP sessions do with their segments is left
out here.) -/
theorem C110_receive_partial (h : Host) (t₀ t₁ t : Int) (depth : Nat) (F : Bytes) (hm : 568 ≤ h.stack.mtu) (hF : F.length ≤ 14 + h.stack.mtu)
    (hF' : F.length < 2 ^ 63) (e : PyErr) (hr : (h.receive t₀ t₁ t depth F).2 = .error e) : Trap F ∨ Spill F := by
  refine Classical.byContradiction fun hn => ?_
  obtain ⟨hn1, hn2⟩ := not_or.mp hn
  obtain ⟨l, hl, hf⟩ := Rx.ether_total h.node t₀ t₁ depth F hm hF hF' hn1
  have hst := (ether_later h.node t₀ t₁ depth F).mtu
  rw [Host.receive] at hr
  revert hl hst hr
  generalize Rx.ether h.node t₀ t₁ depth F = r
  obtain ⟨n, r⟩ := r
  intro hr hl hst
  dsimp only at hl hst
  subst hl
  dsimp only at hr
  have hmt : ({ h with node := n } : Host).stack.mtu = h.stack.mtu := hst
  obtain ⟨x, hx⟩ := Host.applyAll_fits t l { h with node := n } (by omega) (by
    intro e he
    rw [hmt]
    have := hf e he
    cases e <;> try exact this
    obtain ⟨a, b, c, d, e, f, g, i⟩ := this
    exact ⟨a, b, c, d, e, f, g, .inr (i.resolve_left hn2)⟩)
  rw [hx] at hr
  cases hr

theorem Host.receive_mtu (h : Host) (t₀ t₁ t : Int) (depth : Nat) (F : Bytes) (hm : 72 ≤ h.stack.mtu) :
    (h.receive t₀ t₁ t depth F).1.stack.mtu = h.stack.mtu := by
  have hst := (ether_later h.node t₀ t₁ depth F).mtu
  rw [Host.receive]
  revert hst
  generalize Rx.ether h.node t₀ t₁ depth F = r
  obtain ⟨n, r⟩ := r
  intro hst
  cases r with
  | error e => exact hst
  | ok l => exact (Host.applyAll_later t l { h with node := n } (by show 72 ≤ n.stack.mtu; rw [hst]; exact hm)).mtu.trans hst

/-- C110 for a history: whatever happens to the host meanwhile, as long as only other frames than those arrive, the thread lives, and has dealt with
all of them, in order. -/
theorem C110_alive_partial (M : Nat) (hM : 568 ≤ M) (evs : List Receiver.Ev) (r : Receiver) (ha : r.alive = true) (hr : r.host.stack.mtu = M)
    (hb : ∀ h, .becomes h ∈ evs → h.stack.mtu = M)
    (hf : ∀ F ∈ framesIn evs, F.length ≤ 14 + M ∧ F.length < 2 ^ 63 ∧ ¬ Trap F ∧ ¬ Spill F) :
    (r.run evs).alive = true ∧ (r.run evs).handled = r.handled ++ framesIn evs := by
  induction evs generalizing r with
  | nil => exact ⟨ha, (List.append_nil _).symm⟩
  | cons e evs ih =>
    have hb' : ∀ h, .becomes h ∈ evs → h.stack.mtu = M := fun h hh => hb h (List.mem_cons_of_mem _ hh)
    cases e with
    | becomes h => exact ih { r with host := h } ha (hb h List.mem_cons_self) hb' hf
    | frame t₀ t₁ t depth F =>
      obtain ⟨h1, h2, h3, h4⟩ := hf F List.mem_cons_self
      have hmtu := Host.receive_mtu r.host t₀ t₁ t depth F (by omega)
      have hno := C110_receive_partial r.host t₀ t₁ t depth F (by omega) (by omega) h2
      have hstep : ∃ h, r.step (.frame t₀ t₁ t depth F) = ⟨h, true, r.handled ++ [F]⟩ ∧ h.stack.mtu = M := by
        rw [Receiver.step, if_pos ha]
        revert hmtu hno
        generalize r.host.receive t₀ t₁ t depth F = x
        obtain ⟨h, x⟩ := x
        intro hmtu hno
        cases x with
        | error e => exact absurd (hno e rfl) (by simp [h3, h4])
        | ok l => exact ⟨h, rfl, hmtu.trans hr⟩
      obtain ⟨h, hs, hh⟩ := hstep
      have := ih ⟨h, true, r.handled ++ [F]⟩ rfl hh hb' (fun F' hF' => hf F' (List.mem_cons_of_mem _ hF'))
      rw [Receiver.run, List.foldl_cons, hs]
      refine ⟨this.1, this.2.trans ?_⟩
      simp [framesIn]

theorem Receiver.dead (evs : List Receiver.Ev) (r : Receiver) (h : r.alive = false) : (r.run evs).alive = false ∧ (r.run evs).handled = r.handled := by
  induction evs generalizing r with
  | nil => exact ⟨h, rfl⟩
  | cons e evs ih =>
    have hs : (r.step e).alive = false ∧ (r.step e).handled = r.handled := by
      cases e <;> simp [Receiver.step, h]
    have := ih (r.step e) hs.1
    exact ⟨this.1, this.2.trans hs.2⟩

theorem Tcp.short {f : Bytes} {dlen ps : Nat} (h : f.length < 13) : Tcp.parse f dlen ps = .error .indexError := by
  have h12 : idx f 12 = .error .indexError := by simp [idx, List.getElem?_eq_none (show f.length ≤ 12 by omega)]
  rw [Tcp.parse]
  have : ∃ s, Tcp.integrity f dlen ps = .ok (some s) := by
    unfold Tcp.integrity
    split
    · exact ⟨_, rfl⟩
    · rw [if_pos (by omega)]; exact ⟨_, rfl⟩
  obtain ⟨s, e⟩ := this
  rw [e]
  simp [Tcp.hlen, h12]

/-- C110 is false: a TCP segment of fewer than 13 bytes, in any IPv4 packet that is otherwise in order, ends the receive thread of any host it is for. -/
theorem C110_short4_witness {h : Host} {F : Bytes} {src dst : Ip4Address} {p : Bytes} (H : Brings4 h.node F src dst 6 p)
    (hs : (body4 (F.drop 14)).length < 13) (t₀ t₁ t : Int) (depth : Nat) : (h.receive t₀ t₁ t depth F).2 = .error .indexError := by
  obtain ⟨r, hr, -, -, hp, -⟩ := H.holds
  have hrest : r.rest.length < 13 := by
    obtain ⟨e, he, -, h1, h2, -⟩ := hr
    obtain ⟨-, -, hd⟩ := ether_fields he.1 he.2.1
    rw [hd] at h1 h2
    rw [Ip4.read_rest h1 h2]; exact hs
  have : Rx.ip4Dispatch h.node r r.rest = .error .indexError := by
    rw [Rx.ip4Dispatch, if_neg (by omega), if_neg (by omega), if_pos hp, Rx.tcp, Tcp.short hrest]; rfl
  rw [Host.receive, ip4_holds hr, this]

theorem C110_short6_witness {h : Host} {F : Bytes} {src dst : Ip6Address} {hop : Nat} {p : Bytes} (H : Brings6 h.node F src dst hop 6 p)
    (hs : p.length < 13) (t₀ t₁ t : Int) (depth : Nat) : (h.receive t₀ t₁ t depth F).2 = .error .indexError := by
  obtain ⟨r, hr, -, -, hp, -, -, hrest, -⟩ := H.holds
  rw [Host.receive, ip6_holds hr (by omega), if_neg (by omega), if_neg (by omega), if_pos hp, Rx.tcp, Tcp.short (by rw [hrest]; exact hs)]
  rfl

/-- C110 is false: after one such frame the thread has ended, and deals with none of the frames that arrive later, whatever they are. -/
theorem C110_deaf_witness {h : Host} {F : Bytes} {src dst : Ip4Address} {p : Bytes} (H : Brings4 h.node F src dst 6 p)
    (hs : (body4 (F.drop 14)).length < 13) (t₀ t₁ t : Int) (depth : Nat) (evs : List Receiver.Ev) :
    (Receiver.run ⟨h, true, []⟩ (.frame t₀ t₁ t depth F :: evs)).alive = false ∧
    (Receiver.run ⟨h, true, []⟩ (.frame t₀ t₁ t depth F :: evs)).handled = [] := by
  have e := C110_short4_witness H hs t₀ t₁ t depth
  rw [Receiver.run, List.foldl_cons]
  have : ∃ h', Receiver.step ⟨h, true, []⟩ (.frame t₀ t₁ t depth F) = ⟨h', false, []⟩ := by
    rw [Receiver.step, if_pos rfl]
    revert e
    generalize h.receive t₀ t₁ t depth F = x
    obtain ⟨h', x⟩ := x
    rintro rfl
    exact ⟨h', rfl⟩
  obtain ⟨h', e⟩ := this
  rw [e]
  exact Receiver.dead evs _ rfl

/-- C110 is false: a segment that runs past the last sequence number ends the receive thread of a host that has no TCP socket. -/
theorem C110_spill_witness {h : Host} {F : Bytes} {src dst : IpAddress} {p : Bytes} {opts : List (Nat × Bytes)} (H : Brings h.node F src dst 6 p)
    (hT : IsTcp p opts) (ho : ¬ OddTcp p) (hn : ∀ id, id.type = .stream → h.node.socks.table.get? id = none) (hr : RunsOver p p.length) (t₀ t₁ t : Int) (depth : Nat) :
    (h.receive t₀ t₁ t depth F).2 = .error .assertionError := by
  obtain ⟨ip, f, hh, h1, h2, h3, h4, h5, -, -, hck⟩ := H.holds
  obtain ⟨hp, x, hx, hmd⟩ := Tcp.accept h4 h5 hck hT ho
  have hm : Rx.tcpMatch h.node.socks (Rx.tcpMd ip x) = none := by
    rw [Rx.tcpMatch, hn _ rfl]
    dsimp only
    split
    · rw [TcpMd.listening, List.findSome?_cons, hn _ rfl, List.findSome?_cons, hn _ rfl]; rfl
    · rfl
  have he : Rx.ether h.node t₀ t₁ depth F = (h.node, .ok [.txTcp ip.dst ip.src (Rx.resetFor x)]) := by
    rw [tcp_holds hh, Rx.tcp, h3]
    simp only [hp, hx, hm, codec]
  have hseg := hmd ip
  have e1 : x.seq = be p 4 4 := congrArg TcpMd.seq hseg
  have e2 : x.flags.syn = bit p 13 1 := congrArg TcpMd.syn hseg
  have e3 : x.flags.fin = bit p 13 0 := congrArg TcpMd.fin hseg
  have e4 : x.data = p.drop (be p 12 1 / 16 * 4) := congrArg TcpMd.data hseg
  have e5 : x.data.length = p.length - be p 12 1 / 16 * 4 := by rw [e4]; simp
  have : h.tcp ip.dst ip.src (Rx.resetFor x) = (h, .error .assertionError) := by
    rw [Host.tcp, if_pos]
    intro hc
    have := hc.2.2.2.1
    simp only [Rx.resetFor] at this
    rw [e1, e2, e3, e5] at this
    unfold RunsOver at hr
    omega
  rw [Host.receive, he]
  dsimp only
  rw [Host.applyAll, Host.apply, this]
  rfl

namespace Example.Deaf
open Example Example.Rx

def hostOf (n : Node) : Host := ⟨n, [], []⟩

/-- A TCP segment of twelve bytes from the peer. -/
def short : Bytes := ip4Frame { proto := 6, len := 12, assemble := fun _ => .ok (List.replicate 12 0) }
/-- A connection request with the last sequence number. -/
def last : Bytes := ip4Frame (Tcp.carried { Rx.syn with seq := 0xFFFFFFFF })
/-- An advertisement with a prefix option that is cut off. -/
def cutPrefix : Bytes := ip6Frame { Icmp6.carried (.neighborAdvertisement false true false peer6 []) with
  len := 32, assemble := fun ps => do
    let f ← Icmp6.assemble (.neighborAdvertisement false true false peer6 []) 0
    let f := (f.take 2 ++ [0, 0] ++ f.drop 4) ++ [3, 1, 64, 0, 0, 0, 0, 0]
    packIntoH f 2 (inetCksum f ps) }
/-- A connection request with a timestamp option of two bytes, at the end. -/
def cutOption : Bytes := ip4Frame { Tcp.carried Rx.syn with
  len := 24, assemble := fun ps =>
    let f : Bytes := [0x13, 0x88, 0, 80, 0, 0, 0, 77, 0, 0, 0, 0, 0x60, 2, 0, 0, 0, 0, 0, 0, 1, 1, 8, 2]
    packIntoH f 16 (inetCksum f ps) }

def raises (h : Host) (F : Bytes) : Option PyErr := match (h.receive 0 0 0 8 F).2 with | .ok _ => none | .error e => some e

/-- Most frames are in neither: an echo request, a connection request. -/
example : raises (hostOf node) (ip4Frame (Icmp4.carried (.echoRequest 7 1 [1, 2, 3]))) = none := by decide +kernel
example : be (ip4Frame (Icmp4.carried (.echoRequest 7 1 [1, 2, 3]))) 12 2 = 0x0800 ∧
    be ((ip4Frame (Icmp4.carried (.echoRequest 7 1 [1, 2, 3]))).drop 14) 9 1 = 1 ∧
    be ((ip4Frame (Icmp4.carried (.echoRequest 7 1 [1, 2, 3]))).drop 14) 6 2 % 0x4000 = 0 ∧
    be ((ip4Frame (Icmp4.carried (.echoRequest 7 1 [1, 2, 3]))).drop 14) 0 1 % 16 * 4 ≠ ((ip4Frame (Icmp4.carried (.echoRequest 7 1 [1, 2, 3]))).drop 14).length := by
  decide +kernel
example : ¬ Trap (ip4Frame (Icmp4.carried (.echoRequest 7 1 [1, 2, 3]))) := by
  rintro (⟨-, -, h, -⟩ | ⟨-, h⟩ | ⟨-, h, -⟩ | ⟨h, -⟩ | ⟨h, -⟩ | ⟨h, -⟩)
  · revert h; decide +kernel
  · revert h; unfold IsFragment4; decide +kernel
  · revert h; decide +kernel
  · revert h; decide +kernel
  · revert h; decide +kernel
  · revert h; decide +kernel

/-- C110_alive_partial -/
example : ¬ Spill (ip4Frame (Icmp4.carried (.echoRequest 7 1 [1, 2, 3]))) := by
  rintro (⟨-, h, -⟩ | ⟨h, -⟩)
  · revert h; decide +kernel
  · revert h; decide +kernel
example : (hostOf node).stack.mtu = 1500 := by decide +kernel

/-- C110_short4_witness, C110_short6_witness, C110_spill_witness -/
example : Brings4 (hostOf node).node (Wire.frame4 32 6 100 196 (List.replicate 12 0)) peer4 Example.host4.address 6 (List.replicate 12 0) :=
  Wire.brings4 rfl (by unfold Valid; decide +kernel)
example : (body4 ((Wire.frame4 32 6 100 196 (List.replicate 12 0)).drop 14)).length < 13 := by decide +kernel
example : Brings6 (hostOf node).node (Wire.frame6 12 6 (List.replicate 12 0)) peer6 Example.host6.address 255 6 (List.replicate 12 0) := Wire.brings6 rfl
def lastSyn : Bytes := [19, 136,  0, 80,  255, 255, 255, 255,  0, 0, 0, 0,  112, 2, 3, 232,  86, 73, 0, 0,  2, 4, 5, 180,  1, 3, 3, 7]
example : Brings (hostOf node).node (Wire.frame4 48 6 100 180 lastSyn) (.v4 peer4) (.v4 Example.host4.address) 6 lastSyn :=
  .v4 (Wire.brings4 rfl (by unfold Valid; decide +kernel)) (by unfold Valid; decide +kernel)
example : IsTcp lastSyn [(2, [5, 180]), (3, [7])] ∧ ¬ OddTcp lastSyn ∧ RunsOver lastSyn lastSyn.length :=
  ⟨⟨by decide, by decide, .opt 2 4 [5, 180] (by decide) rfl (.nop (.opt 3 3 [7] (by decide) rfl .nil)),
    by intro k v h; simp at h; rcases h with ⟨rfl, rfl⟩ | ⟨rfl, rfl⟩ <;> simp⟩, by unfold OddTcp; decide +kernel, by unfold RunsOver; decide +kernel⟩
example : ∀ id, id.type = .stream → (hostOf node).node.socks.table.get? id = none := by
  intro id h
  have : (hostOf node).node.socks.table = [(⟨.inet4, .dgram, .v4 .zero, 53, .v4 .zero, 0⟩, 0)] := by decide +kernel
  rw [this, Dict.get?, List.find?_cons, List.find?_nil]
  have : ¬ (⟨.inet4, .dgram, .v4 .zero, 53, .v4 .zero, 0⟩ : SockId) = id := by rintro rfl; cases h
  simp [this]

end Example.Deaf

open Example.Deaf Example.Rx in
/-- C110: one frame each that ends the receive thread of the example host. -/
theorem C110_frames_witness :
    raises (hostOf node) short = some .indexError ∧ raises (hostOf node) last = some .assertionError ∧
    raises (hostOf node) cutPrefix = some .structError ∧ raises (hostOf node) cutOption = some .structError := by
  refine ⟨?_, ?_, ?_, ?_⟩ <;> decide +kernel

end Verif
