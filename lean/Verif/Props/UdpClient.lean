import Verif.Lemmas.UdpClient
import Verif.Lemmas.Cuts
import Verif.Props.Ping
import Verif.Props.TcpClient
/-! C117: the UDP echo client, on a host. -/
namespace Verif
open Spec UdpClient

section
variable {size count : Int} {r lport rport : Nat} {lip rip : IpAddress} {s : Client}

theorem UdpClient.start_inv (hp : s.pc = .test) (hl : s.log = []) (hc : s.left = count) (hd : Dials s.host r lip lport rip rport) :
    UdpClient.Inv size count r lip lport rip rport s :=
  ⟨by rw [hl]; simpa using hc, fun x => by rw [hl]; simpa using x, by rw [hl]; rfl, fun _ => hd, fun x => by rw [hp] at x; cases x⟩

/-- C117: the start of the client: when it has come to its loop, it has a socket with the address it asked for or, if it asked for none, the one that the
routing rules choose, with the port it asked for or a free one, for the other address and port. -/
theorem C117_started {h : Host} {lip : IpAddress} {lport rport : Int} {rip : Option IpAddress} {choice : Nat}
    (hp : (start h lip lport rip rport count choice).1.pc = .test) :
    ∃ src dst p, Dials (start h lip lport rip rport count choice).1.host (start h lip lport rip rport count choice).2 src p dst rport.toNat ∧
      rip = some dst ∧ (0 ≤ rport ∧ rport < 65536) ∧ (1 ≤ p ∧ p < 65536) ∧ (0 < lport → (p : Int) = lport) ∧
      (start h lip lport rip rport count choice).1.log = [] ∧ (start h lip lport rip rport count choice).1.left = count ∧
      (∀ l d x, lip = .v4 l → dst = .v4 d → LeavesFrom4 h.stack l d x → 0 < x.int → src = .v4 x) ∧
      (∀ l d x, lip = .v6 l → dst = .v6 d → LeavesFrom6 h.stack l d x → 0 < x.int → src = .v6 x) := by
  obtain ⟨dst, p, h1, h2, -, h3, h4, h5, h6, h7⟩ := UdpClient.start_ok hp
  refine ⟨_, dst, p, h1, h2, h3, h4, h5, h6, h7, ?_, ?_⟩
  · rintro l d x rfl rfl hx h0
    exact (leaves4 hx h0).2.symm
  · rintro l d x rfl rfl hx h0
    exact (leaves6 hx h0).2.symm

/-- C117: whatever the host receives, and whenever the thread gets to run: the client sends messages of the form and size asked for, no more than it was
made to send; until it ends it has its socket, and when it has ended the socket is closed. -/
theorem C117_messages (hp : s.pc = .test) (hl : s.log = []) (hc : s.left = count) (hd : Dials s.host r lip lport rip rport) (evs : List Ev) :
    (∃ (k : Nat) (m : Bytes), BlockMessage size m ∧ (0 ≤ count → (k : Int) ≤ count) ∧ (UdpClient.run size r s evs).log.map (·.data) = List.replicate k m) ∧
    ((UdpClient.run size r s evs).pc = .test → Dials (UdpClient.run size r s evs).host r lip lport rip rport) ∧
    ((UdpClient.run size r s evs).pc = .ended →
      (UdpClient.run size r s evs).host.node.socks.table.get? ⟨lip.family, .dgram, lip, lport, rip, rport⟩ = none) := by
  have i := UdpClient.inv_run (size := size) (UdpClient.start_inv hp hl hc hd) evs
  exact ⟨⟨_, _, (C116_text size).1, i.most, i.each⟩, i.sock, i.gone⟩

/-- C117: what the thread does when it runs, at any time before it ends: if it is not stopped, has not sent all messages and has not been turned away, it
sends one more, in fragments if it must; otherwise it ends.  (For messages that UDP has room for, which end at 3276 blocks, see `C117_long4_witness`, and as
long as the stack has an identification left for what it cuts up, see `C71_exhausted_witness`.) -/
theorem C117_next_partial (hp : s.pc = .test) (hl : s.log = []) (hc : s.left = count) (hd : Dials s.host r lip lport rip rport) (evs : List Ev)
    (ha : (UdpClient.run size r s evs).pc = .test) (hr : rip.isUnspecified = false ∧ 0 < rport) (hb : lport < 65536 ∧ rport < 65536)
    (hm : 72 ≤ (UdpClient.run size r s evs).host.stack.mtu ∧ (UdpClient.run size r s evs).host.stack.mtu < 65536) (hsz : size ≤ 3276)
    (hid : (UdpClient.run size r s evs).host.stack.ip4Id < 65535) (running : Bool) :
    ((running = true ∧ ((UdpClient.run size r s evs).log.length : Int) ≠ count ∧ ¬ TurnedAway (UdpClient.run size r s evs).host r) →
      (UdpClient.run size r s (evs ++ [.turn running])).pc = .test ∧
      (UdpClient.run size r s (evs ++ [.turn running])).log.length = (UdpClient.run size r s evs).log.length + 1) ∧
    ((running = false ∨ ((UdpClient.run size r s evs).log.length : Int) = count ∨ TurnedAway (UdpClient.run size r s evs).host r) →
      (UdpClient.run size r s (evs ++ [.turn running])).pc = .ended ∧
      (UdpClient.run size r s (evs ++ [.turn running])).log = (UdpClient.run size r s evs).log) := by
  have i := UdpClient.inv_run (size := size) (UdpClient.start_inv hp hl hc hd) evs
  rw [UdpClient.run_snoc]
  generalize UdpClient.run size r s evs = z at *
  obtain ⟨-, -, x3, x4⟩ := send_dials (i.sock ha) (TcpClient.message size)
  have hu : ¬ (rip.isUnspecified = true ∨ rport = 0) := by rw [hr.1]; simp; omega
  have hz := i.left
  have hlen := (C116_text size).2 (by omega)
  constructor
  · rintro ⟨c1, c2, c3⟩
    obtain ⟨⟨st, outs⟩, e⟩ := z.host.udp_big lip rip (data := TcpClient.message size) hb.1 hb.2 hm (by omega) hid
    rw [UdpClient.step, UdpClient.turn, ha]
    dsimp only
    rw [if_pos ⟨c1, by omega⟩, x4 hu c3, e, Socks.sentLen]
    exact ⟨rfl, by simp⟩
  · intro hc'
    rw [UdpClient.step, UdpClient.turn, ha]
    dsimp only
    by_cases c : running = true ∧ z.left ≠ 0
    · rw [if_pos c]
      have ht : TurnedAway z.host r := by
        rcases hc' with h | h | h
        · rw [h] at c; exact absurd c.1 (by simp)
        · exact absurd (by omega) c.2
        · exact h
      have e := x3 hu ht
      revert e
      generalize UdpClient.send z.host r (TcpClient.message size) = y
      obtain ⟨h', y⟩ := y
      rintro rfl
      exact ⟨rfl, rfl⟩
    · rw [if_neg c]
      exact ⟨rfl, rfl⟩

/-- C117 is violated: from 3277 blocks on (UDP has no room for so much) the thread dies of an exception that it does not catch, the first time it sends, and
leaves its socket behind. -/
theorem C117_long4_witness {src dst : Ip4Address} (hp : s.pc = .test) (h0 : s.left ≠ 0) (hd : Dials s.host r (.v4 src) lport (.v4 dst) rport)
    (hb : lport < 65536 ∧ 0 < rport ∧ rport < 65536) (ht : ¬ TurnedAway s.host r) (ho : OwnSource4 s.host.stack src) (hz : dst.int ≠ 0)
    (hs : 3277 ≤ size ∧ size ≤ 100001) (hm : s.host.stack.mtu < 65536) :
    (UdpClient.turn size r true s).pc = .died .structError ∧ (UdpClient.turn size r true s).log = s.log ∧
      Dials (UdpClient.turn size r true s).host r (.v4 src) lport (.v4 dst) rport := by
  have hlen := (C116_text size).2 hs.2
  obtain ⟨-, -, -, x4⟩ := send_dials hd (TcpClient.message size)
  rw [UdpClient.turn, hp]
  dsimp only
  rw [if_pos ⟨rfl, h0⟩, x4 (by rw [ip4_specified (Nat.pos_of_ne_zero hz)]; simp; omega) ht,
    s.host.udp4_long (data := TcpClient.message size) hb.1 hb.2.2 hm (by omega) (ho.source dst _) hz]
  exact ⟨rfl, rfl, hd⟩

theorem C117_long6_witness {src dst : Ip6Address} (hp : s.pc = .test) (h0 : s.left ≠ 0) (hd : Dials s.host r (.v6 src) lport (.v6 dst) rport)
    (hb : lport < 65536 ∧ 0 < rport ∧ rport < 65536) (ht : ¬ TurnedAway s.host r) (ho : OwnSource6 s.host.stack src) (hz : dst.int ≠ 0)
    (hs : 3277 ≤ size ∧ size ≤ 100001) (hm : s.host.stack.mtu < 65536) :
    (UdpClient.turn size r true s).pc = .died .structError ∧ (UdpClient.turn size r true s).log = s.log ∧
      Dials (UdpClient.turn size r true s).host r (.v6 src) lport (.v6 dst) rport := by
  have hlen := (C116_text size).2 hs.2
  obtain ⟨-, -, -, x4⟩ := send_dials hd (TcpClient.message size)
  rw [UdpClient.turn, hp]
  dsimp only
  rw [if_pos ⟨rfl, h0⟩, x4 (by rw [ip6_specified (Nat.pos_of_ne_zero hz)]; simp; omega) ht,
    s.host.udp6_long (data := TcpClient.message size) hb.1 hb.2.2 hm (by omega) (by omega) (ho.source dst _) hz]
  exact ⟨rfl, rfl, hd⟩

/-- C117: a message leaves in one frame to the next hop, if that is known, from the client's address and port to the other's. -/
theorem C117_wire4 {src dst a : Ip4Address} {nb : MacAddress} (hp : s.pc = .test) (h0 : s.left ≠ 0) (hd : Dials s.host r (.v4 src) lport (.v4 dst) rport)
    (hb : lport < 65536 ∧ 0 < rport ∧ rport < 65536) (ht : ¬ TurnedAway s.host r) (ho : OwnSource4 s.host.stack src) (hn : NextHop4 s.host.stack src dst a)
    (hk : Knows4 s.host a nb) (hf : 28 + 20 * max 2 size ≤ s.host.stack.mtu ∧ size ≤ 100001) (hmtu : s.host.stack.mtu < 65536) :
    ∃ m G q out, BlockMessage size m ∧ (UdpClient.turn size r true s).log = s.log ++ [⟨m, m.length, [out]⟩] ∧ out.frame = .ok G ∧
      Sends4 G s.host.stack.mac nb src dst 64 17 q ∧ IsUdp q lport rport m ∧ NearlyValid (pseudoHdr4 src dst 17 q.length) q 6 := by
  have hlen := (C116_text size).2 hf.2
  obtain ⟨-, -, -, x4⟩ := send_dials hd (TcpClient.message size)
  obtain ⟨h', o, G, q, g1, g2, g3, g4, g5, g6⟩ := s.host.udp_sends4 (sport := lport) (dport := rport) (data := TcpClient.message size) hb.1 hb.2.2 ho hn hk (by omega) hmtu
  refine ⟨TcpClient.message size, G, q, o, (C116_text size).1, ?_, g3, g4, g5, g6⟩
  rw [UdpClient.turn, hp]
  dsimp only
  rw [if_pos ⟨rfl, h0⟩, x4 (by rw [ip4_specified hn.unicast.1]; simp; omega) ht, g1]
  rfl

theorem C117_wire6 {src dst a : Ip6Address} {nb : MacAddress} (hp : s.pc = .test) (h0 : s.left ≠ 0) (hd : Dials s.host r (.v6 src) lport (.v6 dst) rport)
    (hb : lport < 65536 ∧ 0 < rport ∧ rport < 65536) (ht : ¬ TurnedAway s.host r) (ho : OwnSource6 s.host.stack src) (hn : NextHop6 s.host.stack src dst a)
    (hk : Knows6 s.host a nb) (hf : 48 + 20 * max 2 size ≤ s.host.stack.mtu ∧ size ≤ 100001) (hmtu : s.host.stack.mtu < 65536) :
    ∃ m G q out, BlockMessage size m ∧ (UdpClient.turn size r true s).log = s.log ++ [⟨m, m.length, [out]⟩] ∧ out.frame = .ok G ∧
      Sends6 G s.host.stack.mac nb src dst 64 17 q ∧ IsUdp q lport rport m ∧ NearlyValid (pseudoHdr6 src dst 17 q.length) q 6 := by
  have hlen := (C116_text size).2 hf.2
  obtain ⟨-, -, -, x4⟩ := send_dials hd (TcpClient.message size)
  obtain ⟨h', o, G, q, g1, g2, g3, g4, g5, g6⟩ := s.host.udp_sends6 (sport := lport) (dport := rport) (data := TcpClient.message size) hb.1 hb.2.2 ho hn hk (by omega) hmtu
  refine ⟨TcpClient.message size, G, q, o, (C116_text size).1, ?_, g3, g4, g5, g6⟩
  rw [UdpClient.turn, hp]
  dsimp only
  rw [if_pos ⟨rfl, h0⟩, x4 (by rw [ip6_specified hn.unicast.1]; simp; omega) ht, g1]
  rfl

/-- C117: a message that does not fit the MTU leaves in several frames to the next hop, which are, in order, the pieces of one datagram from the client's
address and port to the other's, under an identification that is one more than the last. -/
theorem C117_cuts4 {src dst a : Ip4Address} {nb : MacAddress} (hp : s.pc = .test) (h0 : s.left ≠ 0) (hd : Dials s.host r (.v4 src) lport (.v4 dst) rport)
    (hb : lport < 65536 ∧ 0 < rport ∧ rport < 65536) (ht : ¬ TurnedAway s.host r) (ho : OwnSource4 s.host.stack src) (hn : NextHop4 s.host.stack src dst a)
    (hk : Knows4 s.host a nb) (hf : s.host.stack.mtu < 28 + 20 * max 2 size ∧ size ≤ 3276) (hmtu : 28 ≤ s.host.stack.mtu ∧ s.host.stack.mtu < 65536)
    (hid : s.host.stack.ip4Id < 65535) :
    ∃ m outs Fs q fs, BlockMessage size m ∧ (UdpClient.turn size r true s).log = s.log ++ [⟨m, m.length, outs⟩] ∧ outs.map Outgoing.frame = Fs.map .ok ∧
      IsUdp q lport rport m ∧ NearlyValid (pseudoHdr4 src dst 17 q.length) q 6 ∧ IsFragmentation q (s.host.stack.mtu - 20) fs ∧
      List.Forall₂ (Cut4 s.host.stack.mac nb s.host.stack.mtu src dst 64 17 (s.host.stack.ip4Id + 1)) fs Fs := by
  have hlen := (C116_text size).2 (by omega)
  obtain ⟨-, -, -, x4⟩ := send_dials hd (TcpClient.message size)
  obtain ⟨h', outs, Fs, q, fs, g1, -, g2, g3, g4, g5, g6⟩ := s.host.udp_cuts4 (sport := lport) (dport := rport) (data := TcpClient.message size) hb.1 hb.2.2
    ho hn hk (by omega) hmtu hid
  refine ⟨TcpClient.message size, outs, Fs, q, fs, (C116_text size).1, ?_, g2, g3, g4, g5, g6⟩
  rw [UdpClient.turn, hp]
  dsimp only
  rw [if_pos ⟨rfl, h0⟩, x4 (by rw [ip4_specified hn.unicast.1]; simp; omega) ht, g1]
  rfl

theorem C117_cuts6 {src dst a : Ip6Address} {nb : MacAddress} (hp : s.pc = .test) (h0 : s.left ≠ 0) (hd : Dials s.host r (.v6 src) lport (.v6 dst) rport)
    (hb : lport < 65536 ∧ 0 < rport ∧ rport < 65536) (ht : ¬ TurnedAway s.host r) (ho : OwnSource6 s.host.stack src) (hn : NextHop6 s.host.stack src dst a)
    (hk : Knows6 s.host a nb) (hf : s.host.stack.mtu < 48 + 20 * max 2 size ∧ size ≤ 3276) (hmtu : 56 ≤ s.host.stack.mtu ∧ s.host.stack.mtu < 65536)
    (hid : s.host.stack.ip6Id + 1 < 2 ^ 32) (hpl : s.host.stack.PlainIp6) :
    ∃ m outs Fs q fs, BlockMessage size m ∧ (UdpClient.turn size r true s).log = s.log ++ [⟨m, m.length, outs⟩] ∧ outs.map Outgoing.frame = Fs.map .ok ∧
      IsUdp q lport rport m ∧ NearlyValid (pseudoHdr6 src dst 17 q.length) q 6 ∧ IsFragmentation q (s.host.stack.mtu - 48) fs ∧
      List.Forall₂ (Cut6 s.host.stack.mac nb s.host.stack.mtu src dst 17 (s.host.stack.ip6Id + 1)) fs Fs := by
  have hlen := (C116_text size).2 (by omega)
  obtain ⟨-, -, -, x4⟩ := send_dials hd (TcpClient.message size)
  obtain ⟨h', outs, Fs, q, fs, g1, -, g2, g3, g4, g5, g6⟩ := s.host.udp_cuts6 (sport := lport) (dport := rport) (data := TcpClient.message size) hb.1 hb.2.2
    ho hn hk (by omega) hmtu hid hpl
  refine ⟨TcpClient.message size, outs, Fs, q, fs, (C116_text size).1, ?_, g2, g3, g4, g5, g6⟩
  rw [UdpClient.turn, hp]
  dsimp only
  rw [if_pos ⟨rfl, h0⟩, x4 (by rw [ip6_specified hn.unicast.1]; simp; omega) ht, g1]
  rfl

end

/-! ### Examples -/

namespace Example.UdpClient
open Example.Echo Example.Host Example.Rx

/-- A client on 10.0.1.7, without an address of its own, that is told to send two messages of three blocks to the echo port of its neighbour; there is a
frame in between. -/
def begun : Client × Nat := Verif.UdpClient.start S (.v4 .zero) 5000 (some (.v4 peer4)) 7 2 0
def evs : List Verif.UdpClient.Ev := [.turn true, .frame 0 0 0 8 nearAsks, .turn true]
def two : Client := Verif.UdpClient.run 3 begun.2 begun.1 evs

/-- The case of `C117_started`, -/
example : begun.1.pc = .test := by decide +kernel

/-- of `C117_messages` -/
theorem dials : Dials begun.1.host begun.2 (.v4 Example.host4.address) 5000 (.v4 peer4) 7 :=
  ⟨⟨_, rfl, by decide +kernel⟩, by decide +kernel⟩
example : two.log.map (fun x => (x.data, x.len, x.frames.length)) =
    List.replicate 2 (Verif.Echo.ascii "[------START------] [------00001------] [-------END-------]\n", 60, 1) := by decide +kernel

/-- and of `C117_next_partial`: the thread has not ended, and does when it runs again. -/
example : two.pc = .test ∧ (Verif.UdpClient.run 3 begun.2 begun.1 (evs ++ [.turn true])).pc = .ended ∧ begun.1.left = 2 ∧
    begun.1.host.stack.mtu = 1500 ∧ begun.1.host.stack.ip4Id = 0 := by
  decide +kernel
theorem not_away : ¬ TurnedAway begun.1.host begun.2 := by
  rintro ⟨s, h1, h2⟩
  have : (begun.1.host.node.socks.socks[begun.2]?).map (·.unreachable) = some false := by decide +kernel
  rw [h1] at this
  simp [h2] at this

/-- The case of `C117_wire4`: -/
example : ∃ m G q out, BlockMessage 3 m ∧ (Verif.UdpClient.turn 3 begun.2 true begun.1).log = [⟨m, m.length, [out]⟩] ∧ out.frame = .ok G ∧
    Sends4 G S.stack.mac A'.stack.mac Example.host4.address peer4 64 17 q ∧ IsUdp q 5000 7 m := by
  obtain ⟨m, G, q, out, h1, h2, h3, h4, h5, -⟩ := C117_wire4 (size := 3) (s := begun.1) (r := begun.2) (src := Example.host4.address) (dst := peer4) (a := peer4)
    (nb := A'.stack.mac) (by decide +kernel) (by decide +kernel) dials (by decide) not_away b_own4 b_next4 rfl (by decide) (by decide)
  exact ⟨m, G, q, out, h1, h2, h3, h4, h5⟩

/-- and of `C117_wire6`. -/
def begun6 : Client × Nat := Verif.UdpClient.start S (.v6 .zero) 5001 (some (.v6 peer6)) 7 (-1) 3
theorem dials6 : Dials begun6.1.host begun6.2 (.v6 Example.host6.address) 5001 (.v6 peer6) 7 :=
  ⟨⟨_, rfl, by decide +kernel⟩, by decide +kernel⟩
theorem not_away6 : ¬ TurnedAway begun6.1.host begun6.2 := by
  rintro ⟨s, h1, h2⟩
  have : (begun6.1.host.node.socks.socks[begun6.2]?).map (·.unreachable) = some false := by decide +kernel
  rw [h1] at this
  simp [h2] at this
example : ∃ m G q out, BlockMessage 5 m ∧ (Verif.UdpClient.turn 5 begun6.2 true begun6.1).log = [⟨m, m.length, [out]⟩] ∧ out.frame = .ok G ∧
    Sends6 G S.stack.mac A'.stack.mac Example.host6.address peer6 64 17 q ∧ IsUdp q 5001 7 m := by
  obtain ⟨m, G, q, out, h1, h2, h3, h4, h5, -⟩ := C117_wire6 (size := 5) (s := begun6.1) (r := begun6.2) (src := Example.host6.address) (dst := peer6) (a := peer6)
    (nb := A'.stack.mac) (by decide +kernel) (by decide +kernel) dials6 (by decide) not_away6 b_own6 b_next6 rfl (by decide) (by decide)
  exact ⟨m, G, q, out, h1, h2, h3, h4, h5⟩

/-- The case of `C117_long4_witness` and `C117_long6_witness`. -/
example : (Verif.UdpClient.turn 4000 begun.2 true begun.1).pc = .died .structError :=
  (C117_long4_witness (size := 4000) (s := begun.1) (r := begun.2) (src := Example.host4.address) (dst := peer4) (by decide +kernel) (by decide +kernel) dials
    (by decide) not_away b_own4 (by decide +kernel) (by decide) (by decide +kernel)).1
example : (Verif.UdpClient.turn 4000 begun6.2 true begun6.1).pc = .died .structError :=
  (C117_long6_witness (size := 4000) (s := begun6.1) (r := begun6.2) (src := Example.host6.address) (dst := peer6) (by decide +kernel) (by decide +kernel) dials6
    (by decide) not_away6 b_own6 (by decide +kernel) (by decide) (by decide +kernel)).1

/-- A case of `C117_next_partial` with fragments: a message of a hundred blocks leaves in two. -/
example : (Verif.UdpClient.turn 100 begun.2 true begun.1).log.map (fun x => (x.len, x.frames.length)) = [(2000, 2)] := by decide +kernel
example : (Verif.UdpClient.run 100 begun.2 begun.1 ([] ++ [.turn true])).log.length = 0 + 1 :=
  ((C117_next_partial (size := 100) (s := begun.1) (r := begun.2) (count := 2) (by decide +kernel) (by decide +kernel) (by decide +kernel) dials []
    (by decide +kernel) (by decide +kernel) (by decide) (by decide +kernel) (by decide) (by decide +kernel) true).1 ⟨rfl, by decide +kernel, not_away⟩).2

/-- The case of `C117_cuts4`. -/
example : ∃ m outs Fs q fs, BlockMessage 100 m ∧ (Verif.UdpClient.turn 100 begun.2 true begun.1).log = [⟨m, m.length, outs⟩] ∧
    outs.map Outgoing.frame = Fs.map .ok ∧ IsUdp q 5000 7 m ∧ IsFragmentation q 1480 fs ∧
    List.Forall₂ (Cut4 S.stack.mac A'.stack.mac 1500 Example.host4.address peer4 64 17 1) fs Fs := by
  obtain ⟨m, outs, Fs, q, fs, h1, h2, h3, h4, -, h5, h6⟩ := C117_cuts4 (size := 100) (s := begun.1) (r := begun.2) (src := Example.host4.address) (dst := peer4)
    (a := peer4) (nb := A'.stack.mac) (by decide +kernel) (by decide +kernel) dials (by decide) not_away b_own4 b_next4 rfl (by decide +kernel)
    (by decide +kernel) (by decide +kernel)
  exact ⟨m, outs, Fs, q, fs, h1, h2, h3, h4, h5, h6⟩

/-- The case of `C117_cuts6`. -/
example : ∃ m outs Fs q fs, BlockMessage 100 m ∧ (Verif.UdpClient.turn 100 begun6.2 true begun6.1).log = [⟨m, m.length, outs⟩] ∧
    outs.map Outgoing.frame = Fs.map .ok ∧ IsUdp q 5001 7 m ∧ IsFragmentation q 1452 fs ∧
    List.Forall₂ (Cut6 S.stack.mac A'.stack.mac 1500 Example.host6.address peer6 17 1) fs Fs := by
  obtain ⟨m, outs, Fs, q, fs, h1, h2, h3, h4, -, h5, h6⟩ := C117_cuts6 (size := 100) (s := begun6.1) (r := begun6.2) (src := Example.host6.address) (dst := peer6)
    (a := peer6) (nb := A'.stack.mac) (by decide +kernel) (by decide +kernel) dials6 (by decide) not_away6 b_own6 b_next6 rfl (by decide +kernel)
    (by decide +kernel) (by decide +kernel) (by unfold Stack.PlainIp6; decide +kernel)
  exact ⟨m, outs, Fs, q, fs, h1, h2, h3, h4, h5, h6⟩

/-- The same client, on its way to an address of the other kind. -/
def lost : Client × Nat := Verif.UdpClient.start S (.v4 .zero) 5000 (some (.v6 peer6)) 7 2 0

end Example.UdpClient

/-- C117 is violated: a client that cannot connect returns without closing its socket, so that its port stays in use: the same client, started
again for an address that it can reach, ends at once.  It cannot connect to any IPv6 address unless it is given a local one. -/
theorem C117_leak_witness : (Example.UdpClient.lost.1.pc = .ended ∧
      (∃ id, Example.UdpClient.lost.1.host.node.socks.table.get? id = some Example.UdpClient.lost.2 ∧ id.lport = 5000) ∧
      (start Example.UdpClient.lost.1.host (.v4 .zero) 5000 (some (.v4 Example.Rx.peer4)) 7 2 0).1.pc = .ended ∧
      (start Example.Echo.S (.v4 .zero) 5000 (some (.v4 Example.Rx.peer4)) 7 2 0).1.pc = .test) ∧
    ∀ (h : Host) (l : Ip4Address) (lport : Int) (d : Ip6Address) (rport count : Int) (choice : Nat),
      (start h (.v4 l) lport (some (.v6 d)) rport count choice).1.pc ≠ .test := by
  refine ⟨⟨by decide +kernel, ⟨⟨.inet4, .dgram, .v4 .zero, 5000, .v4 .zero, 0⟩, by decide +kernel, rfl⟩, by decide +kernel, by decide +kernel⟩, ?_⟩
  intro h l lport d rport count choice hp
  obtain ⟨dst, p, -, e, hf, -⟩ := UdpClient.start_ok hp
  cases e
  cases hf

end Verif
