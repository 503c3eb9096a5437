import Verif.Lemmas.Machine
import Verif.Props.Resolve
/-!
C90 and C91: two machines with an Ethernet between them that carries bytes.  On both anything may happen; frames get lost, repeated, delayed
and reordered, and there may be other machines.  What a socket gets from the other machine's address is what that machine sent: checksums,
headers, fragmentation and reassembly (of frames that arrive in any order, among fragments of others) are all part of the model.
-/
namespace Verif
open Spec

theorem udp_origin {past : List Bytes} {n n' : Node} {t₀ t₁ : Int} {d : Nat} {F : Bytes} {l : List Eff} {r : Nat} {m : UdpMd}
    (hn : Received past n) (H : Rx.ether n t₀ t₁ d F = (n', .ok l)) (hx : .udpDeliver r m ∈ l) :
    ∃ p, Brought (past ++ [F]) m.rip m.lip 17 p ∧ IsUdp p m.rport m.lport m.data := by
  obtain ⟨k, ip, f, h1, h2, ⟨h3, h4⟩ | ⟨h3, h4⟩⟩ := transport_origin hn H ⟨_, hx, .inl ⟨_, _, rfl⟩⟩
  · rw [Rx.udp] at h3
    cases hp : Udp.parse f ip.dlen ip.pshdrSum with
    | error e => simp [hp] at h3
    | ok y =>
    cases y with
    | some s => simp [hp] at h3; subst h3; cases hx
    | none =>
    cases hr : Udp.read f with
    | error e => simp [hp, hr] at h3
    | ok u =>
    simp only [hp, hr, py_ok_bind, py_pure] at h3
    obtain ⟨s1, s2, s3, s4, s5⟩ := Udp.sound hp hr
    split at h3
    · have h3 := Except.ok.inj h3
      subst h3
      simp at hx
      obtain ⟨rfl, rfl⟩ := hx
      exact ⟨_, h4 s2 s1, s3⟩
    · split at h3
      · have h3 := Except.ok.inj h3; subst h3; cases hx
      · have h3 := Except.ok.inj h3
        subst h3
        rw [Rx.portUnreachable] at hx
        split at hx <;> simp at hx
  · rcases tcp_effs h3 with rfl | ⟨_, _, rfl⟩ | ⟨_, rfl⟩ <;> simp at hx

/-- C90: after any history of the two machines, when a frame makes the first give a socket a datagram from the other's address, the
other has sent a datagram with these ports and this data to this address. -/
theorem C90_genuine {a b : IpAddress} {A B : Machine} (hA : Started A) (hB : Started B) {xs ys : List Machine.Ev} (h : Ethernet a b A B xs ys)
    {u : Dict SockId Nat} {t₀ t₁ t : Int} {d : Nat} {F : Bytes} {iss : Nat} (hF : MayArrive b (B.run ys).wire (.frame u t₀ t₁ t d F iss))
    {n : Node} {l : List Eff} (H : Rx.ether ((A.run xs).node u) t₀ t₁ d F = (n, .ok l)) {r : Nat} {m : UdpMd} (hx : .udpDeliver r m ∈ l)
    (hb : m.rip = b) : ∃ src, .udp src m.lip m.rport m.lport m.data ∈ ys := by
  obtain ⟨p, h1, h2⟩ := udp_origin ((Machine.inv hA xs).recv ((A.run xs).node u) rfl rfl) H hx
  have hw := (Machine.ethernet_wire (.left h hF)).1
  rw [List.filterMap_append] at hw
  subst hb
  obtain ⟨src, sport, dport, data, ps, h3, h4⟩ := (brought_genuine hw (Machine.inv hB ys).wire h1 (.inr rfl)).1 rfl
  obtain ⟨a1, -, a2, a3, a4⟩ := Udp.assemble_bytes h4
  obtain ⟨-, -, b1, b2, b3⟩ := h2
  rw [← a2, ← a3, ← a4, b1, b2, ← b3] at h3
  exact ⟨src, h3⟩

/-- C91: what the application at either end of a connection has been given (and what is waiting for it) is a prefix of what the
application at the other end has sent. -/
theorem C91_prefix {k : Ends} (hk : k.lport ≠ 0 ∧ k.rport ≠ 0) {A B : Machine} (hA : Started A) (hB : Started B) {xs ys : List Machine.Ev}
    (h : Ethernet k.lip k.rip A B xs ys) {i j : Nat} {a b : Sess} (ha : Sole k (A.run xs).tcp i a) (hb : Sole k.flip (B.run ys).tcp j b) :
    received (seenOf (A.run xs).tcp.log i) ++ a.rx <+: accepted (seenOf (B.run ys).tcp.log j) ∧
    received (seenOf (B.run ys).tcp.log j) ++ b.rx <+: accepted (seenOf (A.run xs).tcp.log i) := by
  obtain ⟨hh, e1, e2⟩ := Machine.ethernet_hosts hA hB h ha hb
  rw [e1] at ha ⊢
  rw [e2] at hb ⊢
  exact C84_prefix hk hh (Machine.sole_only ha) (Machine.sole_only hb)

/-- C91: no byte is lost: while an end may send, what its application has sent is what has reached the other end, up to some point,
followed by what is in its own transmit buffer. -/
theorem C91_no_loss {k : Ends} (hk : k.lport ≠ 0 ∧ k.rport ≠ 0) {A B : Machine} (hA : Started A) (hB : Started B) {xs ys : List Machine.Ev}
    (h : Ethernet k.lip k.rip A B xs ys) {i j : Nat} {a b : Sess} (ha : Sole k (A.run xs).tcp i a) (hb : Sole k.flip (B.run ys).tcp j b) :
    (a.state = .established ∨ a.state = .closeWait → ∃ d, d <+: received (seenOf (B.run ys).tcp.log j) ++ b.rx ∧
      accepted (seenOf (A.run xs).tcp.log i) = d ++ a.tx) ∧
    (b.state = .established ∨ b.state = .closeWait → ∃ d, d <+: received (seenOf (A.run xs).tcp.log i) ++ a.rx ∧
      accepted (seenOf (B.run ys).tcp.log j) = d ++ b.tx) := by
  obtain ⟨hh, e1, e2⟩ := Machine.ethernet_hosts hA hB h ha hb
  rw [e1] at ha ⊢
  rw [e2] at hb ⊢
  exact C84_no_loss hk hh (Machine.sole_only ha) (Machine.sole_only hb)

theorem Spec.Ethernet.swap {a b : IpAddress} {A B : Machine} {xs ys : List Machine.Ev} (h : Ethernet a b A B xs ys) : Ethernet b a B A ys xs := by
  induction h with
  | start => exact .start
  | left _ he ih => exact .right ih he
  | right _ he ih => exact .left ih he

/-- C91: once the session of the first machine has gone on to its FIN, everything its application has sent has reached the other end.
(The same for the second machine: `Spec.Ethernet.swap`.) -/
theorem C91_sent_before_fin {k : Ends} (hk : k.lport ≠ 0 ∧ k.rport ≠ 0) {A B : Machine} (hA : Started A) (hB : Started B) {xs ys : List Machine.Ev}
    (h : Ethernet k.lip k.rip A B xs ys) {i j : Nat} {a b : Sess} (ha : Sole k (A.run xs).tcp i a) (hb : Sole k.flip (B.run ys).tcp j b)
    (hst : a.state = .finWait1 ∨ a.state = .finWait2 ∨ a.state = .closing ∨ a.state = .lastAck ∨ a.state = .timeWait) :
    received (seenOf (B.run ys).tcp.log j) ++ b.rx = accepted (seenOf (A.run xs).tcp.log i) := by
  obtain ⟨hh, e1, e2⟩ := Machine.ethernet_hosts hA hB h ha hb
  rw [e1] at ha ⊢
  rw [e2] at hb ⊢
  exact C84_sent_before_fin hk hh (Machine.sole_only ha) (Machine.sole_only hb) hst

/-- C91: once the session of the first machine has taken the other's FIN, its application has been given everything the other has sent,
or it is waiting for it. -/
theorem C91_fin_means_all {k : Ends} (hk : k.lport ≠ 0 ∧ k.rport ≠ 0) {A B : Machine} (hA : Started A) (hB : Started B) {xs ys : List Machine.Ev}
    (h : Ethernet k.lip k.rip A B xs ys) {i j : Nat} {a b : Sess} (ha : Sole k (A.run xs).tcp i a) (hb : Sole k.flip (B.run ys).tcp j b)
    (hst : a.state = .closeWait ∨ a.state = .closing ∨ a.state = .lastAck ∨ a.state = .timeWait) :
    received (seenOf (A.run xs).tcp.log i) ++ a.rx = accepted (seenOf (B.run ys).tcp.log j) := by
  obtain ⟨hh, e1, e2⟩ := Machine.ethernet_hosts hA hB h ha hb
  rw [e1] at ha ⊢
  rw [e2] at hb ⊢
  exact C84_fin_means_all hk hh (Machine.sole_only ha) (Machine.sole_only hb) hst

namespace Example.Machine
open Example.Rx

/-- 10.0.1.9, with an MTU of 100, and 10.0.1.7; they do not know each other's link-layer addresses. -/
def A : Machine := ⟨{ Example.Host.A with node := { Example.Host.A.node with stack := Example.EndToEnd.sender 100 } }, TcpStack.empty, []⟩
def B : Machine := ⟨Example.Host.B, TcpStack.empty, []⟩

/-- What happens: something at a machine, or the arrival there of the `n`-th frame that the other has put on the wire. -/
inductive Act
  | l (e : TcpStack.Ev)
  | r (e : TcpStack.Ev)
  | send (data : Bytes)
  | toL (n : Nat)
  | toR (n : Nat) (iss : Nat)

/-- A UDP socket at port 53 of 10.0.1.7. -/
def u : Dict SockId Nat := [(⟨.inet4, .dgram, .v4 .zero, 53, .v4 .zero, 0⟩, 0)]

structure World where
  xs : List Machine.Ev
  ys : List Machine.Ev
  a : Machine
  b : Machine

def World.left (w : World) (e : Machine.Ev) : World := ⟨w.xs ++ [e], w.ys, w.a.step e, w.b⟩
def World.right (w : World) (e : Machine.Ev) : World := ⟨w.xs, w.ys ++ [e], w.a, w.b.step e⟩

def act (w : World) : Act → World
  | .l e => w.left (.app e)
  | .r e => w.right (.app e)
  | .send data => w.left (.udp (.v4 peer4) (.v4 Example.host4.address) 5000 53 data)
  | .toL n => match w.b.wire[n]? with
    | some F => w.left (.frame [] 0 0 0 0 F 0)
    | none => w
  | .toR n iss => match w.a.wire[n]? with
    | some F => w.right (.frame u 0 0 0 0 F iss)
    | none => w

theorem started : Started A ∧ Started B := ⟨⟨rfl, rfl, rfl, rfl, by decide⟩, ⟨rfl, rfl, rfl, rfl, by decide⟩⟩

theorem ether_ok (acts : List Act) :
    let w := acts.foldl act ⟨[], [], A, B⟩
    w.a = A.run w.xs ∧ w.b = B.run w.ys ∧ Ethernet (.v4 peer4) (.v4 Example.host4.address) A B w.xs w.ys := by
  induction acts using List.reverseRecOn with
  | nil => exact ⟨rfl, rfl, .start⟩
  | append_singleton acts c ih =>
    rw [List.foldl_append]
    simp only [List.foldl_cons, List.foldl_nil] at ih ⊢
    generalize acts.foldl act ⟨[], [], A, B⟩ = w at ih
    obtain ⟨h1, h2, h3⟩ := ih
    have hl : ∀ e, MayArrive (.v4 Example.host4.address) w.b.wire e → (w.left e).a = A.run (w.left e).xs ∧ (w.left e).b = B.run (w.left e).ys ∧
        Ethernet (.v4 peer4) (.v4 Example.host4.address) A B (w.left e).xs (w.left e).ys := by
      intro e he
      exact ⟨by simp only [World.left, Machine.run_snoc, h1], h2, .left h3 (h2 ▸ he)⟩
    have hr : ∀ e, MayArrive (.v4 peer4) w.a.wire e → (w.right e).a = A.run (w.right e).xs ∧ (w.right e).b = B.run (w.right e).ys ∧
        Ethernet (.v4 peer4) (.v4 Example.host4.address) A B (w.right e).xs (w.right e).ys := by
      intro e he
      exact ⟨h1, by simp only [World.right, Machine.run_snoc, h2], .right h3 (h1 ▸ he)⟩
    cases c with
    | l e => exact hl _ (by intro _ _ _ _ _ _ _ h; cases h)
    | r e => exact hr _ (by intro _ _ _ _ _ _ _ h; cases h)
    | send d => exact hl _ (by intro _ _ _ _ _ _ _ h; cases h)
    | toL n =>
      simp only [act]
      split
      · rename_i F hF; exact hl _ (by intro _ _ _ _ _ _ _ h _; cases h; exact List.mem_of_getElem? hF)
      · exact ⟨h1, h2, h3⟩
    | toR n iss =>
      simp only [act]
      split
      · rename_i F hF; exact hr _ (by intro _ _ _ _ _ _ _ h _; cases h; exact List.mem_of_getElem? hF)
      · exact ⟨h1, h2, h3⟩

/-- 10.0.1.9 sends a datagram and asks for the link-layer address first, so that the datagram is lost; a second one with 100 bytes is cut into two
fragments. -/
def udpActs : List Act :=
  [.l (.socket .inet4), .r (.socket .inet4), .r (.bind Example.stack 0 (some (.v4 .zero)) 80 0), .r (.listen 0 500),
   .send [7], .toR 0 0, .toL 0, .send (List.replicate 100 8)]

def w₀ : World := udpActs.foldl act ⟨[], [], A, B⟩
/-- After the second fragment. -/
def w₁ : World := (udpActs ++ [Act.toR 2 0]).foldl act ⟨[], [], A, B⟩

def last : Bytes := w₀.a.wire[1]?.getD []

def delivers (x : Py (List Eff)) : Bool :=
  match x with
  | .ok [.udpDeliver _ m] => m.rip == .v4 peer4 && m.data == List.replicate 100 8
  | _ => false

/-- C90: the first fragment, which arrives last, makes the datagram complete. -/
example : ∃ n l r m, Ethernet (.v4 Example.host4.address) (.v4 peer4) B A w₁.ys w₁.xs ∧
    MayArrive (.v4 peer4) (A.run w₁.xs).wire (.frame u 0 0 0 0 last 0) ∧
    Rx.ether ((B.run w₁.ys).node u) 0 0 0 last = (n, .ok l) ∧ .udpDeliver r m ∈ l ∧ m.rip = .v4 peer4 ∧ m.data = List.replicate 100 8 := by
  obtain ⟨h1, h2, h3⟩ := ether_ok (udpActs ++ [Act.toR 2 0])
  have e : delivers (Rx.ether (w₁.b.node u) 0 0 0 last).2 = true := by decide +kernel
  have m : last ∈ w₁.a.wire := by decide +kernel
  rw [show w₁.b = B.run w₁.ys from h2] at e
  rw [show w₁.a = A.run w₁.xs from h1] at m
  unfold delivers at e
  split at e
  · rename_i r m hm
    simp only [Bool.and_eq_true, beq_iff_eq] at e
    have ha : MayArrive (.v4 peer4) (A.run w₁.xs).wire (.frame u 0 0 0 0 last 0) := by
      intro _ _ _ _ _ _ _ h _
      cases h
      assumption
    refine ⟨(Rx.ether ((B.run w₁.ys).node u) 0 0 0 last).1, [.udpDeliver r m], r, m, h3.swap, ha, ?_, List.mem_singleton.mpr rfl, e.1, e.2⟩
    rw [← hm]
  · cases e

/-- 10.0.1.9 then connects and sends [1, 2], which arrive twice; 10.0.1.7 sends [9]. -/
def acts : List Act := udpActs ++
  [.toR 2 0, .toR 1 0,
   .l (.connect (Example.EndToEnd.sender 100) 0 (some (.v4 Example.host4.address)) 80 0 100), .l (.timer 0), .toR 3 600, .r (.timer 0), .toL 1, .toR 4 0,
   .l (.call 0 (.send [1, 2])), .l (.timer 0), .toR 5 0, .toR 5 0,
   .r (.accept 0), .r (.call 0 .recvAcquire), .r (.call 0 (.recvTake none)), .r (.call 0 (.send [9])), .r (.timer 0), .toL 3, .toL 2]

def w : World := acts.foldl act ⟨[], [], A, B⟩

/-- The connection, as 10.0.1.9 has it. -/
def k : Ends := ⟨.v4 peer4, 32168, .v4 Example.host4.address, 80⟩

def sole (k : Ends) (t : TcpStack) (i : Nat) : Bool :=
  (List.range t.conns.length).all fun n => match t.conns[n]? with
    | some c => if n = i then c.s.lip == k.lip && c.s.lport == k.lport && c.s.rip == k.rip && c.s.rport == k.rport
      else c.s.lport != k.lport || c.s.rip != k.rip || c.s.rport != k.rport
    | none => true

theorem sole_ok {k : Ends} {t : TcpStack} {i : Nat} {c : TcpConn} (hc : t.conns[i]? = some c) (h : sole k t i = true) : Sole k t i c.s := by
  simp only [sole, List.all_eq_true, List.mem_range] at h
  have key : ∀ n d, t.conns[n]? = some d → _ := fun n d hd => by
    have := h n (List.getElem?_eq_some_iff.mp hd).1
    rw [hd] at this
    exact this
  refine ⟨⟨c.2, hc⟩, ?_, fun n d hd p1 p2 p3 => ?_⟩
  · have := key i c hc
    simp only [if_pos] at this
    simp only [Bool.and_eq_true, beq_iff_eq] at this
    exact ⟨this.1.1.1, this.1.1.2, this.1.2, this.2⟩
  · refine Classical.byContradiction fun hn => ?_
    have := key n d hd
    simp only [if_neg hn] at this
    simp [p1, p2, p3] at this

theorem ends : ∃ a b, Sole k w.a.tcp 0 a ∧ Sole k.flip w.b.tcp 0 b ∧ a.state = .established ∧ b.state = .established ∧ a.rx = [9] := by
  have e : (match w.a.tcp.conns[0]?, w.b.tcp.conns[0]? with
      | some c, some d => sole k w.a.tcp 0 && sole k.flip w.b.tcp 0 && c.s.state == .established && d.s.state == .established && c.s.rx == [9]
      | _, _ => false) = true := by decide +kernel
  split at e
  · rename_i c d hc hd
    simp only [Bool.and_eq_true, beq_iff_eq] at e
    exact ⟨_, _, sole_ok hc e.1.1.1.1, sole_ok hd e.1.1.1.2, e.1.1.2, e.1.2, e.2⟩
  · cases e

/-- The hypotheses are met; the theorem says of this history what a run of it shows. -/
example : (∃ a b, Sole k w.a.tcp 0 a ∧ Sole k.flip w.b.tcp 0 b ∧
      received (seenOf w.a.tcp.log 0) ++ a.rx <+: accepted (seenOf w.b.tcp.log 0) ∧
      received (seenOf w.b.tcp.log 0) ++ b.rx <+: accepted (seenOf w.a.tcp.log 0)) ∧
    received (seenOf w.b.tcp.log 0) = [1, 2] ∧ accepted (seenOf w.a.tcp.log 0) = [1, 2] ∧ accepted (seenOf w.b.tcp.log 0) = [9] := by
  refine ⟨?_, by decide +kernel⟩
  obtain ⟨a, b, ha, hb, -⟩ := ends
  obtain ⟨h1, h2, h3⟩ := ether_ok acts
  refine ⟨a, b, ha, hb, ?_⟩
  rw [show w.a = A.run w.xs from h1] at ha ⊢
  rw [show w.b = B.run w.ys from h2] at hb ⊢
  exact C91_prefix (by decide) started.1 started.2 h3 ha hb

end Example.Machine
end Verif
