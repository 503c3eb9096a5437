import Verif.Lemmas.Ping
/-! C115: the ICMP echo client of the examples. -/
namespace Verif
open Spec Daytime Ping

/-- C115: whatever the host receives, and whenever the client's thread runs: the messages handed to the stack so far have the sequence numbers 0, 1, 2
and so on, all have the client's identifier, and each has as data the time at which the thread ran, on a line; the times are in order, and no message is
sent twice for one of them. -/
theorem C115_order (lip rip : IpAddress) (flow : Nat) (h : Host) (count : Int) (evs : List Ev) :
    ∃ ts : List Now, ts.Sublist (turnTimes evs) ∧ (Ping.run lip rip flow h count evs).log.length = ts.length ∧
      ∀ (k : Nat) (hk : k < (Ping.run lip rip flow h count evs).log.length), ∃ now, ts[k]? = some now ∧
        (Ping.run lip rip flow h count evs).log[k].id = flow ∧ (Ping.run lip rip flow h count evs).log[k].seq = k ∧
        (OnClock now → TimeLine now (Ping.run lip rip flow h count evs).log[k].data) := by
  obtain ⟨ts, t1, t2⟩ := inv_run lip rip flow h count evs
  refine ⟨ts, t1, t2.length, ?_⟩
  revert t2
  generalize Ping.run lip rip flow h count evs = s
  intro t2 k hk
  have hk' : k < ts.length := by rw [← t2.length]; exact hk
  have e := congrArg (fun l => l[k]?) t2.each
  simp only [List.getElem?_map, List.getElem?_eq_getElem hk, Option.map_some, List.getElem?_zipIdx, List.getElem?_eq_getElem hk',
    Option.some.injEq, Prod.mk.injEq, Nat.zero_add] at e
  refine ⟨ts[k], List.getElem?_eq_getElem hk', e.1, e.2.1, fun hc => ?_⟩
  rw [e.2.2]
  exact ⟨_, str_text hc, rfl⟩

/-- C115: there are no more messages than the client was told to send, if it was told a number; and never more than 65536. -/
theorem C115_count (lip rip : IpAddress) (flow : Nat) (h : Host) (count : Int) (evs : List Ev) :
    (0 ≤ count → ((Ping.run lip rip flow h count evs).log.length : Int) ≤ count) ∧ (Ping.run lip rip flow h count evs).log.length ≤ 65536 := by
  obtain ⟨ts, -, t2⟩ := inv_run lip rip flow h count evs
  exact ⟨t2.most, t2.few⟩

/-- The turn of a client's thread that has not ended. -/
theorem turn_cases {lip rip : IpAddress} {flow : Nat} {count : Int} {ts : List Now} {s : Client} (hs : Inv flow count ts s) (ha : s.pc = .test)
    (hf : lip.family = rip.family) (hi : flow < 65536) (hm : 75 ≤ s.host.stack.mtu) (running : Bool) {now : Now} (hn : OnClock now) :
    (running = true ∧ (s.log.length : Int) ≠ count ∧ s.log.length < 65536 →
      (turn lip rip flow running now s).pc = .test ∧ (turn lip rip flow running now s).log.length = s.log.length + 1 ∧
      (turn lip rip flow running now s).host.node = s.host.node) ∧
    (running = false ∨ (s.log.length : Int) = count →
      (turn lip rip flow running now s).pc = .ended ∧ (turn lip rip flow running now s).log = s.log) ∧
    (running = true ∧ (s.log.length : Int) ≠ count ∧ s.log.length = 65536 →
      (turn lip rip flow running now s).pc = .died .assertionError ∧ (turn lip rip flow running now s).log = s.log) := by
  have h1 := hs.seq
  have h2 := hs.left
  have hl := line_length hn
  refine ⟨?_, ?_, ?_⟩
  · rintro ⟨c1, c2, c3⟩
    obtain ⟨⟨st, outs, r1⟩, r2⟩ := request_ok (data := TcpDaytime.line now) hf hi (by omega : s.seq < 65536) (by omega : _ ≤ s.host.stack.mtu) (by omega)
    rw [turn, ha]
    dsimp only
    rw [if_pos ⟨c1, by omega⟩]
    revert r1 r2
    generalize request s.host lip rip flow s.seq (TcpDaytime.line now) = r
    obtain ⟨h', x⟩ := r
    intro r2 r1
    dsimp only at r1
    subst r1
    exact ⟨rfl, by simp, r2⟩
  · intro hc
    rw [turn, ha]
    dsimp only
    rw [if_neg]
    · exact ⟨rfl, rfl⟩
    · rintro ⟨c1, c2⟩
      rcases hc with hc | hc
      · rw [hc] at c1; cases c1
      · omega
  · rintro ⟨c1, c2, c3⟩
    rw [turn, ha]
    dsimp only
    rw [if_pos ⟨c1, by omega⟩, request_big (by omega)]
    exact ⟨rfl, rfl⟩

/-- C115: what the thread does when it runs, at any time before it ends: if it is not stopped and has not sent all messages, it sends one more, as long
as there have been fewer than 65536; if it is stopped or has sent all, it ends. -/
theorem C115_next_partial {lip rip : IpAddress} {flow : Nat} {h : Host} {count : Int} {evs : List Ev} (ha : (Ping.run lip rip flow h count evs).pc = .test)
    (hf : lip.family = rip.family) (hi : flow < 65536) (hm : 75 ≤ (Ping.run lip rip flow h count evs).host.stack.mtu) (running : Bool) {now : Now} (hn : OnClock now) :
    (running = true ∧ ((Ping.run lip rip flow h count evs).log.length : Int) ≠ count ∧ (Ping.run lip rip flow h count evs).log.length < 65536 →
      (Ping.run lip rip flow h count (evs ++ [.turn running now])).pc = .test ∧
      (Ping.run lip rip flow h count (evs ++ [.turn running now])).log.length = (Ping.run lip rip flow h count evs).log.length + 1) ∧
    (running = false ∨ ((Ping.run lip rip flow h count evs).log.length : Int) = count →
      (Ping.run lip rip flow h count (evs ++ [.turn running now])).pc = .ended ∧
      (Ping.run lip rip flow h count (evs ++ [.turn running now])).log = (Ping.run lip rip flow h count evs).log) := by
  obtain ⟨ts, -, t2⟩ := inv_run lip rip flow h count evs
  rw [Ping.run_snoc]
  obtain ⟨a, b, -⟩ := turn_cases t2 ha hf hi hm running hn
  exact ⟨fun x => ⟨(a x).1, (a x).2.1⟩, b⟩

/-- The thread runs again and again, and is not stopped. -/
theorem steady {lip rip : IpAddress} {flow : Nat} {h : Host} {count : Int} (hf : lip.family = rip.family) (hi : flow < 65536) (hm : 75 ≤ h.stack.mtu)
    (ts : List Now) (ht : ∀ t ∈ ts, OnClock t) (hl : ts.length ≤ 65536) (hc : count < 0 ∨ (ts.length : Int) ≤ count) :
    (Ping.run lip rip flow h count (ts.map (.turn true))).pc = .test ∧ (Ping.run lip rip flow h count (ts.map (.turn true))).log.length = ts.length ∧
      (Ping.run lip rip flow h count (ts.map (.turn true))).host.node = h.node := by
  induction ts using List.reverseRecOn with
  | nil => exact ⟨rfl, rfl, rfl⟩
  | append_singleton ts t ih =>
    rw [List.length_append, List.length_singleton] at hl hc
    obtain ⟨i1, i2, i3⟩ := ih (fun x hx => ht x (List.mem_append_left _ hx)) (by omega) (by omega)
    obtain ⟨us, -, u⟩ := inv_run lip rip flow h count (ts.map (.turn true))
    obtain ⟨a, -, -⟩ := turn_cases u i1 hf hi (by rw [Host.stack, i3]; exact hm) true (ht t (by simp))
    rw [List.map_append, List.map_singleton, Ping.run_snoc, List.length_append, List.length_singleton]
    obtain ⟨a1, a2, a3⟩ := a ⟨rfl, by omega, by omega⟩
    exact ⟨a1, a2.trans (by rw [i2]), a3.trans i3⟩

theorem ended_stays {lip rip : IpAddress} {flow : Nat} {s : Client} (hs : s.pc ≠ .test) (ts : List Now) :
    (ts.map (Ev.turn true)).foldl (Ping.step lip rip flow) s = s := by
  induction ts with
  | nil => rfl
  | cons t ts ih =>
    have : Ping.step lip rip flow s (.turn true t) = s := by
      rw [Ping.step, turn]
      split
      · next h => exact absurd h hs
      · rfl
    rw [List.map_cons, List.foldl_cons, this, ih]

theorem run_split (lip rip : IpAddress) (flow : Nat) (h : Host) (count : Int) (ts us : List Now) (t : Now) :
    Ping.run lip rip flow h count ((ts ++ t :: us).map (.turn true)) =
      (us.map (Ev.turn true)).foldl (Ping.step lip rip flow) (Ping.run lip rip flow h count (ts.map (.turn true) ++ [.turn true t])) := by
  rw [Ping.run, Ping.run, List.map_append, List.map_cons, List.foldl_append, List.foldl_cons, List.foldl_append]; rfl

/-- C115: a client that is told to send up to 65536 messages sends that many and ends. -/
theorem C115_all {lip rip : IpAddress} {flow : Nat} {h : Host} {count : Nat} (hf : lip.family = rip.family) (hi : flow < 65536) (hm : 75 ≤ h.stack.mtu)
    (hc : count ≤ 65536) {ts : List Now} (ht : ∀ t ∈ ts, OnClock t) (hl : count < ts.length) :
    (Ping.run lip rip flow h count (ts.map (.turn true))).pc = .ended ∧ (Ping.run lip rip flow h count (ts.map (.turn true))).log.length = count := by
  obtain ⟨us, t, vs, e, el⟩ : ∃ us t vs, ts = us ++ t :: vs ∧ us.length = count :=
    ⟨ts.take count, ts[count], ts.drop (count + 1), by simp, by simp; omega⟩
  subst e
  have hu := steady (count := count) hf hi hm us (fun x hx => ht x (by simp [hx])) (by omega) (by omega)
  obtain ⟨i1, i2, i3⟩ := hu
  obtain ⟨ws, -, u⟩ := inv_run lip rip flow h count (us.map (.turn true))
  obtain ⟨-, b, -⟩ := turn_cases u i1 hf hi (by rw [Host.stack, i3]; exact hm) true (ht t (by simp))
  obtain ⟨b1, b2⟩ := b (.inr (by omega))
  rw [run_split, Ping.run_snoc, ended_stays (by rw [Ping.step, b1]; simp)]
  exact ⟨b1, by rw [Ping.step, b2]; omega⟩

/-- C115 is violated: a client that is told to send more messages than 65536, or to go on until it is stopped (which is what it does unless told
otherwise), does not.  Its thread ends with `AssertionError` after 65536 messages, on every host, to every address. -/
theorem C115_exhausted_witness {lip rip : IpAddress} {flow : Nat} {h : Host} {count : Int} (hf : lip.family = rip.family) (hi : flow < 65536)
    (hm : 75 ≤ h.stack.mtu) (hc : count < 0 ∨ 65536 < count) {ts : List Now} (ht : ∀ t ∈ ts, OnClock t) (hl : 65536 < ts.length) :
    (Ping.run lip rip flow h count (ts.map (.turn true))).pc = .died .assertionError ∧
      (Ping.run lip rip flow h count (ts.map (.turn true))).log.length = 65536 := by
  obtain ⟨us, t, vs, e, el⟩ : ∃ us t vs, ts = us ++ t :: vs ∧ us.length = 65536 :=
    ⟨ts.take 65536, ts[65536], ts.drop (65536 + 1), by simp, by rw [List.length_take]; omega⟩
  subst e
  have hu := steady (count := count) hf hi hm us (fun x hx => ht x (by simp [hx])) (by omega) (by omega)
  obtain ⟨i1, i2, i3⟩ := hu
  obtain ⟨ws, -, u⟩ := inv_run lip rip flow h count (us.map (.turn true))
  obtain ⟨-, -, b⟩ := turn_cases u i1 hf hi (by rw [Host.stack, i3]; exact hm) true (ht t (by simp))
  obtain ⟨b1, b2⟩ := b ⟨rfl, by omega, by omega⟩
  rw [run_split, Ping.run_snoc, ended_stays (by rw [Ping.step, b1]; simp)]
  exact ⟨b1, by rw [Ping.step, b2]; omega⟩

/-- C115 is violated: a client that is given an IPv6 address to ping, and no address of its own (0.0.0.0 is the default, and the command line has no
option for another), sends nothing: its thread ends with `AssertionError` at once. -/
theorem C115_default6_witness (flow : Nat) (h : Host) {count : Int} (hc : count ≠ 0) (dst : Ip6Address) (now : Now) :
    (Ping.run (.v4 .zero) (.v6 dst) flow h count [.turn true now]).pc = .died .assertionError ∧
      (Ping.run (.v4 .zero) (.v6 dst) flow h count [.turn true now]).log = [] := by
  have e : Ping.run (.v4 .zero) (.v6 dst) flow h count [.turn true now] = turn (.v4 .zero) (.v6 dst) flow true now (start h count) := rfl
  rw [e, turn, start]
  dsimp only
  rw [if_pos ⟨rfl, hc⟩, request_mixed (by intro h; cases h)]
  exact ⟨rfl, rfl⟩

theorem icmp4_echo_request {id seq : Nat} (data : Bytes) (hi : id < 65536) (hs : seq < 65536) :
    ∃ q, Icmp4.assemble (.echoRequest id seq data) = .ok q ∧ IsEcho 8 q id seq data := by
  obtain ⟨c, hc, hcl⟩ : ∃ c, inetCksum (bePack 1 8 ++ bePack 1 0 ++ bePack 2 0 ++ bePack 2 id ++ bePack 2 seq ++
      data) = c ∧ c < 65536 := ⟨_, rfl, inetCksum_lt _ _⟩
  refine ⟨_, ?_, echo_bytes (t := 8) (ck := c) (by omega) hi hs⟩
  simp only [Icmp4.assemble, Icmp4.assembleEcho, packB_ok (show 0 < 256 by omega), packB_ok (show 8 < 256 by omega), packH_ok hi,
    packH_ok hs, packH_ok (show 0 < 65536 by omega), codec, show decide (id ≤ 65535) = true by simp; omega,
    show decide (seq ≤ 65535) = true by simp; omega]
  simp only [codec] at hc
  rw [hc, packIntoH_ok hcl (by simp; omega)]
  simp [codec]

theorem icmp6_echo_request {id seq : Nat} (data : Bytes) (ps : Nat) (hi : id < 65536) (hs : seq < 65536) :
    ∃ q, Icmp6.assemble (.echoRequest id seq data) ps = .ok q ∧ IsEcho 128 q id seq data := by
  obtain ⟨ck, -, h⟩ := Icmp6.assemble_ok (m := .echoRequest id seq data) (b := bePack 2 id ++ bePack 2 seq ++ data) ps
    (by simp [Icmp6.body, packH_ok hi, packH_ok hs, show id ≤ 65535 by omega, show seq ≤ 65535 by omega])
  refine ⟨_, h, ?_⟩
  have := echo_bytes (t := 128) (ck := ck) (data := data) (by omega) hi hs
  simpa [Icmp6.Msg.type, Icmp6.Msg.code] using this

theorem echo_length {t id seq : Nat} {q data : Bytes} (h : IsEcho t q id seq data) : q.length = 8 + data.length := by
  have h1 := h.1
  rw [h.2.2.2.2.2, List.length_drop]
  omega

/-- C115: on the wire, a message is one frame with an echo request: it has the client's identifier, the next sequence number and the time as data, and it
leaves from the client's address, or if that is 0.0.0.0 from the host's address in the first network that the other host is in, or else the first one with
a gateway. -/
theorem C115_wire4 {l src dst a : Ip4Address} {nb : MacAddress} {flow : Nat} {h : Host} {count : Int} {evs : List Ev} {s : Client}
    (hr : s = Ping.run (.v4 l) (.v4 dst) flow h count evs) (ha : s.pc = .test) (hc : (s.log.length : Int) ≠ count) (h16 : s.log.length < 65536) (hi : flow < 65536)
    (hl : LeavesFrom4 s.host.stack l dst src) (hz : Picks4 s.host.stack) (ho : OwnSource4 s.host.stack src) (hn : NextHop4 s.host.stack src dst a)
    (hk : Knows4 s.host a nb) (hm : 55 ≤ s.host.stack.mtu) (hmtu : s.host.stack.mtu < 65536) {now : Now} (ht : OnClock now) :
    ∃ x G q out, (Ping.run (.v4 l) (.v4 dst) flow h count (evs ++ [.turn true now])).log = s.log ++ [⟨flow, s.log.length, x, [out]⟩] ∧ TimeLine now x ∧
      out.frame = .ok G ∧ Sends4 G s.host.stack.mac nb src dst 64 1 q ∧ IsEcho 8 q flow s.log.length x ∧ NearlyValid [] q 2 := by
  obtain ⟨ts, -, t2⟩ := inv_run (.v4 l) (.v4 dst) flow h count evs
  rw [Ping.run_snoc, ← hr]
  rw [← hr] at t2
  clear hr
  have h1 := t2.seq
  have h2 := t2.left
  have hll := line_length ht
  obtain ⟨q, q1, q2⟩ := icmp4_echo_request (TcpDaytime.line now) hi h16
  have ql := echo_length q2
  let c : L4 := { Icmp4.carried (.echoRequest flow s.log.length (TcpDaytime.line now)) with kind := .other }
  have hcl : c.len = 8 + (TcpDaytime.line now).length := rfl
  have hd : dst.int ≠ 0 := by have := hn.unicast; omega
  obtain ⟨h', o, ps, g1, g2, g3, g4⟩ := s.host.sends4 (c := c) (ttl := 64) (by omega) ho hn hk (.inl rfl) (by omega) hmtu
  obtain ⟨G, G1, G2⟩ := g4 q q1 (by omega)
  have e : s.host.ip4 l dst 64 c = s.host.ip4 src dst 64 c := by
    rw [Host.ip4_fits s.host (by omega) (leaves_source4 hl hz ho c.kind) hd (.inl rfl) (by omega),
      Host.ip4_fits s.host (by omega) (ho.source dst c.kind) hd (.inl rfl) (by omega)]
  refine ⟨_, G, q, o, ?_, ⟨_, str_text ht, rfl⟩, G1, G2, q2, Icmp4.nearly q1 (by omega)⟩
  rw [Ping.step, turn, ha]
  dsimp only
  rw [if_pos ⟨rfl, by omega⟩, request, if_neg (not_not.2 ⟨by omega, by omega⟩), Host.icmp4, h1]
  have e' : s.host.ip4 l dst 64 { Icmp4.carried (.echoRequest flow s.log.length (TcpDaytime.line now)) with kind := .other } = _ := e.trans g1
  rw [e']
  rfl

/-- C115: the same over IPv6. -/
theorem C115_wire6 {l src dst a : Ip6Address} {nb : MacAddress} {flow : Nat} {h : Host} {count : Int} {evs : List Ev} {s : Client}
    (hr : s = Ping.run (.v6 l) (.v6 dst) flow h count evs) (ha : s.pc = .test) (hc : (s.log.length : Int) ≠ count) (h16 : s.log.length < 65536) (hi : flow < 65536)
    (hl : LeavesFrom6 s.host.stack l dst src) (hz : Picks6 s.host.stack) (ho : OwnSource6 s.host.stack src) (hn : NextHop6 s.host.stack src dst a)
    (hk : Knows6 s.host a nb) (hm : 75 ≤ s.host.stack.mtu) (hmtu : s.host.stack.mtu < 65536) {now : Now} (ht : OnClock now) :
    ∃ x G q out, (Ping.run (.v6 l) (.v6 dst) flow h count (evs ++ [.turn true now])).log = s.log ++ [⟨flow, s.log.length, x, [out]⟩] ∧ TimeLine now x ∧
      out.frame = .ok G ∧ Sends6 G s.host.stack.mac nb src dst 64 58 q ∧ IsEcho 128 q flow s.log.length x ∧
      NearlyValid (pseudoHdr6 src dst 58 q.length) q 2 := by
  obtain ⟨ts, -, t2⟩ := inv_run (.v6 l) (.v6 dst) flow h count evs
  rw [Ping.run_snoc, ← hr]
  rw [← hr] at t2
  clear hr
  have h1 := t2.seq
  have h2 := t2.left
  have hll := line_length ht
  let m : Icmp6.Msg := .echoRequest flow s.log.length (TcpDaytime.line now)
  let c : L4 := { Icmp6.carried m with kind := m.kind }
  have hcl : c.len = 8 + (TcpDaytime.line now).length := rfl
  have hml : Icmp6.len m = 8 + (TcpDaytime.line now).length := rfl
  have hd : dst.int ≠ 0 := by have := hn.unicast; omega
  obtain ⟨h', o, G, q, g1, g2, g3, g4, g5, g6⟩ := s.host.icmp6_known (hop := 64) (x := m) (by omega) ho hn hk (by omega) hmtu
    (P := fun q => IsEcho 128 q flow s.log.length (TcpDaytime.line now))
    (fun ps => by
      obtain ⟨q, q1, q2⟩ := icmp6_echo_request (TcpDaytime.line now) ps hi h16
      exact ⟨q, q1, by rw [hml, echo_length q2], q2⟩)
  have e : s.host.ip6 l dst 64 c = s.host.ip6 src dst 64 c := by
    rw [Host.ip6_fits s.host (by omega) (leaves_source6 hl hz ho c.kind) hd (.inl rfl) (by omega),
      Host.ip6_fits s.host (by omega) (ho.source dst c.kind) hd (.inl rfl) (by omega)]
  refine ⟨_, G, q, o, ?_, ⟨_, str_text ht, rfl⟩, g3, g4, g5, g6⟩
  rw [Ping.step, turn, ha]
  dsimp only
  rw [if_pos ⟨rfl, by omega⟩, request, if_neg (not_not.2 ⟨by omega, by omega⟩), Host.icmp6, h1]
  have e' : s.host.ip6 l dst 64 { Icmp6.carried (.echoRequest flow s.log.length (TcpDaytime.line now)) with
      kind := (Icmp6.Msg.echoRequest flow s.log.length (TcpDaytime.line now)).kind } = _ := e.trans g1
  rw [e']
  rfl

/-! ### Cases -/

namespace Example.Ping
open Example.Echo Example.Host Example.Rx Example.Daytime Verif.Ping

/-- A client on 10.0.1.7, without an address of its own, that is told to ping its neighbour twice; there is a frame in between. -/
def evs : List Verif.Ping.Ev := [.turn true then', .frame 0 0 0 8 nearAsks, .turn true now]
def two : Client := Verif.Ping.run (.v4 .zero) (.v4 peer4) 77 S 2 evs

/-- The case of `C115_order`: -/
example : two.log.map (fun x => (x.id, x.seq, x.data, x.frames.length)) =
    [(77, 0, Verif.Echo.ascii "0999-01-02 03:04:05\n", 1), (77, 1, Verif.Echo.ascii "2026-11-16 21:41:13.000007\n", 1)] := by decide +kernel

/-- and of `C115_next_partial`: the thread has not ended, and will when it runs again. -/
example : two.pc = .test ∧ (step (.v4 .zero) (.v4 peer4) 77 two (.turn true now)).pc = .ended := by decide +kernel

theorem picks4 : Picks4 S.stack := ⟨by decide +kernel, by decide +kernel⟩
theorem picks6 : Picks6 S.stack := by unfold Picks6; decide +kernel

/-- The case of `C115_wire4` and `C115_wire6`: the first message. -/
example : ∃ x G q out, (Verif.Ping.run (.v4 .zero) (.v4 peer4) 77 S 2 [.turn true now]).log = [⟨77, 0, x, [out]⟩] ∧ TimeLine now x ∧
    out.frame = .ok G ∧ Sends4 G S.stack.mac A'.stack.mac Example.host4.address peer4 64 1 q ∧ IsEcho 8 q 77 0 x := by
  obtain ⟨x, G, q, out, h1, h2, h3, h4, h5, -⟩ := C115_wire4 (s := start S 2) (l := .zero) (dst := peer4) (src := Example.host4.address) (a := peer4) (nb := A'.stack.mac)
    (flow := 77) (h := S) (count := 2) (evs := []) rfl rfl (by decide) (by decide) (by decide) s_leaves4 picks4 b_own4 b_next4 rfl (by decide) (by decide) on_clock.1
  exact ⟨x, G, q, out, h1, h2, h3, h4, h5⟩
example : ∃ x G q out, (Verif.Ping.run (.v6 .zero) (.v6 peer6) 77 S 2 [.turn true now]).log = [⟨77, 0, x, [out]⟩] ∧ TimeLine now x ∧
    out.frame = .ok G ∧ Sends6 G S.stack.mac A'.stack.mac Example.host6.address peer6 64 58 q ∧ IsEcho 128 q 77 0 x := by
  obtain ⟨x, G, q, out, h1, h2, h3, h4, h5, -⟩ := C115_wire6 (s := start S 2) (l := .zero) (dst := peer6) (src := Example.host6.address) (a := peer6) (nb := A'.stack.mac)
    (flow := 77) (h := S) (count := 2) (evs := []) rfl rfl (by decide) (by decide) (by decide) s_leaves6 picks6 b_own6 b_next6 rfl (by decide) (by decide) on_clock.1
  exact ⟨x, G, q, out, h1, h2, h3, h4, h5⟩

/-- The case of `C115_all`, -/
example : (Verif.Ping.run (.v4 .zero) (.v4 peer4) 77 S 3 ((List.replicate 9 now).map (.turn true))).log.length = 3 :=
  (C115_all (lip := .v4 .zero) (rip := .v4 peer4) (flow := 77) (h := S) (count := 3) (ts := List.replicate 9 now) rfl (by decide) (by decide) (by decide) (fun t h => by rw [List.eq_of_mem_replicate h]; exact on_clock.1) (by decide)).2

/-- and of `C115_exhausted_witness`. -/
example {ts : List Now} (h : ts = List.replicate 65537 now) :
    (Verif.Ping.run (.v4 .zero) (.v4 peer4) 77 S (-1) (ts.map (.turn true))).pc = .died .assertionError :=
  (C115_exhausted_witness (lip := .v4 .zero) (rip := .v4 peer4) (flow := 77) (h := S) rfl (by decide) (by decide) (.inl (by decide))
    (fun t ht => by rw [h] at ht; rw [List.eq_of_mem_replicate ht]; exact on_clock.1) (by rw [h, List.length_replicate]; decide)).1

end Example.Ping

end Verif
