import Mathlib.Data.List.Induction
import Verif.Lemmas.Echo
import Verif.Props.Daytime
import Verif.Spec.Ping
/-! The ICMP echo client. -/
namespace Verif
open Spec Daytime

theorem source_zero4 {st : Stack} {dst src : Ip4Address} (h0 : 0 < src.int) (hz : Picks4 st) (hp : pickLocalIp4 st dst = src) (k : L4Kind) :
    validateSrcIp4 st .zero dst k = .ok src := by
  obtain ⟨h1, h2⟩ := hz
  have hb : Ip4Address.zero ∉ st.ip4Broadcast ∨ firstAddr4 st.ip4Host (·.network.bcast = .zero) = none := by
    right
    exact firstAddr4_none.mpr (fun x hx => by simpa using h2 x hx)
  have e1 : Ip4Address.zero.isLimitedBroadcast = false := by decide
  have e2 : Ip4Address.zero.isUnspecified = true := by decide
  have e3 : (if Ip4Address.zero ∈ st.ip4Broadcast then firstAddr4 st.ip4Host (·.network.bcast = .zero) else none) = none := by
    rcases hb with hb | hb
    · rw [if_neg hb]
    · rw [hb]; exact ite_self none
  rw [validateSrcIp4, if_neg (by simp), if_neg h1, e1, e2, e3]
  simp only [Bool.false_eq_true, if_false, if_true]
  rw [pickLocalIp4] at hp
  cases ha : firstAddr4 st.ip4Host (·.network.contains dst) with
  | some a => rw [ha] at hp; dsimp only at hp ⊢; rw [hp]
  | none =>
    rw [ha] at hp
    dsimp only at hp ⊢
    cases hg : firstAddr4 st.ip4Host (·.gateway.isSome) with
    | some a => rw [hg] at hp; dsimp only [Option.getD] at hp ⊢; rw [hp]
    | none => rw [hg] at hp; simp only [Option.getD] at hp; rw [← hp] at h0; exact absurd h0 (by decide)

theorem source_zero6 {st : Stack} {dst src : Ip6Address} (h0 : 0 < src.int) (hz : Picks6 st) (hp : pickLocalIp6 st dst = src) (k : L4Kind) :
    validateSrcIp6 st .zero dst k = .ok src := by
  have e2 : Ip6Address.zero.isUnspecified = true := by decide
  rw [validateSrcIp6, if_neg (by simp), if_neg hz, e2]
  simp only [if_true]
  rw [pickLocalIp6] at hp
  cases ha : firstAddr6 st.ip6Host (·.network.contains dst) with
  | some a => rw [ha] at hp; dsimp only at hp ⊢; rw [hp]
  | none =>
    rw [ha] at hp
    dsimp only at hp ⊢
    cases hg : firstAddr6 st.ip6Host (·.gateway.isSome) with
    | some a => rw [hg] at hp; dsimp only [Option.getD] at hp ⊢; rw [hp]
    | none => rw [hg] at hp; simp only [Option.getD] at hp; rw [← hp] at h0; exact absurd h0 (by decide)

theorem leaves_source4 {st : Stack} {ip dst src : Ip4Address} (h : LeavesFrom4 st ip dst src) (hz : Picks4 st) (ho : OwnSource4 st src) (k : L4Kind) :
    validateSrcIp4 st ip dst k = .ok src := by
  obtain ⟨-, l⟩ := leaves4 h ho.ordinary.1
  rcases h with ⟨-, rfl⟩ | ⟨h, -⟩
  · exact ho.source dst k
  · have e : ip = .zero := by obtain ⟨i, hi⟩ := ip; dsimp only at h; subst h; rfl
    subst e
    refine source_zero4 ho.ordinary.1 hz ?_ k
    rw [if_pos (by rfl), Socks.pickLocalIp] at l
    exact (IpAddress.v4.inj l).symm

theorem leaves_source6 {st : Stack} {ip dst src : Ip6Address} (h : LeavesFrom6 st ip dst src) (hz : Picks6 st) (ho : OwnSource6 st src) (k : L4Kind) :
    validateSrcIp6 st ip dst k = .ok src := by
  obtain ⟨-, l⟩ := leaves6 h ho.ordinary.1
  rcases h with ⟨-, rfl⟩ | ⟨h, -⟩
  · exact ho.source dst k
  · have e : ip = .zero := by obtain ⟨i, hi⟩ := ip; dsimp only at h; subst h; rfl
    subst e
    refine source_zero6 ho.ordinary.1 hz ?_ k
    rw [if_pos (by rfl), Socks.pickLocalIp] at l
    exact (IpAddress.v6.inj l).symm

/-- Whatever becomes of a packet that fits, the state of the packet handler and the sockets stay. -/
theorem Host.ip4_node (h : Host) (src dst : Ip4Address) {ttl : Nat} {c : L4} (ht : 0 < ttl ∧ ttl < 256)
    (hp : c.proto = 1 ∨ c.proto = 17 ∨ c.proto = 6 ∨ c.proto = 255) (hf : 20 + c.len ≤ h.stack.mtu) : (h.ip4 src dst ttl c).1.node = h.node := by
  cases hv : validateSrcIp4 h.stack src dst c.kind with
  | error e => rw [ip4, if_neg (not_not.2 ht), hv]
  | ok a =>
    by_cases hd : dst.int = 0
    · have : validateDstIp4 dst = .error .dropIp4DstUnspecified := by
        rw [validateDstIp4, if_pos (by rw [Ip4Address.isUnspecified, hd]; rfl)]
      rw [ip4, if_neg (not_not.2 ht), hv, this]
    · rw [ip4_fits h ht hv hd hp hf]
      exact link_node h _

theorem Host.ip6_node (h : Host) (src dst : Ip6Address) {hop : Nat} {c : L4} (ht : 0 < hop ∧ hop < 256)
    (hp : c.proto = 58 ∨ c.proto = 17 ∨ c.proto = 6 ∨ c.proto = 44 ∨ c.proto = 255) (hf : 40 + c.len ≤ h.stack.mtu) :
    (h.ip6 src dst hop c).1.node = h.node := by
  cases hv : validateSrcIp6 h.stack src dst c.kind with
  | error e => rw [ip6, ip6Small, if_neg (not_not.2 ht), hv]
  | ok a =>
    by_cases hd : dst.int = 0
    · have : validateDstIp6 dst = .error .dropIp6DstUnspecified := by
        rw [validateDstIp6, if_pos (by rw [Ip6Address.isUnspecified, hd]; rfl)]
      rw [ip6, ip6Small, if_neg (not_not.2 ht), hv, this]
    · rw [ip6_fits h ht hv hd hp hf]
      exact link_node h _

namespace Ping

theorem line_length {now : Now} (h : OnClock now) : (TcpDaytime.line now).length ≤ 27 := by
  have := text_length (str_text h)
  rw [TcpDaytime.line, List.length_append, List.length_singleton]
  omega

/-- A request for two addresses of one kind is sent if the two numbers have two bytes. -/
theorem request_ok {h : Host} {lip rip : IpAddress} {id seq : Nat} {data : Bytes} (hf : lip.family = rip.family) (hi : id < 65536) (hs : seq < 65536)
    (hm : 48 + data.length ≤ h.stack.mtu) (hm' : 72 ≤ h.stack.mtu) :
    (∃ st outs, (request h lip rip id seq data).2 = .ok (st, outs)) ∧ (request h lip rip id seq data).1.node = h.node := by
  have hb : id ≤ 0xFFFF ∧ seq ≤ 0xFFFF := by omega
  cases lip with
  | v4 l =>
    cases rip with
    | v6 r => cases hf
    | v4 r =>
      rw [request]
      rw [if_neg (not_not.2 hb), Host.icmp4]
      have hl : ({ Icmp4.carried (.echoRequest id seq data) with kind := .other } : L4).len = 8 + data.length := rfl
      obtain ⟨⟨x, y⟩, hx⟩ := Host.ip4_ok h l r (ttl := 64) (c := { Icmp4.carried (.echoRequest id seq data) with kind := .other }) (by omega) (.inl rfl) (by rw [hl]; omega)
      exact ⟨⟨x, y, hx⟩, h.ip4_node l r (by omega) (.inl rfl) (by rw [hl]; omega)⟩
  | v6 l =>
    cases rip with
    | v4 r => cases hf
    | v6 r =>
      rw [request]
      rw [if_neg (not_not.2 hb), Host.icmp6]
      have hl : ({ Icmp6.carried (.echoRequest id seq data) with kind := (Icmp6.Msg.echoRequest id seq data).kind } : L4).len = 8 + data.length := rfl
      obtain ⟨⟨x, y⟩, hx⟩ := Host.ip6_ok h l r (hop := 64) (c := { Icmp6.carried (.echoRequest id seq data) with kind := (Icmp6.Msg.echoRequest id seq data).kind })
        (by omega) (.inl rfl) hm' (by rw [hl]; omega)
      exact ⟨⟨x, y, hx⟩, h.ip6_node l r (by omega) (.inl rfl) (by rw [hl]; omega)⟩

/-- Nothing is sent with a sequence number of more than two bytes. -/
theorem request_big {h : Host} {lip rip : IpAddress} {id seq : Nat} {data : Bytes} (hs : 65536 ≤ seq) :
    request h lip rip id seq data = (h, .error .assertionError) := by
  have hb : ¬ (id ≤ 0xFFFF ∧ seq ≤ 0xFFFF) := by omega
  cases lip <;> cases rip <;> simp only [request, if_pos hb]

/-- Nor between addresses of different kinds. -/
theorem request_mixed {h : Host} {lip rip : IpAddress} {id seq : Nat} {data : Bytes} (hf : lip.family ≠ rip.family) :
    request h lip rip id seq data = (h, .error .assertionError) := by
  cases lip <;> cases rip <;> first | exact absurd rfl hf | rfl

theorem request_seq {h h' : Host} {lip rip : IpAddress} {id seq : Nat} {data : Bytes} {x : TxStatus × List Outgoing}
    (hr : request h lip rip id seq data = (h', .ok x)) : seq < 65536 := by
  apply Classical.byContradiction
  intro hs
  rw [request_big (by omega)] at hr
  cases hr

/-- What is the same at all times. -/
structure Inv (flow : Nat) (count : Int) (ts : List Now) (s : Client) : Prop where
  seq : s.seq = s.log.length
  left : s.left = count - s.log.length
  most : 0 ≤ count → (s.log.length : Int) ≤ count
  few : s.log.length ≤ 65536
  each : s.log.map (fun x => (x.id, x.seq, x.data)) = (ts.zipIdx).map (fun x => (flow, x.2, TcpDaytime.line x.1))

theorem Inv.length {flow : Nat} {count : Int} {ts : List Now} {s : Client} (h : Inv flow count ts s) : s.log.length = ts.length := by
  have := congrArg List.length h.each
  simpa using this

theorem inv_turn {lip rip : IpAddress} {flow : Nat} {count : Int} {ts : List Now} {s : Client} (h : Inv flow count ts s) (running : Bool) (now : Now) :
    ∃ us, (us = [] ∨ us = [now]) ∧ Inv flow count (ts ++ us) (turn lip rip flow running now s) := by
  rw [turn]
  split
  · split
    · next hc =>
      cases hr : request s.host lip rip flow s.seq (TcpDaytime.line now) with
      | mk h' x =>
        cases x with
        | error e => exact ⟨[], .inl rfl, by rw [List.append_nil]; exact ⟨h.seq, h.left, h.most, h.few, h.each⟩⟩
        | ok y =>
          refine ⟨[now], .inr rfl, ?_⟩
          have hs := request_seq hr
          have h1 := h.seq
          have h2 := h.left
          have h3 := h.most
          have hl := h.length
          dsimp only
          refine ⟨by simp; omega, ?_, ?_, ?_, ?_⟩
          · simp only [List.length_append, List.length_singleton]; omega
          · simp only [List.length_append, List.length_singleton]
            intro h0; have := h3 h0; have := hc.2; omega
          · simp only [List.length_append, List.length_singleton]; omega
          · rw [List.map_append, h.each, List.zipIdx_append, List.map_append]
            simp [h1, hl]
    · exact ⟨[], .inl rfl, by rw [List.append_nil]; exact ⟨h.seq, h.left, h.most, h.few, h.each⟩⟩
  · exact ⟨[], .inl rfl, by rw [List.append_nil]; exact h⟩

theorem run_snoc (lip rip : IpAddress) (flow : Nat) (h : Host) (count : Int) (evs : List Ev) (e : Ev) :
    run lip rip flow h count (evs ++ [e]) = step lip rip flow (run lip rip flow h count evs) e := by
  rw [run, List.foldl_append]; rfl

theorem inv_run (lip rip : IpAddress) (flow : Nat) (h : Host) (count : Int) (evs : List Ev) :
    ∃ ts, ts.Sublist (turnTimes evs) ∧ Inv flow count ts (run lip rip flow h count evs) := by
  induction evs using List.reverseRecOn with
  | nil => exact ⟨[], List.Sublist.refl _, ⟨rfl, by simp [run, start], fun h => by simpa [run, start] using h, by simp [run, start], rfl⟩⟩
  | append_singleton evs e ih =>
    obtain ⟨ts, t1, t2⟩ := ih
    rw [run_snoc]
    cases e with
    | frame t₀ t₁ t d F =>
      refine ⟨ts, ?_, ⟨t2.seq, t2.left, t2.most, t2.few, t2.each⟩⟩
      simpa [turnTimes] using t1
    | caches a n =>
      refine ⟨ts, ?_, ⟨t2.seq, t2.left, t2.most, t2.few, t2.each⟩⟩
      simpa [turnTimes] using t1
    | turn running now =>
      obtain ⟨us, u1, u2⟩ := inv_turn (lip := lip) (rip := rip) t2 running now
      refine ⟨ts ++ us, ?_, u2⟩
      have e : turnTimes (evs ++ [.turn running now]) = turnTimes evs ++ [now] := by simp [turnTimes]
      rw [e]
      refine List.Sublist.append t1 ?_
      rcases u1 with rfl | rfl
      · exact List.nil_sublist _
      · exact List.Sublist.refl _

end Ping
end Verif
