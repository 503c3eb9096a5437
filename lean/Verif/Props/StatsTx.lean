import Verif.Lemmas.StatsTx
import Verif.Props.Rx
/-!
C92: the packet counters of the transmit side.
-/
namespace Verif
open Spec CountTx CountedTx

/-- Apart from the counters these are the transmit functions all other properties are about. -/
theorem C92_same (s : Stack) (l : Socks.Links) :
    (∀ esrc edst oper sha spa tha tpa, oper = 1 ∨ oper = 2 →
      (CountedTx.arp s l esrc edst oper sha spa tha tpa).2 = phtxEther s (l.arp 0) (l.nd 0) esrc edst (.arp oper sha spa tha tpa)) ∧
    (∀ src dst sport dport data, (CountedTx.udp s l src dst sport dport data).2 = phtxUdp s l src dst sport dport data) ∧
    (∀ src dst h mss wscale,
      (CountedTx.tcp s l src dst h mss wscale).2 = phtxTcp s l src dst { h with options := CountedTx.tcpOptions mss wscale }) ∧
    (∀ src dst m, (CountedTx.icmp4 s l src dst m).2 = phtxIcmp4 s l src dst m) ∧
    ∀ src dst hop m, (CountedTx.icmp6 s l src dst hop m).2 = phtxIcmp6 s l src dst hop m := by
  refine ⟨?_, ?_, ?_, ?_, ?_⟩
  · intro esrc edst oper sha spa tha tpa h
    unfold CountedTx.arp after
    rw [if_pos h]
    exact same_ether ..
  · intro src dst sport dport data
    unfold CountedTx.udp phtxUdp after
    dsimp only
    split
    · rfl
    · cases src <;> cases dst
      · exact same_ip4 ..
      · rfl
      · rfl
      · exact same_ip6 ..
  · intro src dst h mss wscale
    unfold CountedTx.tcp phtxTcp after
    dsimp only
    split
    · rfl
    · cases src <;> cases dst
      · exact same_ip4 ..
      · rfl
      · rfl
      · exact same_ip6 ..
  · intro src dst m; exact same_ip4 ..
  · intro src dst hop m; exact same_ip6 ..

theorem BalancedTx.add {c d : CountTx → Nat} {e f : Nat} (h : BalancedTx c e) (k : BalancedTx d f) :
    BalancedTx (fun x => c x + d x) (e + f) := by
  obtain ⟨h1, h2, h3, h4, h5, h6, h7, h8, h9, h10, h11, h12, h13, h14, h15⟩ := h
  obtain ⟨k1, k2, k3, k4, k5, k6, k7, k8, k9, k10, k11, k12, k13, k14, k15⟩ := k
  simp only [AddsUp] at h6 h7 h8 h9 h11 h12 k6 k7 k8 k9 k11 k12
  constructor
  case arp | ip4 | ip6 | frag6 | udp | tcp => all_goals (unfold AddsUp; omega)
  all_goals omega

theorem counterTx_cons (r : CallOut) (h : List CallOut) : counterTx (r :: h) = fun x => r.run.1.count x + counterTx h x := by
  funext x; simp [counterTx]

theorem queuedTx_add (c d : CountTx → Nat) : queuedTx (fun x => c x + d x) = queuedTx c + queuedTx d := by
  simp only [queuedTx]; omega

/-- Whatever is sent, in whatever state and whatever the caches say: at every layer the counters add up. -/
theorem C92_balanced (h : List CallOut) : BalancedTx (counterTx h) (h.countP (·.raised)) := by
  induction h with
  | nil =>
    have : counterTx [] = fun x => ([] : List CountTx).count x := rfl
    rw [this]
    exact (balanced_of (e := 0) (T := []) (M := []) (link := 0) (ip := 0) (ar := 0) (ud := 0) (tc := 0) (by decide) Fits.nil (by decide)
      (by decide) (by decide) (by decide) (by decide) (by decide)).1
  | cons r h ih =>
    have := BalancedTx.add (call_ok r).balanced ih
    rw [counterTx_cons]
    have he : (r :: h).countP (·.raised) = (if r.run.2.isOk then 0 else 1) + h.countP (·.raised) := by
      rw [List.countP_cons]
      unfold CallOut.raised
      cases r.run.2.isOk <;> simp <;> omega
    rw [he]
    exact this

/-- The frames queued are those that were counted as sent; a call that raised an exception may have counted one or more that it has not
queued. -/
theorem C92_frames (h : List CallOut) :
    (h.flatMap (·.frames)).length ≤ queuedTx (counterTx h) ∧
    ((∀ r ∈ h, r.raised = false) → (h.flatMap (·.frames)).length = queuedTx (counterTx h)) := by
  induction h with
  | nil => exact ⟨Nat.zero_le _, fun _ => rfl⟩
  | cons r h ih =>
    rw [counterTx_cons, queuedTx_add, List.flatMap_cons, List.length_append]
    have h1 := (call_ok r).frames
    have : r.frames.length ≤ queuedTx (fun x => r.run.1.count x) ∧
        (r.raised = false → r.frames.length = queuedTx (fun x => r.run.1.count x)) := by
      unfold CallOut.frames CallOut.raised
      cases hr : r.run.2 with
      | error e => exact ⟨Nat.zero_le _, fun h => by cases h⟩
      | ok p => exact ⟨Nat.le_of_eq (h1 p.1 p.2 hr), fun _ => h1 p.1 p.2 hr⟩
    refine ⟨by omega, fun hn => ?_⟩
    have a := this.2 (hn r List.mem_cons_self)
    have b := ih.2 fun r hr => hn r (List.mem_cons_of_mem _ hr)
    omega

/-- A call that says that the packet was dropped has counted it under the reason it gives. -/
theorem C92_reason (h : List CallOut) (st : TxStatus) (x : CountTx) (hx : dropCounter st = some x) :
    h.countP (·.returned st) ≤ counterTx h x := by
  induction h with
  | nil => exact Nat.zero_le _
  | cons r h ih =>
    rw [counterTx_cons, List.countP_cons]
    have : (if r.returned st then 1 else 0) ≤ r.run.1.count x := by
      split
      · rename_i hr
        unfold CallOut.returned at hr
        cases hp : r.run.2 with
        | error e => rw [hp] at hr; cases hr
        | ok p =>
          rw [hp] at hr
          have e : p.1 = st := by simpa using hr
          exact List.count_pos_iff.mpr ((call_ok r).reason p.1 p.2 hp x (by rw [e]; exact hx))
      · exact Nat.zero_le _
    dsimp only
    omega

/-- A call that says that the packet was sent has queued a frame and counted it. -/
theorem C92_passed (h : List CallOut) : h.countP (·.returned .passedEtherToTxRing) ≤ queuedTx (counterTx h) := by
  induction h with
  | nil => exact Nat.zero_le _
  | cons r h ih =>
    rw [counterTx_cons, List.countP_cons, queuedTx_add]
    have : (if r.returned .passedEtherToTxRing then 1 else 0) ≤ queuedTx (fun x => r.run.1.count x) := by
      split
      · rename_i hr
        unfold CallOut.returned at hr
        cases hp : r.run.2 with
        | error e => rw [hp] at hr; cases hr
        | ok p =>
          rw [hp] at hr
          obtain ⟨st, outs⟩ := p
          have e : st = .passedEtherToTxRing := by simpa using hr
          subst e
          rw [← (call_ok r).frames _ outs hp]
          exact List.length_pos_iff.mpr ((call_ok r).passed outs hp)
      · exact Nat.zero_le _
    omega

/-- What the upper layers count for an order. -/
def topCounts : Order → List CountTx
  | .arp _ _ oper .. => [arp__pre_assemble] ++ countIf (oper = 1) arp__op_request__send ++ countIf (oper = 2) arp__op_reply__send
  | .udp src dst sport dport _ =>
    [udp__pre_assemble] ++ if sport ≤ 0xFFFF ∧ dport ≤ 0xFFFF then
      (match src, dst with | .v6 _, .v6 _ => [udp__send] | .v4 _, .v4 _ => [udp__send] | _, _ => [udp__unknown__drop]) else []
  | .tcp src dst h mss wscale =>
    [tcp__pre_assemble] ++ optionCounts mss wscale ++ if inRange h then flagCounts h.flags ++
      (match src, dst with | .v6 _, .v6 _ => [tcp__send] | .v4 _, .v4 _ => [tcp__send] | _, _ => [tcp__unknown__drop]) else []
  | .icmp4 _ _ m => [icmp4__pre_assemble, counter4 m]
  | .icmp6 _ _ _ m => [icmp6__pre_assemble, counter6 m]

theorem CountedTx.Sound.lows {link ip : Int} {M : List CountTx} {r : Py (TxStatus × List Outgoing)} (h : Sound link ip M r) : ∀ x ∈ M, low x = true := by
  obtain ⟨⟨_, _, _, _, hf, _⟩, _⟩ := h
  exact hf.low

theorem inRange_iff (h : Tcp.Tx) : inRange h = true ↔
    h.sport ≤ 0xFFFF ∧ h.dport ≤ 0xFFFF ∧ h.seq ≤ 0xFFFFFFFF ∧ h.ack ≤ 0xFFFFFFFF ∧ h.win ≤ 0xFFFF ∧ h.urp ≤ 0xFFFF := by
  simp [inRange, and_assoc]

theorem run_counts (r : CallOut) : ∃ M, r.run.1 = topCounts r.order ++ M ∧ ∀ x ∈ M, low x = true := by
  obtain ⟨s, l, o⟩ := r
  cases o with
  | arp esrc edst oper sha spa tha tpa =>
    simp only [CallOut.run, CountedTx.arp, after, topCounts]
    split
    · exact ⟨_, rfl, (ether_sound ..).lows⟩
    · exact ⟨_, rfl, by simp⟩
  | udp src dst sport dport data =>
    simp only [CallOut.run, CountedTx.udp, after, topCounts]
    by_cases hp : sport ≤ 0xFFFF ∧ dport ≤ 0xFFFF
    · rw [if_neg (fun h => h hp), if_pos hp]
      cases src <;> cases dst
      · exact ⟨_, rfl, (ip4_sound ..).lows⟩
      · exact ⟨_, rfl, by simp⟩
      · exact ⟨_, rfl, by simp⟩
      · exact ⟨_, rfl, (ip6_sound ..).lows⟩
    · rw [if_pos hp, if_neg hp]
      exact ⟨[], rfl, by simp⟩
  | tcp src dst h mss wscale =>
    simp only [CallOut.run, CountedTx.tcp, after, topCounts, inRange_iff]
    by_cases hp : h.sport ≤ 0xFFFF ∧ h.dport ≤ 0xFFFF ∧ h.seq ≤ 0xFFFFFFFF ∧ h.ack ≤ 0xFFFFFFFF ∧ h.win ≤ 0xFFFF ∧ h.urp ≤ 0xFFFF
    · rw [if_neg (fun h => h hp), if_pos hp]
      cases src <;> cases dst
      · rename_i a b
        refine ⟨_, ?_, (ip4_sound s l.arp a b 64 { Tcp.carried { h with options := tcpOptions mss wscale } with kind := .other }).lows⟩
        simp only [List.append_assoc]
      · exact ⟨[], by simp, by simp⟩
      · exact ⟨[], by simp, by simp⟩
      · rename_i a b
        refine ⟨_, ?_, (ip6_sound s l.nd a b 64 { Tcp.carried { h with options := tcpOptions mss wscale } with kind := .other }).lows⟩
        simp only [List.append_assoc]
    · rw [if_pos hp, if_neg hp]
      exact ⟨[], by simp, by simp⟩
  | icmp4 src dst m => exact ⟨_, rfl, (ip4_sound ..).lows⟩
  | icmp6 src dst hop m => exact ⟨_, rfl, (ip6_sound ..).lows⟩

theorem count_run (r : CallOut) (x : CountTx) (hx : low x = false) : r.run.1.count x = (topCounts r.order).count x := by
  obtain ⟨M, e, hM⟩ := run_counts r
  rw [e, List.count_append, count_low hM hx, Nat.add_zero]

theorem counter_eq (h : List CallOut) (x : CountTx) (hx : low x = false) (p : CallOut → Bool)
    (hp : ∀ r, (topCounts r.order).count x = if p r then 1 else 0) : counterTx h x = h.countP p := by
  induction h with
  | nil => rfl
  | cons r h ih => rw [counterTx_cons, List.countP_cons, ← ih]; dsimp only; rw [count_run r x hx, hp]; omega

theorem count_countIf (c : Bool) (x y : CountTx) : (countIf c x).count y = if c ∧ x = y then 1 else 0 := by
  cases c
  · rfl
  · show [x].count y = _
    by_cases h : x = y <;> simp [h]

theorem given_eq (x : Option Nat) : (truthy x).isSome = given x := by
  rcases x with _ | _ | n <;> simp [truthy, given]

/-- The counters for what was to be sent are right: how many packets of every protocol, messages of every kind, and segments with every
flag and option. -/
theorem C92_truthful (h : List CallOut) : TruthfulTx (counterTx h) h := by
  constructor
  all_goals
    refine counter_eq h _ rfl _ ?_
    rintro ⟨s, l, o⟩
    cases o with
    | arp a b oper => simp [topCounts, count_countIf, CallOut.tcpWith]
    | udp src dst sport dport data =>
      simp only [topCounts]
      cases src <;> cases dst <;> split <;> simp [CallOut.tcpWith]
    | tcp src dst t m w =>
      simp only [topCounts]
      cases hi : inRange t <;> cases src <;> cases dst <;>
        simp [count_countIf, optionCounts, flagCounts, CallOut.tcpWith, given_eq, hi] <;> congr
    | icmp4 src dst m => cases m <;> simp [topCounts, counter4, CallOut.tcpWith]
    | icmp6 src dst hop m => cases m <;> simp [topCounts, counter6, CallOut.tcpWith]

theorem first4_some {hs : List Ip4Host} {p : Ip4Host → Bool} {a : Ip4Address} (h : firstAddr4 hs p = some a) : ∃ x ∈ hs, p x := by
  unfold firstAddr4 at h
  cases hf : hs.find? p with
  | none => rw [hf] at h; cases h
  | some x => exact ⟨x, List.mem_of_find?_eq_some hf, List.find?_some hf⟩

theorem first4_none {hs : List Ip4Host} {p : Ip4Host → Bool} (h : firstAddr4 hs p = none) : ∀ x ∈ hs, ¬ p x := by
  unfold firstAddr4 at h
  simpa using h

theorem first6_some {hs : List Ip6Host} {p : Ip6Host → Bool} {a : Ip6Address} (h : firstAddr6 hs p = some a) : ∃ x ∈ hs, p x := by
  unfold firstAddr6 at h
  cases hf : hs.find? p with
  | none => rw [hf] at h; cases h
  | some x => exact ⟨x, List.mem_of_find?_eq_some hf, List.find?_some hf⟩

theorem first6_none {hs : List Ip6Host} {p : Ip6Host → Bool} (h : firstAddr6 hs p = none) : ∀ x ∈ hs, ¬ p x := by
  unfold firstAddr6 at h
  simpa using h

/-- The counters for IPv4 source addresses. -/
theorem C92_source4 (s : Stack) (src dst : Ip4Address) (kind : L4Kind) :
    ∀ x ∈ (CountedTx.src4 s src dst kind).1, Source4 s src dst kind x := by
  have lim : ∀ a : Ip4Address, a.isLimitedBroadcast → a = .limitedBroadcast := by
    rintro ⟨i, hi⟩ h; simpa [Ip4Address.isLimitedBroadcast, Ip4Address.limitedBroadcast] using h
  have zero : ∀ a : Ip4Address, a.isUnspecified → a = .zero := by
    rintro ⟨i, hi⟩ h; simpa [Ip4Address.isUnspecified, Ip4Address.zero] using h
  unfold CountedTx.src4
  dsimp only
  split
  · rename_i h
    simp only [not_or, Stack.ip4Unicast, Stack.ip4Broadcast] at h
    intro x hx; cases List.mem_singleton.mp hx
    refine ⟨h.2.2.2, fun k hk => ⟨?_, ?_⟩, h.2.1, ?_⟩
    · rintro rfl; exact h.1 (List.mem_map_of_mem hk)
    · rintro rfl; exact h.2.2.1 (List.mem_append_left _ (List.mem_map_of_mem hk))
    · rintro rfl; exact h.2.2.1 (List.mem_append_right _ (by simp))
  split
  · rename_i hm
    split <;> (rename_i hu; intro x hx; cases List.mem_singleton.mp hx)
    · exact ⟨hm, fun e => by simp [Stack.ip4Unicast, e] at hu⟩
    · exact ⟨hm, by simpa [Stack.ip4Unicast] using hu⟩
  split
  · rename_i hm
    split <;> (rename_i hu; intro x hx; cases List.mem_singleton.mp hx)
    · exact ⟨lim _ hm, fun e => by simp [Stack.ip4Unicast, e] at hu⟩
    · exact ⟨lim _ hm, by simpa [Stack.ip4Unicast] using hu⟩
  split
  · rename_i hb
    intro x hx; cases List.mem_singleton.mp hx
    split at hb
    · obtain ⟨k, hk, e⟩ := first4_some hb
      exact ⟨k, hk, (by simpa using e : k.network.bcast = src).symm⟩
    · cases hb
  split
  · rename_i hz
    have hz := zero _ hz
    split
    · rename_i hl
      intro x hx; cases List.mem_singleton.mp hx
      exact ⟨hz, first4_some hl⟩
    · rename_i hl
      have hl := first4_none hl
      split
      · rename_i hg
        intro x hx; cases List.mem_singleton.mp hx
        obtain ⟨k, hk, e⟩ := first4_some hg
        exact ⟨hz, hl, k, hk, fun h => by rw [h] at e; cases e⟩
      · rename_i hg
        have hg := first4_none hg
        have both : ∀ h ∈ s.ip4Host, ¬ h.network.contains dst ∧ h.gateway = none :=
          fun k hk => ⟨hl k hk, by simpa using hg k hk⟩
        split <;> (rename_i hk; intro x hx; cases List.mem_singleton.mp hx; exact ⟨hz, both, hk⟩)
  · intro x hx; cases hx

/-- The counters for IPv6 source addresses. -/
theorem C92_source6 (s : Stack) (src dst : Ip6Address) (kind : L4Kind) :
    ∀ x ∈ (CountedTx.src6 s src dst kind).1, Source6 s src dst kind x := by
  have zero : ∀ a : Ip6Address, a.isUnspecified → a = .zero := by
    rintro ⟨i, hi⟩ h; simpa [Ip6Address.isUnspecified, Ip6Address.zero] using h
  unfold CountedTx.src6
  split
  · rename_i h
    simp only [not_or, Stack.ip6Unicast] at h
    intro x hx; cases List.mem_singleton.mp hx
    refine ⟨h.2.2, fun k hk => ?_, h.2.1⟩
    rintro rfl; exact h.1 (List.mem_map_of_mem hk)
  split
  · rename_i hm
    split <;> (rename_i hu; intro x hx; cases List.mem_singleton.mp hx)
    · exact ⟨hm, fun e => by simp [Stack.ip6Unicast, e] at hu⟩
    · exact ⟨hm, by simpa [Stack.ip6Unicast] using hu⟩
  split
  · rename_i hz
    have hz := zero _ hz
    split
    · rename_i hl
      intro x hx; cases List.mem_singleton.mp hx
      exact ⟨hz, first6_some hl⟩
    · rename_i hl
      have hl := first6_none hl
      split
      · rename_i hg
        intro x hx; cases List.mem_singleton.mp hx
        obtain ⟨k, hk, e⟩ := first6_some hg
        exact ⟨hz, hl, k, hk, fun h => by rw [h] at e; cases e⟩
      · rename_i hg
        have hg := first6_none hg
        have both : ∀ h ∈ s.ip6Host, ¬ h.network.contains dst ∧ h.gateway = none :=
          fun k hk => ⟨hl k hk, by simpa using hg k hk⟩
        have km : kind.maySendUnspecified6 ↔ kind = .icmp6 135 0 ∨ ∃ n, kind = .icmp6 143 n := by
          unfold L4Kind.maySendUnspecified6
          split
          · simp
          · simp
          · rename_i h1 h2
            simp only [Bool.false_eq_true, false_iff, not_or, not_exists]
            exact ⟨h1, h2⟩
        split
        · rename_i hk; intro x hx; cases List.mem_singleton.mp hx; exact ⟨hz, both, km.mp hk⟩
        · rename_i hk; intro x hx; cases List.mem_singleton.mp hx
          rw [km, not_or, not_exists] at hk
          exact ⟨hz, both, hk⟩
  · intro x hx; cases hx

/-- The counters for the destination of IPv4 packets. -/
theorem C92_lookup4 (s : Stack) (arp : ArpLookup) (src dst : Ip4Address) :
    ∀ x ∈ (CountedTx.dst4 s arp src dst).1, Lookup4 s arp src dst x := by
  have lim : ∀ a : Ip4Address, a.isLimitedBroadcast → a = .limitedBroadcast := by
    rintro ⟨i, hi⟩ h; simpa [Ip4Address.isLimitedBroadcast, Ip4Address.limitedBroadcast] using h
  unfold CountedTx.dst4 after
  split
  · rename_i h; intro x hx
    simp only [List.cons_append, List.nil_append, List.mem_cons, List.not_mem_nil, or_false] at hx
    rcases hx with rfl | rfl <;> first | trivial | exact h
  split
  · rename_i h; intro x hx
    simp only [List.cons_append, List.nil_append, List.mem_cons, List.not_mem_nil, or_false] at hx
    rcases hx with rfl | rfl <;> first | trivial | exact lim _ h
  split
  · rename_i h; intro x hx
    simp only [List.cons_append, List.nil_append, List.mem_cons, List.not_mem_nil, or_false] at hx
    rcases hx with rfl | rfl
    · trivial
    · simpa [Lookup4] using h
  split
  · rename_i k hk
    have h1 := List.mem_of_find?_eq_some hk
    have h2 : k.address = src ∧ k.network.contains dst = false := by simpa using List.find?_some hk
    have aw : ∀ p : Option Ip4Address → Prop, p k.gateway → Away4 s src dst p := fun p hp => ⟨k, h1, h2.1, by simp [h2.2], hp⟩
    split
    · rename_i hg; intro x hx
      simp only [List.cons_append, List.nil_append, List.mem_cons, List.not_mem_nil, or_false] at hx
      rcases hx with rfl | rfl <;> first | trivial | exact aw (· = none) hg
    · rename_i g hg
      split
      · rename_i m hm; intro x hx
        simp only [List.cons_append, List.nil_append, List.mem_cons, List.not_mem_nil, or_false] at hx
        rcases hx with rfl | rfl <;> first | trivial | exact aw (fun q => ∃ a m, q = some a ∧ arp a = some m) ⟨g, m, hg, hm⟩
      · rename_i hm; intro x hx
        simp only [List.cons_append, List.nil_append, List.mem_cons, List.not_mem_nil, or_false] at hx
        rcases hx with rfl | rfl <;> first | trivial | exact aw (fun q => ∃ a, q = some a ∧ arp a = none) ⟨g, hg, hm⟩
  · rename_i hk
    have lo : Local4 s src dst := by
      intro k hk' e
      have := List.find?_eq_none.mp hk k hk'
      simpa [e] using this
    split
    · rename_i m hm; intro x hx
      simp only [List.cons_append, List.nil_append, List.mem_cons, List.not_mem_nil, or_false] at hx
      rcases hx with rfl | rfl <;> first | trivial | exact ⟨lo, m, hm⟩
    · rename_i hm; intro x hx
      simp only [List.cons_append, List.nil_append, List.mem_cons, List.not_mem_nil, or_false] at hx
      rcases hx with rfl | rfl <;> first | trivial | exact ⟨lo, hm⟩

/-- The counters for the destination of IPv6 packets. -/
theorem C92_lookup6 (s : Stack) (nd : NdLookup) (src dst : Ip6Address) :
    ∀ x ∈ (CountedTx.dst6 s nd src dst).1, Lookup6 s nd src dst x := by
  unfold CountedTx.dst6 after
  split
  · rename_i h; intro x hx
    simp only [List.cons_append, List.nil_append, List.mem_cons, List.not_mem_nil, or_false] at hx
    rcases hx with rfl | rfl <;> first | trivial | exact h
  split
  · rename_i k hk
    have h1 := List.mem_of_find?_eq_some hk
    have h2 : k.address = src ∧ k.network.contains dst = false := by simpa using List.find?_some hk
    have aw : ∀ p : Option Ip6Address → Prop, p k.gateway → Away6 s src dst p := fun p hp => ⟨k, h1, h2.1, by simp [h2.2], hp⟩
    split
    · rename_i hg; intro x hx
      simp only [List.cons_append, List.nil_append, List.mem_cons, List.not_mem_nil, or_false] at hx
      rcases hx with rfl | rfl <;> first | trivial | exact aw (· = none) hg
    · rename_i g hg
      split
      · rename_i m hm; intro x hx
        simp only [List.cons_append, List.nil_append, List.mem_cons, List.not_mem_nil, or_false] at hx
        rcases hx with rfl | rfl <;> first | trivial | exact aw (fun q => ∃ a m, q = some a ∧ nd a = some m) ⟨g, m, hg, hm⟩
      · rename_i hm; intro x hx
        simp only [List.cons_append, List.nil_append, List.mem_cons, List.not_mem_nil, or_false] at hx
        rcases hx with rfl | rfl <;> first | trivial | exact aw (fun q => ∃ a, q = some a ∧ nd a = none) ⟨g, hg, hm⟩
  · rename_i hk
    have lo : Local6 s src dst := by
      intro k hk' e
      have := List.find?_eq_none.mp hk k hk'
      simpa [e] using this
    split
    · rename_i m hm; intro x hx
      simp only [List.cons_append, List.nil_append, List.mem_cons, List.not_mem_nil, or_false] at hx
      rcases hx with rfl | rfl <;> first | trivial | exact ⟨lo, m, hm⟩
    · rename_i hm; intro x hx
      simp only [List.cons_append, List.nil_append, List.mem_cons, List.not_mem_nil, or_false] at hx
      rcases hx with rfl | rfl <;> first | trivial | exact ⟨lo, hm⟩


/-- The counters named `..__send` of the upper layers do not say that anything was sent: a datagram whose source address is not this host's,
and one to a host that is not in the ARP cache, are counted there, and no frame is queued. -/
theorem C92_send_means_tried : ∃ r r' : CallOut,
    counterTx [r, r'] udp__send = 2 ∧ counterTx [r, r'] ip4__mtu_ok__send = 1 ∧ r.frames = [] ∧ r'.frames = [] ∧
    r.returned .dropIp4SrcNotOwned ∧ r'.returned .dropEtherArpCacheFail := by
  refine ⟨⟨Example.stack, ⟨fun _ _ => none, fun _ _ => none⟩, .udp (.v4 ⟨0x01020304, by decide⟩) (.v4 ⟨0x0A000109, by decide⟩) 1000 2000 [1, 2, 3]⟩,
    ⟨Example.stack, ⟨fun _ _ => none, fun _ _ => none⟩, .udp (.v4 Example.host4.address) (.v4 ⟨0x0A000109, by decide⟩) 1000 2000 [1, 2, 3]⟩, ?_⟩
  refine ⟨?_, ?_, List.isEmpty_iff.mp ?_, List.isEmpty_iff.mp ?_, ?_, ?_⟩ <;> decide +kernel

namespace Example.StatsTx
open Example.Rx

def links : Socks.Links := ⟨fun _ a => if a = peer4 then some peerMac else none, fun _ a => if a = peer6 then some peerMac else none⟩
def call (o : Order) : CallOut := ⟨Example.stack, links, o⟩

/-- A history: a request for an address, a datagram of 4000 bytes, two segments, an echo request that finds no way, messages over IPv6, and a
call that raises an exception. -/
def history : List CallOut :=
  [call (.arp .zero .broadcast 1 Example.stack.mac Example.host4.address .zero peer4),
   call (.udp (.v4 Example.host4.address) (.v4 peer4) 1000 2000 (List.replicate 4000 7)),
   call (.udp (.v6 Example.host6.address) (.v6 peer6) 1000 2000 (List.replicate 4000 7)),
   call (.tcp (.v4 Example.host4.address) (.v4 peer4)
     { sport := 1, dport := 2, seq := 3, ack := 0, flags := { syn := true }, win := 100, urp := 0, options := [], data := [] } (some 1460) (some 7)),
   call (.tcp (.v6 Example.host6.address) (.v6 peer6)
     { sport := 1, dport := 2, seq := 3, ack := 9, flags := { ack := true, fin := true }, win := 100, urp := 0, options := [], data := [] } none none),
   call (.icmp4 Example.host4.address ⟨0x0A000155, by decide⟩ (.echoRequest 1 2 [3])),
   call (.icmp6 Example.host6.address peer6 255 (.neighborSolicitation peer6 [.slla Example.stack.mac])),
   call (.udp (.v4 Example.host4.address) (.v4 peer4) 100000 2000 [])]

example : history.map (·.raised) = [false, false, false, false, false, false, false, true] ∧
    history.map (fun r => r.frames.length) = [1, 3, 3, 1, 1, 0, 1, 0] ∧
    history.map (·.returned .dropEtherArpCacheFail) = [false, false, false, false, false, true, false, false] ∧
    [ether__pre_assemble, ether__dst_unspec__ip4_lookup, ether__dst_unspec__ip6_lookup, ip4__pre_assemble, ip6__pre_assemble, ip4__mtu_exceed__frag,
      ip4__mtu_exceed__frag__send, ip6__mtu_exceed__frag, ip6_ext_frag__send, udp__pre_assemble, udp__send, tcp__flag_syn, tcp__flag_fin,
      tcp__opt_mss, ether__dst_unspec__ip4_lookup__locnet__arp_cache_miss__drop].map (counterTx history) =
      [11, 5, 5, 3, 6, 1, 3, 1, 3, 3, 2, 1, 1, 1, 1] ∧
    queuedTx (counterTx history) = 10 := by decide +kernel

/-- Sources that are replaced or refused. -/
example : (CountedTx.src4 Example.stack .zero ⟨0x0A000109, by decide⟩ .other).1 = [ip4__src_network_unspecified__replace_local] ∧
    (CountedTx.src4 Example.stack .limitedBroadcast ⟨0x0A000109, by decide⟩ .other).1 = [ip4__src_limited_broadcast__replace] ∧
    (CountedTx.src6 Example.stack ⟨5, by decide⟩ peer6 .other).1 = [ip6__src_not_owned__drop] ∧
    (CountedTx.src6 Example.stack .zero peer6 .other).1 = [ip6__src_network_unspecified__replace_local] := by decide +kernel

/-- Destinations near and far. -/
example : (CountedTx.dst4 Example.stack (links.arp 0) Example.host4.address peer4).1 =
      [ether__dst_unspec__ip4_lookup, ether__dst_unspec__ip4_lookup__locnet__arp_cache_hit__send] ∧
    (CountedTx.dst4 Example.stack (links.arp 0) Example.host4.address ⟨0x08080808, by decide⟩).1 ≠
      [ether__dst_unspec__ip4_lookup, ether__dst_unspec__ip4_lookup__locnet__arp_cache_hit__send] ∧
    (CountedTx.dst6 Example.stack (links.nd 0) Example.host6.address peer6).1 =
      [ether__dst_unspec__ip6_lookup, ether__dst_unspec__ip6_lookup__locnet__nd_cache_hit__send] := by decide +kernel

end Example.StatsTx
end Verif
