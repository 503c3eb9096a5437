import Verif.Model.Stats
/-! The handlers with counters are the handlers (`Model/Stats.lean`, `Model/Rx.lean`). -/
namespace Verif.Counted

@[simp] theorem after_snd {α : Type} (cs : List CountRx) (r : List CountRx × α) : (after cs r).2 = r.2 := rfl
@[simp] theorem after_fst {α : Type} (cs : List CountRx) (r : List CountRx × α) : (after cs r).1 = cs ++ r.1 := rfl

theorem arp_eq (n : Node) (dst : MacAddress) (f : Bytes) : (arp n dst f).2 = Rx.arp n dst f := by
  unfold arp Rx.arp
  cases h : Arp.parse f with
  | error e => rfl
  | ok r =>
    cases r with
    | some x => rfl
    | none =>
      cases h' : Arp.read f with
      | error e => simp only [after_snd, bind, Except.bind]
      | ok x =>
        simp only [after_snd, bind, Except.bind]
        repeat' split
        all_goals rfl

theorem icmp4_eq (n : Node) (src dst : Ip4Address) (dlen : Nat) (f : Bytes) : (icmp4 n src dst dlen f).2 = Rx.icmp4 n src dst dlen f := by
  unfold icmp4 Rx.icmp4
  cases h : Icmp4.parse f dlen with
  | error e => rfl
  | ok r =>
    cases r with
    | some x => rfl
    | none =>
      cases h' : Icmp4.read f dlen with
      | error e => simp only [after_snd, bind, Except.bind]
      | ok x =>
        simp only [after_snd, bind, Except.bind]
        cases x with
        | echo t c id seq data =>
          simp only
          split <;> rfl
        | unreachable c data => rfl
        | other t c => rfl

theorem ns_eq (n : Node) (src target : Ip6Address) (opts : List Icmp6.RxOpt) :
    (neighborSolicitation n src target opts).2 = Rx.neighborSolicitation n src target opts := by
  unfold neighborSolicitation Rx.neighborSolicitation
  rw [after_snd]
  split
  · rfl
  · cases Icmp6.sllaOf opts with
    | none => rfl
    | some m =>
      dsimp only
      split <;> rfl

theorem na_eq (n : Node) (target : Ip6Address) (opts : List Icmp6.RxOpt) :
    (neighborAdvertisement n target opts).2 = Rx.neighborAdvertisement n target opts := by
  unfold neighborAdvertisement Rx.neighborAdvertisement
  rw [after_snd]
  split
  · rfl
  · cases Icmp6.tllaOf opts <;> rfl

theorem icmp6_eq (n : Node) (src dst : Ip6Address) (hop dlen ps : Nat) (f : Bytes) :
    (icmp6 n src dst hop dlen ps f).2 = Rx.icmp6 n src dst hop dlen ps f := by
  unfold icmp6 Rx.icmp6
  cases h : Icmp6.parse f dlen ps src dst hop with
  | error e => rfl
  | ok r =>
    cases r with
    | some x => rfl
    | none =>
      cases h' : Icmp6.read f dlen with
      | error e => simp only [after_snd, bind, Except.bind]
      | ok x =>
        simp only [after_snd, bind, Except.bind]
        cases x with
        | neighborSolicitation t o => simp only [ns_eq]; rfl
        | neighborAdvertisement a b c t o => simp only [na_eq]; rfl
        | echo t id seq data =>
          simp only
          split <;> rfl
        | _ => rfl

theorem pu_eq (ip : Rx.IpHdr) : (portUnreachable ip).2 = Rx.portUnreachable ip := by
  unfold portUnreachable Rx.portUnreachable
  cases ip.src <;> cases ip.dst <;> rfl

theorem udp_eq (n : Node) (ip : Rx.IpHdr) (f : Bytes) : (udp n ip f).2 = Rx.udp n ip f := by
  unfold udp Rx.udp
  cases h : Udp.parse f ip.dlen ip.pshdrSum with
  | error e => rfl
  | ok r =>
    cases r with
    | some x => rfl
    | none =>
      cases h' : Udp.read f with
      | error e => simp only [after_snd, bind, Except.bind]
      | ok x =>
        simp only [after_snd, bind, Except.bind]
        simp only [pu_eq]
        cases n.socks.match? _ with
        | some r => rfl
        | none =>
          dsimp only
          split <;> rfl

theorem tcp_eq (n : Node) (ip : Rx.IpHdr) (f : Bytes) : (tcp n ip f).2 = Rx.tcp n ip f := by
  unfold tcp Rx.tcp
  cases h : Tcp.parse f ip.dlen ip.pshdrSum with
  | error e => rfl
  | ok r =>
    cases r with
    | some x => rfl
    | none =>
      cases h' : Tcp.read f ip.dlen with
      | error e => simp only [after_snd, bind, Except.bind]
      | ok x =>
        simp only [after_snd, bind, Except.bind]
        simp only [Rx.tcpMatch]
        cases n.socks.table.get? (Rx.tcpMd ip x).active with
        | some r => rfl
        | none =>
          simp only
          cases (if (Rx.tcpMd ip x).syn && !((Rx.tcpMd ip x).ack || (Rx.tcpMd ip x).fin || (Rx.tcpMd ip x).rst) then
            (Rx.tcpMd ip x).listening.findSome? n.socks.table.get? else none) <;> rfl

theorem ip4Dispatch_eq (n : Node) (h : Ip4.Hdr) (f : Bytes) : (ip4Dispatch n h f).2 = Rx.ip4Dispatch n h f := by
  unfold ip4Dispatch Rx.ip4Dispatch
  repeat' split
  · exact icmp4_eq ..
  · exact udp_eq ..
  · exact tcp_eq ..
  · rfl

theorem ip4_eq (n : Node) (t₀ t₁ : Int) (f : Bytes) : (ip4 n t₀ t₁ f).2 = Rx.ip4 n t₀ t₁ f := by
  unfold ip4 Rx.ip4
  cases h : Ip4.parse f with
  | error e => rfl
  | ok r =>
    cases r with
    | some x => rfl
    | none =>
      cases h' : Ip4.read f with
      | error e => simp only [after_snd, bind, Except.bind]
      | ok x =>
        simp only [after_snd, bind, Except.bind]
        simp only [pure, Except.pure, ip4Dispatch_eq]
        split
        · rfl
        · rw [after_snd]
          split
          · rw [after_snd]
            obtain ⟨flows, r⟩ := Frag.defragIp4 n.flows4 t₀ t₁ x
            simp only
            cases r with
            | error e => rfl
            | ok g =>
              cases g with
              | none => rfl
              | some g =>
                simp only
                cases Ip4.parse g with
                | error e => rfl
                | ok p =>
                  simp only
                  cases Ip4.read g with
                  | error e => rfl
                  | ok h => rfl
          · rfl

theorem ip6_eq (n : Node) (t₀ t₁ : Int) (depth : Nat) (f : Bytes) : (ip6 n t₀ t₁ depth f).2 = Rx.ip6 n t₀ t₁ depth f := by
  induction depth generalizing n f with
  | zero =>
    unfold ip6 Rx.ip6
    cases h : Ip6.parse f with
    | error e => rfl
    | ok r =>
      cases r with
      | some x => rfl
      | none =>
        cases h' : Ip6.read f with
        | error e => simp only [after_snd, bind, Except.bind]
        | ok x =>
          simp only [after_snd, bind, Except.bind]
          simp only [pure, Except.pure, icmp6_eq, udp_eq, tcp_eq]
          split
          · rfl
          · rw [after_snd]
            split
            · rw [after_snd]
              cases Ip6Frag.parse x.rest with
              | error e => rfl
              | ok r =>
                cases r with
                | some y => rfl
                | none =>
                  simp only
                  cases Ip6Frag.read x.rest x.dlen with
                  | error e => rfl
                  | ok y =>
                    simp only
                    obtain ⟨flows, r⟩ := Frag.defragIp6 n.flows6 t₀ t₁ x y
                    cases r with
                    | error e => rfl
                    | ok g => cases g <;> rfl
            · repeat' split
              all_goals rfl
  | succ depth ih =>
    unfold ip6 Rx.ip6
    cases h : Ip6.parse f with
    | error e => rfl
    | ok r =>
      cases r with
      | some x => rfl
      | none =>
        cases h' : Ip6.read f with
        | error e => simp only [after_snd, bind, Except.bind]
        | ok x =>
          simp only [after_snd, bind, Except.bind]
          simp only [pure, Except.pure, icmp6_eq, udp_eq, tcp_eq]
          split
          · rfl
          · rw [after_snd]
            split
            · rw [after_snd]
              cases Ip6Frag.parse x.rest with
              | error e => rfl
              | ok r =>
                cases r with
                | some y => rfl
                | none =>
                  simp only
                  cases Ip6Frag.read x.rest x.dlen with
                  | error e => rfl
                  | ok y =>
                    simp only
                    obtain ⟨flows, r⟩ := Frag.defragIp6 n.flows6 t₀ t₁ x y
                    cases r with
                    | error e => rfl
                    | ok g =>
                      cases g with
                      | none => rfl
                      | some g => exact ih _ _
            · repeat' split
              all_goals rfl

theorem ether_eq (n : Node) (t₀ t₁ : Int) (depth : Nat) (f : Bytes) : (ether n t₀ t₁ depth f).2 = Rx.ether n t₀ t₁ depth f := by
  unfold ether Rx.ether
  cases h : Ether.parse f with
  | error e => rfl
  | ok r =>
    cases r with
    | some x => rfl
    | none =>
      cases h' : Ether.read f with
      | error e => simp only [after_snd, bind, Except.bind]
      | ok x =>
        simp only [after_snd, bind, Except.bind]
        simp only [pure, Except.pure, arp_eq]
        split
        · rfl
        · rw [after_snd]
          repeat' split
          · rfl
          · exact ip4_eq ..
          · exact ip6_eq ..
          · rfl

end Verif.Counted
