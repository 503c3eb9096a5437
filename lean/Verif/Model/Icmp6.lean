import Verif.Model.Net
import Verif.Model.Cksum
/-! ICMPv6: `/repo/pytcp/protocols/icmp6/{ps,fpa,fpp}.py`. -/
namespace Verif.Icmp6

/-- icmp6/fpa.py:504-667: the neighbour-discovery options the stack can send. -/
inductive TxOpt where
  | slla (mac : MacAddress)
  | tlla (mac : MacAddress)
  | pi (valid prefer : Nat) (net : Ip6Network) (l a r : Bool)

/-- `__bytes__` of the three option classes, icmp6/fpa.py:533-542, 578-587, 646-661 (with the assertions of the PI
constructor, 615-616).  The last two flags are both shifted by 6, as in the code. -/
def TxOpt.bytes : TxOpt → Py Bytes
  | .slla mac => do
    let c ← packB 1
    let n ← packB (8 >>> 3)
    return c ++ n ++ mac.toBytes
  | .tlla mac => do
    let c ← packB 2
    let n ← packB (8 >>> 3)
    return c ++ n ++ mac.toBytes
  | .pi valid prefer net l a r => do
    pyAssert (valid ≤ 0xFFFFFFFF)
    pyAssert (prefer ≤ 0xFFFFFFFF)
    let c ← packB 3
    let n ← packB (32 >>> 3)
    let k ← packB net.mask.len
    let fl ← packB ((l.toNat <<< 7) ||| (a.toNat <<< 6) ||| (r.toNat <<< 6))
    let v ← packL valid
    let p ← packL prefer
    let z ← packL 0
    return c ++ n ++ k ++ fl ++ v ++ p ++ z ++ net.address.toBytes

/-- `__len__` of the option classes, icmp6/fpa.py:521-525, 566-570, 630-634. -/
def TxOpt.len : TxOpt → Nat
  | .slla _ => 8
  | .tlla _ => 8
  | .pi .. => 32

/-- icmp6/fpa.py:488-493 -/
def rawNdOptions : List TxOpt → Py Bytes
  | [] => .ok []
  | o :: r => do
    let b ← o.bytes
    let bs ← rawNdOptions r
    return b ++ bs

/-- icmp6/fpa.py:675-699: `Icmp6MulticastAddressRecord`. -/
structure Record where
  type : Nat
  address : Ip6Address
  sources : List Ip6Address
  aux : Bytes

/-- icmp6/fpa.py:729-744 -/
def Record.raw (r : Record) : Py Bytes := do
  let t ← packB r.type
  let n ← packB r.aux.length
  let k ← packH r.sources.length
  return t ++ n ++ k ++ r.address.toBytes ++ (r.sources.map (·.toBytes)).flatten ++ r.aux

/-- icmp6/fpa.py:701-705 (`len(self.raw_record)`, where it does not raise). -/
def Record.len (r : Record) : Nat := 20 + 16 * r.sources.length + r.aux.length

/-- icmp6/fpa.py:479-481 -/
def rawRecords : List Record → Py Bytes
  | [] => .ok []
  | o :: r => do
    let b ← o.raw
    let bs ← rawRecords r
    return b ++ bs

/-- The messages `Icmp6Assembler.__init__` (icmp6/fpa.py:86-219) builds; every other type/code is refused by its final
`assert False`. -/
inductive Msg where
  | portUnreachable (data : Bytes)
  | echoRequest (id seq : Nat) (data : Bytes)
  | echoReply (id seq : Nat) (data : Bytes)
  | routerSolicitation (opts : List TxOpt)
  | routerAdvertisement (hop : Nat) (m o : Bool) (lifetime reachable retrans : Nat) (opts : List TxOpt)
  | neighborSolicitation (target : Ip6Address) (opts : List TxOpt)
  | neighborAdvertisement (r s o : Bool) (target : Ip6Address) (opts : List TxOpt)
  | mld2Report (records : List Record)

/-- Type, code and zero checksum, as each branch of `assemble` packs them. -/
def start (type code : Nat) : Py Bytes := do
  let t ← packB type
  let c ← packB code
  let z ← packH 0
  return t ++ c ++ z

/-- `struct.pack_into("! H", frame, 2, inet_cksum(frame, pshdr_sum))`, the last step of each branch. -/
def finish (frame : Bytes) (ps : Nat) : Py Bytes := packIntoH frame 2 (inetCksum frame ps)

/-- The part of the message after type, code and checksum, as each branch of icmp6/fpa.py:353-484 packs it, preceded by
the assertions of the constructor (icmp6/fpa.py:134-135, 145-146, 173-176). -/
def body : Msg → Py Bytes
  | .portUnreachable data => do
    let z ← packL 0
    return z ++ data.take 520
  | .echoRequest id seq data => do
    pyAssert (id ≤ 0xFFFF)
    pyAssert (seq ≤ 0xFFFF)
    let i ← packH id
    let s ← packH seq
    return i ++ s ++ data
  | .echoReply id seq data => do
    pyAssert (id ≤ 0xFFFF)
    pyAssert (seq ≤ 0xFFFF)
    let i ← packH id
    let s ← packH seq
    return i ++ s ++ data
  | .routerSolicitation opts => do
    let os ← rawNdOptions opts
    let z ← packL 0
    return z ++ os
  | .routerAdvertisement hop m o lifetime reachable retrans opts => do
    pyAssert (hop ≤ 0xFF)
    pyAssert (lifetime ≤ 0xFFFF)
    pyAssert (reachable ≤ 0xFFFFFFFF)
    pyAssert (retrans ≤ 0xFFFFFFFF)
    let os ← rawNdOptions opts
    let h ← packB hop
    let fl ← packB ((m.toNat <<< 7) ||| (o.toNat <<< 6))
    let l ← packH lifetime
    let a ← packL reachable
    let b ← packL retrans
    return h ++ fl ++ l ++ a ++ b ++ os
  | .neighborSolicitation target opts => do
    let os ← rawNdOptions opts
    let z ← packL 0
    return z ++ target.toBytes ++ os
  | .neighborAdvertisement r s o target opts => do
    let os ← rawNdOptions opts
    let fl ← packL ((r.toNat <<< 31) ||| (s.toNat <<< 30) ||| (o.toNat <<< 29) ||| 0)
    return fl ++ target.toBytes ++ os
  | .mld2Report records => do
    let rs ← rawRecords records
    let z ← packH 0
    let n ← packH records.length
    return z ++ n ++ rs

/-- icmp6/ps.py:286-315 -/
def Msg.type : Msg → Nat
  | .portUnreachable _ => 1
  | .echoRequest .. => 128
  | .echoReply .. => 129
  | .routerSolicitation _ => 133
  | .routerAdvertisement .. => 134
  | .neighborSolicitation .. => 135
  | .neighborAdvertisement .. => 136
  | .mld2Report _ => 143

/-- Only port unreachable (4) has a non-zero code. -/
def Msg.code : Msg → Nat
  | .portUnreachable _ => 4
  | _ => 0

/-- icmp6/fpa.py:347-486 -/
def assemble (m : Msg) (ps : Nat) : Py Bytes := do
  let b ← body m
  let st ← start m.type m.code
  finish (st ++ b) ps

def optsLen (opts : List TxOpt) : Nat := (opts.map TxOpt.len).sum

/-- icmp6/fpa.py:221-268 -/
def len : Msg → Nat
  | .portUnreachable data => 8 + (data.take 520).length
  | .echoRequest _ _ data => 8 + data.length
  | .echoReply _ _ data => 8 + data.length
  | .routerSolicitation opts => 8 + optsLen opts
  | .routerAdvertisement _ _ _ _ _ _ opts => 16 + optsLen opts
  | .neighborSolicitation _ opts => 24 + optsLen opts
  | .neighborAdvertisement _ _ _ _ opts => 24 + optsLen opts
  | .mld2Report records => 8 + (records.map Record.len).sum

/-- `ip6_next = IP6_NEXT_ICMP6`, icmp6/fpa.py:84. -/
def carried (m : Msg) : Carried := { proto := 58, len := len m, assemble := assemble m }

/-! ### Parser -/

/-- icmp6/fpp.py:170-174 -/
def type (f : Bytes) : Py Nat := idx f 0
/-- icmp6/fpp.py:177-181 -/
def code (f : Bytes) : Py Nat := idx f 1
/-- icmp6/fpp.py:193-200 -/
def unData (f : Bytes) (plen : Nat) : Py Bytes := do
  let t ← type f
  pyAssert (t == 1)
  return slice f 8 plen
/-- icmp6/fpp.py:203-210 -/
def ecId (f : Bytes) : Py Nat := do
  let t ← type f
  pyAssert (t == 128 || t == 129)
  u16 f 4
/-- icmp6/fpp.py:213-220 -/
def ecSeq (f : Bytes) : Py Nat := do
  let t ← type f
  pyAssert (t == 128 || t == 129)
  u16 f 6
/-- icmp6/fpp.py:223-230 -/
def ecData (f : Bytes) (plen : Nat) : Py Bytes := do
  let t ← type f
  pyAssert (t == 128 || t == 129)
  return slice f 8 plen
/-- icmp6/fpp.py:293-300 (the type assertion is repeated by each reader; the callers below have established it). -/
def nsTarget (f : Bytes) : Py Ip6Address := Ip6Address.ofBytes (slice f 8 24)
/-- icmp6/fpp.py:333-340 -/
def naTarget (f : Bytes) : Py Ip6Address := Ip6Address.ofBytes (slice f 8 24)
/-- icmp6/fpp.py:313-320 -/
def naFlagS (f : Bytes) : Py Bool := do return ((← idx f 4) &&& 0b01000000) != 0

/-- icmp6/fpp.py:719-829: parsed options. -/
inductive RxOpt where
  | slla (len : Nat) (mac : MacAddress)
  | tlla (len : Nat) (mac : MacAddress)
  | pi (len : Nat) (l a r : Bool) (valid prefer : Nat) (net : Ip6Network)
  | unk (code len : Nat) (data : Bytes)
  deriving DecidableEq

/-- The option constructors (icmp6/fpp.py:724-730, 750-756, 776-789, 809-815) applied to `g = frame[optr:]`, chosen by the
first byte (icmp6/fpp.py:380-386). -/
def readOpt (g : Bytes) : Py RxOpt := do
  let k ← idx g 0
  let n ← idx g 1
  if k = 1 then return .slla (n <<< 3) (← MacAddress.ofBytes (slice g 2 8))
  else if k = 2 then return .tlla (n <<< 3) (← MacAddress.ofBytes (slice g 2 8))
  else if k = 3 then
    let fl ← idx g 3
    let valid ← u32 g 4
    let prefer ← u32 g 8
    let a ← Ip6Address.ofBytes (slice g 16 32)
    let m ← Ip6Mask.ofPrefix (← idx g 2)
    return .pi (n <<< 3) ((fl &&& 0b10000000) != 0) ((fl &&& 0b01000000) != 0) ((fl &&& 0b00100000) != 0) valid prefer
      (Ip6Network.ofMask a m)
  else return .unk k (n <<< 3) (slice g 2 (n <<< 3))

/-- icmp6/fpp.py:371-389: `_read_nd_options`.  Every round of a terminating run advances `optr` by at least 8, so
`len(frame)` rounds are enough; more means the loop never ends. -/
def readNdOptions (f : Bytes) : Nat → Nat → Py (List RxOpt)
  | fuel, optr =>
    if optr < f.length then
      match fuel with
      | 0 => .error .nonTermination
      | fuel + 1 => do
        let o ← readOpt (sliceFrom f optr)
        let n ← idx f (optr + 1)
        return o :: (← readNdOptions f fuel (optr + (n <<< 3)))
    else .ok []

/-- icmp6/fpp.py:391-414: where `nd_options` starts reading (12 for a router solicitation). -/
def optStart (t : Nat) : Nat := if t = 133 then 12 else if t = 134 then 16 else 24

/-- icmp6/fpp.py:391-414 -/
def ndOptions (f : Bytes) : Py (List RxOpt) := do
  let t ← type f
  pyAssert (t == 133 || t == 134 || t == 135 || t == 136)
  readNdOptions f f.length (optStart t)

/-- icmp6/fpp.py:416-434 -/
def sllaOf : List RxOpt → Option MacAddress
  | [] => none
  | .slla _ m :: _ => some m
  | _ :: r => sllaOf r

/-- icmp6/fpp.py:436-454 -/
def tllaOf : List RxOpt → Option MacAddress
  | [] => none
  | .tlla _ m :: _ => some m
  | _ :: r => tllaOf r

/-- icmp6/fpp.py:456-477: prefixes for autoconfiguration (A flag and /64). -/
def piOf (opts : List RxOpt) : List Ip6Network :=
  opts.filterMap fun
    | .pi _ _ a _ _ _ net => if a && net.mask.len == 64 then some net else none
    | _ => none

/-- icmp6/fpp.py:496-509: `_nd_option_integrity_check`. -/
def ndOptionCheck (f : Bytes) : Nat → Nat → Py (Option String)
  | fuel, optr =>
    if optr < f.length then
      match fuel with
      | 0 => .error .nonTermination
      | fuel + 1 =>
        if optr + 1 > f.length then .ok (some "ICMPv6 sanity check fail - wrong option length (I)")
        else do
          let n ← idx f (optr + 1)
          if n = 0 then return some "ICMPv6 sanity check fail - wrong option length (II)"
          else if optr + (n <<< 3) > f.length then return some "ICMPv6 sanity check fail - wrong option length (III)"
          else ndOptionCheck f fuel (optr + (n <<< 3))
    else .ok none

/-- icmp6/fpp.py:569-581: the record walk of an MLDv2 report; `k` records left. -/
def recordCheck (f : Bytes) (plen : Nat) : Nat → Nat → Py (Option String)
  | 0, optr =>
    if optr ≠ plen then .ok (some "ICMPv6 integrity - wrong packet length (IV)") else .ok none
  | k + 1, optr =>
    if optr + 20 > plen then .ok (some "ICMPv6 integrity - wrong packet length (III)")
    else do
      let a ← idx f (optr + 1)
      let n ← u16 f (optr + 2)
      recordCheck f plen k (optr + (20 + a + n * 16))

def badLength : Py (Option String) := .ok (some "ICMPv6 integrity - wrong packet length (II)")

/-- icmp6/fpp.py:526-583: the length checks by message type `t = frame[0]`. -/
def integrityOf (f : Bytes) (plen t : Nat) : Py (Option String) :=
  if t = 1 then
    if ¬ (12 ≤ plen ∧ plen ≤ f.length) then badLength else .ok none
  else if t = 128 ∨ t = 129 then
    if ¬ (8 ≤ plen ∧ plen ≤ f.length) then badLength else .ok none
  else if t = 130 then
    if ¬ (28 ≤ plen ∧ plen ≤ f.length) then badLength
    else do
      let n ← u16 f 26
      if plen ≠ 28 + n * 16 then return some "ICMPv6 integrity - wrong packet length (III)" else return none
  else if t = 133 then
    if ¬ (8 ≤ plen ∧ plen ≤ f.length) then badLength else ndOptionCheck f f.length 8
  else if t = 134 then
    if ¬ (16 ≤ plen ∧ plen ≤ f.length) then badLength else ndOptionCheck f f.length 16
  else if t = 135 then
    if ¬ (24 ≤ plen ∧ plen ≤ f.length) then badLength else ndOptionCheck f f.length 24
  else if t = 136 then
    if ¬ (24 ≤ plen ∧ plen ≤ f.length) then badLength else ndOptionCheck f f.length 24
  else if t = 143 then
    if ¬ (8 ≤ plen ∧ plen ≤ f.length) then badLength
    else do
      let n ← u16 f 6
      recordCheck f plen n 8
  else .ok none

/-- icmp6/fpp.py:511-585: `_packet_integrity_check`. -/
def integrity (f : Bytes) (plen ps : Nat) : Py (Option String) :=
  if inetCksum (f.take plen) ps ≠ 0 then .ok (some "ICMPv6 integrity - wrong packet checksum")
  else if ¬ (4 ≤ plen ∧ plen ≤ f.length) then .ok (some "ICMPv6 integrity - wrong packet length (I)")
  else do
    let t ← idx f 0
    integrityOf f plen t

/-- `Ip6Address("ff02::1")` -/
def allNodes : Ip6Address := ⟨0xFF020000000000000000000000000001, by decide⟩
/-- `Ip6Address("ff02::2")` -/
def allRouters : Ip6Address := ⟨0xFF020000000000000000000000000002, by decide⟩

/-- icmp6/fpp.py:624-645 -/
def sanityRs (f : Bytes) (src dst : Ip6Address) (hop code : Nat) : Py (Option String) :=
  if code ≠ 0 then .ok (some "ICMPv6 sanity - 'code' must be 0 (RFC 4861)")
  else if hop ≠ 255 then .ok (some "ICMPv6 sanity - 'hop' must be 255 (RFC 4861)")
  else if !(src.isUnicast || src.isUnspecified) then
    .ok (some "ICMPv6 sanity - 'src' must be unicast or unspecified (RFC 4861)")
  else if dst ≠ allRouters then .ok (some "ICMPv6 sanity - 'dst' must be all-routers (RFC 4861)")
  else if src.isUnspecified then do
    let os ← ndOptions f
    if (sllaOf os).isSome then
      return some "ICMPv6 sanity - 'nd_opt_slla' must not be included if 'src' is unspecified (RFC 4861)"
    else return none
  else .ok none

/-- icmp6/fpp.py:647-658 -/
def sanityRa (src dst : Ip6Address) (hop code : Nat) : Option String :=
  if code ≠ 0 then some "ICMPv6 sanity - 'code' must be 0 (RFC 4861)"
  else if hop ≠ 255 then some "ICMPv6 sanity - 'hop' must be 255 (RFC 4861)"
  else if !src.isLinkLocal then some "ICMPv6 sanity - 'src' must be link local (RFC 4861)"
  else if !(dst.isUnicast || dst = allNodes) then
    some "ICMPv6 sanity - 'dst' must be unicast or all-nodes (RFC 4861)"
  else none

/-- icmp6/fpp.py:660-687 -/
def sanityNs (f : Bytes) (src dst : Ip6Address) (hop code : Nat) : Py (Option String) :=
  if code ≠ 0 then .ok (some "ICMPv6 sanity - 'code' must be 0 (RFC 4861)")
  else if hop ≠ 255 then .ok (some "ICMPv6 sanity - 'hop' must be 255 (RFC 4861)")
  else if !(src.isUnicast || src.isUnspecified) then
    .ok (some "ICMPv6 sanity - 'src' must be unicast or unspecified (RFC 4861)")
  else do
    let t ← nsTarget f
    let sn ← t.solicitedNodeMulticast
    if ¬ (dst = t ∨ dst = sn) then
      return some "ICMPv6 sanity - 'dst' must be 'ns_target_address' or it's solicited-node multicast (RFC 4861)"
    else if !t.isUnicast then return some "ICMPv6 sanity - 'ns_target_address' must be unicast (RFC 4861)"
    else if src.isUnspecified then
      let os ← ndOptions f
      if (sllaOf os).isSome then
        return some "ICMPv6 sanity - 'nd_opt_slla' must not be included if 'src' is unspecified"
      else return none
    else return none

/-- icmp6/fpp.py:689-707 -/
def sanityNa (f : Bytes) (src dst : Ip6Address) (hop code : Nat) : Py (Option String) :=
  if code ≠ 0 then .ok (some "ICMPv6 sanity - 'code' must be 0 (RFC 4861)")
  else if hop ≠ 255 then .ok (some "ICMPv6 sanity - 'hop' must be 255 (RFC 4861)")
  else if !src.isUnicast then .ok (some "ICMPv6 sanity - 'src' must be unicast (RFC 4861)")
  else do
    let s ← naFlagS f
    if s && !(dst.isUnicast || dst = allNodes) then
      return some "ICMPv6 sanity - if 'na_flag_s' is set then 'dst' must be unicast or all-nodes (RFC 4861)"
    else if !s && dst ≠ allNodes then
      return some "ICMPv6 sanity - if 'na_flag_s' is not set then 'dst' must be all-nodes (RFC 4861)"
    else return none

/-- icmp6/fpp.py:587-717: `_packet_sanity_check`. -/
def sanity (f : Bytes) (src dst : Ip6Address) (hop : Nat) : Py (Option String) := do
  let t ← type f
  let c ← code f
  if t = 1 then
    if 6 < c then return some "ICMPv6 sanity - 'code' must be [0-6] (RFC 4861)" else return none
  else if t = 2 then
    if c ≠ 0 then return some "ICMPv6 sanity - 'code' should be 0 (RFC 4861)" else return none
  else if t = 3 then
    if 1 < c then return some "ICMPv6 sanity - 'code' must be [0-1] (RFC 4861)" else return none
  else if t = 4 then
    if 2 < c then return some "ICMPv6 sanity - 'code' must be [0-2] (RFC 4861)" else return none
  else if t = 128 ∨ t = 129 then
    if c ≠ 0 then return some "ICMPv6 sanity - 'code' should be 0 (RFC 4861)" else return none
  else if t = 130 then
    if c ≠ 0 then return some "ICMPv6 sanity - 'code' must be 0 (RFC 3810)"
    else if hop ≠ 1 then return some "ICMPv6 sanity - 'hop' must be 255 (RFC 3810)" else return none
  else if t = 133 then sanityRs f src dst hop c
  else if t = 134 then return sanityRa src dst hop c
  else if t = 135 then sanityNs f src dst hop c
  else if t = 136 then sanityNa f src dst hop c
  else if t = 143 then
    if c ≠ 0 then return some "ICMPv6 sanity - 'code' must be 0 (RFC 3810)"
    else if hop ≠ 1 then return some "ICMPv6 sanity - 'hop' must be 1 (RFC 3810)" else return none
  else return none

/-- icmp6/fpp.py:79-97; `plen` is `packet_rx.ip6.dlen`, `ps` its pseudo-header sum. -/
def parse (f : Bytes) (plen ps : Nat) (src dst : Ip6Address) (hop : Nat) : Py (Option String) := do
  match ← integrity f plen ps with
  | some e => return some e
  | none => sanity f src dst hop

/-- What the log line (icmp6/fpp.py:105-168) and the handler (icmp6/phrx.py) read from an accepted packet. -/
inductive Hdr where
  | unreachable (code : Nat) (data : Bytes)
  | echo (type id seq : Nat) (data : Bytes)
  | routerSolicitation (opts : List RxOpt)
  | routerAdvertisement (hop : Nat) (m o : Bool) (lifetime reachable retrans : Nat) (opts : List RxOpt)
  | neighborSolicitation (target : Ip6Address) (opts : List RxOpt)
  | neighborAdvertisement (r s o : Bool) (target : Ip6Address) (opts : List RxOpt)
  | other (type code : Nat)
  deriving DecidableEq

/-- icmp6/fpp.py:233-290: the fields of a router advertisement. -/
def readRa (f : Bytes) : Py Hdr := do
  let hop ← idx f 4
  let fl ← idx f 5
  let l ← u16 f 6
  let a ← u32 f 8
  let b ← u32 f 12
  let os ← ndOptions f
  return .routerAdvertisement hop ((fl &&& 0b10000000) != 0) ((fl &&& 0b01000000) != 0) l a b os

/-- icmp6/fpp.py:303-340 -/
def readNa (f : Bytes) : Py Hdr := do
  let fl ← idx f 4
  let t ← naTarget f
  let os ← ndOptions f
  return .neighborAdvertisement ((fl &&& 0b10000000) != 0) ((fl &&& 0b01000000) != 0) ((fl &&& 0b00100000) != 0) t os

def read (f : Bytes) (plen : Nat) : Py Hdr := do
  let t ← type f
  let c ← code f
  if t = 1 then return .unreachable c (← unData f plen)
  else if t = 128 ∨ t = 129 then return .echo t (← ecId f) (← ecSeq f) (← ecData f plen)
  else if t = 133 then return .routerSolicitation (← ndOptions f)
  else if t = 134 then readRa f
  else if t = 135 then return .neighborSolicitation (← nsTarget f) (← ndOptions f)
  else if t = 136 then readNa f
  else return .other t c

/-- icmp6/fpp.py:837-854: `MulticastAddressRecord`; `rest` is the rest of the frame, which it keeps whole. -/
structure RxRecord where
  raw : Bytes
  type : Nat
  address : Ip6Address
  sources : List Ip6Address
  aux : Bytes
  deriving DecidableEq

/-- icmp6/fpp.py:849-852 -/
def readSources (raw : Bytes) : Nat → Nat → Py (List Ip6Address)
  | 0, _ => .ok []
  | k + 1, i => do
    let a ← Ip6Address.ofBytes (slice raw (20 + 16 * i) (20 + 16 * (i + 1)))
    let as ← readSources raw k (i + 1)
    return a :: as

/-- icmp6/fpp.py:842-853 -/
def RxRecord.parse (raw : Bytes) : Py RxRecord := do
  let t ← idx raw 0
  let _ ← idx raw 1
  let n ← u16 raw 2
  let a ← Ip6Address.ofBytes (slice raw 4 20)
  let ss ← readSources raw n 0
  return { raw := raw, type := t, address := a, sources := ss, aux := sliceFrom raw (20 + 16 * n) }

/-- icmp6/fpp.py:365-368: the loop of `mld2_rep_records`; `len(record)` is the length of everything left. -/
def recordsLoop : Nat → Bytes → Py (List RxRecord)
  | 0, _ => .ok []
  | k + 1, raw => do
    let r ← RxRecord.parse raw
    let rs ← recordsLoop k (sliceFrom raw r.raw.length)
    return r :: rs

/-- icmp6/fpp.py:354-369 (not used by the stack itself). -/
def mld2Records (f : Bytes) : Py (List RxRecord) := do
  let t ← type f
  pyAssert (t == 143)
  let n ← u16 f 6
  recordsLoop n (sliceFrom f 8)

end Verif.Icmp6
