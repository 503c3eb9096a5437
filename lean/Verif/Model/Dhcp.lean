import Verif.Model.Net
/-!
DHCP: `/repo/pytcp/protocols/dhcp4/{ps,client}.py`.

* A `str` is a sequence of Unicode scalar values: Python's lone surrogates are left out.  UTF-8 is that of Lean's library.
* `UnicodeDecodeError` is a `ValueError`.
* A loop gets the number of rounds it may run; `nonTermination` says that it is not finished by then.  `C67_enough` shows that the
  number `parse` gives it is enough whenever any number is.
-/
namespace Verif.Dhcp

/-- `bytes(s, "utf-8")` -/
def encode (s : String) : Bytes := s.toUTF8.data.toList

/-- `str(b, "utf-8")` -/
def decode (b : Bytes) : Py String :=
  match String.fromUTF8? ⟨b.toArray⟩ with
  | some s => .ok s
  | none => .error .valueError

/-- `struct.pack(f"{n}s", b)`: cut, or filled with zeros. -/
def packS (n : Nat) (b : Bytes) : Bytes := (b ++ List.replicate n 0).take n

/-- `bytes(l)` of a list of integers. -/
def bytesOf : List Nat → Py Bytes
  | [] => .ok []
  | n :: l => do
    if n < 256 then
      let r ← bytesOf l
      return UInt8.ofNat n :: r
    else .error .valueError

/-- The option classes (dhcp4/ps.py:477-1039) with `opt_len` and the value; `opt_code` is that of the class. -/
inductive Opt where
  | subnetMask (len : Nat) (m : Ip4Mask)
  | router (len : Nat) (l : List Ip4Address)
  | dns (len : Nat) (l : List Ip4Address)
  | hostName (len : Nat) (s : String)
  | domainName (len : Nat) (s : String)
  | reqIpAddr (len : Nat) (a : Ip4Address)
  | leaseTime (len : Nat) (n : Nat)
  | msgType (len : Nat) (n : Nat)
  | srvId (len : Nat) (a : Ip4Address)
  | paramReq (len : Nat) (l : List Nat)
  | unk (code len : Nat) (data : Bytes)
  | pad
  | end_
  deriving DecidableEq

/-- `struct.pack("! BB …", opt_code, opt_len, …)` -/
def tlv (code len : Nat) (v : Bytes) : Py Bytes := do
  let c ← packB code
  let l ← packB len
  return c ++ l ++ v

/-- `raw_option`: dhcp4/ps.py:494-499, 525-530, 566-573, 614-624, 665-675, 711-721, 761-771, 809-816, 856-863, 899-906, 944-951,
991-1001, 1026-1033 -/
def Opt.raw : Opt → Py Bytes
  | .subnetMask len m => tlv 1 len (packS 4 m.toBytes)
  | .router len l => tlv 3 len (packS (l.length * 4) (l.flatMap Ip4Address.toBytes))
  | .dns len l => tlv 6 len (packS (l.length * 4) (l.flatMap Ip4Address.toBytes))
  | .hostName len s => tlv 12 len (packS len (encode s))
  | .domainName len s => tlv 15 len (packS len (encode s))
  | .reqIpAddr len a => tlv 50 len (packS 4 a.toBytes)
  | .leaseTime len n => do
    let v ← packL n
    tlv 51 len v
  | .msgType len n => do
    let v ← packB n
    tlv 53 len v
  | .srvId len a => tlv 54 len (packS 4 a.toBytes)
  | .paramReq len l => do
    let v ← bytesOf l
    tlv 55 len (packS len v)
  | .unk code len data => tlv code len (packS len data)
  | .pad => packB 0
  | .end_ => packB 255

/-- `[Ip4Address(raw_option[_ : _ + 4]) for _ in range(2, 2 + opt_len, 4)]` (dhcp4/ps.py:604-607), from `i` on; `n` is the number of
addresses. -/
def addrs (r : Bytes) : Nat → Nat → Py (List Ip4Address)
  | 0, _ => .ok []
  | n + 1, i => do
    let a ← Ip4Address.ofBytes (slice r i (i + 4))
    let l ← addrs r n (i + 4)
    return a :: l

/-- The constructors, from bytes: dhcp4/ps.py:210-221, 235-239 and 556-559, 601-607, 652-658, 701-704, 749-754, 799-802, 844-849,
889-892, 934-937, 979-984, 1022-1024 -/
def Opt.parse (r : Bytes) : Py Opt := do
  let code ← idx r 0
  let len ← idx r 1
  match code with
  | 1 => return .subnetMask len (← Ip4Mask.ofBytes (slice r 2 6))
  | 3 => return .router len (← addrs r ((len + 3) / 4) 2)
  | 6 => return .dns len (← addrs r ((len + 3) / 4) 2)
  | 12 => return .hostName len (← decode (slice r 2 (2 + len)))
  | 15 => return .domainName len (← decode (slice r 2 (2 + len)))
  | 50 => return .reqIpAddr len (← Ip4Address.ofBytes (slice r 2 6))
  | 51 => return .leaseTime len (← u32 r 2)
  | 53 => return .msgType len (← idx r 2)
  | 54 => return .srvId len (← Ip4Address.ofBytes (slice r 2 6))
  | 55 => return .paramReq len ((slice r 2 (2 + len)).map UInt8.toNat)
  | c => return .unk c len (slice r 2 (2 + len))

/-- dhcp4/ps.py:355-362: `raw_options` -/
def rawOptions : List Opt → Py Bytes
  | [] => .ok []
  | o :: os => do
    let b ← o.raw
    let r ← rawOptions os
    return b ++ r

/-- dhcp4/ps.py:225-240: the loop over the options, from `i` on, with those so far; `raw` is the local `raw_options`, the bytes received;
`self.raw_options` is made again from the options so far.  PAD (508-511) has length 0. -/
def optLoop (raw : Bytes) : Nat → Nat → List Opt → Py (List Opt)
  | 0, _, _ => .error .nonTermination
  | fuel + 1, i, opts =>
    if i < raw.length then do
      let c ← idx raw i
      if c = 255 then return opts ++ [.end_]
      else if c = 0 then optLoop raw fuel (i + 0) (opts ++ [.pad])
      else do
        let n ← idx raw (i + 1)
        let o ← Opt.parse (slice raw i (i + n + 2))
        let ro ← rawOptions (opts ++ [o])
        let n' ← idx ro (i + 1)
        optLoop raw fuel (i + n' + 2) (opts ++ [o])
    else .ok opts

/-- The attributes of a `Dhcp4Packet` (dhcp4/ps.py:178-208). -/
structure Packet where
  op : Nat
  hwtype : Nat
  hwlen : Nat
  hops : Nat
  xid : Nat
  secs : Nat
  flagB : Bool
  ciaddr : Ip4Address
  yiaddr : Ip4Address
  siaddr : Ip4Address
  giaddr : Ip4Address
  chaddr : Bytes
  sname : Bytes
  file : Bytes
  options : List Opt
  deriving DecidableEq

/-- dhcp4/ps.py:173-240: `Dhcp4Packet(raw_packet)`.  The magic number is not looked at.  An empty datagram is falsy and gets to 243-244,
where the arguments are missing. -/
def parseWith (fuel : Nat) (raw : Bytes) : Py Packet := do
  if raw = [] then .error .assertionError
  else do
    let h := raw.take 240
    let op ← idx h 0
    let hwtype ← idx h 1
    let hwlen ← idx h 2
    let hops ← idx h 3
    let xid ← u32 h 4
    let secs ← u16 h 8
    let flags ← u16 h 10
    let ci ← Ip4Address.ofBytes (slice h 12 16)
    let yi ← Ip4Address.ofBytes (slice h 16 20)
    let si ← Ip4Address.ofBytes (slice h 20 24)
    let gi ← Ip4Address.ofBytes (slice h 24 28)
    let opts ← optLoop (sliceFrom raw 240) fuel 0 []
    return ⟨op, hwtype, hwlen, hops, xid, secs, flags &&& 0x8000 != 0, ci, yi, si, gi, slice h 28 (28 + hwlen), slice h 44 108,
      slice h 108 236, opts⟩

/-- `Dhcp4Packet(raw_packet)`, with as many rounds of the loop as are useful. -/
def parse (raw : Bytes) : Py Packet := parseWith (raw.length + 1) raw

/-- The arguments of `Dhcp4Packet` for building (dhcp4/ps.py:149-166). -/
structure Args where
  op : Nat
  xid : Nat
  flagB : Bool := false
  ciaddr : Ip4Address
  yiaddr : Ip4Address
  siaddr : Ip4Address
  giaddr : Ip4Address
  chaddr : Bytes
  subnetMask : Option Ip4Mask := none
  router : Option (List Ip4Address) := none
  dns : Option (List Ip4Address) := none
  hostName : Option String := none
  domainName : Option String := none
  reqIpAddr : Option Ip4Address := none
  leaseTime : Option Nat := none
  srvId : Option Ip4Address := none
  paramReq : Option (List Nat) := none
  msgType : Option Nat := none

/-- One of the `if`s in dhcp4/ps.py:268-314: an argument that is given and is not falsy makes an option. -/
def given {α : Type} (x : Option α) (falsy : α → Bool) (o : α → Opt) : List Opt :=
  match x with
  | none => []
  | some v => if falsy v then [] else [o v]

/-- dhcp4/ps.py:268-316: the options.  Falsy are a mask of length 0 (`__len__` of a mask is its number of bits), an empty list or text
and the number 0; an address is never falsy. -/
def Args.options (a : Args) : List Opt :=
  given a.subnetMask (fun m => m.len == 0) (.subnetMask 4) ++
  given a.router (fun l => l.isEmpty) (fun l => .router (l.length * 4) l) ++
  given a.dns (fun l => l.isEmpty) (fun l => .dns (l.length * 4) l) ++
  given a.hostName (fun s => s == "") (fun s => .hostName s.length s) ++
  given a.domainName (fun s => s == "") (fun s => .domainName s.length s) ++
  given a.reqIpAddr (fun _ => false) (.reqIpAddr 4) ++
  given a.leaseTime (fun n => n == 0) (.leaseTime 4) ++
  given a.srvId (fun _ => false) (.srvId 4) ++
  given a.paramReq (fun l => l.isEmpty) (fun l => .paramReq l.length l) ++
  given a.msgType (fun n => n == 0) (.msgType 1) ++ [.end_]

/-- dhcp4/ps.py:244-316: `Dhcp4Packet(dhcp_op=…, …)` -/
def build (a : Args) : Packet :=
  ⟨a.op, 1, 6, 0, a.xid, 0, a.flagB, a.ciaddr, a.yiaddr, a.siaddr, a.giaddr, a.chaddr, List.replicate 64 0, List.replicate 128 0, a.options⟩

/-- dhcp4/ps.py:331-352: `raw_header` -/
def Packet.rawHeader (p : Packet) : Py Bytes := do
  let a ← packB p.op
  let b ← packB p.hwtype
  let c ← packB p.hwlen
  let d ← packB p.hops
  let x ← packL p.xid
  let s ← packH p.secs
  let f ← packH (p.flagB.toNat <<< 15)
  return a ++ b ++ c ++ d ++ x ++ s ++ f ++ packS 4 p.ciaddr.toBytes ++ packS 4 p.yiaddr.toBytes ++ packS 4 p.siaddr.toBytes ++
    packS 4 p.giaddr.toBytes ++ packS 16 (p.chaddr ++ List.replicate 10 0) ++ packS 64 p.sname ++ packS 128 p.file ++ [0x63, 0x82, 0x53, 0x63]

/-- dhcp4/ps.py:465-469: `raw_packet` -/
def Packet.raw (p : Packet) : Py Bytes := do
  let h ← p.rawHeader
  let o ← rawOptions p.options
  return h ++ o

/-- dhcp4/ps.py:365-372 -/
def Packet.subnetMask (p : Packet) : Option Ip4Mask := p.options.findSome? fun | .subnetMask _ m => some m | _ => none
/-- dhcp4/ps.py:375-382 -/
def Packet.router (p : Packet) : Option (List Ip4Address) := p.options.findSome? fun | .router _ l => some l | _ => none
/-- dhcp4/ps.py:385-392 -/
def Packet.dns (p : Packet) : Option (List Ip4Address) := p.options.findSome? fun | .dns _ l => some l | _ => none
/-- dhcp4/ps.py:395-402 -/
def Packet.hostName (p : Packet) : Option String := p.options.findSome? fun | .hostName _ s => some s | _ => none
/-- dhcp4/ps.py:405-412 -/
def Packet.domainName (p : Packet) : Option String := p.options.findSome? fun | .domainName _ s => some s | _ => none
/-- dhcp4/ps.py:415-422 -/
def Packet.reqIpAddr (p : Packet) : Option Ip4Address := p.options.findSome? fun | .reqIpAddr _ a => some a | _ => none
/-- dhcp4/ps.py:425-432 -/
def Packet.leaseTime (p : Packet) : Option Nat := p.options.findSome? fun | .leaseTime _ n => some n | _ => none
/-- dhcp4/ps.py:435-442 -/
def Packet.msgType (p : Packet) : Option Nat := p.options.findSome? fun | .msgType _ n => some n | _ => none
/-- dhcp4/ps.py:445-452 -/
def Packet.srvId (p : Packet) : Option Ip4Address := p.options.findSome? fun | .srvId _ a => some a | _ => none
/-- dhcp4/ps.py:455-462 -/
def Packet.paramReq (p : Packet) : Option (List Nat) := p.options.findSome? fun | .paramReq _ l => some l | _ => none

/-! ### The client -/

/-- What a call of `fetch` does: the datagrams it sends, whether it closes its socket, and what it returns. -/
structure Fetch where
  sent : List Bytes
  closed : Bool
  result : Py (Option Ip4Host)

/-- dhcp4/client.py:86-101 -/
def discover (mac : MacAddress) (xid : Nat) : Args :=
  { op := 1, xid := xid, ciaddr := ⟨0, by decide⟩, yiaddr := ⟨0, by decide⟩, siaddr := ⟨0, by decide⟩, giaddr := ⟨0, by decide⟩,
    chaddr := mac.toBytes, msgType := some 1, paramReq := some [1, 3], hostName := some "PyTCP" }

/-- dhcp4/client.py:137-155 -/
def request (mac : MacAddress) (xid : Nat) (srvId : Option Ip4Address) (yiaddr : Ip4Address) : Args :=
  { op := 1, xid := xid, ciaddr := ⟨0, by decide⟩, yiaddr := ⟨0, by decide⟩, siaddr := ⟨0, by decide⟩, giaddr := ⟨0, by decide⟩,
    chaddr := mac.toBytes, msgType := some 3, srvId := srvId, reqIpAddr := some yiaddr, paramReq := some [1, 3], hostName := some "PyTCP" }

/-- dhcp4/client.py:191-202 -/
def lease (p : Packet) : Py (Option Ip4Host) :=
  match p.subnetMask with
  | none => .error .assertionError
  | some m =>
    match p.router with
    | none => .ok (some (Ip4Host.ofMask p.yiaddr m))
    | some [] => .error .indexError
    | some (g :: _) => do return some (← (Ip4Host.ofMask p.yiaddr m).setGateway (some g))

/-- dhcp4/client.py:162-202: after the request was sent. -/
def fetchAck (sent : List Bytes) (r : Py Bytes) : Fetch :=
  match r with
  | .error .receiveTimeout => ⟨sent, true, .ok none⟩
  | .error e => ⟨sent, false, .error e⟩
  | .ok d =>
    match parse d with
    | .error e => ⟨sent, false, .error e⟩
    | .ok p => if p.msgType ≠ some 5 then ⟨sent, true, .ok none⟩ else ⟨sent, true, lease p⟩

/-- dhcp4/client.py:72-202: `fetch`, where `xid` is the random number and `r₁` and `r₂` are what `recv(timeout=5)` gives (a datagram, a
timeout or another exception).  That binding, connecting and sending do not raise is assumed. -/
def fetch (mac : MacAddress) (xid : Nat) (r₁ r₂ : Py Bytes) : Fetch :=
  match (build (discover mac xid)).raw with
  | .error e => ⟨[], false, .error e⟩
  | .ok d₁ =>
    match r₁ with
    | .error .receiveTimeout => ⟨[d₁], true, .ok none⟩
    | .error e => ⟨[d₁], false, .error e⟩
    | .ok d =>
      match parse d with
      | .error e => ⟨[d₁], false, .error e⟩
      | .ok p =>
        if p.msgType ≠ some 2 then ⟨[d₁], true, .ok none⟩
        else
          match (build (request mac xid p.srvId p.yiaddr)).raw with
          | .error e => ⟨[d₁], false, .error e⟩
          | .ok d₂ => fetchAck [d₁, d₂] r₂

end Verif.Dhcp
