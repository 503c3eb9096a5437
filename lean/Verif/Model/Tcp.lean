import Verif.Model.Cksum
/-! TCP codec: `/repo/pytcp/protocols/tcp/{ps,fpa,fpp}.py`. -/
namespace Verif.Tcp

/-- The nine flags, in the order of `TcpAssembler`'s arguments (tcp/fpa.py:78-86). -/
structure Flags where
  ns : Bool := false
  crw : Bool := false
  ece : Bool := false
  urg : Bool := false
  ack : Bool := false
  psh : Bool := false
  rst : Bool := false
  syn : Bool := false
  fin : Bool := false
  deriving DecidableEq, Repr

/-- tcp/fpa.py:221-465: the options the assembler knows. -/
inductive Opt where
  | eol
  | nop
  | mss (mss : Nat)
  | wscale (wscale : Nat)
  | sackPerm
  | timestamp (tsval tsecr : Nat)
  deriving DecidableEq, Repr

/-- `len(option)`: tcp/fpa.py:232, 268, 311, 354, 392, 437 with the constants of tcp/ps.py. -/
def Opt.len : Opt → Nat
  | .eol => 1
  | .nop => 1
  | .mss _ => 4
  | .wscale _ => 3
  | .sackPerm => 2
  | .timestamp _ _ => 10

/-- The option's constructor assertions and `bytes(option)`: tcp/fpa.py:244-248, 280-284, 302-303 and 323-327,
345-346 and 366-372, 404-408, 426-429 and 449-459. -/
def Opt.bytes : Opt → Py Bytes
  | .eol => packB 0
  | .nop => packB 1
  | .mss m => do
    pyAssert (m ≤ 0xFFFF)
    let k ← packB 2
    let l ← packB 4
    let v ← packH m
    return k ++ l ++ v
  | .wscale w => do
    pyAssert (w ≤ 0xFF)
    let k ← packB 3
    let l ← packB 3
    let v ← packB w
    return k ++ l ++ v
  | .sackPerm => do
    let k ← packB 4
    let l ← packB 2
    return k ++ l
  | .timestamp a b => do
    pyAssert (a ≤ 0xFFFFFFFF)
    pyAssert (b ≤ 0xFFFFFFFF)
    let k ← packB 8
    let l ← packB 10
    let v ← packL a
    let e ← packL b
    return k ++ l ++ v ++ e

/-- tcp/fpa.py:179-184 -/
def rawOptions : List Opt → Py Bytes
  | [] => .ok []
  | o :: os => do
    let b ← o.bytes
    let r ← rawOptions os
    return b ++ r

/-- Constructor arguments of `TcpAssembler`, tcp/fpa.py:71-104. -/
structure Tx where
  sport : Nat
  dport : Nat
  seq : Nat
  ack : Nat
  flags : Flags
  win : Nat
  urp : Nat
  options : List Opt
  data : Bytes

/-- tcp/fpa.py:139 -/
def Tx.hlen (h : Tx) : Nat := 20 + (h.options.map Opt.len).sum

/-- The flag byte, tcp/fpa.py:199-206. -/
def Flags.byte (f : Flags) : Nat :=
  f.crw.toNat <<< 7 ||| f.ece.toNat <<< 6 ||| f.urg.toNat <<< 5 ||| f.ack.toNat <<< 4 ||| f.psh.toNat <<< 3 |||
    f.rst.toNat <<< 2 ||| f.syn.toNat <<< 1 ||| f.fin.toNat

/-- tcp/fpa.py:108-144, 186-213: `TcpAssembler(...)` and `assemble(frame, pshdr_sum)`. -/
def assemble (h : Tx) (pshdrSum : Nat) : Py Bytes := do
  let opts ← rawOptions h.options
  pyAssert (h.sport ≤ 0xFFFF)
  pyAssert (h.dport ≤ 0xFFFF)
  pyAssert (h.seq ≤ 0xFFFFFFFF)
  pyAssert (h.ack ≤ 0xFFFFFFFF)
  pyAssert (h.win ≤ 0xFFFF)
  pyAssert (h.urp ≤ 0xFFFF)
  pyAssert (h.hlen % 4 == 0)
  let sp ← packH h.sport
  let dp ← packH h.dport
  let sq ← packL h.seq
  let ak ← packL h.ack
  let b12 ← packB (h.hlen <<< 2 ||| h.flags.ns.toNat)
  let b13 ← packB h.flags.byte
  let wn ← packH h.win
  let ck ← packH 0
  let up ← packH h.urp
  let frame := sp ++ dp ++ sq ++ ak ++ b12 ++ b13 ++ wn ++ ck ++ up ++ opts ++ h.data
  packIntoH frame 16 (inetCksum frame pshdrSum)

/-- tcp/fpa.py:68-69, 146-150 -/
def carried (h : Tx) : Carried :=
  { proto := 6, len := h.hlen + h.data.length, assemble := assemble h }

/-- tcp/fpp.py:115-121 -/
def sport (f : Bytes) : Py Nat := u16 f 0
/-- tcp/fpp.py:124-130 -/
def dport (f : Bytes) : Py Nat := u16 f 2
/-- tcp/fpp.py:133-139 -/
def seq (f : Bytes) : Py Nat := u32 f 4
/-- tcp/fpp.py:142-148 -/
def ack (f : Bytes) : Py Nat := u32 f 8
/-- tcp/fpp.py:151-157 -/
def hlen (f : Bytes) : Py Nat := do return ((← idx f 12) &&& 0b11110000) >>> 2
/-- tcp/fpp.py:160-166 -/
def flagNs (f : Bytes) : Py Bool := do return ((← idx f 12) &&& 0b00000001) != 0
/-- tcp/fpp.py:169-175 -/
def flagCrw (f : Bytes) : Py Bool := do return ((← idx f 13) &&& 0b10000000) != 0
/-- tcp/fpp.py:178-184 -/
def flagEce (f : Bytes) : Py Bool := do return ((← idx f 13) &&& 0b01000000) != 0
/-- tcp/fpp.py:187-193 -/
def flagUrg (f : Bytes) : Py Bool := do return ((← idx f 13) &&& 0b00100000) != 0
/-- tcp/fpp.py:196-202 -/
def flagAck (f : Bytes) : Py Bool := do return ((← idx f 13) &&& 0b00010000) != 0
/-- tcp/fpp.py:205-211 -/
def flagPsh (f : Bytes) : Py Bool := do return ((← idx f 13) &&& 0b00001000) != 0
/-- tcp/fpp.py:214-220 -/
def flagRst (f : Bytes) : Py Bool := do return ((← idx f 13) &&& 0b00000100) != 0
/-- tcp/fpp.py:223-229 -/
def flagSyn (f : Bytes) : Py Bool := do return ((← idx f 13) &&& 0b00000010) != 0
/-- tcp/fpp.py:232-238 -/
def flagFin (f : Bytes) : Py Bool := do return ((← idx f 13) &&& 0b00000001) != 0
/-- tcp/fpp.py:241-247 -/
def win (f : Bytes) : Py Nat := u16 f 14
/-- tcp/fpp.py:259-265 -/
def urg (f : Bytes) : Py Nat := u16 f 18

/-- All nine flags. -/
def flags (f : Bytes) : Py Flags := do
  return { ns := ← flagNs f, crw := ← flagCrw f, ece := ← flagEce f, urg := ← flagUrg f, ack := ← flagAck f,
           psh := ← flagPsh f, rst := ← flagRst f, syn := ← flagSyn f, fin := ← flagFin f }

/-- tcp/fpp.py:523-695: parsed options. -/
inductive RxOpt where
  | eol
  | nop
  | mss (len mss : Nat)
  | wscale (len wscale : Nat)
  | sackPerm (len : Nat)
  | timestamp (len tsval tsecr : Nat)
  | unk (kind len : Nat) (data : Bytes)
  deriving DecidableEq, Repr

/-- tcp/fpp.py:364-371 and the option constructors 576-582, 602-608, 628-633, 653-660, 680-683: the option at `optr`,
whose kind byte is `k ≥ 2`. -/
def readOpt (f : Bytes) (optr k : Nat) : Py RxOpt := do
  let l ← idx f (optr + 1)
  if k = 2 then return .mss l (← u16 f (optr + 2))
  else if k = 3 then return .wscale l (← idx f (optr + 2))
  else if k = 4 then return .sackPerm l
  else if k = 8 then
    let a ← u32 f (optr + 2)
    let b ← u32 f (optr + 6)
    return .timestamp l a b
  else return .unk k l (slice (sliceFrom f optr) 2 l)

/-- tcp/fpp.py:353-372: the loop of the `options` property, with fuel as in `Ip4.optionsLoop`. -/
def optionsLoop (f : Bytes) (hlen : Nat) : Nat → Nat → Py (List RxOpt)
  | fuel, optr =>
    if optr < hlen then
      match fuel with
      | 0 => .error .nonTermination
      | fuel + 1 => do
        let k ← idx f optr
        if k = 0 then return [.eol]
        else if k = 1 then
          return .nop :: (← optionsLoop f hlen fuel (optr + 1))
        else
          let o ← readOpt f optr k
          let l ← idx f (optr + 1)
          return o :: (← optionsLoop f hlen fuel (optr + l))
    else .ok []

/-- tcp/fpp.py:337-374 -/
def options (f : Bytes) : Py (List RxOpt) := do
  let hl ← hlen f
  optionsLoop f hl (hl + 1) 20

/-- tcp/fpp.py:376-388: the first MSS option, or 536. -/
def mssOf : List RxOpt → Nat
  | [] => 536
  | .mss _ m :: _ => m
  | _ :: r => mssOf r

/-- tcp/fpp.py:390-402: `1 << wscale` of the first window-scale option, or `None`. -/
def wscaleOf : List RxOpt → Option Nat
  | [] => none
  | .wscale _ w :: _ => some (1 <<< w)
  | _ :: r => wscaleOf r

/-- tcp/fpp.py:404-416 -/
def sackPermOf : List RxOpt → Bool
  | [] => false
  | .sackPerm _ :: _ => true
  | _ :: r => sackPermOf r

/-- tcp/fpp.py:418-433 -/
def timestampOf : List RxOpt → Option (Nat × Nat)
  | [] => none
  | .timestamp _ a b :: _ => some (a, b)
  | _ :: r => timestampOf r

/-- tcp/fpp.py:453-469: the option walk of the integrity check. -/
def optionCheck (f : Bytes) (hlen : Nat) : Nat → Nat → Py (Option String)
  | fuel, optr =>
    if optr < hlen then
      match fuel with
      | 0 => .error .nonTermination
      | fuel + 1 => do
        let k ← idx f optr
        if k = 0 then return none
        else if k = 1 then
          if optr + 1 > hlen then return some "TCP integrity - wrong option length (I)"
          else optionCheck f hlen fuel (optr + 1)
        else if optr + 1 > hlen then return some "TCP integrity - wrong option length (II)"
        else
          let l ← idx f (optr + 1)
          if l = 0 then return some "TCP integrity - wrong option length (III)"
          else if optr + l > hlen then return some "TCP integrity - wrong option length (IV)"
          else optionCheck f hlen fuel (optr + l)
    else .ok none

/-- tcp/fpp.py:435-471; `ipDlen` is `packet_rx.ip.dlen`. -/
def integrity (f : Bytes) (ipDlen pshdrSum : Nat) : Py (Option String) := do
  if inetCksum (f.take ipDlen) pshdrSum ≠ 0 then return some "TCP integrity - wrong packet checksum"
  if ¬ (20 ≤ ipDlen ∧ ipDlen ≤ f.length) then return some "TCP integrity - wrong packet length (I)"
  let hl := ((← idx f 12) &&& 0b11110000) >>> 2
  if ¬ (20 ≤ hl ∧ hl ≤ ipDlen ∧ ipDlen ≤ f.length) then return some "TCP integrity - wrong packet length (II)"
  optionCheck f hl (hl + 1) 20

/-- tcp/fpp.py:473-515 -/
def sanity (f : Bytes) : Py (Option String) := do
  if (← sport f) = 0 then return some "TCP sanity - 'sport' must be greater than 0"
  if (← dport f) = 0 then return some "TCP sanity - 'dport' must be greater than  0"
  if (← flagSyn f) && (← flagFin f) then
    return some "TCP sanity - 'flag_syn' and 'flag_fin' must not be set simultaneously"
  if (← flagSyn f) && (← flagRst f) then
    return some "TCP sanity - 'flag_syn' and 'flag_rst' must not set simultaneously"
  if (← flagFin f) && (← flagRst f) then
    return some "TCP sanity - 'flag_fin' and 'flag_rst' must not be set simultaneously"
  if (← flagFin f) && !(← flagAck f) then
    return some "TCP sanity - 'flag_ack' must be set when 'flag_fin' is set"
  if (← ack f) ≠ 0 ∧ (← flagAck f) = false then
    return some "TCP sanity - 'flag_ack' must be set when 'ack' is not 0"
  if (← urg f) ≠ 0 ∧ (← flagUrg f) = false then
    return some "TCP sanity - 'flag_urg' must be set when 'urg' is not 0"
  return none

/-- tcp/fpp.py:68-86.  On failure (and only then) the parser still evaluates `self.hlen`. -/
def parse (f : Bytes) (ipDlen pshdrSum : Nat) : Py (Option String) := do
  let r ← match ← integrity f ipDlen pshdrSum with
    | some e => pure (some e)
    | none => sanity f
  match r with
  | some e =>
    let _ ← hlen f
    return some e
  | none => return none

/-- What tcp/phrx.py, tcp/session.py and the log line read from a parsed segment. -/
structure Hdr where
  sport : Nat
  dport : Nat
  seq : Nat
  ack : Nat
  flags : Flags
  win : Nat
  urp : Nat
  options : List RxOpt
  /-- tcp/fpp.py:268-274, 320-326 -/
  data : Bytes
  deriving DecidableEq

def read (f : Bytes) (ipDlen : Nat) : Py Hdr := do
  let hl ← hlen f
  return { sport := ← sport f, dport := ← dport f, seq := ← seq f, ack := ← ack f, flags := ← flags f, win := ← win f,
           urp := ← urg f, options := ← options f, data := slice f hl ipDlen }

end Verif.Tcp
