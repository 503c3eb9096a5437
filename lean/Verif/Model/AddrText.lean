import Verif.Model.Net
/-!
Text forms of the address classes: `/repo/pytcp/lib/mac_address.py`, `ip_address.py`, `ip4_address.py`, `ip6_address.py`, and the library
functions they call: `re.search`, `str.strip`, `str.split`, `int`, `bytes.fromhex`, `socket.inet_aton`, `socket.inet_ntoa`,
`socket.inet_pton`, `socket.inet_ntop` (the last four as in glibc).  A `str` is a list of characters.  Simplification: where Python accepts
decimal digits of other scripts (`\d`, `int`), the model takes them for ordinary characters; all other characters are as in Python.
-/
namespace Verif

abbrev Text := List Char

/-! ### Regular expressions and string functions of Python -/

/-- A regular expression as the list of what can remain of the text after a match at its start, one entry for each way of matching. -/
abbrev Rx := Text → List Text

/-- one character with the property, `[...]` -/
def Rx.chr (p : Char → Bool) : Rx
  | [] => []
  | c :: t => if p c then [t] else []
/-- concatenation -/
def Rx.seq (a b : Rx) : Rx := fun s => (a s).flatMap b
/-- alternative, `a|b` -/
def Rx.alt (a b : Rx) : Rx := fun s => a s ++ b s
/-- repetition, `r{0,k}` -/
def Rx.upTo (r : Rx) : Nat → Rx
  | 0 => fun s => [s]
  | k + 1 => fun s => s :: Rx.seq r (Rx.upTo r k) s
/-- repetition, `r{n,n+k}` (`Rx.rep r n k`) -/
def Rx.rep (r : Rx) : Nat → Nat → Rx
  | 0, k => Rx.upTo r k
  | n + 1, k => Rx.seq r (Rx.rep r n k)
/-- `re.search(r, s)` is not `None` -/
def Rx.search (r : Rx) : Text → Bool
  | [] => !(r []).isEmpty
  | c :: t => !(r (c :: t)).isEmpty || Rx.search r t
/-- `re.search("^" r "$", s)` is not `None` (`$` also matches before a final newline) -/
def Rx.whole (r : Rx) (s : Text) : Bool := (r s).any (fun t => t == [] || t == ['\n'])

/-- `str.isspace` of one character -/
def pyIsSpace (c : Char) : Bool :=
  let n := c.toNat
  (9 ≤ n && n ≤ 13) || (28 ≤ n && n ≤ 32) || n == 0x85 || n == 0xA0 || n == 0x1680 || (0x2000 ≤ n && n ≤ 0x200A)
    || n == 0x2028 || n == 0x2029 || n == 0x202F || n == 0x205F || n == 0x3000
/-- `str.strip()` -/
def pyStrip (s : Text) : Text := ((s.dropWhile pyIsSpace).reverse.dropWhile pyIsSpace).reverse
/-- `str.split(sep)` for a single character -/
def pySplit (sep : Char) : Text → List Text
  | [] => [[]]
  | c :: t =>
    if c = sep then [] :: pySplit sep t
    else match pySplit sep t with
      | [] => [[c]]
      | p :: ps => (c :: p) :: ps
/-- `str.lower()`, for the ASCII letters (the callers look at no others). -/
def pyLower (c : Char) : Char := if 'A' ≤ c ∧ c ≤ 'Z' then Char.ofNat (c.toNat + 32) else c
/-- `[0-9]` -/
def isDec (c : Char) : Bool := '0' ≤ c && c ≤ '9'
/-- `[0-9A-Fa-f]` -/
def isHex (c : Char) : Bool := isDec c || ('A' ≤ c && c ≤ 'F') || ('a' ≤ c && c ≤ 'f')
/-- the value of a digit -/
def digitVal (c : Char) : Nat :=
  if isDec c then c.toNat - 48 else if 'a' ≤ c ∧ c ≤ 'f' then c.toNat - 87 else c.toNat - 55
/-- the number written with these digits -/
def numVal (base : Nat) (ds : Text) : Nat := ds.foldl (fun acc c => acc * base + digitVal c) 0
/-- `str(n)` of a natural number. -/
def decText (n : Nat) : Text := Nat.toDigits 10 n
/-- `f"{n:x}"` -/
def hexText (n : Nat) : Text := Nat.toDigits 16 n
/-- `int(s)`: blanks around, one sign, digits, single underscores between digits. -/
def pyInt (s : Text) : Py Int :=
  let digits (d : Text) : Py Nat :=
    if (pySplit '_' d).all (fun p => p ≠ [] && p.all isDec) then .ok (numVal 10 (d.filter isDec)) else .error .valueError
  match pyStrip s with
  | '-' :: d => do let n ← digits d; return -(n : Int)
  | '+' :: d => do let n ← digits d; return (n : Int)
  | d => do let n ← digits d; return (n : Int)
/-- `bytes.fromhex(s)` (for text without blanks). -/
def fromHex : Text → Py Bytes
  | [] => .ok []
  | [_] => .error .valueError
  | a :: b :: t =>
    if isHex a && isHex b then do
      let r ← fromHex t
      return UInt8.ofNat (16 * digitVal a + digitVal b) :: r
    else .error .valueError
/-- `sep.join(l)` -/
def pyJoin (sep : Text) : List Text → Text
  | [] => []
  | [a] => a
  | a :: t => a ++ sep ++ pyJoin sep t

/-! ### MAC addresses -/

/-- mac_address.py:71-73: `([0-9A-Fa-f]{2}[:-]){5}([0-9A-Fa-f]{2})`. -/
def macRx : Rx :=
  Rx.seq (Rx.rep (Rx.seq (Rx.rep (Rx.chr isHex) 2 0) (Rx.chr (fun c => c == ':' || c == '-'))) 5 0) (Rx.rep (Rx.chr isHex) 2 0)

/-- mac_address.py:70-81, :87: constructor from text. -/
def MacAddress.ofText (s : Text) : Py MacAddress :=
  if Rx.whole macRx (pyStrip s) then do
    let b ← fromHex ((pyStrip (s.map pyLower)).filter (fun c => !(c == ':' || c == '-' || c == '.')))
    let v1 ← unpackBE 2 (slice b 0 2)
    let v2 ← unpackBE 2 (slice b 2 4)
    let v3 ← unpackBE 2 (slice b 4 6)
    if b.length = 6 then MacAddress.ofInt (((v1 <<< 32) + (v2 <<< 16) + v3 : Nat) : Int) else .error .structError
  else .error .formatError

/-- `f"{b:0>2x}"`, mac_address.py:93. -/
def hex2 (b : UInt8) : Text := let t := hexText b.toNat; List.replicate (2 - t.length) '0' ++ t

/-- mac_address.py:89-93: `__str__`. -/
def MacAddress.toText (m : MacAddress) : Text := pyJoin [':'] (m.toBytes.map hex2)

/-! ### IPv4 -/

/-- ip4_address.py:59: `(25[0-5]|(2[0-4]|1{0,1}[0-9]){0,1}[0-9])`. -/
def octetRx : Rx :=
  Rx.alt (Rx.seq (Rx.chr (· == '2')) (Rx.seq (Rx.chr (· == '5')) (Rx.chr (fun c => '0' ≤ c && c ≤ '5'))))
    (Rx.seq
      (Rx.rep (Rx.alt (Rx.seq (Rx.chr (· == '2')) (Rx.chr (fun c => '0' ≤ c && c ≤ '4')))
        (Rx.seq (Rx.rep (Rx.chr (· == '1')) 0 1) (Rx.chr isDec))) 0 1)
      (Rx.chr isDec))
/-- ip4_address.py:58-61: `IP4_REGEX`. -/
def ip4Rx : Rx := Rx.seq (Rx.rep (Rx.seq octetRx (Rx.chr (· == '.'))) 3 0) octetRx

/-- `strtoul(s, &end, 0)` for a text that starts with a decimal digit: the value and what follows. -/
def strtoul (s : Text) : Nat × Text :=
  let octal (c : Char) : Bool := '0' ≤ c && c ≤ '7'
  match s with
  | '0' :: x :: t =>
    if (x == 'x' || x == 'X') && (match t with | [] => false | d :: _ => isHex d) then
      (numVal 16 (t.takeWhile isHex), t.dropWhile isHex)
    else (numVal 8 (s.takeWhile octal), s.dropWhile octal)
  | '0' :: [] => (0, [])
  | _ => (numVal 10 (s.takeWhile isDec), s.dropWhile isDec)

/-- the loop of glibc's `inet_aton`: `k` more dots are allowed, `acc` is the number made of the parts so far. -/
def atonLoop : Nat → Nat → Text → Option Nat
  | k, acc, s =>
    match s with
    | [] => none
    | c :: _ =>
      if !isDec c then none
      else
        let r := strtoul s
        if r.1 > 0xFFFFFFFF then none
        else
          match r.2, k with
          | '.' :: t, k + 1 => if r.1 > 255 then none else atonLoop k (acc * 256 + r.1) t
          | '.' :: _, 0 => none
          | [], k => if r.1 ≥ 256 ^ (k + 1) then none else some (acc * 256 ^ (k + 1) + r.1)
          | e :: _, k =>
            if !(e == ' ' || (9 ≤ e.toNat && e.toNat ≤ 13)) then none
            else if r.1 ≥ 256 ^ (k + 1) then none else some (acc * 256 ^ (k + 1) + r.1)

/-- `socket.inet_aton`, read as an integer; `none` is `OSError`. -/
def inetAton (s : Text) : Option Nat := atonLoop 3 0 s

/-- ip4_address.py:107-115, :121: constructor from text.  A text with a NUL character makes `inet_aton` raise `ValueError`. -/
def Ip4Address.ofText (s : Text) : Py Ip4Address :=
  if Rx.search ip4Rx s then
    if s.contains '\x00' then .error .valueError
    else match inetAton s with
      | some v => Ip4Address.ofInt (v : Int)
      | none => .error .formatError
  else .error .formatError

/-- ip4_address.py:123-127: `__str__` (`socket.inet_ntoa`). -/
def Ip4Address.toText (a : Ip4Address) : Text := pyJoin ['.'] (a.toBytes.map (fun b => decText b.toNat))

/-- ip4_address.py:276-294: `Ip4Mask` from text, `/n` or dotted. -/
def Ip4Mask.ofText (s : Text) : Py Ip4Mask :=
  let dotted : Py Ip4Mask :=
    if Rx.search ip4Rx s then
      if s.contains '\x00' then .error .valueError
      else match inetAton s with
        | some v => Ip4Mask.ofInt (v : Int)
        | none => .error .formatError
    else .error .formatError
  if Rx.whole (Rx.seq (Rx.chr (· == '/')) (Rx.rep (Rx.chr isDec) 1 1)) s then
    match pyInt (s.drop 1) with
    | .ok n => if 0 ≤ n ∧ n < 33 then Ip4Mask.ofPrefix n.toNat else dotted
    | .error e => .error e
  else dotted

/-- ip_address.py:249-253: `__str__` of a mask. -/
def maskText (len : Nat) : Text := '/' :: decText len

/-- `int("1" * n + "0" * (32 - n), 2)`: a negative factor gives the empty string (one of the two is never empty). -/
def onesZeros32 (n : Int) : Nat :=
  (List.replicate n.toNat true ++ List.replicate (32 - n).toNat false).foldl (fun acc b => 2 * acc + b.toNat) 0

/-- ip4_address.py:330-343, :349: `Ip4Network` from text. -/
def Ip4Network.ofText (s : Text) : Py Ip4Network :=
  match pySplit '/' s with
  | [address, mask] =>
    match pyInt mask with
    | .error _ => .error .formatError
    | .ok n =>
      match Ip4Mask.ofInt (onesZeros32 n : Int) with
      | .error _ => .error .formatError
      | .ok m =>
        match Ip4Address.ofText address with
        | .error _ => .error .formatError
        | .ok a => .ok (Ip4Network.ofMask a m)
  | _ => .error .formatError

/-- ip4_address.py:419-426, :433: `Ip4Host` from text.  (A rejected network is reported with the exception of the network class.) -/
def Ip4Host.ofText (s : Text) : Py Ip4Host :=
  match pySplit '/' s with
  | [address, _] =>
    match Ip4Address.ofText address with
    | .error _ => .error .formatError
    | .ok a =>
      match Ip4Network.ofText s with
      | .error _ => .error .formatError
      | .ok n => .ok (Ip4Host.ofNetwork a n)
  | _ => .error .formatError

/-- ip_address.py:327-331: `__str__` of a network. -/
def Ip4Network.toText (n : Ip4Network) : Text := n.address.toText ++ '/' :: decText n.mask.len
/-- ip_address.py:425-429: `__str__` of a host. -/
def Ip4Host.toText (h : Ip4Host) : Text := h.address.toText ++ '/' :: decText h.network.mask.len

/-! ### IPv6 -/

/-- `[0-9a-fA-F]{1,4}` -/
def h16Rx : Rx := Rx.rep (Rx.chr isHex) 1 3
/-- `:` -/
def colonRx : Rx := Rx.chr (· == ':')
/-- `([0-9a-fA-F]{1,4}:){n,n+k}` -/
def h16sRx (n k : Nat) : Rx := Rx.rep (Rx.seq h16Rx colonRx) n k
/-- `(:[0-9a-fA-F]{1,4}){n,n+k}` -/
def colonsRx (n k : Nat) : Rx := Rx.rep (Rx.seq colonRx h16Rx) n k
/-- ip6_address.py:56-66: `IP6_REGEX`. -/
def ip6Rx : Rx :=
  Rx.alt (Rx.seq (h16sRx 7 0) h16Rx)
    (Rx.alt (Rx.seq (h16sRx 1 6) colonRx)
      (Rx.alt (Rx.seq (h16sRx 1 5) (Rx.seq colonRx h16Rx))
        (Rx.alt (Rx.seq (h16sRx 1 4) (colonsRx 1 1))
          (Rx.alt (Rx.seq (h16sRx 1 3) (colonsRx 1 2))
            (Rx.alt (Rx.seq (h16sRx 1 2) (colonsRx 1 3))
              (Rx.alt (Rx.seq (h16sRx 1 1) (colonsRx 1 4))
                (Rx.alt (Rx.seq h16Rx (Rx.seq colonRx (colonsRx 1 5)))
                  (Rx.seq colonRx (Rx.alt (colonsRx 1 6) colonRx)))))))))

/-- the loop of glibc's `inet_pton4`: finished octets, the one being read, the rest -/
def pton4Loop : List Nat → Option Nat → Text → Option (List Nat)
  | acc, cur, [] =>
    match cur with
    | some v => if acc.length + 1 < 4 then none else some (acc ++ [v])
    | none => none
  | acc, cur, c :: t =>
    if isDec c then
      if cur = some 0 then none
      else
        let new := cur.getD 0 * 10 + digitVal c
        if new > 255 then none
        else if cur = none ∧ acc.length + 1 > 4 then none
        else pton4Loop acc (some new) t
    else
      match cur with
      | some v => if c = '.' then (if acc.length + 1 = 4 then none else pton4Loop (acc ++ [v]) none t) else none
      | none => none

/-- the end of glibc's `inet_pton6`: a last group, then the zeros for `::` (at position `colonp`) -/
def pton6End (tp : List Nat) (colonp : Option Nat) : Option (List Nat) :=
  match colonp with
  | some p => if tp.length = 16 then none else some (tp.take p ++ List.replicate (16 - tp.length) 0 ++ tp.drop p)
  | none => if tp.length = 16 then some tp else none

/-- the loop of glibc's `inet_pton6`: bytes so far, position of `::`, start of the current token, digits seen, their value, the rest -/
def pton6Loop (tp : List Nat) (colonp : Option Nat) (curtok : Text) (seen val : Nat) : Text → Option (List Nat)
  | [] =>
    if seen > 0 then
      if tp.length + 2 > 16 then none else pton6End (tp ++ [val / 256, val % 256]) colonp
    else pton6End tp colonp
  | ch :: src =>
    if isHex ch then
      if seen = 4 then none else pton6Loop tp colonp curtok (seen + 1) (val * 16 + digitVal ch) src
    else if ch = ':' then
      if seen = 0 then
        if colonp.isSome then none else pton6Loop tp (some tp.length) src 0 val src
      else if src = [] then none
      else if tp.length + 2 > 16 then none
      else pton6Loop (tp ++ [val / 256, val % 256]) colonp src 0 0 src
    else if ch = '.' ∧ tp.length + 4 ≤ 16 then
      match pton4Loop [] none curtok with
      | some o => pton6End (tp ++ o) colonp
      | none => none
    else none

/-- `socket.inet_pton(AF_INET6, s)` as in glibc; `none` is `OSError`. -/
def inetPton6 (s : Text) : Option (List Nat) :=
  match s with
  | [] => none
  | c :: t =>
    if c = ':' then
      match t with
      | ':' :: _ => pton6Loop [] none t 0 0 t
      | _ => none
    else pton6Loop [] none s 0 0 s

/-- ip6_address.py:115-126, :132: constructor from text. -/
def Ip6Address.ofText (s : Text) : Py Ip6Address :=
  if Rx.search ip6Rx s then
    if s.contains '\x00' then .error .valueError
    else match inetPton6 s with
      | some b => Ip6Address.ofBytes (b.map UInt8.ofNat)
      | none => .error .formatError
  else .error .formatError

/-- the longest run of zero words (the first of them, at least two words), as glibc's `inet_ntop6` finds it: position, words, run being
read, best run -/
def bestRunLoop : Nat → List Bool → Option (Nat × Nat) → Option (Nat × Nat) → Option (Nat × Nat)
  | _, [], cur, best =>
    let best := match cur, best with
      | some c, some b => if c.2 > b.2 then some c else some b
      | some c, none => some c
      | none, b => b
    match best with
    | some b => if b.2 < 2 then none else some b
    | none => none
  | i, true :: t, cur, best =>
    bestRunLoop (i + 1) t (match cur with | some c => some (c.1, c.2 + 1) | none => some (i, 1)) best
  | i, false :: t, cur, best =>
    bestRunLoop (i + 1) t none (match cur, best with
      | some c, some b => if c.2 > b.2 then some c else some b
      | some c, none => some c
      | none, b => b)

/-- glibc's `inet_ntop6`, formatting: index, words still to print; `best` is the run printed as `::`, `v4` the text of the last four bytes
and `w5` the sixth word. -/
def ntop6Loop (best : Option (Nat × Nat)) (v4 : Text) (w5 : Nat) : Nat → List Nat → Text
  | _, [] =>
    match best with
    | some (p, l) => if p + l = 8 then [':'] else []
    | none => []
  | i, w :: t =>
    let body : Text :=
      (if i = 0 then [] else [':']) ++
        (if i = 6 ∧ (best = some (0, 6) ∨ (best = some (0, 5) ∧ w5 = 0xFFFF)) then v4
         else hexText w ++ ntop6Loop best v4 w5 (i + 1) t)
    match best with
    | some (p, l) =>
      if p ≤ i ∧ i < p + l then (if i = p then [':'] else []) ++ ntop6Loop best v4 w5 (i + 1) t
      else body
    | none => body

/-- `socket.inet_ntop(AF_INET6, b)` for the eight words. -/
def inetNtop6 (w : List Nat) : Text :=
  let v4 := pyJoin ['.'] ([w.getD 6 0 / 256, w.getD 6 0 % 256, w.getD 7 0 / 256, w.getD 7 0 % 256].map decText)
  ntop6Loop (bestRunLoop 0 (w.map (· == 0)) none none) v4 (w.getD 5 0) 0 w

/-- 16-bit words of a byte string -/
def be16s : Bytes → List Nat
  | a :: b :: t => (a.toNat * 256 + b.toNat) :: be16s t
  | _ => []

/-- ip6_address.py:134-137: `__str__`. -/
def Ip6Address.toText (a : Ip6Address) : Text := inetNtop6 (be16s a.toBytes)

/-- ip6_address.py:272-276, :282: `Ip6Mask` from text, `/n`. -/
def Ip6Mask.ofText (s : Text) : Py Ip6Mask :=
  if Rx.whole (Rx.seq (Rx.chr (· == '/')) (Rx.rep (Rx.chr isDec) 1 2)) s then
    match pyInt (s.drop 1) with
    | .ok n => if 0 ≤ n ∧ n < 129 then Ip6Mask.ofPrefix n.toNat else .error .formatError
    | .error e => .error e
  else .error .formatError

/-- ip6_address.py:324-334, :340: `Ip6Network` from text. -/
def Ip6Network.ofText (s : Text) : Py Ip6Network :=
  match pySplit '/' s with
  | [address, mask] =>
    match Ip6Mask.ofText ('/' :: mask) with
    | .error _ => .error .formatError
    | .ok m =>
      match Ip6Address.ofText address with
      | .error _ => .error .formatError
      | .ok a => .ok (Ip6Network.ofMask a m)
  | _ => .error .formatError

/-- ip6_address.py:419-426, :433: `Ip6Host` from text. -/
def Ip6Host.ofText (s : Text) : Py Ip6Host :=
  match pySplit '/' s with
  | [address, _] =>
    match Ip6Address.ofText address with
    | .error _ => .error .formatError
    | .ok a =>
      match Ip6Network.ofText s with
      | .error _ => .error .formatError
      | .ok n => .ok (Ip6Host.ofNetwork a n)
  | _ => .error .formatError

/-- ip_address.py:327-331: `__str__` of a network. -/
def Ip6Network.toText (n : Ip6Network) : Text := n.address.toText ++ '/' :: decText n.mask.len
/-- ip_address.py:425-429: `__str__` of a host. -/
def Ip6Host.toText (h : Ip6Host) : Text := h.address.toText ++ '/' :: decText h.network.mask.len

/-! ### Either version -/

/-- lib/ip_helper.py:85-97: `str_to_ip` (`.error` if the text has a NUL character where an address is looked for). -/
def strToIp (s : Text) : Py (Option (Ip6Address ⊕ Ip4Address)) :=
  match Ip6Address.ofText s with
  | .ok a => .ok (some (.inl a))
  | .error .formatError =>
    match Ip4Address.ofText s with
    | .ok a => .ok (some (.inr a))
    | .error .formatError => .ok none
    | .error e => .error e
  | .error e => .error e

/-- lib/ip_helper.py:71-82: `ip_version`. -/
def ipVersion (s : Text) : Py (Option Nat) :=
  match Ip6Address.ofText s with
  | .ok _ => .ok (some 6)
  | .error .formatError =>
    match Ip4Address.ofText s with
    | .ok _ => .ok (some 4)
    | .error .formatError => .ok none
    | .error e => .error e
  | .error e => .error e

end Verif
