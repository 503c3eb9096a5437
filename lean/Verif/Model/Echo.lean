import Verif.Model.Host
/-!
The UDP echo service among the examples (`/repo/examples/udp_echo_service.py`, `/repo/examples/lib/udp_service.py`, `/repo/examples/lib/malpi.py`)
on a host.

Simplifications: a round of the loop of `service` is one step, and so is the handling of a frame; the address that `recvfrom` returns
is a pair of a text and a port in Python, and is an address and a port here (`str` and parsing again are in `Model/AddrText.lean`, C13);
what is printed is left out; the addresses of the host do not change, and the neighbour caches may become anything at any time.
-/
namespace Verif.Echo

/-- Python's `bytes.strip()`, without arguments: what it takes away at both ends. -/
def isSpace (b : UInt8) : Bool := b = 32 || (9 ≤ b && b ≤ 13)
def strip (d : Bytes) : Bytes := ((d.dropWhile isSpace).reverse.dropWhile isSpace).reverse

/-- Python's `bytes.lower()`: A to Z become a to z. -/
def lower1 (b : UInt8) : UInt8 := if 65 ≤ b && b ≤ 90 then b + 32 else b
def lower (d : Bytes) : Bytes := d.map lower1

/-- Python's `w in d`, for two byte strings. -/
def within (w : Bytes) : Bytes → Bool
  | [] => w.isPrefixOf []
  | b :: d => w.isPrefixOf (b :: d) || within w d

/-- The bytes of an ASCII literal. -/
def ascii (s : String) : Bytes := s.toList.map fun c => UInt8.ofNat c.toNat

/-- examples/lib/malpi.py:38-60: `malpka`, as its lines. -/
def malpkaLines : List Bytes := [
  [],
  ascii "                                       ",
  ascii "                                       ",
  ascii "                                       ",
  ascii "                                       ",
  ascii "               .=\"=.                   ",
  ascii "             _/.-.-.\\_    _            ",
  ascii "            ( ( o o ) )   ))           ",
  ascii "             |/  \"  \\|   //            ",
  ascii "              \\'---'/   //             ",
  ascii "              /`---`\\  ((              ",
  ascii "             / /_,_\\ \\  \\\\             ",
  ascii "             \\_\\_'__/ \\  ))            ",
  ascii "             /`  /`~\\  |//             ",
  ascii "            /   /    \\  /              ",
  ascii "        ,--`,--'\\/\\    /               ",
  ascii "         '-- \"--'  '--'                ",
  ascii "                                       ",
  ascii "                                       ",
  ascii "                                       ",
  ascii "                                       ",
  ascii "                                       "]

/-- examples/lib/malpi.py:62-83: `malpa`, as its lines. -/
def malpaLines : List Bytes := [
  [],
  ascii "______AAAA_______________AAAA______",
  ascii "      VVVV               VVVV       ",
  ascii "      (__)               (__)       ",
  ascii "       \\ \\               / /        ",
  ascii "        \\ \\              / /         ",
  ascii "         > \\   .=\"=.   / <          ",
  ascii "          > \\ /     \\ / <           ",
  ascii "           > \\\\_o_o_// <            ",
  ascii "            > ( (_) ) <             ",
  ascii "             >|     |<              ",
  ascii "            / |\\___/| \\             ",
  ascii "            / \\_____/ \\             ",
  ascii "            /         \\             ",
  ascii "             /   o   \\              ",
  ascii "              ) ___ (               ",
  ascii "             / /   \\ \\              ",
  ascii "            ( /     \\ )             ",
  ascii "            ><       ><             ",
  ascii "           ///\\     /\\\\\\            ",
  ascii "           '''       '''            "]

/-- The lines, each with its newline. -/
def picture (ls : List Bytes) : Bytes := (ls.map (· ++ [10])).flatten
def malpka : Bytes := picture malpkaLines
def malpa : Bytes := picture malpaLines

/-- examples/lib/malpi.py:86-88: `malpi`; `split(b"\n")` gives one more, empty, line at the end of each. -/
def malpi : Bytes := picture ((malpkaLines ++ [[]]).zipWith (· ++ ·) (malpaLines ++ [[]]))

/-- examples/udp_echo_service.py:82-87: what is sent back for `message`. -/
def answer (message : Bytes) : Bytes :=
  if within (ascii "malpka") (lower (strip message)) then malpka
  else if within (ascii "malpa") (lower (strip message)) then malpa
  else if within (ascii "malpi") (lower (strip message)) then malpi
  else message

/-- How a round of the loop has gone. -/
inductive Round where
  /-- `recvfrom` waits (it has no timeout) -/
  | waits
  /-- `sendto(data, (ip, port))` has returned `n`, and these frames have been queued -/
  | answered (ip : IpAddress) (port : Nat) (data : Bytes) (n : Nat) (outs : List Outgoing)
  /-- an exception, which nothing catches: the thread has ended -/
  | died (e : PyErr)

/-- examples/udp_echo_service.py:74-94: one round of the loop of `service`, on the socket `r` (while the service is not stopped). -/
def round (h : Host) (r choice : Nat) : Host × Round :=
  match h.node.socks.recvfrom r with
  | (_, .error .receiveTimeout) => (h, .waits)
  | (ss, .error e) => (h.withSocks ss, .died e)
  | (ss, .ok (message, ip, port)) =>
    match (h.withSocks ss).sendto r (answer message) (some ip) port choice with
    | (h', .error e) => (h', .died e)
    | (h', .ok (n, outs)) => (h', .answered ip port (answer message) n outs)

/-- What has happened; this record is the model's own. -/
inductive Note where
  /-- the datagram has been handed to the service's socket -/
  | came (m : UdpMd)
  /-- as `Round.answered` -/
  | answered (ip : IpAddress) (port : Nat) (data : Bytes) (n : Nat) (outs : List Outgoing)

structure Service where
  host : Host
  /-- the service's thread has not ended -/
  alive : Bool
  log : List Note

inductive Ev where
  /-- a frame is handled -/
  | frame (t₀ t₁ t : Int) (depth : Nat) (F : Bytes)
  /-- the service's thread runs -/
  | round (choice : Nat)
  /-- the neighbour caches change -/
  | caches (arp : Cache Ip4Address) (nd : Cache Ip6Address)

/-- The datagrams for which `process_udp_packet` of the socket `r` is called, when the handlers do this, one after the other. -/
def brought (r : Nat) (t : Int) : Host → List Eff → List UdpMd
  | _, [] => []
  | h, e :: es =>
    (match e with
      | .udpDeliver r' m => if r' = r then [m] else []
      | _ => []) ++
    match h.apply t e with
    | (_, .error _) => []
    | (h, .ok _) => brought r t h es

/-- The same for a frame (see `Host.receive`). -/
def broughtBy (r : Nat) (h : Host) (t₀ t₁ t : Int) (depth : Nat) (F : Bytes) : List UdpMd :=
  match Rx.ether h.node t₀ t₁ depth F with
  | (_, .error _) => []
  | (n, .ok effs) => brought r t { h with node := n } effs

/-- One event. -/
def step (r : Nat) (s : Service) : Ev → Service
  | .frame t₀ t₁ t depth F =>
    { s with host := (s.host.receive t₀ t₁ t depth F).1, log := s.log ++ (broughtBy r s.host t₀ t₁ t depth F).map .came }
  | .round choice =>
    if s.alive then
      match round s.host r choice with
      | (_, .waits) => s
      | (h, .died _) => { s with host := h, alive := false }
      | (h, .answered ip port data n outs) => { s with host := h, log := s.log ++ [.answered ip port data n outs] }
    else s
  | .caches arp nd => { s with host := { s.host with arp := arp, nd := nd } }

def run (r : Nat) (s : Service) (evs : List Ev) : Service := evs.foldl (step r) s

/-- examples/lib/udp_service.py:91-124 (with `local_ip_address` already parsed): the socket is made and bound; `none` when the service gives up. -/
def start (h : Host) (ip : IpAddress) (port : Nat) (choice : Nat) : Option (Host × Nat) :=
  match h.node.socks.create ip.family .dgram with
  | (ss, r) =>
    match Socks.bind h.stack ss r (some ip) port choice with
    | (_, .error _) => none
    | (ss, .ok ()) => some (h.withSocks ss, r)

end Verif.Echo
