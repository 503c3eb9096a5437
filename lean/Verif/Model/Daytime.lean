import Verif.Model.Echo
/-!
The UDP daytime and discard services among the examples (`/repo/examples/udp_daytime_service.py`, `/repo/examples/udp_discard_service.py`) on a
host.  The simplifications of `Model/Echo.lean` hold here, too; both are started as the echo service is (`Echo.start`: the same base class).
-/
namespace Verif.Daytime
open Echo

/-- What `datetime.now()` gives (without a time zone). -/
structure Now where
  year : Nat
  month : Nat
  day : Nat
  hour : Nat
  minute : Nat
  second : Nat
  micro : Nat
deriving DecidableEq

/-- Python's `"%0wd" % n`, for `n < 10 ** w`. -/
def pad : Nat → Nat → Bytes
  | 0, _ => []
  | w + 1, n => pad w (n / 10) ++ [UInt8.ofNat (48 + n % 10)]

/-- Python's `str` of a `datetime`, as UTF-8: `isoformat(" ")`, which leaves the microseconds out when there are none. -/
def str (n : Now) : Bytes :=
  pad 4 n.year ++ (45 :: pad 2 n.month) ++ (45 :: pad 2 n.day) ++ (32 :: pad 2 n.hour) ++ (58 :: pad 2 n.minute) ++ (58 :: pad 2 n.second) ++
    (if n.micro = 0 then [] else 46 :: pad 6 n.micro)

/-- examples/udp_daytime_service.py:74-81: one round of the loop of `service`, on the socket `r`, when `datetime.now()` gives `now`. -/
def round (h : Host) (r choice : Nat) (now : Now) : Host × Round :=
  match h.node.socks.recvfrom r with
  | (_, .error .receiveTimeout) => (h, .waits)
  | (ss, .error e) => (h.withSocks ss, .died e)
  | (ss, .ok (_, ip, port)) =>
    match (h.withSocks ss).sendto r (str now) (some ip) port choice with
    | (h', .error e) => (h', .died e)
    | (h', .ok (n, outs)) => (h', .answered ip port (str now) n outs)

/-- One event, and what the clock says then. -/
def step (r : Nat) (s : Service) : Ev × Now → Service
  | (.frame t₀ t₁ t depth F, _) =>
    { s with host := (s.host.receive t₀ t₁ t depth F).1, log := s.log ++ (broughtBy r s.host t₀ t₁ t depth F).map .came }
  | (.round choice, now) =>
    if s.alive then
      match round s.host r choice now with
      | (_, .waits) => s
      | (h, .died _) => { s with host := h, alive := false }
      | (h, .answered ip port data n outs) => { s with host := h, log := s.log ++ [.answered ip port data n outs] }
    else s
  | (.caches arp nd, _) => { s with host := { s.host with arp := arp, nd := nd } }

def run (r : Nat) (s : Service) (evs : List (Ev × Now)) : Service := evs.foldl (step r) s

end Verif.Daytime

namespace Verif.Discard
open Echo

/-- How a round of the loop has gone. -/
inductive Round where
  /-- `recvfrom` waits (it has no timeout) -/
  | waits
  /-- `recvfrom` has returned this -/
  | took (data : Bytes) (ip : IpAddress) (port : Nat)
  /-- an exception, which nothing catches: the thread has ended -/
  | died (e : PyErr)

/-- examples/udp_discard_service.py:73-78: one round of the loop of `service`, on the socket `r`. -/
def round (h : Host) (r : Nat) : Host × Round :=
  match h.node.socks.recvfrom r with
  | (_, .error .receiveTimeout) => (h, .waits)
  | (ss, .error e) => (h.withSocks ss, .died e)
  | (ss, .ok (message, ip, port)) => (h.withSocks ss, .took message ip port)

structure Service where
  host : Host
  /-- the service's thread has not ended -/
  alive : Bool
  /-- the datagrams handed to the service's socket (this record and the next two are the model's own) -/
  came : List UdpMd
  /-- what `recvfrom` has returned to the service -/
  took : List (Bytes × IpAddress × Nat)
  /-- the frames that the host has queued for sending -/
  sent : List Outgoing

/-- One event. -/
def step (r : Nat) (s : Service) : Ev → Service
  | .frame t₀ t₁ t depth F =>
    match s.host.receive t₀ t₁ t depth F with
    | (h, out) => { s with host := h, came := s.came ++ broughtBy r s.host t₀ t₁ t depth F, sent := s.sent ++ (match out with | .ok outs => outs | .error _ => []) }
  | .round _ =>
    if s.alive then
      match round s.host r with
      | (_, .waits) => s
      | (h, .died _) => { s with host := h, alive := false }
      | (h, .took data ip port) => { s with host := h, took := s.took ++ [(data, ip, port)] }
    else s
  | .caches arp nd => { s with host := { s.host with arp := arp, nd := nd } }

def run (r : Nat) (s : Service) (evs : List Ev) : Service := evs.foldl (step r) s

end Verif.Discard
