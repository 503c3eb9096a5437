import Verif.Model.Dict
import Verif.Model.Tx
/-!
The ARP and neighbour caches (`/repo/pytcp/subsystems/arp_cache.py`, `/repo/pytcp/subsystems/nd_cache.py`).  The two classes are
the same code up to the address type and the packet sent to look a neighbour up, so they are modelled once over an address
type `A`; a request is the address asked for, and `Host.arpRequest` and `Host.ndRequest` (`Model/Host.lean`) say which packet that is.

Simplifications: log lines are left out; times are integers (microseconds); a visit of the maintenance thread to one entry and
a call of `add_entry`/`find_entry` are atomic, while calls may come between any two visits.
-/
namespace Verif

/-- arp_cache.py:57-71, nd_cache.py:61-75 -/
structure CacheEntry where
  mac : MacAddress
  permanent : Bool
  created : Int
  hits : Nat
  deriving DecidableEq

/-- arp_cache.py:77, nd_cache.py:82 -/
abbrev Cache (A : Type) := Dict A CacheEntry

namespace Cache
variable {A : Type} [DecidableEq A]

/-- config.py: ARP_CACHE_ENTRY_MAX_AGE, ND_CACHE_ENTRY_MAX_AGE (in microseconds) -/
def maxAge : Int := 3600000000
/-- config.py: ARP_CACHE_ENTRY_REFRESH_TIME, ND_CACHE_ENTRY_REFRESH_TIME (in microseconds) -/
def refreshTime : Int := 300000000

/-- arp_cache.py:144-155, nd_cache.py:149-160: `add_entry`, at time `t`. -/
def add (c : Cache A) (ip : A) (mac : MacAddress) (t : Int) : Cache A := c.set ip ⟨mac, false, t, 0⟩

/-- arp_cache.py:157-177, nd_cache.py:162-183: `find_entry`; its result and the requests it sends. -/
def find (c : Cache A) (ip : A) : Cache A × Option MacAddress × List A :=
  match c.get? ip with
  | some e => (c.set ip { e with hits := e.hits + 1 }, some e.mac, [])
  | none => (c, none, [ip])

/-- arp_cache.py:106-113, nd_cache.py:111-118: the entry is found too old. -/
def expired (e : CacheEntry) (t : Int) : Bool := !e.permanent && t - e.created > maxAge

/-- arp_cache.py:105-137, nd_cache.py:110-142: one round of the maintenance loop's body, for one address; `t` and `t'` are the two
clock readings.  Its result and the requests it sends. -/
def visit (c : Cache A) (ip : A) (t t' : Int) : Cache A × Py (List A) :=
  match c.get? ip with
  | none => (c, .error .keyError)
  | some e =>
    if e.permanent then (c, .ok [])
    else if t - e.created > maxAge then (c.erase ip, .ok [])
    else if t' - e.created > maxAge - refreshTime && e.hits ≠ 0 then (c.set ip { e with hits := 0 }, .ok [ip])
    else (c, .ok [])

/-- A call of one of the two methods or a round of the maintenance loop. -/
inductive Ev (A : Type) where
  | add (ip : A) (mac : MacAddress) (t : Int)
  | find (ip : A)
  | visit (ip : A) (t t' : Int)

/-- What can be seen of it: the value `find_entry` returns and the requests sent. -/
structure Out (A : Type) where
  found : Option MacAddress
  requests : Py (List A)
  deriving DecidableEq

/-- One step. -/
def step (c : Cache A) : Ev A → Cache A × Out A
  | .add ip mac t => (add c ip mac t, ⟨none, .ok []⟩)
  | .find ip => ((find c ip).1, ⟨(find c ip).2.1, .ok (find c ip).2.2⟩)
  | .visit ip t t' => ((visit c ip t t').1, ⟨none, (visit c ip t t').2⟩)

/-- The state after a history. -/
def run (c : Cache A) (evs : List (Ev A)) : Cache A := evs.foldl (fun c e => (step c e).1) c

end Cache

/-- arp_cache.py:179-193: the arguments given to `_phtx_arp` (the Ethernet header's addresses come first). -/
def Stack.arpRequest (s : Stack) (tpa : Ip4Address) : MacAddress × MacAddress × Pkt :=
  (s.mac, .broadcast, .arp 1 s.mac (match s.ip4Unicast with | a :: _ => a | [] => .zero) .zero tpa)

/-- nd_cache.py:185-206: the source address given to `_phtx_icmp6` for a neighbour solicitation: the last one whose network
has the target. -/
def Stack.ndSource (s : Stack) (target : Ip6Address) : Ip6Address :=
  s.ip6Host.foldl (fun src h => if h.network.contains target then h.address else src) .zero

end Verif
