import Verif.Model.Cache
/-!
The ARP and neighbour caches (`/repo/pytcp/subsystems/arp_cache.py`, `nd_cache.py`) with a thread switch possible between any two accesses to the
dict, to an entry or to the clock: threads that send call `find_entry`, the receive thread calls `add_entry`, and the maintenance thread goes through the
entries.  No lock is held.  `Model/Cache.lean` has the same code with whole visits and calls as steps.

Simplifications: making an entry and storing it are one step (nobody else knows the entry before); sending the request is one step; log lines are left
out (the one in line 136 looks the address up once more, in the same state of the dict as far as that address being there is concerned).
-/
namespace Verif.CacheThreads
variable {A : Type} [DecidableEq A]

/-- Where a call of `find_entry` is (arp_cache.py:162-177). -/
inductive Find where
  /-- :162, about to look the address up -/
  | look
  /-- :163, about to read the hit count of the entry -/
  | bump (e : Nat)
  /-- :163, about to write it -/
  | write (e h : Nat)
  | done (r : Option MacAddress)
  deriving DecidableEq

/-- Where the maintenance thread is (arp_cache.py:104-140). -/
inductive Maint (A : Type) where
  /-- :140 -/
  | sleep
  /-- :105, the addresses to come -/
  | pass (todo : List A)
  /-- :107 -/
  | perm (ip : A) (todo : List A)
  /-- :112, about to read the clock -/
  | clock (ip : A) (todo : List A)
  /-- :112, about to read the creation time -/
  | age (ip : A) (t : Int) (todo : List A)
  /-- :115 -/
  | pop (ip : A) (todo : List A)
  /-- :126, about to read the clock -/
  | clock' (ip : A) (todo : List A)
  /-- :126, about to read the creation time -/
  | age' (ip : A) (t : Int) (todo : List A)
  /-- :129 -/
  | hits (ip : A) (todo : List A)
  /-- :130 -/
  | reset (ip : A) (todo : List A)
  /-- :131 -/
  | send (ip : A) (todo : List A)
  /-- KeyError has ended the thread -/
  | dead
  deriving DecidableEq

/-- What has happened. -/
inductive Ev (A : Type) where
  | added (ip : A) (mac : MacAddress) (t : Int)
  | removed (ip : A)
  /-- a request was sent -/
  | asked (ip : A)
  deriving DecidableEq

structure St (A : Type) where
  /-- the entries ever made -/
  objs : List CacheEntry := []
  /-- `_arp_cache` -/
  dict : Dict A Nat := []
  finds : List (A × Find) := []
  maint : Maint A := .sleep
  log : List (Ev A) := []

/-- A step of a thread. -/
inductive Step (A : Type) where
  /-- arp_cache.py:155, at time `t` -/
  | add (ip : A) (mac : MacAddress) (t : Int)
  /-- `find_entry` is called -/
  | find (ip : A)
  /-- the k-th of these calls makes its next step -/
  | go (k : Nat)
  /-- the maintenance thread makes its next step; the clock says `t` -/
  | maint (t : Int)
  deriving DecidableEq

namespace St

/-- `self._arp_cache[ip]` -/
def entry (s : St A) (ip : A) : Option CacheEntry := (s.dict.get? ip).bind (s.objs[·]?)

/-- A step of a call of `find_entry` (arp_cache.py:162-177; nd_cache.py has the same lines for IPv6). -/
def look (s : St A) (k : Nat) (ip : A) : Find → St A
  | .look =>
    match s.dict.get? ip with
    | some e => { s with finds := s.finds.set k (ip, .bump e) }
    | none => { s with finds := s.finds.set k (ip, .done none), log := s.log ++ [.asked ip] }
  | .bump e =>
    match s.objs[e]? with
    | none => s
    | some x => { s with finds := s.finds.set k (ip, .write e x.hits) }
  | .write e h =>
    match s.objs[e]? with
    | none => s
    | some x => { s with objs := s.objs.set e { x with hits := h + 1 }, finds := s.finds.set k (ip, .done (some x.mac)) }
  | .done _ => s

/-- A step of the maintenance thread (arp_cache.py:104-140). -/
def tend (s : St A) (t : Int) : St A :=
  match s.maint with
  | .sleep => { s with maint := .pass s.dict.keys }
  | .pass [] => { s with maint := .sleep }
  | .pass (ip :: todo) => { s with maint := .perm ip todo }
  | .perm ip todo =>
    match s.entry ip with
    | none => { s with maint := .dead }
    | some x => { s with maint := if x.permanent then .pass todo else .clock ip todo }
  | .clock ip todo => { s with maint := .age ip t todo }
  | .age ip t' todo =>
    match s.entry ip with
    | none => { s with maint := .dead }
    | some x => { s with maint := if t' - x.created > Cache.maxAge then .pop ip todo else .clock' ip todo }
  | .pop ip todo =>
    match s.entry ip with
    | none => { s with maint := .dead }
    | some _ => { s with maint := .pass todo, dict := s.dict.erase ip, log := s.log ++ [.removed ip] }
  | .clock' ip todo => { s with maint := .age' ip t todo }
  | .age' ip t' todo =>
    match s.entry ip with
    | none => { s with maint := .dead }
    | some x => { s with maint := if t' - x.created > Cache.maxAge - Cache.refreshTime then .hits ip todo else .pass todo }
  | .hits ip todo =>
    match s.entry ip with
    | none => { s with maint := .dead }
    | some x => { s with maint := if x.hits ≠ 0 then .reset ip todo else .pass todo }
  | .reset ip todo =>
    match s.dict.get? ip with
    | none => { s with maint := .dead }
    | some e => match s.objs[e]? with
      | none => { s with maint := .dead }
      | some x => { s with maint := .send ip todo, objs := s.objs.set e { x with hits := 0 } }
  | .send ip todo => { s with maint := .pass todo, log := s.log ++ [.asked ip] }
  | .dead => s

/-- A step of any thread. -/
def step (s : St A) : Step A → St A
  | .add ip mac t =>
    { s with objs := s.objs ++ [⟨mac, false, t, 0⟩], dict := s.dict.set ip s.objs.length, log := s.log ++ [.added ip mac t] }
  | .find ip => { s with finds := s.finds ++ [(ip, .look)] }
  | .go k =>
    match s.finds[k]? with
    | none => s
    | some (ip, f) => s.look k ip f
  | .maint t => s.tend t

def run (s : St A) (xs : List (Step A)) : St A := xs.foldl step s

end St
end Verif.CacheThreads
