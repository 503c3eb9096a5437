import Verif.Model.Tx
/-!
Packets sent in fragments, with thread switches: `_phtx_ip4` (`/repo/pytcp/protocols/ip4/phtx.py:285-321`) and `_phtx_ip6_ext_frag`
(`/repo/pytcp/protocols/ip6_ext_frag/phtx.py:54-104`) raise the counter `self.ip4_id` or `self.ip6_id` by one and then read it again for every
fragment, and any number of threads (those of the applications, the timer's, the receive loop's) may be in these functions at a time.  No
lock is held.  A step of a thread touches the counter at most once.

Simplifications: what comes before the counter is raised (validation, assembly, cutting up) is one step, as the counters have no part in it and
the addresses of the stack stay the same; so is the transmission of a packet that needs no fragmentation.
-/
namespace Verif.Senders

/-- From where and to where a packet is sent in fragments, and what it carries. -/
inductive Way where
  | v4 (src dst : Ip4Address) (ttl proto : Nat)
  | v6 (src dst : Ip6Address) (next : Nat)
  deriving DecidableEq

/-- Where a call is. -/
inductive Pos where
  /-- ip4/phtx.py:292, ip6_ext_frag/phtx.py:70: about to raise the counter -/
  | start
  /-- the same line: the counter has been read, and one more is about to be written -/
  | held (v : Nat)
  /-- ip4/phtx.py:294, ip6_ext_frag/phtx.py:72: about to go on to the next fragment -/
  | loop
  /-- ip4/phtx.py:302, ip6_ext_frag/phtx.py:77: the counter has been read for a fragment, which is about to be sent -/
  | built (id : Nat)
  /-- the call has returned, or raised -/
  | done (r : Py TxStatus)

/-- A call that sends a packet in fragments. -/
structure Job where
  way : Way
  /-- `data_frags` -/
  frags : List Bytes
  pos : Pos := .start
  /-- how many fragments have been sent, and `offset` -/
  i : Nat := 0
  offset : Nat := 0
  sts : List TxStatus := []

/-- The transmit side of the packet handler. -/
structure St where
  stack : Stack
  /-- all the calls that have had to send in fragments, in the order in which they began -/
  jobs : List Job := []
  /-- the packets queued; a fragment with the number of its call and the identification the call read for it -/
  out : List (Option (Nat × Nat) × Outgoing) := []

inductive Step where
  /-- a call of `_phtx_ip4` up to the point where the counter is raised; `arp`: the answers of the ARP cache -/
  | ip4 (arp : ArpLookup) (src dst : Ip4Address) (ttl : Nat) (c : L4)
  /-- a call of `_phtx_ip6` up to that point -/
  | ip6 (nd : NdLookup) (src dst : Ip6Address) (hop : Nat) (c : L4)
  /-- the k-th call raises the counter, with no thread switch in between -/
  | bump (k : Nat)
  /-- the k-th call reads the counter in order to raise it -/
  | load (k : Nat)
  /-- the k-th call writes the counter -/
  | store (k : Nat)
  /-- the k-th call reads the counter for the next fragment, or finds that there is none left -/
  | build (k : Nat)
  /-- the k-th call sends that fragment -/
  | emit (k : Nat) (arp : ArpLookup) (nd : NdLookup)

/-- `self.ip4_id` or `self.ip6_id`, as the call uses it. -/
def Way.id (s : Stack) : Way → Nat
  | .v4 .. => s.ip4Id
  | .v6 .. => s.ip6Id

def Way.setId (s : Stack) (v : Nat) : Way → Stack
  | .v4 .. => { s with ip4Id := v }
  | .v6 .. => { s with ip6Id := v }

/-- ip4/phtx.py:232-291: `_phtx_ip4` up to the point where the counter is raised: the result, or the fragments to be sent. -/
def begin4 (s : Stack) (arp : ArpLookup) (src dst : Ip4Address) (ttl : Nat) (c : L4) : Py (TxStatus × List Outgoing ⊕ Way × List Bytes) :=
  if ¬ (0 < ttl ∧ ttl < 256) then .error .assertionError
  else match validateSrcIp4 s src dst c.kind with
  | .error e => .ok (.inl (e, []))
  | .ok src => match validateDstIp4 dst with
    | .error e => .ok (.inl (e, []))
    | .ok dst =>
      let h := packetTx src dst ttl c.proto
      match h.asserts with
      | .error e => .error e
      | .ok () =>
        if h.hlen + c.len ≤ s.mtu then
          match phtxEther s arp (fun _ => none) .zero .zero (.ip4 h c.toCarried) with
          | .error e => .error e
          | .ok r => .ok (.inl r)
        else
          match (do
            let ps ← Ip4.pshdrSum src dst c.proto c.len
            let data ← c.assemble ps
            dataFrags data ((s.mtu - h.hlen) &&& 0b1111111111111000)) with
          | .error e => .error e
          | .ok frags => .ok (.inr (.v4 src dst ttl c.proto, frags))

/-- ip6/phtx.py:208-269 with ip6_ext_frag/phtx.py:60-69: the same for `_phtx_ip6`. -/
def begin6 (s : Stack) (nd : NdLookup) (src dst : Ip6Address) (hop : Nat) (c : L4) : Py (TxStatus × List Outgoing ⊕ Way × List Bytes) :=
  match phtxIp6Small s nd src dst hop c with
  | .error e => .error e
  | .ok (.inl r) => .ok (.inl r)
  | .ok (.inr (src, dst)) =>
    match (do
      let ps ← Ip6.pshdrSum src dst c.len c.proto
      let data ← c.assemble ps
      dataFrags data ((s.mtu - 40 - 8) &&& 0b1111111111111000)) with
    | .error e => .error e
    | .ok frags => .ok (.inr (.v6 src dst c.proto, frags))

/-- ip4/phtx.py:295-308, ip6_ext_frag/phtx.py:73-95: one fragment is built with the identification `id` and sent. -/
def Way.send (s : Stack) (arp : ArpLookup) (nd : NdLookup) (id offset : Nat) (mf : Bool) (d : Bytes) : Way → Py (TxStatus × List Outgoing)
  | .v4 src dst ttl proto => sendFragIp4 s (fun _ => arp) src dst ttl proto id offset mf d
  | .v6 src dst next => sendFragIp6 s (fun _ => nd) src dst next id offset mf d

/-- ip4/phtx.py:310-321, ip6_ext_frag/phtx.py:97-104 -/
def Way.status (sts : List TxStatus) : Way → TxStatus
  | .v4 .. => mostSevere severityIp4 .dropIp4Unknown sts
  | .v6 .. => mostSevere severityIp6 .dropIp6ExtFragUnknown sts

namespace St

/-- The call `k` is now at `j`. -/
def put (s : St) (k : Nat) (j : Job) : St := { s with jobs := s.jobs.set k j }

/-- What a call does that has got so far. -/
def began (s : St) : Py (TxStatus × List Outgoing ⊕ Way × List Bytes) → St
  | .error _ => s
  | .ok (.inl (_, outs)) => { s with out := s.out ++ outs.map fun o => (none, o) }
  | .ok (.inr (w, frags)) => { s with jobs := s.jobs ++ [{ way := w, frags := frags }] }

/-- A step of a thread.  One that its thread cannot make at this point changes nothing. -/
def step (s : St) : Step → St
  | .ip4 arp src dst ttl c => s.began (begin4 s.stack arp src dst ttl c)
  | .ip6 nd src dst hop c => s.began (begin6 s.stack nd src dst hop c)
  | .bump k =>
    match s.jobs[k]? with
    | some j =>
      match j.pos with
      | .start => { s.put k { j with pos := .loop } with stack := j.way.setId s.stack (j.way.id s.stack + 1) }
      | _ => s
    | none => s
  | .load k =>
    match s.jobs[k]? with
    | some j =>
      match j.pos with
      | .start => s.put k { j with pos := .held (j.way.id s.stack) }
      | _ => s
    | none => s
  | .store k =>
    match s.jobs[k]? with
    | some j =>
      match j.pos with
      | .held v => { s.put k { j with pos := .loop } with stack := j.way.setId s.stack (v + 1) }
      | _ => s
    | none => s
  | .build k =>
    match s.jobs[k]? with
    | some j =>
      match j.pos with
      | .loop => if j.i < j.frags.length then s.put k { j with pos := .built (j.way.id s.stack) }
          else s.put k { j with pos := .done (.ok (j.way.status j.sts)) }
      | _ => s
    | none => s
  | .emit k arp nd =>
    match s.jobs[k]? with
    | some j =>
      match j.pos, j.frags[j.i]? with
      | .built id, some d =>
        match j.way.send s.stack arp nd id j.offset (decide (j.i + 1 < j.frags.length)) d with
        | .error e => s.put k { j with pos := .done (.error e) }
        | .ok (st, outs) =>
          { s.put k { j with pos := .loop, i := j.i + 1, offset := j.offset + d.length, sts := j.sts ++ [st] } with
            out := s.out ++ outs.map fun o => (some (k, id), o) }
      | _, _ => s
    | none => s

def run (s : St) (xs : List Step) : St := xs.foldl step s

end St
end Verif.Senders
