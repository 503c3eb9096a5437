import Verif.Model.Socket
/-!
Sockets used by several threads: `bind`, `connect` and `sendto` as far as they change `stack.sockets` (udp/socket.py:98-203, 243-262,
tcp/socket.py:131-234, lib/socket.py:203-238), `recv`, `recvfrom` and the receive thread's `_phrx_udp` (udp/phrx.py:78-101, udp/socket.py:288-346), with
a thread switch possible between any two accesses to what the threads share: `stack.sockets`, the queue of a socket and its semaphore.  No lock is
held.  Paths are relative to `/repo/pytcp/protocols` and `/repo/pytcp`.

Simplifications: the attributes of a socket that a call changes are changed in one step, and a socket is compared with the wanted address in one
step.  A socket registered while another thread goes through `stack.sockets`, after one that was there has been taken out (so that the size is as
before), is not seen by that thread; Python leaves this open.  The addresses of the stack stay the same.  The flag for ICMP messages
(`_unreachable`) is left out of `recv`.
-/
namespace Verif.Threads

/-- How a call ends. -/
inductive Res where
  | ok
  | raised (e : PyErr)
  /-- RuntimeError: the dict changed its size while the call went through it -/
  | changed
  deriving DecidableEq

/-- What a call writes to the attributes of its socket. -/
structure Edit where
  lip : Option IpAddress := none
  lport : Nat
  remote : Option (IpAddress × Nat) := none

def Edit.apply (e : Edit) (id : SockId) : SockId :=
  let id := { id with lip := e.lip.getD id.lip, lport := e.lport }
  match e.remote with
  | some (a, p) => { id with rip := a, rport := p }
  | none => id

/-- What a local port is picked for. -/
inductive For where
  /-- udp/socket.py:160 -/
  | bind (addr : IpAddress)
  /-- udp/socket.py:188 -/
  | connect (addr : Option IpAddress) (port : Nat)
  /-- udp/socket.py:261 -/
  | sendto

/-- Where a call is. -/
inductive Pos where
  /-- udp/socket.py:154: about to look whether the address is in use -/
  | check (e : Edit) (lip : IpAddress)
  /-- lib/socket.py:224: about to go on to the next socket; those to come, and the size of the dict when the loop began -/
  | scan (e : Edit) (lip : IpAddress) (todo : List SockId) (used : Nat)
  /-- udp/socket.py:260: about to take the socket out of `stack.sockets` before a port is picked -/
  | first
  /-- lib/socket.py:208: about to collect the ports in use -/
  | enter (w : For)
  /-- lib/socket.py:209: about to go on to the next socket; those to come, the size of the dict, the ports so far -/
  | ports (w : For) (todo : List SockId) (used : Nat) (seen : List Nat)
  /-- udp/socket.py:163, 196: about to take the socket out of `stack.sockets` -/
  | pop (e : Edit)
  /-- udp/socket.py:164-165, 197-200, 261: about to write the attributes -/
  | assign (e : Edit)
  /-- udp/socket.py:166, 201, 262: about to put the socket in -/
  | insert
  | done (r : Res)

/-- A call under way; `choice`: which of the free ports `set.pop()` gives. -/
structure Call where
  sock : Nat
  choice : Nat
  pos : Pos

/-- Where the receive thread is. -/
inductive Rx where
  | idle
  /-- udp/phrx.py:90: about to look for the next pattern -/
  | look (m : UdpMd) (pats : List SockId)
  /-- udp/socket.py:345: about to put the datagram into the queue -/
  | append (r : Nat) (m : UdpMd)
  /-- udp/socket.py:346: about to release the semaphore -/
  | release (r : Nat)
  /-- udp/phrx.py:103: no socket -/
  | refuse (m : UdpMd)
  deriving DecidableEq

/-- What has happened to datagrams. -/
inductive Ev where
  /-- put into the queue of a socket -/
  | queued (r : Nat) (m : UdpMd)
  /-- returned by `recv` or `recvfrom` -/
  | got (r : Nat) (m : UdpMd)
  /-- `pop(0)` has raised IndexError -/
  | empty (r : Nat)
  /-- no socket was found -/
  | refused (m : UdpMd)
  deriving DecidableEq

structure St where
  stack : Stack
  ss : Socks := ⟨[], []⟩
  calls : List Call := []
  rx : Rx := .idle
  /-- the value of `_packet_rx_md_ready` -/
  sem : Nat → Nat := fun _ => 0
  /-- calls of `recv` and `recvfrom` that have got past the semaphore (udp/socket.py:302, 321) -/
  takers : Nat → Nat := fun _ => 0
  log : List Ev := []

/-- A step of a thread. -/
inductive Step where
  | socket (f : Family) (t : SockType)
  /-- udp/socket.py:98-153, tcp/socket.py:131-186: `bind` begins -/
  | bind (r : Nat) (addr : Option IpAddress) (port : Int) (choice : Nat)
  /-- udp/socket.py:170-193, tcp/socket.py:203-226: `connect` begins -/
  | connect (r : Nat) (addr : Option IpAddress) (port : Int) (choice : Nat)
  /-- udp/socket.py:243-259: `sendto` begins, on a socket that is not bound -/
  | sendto (r : Nat) (port : Int) (choice : Nat)
  /-- the k-th of these calls makes its next step -/
  | go (k : Nat)
  /-- udp/socket.py:338 -/
  | close (r : Nat)
  /-- tcp/socket.py:283 -/
  | listen (r : Nat)
  /-- tcp/socket.py:84-92 -/
  | accepted (id : SockId)
  /-- tcp/session.py:485 -/
  | gone (r : Nat)
  /-- udp/phrx.py:78-89: the receive thread begins with a datagram -/
  | arrive (m : UdpMd)
  /-- the receive thread makes its next step -/
  | rx
  /-- udp/socket.py:301, 320: a thread gets past the semaphore of the socket -/
  | acquire (r : Nat)
  /-- udp/socket.py:302, 321: a thread that has got past it takes the first datagram -/
  | take (r : Nat)

/-- lib/socket.py:225-237: the socket is at the wanted address. -/
def conflicts (s o : Sock) (lip : IpAddress) (lport : Nat) : Bool :=
  o.id.family = s.id.family && o.id.type = s.id.type &&
    ((o.id.lip.isUnspecified || o.id.lip = lip) || lip.isUnspecified) && o.id.lport = lport

/-- udp/socket.py:107-153: `bind` up to the first access to `stack.sockets`. -/
def beginBind (st : Stack) (s : Sock) (addr : Option IpAddress) (port : Int) : Pos :=
  if 1 ≤ s.id.lport ∧ s.id.lport < 65536 then .done (.raised .osError)
  else match addr with
  | none => .done (.raised .gaiError)
  | some a =>
    if a.family ≠ s.id.family then .done (.raised .gaiError)
    else if !(Socks.owned st a || a.isUnspecified) then .done (.raised .osError)
    else if ¬ (0 ≤ port ∧ port < 65536) then .done (.raised .overflowError)
    else if port > 0 then .check { lip := some a, lport := port.toNat } a
    else .enter (.bind a)

/-- udp/socket.py:190-193: `_set_ip_addresses` in `connect`: the socket's `_unreachable`, and how it goes on. -/
def connectTo (st : Stack) (s : Sock) (addr : Option IpAddress) (lport port : Nat) : Bool × Pos :=
  match Socks.setIpAddresses st s addr s.id.lip lport port with
  | (u, .error e) => (u, .done (.raised e))
  | (u, .ok (lip, rip)) => (u, .pop { lip := some lip, lport := lport, remote := some (rip, port) })

/-- udp/socket.py:178-193: `connect` up to the first access to `stack.sockets`. -/
def beginConnect (st : Stack) (s : Sock) (addr : Option IpAddress) (port : Int) : Bool × Pos :=
  if ¬ (0 ≤ port ∧ port < 65536) then (s.unreachable, .done (.raised .overflowError))
  else if 1 ≤ s.id.lport ∧ s.id.lport < 65536 then connectTo st s addr s.id.lport port.toNat
  else (s.unreachable, .enter (.connect addr port.toNat))

/-- lib/socket.py:211-216, with what the call does with the port. -/
def picked (st : Stack) (s : Sock) (choice : Nat) (seen : List Nat) (w : For) : Bool × Pos :=
  let available := Socks.ephemeral.filter (fun p => ¬ p ∈ seen)
  match available[choice % available.length]? with
  | none => (s.unreachable, .done (.raised .osError))
  | some p => match w with
    | .bind a => (s.unreachable, .pop { lip := some a, lport := p })
    | .connect addr port => connectTo st s addr p port
    | .sendto => (s.unreachable, .assign { lport := p })

namespace St

/-- The call `k` is now at `p`. -/
def at_ (s : St) (k : Nat) (c : Call) (p : Pos) : St := { s with calls := s.calls.set k { c with pos := p } }

/-- A step of the call `k`, on the socket `o`. -/
def go (s : St) (k : Nat) (c : Call) (o : Sock) : St :=
  match c.pos with
  | .check e lip => s.at_ k c (.scan e lip s.ss.table.keys s.ss.table.length)
  | .scan e lip todo used =>
    if s.ss.table.length ≠ used then s.at_ k c (.done .changed)
    else match todo with
      | [] => s.at_ k c (.pop e)
      | id :: todo =>
        match (s.ss.table.get? id).bind (s.ss.socks[·]?) with
        | none => s.at_ k c (.scan e lip todo used)
        | some x => s.at_ k c (if conflicts o x lip e.lport then .done (.raised .osError) else .scan e lip todo used)
  | .first => { s.at_ k c (.enter .sendto) with ss := { s.ss with table := s.ss.table.erase o.id } }
  | .enter w => s.at_ k c (.ports w s.ss.table.keys s.ss.table.length [])
  | .ports w todo used seen =>
    if s.ss.table.length ≠ used then s.at_ k c (.done .changed)
    else match todo with
      | [] =>
        let (u, p) := picked s.stack o c.choice seen w
        { s.at_ k c p with ss := s.ss.put c.sock { o with unreachable := u } }
      | id :: todo => s.at_ k c (.ports w todo used (if s.ss.table.has id then seen ++ [id.lport] else seen))
  | .pop e => { s.at_ k c (.assign e) with ss := { s.ss with table := s.ss.table.erase o.id } }
  | .assign e => { s.at_ k c .insert with ss := s.ss.put c.sock { o with id := e.apply o.id } }
  | .insert => { s.at_ k c (.done .ok) with ss := { s.ss with table := s.ss.table.set o.id c.sock } }
  | .done _ => s

/-- A call of the socket `r` begins. -/
def begin (s : St) (r choice : Nat) (f : Sock → Bool × Pos) : St :=
  match s.ss.socks[r]? with
  | none => s
  | some o => { s with ss := s.ss.put r { o with unreachable := (f o).1 }, calls := s.calls ++ [⟨r, choice, (f o).2⟩] }

/-- The receive thread. -/
def receive (s : St) : St :=
  match s.rx with
  | .idle => s
  | .look m [] => { s with rx := .refuse m }
  | .look m (p :: ps) =>
    match s.ss.table.get? p with
    | some r => { s with rx := .append r m }
    | none => { s with rx := .look m ps }
  | .append r m =>
    match s.ss.socks[r]? with
    | none => { s with rx := .idle }
    | some o => { s with rx := .release r, ss := s.ss.put r { o with queue := o.queue ++ [m] }, log := s.log ++ [.queued r m] }
  | .release r => { s with rx := .idle, sem := fun x => if x = r then s.sem x + 1 else s.sem x }
  | .refuse m => { s with rx := .idle, log := s.log ++ [.refused m] }

/-- A step of any thread.  One that its thread cannot make at this point changes nothing. -/
def step (s : St) : Step → St
  | .socket f t => { s with ss := (s.ss.create f t).1 }
  | .bind r addr port choice => s.begin r choice fun o => (o.unreachable, beginBind s.stack o addr port)
  | .connect r addr port choice => s.begin r choice fun o => beginConnect s.stack o addr port
  | .sendto r port choice => s.begin r choice fun o => (o.unreachable,
      if ¬ (0 ≤ port ∧ port < 65536) then .done (.raised .overflowError)
      else if 1 ≤ o.id.lport ∧ o.id.lport < 65536 then .done .ok
      else .first)
  | .go k =>
    match s.calls[k]? with
    | none => s
    | some c => match s.ss.socks[c.sock]? with
      | none => s
      | some o => s.go k c o
  | .close r => { s with ss := s.ss.close r }
  | .listen r => { s with ss := (s.ss.listen r).1 }
  | .accepted id => { s with ss := (s.ss.accepted id).1 }
  | .gone r => { s with ss := s.ss.gone r }
  | .arrive m => if s.rx = .idle then { s with rx := .look m m.patterns } else s
  | .rx => s.receive
  | .acquire r =>
    if s.sem r = 0 then s
    else { s with sem := fun x => if x = r then s.sem x - 1 else s.sem x, takers := fun x => if x = r then s.takers x + 1 else s.takers x }
  | .take r =>
    if s.takers r = 0 then s
    else
      let s := { s with takers := fun x => if x = r then s.takers x - 1 else s.takers x }
      match s.ss.socks[r]? with
      | none => s
      | some o => match o.queue with
        | [] => { s with log := s.log ++ [.empty r] }
        | m :: q => { s with ss := s.ss.put r { o with queue := q }, log := s.log ++ [.got r m] }

def run (s : St) (xs : List Step) : St := xs.foldl step s

end St
end Verif.Threads
