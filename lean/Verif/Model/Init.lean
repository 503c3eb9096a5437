import Verif.Model.Addrs
import Verif.Model.AddrText
import Verif.Model.Dhcp
import Verif.Model.Rx
/-!
Making and starting the stack: `/repo/pytcp/__init__.py:74-139` and `packet_handler.py:206-241`.

* The state is that of the packet handler (`Addrs`) and the switches of `config` that the constructor sets; both are global, so a second
  call of the constructor finds what the first has left.
* Left out: the file descriptor, starting and stopping the threads, log lines.  `initialize_tap` is system calls only.
-/
namespace Verif

/-- The arguments of `TcpIpStack(...)` that are texts, `__init__.py:79-88`. -/
structure InitArgs where
  mac : Option Text := none
  ip4 : Option Text := none
  gw4 : Option Text := none
  ip6 : Option Text := none
  gw6 : Option Text := none

/-- The state of the packet handler and `config.IP4_HOST_DHCP`, `IP6_LLA_AUTOCONFIG`, `IP6_GUA_AUTOCONFIG`. -/
structure TcpIpStack where
  addrs : Addrs
  dhcp : Bool
  lla : Bool
  gua : Bool

namespace TcpIpStack

/-- The state after `import pytcp`: packet_handler.py:149-176 and config.py, where `mac` is `config.MAC_ADDRESS`. -/
def imported (mac : MacAddress) : TcpIpStack := ⟨Addrs.start mac, true, true, true⟩

/-- `__init__.py:93-97` -/
def initMac (m : Option Text) (s : TcpIpStack) : TcpIpStack × Py Unit :=
  match m with
  | none => (s, .ok ())
  | some t =>
    match MacAddress.ofText t with
    | .error e => (s, .error e)
    | .ok m => ({ s with addrs := { s.addrs with mac := m } }, .ok ())

/-- `__init__.py:104-106`: an empty text is no gateway. -/
def host4 (ip : Text) (gw : Option Text) : Py Ip4Host := do
  let h ← Ip4Host.ofText ip
  match gw with
  | none => return h
  | some [] => return h
  | some g => h.setGateway (some (← Ip4Address.ofText g))

/-- `__init__.py:99-109` -/
def initIp4 (ip gw : Option Text) (s : TcpIpStack) : TcpIpStack × Py Unit :=
  match ip with
  | none => ({ s with addrs := { s.addrs with ip4Support := true }, dhcp := true }, .ok ())
  | some t =>
    match host4 t gw with
    | .error e => (s, .error e)
    | .ok h =>
      ({ s with addrs := { s.addrs with ip4Pending := s.addrs.ip4Pending ++ [h], ip4Support := true }, dhcp := false }, .ok ())

/-- `__init__.py:117-119` -/
def host6 (ip : Text) (gw : Option Text) : Py Ip6Host := do
  let h ← Ip6Host.ofText ip
  match gw with
  | none => return h
  | some [] => return h
  | some g => h.setGateway (some (← Ip6Address.ofText g))

/-- `__init__.py:111-123` -/
def initIp6 (ip gw : Option Text) (s : TcpIpStack) : TcpIpStack × Py Unit :=
  match ip with
  | none => ({ s with addrs := { s.addrs with ip6Support := true }, lla := true, gua := true }, .ok ())
  | some t =>
    match host6 t gw with
    | .error e => (s, .error e)
    | .ok h =>
      ({ s with addrs := { s.addrs with ip6Pending := s.addrs.ip6Pending ++ [h], ip6Support := true }, lla := true, gua := false }, .ok ())

/-- `__init__.py:79-123` -/
def init (x : InitArgs) (s : TcpIpStack) : TcpIpStack × Py Unit :=
  match s.initMac x.mac with
  | (s, .error e) => (s, .error e)
  | (s, .ok _) =>
    match s.initIp4 x.ip4 x.gw4 with
    | (s, .error e) => (s, .error e)
    | (s, .ok _) => s.initIp6 x.ip6 x.gw6

/-- packet_handler.py:232-241; `xid`, `r₁` and `r₂` as in `Dhcp.fetch`. -/
def acquireIp4 (σ : Nat → List Heard) (xid : Nat) (r₁ r₂ : Py Bytes) (dhcp : Bool) (a : Addrs) : Addrs × Py Unit :=
  if a.ip4Support then
    if a.ip4Pending = [] ∧ dhcp = true then
      match (Dhcp.fetch a.mac xid r₁ r₂).result with
      | .error e => (a, .error e)
      | .ok none => (a.createIp4 σ, .ok ())
      | .ok (some h) => ({ a with ip4Pending := a.ip4Pending ++ [h] }.createIp4 σ, .ok ())
    else (a.createIp4 σ, .ok ())
  else (a, .ok ())

/-- `__init__.py:127-138`, without the threads: the receive thread is `σ` (see `Model/Addrs.lean`). -/
def start (σ : Nat → List Heard) (xid : Nat) (r₁ r₂ : Py Bytes) (s : TcpIpStack) : Addrs × Py Unit :=
  match s.addrs.acquireIp6 σ s.lla s.gua with
  | (a, .error e) => (a, .error e)
  | (a, .ok _) => acquireIp4 σ xid r₁ r₂ s.dhcp a

/-- What the handlers for received frames see of these addresses (packet_handler.py:149-176), with nothing else in the state. -/
def node (a : Addrs) : Node where
  stack := ⟨a.mac, a.ip4Host, [], a.ip6Host, a.ip6Multicast, 0, 0, 1500⟩
  macMulticast := a.macMulticast
  ip4Candidates := a.ip4Pending.map (·.address)
  ip6Candidate := a.candidate
  flows4 := []
  flows6 := []
  socks := ⟨[], []⟩

end TcpIpStack
end Verif
