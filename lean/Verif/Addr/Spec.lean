import Verif.Addr.Model
/-
Specification of addresses as text.
-/
namespace H2.Addr

/-- An internet address with a port, by the numbers people write. -/
structure Endpoint where
  a : Nat
  b : Nat
  c : Nat
  d : Nat
  port : Nat
deriving DecidableEq

def Endpoint.Valid (e : Endpoint) : Prop := e.a < 256 ∧ e.b < 256 ∧ e.c < 256 ∧ e.d < 256 ∧ e.port < 65536

/-- As people write it, without the port. -/
def Endpoint.host (e : Endpoint) : String := s!"{e.a}.{e.b}.{e.c}.{e.d}"

/-- As people write it. -/
def Endpoint.text (e : Endpoint) : String := s!"{e.a}.{e.b}.{e.c}.{e.d}:{e.port}"

/-- The structure is of the internet family, its four bytes are the numbers of the address in order, and the port, high byte first,
is that of the address. -/
def Holds (m : SockAddr) (e : Endpoint) : Prop :=
  m.family = 2 ∧ m.ip.1.toNat = e.a ∧ m.ip.2.1.toNat = e.b ∧ m.ip.2.2.1.toNat = e.c ∧ m.ip.2.2.2.toNat = e.d ∧
  256 * (m.port.toNat % 256) + m.port.toNat / 256 = e.port

/-- Text of a host: four numbers below 256 with points between. -/
def IsHost (t : Text) : Prop := ∃ e : Endpoint, e.Valid ∧ t = e.host.toList

end H2.Addr
