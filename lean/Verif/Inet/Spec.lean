import Verif.Inet.Model
/-
Addresses as users write them, and what the bytes of a `sockaddr_in` mean.
-/
namespace H2.Inet

/-- A number as it is written. -/
def number (n : Nat) : Text := (toString n).toList

/-- `1.2.3.4`. -/
def dotted (a b c d : Nat) : Text := number a ++ ['.'] ++ number b ++ ['.'] ++ number c ++ ['.'] ++ number d

/-- `1.2.3.4:80`. -/
def withPort (a b c d p : Nat) : Text := dotted a b c d ++ [':'] ++ number p

/-- A part of an address, and a port. -/
def Octets (a b c d : Nat) : Prop := a < 256 ∧ b < 256 ∧ c < 256 ∧ d < 256

/-- The bytes are those of this address and this port: in the order of the network. -/
def Means (s : SockAddr) (a b c d p : Nat) : Prop :=
  s.addr.1.toNat = a ∧ s.addr.2.1.toNat = b ∧ s.addr.2.2.1.toNat = c ∧ s.addr.2.2.2.toNat = d ∧ 256 * s.port.1.toNat + s.port.2.toNat = p

end H2.Inet
