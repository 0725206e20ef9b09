import Verif.Pattern.Props
import Verif.Sock.Model
/-
Specification of the substitution of sockets, on histories of calls and what they gave.
-/
namespace H2.Sock

/-- The address pattern of a packet fits a socket's own address. -/
def Fits (dest here : Text) : Prop := H2.Pattern.Glob (H2.Pattern.CharEq false) dest here

/-- `wild` is what the matching loop answers. -/
def IsWildcard (wild : Text → Text → Bool) : Prop :=
  ∀ p s, ∃ n, ∀ m, n ≤ m → H2.Pattern.run false m (H2.Pattern.start p s) = some (wild p s)

/-- Call `i` was followed by a `stop` before call `j`. -/
def Cleared (h : List Event) (i j : Nat) : Prop := ∃ (k : Nat) (r : Result), i < k ∧ k < j ∧ h[k]? = some (.stop, r)

/-- Call `k` used up the packet of call `i`: it was received, or was an empty packet that opened a connection. -/
def UsedUp (h : List Event) (k i : Nat) : Prop :=
  ∃ (o : Op) (p : Packet), p.id = i ∧ (h[k]? = some (o, .received p) ∨ h[k]? = some (o, .overrun p) ∨ h[k]? = some (o, .linked p) ∧ p.data = [])

/-- Call `k` fetched the packet of call `i`. -/
def Fetched (h : List Event) (k i : Nat) : Prop := ∃ (o : Op) (p : Packet), p.id = i ∧ h[k]? = some (o, .fetched (some p))

/-- Call `i` injected a packet for `dest`. -/
def Injected (h : List Event) (i : Nat) (dest : Text) : Prop :=
  ∃ (f : Text) (d : List UInt8) (r : Result), h[i]? = some (.inject f dest d, r)

/-- Call `i` sent a packet. -/
def SentAt (h : List Event) (i : Nat) : Prop :=
  ∃ (o : Op) (r : Result), h[i]? = some (o, r) ∧ ((∃ fd d, o = .send fd d) ∨ ∃ a b d, o = .sendto a b d)

/-- Call `k` tied descriptor `fd` to an own address and that of a peer. -/
def Tied (h : List Event) (k fd : Nat) (own peer : Text) : Prop :=
  (∃ (b : Bool) (p : Packet), h[k]? = some (.accept own b fd, .linked p) ∧ peer = p.sender) ∨
  ∃ (b : Bool) (r : Result), h[k]? = some (.connect own b fd peer, r)

/-- The addresses of what is sent on `fd` at call `i`: the first ones `fd` was tied to, or none. -/
def Ends (h : List Event) (i fd : Nat) (own peer : Text) : Prop :=
  (∃ k, k < i ∧ Tied h k fd own peer ∧ ∀ k' own' peer', k' < k → ¬ Tied h k' fd own' peer') ∨
  (∀ k own' peer', k < i → ¬ Tied h k fd own' peer') ∧ own = [] ∧ peer = []

/-- Call `i` sent from `own` to `peer`. -/
def Sent (h : List Event) (i : Nat) (own peer : Text) (data : List UInt8) : Prop :=
  (∃ r, h[i]? = some (.sendto own peer data, r)) ∨ ∃ fd r, h[i]? = some (.send fd data, r) ∧ Ends h i fd own peer

/-- The latest destination before call `i`. -/
def Latest (h : List Event) (i : Nat) (dest : Text) : Prop :=
  (∃ k own data, k < i ∧ Sent h k own dest data ∧ (∀ k', k < k' → k' < i → ¬ SentAt h k') ∧
    ∀ k' r, k < k' → k' < i → h[k']? ≠ some (.start, r)) ∨
  (∃ k r, k < i ∧ h[k]? = some (.start, r) ∧ (∀ k', k < k' → k' < i → ¬ SentAt h k') ∧ dest = "0.0.0.0:0".toList) ∨
  (∀ k, k < i → ¬ SentAt h k) ∧ (∀ k r, k < i → h[k]? ≠ some (.start, r)) ∧ dest = []

/-- The own addresses of calls that open connections. -/
def Opens (h : List Event) (here : Text) : Prop :=
  ∃ (k : Nat) (r : Result), (∃ b fd, h[k]? = some (.accept here b fd, r)) ∨ ∃ b fd d, h[k]? = some (.connect here b fd d, r)

/-- Packets for an address that opens connections are not mixed with others: when a packet fits such an address and also another
address, so do all packets for that other address. -/
def Apart (h : List Event) : Prop :=
  ∀ i j p q here other, Injected h i p → Injected h j q → Opens h here → Fits p here → Fits p other → Fits q other → Fits q here

/-- A letter of addresses. -/
def AddressChar (c : Char) : Prop := c ∈ "0123456789.:*?".toList

end H2.Sock
