/-
Model of how addresses of sockets become text and text becomes addresses: `/repo/source/net/h2_socket.cpp:40-59`.
-/
namespace H2.Addr

abbrev Text := List Char

/-- `struct sockaddr_in`: the port as it lies in memory (in network order), the four bytes of `sin_addr`. -/
structure SockAddr where
  family : Nat
  port : UInt16
  ip : UInt8 × UInt8 × UInt8 × UInt8
deriving DecidableEq

/-- `AF_INET` on Linux. -/
def AF_INET : Nat := 2

/-- `htons` and `ntohs` of a little endian machine: the two bytes change places. -/
def htons (n : UInt16) : UInt16 := UInt16.ofNat (n.toNat % 256 * 256 + n.toNat / 256)
def ntohs (n : UInt16) : UInt16 := UInt16.ofNat (n.toNat % 256 * 256 + n.toNat / 256)

/-- `::isspace` in the C locale. -/
def isspace (c : Char) : Bool := c == ' ' || ('\t' ≤ c && c ≤ '\r')

def digit (c : Char) : Nat := c.toNat - '0'.toNat

/-- The digits of `strtol` in base 10. -/
def digits : Text → Nat → Nat
  | [], n => n
  | c :: s, n => if c.isDigit then digits s (10 * n + digit c) else n

/-- The value of `strtol(s, nullptr, 10)`, at most and at least what a 64 bit `long` holds. -/
def strtol (s : Text) : Int :=
  match s.dropWhile isspace with
  | '-' :: r => max (-(digits r 0 : Int)) (-9223372036854775808)
  | '+' :: r => min (digits r 0 : Int) 9223372036854775807
  | r => min (digits r 0 : Int) 9223372036854775807

/-- `atoi`: the low 32 bits. -/
def atoi (s : Text) : Int := (strtol s).bmod 4294967296

/-- The `int` becomes the `uint16_t` of the parameter of `htons`. -/
def toUInt16 (n : Int) : UInt16 := UInt16.ofNat (n % 65536).toNat

/-- The end of `inet_pton(AF_INET, ..)` of the C library: four numbers were read. -/
def four : List Nat → Option Nat → Option (UInt8 × UInt8 × UInt8 × UInt8)
  | [a, b, c], some d => some (UInt8.ofNat a, UInt8.ofNat b, UInt8.ofNat c, UInt8.ofNat d)
  | _, _ => none

/-- The loop of `inet_pton(AF_INET, ..)` of the C library: the numbers before the latest point, the number read since, if any.
It takes four numbers of at most 255, without leading zeros. -/
def quad : Text → List Nat → Option Nat → Option (UInt8 × UInt8 × UInt8 × UInt8)
  | [], before, now => four before now
  | x :: s, before, now =>
    if x.isDigit then
      match now with
      | none => if before.length < 4 then quad s before (some (digit x)) else none
      | some n => if n = 0 ∨ 255 < n * 10 + digit x then none else quad s before (some (n * 10 + digit x))
    else
      match now with
      | none => none
      | some n => if x = '.' ∧ before.length < 3 then quad s (before ++ [n]) none else none

def inetPton (s : Text) : Option (UInt8 × UInt8 × UInt8 × UInt8) := quad s [] none

/-- `%d` and `%u` of a number that is not negative. -/
def decimal (n : Nat) : Text := Nat.toDigits 10 n

/-- `inet_ntop(AF_INET, ..)` of the C library: `%u.%u.%u.%u`. -/
def inetNtop (ip : UInt8 × UInt8 × UInt8 × UInt8) : Text :=
  decimal ip.1.toNat ++ '.' :: (decimal ip.2.1.toNat ++ '.' :: (decimal ip.2.2.1.toNat ++ '.' :: decimal ip.2.2.2.toNat))

/-- What follows the first colon, when there is one: `strchr`. -/
def afterColon : Text → Option Text
  | [] => none
  | c :: s => if c = ':' then some s else afterColon s

/-- What `temp` holds once the colon is overwritten. -/
def beforeColon (s : Text) : Text := s.takeWhile (· != ':')

/-- `iport_parse`, `/repo/source/net/h2_socket.cpp:40-52`: the address that held `old`.  `inet_pton` stores nothing when it cannot
read the text.  (The copy has 1024 bytes; longer texts overrun it.) -/
def iportParse (s : Text) (old : SockAddr) : SockAddr where
  family := AF_INET
  port := match afterColon s with | some p => htons (toUInt16 (atoi p)) | none => 0
  ip := (inetPton (beforeColon s)).getD old.ip

/-- `iport_tostring`, `/repo/source/net/h2_socket.cpp:54-59`. -/
def iportTostring (a : SockAddr) : Text := inetNtop a.ip ++ ':' :: decimal (ntohs a.port).toNat

end H2.Addr
