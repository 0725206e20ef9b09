/-
Addresses of packets as text and as `struct sockaddr_in`: `/repo/source/net/h2_socket.cpp`, `/repo/source/net/h2_dns.cpp`.
-/
namespace H2.Inet

abbrev Text := List Char

/-- `struct sockaddr_in`: the family, the two bytes of the port and the four bytes of the address in the order in which they lie in memory. -/
structure SockAddr where
  family : Nat
  port : UInt8 × UInt8
  addr : UInt8 × UInt8 × UInt8 × UInt8
deriving DecidableEq

/-- `AF_INET`. -/
def afInet : Nat := 2

/-- A decimal digit. -/
def isDigit (c : Char) : Bool := '0' ≤ c && c ≤ '9'

/-- Its value. -/
def value (c : Char) : Nat := c.toNat - '0'.toNat

/-- The loop of `inet_pton(AF_INET, …)` of glibc, which `/repo/source/net/h2_socket.cpp:52` and `/repo/source/net/h2_dns.cpp:16` call: the numbers that are complete, the one
being read, whether it has a digit, and how many there are.  `none` is the result 0. -/
def ptonLoop : Text → List Nat → Nat → Bool → Nat → Option (List Nat)
  | [], done, cur, _, octets => if octets < 4 then none else some (done ++ [cur])
  | ch :: src, done, cur, saw, octets =>
    if isDigit ch then
      if saw && cur == 0 then none
      else if 255 < cur * 10 + value ch then none
      else if saw then ptonLoop src done (cur * 10 + value ch) true octets
      else if 4 < octets + 1 then none
      else ptonLoop src done (cur * 10 + value ch) true (octets + 1)
    else if ch == '.' && saw then
      if octets == 4 then none else ptonLoop src (done ++ [cur]) 0 false octets
    else none

/-- `inet_pton(AF_INET, …)`: four bytes, or nothing is written. -/
def pton (t : Text) : Option (UInt8 × UInt8 × UInt8 × UInt8) :=
  match ptonLoop t [] 0 false 0 with
  | some [a, b, c, d] => some (a.toUInt8, b.toUInt8, c.toUInt8, d.toUInt8)
  | _ => none

/-- `%d` of a number that is not negative. -/
def decimal (n : Nat) : Text := Nat.toDigits 10 n

/-- `inet_ntop(AF_INET, …)`. -/
def ntop (a : UInt8 × UInt8 × UInt8 × UInt8) : Text :=
  decimal a.1.toNat ++ '.' :: (decimal a.2.1.toNat ++ '.' :: (decimal a.2.2.1.toNat ++ '.' :: decimal a.2.2.2.toNat))

/-- `isspace`. -/
def isspace (c : Char) : Bool := c == ' ' || ('\t' ≤ c && c ≤ '\r')

/-- The value of the digits at the beginning of a text. -/
def digits (t : Text) : Nat := (t.takeWhile isDigit).foldl (fun n c => n * 10 + value c) 0

/-- `strtol` behind the white space and the sign. -/
def signed : Text → Int
  | '-' :: t => -(min (digits t) (2 ^ 63) : Nat)
  | '+' :: t => (min (digits t) (2 ^ 63 - 1) : Nat)
  | t => (min (digits t) (2 ^ 63 - 1) : Nat)

/-- `atoi` of glibc: `(int)strtol(…)`. -/
def atoi (t : Text) : Int := Int.bmod (signed (t.dropWhile isspace)) (2 ^ 32)

/-- `htons` of an `int`, as the two bytes in memory. -/
def htons (i : Int) : UInt8 × UInt8 :=
  let n := (i % 65536).toNat
  ((n / 256).toUInt8, (n % 256).toUInt8)

/-- `ntohs`. -/
def ntohs (p : UInt8 × UInt8) : Nat := p.1.toNat * 256 + p.2.toNat

/-- `iport_parse`, `/repo/source/net/h2_socket.cpp:41-53`: what is in `addr` behind it, where `old` was before.  `none` when `temp` is overrun. -/
def iportParse (str : Text) (old : SockAddr) : Option SockAddr :=
  if 1024 ≤ str.length then none
  else
    let temp := str.takeWhile (· ≠ ':')
    let port := match str.dropWhile (· ≠ ':') with
      | [] => (0, 0)
      | _ :: t => htons (atoi t)
    some { family := afInet, port := port, addr := (pton temp).getD old.addr }

/-- `iport_tostring`, `/repo/source/net/h2_socket.cpp:55-60`. -/
def iportTostring (s : SockAddr) : Text := ntop s.addr ++ ':' :: decimal (ntohs s.port)

/-- The `sockaddr_in` that `getaddrinfo` gives for an address, `/repo/source/net/h2_dns.cpp:12-17, 33-43`: one that was set to zero before; `none` when the text is taken for a
name. -/
def resolve (t : Text) : Option SockAddr := (pton t).map fun a => { family := 0, port := (0, 0), addr := a }

end H2.Inet
