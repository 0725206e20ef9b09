/-
Model of the substitution of sockets: `/repo/source/net/h2_socket.cpp`, `/repo/source/net/h2_socket.hpp`.
-/
namespace H2.Sock

abbrev Text := List Char

/-- `h2_packet`, `/repo/source/net/h2_socket.hpp:1-5`.  `id` tells objects apart (the code compares pointers): it is the number of
calls made before the packet was created. -/
structure Packet where
  id : Nat
  sender : Text
  dest : Text
  data : List UInt8
deriving DecidableEq

/-- `h2_socket::socket`, `/repo/source/net/h2_socket.cpp:178-182`. -/
structure Peer where
  fd : Nat
  sender : Text
  dest : Text
deriving DecidableEq

/-- The members of `h2_socket`, `/repo/source/net/h2_socket.cpp:184,208-209`, and the number of calls made. -/
structure St where
  now : Nat := 0
  incoming : List Packet := []
  outgoing : List Packet := []
  sockets : List Peer := []
  lastTo : Text := []

/-- What can happen.  `here` is the socket's own address as `getsockname` and `iport_tostring` give it, `block` whether the
socket blocks, `fd` for `accept` the descriptor the system made. -/
inductive Op where
  | start
  | stop
  | inject (sender dest : Text) (data : List UInt8)
  | recv (here : Text) (block : Bool) (length : Nat)
  | accept (here : Text) (block : Bool) (fd : Nat)
  | connect (here : Text) (block : Bool) (fd : Nat) (dest : Text)
  | send (fd : Nat) (data : List UInt8)
  | sendto (here dest : Text) (data : List UInt8)
  | fetch
deriving DecidableEq

/-- What a call gives. -/
inductive Result where
  | done
  /-- the call has not returned: it looks again every 100 ms -/
  | waiting
  /-- no packet -/
  | nothing
  /-- the data of the packet is in the buffer, its sender in the address -/
  | received (p : Packet)
  /-- the data of the packet does not fit the buffer, and is stored nevertheless -/
  | overrun (p : Packet)
  /-- a packet from the peer was there -/
  | linked (p : Packet)
  | fetched (p : Option Packet)
deriving DecidableEq

abbrev Event := Op × Result

variable (wild : Text → Text → Bool)

/-- The walk of `read_incoming` over the list, `/repo/source/net/h2_socket.cpp:86-95`. `wild` is `h2_pattern::wildcard_match`,
`Verif.Pattern.Model`. -/
def take (here : Text) : List Packet → Option (Packet × List Packet)
  | [] => none
  | p :: l => if wild p.dest here then some (p, l) else (take here l).map fun r => (r.1, p :: r.2)

/-- The end of `read_incoming` without a packet, `/repo/source/net/h2_socket.cpp:93-95`. -/
def absent (block : Bool) : Result := if block then .waiting else .nothing

/-- `put_outgoing`, `/repo/source/net/h2_socket.cpp:186-190`. -/
def putOutgoing (s : St) (sender dest : Text) (data : List UInt8) : St :=
  { s with lastTo := dest, outgoing := s.outgoing ++ [⟨s.now, sender, dest, data⟩] }

/-- Packets with data stay for `recv` after `accept` and `connect`, `/repo/source/net/h2_socket.cpp:113-114,127-128`. -/
def putBack (p : Packet) (l : List Packet) : List Packet := if p.data.isEmpty then l else p :: l

/-- One call. -/
def step (s : St) : Op → St × Result
  -- `/repo/source/net/h2_socket.cpp:211-213`
  | .start => ({ s with lastTo := "0.0.0.0:0".toList }, .done)
  -- `/repo/source/net/h2_socket.cpp:226-237`
  | .stop => ({ s with incoming := [], outgoing := [] }, .done)
  -- `put_incoming`, `/repo/source/net/h2_socket.cpp:203-206`
  | .inject f t d => ({ s with incoming := s.incoming ++ [⟨s.now, if f.isEmpty then s.lastTo else f, t, d⟩] }, .done)
  -- `recv`, `recvfrom`, `recvmsg`, `/repo/source/net/h2_socket.cpp:137-146,152-164,170-173`
  | .recv here block length =>
    match take wild here s.incoming with
    | none => (s, absent block)
    | some (p, l) => ({ s with incoming := l }, if p.data.length ≤ length then .received p else .overrun p)
  -- `/repo/source/net/h2_socket.cpp:98-117`
  | .accept here block fd =>
    match take wild here s.incoming with
    | none => (s, absent block)
    | some (p, l) => ({ s with sockets := s.sockets ++ [⟨fd, here, p.sender⟩], incoming := putBack p l }, .linked p)
  -- `/repo/source/net/h2_socket.cpp:119-130`
  | .connect here block fd dest =>
    let s := { s with sockets := s.sockets ++ [⟨fd, here, dest⟩] }
    match take wild here s.incoming with
    | none => (s, absent block)
    | some (p, l) => ({ s with incoming := putBack p l }, .linked p)
  -- `/repo/source/net/h2_socket.cpp:132-136,191-202`
  | .send fd data =>
    match s.sockets.find? (·.fd == fd) with
    | none => (putOutgoing s [] [] data, .done)
    | some t => (putOutgoing s t.sender t.dest data, .done)
  -- `sendto`, `sendmsg`, `/repo/source/net/h2_socket.cpp:147-151,166-169`
  | .sendto here dest data => (putOutgoing s here dest data, .done)
  -- `/repo/source/net/h2_socket.cpp:240-243`
  | .fetch =>
    match s.outgoing with
    | [] => (s, .fetched none)
    | p :: l => ({ s with outgoing := l }, .fetched (some p))

def next (x : St × List Event) (o : Op) : St × List Event :=
  let r := step wild x.1 o
  ({ r.1 with now := x.1.now + 1 }, x.2 ++ [(o, r.2)])

/-- A history of calls, with what each gave. -/
def run (ops : List Op) : St × List Event := ops.foldl (next wild) ({}, [])

/-! ### `Ptx` -/

/-- `h2_sock::check`, `/repo/source/net/h2_socket.hpp:15-53`: whether the assertion fails.  The matchers are given as predicates. -/
def ptx (sender dest : Text → Bool) (payload : List UInt8 → Bool) (size : Nat → Bool) : Option Packet → Bool
  | none => true
  | some p => !(sender p.sender) || !(dest p.dest) || !(payload p.data) || !(size p.data.length)

/-! ### The attributes of `Pij` -/

/-- `::isspace` in the C locale. -/
def isspace (c : Char) : Bool := c == ' ' || ('\t' ≤ c && c ≤ '\r')

/-- `strcasestr(s, key)`: what follows the first place where `key` (of lower case letters) is found. -/
def afterKey (key : Text) : Text → Option Text
  | [] => if key.isEmpty then some [] else none
  | c :: s => if key.isPrefixOf ((c :: s).map Char.toLower) then some ((c :: s).drop key.length) else afterKey key s

/-- `get_keyvalue`, `/repo/source/utils/h2_misc.cpp:52-59`; `none` is the null pointer. -/
def getKeyvalue (attributes key : Text) : Option Text :=
  match afterKey key attributes with
  | none => none
  | some r =>
    match r.dropWhile isspace with
    | '=' :: v => some (v.dropWhile isspace)
    | _ => some []

/-- `parse_iport`, `/repo/source/net/h2_socket.cpp:245-255`: what is in the buffer then, which holds `old` before.  (The buffer
has 256 bytes; longer addresses overrun it.) -/
def parseLoop : Text → Text → Text
  | [], acc => acc
  | c :: s, acc =>
    if c.isDigit || c == '.' || c == ':' || c == '*' || c == '?' then parseLoop s (acc ++ [c])
    else if isspace c || c == '"' then parseLoop s acc
    else acc

def parseIport (s : Option Text) (old : Text) : Text :=
  match parseLoop (s.getD []) [] with
  | [] => old
  | l => l

/-- `inject`, `/repo/source/net/h2_socket.cpp:257-263`. -/
def inject (data : List UInt8) (attributes : Text) : Op :=
  .inject (parseIport (getKeyvalue attributes "from".toList) []) (parseIport (getKeyvalue attributes "to".toList) ['*']) data

end H2.Sock
