/-
Model of the substitution of name resolution: `/repo/source/net/h2_dns.cpp`.
-/
namespace H2.Dns

abbrev Text := List Char
/-- `struct in_addr`. -/
abbrev Addr := Nat

/-- `inet_pton(AF_INET, …)` (`h2_resolver::inet_addr`, `/repo/source/net/h2_dns.cpp:12-17`): the address a text denotes, if any. -/
abbrev Inet := Text → Option Addr

/-- `h2_domain`, `/repo/source/net/h2_dns.cpp:1-6`, with the case whose list it is in (`x`), and `id`, the number of calls made before. -/
structure Domain where
  id : Nat
  owner : Option Nat
  name : Text
  resolves : List Text
deriving DecidableEq

/-- `h2_resolver::dnses`, `/repo/source/net/h2_dns.cpp:10` (newest first), and `h2_runner::current_case`. -/
structure St where
  now : Nat := 0
  current : Option Nat := none
  dnses : List Domain := []

variable (inet : Inet)

/-- The first loop of `setaddrinfo`, `/repo/source/net/h2_dns.cpp:120-127`. Arguments are texts or null pointers. -/
def hostName : List (Option Text) → Text → Text
  | [], host => host
  | none :: l, host => hostName l host
  | some p :: l, host =>
    if (inet p).isNone && (host.length < 2 || p.length < host.length) then hostName l p else hostName l host

/-- The second loop, `/repo/source/net/h2_dns.cpp:130-135`. -/
def resolvesOf (args : List (Option Text)) (host : Text) : List Text :=
  args.filterMap fun p => match p with
    | none => none
    | some p => if p ≠ host then some p else none

inductive Op where
  /-- `setaddrinfo` -/
  | set (args : List (Option Text))
  /-- the runner turns to a case -/
  | begins (c : Nat)
  /-- the end of a case -/
  | ends (c : Nat)
deriving DecidableEq

def step (s : St) : Op → St
  -- `/repo/source/net/h2_dns.cpp:115-140`
  | .set args =>
    if args.isEmpty then s
    else
      let host := hostName inet args ['*']
      { s with dnses := ⟨s.now, s.current, host, resolvesOf args host⟩ :: s.dnses }
  -- `/repo/source/core/h2_runner.cpp:149`
  | .begins c => { s with current := some c }
  -- `h2_dnses::clear`, `/repo/source/net/h2_dns.cpp:106-113`, from `/repo/source/core/h2_case.cpp:20`
  | .ends c => { s with dnses := s.dnses.filter fun d => d.owner ≠ some c }

def next (s : St) (o : Op) : St := { step inet s o with now := s.now + 1 }

def run (ops : List Op) : St := ops.foldl (next inet) {}

/-- `find`, `/repo/source/net/h2_dns.cpp:19-25`. -/
def find (s : St) (hostname : Text) : Option Domain := s.dnses.find? fun d => d.name == ['*'] || d.name == hostname

/-! ### The answers -/

/-- What a caller may ask for in `hints`, and gets in the answer. -/
structure Hints where
  family : Nat
  socktype : Nat
  protocol : Nat
deriving DecidableEq

/-- AF_INET, SOCK_STREAM, IPPROTO_TCP (Linux). -/
def Hints.default : Hints := ⟨2, 1, 6⟩

/-- `struct addrinfo`: `ai_addr` or `ai_canonname`, and the rest.  (The family inside `ai_addr` is not set: it stays 0.) -/
structure Info where
  addr : Option Addr
  canonname : Option Text
  hints : Hints
deriving DecidableEq

/-- The loop of `getaddrinfo`, `/repo/source/net/h2_dns.cpp:38-57`, from element `i` on: `none` when an array is overrun. -/
def infos (hints : Option Hints) : Nat → List Text → Option (List Info)
  | _, [] => some []
  | i, r :: l =>
    if i < 32 then
      let info : Info := match inet r with
        | some a => ⟨some a, none, hints.getD .default⟩
        | none => ⟨none, some r, hints.getD .default⟩
      (infos hints (i + 1) l).map (info :: ·)
    else none

/-- `getaddrinfo`, `/repo/source/net/h2_dns.cpp:27-60`: `none` is the result -1. -/
def getaddrinfo (s : St) (hostname : Text) (hints : Option Hints) : Option (Option (List Info)) :=
  (find s hostname).map fun d => infos inet hints 0 d.resolves

/-- The arrays of `gethostbyname`, `/repo/source/net/h2_dns.cpp:69-71`; null pointers are `none`. -/
structure Host where
  addrs : List (Option Addr)
  aliases : List (Option Text)

/-- The loop of `gethostbyname`, `/repo/source/net/h2_dns.cpp:83-87`. -/
def hostLoop : List Text → Nat → Nat → Nat → Host → Option Host
  | [], _, _, _, h => some h
  | r :: l, i, a, c, h =>
    if 32 ≤ i then none
    else
      match inet r with
      | some x => if a < 32 then hostLoop l (i + 1) (a + 1) c { h with addrs := h.addrs.set a (some x) } else none
      | none => if c < 32 then hostLoop l (i + 1) a (c + 1) { h with aliases := h.aliases.set c (some r) } else none

/-- `gethostbyname`, `/repo/source/net/h2_dns.cpp:64-89`. -/
def gethostbyname (s : St) (hostname : Text) : Option (Option Host) :=
  (find s hostname).map fun d => hostLoop inet d.resolves 0 0 0 ⟨List.replicate 32 none, List.replicate 32 none⟩

/-- What a caller reads from an array that a null pointer ends; `none` when it reads beyond. -/
def readArray {α : Type} : List (Option α) → Option (List α)
  | [] => none
  | none :: _ => some []
  | some x :: l => (readArray l).map (x :: ·)

end H2.Dns
