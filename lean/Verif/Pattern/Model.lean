/-
Model of the built-in wildcard matcher, `/repo/source/utils/h2_pattern.cpp:16-47`.
(On POSIX the code calls `fnmatch` of the C library instead, which is not modelled.)
-/
namespace H2.Pattern

/-- Character comparison, `/repo/source/utils/h2_pattern.cpp:28`. -/
def same (caseless : Bool) (c d : Char) : Bool :=
  if caseless then c.toLower == d.toLower else c == d

/-- The local variables of `wildcard_match`: `scur`, `pcur` as the remaining texts and, once a
star was met, `sstar` and `pstar + 1` likewise, `/repo/source/utils/h2_pattern.cpp:19-20`. -/
structure St where
  s : List Char
  p : List Char
  star : Option (List Char × List Char)

/-- Skip trailing stars, `/repo/source/utils/h2_pattern.cpp:37`. -/
def skipStars : List Char → List Char
  | '*' :: p => skipStars p
  | p => p

/-- Move the last star one further, or give up, `/repo/source/utils/h2_pattern.cpp:31-35`.
`++sstar` moves past one character; at the end of the subject there is none (a read past the
terminator, the outcome `.inr none`), which the proofs show is never reached. -/
def back (st : St) : Bool ⊕ Option St :=
  match st.star with
  | none => .inl false
  | some ([], _) => .inr none
  | some (_ :: ss, pp) => .inr (some { s := ss, p := pp, star := some (ss, pp) })

/-- One step of the loop, `/repo/source/utils/h2_pattern.cpp:21-38`: either the returned value
or the next state. -/
def step (caseless : Bool) (st : St) : Bool ⊕ Option St :=
  match st.s with
  | [] => .inl (skipStars st.p).isEmpty
  | c :: s =>
    match st.p with
    | [] => back st
    | d :: p =>
      if d = '?' then .inr (some { st with s := s, p := p })
      else if d = '*' then .inr (some { st with p := p, star := some (c :: s, p) })
      else if same caseless c d then .inr (some { st with s := s, p := p })
      else back st

/-- The loop, with a bound on the number of iterations: `none` when the bound is too small or the
subject is overrun, `/repo/source/utils/h2_pattern.cpp:21-36`. -/
def run (caseless : Bool) : Nat → St → Option Bool
  | 0, _ => none
  | n + 1, st =>
    match step caseless st with
    | .inl b => some b
    | .inr none => none
    | .inr (some st') => run caseless n st'

/-- Start of `wildcard_match`, `/repo/source/utils/h2_pattern.cpp:19-20`. -/
def start (pattern subject : List Char) : St := { s := subject, p := pattern, star := none }

end H2.Pattern
