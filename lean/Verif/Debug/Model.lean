/-
Model of the debugger trap of option `-d`: how the library finds out that a debugger is attached, how it asks
for one, and what a failing assertion does (Linux, and the text shown on macOS).
-/
namespace H2.Debug

abbrev Text := List Char

/-- Successive `fgets(t, n + 1, f)` on a file from here on: what has been read of the piece so far, and how many
characters still fit. -/
def pieces (n : Nat) : Nat → Text → Text → List Text
  | _, acc, [] => if acc = [] then [] else [acc]
  | room, acc, c :: s =>
      if c = '\n' ∨ room ≤ 1 then (acc ++ [c]) :: pieces n n [] s else pieces n (room - 1) (acc ++ [c]) s

/-- The label looked for, `/repo/source/except/h2_debug.cpp:9`. -/
def label : Text := "TracerPid:\t".toList

/-- `t[11] != '\0' && t[11] != '0'`, `/repo/source/except/h2_debug.cpp:10`. -/
def nonzero (t : Text) : Bool :=
  match t.drop 11 with
  | [] => false
  | c :: _ => c != '\x00' && c != '0'

/-- `in_debugging`, `/repo/source/except/h2_debug.cpp:1-16`: `none` is a file that cannot be opened; `fgets(t, 1023, f)`
reads up to 1022 characters. -/
def inDebugging : Option Text → Bool
  | none => false
  | some file =>
      match (pieces 1022 1022 [] file).find? (fun t => label.isPrefixOf t) with
      | some t => nonzero t
      | none => false

/-- What can be observed. -/
inductive Ev where
  /-- a look at `/proc/self/status`, and what it said -/
  | look (traced : Bool)
  /-- the user is asked for a password and a debugger is started -/
  | ask
  /-- a tenth of a second passes -/
  | wait
  /-- `int $3` -/
  | trap
  /-- the failure is told to the case -/
  | told
  deriving DecidableEq

/-- The loop of `h2_attach_debugger`, `/repo/source/except/h2_debug.cpp:33-51`: the list has the contents of
`/proc/self/status` at each look; `asked` is the static of `h2_once_if`.  The result is what happens, what is left of the
list, if the loop ends, and `asked`. -/
def attach : List (Option Text) → Bool → List Ev × Option (List (Option Text)) × Bool
  | [], asked => ([], none, asked)
  | f :: w, asked =>
      if inDebugging f then ([.look true], some w, asked)
      else
        let r := attach w true
        (.look false :: (if asked then [] else [.ask]) ++ .wait :: r.1, r.2)

/-- `h2_runner::failing` of `n` failures one after the other, `/repo/source/core/h2_runner.cpp:203-208`; `d` is
`O.debugger_trap`.  If the looks of the list are used up, the loop is still waiting. -/
def run (d : Bool) : Nat → List (Option Text) → Bool → List Ev
  | 0, _, _ => []
  | n + 1, w, asked =>
      if d then
        match attach w asked with
        | (ev, none, _) => ev
        | (ev, some w, asked) => ev ++ .trap :: .told :: run d n w asked
      else .told :: run d n w asked

inductive Os where | linux | mac
  deriving DecidableEq

/-- The name in the prompt, `/repo/source/except/h2_debug.cpp:40`. -/
def prompted : Os → String
  | .mac => "GDB"
  | .linux => "LLDB"

/-- The debugger that is started, `/repo/source/except/h2_debug.cpp:41-45`. -/
def started : Os → String
  | .linux => "GDB"
  | .mac => "LLDB"

end H2.Debug
