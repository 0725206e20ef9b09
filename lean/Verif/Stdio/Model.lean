import Verif.Sock.Model
/-
Model of the capture of output: `/repo/source/stdio/h2_stdio.cpp`.
-/
namespace H2.Stdio

abbrev Bytes := List UInt8
abbrev Text := List Char

/-- `fileno(stdout)` and `fileno(stderr)`. -/
def out : Int := 1
def err : Int := 2
/-- The descriptor the report writes to, `/repo/source/utils/h2_color.cpp:32,54`. -/
def report : Int := -21371647

/-- A `write` the system sees.  `extra` tells the line break that h2unit inserts from what the program writes. -/
structure Write where
  fd : Int
  data : Bytes
  extra : Bool
deriving DecidableEq

/-- The members of `h2_stdio`, `/repo/source/stdio/h2_stdio.cpp:3-5`, `h2_report::backable`, and what the system has seen. -/
structure St where
  stdoutOn : Bool := false
  stderrOn : Bool := false
  syslogOn : Bool := false
  buffer : Bytes := []
  captured : Nat := 0
  backable : Bool := false
  seen : List Write := []

/-- What can happen.  Texts made from a format are given as they come out of it. -/
inductive Op where
  /-- the constructor of `h2_cout`: `COUT(m, type)` -/
  | start (type : Text)
  /-- its destructor -/
  | stop
  /-- the report shows which case runs, on a line that may be overwritten (or not) -/
  | title (backable : Bool)
  | write (fd : Int) (data : Bytes)
  /-- `printf`, `vprintf`, `fprintf` -/
  | fprintf (fd : Int) (text : Bytes)
  | fputc (fd : Int) (c : UInt8)
  | fputs (fd : Int) (s : Bytes)
  /-- `data` is the memory at the pointer -/
  | fwrite (fd : Int) (data : Bytes) (size nitems : Nat)
  | putchar (c : UInt8)
  | puts (s : Bytes)
  /-- `std::cout`, `std::cerr` and `std::clog` -/
  | stream (fd : Int) (data : Bytes)
  /-- `syslog`, `vsyslog` -/
  | syslog (text : Bytes)
deriving DecidableEq

/-- What a call gives. -/
inductive Result where
  | done
  | value (n : Nat)
  /-- what the matcher is given -/
  | text (s : Bytes)
deriving DecidableEq

/-- A C string: what is before the first NUL. -/
def cstr (s : Bytes) : Bytes := s.takeWhile (· ≠ 0)

def isStd (fd : Int) : Bool := fd == out || fd == err

/-- `write`, `/repo/source/stdio/h2_stdio.cpp:7-20`.  `normal` is `O.verbose >= VerboseNormal`.  (That the write of the system may
fail, or write less, is not seen by the caller.) -/
def write (normal : Bool) (s : St) (fd : Int) (data : Bytes) : St :=
  let s :=
    if normal || !isStd fd then
      let s := if isStd fd && s.backable then { s with seen := s.seen ++ [⟨fd, [10], true⟩], backable := false } else s
      let s := { s with seen := s.seen ++ [⟨if fd = report then out else fd, data, false⟩] }
      if isStd fd then { s with captured := s.captured + data.length } else s
    else s
  if (s.stdoutOn && fd == out) || (s.stderrOn && fd == err) then { s with buffer := s.buffer ++ data } else s

/-- `get_keyvalue(type, key)` is not null. -/
def hasKey (type key : Text) : Bool := (H2.Sock.getKeyvalue type key).isSome

/-- One call. -/
def step (normal : Bool) (s : St) : Op → St × Result
  -- `/repo/source/stdio/h2_stdio.cpp:151-155,135-141`
  | .start type =>
    let all := type.isEmpty
    ({ s with stdoutOn := all || hasKey type "out".toList, stderrOn := all || hasKey type "err".toList,
              syslogOn := all || hasKey type "syslog".toList, buffer := [] }, .done)
  -- `/repo/source/stdio/h2_stdio.cpp:157-160,143-148`
  | .stop => ({ s with stdoutOn := false, stderrOn := false, syslogOn := false, buffer := s.buffer ++ [0] }, .text (cstr (s.buffer ++ [0])))
  -- `/repo/source/report/h2_report_console.cpp:60`
  | .title b => ({ s with backable := b }, .done)
  | .write fd data => (write normal s fd data, .value data.length)
  -- `/repo/source/stdio/h2_stdio.cpp:22-36,55-67`
  | .fprintf fd text => (write normal s fd (cstr text), .value (cstr text).length)
  -- `/repo/source/stdio/h2_stdio.cpp:38-43`
  | .fputc fd c => (write normal s fd [c], .value c.toNat)
  -- `/repo/source/stdio/h2_stdio.cpp:45-48`
  | .fputs fd t => (write normal s fd (cstr t), .value (cstr t).length)
  -- `/repo/source/stdio/h2_stdio.cpp:50-53`
  | .fwrite fd data size nitems => (write normal s fd (data.take (size * nitems)), .value (size * nitems))
  -- `/repo/source/stdio/h2_stdio.cpp:69-74`
  | .putchar c => (write normal s out [c], .value c.toNat)
  -- `/repo/source/stdio/h2_stdio.cpp:76-81`
  | .puts t => (write normal (write normal s out (cstr t)) out [10], .value 1)
  -- `/repo/source/stdio/h2_stdio.cpp:116-126`: character by character
  | .stream fd data => (data.foldl (fun s c => write normal s fd [c]) s, .done)
  -- `/repo/source/stdio/h2_stdio.cpp:83-97`
  | .syslog t => (if s.syslogOn then { s with buffer := s.buffer ++ cstr t } else s, .done)

def run (normal : Bool) (s : St) (ops : List Op) : St := ops.foldl (fun s o => (step normal s o).1) s

end H2.Stdio
