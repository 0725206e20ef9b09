import Verif.Cli.Model
/-
Model of the text that `-h` prints: `usage`, `/repo/source/option/h2_option.cpp:1-43`.
-/
namespace H2.Cli

/-- The characters of a string, one by one: `chars! "ab"` is `['a', 'b']`. -/
macro "chars! " s:str : term => do
  let cs := s.getString.toList.toArray.map Lean.Syntax.mkCharLit
  `([$cs,*])

/-- The page about patterns, `/repo/source/option/h2_option.cpp:4-8`. -/
def patternPage : List Str := [
  chars! "\x1b[36m-i/e pattern\x1b[0m: include in file:line, suite name, case name, suite tags, case tags\n",
  chars! "\x1b[36m-i/e file=pattern\x1b[0m: include in file:line\n",
  chars! "\x1b[36m-i/e suite=pattern\x1b[0m: include in suite name\n",
  chars! "\x1b[36m-i/e case=pattern\x1b[0m: include in case name\n",
  chars! "\x1b[36m-i/e tags=pattern\x1b[0m: include in suite tags or case tags\n"]

/-- The page about warnings, `/repo/source/option/h2_option.cpp:11-16`. -/
def warningPage : List Str := [
  chars! "\x1b[36mexception\x1b[0m: consider thrown exception as warning\n",
  chars! "\x1b[36muncaught\x1b[0m: consider uncaught exception as warning\n",
  chars! "\x1b[36mleak\x1b[0m: consider memory leak as warning\n",
  chars! "\x1b[36mviolate\x1b[0m: consider memory violate access as warning\n",
  chars! "\x1b[36mdouble_free\x1b[0m: consider memory double free as warning\n",
  chars! "\x1b[36masymmetric_free\x1b[0m: consider memory asymmetric free as warning\n"]

/-- `"\033[90m│\033[0m"` -/
def usageBar : Str := chars! "\x1b[90m│\x1b[0m"

/-- `H2_USAGE_BR`, `/repo/source/option/h2_option.cpp:20`. -/
def usageBreak : Str := chars! "\x1b[90m├─────┼───────────┼────────────────────────────────────────────────────────────┤\x1b[0m\n"

/-- A row of the table. -/
def usageRow (letter argument text : Str) : Str :=
  usageBar ++ letter ++ usageBar ++ argument ++ usageBar ++ text ++ usageBar ++ ['\n']

/-- The table, `/repo/source/option/h2_option.cpp:21-40`. -/
def usageTable : List Str := [
  chars! "\x1b[90m┌─────┬───────────┬────────────────────────────────────────────────────────────┐\x1b[0m\n",
  usageRow (chars! " -\x1b[36mb\x1b[0m  ") (chars! "   \x1b[90m[\x1b[0mn=1\x1b[90m]\x1b[0m   ") (chars! " \x1b[36mb\x1b[0mreak test once n (default 1) cases failed                 "),
  usageBreak,
  usageRow (chars! " -\x1b[36mc\x1b[0m  ") (chars! "           ") (chars! " \x1b[36mc\x1b[0montinue asserts even if failure occurred                  "),
  usageBreak,
  usageRow (chars! " -\x1b[36mC\x1b[0m  ") (chars! "           ") (chars! " Console output in black-white \x1b[36mC\x1b[0molor style                  "),
  usageBreak,
  usageRow (chars! " -\x1b[36md\x1b[0m  ") (chars! "           ") (chars! " \x1b[36md\x1b[0mebug with gdb/lldb once failure occurred                  "),
  usageBreak,
  usageRow (chars! " -\x1b[36mf\x1b[0m  ") (chars! "           ") (chars! " Only test last \x1b[36mf\x1b[0mailed cases                                "),
  usageBreak,
  usageRow (chars! " -\x1b[36mF\x1b[0m  ") (chars! "  \x1b[90m[\x1b[0mn=max\x1b[90m]\x1b[0m  ") (chars! " \x1b[36mF\x1b[0mold json print, 0:unfold 1:short 2:same 3:single          "),
  usageBreak,
  usageRow (chars! " -\x1b[36mi\x1b[0m\x1b[90m/\x1b[0m\x1b[36me\x1b[0m") (chars! "\x1b[90m[\x1b[0mpattern .\x1b[90m]\x1b[0m") (chars! " \x1b[36mi\x1b[0mnclude\x1b[90m/\x1b[0m\x1b[36me\x1b[0mxclude by case suite file or tags, -h i...        "),
  usageBreak,
  usageRow (chars! " -\x1b[36ml\x1b[0m  ") (chars! "  \x1b[90m[\x1b[0mtype .\x1b[90m]\x1b[0m ") (chars! " \x1b[36ml\x1b[0mist suites cases and tags, type [suite case todo tags]    "),
  usageBreak,
  usageRow (chars! " -\x1b[36mm\x1b[0m  ") (chars! "           ") (chars! " Test cases without \x1b[36mm\x1b[0memory check                            "),
  usageBreak,
  usageRow (chars! " -\x1b[36mo\x1b[0m  ") (chars! "  \x1b[90m[\x1b[0mpath\x1b[90m]\x1b[0m   ") (chars! " \x1b[36mo\x1b[0mutput junit report, default is <executable>.junit.xml     "),
  usageBreak,
  usageRow (chars! " -\x1b[36mp\x1b[0m  ") (chars! "           ") (chars! " Disable test percentage \x1b[36mp\x1b[0mrogressing bar                    "),
  usageBreak,
  usageRow (chars! " -\x1b[36mr\x1b[0m  ") (chars! "   \x1b[90m[\x1b[0mn=2\x1b[90m]\x1b[0m   ") (chars! " Repeat test n (default 2) \x1b[36mr\x1b[0mounds                           "),
  usageBreak,
  usageRow (chars! " -\x1b[36ms\x1b[0m  ") (chars! "\x1b[90m[\x1b[0mtype=rand\x1b[90m]\x1b[0m") (chars! " \x1b[36ms\x1b[0mhuffle cases random/alphabet/reverse if no last failed    "),
  usageBreak,
  usageRow (chars! " -\x1b[36mS\x1b[0m  ") (chars! " \x1b[90m[\x1b[0mtype=\\\"\x1b[90m]\x1b[0m ") (chars! " JSON C/C++ \x1b[36mS\x1b[0mource code, type [\\'/single \\\"/double \\\\\\\"]    "),
  usageBreak,
  usageRow (chars! " -\x1b[36mv\x1b[0m  ") (chars! "  \x1b[90m[\x1b[0mn=max\x1b[90m]\x1b[0m  ") (chars! " \x1b[36mv\x1b[0merbose, 0:quiet 1/2/3:compact 4:normal 5:details          "),
  usageBreak,
  usageRow (chars! " -\x1b[36mx\x1b[0m  ") (chars! "           ") (chars! " e\x1b[36mx\x1b[0mit code as failed cases count                            "),
  usageBreak,
  usageRow (chars! " -\x1b[36mW\x1b[0m  ") (chars! "  \x1b[90m[\x1b[0mtype .\x1b[90m]\x1b[0m ") (chars! " Configure failure as \x1b[36mW\x1b[0marning, exception, leak, -h W...     "),
  usageBreak,
  usageRow (chars! " -\x1b[36mh\x1b[0m\x1b[90m/\x1b[0m\x1b[36m?\x1b[0m") (chars! "  \x1b[90m[\x1b[0moption\x1b[90m]\x1b[0m ") (chars! " https://github.com/lingjf/h2unit/.../document/option.md    "),
  chars! "\x1b[90m└─────┴───────────┴────────────────────────────────────────────────────────────┘\x1b[0m\n"]

/-- The line above the table, `/repo/source/option/h2_option.cpp:18`, with the version, the date and the revision. -/
def usageTitle (version date revision : Str) : Str :=
  chars! " \x1b[32mh₂unit\x1b[0m \x1b[90mv\x1b[0m" ++ version ++ chars! "  \x1b[90m" ++ date ++ chars! "\x1b[0m  \x1b[90m" ++ revision ++
    chars! "\x1b[0m\n"

/-- `usage`, `/repo/source/option/h2_option.cpp:1-43`. -/
def usage (version date revision : Str) (option : Option Str) : Str :=
  match option with
  | some w =>
    if w = ['i'] ∨ w = ['e'] then patternPage.flatten
    else if w = ['W'] then warningPage.flatten
    else usageTitle version date revision ++ usageTable.flatten
  | none => usageTitle version date revision ++ usageTable.flatten

/-- The loop of `h2_option::parse` up to `usage(get.extract_string())`, `/repo/source/option/h2_option.cpp:95-188`: the
word that `usage` is called with, if it is called. -/
def helpLoop (path : Str) : Nat → Options → Str → List Str → Option (Option Str)
  | 0, _, _, _ => none
  | f + 1, o, j, args =>
    match next j args with
    | none => none
    | some (c, j, args) =>
      if c = 'h' ∨ c = '?' then some ((extractString args).map Prod.fst)
      else
        match option path o c j args with
        | (.ok o, j, args) => helpLoop path f o j args
        | _ => none

/-- What `-h` or `-?` among the arguments prints, `/repo/source/option/h2_option.cpp:185-186`. -/
def helpText (version date revision path : Str) (args : List Str) : Option Str :=
  if argumentsFit args then (helpLoop path ((args.map List.length).sum + 1) {} [] args).map (usage version date revision) else none

end H2.Cli
