import Verif.Cli.Usage
import Verif.Cli.Props
/-
C104: what `-h` says of the options.
-/
namespace H2.Cli

/-! ### Specification: reading the table as it is seen -/

/-- What is seen of a text on a terminal: without the sequences from ESC to `m`. -/
def seen : Bool → Str → Str
  | _, [] => []
  | true, c :: r => seen (c != 'm') r
  | false, c :: r => if c = '\x1b' then seen true r else c :: seen false r

/-- The parts of a text between the characters `c`. -/
def parts (c : Char) : Str → List Str
  | [] => [[]]
  | d :: r =>
    if d = c then [] :: parts c r
    else match parts c r with
      | p :: ps => (d :: p) :: ps
      | [] => [[d]]

/-- A row: the letters of an option, what it is given, and what is said of it. -/
structure Row where
  letters : Str
  given : Str
  text : Str
deriving DecidableEq

/-- The row a line is, if it has three columns. -/
def rowOf (line : Str) : Option Row :=
  match parts '│' line with
  | [[], a, b, t, []] => some ⟨a.filter fun c => c ≠ ' ' && c ≠ '-' && c ≠ '/', b.filter (· ≠ ' '), t⟩
  | _ => none

/-- The rows of a text. -/
def rowsOf (text : Str) : List Row := (parts '\n' (seen false text)).filterMap rowOf

/-- A text without line feeds and escape sequences, as versions and dates are. -/
def OneLine (t : Str) : Prop := ∀ c ∈ t, c ≠ '\n' ∧ c ≠ '\x1b'

/-- The option is given nothing. -/
def Row.nothing (r : Row) : Prop := r.given = []
/-- It is given a number. -/
def Row.number (r : Row) : Prop := ∃ d, r.given = (chars! "[n=") ++ d ++ [']']
/-- It is given several words. -/
def Row.several (r : Row) : Prop := ∃ d, r.given = ['['] ++ d ++ (chars! ".]")
/-- What it is given if nothing is written. -/
def Row.default (r : Row) (d : Str) : Prop := r.given = (chars! "[n=") ++ d ++ [']'] ∧ Number d ∨ r.given = (chars! "[type=") ++ d ++ [']']

/-- The words in square brackets. -/
def bracketed (t : Str) : List Str :=
  match parts '[' t with
  | [_, b] => match parts ']' b with
    | k :: _ => parts ' ' k
    | [] => []
  | _ => []

/-- A word as a shell reads it: a backslash stands before a character that is taken as it is. -/
def unquoted : Str → Str
  | '\\' :: c :: r => c :: unquoted r
  | c :: r => c :: unquoted r
  | [] => []

/-- The headings of a page: what its lines have before the colon. -/
def headings (page : Str) : List Str := ((parts '\n' (seen false page)).filter (· ≠ [])).filterMap fun l => (parts ':' l).head?

/-- The keys of the headings: what they have between the last blank and `=`. -/
def keys (page : Str) : List Str :=
  (headings page).filterMap fun h => match (parts ' ' h).getLast? with
    | some w => match parts '=' w with
      | [k, _] => some k
      | _ => none
    | none => none

/-! ### Proofs -/

/-- Whether a sequence is left open. -/
def open' : Bool → Str → Bool
  | s, [] => s
  | true, c :: r => open' (c != 'm') r
  | false, c :: r => if c = '\x1b' then open' true r else open' false r

theorem seen_append (a b : Str) : ∀ s, seen s (a ++ b) = seen s a ++ seen (open' s a) b := by
  induction a with
  | nil => intro s; cases s <;> simp [seen, open']
  | cons c a ih =>
    intro s
    cases s with
    | true => simp only [List.cons_append, seen, open']; exact ih _
    | false =>
      simp only [List.cons_append, seen, open']
      by_cases h : c = '\x1b'
      · simp only [if_pos h]; exact ih _
      · simp only [if_neg h]; rw [ih]; rfl

theorem seen_closed {a t : Str} (h : seen false a = t ∧ open' false a = false) (b : Str) : seen false (a ++ b) = t ++ seen false b := by
  rw [seen_append, h.1, h.2]

theorem seen_plain {a : Str} (h : ∀ c ∈ a, c ≠ '\x1b') (b : Str) : seen false (a ++ b) = a ++ seen false b := by
  induction a with
  | nil => rfl
  | cons c a ih =>
    rw [List.cons_append, seen, if_neg (h c (by simp)), ih fun d hd => h d (by simp [hd])]; rfl

theorem seen_t1 : seen false (chars! " \x1b[32mh₂unit\x1b[0m \x1b[90mv\x1b[0m") = (chars! " h₂unit v") ∧
    open' false (chars! " \x1b[32mh₂unit\x1b[0m \x1b[90mv\x1b[0m") = false := by decide +kernel
theorem seen_t2 : seen false (chars! "  \x1b[90m") = (chars! "  ") ∧ open' false (chars! "  \x1b[90m") = false := by decide +kernel
theorem seen_t3 : seen false (chars! "\x1b[0m  \x1b[90m") = (chars! "  ") ∧ open' false (chars! "\x1b[0m  \x1b[90m") = false := by decide +kernel
theorem seen_t4 : seen false (chars! "\x1b[0m\n") = ['\n'] ∧ open' false (chars! "\x1b[0m\n") = false := by decide +kernel

theorem seen_title {v d r : Str} (hv : OneLine v) (hd : OneLine d) (hr : OneLine r) (t : Str) :
    seen false (usageTitle v d r ++ t) = (chars! " h₂unit v") ++ v ++ (chars! "  ") ++ d ++ (chars! "  ") ++ r ++ '\n' :: seen false t := by
  unfold usageTitle
  simp only [List.append_assoc]
  rw [seen_closed seen_t1, seen_plain (fun c hc => (hv c hc).2), seen_closed seen_t2, seen_plain (fun c hc => (hd c hc).2), seen_closed seen_t3,
    seen_plain (fun c hc => (hr c hc).2), seen_closed seen_t4, List.singleton_append]

theorem parts_first {c : Char} {a : Str} (h : c ∉ a) (b : Str) : parts c (a ++ c :: b) = a :: parts c b := by
  induction a with
  | nil => simp [parts]
  | cons d a ih =>
    have hd : d ≠ c := fun e => h (by simp [e])
    rw [List.cons_append, parts, if_neg hd, ih fun hm => h (by simp [hm])]

/-- The row of a string of the table. -/
def lineRow (l : Str) : Option Row := rowOf (seen false l).dropLast

/-- The string is one line. -/
def Whole (l : Str) : Prop :=
  (seen false l).getLast? = some '\n' ∧ '\n' ∉ (seen false l).dropLast ∧ open' false l = false

instance (l : Str) : Decidable (Whole l) := by unfold Whole; infer_instance

theorem rows_lines (L : List Str) (h : ∀ l ∈ L, Whole l) : rowsOf L.flatten = L.filterMap lineRow := by
  induction L with
  | nil => rfl
  | cons l L ih =>
    obtain ⟨h1, h2, h3⟩ := h l (by simp)
    have ih := ih fun l hl => h l (by simp [hl])
    have e : seen false l = (seen false l).dropLast ++ ['\n'] := by
      obtain ⟨ys, hy⟩ := List.getLast?_eq_some_iff.1 h1
      rw [hy]; simp
    rw [List.flatten_cons, rowsOf, seen_append, h3, e, List.append_assoc, List.singleton_append, parts_first h2, List.filterMap_cons, List.filterMap_cons]
    rw [show List.filterMap rowOf (parts '\n' (seen false L.flatten)) = rowsOf L.flatten from rfl, ih]
    rfl

theorem table_whole : ∀ l ∈ usageTable, Whole l := by decide +kernel

theorem table_rows : rowsOf usageTable.flatten =
    [⟨['b'], (chars! "[n=1]"), (chars! " break test once n (default 1) cases failed                 ")⟩,
     ⟨['c'], [], (chars! " continue asserts even if failure occurred                  ")⟩,
     ⟨['C'], [], (chars! " Console output in black-white Color style                  ")⟩,
     ⟨['d'], [], (chars! " debug with gdb/lldb once failure occurred                  ")⟩,
     ⟨['f'], [], (chars! " Only test last failed cases                                ")⟩,
     ⟨['F'], (chars! "[n=max]"), (chars! " Fold json print, 0:unfold 1:short 2:same 3:single          ")⟩,
     ⟨['i', 'e'], (chars! "[pattern.]"), (chars! " include/exclude by case suite file or tags, -h i...        ")⟩,
     ⟨['l'], (chars! "[type.]"), (chars! " list suites cases and tags, type [suite case todo tags]    ")⟩,
     ⟨['m'], [], (chars! " Test cases without memory check                            ")⟩,
     ⟨['o'], (chars! "[path]"), (chars! " output junit report, default is <executable>.junit.xml     ")⟩,
     ⟨['p'], [], (chars! " Disable test percentage progressing bar                    ")⟩,
     ⟨['r'], (chars! "[n=2]"), (chars! " Repeat test n (default 2) rounds                           ")⟩,
     ⟨['s'], (chars! "[type=rand]"), (chars! " shuffle cases random/alphabet/reverse if no last failed    ")⟩,
     ⟨['S'], (chars! "[type=\\\"]"), (chars! " JSON C/C++ Source code, type [\\'/single \\\"/double \\\\\\\"]    ")⟩,
     ⟨['v'], (chars! "[n=max]"), (chars! " verbose, 0:quiet 1/2/3:compact 4:normal 5:details          ")⟩,
     ⟨['x'], [], (chars! " exit code as failed cases count                            ")⟩,
     ⟨['W'], (chars! "[type.]"), (chars! " Configure failure as Warning, exception, leak, -h W...     ")⟩,
     ⟨['h', '?'], (chars! "[option]"), (chars! " https://github.com/lingjf/h2unit/.../document/option.md    ")⟩] := by
  rw [rows_lines _ table_whole]; decide +kernel

theorem parts_head {c d : Char} (h : d ≠ c) (a : Str) : ∃ p ps, parts c (d :: a) = (d :: p) :: ps := by
  rw [parts, if_neg h]
  cases parts c a with
  | nil => exact ⟨[], [], rfl⟩
  | cons p ps => exact ⟨p, ps, rfl⟩

theorem rowOf_blank (a : Str) : rowOf (' ' :: a) = none := by
  obtain ⟨p, ps, h⟩ := parts_head (c := '│') (d := ' ') (by decide) a
  rw [rowOf, h]

theorem rows_usage {v d r : Str} (hv : OneLine v) (hd : OneLine d) (hr : OneLine r) :
    rowsOf (usage v d r none) = rowsOf usageTable.flatten := by
  have hn : '\n' ∉ (chars! " h₂unit v") ++ v ++ (chars! "  ") ++ d ++ (chars! "  ") ++ r := by
    simp only [List.mem_append, not_or]
    exact ⟨⟨⟨⟨⟨by decide, fun h => (hv _ h).1 rfl⟩, by decide⟩, fun h => (hd _ h).1 rfl⟩, by decide⟩, fun h => (hr _ h).1 rfl⟩
  simp only [usage, rowsOf]
  rw [seen_title hv hd hr, parts_first hn, List.filterMap_cons]
  rw [show (chars! " h₂unit v") = [' '] ++ (chars! "h₂unit v") by decide +kernel]
  simp only [List.append_assoc, List.cons_append, List.nil_append, rowOf_blank]

theorem parse_writes {path : Str} {args : List Str} {is : List Item} (h : Writes [] args is) (hf : argumentsFit args = true) :
    parse path args = applyAll path {} is := by
  unfold parse
  rw [if_pos hf, loop_writes path h _ _ (by simp [size])]

theorem fit_tail {w : Str} {args : List Str} (h : argumentsFit (w :: args) = true) : argumentsFit args = true := by
  simp only [argumentsFit, List.map_cons, List.sum_cons, decide_eq_true_eq] at h ⊢; omega

theorem unknown_option {path : Str} {c : Char} (h : ∀ r ∈ rowsOf usageTable.flatten, c ∉ r.letters) :
    c ∉ numeric ∧ c ∉ listed ∧ c ∉ single ∧ ∀ o, apply path o (.flag c) = .ok o := by
  rw [table_rows] at h
  simp only [List.forall_mem_cons] at h
  simp only [List.mem_cons, List.not_mem_nil, or_false, not_or] at h
  obtain ⟨b, c1, C, d, f, F, ⟨i, e⟩, l, m, o, p, r, s, S, v, x, W, ⟨h1, q⟩, _⟩ := h
  refine ⟨by simp [numeric, *], by simp [listed, *], by simp [single, *], fun o => ?_⟩
  simp only [apply]
  unfold option
  split <;> first | exact absurd rfl (by assumption) | rfl

/-- **C104, letters.** The table names exactly the letters that mean something. -/
theorem C104_letters {v d r : Str} (hv : OneLine v) (hd : OneLine d) (hr : OneLine r) (path : Str) (c : Char) :
    (∃ row ∈ rowsOf (usage v d r none), c ∈ row.letters) ↔
      ∃ args, argumentsFit (['-', c] :: args) = true ∧ parse path (['-', c] :: args) ≠ parse path args := by
  rw [rows_usage hv hd hr]
  constructor
  · rintro ⟨row, hm, hc⟩
    rw [table_rows] at hm
    simp only [List.mem_cons, List.not_mem_nil, or_false] at hm
    have none' : ∀ {c : Char} (o : Options), parse path [['-', c]] = .ok o → Outcome.ok o ≠ .ok {} →
        ∃ args, argumentsFit (['-', c] :: args) = true ∧ parse path (['-', c] :: args) ≠ parse path args :=
      fun o h1 h2 => ⟨[], rfl, by rw [h1]; exact h2⟩
    rcases hm with rfl | rfl | rfl | rfl | rfl | rfl | rfl | rfl | rfl | rfl | rfl | rfl | rfl | rfl | rfl | rfl | rfl | rfl <;>
      simp only [List.mem_cons, List.not_mem_nil, or_false] at hc
    · subst hc; exact none' { breakAfterFails := 1 } rfl (by decide)
    · subst hc; exact none' { continueAssert := true } rfl (by decide)
    · subst hc; exact none' { colorful := false } rfl (by decide)
    · subst hc; exact none' { debuggerTrap := true } rfl (by decide)
    · subst hc; exact none' { onlyLastFailed := true } rfl (by decide)
    · subst hc; exact none' { foldJson := 0 } rfl (by decide)
    · have word : ∀ o : Options, parse path [['-', c], ['x']] = .ok o → Outcome.ok o ≠ .ok {} →
          ∃ args, argumentsFit (['-', c] :: args) = true ∧ parse path (['-', c] :: args) ≠ parse path args :=
        fun o h1 h2 => ⟨[['x']], rfl, by rw [h1]; exact h2⟩
      rcases hc with rfl | rfl
      · exact word { includes := [['x']] } rfl (by decide)
      · exact word { excludes := [['x']] } rfl (by decide)
    · subst hc; exact none' { listSuite := true, listCase := true, listTodo := true } rfl (by decide)
    · subst hc; exact none' { memoryCheck := false } rfl (by decide)
    · subst hc
      refine ⟨[], rfl, ?_⟩
      by_cases hp : path.length + 10 < 256
      · rw [show parse path [['-', 'o']] = .ok { junitPath := path ++ ".junit.xml".toList } from by
          simp [parse, argumentsFit, loop, next, option, hp, extractString]]
        intro h
        have h : path ++ ".junit.xml".toList = [] := congrArg (fun x => match x with | .ok o => o.junitPath | _ => []) h
        exact absurd h (by simp)
      · rw [show parse path [['-', 'o']] = .undefined from by simp [parse, argumentsFit, loop, next, option, hp]]
        exact fun h => nomatch h
    · subst hc; exact none' { progressing := false } rfl (by decide)
    · subst hc; exact none' { runRounds := 2 } rfl (by decide)
    · subst hc; exact none' { shuffleRandom := true } rfl (by decide)
    · subst hc; exact none' { jsonQuote := ['\\', '"'] } rfl (by decide)
    · subst hc; exact none' { verbose := 8 } rfl (by decide)
    · subst hc; exact none' { exitWithFails := true } rfl (by decide)
    · subst hc
      refine ⟨[chars! "leak"], rfl, ?_⟩
      rw [show parse path [['-', 'W'], chars! "leak"] = .ok { warnLeak := true } from rfl]
      exact (by decide : Outcome.ok { warnLeak := true } ≠ .ok {})
    · have exits : parse path [['-', c]] = .exit 0 → ∃ args, argumentsFit (['-', c] :: args) = true ∧ parse path (['-', c] :: args) ≠ parse path args :=
        fun h => ⟨[], rfl, by rw [h]; exact fun h => nomatch h⟩
      rcases hc with rfl | rfl <;> exact exits rfl
  · rintro ⟨args, hf, hne⟩
    refine Classical.byContradiction fun hn => hne ?_
    obtain ⟨h1, h2, h3, h4⟩ := unknown_option (path := path) (c := c) fun row hm hc => hn ⟨row, hm, hc⟩
    obtain ⟨is, his⟩ := C39_total args
    rw [parse_writes his (fit_tail hf), parse_writes (.dash (.flag h1 h2 h3 his)) hf, applyAll, h4]

example : OneLine "5.20".toList ∧ (∃ row ∈ rowsOf (usage "5.20".toList [] [] none), 'e' ∈ row.letters) ∧
    ¬ ∃ row ∈ rowsOf (usage "5.20".toList [] [] none), 'a' ∈ row.letters := by
  have h : OneLine "5.20".toList := by unfold OneLine; decide
  refine ⟨h, ?_⟩
  rw [rows_usage h (by simp [OneLine]) (by simp [OneLine]), table_rows]
  decide

/-- **C104, flags.** A word behind an option that is given nothing belongs to no option. -/
theorem C104_nothing {v d r : Str} (hv : OneLine v) (hd : OneLine d) (hr : OneLine r) (path : Str) {row : Row}
    (hm : row ∈ rowsOf (usage v d r none)) (hn : row.nothing) {c : Char} (hc : c ∈ row.letters) (w : Str) (hw : w.head? ≠ some '-')
    (args : List Str) (hf : argumentsFit (['-', c] :: w :: args) = true) :
    parse path (['-', c] :: w :: args) = parse path (['-', c] :: args) := by
  rw [rows_usage hv hd hr, table_rows] at hm
  have h : c ∉ numeric ∧ c ∉ listed ∧ c ∉ single := by
    simp only [List.mem_cons, List.not_mem_nil, or_false] at hm
    rcases hm with rfl | rfl | rfl | rfl | rfl | rfl | rfl | rfl | rfl | rfl | rfl | rfl | rfl | rfl | rfl | rfl | rfl | rfl <;>
      first
      | (simp only [List.mem_cons, List.not_mem_nil, or_false] at hc; subst hc; decide)
      | exact nomatch hn
  obtain ⟨is, his⟩ := C39_total args
  rw [parse_writes (.dash (.flag h.1 h.2.1 h.2.2 (.stray hw his))) hf, parse_writes (.dash (.flag h.1 h.2.1 h.2.2 his))]
  simp only [argumentsFit, List.map_cons, List.sum_cons, decide_eq_true_eq] at hf ⊢; omega

example : parse [] [chars! "-c", chars! "word", chars! "-x"] = parse [] [chars! "-c", chars! "-x"] := by decide +kernel

/-- **C104, numbers.** An option that is given a number takes it from its own word or from the next. -/
theorem C104_number {v d r : Str} (hv : OneLine v) (hd : OneLine d) (hr : OneLine r) (path : Str) {row : Row}
    (hm : row ∈ rowsOf (usage v d r none)) (hn : row.number) {c : Char} (hc : c ∈ row.letters) (ds : Str) (hs : Number ds)
    (args : List Str) (hf : argumentsFit (['-', c] :: ds :: args) = true) :
    parse path (('-' :: c :: ds) :: args) = parse path (['-', c] :: ds :: args) := by
  rw [rows_usage hv hd hr, table_rows] at hm
  have h : c ∈ numeric := by
    obtain ⟨d, hn⟩ := hn
    simp only [List.mem_cons, List.not_mem_nil, or_false] at hm
    rcases hm with rfl | rfl | rfl | rfl | rfl | rfl | rfl | rfl | rfl | rfl | rfl | rfl | rfl | rfl | rfl | rfl | rfl | rfl <;>
      first
      | (simp only [List.mem_cons, List.not_mem_nil, or_false] at hc; subst hc; decide)
      | (simp at hn; done)
  obtain ⟨is, his⟩ := C39_total args
  have hj : NoDigit [] := by simp [NoDigit]
  have hw := Writes.dash (Writes.attached h hs hj his)
  rw [List.append_nil] at hw
  rw [parse_writes (.dash (.separate h hj hs his)) hf, parse_writes hw]
  simp only [argumentsFit, List.map_cons, List.sum_cons, List.length_cons, decide_eq_true_eq] at hf ⊢
  omega

example : parse [] [chars! "-r12", chars! "-x"] = parse [] [chars! "-r", chars! "12", chars! "-x"] ∧
    parse [] [chars! "-r12"] = .ok { runRounds := 12 } := by decide +kernel

/-- **C104, defaults.** An option with a default does without an argument what it does with the default. -/
theorem C104_default {v d r : Str} (hv : OneLine v) (hd : OneLine d) (hr : OneLine r) (path : Str) {row : Row}
    (hm : row ∈ rowsOf (usage v d r none)) {t : Str} (hn : row.default t) {c : Char} (hc : c ∈ row.letters)
    (args : List Str) (ha : OptionNext args) (hf : argumentsFit (['-', c] :: t :: args) = true) :
    parse path (['-', c] :: args) = parse path (['-', c] :: t :: args) := by
  rw [rows_usage hv hd hr, table_rows] at hm
  have hf' : argumentsFit (['-', c] :: args) = true := by
    simp only [argumentsFit, List.map_cons, List.sum_cons, decide_eq_true_eq] at hf ⊢; omega
  obtain ⟨is, his⟩ := C39_total args
  have hj : NoDigit [] := by simp [NoDigit]
  have hnn : ∀ w ∈ args.head?, ¬ Number w := by
    intro w hw hnum
    have h1 := ha w hw
    cases w with
    | nil => simp at h1
    | cons e w =>
      simp only [List.head?_cons, Option.some.injEq] at h1
      exact absurd (hnum.2 e (by simp)) (by rw [h1]; decide)
  have num : c ∈ numeric → Number t → atoi t = some (bareOf c) → parse path (['-', c] :: args) = parse path (['-', c] :: t :: args) := by
    intro h1 h2 h3
    rw [parse_writes (.dash (.separate h1 hj h2 his)) hf, parse_writes (.dash (.bare h1 hj hnn his)) hf']
    simp only [applyAll, apply, h3]
  have e1 : ∀ {p t : Str} (q : Str), p ++ q ++ [']'] = p ++ t ++ [']'] → t = q := fun q h => by
    rw [List.append_assoc, List.append_assoc] at h
    exact (List.append_cancel_right (List.append_cancel_left h)).symm
  simp only [List.mem_cons, List.not_mem_nil, or_false] at hm
  unfold Row.default at hn
  rcases hm with rfl | rfl | rfl | rfl | rfl | rfl | rfl | rfl | rfl | rfl | rfl | rfl | rfl | rfl | rfl | rfl | rfl | rfl <;>
    simp only [List.mem_cons, List.not_mem_nil, or_false] at hc <;> rcases hn with ⟨hn, hd⟩ | hn <;> try (simp at hn; done)
  · subst hc; obtain rfl := e1 (p := chars! "[n=") ['1'] hn; exact num (by decide) hd (by decide)
  · subst hc; obtain rfl := e1 (p := chars! "[n=") (chars! "max") hn; exact absurd (hd.2 'm' (by decide)) (by decide)
  · subst hc; obtain rfl := e1 (p := chars! "[n=") ['2'] hn; exact num (by decide) hd (by decide)
  · subst hc
    obtain rfl := e1 (p := chars! "[type=") (chars! "rand") hn
    have h1 : Writes [] (['-', 's'] :: (chars! "rand") :: args) (.words 's' [chars! "rand"] :: is) :=
      .dash (.words (ws := [chars! "rand"]) (by decide) (by decide) ha his)
    have h2 : Writes [] (['-', 's'] :: args) (.words 's' [] :: is) := .dash (.words (ws := []) (by decide) (by decide) ha his)
    rw [parse_writes h1 hf, parse_writes h2 hf']
    rfl
  · subst hc
    obtain rfl := e1 (p := chars! "[type=") ['\\', '"'] hn
    rw [parse_writes (.dash (.word (by decide) (by decide) his)) hf, parse_writes (.dash (.noWord (by decide) ha his)) hf']
    rfl
  · subst hc; obtain rfl := e1 (p := chars! "[n=") (chars! "max") hn; exact absurd (hd.2 'm' (by decide)) (by decide)

example : parse [] [chars! "-s", chars! "-cb"] = parse [] [chars! "-s", chars! "rand", chars! "-cb"] ∧
    parse [] [chars! "-b", chars! "-c"] = .ok { breakAfterFails := 1, continueAssert := true } := by decide +kernel

theorem split_words : ∀ args : List Str, ∃ ws rest, args = ws ++ rest ∧ (∀ w ∈ ws, w.head? ≠ some '-') ∧ OptionNext rest
  | [] => ⟨[], [], rfl, by simp, by simp [OptionNext]⟩
  | w :: args => by
    by_cases h : w.head? = some '-'
    · exact ⟨[], w :: args, rfl, by simp, by simpa [OptionNext] using h⟩
    · obtain ⟨ws, rest, h1, h2, h3⟩ := split_words args
      refine ⟨w :: ws, rest, by rw [h1]; rfl, ?_, h3⟩
      intro u hu
      rcases List.mem_cons.1 hu with rfl | hu
      · exact h
      · exact h2 u hu

theorem listed_some {o o' : Options} {w : Str} (h : listWord o w = .ok o') : lastOf 'l' o' = o' := by
  unfold listWord at h
  have key : ∀ q : Options, (q.listSuite || q.listCase || q.listTodo || q.listTags) = true → lastOf 'l' q = q := by
    intro q hq
    have e : lastOf 'l' q = if !q.listSuite && !q.listCase && !q.listTodo && !q.listTags
      then { q with listSuite := true, listCase := true, listTodo := true } else q := rfl
    rw [e, if_neg]
    cases h1 : q.listSuite <;> cases h2 : q.listCase <;> cases h3 : q.listTodo <;> cases h4 : q.listTags <;> simp_all
  split at h
  · split at h
    · cases h; exact key _ rfl
    · split at h
      · cases h; exact key _ (by simp)
      · split at h
        · cases h; exact key _ (by simp)
        · cases h; exact key _ (by simp)
  · cases h

/-- **C104, several.** An option that is given several words may be written again before each of them. -/
theorem C104_several {v d r : Str} (hv : OneLine v) (hd : OneLine d) (hr : OneLine r) (path : Str) {row : Row}
    (hm : row ∈ rowsOf (usage v d r none)) (hn : row.several) {c : Char} (hc : c ∈ row.letters) (w u : Str)
    (hw : w.head? ≠ some '-') (hu : u.head? ≠ some '-')
    (args : List Str) (hf : argumentsFit (['-', c] :: w :: ['-', c] :: u :: args) = true) :
    parse path (['-', c] :: w :: u :: args) = parse path (['-', c] :: w :: ['-', c] :: u :: args) := by
  rw [rows_usage hv hd hr, table_rows] at hm
  have h : c = 'l' ∨ c ∈ listed ∧ lastOf c = id := by
    obtain ⟨d, hn⟩ := hn
    simp only [List.mem_cons, List.not_mem_nil, or_false] at hm
    rcases hm with rfl | rfl | rfl | rfl | rfl | rfl | rfl | rfl | rfl | rfl | rfl | rfl | rfl | rfl | rfl | rfl | rfl | rfl <;>
      first
      | (simp only [List.mem_cons, List.not_mem_nil, or_false] at hc; subst hc; first | exact .inl rfl | exact .inr ⟨by decide, rfl⟩)
      | (simp only [List.mem_cons, List.not_mem_nil, or_false] at hc; rcases hc with rfl | rfl <;> exact .inr ⟨by decide, rfl⟩)
      | (have hn := congrArg List.reverse hn; simp at hn; done)
  have hl : c ∈ listed := by
    rcases h with rfl | h
    · decide
    · exact h.1
  obtain ⟨ws, rest, rfl, hws, hrest⟩ := split_words args
  obtain ⟨is, his⟩ := C39_total rest
  have w1 : Writes [] (['-', c] :: w :: u :: (ws ++ rest)) (.words c (w :: u :: ws) :: is) :=
    .dash (.words (ws := w :: u :: ws) hl (by simp only [List.forall_mem_cons]; exact ⟨hw, hu, hws⟩) hrest his)
  have w2 : Writes [] (['-', c] :: u :: (ws ++ rest)) (.words c (u :: ws) :: is) :=
    .dash (.words (ws := u :: ws) hl (by simp only [List.forall_mem_cons]; exact ⟨hu, hws⟩) hrest his)
  have w3 : Writes [] (['-', c] :: w :: ['-', c] :: u :: (ws ++ rest)) (.words c [w] :: .words c (u :: ws) :: is) :=
    .dash (.words (ws := [w]) hl (by simpa using hw) (by simp [OptionNext]) w2)
  have hf1 : argumentsFit (['-', c] :: w :: u :: (ws ++ rest)) = true := by
    simp only [argumentsFit, List.map_cons, List.sum_cons, decide_eq_true_eq] at hf ⊢; omega
  rw [parse_writes w1 hf1, parse_writes w3 hf]
  simp only [applyAll, apply, run]
  cases hq : wordOf c {} w with
  | exit n => rfl
  | undefined => rfl
  | ok o1 =>
    have e : lastOf c o1 = o1 := by
      rcases h with rfl | ⟨_, h⟩
      · exact listed_some hq
      · rw [h]; rfl
    simp only [e]

example : parse [] [chars! "-l", chars! "suite", chars! "tags"] = parse [] [chars! "-l", chars! "suite", chars! "-l", chars! "tags"] := by
  decide +kernel

/-- **C104, one.** Of the words behind an option that is given one only the first is its own. Missing: the option `-s`. -/
theorem C104_one_partial {v d r : Str} (hv : OneLine v) (hd : OneLine d) (hr : OneLine r) (path : Str) {row : Row}
    (hm : row ∈ rowsOf (usage v d r none)) (h0 : ¬ row.nothing) (h1 : ¬ row.number) (h2 : ¬ row.several)
    {c : Char} (hc : c ∈ row.letters) (hs : c ≠ 's') (w u : Str) (hw : w.head? ≠ some '-') (hu : u.head? ≠ some '-')
    (args : List Str) (hf : argumentsFit (['-', c] :: w :: u :: args) = true) :
    parse path (['-', c] :: w :: u :: args) = parse path (['-', c] :: w :: args) := by
  rw [rows_usage hv hd hr, table_rows] at hm
  have h : c ∈ single := by
    unfold Row.nothing at h0
    unfold Row.number at h1
    unfold Row.several at h2
    simp only [List.mem_cons, List.not_mem_nil, or_false] at hm
    rcases hm with rfl | rfl | rfl | rfl | rfl | rfl | rfl | rfl | rfl | rfl | rfl | rfl | rfl | rfl | rfl | rfl | rfl | rfl <;>
      first
      | exact absurd rfl h0
      | exact absurd ⟨['1'], rfl⟩ h1
      | exact absurd ⟨['2'], rfl⟩ h1
      | exact absurd ⟨(chars! "max"), rfl⟩ h1
      | exact absurd ⟨(chars! "pattern"), rfl⟩ h2
      | exact absurd ⟨(chars! "type"), rfl⟩ h2
      | (simp only [List.mem_cons, List.not_mem_nil, or_false] at hc; subst hc; first | decide | exact absurd rfl hs)
      | (simp only [List.mem_cons, List.not_mem_nil, or_false] at hc; rcases hc with rfl | rfl <;> decide)
  obtain ⟨is, his⟩ := C39_total args
  rw [parse_writes (.dash (.word h hw (.stray hu his))) hf, parse_writes (.dash (.word h hw his))]
  simp only [argumentsFit, List.map_cons, List.sum_cons, decide_eq_true_eq] at hf ⊢; omega

example : parse [] [chars! "-o", chars! "a.xml", chars! "b.xml"] = parse [] [chars! "-o", chars! "a.xml"] := by decide +kernel

/-- Of the words behind `-s`, which is said to be given one, all are its own. -/
theorem C104_one_false {v d r : Str} (hv : OneLine v) (hd : OneLine d) (hr : OneLine r) (path : Str) :
    (∃ row ∈ rowsOf (usage v d r none), ¬ row.nothing ∧ ¬ row.number ∧ ¬ row.several ∧ row.letters = ['s']) ∧
      parse path [chars! "-s", chars! "name", chars! "reverse"] ≠ parse path [chars! "-s", chars! "name"] := by
  rw [rows_usage hv hd hr, table_rows]
  refine ⟨⟨⟨['s'], (chars! "[type=rand]"), (chars! " shuffle cases random/alphabet/reverse if no last failed    ")⟩, by decide,
    (by unfold Row.nothing; decide), ?_, ?_, rfl⟩, ?_⟩
  · rintro ⟨d, h⟩; simp at h
  · rintro ⟨d, h⟩; have h := congrArg List.reverse h; simp at h
  · rw [show parse path [chars! "-s", chars! "name", chars! "reverse"] = .ok { shuffleName := true, shuffleReverse := true } from rfl,
      show parse path [chars! "-s", chars! "name"] = .ok { shuffleName := true } from rfl]
    exact (by decide : Outcome.ok { shuffleName := true, shuffleReverse := true } ≠ .ok { shuffleName := true })

theorem parse_word {path : Str} {c : Char} {w : Str} (hc : c ∈ listed) (hw : w.head? ≠ some '-') (hf : argumentsFit [['-', c], w] = true) :
    parse path [['-', c], w] = match wordOf c {} w with
      | .ok o => .ok (lastOf c o)
      | e => e := by
  have h : Writes [] [['-', c], w] [.words c [w]] :=
    .dash (.words (ws := [w]) hc (by simpa using hw) (by simp [OptionNext]) .nil)
  rw [parse_writes h hf]
  simp only [applyAll, apply, run]
  cases wordOf c {} w <;> rfl

theorem listWord_ok (o : Options) (w : Str) : (∃ o', listWord o w = .ok o') ↔ ∃ k, Stands kList w k := by
  simp only [← candidate_iff (ks := kList) (by decide +kernel) w]
  unfold listWord
  rw [show candidate w ["suite".toList, "case".toList, "todo".toList, "tags".toList] = candidate w kList from rfl]
  cases candidate w kList with
  | none => simp
  | some k =>
    refine ⟨fun _ => ⟨k, rfl⟩, fun _ => ?_⟩
    dsimp only
    split
    · exact ⟨_, rfl⟩
    · split
      · exact ⟨_, rfl⟩
      · split <;> exact ⟨_, rfl⟩

theorem patternWord_ok (c : Char) (hc : c = 'i' ∨ c = 'e') (o : Options) {k p : Str} (hk : '=' ∉ k) (hl : k.length < 64) :
    (∃ o', wordOf c o (k ++ '=' :: p) = .ok o') ↔ ∃ key, Stands kPattern k key := by
  simp only [← candidate_iff (ks := kPattern) (by decide +kernel) k]
  rcases hc with rfl | rfl
  · show (∃ o', includeWord o _ = .ok o') ↔ _
    unfold includeWord
    rw [splitEq_some.2 ⟨rfl, hk⟩]
    dsimp only
    rw [if_pos hl, show candidate k ["file".toList, "suite".toList, "case".toList, "tags".toList] = candidate k kPattern from rfl]
    cases candidate k kPattern with
    | none => simp
    | some k =>
      refine ⟨fun _ => ⟨k, rfl⟩, fun _ => ?_⟩
      dsimp only
      split
      · exact ⟨_, rfl⟩
      · split
        · exact ⟨_, rfl⟩
        · split <;> exact ⟨_, rfl⟩
  · show (∃ o', excludeWord o _ = .ok o') ↔ _
    unfold excludeWord
    rw [splitEq_some.2 ⟨rfl, hk⟩]
    dsimp only
    rw [if_pos hl, show candidate k ["file".toList, "suite".toList, "case".toList, "tags".toList] = candidate k kPattern from rfl]
    cases candidate k kPattern with
    | none => simp
    | some k =>
      refine ⟨fun _ => ⟨k, rfl⟩, fun _ => ?_⟩
      dsimp only
      split
      · exact ⟨_, rfl⟩
      · split
        · exact ⟨_, rfl⟩
        · split <;> exact ⟨_, rfl⟩

theorem parse_ok {path : Str} {c : Char} {w : Str} (hc : c ∈ listed) (hw : w.head? ≠ some '-') (hf : argumentsFit [['-', c], w] = true) :
    (∃ o, parse path [['-', c], w] = .ok o) ↔ ∃ o, wordOf c {} w = .ok o := by
  rw [parse_word hc hw hf]
  cases wordOf c {} w <;> simp

theorem words_l : bracketed (chars! " list suites cases and tags, type [suite case todo tags]    ") = kList := by decide +kernel

/-- **C104, lists.** The words in the brackets of `-l` and their abbreviations are those it takes. -/
theorem C104_words {v d r : Str} (hv : OneLine v) (hd : OneLine d) (hr : OneLine r) (path : Str) {row : Row}
    (hm : row ∈ rowsOf (usage v d r none)) (hc : 'l' ∈ row.letters) (w : Str) (hw : w.head? ≠ some '-')
    (hf : argumentsFit [chars! "-l", w] = true) :
    (∃ o, parse path [chars! "-l", w] = .ok o) ↔ ∃ k, Stands (bracketed row.text) w k := by
  rw [rows_usage hv hd hr, table_rows] at hm
  have e : row.text = chars! " list suites cases and tags, type [suite case todo tags]    " := by
    simp only [List.mem_cons, List.not_mem_nil, or_false] at hm
    rcases hm with rfl | rfl | rfl | rfl | rfl | rfl | rfl | rfl | rfl | rfl | rfl | rfl | rfl | rfl | rfl | rfl | rfl | rfl <;>
      first
      | rfl
      | (simp at hc; done)
  rw [e, words_l, parse_ok (by decide) hw hf]
  exact listWord_ok {} w

example : parse [] [chars! "-l", chars! "SU"] = .ok { listSuite := true } ∧ parse [] [chars! "-l", chars! "t"] = .exit (-1) := by
  decide +kernel

theorem pattern_keys : keys patternPage.flatten = kPattern := by decide +kernel
theorem warning_headings : headings warningPage.flatten =
    [chars! "exception", chars! "uncaught", chars! "leak", chars! "violate", chars! "double_free", chars! "asymmetric_free"] := by
  decide +kernel

/-- **C104, patterns.** The keys on the page about `-i` and `-e` and their abbreviations are those the two take. -/
theorem C104_patterns (v d r path : Str) (c : Char) (hc : c = 'i' ∨ c = 'e') (k p : Str) (hk : '=' ∉ k) (hd : k.head? ≠ some '-')
    (hl : k.length < 64) (hf : argumentsFit [['-', c], k ++ '=' :: p] = true) :
    (∃ o, parse path [['-', c], k ++ '=' :: p] = .ok o) ↔ ∃ key, Stands (keys (usage v d r (some [c]))) k key := by
  have e : usage v d r (some [c]) = patternPage.flatten := by rcases hc with rfl | rfl <;> rfl
  rw [e, pattern_keys, parse_ok (by rcases hc with rfl | rfl <;> decide) _ hf, patternWord_ok c hc {} hk hl]
  cases k with
  | nil => simp
  | cons a k => exact hd

example : parse [] [chars! "-e", chars! "ta=x"] = .ok { tagsExcludes := [['x']] } ∧ parse [] [chars! "-e", chars! "line=3"] = .exit (-1) := by
  decide +kernel

/-- **C104, warnings.** The headings of the page about `-W` are words it takes. Missing: `double_free`. -/
theorem C104_warnings_partial (v d r path : Str) (h : Str) (hm : h ∈ headings (usage v d r (some ['W']))) (hn : h ≠ chars! "double_free") :
    ∃ o, parse path [chars! "-W", h] = .ok o := by
  rw [show usage v d r (some ['W']) = warningPage.flatten from rfl, warning_headings] at hm
  simp only [List.mem_cons, List.not_mem_nil, or_false] at hm
  rcases hm with rfl | rfl | rfl | rfl | rfl | rfl <;> first | exact absurd rfl hn | exact ⟨_, rfl⟩

/-- Conversely, what `-W` takes abbreviates a heading. -/
theorem C104_warnings (v d r path : Str) (w : Str) (hw : w.head? ≠ some '-') (hf : argumentsFit [chars! "-W", w] = true) {o : Options}
    (h : parse path [chars! "-W", w] = .ok o) : ∃ k ∈ headings (usage v d r (some ['W'])), Abbreviates w k := by
  rw [show usage v d r (some ['W']) = warningPage.flatten from rfl, warning_headings]
  obtain ⟨o, h⟩ := (parse_ok (c := 'W') (by decide) hw hf).1 ⟨o, h⟩
  have h : warnWord {} w = .ok o := h
  unfold warnWord at h
  rw [show candidate w ["exception".toList, "uncaught".toList, "leak".toList, "violate".toList, "asymmetric_free".toList] =
    candidate w kWarn from rfl] at h
  cases hc : candidate w kWarn with
  | none => rw [hc] at h; cases h
  | some k =>
    obtain ⟨h1, h2, _⟩ := (candidate_iff (ks := kWarn) (by decide +kernel) w k).1 hc
    refine ⟨k, ?_, h2⟩
    revert h1
    rw [show kWarn = [chars! "exception", chars! "uncaught", chars! "leak", chars! "violate", chars! "asymmetric_free"] from by decide +kernel]
    intro h1
    simp only [List.mem_cons, List.not_mem_nil, or_false] at h1
    rcases h1 with rfl | rfl | rfl | rfl | rfl <;> decide

/-- `-W double_free`, which has a heading, ends the program. -/
theorem C104_warnings_false (v d r path : Str) :
    (chars! "double_free") ∈ headings (usage v d r (some ['W'])) ∧ parse path [chars! "-W", chars! "double_free"] = .exit (-1) := by
  rw [show usage v d r (some ['W']) = warningPage.flatten from rfl, warning_headings]
  exact ⟨by decide, rfl⟩

/-- The table names `alphabet` for `-s`, which ends the program; `name` and `file`, which `-s` takes, it does not name. -/
theorem C104_shuffle_false {v d r : Str} (hv : OneLine v) (hd : OneLine d) (hr : OneLine r) (path : Str) :
    ∃ row ∈ rowsOf (usage v d r none), row.letters = ['s'] ∧
      (chars! "alphabet") <:+: row.text ∧ parse path [chars! "-s", chars! "alphabet"] = .exit (-1) ∧
      ¬ (chars! "name") <:+: row.text ∧ parse path [chars! "-s", chars! "name"] = .ok { shuffleName := true } ∧
      ¬ (chars! "file") <:+: row.text ∧ parse path [chars! "-s", chars! "file"] = .ok { shuffleFile := true } := by
  rw [rows_usage hv hd hr, table_rows]
  exact ⟨⟨['s'], (chars! "[type=rand]"), (chars! " shuffle cases random/alphabet/reverse if no last failed    ")⟩, by decide, rfl,
    by decide +kernel, rfl, by decide +kernel, rfl, by decide +kernel, rfl⟩

/-- The table says that `-F` without a number is the largest fold; it is the smallest. -/
theorem C104_fold_false {v d r : Str} (hv : OneLine v) (hd : OneLine d) (hr : OneLine r) (path : Str) :
    (∃ row ∈ rowsOf (usage v d r none), row.letters = ['F'] ∧ row.given = (chars! "[n=max]") ∧ (chars! "0:unfold") <:+: row.text) ∧
      parse path [chars! "-F"] = parse path [chars! "-F", ['0']] ∧
      ∀ ds, Number ds → value ds ≠ 0 → argumentsFit [chars! "-F", ds] = true → parse path [chars! "-F"] ≠ parse path [chars! "-F", ds] := by
  rw [rows_usage hv hd hr, table_rows]
  refine ⟨⟨⟨['F'], (chars! "[n=max]"), (chars! " Fold json print, 0:unfold 1:short 2:same 3:single          ")⟩, by decide, rfl, rfl,
    by decide +kernel⟩, rfl, ?_⟩
  intro ds hs h0 hf h
  rw [parse_writes (.dash (.separate (by decide) (by simp [NoDigit]) hs .nil)) hf,
    show parse path [chars! "-F"] = .ok { foldJson := 0 } from rfl] at h
  simp only [applyAll, apply] at h
  cases ha : atoi ds with
  | none => rw [ha] at h; cases h
  | some n =>
    rw [ha] at h
    have h : (0 : Nat) = n := congrArg (fun x => match x with | .ok o => o.foldJson | _ => 0) h
    simp only [atoi] at ha
    split at ha
    · cases ha; exact h0 h.symm
    · cases ha

theorem words_S : (bracketed (chars! " JSON C/C++ Source code, type [\\'/single \\\"/double \\\\\\\"]    ")).flatMap (parts '/') =
    [chars! "\\'", chars! "single", chars! "\\\"", chars! "double", chars! "\\\\\\\""] := by decide +kernel

/-- **C104, quotes.** The words in the brackets of `-S`, as a shell reads them, are words it takes. -/
theorem C104_source {v d r : Str} (hv : OneLine v) (hd : OneLine d) (hr : OneLine r) (path : Str) {row : Row}
    (hm : row ∈ rowsOf (usage v d r none)) (hc : 'S' ∈ row.letters) (w : Str) (hw : w ∈ (bracketed row.text).flatMap (parts '/')) :
    ∃ o, parse path [chars! "-S", unquoted w] = .ok o := by
  rw [rows_usage hv hd hr, table_rows] at hm
  have e : row.text = (chars! " JSON C/C++ Source code, type [\\'/single \\\"/double \\\\\\\"]    ") := by
    simp only [List.mem_cons, List.not_mem_nil, or_false] at hm
    rcases hm with rfl | rfl | rfl | rfl | rfl | rfl | rfl | rfl | rfl | rfl | rfl | rfl | rfl | rfl | rfl | rfl | rfl | rfl <;>
      first
      | rfl
      | (simp at hc; done)
  rw [e, words_S] at hw
  simp only [List.mem_cons, List.not_mem_nil, or_false] at hw
  rcases hw with rfl | rfl | rfl | rfl | rfl <;> exact ⟨_, rfl⟩

/-- The default of `-S`, read in the same way, is not what `-S` alone does; and as they stand the words are not all taken. -/
theorem C104_source_false {v d r : Str} (hv : OneLine v) (hd : OneLine d) (hr : OneLine r) (path : Str) :
    ∃ row ∈ rowsOf (usage v d r none), row.letters = ['S'] ∧
      (∃ t, row.default t ∧ parse path [chars! "-S"] ≠ parse path [chars! "-S", unquoted t]) ∧
      ∃ w ∈ (bracketed row.text).flatMap (parts '/'), parse path [chars! "-S", w] = .exit (-1) := by
  rw [rows_usage hv hd hr, table_rows]
  refine ⟨⟨['S'], (chars! "[type=\\\"]"), (chars! " JSON C/C++ Source code, type [\\'/single \\\"/double \\\\\\\"]    ")⟩, by decide, rfl,
    ⟨['\\', '"'], .inr rfl, ?_⟩, ?_⟩
  · rw [show parse path [chars! "-S"] = .ok { jsonQuote := ['\\', '"'] } from rfl,
      show parse path [chars! "-S", unquoted ['\\', '"']] = .ok { jsonQuote := ['"'] } from rfl]
    exact (by decide : Outcome.ok { jsonQuote := ['\\', '"'] } ≠ .ok { jsonQuote := ['"'] })
  · simp only [words_S]
    exact ⟨chars! "\\'", by decide, rfl⟩

theorem help_congr (path f o) {j args j' args'} (h : next j args = next j' args') :
    helpLoop path f o j args = helpLoop path f o j' args' := by
  cases f with
  | zero => rfl
  | succ f => simp only [helpLoop, h]

theorem help_step (path f o c j args) {o' j' args'} (h : option path o c j args = (.ok o', j', args')) :
    helpLoop path (f + 1) o (c :: j) args = helpLoop path f o' j' args' := by
  simp only [helpLoop, next]
  rw [if_neg]
  · rw [h]
  · rintro (rfl | rfl) <;> simp [option] at h

theorem applyAll_cons {path : Str} {o o' : Options} {i : Item} {a : List Item} (h : applyAll path o (i :: a) = .ok o') :
    ∃ o1, apply path o i = .ok o1 ∧ applyAll path o1 a = .ok o' := by
  simp only [applyAll] at h
  cases hi : apply path o i with
  | ok o1 => rw [hi] at h; exact ⟨o1, rfl, h⟩
  | exit n => rw [hi] at h; cases h
  | undefined => rw [hi] at h; cases h

theorem help_writes (path) {c : Char} {w : Option Str} {b : List Item} (hc : c = 'h' ∨ c = '?') {j args is} (hw : Writes j args is) :
    ∀ (f : Nat) (o o' : Options) (a : List Item), size j args < f → is = a ++ .word c w :: b → applyAll path o a = .ok o' →
      helpLoop path f o j args = some w := by
  induction hw with
  | nil => intro f o o' a _ he; simp at he
  | stray h _ ih =>
    intro f o o' a hf he hk
    rw [help_congr path f o (next_stray h _)]
    refine ih f o o' a ?_ he hk
    simp only [size, List.map_cons, List.sum_cons] at hf ⊢; omega
  | dash _ ih =>
    intro f o o' a hf he hk
    rw [help_congr path f o (next_dash _ _)]
    refine ih f o o' a ?_ he hk
    simp only [size, List.map_cons, List.sum_cons, List.length_cons, List.length_nil] at hf ⊢; omega
  | @flag e j args is h1 h2 h3 _ ih =>
    intro f o o' a hf he hk
    cases f with
    | zero => omega
    | succ f =>
      cases a with
      | nil => cases he
      | cons i a =>
        cases he
        obtain ⟨o1, h4, h5⟩ := applyAll_cons hk
        rw [help_step path f o e j args (o' := o1) (by rw [option_flag path o h1 h2 h3, h4])]
        exact ih f o1 o' a (by simp only [size, List.length_cons] at hf ⊢; omega) rfl h5
  | @attached e ds j args is he' hd hj _ ih =>
    intro f o o' a hf he hk
    cases f with
    | zero => omega
    | succ f =>
      cases a with
      | nil => cases he
      | cons i a =>
        cases he
        obtain ⟨o1, h4, h5⟩ := applyAll_cons hk
        have h6 : option path o e (ds ++ j) args = (.ok o1, j, args) := by
          rw [option_number path o he', extractNumber_attached args hd hj]
          simp only [apply] at h4 ⊢
          cases hn : atoi ds with
          | none => rw [hn] at h4; cases h4
          | some n => rw [hn] at h4; dsimp only at h4 ⊢; rw [h4]
        rw [help_step path f o e _ args h6]
        exact ih f o1 o' a (by simp only [size, List.length_cons, List.length_append] at hf ⊢; omega) rfl h5
  | @separate e u j args is he' hj hu _ ih =>
    intro f o o' a hf he hk
    cases f with
    | zero => omega
    | succ f =>
      cases a with
      | nil => cases he
      | cons i a =>
        cases he
        obtain ⟨o1, h4, h5⟩ := applyAll_cons hk
        have h6 : option path o e j (u :: args) = (.ok o1, j, args) := by
          rw [option_number path o he', extractNumber_separate args hu hj]
          simp only [apply] at h4 ⊢
          cases hn : atoi u with
          | none => rw [hn] at h4; cases h4
          | some n => rw [hn] at h4; dsimp only at h4 ⊢; rw [h4]
        rw [help_step path f o e _ _ h6]
        exact ih f o1 o' a (by simp only [size, List.length_cons, List.map_cons, List.sum_cons] at hf ⊢; omega) rfl h5
  | @bare e j args is he' hj ha _ ih =>
    intro f o o' a hf he hk
    cases f with
    | zero => omega
    | succ f =>
      cases a with
      | nil => cases he
      | cons i a =>
        cases he
        obtain ⟨o1, h4, h5⟩ := applyAll_cons hk
        have h6 : option path o e j args = (.ok o1, j, args) := by
          rw [option_number path o he', extractNumber_bare hj ha]
          simp only [apply] at h4 ⊢
          rw [h4]
        rw [help_step path f o e _ _ h6]
        exact ih f o1 o' a (by simp only [size, List.length_cons] at hf ⊢; omega) rfl h5
  | @words e ws j args is he' hws ha _ ih =>
    intro f o o' a hf he hk
    cases f with
    | zero => omega
    | succ f =>
      cases a with
      | nil => cases he
      | cons i a =>
        cases he
        obtain ⟨o1, h4, h5⟩ := applyAll_cons hk
        have h6 : option path o e j (ws ++ args) = (.ok o1, j, args) := by
          rw [option_words path o he']
          simp only [apply] at h4
          cases hn : run (wordOf e) o ws with
          | ok o2 =>
            rw [hn] at h4
            rw [(each_run (wordOf e) ws o args hws ha).2 o2 hn]
            dsimp only at h4 ⊢
            rw [h4]
          | exit n => rw [hn] at h4; cases h4
          | undefined => rw [hn] at h4; cases h4
        rw [help_step path f o e _ _ h6]
        exact ih f o1 o' a (by simp only [size, List.length_cons, List.map_append, List.sum_append] at hf ⊢; omega) rfl h5
  | @word e u j args is he' hu _ ih =>
    intro f o o' a hf he hk
    cases f with
    | zero => omega
    | succ f =>
      cases a with
      | nil =>
        cases he
        simp only [helpLoop, next, if_pos hc, extractString, if_neg hu, Option.map_some]
      | cons i a =>
        cases he
        obtain ⟨o1, h4, h5⟩ := applyAll_cons hk
        have h6 : option path o e j (u :: args) = (.ok o1, j, args) := by
          rcases option_word path o he' hu j args with h | rfl | rfl | h
          · rw [h, h4]
          · simp [apply, option] at h4
          · simp [apply, option] at h4
          · have := option_word_fst path o he' hu j args
            rw [h, h4] at this; cases this
        rw [help_step path f o e _ _ h6]
        exact ih f o1 o' a (by simp only [size, List.length_cons, List.map_cons, List.sum_cons] at hf ⊢; omega) rfl h5
  | @noWord e j args is he' ha _ ih =>
    intro f o o' a hf he hk
    cases f with
    | zero => omega
    | succ f =>
      cases a with
      | nil =>
        cases he
        have h1 : extractString args = none := by
          cases args with
          | nil => rfl
          | cons u r => simp [extractString, show u.head? = some '-' from ha u (by simp)]
        simp only [helpLoop, next, if_pos hc, h1, Option.map_none]
      | cons i a =>
        cases he
        obtain ⟨o1, h4, h5⟩ := applyAll_cons hk
        rw [help_step path f o e j args (o' := o1) (by rw [option_noWord path o he' ha, h4])]
        exact ih f o1 o' a (by simp only [size, List.length_cons] at hf ⊢; omega) rfl h5

/-- **C104, pages.** `-h` or `-?` behind options the program goes on after prints the page about the word behind it. -/
theorem C104_page (v d r path : Str) (args : List Str) (a b : List Item) (c : Char) (w : Option Str) (hc : c = 'h' ∨ c = '?')
    (hw : Writes [] args (a ++ .word c w :: b)) (hg : ∀ i ∈ a, Good path i) (ha : argumentsFit args = true) :
    helpText v d r path args = some (usage v d r w) := by
  have h1 := applyAll_meaning path a [] (by simpa using hg) (fun i hi => writes_formed hw i (by simp [hi]))
    (fun c w h => writes_word hw c w (by simp [h]))
  rw [meaning_nil] at h1
  rw [helpText, if_pos ha, help_writes path hc hw _ _ _ a (by simp [size]) rfl h1]
  rfl

example : helpText [] [] [] [] [chars! "-b3", chars! "-ch", chars! "W", chars! "-lnothing"] = some (usage [] [] [] (some ['W'])) := by
  decide +kernel

/-- Without them nothing of it is printed. -/
theorem C104_silent (v d r path : Str) (args : List Str) {o : Options} (h : parse path args = .ok o) : helpText v d r path args = none := by
  have key : ∀ (f : Nat) (p : Options) (j : Str) (args : List Str), loop path f p j args = .ok o → helpLoop path f p j args = none := by
    intro f
    induction f with
    | zero => intro p j args _; rfl
    | succ f ih =>
      intro p j args h
      simp only [loop] at h
      simp only [helpLoop]
      cases hn : next j args with
      | none => rfl
      | some x =>
        obtain ⟨c, j', args'⟩ := x
        rw [hn] at h
        dsimp only at h ⊢
        by_cases hc : c = 'h' ∨ c = '?'
        · rcases hc with rfl | rfl <;> simp [option] at h
        · rw [if_neg hc]
          revert h
          rcases option path p c j' args' with ⟨q, j2, args2⟩
          intro h
          cases q with
          | ok p2 => exact ih p2 j2 args2 h
          | exit n => cases h
          | undefined => cases h
  unfold parse at h
  unfold helpText
  by_cases hf : argumentsFit args = true
  · rw [if_pos hf] at h ⊢; rw [key _ _ _ _ h]; rfl
  · rw [if_neg hf]

theorem parts_lines (L : List Str) (h : ∀ l ∈ L, Whole l) :
    parts '\n' (seen false L.flatten) = L.map (fun l => (seen false l).dropLast) ++ [[]] := by
  induction L with
  | nil => rfl
  | cons l L ih =>
    obtain ⟨h1, h2, h3⟩ := h l (by simp)
    have ih := ih fun l hl => h l (by simp [hl])
    have e : seen false l = (seen false l).dropLast ++ ['\n'] := by
      obtain ⟨ys, hy⟩ := List.getLast?_eq_some_iff.1 h1
      rw [hy]; simp
    rw [List.flatten_cons, seen_append, h3, e, List.append_assoc, List.singleton_append, parts_first h2, ih]
    rfl

theorem table_width : ∀ l ∈ usageTable, (seen false l).dropLast.length = 80 := by decide +kernel

/-- **C104, widths.** The lines below the title are seen with one width. -/
theorem C104_aligned {v d r : Str} (hv : OneLine v) (hd : OneLine d) (hr : OneLine r) :
    ∃ title lines, parts '\n' (seen false (usage v d r none)) = title :: (lines ++ [[]]) ∧ lines ≠ [] ∧ ∀ l ∈ lines, l.length = 80 := by
  have hn : '\n' ∉ (chars! " h₂unit v") ++ v ++ (chars! "  ") ++ d ++ (chars! "  ") ++ r := by
    simp only [List.mem_append, not_or]
    exact ⟨⟨⟨⟨⟨by decide, fun h => (hv _ h).1 rfl⟩, by decide⟩, fun h => (hd _ h).1 rfl⟩, by decide⟩, fun h => (hr _ h).1 rfl⟩
  refine ⟨(chars! " h₂unit v") ++ v ++ (chars! "  ") ++ d ++ (chars! "  ") ++ r, usageTable.map fun l => (seen false l).dropLast, ?_,
    fun h => absurd (List.map_eq_nil_iff.1 h) (List.cons_ne_nil _ _), ?_⟩
  · simp only [usage]
    rw [seen_title hv hd hr, parts_first hn, parts_lines _ table_whole]
  · intro l hl
    obtain ⟨l', h1, rfl⟩ := List.mem_map.1 hl
    exact table_width l' h1

example : OneLine "5.20".toList := by unfold OneLine; decide

end H2.Cli
