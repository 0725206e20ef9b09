import Verif.Whole.Reach
/-
C92: from the command line to the exit status.
-/
namespace H2.Whole
open H2.Cli (Item Writes Good Stands kPattern kList Given FirstBare given last Sets)
open H2.Runner (Event Case Suite State Env Opts All₂ Fresh allCases tally)

variable {p : Program} {w : World} {args : List Str} {is : List Item} {out : Output}

/-- C92.  In each of the rounds asked for, every case has its turn exactly once, and there are no other turns. -/
theorem C92_once (hl : Line w args is) (h : main p w args = .ended out) :
    (∀ r, r < last 'r' 1 2 is → ((out.history.filter fun e => e.round == r).map (·.case)).Perm p.ids) ∧ ∀ e ∈ out.history, e.round < last 'r' 1 2 is := by
  obtain ⟨o, d⟩ := did hl h
  have hr : (opts o).rounds = last 'r' 1 2 is := d.sets.runRounds
  have hlog := Runner.rounds_log (opts o) (env p w o) w.random (start p w o) rfl (opts o).rounds
  constructor
  · intro r hlt
    rw [← start_ids p w o, ← Runner.all₂_filter d.same (fun e => e.round == r) (fun e => e.round == r) (fun e => e.case.id) (·.case)
      (fun a b s => by rw [s.round]) (fun a b s => s.case.symm)]
    exact hlog.1 r (by omega)
  · intro e he
    obtain ⟨ev, h1, h2⟩ := all₂_right d.same he
    rw [h2.round, ← hr]
    exact hlog.2.1 ev h1

/-- C92.  Without `-l` and `-f`, a case is run in its turn exactly if it is not one to do, the patterns of the command line ask
for it, and `-b n` has not come to `n` failures before. -/
theorem C92_runs {Wild : Str → Str → Prop} (hw : ∀ q t, w.wild q t = true ↔ Wild q t) (hd : Distinct p) (hl : Line w args is)
    (h : main p w args = .ended out) (hn : ¬ Lists is) (hf : .flag 'f' ∉ is)
    (pre post : List Entry) (e : Entry) (he : out.history = pre ++ e :: post) (s : SuiteText) (hs : s ∈ p.suites) (c : CaseText) (hc : c ∈ s.cases) (hid : e.case = c.id) :
    e.ran = true ↔ c.todo = false ∧ Asked Wild is s.test c.test ∧ ¬ (0 < last 'b' 0 1 is ∧ last 'b' 0 1 is ≤ failures pre) := by
  obtain ⟨o, d⟩ := did hl h
  have hlists : (opts o).lists = false := by
    cases hx : (opts o).lists with
    | false => rfl
    | true => exact absurd ((lists_iff hl d.sets).1 hx) hn
  have hlast : (opts o).onlyLast = false := by
    cases hx : (opts o).onlyLast with
    | false => rfl
    | true => exact absurd (d.sets.onlyLastFailed.1 hx) hf
  have hb : (opts o).breakAfter = (last 'b' 0 1 is : Nat) := by rw [← d.sets.breakAfterFails]; rfl
  have hsame := d.same
  rw [he] at hsame
  obtain ⟨pre', ev, post', h1, h2, h3⟩ := all₂_split pre hsame
  have hmem : ev ∈ logOf p w o := by rw [h1]; simp
  obtain ⟨s', hs', c', hc', g1, g2, g3, g4⟩ := event_case hmem
  obtain ⟨rfl, rfl⟩ := ids_unique hd.cases hs hc hs' hc' (by rw [← g1, ← hid, h3.case])
  rw [← asked_iff hl d.sets Wild, ← Filter.C33_wanted hw, h3.ran, Runner.C32_ran _ _ _ _ (start_fresh p w o) ev hmem, hlists, g3, g4]
  have hfresh := start_fresh p w o
  have ht := tally_failures h2
  have hig : ev.case.ignored = false ↔ ¬ (0 < last 'b' 0 1 is ∧ last 'b' 0 1 is ≤ failures pre) := by
    have key := fun pre ev post hh => Runner.ignored_fact (opts o) (env p w o) w.random (start p w o) hfresh pre post ev hh
    constructor
    · intro hi ⟨hb1, hb2⟩
      have := (key _ _ _ h1).2 (.inl ⟨by rw [hb]; omega, by rw [hb, ht]; omega⟩)
      rw [hi] at this; cases this
    · intro hno
      cases hx : ev.case.ignored with
      | false => rfl
      | true =>
        exfalso
        -- somebody before was ignored for the same reason
        have : ∀ n, ∀ pre'' ev' post'', pre''.length = n → logOf p w o = pre'' ++ ev' :: post'' → ev'.case.ignored = true →
            0 < (opts o).breakAfter ∧ (opts o).breakAfter ≤ tally .failed pre'' := by
          intro n
          induction n using Nat.strongRecOn with
          | ind n ih =>
            intro pre'' ev' post'' hlen hlog hign
            rcases (key pre'' ev' post'' hlog).1 hign with x | x | ⟨e0, h01, h02, h03⟩
            · exact x
            · rw [hlast] at x; exact absurd x.1 (by simp)
            · obtain ⟨a, b, rfl⟩ := List.append_of_mem h01
              obtain ⟨y1, y2⟩ := ih a.length (by rw [← hlen]; simp) a e0 (b ++ ev' :: post'') rfl (by rw [hlog]; simp) h03
              refine ⟨y1, Int.le_trans y2 ?_⟩
              rw [Runner.tally_append]
              have : 0 ≤ tally .failed (e0 :: b) := by unfold tally; omega
              omega
        obtain ⟨y1, y2⟩ := this _ pre' ev post' rfl h1 hx
        rw [hb] at y1 y2
        rw [ht] at y2
        exact hno ⟨by omega, by omega⟩
  rw [hig]
  simp

/-- C92.  With `-l` nothing is run. -/
theorem C92_lists_only (hl : Line w args is) (h : main p w args = .ended out) (hn : Lists is) :
    (∀ e ∈ out.history, e.ran = false) ∧ out.status = 0 ∧ out.console = none ∧ out.junit = none := by
  obtain ⟨o, d⟩ := did hl h
  have hlists : (opts o).lists = true := (lists_iff hl d.sets).2 hn
  have hran : ∀ e ∈ out.history, e.ran = false := by
    intro e he
    obtain ⟨ev, h1, h2⟩ := all₂_right d.same he
    rw [h2.ran]
    cases hx : ev.ran with
    | false => rfl
    | true =>
      have := (Runner.C32_ran _ _ _ _ (start_fresh p w o) ev h1).1 hx
      rw [hlists] at this
      exact absurd this.1 (by simp)
  have hnone : ∀ r, r = Report.console ∨ r = .junit → r ∉ reports p o := by
    intro r hr hm
    unfold reports at hm
    simp only [hlists, if_true] at hm
    unfold addReport at hm
    have hu := users_only p.reports [] (by simp) r
    unfold addReport at hu
    split at hm
    · rcases List.mem_append.1 hm with y | y
      · have := hu y
        rcases hr with rfl | rfl <;> cases this
      · have := List.mem_singleton.1 y
        rcases hr with rfl | rfl <;> cases this
    · have := hu hm
      rcases hr with rfl | rfl <;> cases this
  refine ⟨hran, ?_, ?_, ?_⟩
  · rw [d.status]
    have hz : failures out.history = 0 := by
      unfold failures
      rw [List.countP_eq_zero]
      intro e he
      have := hran e he
      unfold Entry.failed
      unfold Entry.ran at this
      cases hx : e.run with
      | none => simp
      | some v => rw [hx] at this; cases this
    have hx := Runner.C35_exit (opts o) (env p w o) w.random (start p w o) (start_fresh p w o)
    have ht : tally .failed (logOf p w o) = (failures out.history : Nat) := tally_failures d.same
    cases he : (opts o).exitWithFails with
    | true => rw [hx.1 he, ht, hz]; rfl
    | false => rw [hx.2 he]; rfl
  · rw [d.console, if_neg (hnone _ (.inl rfl))]
  · rw [d.junit, if_neg (hnone _ (.inr rfl))]

/-- C92.  The exit status is 0 without `-x`; with it, the number of failures as far as it fits. -/
theorem C92_status (hl : Line w args is) (h : main p w args = .ended out) :
    (.flag 'x' ∈ is → out.status = ((failures out.history % 256 : Nat) : Int)) ∧ (.flag 'x' ∉ is → out.status = 0) := by
  obtain ⟨o, d⟩ := did hl h
  have hx := Runner.C35_exit (opts o) (env p w o) w.random (start p w o) (start_fresh p w o)
  have ht : tally .failed (logOf p w o) = (failures out.history : Nat) := tally_failures d.same
  constructor
  · intro hin
    rw [d.status, hx.1 (d.sets.exitWithFails.2 hin), ht]
    unfold Runner.exitStatus
    omega
  · intro hin
    rw [d.status, hx.2 (by
      cases he : (opts o).exitWithFails with
      | false => rfl
      | true => exact absurd (d.sets.exitWithFails.1 he) hin)]
    rfl

theorem unlisted {o : Cli.Options} (hl : Line w args is) (d : Did p w is o out) (hn : ¬ Lists is) : (opts o).lists = false := by
  cases hx : (opts o).lists with
  | false => rfl
  | true => exact absurd ((lists_iff hl d.sets).1 hx) hn

/-- C92.  On the console, the lines that say `Failed` name the cases that failed, in the order in which they ran, with their suites
and places. -/
theorem C92_lines {n : Names} (hn : n.of p) (hd : Distinct p) (hl : Line w args is) (h : main p w args = .ended out) (hno : ¬ Lists is) (hr : p.reports < 7) :
    ∃ con, out.console = some con ∧ failedLines con =
      if 1 ≤ last 'v' 4 8 is then (out.history.filter Entry.failed).map fun e => (n.name e.case, n.suite e.case, n.place e.case) else [] := by
  obtain ⟨o, d⟩ := did hl h
  have hlists := unlisted hl d hno
  refine ⟨_, by rw [d.console, if_pos (reports_console hlists hr)], ?_⟩
  rw [failedLines_eq, Console.C63_cases _ _ _ _ _ _ _ _ (start_fresh p w o) hlists n.suite (suite_names hn o), List.filterMap_flatMap]
  have hv : (1 : Int) ≤ o.verbose ↔ 1 ≤ last 'v' 4 8 is := by rw [d.sets.verbose]; omega
  rw [flatMap_two _ (fun e => if e.failed = true then (if 1 ≤ last 'v' 4 8 is then [(n.name e.case, n.suite e.case, n.place e.case)] else []) else []) d.same]
  · split
    · rw [flatMap_one]
    · rw [List.flatMap_eq_nil_iff]; intro e _; split <;> rfl
  · intro ev e hev he hs
    rw [expected_failed _ _ _ (Runner.C32_one _ _ _ _ (start_fresh p w o) hlists ev hev), ← hs.failed]
    obtain ⟨h1, h2⟩ := about_names hn hd hev out.history
    rw [h1, h2, ← hs.case]
    by_cases x : e.failed = true <;> by_cases y : 1 ≤ last 'v' 4 8 is <;> simp [x, y, hv]

/-- C92.  The messages shown are those of the cases that failed (from `-v 4` on) and of the cases with warnings (from `-v 5` on), all of
them and in order. -/
theorem C92_messages {n : Names} (hn : n.of p) (hd : Distinct p) (hl : Line w args is) (h : main p w args = .ended out) (hno : ¬ Lists is) (hr : p.reports < 7) :
    ∃ con, out.console = some con ∧ shown con = out.history.flatMap fun e =>
      if (e.failed = true ∧ 4 ≤ last 'v' 4 8 is) ∨ (e.warned = true ∧ 5 ≤ last 'v' 4 8 is) then e.messages.map w.text else [] := by
  obtain ⟨o, d⟩ := did hl h
  have hlists := unlisted hl d hno
  refine ⟨_, by rw [d.console, if_pos (reports_console hlists hr)], ?_⟩
  rw [shown_eq, Console.C63_cases _ _ _ _ _ _ _ _ (start_fresh p w o) hlists n.suite (suite_names hn o), List.filterMap_flatMap]
  have hv4 : (4 : Int) ≤ o.verbose ↔ 4 ≤ last 'v' 4 8 is := by rw [d.sets.verbose]; omega
  have hv5 : (5 : Int) ≤ o.verbose ↔ 5 ≤ last 'v' 4 8 is := by rw [d.sets.verbose]; omega
  refine flatMap_two _ _ d.same ?_
  intro ev e hev he hs
  rw [expected_shown _ _ _ (Runner.C32_one _ _ _ _ (start_fresh p w o) hlists ev hev), ← hs.failed, ← hs.warned]
  simp only [hv4, hv5]
  have : (about p w out.history ev.round ev.case).fails = e.messages.map w.text := by
    unfold about
    simp only
    rw [← hs.round, ← hs.case, messages_eq d hd he]
  rw [this]

theorem failures_pos {h : List Entry} : failures h ≠ 0 ↔ ∃ e ∈ h, e.failed = true := by
  unfold failures
  rw [← Nat.pos_iff_ne_zero, List.countP_pos_iff]

/-- C92.  The last line of the console begins with `Failure` if a case failed, else with `Success`. -/
theorem C92_verdict (hl : Line w args is) (h : main p w args = .ended out) (hno : ¬ Lists is) (hr : p.reports < 7) :
    ∃ con, out.console = some con ∧ verdict con = some (if failures out.history = 0 then "Success".toList else "Failure".toList) := by
  obtain ⟨o, d⟩ := did hl h
  have hlists := unlisted hl d hno
  refine ⟨_, by rw [d.console, if_pos (reports_console hlists hr)], ?_⟩
  obtain ⟨t, h1, h2⟩ := Console.C63_verdict ⟨o.verbose, o.progressing⟩ (opts o) (env p w o) w.random (about p w out.history) w.asserts w.duration (start p w o) (start_fresh p w o)
  unfold verdict
  rw [h1, Option.bind_some, h2]
  have : (∃ e ∈ logOf p w o, e.is .failed = true) ↔ failures out.history ≠ 0 := by
    rw [failures_pos]
    constructor
    · rintro ⟨e, he, hf⟩
      obtain ⟨b, hb, hs⟩ := all₂_left d.same he
      exact ⟨b, hb, by rw [hs.failed, hf]⟩
    · rintro ⟨b, hb, hf⟩
      obtain ⟨e, he, hs⟩ := all₂_right d.same hb
      exact ⟨e, he, by rw [← hs.failed, hf]⟩
  by_cases hz : failures out.history = 0
  · rw [if_pos hz, if_neg (fun x => this.1 x hz)]
  · rw [if_neg hz, if_pos (this.2 hz)]

/-- C92.  The order of the cases is recorded exactly if a case failed. -/
theorem C92_order (hl : Line w args is) (h : main p w args = .ended out) (hr : 0 < last 'r' 1 2 is) : out.order.isSome = true ↔ failures out.history ≠ 0 := by
  obtain ⟨o, d⟩ := did hl h
  have hrounds : 0 < (opts o).rounds := by
    have : (opts o).rounds = last 'r' 1 2 is := d.sets.runRounds
    omega
  rw [d.order, main_order _ _ _ _ hrounds]
  have hc : ((start p w o).main (opts o) (env p w o) w.random).1.stats.failed = tally .failed (logOf p w o) := Runner.C32_counts _ _ _ _ (start_fresh p w o) .failed
  rw [hc, tally_failures d.same]
  omega

/-- The status of a case that was run. -/
def Entry.status (e : Entry) : Str := if e.failed = true then "Failed".toList else if e.warned = true then "Warning".toList else "Passed".toList

/-- C92.  The JUnit file has one element for each turn of a case, in order, with the name of the case; for a case that was run it tells
how that came out. -/
theorem C92_junit_partial {n : Names} (hn : n.of p) (hp : PlainNames p) (hd : Distinct p) (hl : Line w args is) (h : main p w args = .ended out) (hno : ¬ Lists is)
    (hr : p.reports < 6) {file : Str} (hj : JunitTo w is file) :
    ∃ text doc, out.junit = some (file, text) ∧ Junit.read text = some doc ∧ (Junit.testcases doc).length = out.history.length ∧
      ∀ (k : Nat) t e, (Junit.testcases doc)[k]? = some t → out.history[k]? = some e →
        t.get "name" = some (n.name e.case) ∧ (e.ran = true → t.get "status" = some e.status ∧ (t.inside "failure" ≠ [] ↔ e.failed = true)) := by
  obtain ⟨o, d⟩ := did hl h
  have hlists := unlisted hl d hno
  have hpath := junit_path d.sets hj
  have hne : o.junitPath ≠ [] := by rw [hpath]; exact hj.1
  have hplain : ∀ r c, Junit.Plain (aboutJunit p w out.history r c).filine := by
    intro r c
    unfold aboutJunit
    simp only
    cases hx : p.find c.id with
    | none => simp [Junit.Plain]
    | some t =>
      obtain ⟨s, hs, h1⟩ := List.exists_of_findSome?_eq_some hx
      obtain ⟨y, hy, rfl⟩ := Option.map_eq_some_iff.1 h1
      exact ((hp s hs).2 y (List.mem_of_find?_eq_some hy)).2
  obtain ⟨doc, h1, h2, h3⟩ := Junit.C62_cases_partial (opts o) (env p w o) w.random (aboutJunit p w out.history) (start p w o) (start_fresh p w o) hlists (by
    intro s hs
    obtain ⟨t, ht, rfl⟩ := List.mem_map.1 hs
    refine ⟨(hp t ht).1, fun c hc => ?_⟩
    rw [register_cases] at hc
    obtain ⟨x, hx, rfl⟩ := List.mem_map.1 hc
    exact ((hp t ht).2 x hx).1) hplain
  refine ⟨_, doc, by rw [d.junit, if_pos (reports_junit hlists hr hne), hpath], h1, by rw [h2]; exact all₂_length d.same, ?_⟩
  intro k t e ht he
  obtain ⟨ev, hev, hs⟩ := all₂_get d.same k e he
  have hmem : ev ∈ logOf p w o := List.mem_of_getElem? hev
  have tells := h3 k t ev ht hev
  refine ⟨by rw [tells.name, (about_names hn hd hmem out.history).1, hs.case], fun hran => ?_⟩
  rw [hs.ran] at hran
  obtain ⟨-, r1, r2, r3⟩ := (Runner.C32_ran _ _ _ _ (start_fresh p w o) ev hmem).1 hran
  have one : Junit.OneReason ev.case := by unfold Junit.OneReason; simp [r1, r2, r3]
  refine ⟨?_, by rw [tells.failure hran, hs.failed]⟩
  unfold Entry.status
  rw [hs.failed, hs.warned]
  cases hf : ev.is .failed with
  | true => rw [if_pos rfl]; exact tells.status one .failed hf
  | false =>
    rw [if_neg (by simp)]
    cases hw : ev.is .warning with
    | true => rw [if_pos rfl]; exact tells.status one .warning hw
    | false =>
      rw [if_neg (by simp)]
      refine tells.status one .passed ?_
      simp only [Event.is, hran, Bool.true_and] at hf hw ⊢
      simp only [hf, Bool.not_false, Bool.true_and] at hw
      simp [hf, hw]

/-- C92.  Everything that can be looked at agrees: without a failure the console says `Success`, the order is not recorded, no element of a
case that was run has a failure, and the exit status is 0; with a failure it is otherwise in all of them. -/
theorem C92_agree {n : Names} (hn : n.of p) (hp : PlainNames p) (hd : Distinct p) (hl : Line w args is) (h : main p w args = .ended out) (hno : ¬ Lists is)
    (hr : p.reports < 6) {file : Str} (hj : JunitTo w is file) (h1 : 0 < last 'r' 1 2 is) (hx : .flag 'x' ∈ is) (h256 : failures out.history < 256) :
    ∃ con text doc, out.console = some con ∧ out.junit = some (file, text) ∧ Junit.read text = some doc ∧
      (verdict con = some "Success".toList ↔ out.status = 0) ∧ (out.order = none ↔ out.status = 0) ∧
      ((∀ (k : Nat) t e, (Junit.testcases doc)[k]? = some t → out.history[k]? = some e → e.ran = true → t.inside "failure" = []) ↔ out.status = 0) ∧
      (failures out.history = 0 ↔ out.status = 0) := by
  obtain ⟨con, c1, c2⟩ := C92_verdict hl h hno (by omega)
  obtain ⟨text, doc, j1, j2, j3, j4⟩ := C92_junit_partial hn hp hd hl h hno hr hj
  have hs : failures out.history = 0 ↔ out.status = 0 := by rw [(C92_status hl h).1 hx]; omega
  have ho := C92_order hl h h1
  refine ⟨con, text, doc, c1, j1, j2, ?_, ?_, ?_, hs⟩
  · rw [c2, ← hs]
    by_cases hz : failures out.history = 0
    · simp [hz]
    · rw [if_neg hz]
      exact ⟨fun x => absurd x (by decide), fun x => absurd x hz⟩
  · rw [← hs]
    cases hx : out.order with
    | none => rw [hx] at ho; simp at ho; simp [ho]
    | some v => rw [hx] at ho; simp at ho; simp [ho]
  · rw [← hs]
    constructor
    · intro hall
      refine Classical.byContradiction fun hz => ?_
      obtain ⟨e, he, hf⟩ := failures_pos.1 hz
      obtain ⟨k, hk, hke⟩ := List.getElem_of_mem he
      have hkh : out.history[k]? = some e := by rw [List.getElem?_eq_getElem hk, hke]
      have hkt : (Junit.testcases doc)[k]? = some ((Junit.testcases doc)[k]'(by omega)) := List.getElem?_eq_getElem _
      have hran : e.ran = true := by
        unfold Entry.failed at hf
        unfold Entry.ran
        cases hx : e.run with
        | none => rw [hx] at hf; cases hf
        | some v => rfl
      exact (((j4 k _ e hkt hkh).2 hran).2.2 hf) (hall k _ e hkt hkh hran)
    · intro hz k t e ht he hran
      refine Classical.byContradiction fun hne => ?_
      exact (failures_pos.2 ⟨e, List.mem_of_getElem? he, ((j4 k t e ht he).2 hran).2.1 hne⟩) hz

theorem entry_outcome {o : Cli.Options} (log : List Event) : ∀ pre, ∀ e ∈ entries p w o pre log, ∀ r, e.run = some r → ∃ l, r = outcome p w o l e.case := by
  induction log with
  | nil => intro pre e he; cases he
  | cons ev log ih =>
    intro pre e he r hr
    rcases List.mem_cons.1 he with rfl | he
    · simp only at hr
      split at hr
      · simp only [Option.some.injEq] at hr
        exact ⟨pre, hr.symm⟩
      · cases hr
    · exact ih _ e he r hr

theorem entries_split {o : Cli.Options} (log : List Event) : ∀ pre a e b, entries p w o pre log = a ++ e :: b →
    ∃ x ev y, log = x ++ ev :: y ∧ a.length = x.length ∧ ∀ r, e.run = some r → r = outcome p w o (pre ++ x) e.case := by
  induction log with
  | nil => intro pre a e b h; cases a <;> cases h
  | cons ev log ih =>
    intro pre a e b h
    cases a with
    | nil =>
      simp only [entries, List.nil_append, List.cons.injEq] at h
      obtain ⟨h, -⟩ := h
      refine ⟨[], ev, log, rfl, rfl, fun r hr => ?_⟩
      subst h
      simp only at hr
      split at hr
      · simp only [Option.some.injEq] at hr
        rw [List.append_nil]
        exact hr.symm
      · cases hr
    | cons a0 a =>
      simp only [entries, List.cons_append, List.cons.injEq] at h
      obtain ⟨x, ev', y, h1, h2, h3⟩ := ih _ a e b h.2
      refine ⟨ev :: x, ev', y, by rw [h1]; rfl, by simp [h2], fun r hr => ?_⟩
      rw [h3 r hr]
      simp

/-- What is written for a suite or case says where it is, what it is called and its tags. -/
def Written (filine : Str) (describe : Option Str) (t : Filter.Test) : Prop :=
  t.filine = filine ∧
  (describe = none → t.name = [] ∧ t.tags = []) ∧
  (∀ d, describe = some d →
    (∀ pre mid post ts, d = pre ++ '[' :: mid ++ ']' :: post → Filter.Clean '[' pre → Filter.Clean ']' mid → Filter.Tags mid ts →
      t.name = (pre ++ post).dropWhile Filter.isspace ∧ t.tags = ts.take 63) ∧
    ((¬ ∃ pre mid post, d = pre ++ '[' :: mid ++ ']' :: post ∧ Filter.Clean '[' pre ∧ Filter.Clean ']' mid) →
      t.name = d.dropWhile Filter.isspace ∧ t.tags = []))

theorem testOf_written (filine : Str) (describe : Option Str) (h : ∀ d, describe = some d → d.length < 512) :
    Written filine describe (testOf filine describe) := by
  cases describe with
  | none => exact ⟨rfl, fun _ => ⟨rfl, rfl⟩, by simp⟩
  | some d =>
    have hl := h d rfl
    have hsome : ∃ t, Filter.Test.new filine d = some t ∧ t.filine = filine := by
      by_cases hc : ∃ pre mid post, d = pre ++ '[' :: mid ++ ']' :: post ∧ Filter.Clean '[' pre ∧ Filter.Clean ']' mid
      · cases hs : Filter.splitDescribe d with
        | some r =>
          refine ⟨{ filine := filine, name := Filter.stripLeft r.1, tags := (Filter.strtok r.2.length r.2).take 63 }, ?_, rfl⟩
          simp only [Filter.Test.new, hs]
        | none =>
          simp only [Filter.splitDescribe, if_neg (show ¬ 512 ≤ d.length by omega)] at hs
          split at hs
          · cases hs
          · split at hs <;> cases hs
      · obtain ⟨t, h1, h2, _⟩ := Filter.C38_plain filine d hl hc
        exact ⟨t, h1, h2⟩
    obtain ⟨t, h1, h2⟩ := hsome
    have ht : testOf filine (some d) = t := by simp [testOf, h1]
    rw [ht]
    refine ⟨h2, by simp, ?_⟩
    intro d' hd
    cases hd
    refine ⟨?_, fun hc => ?_⟩
    · intro pre mid post ts hd ha hb hc
      subst hd
      obtain ⟨t', k1, _, k3, k4⟩ := Filter.C38_tags filine pre mid post ts hl ha hb hc
      rw [k1] at h1; cases h1
      exact ⟨k3, k4⟩
    · obtain ⟨t', k1, _, k3, k4⟩ := Filter.C38_plain filine d hl hc
      rw [k1] at h1; cases h1
      exact ⟨k3, k4⟩

/-- C92.  Suites and cases are selected by the place, the name and the tags that are written for them. -/
theorem C92_test (h : main p w args = .ended out) (s : SuiteText) (hs : s ∈ p.suites) :
    Written s.filine s.describe s.test ∧ ∀ c ∈ s.cases, Written c.filine (some c.describe) c.test := by
  have hf : p.fits = true := by
    unfold main at h
    cases hp : p.fits with
    | true => rfl
    | false => split at h <;> simp [hp] at h
  unfold Program.fits at hf
  have hs' := List.all_eq_true.1 hf s hs
  simp only [Bool.and_eq_true] at hs'
  refine ⟨testOf_written _ _ fun d hd => ?_, fun c hc => testOf_written _ _ fun d hd => ?_⟩
  · have := hs'.1
    rw [hd] at this
    simpa using this
  · cases hd
    simpa using List.all_eq_true.1 hs'.2 c hc

example : Written "a.cpp:3".toList (some "sum [fast, int]".toList) ⟨"a.cpp:3".toList, "sum ".toList, ["fast".toList, "int".toList]⟩ :=
  testOf_written "a.cpp:3".toList (some "sum [fast, int]".toList) (by intro d h; cases h; decide)

/-- What can be told of an earlier turn. -/
structure Told where
  round : Nat
  case : Nat
  ran : Bool
  failed : Bool
  warned : Bool
deriving DecidableEq

/-- C92.  A case is run once in its turn, by its own code, after what ran before, and with `-c` and `-W` as on the command line. -/
theorem C92_code (hl : Line w args is) (h : main p w args = .ended out) (pre post : List Entry) (e : Entry) (he : out.history = pre ++ e :: post)
    {r : CaseRun.Result CaseRun.State} (hr : e.run = some r) :
    ∃ (before : List Event) (co : CaseRun.Opts),
      r = CaseRun.run co (p.code before e.case) w.fuel ∧
      (co.continueAssert = true ↔ .flag 'c' ∈ is) ∧ (co.warnException = true ↔ Given Cli.kWarn 'W' is "exception".toList) ∧
      (co.warnUncaught = true ↔ Given Cli.kWarn 'W' is "uncaught".toList) ∧
      before.map (fun v => Told.mk v.round v.case.id v.ran (v.is .failed) (v.is .warning)) = pre.map fun v => Told.mk v.round v.case v.ran v.failed v.warned := by
  obtain ⟨o, d⟩ := did hl h
  have hent := d.history
  have hs := d.same
  rw [hent] at he
  obtain ⟨x, ev, y, h1, h2, h3⟩ := entries_split _ _ _ _ _ he
  refine ⟨x, caseOpts o, h3 r hr, d.sets.continueAssert, d.sets.warnException, d.sets.warnUncaught, ?_⟩
  rw [hent, he, h1] at hs
  have : ∀ (x : List Event) (pre : List Entry) ev y e post, x.length = pre.length → All₂ Same (x ++ ev :: y) (pre ++ e :: post) →
      x.map (fun v => Told.mk v.round v.case.id v.ran (v.is .failed) (v.is .warning)) = pre.map fun v => Told.mk v.round v.case v.ran v.failed v.warned := by
    intro x
    induction x with
    | nil =>
      intro pre ev y e post hl _
      cases pre with
      | nil => rfl
      | cons _ _ => cases hl
    | cons a x ih =>
      intro pre ev y e post hl hs
      cases pre with
      | nil => cases hl
      | cons b pre =>
        cases hs with
        | cons s hs =>
          rw [List.map_cons, List.map_cons, ih pre ev y e post (by simpa using hl) hs, s.round, s.case, s.ran, s.failed, s.warned]
  exact this x pre ev y e post h2.symm hs

/-- C92.  An assertion that fails in a case, its setup or its cleanup is not lost: the case counts as failed, the console says so and the exit status
is not 0. -/
theorem C92_seen {n : Names} (hn : n.of p) (hd : Distinct p) (hl : Line w args is) (h : main p w args = .ended out) (hno : ¬ Lists is) (hr : p.reports < 7)
    (h1 : 0 < last 'r' 1 2 is) (hv : 1 ≤ last 'v' 4 8 is) {e : Entry} (he : e ∈ out.history) {st : CaseRun.State} (hst : e.run = some (.ended st)) {b : CaseRun.Block}
    {m : Nat} (hb : b ≠ .globalSetup) (hm : .step b (.fail m) ∈ st.trace) :
    e.failed = true ∧ (∃ con, out.console = some con ∧ verdict con = some "Failure".toList ∧ (n.name e.case, n.suite e.case, n.place e.case) ∈ failedLines con) ∧
      out.order.isSome = true ∧ (.flag 'x' ∈ is → failures out.history < 256 → out.status ≠ 0) := by
  have hf : e.failed = true := by
    obtain ⟨o, h1, h2⟩ := line_parse hl
    have hent : ∃ l, CaseRun.Result.ended st = outcome p w o l e.case := by
      unfold main at h
      rw [h1] at h
      simp only at h
      split at h
      · unfold perform at h
        simp only at h
        split at h
        · cases h
        · simp only [Outcome.ended.injEq] at h
          subst h
          exact entry_outcome _ _ e he _ hst
      · cases h
    obtain ⟨l, hl⟩ := hent
    obtain ⟨pre, mid, post, acc⟩ := CaseRun.C37_account _ _ _ _ hl.symm
    unfold Entry.failed
    rw [hst]
    refine acc.failed.2 (.inl ⟨.step b (.fail m), ?_, trivial⟩)
    rw [acc.trace] at hm
    simp only [List.mem_append, List.mem_cons, reduceCtorEq, false_or, List.not_mem_nil, or_false] at hm ⊢
    rcases hm with (hm | hm) | hm
    · rw [acc.preIs] at hm
      unfold CaseRun.ran at hm
      rcases List.mem_cons.1 hm with x | x
      · cases x
      · obtain ⟨_, _, x⟩ := List.mem_map.1 x
        injection x with x1 _
        exact absurd x1.symm hb
    · exact .inl hm
    · exact .inr hm
  have hz : failures out.history ≠ 0 := failures_pos.2 ⟨e, he, hf⟩
  obtain ⟨con, c1, c2⟩ := C92_verdict hl h hno hr
  obtain ⟨con', c1', c3⟩ := C92_lines hn hd hl h hno hr
  rw [c1] at c1'
  injection c1' with c1'
  subst c1'
  refine ⟨hf, ⟨con, c1, by rw [c2, if_neg hz], ?_⟩, (C92_order hl h h1).2 hz, fun hx h256 => ?_⟩
  · rw [c3, if_pos hv]
    exact List.mem_map.2 ⟨e, List.mem_filter.2 ⟨he, hf⟩, rfl⟩
  · rw [(C92_status hl h).1 hx]
    omega

theorem mapIdx_read {α β γ : Type} (g : β → Option γ) (k : α → Option γ) (l : List α) : ∀ f : Nat → α → β, (∀ i a, g (f i a) = k a) → (l.mapIdx f).filterMap g = l.filterMap k := by
  induction l with
  | nil => intro f h; rfl
  | cons a l ih =>
    intro f h
    rw [List.mapIdx_cons, List.filterMap_cons, List.filterMap_cons, h 0 a, ih _ fun i a => h (i + 1) a]

theorem filterMap_congr_mem {α β : Type} {f g : α → Option β} {l : List α} (h : ∀ a ∈ l, f a = g a) : l.filterMap f = l.filterMap g := by
  induction l with
  | nil => rfl
  | cons a l ih => rw [List.filterMap_cons, List.filterMap_cons, h a (List.mem_cons_self ..), ih fun x hx => h x (List.mem_cons_of_mem _ hx)]

theorem ran_names (f : Entry → Str) (l : List Entry) : (l.filterMap fun e => if e.ran = true then some (f e) else none) = (l.filter Entry.ran).map f := by
  induction l with
  | nil => rfl
  | cons e l ih =>
    rw [List.filterMap_cons, List.filter_cons, ih]
    cases e.ran <;> simp

/-- The name of a case to be run. -/
def listName (c : Case) : Option Str := if c.filtered || c.todo then none else some c.name

theorem listed_names (p : Program) (w : World) (o : Cli.Options) (f : Listing.Flags) (hf : f.case = true) (ss : List Suite) :
    listedNames (Listing.run f (ss.map (listedSuite p w o))) = (allCases ss).filterMap listName := by
  unfold listedNames
  rw [Listing.C51_cases]
  refine (mapIdx_read _ (fun q : Bool × Listing.Case => if q.2.todo then none else some q.2.name) _ _ (fun i a => rfl)).trans ?_
  unfold allCases
  rw [List.filterMap_flatMap, List.filterMap_flatMap, List.flatMap_map]
  refine Console.flatMap_congr_mem _ _ _ fun s _ => ?_
  have hc : (listedSuite p w o s).cases = s.cases.map (listedCase p) := by
    unfold listedSuite
    split <;> rfl
  rw [List.filterMap_map]
  unfold Listing.listedCases
  rw [hc]
  rw [List.filterMap_filter, List.filterMap_map]
  refine filterMap_congr_mem fun c _ => ?_
  have h1 : (listedCase p c).filtered = c.filtered := rfl
  have h2 : (listedCase p c).todo = c.todo := rfl
  have h3 : (listedCase p c).name = c.name := rfl
  simp only [Function.comp_apply, h1, h2, h3, hf, listName]
  generalize f.todo = T
  cases c.filtered <;> cases c.todo <;> cases T <;> rfl

/-- The names, by identity. -/
def nameOf (p : Program) (w : World) (o : Cli.Options) (id : Nat) : Option Str :=
  match p.find id with
  | some t => if Filter.filter w.wild (lists o) t.1.test (some t.2.test) || t.2.todo then none else some t.2.test.name
  | none => none

/-- C92.  `-l` lists the cases that would be run without it, in the order in which they would be run. -/
theorem C92_listed {n : Names} (hn : n.of p) (hd : Distinct p) (hl : Line w args is) (h : main p w args = .ended out) {args' : List Str} {out' : Output}
    (hl' : Line w args' (withoutList is)) (h' : main p w args' = .ended out') (hr : p.reports < 7) (hc : Given kList 'l' is "case".toList ∨ FirstBare 'l' is)
    (h1 : last 'r' 1 2 is = 1) (hb : last 'b' 0 1 is = 0) (hf : .flag 'f' ∉ is) :
    ∃ l, out.listing = some l ∧ listedNames l = (out'.history.filter Entry.ran).map fun e => n.name e.case := by
  obtain ⟨o, d⟩ := did hl h
  obtain ⟨o', d'⟩ := did hl' h'
  obtain ⟨e1, e2⟩ := options_same d.sets d'.sets
  have hcase : o.listCase = true := d.sets.listCase.2 hc
  have hlists : (opts o).lists = true := by simp [opts, hcase]
  have hround : o.runRounds = 1 := by rw [d.sets.runRounds, h1]
  have hround' : (opts o').rounds = 1 := by
    have : (opts o).rounds = 1 := hround
    rw [e2] at this
    exact this
  refine ⟨_, by rw [d.listing, if_pos (reports_list hlists hr)], ?_⟩
  have hstart : start p w o = start p w o' := by unfold start register; rw [e1]
  -- the cases listed
  have hvis : Console.visits (opts o) (env p w o) w.random (start p w o) o.runRounds = [(0, ((start p w o).round (opts o) (env p w o) (w.random 0) 0).suites)] := by
    rw [hround]; rfl
  have hlogs : (logOf p w o).map (fun e => (e.round, e.case)) = (allCases ((start p w o).round (opts o) (env p w o) (w.random 0) 0).suites).map fun c => (0, c) := by
    have := Console.visits_log (opts o) (env p w o) w.random (start p w o) rfl o.runRounds
    rw [hvis] at this
    refine Eq.trans this ?_
    simp
  have hcases : allCases ((start p w o).round (opts o) (env p w o) (w.random 0) 0).suites = (logOf p w o).map (·.case) := by
    have := congrArg (List.map Prod.snd) hlogs
    rw [List.map_map, List.map_map] at this
    simpa [Function.comp_def] using this.symm
  rw [hvis, List.flatMap_cons, List.flatMap_nil, List.append_nil, listed_names _ _ _ _ hcase, hcases, List.filterMap_map]
  have hname : ∀ ev ∈ logOf p w o, (listName ∘ fun e : Event => e.case) ev = nameOf p w o ev.case.id := by
    intro ev hev
    obtain ⟨s, hs, c, hcc, g1, g2, g3, g4⟩ := event_case hev
    unfold nameOf listName
    rw [g1, find_case hd hs hcc]
    simp only [Function.comp_apply, g2, g3, g4]
  have hA : (logOf p w o).filterMap (listName ∘ fun e : Event => e.case) = ((logOf p w o).map (·.case.id)).filterMap (nameOf p w o) := by
    rw [List.filterMap_map]
    exact filterMap_congr_mem hname
  rw [hA]
  have hids : (logOf p w o).map (·.case.id) = out'.history.map (·.case) := by
    have a1 : (logOf p w o).map (·.case.id) = (allCases ((start p w o).shuffle (opts o) (w.random 0)).suites).map (·.id) := by
      have := round_ids (opts o) (env p w o) (w.random 0) 0 (start p w o) rfl
      rw [← this]
      unfold logOf State.main
      simp only
      rw [show (opts o).rounds = 1 from hround]
      rfl
    have a2 : (logOf p w o').map (·.case.id) = (allCases ((start p w o').shuffle (opts o') (w.random 0)).suites).map (·.id) := by
      have := round_ids (opts o') (env p w o') (w.random 0) 0 (start p w o') rfl
      rw [← this]
      unfold logOf State.main
      simp only
      rw [hround']
      rfl
    have a3 : (logOf p w o').map (·.case.id) = out'.history.map (·.case) := by
      have := d'.same
      generalize logOf p w o' = lg at this
      generalize out'.history = hh at this
      induction this with
      | nil => rfl
      | cons r _ ih => rw [List.map_cons, List.map_cons, ih, r.case]
    rw [a1, ← a3, a2, hstart, e2, shuffle_lists]
  rw [hids, List.filterMap_map]
  have hno' : ¬ Lists (withoutList is) := by
    rintro ⟨ws, hw⟩
    exact absurd (List.mem_filter.1 hw).2 (by simp [notList])
  have hrun : ∀ e ∈ out'.history, (nameOf p w o ∘ fun e : Entry => e.case) e = if e.ran = true then some (n.name e.case) else none := by
    intro e he
    obtain ⟨pre, post, hpp⟩ := List.append_of_mem he
    obtain ⟨ev, hev, hs⟩ := all₂_right d'.same he
    obtain ⟨s, hs', c, hcc, g1, -, -, -⟩ := event_case hev
    have hid : e.case = c.id := by rw [hs.case, g1]
    have hrn := C92_runs (Wild := fun a b => w.wild a b = true) (fun _ _ => Iff.rfl) hd hl' h' hno' (fun x => hf (List.mem_filter.1 x).1) pre post e hpp s hs' c hcc hid
    have hlast : last 'b' 0 1 (withoutList is) = 0 := by
      have := d'.sets.breakAfterFails
      have h2 := congrArg Opts.breakAfter e2
      have h3 := d.sets.breakAfterFails
      rw [hb] at h3
      have h4 : (o.breakAfterFails : Int) = o'.breakAfterFails := h2
      rw [h3, this] at h4
      omega
    rw [← asked_iff hl' d'.sets, ← Filter.C33_wanted (fun _ _ => Iff.rfl), hlast, ← e1] at hrn
    simp only [Nat.lt_irrefl, false_and, not_false_eq_true, and_true] at hrn
    unfold nameOf
    simp only [Function.comp_apply]
    rw [hid, find_case hd hs' hcc, (hn s hs' c hcc).1]
    simp only
    generalize Filter.filter w.wild (lists o) s.test (some c.test) = F at hrn ⊢
    generalize e.ran = R at hrn ⊢
    generalize c.todo = T at hrn ⊢
    cases F <;> cases T <;> cases R <;> simp_all
  rw [filterMap_congr_mem hrun, ran_names]

/-- Finding: with seven reports of the user there is no place left for those of the library, and nothing is printed at all. -/
theorem C92_reports_false (hl : Line w args is) (h : main p w args = .ended out) (hr : 7 ≤ p.reports) : out.console = none ∧ out.listing = none ∧ out.junit = none := by
  obtain ⟨o, d⟩ := did hl h
  have := reports_full (p := p) (o := o) hr
  refine ⟨?_, ?_, ?_⟩
  · rw [d.console, if_neg (fun x => by cases this _ x)]
  · rw [d.listing, if_neg (fun x => by cases this _ x)]
  · rw [d.junit, if_neg (fun x => by cases this _ x)]

/-! ### A program and its runs

Five cases: one passes, one fails, one warns, one is to do, and one is excluded by the command line. -/

def sampleCode (id : Nat) : CaseRun.Test where
  body := fun _ => if id = 2 then [.act 0, .fail 7, .act 1] else if id = 5 then [.warn 8] else [.act 0]

def sample : Program where
  suites := [
    { id := 100, filine := "dir/m.cpp:1".toList, file := "m.cpp".toList, line := 1, describe := some "math [fast]".toList, cases := [
      { id := 1, filine := "dir/m.cpp:3".toList, file := "m.cpp".toList, line := 3, describe := "adds".toList },
      { id := 2, filine := "dir/m.cpp:9".toList, file := "m.cpp".toList, line := 9, describe := " divides [int]".toList },
      { id := 3, filine := "dir/m.cpp:14".toList, file := "m.cpp".toList, line := 14, describe := "slow one".toList },
      { id := 4, filine := "dir/m.cpp:20".toList, file := "m.cpp".toList, line := 20, describe := "later".toList, todo := true }] },
    { id := 101, filine := "dir/t.cpp:1".toList, file := "t.cpp".toList, line := 1, describe := some "text".toList, cases := [
      { id := 5, filine := "dir/t.cpp:2".toList, file := "t.cpp".toList, line := 2, describe := "trims".toList }] }]
  code := fun _ id => sampleCode id

def world : World where
  path := "t".toList
  wild := fun _ _ => false
  random := fun _ _ => 0
  order := none
  text := fun m => match m with
    | .assert k => "assert ".toList ++ Nat.toDigits 10 k
    | _ => []
  measures := fun _ _ => (1, 0, 0)
  asserts := 5
  duration := "2 milliseconds".toList
  fuel := 10

/-- `t -xo -e slow` -/
def sampleArgs : List Str := ["-xo".toList, "-e".toList, "slow".toList]
def sampleItems : List Item := [.flag 'x', .word 'o' none, .words 'e' ["slow".toList]]
/-- `t -l case -xo -e slow` -/
def listArgs : List Str := "-l".toList :: "case".toList :: sampleArgs
def listItems : List Item := .words 'l' ["case".toList] :: sampleItems

theorem sample_writes : Writes [] sampleArgs sampleItems :=
  .dash (.flag (by decide) (by decide) (by decide) (.noWord (by decide) (by unfold Cli.OptionNext; decide)
    (.dash (.words (c := 'e') (ws := ["slow".toList]) (by decide) (by decide) (by unfold Cli.OptionNext; decide) .nil))))

theorem stands_case : Stands kList "case".toList "case".toList := by
  refine ⟨by decide, ⟨[], by decide⟩, ?_⟩
  rintro k hk ⟨r, h⟩
  simp only [kList, List.mem_cons, List.not_mem_nil, or_false] at hk
  rcases hk with rfl | rfl | rfl | rfl <;> first | rfl | exact absurd (congrArg List.head? h) (by simp)

theorem sample_good : ∀ i ∈ sampleItems, Good world.path i := by
  intro i hi
  simp only [sampleItems, List.mem_cons, List.not_mem_nil, or_false] at hi
  rcases hi with rfl | rfl | rfl
  · trivial
  · exact ⟨by decide, by decide, fun _ => ⟨by decide, by simp⟩, fun h => absurd h (by decide)⟩
  · intro x hx
    rw [if_pos (.inl rfl)]
    exact .inl (by simp only [List.mem_singleton] at hx; subst hx; decide)

theorem sample_line : Line world sampleArgs sampleItems := ⟨sample_writes, sample_good, by decide⟩

theorem list_line : Line world listArgs listItems := by
  refine ⟨.dash (.words (c := 'l') (ws := ["case".toList]) (by decide) (by decide) (by unfold Cli.OptionNext; decide) sample_writes), ?_, by decide⟩
  intro i hi
  rcases List.mem_cons.1 hi with rfl | hi
  · intro x hx
    rw [if_neg (by decide)]
    simp only [List.mem_singleton] at hx
    subst hx
    exact ⟨_, stands_case⟩
  · exact sample_good i hi

theorem sample_distinct : Distinct sample := ⟨by decide, by decide⟩

def sampleNames : Names where
  name := fun id => match id with
    | 1 => "adds".toList
    | 2 => "divides ".toList
    | 3 => "slow one".toList
    | 4 => "later".toList
    | _ => "trims".toList
  suite := fun id => if id = 5 then "text".toList else "math ".toList
  place := fun id => match id with
    | 1 => "m.cpp:3".toList
    | 2 => "m.cpp:9".toList
    | 3 => "m.cpp:14".toList
    | 4 => "m.cpp:20".toList
    | _ => "t.cpp:2".toList

theorem sample_names : sampleNames.of sample := by
  unfold Names.of
  decide +kernel

theorem sample_plain : PlainNames sample := by
  unfold PlainNames Junit.Plain
  decide +kernel

theorem sample_junit : JunitTo world sampleItems "t.junit.xml".toList := by
  refine ⟨by decide, [.flag 'x'], [.words 'e' ["slow".toList]], by simp, .inr ⟨rfl, by decide⟩⟩

theorem sample_unlisted : ¬ Lists sampleItems := by
  rintro ⟨ws, h⟩
  simp [sampleItems] at h

/-- What a run shows, if it ends. -/
def ending (o : Outcome) : Option Output :=
  match o with
  | .ended out => some out
  | _ => none

theorem ending_some {o : Outcome} {out : Output} (h : ending o = some out) : o = .ended out := by
  unfold ending at h
  split at h
  · simp only [Option.some.injEq] at h; rw [h]
  · cases h

theorem ended_of {o : Outcome} (h : (ending o).isSome = true) : ∃ out, o = .ended out := by
  obtain ⟨out, h⟩ := Option.isSome_iff_exists.1 h
  exact ⟨out, ending_some h⟩

theorem sample_ended : (ending (main sample world sampleArgs)).isSome = true := by decide +kernel
theorem list_ended : (ending (main sample world listArgs)).isSome = true := by decide +kernel

example : ((ending (main sample world sampleArgs)).map fun out => (out.status, out.order.isSome)) = some (1, true) := by decide +kernel
example : ((ending (main sample world sampleArgs)).map fun out => out.history.map fun e => (e.case, e.ran)) =
    some [(1, true), (2, true), (3, false), (4, false), (5, true)] := by decide +kernel
example : ((ending (main sample world sampleArgs)).map fun out => out.history.map fun e => (e.failed, e.warned)) =
    some [(false, false), (true, false), (false, false), (false, false), (false, true)] := by decide +kernel
example : ((ending (main sample world sampleArgs)).bind fun out => out.console.map fun con => (failedLines con, shown con, verdict con)) =
    some ([("divides ".toList, "math ".toList, "m.cpp:9".toList)], ["assert 7".toList], some "Failure".toList) := by decide +kernel
example : ((ending (main sample world listArgs)).bind fun out => out.listing.map fun l => (listedNames l, out.status, out.console.isSome, out.history.any Entry.ran)) =
    some (["adds".toList, "divides ".toList, "trims".toList], 0, false, false) := by decide +kernel
example : (ending (main { sample with reports := 7 } world sampleArgs)).map (fun out => (out.status, out.console.isSome)) = some (1, false) := by decide +kernel

/-- All the hypotheses together. -/
example : ∃ out, main sample world sampleArgs = .ended out ∧
    ∃ con text doc, out.console = some con ∧ out.junit = some ("t.junit.xml".toList, text) ∧ Junit.read text = some doc ∧ verdict con ≠ some "Success".toList := by
  obtain ⟨out, h⟩ := ended_of sample_ended
  have hst : (ending (main sample world sampleArgs)).map (fun out => (out.status, decide (failures out.history < 256))) = some (1, true) := by decide +kernel
  rw [h] at hst
  simp only [ending, Option.map_some, Option.some.injEq, Prod.mk.injEq, decide_eq_true_eq] at hst
  obtain ⟨con, text, doc, h1, h2, h3, h4, -⟩ := C92_agree sample_names sample_plain sample_distinct sample_line h sample_unlisted (by decide) sample_junit (by decide) (by decide) hst.2
  exact ⟨out, h, con, text, doc, h1, h2, h3, fun x => by rw [h4, hst.1] at x; cases x⟩

example : ∃ out out', main sample world listArgs = .ended out ∧ main sample world sampleArgs = .ended out' ∧
    ∃ l, out.listing = some l ∧ listedNames l = (out'.history.filter Entry.ran).map fun e => sampleNames.name e.case := by
  obtain ⟨out, h⟩ := ended_of list_ended
  obtain ⟨out', h'⟩ := ended_of sample_ended
  exact ⟨out, out', h, h', C92_listed sample_names sample_distinct list_line h (args' := sampleArgs) sample_line h' (by decide)
    (.inl ⟨"case".toList, by decide, stands_case⟩) (by decide) (by decide) (by decide)⟩

/-- The case that fails is seen: the assertion is in what happened. -/
example : ∃ out e st, main sample world sampleArgs = .ended out ∧ e ∈ out.history ∧ e.run = some (.ended st) ∧ .step .body (.fail 7) ∈ st.trace ∧ out.status ≠ 0 := by
  obtain ⟨out, h⟩ := ended_of sample_ended
  have hx : (ending (main sample world sampleArgs)).map (fun out => (decide (failures out.history < 256), out.history.any fun e => match e.run with
      | some (.ended st) => decide (CaseRun.Event.step .body (.fail 7) ∈ st.trace)
      | _ => false)) = some (true, true) := by decide +kernel
  rw [h] at hx
  simp only [ending, Option.map_some, Option.some.injEq, Prod.mk.injEq, decide_eq_true_eq, List.any_eq_true] at hx
  obtain ⟨hf, e, he, hm⟩ := hx
  split at hm
  · rename_i st hst
    refine ⟨out, e, st, h, he, hst, by simpa using hm, ?_⟩
    exact (C92_seen sample_names sample_distinct sample_line h sample_unlisted (by decide) (by decide) (by decide) he hst (b := .body) (m := 7) (by decide) (by simpa using hm)).2.2.2
      (by decide) hf
  · cases hm

/-- `slow one` is not asked for, `divides` is. -/
example : ¬ Asked (fun _ _ => False) sampleItems (SuiteText.test { id := 100, filine := [], file := [], line := 1, describe := some "math [fast]".toList, cases := [] })
    (CaseText.test { id := 3, filine := [], file := [], line := 14, describe := "slow one".toList }) := by
  rintro ⟨-, h⟩
  exact h "slow".toList .any (.inl ⟨rfl, by decide, by decide⟩) (.inr (.inr (.inl ⟨_, rfl, .inl ⟨[], "slow".toList, " one".toList, by decide +kernel, rfl⟩⟩)))

end H2.Whole
