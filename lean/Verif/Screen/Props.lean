import Verif.Screen.Lemmas
import Verif.Console.Props
/-
C97: what is seen on the terminal: the lines of the report and what the code of the user writes, but no progress that is over.
-/
namespace H2.Screen
open H2.Runner
open H2.Console (Str Cfg Info SuiteNames)
open H2.Layout (room)

theorem screen_at (k : Kind) (out : List Tok) (base : List Str) (h : out.foldl k.get {} = k.at base []) : k.screen out = base := by
  unfold Kind.screen
  rw [h, at_nil]
  simp

/-- **C97.** What is on the terminal at the end, for all that cases and suites write and whatever becomes of the cases: `seen` says it
row by row.  `head` gives the rows of progress: with blanks up to the width of the terminal, or shortened to it. -/
theorem C97_screen (k : Kind) (hk : k.Usual) (g : Cfg) (cases : Nat) (told : Info → Str) (n : Nat) (before : List Str) (ws : Nat → List Str)
    (evs : List Ev) (t : Str) (hb : ∀ u ∈ before, Clean u) (hw : ∀ i, ∀ u ∈ ws i, Clean u) (he : ∀ e ∈ evs, e.Good g cases told) (ht : Clean t)
    (dots : Nat → Nat) (hd : ∀ i < n, Dots k.W n i (dots i)) :
    ∃ head : Nat → Str → Str → Str,
      (∀ index suite name, Plain suite → Plain name → room (testing g cases index suite name) < 2 ^ 64 →
        Row k.W (testing g cases index suite name) (head index suite name)) ∧
      k.screen (session g k.W cases told n before ws (evs ++ [.finish t])) =
        if g.progressing then
          (k.rows ((heard g before).flatten ++ "Collecting ".toList ++ collecting dots (fun i => heard g (ws i)) n)).dropLast ++
            k.seen g cases told head (if (heard g (before ++ (List.range n).flatMap ws)).flatten = [] then .empty else .gap) [] (evs ++ [.finish t])
        else k.seen g cases told head .empty (heard g (before ++ (List.range n).flatMap ws)) (evs ++ [.finish t]) := by
  refine ⟨headOf g k.W cases, fun index suite name h1 h2 h3 => (head_row k hk g cases index suite name h1 h2 h3).1, ?_⟩
  have hwr : heard g before ++ written g ws n = heard g (before ++ (List.range n).flatMap ws) := by
    unfold heard written
    by_cases hv : 4 ≤ g.verbose
    · simp [hv, heard]
    · simp [hv, heard]
  have hco : ∀ m ≤ n, collecting dots (fun i => heard g (ws i)) m = collecting (dotsAt k.W n) (fun i => heard g (ws i)) m := by
    intro m
    induction m with
    | zero => intro _; rfl
    | succ m ih =>
      intro hm
      rw [collecting, collecting, ih (by omega), dots_at _ _ _ _ (hd m (by omega))]
      by_cases h0 : m = 0
      · simp [h0]
      · rw [if_neg h0, if_neg h0, dots_at _ _ _ _ (hd (m - 1) (by omega))]
  have fin : ∀ base x us s, At k base x us s →
      k.screen (run g k.W cases told s (evs ++ [.finish t])).out = base ++ k.seen g cases told (headOf g k.W cases) x us (evs ++ [.finish t]) := by
    intro base x us s h
    obtain ⟨b', x', w', a, r⟩ := seen_run k hk g cases told evs he base x us s h
    rw [r [.finish t]]
    have e : run g k.W cases told s (evs ++ [.finish t]) = (barStart g (run g k.W cases told s evs) false).print ([t].flatMap fun t => t ++ ['\n']) := by
      unfold run
      rw [List.foldl_append]
      show onFinish g t _ = _
      unfold onFinish
      rw [print_print]; simp
    have q := at_told k g b' x' w' _ [t] (by intro u hu; rw [List.mem_singleton.1 hu]; exact ht) a
    rw [e, screen_at k _ _ (by simpa using q.2.2)]
    simp [Kind.seen, Kind.remains]
  have c := at_collect k g n before hb ws hw
  rw [hwr] at c
  unfold session
  by_cases hp : g.progressing = true
  · rw [if_pos hp] at c ⊢
    rw [hco n (Nat.le_refl n)]
    exact fin _ _ _ _ c
  · rw [if_neg hp] at c ⊢
    rw [fin _ _ _ _ c]; rfl

/-- A terminal of 40 columns. -/
def forty : Kind := ⟨40, fun _ => 1, fun _ t => t⟩
theorem forty_usual : forty.Usual := ⟨by decide, fun c => by show 1 ≤ _; split <;> decide⟩

def aCase : Case := { id := 0, name := "adds".toList }
def aSuite : Suite := { id := 0, name := "sums".toList, cases := [aCase] }
def nothing : Info → Str := fun _ => []

/-- A case that writes and fails, then one that passes without writing. -/
example : forty.screen (session ⟨4, true⟩ 40 2 nothing 1 [] (fun _ => [])
      [.start 1 aSuite aCase, .write "x = 1".toList, .ended 1 aSuite { aCase with failed := true } { filine := "a.cpp:3".toList, fails := ["1 is not 2".toList] },
       .start 2 aSuite { aCase with name := "more".toList }, .ended 2 aSuite { aCase with name := "more".toList } { filine := "a.cpp:9".toList },
       .finish "Failure".toList]) =
    ["[ 50%] Testing┊ adds ┊ sums           ".toList, "x = 1".toList, "[ 50%] Failed ┊ adds ┊ sums ┊ a.cpp:3 ".toList, "1 is not 2".toList, [],
     "Failure".toList] := by decide +kernel

/-- **C97.** If nothing is written while suites are collected, nothing of that remains, however many suites there are. -/
theorem C97_collecting (k : Kind) (hk : k.Usual) (n : Nat) (dots : Nat → Nat) (hd : ∀ i < n, Dots k.W n i (dots i)) :
    (k.rows ("Collecting ".toList ++ collecting dots (fun _ => []) n)).dropLast = [] := by
  have hco : ∀ m ≤ n, collecting dots (fun _ => []) m = collecting (dotsAt k.W n) (fun _ => []) m := by
    intro m
    induction m with
    | zero => intro _; rfl
    | succ m ih =>
      intro hm
      rw [collecting, collecting, ih (by omega), dots_at _ _ _ _ (hd m (by omega))]
      by_cases h0 : m = 0
      · simp [h0]
      · rw [if_neg h0, if_neg h0, dots_at _ _ _ _ (hd (m - 1) (by omega))]
  rw [hco n (Nat.le_refl n), collecting_dots _ (dotsAt_mono k.W n)]
  have hd : ∀ m, room (List.replicate m '.') = m := by
    intro m
    induction m with
    | zero => rfl
    | succ m ih =>
      have : room (List.replicate (m + 1) '.') = 1 + room (List.replicate m '.') := by
        simp only [List.replicate_succ, room, List.map_cons, List.sum_cons]; rfl
      omega
  have hc : room "Collecting ".toList = 11 := by decide
  rw [rows_one k _ ?_ ?_]
  · rfl
  · intro h
    rcases List.mem_append.1 h with h | h
    · exact absurd h (by decide)
    · exact absurd (List.mem_replicate.1 h).2 (by decide)
  · refine Nat.le_trans (columns_room k hk _) ?_
    rw [H2.Layout.room_append, hc, hd]
    have := hk.1
    by_cases h0 : n = 0
    · rw [if_pos h0]; omega
    · rw [if_neg h0]; exact dotsAt_fits k.W n (n - 1) (by omega) hk.1

example : ∀ i < 3, Dots 40 3 i ([1, 10, 20].getD i 0) := by unfold Dots; decide

/-- Nothing is written: nothing but the rows of the report is seen. -/
theorem seen_quiet (k : Kind) (g : Cfg) (hv : g.verbose < 5) (cases : Nat) (told : Info → Str) (head : Nat → Str → Str → Str) (evs : List Ev)
    (hq : writes evs = []) : ∀ x, (x = .empty ∨ ∃ r, x = .progress r) → k.seen g cases told head x [] evs = evs.flatMap (k.reports g cases told) := by
  induction evs with
  | nil => rintro x (rfl | ⟨r, rfl⟩) <;> simp [Kind.seen, Kind.remains]
  | cons e evs ih =>
    intro x hx
    have rem : k.remains [] x = [] := by rcases hx with rfl | ⟨r, rfl⟩ <;> simp [Kind.remains]
    have on : ∀ c : Case, outcome c = none ∨ ∃ b, outcome c = some b := by
      intro c
      cases outcome c with
      | none => exact Or.inl rfl
      | some b => exact Or.inr ⟨b, rfl⟩
    cases e with
    | write t => simp [writes] at hq
    | start index s c =>
      have ih := ih (by simpa [writes] using hq)
      rw [List.flatMap_cons]
      show _ = [] ++ _
      rw [List.nil_append]
      have go : ∀ y : Waits, (y = .empty ∨ ∃ r, y = .progress r) → k.remains [] x ++ k.seen g cases told head y [] evs = evs.flatMap (k.reports g cases told) := by
        intro y hy; rw [rem, List.nil_append, ih y hy]
      have prog : ∀ r : Str, (if g.progressing then Waits.progress r else .empty) = .empty ∨ ∃ q, (if g.progressing then Waits.progress r else .empty) = .progress q := by
        intro r; split
        · exact Or.inr ⟨r, rfl⟩
        · exact Or.inl rfl
      rcases on c with ho | ⟨b, ho⟩
      · simp only [Kind.seen, ho]; exact ih x hx
      · cases b <;> simp only [Kind.seen, ho] <;> first | exact ih x hx | exact go _ (prog _)
    | ended index s c i =>
      have ih := ih (by simpa [writes] using hq)
      rw [List.flatMap_cons]
      rcases on c with ho | ⟨b, ho⟩
      · simp only [Kind.seen, Kind.reports, Kind.lines, ho]; exact ih x hx
      · cases b with
        | todo =>
          simp only [Kind.seen, Kind.reports, Kind.lines, ho, if_neg (show ¬ 5 ≤ g.verbose by omega), about, List.flatMap_nil, List.nil_append]
          exact ih x hx
        | _ =>
          simp only [Kind.seen, Kind.reports, Kind.lines, ho]
          split
          · rename_i h; rw [h, List.flatMap_nil, List.nil_append]; exact ih x hx
          · rw [rem, List.nil_append, ih _ (Or.inl rfl)]
    | suite index t =>
      have ih := ih (by simpa [writes] using hq)
      rw [List.flatMap_cons]
      simp only [Kind.seen, Kind.reports, rem, List.nil_append, ih _ (Or.inl rfl)]
    | finish t =>
      have ih := ih (by simpa [writes] using hq)
      rw [List.flatMap_cons]
      simp only [Kind.seen, Kind.reports, rem, List.nil_append, ih _ (Or.inl rfl)]

/-- **C97.** If the code of the user writes nothing, then only the lines of the report are seen, one below the other: no line of
progress remains, whether there is one (-p) or not. -/
theorem C97_quiet (k : Kind) (hk : k.Usual) (g : Cfg) (hv : g.verbose < 5) (cases : Nat) (told : Info → Str) (n : Nat) (evs : List Ev) (t : Str)
    (hq : writes evs = []) (he : ∀ e ∈ evs, e.Good g cases told) (ht : Clean t) :
    k.screen (session g k.W cases told n [] (fun _ => []) (evs ++ [.finish t])) = evs.flatMap (k.reports g cases told) ++ k.rows t := by
  obtain ⟨head, _, h⟩ := C97_screen k hk g cases told n [] (fun _ => []) evs t (by simp) (by simp) he ht (dotsAt k.W n) (fun i _ => dots_ok k.W n i)
  have h0 : heard g ([] ++ (List.range n).flatMap fun _ => ([] : List Str)) = [] := by simp [heard]
  have h1 : heard g [] = [] := by simp [heard]
  rw [h, h0, h1]
  have hw : ∀ evs, writes evs = [] → writes (evs ++ [.finish t]) = [] := by
    intro evs
    induction evs with
    | nil => intro _; rfl
    | cons e r ih =>
      intro h
      cases e with
      | write u => simp [writes] at h
      | _ => exact ih h
  have q := seen_quiet k g hv cases told head (evs ++ [.finish t]) (hw evs hq) .empty (Or.inl rfl)
  have c := C97_collecting k hk n (dotsAt k.W n) (fun i _ => dots_ok k.W n i)
  simp only [List.flatten_nil, List.nil_append, if_true, q, c]
  simp [Kind.reports]

example : forty.screen (session ⟨4, true⟩ 40 1 nothing 1 [] (fun _ => []) ([.start 1 aSuite aCase, .ended 1 aSuite aCase { filine := [] }] ++ [.finish "Success".toList])) =
    ["Success".toList] ∧
    (∀ e ∈ [Ev.start 1 aSuite aCase, .ended 1 aSuite aCase { filine := [] }], e.Good ⟨4, true⟩ 1 nothing) := by
  refine ⟨by decide +kernel, ?_⟩
  intro e he
  rcases List.mem_cons.1 he with rfl | he
  · exact ⟨literal_plain (by decide), literal_plain (by decide), by decide +kernel⟩
  · rcases List.mem_cons.1 he with rfl | he
    · exact ⟨literal_plain (by decide), literal_plain (by decide), by intro c hc; simp at hc, by intro c hc; simp [nothing] at hc, by intro t ht; simp at ht⟩
    · simp at he

/-! ### A whole run -/

theorem reports_cases (k : Kind) (g : Cfg) (cases : Nat) (told : Info → Str) (suite : Nat → Str) (info : Case → Info) (s : Suite) (cs : List Case)
    (hs : ∀ c ∈ cs, suite c.id = s.name) : ∀ index,
    (casesEvents info (fun _ => []) s index cs).flatMap (k.reports g cases told) =
      (cs.zipIdx (index + 1)).flatMap fun p => k.lines g cases told p.2 (suite p.1.id) p.1 (info p.1) := by
  induction cs with
  | nil => intro index; rfl
  | cons c cs ih =>
    intro index
    have e : caseEvents info (fun _ => []) s (index + 1) c = [.start (index + 1) s c, .ended (index + 1) s c (info c)] := by
      unfold caseEvents; split <;> rfl
    rw [casesEvents, e, List.flatMap_append, ih (fun d hd => hs d (by simp [hd])), List.zipIdx_cons, List.flatMap_cons]
    congr 1
    simp only [List.flatMap_cons, List.flatMap_nil, Kind.reports, List.nil_append, List.append_nil, hs c (by simp)]

theorem allCases_cons (s : Suite) (ss : List Suite) : allCases (s :: ss) = s.cases ++ allCases ss := by simp [allCases]

theorem allCases_length (ss : List Suite) : (allCases ss).length = H2.Console.countCases ss := by
  induction ss with
  | nil => rfl
  | cons s ss ih => rw [allCases_cons, List.length_append, ih]; simp [H2.Console.countCases]

theorem reports_suites (k : Kind) (g : Cfg) (cases : Nat) (told : Info → Str) (suite : Nat → Str) (info : Case → Info) (ss : List Suite)
    (hs : SuiteNames suite ss) : ∀ index,
    (suitesEvents info (fun _ => []) index ss).flatMap (k.reports g cases told) =
      ((allCases ss).zipIdx (index + 1)).flatMap fun p => k.lines g cases told p.2 (suite p.1.id) p.1 (info p.1) := by
  induction ss with
  | nil => intro index; rfl
  | cons s ss ih =>
    intro index
    rw [suitesEvents, List.flatMap_append, reports_cases k g cases told suite info s s.cases (hs s (by simp)),
      ih (fun t ht => hs t (by simp [ht])), allCases_cons, List.zipIdx_append, List.flatMap_append]
    congr 3
    omega

theorem reports_rounds (k : Kind) (g : Cfg) (cases : Nat) (told : Info → Str) (suite : Nat → Str) (info : Nat → Case → Info) (rs : List (Nat × List Suite))
    (hs : ∀ r ∈ rs, SuiteNames suite r.2) : ∀ index,
    (roundsEvents info (fun _ _ => []) index rs).flatMap (k.reports g cases told) =
      ((rs.flatMap fun r => (allCases r.2).map fun c => (r.1, c)).zipIdx (index + 1)).flatMap fun p => k.lines g cases told p.2 (suite p.1.2.id) p.1.2 (info p.1.1 p.1.2) := by
  induction rs with
  | nil => intro index; rfl
  | cons r rs ih =>
    intro index
    rw [roundsEvents, List.flatMap_append, reports_suites k g cases told suite (info r.1) r.2 (hs r (by simp)), ih (fun t ht => hs t (by simp [ht])),
      List.flatMap_cons, List.zipIdx_append, List.flatMap_append, List.zipIdx_map, List.flatMap_map, List.length_map, allCases_length]
    congr 3
    omega

theorem writes_append (a b : List Ev) : writes (a ++ b) = writes a ++ writes b := by
  induction a with
  | nil => rfl
  | cons e a ih => cases e <;> simp [writes, ih]

theorem writes_cases (info : Case → Info) (s : Suite) (cs : List Case) : ∀ index, writes (casesEvents info (fun _ => []) s index cs) = [] := by
  induction cs with
  | nil => intro index; rfl
  | cons c cs ih =>
    intro index
    rw [casesEvents, writes_append, ih, List.append_nil]
    unfold caseEvents; split <;> rfl

theorem writes_suites (info : Case → Info) (ss : List Suite) : ∀ index, writes (suitesEvents info (fun _ => []) index ss) = [] := by
  induction ss with
  | nil => intro index; rfl
  | cons s ss ih => intro index; rw [suitesEvents, writes_append, ih, writes_cases]; rfl

theorem writes_rounds (info : Nat → Case → Info) (rs : List (Nat × List Suite)) : ∀ index, writes (roundsEvents info (fun _ _ => []) index rs) = [] := by
  induction rs with
  | nil => intro index; rfl
  | cons s ss ih => intro index; rw [roundsEvents, writes_append, ih, writes_suites]; rfl

/-- **C97.** The terminal after a run in which nothing is written: for each case, in the order of the run, the lines about it; then the
last line. -/
theorem C97_run (k : Kind) (hk : k.Usual) (g : Cfg) (hv : g.verbose < 5) (told : Info → Str) (o : Opts) (env : Env) (rnd : Nat → Nat → Int)
    (info : Nat → Case → Info) (asserts : Nat) (duration : Str) (st : State) (h : Fresh st) (suite : Nat → Str) (hs : SuiteNames suite st.suites)
    (he : ∀ e ∈ events o env rnd info (fun _ _ => []) asserts duration st, e.Good g (allCases st.suites).length told) :
    ∃ last, H2.Console.lastLine (H2.Console.console g o env rnd info asserts duration st) = some last ∧
    k.screen (session g k.W (allCases st.suites).length told st.suites.length [] (fun _ => []) (events o env rnd info (fun _ _ => []) asserts duration st)) =
      (((st.main o env rnd).1.log.zipIdx 1).flatMap fun p =>
        k.lines g (allCases st.suites).length told p.2 (suite p.1.case.id) p.1.case (info p.1.round p.1.case)) ++ k.rows last := by
  refine ⟨_, H2.Console.lastLine_console g o env rnd info asserts duration st, ?_⟩
  unfold events at he ⊢
  rw [C97_quiet k hk g hv _ told _ _ _ (writes_rounds info _ 0) (fun e h' => he e (by simp [h'])) (he (.finish _) (by simp)),
    reports_rounds k g _ told suite info _ (H2.Console.visits_names o env rnd st hs o.rounds), ← H2.Console.visits_log o env rnd st h.log o.rounds,
    List.zipIdx_map, List.flatMap_map]
  rfl

theorem writes_map (us : List Str) : writes (us.map .write) = us := by
  induction us with
  | nil => rfl
  | cons u us ih => simp [writes, ih]

/-- What a case writes if its body runs. -/
def ownWrites (ws : Case → List Str) (c : Case) : List Str := if outcome c = none ∨ outcome c = some .todo then [] else ws c

theorem written_eq (ws : Case → List Str) (c : Case) : (if !c.todo && !c.filtered && !c.ignored then (ws c).map Ev.write else []) = (ownWrites ws c).map .write := by
  unfold ownWrites outcome
  cases c.filtered <;> cases c.ignored <;> cases c.todo <;> cases c.failed <;> cases c.warning <;> simp

theorem casesEvents_writes (info : Case → Info) (ws : Case → List Str) (s : Suite) (cs : List Case) : ∀ index,
    writes (casesEvents info ws s index cs) = cs.flatMap (ownWrites ws) := by
  induction cs with
  | nil => intro index; rfl
  | cons c cs ih =>
    intro index
    rw [casesEvents, writes_append, ih, caseEvents, written_eq, List.flatMap_cons, writes_append]
    simp [writes, writes_map]

theorem suitesEvents_writes (info : Case → Info) (ws : Case → List Str) (ss : List Suite) : ∀ index,
    writes (suitesEvents info ws index ss) = (allCases ss).flatMap (ownWrites ws) := by
  induction ss with
  | nil => intro index; rfl
  | cons s ss ih => intro index; rw [suitesEvents, writes_append, ih, casesEvents_writes, allCases_cons, List.flatMap_append]

theorem roundsEvents_writes (info : Nat → Case → Info) (ws : Nat → Case → List Str) (rs : List (Nat × List Suite)) : ∀ index,
    writes (roundsEvents info ws index rs) = (rs.flatMap fun r => (allCases r.2).map fun c => (r.1, c)).flatMap fun p => ownWrites (ws p.1) p.2 := by
  induction rs with
  | nil => intro index; rfl
  | cons r rs ih =>
    intro index
    rw [roundsEvents, writes_append, ih, suitesEvents_writes, List.flatMap_cons, List.flatMap_append, List.flatMap_map]

/-- **C97.** What is written to the terminal in a run, in the order of the run: for each case that runs (passes, fails or warns) what it
writes in that round; nothing for one that is filtered, ignored or left to do. -/
theorem C97_written (o : Opts) (env : Env) (rnd : Nat → Nat → Int) (info : Nat → Case → Info) (ws : Nat → Case → List Str) (asserts : Nat)
    (duration : Str) (st : State) (h : Fresh st) :
    writes (events o env rnd info ws asserts duration st) =
      (st.main o env rnd).1.log.flatMap fun e => if outcome e.case = none ∨ outcome e.case = some .todo then [] else ws e.round e.case := by
  unfold events
  rw [writes_append, roundsEvents_writes, ← H2.Console.visits_log o env rnd st h.log o.rounds, List.flatMap_map]
  simp only [writes, List.append_nil]
  rfl

/-- Two rounds of two cases, one of them left to do: what the other writes is written twice, with the number of the round. -/
example : writes (events { rounds := 2 } (fun _ _ => (false, false)) (fun _ _ => 0) (fun _ _ => { filine := [] })
      (fun r c => [(if c.id = 0 then "a" else "b").toList ++ (if r = 0 then "0" else "1").toList]) 3 "5 milliseconds".toList
      { suites := [{ id := 0, name := "one".toList, cases := [{ id := 0, name := "f".toList }, { id := 1, name := "g".toList, todo := true }] }] }) =
    ["a0".toList, "a1".toList] := by decide +kernel

/-- One case passes, one fails. -/
example : forty.screen (session ⟨4, true⟩ 40 2 nothing 1 [] (fun _ => [])
      (events {} (fun _ c => (c.id == 1, false)) (fun _ _ => 0) (fun _ _ => { filine := "a.cpp:3".toList, fails := ["1 is not 2".toList] }) (fun _ _ => []) 3
        "5 milliseconds".toList { suites := [{ id := 0, name := "one".toList, cases := [{ id := 0, name := "f".toList }, { id := 1, name := "g".toList }] }] })) =
    ["[100%] Failed ┊ g ┊ one ┊ a.cpp:3 ".toList, "1 is not 2".toList, [], "Failure (1 passed, 1 failed) 2 cases, 3 ".toList, "asserts, 5 milliseconds".toList] := by
  decide +kernel

/-! ### What is written remains -/

theorem seen_written (k : Kind) (g : Cfg) (hv : 4 ≤ g.verbose) (cases : Nat) (told : Info → Str) (head : Nat → Str → Str → Str) (x : Waits)
    (front : List Str) (hx : (x = .empty ∧ front = []) ∨ ∃ r, x = .progress r ∧ front = [r]) (evs : List Ev) : ∀ ws : List Str, ws.flatten ≠ [] →
    ∃ m post, k.seen g cases told head x ws evs = front ++ k.rows (ws.flatten ++ ((writes evs).take m).flatten) ++ post := by
  have rem : ∀ ws : List Str, ws.flatten ≠ [] → k.remains ws x = front ++ k.rows ws.flatten := by
    intro ws hf
    have hn : ws ≠ [] := by rintro rfl; exact hf rfl
    rcases hx with ⟨rfl, rfl⟩ | ⟨r, rfl, rfl⟩
    · rw [Kind.remains, if_neg hf]; rfl
    · rw [Kind.remains, if_neg hn, if_neg hf]
  have stop : ∀ (ws : List Str) (w : List Str) (post : List Str), ws.flatten ≠ [] →
      ∃ m p, k.remains ws x ++ post = front ++ k.rows (ws.flatten ++ (w.take m).flatten) ++ p := by
    intro ws w post hf
    exact ⟨0, post, by rw [rem ws hf]; simp⟩
  induction evs with
  | nil =>
    intro ws hf
    obtain ⟨m, p, e⟩ := stop ws [] [] hf
    exact ⟨m, p, by rw [Kind.seen]; simpa [writes] using e⟩
  | cons e evs ih =>
    intro ws hf
    have on : ∀ c : Case, outcome c = none ∨ ∃ b, outcome c = some b := by
      intro c
      cases outcome c with
      | none => exact Or.inl rfl
      | some b => exact Or.inr ⟨b, rfl⟩
    cases e with
    | write t =>
      obtain ⟨m, p, e⟩ := ih (ws ++ [t]) (by simp only [List.flatten_append]; simp [hf])
      refine ⟨m + 1, p, ?_⟩
      rw [Kind.seen, if_pos hv, e]
      simp [writes, List.append_assoc]
    | start index s c =>
      simp only [writes]
      rcases on c with ho | ⟨b, ho⟩
      · simp only [Kind.seen, ho]; exact ih ws hf
      · cases b <;> simp only [Kind.seen, ho] <;> first | exact ih ws hf | exact stop ws _ _ hf
    | ended index s c i =>
      simp only [writes]
      rcases on c with ho | ⟨b, ho⟩
      · simp only [Kind.seen, ho]; exact ih ws hf
      · cases b with
        | todo =>
          simp only [Kind.seen, ho]
          split
          · exact stop ws _ _ hf
          · exact ih ws hf
        | _ =>
          simp only [Kind.seen, ho]
          split
          · exact ih ws hf
          · rw [List.append_assoc]; exact stop ws _ _ hf
    | suite index t => simp only [writes, Kind.seen]; rw [List.append_assoc]; exact stop ws _ _ hf
    | finish t => simp only [writes, Kind.seen]; rw [List.append_assoc]; exact stop ws _ _ hf

/-- Where an event that shows progress is reached, what follows is seen after something else. -/
theorem seen_from (k : Kind) (g : Cfg) (cases : Nat) (told : Info → Str) (head : Nat → Str → Str → Str) (a : List Ev) : ∀ (x : Waits) (ws : List Str),
    ∃ pre y us, ∀ r, k.seen g cases told head x ws (a ++ r) = pre ++ k.seen g cases told head y us r := by
  induction a with
  | nil => intro x ws; exact ⟨[], x, ws, fun r => by simp⟩
  | cons e a ih =>
    intro x ws
    have on : ∀ c : Case, outcome c = none ∨ ∃ b, outcome c = some b := by
      intro c
      cases outcome c with
      | none => exact Or.inl rfl
      | some b => exact Or.inr ⟨b, rfl⟩
    have more : ∀ (p : List Str) (y : Waits) (us : List Str),
        ∃ pre z vs, ∀ r, p ++ k.seen g cases told head y us (a ++ r) = pre ++ k.seen g cases told head z vs r := by
      intro p y us
      obtain ⟨pre, z, vs, h⟩ := ih y us
      exact ⟨p ++ pre, z, vs, fun r => by rw [h r, List.append_assoc]⟩
    cases e with
    | write t => simp only [List.cons_append, Kind.seen]; exact ih _ _
    | start index s c =>
      rcases on c with ho | ⟨b, ho⟩
      · simp only [List.cons_append, Kind.seen, ho]; exact ih _ _
      · cases b <;> simp only [List.cons_append, Kind.seen, ho] <;> first | exact ih _ _ | exact more _ _ _
    | ended index s c i =>
      rcases on c with ho | ⟨b, ho⟩
      · simp only [List.cons_append, Kind.seen, ho]; exact ih _ _
      · cases b with
        | todo =>
          simp only [List.cons_append, Kind.seen, ho]
          split
          · exact more _ _ _
          · exact ih _ _
        | _ =>
          simp only [List.cons_append, Kind.seen, ho]
          split
          · exact ih _ _
          · exact more _ _ _
    | suite index t => simp only [List.cons_append, Kind.seen]; exact more _ _ _
    | finish t => simp only [List.cons_append, Kind.seen]; exact more _ _ _

theorem seen_writes (k : Kind) (g : Cfg) (hv : 4 ≤ g.verbose) (cases : Nat) (told : Info → Str) (head : Nat → Str → Str → Str) (x : Waits) (us : List Str) (r : List Ev) :
    ∀ ws, k.seen g cases told head x ws (us.map Ev.write ++ r) = k.seen g cases told head x (ws ++ us) r := by
  induction us with
  | nil => intro ws; simp
  | cons u us ih =>
    intro ws
    rw [List.map_cons, List.cons_append, Kind.seen, if_pos hv, ih]
    simp

/-- **C97.** What a case writes remains on the terminal, from the beginning of a row, below the line of progress of the case if there
is one; what is written before the report goes on follows it.  (With a verbosity below 4 nothing that is written is shown.) -/
theorem C97_output (k : Kind) (hk : k.Usual) (g : Cfg) (hv : 4 ≤ g.verbose) (cases : Nat) (told : Info → Str) (n : Nat) (before : List Str)
    (ws : Nat → List Str) (a b : List Ev) (index : Nat) (s : Suite) (c : Case) (us : List Str) (t : Str)
    (hb : ∀ u ∈ before, Clean u) (hw : ∀ i, ∀ u ∈ ws i, Clean u) (he : ∀ e ∈ a ++ .start index s c :: (us.map .write ++ b), e.Good g cases told) (ht : Clean t)
    (hc : outcome c ≠ none ∧ outcome c ≠ some .todo) (hu : us.flatten ≠ []) :
    ∃ row, Row k.W (testing g cases index s.name c.name) row ∧ ∃ pre m post,
      k.screen (session g k.W cases told n before ws (a ++ .start index s c :: (us.map .write ++ b) ++ [.finish t])) =
        pre ++ (if g.progressing then [row] else []) ++ k.rows (us.flatten ++ ((writes b).take m).flatten) ++ post := by
  obtain ⟨head, hr, h⟩ := C97_screen k hk g cases told n before ws _ t hb hw he ht (dotsAt k.W n) (fun i _ => dots_ok k.W n i)
  obtain ⟨g1, g2, g3⟩ := he (.start index s c) (by simp)
  refine ⟨head index s.name c.name, hr index s.name c.name g1 g2 g3, ?_⟩
  have key : ∀ x vs, ∃ pre m post, k.seen g cases told head x vs (a ++ .start index s c :: (us.map .write ++ b) ++ [.finish t]) =
      pre ++ (if g.progressing then [head index s.name c.name] else []) ++ k.rows (us.flatten ++ ((writes b).take m).flatten) ++ post := by
    intro x vs
    obtain ⟨pre, y, zs, hp⟩ := seen_from k g cases told head a x vs
    have e1 : a ++ .start index s c :: (us.map .write ++ b) ++ [.finish t] = a ++ (.start index s c :: (us.map .write ++ (b ++ [.finish t]))) := by simp
    have st : k.seen g cases told head y zs (.start index s c :: (us.map .write ++ (b ++ [.finish t]))) =
        k.remains zs y ++ k.seen g cases told head (if g.progressing then .progress (head index s.name c.name) else .empty) [] (us.map .write ++ (b ++ [.finish t])) := by
      obtain ho | ⟨q, ho⟩ : outcome c = none ∨ ∃ q, outcome c = some q := by
        cases outcome c with
        | none => exact Or.inl rfl
        | some b => exact Or.inr ⟨b, rfl⟩
      · exact absurd ho hc.1
      · cases q with
        | todo => exact absurd ho hc.2
        | _ => simp only [Kind.seen, ho]
    obtain ⟨m, post, e⟩ := seen_written k g hv cases told head (if g.progressing then .progress (head index s.name c.name) else .empty)
      (if g.progressing then [head index s.name c.name] else []) (by
        by_cases hp : g.progressing = true
        · right; exact ⟨_, if_pos hp, if_pos hp⟩
        · left; exact ⟨if_neg hp, if_neg hp⟩) (b ++ [.finish t]) us hu
    refine ⟨pre ++ k.remains zs y, m, post, ?_⟩
    rw [e1, hp, st, seen_writes k g hv, List.nil_append, e, writes_append]
    simp [writes, List.append_assoc]
  rw [h]
  by_cases hp : g.progressing = true
  · obtain ⟨pre, m, post, e⟩ := key (if (heard g (before ++ (List.range n).flatMap ws)).flatten = [] then .empty else .gap) []
    rw [if_pos hp] at e ⊢
    rw [e]
    generalize (k.rows _).dropLast = z
    exact ⟨z ++ pre, m, post, by rw [if_pos hp]; simp only [List.append_assoc]⟩
  · rw [if_neg hp]
    exact key _ _

/-- A case writes in pieces and passes. -/
example : forty.screen (session ⟨4, true⟩ 40 1 nothing 1 [] (fun _ => [])
      ([] ++ .start 1 aSuite aCase :: (["one".toList, " two\nthree".toList].map .write ++ [.ended 1 aSuite aCase { filine := [] }]) ++ [.finish "Success".toList])) =
    ["[100%] Testing┊ adds ┊ sums           ".toList, "one two".toList, "three".toList, "Success".toList] := by decide +kernel

/-! ### What does not remain -/

/-- **C97 is false** of cases left to do: with a verbosity of 5 a line is printed about them, but what is printed next overwrites it. -/
theorem C97_todo_false :
    forty.screen (session ⟨5, true⟩ 40 1 nothing 1 [] (fun _ => [])
      [.start 1 aSuite { aCase with todo := true }, .ended 1 aSuite { aCase with todo := true } { filine := "a.cpp:3".toList }, .finish "Success".toList]) =
      ["Success".toList] ∧
    Tok.ch 'T' ∈ session ⟨5, true⟩ 40 1 nothing 1 [] (fun _ => [])
      [.start 1 aSuite { aCase with todo := true }, .ended 1 aSuite { aCase with todo := true } { filine := "a.cpp:3".toList }, .finish "Success".toList] := by
  decide +kernel

/-- **C97 is false** of what is written while suites are collected (in the body of a suite, outside of its cases, or in its setup): the
last row of it is overwritten. -/
theorem C97_collect_false :
    forty.screen (session ⟨4, true⟩ 40 1 nothing 1 [] (fun _ => ["hello".toList]) [.finish "Success".toList]) = [[], "Success".toList] := by
  decide +kernel

end H2.Screen
