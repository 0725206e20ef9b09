import Verif.Listing.Lemmas
/-
C51: the listing of tests.
-/
namespace H2.Listing

theorem shown_eq (f : Flags) : shown f = fun c => !c.filtered && (if c.todo then f.todo else f.case) := rfl

theorem run_eq (f : Flags) (visits : List Suite) :
    run f visits = suiteOut f 0 0 visits ++ (if f.tags then (visits.foldl (visit f) {}).unfilteredTags.mapIdx .tag else []) ++
      [.listing (shownParts f (visits.foldl (visit f) {})) (filteredParts f (visits.foldl (visit f) {}))] := by
  have h := (visits_facts f visits {}).out
  unfold run onRunnerEndup
  simp only
  rw [h]
  rfl

theorem suiteLines_append (a b : List Line) : suiteLines (a ++ b) = suiteLines a ++ suiteLines b := List.filterMap_append
theorem caseLines_append (a b : List Line) : caseLines (a ++ b) = caseLines a ++ caseLines b := List.filterMap_append
theorem inSuiteNumbers_append (a b : List Line) : inSuiteNumbers (a ++ b) = inSuiteNumbers a ++ inSuiteNumbers b := List.filterMap_append
theorem tagLines_append (a b : List Line) : tagLines (a ++ b) = tagLines a ++ tagLines b := List.filterMap_append
theorem namesOf_append (a b : List Line) : namesOf (a ++ b) = namesOf a ++ namesOf b := List.filterMap_append

theorem suiteLines_tags (on : Bool) (T : List Tag) : suiteLines (if on then T.mapIdx .tag else []) = [] := by
  unfold suiteLines
  rw [List.filterMap_eq_nil_iff]
  intro l hl
  split at hl
  · obtain ⟨i, hi, rfl⟩ := List.mem_mapIdx.mp hl
    rfl
  · simp at hl

theorem caseLines_tags (on : Bool) (T : List Tag) : caseLines (if on then T.mapIdx .tag else []) = [] := by
  unfold caseLines
  rw [List.filterMap_eq_nil_iff]
  intro l hl
  split at hl
  · obtain ⟨i, hi, rfl⟩ := List.mem_mapIdx.mp hl
    rfl
  · simp at hl

theorem inSuiteNumbers_tags (on : Bool) (T : List Tag) : inSuiteNumbers (if on then T.mapIdx .tag else []) = [] := by
  unfold inSuiteNumbers
  rw [List.filterMap_eq_nil_iff]
  intro l hl
  split at hl
  · obtain ⟨i, hi, rfl⟩ := List.mem_mapIdx.mp hl
    rfl
  · simp at hl

theorem namesOf_tags (on : Bool) (T : List Tag) : namesOf (if on then T.mapIdx .tag else []) = [] := by
  unfold namesOf
  rw [List.filterMap_eq_nil_iff]
  intro l hl
  split at hl
  · obtain ⟨i, hi, rfl⟩ := List.mem_mapIdx.mp hl
    rfl
  · simp at hl

theorem mem_caseOut (f : Flags) (a : Bool) (cs : List Case) : ∀ k n, ∀ l ∈ caseOut f a k n cs, ∃ t i m x, l = .case t a i m x := by
  induction cs with
  | nil => intro k n l h; simp [caseOut] at h
  | cons c cs ih =>
    intro k n l h
    rw [caseOut] at h
    split at h
    · rcases List.mem_cons.mp h with rfl | h
      · exact ⟨_, _, _, _, rfl⟩
      · exact ih _ _ _ h
    · exact ih _ _ _ h

/-! Lines of suites -/

theorem suiteLines_caseOut (f : Flags) (a : Bool) (k n : Nat) (cs : List Case) : suiteLines (caseOut f a k n cs) = [] := by
  unfold suiteLines
  rw [List.filterMap_eq_nil_iff]
  intro l hl
  obtain ⟨t, i, m, x, rfl⟩ := mem_caseOut f a cs k n l hl
  rfl

theorem mapIdx_cons' {α β : Type} (g : Nat → α → β) (a : α) (l : List α) : (a :: l).mapIdx g = g 0 a :: l.mapIdx fun i => g (i + 1) := by
  simp

theorem suiteLines_suiteOut (f : Flags) (vs : List Suite) : ∀ m n, suiteLines (suiteOut f m n vs) =
    if f.suite then (listedSuites vs).mapIdx fun i s => (m + i + 1, s.name) else [] := by
  induction vs with
  | nil => intro m n; cases f.suite <;> simp [suiteOut, suiteLines, listedSuites]
  | cons s vs ih =>
    intro m n
    rw [suiteOut]
    have e : suiteLines (if listed f s then [Line.suite (m + 1) s.name] else []) = if listed f s then [(m + 1, s.name)] else [] := by
      split <;> rfl
    rw [suiteLines_append, suiteLines_append, suiteLines_caseOut, ih, e]
    unfold listedSuites listed
    rw [List.filter_cons]
    cases f.suite
    · simp
    · cases hx : (!s.absent && !s.filtered)
      · simp
      · simp
        apply List.ext_getElem?
        intro i
        simp only [List.getElem?_mapIdx]
        congr 1
        funext s
        simp; omega

/-- **C51**: with suites listed, there is exactly one line for each suite that is not filtered, in order, numbered from 1; otherwise none. -/
theorem C51_suites (f : Flags) (visits : List Suite) :
    suiteLines (run f visits) = if f.suite then (listedSuites visits).mapIdx fun i s => (i + 1, s.name) else [] := by
  have e := run_eq f visits
  rw [e, suiteLines_append, suiteLines_append, suiteLines_tags, suiteLines_suiteOut]
  have : ∀ a b, suiteLines [.listing a b] = [] := fun _ _ => rfl
  rw [this]
  simp

/-! Lines of cases -/

theorem caseLines_caseOut (f : Flags) (a : Bool) (cs : List Case) : ∀ k n, caseLines (caseOut f a k n cs) =
    (cs.filter (shown f)).mapIdx fun i c => (c.todo, a, n + i + 1, c.name) := by
  induction cs with
  | nil => intro k n; rfl
  | cons c cs ih =>
    intro k n
    rw [caseOut, List.filter_cons]
    cases hs : shown f c
    · simpa using ih k n
    · have := ih (k + 1) (n + 1)
      unfold caseLines at this ⊢
      simp only [if_true]
      rw [List.filterMap_cons]
      simp only
      rw [this, mapIdx_cons']
      congr 1
      apply List.ext_getElem?
      intro i
      simp only [List.getElem?_mapIdx]
      congr 1
      funext s
      simp; omega

theorem caseLines_suiteOut (f : Flags) (vs : List Suite) : ∀ m n, caseLines (suiteOut f m n vs) =
    (vs.flatMap fun s => (listedCases f s).map fun c => (s.absent, c)).mapIdx fun i p => (p.2.todo, p.1, n + i + 1, p.2.name) := by
  induction vs with
  | nil => intro m n; rfl
  | cons s vs ih =>
    intro m n
    rw [suiteOut]
    have e : caseLines (if listed f s then [Line.suite (m + 1) s.name] else []) = [] := by
      split <;> rfl
    rw [caseLines_append, caseLines_append, caseLines_caseOut, ih, List.flatMap_cons, e, List.mapIdx_append, List.nil_append]
    have el : listedCases f s = s.cases.filter (shown f) := rfl
    rw [el]
    congr 1
    · apply List.ext_getElem?
      intro i
      simp [Function.comp_def]
    · apply List.ext_getElem?
      intro i
      simp only [List.getElem?_mapIdx, List.length_map]
      congr 1
      funext p
      simp; omega

/-- **C51**: there is exactly one line for each case and todo of the kinds listed that is not filtered, in order, numbered from 1. -/
theorem C51_cases (f : Flags) (visits : List Suite) :
    caseLines (run f visits) =
      (visits.flatMap fun s => (listedCases f s).map fun c => (s.absent, c)).mapIdx fun i p => (p.2.todo, p.1, i + 1, p.2.name) := by
  have e := run_eq f visits
  rw [e, caseLines_append, caseLines_append, caseLines_tags, caseLines_suiteOut]
  have : ∀ a b, caseLines [.listing a b] = [] := fun _ _ => rfl
  rw [this]
  simp

/-! Numbers in suites -/

theorem inSuite_caseOut (f : Flags) (a : Bool) (cs : List Case) : ∀ k n, inSuiteNumbers (caseOut f a k n cs) =
    (List.range' (k + 1) (cs.filter (shown f)).length).map fun i => if f.suite then some i else none := by
  induction cs with
  | nil => intro k n; rfl
  | cons c cs ih =>
    intro k n
    rw [caseOut, List.filter_cons]
    cases hs : shown f c
    · simpa using ih k n
    · have := ih (k + 1) (n + 1)
      unfold inSuiteNumbers at this ⊢
      simp only [if_true, List.length_cons, List.range'_succ, List.map_cons]
      rw [List.filterMap_cons]
      simp only
      rw [this]

theorem inSuite_suiteOut (f : Flags) (vs : List Suite) : ∀ m n, inSuiteNumbers (suiteOut f m n vs) =
    vs.flatMap fun s => (List.range' 1 (listedCases f s).length).map fun i => if f.suite then some i else none := by
  induction vs with
  | nil => intro m n; rfl
  | cons s vs ih =>
    intro m n
    rw [suiteOut]
    have e : inSuiteNumbers (if listed f s then [Line.suite (m + 1) s.name] else []) = [] := by
      split <;> rfl
    rw [inSuiteNumbers_append, inSuiteNumbers_append, inSuite_caseOut, ih, List.flatMap_cons, e, List.nil_append]
    rfl

/-- **C51**: with suites listed, the cases listed of each suite are numbered from 1, too. -/
theorem C51_in_suite (f : Flags) (visits : List Suite) :
    inSuiteNumbers (run f visits) =
      visits.flatMap fun s => (List.range' 1 (listedCases f s).length).map fun i => if f.suite then some i else none := by
  have e := run_eq f visits
  rw [e, inSuiteNumbers_append, inSuiteNumbers_append, inSuiteNumbers_tags, inSuite_suiteOut]
  have : ∀ a b, inSuiteNumbers [.listing a b] = [] := fun _ _ => rfl
  rw [this]
  simp

/-! The order of the lines -/

theorem names_caseOut (f : Flags) (a : Bool) (cs : List Case) : ∀ k n, namesOf (caseOut f a k n cs) =
    (cs.filter (shown f)).map fun c => (false, c.name) := by
  induction cs with
  | nil => intro k n; rfl
  | cons c cs ih =>
    intro k n
    rw [caseOut, List.filter_cons]
    cases hs : shown f c
    · simpa using ih k n
    · have := ih (k + 1) (n + 1)
      unfold namesOf at this ⊢
      simp only [if_true, List.map_cons]
      rw [List.filterMap_cons]
      simp only
      rw [this]

theorem names_suiteOut (f : Flags) (vs : List Suite) : ∀ m n, namesOf (suiteOut f m n vs) =
    vs.flatMap fun s => (if f.suite && (!s.absent && !s.filtered) then [(true, s.name)] else []) ++ (listedCases f s).map fun c => (false, c.name) := by
  induction vs with
  | nil => intro m n; rfl
  | cons s vs ih =>
    intro m n
    rw [suiteOut]
    have e : namesOf (if listed f s then [Line.suite (m + 1) s.name] else []) = if f.suite && (!s.absent && !s.filtered) then [(true, s.name)] else [] := by
      unfold listed
      split <;> rfl
    rw [namesOf_append, namesOf_append, names_caseOut, ih, List.flatMap_cons, e]
    rfl

/-- **C51**: the cases listed of a suite follow the line of their suite. -/
theorem C51_order (f : Flags) (visits : List Suite) :
    namesOf (run f visits) = visits.flatMap fun s =>
      (if f.suite && (!s.absent && !s.filtered) then [(true, s.name)] else []) ++ (listedCases f s).map fun c => (false, c.name) := by
  have e := run_eq f visits
  rw [e, namesOf_append, namesOf_append, namesOf_tags, names_suiteOut]
  have : ∀ a b, namesOf [.listing a b] = [] := fun _ _ => rfl
  rw [this]
  simp

/-! Tags -/

/-- There are few enough tags for the tables. -/
def FewTags (visits : List Suite) : Prop := ∃ names : List Str, names.length ≤ 1024 ∧ ∀ x ∈ allTags visits, x ∈ names

theorem sub_all (visits : List Suite) (x : Str) (h : x ∈ suiteTags visits ++ caseTags visits) : x ∈ allTags visits := by
  unfold suiteTags caseTags listedSuites allTags at *
  simp only [List.mem_append, List.mem_flatMap, List.mem_filter] at h ⊢
  rcases h with ⟨s, ⟨hs, hp⟩, hx⟩ | ⟨c, ⟨hc, -⟩, hx⟩
  · simp only [Bool.and_eq_true] at hp
    exact .inl ⟨s, ⟨hs, hp.1⟩, hx⟩
  · exact .inr ⟨c, hc, hx⟩

theorem tables (f : Flags) (visits : List Suite) (hf : FewTags visits) :
    Table (visits.flatMap suiteAdds) (visits.foldl (visit f) {}).unfilteredTags ∧ Table (visits.flatMap suiteAll) (visits.foldl (visit f) {}).tags := by
  obtain ⟨names, hl, hm⟩ := hf
  have h := visits_tags f visits {}
  rw [h.1, h.2]
  constructor
  · have := table_fold names hl (visits.flatMap suiteAdds) [] [] table_nil (by
      intro b hb
      exact hm _ (sub_all _ _ ((mem_suites _ _).mp (List.mem_map.mpr ⟨b, by simpa using hb, rfl⟩))))
    simpa using this
  · have := table_fold names hl (visits.flatMap suiteAll) [] [] table_nil (by
      intro b hb
      exact hm _ ((mem_all _ _).mp (List.mem_map.mpr ⟨b, by simpa using hb, rfl⟩)))
    simpa using this

theorem tagLines_run (f : Flags) (visits : List Suite) :
    tagLines (run f visits) = if f.tags then (visits.foldl (visit f) {}).unfilteredTags.mapIdx fun i t => (i, t) else [] := by
  have e := run_eq f visits
  rw [e, tagLines_append, tagLines_append]
  have hc : ∀ a k n cs, tagLines (caseOut f a k n cs) = [] := by
    intro a k n cs
    unfold tagLines
    rw [List.filterMap_eq_nil_iff]
    intro l hl
    obtain ⟨t, i, m, x, rfl⟩ := mem_caseOut f _ _ _ _ l hl
    rfl
  have h0 : ∀ (vs : List Suite) m n, tagLines (suiteOut f m n vs) = [] := by
    intro vs
    induction vs with
    | nil => intro m n; rfl
    | cons s vs ih =>
      intro m n
      rw [suiteOut, tagLines_append, tagLines_append, ih, hc]
      split <;> rfl
  have hl : ∀ a b, tagLines [.listing a b] = [] := fun _ _ => rfl
  rw [h0, hl]
  cases f.tags
  · rfl
  · simp only [if_true, List.nil_append, List.append_nil]
    have : ∀ T : List Tag, ∀ g : Nat → Nat, tagLines (T.mapIdx fun i t => Line.tag (g i) t) = T.mapIdx fun i t => (g i, t) := by
      intro T
      induction T with
      | nil => intro g; rfl
      | cons t T ih =>
        intro g
        rw [List.mapIdx_cons, List.mapIdx_cons, show ∀ l : List Line, Line.tag (g 0) t :: l = [Line.tag (g 0) t] ++ l from fun _ => rfl,
          tagLines_append, ih fun i => g (i + 1)]
        rfl
    exact this _ id

/-- **C51**: with tags listed, there is exactly one line for each tag of a suite or case that is not filtered, numbered from 0, with the
number of times it occurs at suites and at cases that are not filtered; as long as there are at most 1024 tags. -/
theorem C51_tags (f : Flags) (visits : List Suite) (hf : FewTags visits) (ht : f.tags = true) :
    ∃ T : List Tag, tagLines (run f visits) = T.mapIdx (fun i t => (i, t)) ∧ (T.map Tag.name).Nodup ∧
      (∀ x, x ∈ T.map Tag.name ↔ x ∈ suiteTags visits ∨ x ∈ caseTags visits) ∧
      ∀ t ∈ T, t.suites = (suiteTags visits).count t.name ∧ t.cases = (caseTags visits).count t.name := by
  obtain ⟨h, -⟩ := tables f visits hf
  refine ⟨_, ?_, h.nodup, ?_, ?_⟩
  · rw [tagLines_run, ht]; rfl
  · intro x
    rw [h.mem, mem_suites, List.mem_append]
  · intro t ht
    rw [h.suites t ht, h.cases t ht, (count_suites _ _).1, (count_suites _ _).2]
    exact ⟨rfl, rfl⟩

/-- No lines of tags when they are not listed. -/
theorem C51_no_tags (f : Flags) (visits : List Suite) (ht : f.tags = false) : tagLines (run f visits) = [] := by
  rw [tagLines_run, ht]; rfl

/-! The last line -/

/-- A count, shown when it is not 0. -/
def ifAny (on : Bool) (n : Nat) (unit : String) : List (Nat × String) := if on && n > 0 then [(n, unit)] else []

theorem filter_split {α : Type} (p q : α → Bool) (l : List α) : (l.filter p).length = (l.filter fun a => p a && q a).length + (l.filter fun a => p a && !q a).length := by
  induction l with
  | nil => rfl
  | cons a l ih =>
    simp only [List.filter_cons]
    cases p a <;> cases q a <;> simp [ih] <;> omega

/-- **C51**: the last line counts the suites, cases, todos and tags listed, and those that are filtered. -/
theorem C51_counts (f : Flags) (visits : List Suite) (hf : FewTags visits) :
    ∃ tags filteredTags : List Str, tags.Nodup ∧ (∀ x, x ∈ tags ↔ x ∈ suiteTags visits ∨ x ∈ caseTags visits) ∧
      filteredTags.Nodup ∧ (∀ x, x ∈ filteredTags ↔ x ∈ allTags visits ∧ x ∉ tags) ∧
      (run f visits).getLast? = some (.listing
        ((if f.suite then [((visits.filter fun s => !s.absent && !s.filtered).length, "suite")] else []) ++
         (if f.case then [(((allCases visits).filter fun c => !c.todo && !c.filtered).length, "case")] else []) ++
         (if f.todo then [(((allCases visits).filter fun c => c.todo && !c.filtered).length, "todo")] else []) ++
         (if f.tags then [(tags.length, "tag")] else []))
        (ifAny f.suite (visits.filter fun s => !s.absent && s.filtered).length "suite" ++
         ifAny f.case ((allCases visits).filter fun c => !c.todo && c.filtered).length "case" ++
         ifAny f.todo ((allCases visits).filter fun c => c.todo && c.filtered).length "todo" ++
         ifAny f.tags filteredTags.length "tag")) := by
  obtain ⟨h, h'⟩ := tables f visits hf
  have v := visits_facts f visits {}
  let U := (visits.foldl (visit f) {}).unfilteredTags.map Tag.name
  let A := (visits.foldl (visit f) {}).tags.map Tag.name
  have hU : ∀ x, x ∈ U ↔ x ∈ suiteTags visits ∨ x ∈ caseTags visits := by
    intro x
    rw [show (x ∈ U) = (x ∈ (visits.foldl (visit f) {}).unfilteredTags.map Tag.name) from rfl, h.mem, mem_suites, List.mem_append]
  have hA : ∀ x, x ∈ A ↔ x ∈ allTags visits := by
    intro x
    rw [show (x ∈ A) = (x ∈ (visits.foldl (visit f) {}).tags.map Tag.name) from rfl, h'.mem, mem_all]
  have hsub : ∀ x ∈ U, x ∈ A := by
    intro x hx
    rw [hA]
    exact sub_all _ _ (List.mem_append.mpr ((hU x).mp hx))
  have hlen : A.length - U.length = (A.filter fun x => !U.contains x).length ∧ U.length ≤ A.length := by
    have e : (A.filter fun x => U.contains x).length = U.length := by
      apply Nat.le_antisymm
      · apply nodup_le
        · exact h'.nodup.filter _
        · intro x hx
          simpa using (List.mem_filter.mp hx).2
      · apply nodup_le
        · exact h.nodup
        · intro x hx
          rw [List.mem_filter]
          exact ⟨hsub x hx, by simpa using hx⟩
    have := filter_split (fun _ => true) (fun x => U.contains x) A
    have ht : A.filter (fun _ => true) = A := by simp
    simp only [Bool.true_and] at this
    rw [ht] at this
    omega
  refine ⟨U, A.filter fun x => !U.contains x, h.nodup, hU, h'.nodup.filter _, ?_, ?_⟩
  · intro x
    rw [List.mem_filter, hA]
    simp
  · have eU : U.length = (visits.foldl (visit f) {}).unfilteredTags.length := by simp [U]
    have eA : A.length = (visits.foldl (visit f) {}).tags.length := by simp [A]
    rw [← hlen.1, eA, eU]
    have hle := hlen.2
    rw [eA, eU] at hle
    have b1 := v.us
    have b2 := v.s
    have b3 := v.uc
    have b4 := v.c
    have b5 := v.ut
    have b6 := v.t
    have d1 : f.suite = true → (visits.filter (listed f)).length = (visits.filter fun s => !s.absent && !s.filtered).length := by
      intro e; unfold listed; rw [e]; simp
    have d3 : f.case = true → ((allCases visits).filter fun c => shown f c && !c.todo).length = ((allCases visits).filter fun c => !c.todo && !c.filtered).length := by
      intro e
      congr 1
      apply List.filter_congr
      intro c _
      unfold shown
      cases c.todo <;> simp [e]
    have d5 : f.todo = true → ((allCases visits).filter fun c => shown f c && c.todo).length = ((allCases visits).filter fun c => c.todo && !c.filtered).length := by
      intro e
      congr 1
      apply List.filter_congr
      intro c _
      unfold shown
      cases c.todo <;> simp [e]
    have s1 := filter_split (fun s : Suite => !s.absent) (fun s => s.filtered) visits
    have s2 := filter_split (fun c : Case => !c.todo) (fun c => c.filtered) (allCases visits)
    have s3 := filter_split (fun c : Case => c.todo) (fun c => c.filtered) (allCases visits)
    rw [run_eq, List.getLast?_append]
    simp only [List.getLast?_singleton, Option.some_or, shownParts, filteredParts, ifAny]
    simp only [Nat.zero_add] at b1 b2 b3 b4 b5 b6
    have dd : ∀ (on : Bool) (a b c : Nat) (unit : String), (on = true → a = b + c) →
        (if (on && decide (a > b)) = true then [(a - b, unit)] else []) = (if (on && decide (c > 0)) = true then [(c, unit)] else []) := by
      intro on a b c unit hh
      cases on
      · rfl
      · have := hh rfl
        by_cases hc : c > 0
        · have h1 : a > b := by omega
          have h2 : a - b = c := by omega
          simp [hc, h1, h2]
        · have h1 : ¬ a > b := by omega
          simp [hc, h1]
    have cc : ∀ (on : Bool) (a b : Nat) (unit : String), (on = true → a = b) →
        (if on = true then [(a, unit)] else []) = (if on = true then [(b, unit)] else []) := by
      intro on a b unit hh
      cases on
      · rfl
      · rw [hh rfl]
    rw [cc f.suite _ _ "suite" (fun e => b1.trans (d1 e)), cc f.case _ _ "case" (fun e => b3.trans (d3 e)), cc f.todo _ _ "todo" (fun e => b5.trans (d5 e))]
    rw [dd f.suite _ _ (visits.filter fun s => !s.absent && s.filtered).length "suite" (by intro e; have := d1 e; omega)]
    rw [dd f.case _ _ ((allCases visits).filter fun c => !c.todo && c.filtered).length "case" (by intro e; have := d3 e; omega)]
    rw [dd f.todo _ _ ((allCases visits).filter fun c => c.todo && c.filtered).length "todo" (by intro e; have := d5 e; omega)]
    rw [dd f.tags _ _ ((visits.foldl (visit f) {}).tags.length - (visits.foldl (visit f) {}).unfilteredTags.length) "tag" (by intro e; omega)]

/-- A suite with a tag and two cases, one of them filtered, and a bare todo. -/
def sample : List Suite :=
  [⟨"s".toList, false, false, ["x".toList], [⟨"a".toList, false, false, ["y".toList, "x".toList]⟩, ⟨"b".toList, false, true, ["z".toList]⟩]⟩,
   ⟨"".toList, true, false, [], [⟨"t".toList, true, false, ["x".toList]⟩]⟩]
example : FewTags sample := ⟨["x".toList, "y".toList, "z".toList], by decide, by decide⟩
example : run ⟨true, true, true, true⟩ sample =
    [.suite 1 "s".toList, .case false false (some 1) 1 "a".toList, .case true true (some 1) 2 "t".toList,
     .tag 0 ⟨"x".toList, 1, 2⟩, .tag 1 ⟨"y".toList, 0, 1⟩,
     .listing [(1, "suite"), (1, "case"), (1, "todo"), (2, "tag")] [(1, "case"), (1, "tag")]] := by decide

end H2.Listing
