import Verif.Thrown.Lemmas
namespace H2.Thrown
open H2.Layout (Word Line brush text)

/-- **C100.** What is printed about an exception: its type, what about it, where that was found, and the calls that led to it. -/
theorem C100_text (type : Word) (about : Line) (place : Option Word) (frames : List Word) (ht : Plain type)
    (hp : ∀ p, place = some p → Plain p) (hb : ∀ f ∈ frames, Plain f) :
    (printException type about place frames).map text = report type (text about) place frames := text_exception type about place frames ht hp hb

example : (printException "MyError".toList ["was thrown".toList] (some "a.cpp:7".toList) ["f()".toList, "main".toList]).map text =
    [" exception MyError was thrown at a.cpp:7 at backtrace:".toList, "   0. f()".toList, "   1. main".toList] := by decide +kernel

/-- The name of the last exception thrown in a case. -/
def lastName (names : Nat → Text) (onward : Bool) (as : List Step) (uncaught : Option Exn) (before : Text) : Text :=
  ((thrownIn onward as uncaught).getLast?.map fun x => names x.ty).getD before

/-- **C100, what the code does.** Of every case all that is to be told is told, in order, each exception with its own backtrace; but the
type shown with every one of them is that of the last exception thrown in the case. -/
theorem C100_told (E : Env) (names : Nat → Text) (before : Word) (as : List Step) (uncaught : Option Exn) (ha : ∀ a ∈ as, Fine E names a)
    (hu : ∀ x, uncaught = some x → FineExn E names x) (hb : Plain before) :
    ∃ s, test E before as uncaught = some s ∧ (printed s).map text =
      toldAll E.asWarning E.continueAssert names (fun _ => lastName names E.continueAssert as uncaught before) as uncaught := by
  obtain ⟨s, h1, _, h2, h3, h4, fs, h5, h6, h7⟩ := steps_do E names as { lastType := before } rfl rfl ha
  have hplain : ∀ xs : List Exn, (∀ x ∈ xs, FineExn E names x) → Plain ((xs.getLast?.map fun x => names x.ty).getD before) := by
    intro xs hxs
    cases hl : xs.getLast? with
    | none => exact hb
    | some x => exact (hxs x (List.mem_of_getLast? hl)).1.2.2.2
  have hran : ∀ (K : Bool) (bs : List Step), (∀ a ∈ bs, Fine E names a) → ∀ x ∈ exnsRan K bs, FineExn E names x := by
    intro K bs
    induction bs with
    | nil => intro _ x hx; simp [exnsRan, ran] at hx
    | cons b bs ih =>
      intro hf x hx
      unfold exnsRan ran at hx
      split at hx
      · simp only [List.map_cons, List.map_nil, List.flatten_cons, List.flatten_nil, List.append_nil] at hx
        exact (hf b (by simp)).1 x hx
      · simp only [List.map_cons, List.flatten_cons, List.mem_append] at hx
        rcases hx with hx | hx
        · exact (hf b (by simp)).1 x hx
        · exact ih (fun c hc => hf c (by simp [hc])) x hx
  simp only [List.nil_append] at h5
  unfold test
  rw [h1]
  simp only []
  have hstop : ∀ T, Plain T → s.lastType = T → (printed s).map text = ((ran E.continueAssert as).map (told E.asWarning names (fun _ => T))).flatten := by
    intro T hT hs
    rw [printed, h5, hs, h7 T hT]
  cases ht : throughout E.continueAssert as with
  | false =>
    rw [h3, ht, if_pos (by rfl)]
    refine ⟨s, rfl, ?_⟩
    have hl : lastName names E.continueAssert as uncaught before = s.lastType := by
      rw [h4, lastName, thrownIn, ht]; simp [exnsRan]
    unfold toldAll
    rw [ht, hl]
    simp only [Bool.false_eq_true, if_false, List.append_nil]
    exact hstop _ (by rw [h4]; exact hplain _ (hran _ as ha)) rfl
  | true =>
    rw [h3, ht, if_neg (by simp)]
    cases uncaught with
    | none =>
      refine ⟨s, rfl, ?_⟩
      have hl : lastName names E.continueAssert as none before = s.lastType := by
        rw [h4, lastName, thrownIn, ht]; simp [exnsRan]
      unfold toldAll
      rw [ht, hl]
      simp only [if_true, List.append_nil]
      exact hstop _ (by rw [h4]; exact hplain _ (hran _ as ha)) rfl
    | some x =>
      have hx := hu x rfl
      simp only []
      rw [throw_outside h2 hx]
      simp only []
      refine ⟨_, rfl, ?_⟩
      have hl : lastName names E.continueAssert as (some x) before = names x.ty := by
        rw [lastName, thrownIn, ht]; simp [List.getLast?_append]
      unfold toldAll
      rw [ht, hl]
      simp only [if_true]
      have hr : ran E.continueAssert as = as := ran_through ht
      have hT : Plain (names x.ty) := hx.1.2.2.2
      have e1 : ∀ about w, List.map text (print (names x.ty) (.exception about w none x.frames)) = report (names x.ty) (text about) none x.frames :=
        fun about w => text_exception _ _ _ _ hT (by simp) hx.2
      have t1 : text ["was thrown".toList] = "was thrown".toList := H2.Message.text_word _ (by decide)
      have t2 : text ["was thrown but uncaught".toList] = "was thrown but uncaught".toList := H2.Message.text_word _ (by decide)
      have hG : ∃ G, G = fs ++ (if E.asWarning then [Fail.exception ["was thrown".toList] true none x.frames] else []) ∧
          G.isEmpty = !(E.asWarning || as.any (noted E.asWarning)) ∧
          (G.map (print (names x.ty))).flatten.map text = ((ran E.continueAssert as).map (told E.asWarning names (fun _ => names x.ty))).flatten ++
            (if E.asWarning then report (names x.ty) "was thrown".toList none x.frames else []) := by
        refine ⟨_, rfl, ?_, ?_⟩
        · rw [← hr, Bool.not_or, ← h6]
          cases E.asWarning <;> cases fs <;> rfl
        · rw [List.map_append, List.flatten_append, List.map_append, h7 _ hT]
          congr 1
          cases E.asWarning with
          | false => rfl
          | true =>
            simp only [if_true, List.map_cons, List.map_nil, List.flatten_cons, List.flatten_nil, List.append_nil]
            rw [e1, t1]
      obtain ⟨G, hG1, hG2, hG3⟩ := hG
      rw [failing_deferred]
      unfold printed toldUncaught
      simp only [h5, ← hG1, ← List.append_assoc, ← hG3]
      have hcond : (!G.isEmpty && !E.continueAssert) = !(E.continueAssert || !(E.asWarning || as.any (noted E.asWarning))) := by
        rw [hG2]
        cases E.continueAssert <;> simp
      rw [hcond]
      cases (E.continueAssert || !(E.asWarning || as.any (noted E.asWarning))) with
      | true =>
        simp only [Bool.not_true, Bool.false_eq_true, if_false, if_true, List.map_append, List.map_cons, List.map_nil, List.flatten_append,
          List.flatten_cons, List.flatten_nil, List.append_nil]
        rw [e1, t2]
      | false =>
        simp only [Bool.not_false, if_true, Bool.false_eq_true, if_false, List.append_nil]

/-- **C100.** A case fails if it comes to a step that is a failure, or to an exception that no one catches, unless `-W uncaught` is given;
it has a warning if an exception is thrown outside of `Catch` with `-W exception`, or with `-W uncaught` one that no one catches. -/
theorem C100_verdict (E : Env) (names : Nat → Text) (before : Word) (as : List Step) (uncaught : Option Exn) (ha : ∀ a ∈ as, Fine E names a)
    (hu : ∀ x, uncaught = some x → FineExn E names x) :
    ∃ s, test E before as uncaught = some s ∧
      (s.failed = true ↔ (∃ a ∈ as, wrong a = true) ∨ (uncaught ≠ none ∧ E.uncaughtWarning = false)) ∧
      (s.warned = true ↔ (E.asWarning = true ∧ ∃ x, Step.thrown x ∈ ran E.continueAssert as) ∨
        (throughout E.continueAssert as = true ∧ uncaught ≠ none ∧ (E.asWarning = true ∨ E.uncaughtWarning = true))) := by
  obtain ⟨s, h1, ⟨hf, hw⟩, h2, h3, _⟩ := steps_do E names as { lastType := before } rfl rfl ha
  simp only [Bool.false_or] at hf hw
  have hany : ∀ (K : Bool) (as : List Step), (ran K as).any wrong = as.any wrong := by
    intro K as
    induction as with
    | nil => rfl
    | cons a as ih =>
      rw [ran]
      split
      · rename_i h
        have : wrong a = true := by simp at h; exact h.1
        simp [this]
      · rw [List.any_cons, List.any_cons, ih]
  have hwarn : (ran E.continueAssert as).any (warns E.asWarning) = true ↔ E.asWarning = true ∧ ∃ x, Step.thrown x ∈ ran E.continueAssert as := by
    rw [List.any_eq_true]
    constructor
    · rintro ⟨a, ha, hb⟩
      cases a with
      | thrown x => exact ⟨hb, x, ha⟩
      | block _ _ _ => cases hb
      | other _ => cases hb
    · rintro ⟨hb, x, hx⟩
      exact ⟨_, hx, hb⟩
  rw [hany] at hf
  have hfail : s.failed = true ↔ ∃ a ∈ as, wrong a = true := by rw [hf, List.any_eq_true]
  unfold test
  rw [h1]
  simp only []
  cases ht : throughout E.continueAssert as with
  | false =>
    rw [h3, ht, if_pos (by rfl)]
    refine ⟨s, rfl, ?_, ?_⟩
    · have : ∃ a ∈ as, wrong a = true := by
        simp only [throughout, Bool.or_eq_false_iff, List.all_eq_false] at ht
        obtain ⟨_, a, ha, hb⟩ := ht
        exact ⟨a, ha, by simpa using hb⟩
      rw [hfail]
      exact ⟨Or.inl, fun _ => this⟩
    · rw [hw, hwarn]
      simp
  | true =>
    rw [h3, ht, if_neg (by simp)]
    cases uncaught with
    | none =>
      refine ⟨s, rfl, ?_, ?_⟩
      · rw [hfail]; simp
      · rw [hw, hwarn]; simp
    | some x =>
      simp only []
      rw [throw_outside h2 (hu x rfl)]
      simp only []
      rw [failing_deferred]
      refine ⟨_, rfl, ?_, ?_⟩
      · show (s.failed || !E.uncaughtWarning) = true ↔ _
        rw [Bool.or_eq_true, hfail]
        simp
      · show (s.warned || E.asWarning || E.uncaughtWarning) = true ↔ _
        rw [Bool.or_eq_true, Bool.or_eq_true, hw, hwarn]
        simp [or_assoc]

theorem told_congr (warn : Bool) (names : Nat → Text) {f g : Exn → Text} (a : Step) (h : ∀ x ∈ exns a, f x = g x) :
    told warn names f a = told warn names g a := by
  cases a with
  | thrown x => simp only [told, h x (by simp [exns])]
  | other l => rfl
  | block e place x =>
    cases x with
    | none => cases e <;> rfl
    | some x =>
      have hx := h x (by simp [exns])
      cases e with
      | nothrow => simp only [told, hx]
      | type t says => cases says <;> simp only [told, hx]

theorem toldAll_congr (warn onward : Bool) (names : Nat → Text) {f g : Exn → Text} (as : List Step) (u : Option Exn)
    (h : ∀ x ∈ thrownIn onward as u, f x = g x) : toldAll warn onward names f as u = toldAll warn onward names g as u := by
  unfold toldAll
  congr 1
  · congr 1
    apply List.map_congr_left
    intro a ha
    apply told_congr
    intro x hx
    apply h
    unfold thrownIn
    rw [List.mem_append]
    exact Or.inl (List.mem_flatten.mpr ⟨_, List.mem_map.mpr ⟨a, ha, rfl⟩, hx⟩)
  · cases ht : throughout onward as with
    | false => rfl
    | true =>
      cases u with
      | none => rfl
      | some x =>
        have hx : f x = g x := h x (by simp [thrownIn, ht])
        simp only [if_true, toldUncaught, hx]

/-- **C100, partial.** If the exceptions thrown in a case are all of one type, or of types of the same name, each is reported with its own
type, place and backtrace.  Missing: exceptions of several types, for which it is false (`C100_types_false`), and types with names of 1024
characters or more (`C100_long_false`). -/
theorem C100_own_partial (E : Env) (names : Nat → Text) (before : Word) (as : List Step) (uncaught : Option Exn)
    (ha : ∀ a ∈ as, Fine E names a) (hu : ∀ x, uncaught = some x → FineExn E names x) (hb : Plain before)
    (hone : ∀ x ∈ thrownIn E.continueAssert as uncaught, ∀ y ∈ thrownIn E.continueAssert as uncaught, names x.ty = names y.ty) :
    ∃ s, test E before as uncaught = some s ∧ (printed s).map text =
      toldAll E.asWarning E.continueAssert names (fun x => names x.ty) as uncaught := by
  obtain ⟨s, h1, h2⟩ := C100_told E names before as uncaught ha hu hb
  refine ⟨s, h1, h2.trans (toldAll_congr _ _ _ _ _ ?_)⟩
  intro x hx
  unfold lastName
  cases hl : (thrownIn E.continueAssert as uncaught).getLast? with
  | none => rw [List.getLast?_eq_none_iff] at hl; rw [hl] at hx; simp at hx
  | some y => exact hone y (List.mem_of_getLast? hl) x hx

/-- The last exception of a case is always reported with its own type: here one that nobody catches, whatever was thrown before. -/
theorem C100_uncaught (E : Env) (names : Nat → Text) (before : Word) (as : List Step) (x : Exn)
    (ha : ∀ a ∈ as, Fine E names a) (hx : FineExn E names x) (hb : Plain before) (hK : E.continueAssert = true) :
    ∃ s told, test E before as (some x) = some s ∧
      (printed s).map text = told ++ report (names x.ty) "was thrown but uncaught".toList none x.frames := by
  obtain ⟨s, h1, h2⟩ := C100_told E names before as (some x) ha (by intro y hy; cases hy; exact hx) hb
  have ht : throughout E.continueAssert as = true := by simp [throughout, hK]
  have hl : lastName names E.continueAssert as (some x) before = names x.ty := by
    rw [lastName, thrownIn, ht]; simp [List.getLast?_append]
  refine ⟨s, ((ran E.continueAssert as).map (told E.asWarning names (fun _ => names x.ty))).flatten ++
      (if E.asWarning then report (names x.ty) "was thrown".toList none x.frames else []), h1, h2.trans ?_⟩
  unfold toldAll toldUncaught
  rw [ht, hl, hK]
  simp only [if_true, Bool.true_or, List.append_assoc]

/-- **C100, refuted (several types).** With `-W exception`, of two exceptions of different types that a case throws and catches both are
reported with the type of the second, though each with its own backtrace. -/
theorem C100_types_false (E : Env) (names : Nat → Text) (before : Word) (x y : Exn) (hx : FineExn E names x) (hy : FineExn E names y)
    (hb : Plain before) (hW : E.asWarning = true) (hne : names x.ty ≠ names y.ty) :
    ∃ s, test E before [.thrown x, .thrown y] none = some s ∧
      (printed s).map text = report (names y.ty) "was thrown".toList none x.frames ++ report (names y.ty) "was thrown".toList none y.frames ∧
      (printed s).map text ≠ toldAll E.asWarning E.continueAssert names (fun x => names x.ty) [.thrown x, .thrown y] none := by
  have hf : ∀ a ∈ [Step.thrown x, Step.thrown y], Fine E names a := by
    intro a ha
    simp only [List.mem_cons, List.not_mem_nil, or_false] at ha
    rcases ha with rfl | rfl
    · exact ⟨by simp only [exns, List.mem_singleton]; rintro _ rfl; exact hx, trivial⟩
    · exact ⟨by simp only [exns, List.mem_singleton]; rintro _ rfl; exact hy, trivial⟩
  obtain ⟨s, h1, h2⟩ := C100_told E names before [.thrown x, .thrown y] none hf (by intro _ h; cases h) hb
  have hran : ran E.continueAssert [.thrown x, .thrown y] = [.thrown x, .thrown y] := by simp [ran, wrong]
  have hth : throughout E.continueAssert [.thrown x, .thrown y] = true := by simp [throughout, wrong]
  have hl : lastName names E.continueAssert [.thrown x, .thrown y] none before = names y.ty := by
    simp [lastName, thrownIn, hran, hth, exns]
  have h3 : (printed s).map text = report (names y.ty) "was thrown".toList none x.frames ++ report (names y.ty) "was thrown".toList none y.frames := by
    rw [h2]
    unfold toldAll
    rw [hl, hran, hth, hW]
    simp [told]
  refine ⟨s, h1, h3, ?_⟩
  rw [h3]
  unfold toldAll
  rw [hran, hth, hW]
  intro h
  have h := congrArg List.head? h
  simp only [report, List.cons_append, List.head?_cons, List.map_cons, List.map_nil, told, if_true, List.flatten_cons, Option.some.injEq, List.append_assoc] at h
  have := List.append_cancel_left h
  exact hne (List.append_cancel_right this).symm

/-- **C100, refuted (long names).** An exception whose type has a name of 1024 characters or more is not reported: what happens is
undefined, as the buffer of the library is given back to `free`. -/
theorem C100_long_false (E : Env) (before : Word) (x : Exn) (d : Word) (h0 : E.mangled x.ty ≠ []) (hd : E.dem (E.mangled x.ty) = some d)
    (hl : 1024 ≤ d.length) (e : Expect) (place : Word) :
    test E before [] (some x) = none ∧ test E before [.thrown x] none = none ∧ test E before [.block e place (some x)] none = none := by
  have h : ∀ s, throw_ E x s = none := by
    intro s
    have : demangle E (E.mangled x.ty) s.lastType = none := by
      unfold demangle
      rw [if_neg (by simpa using h0), hd]
      show (if _ then _ else _) = _
      rw [if_neg (by omega)]
    unfold throw_
    rw [this]
  refine ⟨?_, ?_, ?_⟩
  · simp [test, steps, h]
  · simp [test, steps, step, h]
  · simp [test, steps, step, block, h]

/-! ### An example: types 0 (`int`) and 1 (`MyError`) -/

def sampleNames (t : Nat) : Text := if t = 0 then "int".toList else "MyError".toList

def sampleEnv : Env where
  mangled t := if t = 0 then "i".toList else "7MyError".toList
  dem w := if w = "i".toList then some "int".toList else some "MyError".toList
  exc _ := false
  asWarning := true

theorem sampleFine (t : Nat) : Named sampleEnv sampleNames t := by
  unfold Named sampleEnv sampleNames Plain
  by_cases h : t = 0 <;> simp [h]

/-- A case that throws and catches an `int`, then expects `MyError` in a `Catch` but another `int` comes. -/
def sampleSteps : List Step := [.thrown ⟨0, ["f()".toList]⟩, .block (.type 1 none) "a.cpp:9".toList (some ⟨0, ["g()".toList]⟩)]

theorem sampleSteps_fine (a : Step) (ha : a ∈ sampleSteps) : Fine sampleEnv sampleNames a := by
  simp only [sampleSteps, List.mem_cons, List.not_mem_nil, or_false] at ha
  rcases ha with rfl | rfl
  · refine ⟨?_, trivial⟩
    simp only [exns, List.mem_singleton]
    rintro _ rfl
    exact ⟨sampleFine 0, by simp [Plain]⟩
  · refine ⟨?_, by simp [Plain], sampleFine 1, ?_⟩
    · simp only [exns, Option.toList, List.mem_singleton]
      rintro _ rfl
      exact ⟨sampleFine 0, by simp [Plain]⟩
    · exact fun h => absurd h Bool.false_ne_true

theorem sampleSteps_thrown : thrownIn sampleEnv.continueAssert sampleSteps none = [⟨0, ["f()".toList]⟩, ⟨0, ["g()".toList]⟩] := rfl

example : ∃ s, test sampleEnv [] sampleSteps none = some s ∧ (printed s).map text =
    [" exception int was thrown at backtrace:".toList, "   0. f()".toList,
     " exception int was thrown but expect type is MyError at a.cpp:9 at backtrace:".toList, "   0. g()".toList] := by
  obtain ⟨s, h1, h2⟩ := C100_own_partial sampleEnv sampleNames [] sampleSteps none sampleSteps_fine
    (fun _ h => Option.noConfusion rfl (heq_of_eq h)) (by simp [Plain]) (by rw [sampleSteps_thrown]; simp)
  exact ⟨s, h1, h2.trans (by decide +kernel)⟩

/-- It fails, with a warning. -/
example : ∃ s, test sampleEnv [] sampleSteps none = some s ∧ s.failed = true ∧ s.warned = true := by
  obtain ⟨s, h1, h2, h3⟩ := C100_verdict sampleEnv sampleNames [] sampleSteps none sampleSteps_fine (fun _ h => Option.noConfusion rfl (heq_of_eq h))
  exact ⟨s, h1, h2.mpr (Or.inl ⟨_, List.mem_cons_of_mem _ (List.mem_singleton.mpr rfl), by decide⟩),
    h3.mpr (Or.inl ⟨rfl, ⟨0, ["f()".toList]⟩, List.mem_cons_self⟩)⟩

/-- Of an `int` and a `MyError` both are called `MyError`. -/
example : ∃ s, test sampleEnv [] [.thrown ⟨0, ["f()".toList]⟩, .thrown ⟨1, ["g()".toList]⟩] none = some s ∧ (printed s).map text =
    [" exception MyError was thrown at backtrace:".toList, "   0. f()".toList,
     " exception MyError was thrown at backtrace:".toList, "   0. g()".toList] := by
  obtain ⟨s, h1, h2, _⟩ := C100_types_false sampleEnv sampleNames [] ⟨0, ["f()".toList]⟩ ⟨1, ["g()".toList]⟩
    ⟨sampleFine 0, by simp [Plain]⟩ ⟨sampleFine 1, by simp [Plain]⟩ (by simp [Plain]) rfl (by decide)
  exact ⟨s, h1, h2.trans (by decide +kernel)⟩

example : 1024 ≤ (List.replicate 1024 'a').length := by decide +kernel

end H2.Thrown
