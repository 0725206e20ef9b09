import Verif.Thrown.Spec
import Verif.MemText.Lemmas
import Verif.MockText.Lemmas
namespace H2.Thrown
open H2.Layout (Word Line brush text)
open H2.Message (text_append text_word text_gray text_brush text_nil)

theorem text_locate (place : Option Word) (h : ∀ p, place = some p → Plain p) :
    text (H2.Message.locate { filine := place }) = H2.MemText.at_ place := by
  rw [H2.Message.text_locate _ h]
  cases place <;> rfl

theorem text_exception (type : Word) (about : Line) (place : Option Word) (bt : List Word) (ht : Plain type)
    (hp : ∀ p, place = some p → Plain p) (hb : ∀ f ∈ bt, Plain f) :
    (printException type about place bt).map text = report type (text about) place bt := by
  unfold printException report
  rw [List.map_cons, H2.MemText.text_backtrace 3 bt hb]
  congr 1
  rw [text_append, text_append, text_append, text_append, text_append, text_word _ (by decide), text_brush, text_word _ ht,
    text_word _ (by decide), text_locate place hp, text_word _ (by decide)]

theorem demangle_named {E : Env} {names t} (h : Named E names t) (old : Word) :
    demangle E (E.mangled t) old = some (names t, names t) := by
  unfold demangle
  rw [if_neg (by simpa using h.1), h.2.1]
  show (if _ then _ else _) = _
  rw [if_pos h.2.2.1]

theorem text_expected {E : Env} {names t} (h : Named E names t) (a b : Word) (ha : Plain a) (hb : Plain b) :
    text ([a] ++ brush [names t] "green".toList ++ [b]) = a ++ names t ++ b := by
  rw [text_append, text_append, text_word _ ha, text_brush, text_word _ h.2.2.2, text_word _ hb]

/-- Whether a step leaves a warning. -/
def warns (warn : Bool) : Step → Bool
  | .thrown _ => warn
  | _ => false

/-- What a step does. -/
structure Does (E : Env) (names : Nat → Text) (s : St) (a : Step) (s' : St) : Prop where
  catching : s'.catching = false
  stopped : s'.stopped = (wrong a && !E.continueAssert)
  failed : s'.failed = (s.failed || wrong a)
  warned : s'.warned = (s.warned || warns E.asWarning a)
  lastType : s'.lastType = ((exns a).getLast?.map fun x => names x.ty).getD s.lastType
  fails : ∃ fs, s'.fails = s.fails ++ fs ∧ fs.isEmpty = !noted E.asWarning a ∧
    ∀ T, Plain T → (fs.map (print T)).flatten.map text = told E.asWarning names (fun _ => T) a

theorem throw_outside {E : Env} {names} {s : St} {x : Exn} (hc : s.catching = false) (hx : FineExn E names x) :
    throw_ E x s = some { s with
      thrown := some x, lastBt := x.frames, lastType := names x.ty, warned := s.warned || E.asWarning,
      fails := s.fails ++ (if E.asWarning then [.exception ["was thrown".toList] true none x.frames] else []) } := by
  unfold throw_
  rw [demangle_named hx.1]
  simp only [hc, Bool.false_eq_true, if_false]
  cases hW : E.asWarning <;> simp [runnerFailing, failing, Fail.warning, Bool.and_false]

theorem throw_inside {E : Env} {names} {s : St} {x : Exn} (hc : s.catching = true) (hx : FineExn E names x) :
    throw_ E x s = some { s with thrown := some x, lastBt := x.frames, lastType := names x.ty } := by
  unfold throw_
  rw [demangle_named hx.1]
  simp only [hc, if_true]

theorem failing_some (E : Env) (f : Fail) (s : St) (hw : f.warning = false) (hs : s.stopped = false) :
    runnerFailing E (some f) s = { s with fails := s.fails ++ [f], stopped := !E.continueAssert, failed := true } := by
  unfold runnerFailing failing
  simp only [Bool.not_true, Bool.and_false, Bool.false_eq_true, if_false, hw, Bool.not_false, Bool.and_true]
  cases E.continueAssert <;> simp [hs]

theorem failing_deferred (f : Fail) (append : Bool) (s : St) :
    failing f true append s = { s with
      warned := s.warned || f.warning, failed := s.failed || !f.warning,
      fails := if !s.fails.isEmpty && !append then s.fails else s.fails ++ [f] } := by
  unfold failing
  simp only [Bool.not_true, Bool.false_and, Bool.false_eq_true, if_false]
  cases f.warning <;> cases hG : (!s.fails.isEmpty && !append) <;> simp [hG]

theorem step_does (E : Env) (names : Nat → Text) (s : St) (a : Step) (hc : s.catching = false) (hs : s.stopped = false)
    (ha : Fine E names a) : ∃ s', step E s a = some s' ∧ Does E names s a s' := by
  obtain ⟨hx, ha⟩ := ha
  cases a with
  | thrown x =>
    have h := hx x (by simp [exns])
    refine ⟨_, throw_outside hc h, hc, by simpa [wrong] using hs, by simp [wrong], rfl, rfl, ?_⟩
    refine ⟨_, rfl, ?_, ?_⟩
    · cases E.asWarning <;> rfl
    · intro T hT
      cases E.asWarning with
      | false => rfl
      | true =>
        show (List.flatten [printException T _ none _]).map text = _
        rw [List.flatten_cons, List.flatten_nil, List.append_nil, text_exception T _ none _ hT (by simp) h.2]
        rfl
  | other l =>
    refine ⟨_, congrArg some (failing_some E _ s rfl hs), hc, by simp [wrong], by simp [wrong], by simp [warns], rfl, [.other l], rfl, rfl, ?_⟩
    intro T _
    simp [print, told]
  | block e place x =>
    show ∃ s', block E e place x s = some s' ∧ _
    cases x with
    | none =>
      cases e with
      | nothrow =>
        refine ⟨_, rfl, rfl, hs, by simp [wrong, runnerFailing], by simp [warns, runnerFailing], rfl, [], ?_, rfl, ?_⟩
        · exact (List.append_nil _).symm
        · intro T _; rfl
      | type t says =>
        obtain ⟨hp, hn, he⟩ := ha
        have het : E.exc t = false := by
          cases h : E.exc t with
          | false => rfl
          | true =>
            obtain ⟨y, hy, _⟩ := he h
            cases hy
        have : block E (.type t says) place none s = some (runnerFailing E (some (.normal (["expect exception ".toList] ++
            brush [names t] "green".toList ++ [" thrown but not".toList]) (some place))) { s with catching := false, thrown := none }) := by
          unfold block check
          simp only [het, Bool.false_eq_true, if_false, demangle_named hn, Option.map_some]
        refine ⟨_, this.trans (congrArg some (failing_some E _ _ rfl hs)), rfl, by simp [wrong], by simp [wrong], by simp [warns], rfl, _, rfl, rfl, ?_⟩
        intro T _
        show [text (H2.Message.printNormal _ 0)] = _
        rw [H2.MockText.text_normal _ _ (by intro p h; simp only [Option.some.injEq] at h; rw [← h]; exact hp)]
        show [_ ++ _ ++ text _ ++ _] = _
        rw [text_expected hn _ _ (by unfold Plain; decide) (by unfold Plain; decide)]
        simp [told, H2.MockText.Spec.at_]
    | some x =>
      have h := hx x (by simp [exns])
      have hb : ∀ f, check E e place { s with catching := true, thrown := some x, lastBt := x.frames, lastType := names x.ty } = some f →
          block E e place (some x) s = some (runnerFailing E f
            { s with catching := false, thrown := none, lastBt := x.frames, lastType := names x.ty }) := by
        intro f hf
        unfold block
        simp only []
        rw [throw_inside rfl h]
        simp only []
        rw [hf]
      cases e with
      | nothrow =>
        refine ⟨_, (hb _ rfl).trans (congrArg some (failing_some E _ _ rfl hs)), rfl, by simp [wrong], by simp [wrong], by simp [warns], rfl, _, rfl, rfl, ?_⟩
        intro T hT
        show (List.flatten [printException T _ _ _]).map text = _
        rw [List.flatten_cons, List.flatten_nil, List.append_nil,
          text_exception T _ _ _ hT (by intro p hp; simp only [Option.some.injEq] at hp; rw [← hp]; exact ha) h.2]
        rfl
      | type t says =>
        obtain ⟨hp, hn, he⟩ := ha
        have hp' : ∀ p, some place = some p → Plain p := by intro p hp'; simp only [Option.some.injEq] at hp'; rw [← hp']; exact hp
        by_cases ht : t = x.ty
        · cases says with
          | none =>
            have hk : check E (.type t none) place { s with catching := true, thrown := some x, lastBt := x.frames, lastType := names x.ty } = some none := by
              unfold check
              simp [ht]
            refine ⟨_, hb _ hk, rfl, by simpa [wrong, ht, runnerFailing] using hs,
              by simp [wrong, ht, runnerFailing], by simp [warns, runnerFailing], rfl, [], ?_, ?_, ?_⟩
            · exact (List.append_nil _).symm
            · simp [noted, wrong, ht]
            · intro T _; simp [told, ht]
          | some l =>
            have hk : check E (.type t (some l)) place { s with catching := true, thrown := some x, lastBt := x.frames, lastType := names x.ty } =
                some (some (.mismatch l place x.frames)) := by
              unfold check
              simp [ht]
            refine ⟨_, (hb _ hk).trans (congrArg some (failing_some E _ _ rfl hs)), rfl, by simp [wrong, ht],
              by simp [wrong, ht], by simp [warns], rfl, _, rfl, ?_, ?_⟩
            · simp [noted, wrong, ht]
            · intro T hT
              show (List.flatten [l ++ printException T _ _ _]).map text = _
              rw [List.flatten_cons, List.flatten_nil, List.append_nil, List.map_append, text_exception T _ _ _ hT hp' h.2]
              simp only [told, ht, ne_eq, not_true_eq_false, if_false]
              rfl
        · have hg : (E.exc t && !E.exc x.ty) = false := by
            cases h1 : E.exc t with
            | false => rfl
            | true =>
              obtain ⟨y, hy, h2⟩ := he h1
              cases hy
              rcases h2 with h2 | h2
              · exact absurd h2 ht
              · simp [h2]
          have hk : check E (.type t says) place { s with catching := true, thrown := some x, lastBt := x.frames, lastType := names x.ty } =
              some (some (.exception (["was thrown but expect type is ".toList] ++ brush [names t] "green".toList) false (some place) x.frames)) := by
            unfold check
            simp only [ne_eq, ht, not_false_eq_true, if_true, hg, Bool.false_eq_true, if_false, demangle_named hn, Option.map_some]
          refine ⟨_, (hb _ hk).trans (congrArg some (failing_some E _ _ rfl hs)), rfl, by simp [wrong, ht],
              by simp [wrong, ht], by simp [warns], rfl, _, rfl, ?_, ?_⟩
          · simp [noted, wrong, ht]
          · intro T hT
            show (List.flatten [printException T _ _ _]).map text = _
            rw [List.flatten_cons, List.flatten_nil, List.append_nil, text_exception T _ _ _ hT hp' h.2]
            rw [text_append, text_brush, text_word _ hn.2.2.2, text_word _ (by decide)]
            simp only [told, ne_eq, ht, not_false_eq_true, if_true]

/-- The exceptions of the steps that are run. -/
def exnsRan (onward : Bool) (as : List Step) : List Exn := ((ran onward as).map exns).flatten

theorem steps_do (E : Env) (names : Nat → Text) (as : List Step) : ∀ (s : St), s.catching = false → s.stopped = false →
    (∀ a ∈ as, Fine E names a) → ∃ s', steps E s as = some s' ∧
      (s'.failed = (s.failed || (ran E.continueAssert as).any wrong) ∧
        s'.warned = (s.warned || (ran E.continueAssert as).any (warns E.asWarning))) ∧ s'.catching = false ∧ s'.stopped = !throughout E.continueAssert as ∧
      s'.lastType = ((exnsRan E.continueAssert as).getLast?.map fun x => names x.ty).getD s.lastType ∧
      ∃ fs, s'.fails = s.fails ++ fs ∧ fs.isEmpty = !(ran E.continueAssert as).any (noted E.asWarning) ∧
        ∀ T, Plain T → (fs.map (print T)).flatten.map text = ((ran E.continueAssert as).map (told E.asWarning names (fun _ => T))).flatten := by
  induction as with
  | nil =>
    intro s hc hs _
    exact ⟨s, rfl, ⟨by simp [ran], by simp [ran]⟩, hc, by simp [throughout, hs], rfl, [], (List.append_nil _).symm, rfl, fun _ _ => rfl⟩
  | cons a as ih =>
    intro s hc hs ha
    obtain ⟨s1, h1, d⟩ := step_does E names s a hc hs (ha a (by simp))
    obtain ⟨fs, hf1, hf2, hf3⟩ := d.fails
    unfold steps
    rw [h1]
    simp only []
    cases hw : (wrong a && !E.continueAssert) with
    | true =>
      rw [d.stopped, hw, if_pos rfl]
      have hr : ran E.continueAssert (a :: as) = [a] := by rw [ran, if_pos hw]
      have hw' : wrong a = true ∧ E.continueAssert = false := by simpa using hw
      refine ⟨s1, rfl, ⟨by rw [d.failed, hr]; simp, by rw [d.warned, hr]; simp⟩, d.catching, ?_, ?_, fs, hf1, ?_, ?_⟩
      · rw [d.stopped, hw]; simp [throughout, hw'.1, hw'.2]
      · rw [d.lastType, exnsRan, hr]; simp
      · rw [hf2, hr]; simp
      · intro T hT; rw [hf3 T hT, hr]; simp
    | false =>
      rw [d.stopped, hw, if_neg (by simp)]
      have hr : ran E.continueAssert (a :: as) = a :: ran E.continueAssert as := by rw [ran, if_neg (by rw [hw]; simp)]
      obtain ⟨s2, g1, ⟨g5, g6⟩, g2, g3, g4, fs', k1, k2, k3⟩ := ih s1 d.catching (by rw [d.stopped, hw]) (fun b hb => ha b (by simp [hb]))
      refine ⟨s2, g1, ⟨by rw [g5, d.failed, hr]; simp [Bool.or_assoc], by rw [g6, d.warned, hr]; simp [Bool.or_assoc]⟩, g2, ?_, ?_, fs ++ fs', ?_, ?_, ?_⟩
      · rw [g3]
        congr 1
        unfold throughout
        cases hK : E.continueAssert with
        | true => rfl
        | false =>
          have : wrong a = false := by simpa [hK] using hw
          simp [this]
      · rw [g4, d.lastType]
        have : exnsRan E.continueAssert (a :: as) = exns a ++ exnsRan E.continueAssert as := by simp [exnsRan, hr]
        rw [this, List.getLast?_append]
        cases (exnsRan E.continueAssert as).getLast? <;> simp
      · rw [k1, hf1, List.append_assoc]
      · rw [hr, List.any_cons, Bool.not_or, ← k2, ← hf2]
        cases fs <;> simp
      · intro T hT
        rw [List.map_append, List.flatten_append, List.map_append, hf3 T hT, k3 T hT, hr]
        simp

theorem ran_through {onward : Bool} {as : List Step} (h : throughout onward as = true) : ran onward as = as := by
  induction as with
  | nil => rfl
  | cons a as ih =>
    have h' : onward = true ∨ (wrong a = false ∧ ∀ b ∈ as, wrong b = false) := by
      simpa [throughout] using h
    rw [ran, if_neg (by rcases h' with h' | h' <;> simp [h']), ih ?_]
    rcases h' with h' | h'
    · simp [throughout, h']
    · unfold throughout
      rw [List.all_eq_true.mpr (fun b hb => by rw [h'.2 b hb]; rfl), Bool.or_true]

end H2.Thrown
