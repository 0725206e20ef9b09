import Verif.Catch.Spec
/-
C47: what `Catch` reports.
-/
namespace H2.Catch

variable {V : Type}

theorem exec_flat (exc : Ty → Bool) (body : Prog V) (hf : Flat body) (fails : List Fail) :
    exec exc body ⟨true, none, fails⟩ = (⟨true, firstThrow body, fails⟩, if (firstThrow body).isSome then .jumped else .normal) := by
  cases body with
  | done => rfl
  | throw t v h n => rfl
  | block e b n => exact absurd hf (by simp [Flat])

/-- The promise is one: it says what is reported. -/
theorem C47_promise_unique (e : Expect V) (x : Option (Ty × V)) (f g : Option Fail) (hf : Promise e x f) (hg : Promise e x g) : f = g := by
  cases hf <;> cases hg <;> simp_all
theorem C47_promise_total (e : Expect V) (x : Option (Ty × V)) : ∃ f, Promise e x f := by
  cases e with
  | nothrow => cases x with
    | none => exact ⟨_, .quiet⟩
    | some x => exact ⟨_, .unexpected x⟩
  | type t m => cases x with
    | none => exact ⟨_, .missing t m⟩
    | some x =>
      obtain ⟨t', v⟩ := x
      by_cases h : t' = t
      · subst h
        cases hm : m v with
        | true => exact ⟨_, .content t' m v hm⟩
        | false => exact ⟨_, .mismatch t' m v hm⟩
      · exact ⟨_, .wrongType t t' m v h⟩

/-- `what()` is called on the object thrown, as if it were of the type expected: there has to be one that can answer. -/
def Answers (exc : Ty → Bool) : Expect V → Option (Ty × V) → Prop
  | .nothrow, _ => True
  | .type t _, none => exc t = false
  | .type t _, some (t', _) => exc t = true → exc t' = true

theorem check_promise (exc : Ty → Bool) (e : Expect V) (x : Option (Ty × V)) (h : Answers exc e x) (f : Option Fail) (hp : Promise e x f) :
    check exc e x = match f with | none => .pass | some f => .fail f := by
  cases hp with
  | quiet => rfl
  | unexpected x => rfl
  | missing t m =>
    have : exc t = false := h
    simp [check, this]
  | wrongType t t' m v hne =>
    have ha : exc t = true → exc t' = true := h
    have : (exc t && !exc t') = false := by
      cases h1 : exc t with
      | false => rfl
      | true => simp [ha h1]
    simp [check, this, Ne.symm hne]
  | mismatch t m v hm => simp [check, hm]
  | content t m v hm => simp [check, hm]

/-- **C47**: a `Catch` reports exactly what it promises about the first exception thrown in its block, and what follows goes on, outside
of it.  Missing: types derived from `std::exception` when nothing, or something else than such an exception, is thrown
(`C47_undefined`); blocks inside of blocks. -/
theorem C47_catch_partial (exc : Ty → Bool) (e : Expect V) (body next : Prog V) (s : St V) (hf : Flat body) (ha : Answers exc e (firstThrow body)) :
    ∃ f, Promise e (firstThrow body) f ∧
      exec exc (.block e body next) s = exec exc next ⟨false, none, s.fails ++ f.toList⟩ := by
  obtain ⟨f, hp⟩ := C47_promise_total e (firstThrow body)
  refine ⟨f, hp, ?_⟩
  have hc := check_promise exc e _ ha f hp
  have hx := exec_flat exc body hf s.fails
  rw [exec, hx]
  have : ∀ r : End, (r = .normal ∨ r = .jumped) →
      (match ((⟨true, firstThrow body, s.fails⟩ : St V), r) with
        | (s, .escaped) => (s, .escaped)
        | (s, .undefined) => (s, .undefined)
        | (s, _) =>
          match check exc e s.thrown with
          | .undefined => (s, .undefined)
          | .pass => exec exc next { s with thrown := none, catching := false }
          | .fail f => exec exc next { s with thrown := none, catching := false, fails := s.fails ++ [f] }) =
      exec exc next ⟨false, none, s.fails ++ f.toList⟩ := by
    rintro r (rfl | rfl)
    · simp only [hc]
      cases f <;> simp
    · simp only [hc]
      cases f <;> simp
  apply this
  split
  · exact .inr rfl
  · exact .inl rfl

/-- `Catch()` fails exactly when something is thrown in the block (even if it would be handled there). -/
theorem C47_nothrow (exc : Ty → Bool) (body : Prog V) (hf : Flat body) :
    (exec exc (.block .nothrow body .done) {}).2 = .normal ∧
    ((exec exc (.block .nothrow body .done) {}).1.fails ≠ [] ↔ (firstThrow body).isSome) := by
  obtain ⟨f, hp, e⟩ := C47_catch_partial exc .nothrow body .done {} hf trivial
  rw [e]
  refine ⟨rfl, ?_⟩
  simp only [exec]
  generalize firstThrow body = x at hp
  cases hp <;> simp

/-- `Catch(T)` for a type not derived from `std::exception` fails exactly when nothing or another type is thrown, `Catch(T, m)` also when
the value does not match. -/
theorem C47_type_partial (exc : Ty → Bool) (t : Ty) (m : V → Bool) (body : Prog V) (hf : Flat body) (ht : exc t = false) :
    (exec exc (.block (.type t m) body .done) {}).2 = .normal ∧
    ((exec exc (.block (.type t m) body .done) {}).1.fails = [] ↔ ∃ v, firstThrow body = some (t, v) ∧ m v = true) := by
  have ha : Answers exc (.type t m) (firstThrow body) := by
    cases h : firstThrow body with
    | none => exact ht
    | some x => exact fun h => absurd h (by simp [ht])
  obtain ⟨f, hp, e⟩ := C47_catch_partial exc (.type t m) body .done {} hf ha
  rw [e]
  refine ⟨rfl, ?_⟩
  simp only [exec]
  generalize firstThrow body = x at hp
  cases hp <;> simp_all

/-- The full statement is false: `Catch(T)` with a class derived from `std::exception` calls `what()` on nothing when nothing is
thrown, and on an object that is none when something else is. -/
theorem C47_undefined (exc : Ty → Bool) (t : Ty) (m : V → Bool) (body next : Prog V) (s : St V) (hf : Flat body) (ht : exc t = true)
    (h : ∀ t' v, firstThrow body = some (t', v) → exc t' = false) : (exec exc (.block (.type t m) body next) s).2 = .undefined := by
  have hx := exec_flat exc body hf s.fails
  rw [exec, hx]
  cases hb : firstThrow body with
  | none => simp [check, ht]
  | some x =>
    obtain ⟨t', v⟩ := x
    have h1 := h t' v hb
    have h2 : t ≠ t' := by rintro rfl; rw [ht] at h1; simp at h1
    simp [check, ht, h1, h2]

/-- After a `Catch`, exceptions are the program's own again: one without a handler escapes, after one with a handler the program goes on. -/
theorem C47_after (exc : Ty → Bool) (e : Expect V) (body next : Prog V) (s : St V) (hf : Flat body) (ha : Answers exc e (firstThrow body))
    (t : Ty) (v : V) :
    (exec exc (.block e body (.throw t v false next)) s).2 = .escaped ∧
    ∃ fails, exec exc (.block e body (.throw t v true next)) s = exec exc next ⟨false, some (t, v), fails⟩ := by
  constructor
  · obtain ⟨f, -, e⟩ := C47_catch_partial exc e body (.throw t v false next) s hf ha
    rw [e]; rfl
  · obtain ⟨f, -, e⟩ := C47_catch_partial exc e body (.throw t v true next) s hf ha
    exact ⟨_, by rw [e]; rfl⟩

/-- A `Catch` inside of another ends the outer one: an exception thrown after it escapes, and the outer one reports nothing. -/
theorem C47_nested (exc : Ty → Bool) (outer inner : Expect V) (body rest next : Prog V) (s : St V) (hf : Flat body)
    (ha : Answers exc inner (firstThrow body)) (t : Ty) (v : V) :
    ∃ f, Promise inner (firstThrow body) f ∧
      exec exc (.block outer (.block inner body (.throw t v false rest)) next) s = (⟨false, some (t, v), s.fails ++ f.toList⟩, .escaped) := by
  obtain ⟨f, hp, e⟩ := C47_catch_partial exc inner body (.throw t v false rest) { s with catching := true, thrown := none } hf ha
  refine ⟨f, hp, ?_⟩
  rw [exec, e]; rfl

def ints : Ty → Bool := fun t => t == 9
/-- 1 is `int`, 2 `const char*`, 9 `std::runtime_error`. -/
example : (exec ints (.block (.type 1 (· == (7 : Nat))) (.throw 1 7 false .done) .done) {}).1.fails = [] ∧
    (exec ints (.block (.type 1 (· == (7 : Nat))) (.throw 1 8 false .done) .done) {}).1.fails = [.mismatch] ∧
    (exec ints (.block (.type 1 (· == (7 : Nat))) (.throw 2 7 false .done) .done) {}).1.fails = [.wrongType] ∧
    (exec ints (.block (.type 1 (· == (7 : Nat))) .done .done) {}).1.fails = [.missing] ∧
    (exec ints (.block .nothrow (.throw 2 7 true .done) .done) {} : St Nat × End).1.fails = [.unexpected] ∧
    (exec ints (.block (.type 9 (· == (7 : Nat))) (.throw 9 7 false .done) .done) {}).1.fails = [] ∧
    (exec ints (.block (.type 9 (· == (7 : Nat))) .done .done) {}).2 = .undefined := by
  refine ⟨rfl, rfl, rfl, rfl, rfl, rfl, rfl⟩
/-- After an inner `Catch` the outer one catches nothing more: the exception escapes. -/
example : (exec ints (.block (.type 1 (fun _ => true)) (.block .nothrow .done (.throw 1 (7 : Nat) false .done)) .done) {}).2 = .escaped := rfl

end H2.Catch
