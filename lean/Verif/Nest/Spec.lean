import Verif.Nest.Model
/-
What a test with mocks should do, without patching code: `plan` says what stands for each function, and
`inside` which functions have a mock at work.  A call of such a function reaches the function itself; any other
call reaches what the plan says.  Nothing has to be put back, as `inside` is only handed down.
-/
namespace H2.Nest.Spec
open H2.Nest (Act Event Exit Env Code)
open H2.Mock (Mocker)

variable {V : Type}

/-- What a test leaves behind: the mocks by place, with the function each is for, and what happened. -/
structure Rec (V : Type) where
  mocks : Nat → Option (Nat × Mocker V Nat)
  log : List (Event V)

/-- Is the answer to a call that it was not expected, or not with these arguments? -/
def Unexpected (o : H2.Mock.Outcome) : Prop := o.wrong ≠ [] ∨ o.charged = none

instance (o : H2.Mock.Outcome) : Decidable (Unexpected o) :=
  inferInstanceAs (Decidable (_ ∨ _))

/-- `inside` and one more. -/
def also (inside : Nat → Bool) (f : Nat) : Nat → Bool := fun g => g == f || inside g

mutual
/-- What calls and assertions do while the mocks of `inside` are at work. -/
def steps (env : Env V) (plan : Nat → Code) : Nat → (Nat → Bool) → List (Act V) → Rec V → Option (Rec V × Exit)
  | 0, _, _, _ => none
  | _ + 1, _, [], r => some (r, .done)
  | n + 1, inside, a :: as, r =>
    (step env plan n inside a r).bind fun x => if x.2 = .jump then some x else steps env plan n inside as x.1
def step (env : Env V) (plan : Nat → Code) : Nat → (Nat → Bool) → Act V → Rec V → Option (Rec V × Exit)
  | 0, _, _, _ => none
  | n + 1, inside, .call f args, r => called env plan n inside f args r
  | _ + 1, _, .check true, r => some (r, .done)
  | _ + 1, _, .check false, r => some (⟨r.mocks, r.log ++ [.failed]⟩, if env.cont then .done else .jump)
  | _ + 1, _, _, _ => none
/-- A call of `f`. -/
def called (env : Env V) (plan : Nat → Code) : Nat → (Nat → Bool) → Nat → List V → Rec V → Option (Rec V × Exit)
  | 0, _, _, _, _ => none
  | n + 1, inside, f, args, r =>
    if inside f then steps env plan n inside (env.body f args) ⟨r.mocks, r.log ++ [.own f args]⟩
    else match plan f with
      | .own => steps env plan n inside (env.body f args) ⟨r.mocks, r.log ++ [.own f args]⟩
      | .fake k => steps env plan n inside (env.fake k args) ⟨r.mocks, r.log ++ [.fake k args]⟩
      | .mock p => mocked env plan n inside f p args r
/-- A call of `f` reaches its mock, written at `p`: the call is charged once; the reaction, or `f` itself, runs
inside it. -/
def mocked (env : Env V) (plan : Nat → Code) : Nat → (Nat → Bool) → Nat → Nat → List V → Rec V → Option (Rec V × Exit)
  | 0, _, _, _, _, _ => none
  | n + 1, inside, f, p, args, r =>
    (r.mocks p).bind fun t => (t.2.call args).bind fun q =>
      let noted : List (Event V) := if Unexpected q.2 then r.log ++ [.wrong p args] else r.log
      if Unexpected q.2 ∧ env.cont = false then some (⟨r.mocks, noted⟩, .jump)
      else
        let kept := fun x => if x = p then some (f, q.1) else r.mocks x
        match q.1.reply q.2 with
        | .original => called env plan n (also inside f) f args ⟨kept, noted⟩
        | .routine k => steps env plan n (also inside f) (env.fake k args) ⟨kept, noted ++ [.fake k args]⟩
end

/-- A plan with something else for `f`. -/
def plans (plan : Nat → Code) (f : Nat) (c : Code) : Nat → Code := fun g => if g = f then c else plan g

mutual
/-- A test: the latest `MOCK`, `STUB` or `UNSTUB` of a function decides what stands for it. -/
def test (env : Env V) : Nat → List (Act V) → (Nat → Code) → Rec V → Option ((Rec V × (Nat → Code)) × Exit)
  | 0, _, _, _ => none
  | _ + 1, [], plan, r => some ((r, plan), .done)
  | n + 1, a :: as, plan, r =>
    (deed env n a plan r).bind fun x => if x.2 = .jump then some x else test env n as x.1.2 x.1.1
def deed (env : Env V) : Nat → Act V → (Nat → Code) → Rec V → Option ((Rec V × (Nat → Code)) × Exit)
  | 0, _, _, _ => none
  | _ + 1, .mock p f m, plan, r =>
    some ((⟨fun q => if q = p then some (f, m) else r.mocks q, r.log⟩, plans plan f (.mock p)), .done)
  | _ + 1, .stub f k, plan, r => some ((r, plans plan f (.fake k)), .done)
  | _ + 1, .unstub f, plan, r => some ((r, plans plan f .own), .done)
  | n + 1, a, plan, r => (step env plan (n + 1) (fun _ => false) a r).map fun x => ((x.1, plan), x.2)
end

/-- Nothing happened yet, nothing stands for another. -/
def Rec.empty : Rec V := ⟨fun _ => none, []⟩

/-- Code that calls and asserts, but neither mocks nor stubs. -/
def Plain (as : List (Act V)) : Prop := ∀ a ∈ as, (∃ f args, a = .call f args) ∨ ∃ b, a = .check b

/-- Functions and reactions are such code. -/
def PlainEnv (env : Env V) : Prop := ∀ k args, Plain (env.body k args) ∧ Plain (env.fake k args)

/-- Each place is for one function. -/
def OneEach (as : List (Act V)) : Prop := ∀ p f m g m', Act.mock p f m ∈ as → Act.mock p g m' ∈ as → f = g

/-- What stands for each function after a test: the latest decision. -/
def latest (plan : Nat → Code) : List (Act V) → Nat → Code
  | [] => plan
  | .mock p f _ :: as => latest (plans plan f (.mock p)) as
  | .stub f k :: as => latest (plans plan f (.fake k)) as
  | .unstub f :: as => latest (plans plan f .own) as
  | _ :: as => latest plan as

/-- The place a mock is written at. -/
def place : Act V → Option Nat
  | .mock p _ _ => some p
  | _ => none

/-- No place is come by twice. -/
def Once (as : List (Act V)) : Prop := (as.filterMap place).Nodup

/-- What the expectations of a mock ask for, whatever calls there have been. -/
def asks (m : Mocker V Nat) : List (Int × Int × (Nat → V → Bool) × Option Nat) :=
  m.exps.map fun e => (e.checkin.least, e.checkin.most, e.matchers, e.routine)

/-- The numbers of the expectations that were called too little or too often. -/
def Unmet (m : Mocker V Nat) (i : Nat) : Prop :=
  ∃ e, m.exps[i]? = some e ∧ ¬ (e.checkin.least ≤ e.checkin.call ∧ e.checkin.call ≤ e.checkin.most)

end H2.Nest.Spec
