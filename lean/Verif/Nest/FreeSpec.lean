import Verif.Nest.Spec
/-
The reference of `Verif.Nest.Spec` for programs in which functions, fakes and reactions may mock and stub as well: the plan changes as
the program runs.  Nothing is said (`none`) of programs that mock or stub a function while its own mock is at work, or that use one place
of the source for two functions.
-/
namespace H2.Nest.Spec
open H2.Nest (Act Event Exit Env Code)
open H2.Mock (Mocker)

variable {V : Type}

/-- The mocks by place, what happened, and what stands for each function. -/
structure World (V : Type) where
  mocks : Nat → Option (Nat × Mocker V Nat)
  log : List (Event V)
  plan : Nat → Code

/-- One more thing happened. -/
def World.saw (w : World V) (e : Event V) : World V := { w with log := w.log ++ [e] }

mutual
/-- What a program does while the mocks of `inside` are at work. -/
def doAll (env : Env V) : Nat → (Nat → Bool) → List (Act V) → World V → Option (World V × Exit)
  | 0, _, _, _ => none
  | _ + 1, _, [], w => some (w, .done)
  | n + 1, inside, a :: as, w => (doOne env n inside a w).bind fun x => if x.2 = .jump then some x else doAll env n inside as x.1
def doOne (env : Env V) : Nat → (Nat → Bool) → Act V → World V → Option (World V × Exit)
  | 0, _, _, _ => none
  | n + 1, inside, .call f args, w => doCall env n inside f args w
  | _ + 1, _, .check true, w => some (w, .done)
  | _ + 1, _, .check false, w => some (w.saw .failed, if env.cont then .done else .jump)
  | _ + 1, inside, .mock p f m, w =>
    if inside f = true ∨ (w.mocks p).any (fun t => t.1 != f) = true then none
    else some (⟨fun q => if q = p then some (f, m) else w.mocks q, w.log, plans w.plan f (.mock p)⟩, .done)
  | _ + 1, inside, .stub f k, w => if inside f then none else some ({ w with plan := plans w.plan f (.fake k) }, .done)
  | _ + 1, inside, .unstub f, w => if inside f then none else some ({ w with plan := plans w.plan f .own }, .done)
/-- A call of `f`. -/
def doCall (env : Env V) : Nat → (Nat → Bool) → Nat → List V → World V → Option (World V × Exit)
  | 0, _, _, _, _ => none
  | n + 1, inside, f, args, w =>
    if inside f then doAll env n inside (env.body f args) (w.saw (.own f args))
    else match w.plan f with
      | .own => doAll env n inside (env.body f args) (w.saw (.own f args))
      | .fake k => doAll env n inside (env.fake k args) (w.saw (.fake k args))
      | .mock p => doMock env n inside f p args w
/-- A call of `f` reaches its mock, written at `p`. -/
def doMock (env : Env V) : Nat → (Nat → Bool) → Nat → Nat → List V → World V → Option (World V × Exit)
  | 0, _, _, _, _, _ => none
  | n + 1, inside, f, p, args, w =>
    (w.mocks p).bind fun t => (t.2.call args).bind fun q =>
      let noted := if Unexpected q.2 then w.saw (.wrong p args) else w
      if Unexpected q.2 ∧ env.cont = false then some (noted, .jump)
      else
        let kept := { noted with mocks := fun x => if x = p then some (f, q.1) else w.mocks x }
        match q.1.reply q.2 with
        | .original => doCall env n (also inside f) f args kept
        | .routine k => doAll env n (also inside f) (env.fake k args) (kept.saw (.fake k args))
end

/-- A case begins. -/
def World.empty : World V := ⟨fun _ => none, [], fun _ => .own⟩

/-- A test: no mock is at work at its beginning. -/
def whole (env : Env V) (n : Nat) (as : List (Act V)) : Option (World V × Exit) := doAll env n (fun _ => false) as World.empty

end H2.Nest.Spec
