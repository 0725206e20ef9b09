import Verif.Nest.Lemmas
/-! C90: mocks step aside while they work, and come back. -/
namespace H2.Nest
open H2.Mock (Mocker Outcome)
open Spec

variable {V : Type}

/-! A program to look at: function 0 calls itself until its argument is 0; function 1 calls function 0; fake 7 calls
function 0, and fails on argument 9; fake 8 stubs function 0. -/
namespace Demo

def env (cont : Bool) : Env Nat where
  body f args := match f, args with
    | 0, [n + 1] => [.call 0 [n]]
    | 1, args => [.call 0 args]
    | _, _ => []
  fake k args := match k, args with
    | 7, [9] => [.check false]
    | 7, args => [.call 0 args, .call 1 args]
    | 8, _ => [.stub 0 3]
    | _, _ => []
  cont := cont

/-- `.Any().Return(…)` with the reaction `k`. -/
def any (k : Nat) : Mocker Nat Nat := (({} : Mocker Nat Nat).expect .any (fun _ _ => true)).returns (some k)
/-- `.Once()` -/
def once : Mocker Nat Nat := ({} : Mocker Nat Nat).expect .once (fun _ _ => true)

/-- The same program without the fake that stubs. -/
def plain (cont : Bool) : Env Nat := { env cont with fake := fun k args => if k = 8 then [] else (env cont).fake k args }

theorem plain_ok (cont : Bool) : PlainEnv (plain cont) := by
  intro k args
  constructor
  · intro a ha
    simp only [plain, env] at ha
    split at ha <;> simp at ha <;> exact Or.inl ⟨_, _, ha⟩
  · intro a ha
    simp only [plain, env] at ha
    split at ha
    · simp at ha
    · rename_i hk
      split at ha <;> simp at ha
      · exact Or.inr ⟨_, ha⟩
      · rcases ha with ha | ha <;> exact Or.inl ⟨_, _, ha⟩
      · exact absurd rfl hk

end Demo

/-- **C90 (inside and outside).**  While a mock works, calls of its function, however they come about, reach the
function; all others reach the latest mock or stub.  What runs, what is counted and what is reported is what the
reference says, which patches nothing.  Partial: code that mocks or stubs from within functions or reactions, and
places of the source that mock two functions, are left out; see `C90_stub_inside_false`, `C90_two_false`. -/
theorem C90_scope_partial (env : Env V) (he : PlainEnv env) (as : List (Act V)) (ho : OneEach as) (n : Nat) :
    (run env n as start).map (fun x => ((⟨x.1.mockers, x.1.log⟩ : Rec V), x.2))
      = (test env n as (fun _ => .own) Rec.empty).map (fun y => (y.1.1, y.2)) :=
  (test_agree env he n as _ _ start_inv (start_compat as) ho).1

/-- A reaction calls the function and another that calls it: both reach the function; the next call of the test
reaches the mock. -/
example : (run (Demo.plain false) 40 [.mock 5 0 (Demo.any 7), .call 0 [2], .call 1 [0]] start).map (fun x => (x.1.log, x.2))
    = some ([.fake 7 [2], .own 0 [2], .own 0 [1], .own 0 [0], .own 1 [2], .own 0 [2], .own 0 [1], .own 0 [0],
             .own 1 [0], .fake 7 [0], .own 0 [0], .own 1 [0], .own 0 [0]], .done) := by decide +kernel
example : PlainEnv (Demo.plain false) ∧ OneEach [Act.mock 5 0 (Demo.any 7), .call 0 [2], .call 1 [0]] :=
  ⟨Demo.plain_ok _, by intro p f m g m' h1 h2; simp at h1 h2; exact h1.2.1.trans h2.2.1.symm⟩

/-- **C90 (put back).**  After a test that was not left by a failure, each function is what the latest `MOCK`, `STUB` or
`UNSTUB` of it said, whatever ran in between. -/
theorem C90_latest_partial (env : Env V) (he : PlainEnv env) (as : List (Act V)) (ho : OneEach as) (n : Nat) (s : St V)
    (h : run env n as start = some (s, .done)) : s.code = latest (fun _ => .own) as := by
  obtain ⟨h1, h2⟩ := test_agree env he n as _ start start_inv (start_compat as) ho
  cases hy : test env n as (fun _ => Code.own) (view start) with
  | none => rw [h, hy] at h1; cases h1
  | some y =>
    obtain ⟨_, k, _⟩ := h2 _ y h hy
    obtain ⟨a, b, _⟩ := k rfl
    rw [← a]; exact b.1

example : (run (Demo.plain false) 40 [.mock 5 0 (Demo.any 7), .call 0 [2], .stub 0 3, .unstub 0, .mock 6 0 Demo.once, .call 0 [0]]
    start).map (fun x => (x.1.code 0, x.1.code 1, x.2)) = some (.mock 6, .own, .done) := by decide +kernel

/-- **C90 (counted once).**  A call from the test is counted once, however often the reaction calls the function
again, by whatever way. -/
theorem C90_once_partial (env : Env V) (he : PlainEnv env) (as : List (Act V)) (ho : OneEach as) (n k : Nat) (s s' : St V)
    (f p : Nat) (args : List V) (h : run env n as start = some (s, .done)) (hf : latest (fun _ => .own) as f = .mock p)
    (hc : call env k f args s = some (s', .done)) :
    ∃ m q, s.mockers p = some (f, m) ∧ m.call args = some q ∧ s'.mockers p = some (f, q.1) := by
  obtain ⟨h1, h2⟩ := test_agree env he n as _ start start_inv (start_compat as) ho
  cases hy : test env n as (fun _ => Code.own) (view start) with
  | none => rw [h, hy] at h1; cases h1
  | some y =>
    obtain ⟨_, d, _⟩ := h2 _ y h hy
    obtain ⟨a, ⟨_, hi⟩, _⟩ := d rfl
    rw [a] at hi
    have g := ((simulate env (latest (fun _ => .own) as) he k).2.2.1 (fun _ => false) f args s hi).1
    rw [hc] at g
    have g := g.symm
    rw [Option.map_some] at g
    cases k with
    | zero => rw [called] at g; cases g
    | succ k =>
      rw [called, if_neg (by decide), hf] at g
      dsimp only at g
      cases k with
      | zero => rw [mocked] at g; cases g
      | succ k =>
        rw [mocked] at g
        have hmk : (view s).mocks p = s.mockers p := rfl
        rw [hmk] at g
        cases ht : s.mockers p with
        | none => rw [ht] at g; cases g
        | some t =>
          have hft : t.1 = f := hi.fn f p t hf ht
          have honly : ∀ g, latest (fun _ => .own) as g = .mock p → g = f := by
            intro g' hg'; rw [← hi.fn g' p t hg' ht, hft]
          rw [ht, Option.bind_some] at g
          cases hq : t.2.call args with
          | none => rw [hq] at g; cases g
          | some q =>
            rw [hq, Option.bind_some] at g
            dsimp only at g
            refine ⟨t.2, q, by rw [← hft], hq, ?_⟩
            split at g
            · injection g with g; injection g with _ g; cases g
            · have hin : also (fun _ => false) f f = true := by simp [also]
              obtain ⟨u1, _, u3, _⟩ := untouched env (latest (fun _ => .own) as) f p honly k
              cases hr : q.1.reply q.2 with
              | original =>
                rw [hr] at g
                have := u3 _ _ _ _ _ hin g
                simpa [view] using this
              | routine j =>
                rw [hr] at g
                have := u1 _ _ _ _ hin g
                simpa [view] using this

/-- One call of the test; the reaction makes six more that reach the function. -/
example : ((run (Demo.plain false) 40 [.mock 5 0 (Demo.any 7)] start).bind fun x =>
      (call (Demo.plain false) 40 0 [2] x.1).bind fun y => (y.1.mockers 5).map fun t =>
        (x.2, y.2, latest (fun _ => .own) [Act.mock 5 0 (Demo.any 7)] 0, t.2.exps.map (·.checkin.call), y.1.log.length))
    = some (.done, .done, .mock 5, [1], 8) := by decide +kernel

/-- **C90 (left by a failure).**  Each function is what was last said, or itself. -/
theorem C90_left_partial (env : Env V) (he : PlainEnv env) (as : List (Act V)) (ho : OneEach as) (n : Nat) (s : St V)
    (h : run env n as start = some (s, .jump)) :
    ∃ pre, pre <+: as ∧ ∀ f, s.code f = latest (fun _ => .own) pre f ∨ s.code f = .own := by
  obtain ⟨h1, h2⟩ := test_agree env he n as _ start start_inv (start_compat as) ho
  cases hy : test env n as (fun _ => Code.own) (view start) with
  | none => rw [h, hy] at h1; cases h1
  | some y =>
    obtain ⟨_, _, k⟩ := h2 _ y h hy
    obtain ⟨⟨pre, hp, hl⟩, hc⟩ := k rfl
    exact ⟨pre, hp, fun f => by rw [← hl]; exact hc f⟩

example : (run (Demo.plain false) 40 [.mock 5 0 (Demo.any 7), .mock 6 1 (Demo.any 7), .call 0 [9]] start).map
    (fun x => (x.1.code 0, x.1.code 1, x.2)) = some (.own, .mock 6, .jump) := by decide +kernel

/-- **C90 (every expectation is checked).**  When no place is come by twice, each `MOCK` of the test still has its
expectations at the end, and exactly those that were not met are reported for it. -/
theorem C90_checked_partial (env : Env V) (he : PlainEnv env) (as : List (Act V)) (ho : Once as) (n : Nat) (s : St V)
    (h : run env n as start = some (s, .done)) (p f : Nat) (m : Mocker V Nat) (hm : Act.mock p f m ∈ as)
    (hb : ∀ e ∈ m.exps, e.checkin.least ≤ e.checkin.most) :
    ∃ m', s.mockers p = some (f, m') ∧ asks m' = asks m
      ∧ ∀ i, Unmet m' i ↔ ∃ l, (p, l) ∈ finish s ∧ i ∈ l := by
  obtain ⟨h1, h2⟩ := test_agree env he n as _ start start_inv (start_compat as) (once_oneEach ho)
  cases hy : test env n as (fun _ => Code.own) (view start) with
  | none => rw [h, hy] at h1; cases h1
  | some y =>
    obtain ⟨_, k, _⟩ := h2 _ y h hy
    obtain ⟨m', a, b, c⟩ := (k rfl).2.2 ho p f m hm
    refine ⟨m', a, b, ?_⟩
    have hb' : ∀ e ∈ m'.exps, e.checkin.least ≤ e.checkin.most := by
      intro e he'
      have hin : (e.checkin.least, e.checkin.most, e.matchers, e.routine) ∈ asks m := by
        rw [← b]; exact List.mem_map.2 ⟨e, he', rfl⟩
      obtain ⟨e0, h0, heq⟩ := List.mem_map.1 hin
      injection heq with q1 q2; injection q2 with q2 _
      rw [← q1, ← q2]; exact hb e0 h0
    have hun : ∀ i, Unmet m' i ↔ i ∈ m'.check := by
      intro i
      rw [Mocker.check, mem_checkFrom]
      constructor
      · rintro ⟨e, h1, h2⟩
        refine ⟨i, e, by omega, h1, ?_⟩
        have := hb' e (List.mem_of_getElem? h1)
        simp only [H2.Mock.Checkin.checkFails, H2.Mock.Checkin.isSatisfied, H2.Mock.Checkin.isSaturated]
        simp
        omega
      · rintro ⟨j, e, h1, h2, h3⟩
        refine ⟨e, by rw [h1]; simpa using h2, ?_⟩
        simp only [H2.Mock.Checkin.checkFails, H2.Mock.Checkin.isSatisfied, H2.Mock.Checkin.isSaturated] at h3
        simp at h3
        omega
    intro i
    rw [hun]
    constructor
    · intro hi
      refine ⟨m'.check, ?_, hi⟩
      rw [finish, List.mem_filterMap]
      refine ⟨p, c, ?_⟩
      rw [show (s, Exit.done).1.mockers p = s.mockers p from rfl] at a
      rw [a]
      simp only [Option.bind_some]
      rw [if_neg]
      intro hnil; rw [hnil] at hi; cases hi
    · rintro ⟨l, hl, hi⟩
      rw [finish, List.mem_filterMap] at hl
      obtain ⟨p', _, hp'⟩ := hl
      cases hmp : s.mockers p' with
      | none => rw [hmp] at hp'; cases hp'
      | some t =>
        rw [hmp] at hp'
        simp only [Option.bind_some] at hp'
        split at hp'
        · cases hp'
        · injection hp' with hp'
          injection hp' with e1 e2
          subst e1
          rw [show (s, Exit.done).1.mockers p' = s.mockers p' from rfl, hmp] at a
          injection a with a; subst a
          rw [e2]; exact hi

/-- The first of two mocks of a function is reported: the call went to the second. -/
example : (run (Demo.plain false) 40 [.mock 5 0 Demo.once, .mock 6 0 Demo.once, .call 0 [1]] start).map
    (fun x => (finish x.1, x.2)) = some ([(5, [0])], .done) := by decide +kernel
example : Once [Act.mock 5 0 Demo.once, .mock 6 0 Demo.once, .call 0 [1]] := show [5, 6].Nodup by decide

/-! ### What does not hold -/

/-- **C90 (refuted: the same line twice).**  A `MOCK` in a loop or a helper drops what it was told before: `.Once()`
twice, one call, and nothing is reported. -/
theorem C90_twice_false :
    (run (Demo.plain false) 40 [.mock 5 0 Demo.once, .mock 5 0 Demo.once, .call 0 [0]] start).map (fun x => (finish x.1, x.2))
        = some ([], .done)
    ∧ (run (Demo.plain false) 40 [.mock 5 0 Demo.once, .mock 6 0 Demo.once, .call 0 [0]] start).map (fun x => (finish x.1, x.2))
        = some ([(5, [0])], .done) := by
  constructor <;> decide +kernel

/-- **C90 (refuted: one line for two functions).**  A helper that mocks the function it is given: a call of the first
function is counted for the second, and runs the second. -/
theorem C90_two_false :
    (run (Demo.plain false) 40 [.mock 5 2 Demo.once, .mock 5 3 Demo.once, .call 2 []] start).map
        (fun x => (finish x.1, x.1.log, x.2)) = some ([], [.own 3 []], .done) := by decide +kernel

/-- **C90 (refuted: a failure inside a reaction).**  Without `-c`, a failed assertion in a reaction leaves the function
unmocked: what runs afterwards, such as the cleanup, reaches the function. -/
theorem C90_failed_false :
    ((run (Demo.plain false) 40 [.mock 5 0 (Demo.any 7), .call 0 [9]] start).bind fun x =>
        (run (Demo.plain false) 40 [.call 0 [0]] x.1).map fun y => (x.2, y.1.log))
      = some (.jump, [.fake 7 [9], .failed, .own 0 [0]])
    ∧ ((run (Demo.plain true) 40 [.mock 5 0 (Demo.any 7), .call 0 [9]] start).bind fun x =>
        (run (Demo.plain true) 40 [.call 0 [3]] x.1).map fun y => (x.2, y.1.log.take 3))
      = some (.done, [.fake 7 [9], .failed, .fake 7 [3]]) := by
  constructor <;> decide +kernel

/-- **C90 (refuted: stubbing from a reaction).**  `STUB` of the function from its own reaction is undone at its end:
the next call reaches the mock again. -/
theorem C90_stub_inside_false :
    (run (Demo.env false) 40 [.mock 5 0 (Demo.any 8), .call 0 [0], .call 0 [0]] start).map (fun x => (x.1.log, x.2))
      = some ([.fake 8 [0], .fake 8 [0]], .done)
    ∧ (run (Demo.env false) 40 [.mock 5 0 (Demo.any 8), .call 0 [0], .stub 0 3, .call 0 [0]] start).map (fun x => (x.1.log, x.2))
      = some ([.fake 8 [0], .fake 3 [0]], .done) := by
  constructor <;> decide +kernel

end H2.Nest
