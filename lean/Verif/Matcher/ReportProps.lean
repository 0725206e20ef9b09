import Verif.Matcher.Props
/-
Property C54: the failure report of a list of matchers names exactly the members to blame, in
order.
-/
namespace H2.Matcher

/-- The failure recorded by `OK(m, a)`, if any. -/
def report (m : M) (a : Val) : Option Fail := stash false (matchesM m a {})

/-- Sequence number and children of a failure. -/
def Fail.seq : Fail → Option Nat
  | .mk s _ => s
def Fail.sub : Fail → List Fail
  | .mk _ cs => cs

/-- The positions `n` of a tuple whose matcher satisfies `p n m`, ascending, numbered from `i`. -/
def Ms.indices (p : Nat → M → Bool) : Ms → Nat → List Nat
  | .nil, _ => []
  | .cons m ms, i => if p i m then i :: ms.indices p (i + 1) else ms.indices p (i + 1)

theorem seq_withSeq (i : Nat) (f : Fail) : (f.withSeq i).seq = some i := by cases f; rfl

theorem allFails_seq (ms : Ms) (a : Val) (c : C) (i : Nat) :
    (allFails ms a c i).map Fail.seq = (ms.indices (fun _ m => (matchesM m a c).isSome) i).map some := by
  match ms with
  | .nil => rfl
  | .cons m ms =>
    simp only [allFails, Ms.indices, List.map_append, allFails_seq ms a c (i + 1)]
    obtain ⟨o, h⟩ : ∃ o, matchesM m a c = o := ⟨_, rfl⟩
    cases o <;> simp [seq_withSeq, h]

theorem noneFails_seq (ms : Ms) (a : Val) (c : C) (i : Nat) :
    (noneFails ms a c i).map Fail.seq = (ms.indices (fun _ m => (matchesM m a c).isNone) i).map some := by
  match ms with
  | .nil => rfl
  | .cons m ms =>
    simp only [noneFails, Ms.indices]
    obtain ⟨o, h⟩ : ∃ o, matchesM m a c = o := ⟨_, rfl⟩
    cases o <;> simp [noneFails_seq ms a c (i + 1), Fail.seq, h]

theorem listFails_seq (ms : Ms) (xs : List Val) (s : Int) (c : C) (i : Nat) :
    (listFails ms xs s c i).map Fail.seq =
      (ms.indices (fun n m => match pick (n + s) 0 xs with
        | none => true
        | some x => (matchesM m x c).isSome) i).map some := by
  match ms with
  | .nil => rfl
  | .cons m ms =>
    simp only [listFails, Ms.indices, List.map_append, listFails_seq ms xs s c (i + 1)]
    obtain ⟨o, h⟩ : ∃ o, pick (i + s) 0 xs = o := ⟨_, rfl⟩
    cases o with
    | none => simp [Fail.seq, h]
    | some x =>
      obtain ⟨o, h'⟩ : ∃ o, matchesM m x c = o := ⟨_, rfl⟩
      cases o <;> simp [seq_withSeq, h, h']

theorem okPasses_isNone (m : M) (a : Val) : okPasses m a = (matchesM m a {}).isNone := rfl

theorem conclude_sub (c : C) (ok : Bool) (fs : List Fail) (f : Fail) (h : conclude c ok fs = some f) : f.sub = fs := by
  unfold conclude at h
  split at h
  · simp at h
  · simp at h; subst h; rfl

/-- **C54.** When `OK(AllOf(m0, …), a)` fails, the report lists exactly the members that reject
`a`, by number, in order. -/
theorem C54_allOf (ms : Ms) (a : Val) (f : Fail) (h : report (.poly {} (.allOf ms)) a = some f) :
    f.sub.map Fail.seq = (ms.indices (fun _ m => !okPasses m a) 0).map some := by
  have h' : conclude (({} : Cfg).configure {}) _ (allFails ms a ((({} : Cfg).configure {}).setNegative false) 0) = some f := h
  rw [conclude_sub _ _ _ _ h', allFails_seq]
  have : ∀ m, (matchesM m a ((({} : Cfg).configure {}).setNegative false)).isSome = !okPasses m a := by
    intro m; rw [okPasses_isNone]
    have e : ((({} : Cfg).configure {}).setNegative false) = ({} : C) := by decide
    rw [e]; cases matchesM m a {} <;> rfl
  simp only [this]

/-- **C54.** When `OK(NoneOf(m0, …), a)` fails, the report lists exactly the members that accept
`a`. -/
theorem C54_noneOf (ms : Ms) (a : Val) (f : Fail) (h : report (.poly {} (.noneOf ms)) a = some f) :
    f.sub.map Fail.seq = (ms.indices (fun _ m => okPasses m a) 0).map some := by
  have h' : conclude (({} : Cfg).configure {}) _ (noneFails ms a ((({} : Cfg).configure {}).setNegative false) 0) = some f := h
  rw [conclude_sub _ _ _ _ h', noneFails_seq]
  have e : ((({} : Cfg).configure {}).setNegative false) = ({} : C) := by decide
  rw [e]; rfl

/-- **C54.** When `OK(ListOf(m0, …), xs)` fails, the report lists exactly the positions where the
container has no element or the element is rejected. -/
theorem C54_listOf (ms : Ms) (xs : List Val) (f : Fail) (h : report (.poly {} (.listOf {} ms)) (.seq xs) = some f) :
    f.sub.map Fail.seq = (ms.indices (fun n m => match xs[n]? with
      | none => true
      | some x => !okPasses m x) 0).map some := by
  have h' : conclude (({} : Cfg).configure {}) _
    (listFails ms xs (max (({} : Cfg).configure {}).rangeStart ({} : Rng).start)
      ((({} : Cfg).configure {}).clearSize.setNegative false) 0) = some f := h
  rw [conclude_sub _ _ _ _ h', listFails_seq]
  have e : ((({} : Cfg).configure {}).clearSize.setNegative false) = ({} : C) := by decide
  have es : max (({} : Cfg).configure {}).rangeStart ({} : Rng).start = 0 := by decide
  rw [e, es]
  have hp : ∀ n : Nat, pick ((n : Int) + 0) 0 xs = xs[n]? := by
    intro n
    have := pick_eq xs 0 (n : Int) (by omega)
    simpa using this
  congr 1
  congr 1
  funext n m
  rw [hp]
  cases xs[n]? with
  | none => rfl
  | some x => simp only [okPasses_isNone]; cases matchesM m x {} <;> rfl

/-- **C54.** When `OK(AnyOf(m0, …), a)` fails, the report lists every member. -/
theorem C54_anyOf (ms : Ms) (a : Val) (f : Fail) (h : report (.poly {} (.anyOf ms)) a = some f) :
    f.sub.map Fail.seq = (ms.indices (fun _ _ => true) 0).map some := by
  have h' : conclude (({} : Cfg).configure {}) (anyFails ms a ((({} : Cfg).configure {}).setNegative false) 0).1
    (anyFails ms a ((({} : Cfg).configure {}).setNegative false) 0).2 = some f := h
  rw [conclude_sub _ _ _ _ h']
  have hfalse : (anyFails ms a ((({} : Cfg).configure {}).setNegative false) 0).1 = false := by
    unfold conclude C.fit at h'
    split at h'
    · simp at h'
    · rename_i hh
      cases hb : (anyFails ms a ((({} : Cfg).configure {}).setNegative false) 0).1
      · rfl
      · rw [hb] at hh; exact absurd rfl hh
  generalize ((({} : Cfg).configure {}).setNegative false) = c at hfalse
  have key : ∀ (ms : Ms) (i : Nat), (anyFails ms a c i).1 = false →
      (anyFails ms a c i).2.map Fail.seq = (ms.indices (fun _ _ => true) i).map some := by
    intro ms
    induction ms using Ms.rec (motive_1 := fun _ => True) with
    | nil => intro i _; rfl
    | cons m ms _ ih =>
      intro i hh
      simp only [anyFails] at hh ⊢
      cases hm : matchesM m a c with
      | none => rw [hm] at hh; simp at hh
      | some g =>
        rw [hm] at hh
        simp only at hh ⊢
        simp [Ms.indices, seq_withSeq, ih (i + 1) hh]
    | _ => trivial
  exact key ms 0 hfalse

example : (report (.poly {} (.allOf (.cons (eqNum 1) (.cons (gtNum 0) (.cons (gtNum 5) .nil))))) (.num 3)).map
    (fun f => f.sub.map Fail.seq) = some [some 0, some 2] := by decide

end H2.Matcher
