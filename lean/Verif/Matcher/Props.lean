import Verif.Matcher.Lemmas
/-
Properties C01 (Boolean connectives), C02 (KO and negation), C03 (Every/Has),
C04 (ListOf), C05 (CountOf/MaxOf/MinOf/AvgOf).

Everything is stated with `okPasses m a` ("`OK(m, a)` passes") and `koPasses m a`
("`KO(m, a)` passes").
-/
namespace H2.Matcher

/-! ### Specification: propositional formulas over matchers -/

mutual
/-- Formulas a user builds from matchers (numbered atoms) with `Not`, `!`, `&&`, `||`,
`AllOf`, `AnyOf`, `NoneOf`, `Conditional`. -/
inductive F where
  | atom (i : Nat)
  | not (f : F)
  | bang (f : F)
  | and (f g : F)
  | or (f g : F)
  | allOf (fs : Fs)
  | anyOf (fs : Fs)
  | noneOf (fs : Fs)
  | cond (b : Bool) (f g : F)
inductive Fs where
  | nil
  | cons (f : F) (fs : Fs)
end

mutual
/-- Ordinary truth-table meaning of a formula. -/
def F.eval (v : Nat → Bool) : F → Bool
  | .atom i => v i
  | .not f => !f.eval v
  | .bang f => !f.eval v
  | .and f g => f.eval v && g.eval v
  | .or f g => f.eval v || g.eval v
  | .allOf fs => fs.all v
  | .anyOf fs => fs.any v
  | .noneOf fs => !fs.any v
  | .cond b f g => if b then f.eval v else g.eval v
def Fs.all (v : Nat → Bool) : Fs → Bool
  | .nil => true
  | .cons f fs => f.eval v && fs.all v
def Fs.any (v : Nat → Bool) : Fs → Bool
  | .nil => false
  | .cons f fs => f.eval v || fs.any v
end

/-- `!m` on a matcher object: flips the flag of the wrapper. -/
def M.bang : M → M
  | .poly g m => .poly g.bang m
  | m => .poly ({} : Cfg).bang m

mutual
/-- The matcher the user's expression builds; the factories wrap every node in a polymorphic
matcher. -/
def F.build (ρ : Nat → M) : F → M
  | .atom i => ρ i
  | .not f => .poly {} (.not (f.build ρ))
  | .bang f => (f.build ρ).bang
  | .and f g => .poly {} (.and (f.build ρ) (g.build ρ))
  | .or f g => .poly {} (.or (f.build ρ) (g.build ρ))
  | .allOf fs => .poly {} (.allOf (fs.build ρ))
  | .anyOf fs => .poly {} (.anyOf (fs.build ρ))
  | .noneOf fs => .poly {} (.noneOf (fs.build ρ))
  | .cond b f g => .poly {} (.cond b (f.build ρ) (g.build ρ))
def Fs.build (ρ : Nat → M) : Fs → Ms
  | .nil => .nil
  | .cons f fs => .cons (f.build ρ) (fs.build ρ)
end

/-- `m` can be applied to `a`: exactly one of `OK(m, a)` and `OK(Not(m), a)` passes. -/
def Decides (m : M) (a : Val) : Prop := okPasses m a ≠ okPasses (.not m) a

/-! ### Bridging lemmas -/

@[simp] theorem yes_some (b : Bool) : yes (some b) = b := by cases b <;> rfl

/-- Surroundings of a top-level assertion. -/
def topEnv : Env := { lo := 0, hi := 5413722, times := 1, caseless := false, squash := false }

theorem okPasses_verdict (m : M) (a : Val) (d : Int) : okPasses m a d = yes (verdict m topEnv a) := by
  unfold okPasses stash
  simp only [Bool.false_eq_true, if_false]
  exact isNone_iff (matches_verdict m a { dimension := d }) rfl

theorem under_default (e : Env) : e.under {} = e := by
  cases e; simp [Env.under]

theorem verdict_poly_default (m : M) (e : Env) (a : Val) : verdict (.poly {} m) e a = verdict m e a := by
  simp only [verdict, under_default]
  cases verdict m e a <;> simp

theorem under_bang (e : Env) (g : Cfg) : e.under g.bang = e.under g := rfl

theorem verdict_bang (m : M) (e : Env) (a : Val) : verdict m.bang e a = (verdict m e a).map (!·) := by
  have key : ∀ (g : Cfg) (m : M), verdict (.poly g.bang m) e a = (verdict (.poly g m) e a).map (!·) := by
    intro g m
    have hb : g.bang.negative = !g.negative := rfl
    simp only [verdict, under_bang, hb]
    cases verdict m (e.under g) a with
    | none => simp
    | some b => cases g.negative <;> simp
  cases m with
  | poly g m => exact key g m
  | _ =>
    rw [M.bang, key, verdict_poly_default]
    intro g m h; cases h

theorem decides_verdict {m : M} {a : Val} (h : Decides m a) : ∃ b, verdict m topEnv a = some b := by
  unfold Decides at h
  rw [okPasses_verdict, okPasses_verdict] at h
  simp only [verdict] at h
  cases hv : verdict m topEnv a with
  | none => rw [hv] at h; simp [yes] at h
  | some b => exact ⟨b, rfl⟩

mutual
theorem build_verdict (ρ : Nat → M) (a : Val) (h : ∀ i, Decides (ρ i) a) (f : F) :
    verdict (f.build ρ) topEnv a = some (f.eval (fun i => okPasses (ρ i) a)) := by
  cases f with
  | atom i =>
    obtain ⟨b, hb⟩ := decides_verdict (h i)
    simp only [F.build, F.eval, okPasses_verdict, hb]
    cases b <;> rfl
  | not f => simp [F.build, F.eval, verdict_poly_default, verdict, build_verdict ρ a h f]
  | bang f => simp [F.build, F.eval, verdict_bang, build_verdict ρ a h f]
  | and f g =>
    simp [F.build, F.eval, verdict_poly_default, verdict, build_verdict ρ a h f, build_verdict ρ a h g, yes]
  | or f g =>
    simp [F.build, F.eval, verdict_poly_default, verdict, build_verdict ρ a h f, build_verdict ρ a h g, yes]
  | allOf fs => simp [F.build, F.eval, verdict_poly_default, verdict, build_all ρ a h fs]
  | anyOf fs => simp [F.build, F.eval, verdict_poly_default, verdict, build_any ρ a h fs]
  | noneOf fs => simp [F.build, F.eval, verdict_poly_default, verdict, build_any ρ a h fs]
  | cond b f g =>
    cases b <;> simp [F.build, F.eval, verdict_poly_default, verdict, build_verdict ρ a h f, build_verdict ρ a h g]
theorem build_all (ρ : Nat → M) (a : Val) (h : ∀ i, Decides (ρ i) a) (fs : Fs) :
    allYes (fs.build ρ) topEnv a = fs.all (fun i => okPasses (ρ i) a) := by
  cases fs with
  | nil => rfl
  | cons f fs => simp [Fs.build, allYes, Fs.all, build_verdict ρ a h f, build_all ρ a h fs, yes]
theorem build_any (ρ : Nat → M) (a : Val) (h : ∀ i, Decides (ρ i) a) (fs : Fs) :
    anyYes (fs.build ρ) topEnv a = fs.any (fun i => okPasses (ρ i) a) := by
  cases fs with
  | nil => rfl
  | cons f fs => simp [Fs.build, anyYes, Fs.any, build_verdict ρ a h f, build_any ρ a h fs, yes]
end

/-! ### C01: Boolean connectives -/

/-- **C01.** For every formula of any depth over matchers that apply to the value, `OK` passes
exactly when the formula is true under the truth values of its atoms. -/
theorem C01_ok_formula (ρ : Nat → M) (a : Val) (h : ∀ i, Decides (ρ i) a) (f : F) :
    okPasses (f.build ρ) a = f.eval (fun i => okPasses (ρ i) a) := by
  rw [okPasses_verdict, build_verdict ρ a h f]
  cases f.eval _ <;> rfl

/-- The `n`-th matcher of a tuple. -/
def Ms.get? : Ms → Nat → Option M
  | .nil, _ => none
  | .cons m _, 0 => some m
  | .cons _ ms, n + 1 => ms.get? n

theorem allYes_iff (ms : Ms) (e : Env) (a : Val) :
    allYes ms e a = true ↔ ∀ n m, ms.get? n = some m → yes (verdict m e a) = true := by
  match ms with
  | .nil => simp [allYes, Ms.get?]
  | .cons m ms =>
    simp only [allYes, Bool.and_eq_true, allYes_iff ms e a]
    constructor
    · rintro ⟨h1, h2⟩ n m' hn
      cases n with
      | zero => simp [Ms.get?] at hn; subst hn; exact h1
      | succ n => exact h2 n m' (by simpa [Ms.get?] using hn)
    · intro h
      exact ⟨h 0 m rfl, fun n m' hn => h (n + 1) m' (by simpa [Ms.get?] using hn)⟩

theorem anyYes_iff (ms : Ms) (e : Env) (a : Val) :
    anyYes ms e a = true ↔ ∃ n m, ms.get? n = some m ∧ yes (verdict m e a) = true := by
  match ms with
  | .nil => simp [anyYes, Ms.get?]
  | .cons m ms =>
    simp only [anyYes, Bool.or_eq_true, anyYes_iff ms e a]
    constructor
    · rintro (h | ⟨n, m', hn, h⟩)
      · exact ⟨0, m, rfl, h⟩
      · exact ⟨n + 1, m', by simpa [Ms.get?] using hn, h⟩
    · rintro ⟨n, m', hn, h⟩
      cases n with
      | zero => simp [Ms.get?] at hn; subst hn; exact Or.inl h
      | succ n => exact Or.inr ⟨n, m', by simpa [Ms.get?] using hn, h⟩

/-- **C01.** `AllOf` of any number of matchers (even ones that refuse the value). -/
theorem C01_allOf (ms : Ms) (a : Val) :
    okPasses (.poly {} (.allOf ms)) a = true ↔ ∀ n m, ms.get? n = some m → okPasses m a = true := by
  simp only [okPasses_verdict, verdict, under_default, Bool.false_eq_true, if_false, Option.map_id', yes_some]
  rw [← allYes_iff]

/-- **C01.** `AnyOf`. -/
theorem C01_anyOf (ms : Ms) (a : Val) :
    okPasses (.poly {} (.anyOf ms)) a = true ↔ ∃ n m, ms.get? n = some m ∧ okPasses m a = true := by
  simp only [okPasses_verdict, verdict, under_default, Bool.false_eq_true, if_false, Option.map_id', yes_some]
  rw [← anyYes_iff]

/-- **C01.** `NoneOf`. -/
theorem C01_noneOf (ms : Ms) (a : Val) :
    okPasses (.poly {} (.noneOf ms)) a = true ↔ ∀ n m, ms.get? n = some m → okPasses m a = false := by
  simp only [okPasses_verdict, verdict, under_default, Bool.false_eq_true, if_false, Option.map_id', yes_some]
  have := anyYes_iff ms topEnv a
  cases hb : anyYes ms topEnv a with
  | false =>
    simp only [hb, Bool.false_eq_true, false_iff] at this
    simp only [Bool.not_false, true_iff]
    intro n m hn
    cases hv : yes (verdict m topEnv a) with
    | false => rfl
    | true => exact absurd ⟨n, m, hn, hv⟩ this
  | true =>
    obtain ⟨n, m, hn, hv⟩ := this.1 hb
    simp only [Bool.not_true, Bool.false_eq_true, false_iff]
    intro h
    rw [h n m hn] at hv
    cases hv

/-- **C01.** `&&` and `||`. -/
theorem C01_and (l r : M) (a : Val) :
    okPasses (.poly {} (.and l r)) a = (okPasses l a && okPasses r a) := by
  simp only [okPasses_verdict, verdict, under_default, Bool.false_eq_true, if_false, Option.map_id', yes_some]

theorem C01_or (l r : M) (a : Val) :
    okPasses (.poly {} (.or l r)) a = (okPasses l a || okPasses r a) := by
  simp only [okPasses_verdict, verdict, under_default, Bool.false_eq_true, if_false, Option.map_id', yes_some]

/-- A concrete number matcher used in the examples: "equal to `q`". -/
def eqNum (q : Rat) : M := .poly {} (.leaf (fun _ _ a => match a with | .num x => x == q | _ => false))
/-- "Greater than `q`". -/
def gtNum (q : Rat) : M := .poly {} (.leaf (fun _ _ a => match a with | .num x => decide (q < x) | _ => false))

-- the hypotheses of `C01_ok_formula` hold for real matchers, and the formula is not trivial
example : (∀ i, Decides ((fun i => if i = 0 then eqNum 3 else gtNum 2) i) (.num 3)) ∧
    okPasses ((F.not (.and (.atom 0) (.bang (.atom 1)))).build (fun i => if i = 0 then eqNum 3 else gtNum 2)) (.num 3) = true := by
  constructor
  · intro i
    by_cases h : i = 0
    · simp only [h, if_true]; unfold Decides; decide
    · simp only [h, if_false]; unfold Decides; decide
  · decide

/-! ### C02: KO is the opposite of OK, negations cancel -/

/-- **C02.** `KO(m, a)` passes exactly when `OK(m, a)` fails. -/
theorem C02_ko_opposite (m : M) (a : Val) (d : Int) : koPasses m a d = !okPasses m a d := by
  unfold koPasses okPasses stash
  cases matchesM m a { dimension := d } <;> rfl

/-- **C02.** `!` and `Not` invert the verdict of every matcher that applies to the value. -/
theorem C02_bang (m : M) (a : Val) (h : Decides m a) : okPasses m.bang a = !okPasses m a := by
  obtain ⟨b, hb⟩ := decides_verdict h
  simp only [okPasses_verdict, verdict_bang, hb]
  cases b <;> rfl

theorem C02_not (m : M) (a : Val) (h : Decides m a) : okPasses (.poly {} (.not m)) a = !okPasses m a := by
  obtain ⟨b, hb⟩ := decides_verdict h
  simp only [okPasses_verdict, verdict, under_default, Bool.false_eq_true, if_false, Option.map_id', yes_some, hb]
  cases b <;> rfl

/-- **C02.** Two negations cancel, for every matcher and value. -/
theorem C02_double_negation (m : M) (a : Val) :
    okPasses m.bang.bang a = okPasses m a ∧ okPasses (.not (.not m)) a = okPasses m a ∧
    okPasses (M.not m.bang) a = okPasses m a := by
  refine ⟨?_, ?_, ?_⟩ <;> simp only [okPasses_verdict, verdict_bang, verdict] <;>
    cases verdict m topEnv a <;> simp

/-- **C02.** A matcher that does not apply to the value never passes, negated or not. -/
theorem C02_refuses (m : M) (a : Val) (h : ¬ Decides m a) :
    okPasses m a = false ∧ okPasses m.bang a = false := by
  unfold Decides at h
  simp only [okPasses_verdict, verdict_bang, verdict] at *
  cases hv : verdict m topEnv a with
  | none => simp [yes]
  | some b => rw [hv] at h; cases b <;> simp [yes] at h

example : Decides (eqNum 3) (.num 4) ∧ okPasses (eqNum 3).bang (.num 4) = true := by
  unfold Decides; decide
-- `Pair(_, _)` applied to a number does not decide
example : ¬ Decides (.poly {} (.pair (eqNum 1) (eqNum 2))) (.num 4) := by unfold Decides; decide

/-! ### C03: Every and Has -/

/-- Index `i` is inside the range written on the matcher as `(s, e)` or `/ e`; without one, the
built-in limit applies. -/
def coveredBy (g : Cfg) (i : Nat) : Bool :=
  if g.rangeStart ≠ -1 ∧ g.rangeEnd ≠ -1 then decide (g.rangeStart ≤ i) && decide ((i : Int) < g.rangeEnd)
  else decide (i < 5413722)

/-- Index `i` is inside the template range `<S, E>` (`<E>` means `<0, E>`). -/
def coveredByTemplate (r : Rng) (i : Nat) : Bool :=
  if r.second = -1 then decide ((i : Int) < r.first) else decide (r.first ≤ i) && decide ((i : Int) < r.second)

/-- The elements both ranges select, in order. -/
def selected (g : Cfg) (r : Rng) (xs : List Val) : List Val :=
  (xs.zipIdx.filter (fun p => coveredBy g p.2 && coveredByTemplate r p.2)).map (·.1)

/-- The same matcher applied inside a container: case- and space-insensitivity and the
repetition count carry over, ranges and negation do not. -/
def inherit (g : Cfg) (m : M) : M := .poly { times := g.times, caseless := g.caseless, squash := g.squash } m

theorem zipIdx_filter_slice (p : Nat → Bool) (lo hi : Int) (xs : List Val) (k : Nat)
    (hp : ∀ i : Nat, p i = (decide (lo ≤ i) && decide ((i : Int) < hi))) :
    ((xs.zipIdx k).filter (fun q => p q.2)).map (·.1) = (xs.take (hi - k).toNat).drop (lo - k).toNat := by
  induction xs generalizing k with
  | nil => simp
  | cons x xs ih =>
    have ih' := ih (k + 1)
    simp only [List.zipIdx_cons, List.filter_cons, hp]
    simp only [hp] at ih'
    by_cases h1 : lo ≤ k
    · by_cases h2 : (k : Int) < hi
      · have e1 : (hi - (k : Int)).toNat = (hi - ((k + 1 : Nat) : Int)).toNat + 1 := by omega
        have e2 : (lo - (k : Int)).toNat = 0 := by omega
        have e3 : (lo - ((k + 1 : Nat) : Int)).toNat = 0 := by omega
        rw [e1, e2]
        rw [e3] at ih'
        simp only [h1, h2, decide_true, Bool.and_self, if_true, List.map_cons, ih', List.take_succ_cons, List.drop_zero]
      · have e1 : (hi - (k : Int)).toNat = 0 := by omega
        have e2 : (hi - ((k + 1 : Nat) : Int)).toNat = 0 := by omega
        rw [e1]; rw [e2] at ih'
        simp only [h2, decide_false, Bool.and_false, Bool.false_eq_true, if_false, List.take_zero, List.drop_nil] at *
        exact ih'
    · have e2 : (lo - (k : Int)).toNat = (lo - ((k + 1 : Nat) : Int)).toNat + 1 := by omega
      rw [e2]
      by_cases h2 : (k : Int) < hi
      · have e1 : (hi - (k : Int)).toNat = (hi - ((k + 1 : Nat) : Int)).toNat + 1 := by omega
        rw [e1]
        simp only [h1, decide_false, Bool.false_and, Bool.false_eq_true, if_false, List.take_succ_cons, List.drop_succ_cons]
        exact ih'
      · have e1 : (hi - (k : Int)).toNat = 0 := by omega
        have e2 : (hi - ((k + 1 : Nat) : Int)).toNat = 0 := by omega
        rw [e1]; rw [e2] at ih'
        simp only [h1, decide_false, Bool.false_and, Bool.false_eq_true, if_false, List.take_zero, List.drop_nil] at *
        exact ih'

theorem selected_slice (g : Cfg) (r : Rng) (xs : List Val) :
    slice (max (topEnv.under g).lo r.start) (min (topEnv.under g).hi r.stop) xs = selected g r xs := by
  unfold selected
  rw [zipIdx_filter_slice (fun i => coveredBy g i && coveredByTemplate r i)
    (max (topEnv.under g).lo r.start) (min (topEnv.under g).hi r.stop)]
  · simp [slice]
  · intro i
    unfold coveredBy coveredByTemplate Env.under topEnv Rng.start Rng.stop
    rw [Bool.eq_iff_iff]
    by_cases h1 : g.rangeStart ≠ -1 ∧ g.rangeEnd ≠ -1 <;> by_cases h2 : r.second = -1 <;>
      simp only [h1, h2, ne_eq, not_false_eq_true, and_self, if_true, if_false, Bool.and_eq_true, decide_eq_true_eq] <;> omega

theorem inherit_verdict (g : Cfg) (m : M) (x : Val) :
    okPasses (inherit g m) x = yes (verdict m (topEnv.under g).inside x) := by
  rw [okPasses_verdict]
  unfold inherit
  simp only [verdict, Bool.false_eq_true, if_false, Option.map_id']
  rfl

/-- **C03.** `Every(m)` with any range accepts a container exactly when every selected element
is accepted by `m`. -/
theorem C03_every_partial (g : Cfg) (r : Rng) (m : M) (xs : List Val) (hg : g.negative = false) :
    okPasses (.poly g (.every r m)) (.seq xs) = true ↔
      ∀ x ∈ selected g r xs, okPasses (inherit g m) x = true := by
  rw [okPasses_verdict]
  simp only [verdict, hg, Bool.false_eq_true, if_false, Option.map_id', Val.elems, selected_slice, inherit_verdict]
  simp [yes]

/-- **C03.** `Has(m) * n` with any range accepts a container exactly when at least `n` selected
elements are accepted by `m`. -/
theorem C03_has_partial (g : Cfg) (r : Rng) (m : M) (xs : List Val) (hg : g.negative = false) :
    okPasses (.poly g (.has r false m)) (.seq xs) = true ↔
      g.times ≤ (((selected g r xs).filter (fun x => okPasses (inherit g m) x)).length : Nat) := by
  rw [okPasses_verdict]
  simp only [verdict, hg, Bool.false_eq_true, if_false, Option.map_id', Val.elems, selected_slice, inherit_verdict]
  rw [List.countP_eq_length_filter]
  have : (topEnv.under g).times = g.times := by simp [Env.under, topEnv]
  rw [this, yes_some, decide_eq_true_iff]

/-- **C03.** `Has(key)` on a map looks at the keys. -/
theorem C03_has_key_partial (g : Cfg) (r : Rng) (m : M) (xs : List Val) (hg : g.negative = false) :
    okPasses (.poly g (.has r true m)) (.seq xs) = true ↔
      g.times ≤ (((selected g r xs).filter (fun x => okPasses (inherit g m) x.key)).length : Nat) := by
  rw [okPasses_verdict]
  simp only [verdict, hg, Bool.false_eq_true, if_false, Option.map_id', Val.elems, selected_slice, inherit_verdict, if_true]
  rw [List.countP_eq_length_filter]
  have : (topEnv.under g).times = g.times := by simp [Env.under, topEnv]
  rw [this, yes_some, decide_eq_true_iff]

/-- Without any range and with at most 5413722 elements, every element is selected. -/
theorem selected_all (xs : List Val) (h : xs.length ≤ 5413722) : selected {} {} xs = xs := by
  rw [← selected_slice]
  have h1 : (max (topEnv.under {}).lo ({} : Rng).start) = 0 := by decide
  have h2 : (min (topEnv.under {}).hi ({} : Rng).stop) = 5413722 := by decide
  rw [h1, h2]
  simp only [slice]
  have h3 : (5413722 : Int).toNat = 5413722 := rfl
  have h4 : (0 : Int).toNat = 0 := rfl
  rw [h3, h4, List.take_of_length_le h, List.drop_zero]

/-- **C03.** Plain `Every(m)` on a container of at most 5413722 elements: all elements. -/
theorem C03_every_plain_partial (m : M) (xs : List Val) (h : xs.length ≤ 5413722) :
    okPasses (.poly {} (.every {} m)) (.seq xs) = true ↔ ∀ x ∈ xs, okPasses m x = true := by
  rw [C03_every_partial {} {} m xs rfl, selected_all xs h]
  have : ∀ x, okPasses (inherit {} m) x = okPasses m x := fun x => by
    rw [inherit_verdict, okPasses_verdict]; rfl
  simp only [this]

/-- **C03.** Plain `Has(m)` on a container of at most 5413722 elements: some element. -/
theorem C03_has_plain_partial (m : M) (xs : List Val) (h : xs.length ≤ 5413722) :
    okPasses (.poly {} (.has {} false m)) (.seq xs) = true ↔ ∃ x ∈ xs, okPasses m x = true := by
  rw [C03_has_partial {} {} m xs rfl, selected_all xs h]
  have : ∀ x, okPasses (inherit {} m) x = okPasses m x := fun x => by
    rw [inherit_verdict, okPasses_verdict]; rfl
  simp only [this]
  have h1 : ∀ n : Nat, (({} : Cfg).times ≤ (n : Int)) ↔ 0 < n := by intro n; simp; omega
  rw [h1, List.length_pos_iff_exists_mem]
  simp [List.mem_filter]

/-- The elements from `s` to before `e`. -/
theorem selected_range (s e : Nat) (xs : List Val) (he : e ≤ 5413722) :
    selected { rangeStart := (s : Int), rangeEnd := (e : Int) } {} xs = (xs.take e).drop s := by
  rw [← selected_slice]
  have hs : ((s : Int) ≠ -1 ∧ (e : Int) ≠ -1) := by constructor <;> omega
  have h1 : max (topEnv.under { rangeStart := (s : Int), rangeEnd := (e : Int) }).lo ({} : Rng).start = (s : Int) := by
    simp only [Env.under, topEnv, Rng.start, hs, ne_eq, not_false_eq_true, and_self, if_true]; omega
  have h2 : min (topEnv.under { rangeStart := (s : Int), rangeEnd := (e : Int) }).hi ({} : Rng).stop = (e : Int) := by
    simp only [Env.under, topEnv, Rng.stop, hs, ne_eq, not_false_eq_true, and_self, if_true]; omega
  rw [h1, h2]
  simp [slice]

theorem inherit_plain (g : Cfg) (h1 : g.times = 1) (h2 : g.caseless = false) (h3 : g.squash = false) (m : M) (x : Val) :
    okPasses (inherit g m) x = okPasses m x := by
  rw [inherit_verdict, okPasses_verdict]
  simp [Env.under, Env.inside, topEnv, h1, h2, h3]

/-- **C03.** What is written behind `Every(m)`: `(s, e)` is the elements from `s` to before `e`; `(e)` and `/ e` are the first `e`. -/
theorem C03_every_written (s e : Nat) (m : M) (xs : List Val) (he : e ≤ 5413722) :
    (okPasses (.poly (({} : Cfg).range s e) (.every {} m)) (.seq xs) = true ↔ ∀ x ∈ (xs.take e).drop s, okPasses m x = true) ∧
    (okPasses (.poly (({} : Cfg).range e) (.every {} m)) (.seq xs) = true ↔ ∀ x ∈ xs.take e, okPasses m x = true) ∧
    (okPasses (.poly (({} : Cfg).slash e) (.every {} m)) (.seq xs) = true ↔ ∀ x ∈ xs.take e, okPasses m x = true) := by
  have hr : ({} : Cfg).range (s : Int) (e : Int) = { rangeStart := (s : Int), rangeEnd := (e : Int) } := by
    unfold Cfg.range; rw [if_neg (by omega)]
  have h0 := selected_range 0 e xs he
  rw [List.drop_zero] at h0
  refine ⟨?_, ?_, ?_⟩
  · rw [hr, C03_every_partial _ _ m xs rfl, selected_range s e xs he]
    simp only [inherit_plain { rangeStart := (s : Int), rangeEnd := (e : Int) } rfl rfl rfl]
  · rw [C03_every_partial _ _ m xs rfl]
    simp only [inherit_plain (({} : Cfg).range e) rfl rfl rfl]
    exact ⟨fun h x hx => h x (h0 ▸ hx), fun h x hx => h x (h0 ▸ hx)⟩
  · rw [C03_every_partial _ _ m xs rfl]
    simp only [inherit_plain (({} : Cfg).slash e) rfl rfl rfl]
    exact ⟨fun h x hx => h x (h0 ▸ hx), fun h x hx => h x (h0 ▸ hx)⟩

/-- **C03.** `Has(m) * n`, in one of these ranges and without: at least `n` of the elements, for an `m` to which a count means nothing. -/
theorem C03_has_written (s e n : Nat) (m : M) (xs : List Val) (he : e ≤ 5413722) (hx : xs.length ≤ 5413722)
    (hm : ∀ x, okPasses (inherit (({} : Cfg).timesBy n) m) x = okPasses m x) :
    (okPasses (.poly (({} : Cfg).timesBy n) (.has {} false m)) (.seq xs) = true ↔ n ≤ (xs.filter fun x => okPasses m x).length) ∧
    (okPasses (.poly ((({} : Cfg).range s e).timesBy n) (.has {} false m)) (.seq xs) = true ↔
      n ≤ (((xs.take e).drop s).filter fun x => okPasses m x).length) ∧
    (okPasses (.poly ((({} : Cfg).slash e).timesBy n) (.has {} false m)) (.seq xs) = true ↔
      n ≤ ((xs.take e).filter fun x => okPasses m x).length) := by
  have hr : ({} : Cfg).range (s : Int) (e : Int) = { rangeStart := (s : Int), rangeEnd := (e : Int) } := by
    unfold Cfg.range; rw [if_neg (by omega)]
  have h0 := selected_range 0 e xs he
  rw [List.drop_zero] at h0
  refine ⟨?_, ?_, ?_⟩
  · rw [C03_has_partial _ _ m xs rfl]
    have : selected (({} : Cfg).timesBy n) {} xs = xs := selected_all xs hx
    rw [this]
    simp only [hm]
    exact Int.ofNat_le
  · rw [hr, C03_has_partial _ _ m xs rfl]
    have : selected (({ rangeStart := (s : Int), rangeEnd := (e : Int) } : Cfg).timesBy n) {} xs = (xs.take e).drop s := selected_range s e xs he
    have hm' : ∀ x, okPasses (inherit (({ rangeStart := (s : Int), rangeEnd := (e : Int) } : Cfg).timesBy n) m) x = okPasses m x := hm
    rw [this]
    simp only [hm']
    exact Int.ofNat_le
  · rw [C03_has_partial _ _ m xs rfl]
    have : selected ((({} : Cfg).slash e).timesBy n) {} xs = xs.take e := h0
    have hm' : ∀ x, okPasses (inherit ((({} : Cfg).slash e).timesBy n) m) x = okPasses m x := hm
    rw [this]
    simp only [hm']
    exact Int.ofNat_le

example : okPasses (.poly (({} : Cfg).slash 2) (.every {} (gtNum 1))) (.seq [.num 2, .num 3, .num 0]) = true := by decide
example : okPasses (.poly ((({} : Cfg).slash 3).timesBy 2) (.has {} false (gtNum 1))) (.seq [.num 2, .num 0, .num 3, .num 9]) = true := by decide
/-- A count means nothing to a plain comparison. -/
example (n : Nat) (x : Val) : okPasses (inherit (({} : Cfg).timesBy n) (gtNum 1)) x = okPasses (gtNum 1) x := by
  rw [inherit_verdict, okPasses_verdict]; rfl

/-- **C03 is false for very large containers**: with no range written, elements from index
5413722 on are never looked at, so `Every` accepts a container with a bad element. -/
theorem C03_every_large_false :
    ∃ (m : M) (xs : List Val), (∃ x ∈ xs, okPasses m x = false) ∧
      okPasses (.poly {} (.every {} m)) (.seq xs) = true := by
  refine ⟨eqNum 1, List.replicate 5413722 (.num 1) ++ [.num 2],
    ⟨.num 2, List.mem_append_right _ (List.mem_singleton.2 rfl), by decide⟩, ?_⟩
  rw [C03_every_partial {} {} _ _ rfl, ← selected_slice]
  have h1 : (max (topEnv.under {}).lo ({} : Rng).start) = 0 := by decide
  have h2 : (min (topEnv.under {}).hi ({} : Rng).stop) = 5413722 := by decide
  rw [h1, h2]
  intro x hx
  unfold slice at hx
  have h3 : (5413722 : Int).toNat = 5413722 := rfl
  have h4 : (0 : Int).toNat = 0 := rfl
  rw [h3, h4, List.drop_zero, List.take_append_of_le_length (by rw [List.length_replicate]; exact Nat.le_refl _)] at hx
  have := List.eq_of_mem_replicate (List.mem_of_mem_take hx)
  subst this; decide

/-- **C03 is false for nested `Has` with a repetition count**: the count is handed down to the
inner `Has`, so two inner lists that both contain 1 are not accepted by `Has(Has(1)) * 2`. -/
theorem C03_nested_times_false :
    ∃ (m : M) (xs : List Val), 2 ≤ (xs.filter (fun x => okPasses m x)).length ∧
      okPasses (.poly (({} : Cfg).timesBy 2) (.has {} false m)) (.seq xs) = false :=
  ⟨.poly {} (.has {} false (eqNum 1)), [.seq [.num 1], .seq [.num 1]], by decide, by decide⟩

example : selected (({} : Cfg).range 1 3) {} [.num 1, .num 2, .num 3, .num 4] = [.num 2, .num 3] := rfl
example : okPasses (.poly (({} : Cfg).range 1 3) (.every {} (gtNum 1))) (.seq [.num 1, .num 2, .num 3, .num 0]) = true := by decide
example : okPasses (.poly (({} : Cfg).timesBy 2) (.has {} false (gtNum 1))) (.seq [.num 1, .num 2, .num 3, .num 0]) = true := by decide

/-! ### C04: ListOf -/

theorem pointwise_iff (ms : Ms) (e : Env) (xs : List Val) :
    pointwise ms e xs = true ↔
      ∀ n m, ms.get? n = some m → ∃ x, xs[n]? = some x ∧ yes (verdict m e x) = true := by
  match ms, xs with
  | .nil, _ => simp [pointwise, Ms.get?]
  | .cons m ms, [] =>
    simp only [pointwise, Bool.false_eq_true, false_iff]
    intro h
    obtain ⟨x, hx, _⟩ := h 0 m rfl
    simp at hx
  | .cons m ms, x :: xs =>
    simp only [pointwise, Bool.and_eq_true, pointwise_iff ms e xs]
    constructor
    · rintro ⟨h1, h2⟩ n m' hn
      cases n with
      | zero => simp [Ms.get?] at hn; subst hn; exact ⟨x, rfl, h1⟩
      | succ n => simpa using h2 n m' (by simpa [Ms.get?] using hn)
    · intro h
      refine ⟨?_, fun n m' hn => by simpa using h (n + 1) m' (by simpa [Ms.get?] using hn)⟩
      obtain ⟨y, hy, hv⟩ := h 0 m rfl
      simp at hy; subst hy; exact hv

/-- **C04.** `ListOf(m0, …, mk)` (no range) accepts a container exactly when, for each `n`, the
element number `n` exists and `mn` accepts it; further elements do not matter. -/
theorem C04_listOf (ms : Ms) (xs : List Val) :
    okPasses (.poly {} (.listOf {} ms)) (.seq xs) = true ↔
      ∀ n m, ms.get? n = some m → ∃ x, xs[n]? = some x ∧ okPasses m x = true := by
  rw [okPasses_verdict, verdict_poly_default]
  simp only [verdict]
  have h1 : max topEnv.lo ({} : Rng).start = 0 := by decide
  have h2 : ∀ m x, okPasses m x = yes (verdict m topEnv.inside x) := fun m x => okPasses_verdict m x _
  rw [h1]
  simp only [Val.elems, Int.lt_irrefl, if_false, Int.toNat_zero, List.drop_zero, h2]
  rw [← pointwise_iff]
  cases pointwise ms topEnv.inside xs <;> simp [yes]

/-- **C04.** With a start `s ≥ 0` written as `(s, e)`, matcher `n` is applied to element `s + n`. -/
theorem C04_listOf_from (s e : Nat) (ms : Ms) (xs : List Val) :
    okPasses (.poly (({} : Cfg).range s e) (.listOf {} ms)) (.seq xs) = true ↔
      ∀ n m, ms.get? n = some m → ∃ x, xs[s + n]? = some x ∧ okPasses m x = true := by
  rw [okPasses_verdict]
  have hr : ({} : Cfg).range (s : Int) (e : Int) = { rangeStart := (s : Int), rangeEnd := (e : Int) } := by
    unfold Cfg.range; rw [if_neg (by omega)]
  rw [hr]
  simp only [verdict, Bool.false_eq_true, if_false, Option.map_id']
  have hs : ((s : Int) ≠ -1 ∧ (e : Int) ≠ -1) := by constructor <;> omega
  have h1 : max (topEnv.under { rangeStart := (s : Int), rangeEnd := (e : Int) }).lo ({} : Rng).start = (s : Int) := by
    simp only [Env.under, topEnv, Rng.start, hs, ne_eq, not_false_eq_true, and_self, if_true]; omega
  have hin : (topEnv.under { rangeStart := (s : Int), rangeEnd := (e : Int) }).inside = topEnv := by
    simp [Env.under, topEnv, Env.inside]
  have h2 : ∀ m x, okPasses m x = yes (verdict m topEnv x) := fun m x => okPasses_verdict m x _
  rw [h1, hin, if_neg (by omega)]
  simp only [Val.elems, Int.toNat_natCast, h2]
  have h3 : ∀ n, (xs.drop s)[n]? = xs[s + n]? := fun n => by simp
  simp only [← h3]
  rw [← pointwise_iff]
  cases pointwise ms topEnv (xs.drop s) <;> simp [yes]

example : okPasses (.poly {} (.listOf {} (.cons (eqNum 1) (.cons (gtNum 1) .nil)))) (.seq [.num 1, .num 5, .num 9]) = true := by decide
example : okPasses (.poly {} (.listOf {} (.cons (eqNum 1) (.cons (gtNum 1) .nil)))) (.seq [.num 1]) = false := by decide
example : okPasses (.poly (({} : Cfg).range 1 2) (.listOf {} (.cons (eqNum 5) .nil))) (.seq [.num 1, .num 5, .num 9]) = true := by decide

/-! ### C05: CountOf, MaxOf, MinOf, AvgOf -/

/-- **C05.** `CountOf(m)` hands the number of all elements to `m` (ranges are ignored). -/
theorem C05_countOf (g : Cfg) (r : Rng) (m : M) (xs : List Val) (hg : g.negative = false) :
    okPasses (.poly g (.stat .count r m)) (.seq xs) = okPasses (inherit g m) (.num (xs.length : Nat)) := by
  rw [okPasses_verdict, inherit_verdict]
  simp only [verdict, hg, Bool.false_eq_true, if_false, Option.map_id', statSpec, Val.elems]
  rw [yes_some]

theorem greatest_spec (ys : List Rat) (q : Rat) (hq : q ∈ ys) (hall : ∀ y ∈ ys, y ≤ q) : greatest ys = some q := by
  unfold greatest
  cases hf : ys.find? (fun q => ys.all (fun y => y ≤ q)) with
  | none => exact absurd (List.all_eq_true.2 (fun y hy => by simpa using hall y hy)) (List.find?_eq_none.1 hf q hq)
  | some p =>
    have h1 := List.find?_some hf
    have h2 := List.mem_of_find?_eq_some hf
    have h3 : q ≤ p := by simpa using List.all_eq_true.1 h1 q hq
    rw [Rat.le_antisymm h3 (hall p h2)]

theorem least_spec (ys : List Rat) (q : Rat) (hq : q ∈ ys) (hall : ∀ y ∈ ys, q ≤ y) : least ys = some q := by
  unfold least
  cases hf : ys.find? (fun q => ys.all (fun y => q ≤ y)) with
  | none => exact absurd (List.all_eq_true.2 (fun y hy => by simpa using hall y hy)) (List.find?_eq_none.1 hf q hq)
  | some p =>
    have h1 := List.find?_some hf
    have h2 := List.mem_of_find?_eq_some hf
    have h3 : p ≤ q := by simpa using List.all_eq_true.1 h1 q hq
    rw [Rat.le_antisymm (hall p h2) h3]

/-- **C05.** `MaxOf(m)` accepts exactly when `m` accepts the number that is the greatest selected
element. -/
theorem C05_maxOf (g : Cfg) (r : Rng) (m : M) (xs : List Val) (q : Rat) (hg : g.negative = false)
    (hq : q ∈ (selected g r xs).map Val.toNum) (hall : ∀ y ∈ (selected g r xs).map Val.toNum, y ≤ q) :
    okPasses (.poly g (.stat .max r m)) (.seq xs) = okPasses (inherit g m) (.num q) := by
  rw [okPasses_verdict, inherit_verdict]
  simp only [verdict, hg, Bool.false_eq_true, if_false, Option.map_id', statSpec, Val.elems, selected_slice,
    greatest_spec _ q hq hall]
  rw [yes_some]

/-- **C05.** `MinOf(m)`. -/
theorem C05_minOf (g : Cfg) (r : Rng) (m : M) (xs : List Val) (q : Rat) (hg : g.negative = false)
    (hq : q ∈ (selected g r xs).map Val.toNum) (hall : ∀ y ∈ (selected g r xs).map Val.toNum, q ≤ y) :
    okPasses (.poly g (.stat .min r m)) (.seq xs) = okPasses (inherit g m) (.num q) := by
  rw [okPasses_verdict, inherit_verdict]
  simp only [verdict, hg, Bool.false_eq_true, if_false, Option.map_id', statSpec, Val.elems, selected_slice,
    least_spec _ q hq hall]
  rw [yes_some]

/-- **C05.** `AvgOf(m)` on a nonempty selection hands the mean to `m`. -/
theorem C05_avgOf (g : Cfg) (r : Rng) (m : M) (xs : List Val) (hg : g.negative = false)
    (hne : selected g r xs ≠ []) :
    okPasses (.poly g (.stat .avg r m)) (.seq xs) =
      okPasses (inherit g m) (.num (((selected g r xs).map Val.toNum).sum / ((selected g r xs).length : Nat))) := by
  rw [okPasses_verdict, inherit_verdict]
  simp only [verdict, hg, Bool.false_eq_true, if_false, Option.map_id', statSpec, Val.elems, selected_slice, hne]
  rw [yes_some]

/-- **C05.** On an empty selection MaxOf, MinOf and AvgOf reject, and their negations accept. -/
theorem C05_empty (s : Stat) (hs : s ≠ .count) (g : Cfg) (r : Rng) (m : M) (xs : List Val)
    (he : selected g r xs = []) :
    okPasses (.poly g (.stat s r m)) (.seq xs) = g.negative := by
  rw [okPasses_verdict]
  simp only [verdict, Val.elems, selected_slice, he]
  cases s <;> simp_all [statSpec, greatest, least] <;> cases g.negative <;> simp [yes]

/-- Every nonempty selection has a greatest and a least element, so `C05_maxOf` and `C05_minOf`
always apply to it. -/
theorem C05_extremes_exist (ys : List Rat) (h : ys ≠ []) :
    (∃ q ∈ ys, ∀ y ∈ ys, y ≤ q) ∧ (∃ q ∈ ys, ∀ y ∈ ys, q ≤ y) := by
  cases ys with
  | nil => exact absurd rfl h
  | cons x xs =>
    constructor
    · obtain ⟨w, _, h2, h3⟩ := bestOf_some true xs x
      simp only [if_true] at h3
      refine ⟨w, by rcases h2 with h2 | h2 <;> simp [h2], ?_⟩
      intro y hy; rcases List.mem_cons.1 hy with hy | hy
      · subst hy; exact h3.1
      · exact h3.2 y hy
    · obtain ⟨w, _, h2, h3⟩ := bestOf_some false xs x
      simp only [Bool.false_eq_true, if_false] at h3
      refine ⟨w, by rcases h2 with h2 | h2 <;> simp [h2], ?_⟩
      intro y hy; rcases List.mem_cons.1 hy with hy | hy
      · subst hy; exact h3.1
      · exact h3.2 y hy

example : okPasses (.poly {} (.stat .max {} (eqNum 7))) (.seq [.num 3, .num 7, .num 5]) = true := by decide
example : okPasses (.poly {} (.stat .min {} (eqNum 3))) (.seq [.num 3, .num 7, .num 5]) = true := by decide
example : okPasses (.poly {} (.stat .avg {} (eqNum 5))) (.seq [.num 3, .num 7, .num 5]) = true := by decide +kernel
example : okPasses (.poly {} (.stat .count {} (eqNum 3))) (.seq [.num 3, .num 7, .num 5]) = true := by decide

end H2.Matcher
