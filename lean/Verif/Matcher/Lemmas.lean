import Verif.Matcher.Spec
/- Helper lemmas: the implementation loops against list operations, and the main
correspondence between `matchesM` and `verdict`. -/
namespace H2.Matcher

def C.env (c : C) : Env :=
  { lo := c.rangeStart, hi := c.rangeEnd, times := c.times, caseless := c.caseless, squash := c.squash }

@[simp] theorem env_setNegative (c : C) (b : Bool) : (c.setNegative b).env = c.env := rfl
@[simp] theorem env_clearSize (c : C) : c.clearSize.env = c.env.inside := rfl
@[simp] theorem env_configure (c : C) (g : Cfg) : (g.configure c).env = c.env.under g := rfl

theorem conclude_none (c : C) (ok : Bool) (fs : List Fail) :
    conclude c ok fs = none ↔ ok = !c.negative := by
  unfold conclude C.fit
  split <;> simp_all

theorem toList_isEmpty {α} (o : Option α) : o.toList.isEmpty = o.isNone := by cases o <;> rfl

theorem isEmpty_append {α} (a b : List α) : (a ++ b).isEmpty = (a.isEmpty && b.isEmpty) := by
  cases a <;> simp

theorem selectFrom_eq (r : Rng) (c : C) (xs : List Val) (i : Nat) :
    selectFrom r c i xs =
      (xs.take ((min c.rangeEnd r.stop) - i).toNat).drop ((max c.rangeStart r.start) - i).toNat := by
  induction xs generalizing i with
  | nil => simp [selectFrom]
  | cons x xs ih =>
    have ih' := ih (i + 1)
    have hcast : ((i : Int) + 1) = ((i + 1 : Nat) : Int) := by omega
    have hin : rangeIn r c i = (decide (max c.rangeStart r.start ≤ (i : Int)) && decide ((i : Int) < min c.rangeEnd r.stop)) := by
      unfold rangeIn C.inRange Rng.inRange
      rw [Bool.eq_iff_iff]; simp; omega
    unfold selectFrom
    rw [hcast, ih', hin]
    generalize max c.rangeStart r.start = lo
    generalize min c.rangeEnd r.stop = hi
    by_cases h1 : lo ≤ i
    · by_cases h2 : (i : Int) < hi
      · have e1 : (hi - (i : Int)).toNat = (hi - ((i + 1 : Nat) : Int)).toNat + 1 := by omega
        have e2 : (lo - (i : Int)).toNat = 0 := by omega
        have e3 : (lo - ((i + 1 : Nat) : Int)).toNat = 0 := by omega
        rw [e1, e2, e3]
        simp only [h1, h2, decide_true, Bool.and_self, if_true, List.take_succ_cons, List.drop_zero]
      · have e1 : (hi - (i : Int)).toNat = 0 := by omega
        have e2 : (hi - ((i + 1 : Nat) : Int)).toNat = 0 := by omega
        rw [e1, e2]
        simp only [h1, h2, decide_true, decide_false, Bool.and_false, Bool.false_eq_true, if_false, List.take_zero, List.drop_nil]
    · have e2 : (lo - (i : Int)).toNat = (lo - ((i + 1 : Nat) : Int)).toNat + 1 := by omega
      rw [e2]
      by_cases h2 : (i : Int) < hi
      · have e1 : (hi - (i : Int)).toNat = (hi - ((i + 1 : Nat) : Int)).toNat + 1 := by omega
        rw [e1]
        simp only [h1, decide_false, Bool.false_and, Bool.false_eq_true, if_false, List.take_succ_cons, List.drop_succ_cons]
      · have e1 : (hi - (i : Int)).toNat = 0 := by omega
        have e2 : (hi - ((i + 1 : Nat) : Int)).toNat = 0 := by omega
        rw [e1, e2]
        simp only [h1, decide_false, Bool.false_and, Bool.false_eq_true, if_false, List.take_zero, List.drop_nil]

theorem selectFrom_slice (r : Rng) (c : C) (xs : List Val) :
    selectFrom r c 0 xs = slice (max c.rangeStart r.start) (min c.rangeEnd r.stop) xs := by
  have := selectFrom_eq r c xs 0
  simpa [slice] using this

theorem filterMap_isEmpty {α β} (f : α → Option β) (xs : List α) :
    (xs.filterMap f).isEmpty = xs.all (fun x => (f x).isNone) := by
  induction xs with
  | nil => rfl
  | cons x xs ih =>
    cases h : f x with
    | none => simp [h] at ih ⊢; simpa using ih
    | some y => simp [h]

theorem hasLoop_ge (hit : Val → Bool) (t : Int) (xs : List Val) (f : Int) :
    decide (hasLoop hit t xs f ≥ t) = decide (t ≤ f + (xs.countP hit : Nat)) := by
  induction xs generalizing f with
  | nil => simp [hasLoop]
  | cons x xs ih =>
    unfold hasLoop
    by_cases hx : hit x
    · simp only [hx, if_true, List.countP_cons]
      by_cases ht : f + 1 ≥ t
      · simp only [ht, if_true]
        simp; omega
      · simp only [ht, if_false, ih]
        simp; omega
    · simp [hx, ih]

theorem pick_eq (xs : List Val) (j : Nat) (t : Int) (h : (j : Int) ≤ t) :
    pick t j xs = xs[(t - j).toNat]? := by
  induction xs generalizing j with
  | nil => simp [pick]
  | cons x xs ih =>
    unfold pick
    by_cases ht : (j : Int) = t
    · subst ht; simp
    · have := ih (j + 1) (by omega)
      rw [if_neg ht]
      have hc : (j : Int) + 1 = ((j + 1 : Nat) : Int) := by omega
      rw [hc, this]
      have : (t - j).toNat = (t - ((j + 1 : Nat) : Int)).toNat + 1 := by omega
      rw [this]; simp

theorem pick_neg (t j : Int) (xs : List Val) (h : t < j) : pick t j xs = none := by
  induction xs generalizing j with
  | nil => rfl
  | cons x xs ih =>
    unfold pick
    rw [if_neg (by omega), ih (j + 1) (by omega)]

theorem bestOf_some (b : Bool) (xs : List Rat) (v : Rat) :
    ∃ w, bestOf b xs (some v) = some w ∧ (w = v ∨ w ∈ xs) ∧
      (if b then v ≤ w ∧ ∀ x ∈ xs, x ≤ w else w ≤ v ∧ ∀ x ∈ xs, w ≤ x) := by
  induction xs generalizing v with
  | nil => exact ⟨v, rfl, Or.inl rfl, by cases b <;> simp⟩
  | cons x xs ih =>
    unfold bestOf
    obtain ⟨w, h1, h2, h3⟩ := ih (if (if b then v < x else x < v) then x else v)
    refine ⟨w, h1, ?_, ?_⟩
    · rcases h2 with h2 | h2
      · rw [h2]
        by_cases hp : (if b then v < x else x < v)
        · rw [if_pos hp]; simp
        · rw [if_neg hp]; simp
      · right; exact List.mem_cons_of_mem _ h2
    · cases b
      · simp only [Bool.false_eq_true, if_false] at h3 ⊢
        split at h3
        · refine ⟨by grind, ?_⟩
          intro y hy; rcases List.mem_cons.1 hy with hy | hy
          · subst hy; exact h3.1
          · exact h3.2 y hy
        · refine ⟨h3.1, ?_⟩
          intro y hy; rcases List.mem_cons.1 hy with hy | hy
          · subst hy; grind
          · exact h3.2 y hy
      · simp only [if_true] at h3 ⊢
        split at h3
        · refine ⟨by grind, ?_⟩
          intro y hy; rcases List.mem_cons.1 hy with hy | hy
          · subst hy; exact h3.1
          · exact h3.2 y hy
        · refine ⟨h3.1, ?_⟩
          intro y hy; rcases List.mem_cons.1 hy with hy | hy
          · subst hy; grind
          · exact h3.2 y hy

theorem bestOf_max (xs : List Rat) : bestOf true xs none = greatest xs := by
  cases xs with
  | nil => rfl
  | cons x xs =>
    obtain ⟨w, h1, h2, h3⟩ := bestOf_some true xs x
    simp only [if_true] at h3
    have hb : bestOf true (x :: xs) none = some w := by unfold bestOf; exact h1
    rw [hb]
    have hw : w ∈ x :: xs := by rcases h2 with h2 | h2 <;> simp [h2]
    have hall : ∀ y ∈ x :: xs, y ≤ w := by
      intro y hy; rcases List.mem_cons.1 hy with hy | hy
      · subst hy; exact h3.1
      · exact h3.2 y hy
    unfold greatest
    cases hf : (x :: xs).find? (fun q => (x :: xs).all (fun y => y ≤ q)) with
    | none =>
      have := List.find?_eq_none.1 hf w hw
      exact absurd (List.all_eq_true.2 (fun y hy => by simpa using hall y hy)) this
    | some q =>
      have hq := List.find?_some hf
      have hqm := List.mem_of_find?_eq_some hf
      have h4 : w ≤ q := by simpa using List.all_eq_true.1 hq w hw
      rw [Rat.le_antisymm h4 (hall q hqm)]

theorem bestOf_min (xs : List Rat) : bestOf false xs none = least xs := by
  cases xs with
  | nil => rfl
  | cons x xs =>
    obtain ⟨w, h1, h2, h3⟩ := bestOf_some false xs x
    simp only [Bool.false_eq_true, if_false] at h3
    have hb : bestOf false (x :: xs) none = some w := by unfold bestOf; exact h1
    rw [hb]
    have hw : w ∈ x :: xs := by rcases h2 with h2 | h2 <;> simp [h2]
    have hall : ∀ y ∈ x :: xs, w ≤ y := by
      intro y hy; rcases List.mem_cons.1 hy with hy | hy
      · subst hy; exact h3.1
      · exact h3.2 y hy
    unfold least
    cases hf : (x :: xs).find? (fun q => (x :: xs).all (fun y => q ≤ y)) with
    | none =>
      have := List.find?_eq_none.1 hf w hw
      exact absurd (List.all_eq_true.2 (fun y hy => by simpa using hall y hy)) this
    | some q =>
      have hq := List.find?_some hf
      have hqm := List.mem_of_find?_eq_some hf
      have h4 : q ≤ w := by simpa using List.all_eq_true.1 hq w hw
      rw [Rat.le_antisymm (hall q hqm) h4]

theorem foldl_add_sum (ys : List Rat) (z : Rat) : ys.foldl (· + ·) z = z + ys.sum := by
  induction ys generalizing z with
  | nil => simp [Rat.add_zero]
  | cons y ys ih => simp [ih, Rat.add_assoc]

theorem statValue_spec (s : Stat) (r : Rng) (c : C) (xs : List Val) :
    statValue s r c xs = statSpec s (slice (max c.rangeStart r.start) (min c.rangeEnd r.stop) xs) xs := by
  cases s
  · rfl
  · simp [statValue, statSpec, selectFrom_slice, bestOf_max]
  · simp [statValue, statSpec, selectFrom_slice, bestOf_min]
  · simp only [statValue, statSpec, selectFrom_slice, foldl_add_sum, Rat.zero_add, List.length_map]
    split <;> split <;> simp_all

theorem drop_cons_get {α} (xs : List α) (n : Nat) :
    xs.drop n = match xs[n]? with | none => [] | some x => x :: xs.drop (n + 1) := by
  induction xs generalizing n with
  | nil => simp
  | cons x xs ih =>
    cases n with
    | zero => simp
    | succ n => simpa using ih n

theorem isNone_iff {m : M} {a : Val} {c : C}
    (h : matchesM m a c = none ↔ verdict m c.env a = some (!c.negative)) (hn : c.negative = false) :
    (matchesM m a c).isNone = yes (verdict m c.env a) := by
  rw [hn] at h
  cases hm : matchesM m a c with
  | none => have := h.1 hm; simp [yes, this]
  | some f =>
    have : ¬ verdict m c.env a = some true := fun hv => by
      have := h.2 (by simpa using hv); simp [hm] at this
    simp only [Option.isNone_some, yes]
    symm; simpa using this

theorem listStart (l s : Int) : max l s = if l > s then l else s := by omega

mutual
theorem matches_verdict (m : M) (a : Val) (c : C) :
    matchesM m a c = none ↔ verdict m c.env a = some (!c.negative) := by
  cases m with
  | leaf test => simp [matchesM, verdict, conclude_none, C.env]
  | partialLeaf test =>
    simp only [matchesM, verdict, C.env]
    cases test c.caseless c.squash a <;> simp [conclude_none]
  | poly g m =>
    simp only [matchesM, verdict]
    rw [matches_verdict m a (g.configure c), env_configure]
    have : (g.configure c).negative = (g.negative != c.negative) := rfl
    rw [this]
    cases verdict m (c.env.under g) a with
    | none => simp
    | some b => cases g.negative <;> cases c.negative <;> cases b <;> simp
  | not m =>
    simp only [matchesM, verdict]
    rw [matches_verdict m a _, env_setNegative]
    have : (c.setNegative (!c.negative)).negative = !c.negative := rfl
    rw [this]
    cases verdict m c.env a with
    | none => simp
    | some b => cases c.negative <;> cases b <;> simp
  | cond b t f =>
    simp only [matchesM, verdict]
    cases b
    · simpa using matches_verdict f a c
    · simpa using matches_verdict t a c
  | and l r =>
    have hl := isNone_iff (matches_verdict l a (c.setNegative false)) rfl
    have hr := isNone_iff (matches_verdict r a (c.setNegative false)) rfl
    simp only [env_setNegative] at hl hr
    simp only [matchesM, verdict, conclude_none, isEmpty_append, toList_isEmpty, hl, hr, Option.some.injEq]
  | or l r =>
    have hl := isNone_iff (matches_verdict l a (c.setNegative false)) rfl
    have hr := isNone_iff (matches_verdict r a (c.setNegative false)) rfl
    simp only [env_setNegative] at hl hr
    simp only [matchesM, verdict, conclude_none, hl, hr, Option.some.injEq]
  | allOf ms =>
    simp only [matchesM, verdict, conclude_none, allFails_spec ms a (c.setNegative false) 0 rfl, env_setNegative, Option.some.injEq]
  | anyOf ms =>
    simp only [matchesM, verdict, conclude_none, anyFails_spec ms a (c.setNegative false) 0 rfl, env_setNegative, Option.some.injEq]
  | noneOf ms =>
    simp only [matchesM, verdict, conclude_none, noneFails_spec ms a (c.setNegative false) 0 rfl, env_setNegative, Option.some.injEq]
  | proj clear f m =>
    simp only [matchesM, verdict]
    have := matches_verdict m (f a) (if clear then c.clearSize else c)
    cases clear
    · simpa using this
    · have hn : c.clearSize.negative = c.negative := rfl
      simpa [hn] using this
  | pair k v =>
    cases a with
    | pair ka va =>
      have hl := isNone_iff (matches_verdict k ka (c.clearSize.setNegative false)) rfl
      have hr := isNone_iff (matches_verdict v va (c.clearSize.setNegative false)) rfl
      simp only [env_setNegative, env_clearSize] at hl hr
      simp only [matchesM, verdict, conclude_none, isEmpty_append, toList_isEmpty, hl, hr, Option.some.injEq]
    | _ => simp [matchesM, verdict]
  | every r m =>
    have hm := fun x => isNone_iff (matches_verdict m x (c.clearSize.setNegative false)) rfl
    simp only [env_setNegative, env_clearSize] at hm
    simp only [matchesM, verdict, conclude_none, filterMap_isEmpty, hm, selectFrom_slice, Option.some.injEq]
    rfl
  | has r keyOnly m =>
    have hm := fun x => isNone_iff (matches_verdict m x (c.clearSize.setNegative false)) rfl
    simp only [env_setNegative, env_clearSize] at hm
    simp only [matchesM, verdict, conclude_none, hm, selectFrom_slice, Option.some.injEq, hasLoop_ge, Int.zero_add]
    rfl
  | listOf r ms =>
    simp only [matchesM, verdict, conclude_none, Option.some.injEq]
    rw [listFails_spec ms a.elems _ (c.clearSize.setNegative false) 0 rfl]
    simp only [env_setNegative, env_clearSize, Int.natCast_zero, Int.zero_add]
    rfl
  | stat s r m =>
    have hm := fun x => isNone_iff (matches_verdict m x (c.clearSize.setNegative false)) rfl
    simp only [env_setNegative, env_clearSize] at hm
    simp only [matchesM, verdict, conclude_none, hm, statValue_spec, Option.some.injEq]
    rfl
theorem allFails_spec (ms : Ms) (a : Val) (c : C) (i : Nat) (hn : c.negative = false) :
    (allFails ms a c i).isEmpty = allYes ms c.env a := by
  cases ms with
  | nil => rfl
  | cons m ms =>
    have hm := isNone_iff (matches_verdict m a c) hn
    simp only [allFails, allYes, isEmpty_append, toList_isEmpty, allFails_spec ms a c (i+1) hn, Option.isNone_map, hm]
theorem anyFails_spec (ms : Ms) (a : Val) (c : C) (i : Nat) (hn : c.negative = false) :
    (anyFails ms a c i).1 = anyYes ms c.env a := by
  cases ms with
  | nil => rfl
  | cons m ms =>
    have hm := isNone_iff (matches_verdict m a c) hn
    simp only [anyFails, anyYes, ← hm]
    cases matchesM m a c with
    | none => simp
    | some f => simp [anyFails_spec ms a c (i+1) hn]
theorem noneFails_spec (ms : Ms) (a : Val) (c : C) (i : Nat) (hn : c.negative = false) :
    (noneFails ms a c i).isEmpty = !anyYes ms c.env a := by
  cases ms with
  | nil => rfl
  | cons m ms =>
    have hm := isNone_iff (matches_verdict m a c) hn
    simp only [noneFails, anyYes, ← hm]
    cases matchesM m a c with
    | none => simp
    | some f => simp [noneFails_spec ms a c (i+1) hn]
theorem listFails_spec (ms : Ms) (xs : List Val) (s : Int) (c : C) (i : Nat) (hn : c.negative = false) :
    (listFails ms xs s c i).isEmpty =
      (if (i : Int) + s < 0 then decide (ms.length = 0) else pointwise ms c.env (xs.drop (i + s).toNat)) := by
  cases ms with
  | nil => simp [listFails, Ms.length, pointwise]
  | cons m ms =>
    have hm := fun x => isNone_iff (matches_verdict m x c) hn
    have ih := listFails_spec ms xs s c (i + 1) hn
    simp only [listFails, isEmpty_append]
    by_cases hneg : (i : Int) + s < 0
    · rw [pick_neg _ _ _ (by omega)]
      simp [hneg, Ms.length]
    · have hp := pick_eq xs 0 (i + s) (by omega)
      simp only [Int.natCast_zero, Int.sub_zero] at hp
      rw [if_neg hneg, hp, drop_cons_get]
      cases hx : xs[(↑i + s).toNat]? with
      | none => simp [pointwise]
      | some x =>
        have hne : ¬ (((i + 1 : Nat) : Int) + s < 0) := by omega
        rw [ih, if_neg hne]
        have : (((i + 1 : Nat) : Int) + s).toNat = (↑i + s).toNat + 1 := by omega
        simp only [toList_isEmpty, Option.isNone_map, hm, pointwise, this]
end

end H2.Matcher
