import Verif.Json.ExprLex
/-
C16: arithmetic in JSON values.
-/
namespace H2.Json.Expr
open H2.Json

/-! ### Values -/

theorem eval_writes (m : Machine) {l ss es} (h : Writes l ss es) :
    es.map (fun e => (tree e).evaluate m) = es.map (·.value m) := by
  have evalAll : ∀ ts, evaluateAll m ts = ts.map (Tree.evaluate m) := by
    intro ts
    induction ts with
    | nil => rfl
    | cons t ts ih => simp [evaluateAll, ih]
  have vals : ∀ es, values m es = es.map (Ex.value m) := by
    intro ts
    induction ts with
    | nil => rfl
    | cons t ts ih => simp [values, ih]
  induction h with
  | num q => rfl
  | constant f => simp [tree, trees, Tree.evaluate, Ex.value, values, evaluateAll]
  | constant' f => simp [tree, trees, Tree.evaluate, Ex.value, values, evaluateAll]
  | @apply ss es k f h2 h4 _ hl ih =>
    have h4' : es.length ≤ 4 := by omega
    simp only [List.map_cons, List.map_nil, tree, trees_map, Tree.evaluate, Ex.value, vals, evalAll, List.map_map,
      if_pos h4', List.cons.injEq, and_true]
    have : List.map (Tree.evaluate m ∘ tree) es = es.map (Ex.value m) := ih
    rw [this, List.take_of_length_le (by simp)]
  | paren _ ih | atom _ ih | «postfix» _ ih | power _ ih | product _ ih | sum _ ih | single _ ih | argument _ ih => exact ih
  | arguments _ _ ih1 ih2 => rw [List.map_append, List.map_append, ih1, ih2]
  | signed _ _ ih =>
    split
    · simp only [List.map_cons, List.map_nil, List.cons.injEq, and_true] at ih
      simp [tree, Tree.evaluate, Ex.value, evaluateAll, ih]
    · exact ih
  | fac _ ih =>
    simp only [List.map_cons, List.map_nil, List.cons.injEq, and_true] at ih
    simp [tree, Tree.evaluate, Ex.value, evaluateAll, ih]
  | apply1 _ _ ih =>
    simp only [List.map_cons, List.map_nil, List.cons.injEq, and_true] at ih
    simp [tree, trees, Tree.evaluate, Ex.value, values, evaluateAll, ih]
  | caret _ _ h1 h2 | times _ _ h1 h2 | slash _ _ h1 h2 | percent _ _ h1 h2 | plus _ _ h1 h2 | minus _ _ h1 h2
  | comma _ _ h1 h2 =>
    simp only [List.map_cons, List.map_nil, List.cons.injEq, and_true] at h1 h2
    simp [tree, Tree.evaluate, Ex.value, evaluateAll, h1, h2]

/-- C16.  A text has a value exactly when it spells symbols that write an expression, and the value is that of
the expression: the documented precedences and associativity, for every text. -/
theorem C16_value (m : Machine) (s : Str) (d : Dbl) :
    evaluate m s = some d ↔ ∃ ss e, Spells s ss ∧ Writes .sequence ss [e] ∧ e.value m = d := by
  constructor
  · intro h
    unfold evaluate compile at h
    split at h
    · next t ht =>
      simp only [Option.map_some, Option.some.injEq] at h
      obtain ⟨ss, h1, e, w, rfl⟩ := sound _ _ _ _ _ (tokens_good _ s) ht
      rw [List.append_nil] at h1
      have hv := eval_writes m w
      simp only [List.map_cons, List.map_nil, List.cons.injEq, and_true] at hv
      exact ⟨ss, e, spells_tokens _ s ss (Nat.lt_succ_self _) h1 (apart_writes w), w, by rw [← h, hv]⟩
    · cases h
  · rintro ⟨ss, e, hs, w, rfl⟩
    have h1 : tokens s = ss.map tok := tokens_spells hs _ (Nat.lt_succ_self _)
    obtain ⟨e', he, ha⟩ := accepts w
    obtain rfl := one_eq he
    have h2 := ha [] (tree e) [] notNext_nil notNext_nil notNext_nil notNext_nil notNext_nil (listLoop_ends notNext_nil)
    rw [List.append_nil, ← h1] at h2
    have h3 := yields_at h2 (n := 10 * (tokens s).length + 20) (by simp [rank])
    unfold evaluate compile
    rw [h3]
    have hv := eval_writes m w
    simp only [List.map_cons, List.map_nil, List.cons.injEq, and_true] at hv
    simp only [Option.map_some, hv]

/-- C16.  A text that writes an expression has one value only. -/
theorem C16_unambiguous (m : Machine) {s ss ss' e e'} (h : Spells s ss) (w : Writes .sequence ss [e]) (h' : Spells s ss')
    (w' : Writes .sequence ss' [e']) : e.value m = e'.value m := by
  have h1 := (C16_value m s _).2 ⟨ss, e, h, w, rfl⟩
  have h2 := (C16_value m s _).2 ⟨ss', e', h', w', rfl⟩
  rw [h1] at h2
  injection h2

/-! ### Exact values -/

theorem product_mod (n : Nat) : ∀ lo r, (List.range' lo n).foldl (fun r i => r * i % 2 ^ 64) r % 2 ^ 64 =
    (List.range' lo n).foldl (fun r i => r * i) r % 2 ^ 64 := by
  induction n with
  | zero => intro lo r; rfl
  | succ n ih =>
    intro lo r
    rw [List.range'_succ, List.foldl_cons, List.foldl_cons, ih]
    have key : ∀ (l : List Nat) a b, a % 2 ^ 64 = b % 2 ^ 64 → l.foldl (fun r i => r * i) a % 2 ^ 64 = l.foldl (fun r i => r * i) b % 2 ^ 64 := by
      intro l
      induction l with
      | nil => intro a b h; exact h
      | cons x l ih =>
        intro a b h
        rw [List.foldl_cons, List.foldl_cons]
        exact ih _ _ (by rw [Nat.mul_mod, h, ← Nat.mul_mod])
    exact key _ _ _ (Nat.mod_mod _ _)

theorem product_lt (n : Nat) : ∀ lo r, r < 2 ^ 64 → (List.range' lo n).foldl (fun r i => r * i % 2 ^ 64) r < 2 ^ 64 := by
  induction n with
  | zero => intro lo r h; exact h
  | succ n ih =>
    intro lo r _
    rw [List.range'_succ, List.foldl_cons]
    exact ih _ _ (Nat.mod_lt _ (by decide))

theorem productC_eq (lo hi : Nat) : productC lo hi = (List.range' lo (hi + 1 - lo)).foldl (fun r i => r * i) 1 % 2 ^ 64 := by
  rw [← product_mod]
  exact (Nat.mod_eq_of_lt (product_lt _ _ _ (by decide))).symm

theorem falling_succ (n m : Nat) : falling n (m + 1) = falling n m * (n - m) := by
  induction n generalizing m with
  | zero => cases m <;> simp [falling]
  | succ n ih =>
    cases m with
    | zero => simp [falling]
    | succ m => rw [falling, ih, falling, Nat.mul_assoc]; congr 2; omega

theorem fold_mul (l : List Nat) (a : Nat) : l.foldl (fun r i => r * i) a = a * l.foldl (fun r i => r * i) 1 := by
  induction l generalizing a with
  | nil => simp
  | cons x l ih => rw [List.foldl_cons, List.foldl_cons, ih, ih (1 * x), Nat.one_mul, Nat.mul_assoc]

theorem fold_falling (n m : Nat) (h : m ≤ n) : (List.range' (n - m + 1) m).foldl (fun r i => r * i) 1 = falling n m := by
  induction m with
  | zero => simp [falling]
  | succ m ih =>
    rw [List.range'_succ, List.foldl_cons, fold_mul, Nat.one_mul, show n - (m + 1) + 1 + 1 = n - m + 1 by omega,
      ih (by omega), falling_succ, Nat.mul_comm]
    congr 1
    omega

theorem falling_self (n) : falling n n = fact n := by
  induction n with
  | zero => rfl
  | succ n ih => rw [falling, fact, ih]

theorem choose_fact (n m : Nat) : choose n m * fact m = falling n m := by
  induction n generalizing m with
  | zero => cases m <;> simp [choose, fact, falling]
  | succ n ih =>
    cases m with
    | zero => simp [choose, fact, falling]
    | succ m =>
      have h1 := ih m
      have h2 := ih (m + 1)
      have zero : ∀ n m : Nat, n < m → falling n m = 0 := by
        intro n
        induction n with
        | zero => intro m h; cases m; omega; rfl
        | succ n ih => intro m h; cases m; omega; rw [falling, ih _ (by omega), Nat.mul_zero]
      rw [choose, Nat.add_mul, h2, falling, falling_succ, fact, Nat.mul_left_comm, h1, Nat.mul_comm (m + 1), ← Nat.mul_add]
      by_cases h : m ≤ n
      · rw [Nat.mul_comm]; congr 1; omega
      · rw [zero n m (by omega)]; simp

theorem fact_pos (n) : 0 < fact n := by
  induction n with
  | zero => decide
  | succ n ih => exact Nat.mul_pos (by omega) ih

theorem falling_le {n m : Nat} (h : m ≤ n) : fact m ≤ falling n m := by
  rw [← choose_fact]
  have : 0 < choose n m := by
    induction n generalizing m with
    | zero => cases m; decide; omega
    | succ n ih =>
      cases m with
      | zero => simp [choose]
      | succ m => have := ih (m := m) (by omega); rw [choose]; omega
  exact Nat.le_mul_of_pos_left _ this

theorem floor_nat (n : Nat) : ((n : Rat).floor).toNat = n := by
  rw [← Rat.intCast_natCast, Rat.floor_intCast]; rfl

theorem pnm_exact (m : Machine) (hfl : ∀ n : Nat, n ≤ 2 ^ 53 → m.fl n = .fin n) {n k : Nat} (hk : k ≤ n) (hn : n < 2 ^ 53)
    (hf : falling n k ≤ 2 ^ 53) : pnmC m (.fin n) (.fin k) = .fin (falling n k) := by
  have h1 : ¬ ((n : Rat) < 0 ∨ (k : Rat) < 0) := by
    simp only [not_or, Rat.not_lt]; exact ⟨Rat.natCast_nonneg, Rat.natCast_nonneg⟩
  have hle : (k : Rat) ≤ n := Rat.natCast_le_natCast.2 hk
  have h2 : max (n : Rat) k - min (n : Rat) k = ((n - k : Nat) : Rat) := by
    have e1 : max (n : Rat) k = n := by grind
    have e2 : min (n : Rat) k = k := by grind
    rw [e1, e2]
    have : ((n - k : Nat) : Rat) + k = n := by rw [← Rat.natCast_add]; congr 1; omega
    grind
  have h3 : ((n - k : Nat) : Rat) + 1 = ((n - k + 1 : Nat) : Rat) := by rw [Rat.natCast_add]; rfl
  have e1 : max (n : Rat) k = n := by grind
  unfold pnmC
  simp only [if_neg h1, h2]
  rw [hfl (n - k) (by omega)]
  simp only [h3]
  rw [hfl (n - k + 1) (by omega)]
  simp only [e1, floor_nat, productC_eq]
  rw [show n + 1 - (n - k + 1) = k by omega, fold_falling n k hk, Nat.mod_eq_of_lt (by omega), hfl _ hf]

theorem factorial_exact (m : Machine) (hfl : ∀ n : Nat, n ≤ 2 ^ 53 → m.fl n = .fin n) {n : Nat} (hf : fact n ≤ 2 ^ 53) :
    factorialC m (.fin n) = .fin (fact n) := by
  have h1 : ¬ (n : Rat) < 0 := by simp only [Rat.not_lt]; exact Rat.natCast_nonneg
  unfold factorialC
  simp only [if_neg h1, floor_nat, productC_eq]
  have := fold_falling n n (Nat.le_refl n)
  rw [Nat.sub_self, Nat.zero_add] at this
  rw [Nat.add_sub_cancel, this, falling_self, Nat.mod_eq_of_lt (by omega), hfl _ hf]

/-- C16.  Whenever no rounding happens the value is the value of exact arithmetic, with factorials, permutations
and combinations. -/
theorem C16_exact (m : Machine) (hfl : ∀ n : Nat, n ≤ 2 ^ 53 → m.fl n = .fin n) {e q} (h : Exactly m.fl e q) :
    e.value (builtin m) = .fin q := by
  induction h with
  | num h => exact h
  | add _ _ h h1 h2 => simp only [Ex.value, h1, h2]; exact h
  | sub _ _ h h1 h2 => simp only [Ex.value, h1, h2]; exact h
  | mul _ _ h h1 h2 => simp only [Ex.value, h1, h2]; exact h
  | @div a b x y _ _ h0 h h1 h2 =>
    have : (builtin m).apply .div [Dbl.fin x, Dbl.fin y] = divC m (.fin x) (.fin y) := rfl
    simp only [Ex.value, h1, h2, this, divC, if_neg h0]; exact h
  | neg _ h1 => simp only [Ex.value, h1]; rfl
  | seq _ _ h1 h2 => simp only [Ex.value, h1, h2]; rfl
  | fac _ h h1 => simp only [Ex.value, h1]; exact factorial_exact m hfl h
  | permutations _ _ hk hn hf h1 h2 => simp only [Ex.value, values, h1, h2]; exact pnm_exact m hfl hk hn hf
  | @combinations a b n k _ _ hk hn hf h1 h2 =>
    simp only [Ex.value, values, h1, h2]
    show divC m (pnmC m (.fin n) (.fin k)) (factorialC m (minD (.fin n) (.fin k))) = _
    have hle : (k : Rat) ≤ n := Rat.natCast_le_natCast.2 hk
    have e2 : min (n : Rat) k = k := by grind
    have h3 := falling_le hk
    have h4 := fact_pos k
    have hne : ((fact k : Nat) : Rat) ≠ 0 := by
      intro h
      have : ((fact k : Nat) : Rat) = ((0 : Nat) : Rat) := h
      rw [Rat.natCast_inj] at this
      omega
    rw [pnm_exact m hfl hk hn hf, minD, e2, factorial_exact m hfl (by omega), divC, if_neg hne]
    have h5 : ((falling n k : Nat) : Rat) / ((fact k : Nat) : Rat) = ((choose n k : Nat) : Rat) := by
      rw [← choose_fact, Rat.natCast_mul, Rat.div_def, Rat.mul_assoc, Rat.mul_inv_cancel _ hne, Rat.mul_one]
    rw [h5]
    refine hfl _ ?_
    have := choose_fact n k
    have : choose n k ≤ choose n k * fact k := Nat.le_mul_of_pos_right _ h4
    omega

/-- C16, the bound is needed: the product of a factorial is taken with 64 bits, and 21! is no longer right. -/
theorem C16_factorial_wraps (m : Machine) : factorialC m (.fin 21) = m.fl (14197454024290336768 : Nat) ∧
    fact 21 = 51090942171709440000 := by
  refine ⟨?_, by decide⟩
  have h : productC 1 21 = 14197454024290336768 := by decide +kernel
  have h1 : ¬ (21 : Rat) < 0 := by decide
  have h2 : (21 : Rat).floor.toNat = 21 := by decide
  simp only [factorialC, if_neg h1, h2, h]

/-! ### Non-vacuity -/

/-- `-2^2*3+1` is `((-2)^2)*3+1`; `2-3-4` is `(2-3)-4`; `sqrt 4!` is `sqrt(4!)`. -/
example : ∃ ss, Spells "-2^2 * 3+1".toList ss ∧ Writes .sequence ss
    [.add (.mul (.pow (.neg (.num 2)) (.num 2)) (.num 3)) (.num 1)] := by
  refine ⟨[.minus, .num 2, .caret, .num 2, .times, .num 3, .plus, .num 1], ?_, ?_⟩
  · have num : ∀ {c s ss} {n : Nat}, isDecimal c = true → NumberEnds s → Spells s ss → digitValue c = n →
        Spells (c :: s) (.num n :: ss) := by
      intro c s ss n hc hs h hv
      have := Literal.decimal (Digits.whole (base := 10) (isD := isDecimal) (ds := [c]) (by simp) (by simp [hc])) Exponent.none
      have h2 : ((number 10 [c] 0 : Nat) : Rat) * (10 : Rat) ^ ((0 : Int) - ((0 : Nat) : Int)) = n := by
        simp [number, hv]
      rw [h2] at this
      exact Spells.number this hs h
    have ends : ∀ {c s}, isDecimal c = false → isLetter c = false → c ≠ '_' → c ≠ '.' → NumberEnds (c :: s) := by
      intro c s h1 h2 h3 h4
      refine ⟨?_, by simp [h4]⟩
      intro d hd
      simp at hd
      subst hd
      exact ⟨h1, h2, h3⟩
    refine .operator rfl (num (n := 2) rfl (ends rfl rfl (by decide) (by decide)) (.operator rfl (num (n := 2) rfl (ends rfl rfl (by decide) (by decide))
      (.blank (Or.inl rfl) (.operator rfl (.blank (Or.inl rfl) (num (n := 3) rfl (ends rfl rfl (by decide) (by decide)) (.operator rfl
        (num (n := 1) rfl ⟨by intro d hd; simp at hd, by simp⟩ .nil rfl)) rfl)))) rfl)) rfl)
  · have minus2 : Writes .signed [.minus, .num 2] [.neg (.num 2)] :=
      Writes.signed (signs := [.minus]) (ss := [.num 2]) (by simp) (.postfix (.atom (.num 2)))
    have s : ∀ q, Writes .signed [.num q] [.num q] := fun q =>
      Writes.signed (signs := []) (ss := [.num q]) (by simp) (.postfix (.atom (.num q)))
    exact .single (.plus (.sum (.times (.product (.caret (.power minus2) (s 2))) (.power (s 3)))) (.product (.power (s 1))))

example : Writes .sequence [.num 2, .minus, .num 3, .minus, .num 4] [.sub (.sub (.num 2) (.num 3)) (.num 4)] ∧
    Writes .sequence [.name 1 .sqrt, .num 4, .bang] [.app .sqrt [.fac (.num 4)]] := by
  have s : ∀ q, Writes .products [.num q] [.num q] := fun q =>
    .product (.power (Writes.signed (signs := []) (ss := [.num q]) (by simp) (.postfix (.atom (.num q)))))
  refine ⟨.single (.minus (.minus (.sum (s 2)) (s 3)) (s 4)), ?_⟩
  have f : Writes .signed [.num 4, .bang] [.fac (.num 4)] :=
    Writes.signed (signs := []) (ss := [.num 4, .bang]) (by simp) (.postfix (.fac (.atom (.num 4))))
  exact .single (.sum (.product (.power (Writes.signed (signs := []) (by simp) (.apply1 .sqrt f)))))

example (m : Machine) : (evaluate m "pi-".toList).isNone ∧ (evaluate m "e pi".toList).isNone ∧
    (evaluate m "(e".toList).isNone ∧ (evaluate m "abc".toList).isNone ∧ (evaluate m "pow(e)".toList).isNone :=
  ⟨rfl, rfl, rfl, rfl, rfl⟩

example (m : Machine) (hfl : ∀ n : Nat, n ≤ 2 ^ 53 → m.fl n = .fin n) :
    (Ex.app .cnm [.num 5, .num 2]).value (builtin m) = .fin 10 :=
  C16_exact m hfl (Exactly.combinations (n := 5) (m := 2) (.num (hfl 5 (by decide))) (.num (hfl 2 (by decide))) (by decide) (by decide) (by decide))

end H2.Json.Expr
