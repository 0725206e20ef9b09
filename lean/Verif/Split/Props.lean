import Verif.Split.Lemmas
/-
C59  The message of a failed `OK(left op right)` names the two operands as they are written.
-/
namespace H2.Split

/-- Whatever the expression: nothing is invented and nothing but the operator and the blanks around it is lost.
The whole text is shown, or the texts left and right of an operator in it. -/
theorem C59_lossless (text op : List Char) (hop : op ∈ operators) :
    sides text op = ([], text) ∨
      ∃ left right, text = left ++ op ++ right ∧ Trimmed left right (sides text op).1 (sides text op).2 := by
  have finish : ∀ k t, findCompare text op = some k → text = text.take k ++ op ++ t → k ≤ text.length →
      ∃ left right, text = left ++ op ++ right ∧ Trimmed left right (sides text op).1 (sides text op).2 := by
    intro k t hk ht hl
    refine ⟨text.take k, t, ht, ?_⟩
    have hd : text.drop (k + op.length) = t := by
      conv => lhs; rw [ht]
      have : (text.take k ++ op).length = k + op.length := by simp [Nat.min_eq_left hl]
      rw [← this, List.drop_left]
    unfold sides
    rw [hk]
    simp only
    rw [hd]
    exact trimmed _ _
  cases hf : findCompare text op with
  | none => left; unfold sides; rw [hf]
  | some k =>
    right
    by_cases h2 : op.length = 2
    · have hf' := hf
      unfold findCompare at hf'
      rw [if_pos h2] at hf'
      obtain ⟨t, ht, hl⟩ := findTwo_sound hf'
      exact finish k t hf ht hl
    · have h2 := h2
      simp only [operators, List.mem_cons, List.not_mem_nil, or_false] at hop
      rcases hop with rfl | rfl | rfl | rfl | rfl | rfl
      · exact absurd rfl h2
      · exact absurd rfl h2
      · exact absurd rfl h2
      · exact absurd rfl h2
      · have hf' : findGreater false 0 text = some k := hf
        obtain ⟨t, ht⟩ := findGreater_sound hf'
        have hk : k ≤ text.length := by
          apply Classical.byContradiction
          intro hn
          rw [List.take_of_length_le (by omega)] at ht
          have := congrArg List.length ht
          simp at this
        exact finish k t hf (by simpa using ht) hk
      · have hf' : (findLess false 0 text.reverse).map (fun k => text.length - 1 - k) = some k := hf
        cases hl : findLess false 0 text.reverse with
        | none => simp [hl] at hf'
        | some j =>
          simp only [hl, Option.map_some, Option.some.injEq] at hf'
          obtain ⟨t, ht⟩ := findLess_sound hl
          have hj : j < text.length := by
            apply Classical.byContradiction
            intro hn
            rw [List.take_of_length_le (by simp; omega)] at ht
            have := congrArg List.length ht
            simp at this
          have hlen := congrArg List.length ht
          simp only [List.length_reverse, List.length_append, List.length_take, List.length_cons] at hlen
          have ht2 : text = t.reverse ++ '<' :: (text.reverse.take j).reverse := by
            have := congrArg List.reverse ht
            simpa using this
          have hk : k = t.reverse.length := by simp; omega
          refine finish k (text.reverse.take j).reverse hf ?_ (by omega)
          have : text.take k = t.reverse := by
            rw [hk]
            conv => lhs; rw [ht2]
            rw [List.take_left]
          rw [this]
          conv => lhs; rw [ht2]
          simp

example : sides "f(x) + 1  ==  g(\"a == b\")".toList "==".toList = ("f(x) + 1".toList, "g(\"a == b\")".toList) := by decide +kernel

/-- `==`, `!=`, `>=` and `<=`: the operands are shown, whatever the right one is, when the operator does not occur in the
left one outside of string literals.  Missing: see `C59_refuted`. -/
theorem C59_two_partial (left op right : List Char) (hop : op ∈ ["==".toList, "!=".toList, ">=".toList, "<=".toList])
    (hl : Clear op left) : Trimmed left right (sides (left ++ op ++ right) op).1 (sides (left ++ op ++ right) op).2 := by
  have h2 : op.length = 2 ∧ op.head? ≠ some '"' := by
    simp only [List.mem_cons, List.not_mem_nil, or_false] at hop
    rcases hop with rfl | rfl | rfl | rfl <;> decide
  have : findCompare (left ++ op ++ right) op = some left.length := by
    unfold findCompare
    rw [if_pos h2.1, List.append_assoc]
    exact findTwo_clear h2.1 h2.2 hl right
  unfold sides
  rw [this]
  simp only
  rw [← List.length_append, List.drop_left, List.append_assoc, List.take_left]
  exact trimmed _ _

example : Clear "==".toList "a[\"==\"] = 2 ".toList := by
  refine .plain (by decide) (by decide) (.plain (by decide) (by decide) ?_)
  exact .literal (s := "==".toList) (by decide)
    (.plain (by decide) (by decide) (.plain (by decide) (by decide) (.plain (by decide) (by decide)
      (.plain (by decide) (by decide) (.plain (by decide) (by decide) (.plain (by decide) (by decide) .nothing))))))

/-- `>`: the operands are shown, whatever the right one is, when the angle brackets of the left one belong together in
pairs.  Missing: see `C59_refuted`. -/
theorem C59_greater_partial (left right : List Char) (hl : Balanced left) :
    Trimmed left right (sides (left ++ ">".toList ++ right) ">".toList).1 (sides (left ++ ">".toList ++ right) ">".toList).2 := by
  have : findCompare (left ++ ">".toList ++ right) ">".toList = some left.length := by
    show findGreater false 0 (left ++ ">".toList ++ right) = some left.length
    rw [List.append_assoc, findGreater_balanced hl]
    show Option.map _ (findGreater false 0 ('>' :: right)) = _
    rw [findGreater]
    simp
  unfold sides
  rw [this]
  simp only
  rw [← List.length_append, List.drop_left, List.append_assoc, List.take_left]
  exact trimmed _ _

example : Balanced "max<int>(a)".toList := by
  refine .plain (by decide) (by decide) (by decide) (.plain (by decide) (by decide) (by decide) (.plain (by decide) (by decide) (by decide) ?_))
  exact .angled (b := "int".toList) (.plain (by decide) (by decide) (by decide) (.plain (by decide) (by decide) (by decide) (.plain (by decide) (by decide) (by decide) .nothing)))
    (.plain (by decide) (by decide) (by decide) (.plain (by decide) (by decide) (by decide) (.plain (by decide) (by decide) (by decide) .nothing)))
example : sides "max<int>(a) > b > c".toList ">".toList = ("max<int>(a)".toList, "b > c".toList) := by decide +kernel

/-- `<`: the operands are shown, whatever the left one is, when the angle brackets of the right one belong together in
pairs.  Missing: see `C59_refuted`. -/
theorem C59_less_partial (left right : List Char) (hr : Balanced right) :
    Trimmed left right (sides (left ++ "<".toList ++ right) "<".toList).1 (sides (left ++ "<".toList ++ right) "<".toList).2 := by
  have : findCompare (left ++ "<".toList ++ right) "<".toList = some left.length := by
    show (findLess false 0 (left ++ "<".toList ++ right).reverse).map
      (fun k => (left ++ "<".toList ++ right).length - 1 - k) = some left.length
    rw [List.reverse_append, findLess_balanced hr, List.reverse_append]
    show Option.map _ (Option.map _ (findLess false 0 ('<' :: left.reverse))) = _
    rw [findLess]
    simp
  unfold sides
  rw [this]
  simp only
  rw [← List.length_append, List.drop_left, List.append_assoc, List.take_left]
  exact trimmed _ _

example : sides "a < max<int>(b)".toList "<".toList = ("a".toList, "max<int>(b)".toList) := by decide +kernel

/-- Without the operator in the text (it comes from a macro, say) the whole text is shown. -/
theorem C59_whole (text op : List Char) (hop : op ∈ operators)
    (h : if op.length = 2 then Without op text else Balanced text) : sides text op = ([], text) := by
  have : findCompare text op = none := by
    simp only [operators, List.mem_cons, List.not_mem_nil, or_false] at hop
    rcases hop with rfl | rfl | rfl | rfl | rfl | rfl
    · exact findTwo_none (by decide) (by decide) (by simpa using h)
    · exact findTwo_none (by decide) (by decide) (by simpa using h)
    · exact findTwo_none (by decide) (by decide) (by simpa using h)
    · exact findTwo_none (by decide) (by decide) (by simpa using h)
    · have h : Balanced text := by simpa using h
      show findGreater false 0 text = none
      have := findGreater_balanced h 0 []
      simpa [findGreater] using this
    · have h : Balanced text := by simpa using h
      show (findLess false 0 text.reverse).map _ = none
      have := findLess_balanced h 0 []
      simp only [List.append_nil, findLess, Option.map_none] at this
      rw [this]
      rfl
  unfold sides
  rw [this]

example : sides "SAME(a, b)".toList "==".toList = ([], "SAME(a, b)".toList) := by decide +kernel

/-- Not for every expression: an arrow is taken for a comparison, or hides one; so does a shift; an escaped quotation mark, or
one as a character, hides the operator. -/
theorem C59_refuted :
    sides "p->n > 0".toList ">".toList = ("p-".toList, "n > 0".toList) ∧
    sides "0 < p->n".toList "<".toList = ([], "0 < p->n".toList) ∧
    sides "1 << n > m".toList ">".toList = ([], "1 << n > m".toList) ∧
    sides "s == \"\\\"\"".toList "==".toList = ("s".toList, "\"\\\"\"".toList) ∧
    sides "\"\\\"\" == s".toList "==".toList = ([], "\"\\\"\" == s".toList) ∧
    sides "'\"' == c".toList "==".toList = ([], "'\"' == c".toList) := by decide +kernel

end H2.Split
