import Verif.Macro.Codes
/-
The names with an index in them.
-/
namespace H2.Macro

/-! ### The index -/

/-- The letters of `H2PP_INC_`. -/
def incL : List Char := ['H', '2', 'P', 'P', '_', 'I', 'N', 'C', '_']

/-- `H2PP_INC_` several times. -/
def incs : Nat → List Char
  | 0 => ['3', '2']
  | n + 1 => incL ++ incs n

/-- The letters of an index. -/
def letters (i : Nat) : List Char := if i ≤ 32 then Nat.toDigits 10 i else incs (i - 32)

/-- The token that stands for an index: a number up to 32. -/
def idx (i : Nat) : Tok := if i ≤ 32 then .num (toString i) else .id (String.ofList (incs (i - 32)))

/-- The letters of a name or number. -/
def word : Tok → String
  | .id s => s
  | .num s => s
  | _ => ""

theorem idx_word (i : Nat) : idx i = .num (word (idx i)) ∨ idx i = .id (word (idx i)) := by
  unfold idx
  split
  · exact .inl rfl
  · exact .inr rfl

theorem word_idx (i : Nat) : word (idx i) = String.ofList (letters i) := by
  unfold idx letters
  split
  · rfl
  · rfl

/-- The letters of `_H2PP_EQ__0__`. -/
def eqL : List Char := ['_', 'H', '2', 'P', 'P', '_', 'E', 'Q', '_', '_', '0', '_', '_']

theorem eq_word (i : Nat) : "_H2PP_EQ" ++ "__" ++ "0" ++ "__" ++ word (idx i) = String.ofList (eqL ++ letters i) := by
  have e : "_H2PP_EQ" ++ "__" ++ "0" ++ "__" = String.ofList eqL := by decide +kernel
  rw [e, word_idx, String.ofList_append]

theorem inc_word (i : Nat) : "H2PP_INC_" ++ word (idx i) = String.ofList (incL ++ letters i) := by
  have e : "H2PP_INC_" = String.ofList incL := rfl
  rw [e, word_idx, String.ofList_append]

theorem begins_eqL (l : List Char) : begins (eqL ++ l) = true := by simp [begins, eqL]

theorem begins_incL (l : List Char) : begins (incL ++ l) = true := by simp [begins, incL]

theorem small_incL (l : List Char) : small (incL ++ l) = true := by simp [small, incL]

theorem eq_absent : ∀ i : Fin 64, i.val ≠ 0 → within (code (eqL ++ letters i)) codes = false := by decide +kernel

theorem inc_absent : ∀ i : Fin 64, 32 ≤ i.val → within (code (incL ++ letters i)) codes = false := by decide +kernel

theorem inc_there : ∀ i : Fin 32, table[200 + i.val]? = some (String.ofList (incL ++ letters i), Macro.mk none [.tok (.num (toString (i.val + 1)))]) := by decide +kernel

theorem idx_eq0 (i : Fin 64) : table.lookup ("_H2PP_EQ" ++ "__" ++ "0" ++ "__" ++ word (idx i)) =
    (if i.val = 0 then some (Macro.mk none [.tok (.id "H2PP_PROBE"), .tok .lp, .tok .rp]) else none) ∧ reserved ("_H2PP_EQ" ++ "__" ++ "0" ++ "__" ++ word (idx i)) = true := by
  rw [eq_word]
  refine ⟨?_, reserved_begins (begins_eqL _)⟩
  by_cases h : i.val = 0
  · rw [if_pos h, h]
    exact lookup_at table_codes codes_nodup (i := 104) rfl
  · rw [if_neg h]
    exact lookup_absent table_codes (eq_absent i h)

theorem idx_inc (i : Fin 64) : table.lookup ("H2PP_INC_" ++ word (idx i)) = (if i.val < 32 then some (Macro.mk none [.tok (.num (toString (i.val + 1)))]) else none) ∧
    reserved ("H2PP_INC_" ++ word (idx i)) = true ∧ (∀ {N : List String} [Free N], rank N ("H2PP_INC_" ++ word (idx i)) = 1) ∧
    "H2PP_INC_" ++ word (idx i) ∉ ["_H2PP_CAT2", "H2PP_CAT2"] := by
  rw [inc_word]
  refine ⟨?_, reserved_begins (begins_incL _), rank_small (begins_incL _) (small_incL _), ?_⟩
  · by_cases h : i.val < 32
    · rw [if_pos h]
      exact lookup_at table_codes codes_nodup (inc_there ⟨i, h⟩)
    · rw [if_neg h]
      exact lookup_absent table_codes (inc_absent i (by omega))
  · have e1 : "_H2PP_CAT2" = String.ofList ['_', 'H', '2', 'P', 'P', '_', 'C', 'A', 'T', '2'] := rfl
    have e2 : "H2PP_CAT2" = String.ofList ['H', '2', 'P', 'P', '_', 'C', 'A', 'T', '2'] := rfl
    rw [e1, e2]
    simp only [List.mem_cons, String.ofList_inj, List.not_mem_nil, or_false]
    simp [incL]

theorem idx_plain (i : Fin 64) (h : 32 < i.val) : reserved (word (idx i)) = true ∧ table.lookup (word (idx i)) = none := by
  have e : letters i.val = incL ++ letters (i.val - 1) := by
    unfold letters
    rw [if_neg (by omega)]
    by_cases h' : i.val - 1 ≤ 32
    · have : i.val = 33 := by omega
      rw [this]; decide
    · rw [if_neg h']
      obtain ⟨k, hk⟩ : ∃ k, i.val = k + 34 := ⟨i.val - 34, by omega⟩
      have e1 : i.val - 32 = (i.val - 1 - 32) + 1 := by omega
      rw [e1, incs]
  rw [word_idx, e]
  exact ⟨reserved_begins (begins_incL _), lookup_absent table_codes (inc_absent ⟨i.val - 1, by omega⟩ (by simp; omega))⟩

end H2.Macro
