import Verif.Macro.Rules
import Verif.Macro.Spec
/-
The macros of the library one by one.
-/
namespace H2.Macro

theorem defs_some {user : String → Option Macro} {s : String} {m : Macro} (h : table.lookup s = some m) : defs user s = some m := by
  unfold defs; rw [h]

theorem defs_none {user : String → Option Macro} (hu : Apart user) {s : String} (h : table.lookup s = none) (hr : reserved s = true) :
    defs user s = none := by
  unfold defs; rw [h]; exact hu s hr

/-- Names that are not kept for the library. -/
class Free (N : List String) : Prop where
  free : ∀ s ∈ N, reserved s = false

/-- Ranks: a macro is only used by macros of higher rank.  (Only a means of the proofs.) -/
def ranks : List (String × Nat) := [
  ("H2PP_COMMA", 0), ("H2PP_EMPTY", 0), ("_H2PP_64TH", 0), ("__H2PP_FOREACH", 0), ("__H2PP_REPEAT", 0), ("__H2PP_LAST", 0), ("__H2PP_FOREACHx", 0),
  ("__H2PP_FOREACHy", 0), ("_H2PP_REMOVE_PARENTHESES", 0), ("_H2PP_HEAD_0_R", 0), ("_H2PP_TAIL_0_R", 0), ("_H2PP_IS_BEGIN_PARENTHESIS_PROBE", 0),
  ("H2PP_PROBE", 0), ("_H2PP_IS_EMPTY_CASE_0001", 0), ("_H2PP_NOT_0", 1), ("_H2PP_TH1", 1), ("H2PP_RESCAN", 1), ("_H2PP_CAT2", 1), ("_H2PP_CAT5", 1),
  ("H2PP_CAT", 2), ("H2PP_CAT2", 2), ("H2PP_CAT5", 2), ("_H2PP_PROXY", 2), ("H2PP_PROXY", 3), ("H2PP_IS_PROBE", 3), ("H2PP_HAS_COMMA", 4),
  ("H2PP_ARG_COUNT", 4), ("H2PP_EQ", 4), ("H2PP_NOT", 4), ("_H2PP_IS_EMPTY", 5), ("H2PP_IS_EMPTY", 6), ("H2PP_REMOVE_PARENTHESES", 1), ("H2PP_DEFER",
  1), ("_H2PP_COMPL_0", 0), ("_H2PP_COMPL_1", 0), ("H2PP_COMPL", 5), ("H2PP_BOOL", 6), ("_H2PP_AND_0", 0), ("_H2PP_AND_1", 0), ("H2PP_AND", 7),
  ("_H2PP_NARG_0", 7), ("_H2PP_NARG_1", 7), ("_H2PP_HEAD_0", 7), ("_H2PP_HEAD_1", 7), ("_H2PP_TAIL_0", 7), ("_H2PP_TAIL_1", 7), ("_H2PP_IF_ELSE_0",
  7), ("_H2PP_IF_ELSE_1", 7), ("H2PP_IS_BEGIN_PARENTHESIS", 7), ("H2PP_IF_ELSE", 8), ("H2PP_HEAD", 8), ("H2PP_TAIL", 8), ("H2PP_NARG", 8),
  ("H2PP_VCALL", 9), ("H2PP_NCALL", 9), ("H2PP_IS_PARENTHESIS", 9), ("_H2PP_REMOVE_PARENTHESES_IF_0", 10), ("_H2PP_REMOVE_PARENTHESES_IF_1", 10),
  ("H2PP_REMOVE_PARENTHESES_IF", 11), ("_H2PP_FOREACH_CALL_MACRO_0", 12), ("_H2PP_FOREACH_CALL_MACRO_1", 12), ("_H2PP_FOREACH_CALL_MACRO", 13),
  ("_H2PP_FOREACH_0", 14), ("_H2PP_FOREACH_1", 14), ("_H2PP_FOREACH", 15), ("_H2PP_REPEAT_CALL_MACRO_0", 12), ("_H2PP_REPEAT_CALL_MACRO_1", 12),
  ("_H2PP_REPEAT_CALL_MACRO", 13), ("_H2PP_REPEAT_0", 14), ("_H2PP_REPEAT_1", 14), ("_H2PP_REPEAT", 15), ("_H2PP_FULLMESH_CALL_MACRO_0", 12),
  ("_H2PP_FULLMESH_CALL_MACRO_1", 12), ("_H2PP_FULLMESH_CALL_MACRO", 13), ("_H2PP_FOREACHy_0", 14), ("_H2PP_FOREACHy_1", 14), ("_H2PP_FOREACHy", 15),
  ("_H2PP_FOREACHx_0", 16), ("_H2PP_FOREACHx_1", 16), ("_H2PP_FOREACHx", 17), ("_H2PP_LAST_0_0", 14), ("_H2PP_LAST_0_1", 14), ("_H2PP_LAST_0", 15),
  ("_H2PP_LAST_1", 15), ("_H2PP_LAST", 16), ("_H2PP_EVAL_1", 20), ("_H2PP_EVAL_2", 21), ("_H2PP_EVAL_4", 22), ("_H2PP_EVAL_8", 23), ("_H2PP_EVAL_16",
  24), ("_H2PP_EVAL_32", 25), ("_H2PP_EVAL_64", 26), ("_H2PP_EVAL_128", 27), ("H2PP_EVAL", 28), ("H2PP_FOREACH", 30), ("H2PP_REPEAT", 30),
  ("H2PP_LAST", 30), ("H2PP_FULLMESH2", 30), ("_H2PP_FULLMESH2_0_R", 31), ("_H2PP_FULLMESH2_0", 32), ("_H2PP_FULLMESH2_1", 32), ("H2PP_FULLMESH1",
  33), ("_H2PP_FULLMESH1_0", 34), ("_H2PP_FULLMESH1_1", 34), ("H2PP_FULLMESH", 35), ("_H2ForeachMacro", 0), ("_H2FullmeshMacro", 0), ("H2Foreach",
  40), ("H2Fullmesh", 40)]

/-- The rank of a macro. -/
def rank (N : List String) (s : String) : Nat :=
  if s ∈ N then 0
  else if "_H2PP_EQ__".toList.isPrefixOf s.toList || "H2PP_INC_".toList.isPrefixOf s.toList || "H2PP_DEC_".toList.isPrefixOf s.toList then 1
  else (ranks.lookup s).getD 100

/-- No macro of a rank below `k` is being replaced. -/
def Ok (N : List String) (k : Nat) (D : List String) : Prop := ∀ s ∈ D, k ≤ rank N s

theorem Ok.mono {N : List String} {k j : Nat} {D : List String} (h : Ok N k D) (hj : j ≤ k) : Ok N j D := fun s hs => Nat.le_trans hj (h s hs)

theorem Ok.not_mem {N : List String} {k : Nat} {D : List String} (h : Ok N k D) {s : String} (hs : rank N s < k) : s ∉ D :=
  fun hm => absurd (h s hm) (by omega)

theorem ok_append {N : List String} {k : Nat} {D E : List String} : Ok N k (D ++ E) ↔ Ok N k D ∧ Ok N k E := by
  unfold Ok; simp only [List.mem_append]
  exact ⟨fun h => ⟨fun s hs => h s (.inl hs), fun s hs => h s (.inr hs)⟩, fun h s hs => hs.elim (h.1 s) (h.2 s)⟩

theorem ok_cons {N : List String} {k : Nat} {s : String} {E : List String} : Ok N k (s :: E) ↔ k ≤ rank N s ∧ Ok N k E := by
  unfold Ok; simp only [List.mem_cons]
  exact ⟨fun h => ⟨h s (.inl rfl), fun t ht => h t (.inr ht)⟩, fun h t ht => ht.elim (fun e => e ▸ h.1) (h.2 t)⟩

theorem ok_nil {N : List String} {k : Nat} : Ok N k [] := fun _ h => nomatch h

theorem rank_reserved {N : List String} [hN : Free N] {s : String} (h : reserved s = true) {c : Nat} (hc : rank [] s = c) : rank N s = c := by
  rw [← hc]
  unfold rank
  rw [if_neg (fun hm => by have := hN.free s hm; rw [h] at this; exact absurd this (by simp) : ¬ s ∈ N), if_neg (List.not_mem_nil : ¬ s ∈ [])]

theorem rank_free {N : List String} {s : String} (h : s ∈ N) : rank N s = 0 := by unfold rank; rw [if_pos h]

end H2.Macro
