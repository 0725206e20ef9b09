import Verif.SuiteFn.Global
import Verif.SuiteFn.Lemmas
/-
C103: what is declared outside of suites.
-/
namespace H2.SuiteFn

/-! Specification -/

/-- A test: its description, whether it is left to do, the block it runs and the values this is run with. -/
structure Wanted (V : Type) where
  describe : Str
  todo : Bool
  block : Nat
  values : List V

def number (n : Nat) : Str := (toString n).toList

/-- The tests a declaration is for. -/
def wanted : Top V → List (Wanted V)
  | .case_ todo d b => [⟨d, todo, b, []⟩]
  | .cases p xs b => xs.zipIdx.map fun x => ⟨p ++ " ".toList ++ number x.2 ++ ". ".toList ++ x.1.1, false, b, [x.1.2]⟩
  | .casess p xs ys b => xs.zipIdx.flatMap fun x => (ys.getD xs).zipIdx.map fun y =>
      ⟨p ++ " ".toList ++ number x.2 ++ ".".toList ++ number y.2 ++ ". ".toList ++ x.1.1 ++ ", ".toList ++ y.1.1, false, b, [x.1.2, y.1.2]⟩
  | .todos d b => [⟨d, true, b, []⟩]

/-- No list has more than 33 values. -/
def Short : Top V → Prop
  | .cases _ xs _ => xs.length ≤ 33
  | .casess _ xs ys _ => xs.length ≤ 33 ∧ (ys.getD xs).length ≤ 33
  | _ => True

/-- What the test with the number `k` does when it is run: nothing if it is left to do. -/
def blocks (ws : List (Wanted V)) (sel : Nat → Bool) (k : Nat) : List (Nat × List V) :=
  match ws[k]? with
  | some w => if w.todo = false ∧ sel k = true then [(w.block, w.values)] else []
  | none => []

/-! Proofs -/

variable {V : Type}

theorem flat_congr {α β : Type} {f g : α → List β} : ∀ {l : List α}, (∀ a ∈ l, f a = g a) → l.flatMap f = l.flatMap g
  | [], _ => rfl
  | a :: l, h => by
    rw [List.flatMap_cons, List.flatMap_cons, h a (by simp), flat_congr fun x hx => h x (by simp [hx])]

theorem index_number {n : Nat} (h : n ≤ 32) : index n = number n := by
  unfold index number
  rw [if_pos h]
  show _ = (Nat.repr n).toList
  unfold Nat.repr
  simp

/-- What is to be seen of an object: its description, whether it is left to do, and what it does if not. -/
def Object.seen (o : Object V) : Str × Bool × List (Nat × List V) := (o.describe, o.todo, if o.todo then [] else o.does)

/-- The same of a test. -/
def Wanted.seen (w : Wanted V) : Str × Bool × List (Nat × List V) := (w.describe, w.todo, if w.todo then [] else [(w.block, w.values)])

theorem zipIdx_lt {xs : List α} {x : α × Nat} (h : x ∈ xs.zipIdx) : x.2 < xs.length := by
  obtain ⟨a, i⟩ := x
  have := List.mem_zipIdx h
  simp at this
  omega

theorem fullmesh_pairs (xs : List V) (ys : Option (List V)) :
    fullmesh (xs :: ys.toList) = xs.zipIdx.flatMap fun p => (ys.getD xs).zipIdx.map fun q => (p.2, q.2, p.1, q.1) := by
  cases ys with
  | none => exact foreachx_eq 0 xs xs
  | some ys => exact foreachx_eq 0 ys xs

theorem expand_wanted (t : Top V) (h : Short t) : (expand t).map Object.seen = (wanted t).map Wanted.seen := by
  cases t with
  | case_ todo d b => rfl
  | todos d b => rfl
  | cases p xs b =>
    simp only [expand, wanted]
    rw [foreach_eq, List.map_map, List.map_map, List.map_map]
    apply List.map_congr_left
    intro x hx
    have := zipIdx_lt hx
    have hl : xs.length ≤ 33 := h
    simp only [Function.comp, Object.seen, Wanted.seen, name1, index_number (show x.2 ≤ 32 by omega)]
    simp
  | casess p xs ys b =>
    simp only [expand, wanted]
    rw [fullmesh_pairs]
    rw [List.map_map, List.map_flatMap, List.map_flatMap]
    apply flat_congr
    intro x hx
    rw [List.map_map, List.map_map]
    apply List.map_congr_left
    intro y hy
    have h1 := zipIdx_lt hx
    have h2 := zipIdx_lt hy
    obtain ⟨l1, l2⟩ : xs.length ≤ 33 ∧ (ys.getD xs).length ≤ 33 := h
    simp only [Function.comp, Object.seen, Wanted.seen, name2, index_number (show x.2 ≤ 32 by omega), index_number (show y.2 ≤ 32 by omega)]
    simp

theorem expand_all (file : List (Top V)) (h : ∀ t ∈ file, Short t) : (file.flatMap expand).map Object.seen = (file.flatMap wanted).map Wanted.seen := by
  rw [List.map_flatMap, List.map_flatMap]
  apply flat_congr
  intro t ht
  exact expand_wanted t (h t ht)

/-- The same without the descriptions, for lists of any length. -/
theorem expand_work (t : Top V) : (expand t).map (fun o => o.seen.2) = (wanted t).map (fun w => w.seen.2) := by
  cases t with
  | case_ todo d b => rfl
  | todos d b => rfl
  | cases p xs b =>
    simp only [expand, wanted]
    rw [foreach_eq, List.map_map, List.map_map, List.map_map]
    rfl
  | casess p xs ys b =>
    simp only [expand, wanted]
    rw [fullmesh_pairs, List.map_map, List.map_flatMap, List.map_flatMap]
    apply flat_congr
    intro x _
    rw [List.map_map, List.map_map]
    rfl

theorem expand_work_all (file : List (Top V)) : (file.flatMap expand).map (fun o => o.seen.2) = (file.flatMap wanted).map (fun w => w.seen.2) := by
  rw [List.map_flatMap, List.map_flatMap]
  exact flat_congr fun t _ => expand_work t

theorem enumerate_found : ∀ (os : List (Object V)) (k : Nat) (s : Global V), (∀ n ∈ s.found, n < k) →
    enumerateFrom k os s = { s with found := s.found ++ List.range' k os.length }
  | [], k, s, _ => by simp [enumerateFrom]
  | o :: os, k, s, h => by
    have hk : s.found.contains k = false := by
      rw [Bool.eq_false_iff]
      intro hc
      have := h k (by simpa using hc)
      omega
    have hcall : o.call k none s = { s with found := s.found ++ [k] } := by
      unfold Object.call
      simp only [hk]
      rfl
    rw [enumerateFrom, hcall, enumerate_found os (k + 1) _ (by
      intro n hn
      simp only [List.mem_append, List.mem_singleton] at hn
      rcases hn with hn | rfl
      · have := h n hn; omega
      · omega)]
    simp [List.range'_succ]

/-- What the object with the number `k` does in a round. -/
def doing (os : List (Object V)) (sel : Nat → Bool) (k : Nat) : List (Nat × List V) :=
  match os[k]? with
  | some o => if !o.todo && sel k then o.does else []
  | none => []

theorem round_runs (os : List (Object V)) (sel : Nat → Bool) : ∀ (order : List Nat) (s : Global V), s.found = List.range os.length →
    round os sel order s = ⟨s.found, s.trace ++ order.flatMap (doing os sel)⟩
  | [], s, _ => by simp [round]
  | k :: r, s, h => by
    rw [round, List.flatMap_cons]
    cases ho : os[k]? with
    | none =>
      simp only
      rw [round_runs os sel r s h]
      simp [doing, ho]
    | some o =>
      have hk : k < os.length := by
        rcases Nat.lt_or_ge k os.length with h | h
        · exact h
        · rw [List.getElem?_eq_none h] at ho; cases ho
      have hc : s.found.contains k = true := by rw [h]; simpa using hk
      simp only [hc, Bool.true_and]
      by_cases hb : (!o.todo && sel k) = true
      · rw [if_pos hb]
        have hcall : o.call k (some k) s = ⟨s.found, s.trace ++ o.does⟩ := by
          unfold Object.call
          simp only [hc]
          simp
        rw [hcall, round_runs os sel r ⟨s.found, s.trace ++ o.does⟩ h]
        have hd : doing os sel k = o.does := by unfold doing; rw [ho]; exact if_pos hb
        rw [hd, List.append_assoc]
      · rw [if_neg hb, round_runs os sel r s h]
        have hd : doing os sel k = [] := by unfold doing; rw [ho]; exact if_neg hb
        rw [hd, List.nil_append]

theorem rounds_run (os : List (Object V)) : ∀ (rs : List (List Nat × (Nat → Bool))) (s : Global V), s.found = List.range os.length →
    rounds os rs s = ⟨s.found, s.trace ++ rs.flatMap fun r => r.1.flatMap (doing os r.2)⟩
  | [], s, _ => by simp [rounds]
  | (order, sel) :: r, s, h => by
    rw [rounds, round_runs os sel order s h, rounds_run os r ⟨s.found, s.trace ++ order.flatMap (doing os sel)⟩ h]
    simp

theorem runAll_eq (file : List (Top V)) (rs : List (List Nat × (Nat → Bool))) :
    runAll file rs = ⟨List.range (file.flatMap expand).length, rs.flatMap fun r => r.1.flatMap (doing (file.flatMap expand) r.2)⟩ := by
  unfold runAll
  have h := enumerate_found (file.flatMap expand) 0 ({} : Global V) (by intro n hn; cases hn)
  simp only [h]
  rw [rounds_run _ _ _ (by simp [List.range_eq_range'])]
  simp [List.range_eq_range']

theorem doing_blocks (file : List (Top V)) (sel : Nat → Bool) (k : Nat) :
    doing (file.flatMap expand) sel k = blocks (file.flatMap wanted) sel k := by
  have he := congrArg (·[k]?) (expand_work_all file)
  simp only [List.getElem?_map] at he
  unfold doing blocks
  cases ho : (file.flatMap expand)[k]? with
  | none =>
    rw [ho] at he
    cases hw : (file.flatMap wanted)[k]? with
    | none => rfl
    | some w => rw [hw] at he; simp at he
  | some o =>
    rw [ho] at he
    cases hw : (file.flatMap wanted)[k]? with
    | none => rw [hw] at he; simp at he
    | some w =>
      rw [hw] at he
      simp only [Option.map_some, Option.some.injEq, Object.seen, Wanted.seen, Prod.mk.injEq] at he
      obtain ⟨ht, hd⟩ := he
      simp only
      rw [ht] at hd ⊢
      cases hb : w.todo with
      | true => simp
      | false =>
        rw [hb] at hd
        simp only [Bool.false_eq_true, if_false] at hd
        rw [hd]
        cases sel k <;> rfl

/-! Properties -/

/-- **C103.** Each declaration is for its tests: they are found once and in the order of the text, and left to do just if they are declared so. -/
theorem C103_found (file : List (Top V)) (rs : List (List Nat × (Nat → Bool))) :
    (runAll file rs).found = List.range (file.flatMap wanted).length ∧ (file.flatMap expand).map (·.todo) = (file.flatMap wanted).map (·.todo) := by
  have he := expand_work_all file
  constructor
  · rw [runAll_eq]
    have := congrArg List.length he
    simp only [List.length_map] at this
    simp only [this]
  · have := congrArg (List.map fun x : Bool × List (Nat × List V) => x.1) he
    simpa [Function.comp_def, Object.seen, Wanted.seen] using this

/-- **C103, partial (descriptions).** Tests have the descriptions made of the prefix, the numbers and the texts of their values.  Missing: lists of
more than 33 values (`C103_number_false`). -/
theorem C103_describe_partial (file : List (Top V)) (h : ∀ t ∈ file, Short t) :
    (file.flatMap expand).map (·.describe) = (file.flatMap wanted).map (·.describe) := by
  have := congrArg (List.map fun x : Str × Bool × List (Nat × List V) => x.1) (expand_all file h)
  simpa [Function.comp_def, Object.seen, Wanted.seen] using this

/-- **C103.** In every round each selected test that is not left to do runs its own block, once and with its own values as they are written,
in the order of the round, and nothing else is run. -/
theorem C103_run (file : List (Top V)) (rs : List (List Nat × (Nat → Bool))) :
    (runAll file rs).trace = rs.flatMap fun r => r.1.flatMap (blocks (file.flatMap wanted) r.2) := by
  rw [runAll_eq]
  apply flat_congr
  intro r _
  apply flat_congr
  intro k _
  exact doing_blocks file r.2 k

/-- A program with a `CASE`, a `CASES`, a `CASESS` of one list and a `TODOS`, run twice, the second time backwards and without the first test. -/
def twoRounds : List (Top Nat) :=
  [.case_ false "first".toList 0, .cases "each".toList [("1 + 1".toList, 2), ("7".toList, 7)] 1,
   .casess "pair".toList [("a".toList, 3), ("b".toList, 4)] none 2, .todos "later, (1, 2)".toList 3]

example : ∀ t ∈ twoRounds, Short t := by
  intro t ht
  simp only [twoRounds, List.mem_cons, List.not_mem_nil, or_false] at ht
  rcases ht with rfl | rfl | rfl | rfl <;> simp [Short]

example : (runAll twoRounds [([0, 1, 2, 3, 4, 5, 6, 7], fun _ => true), ([7, 6, 5, 4, 3, 2, 1, 0], (· ≠ 0))]).trace =
    [(0, []), (1, [2]), (1, [7]), (2, [3, 3]), (2, [3, 4]), (2, [4, 3]), (2, [4, 4]),
      (2, [4, 4]), (2, [4, 3]), (2, [3, 4]), (2, [3, 3]), (1, [7]), (1, [2])] := by decide +kernel

example : (twoRounds.flatMap wanted).map (·.describe) = ["first".toList, "each 0. 1 + 1".toList, "each 1. 7".toList, "pair 0.0. a, a".toList,
    "pair 0.1. a, b".toList, "pair 1.0. b, a".toList, "pair 1.1. b, b".toList, "later, (1, 2)".toList] := by decide +kernel

/-- **C103, refuted (long lists).** From the 34th value on, tests have no number in their description, but a name of a macro. -/
theorem C103_number_false : ∃ xs : List (Str × Nat), ((expand (.cases "add".toList xs 0)).map (·.describe))[33]? = some "add H2PP_INC_32. 7".toList :=
  ⟨List.replicate 34 ("7".toList, 7), by decide +kernel⟩

end H2.SuiteFn
