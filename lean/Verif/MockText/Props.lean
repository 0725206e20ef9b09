import Verif.MockText.Lemmas
/-
What is said about mocks is what happened.
-/
namespace H2.MockText
open H2.Layout (Word Line text)
open H2.Message (Fail printNormal text_append text_word text_gray)
open H2.FailTree (Chain foreach)
open H2.Mock (Checkin)
open Spec

/-- A phrase says one thing only: from what is read the numbers of calls that were expected can be told. -/
theorem C78_says {t : Text} {P Q : Int → Prop} (h : Says t P) (g : Says t Q) : ∀ c, P c ↔ Q c := says_unique h g

example : Says "between 2 and 13 times".toList (fun c => 2 ≤ c ∧ c ≤ 13) := .between 2 13

/-- **What is said to have been expected is what was.** -/
theorem C78_expect (k : Checkin) (hm : k.most ≤ 0x7fffffff) :
    ∃ P, Says (expect k) P ∧ ∀ c : Int, 0 ≤ c → c < 2 ^ 31 → (P c ↔ k.least ≤ c ∧ c ≤ k.most) := expect_says k hm

example : expect { Checkin.atleast 3 with call := 1 } = "at least 3 times".toList := by decide +kernel
example : expect (Checkin.between 2 13) = "between 2 and 13 times".toList := by decide +kernel
example : expect (Checkin.times 0) = "never called".toList := by decide +kernel

/-- The lines printed at the end of a case for a mock. -/
def endLines (m : Mock) : List Text := (foreach (check m) 0 0).map fun x => text (printNormal x.1 x.2.2)

/-- The expectations that are not met, with their numbers. -/
def unmet (m : Mock) : List (Row × Nat) :=
  m.rows.zipIdx.filter fun r => ¬ (r.1.k.least ≤ r.1.k.call ∧ r.1.k.call ≤ r.1.k.most)

theorem fails_iff (k : Checkin) (h : k.least ≤ k.most) : k.checkFails = decide (¬ (k.least ≤ k.call ∧ k.call ≤ k.most)) := by
  unfold Checkin.checkFails Checkin.isSatisfied Checkin.isSaturated
  by_cases h1 : k.least ≤ k.call <;> by_cases h2 : k.call ≤ k.most <;> by_cases h3 : k.call = k.most <;> simp [h1, h2, h3] <;> omega

theorem row_text (m : Mock) (hp : Plain m) (r : Row) (i : Nat) (hr : r ∈ m.rows) (h0 : 0 ≤ r.k.call) (hm : r.k.most ≤ 0x7fffffff) :
    Tells (1 < m.rows.length) m.fn i r.expr r.k.call r.k.least r.k.most
      (text (printNormal { explain := checkLine m.fn m.rows.length i r, seqno := (i : Int) } 1)) := by
  obtain ⟨P, h1, h2⟩ := expect_says r.k hm
  refine ⟨expect r.k, P, text (if 1 < m.rows.length then whenTh i r.expr else []), h1, h2, ⟨fun hs => ?_, fun hs => ?_⟩, ?_⟩
  · rw [if_pos hs, text_when _ _ (hp.names _ hr)]
    exact ⟨_, indexTh_position i, rfl⟩
  · rw [if_neg hs]; rfl
  · have e0 := text_normal { explain := checkLine m.fn m.rows.length i r, seqno := (i : Int) } 1 (fun p e => nomatch e)
    rw [e0]
    have e1 : text (checkLine m.fn m.rows.length i r) = m.fn ++ "() expected ".toList ++ expect r.k ++ " but actually ".toList ++ calls r.k.call ++ " called".toList ++
        text (if 1 < m.rows.length then whenTh i r.expr else []) := by
      unfold checkLine
      have e2 : "() expected ".toList = "()".toList ++ " expected ".toList := by decide
      rw [e2, text_append, text_append, text_append, text_append, text_append, text_append, text_append, text_word _ hp.fn, text_gray _ (by decide),
        text_word _ (by decide), text_delta, text_word _ (expect_esc _), text_word _ (by decide), text_delta, actual_calls _ h0, text_word _ (calls_esc _),
        text_word _ (by decide)]
      simp only [List.append_assoc]
    have e2 : List.replicate (1 * 2 + 1) ' ' = "   ".toList := by decide
    show _ ++ _ ++ text (checkLine m.fn m.rows.length i r) ++ [] = _
    rw [e1, e2, if_pos (Int.natCast_nonneg i), List.append_nil]
    simp only [List.append_assoc]

/-- **At the end of a case a mock is silent if every expectation is met**, and otherwise says which function is mocked, and then for every
expectation that is not met, and no other, in order, how many calls were expected and how many there were. -/
theorem C78_end (m : Mock) (hp : Plain m) (hk : ∀ r ∈ m.rows, 0 ≤ r.k.call ∧ r.k.least ≤ r.k.most ∧ r.k.most ≤ 0x7fffffff) :
    (unmet m = [] → endLines m = []) ∧
    (unmet m ≠ [] → ∃ ls, endLines m = title m.ret m.fn m.types m.filine :: ls ∧ ls.length = (unmet m).length ∧
      ∀ (k : Nat) r i, (unmet m)[k]? = some (r, i) → ∃ line, ls[k]? = some line ∧
        Tells (1 < m.rows.length) m.fn i r.expr r.k.call r.k.least r.k.most line) := by
  have hf : (m.rows.zipIdx.filter fun r => r.1.k.checkFails) = unmet m := by
    refine List.filter_congr fun r hr => ?_
    have := List.fst_mem_of_mem_zipIdx hr
    rw [fails_iff _ (hk _ this).2.1]
  have hc := foldl_chain m.fn m.rows.length m.rows.zipIdx []
  rw [List.nil_append, hf] at hc
  obtain ⟨fs, efs⟩ : ∃ fs : List Fail, fs = (unmet m).map fun r => ({ explain := checkLine m.fn m.rows.length r.2 r.1, seqno := (r.2 : Int) } : Fail) := ⟨_, rfl⟩
  have hcheck : check m = if fs = [] then .null else .fail (head m) (chainOf fs) .null := by
    unfold check H2.FailTree.mockerCheck
    rw [show (Chain.null : Chain Fail) = chainOf [] from rfl, hc, ← efs]
    cases fs with
    | nil => rfl
    | cons a l => rfl
  constructor
  · intro h
    rw [h] at efs
    unfold endLines
    rw [hcheck, efs]
    rfl
  · intro h
    have hne : fs ≠ [] := by
      rw [efs]
      intro e
      exact h (List.map_eq_nil_iff.mp e)
    refine ⟨fs.map fun f => text (printNormal f 1), ?_, ?_, ?_⟩
    · unfold endLines
      rw [hcheck, if_neg hne, foreach, List.map_cons, foreach, List.append_nil, text_title m hp]
      have := congrArg (List.map fun x : Fail × Nat => text (printNormal x.1 x.2)) (foreach_chain fs 0 1)
      rw [List.map_map, List.map_map] at this
      exact congrArg _ this
    · rw [efs, List.length_map, List.length_map]
    · intro k r i hki
      have hmem : (r, i) ∈ m.rows.zipIdx := by
        have := List.mem_of_getElem? hki
        exact (List.mem_filter.mp this).1
      have hr : r ∈ m.rows := List.fst_mem_of_mem_zipIdx hmem
      refine ⟨_, ?_, row_text m hp r i hr (hk r hr).1 (hk r hr).2.2⟩
      rw [efs, List.getElem?_map, List.getElem?_map, hki]
      rfl

/-- A function with two arguments and two expectations: once, which is met, and then at least three times, with one call. -/
def sample : Mock :=
  { ret := "int".toList, fn := "add".toList, types := ["int".toList, "char*".toList], filine := some "a.cpp:7".toList,
    rows := [⟨{ Checkin.once with call := 1 }, "Once".toList⟩, ⟨{ Checkin.atleast 3 with call := 1 }, "Atleast(3)".toList⟩] }

theorem sample_plain : Plain sample := ⟨by decide, by decide, by decide, by decide, by decide⟩

example : endLines sample = [" MOCK<int add(int, char*)> at a.cpp:7".toList,
    "   1. add() expected at least 3 times but actually 1 times called when 2nd Atleast(3)".toList] := by decide +kernel

example : (∀ r ∈ sample.rows, 0 ≤ r.k.call ∧ r.k.least ≤ r.k.most ∧ r.k.most ≤ 0x7fffffff) ∧ unmet sample ≠ [] := by decide

theorem text_args (args : List H2.Stringify.Val) :
    text (H2.Stringify.print true (.tuple args)) = list (args.map fun v => text (H2.Stringify.print true v)) := by
  have ht : ∀ (vs : List H2.Stringify.Val) (v : H2.Stringify.Val), H2.Stringify.enc v ++ H2.Stringify.tail vs =
      List.intercalate ", ".toList ((v :: vs).map fun v => text (H2.Stringify.print true v)) := by
    intro vs
    induction vs with
    | nil => intro v; simp [List.intercalate, H2.Stringify.tail_nil]; rfl
    | cons u vs ih =>
      intro v
      rw [H2.Stringify.tail_cons, ih u]
      simp [List.intercalate]
      rfl
  have := H2.Stringify.enc_tuple args
  refine this.trans ?_
  unfold list
  cases args with
  | nil => rfl
  | cons v vs => rw [H2.Stringify.first_cons, ht]; rfl

/-- **A call no expectation is for** is told with the function and the arguments of the call. -/
theorem C78_unexpected (m : Mock) (hp : Plain m) (args : List H2.Stringify.Val) :
    (foreach (unexpected m args) 0 0).map (fun x => text (printNormal x.1 x.2.2)) =
      [title m.ret m.fn m.types m.filine,
       "   ".toList ++ m.fn ++ list (args.map fun v => text (H2.Stringify.print true v)) ++ " unexpectedly called".toList] := by
  show [text (printNormal (head m) 0), _] = _
  rw [text_title m hp]
  congr 2
  have e0 := text_normal { explain := [m.fn] ++ H2.Stringify.print true (.tuple args) ++ color [" unexpectedly".toList] "red,bold".toList ++ [" called".toList] } 1
    (fun p e => nomatch e)
  refine e0.trans ?_
  have e1 : text ([m.fn] ++ H2.Stringify.print true (.tuple args) ++ color [" unexpectedly".toList] "red,bold".toList ++ [" called".toList]) =
      m.fn ++ list (args.map fun v => text (H2.Stringify.print true v)) ++ " unexpectedly called".toList := by
    rw [text_append, text_append, text_append, text_word _ hp.fn, text_args, text_color, text_word _ (by decide), text_word _ (by decide), List.append_assoc]
    congr 1
  have e2 : List.replicate (1 * 2 + 1) ' ' = "   ".toList := by decide
  show _ ++ _ ++ text ([m.fn] ++ H2.Stringify.print true (.tuple args) ++ color [" unexpectedly".toList] "red,bold".toList ++ [" called".toList]) ++ [] = _
  rw [e1, e2, if_neg (by show ¬ (0 : Int) ≤ -1; decide), List.append_nil, List.append_nil]
  simp only [List.append_assoc]

example : (foreach (unexpected sample [.int 3, .str "x".toList]) 0 0).map (fun x => text (printNormal x.1 x.2.2)) =
    [" MOCK<int add(int, char*)> at a.cpp:7".toList, "   add(3, \"x\") unexpectedly called".toList] := by decide +kernel

/-- A failure with the position of the argument it is the first about. -/
def positioned (x : Fail × Nat × Option Nat) : Fail × Nat :=
  ({ x.1 with seqno := match x.2.2 with | some j => (j : Int) | none => x.1.seqno }, x.2.1)

theorem about_within (rs : List (Chain Fail)) (j : Nat) :
    (((rs.zipIdx j).map fun x => numbered x.2 x.1).map (within 1)).flatten = (about j rs).map positioned := by
  induction rs generalizing j with
  | nil => rfl
  | cons r rs ih =>
    rw [List.zipIdx_cons, List.map_cons, List.map_cons, List.flatten_cons, ih]
    cases r with
    | null => rfl
    | fail a c s =>
      rw [about, List.map_append, List.map_cons, List.map_map]
      congr 1
      show _ :: (within 2 c ++ within 1 s) = _
      congr 1
      exact (List.map_id _).symm

/-- **Arguments that do not match** are told below the mock: every failure of the matchers, in order, each with the function, and, if there are
several expectations, which one; the first failure about an argument has the argument's position, and the type of that argument is the one
shown in red. -/
theorem C78_arguments (m : Mock) (hp : Plain m) (i : Nat) (row : Row) (hi : m.rows[i]? = some row) (rs : List (Chain Fail)) :
    ∃ top rest, within 0 (wrong m i (tupleMatches rs)) = (top, 0) :: rest ∧
      text (printNormal top 0) = title m.ret m.fn m.types m.filine ∧ styled "\x1b{red,bold}".toList top.explain = [] ∧
      rest.length = (about 0 rs).length ∧
      ∀ (k : Nat) g d p, (about 0 rs)[k]? = some (g, d, p) → ∃ f more, rest[k]? = some (f, d) ∧
        Added (1 < m.rows.length) m.fn m.types i row.expr (match p with | some j => (j : Int) | none => g.seqno) g f more ∧
        (∀ j, p = some j → styled "\x1b{red,bold}".toList more = (m.types[j]?).getD []) ∧
        (p = none → g.seqno < 0 → styled "\x1b{red,bold}".toList more = []) := by
  have hr : row ∈ m.rows := List.mem_of_getElem? hi
  refine ⟨head m, (within 1 (tupleMatches rs)).map fun x => (blame m i x.1, x.2), ?_, text_title m hp, signature_red m hp, ?_, ?_⟩
  · rw [← within_map]
    show (head m, 0) :: (within 1 (mapChain (blame m i) (tupleMatches rs)) ++ []) = _
    rw [List.append_nil]
  all_goals
    have hw : within 1 (tupleMatches rs) = (about 0 rs).map positioned := by
      unfold tupleMatches
      rw [within_foldl]
      exact about_within rs 0
    rw [hw]
  · rw [List.length_map, List.length_map]
  · intro k g d p hk
    refine ⟨blame m i (positioned (g, d, p)).1, more m i (positioned (g, d, p)).1.seqno row, ?_, ⟨?_, text_more m hp i _ row hr⟩, ?_, ?_⟩
    · rw [List.getElem?_map, List.getElem?_map, hk]
      rfl
    · rw [blame_more m i _ row hi]
      rfl
    · rintro j rfl
      rw [more_red m hp i _ row hr]
      exact (if_pos (Int.natCast_nonneg j)).trans rfl
    · rintro rfl hneg
      rw [more_red m hp i _ row hr]
      exact if_neg (by show ¬ 0 ≤ g.seqno; omega)

/-- A failure about the second argument, with one below it about the first element of that argument. -/
def sampleFails : List (Chain Fail) := [.null, .fail { explain := ["ListOf".toList] } (.fail { explain := ["x".toList], seqno := 0 } .null .null) .null]

example : sample.rows[1]? = some ⟨{ Checkin.atleast 3 with call := 1 }, "Atleast(3)".toList⟩ ∧
    (about 0 sampleFails).map (fun x => (text x.1.explain, x.2)) = [("ListOf".toList, 1, some 1), ("x".toList, 2, none)] ∧
    (within 0 (wrong sample 1 (tupleMatches sampleFails))).map (fun x => (text x.1.explain, x.2)) =
      [("MOCK<int add(int, char*)>".toList, 0), ("ListOfon add(int, char*) when 2nd Atleast(3)".toList, 1),
       ("xon add(int, char*) when 2nd Atleast(3)".toList, 2)] := ⟨rfl, by decide +kernel, by decide +kernel⟩

/-- A failure below the first one about an argument has a number of its own, of an element or of a matcher, and the type at that position is the
one shown in red: the failure is about the second argument, the type of the first is marked. -/
theorem C78_child_false : ∃ f ∈ within 0 (wrong sample 1 (tupleMatches sampleFails)), f.2 = 2 ∧
    styled "\x1b{red,bold}".toList f.1.explain = "int".toList :=
  ⟨_, List.mem_of_getElem? (i := 2) rfl, rfl, by decide +kernel⟩

/-- The first twenty positions are written as in English. -/
theorem C78_ordinal (i : Nat) (h : i < 20) : indexTh i = english (i + 1) := by
  have key : ∀ i : Fin 20, indexTh i.val = english (i.val + 1) := by decide +kernel
  exact key ⟨i, h⟩

/-- From the 21st expectation on it is not. -/
theorem C78_ordinal_false : indexTh 20 = "21th".toList ∧ english 21 = "21st".toList := by decide +kernel

end H2.MockText
