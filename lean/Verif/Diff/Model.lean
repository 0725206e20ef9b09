/-
Model of `/repo/source/utils/h2_diff.cpp`: edit distance and longest common subsequence.
-/
namespace H2.Diff

/-! ### Edit distance -/

/-- Character comparison, `/repo/source/utils/h2_diff.cpp:10`. -/
def charEq (caseless : Bool) (x y : Char) : Bool :=
  if caseless then x.toLower == y.toLower else x == y

/-- The inner loop, `/repo/source/utils/h2_diff.cpp:9-12`: `left` is `col[j]`, the second list is
`prevCol` from index `j` on. -/
def colLoop (caseless : Bool) (x : Char) (left : Nat) : List Char → List Nat → List Nat
  | y :: ys, p0 :: p1 :: ps =>
    let v := min (min (1 + left) (1 + p1)) (p0 + (if charEq caseless x y then 0 else 1))
    v :: colLoop caseless x v ys (p1 :: ps)
  | _, _ => []

/-- The outer loop, `/repo/source/utils/h2_diff.cpp:7-14`; the swap makes the new column the
previous one. -/
def rowLoop (caseless : Bool) (s2 : List Char) : List Char → Nat → List Nat → List Nat
  | [], _, prev => prev
  | x :: s1, i, prev => rowLoop caseless s2 s1 (i + 1) ((i + 1) :: colLoop caseless x (i + 1) s2 prev)

/-- `levenshtein`, `/repo/source/utils/h2_diff.cpp:2-16`; `none` would be a read outside of
`prevCol`. -/
def levenshtein (caseless : Bool) (s1 s2 : List Char) : Option Nat :=
  (rowLoop caseless s2 s1 0 (List.range (s2.length + 1)))[s2.length]?

/-- `estimate`, `/repo/source/utils/h2_diff.cpp:19-24`, over exact rationals. -/
def estimate (caseless : Bool) (s1 s2 : List Char) : Option Rat :=
  if s1.length = 0 ∧ s2.length = 0 then some 1
  else (levenshtein caseless s1 s2).map (fun d : Nat => 1 - (d : Rat) / (((s1.length + s2.length : Nat) : Rat) * (1 / 2)))

/-! ### Longest common subsequence -/

/-- A cell of the matrix, `/repo/source/utils/h2_diff.cpp:31-34`: `c` (24 bits in the code, so
sequences below 2^24 characters) and `e`.  The fields `d` and `p` are the direction taken and the mark of
the traceback, represented by its recursion and its result. -/
structure Cell where
  c : Nat := 0
  e : Bool := false
deriving DecidableEq, Repr

abbrev Mat := Nat → Nat → Cell

/-- Assignment `m[i][j] = v`. -/
def Mat.set (m : Mat) (i j : Nat) (v : Cell) : Mat := fun a b => if a = i ∧ b = j then v else m a b

section
variable {α : Type} (eq : α → α → Bool) (s1 s2 : List α)

/-- `s1[i].equals(s2[j], caseless)` for indices in range, `/repo/source/utils/h2_diff.cpp:43`. -/
def eqAt (i j : Nat) : Bool :=
  match s1[i]?, s2[j]? with
  | some a, some b => eq a b
  | _, _ => false

/-- One cell, `/repo/source/utils/h2_diff.cpp:43-53`. -/
def calcCell (m : Mat) (i j : Nat) : Mat :=
  if eqAt eq s1 s2 (i - 1) (j - 1) then m.set i j { c := (m (i - 1) (j - 1)).c + 1, e := true }
  else if (m (i - 1) j).c > (m i (j - 1)).c then m.set i j { c := (m (i - 1) j).c, e := false }
  else m.set i j { c := (m i (j - 1)).c, e := false }

/-- The inner loop up to column `j`, `/repo/source/utils/h2_diff.cpp:42-54`. -/
def calcRow (m : Mat) (i : Nat) : Nat → Mat
  | 0 => m
  | j + 1 => calcCell eq s1 s2 (calcRow m i j) i (j + 1)

/-- The outer loop up to row `i`, `/repo/source/utils/h2_diff.cpp:41-55`, from the zero matrix. -/
def fillTo : Nat → Mat
  | 0 => fun _ _ => {}
  | i + 1 => calcRow eq s1 s2 (fillTo i) (i + 1) s2.length

/-- `LCS_traceback`, `/repo/source/utils/h2_diff.cpp:58-78`: the cells marked `p`. -/
def traceback (m : Mat) : Nat → Nat → List (Nat × Nat)
  | 0, _ => []
  | _ + 1, 0 => []
  | i + 1, j + 1 =>
    if (m (i + 1) (j + 1)).e || ((m i j).c ≥ (m i (j + 1)).c && (m i j).c ≥ (m (i + 1) j).c) then
      if (m (i + 1) (j + 1)).e then (i + 1, j + 1) :: traceback m i j else traceback m i j
    else if (m i (j + 1)).c > (m (i + 1) j).c then traceback m i (j + 1)
    else traceback m (i + 1) j
  termination_by i j => i + j

/-- `lcs`, `/repo/source/utils/h2_diff.cpp:80-98`: the two mark vectors. -/
def lcs : List Bool × List Bool :=
  let marks := traceback (fillTo eq s1 s2 s1.length) s1.length s2.length
  ((List.range s1.length).map (fun i => (List.range s2.length).any (fun j => marks.contains (i + 1, j + 1))),
   (List.range s2.length).map (fun j => (List.range s1.length).any (fun i => marks.contains (i + 1, j + 1))))

end

end H2.Diff
