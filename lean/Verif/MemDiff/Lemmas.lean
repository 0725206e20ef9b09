import Verif.MemDiff.Model
import Verif.MemDiff.Spec
import Verif.Layout.Props
/-
Lemmas about the comparison of two areas of memory.
-/
namespace H2.MemDiff
open H2.Layout (Line Word cellsFrom cells Style)

/-! ### What is seen of a line -/

def ctrl (style : Word) : Word := "\x1b{".toList ++ style ++ "}".toList

def marksFrom (style : Word) (st : Option Word) (l : Line) : List (Char × Bool) := (cellsFrom st l).map (look style)

/-- `seg` shows `m`, whatever follows, unless the style is set before it; afterwards the style is not set. -/
def Seg (style : Word) (seg : Line) (m : List (Char × Bool)) : Prop :=
  ∀ st, st ≠ some (ctrl style) → ∃ st', st' ≠ some (ctrl style) ∧ ∀ rest, marksFrom style st (seg ++ rest) = m ++ marksFrom style st' rest

theorem Seg.nil (style : Word) : Seg style [] [] := fun st h => ⟨st, h, fun _ => rfl⟩

theorem Seg.append {style : Word} {a b : Line} {m n : List (Char × Bool)} (ha : Seg style a m) (hb : Seg style b n) : Seg style (a ++ b) (m ++ n) := by
  intro st h
  obtain ⟨s1, h1, e1⟩ := ha st h
  obtain ⟨s2, h2, e2⟩ := hb s1 h1
  refine ⟨s2, h2, fun rest => ?_⟩
  rw [List.append_assoc, e1, e2, List.append_assoc]

theorem Seg.flatMap {α : Type} {style : Word} (l : List α) (f : α → Line) (m : α → List (Char × Bool)) (h : ∀ x ∈ l, Seg style (f x) (m x)) :
    Seg style (l.flatMap f) (l.flatMap m) := by
  induction l with
  | nil => exact Seg.nil style
  | cons x l ih =>
    rw [List.flatMap_cons, List.flatMap_cons]
    exact (h x (by simp)).append (ih fun y hy => h y (by simp [hy]))

theorem Seg.word {style w : Word} (hw : ¬ Style w) : Seg style [w] (w.map (·, false)) := by
  intro st h
  refine ⟨st, h, fun rest => ?_⟩
  unfold marksFrom
  have : cellsFrom st ([w] ++ rest) = w.map (fun c => (st, c)) ++ cellsFrom st rest := by
    show cellsFrom st (w :: rest) = _
    rw [cellsFrom, if_neg hw]
  rw [this, List.map_append, List.map_map]
  congr 1
  apply List.map_congr_left
  intro c _
  simp only [Function.comp, look]
  have : (st == some ("\x1b{".toList ++ style ++ "}".toList)) = false := by
    rw [beq_eq_false_iff_ne]; exact h
  rw [this, Bool.and_false]

theorem style_ctrl (style : Word) : Style (ctrl style) := ⟨style ++ ['}'], rfl⟩

theorem Seg.styled {style w : Word} (hw : ¬ Style w) (hs : style ≠ "reset".toList) : Seg style (styled style w) (w.map fun c => (c, c != ' ')) := by
  intro st _
  refine ⟨some (ctrl "reset".toList), ?_, fun rest => ?_⟩
  · simp only [ne_eq, Option.some.injEq, ctrl]
    intro h
    apply hs
    have := List.append_cancel_right h
    exact (List.append_cancel_left this).symm
  · unfold marksFrom
    have : cellsFrom st (H2.MemDiff.styled style w ++ rest) = w.map (fun c => (some (ctrl style), c)) ++ cellsFrom (some (ctrl "reset".toList)) rest := by
      show cellsFrom st (ctrl style :: w :: ctrl "reset".toList :: rest) = _
      rw [cellsFrom, if_pos (style_ctrl _), cellsFrom, if_neg hw, cellsFrom, if_pos (style_ctrl _)]
    rw [this, List.map_append, List.map_map]
    congr 1
    apply List.map_congr_left
    intro c _
    simp only [Function.comp, look, ctrl]
    simp

theorem Seg.marks {style : Word} {l : Line} {m : List (Char × Bool)} (h : Seg style l m) : (cells l).map (look style) = m := by
  obtain ⟨st, -, e⟩ := h none (by simp)
  have := e []
  simp only [List.append_nil, marksFrom] at this
  rw [show cellsFrom st [] = [] from rfl] at this
  simpa [cells] using this

theorem compared_left (equal : Bool) {e : Word} (a : Word) (he : ¬ Style e) :
    Seg "green".toList (compared equal e a).1 (e.map fun c => (c, c != ' ' && !equal)) := by
  unfold compared
  cases equal
  · simpa using Seg.styled (style := "green".toList) he (by decide)
  · simpa using Seg.word (style := "green".toList) he

theorem compared_right (equal : Bool) (e : Word) {a : Word} (ha : ¬ Style a) :
    Seg "bold,red".toList (compared equal e a).2 (a.map fun c => (c, c != ' ' && !equal)) := by
  unfold compared
  cases equal
  · simpa using Seg.styled (style := "bold,red".toList) ha (by decide)
  · simpa using Seg.word (style := "bold,red".toList) ha

theorem not_style_head {w : Word} (h : w.head? ≠ some '\x1b') : ¬ Style w := by
  rintro ⟨r, e⟩
  rw [e] at h
  exact h rfl

/-! ### Collecting -/

theorem collect_some (l : List Sides) : collect (l.map some) = some (l.flatMap (·.1), l.flatMap (·.2)) := by
  induction l with
  | nil => rfl
  | cons s l ih => simp [collect, ih]

theorem rows_some (l : List Sides) : rows (l.map some) = some (l.map (·.1), l.map (·.2)) := by
  induction l with
  | nil => rfl
  | cons s l ih => simp [rows, ih]

/-! ### Bits -/

theorem bit_testBit (b : UInt8) (k : Nat) : bit b k = if b.toNat.testBit (7 - k) then 1 else 0 := by
  unfold bit
  rw [Nat.and_one_is_mod, Nat.testBit, Nat.one_and_eq_mod_two]
  rcases Nat.mod_two_eq_zero_or_one (b.toNat >>> (7 - k)) with h | h <;> simp [h]

/-- What a bit looks like on both sides. -/
def bitSides (e a : Area) (length q : Nat) : Sides :=
  if q < length then compared (bitAt e q == bitAt a q) [if bitAt e q then '1' else '0'] [if bitAt a q then '1' else '0'] else ([], [])

theorem bitCell_eq (e a : Area) (length n k : Nat) (hk : k < 8) (he : length ≤ 8 * e.length) (ha : length ≤ 8 * a.length) :
    bitCell e a length n k = some (bitSides e a length (8 * n + k)) := by
  unfold bitCell bitSides
  rw [Nat.mul_comm n 8]
  split
  · rename_i h
    have hn1 : n < e.length := by omega
    have hn2 : n < a.length := by omega
    rw [List.getElem?_eq_getElem hn1, List.getElem?_eq_getElem hn2]
    have e1 : bitAt e (8 * n + k) = (e[n]).toNat.testBit (7 - k) := by
      unfold bitAt
      rw [show (8 * n + k) / 8 = n by omega, show (8 * n + k) % 8 = k by omega, List.getD_eq_getElem?_getD, List.getElem?_eq_getElem hn1]; rfl
    have e2 : bitAt a (8 * n + k) = (a[n]).toNat.testBit (7 - k) := by
      unfold bitAt
      rw [show (8 * n + k) / 8 = n by omega, show (8 * n + k) % 8 = k by omega, List.getD_eq_getElem?_getD, List.getElem?_eq_getElem hn2]; rfl
    simp only [bit_testBit, e1, e2]
    cases (e[n]).toNat.testBit (7 - k) <;> cases (a[n]).toNat.testBit (7 - k) <;> rfl
  · rfl

/-- The blank between bytes. -/
def gap (q : Nat) : Sides := if bitBlanks q = 0 then ([], []) else ([[' ']], [[' ']])

theorem range_flatMap {α : Type} (n : Nat) (f : Nat → List α) :
    ((List.range n).flatMap fun j => (List.range 8).flatMap fun k => f (8 * j + k)) = (List.range (8 * n)).flatMap f := by
  induction n with
  | zero => rfl
  | succ n ih =>
    rw [List.range_succ (n := n), List.flatMap_append, ih, show 8 * (n + 1) = 8 * n + 8 by omega, List.range_add, List.flatMap_append]
    congr 1
    simp [List.flatMap_map]

theorem bitsRow_eq (e a : Area) (length perRow i : Nat) (he : length ≤ 8 * e.length) (ha : length ≤ 8 * a.length) :
    bitsRow e a length perRow i =
      some (((List.range (8 * perRow)).flatMap fun q => [gap q, bitSides e a length (8 * perRow * i + q)]).flatMap (·.1),
            ((List.range (8 * perRow)).flatMap fun q => [gap q, bitSides e a length (8 * perRow * i + q)]).flatMap (·.2)) := by
  have key : ((List.range perRow).flatMap fun j =>
      (if j = 0 then [] else [some ([[' ']], [[' ']])]) ++ (List.range 8).map fun k => bitCell e a length (i * perRow + j) k) =
      ((List.range perRow).flatMap fun j =>
        (if j = 0 then [] else [(([[' ']], [[' ']]) : Sides)]) ++ (List.range 8).map fun k => bitSides e a length (8 * perRow * i + (8 * j + k))).map some := by
    rw [List.map_flatMap]
    apply H2.Layout.flatMap_congr
    intro j _
    rw [List.map_append]
    congr 1
    · split <;> rfl
    · rw [List.map_map]
      apply List.map_congr_left
      intro k hk
      rw [bitCell_eq e a length _ k (by simpa using hk) he ha]
      simp only [Function.comp]
      rw [show 8 * (i * perRow + j) + k = 8 * perRow * i + (8 * j + k) by rw [Nat.mul_add, Nat.mul_comm i perRow, ← Nat.mul_assoc]; omega]
  unfold bitsRow
  rw [key, collect_some]
  rw [← range_flatMap perRow fun q => [gap q, bitSides e a length (8 * perRow * i + q)]]
  have h8 : List.range 8 = [0, 1, 2, 3, 4, 5, 6, 7] := rfl
  have step : ∀ j, (((if j = 0 then [] else [(([[' ']], [[' ']]) : Sides)]) ++
        (List.range 8).map fun k => bitSides e a length (8 * perRow * i + (8 * j + k))).flatMap (·.1) =
      ((List.range 8).flatMap fun k => [gap (8 * j + k), bitSides e a length (8 * perRow * i + (8 * j + k))]).flatMap (·.1)) ∧
      (((if j = 0 then [] else [(([[' ']], [[' ']]) : Sides)]) ++
        (List.range 8).map fun k => bitSides e a length (8 * perRow * i + (8 * j + k))).flatMap (·.2) =
      ((List.range 8).flatMap fun k => [gap (8 * j + k), bitSides e a length (8 * perRow * i + (8 * j + k))]).flatMap (·.2)) := by
    intro j
    have g : ∀ k, 1 ≤ k → k < 8 → gap (8 * j + k) = ([], []) := by
      intro k h1 h2
      unfold gap bitBlanks
      rw [if_neg (by omega : ¬ (8 * j + k = 0)), if_neg (by omega : ¬ (8 * j + k) % 8 = 0), if_pos rfl]
    have g0 : gap (8 * j + 0) = if j = 0 then ([], []) else ([[' ']], [[' ']]) := by
      unfold gap bitBlanks
      by_cases hj : j = 0
      · simp [hj]
      · rw [if_neg (by omega : ¬ (8 * j + 0 = 0)), if_pos (by omega : (8 * j + 0) % 8 = 0), if_neg hj]; rfl
    rw [h8]
    simp only [List.flatMap_cons, List.flatMap_nil, List.map_cons, List.map_nil]
    rw [g 1 (by omega) (by omega), g 2 (by omega) (by omega), g 3 (by omega) (by omega), g 4 (by omega) (by omega),
      g 5 (by omega) (by omega), g 6 (by omega) (by omega), g 7 (by omega) (by omega), g0]
    by_cases hj : j = 0 <;> simp [hj]
  congr 2
  · rw [List.flatMap_assoc, List.flatMap_assoc]
    apply H2.Layout.flatMap_congr
    intro j _
    exact (step j).1
  · rw [List.flatMap_assoc, List.flatMap_assoc]
    apply H2.Layout.flatMap_congr
    intro j _
    exact (step j).2

/-! ### From the cells of a row to the units -/

/-- Units one by one, with what stands before them, up to some number. -/
theorem inRow_range (blanks : Nat → Nat) (u : Nat → Shown) (n : Nat) :
    inRow blanks ((List.range n).map u) = (List.range n).flatMap fun q => List.replicate (blanks q) (' ', false) ++ (u q).1.map (·, (u q).2) := by
  unfold inRow
  rw [List.mapIdx_eq_zipIdx_map, List.flatMap_def]
  congr 1
  apply List.ext_getElem
  · simp
  · intro k h1 h2
    simp

theorem drop_take_range {α : Type} (f : Nat → α) (n a b : Nat) :
    (((List.range n).map f).drop a).take b = (List.range (min b (n - a))).map fun q => f (a + q) := by
  apply List.ext_getElem
  · simp
  · intro k h1 h2
    simp

/-- A row of `w` places, of which those of units that exist are filled. -/
theorem row_units (blanks : Nat → Nat) (u : Nat → Shown) (n w i : Nat) :
    ∃ b, ((List.range w).flatMap fun q => List.replicate (blanks q) (' ', false) ++ (if w * i + q < n then (u (w * i + q)).1.map (·, (u (w * i + q)).2) else [])) =
      inRow blanks ((((List.range n).map u).drop (w * i)).take w) ++ List.replicate b (' ', false) := by
  rw [drop_take_range, inRow_range]
  have hw : w = min w (n - w * i) + (w - min w (n - w * i)) := by omega
  have tail : ∀ l : List Nat, ∃ b, (l.flatMap fun q => List.replicate (blanks q) ((' ', false) : Char × Bool)) = List.replicate b (' ', false) := by
    intro l
    induction l with
    | nil => exact ⟨0, rfl⟩
    | cons q l ih =>
      obtain ⟨b, e⟩ := ih
      exact ⟨blanks q + b, by rw [List.flatMap_cons, e, List.replicate_append_replicate]⟩
  obtain ⟨b, eb⟩ := tail ((List.range (w - min w (n - w * i))).map (min w (n - w * i) + ·))
  refine ⟨b, ?_⟩
  have split : List.range w = List.range (min w (n - w * i)) ++ (List.range (w - min w (n - w * i))).map (min w (n - w * i) + ·) := by
    rw [← List.range_add, ← hw]
  rw [split, List.flatMap_append]
  rw [← eb]
  congr 1
  · apply H2.Layout.flatMap_congr
    intro q hq
    have : q < min w (n - w * i) := by simpa using hq
    rw [if_pos (by omega)]
  · apply H2.Layout.flatMap_congr
    intro q hq
    obtain ⟨p, hp, rfl⟩ := List.mem_map.1 hq
    have : p < w - min w (n - w * i) := by simpa using hp
    rw [if_neg (by omega), List.append_nil]

/-! ### Numbers -/

theorem upperDigit_eq : ∀ d, d < 16 → upperDigit d = "0123456789ABCDEF".toList.getD d '?' := by decide

theorem hexFixed_eq (w : Nat) : ∀ n, hexFixed w n = hex w n := by
  induction w with
  | zero => intro n; rfl
  | succ w ih =>
    intro n
    rw [hexFixed, ih]
    unfold hex
    rw [List.range_succ, List.map_append]
    congr 1
    · apply List.map_congr_left
      intro p hp
      have : p < w := by simpa using hp
      have e : 16 ^ (w + 1 - 1 - p) = 16 * 16 ^ (w - 1 - p) := by
        rw [show w + 1 - 1 - p = (w - 1 - p) + 1 by omega, Nat.pow_succ, Nat.mul_comm]
      rw [e, ← Nat.div_div_eq_div_mul]
    · simp only [List.map_cons, List.map_nil]
      rw [show w + 1 - 1 - w = 0 by omega, Nat.pow_zero, Nat.div_one, upperDigit_eq _ (Nat.mod_lt _ (by omega))]

theorem hex_length (w n : Nat) : (hex w n).length = w := by simp [hex]

theorem hex_digits (w n : Nat) : ∀ c ∈ hex w n, c ∈ "0123456789ABCDEF".toList := by
  intro c hc
  obtain ⟨p, -, rfl⟩ := List.mem_map.1 hc
  have : ∀ d, d < 16 → "0123456789ABCDEF".toList.getD d '?' ∈ "0123456789ABCDEF".toList := by decide
  exact this _ (Nat.mod_lt _ (by omega))

theorem sum_mul (c : Nat) (l : List Nat) : (l.map (c * ·)).sum = c * l.sum := by
  induction l with
  | nil => rfl
  | cons x l ih => simp only [List.map_cons, List.sum_cons, ih, Nat.mul_add]

theorem little_eq (m : Area) (t : Nat) : ∀ off, off + t ≤ m.length →
    little ((m.drop off).take t) = ((List.range t).map fun p => (m.getD (off + p) 0).toNat * 256 ^ p).sum := by
  induction t with
  | zero => intro off _; simp [little]
  | succ t ih =>
    intro off h
    have ho : off < m.length := by omega
    rw [List.drop_eq_getElem_cons ho, List.take_succ_cons, little, ih (off + 1) (by omega), List.range_succ_eq_map, List.map_cons, List.sum_cons, List.map_map]
    congr 1
    · rw [List.getD_eq_getElem?_getD, Nat.add_zero, List.getElem?_eq_getElem ho]; simp
    · rw [← sum_mul, List.map_map]
      congr 1
      apply List.map_congr_left
      intro p _
      simp only [Function.comp]
      rw [show off + 1 + p = off + (p + 1) by omega, Nat.pow_succ, ← Nat.mul_assoc, Nat.mul_comm 256, Nat.mul_assoc, Nat.mul_comm 256]

theorem readInt_eq (m : Area) (t k : Nat) (h : (k + 1) * t ≤ m.length) : readInt m (k * t) t = some (unitAt m t k) := by
  have h' : k * t + t ≤ m.length := by rw [Nat.add_mul, Nat.one_mul] at h; exact h
  unfold readInt unitAt
  rw [if_pos h', little_eq m t _ h']

/-- What a unit looks like on both sides. -/
def intSides (e a : Area) (t length k q : Nat) : Sides :=
  if k < length then compared (unitAt e t k == unitAt a t k) (separator q ++ hex (2 * t) (unitAt e t k)) (separator q ++ hex (2 * t) (unitAt a t k)) else ([], [])

theorem intCell_eq (e a : Area) (t u length i q : Nat) (ht : 0 < t) (he : e.length = length * t) (ha : a.length = length * t) :
    intCell e a t (t * u) i q = some (intSides e a t length (u * i + q) q) := by
  unfold intCell intSides
  have e1 : i * (t * u) + q * t = (u * i + q) * t := by
    rw [Nat.add_mul, Nat.mul_comm t u, ← Nat.mul_assoc, Nat.mul_comm i u]
  rw [e1]
  by_cases h : u * i + q < length
  · have h1 : (u * i + q + 1) * t ≤ length * t := Nat.mul_le_mul_right t h
    have h2 : (u * i + q) * t < length * t := by
      rw [Nat.add_mul, Nat.one_mul] at h1; omega
    rw [if_pos (by rw [he]; exact h2), if_pos h, readInt_eq e t _ (by rw [he]; exact h1), readInt_eq a t _ (by rw [ha]; exact h1)]
    simp only [hexFixed_eq]
  · rw [if_neg, if_neg h]
    rw [he]
    intro hc
    exact h (Nat.lt_of_mul_lt_mul_right hc)

theorem separator_marks (x : Bool) (q : Nat) (d : Word) (hd : ∀ c ∈ d, c ∈ "0123456789ABCDEF".toList) :
    ((separator q ++ d).map fun c => (c, c != ' ' && x)) = List.replicate (intBlanks q) (' ', false) ++ d.map (·, x) := by
  rw [List.map_append]
  congr 1
  · unfold separator intBlanks
    by_cases h0 : q = 0
    · simp [h0]
    · by_cases h8 : q = 8
      · simp [h8]
      · simp [h0, h8]
  · apply List.map_congr_left
    intro c hc
    have : c ≠ ' ' := by
      intro h
      have := hd c hc
      rw [h] at this
      exact absurd this (by decide)
    simp [this]

theorem separator_not_style (q : Nat) (d : Word) (hd : ∀ c ∈ d, c ∈ "0123456789ABCDEF".toList) : ¬ Style (separator q ++ d) := by
  apply not_style_head
  unfold separator
  by_cases h0 : q = 0
  · rw [if_pos h0, List.nil_append]
    intro h
    have : '\x1b' ∈ d := List.mem_of_mem_head? (by rw [h]; simp)
    exact absurd (hd _ this) (by decide)
  · rw [if_neg h0]
    split <;> simp

end H2.MemDiff
