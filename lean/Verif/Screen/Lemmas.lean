import Verif.Screen.Spec
import Verif.Abbrev.Props
/-
Lemmas for C97.
-/
namespace H2.Screen
open H2.Runner (Suite Case Bucket)
open H2.Console (Str Cfg Info)
open H2.Layout (room Line isctrl lineWidth padding text)
open H2.Abbrev (abbreviate)

/-! ### The terminal -/

/-- The terminal after a text, begun on an empty row. -/
def Kind.at (k : Kind) (base : List Str) (t : Str) : Terminal := ⟨base ++ (k.rows t).dropLast, (k.rows t).getLast?.getD []⟩

theorem split_last {α : Type} (d : α) (l : List α) (h : l ≠ []) : l = l.dropLast ++ [l.getLast?.getD d] := by
  rw [List.getLast?_eq_some_getLast h]; exact (List.dropLast_concat_getLast h).symm

theorem last_snoc {α : Type} (d : α) (a : List α) (y : α) : (a ++ [y]).getLast?.getD d = y := by simp
theorem init_snoc {α : Type} (a : List α) (y : α) : (a ++ [y]).dropLast = a := by simp

theorem foldFrom_ne (k : Kind) (t : Str) : ∀ row, k.foldFrom row t ≠ [] := by
  induction t with
  | nil => intro row; simp [Kind.foldFrom]
  | cons c t ih => intro row; simp only [Kind.foldFrom]; split <;> simp [ih]

theorem linesFrom_ne (t : Str) : ∀ l, linesFrom l t ≠ [] := by
  induction t with
  | nil => intro l; simp [linesFrom]
  | cons c t ih => intro l; simp only [linesFrom]; split <;> simp [ih]

theorem foldFrom_snoc (k : Kind) (c : Char) (t : Str) : ∀ row,
    k.foldFrom row (t ++ [c]) =
      if k.columns ((k.foldFrom row t).getLast?.getD []) + k.cols c ≤ k.W then
        (k.foldFrom row t).dropLast ++ [(k.foldFrom row t).getLast?.getD [] ++ [c]]
      else k.foldFrom row t ++ [[c]] := by
  induction t with
  | nil => intro row; simp only [List.nil_append, Kind.foldFrom]; simp
  | cons d t ih =>
    intro row
    by_cases h : k.columns row + k.cols d ≤ k.W
    · have e : ∀ u, k.foldFrom row (d :: u) = k.foldFrom (row ++ [d]) u := fun u => by rw [Kind.foldFrom, if_pos h]
      simp only [List.cons_append, e]
      exact ih _
    · have e : ∀ u, k.foldFrom row (d :: u) = row :: k.foldFrom [d] u := fun u => by rw [Kind.foldFrom, if_neg h]
      obtain ⟨b, y, hb⟩ : ∃ b y, k.foldFrom [d] t = b ++ [y] := ⟨_, _, split_last [] _ (foldFrom_ne k t [d])⟩
      have i := ih [d]
      simp only [hb] at i
      simp only [List.cons_append, e, i, hb]
      have l : (row :: (b ++ [y])).getLast?.getD [] = y := last_snoc [] (row :: b) y
      have l2 : (b ++ [y]).getLast?.getD [] = y := by simp
      have d1 : (row :: (b ++ [y])).dropLast = row :: b := init_snoc (row :: b) y
      have d2 : (b ++ [y]).dropLast = b := by simp
      simp only [l, l2, d1, d2]
      split <;> simp

theorem linesFrom_snoc (c : Char) (t : Str) : ∀ l,
    linesFrom l (t ++ [c]) =
      if c = '\n' then linesFrom l t ++ [[]] else (linesFrom l t).dropLast ++ [(linesFrom l t).getLast?.getD [] ++ [c]] := by
  induction t with
  | nil => intro l; simp only [List.nil_append, linesFrom]; split <;> simp
  | cons d t ih =>
    intro l
    simp only [List.cons_append, linesFrom]
    by_cases h : d = '\n'
    · rw [if_pos h, if_pos h, ih]
      obtain ⟨b, y, hb⟩ : ∃ b y, linesFrom [] t = b ++ [y] := ⟨_, _, split_last [] _ (linesFrom_ne t [])⟩
      simp only [hb]
      have l1 : (l :: (b ++ [y])).getLast?.getD [] = y := last_snoc [] (l :: b) y
      have d1 : (l :: (b ++ [y])).dropLast = l :: b := init_snoc (l :: b) y
      simp only [l1, d1]
      split <;> simp
    · rw [if_neg h, if_neg h, ih]

theorem rows_ne (k : Kind) (t : Str) : k.rows t ≠ [] := by
  unfold Kind.rows
  obtain ⟨a, l, h⟩ : ∃ a l, linesFrom [] t = a :: l := List.exists_cons_of_ne_nil (linesFrom_ne t [])
  rw [h]; simp [foldFrom_ne]

theorem rows_split (k : Kind) (t : Str) : k.rows t = (k.rows t).dropLast ++ [(k.rows t).getLast?.getD []] := split_last [] _ (rows_ne k t)

/-- The rows of a text and one more character. -/
theorem rows_snoc (k : Kind) (c : Char) (t : Str) :
    k.rows (t ++ [c]) =
      if c = '\n' then k.rows t ++ [[]]
      else if k.columns ((k.rows t).getLast?.getD []) + k.cols c ≤ k.W then (k.rows t).dropLast ++ [(k.rows t).getLast?.getD [] ++ [c]]
      else k.rows t ++ [[c]] := by
  unfold Kind.rows
  rw [linesFrom_snoc]
  obtain ⟨a, x, e⟩ : ∃ a x, linesFrom [] t = a ++ [x] := ⟨_, _, split_last [] _ (linesFrom_ne t [])⟩
  obtain ⟨b, y, e2⟩ : ∃ b y, k.foldFrom [] x = b ++ [y] := ⟨_, _, split_last [] _ (foldFrom_ne k x [])⟩
  by_cases h : c = '\n'
  · rw [if_pos h, if_pos h]; simp [Kind.foldFrom]
  · rw [if_neg h, if_neg h]
    have l0 : (a ++ [x]).getLast?.getD [] = x := by simp
    have d0 : (a ++ [x]).dropLast = a := by simp
    have f := foldFrom_snoc k c x []
    have l1 : (b ++ [y]).getLast?.getD [] = y := by simp
    have d1 : (b ++ [y]).dropLast = b := by simp
    simp only [e2, l1, d1] at f
    simp only [e, l0, d0, List.flatMap_append, List.flatMap_cons, List.flatMap_nil, List.append_nil, f, e2]
    have l : (List.flatMap (k.foldFrom []) a ++ (b ++ [y])).getLast?.getD [] = y := by
      rw [← List.append_assoc]; simp
    have d : (List.flatMap (k.foldFrom []) a ++ (b ++ [y])).dropLast = List.flatMap (k.foldFrom []) a ++ b := by
      rw [← List.append_assoc]; simp
    simp only [l, d]
    split <;> simp

theorem rows_nil (k : Kind) : k.rows [] = [[]] := rfl

theorem at_nil (k : Kind) (base : List Str) : k.at base [] = ⟨base, []⟩ := by simp [Kind.at, rows_nil]

theorem at_snoc (k : Kind) (base : List Str) (t : Str) (c : Char) (h : c = '\n' ∨ ¬ Control c) :
    k.get (k.at base t) (.ch c) = k.at base (t ++ [c]) := by
  unfold Kind.at
  rw [rows_snoc]
  simp only [Kind.get]
  have e := rows_split k t
  by_cases hn : c = '\n'
  · simp only [hn, if_true]
    simp only [List.append_assoc, ← e]
    simp
  · rw [if_neg hn, if_neg hn, if_neg (h.resolve_left hn)]
    split
    · simp
    · simp only [List.append_assoc, ← e]; simp

theorem at_append (k : Kind) (base : List Str) (u : Str) (h : Clean u) : ∀ t,
    (u.map Tok.ch).foldl k.get (k.at base t) = k.at base (t ++ u) := by
  induction u with
  | nil => intro t; simp
  | cons c u ih =>
    intro t
    rw [List.map_cons, List.foldl_cons, at_snoc k base t c (h c (by simp)), ih (fun d hd => h d (by simp [hd]))]
    simp

theorem at_clear (k : Kind) (base : List Str) (t : Str) : k.get (k.at base t) .clear = k.at (base ++ (k.rows t).dropLast) [] := by
  rw [at_nil]; rfl

theorem at_newline (k : Kind) (base : List Str) (t : Str) : k.get (k.at base t) (.ch '\n') = k.at (base ++ k.rows t) [] := by
  rw [at_nil]
  simp only [Kind.get, if_true, Kind.at, List.append_assoc, ← rows_split]

/-- Texts that end with a line end. -/
theorem at_line (k : Kind) (base : List Str) (t u : Str) (h : Clean u) :
    ((u ++ ['\n']).map Tok.ch).foldl k.get (k.at base t) = k.at (base ++ k.rows (t ++ u)) [] := by
  rw [List.map_append, List.foldl_append, at_append k base u h]
  exact at_newline k base (t ++ u)

theorem foldFrom_fits (k : Kind) (t : Str) : ∀ row, k.columns row + k.columns t ≤ k.W → k.foldFrom row t = [row ++ t] := by
  induction t with
  | nil => intro row _; simp [Kind.foldFrom]
  | cons c t ih =>
    intro row h
    have hc : k.columns (c :: t) = k.cols c + k.columns t := by simp [Kind.columns]
    have hr : k.columns (row ++ [c]) = k.columns row + k.cols c := by simp [Kind.columns]
    rw [Kind.foldFrom, if_pos (by omega), ih _ (by omega)]
    simp

theorem linesFrom_one (t : Str) (h : '\n' ∉ t) : ∀ l, linesFrom l t = [l ++ t] := by
  induction t with
  | nil => intro l; simp [linesFrom]
  | cons c t ih =>
    intro l
    rw [linesFrom, if_neg (by intro e; exact h (by simp [e])), ih (by intro e; exact h (by simp [e]))]
    simp

theorem rows_one (k : Kind) (t : Str) (h : '\n' ∉ t) (hf : k.columns t ≤ k.W) : k.rows t = [t] := by
  unfold Kind.rows
  rw [linesFrom_one t h]
  simp only [List.nil_append, List.flatMap_cons, List.flatMap_nil, List.append_nil]
  rw [foldFrom_fits k t [] (by simpa [Kind.columns] using hf)]
  rfl

theorem columns_room (k : Kind) (h : k.Usual) (t : Str) : k.columns t ≤ room t := by
  induction t with
  | nil => simp [Kind.columns]
  | cons c t ih =>
    have := h.2 c
    simp only [Kind.columns, room, List.map_cons, List.sum_cons] at ih ⊢
    omega

/-! ### Lines and their texts -/

theorem plain_text (l : Line) : plain l = text l := (H2.Abbrev.text_vis l).symm

theorem plain_append (a b : Line) : plain (a ++ b) = plain a ++ plain b := by simp [plain]

theorem plain_nil : plain [] = [] := rfl

theorem isctrl_plain (t : Str) (h : Clean t) : isctrl t = false := by
  cases t with
  | nil => rfl
  | cons c t =>
    have : c ≠ '\x1b' := by
      rintro rfl
      rcases h _ (List.mem_cons_self) with e | e
      · exact absurd e (by decide)
      · exact e (by decide)
    simp [isctrl, this]

theorem clean_plain {t : Str} (h : Plain t) : Clean t := fun c hc => Or.inr (h c hc)

theorem clean_append {a b : Str} (ha : Clean a) (hb : Clean b) : Clean (a ++ b) := by
  intro c hc
  rcases List.mem_append.1 hc with h | h
  · exact ha c h
  · exact hb c h

theorem plain_add {a b : Str} (ha : Plain a) (hb : Plain b) : Plain (a ++ b) := by
  intro c hc
  rcases List.mem_append.1 hc with h | h
  · exact ha c h
  · exact hb c h

theorem plain_styled (style : String) (t : Str) (h : Clean t) : plain (styled style t) = t := by
  unfold styled
  split
  · have r : isctrl "\x1b{reset}".toList = true := by decide
    have q : isctrl ("\x1b{".toList ++ style.toList ++ "}".toList) = true := by simp [isctrl]
    simp only [plain, List.flatMap_cons, List.flatMap_nil, r, q, isctrl_plain t h]
    simp
  · simp [plain, isctrl_plain t h]

theorem digits_plain (n : Nat) : Plain (Nat.toDigits 10 n) := by
  intro c hc hcon
  have := Nat.isDigit_of_mem_toDigits (by decide) (by decide) hc
  simp only [Char.isDigit, Bool.and_eq_true, decide_eq_true_eq] at this
  unfold Control at hcon
  have h1 : (48 : UInt32) ≤ c.val := this.1
  have h2 : c.val ≤ 57 := this.2
  have h1 : 48 ≤ c.val.toNat := h1
  have h2 : c.val.toNat ≤ 57 := h2
  have : c.toNat = c.val.toNat := rfl
  omega

theorem blanks_plain (n : Nat) : Plain (List.replicate n ' ') := by
  intro c hc
  rw [(List.mem_replicate.1 hc).2]; decide

theorem literal_plain {s : String} (h : (s.toList.all fun c => decide (¬ Control c)) = true) : Plain s.toList := by
  intro c hc
  have := List.all_eq_true.1 h c hc
  exact of_decide_eq_true this

theorem percent_plain (g : Cfg) (k n : Nat) : Plain (percent g k n) := by
  unfold percent
  split
  · exact plain_add (plain_add (plain_add (literal_plain (by decide)) (blanks_plain _)) (digits_plain _)) (literal_plain (by decide))
  · intro c hc; simp at hc

theorem plain_percent (g : Cfg) (k n : Nat) : plain (if g.progressing then percentLine k n else []) = percent g k n := by
  unfold percent
  split
  · have e : H2.Console.decimal (H2.Console.percentage k n) = Nat.toDigits 10 (if n = 0 then 100 else k * 100 / n) := by
      unfold H2.Console.decimal H2.Console.percentage; by_cases hn : n = 0 <;> simp [hn]
    unfold percentLine
    rw [e, plain_append, plain_append, plain_styled _ _ (clean_plain (literal_plain (by decide))), plain_styled, plain_styled _ _ (clean_plain (literal_plain (by decide)))]
    · simp
    · exact clean_plain (plain_add (plain_add (blanks_plain _) (digits_plain _)) (literal_plain (by decide)))
  · rfl

theorem plain_title (suite name : Str) (place : Option Str) (hs : Plain suite) (hn : Plain name) (hp : ∀ p, place = some p → Plain p) :
    plain (titleLine suite name place) = "┊ ".toList ++ (if name = [] then "case".toList else name) ++ " ┊ ".toList ++
      (if suite = [] then "suite".toList else suite) ++ " ".toList ++ (match place with | some p => "┊ ".toList ++ p ++ " ".toList | none => []) := by
  have b : Clean "┊ ".toList := clean_plain (literal_plain (by decide))
  have c1 : Clean "case ".toList := clean_plain (literal_plain (by decide))
  have c2 : Clean "suite ".toList := clean_plain (literal_plain (by decide))
  have sp : Plain " ".toList := literal_plain (by decide)
  have e1 : plain (if name ≠ [] then styled "" (name ++ " ".toList) else styled "dark gray" "case ".toList) =
      (if name = [] then "case".toList else name) ++ " ".toList := by
    by_cases h : name = []
    · rw [if_neg (by simp [h]), if_pos h, plain_styled _ _ c1]; rfl
    · rw [if_pos h, if_neg h, plain_styled _ _ (clean_plain (plain_add hn sp))]
  have e2 : plain (if suite ≠ [] then styled "" (suite ++ " ".toList) else styled "dark gray" "suite ".toList) =
      (if suite = [] then "suite".toList else suite) ++ " ".toList := by
    by_cases h : suite = []
    · rw [if_neg (by simp [h]), if_pos h, plain_styled _ _ c2]; rfl
    · rw [if_pos h, if_neg h, plain_styled _ _ (clean_plain (plain_add hs sp))]
  have s1 : " ┊ ".toList = " ".toList ++ "┊ ".toList := by decide
  unfold titleLine
  rw [plain_append, plain_append, plain_append, plain_append, plain_styled _ _ b, e1, e2, s1]
  cases place with
  | none => simp [plain]
  | some p =>
    simp only [plain_append, plain_styled _ _ b, plain_styled _ _ (clean_plain (plain_add (hp p rfl) sp)), List.append_assoc]

/-! ### The row of progress -/

theorem shown_plain (t : Str) (h : Plain t) : H2.Abbrev.shown t = t := by
  induction t with
  | nil => rfl
  | cons c t ih =>
    have i := ih fun d hd => h d (by simp [hd])
    have hc := h c (by simp)
    have e : H2.Abbrev.shown (c :: t) = H2.Abbrev.shown [c] ++ H2.Abbrev.shown t := by simp [H2.Abbrev.shown]
    rw [e, i]
    have : H2.Abbrev.shown [c] = [c] := by
      unfold H2.Abbrev.shown
      simp only [List.flatMap_cons, List.flatMap_nil, List.append_nil]
      split
      · exact absurd (by decide) hc
      · exact absurd (by decide) hc
      · exact absurd (by decide) hc
      · rfl
    rw [this]; rfl

theorem plain_padding (l : Line) (n : Nat) : plain (padding l n) = plain l ++ List.replicate n ' ' := by
  unfold padding
  split
  · rename_i h; simp [h]
  · rw [plain_append]
    have : isctrl (H2.Layout.spaces n) = false := isctrl_plain _ (clean_plain (blanks_plain n))
    simp only [plain, List.flatMap_cons, List.flatMap_nil, this, List.append_nil]
    rfl

/-- The bar of a case being tested is the row for its text; it fits the terminal. -/
theorem fit_row (W : Nat) (l : Line) (h : Plain (plain l)) (hr : room (plain l) < 2 ^ 64) (hw : 17 ≤ W) :
    Row W (plain l) (plain (fit W l)) ∧ room (plain (fit W l)) ≤ W ∧ Plain (plain (fit W l)) := by
  have hl : lineWidth l = room (plain l) := by rw [H2.Layout.lineWidth_room, plain_text]
  have hsh : H2.Abbrev.shown (text l) = plain l := by rw [← plain_text, shown_plain _ h]
  have hesc : '\x1b' ∉ text l := by
    rw [← plain_text]; intro e; exact absurd (by decide) (h _ e)
  by_cases h1 : W > lineWidth l
  · have e : plain (fit W l) = plain l ++ List.replicate (W - room (plain l)) ' ' := by
      rw [fit, if_pos h1, plain_padding, hl]
    refine ⟨⟨fun _ => e, fun c => by omega⟩, ?_, ?_⟩
    · rw [e, H2.Layout.room_append]
      have := H2.Layout.room_spaces (W - room (plain l))
      unfold H2.Layout.spaces at this
      omega
    · rw [e]; exact plain_add h (blanks_plain _)
  · have e : fit W l = abbreviate l W 0 := by rw [fit, if_neg h1]
    have ht : plain (fit W l) = text (abbreviate l W 0) := by rw [e, plain_text]
    have hfit : room (plain (fit W l)) ≤ W := by
      rw [ht]
      exact H2.Abbrev.C60_fits l W 0 hesc (by rw [hsh]; exact hr) (by omega)
    by_cases h2 : W < room (plain l)
    · obtain ⟨marked, hm, _⟩ := H2.Abbrev.C60_shortened l W 0 hesc (by rw [hsh]; exact hr) (by omega) (by rw [hsh]; exact h2)
      rw [hsh, ← ht] at hm
      refine ⟨⟨fun c => by omega, fun _ => ⟨marked, hm⟩⟩, hfit, ?_⟩
      obtain ⟨a, gap, last, ha, ho, _⟩ := hm
      rw [ho]
      refine plain_add (plain_add ?_ ?_) ?_
      · intro c hc; exact h c (by rw [ha]; simp [hc])
      · split
        · exact literal_plain (by decide)
        · intro c hc; simp at hc
      · intro c hc; exact h c (by rw [ha]; simp [hc])
    · have e2 : plain (fit W l) = plain l := by
        rw [ht, H2.Abbrev.C60_whole l W 0 (by rw [hsh]; omega), hsh]
      refine ⟨⟨fun _ => ?_, fun c => by omega⟩, hfit, by rw [e2]; exact h⟩
      rw [e2, show W - room (plain l) = 0 by omega]; simp

/-! ### The state of the report and the terminal -/

/-- What is on the terminal while the report waits. -/
def At (k : Kind) (base : List Str) (x : Waits) (ws : List Str) (s : St) : Prop :=
  match x with
  | .empty => s.backable = false ∧ s.captured = s.last + ws.flatten.length ∧ s.out.foldl k.get {} = k.at base ws.flatten
  | .gap => s.backable = false ∧ s.last < s.captured ∧ s.out.foldl k.get {} = k.at base ws.flatten
  | .progress row => s.captured = s.last + ws.flatten.length ∧ k.rows row = [row] ∧
      if ws = [] then s.backable = true ∧ s.out.foldl k.get {} = k.at base row
      else s.backable = false ∧ s.out.foldl k.get {} = k.at (base ++ [row]) ws.flatten
  | .todo t => s.backable = false ∧ s.captured = s.last + ws.flatten.length ∧ s.out.foldl k.get {} = k.at base (t ++ ws.flatten)

theorem print_out (k : Kind) (s : St) (t : Str) : (s.print t).out.foldl k.get {} = (t.map Tok.ch).foldl k.get (s.out.foldl k.get {}) := by
  rw [St.print, List.foldl_append]

theorem print_print (s : St) (a b : Str) : (s.print a).print b = s.print (a ++ b) := by simp [St.print]

theorem at_write (k : Kind) (g : Cfg) (base : List Str) (x : Waits) (ws : List Str) (s : St) (t : Str) (hg : 4 ≤ g.verbose) (ht : Clean t)
    (h : At k base x ws s) : At k base x (ws ++ [t]) (write g s t) := by
  have hf : (ws ++ [t]).flatten = ws.flatten ++ t := by simp
  have hw : write g s t = { (if s.backable then { s.print ['\n'] with backable := false } else s).print t with
      captured := s.captured + t.length } := by
    unfold write
    rw [if_pos hg]
    split <;> rfl
  have out0 : s.backable = false → (write g s t).out.foldl k.get {} = (t.map Tok.ch).foldl k.get (s.out.foldl k.get {}) ∧
      (write g s t).backable = false := by
    intro hb
    rw [hw, hb]
    exact ⟨print_out k s t, by simpa [St.print] using hb⟩
  have cap : (write g s t).captured = s.captured + t.length := by rw [hw]
  have last : (write g s t).last = s.last := by rw [hw]; split <;> rfl
  cases x with
  | empty =>
    obtain ⟨a, b, c⟩ := h
    obtain ⟨o, p⟩ := out0 a
    refine ⟨p, by rw [cap, last, hf, List.length_append]; omega, ?_⟩
    rw [o, c, at_append k base t ht, hf]
  | gap =>
    obtain ⟨a, b, c⟩ := h
    obtain ⟨o, p⟩ := out0 a
    refine ⟨p, by rw [cap, last]; omega, ?_⟩
    rw [o, c, at_append k base t ht, hf]
  | todo u =>
    obtain ⟨a, b, c⟩ := h
    obtain ⟨o, p⟩ := out0 a
    refine ⟨p, by rw [cap, last, hf, List.length_append]; omega, ?_⟩
    rw [o, c, at_append k base t ht, hf, List.append_assoc]
  | progress row =>
    obtain ⟨b, r, c⟩ := h
    refine ⟨by rw [cap, last, hf, List.length_append]; omega, r, ?_⟩
    rw [if_neg (by simp)]
    by_cases hws : ws = []
    · rw [if_pos hws] at c
      have e : write g s t = { ({ s.print ['\n'] with backable := false } : St).print t with captured := s.captured + t.length } := by
        rw [hw, c.1]; rfl
      refine ⟨by rw [e]; rfl, ?_⟩
      have e2 : (write g s t).out = ((s.print ['\n']).print t).out := by rw [e]; rfl
      rw [e2, print_out, print_out, c.2]
      simp only [List.map_cons, List.map_nil, List.foldl_cons, List.foldl_nil]
      rw [at_newline, r, at_append k _ t ht, hws]
      simp
    · rw [if_neg hws] at c
      obtain ⟨o, p⟩ := out0 c.1
      exact ⟨p, by rw [o, c.2, at_append k _ t ht, hf]⟩

/-- When the report goes on, what remains is above, and the row is empty. -/
theorem at_start (k : Kind) (g : Cfg) (base : List Str) (x : Waits) (ws : List Str) (s : St) (b : Bool) (h : At k base x ws s) :
    (barStart g s b).out.foldl k.get {} = k.at (base ++ k.remains ws x) [] ∧ (barStart g s b).captured = (barStart g s b).last ∧
      (barStart g s b).backable = (g.progressing && b) := by
  refine ⟨?_, rfl, rfl⟩
  have e : (barStart g s b).out = s.out ++ [if s.last = s.captured then Tok.clear else Tok.ch '\n'] := rfl
  rw [e, List.foldl_append]
  simp only [List.foldl_cons, List.foldl_nil]
  have len : ∀ {c l : Nat} {f : Str}, c = l + f.length → (l = c ↔ f = []) := by
    intro c l f hc
    constructor
    · intro hl; exact List.eq_nil_of_length_eq_zero (by omega)
    · rintro rfl; simpa using hc.symm
  cases x with
  | empty =>
    obtain ⟨_, b, c⟩ := h
    rw [c]
    by_cases hf : ws.flatten = []
    · rw [if_pos ((len b).2 hf), at_clear, Kind.remains, if_pos hf, hf, rows_nil]; simp
    · rw [if_neg (by rw [len b]; exact hf), at_newline, Kind.remains, if_neg hf]
  | gap =>
    obtain ⟨_, b, c⟩ := h
    rw [c, if_neg (by omega), at_newline, Kind.remains]
  | todo u =>
    obtain ⟨_, b, c⟩ := h
    rw [c]
    by_cases hf : ws.flatten = []
    · rw [if_pos ((len b).2 hf), at_clear, Kind.remains, if_pos hf, hf, List.append_nil]
    · rw [if_neg (by rw [len b]; exact hf), at_newline, Kind.remains, if_neg hf]
  | progress row =>
    obtain ⟨b, r, c⟩ := h
    by_cases hws : ws = []
    · rw [if_pos hws] at c
      have hf : ws.flatten = [] := by rw [hws]; rfl
      rw [c.2, if_pos ((len b).2 hf), at_clear, Kind.remains, if_pos hws, if_pos hf, r]
      simp
    · rw [if_neg hws] at c
      rw [c.2, Kind.remains, if_neg hws]
      by_cases hf : ws.flatten = []
      · rw [if_pos ((len b).2 hf), at_clear, if_pos hf, hf, rows_nil]; simp
      · rw [if_neg (by rw [len b]; exact hf), at_newline, if_neg hf]; simp

theorem at_row (k : Kind) (base : List Str) (s : St) (u : Str) (hu : Clean u) (h : At k base .empty [] s) :
    At k (base ++ k.rows u) .empty [] (s.print (u ++ ['\n'])) := by
  obtain ⟨a, b, c⟩ := h
  refine ⟨a, b, ?_⟩
  rw [print_out, c]
  exact at_line k base [] u hu

theorem line_plain (g : Cfg) (cases index : Nat) (status : String) (suite name place : Str) (hs : Plain status.toList) (h1 : Plain suite)
    (h2 : Plain name) (h3 : Plain place) : Plain (line g cases index status suite name place) := by
  unfold line
  have a : Plain (if name = [] then "case".toList else name) := by split; exact literal_plain (by decide); exact h2
  have b : Plain (if suite = [] then "suite".toList else suite) := by split; exact literal_plain (by decide); exact h1
  exact plain_add (plain_add (plain_add (plain_add (plain_add (plain_add (plain_add (plain_add (percent_plain _ _ _) hs)
    (literal_plain (by decide))) a) (literal_plain (by decide))) b) (literal_plain (by decide))) h3) (literal_plain (by decide))

theorem testing_plain (g : Cfg) (cases index : Nat) (suite name : Str) (h1 : Plain suite) (h2 : Plain name) : Plain (testing g cases index suite name) := by
  unfold testing
  have a : Plain (if name = [] then "case".toList else name) := by split; exact literal_plain (by decide); exact h2
  have b : Plain (if suite = [] then "suite".toList else suite) := by split; exact literal_plain (by decide); exact h1
  exact plain_add (plain_add (plain_add (plain_add (plain_add (percent_plain _ _ _) (literal_plain (by decide))) a) (literal_plain (by decide))) b)
    (literal_plain (by decide))

theorem printBar_line (g : Cfg) (W index cases : Nat) (style status : String) (suite name place : Str) (s : St)
    (hs : Plain status.toList) (h1 : Plain suite) (h2 : Plain name) (h3 : Plain place) :
    printBar g W index cases style status suite name place false s =
      (barStart g s false).print (line g cases index status suite name place) := by
  unfold printBar
  simp only [Bool.and_false, Bool.false_eq_true, if_false]
  rw [plain_append, plain_append, plain_percent, plain_styled _ _ (clean_plain hs), plain_title _ _ _ h1 h2 (by intro p e; cases e; exact h3)]
  have : " ┊ ".toList = " ".toList ++ "┊ ".toList := by decide
  simp only [line, this, List.append_assoc]

/-- The bar of a case being tested. -/
def bar (g : Cfg) (cases index : Nat) (suite name : Str) : Line :=
  (if g.progressing then percentLine index cases else []) ++ styled "light blue" "Testing".toList ++ titleLine suite name none

/-- The row of a case being tested. -/
def headOf (g : Cfg) (W cases index : Nat) (suite name : Str) : Str := plain (fit W (bar g cases index suite name))

theorem plain_bar (g : Cfg) (cases index : Nat) (suite name : Str) (h1 : Plain suite) (h2 : Plain name) :
    plain (bar g cases index suite name) = testing g cases index suite name := by
  unfold bar
  rw [plain_append, plain_append, plain_percent, plain_styled _ _ (clean_plain (literal_plain (by decide))), plain_title _ _ _ h1 h2 (by intro p e; cases e)]
  have : "Testing┊ ".toList = "Testing".toList ++ "┊ ".toList := by decide
  simp only [testing, this, List.append_assoc, List.append_nil]

theorem printBar_head (g : Cfg) (W index cases : Nat) (suite name place : Str) (s : St) :
    printBar g W index cases "light blue" "Testing" suite name place true s =
      if g.progressing then (barStart g s true).print (headOf g W cases index suite name) else barStart g s true := by
  unfold printBar
  by_cases h : g.progressing = true
  · simp only [h, Bool.not_true, Bool.false_and, Bool.false_eq_true, if_false, if_true]
    unfold headOf bar
    rw [if_pos h]
  · have : g.progressing = false := by simpa using h
    simp [this]

theorem head_row (k : Kind) (hk : k.Usual) (g : Cfg) (cases index : Nat) (suite name : Str) (h1 : Plain suite) (h2 : Plain name)
    (hr : room (testing g cases index suite name) < 2 ^ 64) :
    Row k.W (testing g cases index suite name) (headOf g k.W cases index suite name) ∧
      k.rows (headOf g k.W cases index suite name) = [headOf g k.W cases index suite name] ∧
      Clean (headOf g k.W cases index suite name) := by
  have e := plain_bar g cases index suite name h1 h2
  obtain ⟨a, b, c⟩ := fit_row k.W (bar g cases index suite name) (by rw [e]; exact testing_plain _ _ _ _ _ h1 h2) (by rw [e]; exact hr) hk.1
  rw [e] at a
  refine ⟨a, rows_one k _ ?_ (Nat.le_trans (columns_room k hk _) b), clean_plain c⟩
  intro hn
  exact c _ hn (by decide)

/-! ### Cases -/

theorem fails_print (s : St) (l : List Str) : l.foldl (fun s t => (s.print t).print ['\n']) s = s.print (l.flatMap fun t => t ++ ['\n']) := by
  induction l generalizing s with
  | nil => simp [St.print]
  | cons t l ih => rw [List.foldl_cons, ih, print_print, print_print]; simp

theorem at_rows (k : Kind) (l : List Str) (hl : ∀ t ∈ l, Clean t) : ∀ (base : List Str) (s : St), At k base .empty [] s →
    At k (base ++ l.flatMap k.rows) .empty [] (s.print (l.flatMap fun t => t ++ ['\n'])) := by
  induction l with
  | nil => intro base s h; simpa [St.print] using h
  | cons t l ih =>
    intro base s h
    have := ih (fun u hu => hl u (by simp [hu])) _ _ (at_row k base s t (hl t (by simp)) h)
    rw [print_print] at this
    simpa [List.append_assoc] using this

/-- Lines printed behind a bar. -/
theorem at_told (k : Kind) (g : Cfg) (base : List Str) (x : Waits) (ws : List Str) (s : St) (l : List Str) (hl : ∀ t ∈ l, Clean t)
    (h : At k base x ws s) :
    At k (base ++ k.remains ws x ++ l.flatMap k.rows) .empty [] ((barStart g s false).print (l.flatMap fun t => t ++ ['\n'])) := by
  obtain ⟨a, b, c⟩ := at_start k g base x ws s false h
  exact at_rows k l hl _ _ ⟨by simpa using c, by simpa using b, by simpa using a⟩

theorem outcome_cases (c : Case) :
    ((c.filtered || c.ignored) = true ∧ outcome c = none) ∨
    ((c.filtered || c.ignored) = false ∧ c.todo = true ∧ outcome c = some .todo) ∨
    ((c.filtered || c.ignored) = false ∧ c.todo = false ∧ c.failed = true ∧ outcome c = some .failed) ∨
    ((c.filtered || c.ignored) = false ∧ c.todo = false ∧ c.failed = false ∧ c.warning = true ∧ outcome c = some .warning) ∨
    ((c.filtered || c.ignored) = false ∧ c.todo = false ∧ c.failed = false ∧ c.warning = false ∧ outcome c = some .passed) := by
  unfold outcome
  cases c.filtered <;> cases c.ignored <;> cases c.todo <;> cases c.failed <;> cases c.warning <;> simp

/-- What is printed about a case that ran. -/
theorem onEnded_about (k : Kind) (g : Cfg) (cases : Nat) (told : Info → Str) (index : Nat) (su : Suite) (c : Case) (i : Info) (s : St)
    (hgood : (Ev.ended index su c i).Good g cases told) (b : Bucket) (ho : outcome c = some b) (hb : b ≠ .todo) :
    onEnded g k.W cases told index su c i s =
      (match about g cases told index su.name c i b with
       | [] => s
       | l => (barStart g s false).print (l.flatMap fun t => t ++ ['\n'])) ∧
    ∀ t ∈ about g cases told index su.name c i b, Clean t := by
  obtain ⟨h1, h2, h3, h4, h5⟩ := hgood
  have hf : Clean (line g cases index "Failed " su.name c.name i.filine) := clean_plain (line_plain _ _ _ _ _ _ _ (literal_plain (by decide)) h1 h2 h3)
  have hw : Clean (line g cases index "Warning" su.name c.name i.filine) := clean_plain (line_plain _ _ _ _ _ _ _ (literal_plain (by decide)) h1 h2 h3)
  have hp : Clean (line g cases index "Passed " su.name c.name i.filine) := clean_plain (line_plain _ _ _ _ _ _ _ (literal_plain (by decide)) h1 h2 h3)
  have n0 : Clean ([] : Str) := by intro c hc; simp at hc
  have fails : ∀ (t : Str) (q : Prop) [Decidable q], Clean t → ∀ u ∈ t :: (if q then i.fails ++ [[]] else []), Clean u := by
    intro t q _ ht u hu
    rcases List.mem_cons.1 hu with rfl | hu
    · exact ht
    · split at hu
      · rcases List.mem_append.1 hu with hu | hu
        · exact h5 u hu
        · rw [List.mem_singleton.1 hu]; exact n0
      · simp at hu
  have pf : ∀ (t : Str) (s : St), printFails i ((s.print t).print ['\n']) =
      s.print ((t :: (if i.fails ≠ [] then i.fails ++ [[]] else [])).flatMap fun t => t ++ ['\n']) := by
    intro t s
    unfold printFails
    split
    · rw [fails_print, print_print, print_print, print_print]; simp
    · rw [print_print]; simp
  have e1 : ∀ (s : St) (t : Str), (s.print t).print ['\n'] = s.print ([t].flatMap fun t => t ++ ['\n']) := by
    intro s t; rw [print_print]; simp
  have v1 : (g.verbose ≥ H2.Console.compactFailed) = (1 ≤ g.verbose) := rfl
  have v2 : (g.verbose ≥ H2.Console.compactWarning) = (2 ≤ g.verbose) := rfl
  have v3 : (g.verbose = H2.Console.compactPassed) = (g.verbose = 3) := rfl
  have v4 : (g.verbose ≥ H2.Console.normal) = (4 ≤ g.verbose) := rfl
  have v5 : (g.verbose ≥ H2.Console.detail) = (5 ≤ g.verbose) := rfl
  have v6 : (g.verbose > H2.Console.normal) = (5 ≤ g.verbose) := by
    apply propext; show (4 : Int) < g.verbose ↔ _; omega
  rcases outcome_cases c with ⟨_, o⟩ | ⟨_, _, o⟩ | ⟨c1, c2, c3, o⟩ | ⟨c1, c2, c3, c4, o⟩ | ⟨c1, c2, c3, c4, o⟩ <;> rw [o] at ho
  · cases ho
  · cases ho; exact absurd rfl hb
  · cases ho
    simp only [onEnded, c1, c2, c3, Bool.false_eq_true, if_false, if_true, v1, v4, about]
    by_cases h : 1 ≤ g.verbose
    · simp only [if_pos h]
      refine ⟨?_, fails _ _ hf⟩
      rw [printBar_line _ _ _ _ _ _ _ _ _ _ (literal_plain (by decide)) h1 h2 h3]
      by_cases hv : 4 ≤ g.verbose
      · simp only [if_pos hv, hv, true_and]; exact pf _ _
      · simp only [if_neg hv, hv, false_and, if_false]; exact e1 _ _
    · simp [h]
  · cases ho
    simp only [onEnded, c1, c2, c3, c4, Bool.false_eq_true, if_false, if_true, v2, v6, about]
    by_cases h : 2 ≤ g.verbose
    · simp only [if_pos h]
      refine ⟨?_, fails _ _ hw⟩
      rw [printBar_line _ _ _ _ _ _ _ _ _ _ (literal_plain (by decide)) h1 h2 h3]
      by_cases hv : 5 ≤ g.verbose
      · simp only [if_pos hv, hv, true_and]; exact pf _ _
      · simp only [if_neg hv, hv, false_and, if_false]; exact e1 _ _
    · simp [h]
  · cases ho
    simp only [onEnded, c1, c2, c3, c4, Bool.false_eq_true, if_false, v5, v3, about, or_comm (a := 5 ≤ g.verbose)]
    by_cases h : g.verbose = 3 ∨ 5 ≤ g.verbose
    · simp only [if_pos h]
      refine ⟨?_, ?_⟩
      · rw [printBar_line _ _ _ _ _ _ _ _ _ _ (literal_plain (by decide)) h1 h2 h3]
        by_cases hv : 5 ≤ g.verbose
        · simp only [if_pos hv, print_print]; simp
        · simp only [if_neg hv, print_print]; simp
      · intro t ht
        rw [List.mem_singleton.1 ht]
        refine clean_append hp ?_
        split
        · exact h4
        · exact n0
    · simp [h]

/-- The report and what is seen, event by event. -/
theorem seen_run (k : Kind) (hk : k.Usual) (g : Cfg) (cases : Nat) (told : Info → Str) (evs : List Ev) (hev : ∀ e ∈ evs, e.Good g cases told) :
    ∀ (base : List Str) (x : Waits) (ws : List Str) (s : St), At k base x ws s →
      ∃ base' x' ws', At k base' x' ws' (run g k.W cases told s evs) ∧
        ∀ rest, base ++ k.seen g cases told (headOf g k.W cases) x ws (evs ++ rest) =
          base' ++ k.seen g cases told (headOf g k.W cases) x' ws' rest := by
  induction evs with
  | nil => intro base x ws s h; exact ⟨base, x, ws, h, fun _ => rfl⟩
  | cons e evs ih =>
    intro base x ws s h
    have ih := ih fun e he => hev e (by simp [he])
    have good := hev e (by simp)
    show ∃ base' x' ws', At k base' x' ws' (run g k.W cases told (step g k.W cases told s e) evs) ∧ _
    cases e with
    | write t =>
      by_cases hv : 4 ≤ g.verbose
      · obtain ⟨b', x', w', a, r⟩ := ih base x (ws ++ [t]) _ (at_write k g base x ws s t hv good h)
        refine ⟨b', x', w', a, fun rest => ?_⟩
        rw [← r rest, List.cons_append, Kind.seen, if_pos hv]
      · have : step g k.W cases told s (.write t) = s := by
          show write g s t = s
          unfold write; exact if_neg hv
        rw [this]
        obtain ⟨b', x', w', a, r⟩ := ih base x ws s h
        refine ⟨b', x', w', a, fun rest => ?_⟩
        rw [← r rest, List.cons_append, Kind.seen, if_neg hv]
    | start index su c =>
      obtain ⟨h1, h2, h3⟩ := good
      show ∃ base' x' ws', At k base' x' ws' (run g k.W cases told (onStart g k.W cases index su c s) evs) ∧ _
      have skip : (outcome c = none ∨ outcome c = some .todo) → (c.filtered || c.ignored || c.todo) = true := by
        rcases outcome_cases c with ⟨p, o⟩ | ⟨p, q, o⟩ | ⟨p, q, _, o⟩ | ⟨p, q, _, _, o⟩ | ⟨p, q, _, _, o⟩ <;> simp_all
      have noskip : ∀ b, outcome c = some b → b ≠ .todo → (c.filtered || c.ignored || c.todo) = false := by
        intro b hb hn
        rcases outcome_cases c with ⟨p, o⟩ | ⟨p, q, o⟩ | ⟨p, q, _, o⟩ | ⟨p, q, _, _, o⟩ | ⟨p, q, _, _, o⟩ <;> rw [o] at hb <;> simp_all
      have goOn : ∀ b, outcome c = some b → b ≠ .todo →
          ∃ base' x' ws', At k base' x' ws' (run g k.W cases told (onStart g k.W cases index su c s) evs) ∧
          ∀ rest, base ++ (k.remains ws x ++ k.seen g cases told (headOf g k.W cases)
            (if g.progressing then .progress (headOf g k.W cases index su.name c.name) else .empty) [] (evs ++ rest)) =
            base' ++ k.seen g cases told (headOf g k.W cases) x' ws' rest := by
        intro b hb hn
        obtain ⟨a1, a2, a3⟩ := at_start k g base x ws s true h
        obtain ⟨_, r1, r2⟩ := head_row k hk g cases index su.name c.name h1 h2 h3
        rw [onStart, if_neg (by simp [noskip b hb hn]), printBar_head]
        by_cases hp : g.progressing = true
        · rw [if_pos hp, if_pos hp]
          obtain ⟨b', x', w', a, r⟩ := ih (base ++ k.remains ws x) (.progress (headOf g k.W cases index su.name c.name)) []
            ((barStart g s true).print (headOf g k.W cases index su.name c.name)) (by
              refine ⟨a2, r1, ?_⟩
              rw [if_pos rfl]
              refine ⟨by show (barStart g s true).backable = true; rw [a3, hp]; rfl, ?_⟩
              rw [print_out, a1, at_append k _ _ r2]; simp)
          exact ⟨b', x', w', a, fun rest => by rw [← r rest, List.append_assoc]⟩
        · rw [if_neg hp, if_neg hp]
          obtain ⟨b', x', w', a, r⟩ := ih (base ++ k.remains ws x) .empty [] (barStart g s true) (by
              refine ⟨?_, by simpa using a2, by simpa using a1⟩
              rw [a3]; simpa using hp)
          exact ⟨b', x', w', a, fun rest => by rw [← r rest, List.append_assoc]⟩
      have same : (c.filtered || c.ignored || c.todo) = true → onStart g k.W cases index su c s = s := by
        intro hc; rw [onStart, if_pos hc]
      obtain ho | ⟨b, ho⟩ : outcome c = none ∨ ∃ b, outcome c = some b := by
        cases outcome c with
        | none => exact Or.inl rfl
        | some b => exact Or.inr ⟨b, rfl⟩
      · rw [same (skip (Or.inl ho))]
        simp only [List.cons_append, Kind.seen, ho]
        exact ih base x ws s h
      · cases b with
        | todo =>
          rw [same (skip (Or.inr ho))]
          simp only [List.cons_append, Kind.seen, ho]
          exact ih base x ws s h
        | _ =>
          simp only [List.cons_append, Kind.seen, ho]
          exact goOn _ ho (by simp)
    | ended index su c i =>
      show ∃ base' x' ws', At k base' x' ws' (run g k.W cases told (onEnded g k.W cases told index su c i s) evs) ∧ _
      have goOn : ∀ b, outcome c = some b → b ≠ .todo →
          ∃ base' x' ws', At k base' x' ws' (run g k.W cases told (onEnded g k.W cases told index su c i s) evs) ∧
          ∀ rest, base ++ (match about g cases told index su.name c i b with
            | [] => k.seen g cases told (headOf g k.W cases) x ws (evs ++ rest)
            | l => k.remains ws x ++ l.flatMap k.rows ++ k.seen g cases told (headOf g k.W cases) .empty [] (evs ++ rest)) =
            base' ++ k.seen g cases told (headOf g k.W cases) x' ws' rest := by
        intro b hb hn
        obtain ⟨p, q⟩ := onEnded_about k g cases told index su c i s good b hb hn
        rw [p]
        generalize about g cases told index su.name c i b = l at q
        cases l with
        | nil => exact ih base x ws s h
        | cons t l =>
          obtain ⟨b', x', w', a, r⟩ := ih _ _ _ _ (at_told k g base x ws s (t :: l) q h)
          exact ⟨b', x', w', a, fun rest => by rw [← r rest]; simp only [List.append_assoc]⟩
      obtain ho | ⟨b, ho⟩ : outcome c = none ∨ ∃ b, outcome c = some b := by
        cases outcome c with
        | none => exact Or.inl rfl
        | some b => exact Or.inr ⟨b, rfl⟩
      · have : onEnded g k.W cases told index su c i s = s := by
          rcases outcome_cases c with ⟨p, o⟩ | ⟨p, q, o⟩ | ⟨p, q, _, o⟩ | ⟨p, q, _, _, o⟩ | ⟨p, q, _, _, o⟩ <;> rw [o] at ho <;> try cases ho
          rw [onEnded, if_pos p]
        rw [this]
        simp only [List.cons_append, Kind.seen, ho]
        exact ih base x ws s h
      · cases b with
        | todo =>
          obtain ⟨h1, h2, h3, _, _⟩ := good
          simp only [List.cons_append, Kind.seen, ho]
          have e : onEnded g k.W cases told index su c i s =
              if 5 ≤ g.verbose then (barStart g s false).print (line g cases index (if i.absent then "TODO   " else "Todo   ") su.name c.name i.filine) else s := by
            rcases outcome_cases c with ⟨p, o⟩ | ⟨p, q, o⟩ | ⟨p, q, _, o⟩ | ⟨p, q, _, _, o⟩ | ⟨p, q, _, _, o⟩ <;> rw [o] at ho <;> try cases ho
            rw [onEnded, if_neg (by simp [p]), if_pos q]
            by_cases hv : 5 ≤ g.verbose
            · rw [if_pos hv, if_pos (show g.verbose ≥ H2.Console.detail from hv),
                printBar_line _ _ _ _ _ _ _ _ _ _ (by split <;> exact literal_plain (by decide)) h1 h2 h3]
            · rw [if_neg hv, if_neg (show ¬ g.verbose ≥ H2.Console.detail from hv)]
          rw [e]
          by_cases hv : 5 ≤ g.verbose
          · simp only [if_pos hv]
            obtain ⟨a1, a2, a3⟩ := at_start k g base x ws s false h
            have hl : Plain (line g cases index (if i.absent then "TODO   " else "Todo   ") su.name c.name i.filine) :=
              line_plain _ _ _ _ _ _ _ (by split <;> exact literal_plain (by decide)) h1 h2 h3
            obtain ⟨b', x', w', a, r⟩ := ih (base ++ k.remains ws x) (.todo (line g cases index (if i.absent then "TODO   " else "Todo   ") su.name c.name i.filine)) []
              ((barStart g s false).print (line g cases index (if i.absent then "TODO   " else "Todo   ") su.name c.name i.filine)) (by
                refine ⟨by show (barStart g s false).backable = false; rw [a3]; simp, a2, ?_⟩
                rw [print_out, a1, at_append k _ _ (clean_plain hl)]; simp)
            exact ⟨b', x', w', a, fun rest => by rw [← r rest, List.append_assoc]⟩
          · simp only [if_neg hv]
            exact ih base x ws s h
        | _ =>
          simp only [List.cons_append, Kind.seen, ho]
          exact goOn _ ho (by simp)
    | suite index t =>
      have e : step g k.W cases told s (.suite index t) = (barStart g s false).print ([percent g index cases ++ t].flatMap fun t => t ++ ['\n']) := by
        show onSuite g cases index t s = _
        unfold onSuite
        have := plain_percent g index cases
        by_cases hp : g.progressing = true
        · simp only [if_pos hp] at this ⊢
          rw [this, print_print, print_print]; simp
        · simp only [if_neg hp] at this ⊢
          rw [← this, print_print]; simp [plain]
      rw [e]
      obtain ⟨b', x', w', a, r⟩ := ih _ _ _ _ (at_told k g base x ws s [percent g index cases ++ t]
        (by intro u hu; rw [List.mem_singleton.1 hu]; exact clean_append (clean_plain (percent_plain _ _ _)) good) h)
      refine ⟨b', x', w', a, fun rest => ?_⟩
      rw [← r rest]
      simp only [List.cons_append, Kind.seen, List.append_assoc, List.flatMap_cons, List.flatMap_nil, List.append_nil, List.nil_append]
    | finish t =>
      have e : step g k.W cases told s (.finish t) = (barStart g s false).print ([t].flatMap fun t => t ++ ['\n']) := by
        show onFinish g t s = _
        unfold onFinish
        rw [print_print]; simp
      rw [e]
      obtain ⟨b', x', w', a, r⟩ := ih _ _ _ _ (at_told k g base x ws s [t] (by intro u hu; rw [List.mem_singleton.1 hu]; exact good) h)
      refine ⟨b', x', w', a, fun rest => ?_⟩
      rw [← r rest]
      simp only [List.cons_append, Kind.seen, List.append_assoc, List.flatMap_cons, List.flatMap_nil, List.append_nil, List.nil_append]

/-! ### Collecting -/

/-- The terminal shows `T`, and `c` characters were written. -/
def Holds (k : Kind) (T : Str) (c : Nat) (s : St) : Prop :=
  s.backable = false ∧ s.captured = c ∧ s.last = 0 ∧ s.out.foldl k.get {} = k.at [] T

theorem holds_print (k : Kind) {T : Str} {c : Nat} {s : St} (u : Str) (hu : Clean u) (h : Holds k T c s) : Holds k (T ++ u) c (s.print u) := by
  obtain ⟨a, b, d, e⟩ := h
  exact ⟨a, b, d, by rw [print_out, e, at_append k [] u hu]⟩

theorem holds_writes (k : Kind) (g : Cfg) (l : List Str) (hl : ∀ t ∈ l, Clean t) : ∀ {T : Str} {c : Nat} {s : St}, Holds k T c s →
    Holds k (T ++ (heard g l).flatten) (c + (heard g l).flatten.length) (l.foldl (write g) s) := by
  induction l with
  | nil => intro T c s h; simpa [heard] using h
  | cons t l ih =>
    intro T c s h
    have ih := @ih fun u hu => hl u (by simp [hu])
    rw [List.foldl_cons]
    by_cases hv : 4 ≤ g.verbose
    · have hw : write g s t = { s.print t with captured := s.captured + t.length } := by
        unfold write; rw [if_pos (show g.verbose ≥ H2.Console.normal from hv), h.1]; rfl
      obtain ⟨a, b, d, e⟩ := holds_print k t (hl t (by simp)) h
      have := ih (T := T ++ t) (c := c + t.length) (s := write g s t) ⟨by rw [hw]; exact a, by rw [hw]; exact congrArg (· + t.length) h.2.1, by rw [hw]; exact d, by rw [hw]; exact e⟩
      simp only [heard, if_pos hv] at this ⊢
      simpa [List.append_assoc, Nat.add_assoc] using this
    · have hw : write g s t = s := by
        unfold write; exact if_neg hv
      rw [hw]
      have := ih h
      simpa [heard, if_neg hv] using this

/-- All that is written while `n` suites are collected. -/
def written (g : Cfg) (ws : Nat → List Str) (n : Nat) : List Str := (List.range n).flatMap fun i => heard g (ws i)

theorem written_succ (g : Cfg) (ws : Nat → List Str) (n : Nat) : written g ws (n + 1) = written g ws n ++ heard g (ws n) := by
  simp [written, List.range_succ]

theorem dots_at (W n i d : Nat) (h : Dots W n i d) : d = dotsAt W n i := by
  obtain ⟨a, b, c⟩ := h
  unfold dotsAt
  have e : i * (W - 11) * 1000000 / (n * 1000000 + 1) = d - 1 := by
    rw [Nat.mul_comm (i * (W - 11)), Nat.mul_comm n]
    refine Nat.div_eq_of_lt_le b ?_
    have : d - 1 + 1 = d := by omega
    rw [this]; exact c
  omega

theorem dots_ok (W n i : Nat) : Dots W n i (dotsAt W n i) := by
  unfold dotsAt Dots
  rw [Nat.mul_comm (i * (W - 11)), Nat.mul_comm n]
  generalize 1000000 * (i * (W - 11)) = a
  generalize hm : 1000000 * n = m
  refine ⟨Nat.le_add_left _ _, ?_, ?_⟩
  · rw [Nat.add_sub_cancel]; exact Nat.div_mul_le_self _ _
  · rw [Nat.mul_comm]; exact Nat.lt_mul_div_succ _ (Nat.succ_pos _)

theorem replicate_clean (n : Nat) (c : Char) (h : ¬ Control c) : Clean (List.replicate n c) := by
  intro d hd; rw [(List.mem_replicate.1 hd).2]; exact Or.inr h

theorem holds_collect (k : Kind) (g : Cfg) (hp : g.progressing = true) (n : Nat) (ws : Nat → List Str) (hws : ∀ i, ∀ t ∈ ws i, Clean t) (T : Str) (c : Nat) :
    ∀ (m i : Nat) (s : St), Holds k (T ++ collecting (dotsAt k.W n) (fun i => heard g (ws i)) i) (c + (written g ws i).flatten.length) s →
      Holds k (T ++ collecting (dotsAt k.W n) (fun i => heard g (ws i)) (i + m)) (c + (written g ws (i + m)).flatten.length)
        (collectFrom g k.W n ws m i (if i = 0 then 0 else dotsAt k.W n (i - 1)) s) := by
  intro m
  induction m with
  | zero => intro i s h; exact h
  | succ m ih =>
    intro i s h
    rw [collectFrom]
    simp only [if_pos hp]
    have h1 := holds_print k (List.replicate (dotsAt k.W n i - (if i = 0 then 0 else dotsAt k.W n (i - 1))) '.') (replicate_clean _ _ (by decide)) h
    have h2 := holds_writes k g (ws i) (hws i) h1
    have h3 := ih (i + 1) _ (by
      rw [written_succ, List.flatten_append, List.length_append, ← Nat.add_assoc]
      show Holds k (T ++ (collecting (dotsAt k.W n) (fun i => heard g (ws i)) i ++ _ ++ (heard g (ws i)).flatten)) _ _
      simpa only [List.append_assoc] using h2)
    rw [if_neg (by omega), show i + 1 - 1 = i by omega, show i + 1 + m = i + (m + 1) by omega] at h3
    exact h3

theorem holds_silent (k : Kind) (g : Cfg) (hp : g.progressing = false) (n : Nat) (ws : Nat → List Str) (hws : ∀ i, ∀ t ∈ ws i, Clean t) (T : Str) (c : Nat) :
    ∀ (m i d : Nat) (s : St), Holds k (T ++ (written g ws i).flatten) (c + (written g ws i).flatten.length) s →
      Holds k (T ++ (written g ws (i + m)).flatten) (c + (written g ws (i + m)).flatten.length) (collectFrom g k.W n ws m i d s) := by
  intro m
  induction m with
  | zero => intro i d s h; exact h
  | succ m ih =>
    intro i d s h
    rw [collectFrom]
    simp only [hp, Bool.false_eq_true, if_false]
    have h2 := holds_writes k g (ws i) (hws i) h
    have h3 := ih (i + 1) d _ (by
      rw [written_succ, List.flatten_append, List.length_append, ← Nat.add_assoc, ← List.append_assoc]
      exact h2)
    rw [show i + 1 + m = i + (m + 1) by omega] at h3
    exact h3

/-- The state when all suites are collected. -/
theorem at_collect (k : Kind) (g : Cfg) (n : Nat) (before : List Str) (hb : ∀ t ∈ before, Clean t) (ws : Nat → List Str) (hws : ∀ i, ∀ t ∈ ws i, Clean t) :
    if g.progressing then
      At k (k.rows ((heard g before).flatten ++ "Collecting ".toList ++ collecting (dotsAt k.W n) (fun i => heard g (ws i)) n)).dropLast
        (if (heard g before ++ written g ws n).flatten = [] then .empty else .gap) [] (collect g k.W n ws (before.foldl (write g) {}))
    else At k [] .empty (heard g before ++ written g ws n) (collect g k.W n ws (before.foldl (write g) {})) := by
  have h0 : Holds k [] 0 {} := ⟨rfl, rfl, rfl, by rw [at_nil]; rfl⟩
  have h1 := holds_writes k g before hb h0
  rw [List.nil_append, Nat.zero_add] at h1
  by_cases hp : g.progressing = true
  · rw [if_pos hp]
    have h2 := holds_print k "Collecting ".toList (clean_plain (literal_plain (by decide))) h1
    have h3 := holds_collect k g hp n ws hws ((heard g before).flatten ++ "Collecting ".toList) (heard g before).flatten.length n 0 _ (by
      have w0 : written g ws 0 = [] := rfl
      rw [w0, collecting, List.append_nil]; exact h2)
    rw [Nat.zero_add, if_pos rfl] at h3
    have e : collect g k.W n ws (before.foldl (write g) {}) =
        { collectFrom g k.W n ws n 0 0 ((before.foldl (write g) {}).print "Collecting ".toList) with
          out := (collectFrom g k.W n ws n 0 0 ((before.foldl (write g) {}).print "Collecting ".toList)).out ++ [.clear] } := by
      simp only [collect, if_pos hp]
    rw [e]
    obtain ⟨a, b, d, f⟩ := h3
    have out : ((collectFrom g k.W n ws n 0 0 ((before.foldl (write g) {}).print "Collecting ".toList)).out ++ [.clear] : List Tok).foldl k.get {} =
        k.at (k.rows ((heard g before).flatten ++ "Collecting ".toList ++ collecting (dotsAt k.W n) (fun i => heard g (ws i)) n)).dropLast [] := by
      rw [List.foldl_append, f]
      simp only [List.foldl_cons, List.foldl_nil]
      rw [at_clear]; simp
    have len : (heard g before).flatten.length + (written g ws n).flatten.length = (heard g before ++ written g ws n).flatten.length := by simp
    by_cases hw : (heard g before ++ written g ws n).flatten = []
    · rw [if_pos hw]
      rw [len, hw] at b
      exact ⟨a, by rw [b, d]; rfl, out⟩
    · rw [if_neg hw]
      refine ⟨a, ?_, out⟩
      show _ < _
      rw [b, d, len]
      exact List.length_pos_iff.2 hw
  · have hp' : g.progressing = false := by simpa using hp
    rw [if_neg hp]
    have h3 := holds_silent k g hp' n ws hws (heard g before).flatten (heard g before).flatten.length n 0 0 _ (by
      have w0 : written g ws 0 = [] := rfl
      rw [w0, List.flatten_nil, List.append_nil]; exact h1)
    rw [Nat.zero_add] at h3
    have e : collect g k.W n ws (before.foldl (write g) {}) = collectFrom g k.W n ws n 0 0 (before.foldl (write g) {}) := by
      simp only [collect, if_neg hp]
    rw [e]
    obtain ⟨a, b, d, f⟩ := h3
    exact ⟨a, by rw [b, d]; simp, by rw [f]; simp⟩

theorem collecting_dots (dots : Nat → Nat) (hm : ∀ i, dots i ≤ dots (i + 1)) (n : Nat) :
    collecting dots (fun _ => []) n = List.replicate (if n = 0 then 0 else dots (n - 1)) '.' := by
  induction n with
  | zero => simp [collecting]
  | succ n ih =>
    rw [collecting, ih, if_neg (by omega : n + 1 ≠ 0), Nat.add_sub_cancel]
    simp only [List.flatten_nil, List.append_nil, List.replicate_append_replicate]
    congr 1
    cases n with
    | zero => simp
    | succ m =>
      have := hm m
      simp only [Nat.add_sub_cancel, if_neg (by omega : m + 1 ≠ 0)]
      omega

theorem dotsAt_mono (W n i : Nat) : dotsAt W n i ≤ dotsAt W n (i + 1) := by
  unfold dotsAt
  generalize 1000000 = M
  refine Nat.add_le_add_right (Nat.div_le_div_right ?_) 1
  exact Nat.mul_le_mul_right _ (Nat.mul_le_mul_right _ (by omega))

/-- The dots fit the row. -/
theorem dotsAt_fits (W n i : Nat) (hi : i < n) (hW : 17 ≤ W) : 11 + dotsAt W n i ≤ W := by
  unfold dotsAt
  have : i * (W - 11) * 1000000 / (n * 1000000 + 1) < W - 11 := by
    rw [Nat.div_lt_iff_lt_mul (by omega)]
    have h1 : i * (W - 11) * 1000000 = (i * 1000000) * (W - 11) := by
      rw [Nat.mul_assoc, Nat.mul_comm (W - 11), ← Nat.mul_assoc]
    rw [h1, Nat.mul_comm]
    exact Nat.mul_lt_mul_of_pos_left (by omega) (by omega)
  omega

end H2.Screen
