import Verif.Json.JeSpec
import Verif.Json.SyntaxProps
import Verif.Json.DualProps
import Verif.Stringify.Props

namespace H2.Json.Je
open H2.Json H2.Json.Dual
open H2.Stringify (intText floatText nearest six sixNat)

/-! ### Numbers -/

theorem number_append (ds es : Str) (n : Nat) : Expr.number 10 (ds ++ es) n = Expr.number 10 es (Expr.number 10 ds n) := by
  induction ds generalizing n with
  | nil => rfl
  | cons d ds ih => exact ih _

theorem digitValue_digitChar : ∀ d < 10, Expr.digitValue (Nat.digitChar d) = d ∧ Expr.isDecimal (Nat.digitChar d) = true := by decide

theorem number_digits (n : Nat) : Expr.number 10 (Nat.toDigits 10 n) 0 = n ∧ ∀ c ∈ Nat.toDigits 10 n, Expr.isDecimal c = true := by
  induction n using Nat.strongRecOn with
  | ind n ih =>
    by_cases h : n < 10
    · rw [Nat.toDigits_of_lt_base h]
      have := digitValue_digitChar n h
      refine ⟨?_, by simp [this.2]⟩
      show 10 * 0 + Expr.digitValue _ = n
      rw [this.1]; omega
    · have hq := ih (n / 10) (by omega)
      have hd := digitValue_digitChar (n % 10) (by omega)
      rw [Nat.toDigits_of_base_le (by omega) (by omega), number_append, hq.1]
      refine ⟨?_, ?_⟩
      · show 10 * (n / 10) + Expr.digitValue _ = n
        rw [hd.1]; omega
      · intro c hc
        rcases List.mem_append.1 hc with hc | hc
        · exact hq.2 c hc
        · rw [List.mem_singleton.1 hc]; exact hd.2

theorem number_six (m n : Nat) (h : m < 1000000) : Expr.number 10 (six m) n = n * 1000000 + m ∧ (∀ c ∈ six m, Expr.isDecimal c = true) ∧ (six m).length = 6 := by
  have e : six m = [(m / 100000 % 10).digitChar, (m / 10000 % 10).digitChar, (m / 1000 % 10).digitChar, (m / 100 % 10).digitChar,
    (m / 10 % 10).digitChar, (m / 1 % 10).digitChar] := rfl
  have hd := fun k => digitValue_digitChar (m / k % 10) (Nat.mod_lt _ (by omega))
  rw [e]
  refine ⟨?_, ?_, rfl⟩
  · simp only [Expr.number, (hd _).1]
    omega
  · intro c hc
    simp only [List.mem_cons, List.not_mem_nil, or_false] at hc
    rcases hc with rfl | rfl | rfl | rfl | rfl | rfl <;> exact (hd _).2

theorem whole_literal (n : Nat) : Expr.Literal (Nat.toDigits 10 n) n := by
  have := Expr.Literal.decimal (.whole (ds := Nat.toDigits 10 n) Nat.toDigits_ne_nil (number_digits n).2) .none
  rw [List.append_nil, (number_digits n).1] at this
  have e : ((n : Rat) * (10 : Rat) ^ ((0 : Int) - ((0 : Nat) : Int))) = n := by
    rw [show ((10 : Rat) ^ ((0 : Int) - ((0 : Nat) : Int))) = 1 by decide +kernel, Rat.mul_one]
  rwa [e] at this

theorem decimals_literal (n : Nat) : Expr.Literal (Nat.toDigits 10 (n / 1000000) ++ '.' :: six (n % 1000000)) ((n : Rat) / 1000000) := by
  have h6 := number_six (n % 1000000) (n / 1000000) (Nat.mod_lt _ (by omega))
  have := Expr.Literal.decimal (.point (ds := Nat.toDigits 10 (n / 1000000)) (fs := six (n % 1000000)) (.inl Nat.toDigits_ne_nil) (number_digits _).2 h6.2.1) .none
  rw [List.append_nil, number_append, (number_digits _).1, h6.1, h6.2.2, show n / 1000000 * 1000000 + n % 1000000 = n by omega] at this
  have e : ((n : Rat) * (10 : Rat) ^ ((0 : Int) - ((6 : Nat) : Int))) = (n : Rat) / 1000000 := by
    rw [show ((10 : Rat) ^ ((0 : Int) - ((6 : Nat) : Int))) = 1 / 1000000 by decide +kernel, Rat.div_def, Rat.div_def, Rat.one_mul]
  rwa [e] at this

theorem size_cases (q : Rat) : (q < 0 ∧ size q = -q) ∨ (¬ q < 0 ∧ size q = q) := by
  unfold size; by_cases h : q < 0 <;> simp [h]

theorem nearest_eq {q : Rat} {n : Int} (h : size (q - n) < 1 / 2) : nearest q = n := by
  obtain ⟨h1, h2⟩ := H2.Stringify.nearest_near q
  have h3 : ((nearest q : Int) : Rat) < (n : Rat) + 1 ∧ (n : Rat) < (nearest q : Rat) + 1 := by
    rcases size_cases (q - n) with ⟨_, e⟩ | ⟨_, e⟩ <;> rw [e] at h <;> constructor <;> grind
  have h4 : nearest q < n + 1 := by
    have := h3.1
    rwa [show (n : Rat) + 1 = ((n + 1 : Int) : Rat) by simp, Rat.intCast_lt_intCast] at this
  have h5 : n < nearest q + 1 := by
    have := h3.2
    rwa [show (nearest q : Rat) + 1 = ((nearest q + 1 : Int) : Rat) by simp, Rat.intCast_lt_intCast] at this
  omega

theorem number_numeral {m : Expr.Machine} (hm : Negates m) (cast : Rat → Int) {q : Rat} (h : Kept m q) : Numeral m (number cast (.fin q)) (.fin q) := by
  cases h with
  | whole n h1 h2 h3 =>
    rcases size_cases q with ⟨h0, e⟩ | ⟨h0, e⟩
    · have hq : q = ((-(n : Int) : Int) : Rat) := by rw [h1] at e; rw [Rat.intCast_neg, show (((n : Int) : Rat)) = (n : Rat) from rfl, e]; grind
      have hf : q.floor = -(n : Int) := by rw [hq, Rat.floor_intCast]
      simp only [number]
      rw [if_pos (by rw [hf, hq]; grind), if_pos (by rw [hf]; omega), hf]
      obtain ⟨k, rfl⟩ : ∃ k, n = k + 1 := by
        cases n with
        | zero => rw [hq] at h0; simp at h0
        | succ k => exact ⟨k, rfl⟩
      rw [show -((k + 1 : Nat) : Int) = Int.negSucc k from rfl, H2.Stringify.neg_text]
      have := Numeral.minus (m := m) (whole_literal (k + 1))
      rw [h3, hm] at this
      rwa [show -(((k + 1 : Nat) : Rat)) = q by rw [← h1, e]; grind] at this
    · have hq : q = ((n : Int) : Rat) := by rw [h1] at e; rw [← e]; rfl
      have hf : q.floor = (n : Int) := by rw [hq, Rat.floor_intCast]
      simp only [number]
      rw [if_pos (by rw [hf, hq]; grind), if_pos (by rw [hf]; omega), hf, H2.Stringify.nat_text]
      have := Numeral.plain (m := m) (whole_literal n)
      rwa [h3, show ((n : Nat) : Rat) = q from hq.symm] at this
  | decimals n h1 h2 h3 =>
    simp only [number]
    rw [if_neg (fun h => h1 q.floor (by grind))]
    have hs : (if q < 0 then -q else q) = size q := rfl
    rw [hs]
    have hn : nearest (size q * 1000000) = (n : Int) := by
      apply nearest_eq
      have e : size q * 1000000 - ((n : Int) : Rat) = (size q - (n : Rat) / 1000000) * 1000000 := by
        rw [show (((n : Int) : Rat)) = (n : Rat) from rfl]; grind
      rw [e]
      rcases size_cases (size q - (n : Rat) / 1000000) with ⟨g, e1⟩ | ⟨g, e1⟩ <;>
        rcases size_cases ((size q - (n : Rat) / 1000000) * 1000000) with ⟨g', e2⟩ | ⟨g', e2⟩ <;> rw [e1] at h3 <;> rw [e2] <;> grind
    rw [hn, Int.toNat_natCast]
    unfold floatText
    rcases size_cases q with ⟨h0, e⟩ | ⟨h0, e⟩
    · rw [decide_eq_true h0]
      have := Numeral.minus (m := m) (decimals_literal n)
      rw [h2, hm, e, show - -q = q by grind] at this
      exact this
    · rw [decide_eq_false h0]
      have := Numeral.plain (m := m) (decimals_literal n)
      rw [h2, e] at this
      exact this

/-! ### Texts -/

/-- The text of a value, without line breaks and indents. -/
def label (quote key : Str) : Str := if key = [] then [] else quote ++ key ++ quote ++ ": ".toList

def commaText (next : Bool) : Str := if next then ", ".toList else []

mutual
def shape (num : Dbl → Str) (quote : Str) : Json → Str
  | .arr l => '[' :: shapes num quote l ++ [']']
  | .obj l => '{' :: shapeMembers num quote l ++ ['}']
  | .absent => []
  | .null => "null".toList
  | .bool b => if b then "true".toList else "false".toList
  | .num d => num d
  | .str s => quote ++ s ++ quote
  | .pat s => ['/'] ++ s ++ ['/']
def shapes (num : Dbl → Str) (quote : Str) : List Json → Str
  | [] => []
  | x :: l => shape num quote x ++ commaText (decide (l ≠ [])) ++ shapes num quote l
def shapeMembers (num : Dbl → Str) (quote : Str) : List (Str × Json) → Str
  | [] => []
  | (k, x) :: l => label quote k ++ shape num quote x ++ commaText (decide (l ≠ [])) ++ shapeMembers num quote l
end

/-- Words that are not left out. -/
def Shown (w : Str) : Prop := blank w = false ∧ isctrl w = false

def keep (w : Str) : Bool := !blank w && !isctrl w

theorem linesText_eq (ls : Lines) : linesText ls = (ls.flatten.filter keep).flatten := rfl

theorem linesText_append (a b : Lines) : linesText (a ++ b) = linesText a ++ linesText b := by
  rw [linesText_eq, linesText_eq, linesText_eq, List.flatten_append, List.filter_append, List.flatten_append]

theorem linesText_cons (l : Line) (b : Lines) : linesText (l :: b) = (l.filter keep).flatten ++ linesText b := by
  rw [linesText_eq, linesText_eq, List.flatten_cons, List.filter_append, List.flatten_append]

theorem linesText_nil : linesText [] = [] := rfl

theorem keep_indent (n : Nat) : (indent n).filter keep = [] := by
  unfold indent
  split
  · rfl
  · have : blank (List.replicate n ' ') = true := by
      unfold blank
      rw [List.all_eq_true]
      intro c hc
      rw [List.eq_of_mem_replicate hc]; decide
    simp [keep, this]

theorem keep_head {c : Char} {w : Str} (h1 : cSpace c = false) (h2 : c ≠ '\x1b') : keep (c :: w) = true := by
  unfold keep blank isctrl
  rw [List.all_cons, h1]
  cases w with
  | nil => simp
  | cons d w => simp [h2]

theorem keep_folds (ls : Lines) : ((folds ls).filter keep).flatten = linesText ls := by
  unfold folds
  rw [List.filter_filter, linesText_eq]
  congr 2
  funext w
  unfold keep
  cases blank w <;> simp

/-- A word that is never left out. -/
def Visible (q : Str) : Prop := ∃ c r, q = c :: r ∧ cSpace c = false ∧ c ≠ '\x1b'

theorem Visible.keep {q : Str} (h : Visible q) : keep q = true := by
  obtain ⟨c, r, rfl, h1, h2⟩ := h; exact keep_head h1 h2

theorem Visible.append {q : Str} (h : Visible q) (t : Str) : Visible (q ++ t) := by
  obtain ⟨c, r, rfl, h1, h2⟩ := h; exact ⟨c, r ++ t, rfl, h1, h2⟩

theorem keep_key {quote : Str} (hq : Visible quote) (key : Str) : ((formatKey quote key).filter keep).flatten = label quote key := by
  unfold formatKey label
  split
  · rfl
  · rw [List.append_assoc, List.append_assoc, List.filter_cons_of_pos (hq.append _).keep]; simp

theorem keep_comma (next : Bool) : ((comma next).filter keep).flatten = commaText next := by
  cases next <;> decide

theorem text_leaf {quote : Str} (hq : Visible quote) (depth : Nat) (key w : Str) (next : Bool) (hw : keep w = true) :
    linesText [indent (depth * 2) ++ formatKey quote key ++ [w] ++ comma next] = label quote key ++ w ++ commaText next := by
  rw [linesText_cons, linesText_nil, List.append_nil, List.filter_append, List.filter_append, List.filter_append, keep_indent,
    List.nil_append, List.flatten_append, List.flatten_append, keep_key hq, keep_comma, List.filter_cons_of_pos hw]
  simp

theorem text_around {quote : Str} (hq : Visible quote) (fold : Bool) (depth : Nat) (key : Str) (o c : Char) (next : Bool) (ls : Lines)
    (ho : keep [o] = true) (hc : keep [c] = true) :
    linesText (around fold depth (indent (depth * 2) ++ formatKey quote key) o c next ls) = label quote key ++ (o :: linesText ls ++ [c]) ++ commaText next := by
  unfold around
  split
  · rw [linesText_cons, linesText_nil, List.append_nil]
    simp only [List.filter_append, List.flatten_append, keep_indent, keep_key hq, keep_comma, keep_folds, List.filter_cons_of_pos ho,
      List.filter_cons_of_pos hc]
    simp
  · rw [linesText_append, linesText_cons, linesText_cons, linesText_nil]
    simp only [List.filter_append, List.flatten_append, keep_indent, keep_key hq, keep_comma, List.filter_cons_of_pos ho,
      List.filter_cons_of_pos hc]
    simp

theorem text_empty {quote : Str} (hq : Visible quote) (depth : Nat) (key : Str) (next : Bool) :
    linesText [indent (depth * 2) ++ formatKey quote key ++ [[]] ++ comma next] = label quote key ++ [] ++ commaText next := by
  rw [linesText_cons, linesText_nil, List.append_nil, List.filter_append, List.filter_append, List.filter_append, keep_indent,
    List.nil_append, List.flatten_append, List.flatten_append, keep_key hq, keep_comma]
  simp

mutual
theorem text_format (num : Dbl → Str) (fold : Bool) {quote : Str} (hq : Visible quote) (hn : ∀ d, Visible (num d)) (depth : Nat) (next : Bool) (key : Str) :
    (x : Json) → linesText (format num fold quote depth next key x) = label quote key ++ shape num quote x ++ commaText next
  | .arr l => by
    rw [format, text_around hq fold depth key _ _ next _ (by decide) (by decide), text_formatAll num fold hq hn (depth + 1) l, shape]
  | .obj l => by
    rw [format, text_around hq fold depth key _ _ next _ (by decide) (by decide), text_formatMembers num fold hq hn (depth + 1) l, shape]
  | .absent => text_empty hq depth key next
  | .null => text_leaf hq depth key _ next (keep_head (by decide) (by decide))
  | .bool true => text_leaf hq depth key _ next (keep_head (by decide) (by decide))
  | .bool false => text_leaf hq depth key _ next (keep_head (by decide) (by decide))
  | .num d => text_leaf hq depth key _ next (hn d).keep
  | .str s => text_leaf hq depth key _ next (by show keep (quote ++ s ++ quote) = true; rw [List.append_assoc]; exact (hq.append _).keep)
  | .pat s => text_leaf hq depth key _ next (keep_head (by decide) (by decide))
theorem text_formatAll (num : Dbl → Str) (fold : Bool) {quote : Str} (hq : Visible quote) (hn : ∀ d, Visible (num d)) (depth : Nat) :
    (l : List Json) → linesText (formatAll num fold quote depth l) = shapes num quote l
  | [] => rfl
  | x :: l => by
    rw [formatAll, linesText_append, text_format num fold hq hn depth _ [] x, text_formatAll num fold hq hn depth l]
    rfl
theorem text_formatMembers (num : Dbl → Str) (fold : Bool) {quote : Str} (hq : Visible quote) (hn : ∀ d, Visible (num d)) (depth : Nat) :
    (l : List (Str × Json)) → linesText (formatMembers num fold quote depth l) = shapeMembers num quote l
  | [] => rfl
  | (k, x) :: l => by
    rw [formatMembers, linesText_append, text_format num fold hq hn depth _ k x, text_formatMembers num fold hq hn depth l]
    rfl
end

theorem decimal_visible {c : Char} (h : Expr.isDecimal c = true) : cSpace c = false ∧ c ≠ '\x1b' := by
  simp only [Expr.isDecimal, List.contains_iff_mem] at h
  have : ∀ c ∈ "0123456789".toList, cSpace c = false ∧ c ≠ '\x1b' := by decide
  exact this c h

theorem digits_visible (n : Nat) : Visible (Nat.toDigits 10 n) := by
  cases h : Nat.toDigits 10 n with
  | nil => exact absurd h Nat.toDigits_ne_nil
  | cons c r =>
    have := decimal_visible ((number_digits n).2 c (by rw [h]; simp))
    exact ⟨c, r, rfl, this.1, this.2⟩

theorem int_visible (n : Int) : Visible (intText n) := by
  cases n with
  | ofNat k => rw [show Int.ofNat k = (k : Int) from rfl, H2.Stringify.nat_text]; exact digits_visible k
  | negSucc k => rw [H2.Stringify.neg_text]; exact ⟨_, _, rfl, by decide, by decide⟩

theorem number_visible (cast : Rat → Int) (d : Dbl) : Visible (number cast d) := by
  cases d with
  | nan => exact ⟨'n', _, rfl, by decide, by decide⟩
  | inf s => cases s <;> exact ⟨_, _, rfl, by decide, by decide⟩
  | fin q =>
    simp only [number]
    split
    · exact int_visible _
    · unfold floatText
      split
      · exact ⟨'-', _, rfl, by decide, by decide⟩
      · rw [List.nil_append]; exact (digits_visible _).append _

/-! ### Reading it again -/

theorem clean_escaped {s : Str} (h : Clean s) : Escaped '"' s s := by
  induction s with
  | nil => exact .nil
  | cons c s ih =>
    obtain ⟨h1, h2⟩ := h
    simp only [List.mem_cons, not_or] at h1 h2
    exact .plain (fun e => h1.1 e.symm) (fun e => h2.1 e.symm) (ih ⟨h1.2, h2.2⟩)

theorem clean_quoted {s : Str} (h : Clean s) : Quoted s (['"'] ++ s ++ ['"']) := .double (clean_escaped h)

theorem bare_value' {m : Expr.Machine} {j : Json} {s : Str} (h : Text m (.bare j) s) : Text m (.value j) s := by
  have := Text.value (a := []) (b := []) (by intro c hc; simp at hc) h (by intro c hc; simp at hc)
  simpa using this

theorem space_value {m : Expr.Machine} {j : Json} {s : Str} (h : Text m (.bare j) s) : Text m (.value j) (' ' :: s) := by
  have := Text.value (a := [' ']) (b := []) (by intro c hc; simp at hc; simp [hc]) h (by intro c hc; simp at hc)
  simpa using this

theorem key_text' {m : Expr.Machine} {k : Str} (h : Clean k) (sp : Str) (hs : sp = [] ∨ sp = [' ']) : Text m (.key k) (sp ++ (['"'] ++ k ++ ['"'])) := by
  have := Text.key (m := m) (a := sp) (b := []) (by rcases hs with rfl | rfl <;> intro c hc <;> simp at hc; simp [hc]) (clean_quoted h) (by intro c hc; simp at hc)
  simpa using this

theorem shape_text {m : Expr.Machine} {num : Dbl → Str} (hn : ∀ q, Kept m q → Numeral m (num (.fin q)) (.fin q)) {x : Json} (h : Simple m x) :
    Text m (.bare x) (shape num ['"'] x) := by
  induction h with
  | null => exact .null
  | bool b => cases b; exact .false; exact .true
  | num h => exact .number (hn _ h)
  | str h => exact .string (clean_quoted h)
  | pat h => exact .pattern h
  | @arr l h ih =>
    rw [shape]
    cases l with
    | nil => exact .emptyArray (a := []) (by intro c hc; simp at hc)
    | cons x l =>
      refine .array ?_
      have key : ∀ (l : List Json) (x : Json) (sp : Str), (sp = [] ∨ sp = [' ']) → (∀ y ∈ x :: l, Text m (.bare y) (shape num ['"'] y)) →
          Text m (.elements (x :: l)) (sp ++ shapes num ['"'] (x :: l)) := by
        intro l
        induction l with
        | nil =>
          intro x sp hs hy
          have := hy x (by simp)
          rw [shapes, shapes]
          simp only [ne_eq, not_true_eq_false, decide_false, commaText, Bool.false_eq_true, if_false, List.append_nil]
          rcases hs with rfl | rfl
          · exact .element (bare_value' this)
          · exact .element (space_value this)
        | cons y l ihl =>
          intro x sp hs hy
          have h1 := hy x (by simp)
          have h2 := ihl y [' '] (.inr rfl) (fun z hz => hy z (by simp at hz ⊢; exact .inr hz))
          have h3 : Text m (.value x) (sp ++ shape num ['"'] x) := by
            rcases hs with rfl | rfl
            · exact bare_value' h1
            · exact space_value h1
          have := Text.elements h3 h2
          rw [shapes]
          simpa [commaText] using this
      exact key l x [] (.inl rfl) ih
  | @obj l h1 h2 ih =>
    rw [shape]
    cases l with
    | nil => exact .emptyObject (a := []) (by intro c hc; simp at hc)
    | cons p l =>
      refine .object ?_
      have key : ∀ (l : List (Str × Json)) (p : Str × Json) (sp : Str), (sp = [] ∨ sp = [' ']) →
          (∀ y ∈ p :: l, (y.1 ≠ [] ∧ Clean y.1) ∧ Text m (.bare y.2) (shape num ['"'] y.2)) →
          Text m (.members (p :: l)) (sp ++ shapeMembers num ['"'] (p :: l)) := by
        intro l
        induction l with
        | nil =>
          rintro ⟨k, x⟩ sp hs hy
          obtain ⟨⟨hk, hc⟩, hx⟩ := hy (k, x) (by simp)
          rw [shapeMembers, shapeMembers]
          have := Text.member (key_text' (m := m) hc sp hs) (space_value hx)
          simpa [commaText, label, show k ≠ [] from hk] using this
        | cons y l ihl =>
          rintro ⟨k, x⟩ sp hs hy
          obtain ⟨⟨hk, hc⟩, hx⟩ := hy (k, x) (by simp)
          have h2 := ihl y [' '] (.inr rfl) (fun z hz => hy z (by simp at hz ⊢; exact .inr hz))
          have := Text.members (key_text' (m := m) hc sp hs) (space_value hx) h2
          rw [shapeMembers]
          simpa [commaText, label, show k ≠ [] from hk] using this
      exact key l p [] (.inl rfl) fun y hy => ⟨h1 y hy, ih y hy⟩

end H2.Json.Je
