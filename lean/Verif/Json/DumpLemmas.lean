import Verif.Json.DumpSpec
import Verif.Json.JeLemmas

namespace H2.Json.Je
open H2.Json H2.Json.Dual
open H2.Layout (lineWidth padding)

/-! ### Words -/

def lab (quote key : Str) : List Str := if key = [] then [] else [quote ++ key ++ quote ++ ": ".toList]

mutual
/-- The words of a value that are not blank. -/
def words (num : Dbl → Str) (quote : Str) : Json → List Str
  | .arr l => [['[']] ++ wordsAll num quote l ++ [[']']]
  | .obj l => [['{']] ++ wordsMembers num quote l ++ [['}']]
  | .absent => []
  | .null => ["null".toList]
  | .bool b => [if b then "true".toList else "false".toList]
  | .num d => [num d]
  | .str s => [quote ++ s ++ quote]
  | .pat s => [['/'] ++ s ++ ['/']]
def wordsAll (num : Dbl → Str) (quote : Str) : List Json → List Str
  | [] => []
  | x :: l => words num quote x ++ comma (decide (l ≠ [])) ++ wordsAll num quote l
def wordsMembers (num : Dbl → Str) (quote : Str) : List (Str × Json) → List Str
  | [] => []
  | (k, x) :: l => lab quote k ++ words num quote x ++ comma (decide (l ≠ [])) ++ wordsMembers num quote l
end

theorem comma_kept (next : Bool) : (comma next).filter keep = comma next := by cases next <;> decide

theorem lab_kept {quote : Str} (hq : Visible quote) (key : Str) : (formatKey quote key).filter keep = lab quote key := by
  unfold formatKey lab
  split
  · rfl
  · rw [List.append_assoc, List.append_assoc, List.filter_cons_of_pos (hq.append _).keep, List.filter_nil]

theorem leaf_kept {quote : Str} (hq : Visible quote) (depth : Nat) (key w : Str) (next : Bool) (hw : keep w = true) :
    ([indent (depth * 2) ++ formatKey quote key ++ [w] ++ comma next] : Lines).flatten.filter keep = lab quote key ++ [w] ++ comma next := by
  rw [List.flatten_cons, List.flatten_nil, List.append_nil, List.filter_append, List.filter_append, List.filter_append, keep_indent,
    List.nil_append, lab_kept hq, comma_kept, List.filter_cons_of_pos hw, List.filter_nil]

theorem folds_kept (ls : Lines) : (folds ls).filter keep = ls.flatten.filter keep := by
  unfold folds
  rw [List.filter_filter]
  congr 1
  funext w
  unfold keep
  cases blank w <;> simp

theorem around_kept {quote : Str} (hq : Visible quote) (fold : Bool) (depth : Nat) (key : Str) (o c : Char) (next : Bool) (ls : Lines)
    (ho : keep [o] = true) (hc : keep [c] = true) :
    (around fold depth (indent (depth * 2) ++ formatKey quote key) o c next ls).flatten.filter keep =
      lab quote key ++ ([[o]] ++ ls.flatten.filter keep ++ [[c]]) ++ comma next := by
  unfold around
  split
  · rw [List.flatten_cons, List.flatten_nil, List.append_nil]
    simp only [List.filter_append, keep_indent, lab_kept hq, comma_kept, folds_kept, List.filter_cons_of_pos ho,
      List.filter_cons_of_pos hc, List.filter_nil]
    simp
  · rw [List.flatten_append, List.flatten_cons, List.flatten_cons, List.flatten_nil]
    simp only [List.filter_append, keep_indent, lab_kept hq, comma_kept, List.filter_cons_of_pos ho,
      List.filter_cons_of_pos hc, List.filter_nil]
    simp

theorem empty_kept {quote : Str} (hq : Visible quote) (depth : Nat) (key : Str) (next : Bool) :
    ([indent (depth * 2) ++ formatKey quote key ++ [[]] ++ comma next] : Lines).flatten.filter keep = lab quote key ++ [] ++ comma next := by
  rw [List.flatten_cons, List.flatten_nil, List.append_nil, List.filter_append, List.filter_append, List.filter_append, keep_indent,
    List.nil_append, lab_kept hq, comma_kept]
  rfl

mutual
theorem format_kept (num : Dbl → Str) (fold : Bool) {quote : Str} (hq : Visible quote) (hn : ∀ d, Visible (num d)) (depth : Nat) (next : Bool) (key : Str) :
    (x : Json) → (format num fold quote depth next key x).flatten.filter keep = lab quote key ++ words num quote x ++ comma next
  | .arr l => by
    rw [format, around_kept hq fold depth key _ _ next _ (by decide) (by decide), formatAll_kept num fold hq hn (depth + 1) l, words]
  | .obj l => by
    rw [format, around_kept hq fold depth key _ _ next _ (by decide) (by decide), formatMembers_kept num fold hq hn (depth + 1) l, words]
  | .absent => empty_kept hq depth key next
  | .null => leaf_kept hq depth key _ next (keep_head (by decide) (by decide))
  | .bool true => leaf_kept hq depth key _ next (keep_head (by decide) (by decide))
  | .bool false => leaf_kept hq depth key _ next (keep_head (by decide) (by decide))
  | .num d => leaf_kept hq depth key _ next (hn d).keep
  | .str s => leaf_kept hq depth key _ next (by show keep (quote ++ s ++ quote) = true; rw [List.append_assoc]; exact (hq.append _).keep)
  | .pat s => leaf_kept hq depth key _ next (keep_head (by decide) (by decide))
theorem formatAll_kept (num : Dbl → Str) (fold : Bool) {quote : Str} (hq : Visible quote) (hn : ∀ d, Visible (num d)) (depth : Nat) :
    (l : List Json) → (formatAll num fold quote depth l).flatten.filter keep = wordsAll num quote l
  | [] => rfl
  | x :: l => by
    rw [formatAll, List.flatten_append, List.filter_append, format_kept num fold hq hn depth _ [] x, formatAll_kept num fold hq hn depth l]
    rfl
theorem formatMembers_kept (num : Dbl → Str) (fold : Bool) {quote : Str} (hq : Visible quote) (hn : ∀ d, Visible (num d)) (depth : Nat) :
    (l : List (Str × Json)) → (formatMembers num fold quote depth l).flatten.filter keep = wordsMembers num quote l
  | [] => rfl
  | (k, x) :: l => by
    rw [formatMembers, List.flatten_append, List.filter_append, format_kept num fold hq hn depth _ k x, formatMembers_kept num fold hq hn depth l]
    rfl
end

/-! ### Words and blanks between them are a text of the value -/

/-- Blanks only where words are left out. -/
def Spaced (ws : List Str) : Prop := ∀ w ∈ ws, keep w = false → White w

theorem Spaced.append {a b : List Str} : Spaced (a ++ b) ↔ Spaced a ∧ Spaced b := by
  unfold Spaced
  constructor
  · intro h; exact ⟨fun w hw => h w (by simp [hw]), fun w hw => h w (by simp [hw])⟩
  · rintro ⟨h1, h2⟩ w hw
    rcases List.mem_append.1 hw with hw | hw
    · exact h1 w hw
    · exact h2 w hw

theorem white_flatten {ws : List Str} (hs : Spaced ws) (h : ws.filter keep = []) : White ws.flatten := by
  intro c hc
  obtain ⟨w, hw, hcw⟩ := List.mem_flatten.1 hc
  have : keep w = false := by
    have := List.filter_eq_nil_iff.1 h w hw
    simpa using this
  exact hs w hw this c hcw

theorem white_append {a b : Str} (ha : White a) (hb : White b) : White (a ++ b) := by
  intro c hc
  rcases List.mem_append.1 hc with h | h
  · exact ha c h
  · exact hb c h

theorem one_word {ws : List Str} {w : Str} (hs : Spaced ws) (h : ws.filter keep = [w]) :
    ∃ a b, ws.flatten = a ++ w ++ b ∧ White a ∧ White b := by
  obtain ⟨l1, l2, rfl, h1, h2, h3⟩ := List.filter_eq_cons_iff.1 h
  rw [Spaced.append] at hs
  have hb : Spaced l2 := fun x hx => hs.2 x (by simp [hx])
  refine ⟨l1.flatten, l2.flatten, by simp, white_flatten hs.1 ?_, white_flatten hb h3⟩
  rw [List.filter_eq_nil_iff]
  intro x hx hk
  exact absurd hk (by simpa using h1 x hx)

theorem white_value {m : Expr.Machine} {j : Json} {a s b : Str} (ha : White a) (hb : White b) (h : Text m (.value j) s) :
    Text m (.value j) (a ++ s ++ b) := by
  cases h with
  | @value _ a' s' b' h1 h2 h3 =>
    have := Text.value (white_append ha h1) h2 (white_append h3 hb)
    simpa using this

theorem value_of_word {m : Expr.Machine} {j : Json} {ws : List Str} {w : Str} (hs : Spaced ws) (h : ws.filter keep = [w])
    (ht : Text m (.bare j) w) : Text m (.value j) ws.flatten := by
  obtain ⟨a, b, e, ha, hb⟩ := one_word hs h
  rw [e]; exact .value ha ht hb

theorem white_elements {m : Expr.Machine} {l : List Json} {s : Str} {a : Str} (ha : White a) (h : Text m (.elements l) s) : Text m (.elements l) (a ++ s) := by
  have hn : White [] := by intro c hc; simp at hc
  cases h with
  | element h => have := white_value ha hn h; rw [List.append_nil] at this; exact .element this
  | elements h1 h2 =>
    have := white_value ha hn h1; rw [List.append_nil] at this
    have := Text.elements this h2
    rwa [List.append_assoc] at this

theorem white_key {m : Expr.Machine} {k : Str} {s : Str} {a : Str} (ha : White a) (h : Text m (.key k) s) : Text m (.key k) (a ++ s) := by
  cases h with
  | key h1 h2 h3 => have := Text.key (m := m) (white_append ha h1) h2 h3; simpa using this
  | keyWord h1 h2 h3 => have := Text.keyWord (m := m) (white_append ha h1) h2 h3; simpa using this

theorem white_members {m : Expr.Machine} {l : List (Str × Json)} {s : Str} {a : Str} (ha : White a) (h : Text m (.members l) s) : Text m (.members l) (a ++ s) := by
  cases h with
  | member h1 h2 => have := Text.member (white_key ha h1) h2; rwa [List.append_assoc] at this
  | members h1 h2 h3 =>
    have := Text.members (white_key ha h1) h2 h3
    simpa using this

theorem bare_escaped {q : Char} {s : Str} (h : Bare q s) : Escaped q s s := by
  induction s with
  | nil => exact .nil
  | cons c s ih =>
    have := h c (by simp)
    exact .plain this.1 this.2.2.1 (ih fun d hd => h d (by simp [hd]))

theorem bare_quoted {q : Char} (hq : q = '"' ∨ q = '\'') {s : Str} (h : Bare q s) : Quoted s ([q] ++ s ++ [q]) := by
  rcases hq with rfl | rfl
  · exact .double (bare_escaped h)
  · exact .single (bare_escaped h)

theorem space_white : White [' '] := by intro c hc; simp at hc; simp [hc]

theorem spaced_text {m : Expr.Machine} {num : Dbl → Str} {q : Char} (hq : q = '"' ∨ q = '\'') (hn : ∀ d, Kept m d → Numeral m (num (.fin d)) (.fin d))
    {x : Json} (h : Copyable m q x) : ∀ ws, Spaced ws → ws.filter keep = words num [q] x → Text m (.value x) ws.flatten := by
  induction h with
  | null => intro ws hs e; exact value_of_word hs e .null
  | bool b => intro ws hs e; exact value_of_word hs e (by cases b; exact .false; exact .true)
  | num h => intro ws hs e; exact value_of_word hs e (.number (hn _ h))
  | str h => intro ws hs e; exact value_of_word hs e (.string (bare_quoted hq h))
  | pat h _ => intro ws hs e; exact value_of_word hs e (.pattern h)
  | @arr l h ih =>
    intro ws hs e
    rw [words] at e
    obtain ⟨ws1, w3, rfl, e1, e3⟩ := List.filter_eq_append_iff.1 e
    obtain ⟨w1, w2, rfl, e1, e2⟩ := List.filter_eq_append_iff.1 e1
    rw [Spaced.append, Spaced.append] at hs
    obtain ⟨a1, b1, f1, ha1, hb1⟩ := one_word hs.1.1 e1
    obtain ⟨a3, b3, f3, ha3, hb3⟩ := one_word hs.2 e3
    have key : Text m (.bare (.arr l)) ('[' :: (b1 ++ w2.flatten ++ a3) ++ [']']) := by
      cases l with
      | nil => exact .emptyArray (white_append (white_append hb1 (white_flatten hs.1.2 e2)) ha3)
      | cons x l =>
        have key : ∀ (l : List Json) (x : Json) (ws : List Str) (tail : Str), White tail → Spaced ws → (∀ y ∈ x :: l, ∀ ws, Spaced ws → ws.filter keep = words num [q] y → Text m (.value y) ws.flatten) →
            ws.filter keep = wordsAll num [q] (x :: l) → Text m (.elements (x :: l)) (ws.flatten ++ tail) := by
          intro l
          induction l with
          | nil =>
            intro x ws tail ht hs hy e
            rw [wordsAll, wordsAll] at e
            simp only [ne_eq, not_true_eq_false, decide_false, comma, Bool.false_eq_true, if_false, List.append_nil] at e
            have := white_value (a := []) (by intro c hc; simp at hc) ht (hy x (by simp) ws hs e)
            rw [List.nil_append] at this
            exact .element this
          | cons y l ihl =>
            intro x ws tail ht hs hy e
            rw [wordsAll] at e
            obtain ⟨wa, w3, rfl, ea, e3⟩ := List.filter_eq_append_iff.1 e
            obtain ⟨w1, w2, rfl, e1, e2⟩ := List.filter_eq_append_iff.1 ea
            rw [Spaced.append, Spaced.append] at hs
            obtain ⟨a, b, f, ha, hb⟩ := one_word hs.1.2 e2
            have h1 := white_value (a := []) (by intro c hc; simp at hc) ha (hy x (by simp) w1 hs.1.1 e1)
            have h2 := ihl y w3 tail ht hs.2 (fun z hz => hy z (by simp at hz ⊢; exact .inr hz)) e3
            have := Text.elements h1 (white_elements (white_append space_white hb) h2)
            simpa [f] using this
        have := key l x w2 a3 ha3 hs.1.2 ih e2
        rw [List.append_assoc]
        exact .array (white_elements hb1 this)
    have := Text.value ha1 key hb3
    simpa [f1, f3] using this
  | @obj l h1 h2 ih =>
    intro ws hs e
    rw [words] at e
    obtain ⟨ws1, w3, rfl, e1, e3⟩ := List.filter_eq_append_iff.1 e
    obtain ⟨w1, w2, rfl, e1, e2⟩ := List.filter_eq_append_iff.1 e1
    rw [Spaced.append, Spaced.append] at hs
    obtain ⟨a1, b1, f1, ha1, hb1⟩ := one_word hs.1.1 e1
    obtain ⟨a3, b3, f3, ha3, hb3⟩ := one_word hs.2 e3
    have key : Text m (.bare (.obj l)) ('{' :: (b1 ++ w2.flatten ++ a3) ++ ['}']) := by
      cases l with
      | nil => exact .emptyObject (white_append (white_append hb1 (white_flatten hs.1.2 e2)) ha3)
      | cons x l =>
        have key : ∀ (l : List (Str × Json)) (x : Str × Json) (ws : List Str) (tail : Str), White tail → Spaced ws →
            (∀ y ∈ x :: l, (y.1 ≠ [] ∧ Bare q y.1) ∧ ∀ ws, Spaced ws → ws.filter keep = words num [q] y.2 → Text m (.value y.2) ws.flatten) →
            ws.filter keep = wordsMembers num [q] (x :: l) → Text m (.members (x :: l)) (ws.flatten ++ tail) := by
          intro l
          induction l with
          | nil =>
            rintro ⟨k, x⟩ ws tail ht hs hy e
            obtain ⟨⟨hk, hb⟩, hx⟩ := hy (k, x) (by simp)
            rw [wordsMembers, wordsMembers] at e
            simp only [ne_eq, not_true_eq_false, decide_false, comma, Bool.false_eq_true, if_false, List.append_nil, lab, hk] at e
            obtain ⟨w1, w2, rfl, e1, e2⟩ := List.filter_eq_append_iff.1 e
            rw [Spaced.append] at hs
            obtain ⟨a, b, f, ha, hb'⟩ := one_word hs.1 e1
            have k1 : Text m (.key k) (a ++ ([q] ++ k ++ [q]) ++ []) := .key ha (bare_quoted hq hb) (by intro c hc; simp at hc)
            have := Text.member k1 (white_value (white_append space_white hb') ht (hx w2 hs.2 e2))
            simpa [f] using this
          | cons y l ihl =>
            rintro ⟨k, x⟩ ws tail ht hs hy e
            obtain ⟨⟨hk, hb⟩, hx⟩ := hy (k, x) (by simp)
            rw [wordsMembers] at e
            simp only [lab, show k ≠ [] from hk, if_false] at e
            obtain ⟨wb, w4, rfl, eb, e4⟩ := List.filter_eq_append_iff.1 e
            obtain ⟨wa, w3, rfl, ea, e3⟩ := List.filter_eq_append_iff.1 eb
            obtain ⟨w1, w2, rfl, e1, e2⟩ := List.filter_eq_append_iff.1 ea
            rw [Spaced.append, Spaced.append, Spaced.append] at hs
            obtain ⟨a, b, f, ha, hb'⟩ := one_word hs.1.1.1 e1
            obtain ⟨a3, b3, f3, ha3, hb3⟩ := one_word hs.1.2 e3
            have k1 : Text m (.key k) (a ++ ([q] ++ k ++ [q]) ++ []) := .key ha (bare_quoted hq hb) (by intro c hc; simp at hc)
            have h2 := ihl y w4 tail ht hs.2 (fun z hz => hy z (by simp at hz ⊢; exact .inr hz)) e4
            have := Text.members k1 (white_value (white_append space_white hb') ha3 (hx w2 hs.1.1.2 e2)) (white_members (white_append space_white hb3) h2)
            simpa [f, f3] using this
        have := key l x w2 a3 ha3 hs.1.2 (fun y hy => ⟨h1 y hy, ih y hy⟩) e2
        rw [List.append_assoc]
        exact .object (white_members hb1 this)
    have := Text.value ha1 key hb3
    simpa [f1, f3] using this

end H2.Json.Je
