import Verif.Expect.TimesSpec
import Verif.Expect.Lemmas
import Verif.Matcher.Props
/-
Lemmas about the texts of amounts.
-/
namespace H2.Times
open H2.Layout (Word Line)
open H2.Message (gray decimal)
open H2.Matcher (M Val Cfg verdict yes topEnv)
open Spec

/-- What the text of a matcher says where the amounts around it multiply to `t`. -/
def formOf : Mx → Int → Form
  | .num z, _ => .num z
  | .ord o b z, _ => .ord o b z
  | .node k b n _ m, t => .node k b (formOf m (t * n)) (t * n)
  | .both b n _ k v, t => .both b (formOf k (t * n)) (formOf v (t * n)) (t * n)
  | .all n _ k v, t => .all (formOf k (t * n)) (formOf v (t * n))

/-! ### The text -/

theorem decimal_not {z : Int} {c : Char} (h : c ∈ decimal z) : c.isDigit = true ∨ c = '-' := by
  rw [Expect.Spec.decimal_int] at h
  split at h
  · rcases List.mem_cons.1 h with h | h
    · exact .inr h
    · exact .inl (Addr.decimal_digit h)
  · exact .inl (Addr.decimal_digit h)

theorem decimal_cons (z : Int) : ∃ c cs, decimal z = c :: cs := by
  rw [Expect.Spec.decimal_int]
  split
  · exact ⟨_, _, rfl⟩
  · cases h : Addr.decimal z.natAbs with
    | nil => exact absurd h (Addr.decimal_ne _)
    | cons c cs => exact ⟨c, cs, rfl⟩

theorem ctrl_decimal (z : Int) : Layout.isctrl (decimal z) = false := by
  obtain ⟨c, cs, h⟩ := decimal_cons z
  have hc := decimal_not (z := z) (c := c) (by rw [h]; simp)
  have : c ≠ '\x1b' := by rintro rfl; revert hc; decide
  rw [h]
  simp [Layout.isctrl, this]

theorem string_append (a b : Line) : Message.string (a ++ b) = Message.string a ++ Message.string b := by
  simp [Message.string]

theorem string_post (n : Int) : Message.string (post n) = if n = 1 then [] else " * ".toList ++ (toString n).toList := by
  unfold post
  split
  · rfl
  · have : Layout.isctrl [' ', '*', ' '] = false := by decide
    simp only [Message.string, List.filter_cons, this, ctrl_decimal, Bool.not_false, if_true, List.filter_nil]
    simp [decimal]

theorem write_form : ∀ (m : Mx) (t : Int), Message.string (expect m t) = write (formOf m t)
  | .num z, t => by
    simp only [expect, formOf, write, Message.string, List.filter_cons, ctrl_decimal]
    simp [decimal]
  | .ord o b z, t => by
    have h1 : Message.string (pre b) = if b then "!".toList else [] := by cases b <;> decide
    have h2 : Message.string [decimal z] = (toString z).toList := by
      simp only [Message.string, List.filter_cons, ctrl_decimal]
      simp [decimal]
    simp only [expect, formOf, write, string_append, h1, h2]
    congr 2
    cases o <;> decide
  | .node k b n r m, t => by
    have h1 : Message.string (gray ['(']) = "(".toList := by decide
    have h2 : Message.string (gray [')']) = ")".toList := by decide
    simp only [expect, formOf, write, string_append, write_form m, string_post, h1, h2]
    congr 4
    cases b <;> cases k <;> decide
  | .both b n r k v, t => by
    have h1 : Message.string (gray ['(']) = ['('] := by decide
    have h2 : Message.string (gray [')']) = ")".toList := by decide
    have h3 : Message.string [[',', ' ']] = ", ".toList := by decide
    have h4 : Message.string (pre b) ++ Message.string [Kind.has.name] ++ ['('] = (if b then "!".toList else []) ++ "Has(".toList := by
      cases b <;> decide
    simp only [expect, formOf, write, string_append, write_form k, write_form v, string_post, h1, h2, h3]
    rw [h4]
    simp only [List.append_assoc]
  | .all n r k v, t => by
    have h2 : Message.string (gray [')']) = ")".toList := by decide
    have h3 : Message.string (gray [',', ' ']) = ", ".toList := by decide
    have h4 : Message.string [Kind.every.name] ++ Message.string (gray ['(']) = ['E', 'v', 'e', 'r', 'y', '('] := by decide
    simp only [expect, formOf, write, string_append, write_form k, write_form v, h2, h3]
    rw [h4]

/-! ### One reading -/

theorem decimal_inj {z w : Int} (h : decimal z = decimal w) : z = w := by
  have a := Expect.Spec.intOf_decimal z
  rw [h, Expect.Spec.intOf_decimal w] at a
  exact (Option.some.inj a).symm

/-- Nothing follows, or a closing bracket or a comma. -/
def End (r : List Char) : Prop := r = [] ∨ ∃ c s, r = c :: s ∧ (c = ')' ∨ c = ',')

theorem digits_end {z : Int} {r : List Char} (hr : End r) :
    (decimal z ++ r).takeWhile (fun c => c != ')' && c != ',') = decimal z ∧ (decimal z ++ r).dropWhile (fun c => c != ')' && c != ',') = r := by
  have h : ∀ c ∈ decimal z, (c != ')' && c != ',') = true := by
    intro c hc
    have := decimal_not hc
    have h1 : c ≠ ')' := by rintro rfl; revert this; decide
    have h2 : c ≠ ',' := by rintro rfl; revert this; decide
    simp [h1, h2]
  rw [List.takeWhile_append_of_pos h, List.dropWhile_append_of_pos h]
  rcases hr with rfl | ⟨c, s, rfl, rfl | rfl⟩ <;> simp

theorem num_end {z w : Int} {r s : List Char} (hr : End r) (hs : End s) (h : decimal z ++ r = decimal w ++ s) : z = w ∧ r = s := by
  have a := digits_end (z := z) hr
  have b := digits_end (z := w) hs
  rw [h] at a
  exact ⟨decimal_inj (a.1.symm.trans b.1), a.2.symm.trans b.2⟩

theorem post_end {n m : Int} {r s : List Char} (hr : End r) (hs : End s)
    (h : (if n = 1 then [] else " * ".toList ++ (toString n).toList) ++ r = (if m = 1 then [] else " * ".toList ++ (toString m).toList) ++ s) :
    n = m ∧ r = s := by
  by_cases hn : n = 1 <;> by_cases hm : m = 1 <;> simp only [hn, hm, if_true, if_false] at h
  · exact ⟨by omega, by simpa using h⟩
  · rcases hr with rfl | ⟨c, u, rfl, rfl | rfl⟩ <;> simp at h
  · rcases hs with rfl | ⟨c, u, rfl, rfl | rfl⟩ <;> simp at h
  · have h' : decimal n ++ r = decimal m ++ s := by
      have : " * ".toList = [' ', '*', ' '] := by decide
      rw [this] at h
      simpa [decimal] using h
    exact num_end hr hs h'

theorem head_decimal {z : Int} {r s : List Char} {c : Char} (hc : c.isDigit = false ∧ c ≠ '-') (h : decimal z ++ r = c :: s) : False := by
  obtain ⟨d, ds, e⟩ := decimal_cons z
  have := decimal_not (z := z) (c := d) (by rw [e]; simp)
  rw [e] at h
  simp only [List.cons_append, List.cons.injEq] at h
  obtain ⟨rfl, _⟩ := h
  rcases this with h1 | h1
  · rw [hc.1] at h1; cases h1
  · exact hc.2 h1

/-- What begins a text that is no number. -/
inductive Op where
  | node (k : Kind)
  | ord (o : Ord)

/-- What is written before the inner text or the number. -/
def opening (k : Op) (b : Bool) : List Char :=
  (if b then ['!'] else []) ++ (match k with
    | .node k => k.name ++ ['(']
    | .ord o => o.sign)

theorem write_node (k b f n) :
    write (.node k b f n) = opening (.node k) b ++ (write f ++ (')' :: (if n = 1 then [] else " * ".toList ++ (toString n).toList))) := by
  have e : ")".toList = [')'] := by decide
  have : ((if b then "!".toList else []) ++
        (match k with
          | .has => "Has".toList
          | .hasKey => "HasKey".toList
          | .hasValue => "HasValue".toList
          | .every => "Every".toList
          | .countOf => "CountOf".toList) ++
        "(".toList) = opening (.node k) b := by cases b <;> cases k <;> decide
  rw [← this]
  simp only [write, e, List.append_assoc, List.singleton_append]
  rfl

theorem write_both (b f g n) : write (.both b f g n) = opening (.node .has) b ++ (write f ++ (',' :: ([' '] ++ (write g ++
    (')' :: (if n = 1 then [] else " * ".toList ++ (toString n).toList)))))) := by
  have e : ")".toList = [')'] := by decide
  have e2 : ", ".toList = [',', ' '] := by decide
  have : (if b then "!".toList else []) ++ "Has(".toList = opening (.node .has) b := by cases b <;> decide
  rw [← this]
  simp only [write, e, e2, List.append_assoc, List.singleton_append, List.cons_append, List.nil_append]

theorem write_all (f g) : write (.all f g) = opening (.node .every) false ++ (write f ++ (',' :: ([' '] ++ (write g ++ [')'])))) := by
  have e : ")".toList = [')'] := by decide
  have e2 : ", ".toList = [',', ' '] := by decide
  have : opening (.node .every) false = ['E', 'v', 'e', 'r', 'y', '('] := by decide
  rw [this]
  simp only [write, e, e2, List.append_assoc, List.singleton_append, List.cons_append, List.nil_append]

theorem opening_cons (k b) : ∃ c cs, opening k b = c :: cs ∧ c.isDigit = false ∧ c ≠ '-' := by
  cases k with
  | node k => cases b <;> cases k <;> exact ⟨_, _, rfl, by decide, by decide⟩
  | ord o => cases b <;> cases o <;> exact ⟨_, _, rfl, by decide, by decide⟩

theorem write_ord (o b z) : write (.ord o b z) = opening (.ord o) b ++ decimal z := by
  have : ((if b then "!".toList else []) ++
        (match o with
          | .ge => "≥".toList
          | .gt => ">".toList
          | .le => "≤".toList
          | .lt => "<".toList)) = opening (.ord o) b := by cases b <;> cases o <;> decide
  rw [← this]
  rfl

theorem opening_inj {k k' : Op} {b b' : Bool} {r s : List Char} (h : opening k b ++ r = opening k' b' ++ s) : k = k' ∧ b = b' ∧ r = s := by
  cases k with
  | node k => cases k' with
    | node k' => cases b <;> cases b' <;> cases k <;> cases k' <;> simp [opening, Kind.name] at h ⊢ <;> exact h
    | ord o' => cases b <;> cases b' <;> cases k <;> cases o' <;> simp [opening, Kind.name, Ord.sign] at h
  | ord o => cases k' with
    | node k' => cases b <;> cases b' <;> cases o <;> cases k' <;> simp [opening, Kind.name, Ord.sign] at h
    | ord o' => cases b <;> cases b' <;> cases o <;> cases o' <;> simp [opening, Ord.sign] at h ⊢ <;> exact h

theorem write_inj : ∀ (f g : Form) (r s : List Char), End r → End s → write f ++ r = write g ++ s → f = g ∧ r = s
  | .num z, .num w, r, s, hr, hs, h => by
    have e := num_end hr hs (z := z) (w := w) h
    exact ⟨by rw [e.1], e.2⟩
  | .num z, .node k b f n, r, s, hr, hs, h => by
    obtain ⟨c, cs, e, hc⟩ := opening_cons (.node k) b
    rw [write_node, e] at h
    exact (head_decimal (z := z) hc h).elim
  | .node k b f n, .num z, r, s, hr, hs, h => by
    obtain ⟨c, cs, e, hc⟩ := opening_cons (.node k) b
    rw [write_node, e] at h
    exact (head_decimal (z := z) hc h.symm).elim
  | .node k b f n, .node k' b' g m, r, s, hr, hs, h => by
    rw [write_node, write_node, List.append_assoc (opening (.node k) b), List.append_assoc (opening (.node k') b')] at h
    obtain ⟨e1, e2, e3⟩ := opening_inj h
    rw [List.append_assoc (write f), List.append_assoc (write g)] at e3
    obtain ⟨e4, e5⟩ := write_inj f g _ _ (.inr ⟨_, _, rfl, .inl rfl⟩) (.inr ⟨_, _, rfl, .inl rfl⟩) e3
    have e6 := post_end (n := n) (m := m) hr hs (List.cons.inj e5).2
    exact ⟨by rw [Op.node.inj e1, e2, e4, e6.1], e6.2⟩
  | .num z, .ord o b w, r, s, hr, hs, h => by
    obtain ⟨c, cs, e, hc⟩ := opening_cons (.ord o) b
    rw [write_ord, e] at h
    exact (head_decimal (z := z) hc h).elim
  | .ord o b w, .num z, r, s, hr, hs, h => by
    obtain ⟨c, cs, e, hc⟩ := opening_cons (.ord o) b
    rw [write_ord, e] at h
    exact (head_decimal (z := z) hc h.symm).elim
  | .ord o b z, .ord o' b' w, r, s, hr, hs, h => by
    rw [write_ord, write_ord, List.append_assoc, List.append_assoc (opening (.ord o') b')] at h
    obtain ⟨e1, e2, e3⟩ := opening_inj h
    have e := num_end hr hs e3
    exact ⟨by rw [Op.ord.inj e1, e2, e.1], e.2⟩
  | .ord o b z, .node k b' f n, r, s, hr, hs, h => by
    rw [write_ord, write_node, List.append_assoc, List.append_assoc (opening (.node k) b')] at h
    cases (opening_inj h).1
  | .node k b' f n, .ord o b z, r, s, hr, hs, h => by
    rw [write_ord, write_node, List.append_assoc, List.append_assoc (opening (.ord o) b)] at h
    cases (opening_inj h).1
  | .ord o b z, .both b' f g n, r, s, hr, hs, h => by
    rw [write_ord, write_both, List.append_assoc, List.append_assoc (opening (.node .has) b')] at h
    cases (opening_inj h).1
  | .both b' f g n, .ord o b z, r, s, hr, hs, h => by
    rw [write_ord, write_both, List.append_assoc, List.append_assoc (opening (.ord o) b)] at h
    cases (opening_inj h).1
  | .num z, .both b f g n, r, s, hr, hs, h => by
    obtain ⟨c, cs, e, hc⟩ := opening_cons (.node .has) b
    rw [write_both, e] at h
    exact (head_decimal (z := z) hc h).elim
  | .both b f g n, .num z, r, s, hr, hs, h => by
    obtain ⟨c, cs, e, hc⟩ := opening_cons (.node .has) b
    rw [write_both, e] at h
    exact (head_decimal (z := z) hc h.symm).elim
  | .node k b f n, .both b' g g' m, r, s, hr, hs, h => by
    rw [write_node, write_both, List.append_assoc (opening (.node k) b), List.append_assoc (opening (.node .has) b')] at h
    obtain ⟨e1, e2, e3⟩ := opening_inj h
    rw [List.append_assoc (write f), List.append_assoc (write g)] at e3
    obtain ⟨e4, e5⟩ := write_inj f g _ _ (.inr ⟨_, _, rfl, .inl rfl⟩) (.inr ⟨_, _, rfl, .inr rfl⟩) e3
    exact absurd (List.cons.inj e5).1 (by decide)
  | .both b' g g' m, .node k b f n, r, s, hr, hs, h => by
    rw [write_node, write_both, List.append_assoc (opening (.node k) b), List.append_assoc (opening (.node .has) b')] at h
    obtain ⟨e1, e2, e3⟩ := opening_inj h
    rw [List.append_assoc (write f), List.append_assoc (write g)] at e3
    obtain ⟨e4, e5⟩ := write_inj g f _ _ (.inr ⟨_, _, rfl, .inr rfl⟩) (.inr ⟨_, _, rfl, .inl rfl⟩) e3
    exact absurd (List.cons.inj e5).1 (by decide)
  | .both b f f' n, .both b' g g' m, r, s, hr, hs, h => by
    rw [write_both, write_both, List.append_assoc (opening (.node .has) b), List.append_assoc (opening (.node .has) b')] at h
    obtain ⟨_, e2, e3⟩ := opening_inj h
    rw [List.append_assoc (write f), List.append_assoc (write g)] at e3
    obtain ⟨e4, e5⟩ := write_inj f g _ _ (.inr ⟨_, _, rfl, .inr rfl⟩) (.inr ⟨_, _, rfl, .inr rfl⟩) e3
    simp only [List.append_eq, List.cons_append, List.nil_append, List.cons.injEq, true_and, List.append_assoc] at e5
    obtain ⟨e7, e8⟩ := write_inj f' g' _ _ (.inr ⟨_, _, rfl, .inl rfl⟩) (.inr ⟨_, _, rfl, .inl rfl⟩) e5
    have e9 := post_end (n := n) (m := m) hr hs (List.cons.inj e8).2
    exact ⟨by rw [e2, e4, e7, e9.1], e9.2⟩
  | .all f g, .num z, r, s, hr, hs, h => by
    obtain ⟨c, cs, e, hc⟩ := opening_cons (.node .every) false
    rw [write_all, e] at h
    exact (head_decimal (z := z) hc h.symm).elim
  | .num z, .all f g, r, s, hr, hs, h => by
    obtain ⟨c, cs, e, hc⟩ := opening_cons (.node .every) false
    rw [write_all, e] at h
    exact (head_decimal (z := z) hc h).elim
  | .ord o b z, .all f g, r, s, hr, hs, h => by
    rw [write_ord, write_all, List.append_assoc, List.append_assoc (opening (.node .every) false)] at h
    cases (opening_inj h).1
  | .all f g, .ord o b z, r, s, hr, hs, h => by
    rw [write_ord, write_all, List.append_assoc, List.append_assoc (opening (.ord o) b)] at h
    cases (opening_inj h).1
  | .all g g', .both b f f' n, r, s, hr, hs, h => by
    rw [write_both, write_all, List.append_assoc (opening (.node .every) false), List.append_assoc (opening (.node .has) b)] at h
    cases (opening_inj h).1
  | .both b f f' n, .all g g', r, s, hr, hs, h => by
    rw [write_both, write_all, List.append_assoc (opening (.node .every) false), List.append_assoc (opening (.node .has) b)] at h
    cases (opening_inj h).1
  | .node k b f n, .all g g', r, s, hr, hs, h => by
    rw [write_node, write_all, List.append_assoc (opening (.node k) b), List.append_assoc (opening (.node .every) false)] at h
    obtain ⟨e1, e2, e3⟩ := opening_inj h
    rw [List.append_assoc (write f), List.append_assoc (write g)] at e3
    obtain ⟨e4, e5⟩ := write_inj f g _ _ (.inr ⟨_, _, rfl, .inl rfl⟩) (.inr ⟨_, _, rfl, .inr rfl⟩) e3
    exact absurd (List.cons.inj e5).1 (by decide)
  | .all g g', .node k b f n, r, s, hr, hs, h => by
    rw [write_node, write_all, List.append_assoc (opening (.node k) b), List.append_assoc (opening (.node .every) false)] at h
    obtain ⟨e1, e2, e3⟩ := opening_inj h
    rw [List.append_assoc (write f), List.append_assoc (write g)] at e3
    obtain ⟨e4, e5⟩ := write_inj g f _ _ (.inr ⟨_, _, rfl, .inr rfl⟩) (.inr ⟨_, _, rfl, .inl rfl⟩) e3
    exact absurd (List.cons.inj e5).1 (by decide)
  | .all f f', .all g g', r, s, hr, hs, h => by
    rw [write_all, write_all, List.append_assoc (opening (.node .every) false), List.append_assoc (opening (.node .every) false)] at h
    obtain ⟨_, e2, e3⟩ := opening_inj h
    rw [List.append_assoc (write f), List.append_assoc (write g)] at e3
    obtain ⟨e4, e5⟩ := write_inj f g _ _ (.inr ⟨_, _, rfl, .inr rfl⟩) (.inr ⟨_, _, rfl, .inr rfl⟩) e3
    simp only [List.append_eq, List.cons_append, List.nil_append, List.cons.injEq, true_and, List.append_assoc] at e5
    obtain ⟨e7, e8⟩ := write_inj f' g' _ _ (.inr ⟨_, _, rfl, .inl rfl⟩) (.inr ⟨_, _, rfl, .inl rfl⟩) e5
    exact ⟨by rw [e4, e7], (List.cons.inj e8).2⟩

/-! ### What it accepts -/

theorem unless_iff {b : Bool} {p : Bool} {P : Prop} (h : p = true ↔ P) : (if b then !p else p) = true ↔ Unless b P := by
  unfold Unless
  cases b <;> cases p <;> simp_all

theorem atLeast_iff {n : Int} {P : Val → Prop} {p : Val → Bool} : ∀ {xs : List Val}, (∀ x ∈ xs, p x = true ↔ P x) →
    (n ≤ (xs.countP p : Nat) ↔ AtLeast n P xs) := by
  intro xs h
  constructor
  · intro hn
    refine ⟨xs.filter p, List.filter_sublist, by rw [← List.countP_eq_length_filter]; exact hn, ?_⟩
    intro y hy
    rw [List.mem_filter] at hy
    exact (h y hy.1).1 hy.2
  · rintro ⟨ys, hs, hl, hy⟩
    have : ys.countP p = ys.length := by
      rw [List.countP_eq_length]
      intro y hm
      exact (h y (hs.subset hm)).2 (hy y hm)
    have := hs.countP_le (p := p)
    omega

theorem same_iff (z : Int) (a : Val) : same z a = true ↔ a = .num z := by
  cases a <;> simp [same]

theorem slice_all {xs : List Val} (h : xs.length ≤ 5413722) {lo hi : Int} (hlo : lo = 0) (hhi : hi = 5413722) : Matcher.slice lo hi xs = xs := by
  subst hlo; subst hhi
  unfold Matcher.slice
  simp only [Int.toNat_zero, List.drop_zero]
  exact List.take_of_length_le h

/-- The surroundings that have no range. -/
def Open (e : Matcher.Env) : Prop := e.lo = 0 ∧ e.hi = 5413722

theorem open_under {e : Matcher.Env} (h : Open e) (b n) : Open (e.under (marks b n none)) ∧ (e.under (marks b n none)).times = e.times * n := by
  refine ⟨⟨?_, ?_⟩, rfl⟩ <;> simp [Matcher.Env.under, marks, h.1, h.2]

theorem short_items {a : Val} (h : Short a) : (items a).length ≤ 5413722 ∧ (∀ x ∈ items a, Short x) ∧ a.elems = items a := by
  cases h <;> simp_all [items, Val.elems]

theorem verdict_any (e : Matcher.Env) (a : Val) : verdict anyM e a = some true := by simp [anyM, verdict]

theorem pair_iff {e : Matcher.Env} {k v : M} {x : Val} :
    yes (verdict (.poly {} (.pair k v)) e x) = true ↔ ∃ a b, x = .pair a b ∧ yes (verdict k e.inside a) = true ∧ yes (verdict v e.inside b) = true := by
  rw [Matcher.verdict_poly_default]
  cases x with
  | pair a b =>
    simp only [verdict, Matcher.yes_some, Bool.and_eq_true, Val.pair.injEq]
    exact ⟨fun h => ⟨a, b, ⟨rfl, rfl⟩, h⟩, by rintro ⟨_, _, ⟨rfl, rfl⟩, h⟩; exact h⟩
  | _ => simp [verdict, yes]

theorem inside_open (e : Matcher.Env) : Open e.inside ∧ e.inside.times = e.times := ⟨⟨rfl, rfl⟩, rfl⟩

theorem verdict_form : ∀ (m : Mx) (e : Matcher.Env) (a : Val), NoRange m → Open e → Short a →
    ∃ p, verdict (build m) e a = some p ∧ (p = true ↔ Holds (formOf m e.times) a)
  | .num z, e, a, _, _, _ => ⟨_, rfl, by rw [formOf, Holds]; exact same_iff z a⟩
  | .ord o b z, e, a, _, _, _ => by
    refine ⟨if b then !(o.test z a) else o.test z a, rfl, ?_⟩
    rw [formOf]
    cases o <;> rw [Holds] <;> apply unless_iff <;> cases a <;> simp [Ord.test]
  | .node k b n r m, e, a, hr, he, ha => by
    obtain ⟨rfl, hm⟩ := hr
    obtain ⟨ho, ht⟩ := open_under he b n
    obtain ⟨hl, hx, hi⟩ := short_items ha
    have IH : ∀ (e' : Matcher.Env) (x : Val), Open e' → e'.times = e.times * n → Short x →
        (yes (verdict (build m) e' x) = true ↔ Holds (formOf m (e.times * n)) x) := by
      intro e' x h1 h2 h3
      obtain ⟨p, hp, hq⟩ := verdict_form m e' x hm h1 h3
      rw [hp, Matcher.yes_some, hq, h2]
    generalize hu : e.under (marks b n none) = u at ho ht
    have hin := inside_open u
    have hii := inside_open u.inside
    have step : ∀ p : Bool, verdict (inner k (build m)) u a = some p →
        verdict (build (.node k b n none m)) e a = some (if b then !p else p) := by
      intro p hp
      simp only [build, verdict, hu, hp, Option.map_some]
      rfl
    have full : ∀ r : Matcher.Rng, r.start = 0 → r.stop = 5413722 → Matcher.slice (max u.lo r.start) (min u.hi r.stop) a.elems = items a := by
      intro r h1 h2
      rw [h1, h2, ho.1, ho.2, hi]
      exact slice_all hl (by omega) (by omega)
    cases k with
    | has =>
      refine ⟨_, step _ rfl, ?_⟩
      rw [formOf, Holds]
      apply unless_iff
      rw [decide_eq_true_iff, full _ rfl rfl, ht]
      exact atLeast_iff fun x h => IH _ x hin.1 (hin.2.trans ht) (hx x h)
    | hasKey =>
      refine ⟨_, step _ rfl, ?_⟩
      rw [formOf, Holds]
      apply unless_iff
      rw [decide_eq_true_iff, full _ rfl rfl, ht]
      refine atLeast_iff fun x h => ?_
      show yes (verdict (.poly {} (.pair (build m) anyM)) _ x) = true ↔ _
      rw [pair_iff]
      constructor
      · rintro ⟨k, v, rfl, h1, _⟩
        have : Short k := by cases hx _ h; assumption
        exact ⟨k, v, rfl, (IH _ k hii.1 (hii.2.trans (hin.2.trans ht)) this).1 h1⟩
      · rintro ⟨k, v, rfl, h1⟩
        have : Short k := by cases hx _ h; assumption
        exact ⟨k, v, rfl, (IH _ k hii.1 (hii.2.trans (hin.2.trans ht)) this).2 h1, by rw [verdict_any]; rfl⟩
    | hasValue =>
      refine ⟨_, step _ rfl, ?_⟩
      rw [formOf, Holds]
      apply unless_iff
      rw [decide_eq_true_iff, full _ rfl rfl, ht]
      refine atLeast_iff fun x h => ?_
      show yes (verdict (.poly {} (.pair anyM (build m))) _ x) = true ↔ _
      rw [pair_iff]
      constructor
      · rintro ⟨k, v, rfl, _, h1⟩
        have : Short v := by cases hx _ h; assumption
        exact ⟨k, v, rfl, (IH _ v hii.1 (hii.2.trans (hin.2.trans ht)) this).1 h1⟩
      · rintro ⟨k, v, rfl, h1⟩
        have : Short v := by cases hx _ h; assumption
        exact ⟨k, v, rfl, by rw [verdict_any]; rfl, (IH _ v hii.1 (hii.2.trans (hin.2.trans ht)) this).2 h1⟩
    | every =>
      refine ⟨_, step _ rfl, ?_⟩
      rw [formOf, Holds]
      apply unless_iff
      rw [full _ rfl rfl, List.all_eq_true]
      constructor
      · intro h x hm'
        exact (IH _ x hin.1 (hin.2.trans ht) (hx x hm')).1 (h x hm')
      · intro h x hm'
        exact (IH _ x hin.1 (hin.2.trans ht) (hx x hm')).2 (h x hm')
    | countOf =>
      refine ⟨_, step _ rfl, ?_⟩
      rw [formOf, Holds]
      apply unless_iff
      simp only [Matcher.statSpec]
      rw [hi]
      exact IH _ _ hin.1 (hin.2.trans ht) (.num _)

  | .both b n r k v, e, a, hr, he, ha => by
    obtain ⟨rfl, hk, hv⟩ := hr
    obtain ⟨ho, ht⟩ := open_under he b n
    obtain ⟨hl, hx, hi⟩ := short_items ha
    have IH : ∀ (m : Mx) (e' : Matcher.Env) (x : Val), (∃ p, verdict (build m) e' x = some p ∧ (p = true ↔ Holds (formOf m e'.times) x)) →
        e'.times = e.times * n → (yes (verdict (build m) e' x) = true ↔ Holds (formOf m (e.times * n)) x) := by
      rintro m e' x ⟨p, hp, hq⟩ h2
      rw [hp, Matcher.yes_some, hq, h2]
    generalize hu : e.under (marks b n none) = u at ho ht
    have hii := inside_open u.inside
    have htt : u.inside.inside.times = e.times * n := ht
    have step : ∀ p : Bool, verdict (.has { first := 0, second := 5413722 } false (.poly {} (.pair (build k) (build v)))) u a = some p →
        verdict (build (.both b n none k v)) e a = some (if b then !p else p) := by
      intro p hp
      rw [build, verdict, hu, hp]
      rfl
    have full : ∀ r : Matcher.Rng, r.start = 0 → r.stop = 5413722 → Matcher.slice (max u.lo r.start) (min u.hi r.stop) a.elems = items a := by
      intro r h1 h2
      rw [h1, h2, ho.1, ho.2, hi]
      exact slice_all hl (by omega) (by omega)
    refine ⟨_, step _ rfl, ?_⟩
    rw [formOf, Holds]
    apply unless_iff
    rw [decide_eq_true_iff, full _ rfl rfl, ht]
    refine atLeast_iff fun x h => ?_
    show yes (verdict (.poly {} (.pair (build k) (build v))) _ x) = true ↔ _
    rw [pair_iff]
    have sk : ∀ y z, x = .pair y z → Short y ∧ Short z := by
      rintro y z rfl
      cases hx _ h
      exact ⟨by assumption, by assumption⟩
    constructor
    · rintro ⟨y, z, e1, h1, h2⟩
      have hs := sk y z e1
      exact ⟨y, z, e1, (IH k _ y (verdict_form k _ y hk hii.1 hs.1) htt).1 h1, (IH v _ z (verdict_form v _ z hv hii.1 hs.2) htt).1 h2⟩
    · rintro ⟨y, z, e1, h1, h2⟩
      have hs := sk y z e1
      exact ⟨y, z, e1, (IH k _ y (verdict_form k _ y hk hii.1 hs.1) htt).2 h1, (IH v _ z (verdict_form v _ z hv hii.1 hs.2) htt).2 h2⟩
  | .all n r k v, e, a, hr, he, ha => by
    obtain ⟨rfl, hk, hv⟩ := hr
    obtain ⟨ho, ht⟩ := open_under he false n
    obtain ⟨hl, hx, hi⟩ := short_items ha
    have IH : ∀ (m : Mx) (e' : Matcher.Env) (x : Val), (∃ p, verdict (build m) e' x = some p ∧ (p = true ↔ Holds (formOf m e'.times) x)) →
        e'.times = e.times * n → (yes (verdict (build m) e' x) = true ↔ Holds (formOf m (e.times * n)) x) := by
      rintro m e' x ⟨p, hp, hq⟩ h2
      rw [hp, Matcher.yes_some, hq, h2]
    generalize hu : e.under (marks false n none) = u at ho ht
    have hii := inside_open u.inside
    have htt : u.inside.inside.times = e.times * n := ht
    have step : ∀ p : Bool, verdict (.every {} (.poly {} (.pair (build k) (build v)))) u a = some p →
        verdict (build (.all n none k v)) e a = some p := by
      intro p hp
      rw [build, verdict, hu, hp]
      rfl
    have full : ∀ r : Matcher.Rng, r.start = 0 → r.stop = 5413722 → Matcher.slice (max u.lo r.start) (min u.hi r.stop) a.elems = items a := by
      intro r h1 h2
      rw [h1, h2, ho.1, ho.2, hi]
      exact slice_all hl (by omega) (by omega)
    refine ⟨_, step _ rfl, ?_⟩
    rw [formOf, Holds]
    rw [full _ rfl rfl, List.all_eq_true]
    refine forall_congr' fun x => forall_congr' fun h => ?_
    show yes (verdict (.poly {} (.pair (build k) (build v))) _ x) = true ↔ _
    rw [pair_iff]
    have sk : ∀ y z, x = .pair y z → Short y ∧ Short z := by
      rintro y z rfl
      cases hx _ h
      exact ⟨by assumption, by assumption⟩
    constructor
    · rintro ⟨y, z, e1, h1, h2⟩
      have hs := sk y z e1
      exact ⟨y, z, e1, (IH k _ y (verdict_form k _ y hk hii.1 hs.1) htt).1 h1, (IH v _ z (verdict_form v _ z hv hii.1 hs.2) htt).1 h2⟩
    · rintro ⟨y, z, e1, h1, h2⟩
      have hs := sk y z e1
      exact ⟨y, z, e1, (IH k _ y (verdict_form k _ y hk hii.1 hs.1) htt).2 h1, (IH v _ z (verdict_form v _ z hv hii.1 hs.2) htt).2 h2⟩

theorem ok_form (m : Mx) (a : Val) (hm : NoRange m) (ha : Short a) : ok m a = true ↔ Holds (formOf m 1) a := by
  obtain ⟨p, hp, hq⟩ := verdict_form m topEnv a hm ⟨rfl, rfl⟩ ha
  rw [ok, Matcher.okPasses_verdict, hp, Matcher.yes_some, hq]
  rfl

end H2.Times
