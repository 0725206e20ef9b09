import Verif.Abbrev.Model
import Verif.Abbrev.Spec
import Verif.Layout.Lemmas
namespace H2.Abbrev
open H2.Layout

theorem escape_shown (w : Word) : escape w = shown w := by
  unfold escape shown
  apply flatMap_congr
  intro c _
  unfold escapeChar
  split
  · next h => subst h; rfl
  · split
    · next h => subst h; rfl
    · split
      · next h => subst h; rfl
      · next h1 h2 h3 =>
        split
        · exact absurd rfl h1
        · exact absurd rfl h2
        · exact absurd rfl h3
        · rfl

/-- What is seen, word by word. -/
def vis (l : Line) : List Char := l.flatMap fun w => if isctrl w then [] else w

theorem text_from (l : Line) : ∀ st, (cellsFrom st l).map (·.2) = vis l := by
  induction l with
  | nil => intro st; rfl
  | cons w ws ih =>
    intro st
    unfold cellsFrom vis
    rw [List.flatMap_cons]
    by_cases h : Style w
    · rw [if_pos h, if_pos ((style_iff w).1 h), ih]; rfl
    · rw [if_neg h, if_neg (fun e => h ((style_iff w).2 e)), List.map_append, ih]
      simp [vis, Function.comp_def]

theorem text_vis (l : Line) : text l = vis l := text_from l none

theorem vis_append (a b : Line) : vis (a ++ b) = vis a ++ vis b := by simp [vis]
theorem vis_cons (w : Word) (b : Line) : vis (w :: b) = (if isctrl w then [] else w) ++ vis b := by simp [vis]
theorem vis_nil : vis [] = [] := rfl

theorem isctrl_esc {w : Word} (h : isctrl w = true) : '\x1b' ∈ w := by
  obtain ⟨r, rfl⟩ := (style_iff w).2 h
  simp

theorem not_ctrl {w : Word} (h : '\x1b' ∉ w) : isctrl w = false := by
  rw [Bool.eq_false_iff]; exact fun e => h (isctrl_esc e)

theorem vis_word {w : Word} (h : '\x1b' ∉ w) : vis (word w) = w := by
  unfold word
  cases w with
  | nil => rfl
  | cons c r => simp [vis, not_ctrl h]

theorem vis_dim {w : Word} (h : '\x1b' ∉ w) : vis (dim w) = w := by
  unfold dim
  rw [vis_cons, vis_cons, vis_cons, not_ctrl h, vis_nil]
  rw [if_pos (by decide), if_neg (by decide), if_pos (by decide)]
  simp

theorem charWidth_pos (c : Char) : 1 ≤ charWidth c ∧ charWidth c ≤ 2 := by unfold charWidth; split <;> omega

theorem room_cons (c : Char) (r : List Char) : room (c :: r) = charWidth c + room r := by simp [room, charWidth]
theorem room_nil : room [] = 0 := rfl

/-- Which characters remain. -/
def flat (cut last : Nat) : List Char → Nat → List Char
  | [], _ => []
  | c :: r, i =>
    (if i < cut then [c] else if i = cut then "...".toList else if last ≤ i then [c] else []) ++ flat cut last r (i + charWidth c)

theorem shortenChars_head {cut last : Nat} (w : Word) : ∀ i, cut ≤ i → (shortenChars cut last w i).1 = [] := by
  induction w with
  | nil => intro i _; rfl
  | cons c r ih =>
    intro i hi
    have := ih (i + charWidth c) (by omega)
    unfold shortenChars
    simp only [if_neg (show ¬ i < cut by omega)]
    split
    · exact this
    · split <;> exact this

theorem shortenChars_mark {cut last : Nat} (w : Word) : ∀ i, cut < i → (shortenChars cut last w i).2.1 = false := by
  induction w with
  | nil => intro i _; rfl
  | cons c r ih =>
    intro i hi
    have := ih (i + charWidth c) (by omega)
    unfold shortenChars
    simp only [if_neg (show ¬ i < cut by omega), if_neg (show ¬ i = cut by omega)]
    split <;> exact this

theorem shortenChars_flat {cut last : Nat} (w : Word) : ∀ i,
    (shortenChars cut last w i).1 ++ (if (shortenChars cut last w i).2.1 then "...".toList else []) ++ (shortenChars cut last w i).2.2.1 =
      flat cut last w i ∧ (shortenChars cut last w i).2.2.2 = i + room w ∧
    (∀ c ∈ (shortenChars cut last w i).1, c ∈ w) ∧ (∀ c ∈ (shortenChars cut last w i).2.2.1, c ∈ w) := by
  induction w with
  | nil => intro i; exact ⟨rfl, by simp [shortenChars, room_nil], by simp [shortenChars], by simp [shortenChars]⟩
  | cons c r ih =>
    intro i
    obtain ⟨h1, h2, h3, h4⟩ := ih (i + charWidth c)
    have hh := shortenChars_head (cut := cut) (last := last) r (i + charWidth c)
    have hm := shortenChars_mark (cut := cut) (last := last) r (i + charWidth c)
    have hw := charWidth_pos c
    unfold shortenChars flat
    rw [← h1]
    by_cases c1 : i < cut
    · simp only [if_pos c1, room_cons]
      refine ⟨by simp, by rw [h2]; omega, ?_, fun d hd => List.mem_cons_of_mem _ (h4 d hd)⟩
      intro d hd
      rcases List.mem_cons.1 hd with rfl | hd
      · simp
      · exact List.mem_cons_of_mem _ (h3 d hd)
    · simp only [if_neg c1, room_cons]
      have hh := hh (by omega)
      by_cases c2 : i = cut
      · have hm := hm (by omega)
        simp only [if_pos c2, hh, hm]
        refine ⟨by simp, by rw [h2]; omega, by simp, fun d hd => List.mem_cons_of_mem _ (h4 d hd)⟩
      · have hm := hm (by omega)
        simp only [if_neg c2]
        by_cases c3 : last ≤ i
        · simp only [if_pos c3, hh, hm]
          refine ⟨by simp, by rw [h2]; omega, by simp, ?_⟩
          intro d hd
          rcases List.mem_cons.1 hd with rfl | hd
          · simp
          · exact List.mem_cons_of_mem _ (h4 d hd)
        · simp only [if_neg c3, hh, hm]
          exact ⟨by simp, by rw [h2]; omega, by simp, fun d hd => List.mem_cons_of_mem _ (h4 d hd)⟩

theorem flat_append {cut last : Nat} (a b : List Char) : ∀ i, flat cut last (a ++ b) i = flat cut last a i ++ flat cut last b (i + room a) := by
  induction a with
  | nil => intro i; simp [flat, room_nil]
  | cons c r ih => intro i; simp only [List.cons_append, flat, ih, room_cons, List.append_assoc, Nat.add_assoc]

theorem shortenWords_vis {cut last : Nat} (l : Line) : ∀ i, '\x1b' ∉ vis l → vis (shortenWords cut last l i) = flat cut last (vis l) i := by
  induction l with
  | nil => intro i _; rfl
  | cons w ws ih =>
    intro i hl
    rw [vis_cons] at hl ⊢
    unfold shortenWords
    cases hc : isctrl w with
    | true =>
      rw [hc] at hl
      simp only [if_true] at hl ⊢
      rw [vis_cons, hc, if_pos rfl, List.nil_append, ih i (by simpa using hl)]
      rfl
    | false =>
      rw [hc] at hl
      simp only [Bool.false_eq_true, if_false] at hl ⊢
      obtain ⟨h1, h2, h3, h4⟩ := shortenChars_flat (cut := cut) (last := last) w i
      have e1 : '\x1b' ∉ w := fun e => hl (List.mem_append_left _ e)
      have e2 : '\x1b' ∉ vis ws := fun e => hl (List.mem_append_right _ e)
      rw [vis_append, vis_append, vis_append, vis_word (fun e => e1 (h3 _ e)), vis_word (fun e => e1 (h4 _ e)), h2, ih _ e2, flat_append, ← h1]
      congr 3
      cases (shortenChars cut last w i).2.1
      · rfl
      · exact vis_dim (by decide)

theorem flat_tail {cut last tail : Nat} (cs : List Char) : ∀ i, cut < i → last + tail = i + room cs →
    ∃ gap lst, cs = gap ++ lst ∧ flat cut last cs i = lst ∧ room lst ≤ tail ∧
      (∀ c init, gap = init ++ [c] → tail < room (c :: lst)) ∧ (tail < room cs → gap ≠ []) := by
  induction cs with
  | nil => intro i _ _; exact ⟨[], [], rfl, rfl, Nat.zero_le _, fun c init h => by simp at h, fun h => by simp [room_nil] at h⟩
  | cons c r ih =>
    intro i hi ht
    have hw := charWidth_pos c
    rw [room_cons] at ht
    by_cases hl : last ≤ i
    · have all : ∀ (cs : List Char) (i : Nat), cut < i → last ≤ i → flat cut last cs i = cs := by
        intro cs
        induction cs with
        | nil => intro i _ _; rfl
        | cons d s ihs =>
          intro i h1 h2
          rw [flat, if_neg (by omega), if_neg (by omega), if_pos h2, ihs _ (by omega) (by omega)]
          rfl
      refine ⟨[], c :: r, rfl, all _ _ hi hl, ?_, fun c init h => by simp at h, ?_⟩
      · rw [room_cons]; omega
      · intro h; rw [room_cons] at h; omega
    · obtain ⟨gap, lst, e1, e2, e3, e4, _⟩ := ih (i + charWidth c) (by omega) (by omega)
      refine ⟨c :: gap, lst, by rw [e1]; rfl, ?_, e3, ?_, fun _ => by simp⟩
      · rw [flat, if_neg (by omega), if_neg (by omega), if_neg hl, e2]; rfl
      · intro d init h
        cases gap with
        | nil =>
          cases init with
          | nil =>
            simp at h
            subst h
            simp only [List.nil_append] at e1
            rw [room_cons, ← e1]
            omega
          | cons x y => simp at h
        | cons g gs =>
          cases init with
          | nil => simp at h
          | cons x y =>
            simp only [List.cons_append, List.cons.injEq] at h
            exact e4 d y h.2

theorem flat_shortened {cut last tail : Nat} (cs : List Char) : ∀ i, i ≤ cut → last + tail = i + room cs → cut + 3 ≤ last →
    ∃ head gap lst, cs = head ++ gap ++ lst ∧
      flat cut last cs i = head ++ (if i + room head = cut then "...".toList else []) ++ lst ∧ gap ≠ [] ∧
      cut ≤ i + room head ∧ (∀ init c, head = init ++ [c] → i + room init < cut) ∧ room lst ≤ tail ∧
      (∀ c init, gap = init ++ [c] → tail < room (c :: lst)) := by
  induction cs with
  | nil => intro i hi ht hc; simp [room_nil] at ht; omega
  | cons c r ih =>
    intro i hi ht hc
    have hw := charWidth_pos c
    rw [room_cons] at ht
    by_cases h1 : i < cut
    · by_cases h2 : i + charWidth c ≤ cut
      · obtain ⟨head, gap, lst, e1, e2, e3, e4, e5, e6, e7⟩ := ih (i + charWidth c) h2 (by omega) hc
        refine ⟨c :: head, gap, lst, by rw [e1]; rfl, ?_, e3, by rw [room_cons]; omega, ?_, e6, e7⟩
        · rw [flat, if_pos h1, e2, room_cons, Nat.add_assoc]; rfl
        · intro init d h
          cases init with
          | nil => simp [room_nil]; omega
          | cons x y =>
            simp only [List.cons_append, List.cons.injEq] at h
            have := e5 y d h.2
            rw [room_cons, ← h.1]; omega
      · obtain ⟨gap, lst, e1, e2, e3, e4, e5⟩ := flat_tail (cut := cut) (last := last) (tail := tail) r (i + charWidth c) (by omega) (by omega)
        refine ⟨[c], gap, lst, by rw [e1]; rfl, ?_, e5 (by omega), by simp [room_cons, room_nil]; omega, ?_, e3, e4⟩
        · rw [flat, if_pos h1, e2, if_neg (by simp [room_cons, room_nil]; omega)]; simp
        · intro init d h
          cases init with
          | nil => simp [room_nil]; omega
          | cons x y => simp at h
    · have hi' : i = cut := by omega
      obtain ⟨gap, lst, e1, e2, e3, e4, e5⟩ := flat_tail (cut := cut) (last := last) (tail := tail) r (i + charWidth c) (by omega) (by omega)
      have e5 := e5 (by omega)
      refine ⟨[], c :: gap, lst, by rw [e1]; rfl, ?_, by simp, by omega, fun init d h => by simp at h, e3, ?_⟩
      · rw [flat, if_neg h1, if_pos hi', e2, if_pos (by simp [room_nil, hi'])]; rfl
      · intro d init h
        cases init with
        | nil => simp at h; exact absurd h.2 e5
        | cons x y =>
          simp only [List.cons_append, List.cons.injEq] at h
          exact e4 d y h.2

theorem minus_le {a b : Nat} (h : b ≤ a) (ha : a < 2 ^ 64) : minus a b = a - b := by
  unfold minus
  rw [show a + 2 ^ 64 - b = (a - b) + 2 ^ 64 by omega, Nat.add_mod_right, Nat.mod_eq_of_lt (by omega)]

theorem minus_gt {a b : Nat} (h : a < b) (hb : b ≤ 2 ^ 64) : minus a b = a + 2 ^ 64 - b := by
  unfold minus
  rw [Nat.mod_eq_of_lt (by omega)]

theorem isctrl_escape {w : Word} (h : isctrl w = false) : isctrl (escape w) = false := by
  rw [Bool.eq_false_iff] at h ⊢
  intro e
  obtain ⟨r, hr⟩ := (style_iff _).2 e
  apply h
  have one : ∀ (c : Char), escapeChar c = [c] ∨ (escapeChar c).head? = some '\\' := by
    intro c; unfold escapeChar
    split
    · exact .inr rfl
    · split
      · exact .inr rfl
      · split
        · exact .inr rfl
        · exact .inl rfl
  cases w with
  | nil => simp [escape] at hr
  | cons c r1 =>
    rcases one c with h1 | h1
    · have hr' : escape (c :: r1) = c :: escape r1 := by simp [escape, h1]
      rw [hr'] at hr
      injection hr with a b
      cases r1 with
      | nil => simp [escape] at b
      | cons d r2 =>
        rcases one d with h2 | h2
        · have : escape (d :: r2) = d :: escape r2 := by simp [escape, h2]
          rw [this] at b
          injection b with b1 b2
          rw [a, b1]; rfl
        · have : (escape (d :: r2)).head? = some '\\' := by
            simp only [escape, List.flatMap_cons]
            cases he : escapeChar d with
            | nil => rw [he] at h2; simp at h2
            | cons x y => rw [he] at h2; simpa using h2
          rw [b] at this
          simp at this
    · have : (escape (c :: r1)).head? = some '\\' := by
        simp only [escape, List.flatMap_cons]
        cases he : escapeChar c with
        | nil => rw [he] at h1; simp at h1
        | cons x y => rw [he] at h1; simpa using h1
      rw [hr] at this
      simp at this

theorem shown_append (a b : List Char) : shown (a ++ b) = shown a ++ shown b := by simp [shown]

theorem vis_escaped (l : Line) : vis (escaped l) = shown (vis l) := by
  induction l with
  | nil => rfl
  | cons w ws ih =>
    show vis ((if isctrl w then w else escape w) :: escaped ws) = _
    rw [vis_cons, vis_cons, ih, shown_append]
    cases hc : isctrl w with
    | true => simp [hc, shown]
    | false =>
      simp only [Bool.false_eq_true, if_false, isctrl_escape hc]
      rw [escape_shown]

theorem esc_shown {t : List Char} (h : '\x1b' ∉ t) : '\x1b' ∉ shown t := by
  intro e
  simp only [shown, List.mem_flatMap] at e
  obtain ⟨c, hc, he⟩ := e
  split at he
  · exact absurd he (by decide)
  · exact absurd he (by decide)
  · exact absurd he (by decide)
  · simp at he; exact h (he ▸ hc)

theorem quoteChars_tail {w : Nat} (x : Word) : ∀ i, 0 < i → (quoteChars w x i).1 = [] := by
  induction x with
  | nil => intro i _; rfl
  | cons c r ih =>
    intro i hi
    have := ih (i + charWidth c) (by omega)
    unfold quoteChars
    simp only [if_neg (show ¬ i = 0 by omega)]
    split <;> exact this

theorem quoteChars_all {w : Nat} (x : Word) : ∀ i, i + room x ≤ w →
    (quoteChars w x i).1 ++ (quoteChars w x i).2.1 ++ (quoteChars w x i).2.2.1 = x ∧ (quoteChars w x i).2.2.2 = i + room x := by
  induction x with
  | nil => intro i _; exact ⟨rfl, by simp [quoteChars, room_nil]⟩
  | cons c r ih =>
    intro i hi
    have hw := charWidth_pos c
    rw [room_cons] at hi
    obtain ⟨h1, h2⟩ := ih (i + charWidth c) (by omega)
    have hh := quoteChars_tail (w := w) r (i + charWidth c) (by omega)
    unfold quoteChars
    by_cases c1 : i = 0
    · simp only [if_pos c1, room_cons]
      exact ⟨by simpa using h1, by rw [h2]; omega⟩
    · by_cases c2 : i = w - 1
      · have hr : r = [] := by
          cases r with
          | nil => rfl
          | cons d s => rw [room_cons] at hi; have := charWidth_pos d; omega
        subst hr
        simp only [if_neg c1, if_pos c2]
        exact ⟨by simp [quoteChars], by rw [h2]; simp [room_cons, room_nil]⟩
      · simp only [if_neg c1, if_neg c2, room_cons]
        rw [hh] at h1 ⊢
        exact ⟨by simpa using h1, by rw [h2]; omega⟩

theorem quoteWords_vis {w : Nat} (l : Line) : ∀ i, '\x1b' ∉ vis l → i + room (vis l) ≤ w → vis (quoteWords w l i) = vis l := by
  induction l with
  | nil => intro i _ _; rfl
  | cons x xs ih =>
    intro i hl hi
    rw [vis_cons] at hl hi ⊢
    unfold quoteWords
    cases hc : isctrl x with
    | true =>
      rw [hc] at hl hi
      simp only [if_true] at hl hi ⊢
      rw [vis_cons, hc, if_pos rfl, List.nil_append, ih i (by simpa using hl) (by simpa using hi)]
      rfl
    | false =>
      rw [hc] at hl hi
      simp only [Bool.false_eq_true, if_false] at hl hi ⊢
      rw [room_append] at hi
      obtain ⟨h1, h2⟩ := quoteChars_all (w := w) x i (by omega)
      have e1 : '\x1b' ∉ x := fun e => hl (List.mem_append_left _ e)
      have e2 : '\x1b' ∉ vis xs := fun e => hl (List.mem_append_right _ e)
      have f1 : '\x1b' ∉ (quoteChars w x i).1 := fun e => e1 (by rw [← h1]; simp [e])
      have f2 : '\x1b' ∉ (quoteChars w x i).2.1 := fun e => e1 (by rw [← h1]; simp [e])
      have f3 : '\x1b' ∉ (quoteChars w x i).2.2.1 := fun e => e1 (by rw [← h1]; simp [e])
      have g : ∀ y : Word, '\x1b' ∉ y → vis (if y.isEmpty then [] else dim y) = y := by
        intro y hy
        cases y with
        | nil => rfl
        | cons a b => exact vis_dim hy
      rw [vis_append, vis_append, vis_append, g _ f1, vis_word f2, g _ f3, h2, ih _ e2 (by omega), h1]

theorem styles_append (a b : Line) : styles (a ++ b) = styles a ++ styles b := by simp [styles]

theorem styles_cons (w : Word) (b : Line) : styles (w :: b) = styles [w] ++ styles b := by
  rw [← styles_append]; rfl

theorem styles_plain {w : Word} (h : '\x1b' ∉ w) : styles [w] = [] := by
  have : ¬ Style w := fun e => by
    have := isctrl_esc ((style_iff w).1 e)
    exact h this
  simp [styles, this]

theorem styles_word {w : Word} (h : '\x1b' ∉ w) : styles (word w) = [] := by
  unfold word
  split
  · rfl
  · exact styles_plain h

theorem styles_dim {w : Word} (h : '\x1b' ∉ w) : styles (dim w) = [] := by
  unfold dim
  rw [styles_cons, styles_cons w, styles_plain h]
  rfl

theorem styles_not_ctrl {w : Word} (h : isctrl w = false) : styles [w] = [] := by
  have : ¬ Style w := fun e => by
    rw [(style_iff w).1 e] at h; cases h
  simp [styles, this]

theorem shortenWords_styles {cut last : Nat} (l : Line) : ∀ i, '\x1b' ∉ vis l → styles (shortenWords cut last l i) = styles l := by
  induction l with
  | nil => intro i _; rfl
  | cons w ws ih =>
    intro i hl
    rw [vis_cons] at hl
    unfold shortenWords
    cases hc : isctrl w with
    | true =>
      rw [hc] at hl
      simp only [if_true] at hl ⊢
      rw [styles_cons, ih i (by simpa using hl), ← styles_cons]
    | false =>
      rw [hc] at hl
      simp only [Bool.false_eq_true, if_false] at hl ⊢
      obtain ⟨_, _, h3, h4⟩ := shortenChars_flat (cut := cut) (last := last) w i
      have e1 : '\x1b' ∉ w := fun e => hl (List.mem_append_left _ e)
      have e2 : '\x1b' ∉ vis ws := fun e => hl (List.mem_append_right _ e)
      rw [styles_append, styles_append, styles_append, styles_word (fun e => e1 (h3 _ e)), styles_word (fun e => e1 (h4 _ e)), ih _ e2,
        styles_cons w, styles_not_ctrl hc]
      cases (shortenChars cut last w i).2.1
      · rfl
      · rw [if_pos rfl, styles_dim (by decide)]; rfl

theorem escaped_styles (l : Line) : styles (escaped l) = styles l := by
  induction l with
  | nil => rfl
  | cons w ws ih =>
    show styles ((if isctrl w then w else escape w) :: escaped ws) = _
    rw [styles_cons, ih, styles_cons w]
    cases hc : isctrl w with
    | true => rfl
    | false => simp only [Bool.false_eq_true, if_false]; rw [styles_not_ctrl hc, styles_not_ctrl (isctrl_escape hc)]

theorem quoteWords_styles {w : Nat} (l : Line) : ∀ i, '\x1b' ∉ vis l → i + room (vis l) ≤ w → styles (quoteWords w l i) = styles l := by
  induction l with
  | nil => intro i _ _; rfl
  | cons x xs ih =>
    intro i hl hi
    rw [vis_cons] at hl hi
    unfold quoteWords
    cases hc : isctrl x with
    | true =>
      rw [hc] at hl hi
      simp only [if_true] at hl hi ⊢
      rw [styles_cons, ih i (by simpa using hl) (by simpa using hi), ← styles_cons]
    | false =>
      rw [hc] at hl hi
      simp only [Bool.false_eq_true, if_false] at hl hi ⊢
      rw [room_append] at hi
      obtain ⟨h1, h2⟩ := quoteChars_all (w := w) x i (by omega)
      have e1 : '\x1b' ∉ x := fun e => hl (List.mem_append_left _ e)
      have e2 : '\x1b' ∉ vis xs := fun e => hl (List.mem_append_right _ e)
      have f1 : '\x1b' ∉ (quoteChars w x i).1 := fun e => e1 (by rw [← h1]; simp [e])
      have f2 : '\x1b' ∉ (quoteChars w x i).2.1 := fun e => e1 (by rw [← h1]; simp [e])
      have f3 : '\x1b' ∉ (quoteChars w x i).2.2.1 := fun e => e1 (by rw [← h1]; simp [e])
      have g : ∀ y : Word, '\x1b' ∉ y → styles (if y.isEmpty then [] else dim y) = [] := by
        intro y hy
        split
        · rfl
        · exact styles_dim hy
      rw [styles_append, styles_append, styles_append, g _ f1, styles_word f2, g _ f3, h2, ih _ e2 (by omega), styles_cons x, styles_not_ctrl hc]
      rfl

theorem flat_all {cut last : Nat} (cs : List Char) : ∀ i, i + room cs ≤ cut → flat cut last cs i = cs := by
  induction cs with
  | nil => intro i _; rfl
  | cons c r ih =>
    intro i hi
    have := charWidth_pos c
    rw [room_cons] at hi
    rw [flat, if_pos (by omega), ih _ (by omega)]
    rfl

theorem vis_filter (l : Line) : vis l = (l.filter fun w => !isctrl w).flatten := by
  induction l with
  | nil => rfl
  | cons w ws ih =>
    rw [vis_cons, ih]
    cases h : isctrl w <;> simp [h]

theorem enclosed_vis (l : Line) (q : Char) (e : enclosed l q = true) : (vis l).head? = some q ∧ (vis l).getLast? = some q := by
  rw [vis_filter]
  unfold enclosed at e
  simp only at e
  generalize (l.filter fun w => !isctrl w) = ws at e
  split at e
  · next a b ha hb =>
    simp only [Bool.and_eq_true, beq_iff_eq] at e
    constructor
    · obtain ⟨r, rfl⟩ : ∃ r, ws = a :: r := by
        cases ws with
        | nil => simp at ha
        | cons x r => simp at ha; exact ⟨r, by rw [ha]⟩
      rw [List.flatten_cons, List.head?_append, e.1]; rfl
    · obtain ⟨r, rfl⟩ := List.getLast?_eq_some_iff.1 hb
      rw [List.flatten_append, List.flatten_singleton, List.getLast?_append, e.2]; rfl
  · cases e

theorem quoteChars_mid (q : Char) (w : Nat) (m : List Char) : ∀ i, 0 < i → i + room m = w - 1 →
    quoteChars w (m ++ [q]) i = ([], m, [q], w - 1 + charWidth q) := by
  induction m with
  | nil =>
    intro i hi h
    simp only [room_nil, Nat.add_zero] at h
    have h0 : ¬ i = 0 := by omega
    simp only [List.nil_append, quoteChars]
    rw [if_neg h0, if_pos h, h]
  | cons c r ih =>
    intro i hi h
    rw [room_cons] at h
    have := charWidth_pos c
    rw [List.cons_append]
    unfold quoteChars
    rw [ih (i + charWidth c) (by omega) (by omega)]
    simp only [if_neg (show ¬ i = 0 by omega), if_neg (show ¬ i = w - 1 by omega)]

theorem quoteChars_quoted (q : Char) (m : List Char) (hw : charWidth q = 1) :
    quoteChars (room m + 2) (q :: (m ++ [q])) 0 = ([q], m, [q], room m + 2) := by
  unfold quoteChars
  rw [quoteChars_mid q (room m + 2) m _ (by omega) (by omega), hw]
  simp

end H2.Abbrev
