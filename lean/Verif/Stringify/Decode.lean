import Verif.Stringify.Lemmas
namespace H2.Stringify
open H2.Layout (text Word Line)
open H2.Message (gray text_append text_gray text_word commaIf)

/-- What is seen of a value. -/
def enc (v : Val) : Text := text (print true v)

/-- What is seen of the elements after the first. -/
def tail (vs : List Val) : Text := text (elements true true vs)

theorem numeric_no_esc {t : Text} (h : ∀ c ∈ t, numeric c = true) : '\x1b' ∉ t := fun hm => absurd (h _ hm) (by decide)

theorem enc_int (n : Int) : enc (.int n) = intText n := by
  unfold enc
  rw [print, trim_int, text_word]
  exact numeric_no_esc fun c h => (int_numeric n c h).1

theorem enc_float (neg : Bool) (m : Nat) : Shows (enc (.float neg m)) neg m := by
  unfold enc
  rw [print, text_word]
  · exact trim_shows neg m
  · exact numeric_no_esc (shows_numeric (trim_shows neg m)).1

theorem enc_bool (b : Bool) : enc (.bool b) = if b then "true".toList else "false".toList := by
  unfold enc
  rw [print, text_word]
  cases b <;> decide

theorem enc_char {c : Char} (h : c ≠ '\x1b') : enc (.char c) = ['\'', c, '\''] := by
  unfold enc
  rw [print, text_append, text_append, text_gray _ (by decide), text_word _ (by simpa using h.symm)]
  rfl

theorem takeWhile_plain (t : Text) (h : ∀ c ∈ t, c ≠ '\x00') : t.takeWhile (· ≠ '\x00') = t := by
  induction t with
  | nil => rfl
  | cons c cs ih =>
    rw [List.takeWhile_cons, if_pos (by simpa using h c (by simp)), ih fun d hd => h d (by simp [hd])]

theorem str_text (t : Text) (h : ∀ c ∈ t, Plain c) : text (strLine t true) = '"' :: t ++ ['"'] := by
  unfold strLine
  rw [takeWhile_plain t fun c hc => (h c hc).2.2]
  rw [text_append, text_append, text_gray _ (by decide), text_word _ (fun hm => (h _ hm).2.1 rfl)]
  rfl

theorem enc_str {t : Text} (h : ∀ c ∈ t, Plain c) : enc (.str t) = '"' :: t ++ ['"'] := by
  unfold enc
  rw [print, str_text t h]

theorem narrow_plain {t : Text} (h : ∀ c ∈ t, c.toNat < 256) : narrow t = t := by
  unfold narrow
  conv => rhs; rw [← List.map_id t]
  apply List.map_congr_left
  intro c hc
  rw [if_pos (by have := h c hc; omega)]
  rfl

theorem enc_wstr {t : Text} (h : ∀ c ∈ t, Plain c ∧ c.toNat < 256) : enc (.wstr t) = '"' :: t ++ ['"'] := by
  unfold enc
  rw [print, narrow_plain fun c hc => (h c hc).2, str_text t fun c hc => (h c hc).1]

theorem enc_null : enc .nullStr = "(null)".toList := by
  unfold enc
  rw [print, text_word]
  decide

theorem enc_pair (a b : Val) : enc (.pair a b) = '(' :: (enc a ++ ',' :: ' ' :: (enc b ++ [')'])) := by
  unfold enc
  rw [print, text_append, text_append, text_append, text_append, text_gray _ (by decide), text_gray _ (by decide), text_gray _ (by decide)]
  simp

theorem tail_nil : tail [] = [] := rfl

theorem tail_cons (v : Val) (vs : List Val) : tail (v :: vs) = ',' :: ' ' :: (enc v ++ tail vs) := by
  unfold tail enc
  rw [elements, text_append, text_append, text_gray _ (by decide)]
  rfl

theorem first_cons (v : Val) (vs : List Val) : text (elements true false (v :: vs)) = enc v ++ tail vs := by
  unfold tail enc
  rw [elements, text_append, text_append, text_gray _ (by decide)]
  rfl

theorem enc_tuple (vs : List Val) : enc (.tuple vs) = '(' :: (text (elements true false vs) ++ [')']) := by
  unfold enc
  rw [print, text_append, text_append, text_gray _ (by decide), text_gray _ (by decide)]
  rfl

theorem enc_list (vs : List Val) (h : vs.length ≤ 100) : enc (.list vs) = '[' :: (text (elements true false vs) ++ [']']) := by
  unfold enc
  rw [print, if_neg (by omega), text_append, text_append, text_gray _ (by decide), text_gray _ (by decide)]
  rfl

/-- A value does not begin with a closing bracket. -/
theorem enc_head {τ : Ty} {v : Val} (h : Whole τ v) : ∃ c cs, enc v = c :: cs ∧ c ≠ ']' := by
  cases h with
  | int n =>
    rw [enc_int]
    cases e : intText n with
    | nil => exact absurd e (int_ne_nil n)
    | cons c cs =>
      refine ⟨c, cs, rfl, ?_⟩
      rintro rfl
      exact absurd (int_numeric n ']' (by rw [e]; simp)).1 (by decide)
  | float neg m =>
    have hs := shows_numeric (enc_float neg m)
    cases e : enc (.float neg m) with
    | nil => exact absurd e hs.2
    | cons c cs =>
      refine ⟨c, cs, rfl, ?_⟩
      rintro rfl
      exact absurd (hs.1 ']' (by rw [e]; simp)) (by decide)
  | bool b => rw [enc_bool]; cases b <;> exact ⟨_, _, rfl, by decide⟩
  | char hc => rw [enc_char hc]; exact ⟨_, _, rfl, by decide⟩
  | str ht => rw [enc_str ht]; exact ⟨_, _, rfl, by decide⟩
  | nullStr => rw [enc_null]; exact ⟨_, _, rfl, by decide⟩
  | wstr ht => rw [enc_wstr ht]; exact ⟨_, _, rfl, by decide⟩
  | nullWstr => rw [enc_null]; exact ⟨_, _, rfl, by decide⟩
  | pair _ _ => rw [enc_pair]; exact ⟨_, _, rfl, by decide⟩
  | tuple _ => rw [enc_tuple]; exact ⟨_, _, rfl, by decide⟩
  | list _ hl => rw [enc_list _ hl]; exact ⟨_, _, rfl, by decide⟩

theorem ends_tail (vs : List Val) (c : Char) (r : Text) (h : c = ',' ∨ c = ')' ∨ c = ']') : Ends (tail vs ++ c :: r) := by
  cases vs with
  | nil => exact ends_cons c r h
  | cons v vs => rw [tail_cons]; exact ends_cons ',' _ (.inl rfl)

/-- Values of a type can be told apart, whatever follows. -/
def Apart (τ : Ty) : Prop :=
  ∀ v w, Whole τ v → Whole τ w → ∀ r r', Ends r → Ends r' → enc v ++ r = enc w ++ r' → v = w ∧ r = r'

theorem quoted_unique {t t' r r' : Text} (h : ∀ c ∈ t, Plain c) (h' : ∀ c ∈ t', Plain c)
    (e : ('"' :: t ++ ['"']) ++ r = ('"' :: t' ++ ['"']) ++ r') : t = t' ∧ r = r' := by
  have e' : t ++ '"' :: r = t' ++ '"' :: r' := by simpa using e
  obtain ⟨e1, e2⟩ := span_unique (fun c => c != '"') t t' _ _ (fun c hc => by simpa using (h c hc).1) (fun c hc => by simpa using (h' c hc).1)
    (by intro c hc; simp at hc; subst hc; rfl) (by intro c hc; simp at hc; subst hc; rfl) e'
  exact ⟨e1, (List.cons.inj e2).2⟩

theorem apart_list {τ : Ty} (ih : Apart τ) : ∀ vs ws, WholeAll τ vs → WholeAll τ ws → ∀ r r',
    tail vs ++ ']' :: r = tail ws ++ ']' :: r' → vs = ws ∧ r = r'
  | [], [], _, _, r, r', e => ⟨rfl, by simpa [tail_nil] using e⟩
  | [], w :: ws, _, _, r, r', e => by rw [tail_nil, tail_cons] at e; simp at e
  | v :: vs, [], _, _, r, r', e => by rw [tail_nil, tail_cons] at e; simp at e
  | v :: vs, w :: ws, .cons hv hvs, .cons hw hws, r, r', e => by
    rw [tail_cons, tail_cons] at e
    simp only [List.cons_append, List.cons.injEq, true_and, List.append_assoc] at e
    obtain ⟨rfl, e'⟩ := ih v w hv hw _ _ (ends_tail vs ']' r (by simp)) (ends_tail ws ']' r' (by simp)) e
    obtain ⟨rfl, rfl⟩ := apart_list ih vs ws hvs hws r r' e'
    exact ⟨rfl, rfl⟩

mutual
theorem apart : ∀ τ, Apart τ
  | .int => by
    intro v w hv hw r r' hr hr' e
    cases hv with | int n => cases hw with | int m =>
    rw [enc_int, enc_int] at e
    obtain ⟨e1, e2⟩ := span_unique numeric _ _ _ _ (fun c h => (int_numeric n c h).1) (fun c h => (int_numeric m c h).1) hr.not_numeric hr'.not_numeric e
    exact ⟨by rw [int_inj e1], e2⟩
  | .float => by
    intro v w hv hw r r' hr hr' e
    cases hv with | float n m => cases hw with | float n' m' =>
    obtain ⟨e1, e2⟩ := span_unique numeric _ _ _ _ (shows_numeric (enc_float n m)).1 (shows_numeric (enc_float n' m')).1
      hr.not_numeric hr'.not_numeric e
    have h := enc_float n m
    rw [e1] at h
    obtain ⟨rfl, rfl⟩ := shows_unique h (enc_float n' m')
    exact ⟨rfl, e2⟩
  | .bool => by
    intro v w hv hw r r' hr hr' e
    cases hv with | bool a => cases hw with | bool b =>
    rw [enc_bool, enc_bool] at e
    obtain ⟨e1, e2⟩ := span_unique Char.isAlpha _ _ _ _ (by cases a <;> decide) (by cases b <;> decide) hr.not_alpha hr'.not_alpha e
    refine ⟨?_, e2⟩
    cases a <;> cases b <;> first | rfl | exact absurd e1 (by decide)
  | .char => by
    intro v w hv hw r r' hr hr' e
    cases hv with | char h => cases hw with | char h' =>
    rw [enc_char h, enc_char h'] at e
    simp at e
    exact ⟨by rw [e.1], e.2⟩
  | .str => by
    intro v w hv hw r r' hr hr' e
    cases hv with
    | str h =>
      cases hw with
      | str h' =>
        rw [enc_str h, enc_str h'] at e
        obtain ⟨rfl, e2⟩ := quoted_unique h h' e
        exact ⟨rfl, e2⟩
      | nullStr => rw [enc_str h, enc_null] at e; simp at e
    | nullStr =>
      cases hw with
      | str h' => rw [enc_str h', enc_null] at e; simp at e
      | nullStr => exact ⟨rfl, List.append_cancel_left e⟩
  | .wstr => by
    intro v w hv hw r r' hr hr' e
    cases hv with
    | wstr h =>
      cases hw with
      | wstr h' =>
        rw [enc_wstr h, enc_wstr h'] at e
        obtain ⟨rfl, e2⟩ := quoted_unique (fun c hc => (h c hc).1) (fun c hc => (h' c hc).1) e
        exact ⟨rfl, e2⟩
      | nullWstr => rw [enc_wstr h, enc_null] at e; simp at e
    | nullWstr =>
      cases hw with
      | wstr h' => rw [enc_wstr h', enc_null] at e; simp at e
      | nullWstr => exact ⟨rfl, List.append_cancel_left e⟩
  | .pair α β => by
    intro v w hv hw r r' hr hr' e
    have iα := apart α
    have iβ := apart β
    cases hv with | pair ha hb => cases hw with | pair ha' hb' =>
    rw [enc_pair, enc_pair] at e
    simp only [List.cons_append, List.cons.injEq, true_and, List.append_assoc] at e
    obtain ⟨rfl, e1⟩ := iα _ _ ha ha' _ _ (ends_cons _ _ (by simp)) (ends_cons _ _ (by simp)) e
    simp only [List.cons.injEq, true_and] at e1
    obtain ⟨rfl, e2⟩ := iβ _ _ hb hb' _ _ (ends_cons _ _ (by simp)) (ends_cons _ _ (by simp)) e1
    exact ⟨rfl, by simpa using e2⟩
  | .tuple τs => by
    intro v w hv hw r r' hr hr' e
    cases hv with | tuple ha => cases hw with | tuple hb =>
    rw [enc_tuple, enc_tuple] at e
    cases τs with
    | nil =>
      cases ha with | nil => cases hb with | nil =>
      exact ⟨rfl, by simpa using e⟩
    | cons τ τs =>
      have iτ := apart τ
      have is := apart_each τs
      cases ha with | cons h1 h2 => cases hb with | cons h1' h2' =>
      rw [first_cons, first_cons] at e
      simp only [List.cons_append, List.nil_append, List.cons.injEq, true_and, List.append_assoc] at e
      obtain ⟨rfl, e1⟩ := iτ _ _ h1 h1' _ _ (ends_tail _ ')' r (by simp)) (ends_tail _ ')' r' (by simp)) e
      obtain ⟨rfl, e2⟩ := is _ _ h2 h2' r r' e1
      exact ⟨rfl, e2⟩
  | .list τ => by
    intro v w hv hw r r' hr hr' e
    have iτ := apart τ
    cases hv with | list ha hl => cases hw with | list hb hl' =>
    rw [enc_list _ hl, enc_list _ hl'] at e
    simp only [List.cons_append, List.nil_append, List.cons.injEq, true_and, List.append_assoc] at e
    cases ha with
    | nil =>
      cases hb with
      | nil => exact ⟨rfl, by simpa [elements] using e⟩
      | cons h h' =>
        obtain ⟨c, cs, e1, hc⟩ := enc_head h
        rw [first_cons, e1] at e
        have : (']' : Char) = c := by simpa [elements, H2.Message.text_nil] using congrArg List.head? e
        exact absurd this.symm hc
    | cons h h' =>
      cases hb with
      | nil =>
        obtain ⟨c, cs, e1, hc⟩ := enc_head h
        rw [first_cons, e1] at e
        have : c = (']' : Char) := by simpa [elements, H2.Message.text_nil] using congrArg List.head? e
        exact absurd this hc
      | cons k k' =>
        rw [first_cons, first_cons] at e
        simp only [List.append_assoc] at e
        obtain ⟨rfl, e1⟩ := iτ _ _ h k _ _ (ends_tail _ ']' r (by simp)) (ends_tail _ ']' r' (by simp)) e
        obtain ⟨rfl, e2⟩ := apart_list iτ _ _ h' k' r r' e1
        exact ⟨rfl, e2⟩
theorem apart_each : ∀ τs vs ws, WholeEach τs vs → WholeEach τs ws → ∀ r r',
    tail vs ++ ')' :: r = tail ws ++ ')' :: r' → vs = ws ∧ r = r'
  | [], _, _, .nil, .nil, r, r', e => ⟨rfl, by simpa [tail_nil] using e⟩
  | τ :: τs, _, _, .cons (v := v) (vs := vs) hv hvs, .cons (v := w) (vs := ws) hw hws, r, r', e => by
    have iτ := apart τ
    rw [tail_cons, tail_cons] at e
    simp only [List.cons_append, List.cons.injEq, true_and, List.append_assoc] at e
    obtain ⟨rfl, e'⟩ := iτ v w hv hw _ _ (ends_tail vs ')' r (by simp)) (ends_tail ws ')' r' (by simp)) e
    obtain ⟨rfl, rfl⟩ := apart_each τs vs ws hvs hws r r' e'
    exact ⟨rfl, rfl⟩
end

end H2.Stringify
