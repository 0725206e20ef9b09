import Verif.Message.Lemmas
import Verif.Stringify.Spec
namespace H2.Stringify
open H2.Layout (text Word Line)
open H2.Message (gray text_append text_gray text_word)

/-! ### Numbers -/

/-- A character of a number. -/
def numeric (c : Char) : Bool := c.isDigit || c == '-' || c == '.'

theorem digit_of_mem {n : Nat} {c : Char} (h : c ∈ Nat.toDigits 10 n) : c.isDigit = true :=
  Nat.isDigit_of_mem_toDigits (by omega) (by omega) h

theorem toDigits_inj {m n : Nat} (h : Nat.toDigits 10 m = Nat.toDigits 10 n) : m = n := by
  have := congrArg (fun l => Nat.ofDigitChars 10 l 0) h
  simpa using this

theorem nat_text (k : Nat) : intText (k : Int) = Nat.toDigits 10 k := Nat.toList_repr

theorem neg_text (k : Nat) : intText (Int.negSucc k) = '-' :: Nat.toDigits 10 (k + 1) := by
  show ("-" ++ Nat.repr (k + 1)).toList = _
  rw [String.toList_append, Nat.toList_repr]; rfl

theorem dash_not_digits (n : Nat) (l : List Char) (r : List Char) : Nat.toDigits 10 n ++ r ≠ '-' :: l := by
  intro h
  cases e : Nat.toDigits 10 n with
  | nil => exact absurd e Nat.toDigits_ne_nil
  | cons c cs =>
    have hc := digit_of_mem (n := n) (c := c) (by rw [e]; simp)
    rw [e] at h
    have : c = '-' := by simpa using congrArg List.head? h
    rw [this] at hc
    exact absurd hc (by decide)

theorem int_inj {m n : Int} (h : intText m = intText n) : m = n := by
  cases m with
  | ofNat a =>
    cases n with
    | ofNat b =>
      rw [show Int.ofNat a = (a : Int) from rfl, show Int.ofNat b = (b : Int) from rfl, nat_text, nat_text] at h
      rw [toDigits_inj h]
    | negSucc b =>
      rw [show Int.ofNat a = (a : Int) from rfl, nat_text, neg_text] at h
      exact absurd (by simpa using h) (dash_not_digits a _ [])
  | negSucc a =>
    cases n with
    | ofNat b =>
      rw [show Int.ofNat b = (b : Int) from rfl, nat_text, neg_text] at h
      exact absurd (by simpa using h.symm) (dash_not_digits b _ [])
    | negSucc b =>
      rw [neg_text, neg_text] at h
      have := toDigits_inj (List.cons.inj h).2
      have : a = b := by omega
      rw [this]

theorem int_numeric (n : Int) : ∀ c ∈ intText n, numeric c = true ∧ c ≠ '.' := by
  intro c h
  have hd : ∀ k, c ∈ Nat.toDigits 10 k → numeric c = true ∧ c ≠ '.' := by
    intro k hk
    have := digit_of_mem hk
    exact ⟨by simp [numeric, this], by rintro rfl; exact absurd this (by decide)⟩
  cases n with
  | ofNat k => rw [show Int.ofNat k = (k : Int) from rfl, nat_text] at h; exact hd k h
  | negSucc k =>
    rw [neg_text] at h
    rcases List.mem_cons.1 h with rfl | h
    · decide
    · exact hd _ h

theorem trim_int (n : Int) : trim (intText n) = intText n := by
  unfold trim
  rw [if_neg]
  intro h
  have := List.contains_iff_mem.1 h
  exact (int_numeric n _ this).2 rfl

theorem int_ne_nil (n : Int) : intText n ≠ [] := by
  cases n with
  | ofNat k => rw [show Int.ofNat k = (k : Int) from rfl, nat_text]; exact Nat.toDigits_ne_nil
  | negSucc k => rw [neg_text]; simp

/-! ### Floating point numbers -/

/-- Six digits as numbers. -/
def sixNat (m : Nat) : List Nat := (List.range 6).map fun i => m / 10 ^ (5 - i) % 10

theorem six_eq (m : Nat) : six m = (sixNat m).map Nat.digitChar := by
  unfold six sixNat
  rw [List.map_map]; rfl

theorem sixNat_lt (m : Nat) : ∀ d ∈ sixNat m, d < 10 := by
  intro d h
  obtain ⟨i, _, rfl⟩ := List.mem_map.1 h
  exact Nat.mod_lt _ (by omega)

theorem sixNat_value (m : Nat) (h : m < 1000000) : (sixNat m).foldl (fun n d => 10 * n + d) 0 = m := by
  have : sixNat m = [m / 100000 % 10, m / 10000 % 10, m / 1000 % 10, m / 100 % 10, m / 10 % 10, m / 1 % 10] := rfl
  rw [this]
  simp only [List.foldl_cons, List.foldl_nil]
  omega

theorem digitChar_zero {d : Nat} (h : d < 10) : d.digitChar = '0' ↔ d = 0 := by
  have : ∀ d, d < 10 → (d.digitChar = '0' ↔ d = 0) := by decide
  exact this d h

theorem digitChar_inj {d e : Nat} (h : d < 10) (h' : e < 10) (he : d.digitChar = e.digitChar) : d = e := by
  have : ∀ d, d < 10 → ∀ e, e < 10 → d.digitChar = e.digitChar → d = e := by decide
  exact this d h e h' he

theorem map_digitChar_inj : ∀ (a b : List Nat), (∀ d ∈ a, d < 10) → (∀ d ∈ b, d < 10) → a.map Nat.digitChar = b.map Nat.digitChar → a = b
  | [], [], _, _, _ => rfl
  | [], _ :: _, _, _, h => by simp at h
  | _ :: _, [], _, _, h => by simp at h
  | x :: a, y :: b, ha, hb, h => by
    rw [List.map_cons, List.map_cons] at h
    obtain ⟨h1, h2⟩ := List.cons.inj h
    rw [digitChar_inj (ha x (by simp)) (hb y (by simp)) h1,
      map_digitChar_inj a b (fun d h => ha d (List.mem_cons_of_mem _ h)) (fun d h => hb d (List.mem_cons_of_mem _ h)) h2]

theorem digit_isDigit {d : Nat} (h : d < 10) : d.digitChar.isDigit = true := by
  have : ∀ d, d < 10 → d.digitChar.isDigit = true := by decide
  exact this d h

theorem eraseLast_append (c : Char) (a b : Word) :
    eraseLast c (a ++ b) = if eraseLast c b = [] then eraseLast c a else a ++ eraseLast c b := by
  unfold eraseLast
  rw [List.reverse_append, List.dropWhile_append]
  by_cases h : (b.reverse.dropWhile (· == c)).isEmpty = true
  · rw [if_pos h, if_pos (by simpa using h)]
  · rw [if_neg h, if_neg (by simpa using h)]
    simp

theorem eraseLast_other (c d : Char) (a : Word) (h : d ≠ c) : eraseLast c (a ++ [d]) = a ++ [d] := by
  unfold eraseLast
  have : (d == c) = false := by simpa using h
  simp [this]

/-- Removing zeros from the end of digits. -/
theorem strip_zeros (ds : List Nat) (h : ∀ d ∈ ds, d < 10) :
    ∃ es k, ds = es ++ List.replicate k 0 ∧ es.getLast? ≠ some 0 ∧ eraseLast '0' (ds.map Nat.digitChar) = es.map Nat.digitChar := by
  rcases List.eq_nil_or_concat ds with rfl | ⟨i, d, rfl⟩
  · exact ⟨[], 0, rfl, by simp, rfl⟩
  · rw [List.concat_eq_append] at h ⊢
    by_cases hd : d = 0
    · subst hd
      obtain ⟨es, k, e, hl, he⟩ := strip_zeros i (fun d hd => h d (by simp [hd]))
      refine ⟨es, k + 1, ?_, hl, ?_⟩
      · rw [List.replicate_succ', ← List.append_assoc, ← e]
      · rw [List.map_append, eraseLast_append]
        rw [if_pos (by rfl)]
        exact he
    · refine ⟨i ++ [d], 0, by simp, by simp [hd], ?_⟩
      rw [List.map_append]
      exact eraseLast_other _ _ _ (fun hx => hd ((digitChar_zero (h d (by simp))).1 hx))
termination_by ds.length
decreasing_by first | (rw [List.length_concat]; omega) | (rw [List.length_append]; simp) | (subst_vars; simp) | omega

theorem foldl_replicate (k : Nat) : ∀ n, (List.replicate k 0).foldl (fun n d => 10 * n + d) n = n * 10 ^ k := by
  induction k with
  | zero => intro n; simp
  | succ k ih => intro n; rw [List.replicate_succ, List.foldl_cons, ih, Nat.pow_succ]; grind

theorem trim_shows (neg : Bool) (m : Nat) : Shows (trim (floatText neg m)) neg m := by
  have hlt : m % 1000000 < 1000000 := Nat.mod_lt _ (by omega)
  obtain ⟨es, k, e, hl, he⟩ := strip_zeros (sixNat (m % 1000000)) (sixNat_lt _)
  have hlen : es.length + k = 6 := by
    have := congrArg List.length e
    simp [sixNat] at this
    omega
  have hes : ∀ d ∈ es, d < 10 := fun d hd => sixNat_lt _ d (by rw [e]; simp [hd])
  refine ⟨m / 1000000, es, ?_, by omega, hes, hl, ?_⟩
  · unfold trim floatText
    rw [if_pos (by rw [List.contains_iff_mem]; simp)]
    rw [six_eq]
    generalize hS : (if neg then ['-'] else []) ++ Nat.toDigits 10 (m / 1000000) = S
    have hlast : ∃ i d, S = i ++ [d] ∧ d ≠ '.' := by
      rcases List.eq_nil_or_concat (Nat.toDigits 10 (m / 1000000)) with h | ⟨i, d, h⟩
      · exact absurd h Nat.toDigits_ne_nil
      · rw [List.concat_eq_append] at h
        refine ⟨(if neg then ['-'] else []) ++ i, d, by rw [← hS, h, List.append_assoc], ?_⟩
        rintro rfl
        exact absurd (digit_of_mem (n := m / 1000000) (c := '.') (by rw [h]; simp)) (by decide)
    have h1 : eraseLast '0' (S ++ '.' :: (sixNat (m % 1000000)).map Nat.digitChar) = S ++ '.' :: es.map Nat.digitChar := by
      rw [show S ++ '.' :: (sixNat (m % 1000000)).map Nat.digitChar = (S ++ ['.']) ++ (sixNat (m % 1000000)).map Nat.digitChar by simp]
      rw [eraseLast_append, he]
      by_cases hn : es = []
      · subst hn
        rw [if_pos (by rfl), eraseLast_other _ _ _ (by decide)]
        rfl
      · rw [if_neg (by simpa using hn)]; simp
    rw [h1]
    by_cases hn : es = []
    · subst hn
      obtain ⟨i, d, e1, hd⟩ := hlast
      rw [List.map_nil, eraseLast_append, if_pos (by rfl), e1, eraseLast_other _ _ _ hd]
      simp
    · rw [if_neg hn]
      rcases List.eq_nil_or_concat es with h | ⟨i, d, h⟩
      · exact absurd h hn
      · rw [List.concat_eq_append] at h
        have hd : d.digitChar ≠ '.' := by
          intro hx
          have := digit_isDigit (hes d (by rw [h]; simp))
          rw [hx] at this
          exact absurd this (by decide)
        rw [h, List.map_append, List.map_cons, List.map_nil]
        rw [show S ++ '.' :: (i.map Nat.digitChar ++ [d.digitChar]) = (S ++ '.' :: i.map Nat.digitChar) ++ [d.digitChar] by simp]
        exact eraseLast_other _ _ _ hd
  · have hv := sixNat_value (m % 1000000) hlt
    rw [e, List.foldl_append, foldl_replicate] at hv
    rw [show 6 - es.length = k by omega, hv]
    omega

/-! ### Where a piece of text ends -/

theorem span_unique (p : Char → Bool) (a b r r' : Text) (ha : ∀ c ∈ a, p c = true) (hb : ∀ c ∈ b, p c = true)
    (hr : ∀ c, r.head? = some c → p c = false) (hr' : ∀ c, r'.head? = some c → p c = false) (e : a ++ r = b ++ r') : a = b ∧ r = r' := by
  have key : ∀ (a r : Text), (∀ c ∈ a, p c = true) → (∀ c, r.head? = some c → p c = false) → (a ++ r).takeWhile p = a := by
    intro a r ha hr
    induction a with
    | nil =>
      cases r with
      | nil => rfl
      | cons c r => simp [hr c rfl]
    | cons c a ih =>
      rw [List.cons_append, List.takeWhile_cons, ha c (by simp), if_pos rfl, ih (fun c h => ha c (List.mem_cons_of_mem _ h))]
  have h1 : a = b := by
    rw [← key a r ha hr, e, key b r' hb hr']
  subst h1
  exact ⟨rfl, List.append_cancel_left e⟩

/-- What can follow a value. -/
def Ends (r : Text) : Prop := ∀ c, r.head? = some c → c = ',' ∨ c = ')' ∨ c = ']'

theorem Ends.not_numeric {r : Text} (h : Ends r) : ∀ c, r.head? = some c → numeric c = false := by
  intro c hc
  rcases h c hc with rfl | rfl | rfl <;> decide

theorem Ends.not_alpha {r : Text} (h : Ends r) : ∀ c, r.head? = some c → c.isAlpha = false := by
  intro c hc
  rcases h c hc with rfl | rfl | rfl <;> decide

theorem ends_cons (c : Char) (r : Text) (h : c = ',' ∨ c = ')' ∨ c = ']') : Ends (c :: r) := by
  intro d hd
  have : d = c := by simpa using hd.symm
  rw [this]; exact h

theorem shows_numeric {t : Text} {neg : Bool} {m : Nat} (h : Shows t neg m) : (∀ c ∈ t, numeric c = true) ∧ t ≠ [] := by
  obtain ⟨w, ds, rfl, _, hd, _, _⟩ := h
  constructor
  · intro c hc
    rcases List.mem_append.1 hc with hc | hc
    · rcases List.mem_append.1 hc with hc | hc
      · cases neg with
        | true => simp at hc; subst hc; decide
        | false => simp at hc
      · simp [numeric, digit_of_mem hc]
    · by_cases hn : ds = []
      · simp [hn] at hc
      · rw [if_neg hn] at hc
        rcases List.mem_cons.1 hc with rfl | hc
        · decide
        · obtain ⟨d, hd', rfl⟩ := List.mem_map.1 hc
          simp [numeric, digit_isDigit (hd d hd')]
  · intro h
    have := (List.append_eq_nil_iff.1 (List.append_eq_nil_iff.1 h).1).2
    exact Nat.toDigits_ne_nil this

theorem shows_unique {t : Text} {n n' : Bool} {m m' : Nat} (h : Shows t n m) (h' : Shows t n' m') : n = n' ∧ m = m' := by
  obtain ⟨w, ds, e, hl, hd, hx, hm⟩ := h
  obtain ⟨w', ds', e', hl', hd', hx', hm'⟩ := h'
  have tail : ∀ (w w' : Nat) (ds ds' : List Nat), (∀ d ∈ ds, d < 10) → (∀ d ∈ ds', d < 10) →
      Nat.toDigits 10 w ++ (if ds = [] then [] else '.' :: ds.map Nat.digitChar) =
      Nat.toDigits 10 w' ++ (if ds' = [] then [] else '.' :: ds'.map Nat.digitChar) → w = w' ∧ ds = ds' := by
    intro w w' ds ds' h h' e
    have hend : ∀ ds : List Nat, ∀ c, (if ds = [] then ([] : Text) else '.' :: ds.map Nat.digitChar).head? = some c → c.isDigit = false := by
      intro ds c hc
      by_cases hn : ds = []
      · simp [hn] at hc
      · rw [if_neg hn] at hc
        have : c = '.' := by simpa using hc.symm
        subst this; decide
    obtain ⟨e1, e2⟩ := span_unique Char.isDigit _ _ _ _ (fun c => digit_of_mem) (fun c => digit_of_mem) (hend ds) (hend ds') e
    refine ⟨toDigits_inj e1, ?_⟩
    by_cases hn : ds = []
    · by_cases hn' : ds' = []
      · rw [hn, hn']
      · rw [if_pos hn, if_neg hn'] at e2; simp at e2
    · by_cases hn' : ds' = []
      · rw [if_neg hn, if_pos hn'] at e2; simp at e2
      · rw [if_neg hn, if_neg hn'] at e2
        exact map_digitChar_inj _ _ h h' (List.cons.inj e2).2
  rw [e] at e'
  have hs : n = n' := by
    cases n <;> cases n'
    · rfl
    · exfalso
      rw [if_neg (by simp), if_pos rfl, List.nil_append, List.append_assoc] at e'
      exact dash_not_digits _ _ _ e'
    · exfalso
      rw [if_neg (show ¬ (false = true) by simp), if_pos rfl, List.nil_append, List.append_assoc] at e'
      exact dash_not_digits _ _ _ e'.symm
    · rfl
  subst hs
  rw [List.append_assoc, List.append_assoc] at e'
  obtain ⟨e1, e2⟩ := tail _ _ _ _ hd hd' (List.append_cancel_left e')
  subst e1 e2
  exact ⟨rfl, by rw [hm, hm']⟩

end H2.Stringify
