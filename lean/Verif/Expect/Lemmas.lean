import Verif.Expect.Spec
import Verif.Addr.Lemmas
namespace H2.Expect.Spec
open H2.Layout (Word Line)
open H2.Message (gray)

/-! ### More steps change nothing -/

theorem bind_mono {α β : Type} {x y : Option α} {f g : α → Option β} (hx : ∀ a, x = some a → y = some a)
    (hf : ∀ a r, f a = some r → g a = some r) {r : β} (h : x.bind f = some r) : y.bind g = some r := by
  cases x with
  | none => simp at h
  | some a => rw [hx a rfl]; exact hf a r h

theorem map_mono {α β : Type} {x y : Option α} {f : α → β} (hx : ∀ a, x = some a → y = some a)
    {r : β} (h : x.map f = some r) : y.map f = some r := by
  cases x with
  | none => simp at h
  | some a => rw [hx a rfl]; exact h

/-- One more step for each part of the reader. -/
def Mono (n : Nat) : Prop :=
  (∀ ts r, pOr n ts = some r → pOr (n + 1) ts = some r) ∧
  (∀ f ts r, pOrs n f ts = some r → pOrs (n + 1) f ts = some r) ∧
  (∀ ts r, pAnd n ts = some r → pAnd (n + 1) ts = some r) ∧
  (∀ f ts r, pAnds n f ts = some r → pAnds (n + 1) f ts = some r) ∧
  (∀ ts r, pUnit n ts = some r → pUnit (n + 1) ts = some r) ∧
  (∀ c ts r, pArgs n c ts = some r → pArgs (n + 1) c ts = some r) ∧
  (∀ c ts r, pMore n c ts = some r → pMore (n + 1) c ts = some r)

theorem mono (n : Nat) : Mono n := by
  induction n with
  | zero =>
    refine ⟨?_, ?_, ?_, ?_, ?_, ?_, ?_⟩ <;> intros <;> simp_all [pOr, pOrs, pAnd, pAnds, pUnit, pArgs, pMore]
  | succ n ih =>
    obtain ⟨h1, h2, h3, h4, h5, h6, h7⟩ := ih
    refine ⟨?_, ?_, ?_, ?_, ?_, ?_, ?_⟩
    · intro ts r h
      rw [pOr] at h ⊢
      exact bind_mono (fun a => h3 _ a) (fun a r => h2 _ _ r) h
    · intro f ts r h
      rw [pOrs] at h ⊢
      split
      · rename_i hc; rw [if_pos hc] at h
        exact bind_mono (fun a => h3 _ a) (fun a r => h2 _ _ r) h
      · rename_i hc; rw [if_neg hc] at h; exact h
    · intro ts r h
      rw [pAnd] at h ⊢
      exact bind_mono (fun a => h5 _ a) (fun a r => h4 _ _ r) h
    · intro f ts r h
      rw [pAnds] at h ⊢
      split
      · rename_i hc; rw [if_pos hc] at h
        exact bind_mono (fun a => h5 _ a) (fun a r => h4 _ _ r) h
      · rename_i hc; rw [if_neg hc] at h; exact h
    · intro ts r h
      cases ts with
      | nil => simp [pUnit] at h
      | cons t ts =>
        cases t with
        | sym c =>
          rw [pUnit] at h ⊢
          by_cases e1 : c = '!' ∨ c = '≠'
          · rw [if_pos e1] at h ⊢; exact map_mono (fun a => h5 _ a) h
          rw [if_neg e1] at h ⊢
          by_cases e4 : c = '~'
          · rw [if_pos e4] at h ⊢; exact map_mono (fun a => h5 _ a) h
          rw [if_neg e4] at h ⊢
          by_cases e5 : c = '*'
          · rw [if_pos e5] at h ⊢; exact map_mono (fun a => h5 _ a) h
          rw [if_neg e5] at h ⊢
          by_cases e2 : c = '('
          · rw [if_pos e2] at h ⊢
            refine bind_mono (fun a => h1 _ a) (fun a r => ?_) h
            split
            · exact fun h => bind_mono (fun a => h1 _ a) (fun _ _ => id) h
            · exact id
          rw [if_neg e2] at h ⊢
          by_cases e3 : c = '['
          · rw [if_pos e3] at h ⊢; exact map_mono (fun a => h6 _ _ a) h
          rw [if_neg e3] at h ⊢; exact h
        | str w => rw [pUnit] at h ⊢; exact h
        | word w =>
          rw [pUnit, numberOr] at h ⊢
          split
          · rename_i hc; rw [hc] at h; exact h
          · rename_i hc; rw [hc] at h
            dsimp only at h ⊢
            by_cases e1 : w = "Any".toList
            · rw [if_pos e1] at h ⊢; exact h
            rw [if_neg e1] at h ⊢
            by_cases e2 : w = "true".toList
            · rw [if_pos e2] at h ⊢; exact h
            rw [if_neg e2] at h ⊢
            by_cases e3 : w = "false".toList
            · rw [if_pos e3] at h ⊢; exact h
            rw [if_neg e3] at h ⊢
            split
            · rename_i e4; rw [if_pos e4] at h; exact map_mono (fun a => h6 _ _ a) h
            · rename_i e4; rw [if_neg e4] at h; exact h
    · intro c ts r h
      rw [pArgs] at h ⊢
      split
      · rename_i hc; rw [if_pos hc] at h; exact h
      · rename_i hc; rw [if_neg hc] at h
        exact bind_mono (fun a => h1 _ a) (fun a r => map_mono (fun a => h7 _ _ a)) h
    · intro c ts r h
      rw [pMore] at h ⊢
      split
      · rename_i hc; rw [if_pos hc] at h; exact h
      · rename_i hc; rw [if_neg hc] at h
        split
        · rename_i hd; rw [if_pos hd] at h
          exact bind_mono (fun a => h1 _ a) (fun a r => map_mono (fun a => h7 _ _ a)) h
        · rename_i hd; rw [if_neg hd] at h; exact h

theorem up {α : Type} {p : Nat → Option α} (h : ∀ n r, p n = some r → p (n + 1) = some r) {n m : Nat} (hm : n ≤ m)
    {r : α} (e : p n = some r) : p m = some r := by
  induction hm with
  | refl => exact e
  | step _ ih => exact h _ _ ih

theorem pOr_up {n m : Nat} (h : n ≤ m) {ts : List Tok} {r} (e : pOr n ts = some r) : pOr m ts = some r :=
  up (p := fun n => pOr n ts) (fun n r => (mono n).1 ts r) h e
theorem pOrs_up {n m : Nat} (h : n ≤ m) {f} {ts : List Tok} {r} (e : pOrs n f ts = some r) : pOrs m f ts = some r :=
  up (p := fun n => pOrs n f ts) (fun n r => (mono n).2.1 f ts r) h e
theorem pAnd_up {n m : Nat} (h : n ≤ m) {ts : List Tok} {r} (e : pAnd n ts = some r) : pAnd m ts = some r :=
  up (p := fun n => pAnd n ts) (fun n r => (mono n).2.2.1 ts r) h e
theorem pAnds_up {n m : Nat} (h : n ≤ m) {f} {ts : List Tok} {r} (e : pAnds n f ts = some r) : pAnds m f ts = some r :=
  up (p := fun n => pAnds n f ts) (fun n r => (mono n).2.2.2.1 f ts r) h e
theorem pUnit_up {n m : Nat} (h : n ≤ m) {ts : List Tok} {r} (e : pUnit n ts = some r) : pUnit m ts = some r :=
  up (p := fun n => pUnit n ts) (fun n r => (mono n).2.2.2.2.1 ts r) h e
theorem pArgs_up {n m : Nat} (h : n ≤ m) {c} {ts : List Tok} {r} (e : pArgs n c ts = some r) : pArgs m c ts = some r :=
  up (p := fun n => pArgs n c ts) (fun n r => (mono n).2.2.2.2.2.1 c ts r) h e
theorem pMore_up {n m : Nat} (h : n ≤ m) {c} {ts : List Tok} {r} (e : pMore n c ts = some r) : pMore m c ts = some r :=
  up (p := fun n => pMore n c ts) (fun n r => (mono n).2.2.2.2.2.2 c ts r) h e

/-- A text reads in one way only. -/
theorem reads_unique {t : List Char} {f g : Form} (hf : Reads t f) (hg : Reads t g) : f = g := by
  obtain ⟨n, hn⟩ := hf
  obtain ⟨m, hm⟩ := hg
  have a := pOr_up (Nat.le_max_left n m) hn
  have b := pOr_up (Nat.le_max_right n m) hm
  rw [a] at b
  simpa using b

/-! ### Levels of texts -/

/-- Behind it no `and` follows. -/
def Stops (rest : List Tok) : Prop := rest.head? ≠ some (.word "and".toList)

/-- The words read as a part that `!` may stand before. -/
def IsUnit (ts : List Tok) (f : Form) : Prop := ∀ rest, ∃ n, pUnit n (ts ++ rest) = some (f, rest)
/-- The words read as parts joined by `and`. -/
def IsAnd (ts : List Tok) (f : Form) : Prop :=
  ∀ rest r, (∃ n, pAnds n f rest = some r) → ∃ n, pAnd n (ts ++ rest) = some r
/-- The words read as parts joined by `or`. -/
def IsOr (ts : List Tok) (f : Form) : Prop :=
  ∀ rest r, Stops rest → (∃ n, pOrs n f rest = some r) → ∃ n, pOr n (ts ++ rest) = some r
/-- The words read as the arguments of a call. -/
def IsArgs (ts : List Tok) (fs : Forms) : Prop := ∀ c rest, c = ')' ∨ c = ']' → ∃ n, pArgs n c (ts ++ .sym c :: rest) = some (fs, rest)
/-- The words read as further arguments of a call. -/
def IsMore (ts : List Tok) (fs : Forms) : Prop := ∀ c rest, c = ')' ∨ c = ']' → ∃ n, pMore n c (ts ++ .sym c :: rest) = some (fs, rest)

theorem IsUnit.and {ts f} (h : IsUnit ts f) : IsAnd ts f := by
  intro rest r ⟨n, hn⟩
  obtain ⟨m, hm⟩ := h rest
  refine ⟨max n m + 1, ?_⟩
  rw [pAnd, pUnit_up (Nat.le_max_right n m) hm]
  exact pAnds_up (Nat.le_max_left n m) hn

theorem IsAnd.or {ts f} (h : IsAnd ts f) : IsOr ts f := by
  intro rest r hs ⟨n, hn⟩
  obtain ⟨m, hm⟩ := h rest (f, rest) ⟨1, by rw [pAnds, if_neg hs]⟩
  refine ⟨max n m + 1, ?_⟩
  rw [pOr, pAnd_up (Nat.le_max_right n m) hm]
  exact pOrs_up (Nat.le_max_left n m) hn

/-- `ts` and then something that is neither `and` nor `or`. -/
theorem IsOr.ends {ts f} (h : IsOr ts f) (c : Char) (rest : List Tok) : ∃ n, pOr n (ts ++ .sym c :: rest) = some (f, .sym c :: rest) :=
  h _ _ (by simp [Stops]) ⟨1, by simp [pOrs]⟩

theorem IsOr.whole {ts f} (h : IsOr ts f) : ∃ n, pOr n ts = some (f, []) := by
  have := h [] (f, []) (by simp [Stops]) ⟨1, by simp [pOrs]⟩
  simpa using this

theorem unit_paren {ts f} (h : IsOr ts f) : IsUnit (.sym '(' :: ts ++ [.sym ')']) f := by
  intro rest
  obtain ⟨n, hn⟩ := h.ends ')' rest
  refine ⟨n + 1, ?_⟩
  simp only [List.cons_append, List.append_assoc, List.nil_append]
  rw [pUnit, if_neg (by decide), if_neg (by decide), if_neg (by decide), if_pos rfl, hn]
  simp [closed, upto]

theorem unit_neg {c ts f} (hc : c = '!' ∨ c = '≠') (h : IsUnit ts f) : IsUnit (.sym c :: ts) (.neg f) := by
  intro rest
  obtain ⟨n, hn⟩ := h rest
  refine ⟨n + 1, ?_⟩
  rw [List.cons_append, pUnit, if_pos hc, hn]
  rfl

theorem unit_caseless {ts f} (h : IsUnit ts f) : IsUnit (.sym '~' :: ts) (.caseless f) := by
  intro rest
  obtain ⟨n, hn⟩ := h rest
  refine ⟨n + 1, ?_⟩
  rw [List.cons_append, pUnit, if_neg (by decide), if_pos rfl, hn]
  rfl

theorem unit_spaceless {ts f} (h : IsUnit ts f) : IsUnit (.sym '*' :: ts) (.spaceless f) := by
  intro rest
  obtain ⟨n, hn⟩ := h rest
  refine ⟨n + 1, ?_⟩
  rw [List.cons_append, pUnit, if_neg (by decide), if_neg (by decide), if_pos rfl, hn]
  rfl

theorem unit_text (s : List Char) : IsUnit [.str s] (.text s) := by
  intro rest
  exact ⟨1, by simp [pUnit]⟩

theorem unit_pair {ts us f g} (hf : IsOr ts f) (hg : IsOr us g) :
    IsUnit (.sym '(' :: (ts ++ .sym ',' :: (us ++ [.sym ')']))) (.pair f g) := by
  intro rest
  obtain ⟨m, hm⟩ := hg.ends ')' rest
  obtain ⟨n, hn⟩ := hf.ends ',' (us ++ .sym ')' :: rest)
  refine ⟨max n m + 1, ?_⟩
  simp only [List.cons_append, List.append_assoc, List.nil_append]
  rw [pUnit, if_neg (by decide), if_neg (by decide), if_neg (by decide), if_pos rfl, pOr_up (Nat.le_max_left n m) hn]
  simp only [Option.bind_some, closed, List.head?_cons, beq_self_eq_true, if_true, List.tail_cons]
  rw [pOr_up (Nat.le_max_right n m) hm]
  simp [upto]

theorem and_and {ts us f g} (hf : IsAnd ts f) (hg : IsUnit us g) : IsAnd (ts ++ .word "and".toList :: us) (.and f g) := by
  intro rest r ⟨n, hn⟩
  obtain ⟨m, hm⟩ := hg rest
  have := hf (.word "and".toList :: (us ++ rest)) r ⟨max n m + 1, by
    rw [pAnds, List.head?_cons, if_pos rfl, List.tail_cons, pUnit_up (Nat.le_max_right n m) hm]
    exact pAnds_up (Nat.le_max_left n m) hn⟩
  simpa using this

theorem or_or {ts us f g} (hf : IsOr ts f) (hg : IsAnd us g) : IsOr (ts ++ .word "or".toList :: us) (.or f g) := by
  intro rest r hs ⟨n, hn⟩
  obtain ⟨m, hm⟩ := hg rest (g, rest) ⟨1, by rw [pAnds, if_neg hs]⟩
  have := hf (.word "or".toList :: (us ++ rest)) r (by simp [Stops]) ⟨max n m + 1, by
    rw [pOrs, List.head?_cons, if_pos rfl, List.tail_cons, pAnd_up (Nat.le_max_right n m) hm]
    exact pOrs_up (Nat.le_max_left n m) hn⟩
  simpa using this

theorem more_nil : IsMore [] .nil := by
  intro c rest _
  exact ⟨1, by simp [pMore, closed]⟩

theorem more_cons {ts us f fs} (h : IsOr ts f) (hs : IsMore us fs) (hus : us = [] ∨ ∃ vs, us = .sym ',' :: vs) :
    IsMore (.sym ',' :: (ts ++ us)) (.cons f fs) := by
  intro c rest hc
  obtain ⟨m, hm⟩ := hs c rest hc
  obtain ⟨n, hn⟩ : ∃ n, pOr n (ts ++ (us ++ .sym c :: rest)) = some (f, us ++ .sym c :: rest) := by
    rcases hus with rfl | ⟨vs, rfl⟩
    · exact h.ends c rest
    · exact h.ends ',' _
  refine ⟨max n m + 1, ?_⟩
  have hne : closed c (.sym ',' :: (ts ++ us) ++ .sym c :: rest) = false := by
    rcases hc with rfl | rfl <;> rfl
  have he : closed ',' (.sym ',' :: (ts ++ us) ++ .sym c :: rest) = true := rfl
  rw [pMore, hne, if_neg (by decide), he, if_pos rfl]
  simp only [List.cons_append, List.tail_cons, List.append_assoc]
  rw [pOr_up (Nat.le_max_left n m) hn]
  simp only [Option.bind_some]
  rw [pMore_up (Nat.le_max_right n m) hm]
  rfl

theorem args_nil : IsArgs [] .nil := by
  intro c rest _
  exact ⟨1, by simp [pArgs, closed]⟩

theorem unit_closed {n c ts} (h : c = ')' ∨ c = ']') : pUnit n (.sym c :: ts) = none := by
  cases n with
  | zero => rfl
  | succ n => rcases h with rfl | rfl <;> simp [pUnit, signed, relOf] <;> split <;> rfl

theorem or_closed {n c ts} (h : c = ')' ∨ c = ']') : pOr n (.sym c :: ts) = none := by
  cases n with
  | zero => rfl
  | succ n =>
    rw [pOr]
    cases n with
    | zero => rfl
    | succ n => rw [pAnd, unit_closed h]; rfl

theorem args_cons {ts us f fs} (h : IsOr ts f) (hs : IsMore us fs) (hus : us = [] ∨ ∃ vs, us = .sym ',' :: vs) :
    IsArgs (ts ++ us) (.cons f fs) := by
  intro c rest hc
  obtain ⟨m, hm⟩ := hs c rest hc
  obtain ⟨n, hn⟩ : ∃ n, pOr n (ts ++ (us ++ .sym c :: rest)) = some (f, us ++ .sym c :: rest) := by
    rcases hus with rfl | ⟨vs, rfl⟩
    · exact h.ends c rest
    · exact h.ends ',' _
  refine ⟨max n m + 1, ?_⟩
  have hne : closed c (ts ++ (us ++ .sym c :: rest)) = false := by
    rw [Bool.eq_false_iff]
    intro hcl
    have : ∃ vs, ts ++ (us ++ .sym c :: rest) = .sym c :: vs := by
      cases hx : ts ++ (us ++ .sym c :: rest) with
      | nil => simp [hx, closed] at hcl
      | cons t vs => simp [hx, closed] at hcl; exact ⟨vs, by rw [hcl]⟩
    obtain ⟨vs, hv⟩ := this
    rw [hv, or_closed hc] at hn
    cases hn
  rw [pArgs, List.append_assoc, hne, if_neg (by decide), pOr_up (Nat.le_max_left n m) hn]
  simp only [Option.bind_some]
  rw [pMore_up (Nat.le_max_right n m) hm]
  rfl

theorem unit_list {ts fs} (h : IsArgs ts fs) : IsUnit (.sym '[' :: ts ++ [.sym ']']) (.list fs) := by
  intro rest
  obtain ⟨n, hn⟩ := h ']' rest (.inr rfl)
  refine ⟨n + 1, ?_⟩
  simp only [List.cons_append, List.append_assoc, List.nil_append]
  rw [pUnit, if_neg (by decide), if_neg (by decide), if_neg (by decide), if_neg (by decide), if_pos rfl, hn]
  rfl

theorem unit_call {w ts fs} (h : IsArgs ts fs) (hw : intOf w = none)
    (hn : w ≠ "Any".toList ∧ w ≠ "true".toList ∧ w ≠ "false".toList) :
    IsUnit (.word w :: .sym '(' :: ts ++ [.sym ')']) (.call w fs) := by
  intro rest
  obtain ⟨n, hn'⟩ := h ')' rest (.inl rfl)
  refine ⟨n + 1, ?_⟩
  simp only [List.cons_append, List.append_assoc, List.nil_append]
  rw [pUnit, numberOr, hw]
  dsimp only
  rw [if_neg hn.1, if_neg hn.2.1, if_neg hn.2.2, show closed '(' (.sym '(' :: (ts ++ .sym ')' :: rest)) = true from rfl,
    if_pos rfl, List.tail_cons, hn']
  rfl

theorem unit_number {w z} (h : intOf w = some z) : IsUnit [.word w] (.rel .eq z) := by
  intro rest
  exact ⟨1, by simp [pUnit, numberOr, h]⟩

theorem unit_rel {c w r z} (hc : relOf c = some r) (h : intOf w = some z) (hb : c ≠ '!' ∧ c ≠ '≠' ∧ c ≠ '~' ∧ c ≠ '*' ∧ c ≠ '(' ∧ c ≠ '[') :
    IsUnit [.sym c, .word w] (.rel r z) := by
  intro rest
  exact ⟨1, by simp [pUnit, signed, h, hc, hb]⟩

theorem unit_any : IsUnit [.word "Any".toList] .any := by
  intro rest
  exact ⟨1, by simp [pUnit, numberOr, intOf, natOf]⟩

theorem unit_flag (b : Bool) : IsUnit [.word (if b then "true".toList else "false".toList)] (.flag b) := by
  intro rest
  cases b <;> exact ⟨1, by simp [pUnit, numberOr, intOf, natOf]⟩

/-! ### Words and signs of a text -/

/-- The quotation marks of a text. -/
def quotes (s : List Char) : Nat := s.count '"'

/-- Every quotation mark is closed. -/
def Even (s : List Char) : Prop := quotes s % 2 = 0

instance (s : List Char) : Decidable (Even s) := inferInstanceAs (Decidable (_ = _))

theorem even_nil : Even [] := rfl

theorem even_append {s t : List Char} (hs : Even s) (ht : Even t) : Even (s ++ t) := by
  simp only [Even, quotes, List.count_append] at *; omega

theorem even_free {s : List Char} (h : ∀ c ∈ s, c ≠ '"') : Even s := by
  have : quotes s = 0 := List.count_eq_zero.2 fun hc => h _ hc rfl
  rw [Even, this]

theorem lexGo_split (s t : List Char) (c : Char) (hc : letter c = false) (hq : c ≠ '"') :
    ∀ q w, (quotes s + (if q then 1 else 0)) % 2 = 0 →
      lexGo q w (s ++ c :: t) = lexGo q w s ++ (if c = ' ' then [] else [.sym c]) ++ lexGo false [] t := by
  induction s with
  | nil =>
    intro q w h
    cases q
    · simp [lexGo, hc, hq]
    · simp [quotes] at h
  | cons d s ih =>
    intro q w h
    cases q
    · simp only [List.cons_append, lexGo]
      split
      · rename_i hd
        have : d ≠ '"' := by rintro rfl; revert hd; decide
        exact ih false _ (by simpa [quotes, List.count_cons, this] using h)
      · split
        · rename_i hd
          rw [ih true _ (by subst hd; simp [quotes] at h ⊢; omega)]; simp
        · rename_i hd
          rw [ih false _ (by simpa [quotes, List.count_cons, hd] using h)]; simp
    · simp only [List.cons_append, lexGo]
      split
      · rename_i hd
        rw [ih false _ (by subst hd; simp [quotes] at h ⊢; omega)]; simp
      · rename_i hd
        exact ih true _ (by simpa [quotes, List.count_cons, hd] using h)

theorem lex_sym (s t : List Char) {c : Char} (hs : Even s) (hc : letter c = false) (hb : c ≠ ' ') (hq : c ≠ '"') :
    lex (s ++ c :: t) = lex s ++ .sym c :: lex t := by
  rw [lex, lexGo_split s t c hc hq _ _ (by simpa [Even] using hs), if_neg hb]; simp [lex]

theorem lex_blank (s t : List Char) (hs : Even s) : lex (s ++ ' ' :: t) = lex s ++ lex t := by
  rw [lex, lexGo_split s t ' ' (by decide) (by decide) _ _ (by simpa [Even] using hs)]; simp [lex]

theorem lex_cons (t : List Char) {c : Char} (hc : letter c = false) (hb : c ≠ ' ') (hq : c ≠ '"') : lex (c :: t) = .sym c :: lex t :=
  lex_sym [] t even_nil hc hb hq

theorem lexGo_word (s : List Char) (h : ∀ c ∈ s, letter c = true) : ∀ w, lexGo false w s = flush (w ++ s) := by
  induction s with
  | nil => intro w; simp [lexGo]
  | cons d s ih =>
    intro w
    rw [lexGo, if_pos (h d (by simp)), ih (fun c hc => h c (by simp [hc]))]
    simp

theorem lex_word {s : List Char} (h : ∀ c ∈ s, letter c = true) (hs : s ≠ []) : lex s = [.word s] := by
  rw [lex, lexGo_word s h]; simp [flush, hs]

theorem lexGo_str (s t : List Char) (h : ∀ c ∈ s, c ≠ '"') : ∀ w, lexGo true w (s ++ '"' :: t) = .str (w ++ s) :: lex t := by
  induction s with
  | nil => intro w; simp [lexGo, lex]
  | cons d s ih =>
    intro w
    rw [List.cons_append, lexGo, if_neg (h d (by simp)), ih (fun c hc => h c (by simp [hc]))]
    simp

theorem lex_str {s : List Char} (h : ∀ c ∈ s, c ≠ '"') : lex ('"' :: (s ++ ['"'])) = [.str s] := by
  rw [lex, lexGo, if_neg (by decide), if_pos rfl, lexGo_str s [] h]
  simp [flush, lex, lexGo]

theorem letter_not_quote {c : Char} (h : letter c = true) : c ≠ '"' := by
  rintro rfl; revert h; decide

theorem lex_nil : lex [] = [] := rfl

/-! ### Numbers -/

theorem digit_fold (ds : List Char) (h : ∀ c ∈ ds, c.isDigit = true) :
    ∀ v : Nat, ds.foldl (fun v c => v * 10 + (c.toNat - '0'.toNat)) v = Addr.digits ds v := by
  induction ds with
  | nil => intro v; rfl
  | cons d ds ih =>
    intro v
    rw [List.foldl_cons, ih (fun c hc => h c (by simp [hc])), Addr.digits, if_pos (h d (by simp)), Nat.mul_comm]
    rfl

theorem natOf_decimal (n : Nat) : natOf (Addr.decimal n) = some (n : Int) := by
  have hd : ∀ c ∈ Addr.decimal n, c.isDigit = true := fun c hc => Addr.decimal_digit hc
  rw [natOf, if_pos ⟨Addr.decimal_ne n, by simpa [List.all_eq_true] using hd⟩, digit_fold _ hd, Addr.digits_decimal]

theorem decimal_int (z : Int) :
    Message.decimal z = if z < 0 then '-' :: Addr.decimal z.natAbs else Addr.decimal z.natAbs := by
  cases z with
  | ofNat n =>
    rw [if_neg (by simp)]
    show (toString (Int.ofNat n)).toList = _
    rw [show (Int.ofNat n).natAbs = n from rfl, ← Addr.decimal_text]
    rfl
  | negSucc n =>
    rw [if_pos (by omega)]
    show (toString (Int.negSucc n)).toList = _
    rw [show (Int.negSucc n).natAbs = n + 1 from rfl, ← Addr.decimal_text]
    show ("-" ++ toString (n + 1)).toList = _
    simp

theorem intOf_digits {ds : List Char} (hne : ds ≠ []) (hd : ∀ c ∈ ds, c.isDigit = true) : intOf ds = natOf ds := by
  cases ds with
  | nil => exact absurd rfl hne
  | cons d ds =>
    have : d ≠ '-' := by
      intro h; subst h
      exact absurd (hd '-' (by simp)) (by decide)
    simp [intOf, this]

theorem intOf_decimal (z : Int) : intOf (Message.decimal z) = some z := by
  rw [decimal_int]
  split
  · rename_i h
    show (natOf (Addr.decimal z.natAbs)).map (- ·) = _
    rw [natOf_decimal]; simp; omega
  · rename_i h
    rw [intOf_digits (Addr.decimal_ne _) (fun c hc => Addr.decimal_digit hc), natOf_decimal]; simp; omega

theorem digit_letter {c : Char} (h : c.isDigit = true) : letter c = true := by
  simp [letter, Char.isAlphanum, h]

theorem lex_decimal (z : Int) : lex (Message.decimal z) = [.word (Message.decimal z)] := by
  refine lex_word ?_ ?_ <;> rw [decimal_int]
  · split
    · intro c hc
      simp only [List.mem_cons] at hc
      rcases hc with rfl | hc
      · decide
      · exact digit_letter (Addr.decimal_digit hc)
    · intro c hc; exact digit_letter (Addr.decimal_digit hc)
  · split
    · simp
    · exact Addr.decimal_ne _

/-! ### Names -/

theorem name_letters {w : List Char} (h : Name w) : (∀ c ∈ w, letter c = true) ∧ w ≠ [] := by
  obtain ⟨⟨c, cs, rfl, h1, h2⟩, _⟩ := h
  refine ⟨?_, by simp⟩
  intro d hd
  simp only [List.mem_cons] at hd
  rcases hd with rfl | hd
  · rcases h1 with h1 | h1 <;> simp [letter, Char.isAlphanum, h1]
  · rcases h2 d hd with h2 | h2 <;> simp [letter, h2]

theorem alpha_not_digit {c : Char} (h : c.isAlpha = true) : c.isDigit = false ∧ c ≠ '-' := by
  constructor
  · rw [Bool.eq_false_iff]
    intro hd
    simp only [Char.isAlpha, Char.isUpper, Char.isLower, Char.isDigit, Bool.or_eq_true, Bool.and_eq_true, decide_eq_true_eq] at h hd
    have := hd.2
    rcases h with h | h
    · exact absurd (UInt32.le_trans h.1 this) (by decide)
    · exact absurd (UInt32.le_trans h.1 this) (by decide)
  · rintro rfl; exact absurd h (by decide)

theorem name_not_number {w : List Char} (h : Name w) : intOf w = none := by
  obtain ⟨⟨c, cs, rfl, h1, _⟩, _⟩ := h
  have : c.isDigit = false ∧ c ≠ '-' := by
    rcases h1 with h1 | rfl
    · exact alpha_not_digit h1
    · decide
  simp [intOf, this.2, natOf, this.1]

theorem name_ne {w : List Char} (h : Name w) (s : String)
    (hs : s ∈ ["and", "or", "true", "false", "Any", "AllOf", "AnyOf", "NoneOf", "Every", "Has", "CountOf", "HasKey", "HasValue", "Substr", "StartsWith",
      "EndsWith", "We", "Re"]) : w ≠ s.toList := by
  rintro rfl
  exact h.2 (List.mem_map_of_mem hs)

/-! ### Lines -/

/-- The words and signs of a line. -/
def toks (l : Line) : List Tok := lex (Message.string l)

theorem str_append (a b : Line) : Message.string (a ++ b) = Message.string a ++ Message.string b := by
  simp [Message.string]

theorem str_word (w : Word) (hc : Layout.isctrl w = false) : Message.string [w] = w := by
  simp [Message.string, hc]

theorem ctrl_letters {w : Word} (h : ∀ c ∈ w, letter c = true) : Layout.isctrl w = false := by
  cases w with
  | nil => rfl
  | cons c w =>
    have hc := h c (by simp)
    have : c ≠ '\x1b' := by rintro rfl; revert hc; decide
    simp [Layout.isctrl, this]

theorem decimal_letters (z : Int) : ∀ c ∈ Message.decimal z, letter c = true := by
  rw [decimal_int]
  split
  · intro c hc
    simp only [List.mem_cons] at hc
    rcases hc with rfl | hc
    · decide
    · exact digit_letter (Addr.decimal_digit hc)
  · intro c hc; exact digit_letter (Addr.decimal_digit hc)

theorem str_number (z : Int) : Message.string (number z) = Message.decimal z :=
  str_word _ (ctrl_letters (decimal_letters z))

theorem toks_number (z : Int) : toks (number z) = [.word (Message.decimal z)] := by
  rw [toks, str_number, lex_decimal]

/-- Every quotation mark of the line is closed. -/
def Bal (l : Line) : Prop := Even (Message.string l)

instance (l : Line) : Decidable (Bal l) := inferInstanceAs (Decidable (Even _))

theorem bal_nil : Bal [] := rfl

theorem bal_append {a b : Line} (ha : Bal a) (hb : Bal b) : Bal (a ++ b) := by
  rw [Bal, str_append]; exact even_append ha hb

theorem bal_word {w : Word} (h : ∀ c ∈ w, letter c = true) : Bal [w] := by
  rw [Bal, str_word _ (ctrl_letters h)]
  exact even_free fun c hc => letter_not_quote (h c hc)

theorem bal_number (z : Int) : Bal (number z) := bal_word (decimal_letters z)

theorem bal_paren {l : Line} (h : Bal l) : Bal (paren l) :=
  bal_append (bal_append (show Bal (gray ['(']) by decide) h) (show Bal (gray [')']) by decide)

theorem toks_paren (l : Line) (h : Bal l) : toks (paren l) = .sym '(' :: toks l ++ [.sym ')'] := by
  have h1 : Message.string (gray ['(']) = ['('] := rfl
  have h2 : Message.string (gray [')']) = [')'] := rfl
  rw [toks, paren, str_append, str_append, h1, h2,
    lex_sym _ _ (even_append (by decide) h) (by decide) (by decide) (by decide), List.singleton_append,
    lex_cons _ (by decide) (by decide) (by decide)]
  rfl

theorem toks_infix (l r : Line) (w : List Char) (hl : Bal l) (hw : ∀ c ∈ w, letter c = true) (hne : w ≠ []) :
    toks (l ++ [' ' :: w ++ [' ']] ++ r) = toks l ++ .word w :: toks r := by
  rw [toks, str_append, str_append, str_word _ (by simp [Layout.isctrl])]
  simp only [List.append_assoc, List.cons_append, List.nil_append]
  rw [lex_blank _ _ hl, lex_blank _ _ (even_free fun c hc => letter_not_quote (hw c hc)), lex_word hw hne]
  rfl

theorem toks_call (w : Word) (l : Line) (hl : Bal l) (hw : ∀ c ∈ w, letter c = true) (hne : w ≠ []) :
    toks ([w] ++ paren l) = .word w :: .sym '(' :: toks l ++ [.sym ')'] := by
  have h1 : Message.string (gray ['(']) = ['('] := rfl
  have h2 : Message.string (gray [')']) = [')'] := rfl
  have hq : Even w := even_free fun c hc => letter_not_quote (hw c hc)
  rw [toks, paren, str_append, str_append, str_append, h1, h2, str_word _ (ctrl_letters hw)]
  rw [List.singleton_append, List.cons_append, lex_sym _ _ hq (by decide) (by decide) (by decide),
    lex_sym _ _ hl (by decide) (by decide) (by decide), lex_word hw hne]
  rfl

theorem toks_list (l : Line) (h : Bal l) : toks (gray ['['] ++ l ++ gray [']']) = .sym '[' :: toks l ++ [.sym ']'] := by
  have h1 : Message.string (gray ['[']) = ['['] := rfl
  have h2 : Message.string (gray [']']) = [']'] := rfl
  rw [toks, str_append, str_append, h1, h2, lex_sym _ _ (even_append (by decide) h) (by decide) (by decide) (by decide),
    List.singleton_append, lex_cons _ (by decide) (by decide) (by decide)]
  rfl

theorem toks_comma (l r : Line) (h : Bal l) : toks (l ++ (gray ", ".toList ++ r)) = toks l ++ .sym ',' :: toks r := by
  have h1 : Message.string (gray ", ".toList) = ", ".toList := rfl
  rw [toks, str_append, str_append, h1]
  show lex (Message.string l ++ ',' :: ([] ++ ' ' :: Message.string r)) = _
  rw [lex_sym _ _ h (by decide) (by decide) (by decide), lex_blank _ _ even_nil]
  rfl

theorem bal_comma : Bal (gray ", ".toList) := by decide

theorem toks_pair (l r : Line) (hl : Bal l) (hr : Bal r) :
    toks (gray ['('] ++ l ++ gray ", ".toList ++ r ++ gray [')']) = .sym '(' :: (toks l ++ .sym ',' :: (toks r ++ [.sym ')'])) := by
  have : gray ['('] ++ l ++ gray ", ".toList ++ r ++ gray [')'] = paren (l ++ (gray ", ".toList ++ r)) := by simp [paren]
  rw [this, toks_paren _ (bal_append hl (bal_append bal_comma hr)), toks_comma _ _ hl]; simp

theorem toks_sign (c : Char) (l : Line) (hc : letter c = false) (hb : c ≠ ' ') (hq : c ≠ '"') :
    toks ([[c]] ++ l) = .sym c :: toks l := by
  rw [toks, str_append, str_word _ (by simp [Layout.isctrl])]
  exact lex_cons _ hc hb hq

/-! ### Texts in quotation marks -/

theorem plain_take {s : List Char} (h : Plain s) : s.takeWhile (· ≠ '\x00') = s := by
  induction s with
  | nil => rfl
  | cons c s ih =>
    have := (h c (by simp)).2.1
    rw [List.takeWhile_cons, if_pos (by simpa using this), ih fun d hd => h d (by simp [hd])]

theorem str_quoted {s : List Char} (h : Plain s) : Message.string (quoted s) = '"' :: (s ++ ['"']) := by
  have h1 : Message.string (gray ['"']) = ['"'] := rfl
  have h2 : Layout.isctrl s = false := by
    cases s with
    | nil => rfl
    | cons c s => simp [Layout.isctrl, (h c (by simp)).2.2]
  rw [quoted, str_append, str_append, h1, plain_take h, str_word _ h2]
  simp

theorem toks_quoted {s : List Char} (h : Plain s) : toks (quoted s) = [.str s] := by
  rw [toks, str_quoted h, lex_str fun c hc => (h c hc).1]

theorem bal_quoted {s : List Char} (h : Plain s) : Bal (quoted s) := by
  have h0 : quotes s = 0 := List.count_eq_zero.2 fun hc => (h _ hc).1 rfl
  rw [Bal, str_quoted h, Even]
  simp only [quotes, List.count_cons, List.count_append] at *
  simp [h0]

end H2.Expect.Spec
