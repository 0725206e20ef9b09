import Verif.TypeName.Spec
namespace H2.TypeName

theorem demangled_written (t : Ty) : Written t (demangled t) := by
  induction t with
  | name w => exact .name w
  | ptr c v t ih =>
    cases c <;> cases v
    · have := Written.ptr ih; simpa [demangled, qualifiers] using this
    · have := Written.ptrVolatile ih; simpa [demangled, qualifiers] using this
    · have := Written.ptrConst ih; simpa [demangled, qualifiers] using this
    · have := Written.ptrBoth ih; simpa [demangled, qualifiers] using this

theorem written_unique {t : Ty} {s s' : Text} (h : Written t s) (h' : Written t s') : s = s' := by
  induction h generalizing s' with
  | name w => cases h'; rfl
  | ptr _ ih => cases h' with | ptr h' => rw [ih h']
  | ptrConst _ ih => cases h' with | ptrConst h' => rw [ih h']
  | ptrVolatile _ ih => cases h' with | ptrVolatile h' => rw [ih h']
  | ptrBoth _ ih => cases h' with | ptrBoth h' => rw [ih h']

/-- The text of a type without regard to the room. -/
def full (t : Typ) : Text := (if t.const then "const ".toList else []) ++ demangled t.base ++ amp t.ref

theorem typeName_full (size : Nat) (t : Typ) (hs : size ≤ 1024) :
    typeName size t = if (full t).length < size then some (full t) else none := by
  unfold typeName demangle full
  simp only []
  by_cases h : (demangled t.base).length < 1024
  · rw [if_pos h]
    simp only [strcat, List.nil_append]
    by_cases h1 : (if t.const = true then "const ".toList else []).length < size
    · simp only [if_pos h1]
      by_cases h2 : ((if t.const = true then "const ".toList else []) ++ demangled t.base).length < size
      · simp only [if_pos h2]
      · simp only [if_neg h2]
        rw [if_neg]
        rw [List.length_append]; omega
    · simp only [if_neg h1]
      rw [if_neg]
      rw [List.length_append, List.length_append]; omega
  · rw [if_neg h]
    refine (if_neg ?_).symm
    intro hlt
    simp only [List.length_append] at hlt
    omega

/-- **C101.** A type is shown as it is written: `const` in front, the name with its pointers and their qualifiers, and `&` or `&&` behind, if
that has less than 512 characters. -/
theorem C101_text_partial (t : Typ) {s : Text} (h : Written t.base s)
    (hlen : ((if t.const then "const ".toList else []) ++ s ++ amp t.ref).length < 512) :
    typeName 512 t = some ((if t.const then "const ".toList else []) ++ s ++ amp t.ref) := by
  rw [written_unique h (demangled_written _)] at hlen ⊢
  rw [typeName_full 512 t (by omega)]
  exact if_pos hlen

/-- `const char* const&` is shown as `const char const*&`. -/
example : typeName 512 ⟨true, false, .ptr true false (.name "char".toList), .lvalue⟩ = some "const char const*&".toList :=
  C101_text_partial ⟨true, false, .ptr true false (.name "char".toList), .lvalue⟩ (s := "char const*".toList)
    (.ptrConst (.name "char".toList)) (by decide)

theorem last_append_ne {s : Text} {w : Text} (hw : w ≠ []) : (s ++ w).getLast? = w.getLast? := by
  rw [List.getLast?_append]
  cases h : w.getLast? with
  | none => exact absurd (List.getLast?_eq_none_iff.mp h) hw
  | some _ => rfl

theorem demangled_amp {t : Ty} (h : NamesOk t) : (demangled t).getLast? ≠ some '&' := by
  cases t with
  | name w => exact h.amp
  | ptr c v t =>
    rw [demangled, last_append_ne (by decide)]
    decide

theorem suffix_last {s w : Text} (h : w <:+ s) (hw : w ≠ []) : s.getLast? = w.getLast? := by
  obtain ⟨p, rfl⟩ := h
  exact last_append_ne hw

theorem demangled_const {t : Ty} (h : NamesOk t) : ¬ " const".toList <:+ demangled t := by
  cases t with
  | name w => exact h.const
  | ptr c v t =>
    intro hs
    have := suffix_last hs (by decide)
    rw [demangled, last_append_ne (by decide)] at this
    revert this; decide

theorem demangled_volatile {t : Ty} (h : NamesOk t) : ¬ " volatile".toList <:+ demangled t := by
  cases t with
  | name w => exact h.volatile
  | ptr c v t =>
    intro hs
    have := suffix_last hs (by decide)
    rw [demangled, last_append_ne (by decide)] at this
    revert this; decide

theorem quals_inj {d d' : Text} {c v c' v' : Bool} (hc : ¬ " const".toList <:+ d) (hv : ¬ " volatile".toList <:+ d)
    (hc' : ¬ " const".toList <:+ d') (hv' : ¬ " volatile".toList <:+ d') (h : d ++ qualifiers c v = d' ++ qualifiers c' v') :
    d = d' ∧ c = c' ∧ v = v' := by
  have key : ∀ {a b : Text} {c c' : Bool}, ¬ " const".toList <:+ a → ¬ " const".toList <:+ b →
      a ++ (if c then " const".toList else []) = b ++ (if c' then " const".toList else []) → a = b ∧ c = c' := by
    intro a b c c' ha hb h
    cases c <;> cases c' <;> simp only [Bool.false_eq_true, if_false, if_true, List.append_nil] at h
    · exact ⟨h, rfl⟩
    · exact absurd ⟨b, h.symm⟩ ha
    · exact absurd ⟨a, h⟩ hb
    · exact ⟨List.append_cancel_right h, rfl⟩
  have notv : ∀ {a : Text} {c : Bool}, ¬ " volatile".toList <:+ a → ¬ " volatile".toList <:+ a ++ (if c then " const".toList else []) := by
    intro a c ha hs
    cases c with
    | false => exact ha (by simpa using hs)
    | true =>
      have := suffix_last hs (by decide)
      rw [if_pos rfl, last_append_ne (by decide)] at this
      revert this; decide
  unfold qualifiers at h
  rw [← List.append_assoc, ← List.append_assoc] at h
  cases v <;> cases v' <;> simp only [Bool.false_eq_true, if_false, if_true, List.append_nil] at h
  · obtain ⟨h1, h2⟩ := key hc hc' h
    exact ⟨h1, h2, rfl⟩
  · exact absurd ⟨_, h.symm⟩ (notv hv)
  · exact absurd ⟨_, h⟩ (notv hv')
  · obtain ⟨h1, h2⟩ := key hc hc' (List.append_cancel_right h)
    exact ⟨h1, h2, rfl⟩

theorem demangled_inj {t t' : Ty} (h : NamesOk t) (h' : NamesOk t') (he : demangled t = demangled t') : t = t' := by
  induction t generalizing t' with
  | name w =>
    cases t' with
    | name w' => exact congrArg Ty.name he
    | ptr c v t' =>
      have : w.getLast? = some '*' := by
        show (demangled (.name w)).getLast? = _
        rw [he, demangled, last_append_ne (by decide)]; rfl
      exact absurd this h.star
  | ptr c v t ih =>
    cases t' with
    | name w' =>
      have : w'.getLast? = some '*' := by
        show (demangled (.name w')).getLast? = _
        rw [← he, demangled, last_append_ne (by decide)]; rfl
      exact absurd this h'.star
    | ptr c' v' t' =>
      have e := List.append_cancel_right he
      obtain ⟨h1, h2, h3⟩ := quals_inj (demangled_const (t := t) h) (demangled_volatile (t := t) h) (demangled_const (t := t') h')
        (demangled_volatile (t := t') h') e
      rw [ih (t' := t') h h' h1, h2, h3]

/-- What stands behind a name in a type begins with a character that is not part of a name. -/
theorem demangled_name (t : Ty) : ∃ w s, demangled t = w ++ s ∧ (NamesOk t → NameOk w) ∧ ∀ c ∈ s.head?, ident c = false := by
  induction t with
  | name w => exact ⟨w, [], (List.append_nil w).symm, id, by simp⟩
  | ptr c v t ih =>
    obtain ⟨w, s, h1, h2, h3⟩ := ih
    refine ⟨w, s ++ (qualifiers c v ++ "*".toList), by rw [demangled, h1]; simp, h2, ?_⟩
    cases s with
    | nil => cases c <;> cases v <;> simp [qualifiers, ident] <;> decide
    | cons x s => simpa using h3

theorem takeWhile_stop {p : Char → Bool} (w s : Text) (hs : ∀ c ∈ s.head?, p c = false) : (w ++ s).takeWhile p = w.takeWhile p := by
  induction w with
  | nil =>
    cases s with
    | nil => rfl
    | cons x s => simp [hs x (by simp)]
  | cons x w ih => simp only [List.cons_append, List.takeWhile_cons, ih]

theorem demangled_first {t : Ty} (h : NamesOk t) (r : Text) : "const ".toList ++ r ≠ demangled t := by
  intro he
  obtain ⟨w, s, h1, h2, h3⟩ := demangled_name t
  have := (h2 h).first
  rw [← takeWhile_stop w s h3, ← h1, ← he] at this
  apply this
  show ("const".toList ++ (' ' :: r)).takeWhile ident = _
  rw [takeWhile_stop _ _ (by simp [ident])]
  decide

theorem amp_inj {d d' : Text} {r r' : Ref} (h : d.getLast? ≠ some '&') (h' : d'.getLast? ≠ some '&') (he : d ++ amp r = d' ++ amp r') :
    d = d' ∧ r = r' := by
  have l1 : ∀ {a b : Text}, a.getLast? ≠ some '&' → b ++ "&".toList ≠ a := by
    intro a b ha hb
    apply ha
    rw [← hb, last_append_ne (by decide)]; rfl
  have e2 : ∀ a : Text, a ++ "&&".toList = (a ++ "&".toList) ++ "&".toList := by intro a; simp
  cases r <;> cases r' <;> simp only [amp, List.append_nil, e2] at he
  · exact ⟨he, rfl⟩
  · exact absurd he.symm (l1 h)
  · exact absurd he.symm (l1 h)
  · exact absurd he (l1 h')
  · exact ⟨List.append_cancel_right he, rfl⟩
  · exact absurd (List.append_cancel_right he).symm (l1 h)
  · exact absurd he (l1 h')
  · exact absurd (List.append_cancel_right he) (l1 h')
  · exact ⟨List.append_cancel_right (List.append_cancel_right he), rfl⟩

theorem full_inj {t t' : Typ} (h : NamesOk t.base) (h' : NamesOk t'.base) (he : full t = full t') :
    t.const = t'.const ∧ t.base = t'.base ∧ t.ref = t'.ref := by
  unfold full at he
  have ha : ∀ {t : Typ}, NamesOk t.base → ((if t.const then "const ".toList else []) ++ demangled t.base).getLast? ≠ some '&' := by
    intro t h
    rw [List.getLast?_append]
    cases hl : (demangled t.base).getLast? with
    | none => cases t.const <;> decide
    | some c => have := demangled_amp h; rw [hl] at this; exact this
  obtain ⟨h1, h2⟩ := amp_inj (ha h) (ha h') he
  cases hc : t.const <;> cases hc' : t'.const <;> rw [hc, hc'] at h1 <;>
    simp only [Bool.false_eq_true, if_false, if_true, List.nil_append] at h1
  · exact ⟨rfl, demangled_inj h h' h1, h2⟩
  · exact absurd h1.symm (demangled_first h _)
  · exact absurd h1 (demangled_first h' _)
  · exact ⟨rfl, demangled_inj h h' (List.append_cancel_left h1), h2⟩

/-- **C101, partial.** Types that are shown in the same way are the same: `const`, names, pointers with their qualifiers, and references.
Missing: `volatile` of the type itself, which is not shown (`C101_volatile_false`), and texts of 512 characters or more (`C101_long_false`). -/
theorem C101_types_partial (t t' : Typ) (h : NamesOk t.base) (h' : NamesOk t'.base) {s : Text} (hs : typeName 512 t = some s)
    (hs' : typeName 512 t' = some s) (hv : t.volatile = t'.volatile) : t = t' := by
  rw [typeName_full 512 _ (by omega)] at hs hs'
  split at hs
  · split at hs'
    · have he := (Option.some.inj hs).trans (Option.some.inj hs').symm
      obtain ⟨h1, h2, h3⟩ := full_inj h h' he
      cases t; cases t'
      simp_all
    · cases hs'
  · cases hs

theorem charOk : NameOk "char".toList := ⟨by decide, by decide, by decide, by decide, by decide⟩

/-- `const char*` and `char* const` are shown in different ways. -/
example : typeName 512 { base := .ptr true false (.name "char".toList) } ≠ typeName 512 { const := true, base := .ptr false false (.name "char".toList) } := by
  intro h
  have h1 : typeName 512 { base := .ptr true false (.name "char".toList) } = some "char const*".toList := by decide
  have := C101_types_partial { base := .ptr true false (.name "char".toList) } { const := true, base := .ptr false false (.name "char".toList) }
    charOk charOk h1 (h ▸ h1) rfl
  simp at this

theorem types_to (ts : List Typ) : ∀ i ≤ ts.length,
    tupleTypesTo ts i = if ∀ t ∈ ts.take i, (full t).length < 512 then some ((ts.take i).map full) else none := by
  intro i
  induction i with
  | zero => intro _; simp [tupleTypesTo]
  | succ i ih =>
    intro hi
    have ht : ts.take (i + 1) = ts.take i ++ [ts[i]] := by rw [List.take_succ, List.getElem?_eq_getElem (by omega)]; rfl
    rw [tupleTypesTo, ih (by omega), List.getElem?_eq_getElem (by omega), ht]
    unfold pushType
    simp only [Option.bind_some]
    rw [typeName_full 512 _ (by omega)]
    by_cases h1 : ∀ t ∈ ts.take i, (full t).length < 512
    · rw [if_pos h1]
      by_cases h2 : (full ts[i]).length < 512
      · rw [if_pos h2, if_pos]
        · rw [List.map_append]; rfl
        · intro t htm
          rcases List.mem_append.mp htm with h | h
          · exact h1 t h
          · rw [List.mem_singleton.mp h]; exact h2
      · rw [if_neg h2, if_neg]
        intro h
        exact h2 (h _ (List.mem_append_right _ (List.mem_singleton.mpr rfl)))
    · rw [if_neg h1]
      refine (if_neg ?_).symm
      intro h
      exact h1 fun t htm => h t (List.mem_append_left _ htm)

theorem types_all (ts : List Typ) : tupleTypes ts = if ∀ t ∈ ts, (full t).length < 512 then some (ts.map full) else none := by
  rw [tupleTypes, types_to ts _ (Nat.le_refl _), List.take_length]

theorem map_full_inj {ts ts' : List Typ} (h : ∀ t ∈ ts, NamesOk t.base ∧ t.volatile = false) (h' : ∀ t ∈ ts', NamesOk t.base ∧ t.volatile = false)
    (he : ts.map full = ts'.map full) : ts = ts' := by
  induction ts generalizing ts' with
  | nil => cases ts' with
    | nil => rfl
    | cons _ _ => cases he
  | cons t ts ih => cases ts' with
    | nil => cases he
    | cons t' ts' =>
      obtain ⟨e1, e2⟩ := List.cons.inj he
      obtain ⟨h1, h2, h3⟩ := full_inj (h t (by simp)).1 (h' t' (by simp)).1 e1
      rw [ih (fun t ht => h t (by simp [ht])) (fun t ht => h' t (by simp [ht])) e2]
      congr 1
      have hv := (h t (by simp)).2.trans (h' t' (by simp)).2.symm
      cases t; cases t'
      simp_all

/-- **C101.** The types of the arguments of a mock are all shown, each as it is written, in order. -/
theorem C101_signature_partial (ts : List Typ) (ss : List Text) (h : ss.length = ts.length)
    (hs : ∀ i (hi : i < ts.length), Written ts[i].base ss[i] ∧
      ((if ts[i].const then "const ".toList else []) ++ ss[i] ++ amp ts[i].ref).length < 512) :
    ∃ ws, tupleTypes ts = some ws ∧ ws.length = ts.length ∧
      ∀ i (hi : i < ts.length), ws[i]? = some ((if ts[i].const then "const ".toList else []) ++ ss[i] ++ amp ts[i].ref) := by
  have hf : ∀ i (hi : i < ts.length), full ts[i] = (if ts[i].const then "const ".toList else []) ++ ss[i] ++ amp ts[i].ref := by
    intro i hi
    rw [written_unique (hs i hi).1 (demangled_written _)]; rfl
  refine ⟨ts.map full, ?_, by simp, ?_⟩
  · rw [types_all, if_pos]
    intro t ht
    obtain ⟨i, hi, rfl⟩ := List.mem_iff_getElem.mp ht
    rw [hf i hi]
    exact (hs i hi).2
  · intro i hi
    rw [List.getElem?_map, List.getElem?_eq_getElem hi, Option.map_some, hf i hi]

/-- **C101, partial (signatures).** Mocks whose arguments are shown in the same way have the same types of arguments. -/
theorem C101_arguments_partial (ts ts' : List Typ) (h : ∀ t ∈ ts, NamesOk t.base ∧ t.volatile = false) (h' : ∀ t ∈ ts', NamesOk t.base ∧ t.volatile = false)
    {ws : List Text} (hw : tupleTypes ts = some ws) (hw' : tupleTypes ts' = some ws) : ts = ts' := by
  rw [types_all] at hw hw'
  split at hw
  · split at hw'
    · exact map_full_inj h h' ((Option.some.inj hw).trans (Option.some.inj hw').symm)
    · cases hw'
  · cases hw

example : tupleTypes [{ base := .name "int".toList }, { const := true, base := .name "Foo".toList, ref := .lvalue }] =
    some ["int".toList, "const Foo&".toList] := by decide

/-- **C101, refuted (`volatile`).** A reference to `volatile` is shown as one to a type without it. -/
theorem C101_volatile_false (t : Typ) : typeName 512 { t with volatile := true } = typeName 512 { t with volatile := false } := rfl

/-- **C101, refuted (long names).** A type whose text has 512 characters or more is not shown: what happens is undefined. -/
theorem C101_long_false (t : Typ) {s : Text} (h : Written t.base s)
    (hlen : 512 ≤ ((if t.const then "const ".toList else []) ++ s ++ amp t.ref).length) : typeName 512 t = none := by
  rw [written_unique h (demangled_written _)] at hlen
  rw [typeName_full 512 t (by omega), if_neg]
  show ¬ (_ ++ _ ++ _ : Text).length < 512
  omega

/-- A template with arguments whose names are long. -/
example : typeName 512 { base := .name (List.replicate 512 'a') } = none :=
  C101_long_false { base := .name (List.replicate 512 'a') } (.name _) (by decide +kernel)

end H2.TypeName
