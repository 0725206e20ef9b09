import Verif.TypeName.Props
namespace H2.TypeName

/-- The type of the value of a variable: that of the variable without qualifiers and references. -/
def valueType (d : Decl) : Decl := { d with const := false, volatile := false, ref := .none }

/-- **C102, partial.** `TypeEq<E>()` accepts a value of a class, a number or a pointer other than `char*` just if `E` is the type of the
value, and `!TypeEq<E>()` just if it is not.  Missing: the types for which this is false (`C102_enum_false`, `C102_chars_false`,
`C102_array_false`). -/
theorem C102_types_partial (e a : Decl) (t : Ty) (h : a.kind = .obj t) (hc : t ≠ .ptr false false (.name "char".toList)) :
    (typeEq false e a = true ↔ e = valueType a) ∧ (typeEq true e a = true ↔ e ≠ valueType a) := by
  have hd : h2decay a = valueType a := by
    obtain ⟨c, v, k, r⟩ := a
    simp only at h
    subst h
    show ({ kind := decayImpl (.obj t) } : Decl) = { kind := .obj t }
    congr 1
    unfold decayImpl
    split
    · rename_i w heq
      cases heq
      rw [if_neg]
      rintro rfl
      exact hc rfl
    · rename_i heq; cases heq
    · rfl
  unfold typeEq
  rw [hd]
  simp

/-- `const Foo&` is a `Foo`. -/
example : typeEq false { kind := .obj (.name "Foo".toList) } { const := true, kind := .obj (.name "Foo".toList), ref := .lvalue } = true :=
  ((C102_types_partial _ { const := true, kind := .obj (.name "Foo".toList), ref := .lvalue } (.name "Foo".toList) rfl (by decide)).1).mpr rfl

/-- **C102.** A type with a qualifier of its own or a reference is never accepted: no value has such a type. -/
theorem C102_qualified (e a : Decl) (h : e.const = true ∨ e.volatile = true ∨ e.ref ≠ .none) : typeEq false e a = false := by
  have hne : e ≠ h2decay a := by
    rintro rfl
    rcases h with h | h | h
    · cases h
    · cases h
    · exact h rfl
  unfold typeEq
  simp [hne]

example : typeEq false { const := true, kind := .obj (.name "int".toList) } { const := true, kind := .obj (.name "int".toList) } = false :=
  C102_qualified _ _ (Or.inl rfl)

/-- **C102.** At most one type is accepted for each value. -/
theorem C102_one (e e' a : Decl) (h : typeEq false e a = true) (h' : typeEq false e' a = true) : e = e' := by
  simp only [typeEq, Bool.not_false, beq_true, decide_eq_true_eq] at h h'
  rw [h, h']

example : typeEq false { kind := .obj (.name "int".toList) } { kind := .obj (.name "int".toList) } = true := by decide

/-- **C102, refuted (enumerations).** A value of an enumeration is not accepted as one, but as a number. -/
theorem C102_enum_false (name number : Text) (a : Decl) (h : a.kind = .enum name number) :
    typeEq false (valueType a) a = false ∧ typeEq false { kind := .obj (.name number) } a = true := by
  have hd : h2decay a = { kind := .obj (.name number) } := by unfold h2decay decay; rw [h]; rfl
  unfold typeEq
  rw [hd]
  constructor
  · rw [decide_eq_false]
    · rfl
    · intro he
      have := congrArg Decl.kind he
      rw [show (valueType a).kind = a.kind from rfl, h] at this
      cases this
  · simp

example : typeEq false { kind := .enum "Color".toList "unsigned int".toList } { kind := .enum "Color".toList "unsigned int".toList } = false :=
  (C102_enum_false "Color".toList "unsigned int".toList { kind := .enum "Color".toList "unsigned int".toList } rfl).1

/-- **C102, refuted (`char*`).** A `char*` is not accepted as one, but as a `const char*`. -/
theorem C102_chars_false (a : Decl) (h : a.kind = .obj (.ptr false false (.name "char".toList))) :
    typeEq false (valueType a) a = false ∧ typeEq false { kind := .obj (.ptr true false (.name "char".toList)) } a = true := by
  have hd : h2decay a = { kind := .obj (.ptr true false (.name "char".toList)) } := by unfold h2decay decay; rw [h]; rfl
  unfold typeEq
  rw [hd]
  constructor
  · rw [decide_eq_false]
    · rfl
    · intro he
      have := congrArg Decl.kind he
      rw [show (valueType a).kind = a.kind from rfl, h] at this
      cases this
  · simp

/-- **C102, refuted (arrays).** An array is not accepted as one, but as a pointer to its elements, with their qualifiers; an array of `char` as
`const char*`. -/
theorem C102_array_false (a : Decl) (c v : Bool) (t : Ty) (n : Nat) (h : a.kind = .array c v t n) :
    typeEq false (valueType a) a = false ∧
      typeEq false { kind := .obj (.ptr (c || decide (v = false ∧ t = .name "char".toList)) v t) } a = true := by
  have hd : h2decay a = { kind := .obj (.ptr (c || decide (v = false ∧ t = .name "char".toList)) v t) } := by
    unfold h2decay decay
    rw [h]
    show ({ kind := decayImpl (.obj (.ptr c v t)) } : Decl) = _
    unfold decayImpl
    split
    · rename_i w heq
      cases heq
      split
      · rename_i hw
        subst hw
        rfl
      · rename_i hw
        simp
        exact hw
    · rename_i heq; cases heq
    · rename_i hne _
      congr 3
      cases c
      · symm
        simp only [Bool.false_or, decide_eq_false_iff_not]
        rintro ⟨rfl, rfl⟩
        exact hne _ rfl
      · rfl
  unfold typeEq
  rw [hd]
  refine ⟨?_, by simp⟩
  rw [decide_eq_false]
  · rfl
  · intro he
    have := congrArg Decl.kind he
    rw [show (valueType a).kind = a.kind from rfl, h] at this
    cases this

example : ∃ a : Decl, a.kind = .array false false (.name "int".toList) 3 := ⟨{ kind := .array false false (.name "int".toList) 3 }, rfl⟩

/-- **C102, refuted (functions).** A function is not accepted as one, but as a pointer to it. -/
theorem C102_function_false (a : Decl) (w : Text) (h : a.kind = .func w) (hw : w ≠ "char".toList) :
    typeEq false (valueType a) a = false ∧ typeEq false { kind := .obj (.ptr false false (.name w)) } a = true := by
  have hd : h2decay a = { kind := .obj (.ptr false false (.name w)) } := by
    unfold h2decay decay
    rw [h]
    show ({ kind := decayImpl (.obj (.ptr false false (.name w))) } : Decl) = _
    unfold decayImpl
    simp only [if_neg hw]
  unfold typeEq
  rw [hd]
  constructor
  · rw [decide_eq_false]
    · rfl
    · intro he
      have := congrArg Decl.kind he
      rw [show (valueType a).kind = a.kind from rfl, h] at this
      cases this
  · simp

example : ("int (int)".toList : Text) ≠ "char".toList := by decide

/-- The text of a type of a class, number or pointer, `/repo/source/matcher/h2_matches_equation.hpp:9,13`. -/
def declName (d : Decl) : Option Text :=
  match d.kind with
  | .obj t => typeName 512 { const := d.const, volatile := d.volatile, base := t, ref := d.ref }
  | _ => none

/-- **C102, partial (the message).** When `TypeEq<E>()` does not accept a value, the type wanted and the type found are shown in different
ways, unless they differ only in `volatile`. -/
theorem C102_message_partial (e a : Decl) (t u : Ty) (he : e.kind = .obj t) (ha : (h2decay a).kind = .obj u) (ht : NamesOk t) (hu : NamesOk u)
    (hv : e.volatile = false) (h : typeEq false e a = false) {s s' : Text} (hs : declName e = some s) (hs' : declName (h2decay a) = some s') : s ≠ s' := by
  rintro rfl
  unfold declName at hs hs'
  rw [he] at hs
  rw [ha] at hs'
  have := C101_types_partial _ _ ht hu hs hs' hv
  have hne : e ≠ h2decay a := by simpa [typeEq] using h
  apply hne
  obtain ⟨c, v, k, r⟩ := e
  simp only [Typ.mk.injEq] at this
  simp only at he
  subst he
  obtain ⟨h1, h2, h3, h4⟩ := this
  generalize h2decay a = d at *
  obtain ⟨c', v', k', r'⟩ := d
  simp only at ha h1 h2 h4
  subst ha h1 h2 h3 h4
  rfl

/-- Wanted: `long`, found: `int`. -/
example : typeEq false { kind := .obj (.name "long".toList) } { kind := .obj (.name "int".toList) } = false ∧
    declName { kind := .obj (.name "long".toList) } = some "long".toList ∧ declName (h2decay { kind := .obj (.name "int".toList) }) = some "int".toList := by
  decide

end H2.TypeName
