import Verif.Attrs.Model
import Verif.Attrs.Spec
import Verif.Json.ExprLex
import Verif.Sock.Props
namespace H2.Attrs
open H2.Sock (getKeyvalue isspace afterKey afterKey_skip)
open H2.Json.Expr (Literal Digits Exponent digitValue isHex isDecimal isLetter NumberEnds WordEnds)

def keys : List Text := ["limit".toList, "align".toList, "fill".toList, "noleak".toList, "unmem".toList]

theorem name_mem (it : Item) : it.name ∈ keys := by cases it <;> simp [Item.name, keys]

/-- A key is not found at the places of `x`. -/
theorem afterKey_pass (K x r : Text) (hK : K ≠ []) (h : ∀ y, y ≠ [] → y <:+ x → ¬ K <+: (y ++ r).map Char.toLower) :
    afterKey K (x ++ r) = afterKey K r := by
  induction x with
  | nil => rfl
  | cons c x ih =>
    rw [List.cons_append, afterKey, if_neg, ih]
    · intro y hy hs
      exact h y hy (hs.trans (List.suffix_cons c x))
    · rw [List.isPrefixOf_iff_prefix]
      exact h (c :: x) (by simp) List.suffix_rfl

def lowerLetters : Text := "abcdefghijklmnopqrstuvwxyz".toList

def sufs : Text → List Text
  | [] => []
  | c :: s => (c :: s) :: sufs s

theorem mem_sufs {y s : Text} (h : y <:+ s) (hy : y ≠ []) : y ∈ sufs s := by
  induction s with
  | nil => exact absurd (List.suffix_nil.mp h) hy
  | cons c s ih =>
    rcases List.suffix_cons_iff.mp h with h | h
    · subst h; exact List.mem_cons_self
    · exact List.mem_cons_of_mem _ (ih h)

theorem keys_apart : ∀ K ∈ keys, ∀ N ∈ keys, N ≠ K → ∀ y ∈ sufs N, K.isPrefixOf y = false := by decide +kernel

theorem keys_letters : ∀ K ∈ keys, ∀ c ∈ K, c ∈ lowerLetters := by decide +kernel

/-- A name without the key inside is passed, if no letter follows. -/
theorem afterKey_name (K N nm r : Text) (hK : K ∈ keys) (hN : N ∈ keys) (hne : N ≠ K) (hn : nm.map Char.toLower = N)
    (hr : ∀ c ∈ r.head?, c.toLower ∉ lowerLetters) : afterKey K (nm ++ r) = afterKey K r := by
  apply afterKey_pass
  · intro h; subst h; revert hK; decide
  · intro y hy hs hp
    rw [List.map_append] at hp
    have hs' : y.map Char.toLower <:+ N := by
      rw [← hn]; obtain ⟨t, ht⟩ := hs; exact ⟨t.map Char.toLower, by rw [← List.map_append, ht]⟩
    have hy' : y.map Char.toLower ≠ [] := by simpa using hy
    have hpre : K <+: y.map Char.toLower := by
      rcases Nat.lt_or_ge (y.map Char.toLower).length K.length with hl | hl
      · exfalso
        obtain ⟨hle, hg⟩ := List.prefix_iff_getElem.mp hp
        have h1 := hg _ hl
        rw [List.getElem_append_right (Nat.le_refl _)] at h1
        have h2 := keys_letters K hK _ (List.getElem_mem hl)
        cases r with
        | nil => simp only [List.map_nil, List.append_nil] at hle; omega
        | cons c r =>
          rw [h1] at h2
          simp only [Nat.sub_self, List.map_cons, List.getElem_cons_zero] at h2
          exact hr c (by simp) h2
      · exact List.prefix_of_prefix_length_le hp (List.prefix_append _ _) hl
    have := keys_apart K hK N hN hne _ (mem_sufs hs' hy')
    rw [List.isPrefixOf_iff_prefix.mpr hpre] at this
    cases this

/-- The key itself is found, in any case of letters. -/
theorem afterKey_found (K nm r : Text) (hK : K ∈ keys) (hn : nm.map Char.toLower = K) : afterKey K (nm ++ r) = some r := by
  have hl : nm.length = K.length := by rw [← hn, List.length_map]
  cases nm with
  | nil => subst hn; exact absurd hK (by decide)
  | cons c nm =>
    rw [List.cons_append, afterKey, if_pos]
    · rw [← List.cons_append, ← hl, List.drop_left]
    · rw [List.isPrefixOf_iff_prefix, ← List.cons_append, List.map_append, hn]
      exact List.prefix_append _ _

/-- Characters of values and blanks. -/
def quiet : Text := "0123456789abcdefABCDEFxXpP.+-= \t\n".toList

theorem keys_second : ∀ K ∈ keys, ∃ a b s, K = a :: b :: s ∧ (∀ c ∈ quiet, c.toLower ≠ b) ∧ ','.toLower ≠ b ∧ ','.toLower ≠ a ∧
    ' '.toLower ≠ a ∧ '\t'.toLower ≠ a ∧ '\n'.toLower ≠ a := by
  intro K hK
  simp only [keys, List.mem_cons, List.not_mem_nil, or_false] at hK
  rcases hK with h | h | h | h | h <;> subst h <;> exact ⟨_, _, _, rfl, by decide +kernel, by decide +kernel, by decide +kernel, by decide +kernel, by decide +kernel, by decide +kernel⟩

/-- What ends an attribute. -/
def Ends (r : Text) : Prop := r = [] ∨ ∃ t, r = ',' :: t

theorem afterKey_quiet (K x r : Text) (hK : K ∈ keys) (hx : ∀ c ∈ x, c ∈ quiet) (hr : Ends r) : afterKey K (x ++ r) = afterKey K r := by
  obtain ⟨a, b, s, rfl, hb, hc, -⟩ := keys_second K hK
  apply afterKey_pass _ _ _ (by simp)
  intro y hy hs hp
  match y, hy with
  | [c], _ =>
    rcases hr with rfl | ⟨t, rfl⟩
    · have := hp.length_le; simp at this
    · simp only [List.cons_append, List.nil_append, List.map_cons, List.cons_prefix_cons] at hp
      exact hc hp.2.1.symm
  | c :: d :: y, _ =>
    simp only [List.cons_append, List.map_cons, List.cons_prefix_cons] at hp
    exact hb d (hx d (hs.subset (by simp))) hp.2.1.symm

theorem afterKey_blank (K a r : Text) (hK : K ∈ keys) (ha : Blank a) : afterKey K (a ++ r) = afterKey K r := by
  obtain ⟨k, b, s, rfl, -, -, -, h1, h2, h3⟩ := keys_second K hK
  refine afterKey_skip _ a r k (b :: s) rfl ?_
  intro c hc
  rcases ha c hc with h | h | h <;> subst h <;> assumption

theorem afterKey_comma (K r : Text) (hK : K ∈ keys) : afterKey K (',' :: r) = afterKey K r := by
  obtain ⟨k, b, s, rfl, -, -, h, -⟩ := keys_second K hK
  exact afterKey_skip _ [','] r k (b :: s) rfl (by intro c hc; rw [List.mem_singleton.mp hc]; exact h)

theorem blank_quiet {a : Text} (h : Blank a) : ∀ c ∈ a, c ∈ quiet := by
  intro c hc
  rcases h c hc with h | h | h <;> subst h <;> decide

theorem hex_quiet {c} (h : isHex c = true) : c ∈ quiet := by
  have : ∀ c ∈ "0123456789abcdefABCDEF".toList, c ∈ quiet := by decide +kernel
  exact this c (List.contains_iff_mem.mp h)

theorem dec_quiet {c} (h : isDecimal c = true) : c ∈ quiet := hex_quiet (H2.Json.Expr.hex_of_dec h)

theorem digits_quiet {base isD s n k} (h : Digits base isD s n k) (hD : ∀ c, isD c = true → c ∈ quiet) : ∀ c ∈ s, c ∈ quiet := by
  cases h with
  | whole _ hd => exact fun c hc => hD c (hd c hc)
  | point _ hd hf =>
    intro c hc
    rcases List.mem_append.mp hc with hc | hc
    · exact hD c (hd c hc)
    · rcases List.mem_cons.mp hc with rfl | hc
      · decide
      · exact hD c (hf c hc)

theorem exponent_quiet {l x e} (h : Exponent l x e) (hl : ∀ c ∈ l, c ∈ quiet) : ∀ c ∈ x, c ∈ quiet := by
  cases h with
  | none => simp
  | plain hc _ hd =>
    intro d hm
    rcases List.mem_cons.mp hm with rfl | hm
    · exact hl _ hc
    · exact dec_quiet (hd _ hm)
  | plus hc _ hd =>
    intro d hm
    rcases List.mem_cons.mp hm with rfl | hm
    · exact hl _ hc
    · rcases List.mem_cons.mp hm with rfl | hm
      · decide
      · exact dec_quiet (hd _ hm)
  | minus hc _ hd =>
    intro d hm
    rcases List.mem_cons.mp hm with rfl | hm
    · exact hl _ hc
    · rcases List.mem_cons.mp hm with rfl | hm
      · decide
      · exact dec_quiet (hd _ hm)

theorem literal_quiet {l q} (h : Literal l q) : ∀ c ∈ l, c ∈ quiet := by
  cases h with
  | decimal hd hx =>
    intro c hc
    rcases List.mem_append.mp hc with hc | hc
    · exact digits_quiet hd (fun _ => dec_quiet) c hc
    · exact exponent_quiet hx (by decide) c hc
  | hexadecimal hc' hd hx =>
    intro c hc
    rcases List.mem_append.mp hc with hc | hc
    · rcases List.mem_cons.mp hc with rfl | hc
      · decide
      · rcases List.mem_cons.mp hc with rfl | hc
        · rcases hc' with rfl | rfl <;> decide
        · exact digits_quiet hd (fun _ => hex_quiet) c hc
    · exact exponent_quiet hx (by decide) c hc

theorem value_quiet {fl it v} (h : Value fl it v) : ∀ c ∈ v, c ∈ quiet := by
  cases h with
  | limit h => exact literal_quiet h
  | align h => exact literal_quiet h
  | hex hx _ hd =>
    intro c hc
    rcases List.mem_cons.mp hc with rfl | hc
    · decide
    · rcases List.mem_cons.mp hc with rfl | hc
      · rcases hx with rfl | rfl <;> decide
      · exact hex_quiet (hd c hc)
  | decimal _ hd => exact fun c hc => dec_quiet (hd c hc)
  | plus _ hd =>
    intro c hc
    rcases List.mem_cons.mp hc with rfl | hc
    · decide
    · exact dec_quiet (hd c hc)
  | minus _ hd =>
    intro c hc
    rcases List.mem_cons.mp hc with rfl | hc
    · decide
    · exact dec_quiet (hd c hc)

theorem rest_quiet {fl it r} (h : Rest fl it r) : ∀ c ∈ r, c ∈ quiet := by
  cases h with
  | value ha hb hc hv =>
    intro c hm
    simp only [List.mem_append, List.mem_cons] at hm
    rcases hm with hm | rfl | hm | hm | hm
    · exact blank_quiet ha c hm
    · decide
    · exact blank_quiet hb c hm
    · exact value_quiet hv c hm
    · exact blank_quiet hc c hm
  | noleak ha => exact blank_quiet ha
  | unmem ha => exact blank_quiet ha

theorem blank_lower {c} (h : c = ' ' ∨ c = '\t' ∨ c = '\n') : c.toLower ∉ lowerLetters := by
  rcases h with h | h | h <;> subst h <;> decide

theorem ends_head {r : Text} (h : Ends r) : ∀ c ∈ r.head?, c.toLower ∉ lowerLetters := by
  rcases h with rfl | ⟨t, rfl⟩
  · simp
  · intro c hc
    simp only [List.head?_cons, Option.mem_def, Option.some.injEq] at hc
    subst hc
    decide

theorem blank_head {a r : Text} (ha : Blank a) (hr : ∀ c ∈ r.head?, c.toLower ∉ lowerLetters) :
    ∀ c ∈ (a ++ r).head?, c.toLower ∉ lowerLetters := by
  cases a with
  | nil => exact hr
  | cons d a =>
    intro c hc
    simp only [List.cons_append, List.head?_cons, Option.mem_def, Option.some.injEq] at hc
    subst hc
    exact blank_lower (ha _ (by simp))

theorem rest_head {fl it r t} (h : Rest fl it r) (ht : Ends t) : ∀ c ∈ (r ++ t).head?, c.toLower ∉ lowerLetters := by
  cases h with
  | value ha hb hc hv =>
    rw [List.append_assoc]
    refine blank_head ha ?_
    intro c hc
    simp only [List.cons_append, List.head?_cons, Option.mem_def, Option.some.injEq] at hc
    subst hc
    decide
  | noleak ha => exact blank_head ha (ends_head ht)
  | unmem ha => exact blank_head ha (ends_head ht)

/-- An attribute of another name is passed. -/
theorem afterKey_other {fl it r} (K nm t : Text) (hK : K ∈ keys) (hn : nm.map Char.toLower = it.name) (hne : it.name ≠ K)
    (hr : Rest fl it r) (ht : Ends t) : afterKey K (nm ++ (r ++ t)) = afterKey K t := by
  rw [afterKey_name K it.name nm _ hK (name_mem it) hne hn (rest_head hr ht), afterKey_quiet K r t hK (rest_quiet hr) ht]

/-- The first attribute of a name is the one found. -/
theorem afterKey_attributes {fl its t} (h : Attributes fl its t) (K : Text) (hK : K ∈ keys) :
    ((∀ it ∈ its, it.name ≠ K) ∧ afterKey K t = none) ∨
    ∃ pre it post r e, its = pre ++ it :: post ∧ (∀ it ∈ pre, it.name ≠ K) ∧ it.name = K ∧ Rest fl it r ∧ Ends e ∧
      afterKey K t = some (r ++ e) := by
  have hnil : afterKey K [] = none := by
    obtain ⟨a, b, s, rfl, -⟩ := keys_second K hK
    rfl
  induction h with
  | @none a ha =>
    left
    refine ⟨by simp, ?_⟩
    have := afterKey_blank K a [] hK ha
    rw [List.append_nil] at this
    rw [this, hnil]
  | @last it a nm r ha hn hr =>
    rw [afterKey_blank K a _ hK ha]
    by_cases hne : it.name = K
    · right
      refine ⟨[], it, [], r, [], rfl, by simp, hne, hr, Or.inl rfl, ?_⟩
      rw [List.append_nil, afterKey_found K nm r hK (by rw [hn, hne])]
    · left
      refine ⟨by simpa using hne, ?_⟩
      have := afterKey_other K nm [] hK hn hne hr (Or.inl rfl)
      rw [List.append_nil] at this
      rw [this, hnil]
  | @cons it a nm r its t ha hn hr _ ih =>
    rw [afterKey_blank K a _ hK ha]
    by_cases hne : it.name = K
    · right
      exact ⟨[], it, its, r, ',' :: t, rfl, by simp, hne, hr, Or.inr ⟨t, rfl⟩, afterKey_found K nm _ hK (by rw [hn, hne])⟩
    · rw [afterKey_other K nm (',' :: t) hK hn hne hr (Or.inr ⟨t, rfl⟩), afterKey_comma K t hK]
      rcases ih with ⟨h1, h2⟩ | ⟨pre, it', post, r', e, h1, h2, h3, h4, h5, h6⟩
      · left
        refine ⟨?_, h2⟩
        intro i hi
        rcases List.mem_cons.mp hi with rfl | hi
        · exact hne
        · exact h1 i hi
      · right
        refine ⟨it :: pre, it', post, r', e, by rw [h1]; rfl, ?_, h3, h4, h5, h6⟩
        intro i hi
        rcases List.mem_cons.mp hi with rfl | hi
        · exact hne
        · exact h2 i hi

theorem blank_space {c} (h : c = ' ' ∨ c = '\t' ∨ c = '\n') : isspace c = true := by
  rcases h with h | h | h <;> subst h <;> decide

theorem drop_blank {a r : Text} (ha : Blank a) : (a ++ r).dropWhile isspace = r.dropWhile isspace := by
  induction a with
  | nil => rfl
  | cons c a ih =>
    rw [List.cons_append, List.dropWhile_cons, if_pos (blank_space (ha c (by simp))), ih (fun d hd => ha d (by simp [hd]))]

theorem ends_drop {a e : Text} (ha : Blank a) (he : Ends e) : ∀ v, (a ++ e).dropWhile isspace ≠ '=' :: v := by
  intro v
  rw [drop_blank ha]
  rcases he with rfl | ⟨t, rfl⟩
  · simp
  · rw [List.dropWhile_cons, if_neg (by decide)]
    simp

/-- The value of an attribute, with what follows. -/
theorem getKeyvalue_attributes {fl its t} (h : Attributes fl its t) (K : Text) (hK : K ∈ keys) :
    ((∀ it ∈ its, it.name ≠ K) ∧ getKeyvalue t K = none) ∨
    ∃ pre it post w, its = pre ++ it :: post ∧ (∀ it ∈ pre, it.name ≠ K) ∧ it.name = K ∧ getKeyvalue t K = some w ∧
      (it = .noleak ∨ it = .unmem ∨ ∃ v c e, Value fl it v ∧ Blank c ∧ Ends e ∧ w = (v ++ (c ++ e)).dropWhile isspace) := by
  rcases afterKey_attributes h K hK with ⟨h1, h2⟩ | ⟨pre, it, post, r, e, h1, h2, h3, h4, h5, h6⟩
  · left
    exact ⟨h1, by rw [getKeyvalue, h2]⟩
  · right
    cases h4 with
    | @value it a b v c ha hb hc hv =>
      refine ⟨pre, it, post, (v ++ (c ++ e)).dropWhile isspace, h1, h2, h3, ?_, Or.inr (Or.inr ⟨v, c, e, hv, hc, h5, rfl⟩)⟩
      rw [getKeyvalue, h6]
      simp only [List.append_assoc, List.cons_append]
      rw [drop_blank ha, List.dropWhile_cons, if_neg (by decide)]
      simp only
      rw [drop_blank hb]
    | @noleak a ha =>
      refine ⟨pre, _, post, [], h1, h2, h3, ?_, Or.inl rfl⟩
      rw [getKeyvalue, h6]
      have := ends_drop ha h5
      simp only
    | @unmem a ha =>
      refine ⟨pre, _, post, [], h1, h2, h3, ?_, Or.inr (Or.inl rfl)⟩
      rw [getKeyvalue, h6]
      have := ends_drop ha h5
      simp only

end H2.Attrs
