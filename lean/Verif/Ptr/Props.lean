import Verif.Ptr.Spec
import Verif.Str.Props
import Verif.Typed.Spec
import Verif.Typed.Lemmas
/-
C88: comparing texts, pointers and integers.
-/
namespace H2.Ptr
open H2.Typed (ITy Res Ord fit toITy numberfy commonI Cmp InRange Width)
open H2.Str (Kind)

theorem fit_false (b : Bool) : fit false b = b := by cases b <;> rfl
theorem fit_true (b : Bool) : fit true b = !b := by cases b <;> rfl
theorem fit_not (n b : Bool) : fit (!n) b = !fit n b := by cases n <;> cases b <;> rfl

theorem map_is {α β : Type} (f : α → β) (v : α) : (Res.is v).map f = .is (f v) := rfl
theorem bind_is {α β : Type} (f : α → Res β) (v : α) : (Res.is v).bind f = f v := rfl

theorem beq_sym_text (x y : List Char) : (x == y) = decide (y = x) := by
  rw [Bool.eq_iff_iff]; simp; exact eq_comm

/-! ### Texts -/

/-- What `OK` and `KO` say of two texts. -/
theorem equals_text (c : Cfg) {e a : Val} {x y : List Char} (he : Text e x) (ha : Text a y) :
    equals c e a = .is (textEquals c x y) ∧ plain c e a = .is (textEquals c x y) := by
  cases e <;> simp only [Text] at he
  · obtain ⟨hp, rfl⟩ := he
    cases a <;> simp only [Text] at ha
    · obtain ⟨hq, rfl⟩ := ha
      simp [equals, charsEquals, toText, plain, become, bind_is, hp, hq]
    · subst ha
      simp [equals, charsEquals, toText, plain, become, bind_is, hp, map_is]
  · subst he
    cases a <;> simp only [Text] at ha
    · obtain ⟨hq, rfl⟩ := ha
      simp [equals, toText, plain, become, bind_is, hq, map_is]
    · subst ha
      simp [equals, toText, plain, become, bind_is, map_is]

/-- **C88.** Two texts, each a `char*` that is not null or a `std::string`: `OK(e, a)`, `OK(Eq(e), a)`
and `OK(e == a)` pass exactly when the texts are the same, `OK(e != a)`, `OK(Nq(e), a)` and `KO(e, a)`
exactly when they are not. -/
theorem C88_text (e a : Val) (x y : List Char) (he : Text e x) (ha : Text a y) :
    ok (.plain e) a = .is (decide (x = y)) ∧ ok (.equals e) a = .is (decide (x = y)) ∧
    okCmp .eq e a = .is (decide (x = y)) ∧ okCmp .ne e a = .is (decide (x ≠ y)) ∧
    ok (.nq e) a = .is (decide (x ≠ y)) ∧ ko (.plain e) a = .is (decide (x ≠ y)) := by
  have h := fun c => equals_text c he ha
  have k : textEquals {} x y = decide (x = y) := by
    simp [textEquals, fit_false, dress, Str.equals, beq_sym_text]
  have k' : textEquals { neg := true } x y = decide (x ≠ y) := by
    simp [textEquals, fit_true, dress, Str.equals, beq_sym_text]
  refine ⟨?_, ?_, ?_, ?_, ?_, ?_⟩
  · rw [ok, fits, (h _).2, k]
  · rw [ok, fits, (h _).1, k]
  · rw [okCmp, cmpMatcher, fits, (h _).1, k]
  · rw [okCmp, cmpMatcher, fits, (h _).2]; exact congrArg _ k'
  · rw [ok, fits, (h _).2]; exact congrArg _ k'
  · rw [ko, fits, (h _).2, k, map_is]; simp

example : Text (.chars 64 "ab".toList) "ab".toList ∧ Text (.str "ab".toList) "ab".toList ∧
    ok (.plain (.chars 64 "ab".toList)) (.str "ab".toList) = .is true := by
  have h1 : Text (.chars 64 "ab".toList) "ab".toList := ⟨by decide, rfl⟩
  have h2 : Text (.str "ab".toList) "ab".toList := rfl
  exact ⟨h1, h2, by rw [(C88_text _ _ _ _ h1 h2).1]; simp⟩

/-- **C88.** `~Eq(e)` compares without regard to case. -/
theorem C88_caseless (e a : Val) (x y : List Char) (he : Text e x) (ha : Text a y) :
    ok (.tilde (.equals e)) a = .is (decide (x.map Char.toLower = y.map Char.toLower)) ∧
    ok (.caseLess .se e) a = .is (decide (x.map Char.toLower = y.map Char.toLower)) := by
  have t : toText e = .is x ∧ toText a = .is y := by
    constructor
    · cases e <;> simp only [Text] at he <;> simp [toText, he]
    · cases a <;> simp only [Text] at ha <;> simp [toText, ha]
  constructor
  · simp only [ok, fits, Mx.poly, if_true]
    rw [(equals_text _ he ha).1]
    simp [textEquals, fit_false, dress, Str.equals, Str.lower, beq_sym_text]
  · simp only [ok, fits, kind, t.1, t.2, bind_is, map_is]
    simp [kindTest, fit_false, dress, Str.equals, Str.lower, beq_sym_text]

theorem cut_id {s : List Char} (h : '\x00' ∉ s) : cut s = s := by
  induction s with
  | nil => rfl
  | cons c s ih =>
    simp only [List.mem_cons, not_or] at h
    have hc : c ≠ '\x00' := fun e => h.1 e.symm
    rw [cut, List.takeWhile_cons_of_pos (by simpa using hc)]
    exact congrArg _ (ih h.2)

theorem trim_sub {s : List Char} {c : Char} (h : c ∉ s) : c ∉ Str.trim s := by
  intro hc
  apply h
  simp only [Str.trim, List.mem_reverse] at hc
  have := (List.dropWhile_sublist _).subset hc
  rw [List.mem_reverse] at this
  exact (List.dropWhile_sublist _).subset this

theorem squash_id {s : List Char} (h : '\x00' ∉ s) : squash s = Str.squash s := by
  rw [squash, cut_id (trim_sub h)]; rfl

/-- **C88 (part).** `*Eq(e)` and `SpaceLess(e)` compare the words of the texts, if there is no NUL and
no quote in either. -/
theorem C88_spaceless_partial (e a : Val) (x y : List Char) (he : Text e x) (ha : Text a y)
    (hx : ∀ c ∈ x, c ≠ '\x00' ∧ c ≠ '\'' ∧ c ≠ '"') (hy : ∀ c ∈ y, c ≠ '\x00' ∧ c ≠ '\'' ∧ c ≠ '"') :
    ok (.star (.equals e)) a = .is (decide (Str.unwords (Str.words x) = Str.unwords (Str.words y))) ∧
    ok (.spaceLess .se e) a = .is (decide (Str.unwords (Str.words x) = Str.unwords (Str.words y))) := by
  have t : toText e = .is x ∧ toText a = .is y := by
    constructor
    · cases e <;> simp only [Text] at he <;> simp [toText, he]
    · cases a <;> simp only [Text] at ha <;> simp [toText, ha]
  have s : ∀ z : List Char, (∀ c ∈ z, c ≠ '\x00' ∧ c ≠ '\'' ∧ c ≠ '"') → squash z = Str.unwords (Str.words z) := by
    intro z hz
    rw [squash_id (fun h => (hz _ h).1 rfl), Str.C09_squash_words z (fun c hc => (hz c hc).2)]
  constructor
  · simp only [ok, fits, Mx.poly, if_true]
    rw [(equals_text _ he ha).1]
    simp [textEquals, fit_false, dress, Str.equals, s x hx, s y hy, beq_sym_text]
  · simp only [ok, fits, kind, t.1, t.2, bind_is, map_is]
    simp [kindTest, fit_false, dress, Str.equals, s x hx, s y hy, beq_sym_text]

/-- **C88 is false for a `std::string` with a NUL in it**: what follows the NUL is not compared by
`*Eq(e)`. -/
theorem C88_spaceless_false (x y : List Char) :
    ok (.star (.equals (.str ('a' :: '\x00' :: (x ++ ['b']))))) (.str ('a' :: '\x00' :: (y ++ ['b']))) = .is true := by
  have : ∀ z : List Char, squash ('a' :: '\x00' :: (z ++ ['b'])) = ['a'] := by
    intro z
    have : Str.trim ('a' :: '\x00' :: (z ++ ['b'])) = 'a' :: '\x00' :: (z ++ ['b']) := by
      simp [Str.trim, List.dropWhile, Str.isBlank]
    rw [squash, this]
    simp [cut, List.takeWhile, Str.squashLoop, Str.isBlank]
  simp only [ok, fits, Mx.poly, if_true, equals, toText, map_is, textEquals, dress, this]
  rfl

/-! ### Null pointers -/

/-- **C88 (part).** A null `char*`, or `nullptr`, is not the same as a text - unless the text is
`(null)`. -/
theorem C88_null_actual_partial (e a : Val) (x : List Char) (he : Text e x)
    (ha : a = .nil ∨ ∃ t, a = .chars 0 t) (hx : x ≠ "(null)".toList) :
    ok (.plain e) a = .is false ∧ ok (.equals e) a = .is false ∧ ok (.kind .se e) a = .is false ∧
    ok (.nq e) a = .is true := by
  have t : toText e = .is x := by
    cases e <;> simp only [Text] at he <;> simp [toText, he]
  have ta : toText a = .is nullText := by
    rcases ha with rfl | ⟨t, rfl⟩ <;> rfl
  have hq : ∀ c, equals c e a = .is (textEquals c x nullText) ∧ plain c e a = .is (textEquals c x nullText) := by
    intro c
    have q : equals c e a = .is (textEquals c x nullText) := by
      cases e <;> simp only [Text] at he
      · obtain ⟨hp, rfl⟩ := he
        simp [equals, charsEquals, ta, hp]
      · subst he
        simp [equals, ta, map_is]
    refine ⟨q, ?_⟩
    have b : become e a = .is e := by
      rcases ha with rfl | ⟨t, rfl⟩ <;> cases e <;> simp only [Text] at he <;> rfl
    rw [plain, b, bind_is, q]
  have k : ∀ n, textEquals { neg := n } x nullText = n := by
    intro n
    have : (nullText == x) = false := by
      rw [beq_eq_false_iff_ne]; exact fun h => hx h.symm
    cases n <;> simp [textEquals, dress, Str.equals, this, fit]
  refine ⟨?_, ?_, ?_, ?_⟩
  · rw [ok, fits, (hq _).2]; exact congrArg _ (k false)
  · rw [ok, fits, (hq _).1]; exact congrArg _ (k false)
  · simp only [ok, fits, kind, t, ta, bind_is, map_is]
    exact congrArg _ (k false)
  · rw [ok, fits, (hq _).2]; exact congrArg _ (k true)

example : Text (.str "none".toList) "none".toList ∧ "none".toList ≠ "(null)".toList := ⟨rfl, by decide⟩

/-- **C88 is false for the text `(null)`**: `OK("(null)", p)` passes for a null `p`. -/
theorem C88_null_actual_false (p : Nat) (hp : p ≠ 0) (t : List Char) :
    ok (.plain (.chars p "(null)".toList)) (.chars 0 t) = .is true ∧
    ok (.plain (.str "(null)".toList)) (.chars 0 t) = .is true ∧
    ok (.plain (.chars p "(null)".toList)) .nil = .is true ∧
    okCmp .eq (.chars p "(null)".toList) (.chars 0 t) = .is true := by
  refine ⟨?_, ?_, ?_, ?_⟩ <;>
    simp [ok, okCmp, cmpMatcher, fits, plain, become, bind_is, map_is, equals, charsEquals, toText, hp, textEquals, dress, Str.equals, nullText, fit]

/-- **C88.** A null pointer expected - `nullptr`, a `char*` or any other raw pointer - passes exactly
for null pointers; `OK(nullptr, a)` also for shared ones. -/
theorem C88_null_expected (e a : Val) (n : Nat) (he : Raw e 0) (ha : Raw a n) :
    ok (.plain e) a = .is (decide (n = 0)) ∧ ok (.equals e) a = .is (decide (n = 0)) ∧
    ok (.nq e) a = .is (decide (n ≠ 0)) ∧ ok (.plain .nil) (.smart 0 n) = .is (decide (n = 0)) := by
  have hn : isNull a = decide (n = 0) := by
    cases a <;> simp only [Raw] at ha <;> subst ha <;> first | rfl | simp [isNull]
  have hq : ∀ c, equals c e a = .is (fit c.neg (decide (n = 0))) := by
    intro c
    cases e <;> simp only [Raw] at he
    · simp [equals, hn]
    · subst he
      cases a <;> simp only [Raw] at ha <;> simp [equals, charsEquals, toText, toAddr, hn, map_is]
    · subst he
      cases a <;> simp only [Raw] at ha <;> simp [equals, ptrEquals, toAddr, hn, map_is]
  have hb : ∀ c, plain c e a = .is (fit c.neg (decide (n = 0))) := by
    intro c
    cases e with
    | nil => exact hq c
    | chars p t => cases a <;> simp only [Raw] at ha <;> exact hq c
    | ptr k p =>
      cases a with
      | ptr j q =>
        cases j with
        | none =>
          have h0 : p = 0 := by simpa [Raw] using he.symm
          subst h0
          have : plain c (.ptr k 0) (.ptr none q) = equals c (.ptr k 0) (.ptr none q) := rfl
          rw [this]; exact hq c
        | some j => exact hq c
      | nil => exact hq c
      | chars q t => exact hq c
      | str s => exact ha.elim
      | smart j q => exact ha.elim
      | int t z => exact ha.elim
    | str s => exact he.elim
    | smart k p => exact he.elim
    | int t z => exact he.elim
  refine ⟨?_, ?_, ?_, ?_⟩
  · rw [ok, fits, hb, fit_false]
  · rw [ok, fits, hq, fit_false]
  · rw [ok, fits, hb]
    simp [fit_true]
  · simp [ok, fits, plain, become, bind_is, equals, isNull, fit_false]; rfl

/-- **C88.** A null `char*` expected of a `std::string` is undefined behaviour in `OK(e, a)` and
`OK(e != a)`; with `Eq(e)` and `OK(e == a)` it fails, whatever the text is. -/
theorem C88_null_string_false (t s : List Char) :
    ok (.plain (.chars 0 t)) (.str s) = .ub ∧ okCmp .ne (.chars 0 t) (.str s) = .ub ∧
    ok (.equals (.chars 0 t)) (.str s) = .is false ∧ okCmp .eq (.chars 0 t) (.str s) = .is false ∧
    ok (.plain .nil) (.str s) = .is false := ⟨rfl, rfl, rfl, rfl, rfl⟩

/-! ### Pointers -/

/-- **C88.** Two raw pointers that are not both texts are the same exactly when the addresses are. -/
theorem C88_pointer (e a : Val) (m n : Nat) (he : Raw e m) (ha : Raw a n) (h : NoText e ∨ (NoText a ∧ a ≠ .nil)) :
    ok (.plain e) a = .is (decide (m = n)) ∧ ok (.equals e) a = .is (decide (m = n)) ∧
    ok (.nq e) a = .is (decide (m ≠ n)) := by
  by_cases hm : m = 0
  · subst hm
    obtain ⟨h1, h2, h3, -⟩ := C88_null_expected e a n he ha
    rw [h1, h2, h3]
    simp [eq_comm]
  have hq : ∀ c, equals c e a = .is (fit c.neg (decide (m = n))) := by
    intro c
    have hd : ((n : Int) == (m : Int)) = decide (m = n) := by
      rw [Bool.eq_iff_iff, beq_iff_eq, decide_eq_true_eq]; omega
    have hd0 : n = 0 → ((0 : Int) == (m : Int)) = decide (m = n) := by
      intro h0; subst h0; exact hd
    cases e <;> simp only [Raw] at he
    · exact absurd he hm
    · subst he
      cases a <;> simp only [Raw] at ha <;> simp only [NoText, false_or, false_and, ne_eq, not_true_eq_false, and_false] at h
      subst ha
      simp only [equals, charsEquals, toText, toAddr, map_is, hm, if_false, hd]
    · subst he
      cases a <;> simp only [Raw] at ha <;>
        simp only [equals, ptrEquals, toAddr, map_is, hm, if_false]
      · rw [hd0 ha]
      · subst ha; rw [hd]
      · subst ha; rw [hd]
  have hb : ∀ c, plain c e a = equals c e a := by
    intro c
    cases e with
    | nil => rfl
    | chars p t => cases a <;> simp only [Raw] at ha <;> rfl
    | ptr k p =>
      cases a with
      | ptr j q => cases j <;> rfl
      | nil => rfl
      | chars q t => rfl
      | str s => exact ha.elim
      | smart j q => exact ha.elim
      | int t z => exact ha.elim
    | str s => exact he.elim
    | smart k p => exact he.elim
    | int t z => exact he.elim
  refine ⟨?_, ?_, ?_⟩
  · rw [ok, fits, hb, hq, fit_false]
  · rw [ok, fits, hq, fit_false]
  · rw [ok, fits, hb, hq]; simp [fit_true]

example : Raw (.ptr (some 3) 4096) 4096 ∧ Raw (.chars 4096 "x".toList) 4096 ∧ NoText (.ptr (some 3) 4096) :=
  ⟨rfl, rfl, trivial⟩

/-- **C88.** Two shared pointers to one type are the same exactly when they point to the same. -/
theorem C88_shared (k p q : Nat) :
    ok (.plain (.smart k p)) (.smart k q) = .is (decide (p = q)) ∧
    ok (.plain (.smart k p)) .nil = .is (decide (p = 0)) ∧ ok (.plain .nil) (.smart k p) = .is (decide (p = 0)) := by
  refine ⟨?_, ?_, ?_⟩
  · simp only [ok, fits, plain, become, bind_is, equals, smartEquals, if_true, fit_false]
    congr 1; rw [Bool.eq_iff_iff, beq_iff_eq, decide_eq_true_eq]; exact eq_comm
  · simp only [ok, fits, plain, become, bind_is, equals, smartEquals, fit_false]
    congr 1
  · simp only [ok, fits, plain, become, bind_is, equals, isNull, fit_false]
    congr 1

theorem numberfy_eq {t : ITy} {z : Int} (hz : InRange t z) {n : Nat} (hn : n < 2 ^ 64) :
    numberfy z = (n : Int) ↔ z = n ∨ z + 2 ^ 64 = n := by
  have : -2 ^ 63 ≤ z ∧ z < 2 ^ 64 := by
    cases t with
    | bool => rcases hz with rfl | rfl <;> constructor <;> omega
    | num s w => cases s <;> cases w <;> simp only [InRange, Width.bits] at hz <;> omega
  simp only [numberfy, Typed.wrap, Width.bits, Bool.false_eq_true, if_false]
  omega

/-- **C88.** A pointer and an integer are the same exactly when the integer is the address, or, if
negative, the address less 2⁶⁴: integer expected, pointer actual. -/
theorem C88_number (t : ITy) (ht : t ≠ .bool) (z : Int) (hz : InRange t z) (a : Val) (n : Nat) (hn : n < 2 ^ 64)
    (ha : Pointer a n) :
    ok (.plain (.int t z)) a = .is (decide (z = n ∨ z + 2 ^ 64 = n)) ∧
    ok (.equals (.int t z)) a = .is (decide (z = n ∨ z + 2 ^ 64 = n)) := by
  have hx : toNumber a = .is (n : Int) := by
    cases a <;> simp only [Pointer, Raw] at ha <;> simp [toNumber, ha]
  have hp : become (.int t z) a = .is (.int t z) := by
    cases t with
    | bool => exact absurd rfl ht
    | num s w => cases a <;> simp only [Pointer, Raw] at ha <;> rfl
  have hq : equals {} (.int t z) a = .is (decide (z = n ∨ z + 2 ^ 64 = n)) := by
    cases t with
    | bool => exact absurd rfl ht
    | num s w =>
      simp only [equals, hx, map_is, fit_false]
      congr 1
      rw [Bool.eq_iff_iff, beq_iff_eq, decide_eq_true_eq, numberfy_eq hz hn]
  exact ⟨by rw [ok, fits, plain, hp, bind_is, hq], by rw [ok, fits, hq]⟩

example : Pointer (.smart 2 4096) 4096 ∧ InRange (.num true .w32) 4096 := ⟨rfl, by simp [InRange, Width.bits]⟩

/-- **C88.** Of two integers, the expected one is converted to the type of the actual one: they are the same
exactly when their difference is a multiple of two to the number of its bits. -/
theorem C88_integers (s : Bool) (v : Width) (z : Int) (sg : Bool) (w : Width) (y : Int) (hy : InRange (.num sg w) y) :
    ok (.plain (.int (.num s v) z)) (.int (.num sg w) y) = .is (decide ((z - y) % 2 ^ w.bits = 0)) := by
  have : ok (.plain (.int (.num s v) z)) (.int (.num sg w) y) =
      .is (numberfy (toITy (.num sg w) z) == numberfy y) := by
    simp [ok, fits, plain, become, Res.bind, equals, toNumber, Res.map, fit]
  rw [this]
  congr 1
  rw [Bool.eq_iff_iff, beq_iff_eq, decide_eq_true_eq]
  cases sg <;> cases w <;> simp only [numberfy, toITy, Typed.wrap, Width.bits, InRange, Bool.false_eq_true, if_false, if_true] at hy ⊢ <;> omega

example : ok (.plain (.int (.num true .w32) 300)) (.int (.num false .w8) 44) = .is true := by decide +kernel

/-- **C88.** The same with the pointer expected and the integer actual. -/
theorem C88_number_actual (t : ITy) (ht : t ≠ .bool) (z : Int) (hz : InRange t z) (e : Val) (n : Nat) (hn : n < 2 ^ 64)
    (he : Raw e n) :
    ok (.plain e) (.int t z) = .is (decide (z = n ∨ z + 2 ^ 64 = n)) := by
  have h0 : (z == 0) = decide (z = (0 : Nat) ∨ z + 2 ^ 64 = (0 : Nat)) := by
    have : -2 ^ 63 ≤ z := by
      cases t with
      | bool => exact absurd rfl ht
      | num s w => cases s <;> cases w <;> simp only [InRange, Width.bits] at hz <;> omega
    rw [Bool.eq_iff_iff, beq_iff_eq, decide_eq_true_eq]; omega
  have hN : (numberfy z == (n : Int)) = decide (z = n ∨ z + 2 ^ 64 = n) := by
    rw [Bool.eq_iff_iff, beq_iff_eq, decide_eq_true_eq, numberfy_eq hz hn]
  cases t with
  | bool => exact absurd rfl ht
  | num s w =>
    cases e <;> simp only [Raw] at he
    · subst he
      simp only [ok, fits, plain, become, bind_is, equals, isNull, fit_false, h0]
    · subst he
      simp only [ok, fits, plain, become, bind_is, equals, charsEquals, toText, toAddr, map_is, isNull, fit_false, hN]
      split
      · next h => subst h; rw [h0]
      · rfl
    · subst he
      simp only [ok, fits, plain, become, bind_is, equals, ptrEquals, toAddr, map_is, isNull, fit_false, hN]
      split
      · next h => subst h; rw [h0]
      · rfl

/-- **C88.** `OK(true, p)` passes exactly when the pointer is not null, `OK(false, p)` when it is. -/
theorem C88_truth (b : Int) (hb : InRange .bool b) (a : Val) (n : Nat) (ha : Pointer a n) :
    ok (.plain (.int .bool b)) a = .is (decide (b = 1 ↔ n ≠ 0)) := by
  have ht : truth a = .is (decide (n ≠ 0)) := by
    cases a <;> simp only [Pointer, Raw] at ha <;> subst ha <;> simp [truth, isNull] <;> rfl
  simp only [ok, fits, plain, become, bind_is, equals, ht, map_is, fit_false]
  rcases hb with rfl | rfl <;> simp

/-- **C88.** A pointer expected of a `bool` is taken for "not null": `OK("false", b)` passes when `b`
is true. -/
theorem C88_flag (b : Int) (hb : InRange .bool b) (p : Nat) (hp : p ≠ 0) (t : List Char) (k : Option Nat) :
    ok (.plain (.chars p t)) (.int .bool b) = .is (decide (b = 1)) ∧
    ok (.plain (.ptr k p)) (.int .bool b) = .is (decide (b = 1)) ∧
    ok (.plain (.chars 0 t)) (.int .bool b) = .is (decide (b = 0)) ∧
    ok (.plain (.ptr k 0)) (.int .bool b) = .is (decide (b = 0)) := by
  rcases hb with rfl | rfl <;>
    simp [ok, fits, plain, become, bind_is, equals, truth, isNull, map_is, hp, fit]

/-! ### Order -/

theorem textLt_iff (x y : List Char) : textLt x y = true ↔ Before x y := by
  induction x generalizing y with
  | nil =>
    cases y with
    | nil =>
      simp only [textLt, Before, Bool.false_eq_true, false_iff]
      rintro ⟨p, ⟨h, d, t, h'⟩ | ⟨c, s, d, t, h, -⟩⟩ <;> simp at *
    | cons y t =>
      simp only [textLt, true_iff]
      exact ⟨[], Or.inl ⟨rfl, y, t, rfl⟩⟩
  | cons x s ih =>
    cases y with
    | nil =>
      simp only [textLt, Before, Bool.false_eq_true, false_iff]
      rintro ⟨p, ⟨h, d, t, h'⟩ | ⟨c, s, d, t, h, h', -⟩⟩ <;> simp at *
    | cons y t =>
      simp only [textLt]
      split
      · next h =>
        subst h
        rw [ih]
        constructor
        · rintro ⟨p, ⟨h, d, u, h'⟩ | ⟨c, u, d, v, h, h', hl⟩⟩
          · exact ⟨x :: p, Or.inl ⟨by rw [h], d, u, by rw [h']; rfl⟩⟩
          · exact ⟨x :: p, Or.inr ⟨c, u, d, v, by rw [h]; rfl, by rw [h']; rfl, hl⟩⟩
        · rintro ⟨p, ⟨h, d, u, h'⟩ | ⟨c, u, d, v, h, h', hl⟩⟩
          · cases p with
            | nil => simp at h
            | cons q p =>
              simp only [List.cons.injEq, List.cons_append] at h h'
              exact ⟨p, Or.inl ⟨h.2, d, u, h'.2⟩⟩
          · cases p with
            | nil =>
              simp only [List.nil_append, List.cons.injEq] at h h'
              rw [← h.1, ← h'.1] at hl
              exact absurd hl (by simp)
            | cons q p =>
              simp only [List.cons.injEq, List.cons_append] at h h'
              exact ⟨p, Or.inr ⟨c, u, d, v, h.2, h'.2, hl⟩⟩
      · next hne =>
        simp only [decide_eq_true_eq]
        constructor
        · intro hl
          exact ⟨[], Or.inr ⟨x, s, y, t, rfl, rfl, hl⟩⟩
        · rintro ⟨p, ⟨h, d, u, h'⟩ | ⟨c, u, d, v, h, h', hl⟩⟩
          · cases p with
            | nil => simp at h
            | cons q p =>
              simp only [List.cons.injEq, List.cons_append] at h h'
              exact absurd (h.1.trans h'.1.symm) hne
          · cases p with
            | nil =>
              simp only [List.nil_append, List.cons.injEq] at h h'
              rw [h.1, h'.1]; exact hl
            | cons q p =>
              simp only [List.cons.injEq, List.cons_append] at h h'
              exact absurd (h.1.trans h'.1.symm) hne

/-- **C88.** The order of two texts, at least one of them a `std::string`, is that of a dictionary. -/
theorem C88_order_text (l r : Val) (x y : List Char) (hl : Text l x) (hr : Text r y)
    (h : (∃ s, l = .str s) ∨ ∃ s, r = .str s) :
    (okCmp .lt l r = .is true ↔ Before x y) ∧ (okCmp .gt l r = .is true ↔ Before y x) ∧
    (okCmp .le l r = .is true ↔ ¬ Before y x) ∧ (okCmp .ge l r = .is true ↔ ¬ Before x y) := by
  have ho : ∀ o, order o r l = .is (ordTexts o y x) := by
    intro o
    cases l <;> simp only [Text] at hl
    · obtain ⟨hp, rfl⟩ := hl
      cases r <;> simp only [Text] at hr
      · simp at h
      · subst hr; simp [order, textOf, hp, map_is]
    · subst hl
      cases r <;> simp only [Text] at hr
      · obtain ⟨hp, rfl⟩ := hr
        simp [order, textOf, hp, map_is]
      · subst hr; simp [order, textOf, map_is]
  simp only [okCmp, cmpMatcher, fits, ho, map_is, fit_false, ordTexts, Res.is.injEq, ← textLt_iff, Bool.not_eq_true, Bool.not_eq_true', and_self]

example : Text (.str "b".toList) "b".toList ∧ Text (.chars 8 "a".toList) "a".toList ∧ Before "a".toList "b".toList :=
  ⟨rfl, ⟨by decide, rfl⟩, [], Or.inr ⟨'a', [], 'b', [], rfl, rfl, by decide⟩⟩

/-- **C88 is false of two `char*`**: their order is that of the addresses, whatever the texts are. -/
theorem C88_order_false (p q : Nat) (s t : List Char) :
    okCmp .lt (.chars p s) (.chars q t) = .is (decide (p < q)) ∧
    okCmp .gt (.chars p s) (.chars q t) = .is (decide (q < p)) ∧
    okCmp .le (.chars p s) (.chars q t) = .is (decide (p ≤ q)) ∧
    okCmp .ge (.chars p s) (.chars q t) = .is (decide (q ≤ p)) ∧
    Before "a".toList "b".toList ∧ okCmp .lt (.chars 2 "a".toList) (.chars 1 "b".toList) = .is false := by
  refine ⟨?_, ?_, ?_, ?_, ⟨[], Or.inr ⟨'a', [], 'b', [], rfl, rfl, by decide⟩⟩, rfl⟩ <;>
    simp [okCmp, cmpMatcher, fits, order, map_is, fit_false, Typed.Ord.ints]

/-- **C88.** The order of a null `char*` and a `std::string` is undefined. -/
theorem C88_order_null_false (c : Cmp) (hc : c ≠ .eq ∧ c ≠ .ne) (t s : List Char) :
    okCmp c (.chars 0 t) (.str s) = .ub ∧ okCmp c (.str s) (.chars 0 t) = .ub := by
  cases c <;> first | exact absurd rfl hc.1 | exact absurd rfl hc.2 | exact ⟨rfl, rfl⟩

/-- **C88.** The order of two pointers - of the same type, or one of them a `void*`; or shared, to the
same type, one of them possibly `nullptr` - is that of the addresses. -/
theorem C88_order_pointer (l r : Val) (p q : Nat)
    (h : (∃ k, l = .ptr k p ∧ r = .ptr k q) ∨ (∃ k, l = .ptr k p ∧ r = .ptr none q) ∨ (∃ k, l = .ptr none p ∧ r = .ptr k q) ∨
      (∃ t, l = .ptr none p ∧ r = .chars q t) ∨ (∃ t, l = .chars p t ∧ r = .ptr none q) ∨
      (∃ k, l = .smart k p ∧ r = .smart k q) ∨ (∃ k, l = .smart k p ∧ r = .nil ∧ q = 0) ∨ ∃ k, l = .nil ∧ p = 0 ∧ r = .smart k q) :
    okCmp .lt l r = .is (decide (p < q)) ∧ okCmp .gt l r = .is (decide (q < p)) ∧
    okCmp .le l r = .is (decide (p ≤ q)) ∧ okCmp .ge l r = .is (decide (q ≤ p)) := by
  rcases h with ⟨k, rfl, rfl⟩ | ⟨k, rfl, rfl⟩ | ⟨k, rfl, rfl⟩ | ⟨t, rfl, rfl⟩ | ⟨t, rfl, rfl⟩ | ⟨k, rfl, rfl⟩ | ⟨k, rfl, rfl, rfl⟩ |
      ⟨k, rfl, rfl, rfl⟩ <;>
    refine ⟨?_, ?_, ?_, ?_⟩ <;>
    simp [okCmp, cmpMatcher, fits, order, comparable, toAddr, bind_is, map_is, fit_false, Typed.Ord.ints] <;> omega

example : okCmp .lt (.ptr (some 1) 8) (.ptr none 16) = .is true ∧ okCmp .lt (.ptr (some 1) 8) (.ptr (some 2) 16) = .ill := ⟨rfl, rfl⟩

/-! ### Parts of texts -/

/-- **C88.** `Se`, `Substr`, `StartsWith` and `EndsWith` with two texts of any of the types say whether
they are the same, or one is a part, the beginning or the end of the other. -/
theorem C88_parts (k : Kind) (e a : Val) (x y : List Char) (he : Text e x) (ha : Text a y) :
    (ok (.kind k e) a = .is true ↔ Str.Relation k x y) ∧ (ok (.kind k e) a = .is false ↔ ¬ Str.Relation k x y) := by
  have t : toText e = .is x ∧ toText a = .is y := by
    constructor
    · cases e <;> simp only [Text] at he <;> simp [toText, he]
    · cases a <;> simp only [Text] at ha <;> simp [toText, ha]
  have h : kindTest k {} x y = Str.strTest k x false false y := by cases k <;> rfl
  have hs := Str.strTest_plain k x y false
  simp only [Bool.false_eq_true, if_false] at hs
  simp only [ok, fits, kind, t.1, t.2, bind_is, map_is, fit_false, h, Res.is.injEq, ← hs]
  simp

example : Str.Relation .startsWith "he".toList "hello".toList ∧ Text (.chars 8 "he".toList) "he".toList :=
  ⟨⟨"llo".toList, by decide⟩, by decide, rfl⟩

/-! ### All of them -/

theorem textEquals_not (c : Cfg) (e a : List Char) :
    textEquals { c with neg := !c.neg } e a = !textEquals c e a := by
  simp [textEquals, fit_not]

theorem equals_not (c : Cfg) (e a : Val) :
    equals { c with neg := !c.neg } e a = (equals c e a).map (!·) := by
  have mm : ∀ {α : Type} (r : Res α) (f g : α → Bool), (∀ x, f x = !g x) → r.map f = (r.map g).map (!·) := by
    intro α r f g h
    cases r <;> simp [Res.map, h]
  cases e with
  | nil => simp [equals, fit_not, map_is]
  | chars p t =>
    simp only [equals, charsEquals]
    split
    · simp only [map_is, textEquals_not, fit_not]; split <;> rfl
    · apply mm; intro x; simp only [fit_not]; split <;> rfl
  | str s => simp only [equals]; apply mm; intro x; exact textEquals_not c s x
  | ptr k p => simp only [equals, ptrEquals]; apply mm; intro x; simp only [fit_not]; split <;> rfl
  | smart k p =>
    simp only [equals, smartEquals, fit_not]
    cases a <;> simp only <;> first | rfl | (split <;> rfl)
  | int t z =>
    cases t with
    | bool => simp only [equals]; apply mm; intro x; exact fit_not _ _
    | num s w => simp only [equals]; apply mm; intro x; exact fit_not _ _

theorem plain_not (c : Cfg) (e a : Val) :
    plain { c with neg := !c.neg } e a = (plain c e a).map (!·) := by
  simp only [plain]
  cases become e a with
  | is v => simp only [bind_is]; exact equals_not c v a
  | ub => rfl
  | ill => rfl

theorem kind_not (k : Kind) (c : Cfg) (e a : Val) :
    kind k { c with neg := !c.neg } e a = (kind k c e a).map (!·) := by
  simp only [kind]
  have : ∀ t s, kindTest k { c with neg := !c.neg } t s = kindTest k c t s := by intro t s; cases k <;> rfl
  cases toText e with
  | is t =>
    cases toText a with
    | is s => simp [bind_is, map_is, fit_not, this]
    | ub => rfl
    | ill => rfl
  | ub => rfl
  | ill => rfl

theorem fits_not (m : Mx) : ∀ (a : Val) (c : Cfg), fits m a { c with neg := !c.neg } = (fits m a c).map (!·) := by
  induction m with
  | plain e => intro a c; exact plain_not c e a
  | equals e => intro a c; exact equals_not c e a
  | nq e => intro a c; simp only [fits]; exact plain_not { c with neg := !c.neg } e a
  | ord o e =>
    intro a c
    simp only [fits]
    cases order o a e <;> simp [Res.map, fit_not]
  | kind k e => intro a c; exact kind_not k c e a
  | caseLess k e => intro a c; exact kind_not k { c with caseless := true } e a
  | spaceLess k e => intro a c; exact kind_not k { c with squashed := true } e a
  | not m ih => intro a c; simp only [fits]; exact ih a { c with neg := !c.neg }
  | bang m ih => intro a c; simp only [fits]; split; exact ih a { c with neg := !c.neg }; rfl
  | tilde m ih => intro a c; simp only [fits]; split; exact ih a { c with caseless := true }; rfl
  | star m ih => intro a c; simp only [fits]; split; exact ih a { c with squashed := true }; rfl

/-- **C88.** `Not(m)`, `!m` and `KO` say the opposite, for all these matchers and values. -/
theorem C88_opposite (m : Mx) (a : Val) :
    ok (.not m) a = (ok m a).map (!·) ∧ ko m a = (ok m a).map (!·) ∧
    (m.poly = true → ok (.bang m) a = (ok m a).map (!·)) := by
  refine ⟨fits_not m a {}, rfl, ?_⟩
  intro h
  simp only [ok, fits, h, if_true]
  exact fits_not m a {}

/-- **C88.** Which pairs of types `OK(e, a)` takes; all others do not compile. -/
theorem C88_takes (e a : Val) : ok (.plain e) a ≠ .ill ↔ Takes e a := by
  cases e with
  | nil => simp [ok, fits, plain, become, bind_is, equals, Takes]
  | chars p t =>
    cases a with
    | int s z =>
      cases s <;> simp [ok, fits, plain, become, bind_is, equals, charsEquals, toText, toAddr, map_is, Takes, truth]
    | str s =>
      by_cases hp : p = 0 <;> simp [ok, fits, plain, become, bind_is, equals, toText, map_is, Takes, hp] <;> simp [Res.bind]
    | _ => simp [ok, fits, plain, become, bind_is, equals, charsEquals, toText, toAddr, map_is, Takes] <;> simp [Res.map]
  | str s =>
    cases a <;> simp [ok, fits, plain, become, bind_is, equals, toText, map_is, Takes] <;> simp [Res.map]
  | ptr k p =>
    cases a with
    | int s z =>
      cases s <;> simp [ok, fits, plain, become, bind_is, equals, ptrEquals, toAddr, map_is, Takes, truth]
    | ptr j q =>
      cases j <;> simp [ok, fits, plain, become, bind_is, equals, ptrEquals, toAddr, map_is, Takes, Raw]
    | _ => simp [ok, fits, plain, become, bind_is, equals, ptrEquals, toAddr, map_is, Takes, Raw] <;> simp [Res.map]
  | smart k p =>
    cases a with
    | smart j q =>
      by_cases h : j = k <;> simp [ok, fits, plain, become, bind_is, equals, smartEquals, Takes, h]
    | _ => simp [ok, fits, plain, become, bind_is, equals, smartEquals, Takes]
  | int t z =>
    cases t with
    | bool =>
      cases a <;> simp [ok, fits, plain, become, bind_is, equals, truth, map_is, Takes] <;> simp [Res.map]
    | num s w =>
      cases a with
      | int u y => cases u <;> simp [ok, fits, plain, become, bind_is, equals, toNumber, truth, map_is, Takes]
      | _ => simp [ok, fits, plain, become, bind_is, equals, toNumber, map_is, Takes] <;> simp [Res.map]

end H2.Ptr
