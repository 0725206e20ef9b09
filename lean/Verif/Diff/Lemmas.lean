import Verif.Diff.Model
import Verif.Diff.Spec
namespace H2.Diff

/-! ### Alignments -/

/-- An alignment of two texts and its cost. -/
inductive Align : List Char → List Char → Nat → Prop
  | nil : Align [] [] 0
  | keep {s t n} (x : Char) : Align s t n → Align (x :: s) (x :: t) n
  | sub {s t n} (x y : Char) : Align s t n → Align (x :: s) (y :: t) (n + 1)
  | ins {s t n} (y : Char) : Align s t n → Align s (y :: t) (n + 1)
  | del {s t n} (x : Char) : Align s t n → Align (x :: s) t (n + 1)

theorem align_refl (s : List Char) : Align s s 0 := by
  induction s with
  | nil => exact .nil
  | cons x s ih => exact .keep x ih

theorem align_append {a b c d : List Char} {n m : Nat} (h1 : Align a b n) (h2 : Align c d m) :
    Align (a ++ c) (b ++ d) (n + m) := by
  induction h1 with
  | nil => simpa using h2
  | keep x _ ih => exact .keep x ih
  | sub x y _ ih => rw [Nat.add_right_comm]; exact .sub x y ih
  | ins y _ ih => rw [Nat.add_right_comm]; exact .ins y ih
  | del x _ ih => rw [Nat.add_right_comm]; exact .del x ih

theorem align_reverse {s t : List Char} {n : Nat} (h : Align s t n) : Align s.reverse t.reverse n := by
  induction h with
  | nil => exact .nil
  | keep x _ ih => rw [List.reverse_cons, List.reverse_cons]; exact align_append ih (.keep x .nil)
  | sub x y _ ih => rw [List.reverse_cons, List.reverse_cons]; exact align_append ih (.sub x y .nil)
  | ins y _ ih =>
    rw [List.reverse_cons]
    simpa using align_append ih (.ins y .nil)
  | del x _ ih =>
    rw [List.reverse_cons]
    simpa using align_append ih (.del x .nil)

theorem align_sym {s t : List Char} {n : Nat} (h : Align s t n) : Align t s n := by
  induction h with
  | nil => exact .nil
  | keep x _ ih => exact .keep x ih
  | sub x y _ ih => exact .sub y x ih
  | ins y _ ih => exact .del y ih
  | del x _ ih => exact .ins x ih

/-- Alignments compose. -/
theorem align_trans {s t u : List Char} {n m : Nat} (h1 : Align s t n) (h2 : Align t u m) :
    ∃ k, k ≤ n + m ∧ Align s u k := by
  induction h2 generalizing s n with
  | nil => exact ⟨n, by omega, h1⟩
  | ins y _ ih =>
    obtain ⟨k, hk, h⟩ := ih h1
    exact ⟨k + 1, by omega, .ins y h⟩
  | keep x h2' ih =>
    rename_i t u m
    generalize ht : x :: t = t' at h1
    induction h1 with
    | nil => simp at ht
    | keep y h _ =>
      injection ht with e1 e2; subst e1; subst e2
      obtain ⟨k, hk, h⟩ := ih h; exact ⟨k, by omega, .keep _ h⟩
    | sub y z h _ =>
      injection ht with e1 e2; subst e1; subst e2
      obtain ⟨k, hk, h⟩ := ih h; exact ⟨k + 1, by omega, .sub _ _ h⟩
    | ins y h _ =>
      injection ht with e1 e2; subst e1; subst e2
      obtain ⟨k, hk, h⟩ := ih h; exact ⟨k + 1, by omega, .ins _ h⟩
    | del y _ ih2 =>
      obtain ⟨k, hk, h⟩ := ih2 ht; exact ⟨k + 1, by omega, .del _ h⟩
  | sub x y h2' ih =>
    rename_i t u m
    generalize ht : x :: t = t' at h1
    induction h1 with
    | nil => simp at ht
    | keep z h _ =>
      injection ht with e1 e2; subst e1; subst e2
      obtain ⟨k, hk, h⟩ := ih h; exact ⟨k + 1, by omega, .sub _ _ h⟩
    | sub z w h _ =>
      injection ht with e1 e2; subst e1; subst e2
      obtain ⟨k, hk, h⟩ := ih h; exact ⟨k + 1, by omega, .sub _ _ h⟩
    | ins z h _ =>
      injection ht with e1 e2; subst e1; subst e2
      obtain ⟨k, hk, h⟩ := ih h; exact ⟨k + 1, by omega, .ins _ h⟩
    | del z _ ih2 =>
      obtain ⟨k, hk, h⟩ := ih2 ht; exact ⟨k + 1, by omega, .del _ h⟩
  | del x h2' ih =>
    rename_i t u m
    generalize ht : x :: t = t' at h1
    induction h1 with
    | nil => simp at ht
    | keep z h _ =>
      injection ht with e1 e2; subst e1; subst e2
      obtain ⟨k, hk, h⟩ := ih h; exact ⟨k + 1, by omega, .del _ h⟩
    | sub z w h _ =>
      injection ht with e1 e2; subst e1; subst e2
      obtain ⟨k, hk, h⟩ := ih h; exact ⟨k + 1, by omega, .del _ h⟩
    | ins z h _ =>
      injection ht with e1 e2; subst e1; subst e2
      obtain ⟨k, hk, h⟩ := ih h; exact ⟨k, by omega, h⟩
    | del z _ ih2 =>
      obtain ⟨k, hk, h⟩ := ih2 ht; exact ⟨k + 1, by omega, .del _ h⟩

theorem edit_align {s t : List Char} (h : Edit s t) : Align s t 1 := by
  cases h with
  | ins a b x => simpa using align_append (align_refl a) (.ins x (align_refl b))
  | del a b x => simpa using align_append (align_refl a) (.del x (align_refl b))
  | sub a b x y => simpa using align_append (align_refl a) (.sub x y (align_refl b))

theorem edits_align {n : Nat} {s t : List Char} (h : Edits n s t) : ∃ k, k ≤ n ∧ Align s t k := by
  induction h with
  | done s => exact ⟨0, by omega, align_refl s⟩
  | more _ h ih =>
    obtain ⟨k, hk, hk2⟩ := ih
    obtain ⟨j, hj, hj2⟩ := align_trans hk2 (edit_align h)
    exact ⟨j, by omega, hj2⟩

theorem edit_cons {s t : List Char} (x : Char) (h : Edit s t) : Edit (x :: s) (x :: t) := by
  cases h with
  | ins a b y => exact .ins (x :: a) b y
  | del a b y => exact .del (x :: a) b y
  | sub a b y z => exact .sub (x :: a) b y z

theorem edits_cons {n : Nat} {s t : List Char} (x : Char) (h : Edits n s t) : Edits n (x :: s) (x :: t) := by
  induction h with
  | done s => exact .done _
  | more _ h ih => exact .more ih (edit_cons x h)

theorem align_edits {n : Nat} {s t : List Char} (h : Align s t n) : Edits n s t := by
  induction h with
  | nil => exact .done []
  | keep x _ ih => exact edits_cons x ih
  | sub x y _ ih => exact .more (edits_cons x ih) (.sub [] _ x y)
  | ins y _ ih => exact .more ih (.ins [] _ y)
  | del x _ ih => exact .more (edits_cons x ih) (.del [] _ x)

/-- The least cost of an alignment. -/
def Least (s t : List Char) (n : Nat) : Prop := Align s t n ∧ ∀ m, Align s t m → n ≤ m

theorem least_distance {s t : List Char} {n : Nat} (h : Least s t n) : IsDistance s t n := by
  refine ⟨align_edits h.1, fun m hm => ?_⟩
  obtain ⟨k, hk, hk2⟩ := edits_align hm
  have := h.2 k hk2
  omega

theorem least_nil_left (t : List Char) : Least [] t t.length := by
  constructor
  · induction t with
    | nil => exact .nil
    | cons y t ih => exact .ins y ih
  · intro m hm
    generalize hs : ([] : List Char) = s at hm
    induction hm with
    | nil => simp
    | ins y _ ih => have := ih hs; simp; omega
    | _ => simp at hs

theorem align_snoc_cases {s t : List Char} {x y : Char} {m : Nat} (h : Align (s ++ [x]) (t ++ [y]) m) :
    (x = y ∧ Align s t m) ∨ (∃ k, m = k + 1 ∧ (Align s t k ∨ Align (s ++ [x]) t k ∨ Align s (t ++ [y]) k)) := by
  have hr := align_reverse h
  rw [List.reverse_append, List.reverse_append] at hr
  simp only [List.reverse_cons, List.reverse_nil, List.nil_append, List.singleton_append] at hr
  clear h
  generalize ha : x :: s.reverse = a at hr
  generalize hb : y :: t.reverse = b at hr
  cases hr with
  | nil => simp at ha
  | keep z h =>
    injection ha with a1 a2; injection hb with b1 b2
    left; refine ⟨a1.trans b1.symm, ?_⟩
    have := align_reverse h
    rw [← a2, ← b2, List.reverse_reverse, List.reverse_reverse] at this; exact this
  | sub z w h =>
    injection ha with a1 a2; injection hb with b1 b2
    right; refine ⟨_, rfl, Or.inl ?_⟩
    have := align_reverse h
    rw [← a2, ← b2, List.reverse_reverse, List.reverse_reverse] at this; exact this
  | ins z h =>
    injection hb with b1 b2
    right; refine ⟨_, rfl, Or.inr (Or.inl ?_)⟩
    have := align_reverse h
    rw [← ha, ← b2] at this
    simpa using this
  | del z h =>
    injection ha with a1 a2
    right; refine ⟨_, rfl, Or.inr (Or.inr ?_)⟩
    have := align_reverse h
    rw [← hb, ← a2] at this
    simpa using this

/-- The recurrence of the table. -/
theorem least_snoc {s t : List Char} {x y : Char} {a b c : Nat} (h1 : Least (s ++ [x]) t a) (h2 : Least s (t ++ [y]) b)
    (h3 : Least s t c) :
    Least (s ++ [x]) (t ++ [y]) (min (min (1 + a) (1 + b)) (c + (if x = y then 0 else 1))) := by
  have ha : Align (s ++ [x]) (t ++ [y]) (1 + a) := by
    have := align_append h1.1 (.ins y .nil); simp at this; rwa [Nat.add_comm]
  have hb : Align (s ++ [x]) (t ++ [y]) (1 + b) := by
    have := align_append h2.1 (.del x .nil); simp at this; rwa [Nat.add_comm]
  have hc : Align (s ++ [x]) (t ++ [y]) (c + (if x = y then 0 else 1)) := by
    split
    · rename_i h; subst h; exact align_append h3.1 (.keep x .nil)
    · exact align_append h3.1 (.sub x y .nil)
  constructor
  · rcases Nat.le_total (min (1 + a) (1 + b)) (c + (if x = y then 0 else 1)) with h | h
    · rw [Nat.min_eq_left h]
      rcases Nat.le_total (1 + a) (1 + b) with h' | h'
      · rw [Nat.min_eq_left h']; exact ha
      · rw [Nat.min_eq_right h']; exact hb
    · rw [Nat.min_eq_right h]; exact hc
  · intro m hm
    rcases align_snoc_cases hm with ⟨he, h⟩ | ⟨k, hk, h | h | h⟩
    · have := h3.2 m h; rw [if_pos he]; omega
    · have := h3.2 k h; split <;> omega
    · have := h1.2 k h; omega
    · have := h2.2 k h; omega

/-- The column after the row of `x`: distances of `s ++ [x]` to the prefixes of `t0 ++ t`. -/
theorem colLoop_spec (caseless : Bool) (x : Char) (s t0 : List Char) (t : List Char) (left : Nat) (prev : List Nat)
    (hleft : Least (folded caseless (s ++ [x])) (folded caseless t0) left)
    (hlen : prev.length = t.length + 1)
    (hprev : ∀ j, j ≤ t.length → ∃ v, prev[j]? = some v ∧ Least (folded caseless s) (folded caseless (t0 ++ t.take j)) v) :
    (colLoop caseless x left t prev).length = t.length ∧
    ∀ j, j < t.length → ∃ v, (colLoop caseless x left t prev)[j]? = some v ∧
      Least (folded caseless (s ++ [x])) (folded caseless (t0 ++ t.take (j + 1))) v := by
  induction t generalizing t0 left prev with
  | nil => simp [colLoop]
  | cons y t ih =>
    match prev, hlen with
    | p0 :: p1 :: ps, hlen =>
      have e0 : Least (folded caseless s) (folded caseless t0) p0 := by
        obtain ⟨v, h1, h2⟩ := hprev 0 (by simp)
        simp at h1 h2; subst h1; exact h2
      have e1 : Least (folded caseless s) (folded caseless (t0 ++ [y])) p1 := by
        obtain ⟨v, h1, h2⟩ := hprev 1 (by simp)
        simp at h1 h2; subst h1; exact h2
      have hv : Least (folded caseless (s ++ [x])) (folded caseless (t0 ++ [y]))
          (min (min (1 + left) (1 + p1)) (p0 + (if charEq caseless x y then 0 else 1))) := by
        cases caseless
        · simp only [folded, charEq, Bool.false_eq_true, if_false, beq_iff_eq] at *
          exact least_snoc hleft e1 e0
        · simp only [folded, charEq, if_true, beq_iff_eq, List.map_append, List.map_cons, List.map_nil] at *
          exact least_snoc hleft e1 e0
      rw [colLoop]
      have hlen' : (p1 :: ps).length = t.length + 1 := by simp at hlen ⊢; omega
      have := ih (t0 ++ [y]) _ (p1 :: ps) hv hlen' (by
        intro j hj
        obtain ⟨v, h1, h2⟩ := hprev (j + 1) (by simp; omega)
        refine ⟨v, by simpa using h1, ?_⟩
        rw [List.append_assoc]; simpa using h2)
      refine ⟨by rw [List.length_cons, List.length_cons]; exact congrArg (· + 1) this.1, ?_⟩
      intro j hj
      cases j with
      | zero => exact ⟨_, List.getElem?_cons_zero, by simpa using hv⟩
      | succ j =>
        obtain ⟨v, h1, h2⟩ := this.2 j (by simp at hj; omega)
        refine ⟨v, by simpa using h1, ?_⟩
        rw [List.append_assoc] at h2; simpa using h2
    | [], hlen => simp at hlen
    | [_], hlen => simp at hlen

/-- `prev` holds the distances of `s` to all prefixes of `t`. -/
def Holds (caseless : Bool) (s t : List Char) (prev : List Nat) : Prop :=
  prev.length = t.length + 1 ∧
  ∀ j, j ≤ t.length → ∃ v, prev[j]? = some v ∧ Least (folded caseless s) (folded caseless (t.take j)) v

theorem folded_length (b : Bool) (s : List Char) : (folded b s).length = s.length := by
  cases b <;> simp [folded]

theorem folded_nil (b : Bool) : folded b [] = [] := by cases b <;> rfl

theorem least_nil_right (t : List Char) : Least t [] t.length :=
  ⟨align_sym (least_nil_left t).1, fun m hm => (least_nil_left t).2 m (align_sym hm)⟩

theorem rowLoop_spec (caseless : Bool) (t s0 s : List Char) (prev : List Nat) (h : Holds caseless s0 t prev) :
    Holds caseless (s0 ++ s) t (rowLoop caseless t s s0.length prev) := by
  induction s generalizing s0 prev with
  | nil => simpa [rowLoop] using h
  | cons x s ih =>
    rw [rowLoop]
    have hcol := colLoop_spec caseless x s0 [] t (s0.length + 1) prev (by
        rw [folded_nil]
        have := least_nil_right (folded caseless (s0 ++ [x]))
        rw [folded_length] at this; simpa using this) h.1 (by simpa using h.2)
    have hnew : Holds caseless (s0 ++ [x]) t ((s0.length + 1) :: colLoop caseless x (s0.length + 1) t prev) := by
      refine ⟨by simp [hcol.1], ?_⟩
      intro j hj
      cases j with
      | zero =>
        refine ⟨s0.length + 1, by simp, ?_⟩
        rw [List.take_zero, folded_nil]
        have := least_nil_right (folded caseless (s0 ++ [x]))
        rw [folded_length] at this; simpa using this
      | succ j =>
        obtain ⟨v, h1, h2⟩ := hcol.2 j (by omega)
        exact ⟨v, by simpa using h1, by simpa using h2⟩
    have := ih (s0 ++ [x]) _ hnew
    simpa using this

theorem levenshtein_least (caseless : Bool) (s t : List Char) :
    ∃ n, levenshtein caseless s t = some n ∧ Least (folded caseless s) (folded caseless t) n := by
  have h0 : Holds caseless [] t (List.range (t.length + 1)) := by
    refine ⟨by simp, ?_⟩
    intro j hj
    refine ⟨j, by simp [List.getElem?_range (show j < t.length + 1 by omega)], ?_⟩
    rw [folded_nil]
    have := least_nil_left (folded caseless (t.take j))
    rw [folded_length, List.length_take, Nat.min_eq_left hj] at this
    exact this
  have := rowLoop_spec caseless t [] s _ h0
  simp only [List.nil_append, List.length_nil] at this
  obtain ⟨v, h1, h2⟩ := this.2 t.length (by omega)
  exact ⟨v, h1, by simpa using h2⟩

end H2.Diff
