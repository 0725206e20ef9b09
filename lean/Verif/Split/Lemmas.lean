import Verif.Split.Model
import Verif.Split.Spec
namespace H2.Split
open H2.Filter (isspace stripLeft)

theorem dropWhile_spec (p : Char → Bool) (l : List Char) :
    (∃ b, l = b ++ l.dropWhile p ∧ ∀ c ∈ b, p c = true) ∧ ∀ c, (l.dropWhile p).head? = some c → p c = false := by
  induction l with
  | nil => exact ⟨⟨[], by simp⟩, by simp⟩
  | cons x r ih =>
    cases hx : p x with
    | true =>
      obtain ⟨⟨b, hb, hc⟩, hd⟩ := ih
      simp only [List.dropWhile_cons, hx, if_true]
      refine ⟨⟨x :: b, by rw [List.cons_append, ← hb], ?_⟩, hd⟩
      intro c hm
      rcases List.mem_cons.1 hm with rfl | hm
      · exact hx
      · exact hc c hm
    | false =>
      simp only [List.dropWhile_cons, hx]
      exact ⟨⟨[], by simp⟩, by simp [hx]⟩

theorem isspace_iff (c : Char) : isspace c = true ↔ c ∈ blanks := by
  have key : ∀ d : Char, c = d ↔ c.toNat = d.toNat := fun d => ⟨fun e => e ▸ rfl, fun e => Char.ext (UInt32.toNat_inj.1 e)⟩
  simp only [isspace, blanks, List.mem_cons, List.not_mem_nil, or_false, Bool.or_eq_true, Bool.and_eq_true, decide_eq_true_eq,
    beq_iff_eq, key]
  have e1 : (' ' : Char).toNat = 32 := rfl
  have e2 : ('\t' : Char).toNat = 9 := rfl
  have e3 : ('\n' : Char).toNat = 10 := rfl
  have e4 : (Char.ofNat 11).toNat = 11 := rfl
  have e5 : (Char.ofNat 12).toNat = 12 := rfl
  have e6 : ('\r' : Char).toNat = 13 := rfl
  rw [e1, e2, e3, e4, e5, e6]
  omega

theorem isspace_false (c : Char) : isspace c = false ↔ c ∉ blanks := by
  rw [← isspace_iff]; simp

theorem trimmed (l r : List Char) : Trimmed l r (stripRight l) (stripLeft r) := by
  obtain ⟨⟨b, hb, hc⟩, hd⟩ := dropWhile_spec isspace l.reverse
  obtain ⟨⟨b', hb', hc'⟩, hd'⟩ := dropWhile_spec isspace r
  refine ⟨⟨b.reverse, ?_, fun c hm => (isspace_iff c).1 (hc c (by simpa using hm))⟩, ?_,
    ⟨b', hb', fun c hm => (isspace_iff c).1 (hc' c hm)⟩, fun c hm => (isspace_false c).1 (hd' c hm)⟩
  · unfold stripRight
    rw [← List.reverse_append, ← hb, List.reverse_reverse]
  · intro c hm
    unfold stripRight at hm
    rw [List.getLast?_reverse] at hm
    exact (isspace_false c).1 (hd c hm)

theorem findTwo_quoted {op : List Char} {s : List Char} (hs : '"' ∉ s) (r : List Char) :
    findTwo op true (s ++ '"' :: r) = (findTwo op true ('"' :: r)).map (· + s.length) := by
  induction s with
  | nil => simp
  | cons c s ih =>
    have h1 : c ≠ '"' := fun e => hs (by simp [e])
    have := ih fun h => hs (List.mem_cons_of_mem _ h)
    simp only [List.cons_append]
    rw [findTwo]
    simp only [h1, if_false, Bool.not_true, Bool.false_and, Bool.false_eq_true, List.length_cons]
    rw [this]
    cases findTwo op true ('"' :: r) <;> simp [Nat.add_assoc]

theorem findTwo_literal {op : List Char} (hop : op.head? ≠ some '"') (ho : op ≠ []) {s : List Char} (hs : '"' ∉ s) (r : List Char) :
    findTwo op false ('"' :: (s ++ '"' :: r)) = (findTwo op false r).map (· + (s.length + 2)) := by
  rw [findTwo]
  simp only [if_true, Bool.not_false, Bool.not_true, Bool.false_and, Bool.false_eq_true, if_false]
  rw [findTwo_quoted hs, findTwo]
  have : op.isPrefixOf ('"' :: r) = false := by
    cases op with
    | nil => exact absurd rfl ho
    | cons x y =>
      have : x ≠ '"' := fun e => hop (by simp [e])
      simp [List.isPrefixOf, this]
  simp only [if_true, Bool.not_true, Bool.not_false, this, Bool.and_false, Bool.false_eq_true, if_false]
  cases findTwo op false r <;> simp
  omega

theorem prefix_mono {op l : List Char} (c : Char) (t : List Char) (h : op.length = 2) :
    op <+: (c :: l ++ (op ++ t)) → op <+: (c :: l ++ op) := by
  rcases op with _ | ⟨x, _ | ⟨y, _ | _⟩⟩ <;> simp at h
  rcases l with _ | ⟨d, l⟩ <;> simp [List.cons_prefix_cons]

theorem findTwo_clear {op l : List Char} (h2 : op.length = 2) (hop : op.head? ≠ some '"') (h : Clear op l) (t : List Char) :
    findTwo op false (l ++ (op ++ t)) = some l.length := by
  have ho : op ≠ [] := by intro e; simp [e] at h2
  induction h with
  | nothing =>
    cases op with
    | nil => exact absurd rfl ho
    | cons x y =>
      have hx : x ≠ '"' := fun e => hop (by simp [e])
      simp only [List.nil_append, List.cons_append]
      rw [findTwo]
      have : (x :: y).isPrefixOf (x :: (y ++ t)) = true := by
        rw [List.isPrefixOf_iff_prefix, ← List.cons_append]
        exact List.prefix_append _ _
      simp only [hx, if_false, Bool.not_false, Bool.true_and, this, if_true, List.length_nil]
  | @plain c r hc hp _ ih =>
    simp only [List.cons_append]
    rw [findTwo]
    have : op.isPrefixOf (c :: (r ++ (op ++ t))) = false := by
      rw [Bool.eq_false_iff]
      intro e
      rw [List.isPrefixOf_iff_prefix, ← List.cons_append] at e
      exact hp (prefix_mono c t h2 e)
    simp only [hc, if_false, Bool.not_false, Bool.true_and, this, Bool.false_eq_true, ih, Option.map_some, List.length_cons]
  | @literal s r hs _ ih =>
    simp only [List.cons_append, List.append_assoc]
    rw [findTwo_literal hop ho hs, ih]
    simp only [Option.map_some, List.length_cons, List.length_append]
    congr 1
    omega

theorem findTwo_none {op l : List Char} (ho : op ≠ []) (hop : op.head? ≠ some '"') (h : Without op l) :
    findTwo op false l = none := by
  induction h with
  | nothing => rfl
  | @plain c r hc hp _ ih =>
    rw [findTwo]
    have : op.isPrefixOf (c :: r) = false := by
      rw [Bool.eq_false_iff]
      intro e
      exact hp (List.isPrefixOf_iff_prefix.1 e)
    simp only [hc, if_false, Bool.not_false, Bool.true_and, this, Bool.false_eq_true, ih, Option.map_none]
  | literal hs _ ih => rw [findTwo_literal hop ho hs, ih]; rfl

theorem findTwo_sound {op : List Char} {q : Bool} {l : List Char} {k : Nat} (h : findTwo op q l = some k) :
    ∃ t, l = l.take k ++ op ++ t ∧ k ≤ l.length := by
  induction l generalizing q k with
  | nil => simp [findTwo] at h
  | cons c r ih =>
    rw [findTwo] at h
    generalize (if c = '"' then !q else q) = q' at h
    split at h
    · rename_i hc
      simp only [Option.some.injEq] at h
      subst h
      simp only [Bool.and_eq_true, List.isPrefixOf_iff_prefix] at hc
      obtain ⟨t, ht⟩ := hc.2
      exact ⟨t, by simp [ht], by simp⟩
    · cases hf : findTwo op q' r with
      | none => simp [hf] at h
      | some m =>
        simp only [hf, Option.map_some, Option.some.injEq] at h
        subst h
        obtain ⟨t, ht, hk⟩ := ih hf
        exact ⟨t, by simpa using ht, by simpa using hk⟩

/- the loop for `>` -/

theorem findGreater_quoted {s : List Char} (hs : '"' ∉ s) (k : Nat) (r : List Char) :
    findGreater true k (s ++ '"' :: r) = (findGreater false k r).map (· + (s.length + 1)) := by
  induction s with
  | nil =>
    simp only [List.nil_append]
    rw [findGreater]
    simp
  | cons c s ih =>
    have h1 : c ≠ '"' := fun e => hs (by simp [e])
    have := ih fun h => hs (List.mem_cons_of_mem _ h)
    simp only [List.cons_append]
    rw [findGreater]
    simp only [h1, if_false, Bool.not_true, Bool.false_and, Bool.false_eq_true, List.length_cons]
    rw [this]
    cases findGreater false k r <;> simp [Nat.add_assoc]

theorem findGreater_balanced {l : List Char} (h : Balanced l) (k : Nat) (t : List Char) :
    findGreater false k (l ++ t) = (findGreater false k t).map (· + l.length) := by
  induction h generalizing k t with
  | nothing => simp
  | @plain c r h1 h2 h3 _ ih =>
    simp only [List.cons_append]
    rw [findGreater]
    simp only [h1, h2, h3, if_false, Bool.not_false, Bool.true_and, decide_false, Bool.false_eq_true, List.length_cons]
    rw [ih]
    cases findGreater false k t <;> simp [Nat.add_assoc]
  | @literal s r hs _ ih =>
    simp only [List.cons_append, List.append_assoc]
    rw [findGreater]
    simp only [if_true, Bool.not_false, Bool.not_true, Bool.false_and, Bool.false_eq_true, if_false]
    rw [findGreater_quoted hs, ih]
    cases findGreater false k t <;> simp [Nat.add_assoc, Nat.add_comm, Nat.add_left_comm]
  | @angled b r _ _ ih1 ih2 =>
    simp only [List.cons_append, List.append_assoc]
    rw [findGreater]
    simp only [show ('<' : Char) ≠ '"' by decide, show ('<' : Char) ≠ '>' by decide, if_false, Bool.not_false, Bool.true_and,
      decide_true, decide_false, if_true, Bool.false_eq_true]
    rw [ih1, findGreater]
    simp only [show ('>' : Char) ≠ '"' by decide, show ('>' : Char) ≠ '<' by decide, if_false, Bool.not_false, Bool.true_and,
      decide_true, decide_false, if_true, Bool.false_eq_true, Nat.succ_ne_zero, Nat.add_sub_cancel]
    rw [ih2]
    cases findGreater false k t <;> simp [Nat.add_assoc, Nat.add_comm, Nat.add_left_comm]

theorem findGreater_sound {q : Bool} {n : Nat} {l : List Char} {k : Nat} (h : findGreater q n l = some k) :
    ∃ t, l = l.take k ++ '>' :: t := by
  induction l generalizing q n k with
  | nil => simp [findGreater] at h
  | cons c r ih =>
    rw [findGreater] at h
    generalize (if c = '"' then !q else q) = q' at h
    generalize (if (!q' && decide (c = '<')) = true then n + 1 else n) = n' at h
    have step : ∀ m, (findGreater q' m r).map (· + 1) = some k → ∃ t, c :: r = (c :: r).take k ++ '>' :: t := by
      intro m hm
      cases hf : findGreater q' m r with
      | none => simp [hf] at hm
      | some j =>
        simp only [hf, Option.map_some, Option.some.injEq] at hm
        subst hm
        obtain ⟨t, ht⟩ := ih hf
        exact ⟨t, by simpa using ht⟩
    split at h
    · rename_i hc
      simp only [Bool.and_eq_true, decide_eq_true_eq] at hc
      split at h
      · simp only [Option.some.injEq] at h
        subst h
        exact ⟨r, by simp [hc.2]⟩
      · exact step _ h
    · exact step _ h

/- the loop for `<` -/

theorem findLess_quoted {s : List Char} (hs : '"' ∉ s) (k : Nat) (r : List Char) :
    findLess true k (s ++ '"' :: r) = (findLess false k r).map (· + (s.length + 1)) := by
  induction s with
  | nil =>
    simp only [List.nil_append]
    rw [findLess]
    simp
  | cons c s ih =>
    have h1 : c ≠ '"' := fun e => hs (by simp [e])
    have := ih fun h => hs (List.mem_cons_of_mem _ h)
    simp only [List.cons_append]
    rw [findLess]
    simp only [h1, if_false, Bool.not_true, Bool.false_and, Bool.false_eq_true, List.length_cons]
    rw [this]
    cases findLess false k r <;> simp [Nat.add_assoc]

theorem findLess_balanced {l : List Char} (h : Balanced l) (k : Nat) (t : List Char) :
    findLess false k (l.reverse ++ t) = (findLess false k t).map (· + l.length) := by
  induction h generalizing k t with
  | nothing => simp
  | @plain c r h1 h2 h3 _ ih =>
    simp only [List.reverse_cons, List.append_assoc, List.singleton_append, List.length_cons]
    rw [ih, findLess]
    simp only [h1, h2, h3, if_false, Bool.not_false, Bool.true_and, decide_false, Bool.false_eq_true]
    cases findLess false k t <;> simp [Nat.add_assoc, Nat.add_comm, Nat.add_left_comm]
  | @literal s r hs _ ih =>
    simp only [List.reverse_cons, List.reverse_append, List.append_assoc, List.singleton_append, List.length_cons, List.length_append]
    rw [ih]
    show Option.map _ (findLess false k ('"' :: (s.reverse ++ '"' :: t))) = _
    rw [findLess]
    simp only [if_true, Bool.not_false, Bool.not_true, Bool.false_and, Bool.false_eq_true, if_false]
    rw [findLess_quoted (by simpa using hs)]
    cases findLess false k t <;> simp [Nat.add_assoc, Nat.add_comm, Nat.add_left_comm]
  | @angled b r _ _ ih1 ih2 =>
    simp only [List.reverse_cons, List.reverse_append, List.append_assoc, List.singleton_append, List.length_cons, List.length_append]
    rw [ih2]
    show Option.map _ (findLess false k ('>' :: (b.reverse ++ '<' :: t))) = _
    rw [findLess]
    simp only [show ('>' : Char) ≠ '"' by decide, show ('>' : Char) ≠ '<' by decide, if_false, Bool.not_false, Bool.true_and,
      decide_true, decide_false, if_true, Bool.false_eq_true]
    rw [ih1, findLess]
    simp only [show ('<' : Char) ≠ '"' by decide, show ('<' : Char) ≠ '>' by decide, if_false, Bool.not_false, Bool.true_and,
      decide_true, decide_false, if_true, Bool.false_eq_true, Nat.succ_ne_zero, Nat.add_sub_cancel]
    cases findLess false k t <;> simp [Nat.add_assoc, Nat.add_comm, Nat.add_left_comm]

theorem findLess_sound {q : Bool} {n : Nat} {l : List Char} {k : Nat} (h : findLess q n l = some k) :
    ∃ t, l = l.take k ++ '<' :: t := by
  induction l generalizing q n k with
  | nil => simp [findLess] at h
  | cons c r ih =>
    rw [findLess] at h
    generalize (if c = '"' then !q else q) = q' at h
    generalize (if (!q' && decide (c = '>')) = true then n + 1 else n) = n' at h
    have step : ∀ m, (findLess q' m r).map (· + 1) = some k → ∃ t, c :: r = (c :: r).take k ++ '<' :: t := by
      intro m hm
      cases hf : findLess q' m r with
      | none => simp [hf] at hm
      | some j =>
        simp only [hf, Option.map_some, Option.some.injEq] at hm
        subst hm
        obtain ⟨t, ht⟩ := ih hf
        exact ⟨t, by simpa using ht⟩
    split at h
    · rename_i hc
      simp only [Bool.and_eq_true, decide_eq_true_eq] at hc
      split at h
      · simp only [Option.some.injEq] at h
        subst h
        exact ⟨r, by simp [hc.2]⟩
      · exact step _ h
    · exact step _ h

end H2.Split
