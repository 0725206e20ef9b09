import Verif.Diff.Model
import Verif.Diff.Spec
namespace H2.Diff
variable {α : Type} (eq : α → α → Bool) (s1 s2 : List α)

/-- The value each cell of the matrix ends up with. -/
def T : Nat → Nat → Cell
  | 0, _ => {}
  | _ + 1, 0 => {}
  | i + 1, j + 1 =>
    if eqAt eq s1 s2 i j then { c := (T i j).c + 1, e := true }
    else if (T i (j + 1)).c > (T (i + 1) j).c then { c := (T i (j + 1)).c, e := false }
    else { c := (T (i + 1) j).c, e := false }
  termination_by i j => i + j

theorem T_zero_right (i : Nat) : T eq s1 s2 i 0 = {} := by cases i <;> simp [T]
theorem T_zero_left (j : Nat) : T eq s1 s2 0 j = {} := by simp [T]

theorem calcRow_spec (m : Mat) (i : Nat) (hm : ∀ a b, a ≤ i → b ≤ s2.length → m a b = T eq s1 s2 a b)
    (h0 : ∀ a, m a 0 = {}) (j : Nat) (hj : j ≤ s2.length) :
    (∀ a b, a ≤ i → b ≤ s2.length → calcRow eq s1 s2 m (i + 1) j a b = T eq s1 s2 a b) ∧
    (∀ b, b ≤ j → calcRow eq s1 s2 m (i + 1) j (i + 1) b = T eq s1 s2 (i + 1) b) ∧
    (∀ a, calcRow eq s1 s2 m (i + 1) j a 0 = {}) := by
  induction j with
  | zero =>
    refine ⟨hm, ?_, h0⟩
    intro b hb
    have : b = 0 := by omega
    subst this
    rw [T_zero_right]; exact h0 _
  | succ j ih =>
    obtain ⟨i1, i2, i3⟩ := ih (by omega)
    rw [calcRow]
    generalize hr : calcRow eq s1 s2 m (i + 1) j = r at i1 i2 i3
    have hcell : ∀ a b, calcCell eq s1 s2 r (i + 1) (j + 1) a b =
        if a = i + 1 ∧ b = j + 1 then T eq s1 s2 (i + 1) (j + 1) else r a b := by
      intro a b
      unfold calcCell
      have e1 := i1 i j (by omega) (by omega)
      have e2 := i1 i (j + 1) (by omega) (by omega)
      have e3 := i2 j (by omega)
      simp only [Nat.add_sub_cancel, e1, e2, e3, Mat.set]
      rw [T]
      split
      · rfl
      · split <;> rfl
    refine ⟨?_, ?_, ?_⟩
    · intro a b ha hb
      rw [hcell, if_neg (by omega)]; exact i1 a b ha hb
    · intro b hb
      rw [hcell]
      by_cases h : b = j + 1
      · rw [if_pos ⟨rfl, h⟩, h]
      · rw [if_neg (by omega)]; exact i2 b (by omega)
    · intro a
      rw [hcell, if_neg (by omega)]; exact i3 a

theorem fillTo_spec (i : Nat) :
    (∀ a b, a ≤ i → b ≤ s2.length → fillTo eq s1 s2 i a b = T eq s1 s2 a b) ∧ (∀ a, fillTo eq s1 s2 i a 0 = {}) := by
  induction i with
  | zero =>
    refine ⟨?_, fun _ => rfl⟩
    intro a b ha _
    have : a = 0 := by omega
    subst this
    rw [T_zero_left]; rfl
  | succ i ih =>
    have := calcRow_spec eq s1 s2 (fillTo eq s1 s2 i) i ih.1 ih.2 s2.length (Nat.le_refl _)
    rw [fillTo]
    refine ⟨?_, this.2.2⟩
    intro a b ha hb
    by_cases h : a = i + 1
    · subst h; exact this.2.1 b hb
    · exact this.1 a b (by omega) hb

/-! ### Upper bound -/

theorem same_length {u v : List α} (h : Same eq u v) : u.length = v.length := by
  induction h with
  | nil => rfl
  | cons _ _ ih => simp [ih]

theorem same_snoc {u v : List α} {x y : α} : Same eq (u ++ [x]) (v ++ [y]) ↔ Same eq u v ∧ eq x y = true := by
  induction u generalizing v with
  | nil =>
    cases v with
    | nil =>
      constructor
      · intro h; cases h with | cons h1 _ => exact ⟨.nil, h1⟩
      · rintro ⟨_, h⟩; exact .cons h .nil
    | cons b v =>
      constructor
      · intro h; have := same_length eq h; simp at this
      · rintro ⟨h, _⟩; have := same_length eq h; simp at this
  | cons a u ih =>
    cases v with
    | nil =>
      constructor
      · intro h; have := same_length eq h; simp at this
      · rintro ⟨h, _⟩; have := same_length eq h; simp at this
    | cons b v =>
      constructor
      · intro h
        cases h with
        | cons h1 h2 => obtain ⟨h3, h4⟩ := ih.1 h2; exact ⟨.cons h1 h3, h4⟩
      · rintro ⟨h, h4⟩
        cases h with
        | cons h1 h3 => exact .cons h1 (ih.2 ⟨h3, h4⟩)

theorem sublist_snoc {l u : List α} {x : α} (h : u.Sublist (l ++ [x])) :
    u.Sublist l ∨ ∃ u', u = u' ++ [x] ∧ u'.Sublist l := by
  rw [List.sublist_append_iff] at h
  obtain ⟨a, b, h1, h2, h3⟩ := h
  have : b = [] ∨ b = [x] := by
    cases h3 with
    | cons _ h => left; simpa using h
    | cons_cons _ h => right; simp at h; simp [h]
  rcases this with hb | hb
  · left; rw [h1, hb, List.append_nil]; exact h2
  · right; exact ⟨a, by rw [h1, hb], h2⟩

theorem take_succ' {l : List α} {i : Nat} (h : i < l.length) : l.take (i + 1) = l.take i ++ [l[i]] := by
  rw [List.take_add_one, List.getElem?_eq_getElem h]; rfl

theorem eqAt_get {i j : Nat} (h1 : i < s1.length) (h2 : j < s2.length) : eqAt eq s1 s2 i j = eq s1[i] s2[j] := by
  simp [eqAt, List.getElem?_eq_getElem h1, List.getElem?_eq_getElem h2]

theorem upper (i j : Nat) (hi : i ≤ s1.length) (hj : j ≤ s2.length) (u v : List α) (hu : u.Sublist (s1.take i))
    (hv : v.Sublist (s2.take j)) (h : Same eq u v) : u.length ≤ (T eq s1 s2 i j).c := by
  match i, j with
  | 0, j => simp at hu; simp [hu]
  | i + 1, 0 =>
    simp at hv; subst hv
    have := same_length eq h; simp at this; simp [this]
  | i + 1, j + 1 =>
    have hi' : i < s1.length := by omega
    have hj' : j < s2.length := by omega
    rw [take_succ' hi'] at hu
    rw [take_succ' hj'] at hv
    rw [T]
    split
    · rename_i he
      -- drop the last pair
      rcases List.eq_nil_or_concat u with hn | ⟨u', x, hx⟩
      · simp [hn]
      · rcases List.eq_nil_or_concat v with hn' | ⟨v', y, hy⟩
        · have := same_length eq h; simp [hn', hx] at this
        · rw [List.concat_eq_append] at hx hy
          have hs := ((same_snoc eq).1 (hx ▸ hy ▸ h)).1
          have hu' : u'.Sublist (s1.take i) := by
            rcases sublist_snoc hu with h1 | ⟨w, h1, h2⟩
            · exact (hx ▸ List.sublist_append_left u' [x]).trans h1
            · have := (List.append_inj' (hx.symm.trans h1) rfl).1
              rw [this]; exact h2
          have hv' : v'.Sublist (s2.take j) := by
            rcases sublist_snoc hv with h1 | ⟨w, h1, h2⟩
            · exact (hy ▸ List.sublist_append_left v' [y]).trans h1
            · have := (List.append_inj' (hy.symm.trans h1) rfl).1
              rw [this]; exact h2
          have := upper i j (by omega) (by omega) u' v' hu' hv' hs
          rw [hx]; simp; exact this
    · rename_i he
      rw [eqAt_get eq s1 s2 hi' hj'] at he
      have key : u.length ≤ (T eq s1 s2 i (j + 1)).c ∨ u.length ≤ (T eq s1 s2 (i + 1) j).c := by
        rcases sublist_snoc hu with h1 | ⟨w, h1, h2⟩
        · left
          exact upper i (j + 1) (by omega) hj u v h1 (by rw [take_succ' hj']; exact hv) h
        · rcases sublist_snoc hv with h3 | ⟨w', h3, h4⟩
          · right
            exact upper (i + 1) j hi (by omega) u v (by rw [take_succ' hi']; exact hu) h3 h
          · rw [h1, h3] at h
            exact absurd ((same_snoc eq).1 h).2 he
      split <;> (rename_i hgt; simp only; omega)
termination_by i + j

/-! ### The traceback -/

/-- Row `a` (counted from 0) carries a mark. -/
def rowMark (marks : List (Nat × Nat)) (n2 a : Nat) : Bool :=
  (List.range n2).any (fun j => marks.contains (a + 1, j + 1))
/-- Column `b` carries a mark. -/
def colMark (marks : List (Nat × Nat)) (n1 b : Nat) : Bool :=
  (List.range n1).any (fun i => marks.contains (i + 1, b + 1))

/-- The elements of the first `i` of `s` whose index satisfies `f`. -/
def pick (f : Nat → Bool) (s : List α) (i : Nat) : List α := marked ((List.range i).map f) (s.take i)

theorem marked_append {l l' : List Bool} {s s' : List α} (h : l.length = s.length) :
    marked (l ++ l') (s ++ s') = marked l s ++ marked l' s' := by
  simp [marked, List.zip_append h]

theorem pick_succ (f : Nat → Bool) (s : List α) (i : Nat) (h : i < s.length) :
    pick f s (i + 1) = pick f s i ++ (if f i then [s[i]] else []) := by
  unfold pick
  rw [List.range_succ, List.map_append, take_succ' h, marked_append (by simp; omega)]
  congr 1
  by_cases hf : f i <;> simp [marked, hf]

theorem pick_congr (f g : Nat → Bool) (s : List α) (i : Nat) (h : ∀ a, a < i → f a = g a) : pick f s i = pick g s i := by
  unfold pick
  congr 1
  apply List.map_congr_left
  intro a ha
  exact h a (by simpa using ha)

theorem rowMark_iff (marks : List (Nat × Nat)) (n2 a : Nat) :
    rowMark marks n2 a = true ↔ ∃ j, j < n2 ∧ (a + 1, j + 1) ∈ marks := by
  simp [rowMark]

theorem colMark_iff (marks : List (Nat × Nat)) (n1 b : Nat) :
    colMark marks n1 b = true ↔ ∃ i, i < n1 ∧ (i + 1, b + 1) ∈ marks := by
  simp [colMark]

theorem traceback_congr (m m' : Mat) (i j : Nat) (h : ∀ a b, a ≤ i → b ≤ j → m a b = m' a b) :
    traceback m i j = traceback m' i j := by
  match i, j with
  | 0, _ => simp [traceback]
  | i + 1, 0 => simp [traceback]
  | i + 1, j + 1 =>
    rw [traceback, traceback, h (i+1) (j+1) (by omega) (by omega), h i j (by omega) (by omega),
      h i (j+1) (by omega) (by omega), h (i+1) j (by omega) (by omega),
      traceback_congr m m' i j (fun a b ha hb => h a b (by omega) (by omega)),
      traceback_congr m m' i (j+1) (fun a b ha hb => h a b (by omega) (by omega)),
      traceback_congr m m' (i+1) j (fun a b ha hb => h a b (by omega) (by omega))]
termination_by i + j

/-- What the traceback from `(i, j)` yields. -/
structure Trace (i j : Nat) (marks : List (Nat × Nat)) : Prop where
  within : ∀ p ∈ marks, p.1 ≤ i ∧ p.2 ≤ j
  same : Same eq (pick (rowMark marks s2.length) s1 i) (pick (colMark marks s1.length) s2 j)
  count : (pick (rowMark marks s2.length) s1 i).length = (T eq s1 s2 i j).c

theorem marked_sublist (l : List Bool) (s : List α) : (marked l s).Sublist s := by
  induction l generalizing s with
  | nil => simp [marked]
  | cons b l ih =>
    cases s with
    | nil => simp [marked]
    | cons x s =>
      have := ih s
      cases b
      · exact List.Sublist.cons x (by simpa [marked] using this)
      · simpa [marked] using this

theorem pick_sublist (f : Nat → Bool) (s : List α) (i : Nat) : (pick f s i).Sublist (s.take i) := marked_sublist _ _

theorem rowMark_cons (p : Nat × Nat) (marks : List (Nat × Nat)) (n2 a : Nat) (h : p.1 ≠ a + 1) :
    rowMark (p :: marks) n2 a = rowMark marks n2 a := by
  rw [Bool.eq_iff_iff, rowMark_iff, rowMark_iff]
  constructor
  · rintro ⟨j, h1, h2⟩
    rcases List.mem_cons.1 h2 with h2 | h2
    · rw [← h2] at h; simp at h
    · exact ⟨j, h1, h2⟩
  · rintro ⟨j, h1, h2⟩; exact ⟨j, h1, List.mem_cons_of_mem _ h2⟩

theorem colMark_cons (p : Nat × Nat) (marks : List (Nat × Nat)) (n1 b : Nat) (h : p.2 ≠ b + 1) :
    colMark (p :: marks) n1 b = colMark marks n1 b := by
  rw [Bool.eq_iff_iff, colMark_iff, colMark_iff]
  constructor
  · rintro ⟨i, h1, h2⟩
    rcases List.mem_cons.1 h2 with h2 | h2
    · rw [← h2] at h; simp at h
    · exact ⟨i, h1, h2⟩
  · rintro ⟨i, h1, h2⟩; exact ⟨i, h1, List.mem_cons_of_mem _ h2⟩

theorem rowMark_out (marks : List (Nat × Nat)) (n2 i j : Nat) (h : ∀ p ∈ marks, p.1 ≤ i ∧ p.2 ≤ j) :
    rowMark marks n2 i = false := by
  rw [Bool.eq_false_iff]
  intro hc
  obtain ⟨k, _, hk⟩ := (rowMark_iff _ _ _).1 hc
  have := (h _ hk).1
  simp at this; omega

theorem colMark_out (marks : List (Nat × Nat)) (n1 i j : Nat) (h : ∀ p ∈ marks, p.1 ≤ i ∧ p.2 ≤ j) :
    colMark marks n1 j = false := by
  rw [Bool.eq_false_iff]
  intro hc
  obtain ⟨k, _, hk⟩ := (colMark_iff _ _ _).1 hc
  have := (h _ hk).2
  simp at this; omega

theorem T_e (i j : Nat) : (T eq s1 s2 (i + 1) (j + 1)).e = eqAt eq s1 s2 i j := by
  rw [T]
  split
  · rename_i h; simp [h]
  · rename_i h
    split <;> simpa using h

theorem trace_ok (i j : Nat) (hi : i ≤ s1.length) (hj : j ≤ s2.length) :
    Trace eq s1 s2 i j (traceback (T eq s1 s2) i j) := by
  match i, j with
  | 0, j =>
    have e : traceback (T eq s1 s2) 0 j = [] := by simp [traceback]
    rw [e]
    have hc : ∀ b, colMark [] s1.length b = false := fun b => by simp [colMark]
    have : pick (colMark [] s1.length) s2 j = [] := by
      unfold pick
      rw [show (List.range j).map (colMark [] s1.length) = (List.range j).map (fun _ => false) from
        List.map_congr_left (fun a _ => hc a)]
      generalize s2.take j = t
      clear hj e
      induction (List.range j) generalizing t with
      | nil => simp [marked]
      | cons a l ih => cases t with
        | nil => simp [marked]
        | cons x t => simpa [marked] using ih t
    exact ⟨by simp, by rw [this]; exact .nil, by simp [pick, marked, T_zero_left]⟩
  | i + 1, 0 =>
    have e : traceback (T eq s1 s2) (i + 1) 0 = [] := by simp [traceback]
    rw [e]
    have hr : ∀ a, rowMark [] s2.length a = false := fun a => by simp [rowMark]
    have : pick (rowMark [] s2.length) s1 (i + 1) = [] := by
      unfold pick
      rw [show (List.range (i+1)).map (rowMark [] s2.length) = (List.range (i+1)).map (fun _ => false) from
        List.map_congr_left (fun a _ => hr a)]
      generalize s1.take (i + 1) = t
      clear hi e
      induction (List.range (i + 1)) generalizing t with
      | nil => simp [marked]
      | cons a l ih => cases t with
        | nil => simp [marked]
        | cons x t => simpa [marked] using ih t
    exact ⟨by simp, by rw [this]; exact .nil, by simp [this, T_zero_right]⟩
  | i + 1, j + 1 =>
    have hi' : i < s1.length := by omega
    have hj' : j < s2.length := by omega
    rw [traceback]
    split
    · have ih := trace_ok i j (by omega) (by omega)
      split
      · rename_i he
        rw [T_e] at he
        generalize traceback (T eq s1 s2) i j = ms at ih
        refine ⟨?_, ?_, ?_⟩
        · intro p hp
          rcases List.mem_cons.1 hp with hp | hp
          · rw [hp]; exact ⟨Nat.le_refl _, Nat.le_refl _⟩
          · have := ih.within p hp; omega
        · rw [pick_succ _ _ _ hi', pick_succ _ _ _ hj']
          have h1 : rowMark ((i + 1, j + 1) :: ms) s2.length i = true :=
            (rowMark_iff _ _ _).2 ⟨j, hj', by simp⟩
          have h2 : colMark ((i + 1, j + 1) :: ms) s1.length j = true :=
            (colMark_iff _ _ _).2 ⟨i, hi', by simp⟩
          rw [h1, h2, if_pos rfl, if_pos rfl, same_snoc,
            pick_congr _ (rowMark ms s2.length) s1 i (fun a ha => rowMark_cons _ _ _ _ (by simp; omega)),
            pick_congr _ (colMark ms s1.length) s2 j (fun a ha => colMark_cons _ _ _ _ (by simp; omega))]
          exact ⟨ih.same, by rw [← eqAt_get eq s1 s2 hi' hj']; exact he⟩
        · rw [pick_succ _ _ _ hi']
          have h1 : rowMark ((i + 1, j + 1) :: ms) s2.length i = true :=
            (rowMark_iff _ _ _).2 ⟨j, hj', by simp⟩
          rw [h1, if_pos rfl,
            pick_congr _ (rowMark ms s2.length) s1 i (fun a ha => rowMark_cons _ _ _ _ (by simp; omega)),
            List.length_append, ih.count, T, if_pos he]
          rfl
      · rename_i hor hne
        have hne' : ¬ eqAt eq s1 s2 i j = true := by rw [← T_e]; exact hne
        simp only [T_e, hne', Bool.false_or, Bool.and_eq_true, decide_eq_true_eq, ge_iff_le] at hor
        have hup := upper eq s1 s2 (i + 1) (j + 1) hi hj _ _
          ((pick_sublist (rowMark (traceback (T eq s1 s2) i j) s2.length) s1 i).trans
            (List.take_sublist_take_left (by omega)))
          ((pick_sublist (colMark (traceback (T eq s1 s2) i j) s1.length) s2 j).trans
            (List.take_sublist_take_left (by omega))) ih.same
        rw [ih.count] at hup
        have hc : (T eq s1 s2 (i + 1) (j + 1)).c = (T eq s1 s2 i j).c := by
          have : (T eq s1 s2 (i + 1) (j + 1)).c ≤ (T eq s1 s2 i j).c := by
            rw [T, if_neg hne']
            split
            · exact hor.1
            · exact hor.2
          omega
        generalize traceback (T eq s1 s2) i j = ms at ih
        have h1 := rowMark_out ms s2.length i j ih.within
        have h2 := colMark_out ms s1.length i j ih.within
        refine ⟨fun p hp => by have := ih.within p hp; omega, ?_, ?_⟩
        · rw [pick_succ _ _ _ hi', pick_succ _ _ _ hj', h1, h2]
          simpa using ih.same
        · rw [pick_succ _ _ _ hi', h1, hc]
          simpa using ih.count
    · rename_i hor
      simp only [T_e, Bool.or_eq_true, not_or] at hor
      split
      · rename_i hgt
        have ih := trace_ok i (j + 1) (by omega) hj
        generalize traceback (T eq s1 s2) i (j + 1) = ms at ih
        have h1 := rowMark_out ms s2.length i (j + 1) ih.within
        refine ⟨fun p hp => by have := ih.within p hp; omega, ?_, ?_⟩
        · rw [pick_succ _ _ _ hi', h1]
          simpa using ih.same
        · rw [pick_succ _ _ _ hi', h1, T, if_neg hor.1, if_pos hgt]
          simpa using ih.count
      · rename_i hgt
        have ih := trace_ok (i + 1) j hi (by omega)
        generalize traceback (T eq s1 s2) (i + 1) j = ms at ih
        have h2 := colMark_out ms s1.length (i + 1) j ih.within
        refine ⟨fun p hp => by have := ih.within p hp; omega, ?_, ?_⟩
        · rw [pick_succ _ s2 _ hj', h2]
          simpa using ih.same
        · rw [T, if_neg hor.1, if_neg hgt]
          exact ih.count
termination_by i + j

theorem lcs_eq : lcs eq s1 s2 =
    ((List.range s1.length).map (rowMark (traceback (T eq s1 s2) s1.length s2.length) s2.length),
     (List.range s2.length).map (colMark (traceback (T eq s1 s2) s1.length s2.length) s1.length)) := by
  unfold lcs
  rw [traceback_congr _ (T eq s1 s2) _ _ (fun a b ha hb => (fillTo_spec eq s1 s2 s1.length).1 a b ha hb)]
  rfl

end H2.Diff
