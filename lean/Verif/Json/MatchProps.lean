import Verif.Json.MatchSpec
/-
C11, C12: JE.
-/
namespace H2.Json

theorem equals_iff (s t c) : H2.Str.equals s t c = true ↔ SameText c s t := by
  unfold H2.Str.equals SameText H2.Str.lower
  cases c <;> simp
  intro h; rw [h]

theorem sameText_symm {c s t} (h : SameText c s t) : SameText c t s := by
  rcases h with h | ⟨h, e⟩
  · exact .inl h.symm
  · exact .inr ⟨h, e.symm⟩

theorem sameText_refl (c s) : SameText c s s := .inl rfl

theorem sameText_trans {c s t u} (h : SameText c s t) (h' : SameText c t u) : SameText c s u := by
  rcases h with rfl | ⟨h, e⟩
  · exact h'
  · rcases h' with rfl | ⟨_, e'⟩
    · exact .inr ⟨h, e⟩
    · exact .inr ⟨h, e.trans e'⟩

theorem close_iff (v e a) : close v e a = true ↔ Near v e a := by
  unfold close Near
  cases e <;> cases a <;> simp
  rename_i p q
  cases h : v.fl (p - q) <;> simp
  rename_i d
  split <;> grind

theorem getIndex_nat {α : Type} (l : List α) (i : Nat) : getIndex l (i : Int) = l[i]? := by
  have h : ¬ (i : Int) < 0 := by omega
  simp only [getIndex, h, if_false, Int.toNat_natCast]

theorem matchArray_iff (v c) : ∀ (l : List Json) (n : Nat) (a : List Json),
    matchArray v c l n a = true ↔ ∀ i (h : i < l.length), ∃ x, a[n + i]? = some x ∧ matches? v c l[i] x = true
  | [], n, a => by simp [matchArray]
  | p :: l, n, a => by
    simp only [matchArray, Bool.and_eq_true, matchArray_iff v c l, getIndex_nat]
    constructor
    · rintro ⟨h1, h2⟩ i hi
      cases i with
      | zero =>
        simp only [Nat.add_zero, List.getElem_cons_zero]
        cases hx : a[n]? with
        | none => simp [hx] at h1
        | some x => exact ⟨x, rfl, by simpa [hx] using h1⟩
      | succ i =>
        obtain ⟨x, hx, hm⟩ := h2 i (by simpa using hi)
        exact ⟨x, by rw [← hx]; congr 1; omega, by simpa using hm⟩
    · intro h
      constructor
      · obtain ⟨x, hx, hm⟩ := h 0 (by simp)
        simp only [Nat.add_zero] at hx
        simpa [hx] using hm
      · intro i hi
        obtain ⟨x, hx, hm⟩ := h (i + 1) (by simpa using hi)
        exact ⟨x, by rw [← hx]; congr 1; omega, by simpa using hm⟩

theorem matchObject_iff (v c) : ∀ (l a : List (Str × Json)),
    matchObject v c l a = true ↔ ∀ m ∈ l, ∃ x, getKey a m.1 c = some x ∧ matches? v c m.2 x = true
  | [], a => by simp [matchObject]
  | (k, p) :: l, a => by
    simp only [matchObject, Bool.and_eq_true, matchObject_iff v c l, List.forall_mem_cons]
    refine and_congr ?_ Iff.rfl
    cases h : getKey a k c <;> simp

theorem getKey_iff (a : List (Str × Json)) (k c x) :
    getKey a k c = some x ↔ ∃ i : Fin a.length, a[i].2 = x ∧ SameText c a[i].1 k ∧
      ∀ j : Fin a.length, j < i → ¬ SameText c a[j].1 k := by
  simp only [getKey, Option.map_eq_some_iff, List.find?_eq_some_iff_getElem, equals_iff]
  constructor
  · rintro ⟨m, ⟨hm, i, hi, rfl, hj⟩, rfl⟩
    refine ⟨⟨i, hi⟩, rfl, hm, fun j hji => ?_⟩
    have := hj j.1 hji
    rw [Bool.not_eq_true', ← Bool.not_eq_true, equals_iff] at this
    exact this
  · rintro ⟨i, rfl, hm, hj⟩
    refine ⟨a[i], ⟨hm, i.1, i.2, rfl, fun j hji => ?_⟩, rfl⟩
    rw [Bool.not_eq_true', ← Bool.not_eq_true, equals_iff]
    exact hj ⟨j, by omega⟩ hji

mutual
theorem matches_sound (v c) : ∀ (e a : Json), matches? v c e a = true → Match v c e a
  | .absent, a => by simp [matches?]
  | .null, a => by cases a <;> simp [matches?]; exact .null
  | .bool b, a => by cases a <;> simp [matches?]; rintro rfl; exact .bool _
  | .num d, a => by cases a <;> simp [matches?]; intro h; exact .num _ _ ((close_iff _ _ _).mp h)
  | .str s, a => by cases a <;> simp [matches?]; intro h; exact .str _ _ ((equals_iff _ _ _).mp h)
  | .pat s, a => by cases a <;> simp [matches?]; intro h; exact .pat _ _ h
  | .arr l, a => by
    cases a with
    | arr l' =>
      simp only [matches?, Bool.and_eq_true, beq_iff_eq, matchArray_iff]
      rintro ⟨hl, h⟩
      refine .arr l l' hl fun i => ?_
      obtain ⟨x, hx, hm⟩ := h i.1 i.2
      have : l'[i.1]'(hl ▸ i.2) = x := by
        simp only [Nat.zero_add] at hx
        exact (List.getElem?_eq_some_iff.mp hx).2
      rw [this]
      exact arr_sound v c l i.1 i.2 x hm
    | _ => simp [matches?]
  | .obj l, a => by
    cases a with
    | obj l' =>
      simp only [matches?, Bool.and_eq_true, matchObject_iff, Bool.not_eq_true', decide_eq_false_iff_not, Nat.not_lt, gt_iff_lt]
      rintro ⟨hl, h⟩
      have h' : ∀ i : Fin l.length, ∃ j : Fin l'.length, (SameText c l'[j].1 l[i].1 ∧
          ∀ j' : Fin l'.length, j' < j → ¬ SameText c l'[j'].1 l[i].1) ∧ matches? v c l[i].2 l'[j].2 = true := by
        intro i
        obtain ⟨x, hx, hm⟩ := h l[i] (List.getElem_mem _)
        obtain ⟨j, rfl, h1, h2⟩ := (getKey_iff _ _ _ _).mp hx
        exact ⟨j, ⟨h1, h2⟩, hm⟩
      let at' := fun i => (h' i).choose
      have hat := fun i => (h' i).choose_spec
      exact .obj l l' at' hl (fun i => (hat i).1.1) (fun i => (hat i).1.2)
        (fun i => obj_sound v c l i.1 i.2 _ (hat i).2)
    | _ => simp [matches?]
theorem arr_sound (v c) : ∀ (l : List Json) (i) (h : i < l.length) (x), matches? v c l[i] x = true → Match v c l[i] x
  | [], i, h, x => by simp at h
  | p :: l, 0, h, x => matches_sound v c p x
  | p :: l, i + 1, h, x => arr_sound v c l i (by simpa using h) x
theorem obj_sound (v c) : ∀ (l : List (Str × Json)) (i) (h : i < l.length) (x),
    matches? v c l[i].2 x = true → Match v c l[i].2 x
  | [], i, h, x => by simp at h
  | (k, p) :: l, 0, h, x => matches_sound v c p x
  | p :: l, i + 1, h, x => obj_sound v c l i (by simpa using h) x
end

theorem matches_complete {v c e a} (h : Match v c e a) : matches? v c e a = true := by
  induction h with
  | null => rfl
  | bool b => simp [matches?]
  | num d d' h => simpa [matches?] using (close_iff _ _ _).mpr h
  | str s s' h => simpa [matches?] using (equals_iff _ _ _).mpr h
  | pat p s h => simpa [matches?] using h
  | arr l l' hl _ ih =>
    simp only [matches?, Bool.and_eq_true, beq_iff_eq, matchArray_iff]
    refine ⟨hl, fun i hi => ?_⟩
    exact ⟨l'[i]'(hl ▸ hi), by simp, ih ⟨i, hi⟩⟩
  | obj l l' at' hl h1 h2 _ ih =>
    simp only [matches?, Bool.and_eq_true, matchObject_iff, Bool.not_eq_true', decide_eq_false_iff_not, Nat.not_lt, gt_iff_lt]
    refine ⟨hl, fun m hm => ?_⟩
    obtain ⟨i, hi, rfl⟩ := List.mem_iff_getElem.mp hm
    exact ⟨_, (getKey_iff _ _ _ _).mpr ⟨at' ⟨i, hi⟩, rfl, h1 ⟨i, hi⟩, h2 ⟨i, hi⟩⟩, ih ⟨i, hi⟩⟩

/-- C11.  The comparison of two trees is the relation `Match`. -/
theorem C11_match (v : Env) (caseless : Bool) (e a : Json) : matches? v caseless e a = true ↔ Match v caseless e a :=
  ⟨matches_sound v caseless e a, matches_complete⟩

/-! ### Order of members -/

theorem getKey_cons (k x l n c) : getKey ((k, x) :: l) n c = if H2.Str.equals k n c then some x else getKey l n c := by
  simp only [getKey, List.find?_cons]
  cases H2.Str.equals k n c <;> simp

theorem getKey_append (l l' n c) : getKey (l ++ l') n c = (getKey l n c).or (getKey l' n c) := by
  simp only [getKey, List.find?_append, Option.map_or]

/-- Replacing an element of an actual array. -/
theorem arr_replace {v c x y} (h : ∀ e, matches? v c e x = true → matches? v c e y = true) (l₁ l₂ : List Json) (e)
    (hm : matches? v c e (.arr (l₁ ++ x :: l₂)) = true) : matches? v c e (.arr (l₁ ++ y :: l₂)) = true := by
  cases e with
  | arr l =>
    simp only [matches?, Bool.and_eq_true, beq_iff_eq, matchArray_iff, Nat.zero_add] at hm ⊢
    refine ⟨by simpa using hm.1, fun i hi => ?_⟩
    obtain ⟨z, hz, hz'⟩ := hm.2 i hi
    by_cases h1 : i < l₁.length
    · rw [List.getElem?_append_left h1] at hz
      exact ⟨z, by rw [List.getElem?_append_left h1]; exact hz, hz'⟩
    · rw [List.getElem?_append_right (by omega)] at hz
      rw [List.getElem?_append_right (by omega)]
      cases hk : i - l₁.length with
      | zero =>
        rw [hk] at hz
        simp only [List.getElem?_cons_zero, Option.some.injEq] at hz
        exact ⟨y, rfl, h _ (hz ▸ hz')⟩
      | succ k =>
        rw [hk] at hz
        exact ⟨z, by simpa using hz, hz'⟩
  | _ => simp [matches?] at hm

/-- Replacing the value of a member of an actual object. -/
theorem obj_replace {v c x y} (h : ∀ e, matches? v c e x = true → matches? v c e y = true) (l₁ k l₂) (e)
    (hm : matches? v c e (.obj (l₁ ++ (k, x) :: l₂)) = true) : matches? v c e (.obj (l₁ ++ (k, y) :: l₂)) = true := by
  cases e with
  | obj l =>
    simp only [matches?, Bool.and_eq_true, matchObject_iff] at hm ⊢
    refine ⟨by simpa using hm.1, fun m hmem => ?_⟩
    obtain ⟨z, hz, hz'⟩ := hm.2 m hmem
    simp only [getKey_append, getKey_cons] at hz ⊢
    cases h1 : getKey l₁ m.1 c with
    | some w => exact ⟨w, by simp, by rw [h1] at hz; simp at hz; exact hz ▸ hz'⟩
    | none =>
      rw [h1] at hz
      simp only [Option.none_or] at hz ⊢
      split at hz
      · rename_i hk
        simp only [Option.some.injEq] at hz
        exact ⟨y, by simp [hk], h _ (hz ▸ hz')⟩
      · rename_i hk
        exact ⟨z, by simp [hk, hz], hz'⟩
  | _ => simp [matches?] at hm

theorem swap_symm {x y} (h : Swap x y) : Swap y x := by
  induction h with
  | here l₁ m m' l₂ => exact .here _ _ _ _
  | arr l₁ x y l₂ _ ih => exact .arr _ _ _ _ ih
  | obj l₁ k x y l₂ _ ih => exact .obj _ _ _ _ _ ih

theorem swap_distinct {c x y} (h : Swap x y) (hd : Distinct c x) : Distinct c y := by
  induction h with
  | here l₁ m m' l₂ =>
    cases hd with
    | obj _ hp hm =>
      refine .obj _ ?_ (fun z hz => hm z (by simp at hz ⊢; grind))
      rw [List.pairwise_append] at hp ⊢
      refine ⟨hp.1, ?_, fun a ha b hb => hp.2.2 a ha b (by simp at hb ⊢; grind)⟩
      have h2 := hp.2.1
      simp only [List.pairwise_cons, List.mem_cons] at h2 ⊢
      exact ⟨fun a ha => ha.elim (fun e => e ▸ fun hs => h2.1 m' (.inl rfl) (sameText_symm hs)) (fun ha => h2.2.1 a ha),
        fun a ha => h2.1 a (.inr ha), h2.2.2⟩
  | arr l₁ x y l₂ _ ih =>
    cases hd with
    | arr _ hm =>
      refine .arr _ fun z hz => ?_
      simp only [List.mem_append, List.mem_cons] at hz hm
      rcases hz with hz | rfl | hz
      · exact hm z (.inl hz)
      · exact ih (hm x (.inr (.inl rfl)))
      · exact hm z (.inr (.inr hz))
  | obj l₁ k x y l₂ _ ih =>
    cases hd with
    | obj _ hp hm =>
      refine .obj _ ?_ fun z hz => ?_
      · simp only [List.pairwise_append, List.pairwise_cons, List.mem_cons] at hp ⊢
        refine ⟨hp.1, hp.2.1, fun a ha b hb => ?_⟩
        rcases hb with rfl | hb
        · exact hp.2.2 a ha (k, x) (.inl rfl)
        · exact hp.2.2 a ha b (.inr hb)
      · simp only [List.mem_append, List.mem_cons] at hz hm
        rcases hz with hz | rfl | hz
        · exact hm z (.inl hz)
        · exact ih (hm (k, x) (.inr (.inl rfl)))
        · exact hm z (.inr (.inr hz))

theorem swap_actual {v c x y} (h : Swap x y) (hd : Distinct c x) (e) (hm : matches? v c e x = true) :
    matches? v c e y = true := by
  induction h generalizing e with
  | here l₁ m m' l₂ =>
    cases e with
    | obj l =>
      simp only [matches?, Bool.and_eq_true, matchObject_iff] at hm ⊢
      refine ⟨by simpa using hm.1, fun p hp => ?_⟩
      obtain ⟨z, hz, hz'⟩ := hm.2 p hp
      refine ⟨z, ?_, hz'⟩
      rw [← hz]
      obtain ⟨k, a⟩ := m
      obtain ⟨k', b⟩ := m'
      simp only [getKey_append, getKey_cons]
      cases hd with
      | obj _ hpw _ =>
        have h2 := (List.pairwise_append.mp hpw).2.1
        simp only [List.pairwise_cons, List.mem_cons] at h2
        have h3 := h2.1 (k', b) (.inl rfl)
        cases e1 : H2.Str.equals k p.1 c <;> cases e2 : H2.Str.equals k' p.1 c <;> simp
        exact absurd (sameText_trans ((equals_iff _ _ _).mp e1) (sameText_symm ((equals_iff _ _ _).mp e2))) h3
    | _ => simp [matches?] at hm
  | arr l₁ x y l₂ _ ih =>
    cases hd with
    | arr _ h => exact arr_replace (fun e he => ih (h x (by simp)) e he) l₁ l₂ e hm
  | obj l₁ k x y l₂ _ ih =>
    cases hd with
    | obj _ _ h => exact obj_replace (fun e he => ih (h (k, x) (by simp)) e he) l₁ k l₂ e hm

theorem swap_expected {v c x y} (h : Swap x y) (a) (hm : matches? v c x a = true) : matches? v c y a = true := by
  induction h generalizing a with
  | here l₁ m m' l₂ =>
    cases a with
    | obj l =>
      simp only [matches?, Bool.and_eq_true, matchObject_iff] at hm ⊢
      exact ⟨by simpa using hm.1, fun p hp => hm.2 p (by simp at hp ⊢; grind)⟩
    | _ => simp [matches?] at hm
  | arr l₁ x y l₂ _ ih =>
    cases a with
    | arr l =>
      simp only [matches?, Bool.and_eq_true, beq_iff_eq, matchArray_iff, Nat.zero_add] at hm ⊢
      refine ⟨by simpa using hm.1, fun i hi => ?_⟩
      obtain ⟨z, hz, hz'⟩ := hm.2 i (by simpa using hi)
      refine ⟨z, hz, ?_⟩
      simp only [List.getElem_append, List.getElem_cons] at hz' ⊢
      split at hz'
      · simpa [*] using hz'
      · split at hz'
        · rename_i h1 h2
          rw [dif_neg h1, dif_pos h2]
          exact ih _ hz'
        · rename_i h1 h2
          rw [dif_neg h1, dif_neg h2]
          exact hz'
    | _ => simp [matches?] at hm
  | obj l₁ k x y l₂ _ ih =>
    cases a with
    | obj l =>
      simp only [matches?, Bool.and_eq_true, matchObject_iff] at hm ⊢
      refine ⟨by simpa using hm.1, fun p hp => ?_⟩
      simp only [List.mem_append, List.mem_cons] at hp hm
      rcases hp with hp | rfl | hp
      · exact hm.2 p (.inl hp)
      · obtain ⟨z, hz, hz'⟩ := hm.2 (k, x) (.inr (.inl rfl))
        exact ⟨z, hz, ih _ hz'⟩
      · exact hm.2 p (.inr (.inr hp))
    | _ => simp [matches?] at hm

/-- C11.  The order of members never matters: reordering the members of objects anywhere inside the actual
tree (whose keys are distinct) or inside the expected tree does not change the verdict. -/
theorem C11_order (v : Env) (caseless : Bool) (e e' a a' : Json) (he : Reorder e e') (ha : Reorder a a')
    (hd : Distinct caseless a) : matches? v caseless e a = matches? v caseless e' a' := by
  have h1 : ∀ {a a'}, Reorder a a' → Distinct caseless a → Distinct caseless a' ∧ ∀ e, matches? v caseless e a = matches? v caseless e a' := by
    intro a a' h hd
    induction h with
    | refl => exact ⟨hd, fun _ => rfl⟩
    | step _ hs ih =>
      refine ⟨swap_distinct hs ih.1, fun e => (ih.2 e).trans ?_⟩
      rw [Bool.eq_iff_iff]
      exact ⟨swap_actual hs ih.1 e, swap_actual (swap_symm hs) (swap_distinct hs ih.1) e⟩
  have h2 : ∀ {e e'}, Reorder e e' → matches? v caseless e a' = matches? v caseless e' a' := by
    intro e e' h
    induction h with
    | refl => rfl
    | step _ hs ih =>
      rw [ih, Bool.eq_iff_iff]
      exact ⟨swap_expected hs a', swap_expected (swap_symm hs) a'⟩
  rw [(h1 ha hd).2 e, h2 he]

/-- C11.  Of numbers a machine subtracts exactly, integers for example, those agree that are equal. -/
theorem C11_integers (v : Env) (caseless : Bool) (m n : Int) (hv : v.fl ((m : Rat) - n) = .fin ((m : Rat) - n)) :
    matches? v caseless (.num (.fin m)) (.num (.fin n)) = true ↔ m = n := by
  have h0 : (0 : Rat) < tolerance := by decide +kernel
  have h1 : tolerance < 1 := by decide +kernel
  rw [C11_match]
  constructor
  · intro h
    cases h with
    | num _ _ h =>
      rcases h with ⟨h, _⟩ | ⟨_, _, h, _⟩ | ⟨p, q, d, hp, hq, hd, hl, hr⟩
      · cases h
      · cases h
      · cases hp; cases hq
        rw [hv] at hd
        cases hd
        rw [← Rat.intCast_sub] at hl hr
        have a1 : ((m - n : Int) : Rat) < ((1 : Int) : Rat) := by
          have : ((1 : Int) : Rat) = 1 := rfl
          grind
        have a2 : ((-1 : Int) : Rat) < ((m - n : Int) : Rat) := by
          have : ((-1 : Int) : Rat) = -1 := rfl
          grind
        have := Rat.intCast_lt_intCast.1 a1
        have := Rat.intCast_lt_intCast.1 a2
        omega
  · rintro rfl
    refine .num _ _ (.inr (.inr ⟨m, m, 0, rfl, rfl, ?_, by grind, h0⟩))
    have e : (m : Rat) - m = 0 := by grind
    rw [e] at hv ⊢; exact hv

/-! ### Reflexivity and monotony -/

/-- C12.  Every value of standard JSON whose objects have distinct keys matches itself (the difference of a
number and itself is exactly 0). -/
theorem C12_reflexive (v : Env) (caseless : Bool) (hv : v.fl 0 = .fin 0) (x : Json) (hp : Plain x)
    (hd : Distinct caseless x) : matches? v caseless x x = true := by
  induction hp with
  | null => rfl
  | bool b => simp [matches?]
  | num q =>
    have e : q - q = 0 := by grind
    simp only [matches?, close, e, hv]
    decide +kernel
  | str s => simp only [matches?]; exact (equals_iff _ _ _).mpr (sameText_refl _ _)
  | arr l _ ih =>
    cases hd with
    | arr _ hm =>
      simp only [matches?, Bool.and_eq_true, beq_iff_eq, matchArray_iff, Nat.zero_add]
      exact ⟨trivial, fun i hi => ⟨l[i], by simp, ih _ (List.getElem_mem _) (hm _ (List.getElem_mem _))⟩⟩
  | obj l _ ih =>
    cases hd with
    | obj _ hpw hm =>
      simp only [matches?, Bool.and_eq_true, matchObject_iff, gt_iff_lt, Nat.lt_irrefl, decide_false, Bool.not_false, true_and]
      intro m hmem
      refine ⟨m.2, ?_, ih m hmem (hm m hmem)⟩
      obtain ⟨i, hi, rfl⟩ := List.mem_iff_getElem.mp hmem
      refine (getKey_iff _ _ _ _).mpr ⟨⟨i, hi⟩, rfl, sameText_refl _ _, fun j hj => ?_⟩
      exact List.pairwise_iff_getElem.mp hpw j.1 i j.2 hi hj

/-- C12.  Adding members with new keys to objects anywhere inside the actual tree never turns a match into a
mismatch. -/
theorem C12_monotone (v : Env) (caseless : Bool) (e a a' : Json) (h : Adds caseless a a')
    (hm : matches? v caseless e a = true) : matches? v caseless e a' = true := by
  have h1 : ∀ {a a'}, Add caseless a a' → ∀ e, matches? v caseless e a = true → matches? v caseless e a' = true := by
    intro a a' h
    induction h with
    | here l₁ l₂ k x hk =>
      intro e hm
      cases e with
      | obj l =>
        simp only [matches?, Bool.and_eq_true, matchObject_iff, Bool.not_eq_true', decide_eq_false_iff_not] at hm ⊢
        refine ⟨by have := hm.1; simp at this ⊢; omega, fun p hp => ?_⟩
        obtain ⟨z, hz, hz'⟩ := hm.2 p hp
        refine ⟨z, ?_, hz'⟩
        have hne : H2.Str.equals k p.1 caseless = false := by
          rw [← Bool.not_eq_true, equals_iff]
          intro hs
          obtain ⟨i, _, hi, _⟩ := (getKey_iff _ _ _ _).mp hz
          exact hk _ (List.getElem_mem i.2) (sameText_trans hs (sameText_symm hi))
        rw [← hz]
        simp [getKey_append, getKey_cons, hne]
      | _ => simp [matches?] at hm
    | arr l₁ x y l₂ _ ih => exact arr_replace ih l₁ l₂
    | obj l₁ k x y l₂ _ ih => exact obj_replace ih l₁ k l₂
  induction h with
  | refl => exact hm
  | step _ hs ih => exact h1 hs e ih

/-- Exact arithmetic, no patterns. -/
def exact : Env where
  fl := .fin
  pattern := fun _ _ _ => false

def sampleE : Json := .obj [("a".toList, .arr [.num (.fin 1), .null]), ("b".toList, .str "x".toList)]
def sampleA : Json := .obj [("b".toList, .str "x".toList), ("c".toList, .bool true), ("a".toList, .arr [.num (.fin 1), .null])]

example : matches? exact false sampleE sampleA = true := by decide +kernel
example : matches? exact false sampleA sampleE = false := by decide +kernel
example : matches? exact false sampleA sampleA = true := by decide +kernel
example : Plain sampleA ∧ Distinct false sampleA := by
  constructor
  · refine .obj _ fun m hm => ?_
    simp only [List.mem_cons, List.not_mem_nil, or_false] at hm
    rcases hm with rfl | rfl | rfl
    · exact .str _
    · exact .bool _
    · refine .arr _ fun x hx => ?_
      simp only [List.mem_cons, List.not_mem_nil, or_false] at hx
      rcases hx with rfl | rfl
      · exact .num _
      · exact .null
  · refine .obj _ (by simp [SameText]) fun m hm => ?_
    simp only [List.mem_cons, List.not_mem_nil, or_false] at hm
    rcases hm with rfl | rfl | rfl
    · exact .str _
    · exact .bool _
    · refine .arr _ fun x hx => ?_
      simp only [List.mem_cons, List.not_mem_nil, or_false] at hx
      rcases hx with rfl | rfl
      · exact .num _
      · exact .null
example : Swap sampleA (.obj [("c".toList, .bool true), ("b".toList, .str "x".toList), ("a".toList, .arr [.num (.fin 1), .null])]) :=
  .here [] _ _ _
example : Add false sampleE (.obj [("a".toList, .arr [.num (.fin 1), .null]), ("z".toList, .null), ("b".toList, .str "x".toList)]) :=
  .here [_] [_] "z".toList .null (by simp [SameText])

/-- Finding.  A value with a repeated key does not match itself: `{"a":1,"a":2}`. -/
theorem C12_repeated_key : matches? exact false
    (.obj [("a".toList, .num (.fin 1)), ("a".toList, .num (.fin 2))])
    (.obj [("a".toList, .num (.fin 1)), ("a".toList, .num (.fin 2))]) = false := by decide +kernel

/-- Finding.  The number of members is compared too: `{"a":1,"A":1}` does not match `{"a":1}` caselessly, although
each of its members has a counterpart. -/
theorem C11_size : matches? exact true
    (.obj [("a".toList, .num (.fin 1)), ("A".toList, .num (.fin 1))])
    (.obj [("a".toList, .num (.fin 1))]) = false := by decide +kernel

/-- Finding.  Infinities of different signs match. -/
theorem C11_infinities (v : Env) (caseless s t : Bool) : matches? v caseless (.num (.inf s)) (.num (.inf t)) = true := rfl

end H2.Json
