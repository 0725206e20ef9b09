import Verif.Json.Sim
import Verif.Json.DualProps
import Verif.Diff.Props
import Verif.Round.Order
/-
C81: in the comparison of two JSON objects a member that is missing stands beside the additional member most like it.
-/
namespace H2.Json.Dual
open H2.Json
open H2.Diff (IsDistance folded)
open H2.Round (dbl round_mono round_exact round_nonneg dbl_bounds Representable)

/-! ### The most similar -/

theorem searchLoop_keep (x : Ctx) (c : Kid) (l : List Kid) (i : Nat) (best : Rat) (straw : Option Nat) (h : ∀ z ∈ l, x.score c z ≤ best) :
    searchLoop x c l i best straw = straw := by
  induction l generalizing i with
  | nil => rfl
  | cons p l ih =>
    have hp := h p (by simp)
    rw [searchLoop, if_neg (by grind)]
    exact ih _ fun z hz => h z (by simp [hz])

theorem searchLoop_best (x : Ctx) (c a : Kid) (A B : List Kid) (i : Nat) (best : Rat) (straw : Option Nat)
    (h0 : best < x.score c a) (hA : ∀ z ∈ A, x.score c z < x.score c a) (hB : ∀ z ∈ B, x.score c z ≤ x.score c a) :
    searchLoop x c (A ++ a :: B) i best straw = some (i + A.length) := by
  induction A generalizing i best straw with
  | nil =>
    rw [List.nil_append, searchLoop, if_pos h0, searchLoop_keep x c B _ _ _ hB]; rfl
  | cons p A ih =>
    have hp := hA p (by simp)
    rw [List.cons_append, searchLoop]
    split
    · rw [ih _ _ _ hp fun z hz => hA z (by simp [hz])]; simp; omega
    · rw [ih _ _ _ h0 fun z hz => hA z (by simp [hz])]; simp; omega

/-- The double nearest to 0.2. -/
def threshold : Rat := 3602879701896397 / 2 ^ 54

/-- C81.  Of the additional members the first of the most similar ones is taken, if it is similar enough. -/
theorem C81_search (x : Ctx) (c a : Kid) (A B : List Kid) (h0 : threshold < x.score c a)
    (hA : ∀ z ∈ A, x.score c z < x.score c a) (hB : ∀ z ∈ B, x.score c z ≤ x.score c a) :
    search x c (A ++ a :: B) = some A.length := by
  refine (searchLoop_best x c a A B 0 threshold none h0 hA hB).trans ?_
  simp

/-- C81.  None is taken when none is similar enough. -/
theorem C81_search_none (x : Ctx) (c : Kid) (l : List Kid) (h : ∀ z ∈ l, x.score c z ≤ threshold) : search x c l = none :=
  searchLoop_keep x c l 0 _ none h

/-! ### What is left when the same keys are taken away -/

theorem pass_left (x : Ctx) (es : List Kid) : ∀ as : List Kid,
    es.Pairwise (fun c c' => ¬ SameText x.caseless c.key c'.key) → as.Pairwise (fun c c' => ¬ SameText x.caseless c.key c'.key) →
    (∀ c, c ∈ (pass (byKey x) es as).2.1 ↔ c ∈ es ∧ ∀ a ∈ as, ¬ SameText x.caseless a.key c.key) ∧
    (pass (byKey x) es as).2.1.Sublist es ∧ (pass (byKey x) es as).2.2.Sublist as ∧
    (∀ a, a ∈ (pass (byKey x) es as).2.2 ↔ a ∈ as ∧ ∀ c ∈ es, ¬ SameText x.caseless a.key c.key) := by
  induction es with
  | nil => intro as _ _; simp [pass]
  | cons c es ih =>
    intro as he ha
    obtain ⟨hc, he⟩ := List.pairwise_cons.1 he
    simp only [pass]
    split
    · rename_i k as' h
      obtain ⟨i, hi, hk⟩ := Option.bind_eq_some_iff.1 h
      obtain ⟨k', hk', e⟩ := Option.map_eq_some_iff.1 hk
      simp at e; obtain ⟨rfl, rfl⟩ := e
      obtain ⟨k2, hk2, hs2⟩ := byKey_some hi
      rw [hk'] at hk2; cases hk2
      have hsub : (as.eraseIdx i).Sublist as := List.eraseIdx_sublist ..
      obtain ⟨h1, h0, h2, h3⟩ := ih (as.eraseIdx i) he (ha.sublist hsub)
      -- all others have another key
      have hperm := eraseIdx_perm hk'
      have hpw : (k' :: as.eraseIdx i).Pairwise (fun c c' => ¬ SameText x.caseless c.key c'.key) :=
        hperm.pairwise ha fun hn hs => hn (sameText_symm hs)
      have hne : ∀ z ∈ as.eraseIdx i, ¬ SameText x.caseless z.key c.key := by
        intro z hz hs
        exact (List.pairwise_cons.1 hpw).1 z hz (sameText_trans hs2 (sameText_symm hs))
      refine ⟨?_, h0.cons _, h2.trans hsub, ?_⟩
      · intro d
        show d ∈ (pass (byKey x) es (as.eraseIdx i)).2.1 ↔ _
        rw [h1 d]
        constructor
        · rintro ⟨hd, hd2⟩
          refine ⟨by simp [hd], fun a ha' hs => ?_⟩
          rcases List.mem_cons.1 (hperm.mem_iff.1 ha') with rfl | h
          · exact hc d hd (sameText_trans (sameText_symm hs2) hs)
          · exact hd2 a h hs
        · rintro ⟨hd, hd2⟩
          rcases List.mem_cons.1 hd with rfl | hd
          · exact absurd hs2 (hd2 k' (List.mem_of_getElem? hk'))
          · exact ⟨hd, fun a ha' => hd2 a (List.mem_of_mem_eraseIdx ha')⟩
      · intro a
        show a ∈ (pass (byKey x) es (as.eraseIdx i)).2.2 ↔ _
        rw [h3 a]
        constructor
        · rintro ⟨h4, h5⟩
          refine ⟨List.mem_of_mem_eraseIdx h4, fun d hd => ?_⟩
          rcases List.mem_cons.1 hd with rfl | hd
          · exact hne a h4
          · exact h5 d hd
        · rintro ⟨h4, h5⟩
          refine ⟨?_, fun d hd => h5 d (by simp [hd])⟩
          rcases List.mem_cons.1 (hperm.mem_iff.1 h4) with rfl | h
          · exact absurd hs2 (h5 c (by simp))
          · exact h
    · rename_i hnone
      obtain ⟨h1, h0, h2, h3⟩ := ih as he ha
      have hno : ∀ a ∈ as, ¬ SameText x.caseless a.key c.key := by
        intro a ha' hs
        obtain ⟨i, hi⟩ := byKey_found ha' hs
        obtain ⟨k, hk, -⟩ := byKey_some hi
        rw [hi] at hnone
        simp [hk] at hnone
      refine ⟨?_, h0.cons_cons _, h2, ?_⟩
      · intro d
        show d ∈ c :: (pass (byKey x) es as).2.1 ↔ _
        rw [List.mem_cons, h1 d, List.mem_cons]
        constructor
        · rintro (rfl | ⟨h, h'⟩)
          · exact ⟨.inl rfl, hno⟩
          · exact ⟨.inr h, h'⟩
        · rintro ⟨rfl | h, h'⟩
          · exact .inl rfl
          · exact .inr ⟨h, h'⟩
      · intro a
        show a ∈ (pass (byKey x) es as).2.2 ↔ _
        rw [h3 a]
        constructor
        · rintro ⟨h4, h5⟩
          refine ⟨h4, fun d hd => ?_⟩
          rcases List.mem_cons.1 hd with rfl | hd
          · exact hno a h4
          · exact h5 d hd
        · rintro ⟨h4, h5⟩
          exact ⟨h4, fun d hd => h5 d (by simp [hd])⟩

theorem number_pairwise (c : Bool) (l : List (Str × Json)) (i : Int) (h : l.Pairwise fun p q => ¬ SameText c p.1 q.1) :
    (number i l).Pairwise (fun a b => ¬ SameText c a.key b.key) := by
  induction l generalizing i with
  | nil => exact .nil
  | cons p l ih =>
    obtain ⟨k, v⟩ := p
    obtain ⟨h1, h2⟩ := List.pairwise_cons.1 h
    rw [number]
    refine List.pairwise_cons.2 ⟨?_, ih _ h2⟩
    intro b hb
    have : (b.key, b.value) ∈ l := by
      rw [← number_kv l (i + 1)]; exact List.mem_map.2 ⟨b, hb, rfl⟩
    exact h1 _ this

theorem number_append (l m : List (Str × Json)) (i : Int) : number i (l ++ m) = number i l ++ number (i + l.length) m := by
  induction l generalizing i with
  | nil => simp [number]
  | cons p l ih =>
    obtain ⟨k, v⟩ := p
    rw [List.cons_append, number, number, ih, List.cons_append]
    congr 3
    simp; omega

/-- How like an additional member is to a missing one. -/
def like (caseless : Bool) (p q : Str × Json) : Rat := similarity caseless ⟨0, p.1, p.2⟩ ⟨0, q.1, q.2⟩

/-- C81.  One member is missing in the actual object, and all other expected ones are there.  Then the missing one stands beside the
first of the additional members that are most like it, if that is like it enough. -/
theorem C81_row (x : Ctx) (hx : Numbers x.print) (hs : x.score = similarity x.caseless) (fold : Int)
    (l₁ l₂ m₁ m₂ : List (Str × Json)) (k k' : Str) (v w : Json)
    (hl : (l₁ ++ (k, v) :: l₂).Pairwise fun p q => ¬ SameText x.caseless p.1 q.1)
    (hm : (m₁ ++ (k', w) :: m₂).Pairwise fun p q => ¬ SameText x.caseless p.1 q.1)
    (hothers : ∀ p ∈ l₁ ++ l₂, ∃ q ∈ m₁ ++ m₂, SameText x.caseless q.1 p.1)
    (hmiss : ∀ q ∈ m₁ ++ (k', w) :: m₂, ¬ SameText x.caseless q.1 k)
    (hbest : threshold < like x.caseless (k, v) (k', w))
    (hbefore : ∀ q ∈ m₁, (∀ p ∈ l₁ ++ l₂, ¬ SameText x.caseless q.1 p.1) → like x.caseless (k, v) q < like x.caseless (k, v) (k', w))
    (hbehind : ∀ q ∈ m₂, (∀ p ∈ l₁ ++ l₂, ¬ SameText x.caseless q.1 p.1) → like x.caseless (k, v) q ≤ like x.caseless (k, v) (k', w))
    (hv : v ≠ .absent) (hw : w ≠ .absent) :
    ∃ (i : Nat) (L R : Line) (t u : Str), (diff x fold (.obj (l₁ ++ (k, v) :: l₂)) (.obj (m₁ ++ (k', w) :: m₂))).1[i]? = some L ∧
      (diff x fold (.obj (l₁ ++ (k, v) :: l₂)) (.obj (m₁ ++ (k', w) :: m₂))).2[i]? = some R ∧
      Visible L t ∧ Visible R u ∧ label k <:+: t ∧ label k' <:+: u := by
  -- the additional member has no key of the expected object
  have hmd := hm
  rw [List.pairwise_append, List.pairwise_cons] at hmd
  have hadd : ∀ p ∈ l₁ ++ l₂, ¬ SameText x.caseless k' p.1 := by
    intro p hp hk
    obtain ⟨q, hq, hqp⟩ := hothers p hp
    have hqk := sameText_trans hqp (sameText_symm hk)
    rcases List.mem_append.1 hq with hq | hq
    · exact hmd.2.2 q hq (k', w) (by simp) hqk
    · exact hmd.2.1.1 q hq (sameText_symm hqk)
  have hnm : ¬ Match x.env x.caseless (.obj (l₁ ++ (k, v) :: l₂)) (.obj (m₁ ++ (k', w) :: m₂)) := by
    intro h
    generalize he : l₁ ++ (k, v) :: l₂ = l at h
    generalize ha : m₁ ++ (k', w) :: m₂ = m at h
    cases h with
    | obj _ _ at' hlen h1 h2 h3 =>
      obtain ⟨i, hi, hik⟩ : ∃ i, ∃ hi : i < l.length, l[i] = (k, v) := List.getElem_of_mem (by rw [← he]; simp)
      have := h1 ⟨i, hi⟩
      refine hmiss (m[at' ⟨i, hi⟩]) (by rw [ha]; exact List.getElem_mem _) ?_
      have e : (l[(⟨i, hi⟩ : Fin l.length)]).1 = k := by show (l[i]).1 = k; rw [hik]
      rwa [e] at this
  -- numbered members
  have hke : number 0 (l₁ ++ (k, v) :: l₂) = number 0 l₁ ++ ⟨l₁.length, k, v⟩ :: number (l₁.length + 1) l₂ := by
    rw [number_append, number]; simp
  have hka : number 0 (m₁ ++ (k', w) :: m₂) = number 0 m₁ ++ ⟨m₁.length, k', w⟩ :: number (m₁.length + 1) m₂ := by
    rw [number_append, number]; simp
  have kv : ∀ (l : List (Str × Json)) (i : Int) (c : Kid), c ∈ number i l → (c.key, c.value) ∈ l := by
    intro l i c hc
    rw [← number_kv l i]; exact List.mem_map.2 ⟨c, hc, rfl⟩
  obtain ⟨ke, hkeq⟩ : ∃ ke : Kid, ke = ⟨l₁.length, k, v⟩ := ⟨_, rfl⟩
  obtain ⟨ka, hkaq⟩ : ∃ ka : Kid, ka = ⟨m₁.length, k', w⟩ := ⟨_, rfl⟩
  rw [← hkeq] at hke
  rw [← hkaq] at hka
  have hpe := number_pairwise x.caseless _ 0 hl
  have hpa := number_pairwise x.caseless _ 0 hm
  obtain ⟨p1, p2, p3, p4⟩ := pass_left x _ _ hpe hpa
  have hscore : ∀ z : Kid, x.score ke z = like x.caseless (k, v) (z.key, z.value) := by
    intro z; rw [hs, hkeq]; rfl
  have hska : x.score ke ka = like x.caseless (k, v) (k', w) := by rw [hscore, hkaq]
  -- the one left on the left
  have hleft : (pass (byKey x) (number 0 (l₁ ++ (k, v) :: l₂)) (number 0 (m₁ ++ (k', w) :: m₂))).2.1 = [ke] := by
    have hall : ∀ c ∈ (pass (byKey x) (number 0 (l₁ ++ (k, v) :: l₂)) (number 0 (m₁ ++ (k', w) :: m₂))).2.1, c = ke := by
      intro c hc
      obtain ⟨h1, h2⟩ := (p1 c).1 hc
      rw [hke] at h1
      have bad : (c.key, c.value) ∈ l₁ ++ l₂ → False := by
        intro h
        obtain ⟨q, hq, hqc⟩ := hothers _ h
        have hq' : q ∈ m₁ ++ (k', w) :: m₂ := by
          rcases List.mem_append.1 hq with hq | hq <;> simp [hq]
        rw [← number_kv (m₁ ++ (k', w) :: m₂) 0] at hq'
        obtain ⟨z, hz, rfl⟩ := List.mem_map.1 hq'
        exact h2 z hz hqc
      rcases List.mem_append.1 h1 with h | h
      · exact (bad (by simp [kv _ _ _ h])).elim
      · rcases List.mem_cons.1 h with h | h
        · exact h
        · exact (bad (by simp [kv _ _ _ h])).elim
    have hin : ke ∈ (pass (byKey x) (number 0 (l₁ ++ (k, v) :: l₂)) (number 0 (m₁ ++ (k', w) :: m₂))).2.1 := by
      refine (p1 ke).2 ⟨by rw [hke]; simp, fun a ha hsame => ?_⟩
      have : k = ke.key := by rw [hkeq]
      rw [← this] at hsame
      exact hmiss _ (kv _ _ _ ha) hsame
    have hpw := hpe.sublist p2
    generalize (pass (byKey x) (number 0 (l₁ ++ (k, v) :: l₂)) (number 0 (m₁ ++ (k', w) :: m₂))).2.1 = E at hall hin hpw
    match E, hall, hin, hpw with
    | [c], hall, _, _ => rw [hall c (by simp)]
    | c :: c' :: _, hall, _, hpw =>
      have h1 := hall c (by simp)
      have h2 := hall c' (by simp)
      exact absurd (sameText_refl _ _) (h1 ▸ h2 ▸ (List.pairwise_cons.1 hpw).1 c' (by simp))
  -- those left on the right
  have hkain : ka ∈ (pass (byKey x) (number 0 (l₁ ++ (k, v) :: l₂)) (number 0 (m₁ ++ (k', w) :: m₂))).2.2 := by
    refine (p4 ka).2 ⟨by rw [hka]; simp, fun c hc hsame => ?_⟩
    have e : ka.key = k' := by rw [hkaq]
    rw [e] at hsame
    have hcm := kv _ _ _ hc
    rcases List.mem_append.1 hcm with h | h
    · exact hadd (c.key, c.value) (by simp [h]) hsame
    · rcases List.mem_cons.1 h with h | h
      · have : c.key = k := by rw [Prod.mk.injEq] at h; exact h.1
        rw [this] at hsame
        exact hmiss (k', w) (by simp) hsame
      · exact hadd (c.key, c.value) (by simp [h]) hsame
  have hout : ∀ (n : Int) (m : List (Str × Json)), (∀ q ∈ m, ¬ SameText x.caseless q.1 k') → ka ∉ number n m := by
    intro n m h hin
    have := kv _ _ _ hin
    exact h _ this (by rw [hkaq]; exact sameText_refl _ _)
  obtain ⟨A, B, hAB, hA, hB⟩ : ∃ A B, (pass (byKey x) (number 0 (l₁ ++ (k, v) :: l₂)) (number 0 (m₁ ++ (k', w) :: m₂))).2.2 = A ++ ka :: B ∧
      A.Sublist (number 0 m₁) ∧ B.Sublist (number (m₁.length + 1) m₂) := by
    rw [hka] at p3 hkain ⊢
    obtain ⟨A, R, h1, h2, h3⟩ := List.sublist_append_iff.1 p3
    rw [h1] at hkain ⊢
    have hA : ka ∉ A := fun h => hout _ _ (fun q hq => fun hqk => hmd.2.2 q hq (k', w) (by simp) hqk) (h2.subset h)
    rcases List.sublist_cons_iff.1 h3 with h | ⟨B, rfl, h⟩
    · have hR : ka ∉ R := fun hh => hout _ _ (fun q hq => fun hqk => hmd.2.1.1 q hq (sameText_symm hqk)) (h.subset hh)
      rcases List.mem_append.1 hkain with hh | hh
      · exact (hA hh).elim
      · exact (hR hh).elim
    · exact ⟨A, B, rfl, h2, h⟩
  have haddl : ∀ z ∈ A ++ ka :: B, ∀ p ∈ l₁ ++ l₂, ¬ SameText x.caseless z.key p.1 := by
    intro z hz p hp
    rw [← hAB] at hz
    have h2 := ((p4 z).1 hz).2
    have hp' : p ∈ l₁ ++ (k, v) :: l₂ := by
      rcases List.mem_append.1 hp with h | h <;> simp [h]
    rw [← number_kv (l₁ ++ (k, v) :: l₂) 0] at hp'
    obtain ⟨c, hc, rfl⟩ := List.mem_map.1 hp'
    exact h2 c hc
  have hfound : search x ke (A ++ ka :: B) = some A.length := by
    refine C81_search x ke ka A B (by rw [hska]; exact hbest) ?_ ?_
    · intro z hz
      rw [hska, hscore]
      exact hbefore _ (kv _ _ _ (hA.subset hz)) fun p hp => haddl z (by simp [hz]) p hp
    · intro z hz
      rw [hska, hscore]
      exact hbehind _ (kv _ _ _ (hB.subset hz)) fun p hp => haddl z (by simp [hz]) p hp
  have hmem : (⟨some ke, some ka, 0⟩ : Pair) ∈ ordered x (some ⟨0, [], .obj (l₁ ++ (k, v) :: l₂)⟩) (some ⟨0, [], .obj (m₁ ++ (k', w) :: m₂)⟩) := by
    rw [(ordered_perm _ _ _).mem_iff]
    unfold pairs
    rw [if_pos (by left; rfl)]
    simp only [List.mem_append, List.mem_map]
    refine .inl (.inr ⟨(ke, ka), ?_, rfl⟩)
    show (ke, ka) ∈ (pass (search x) (pass (byKey x) (number 0 (l₁ ++ (k, v) :: l₂)) (number 0 (m₁ ++ (k', w) :: m₂))).2.1
      (pass (byKey x) (number 0 (l₁ ++ (k, v) :: l₂)) (number 0 (m₁ ++ (k', w) :: m₂))).2.2).1
    rw [hleft, hAB]
    simp [pass, hfound]
  have := row_of_pair x (numbers_prints hx) fold _ _ ke ka hmem (by rw [hkeq]; exact hv) (by rw [hkaq]; exact hw) (.inr hnm)
  rw [hkeq, hkaq] at this
  exact this

/-! ### How like values are -/

theorem isDistance_unique {s t : Str} {n m : Nat} (h : IsDistance s t n) (h' : IsDistance s t m) : n = m := by
  have := h.2 m h'.1
  have := h'.2 n h.1
  omega

theorem dbl_mono {x y : Rat} (h : x ≤ y) : dbl x ≤ dbl y := round_mono 53 (by decide) h

theorem dbl_zero : dbl 0 = 0 := rfl

theorem dbl_nonneg {x : Rat} (h : 0 ≤ x) : 0 ≤ dbl x := round_nonneg 53 x h

theorem dbl_one : dbl 1 = 1 := by decide +kernel

theorem dbl_idem (x : Rat) : dbl (dbl x) = dbl x := round_exact 53 _ (H2.Round.round_nearest 53 (by decide) x).1

theorem half_pos {s t : Str} (hne : s ≠ [] ∨ t ≠ []) : (0 : Rat) < ((s.length + t.length : Nat) : Rat) * (1 / 2) := by
  have : (0 : Rat) < ((s.length + t.length : Nat) : Rat) := by
    have : 0 < s.length + t.length := by
      rcases hne with h | h
      · have := List.length_pos_iff.2 h; omega
      · have := List.length_pos_iff.2 h; omega
    exact_mod_cast this
  grind

/-- The likeness of two texts by the number of edits between them. -/
theorem estimate_eq (c : Bool) (s t : Str) (d : Nat) (hd : IsDistance (folded c s) (folded c t) d) (hne : s ≠ [] ∨ t ≠ []) :
    estimate c s t = dbl (1 - dbl (dbl (d : Rat) / dbl (dbl ((s.length + t.length : Nat) : Rat) * (1 / 2)))) := by
  obtain ⟨n, h1, h2⟩ := H2.Diff.C19_levenshtein c s t
  have := isDistance_unique hd h2
  subst this
  have hl : ¬ (s.length = 0 ∧ t.length = 0) := by
    rintro ⟨a, b⟩
    rcases hne with h | h
    · exact h (List.length_eq_zero_iff.1 a)
    · exact h (List.length_eq_zero_iff.1 b)
  rw [estimate, if_neg hl, h1]
  rfl

theorem estimate_nil (c : Bool) : estimate c [] [] = 1 := rfl

theorem estimate_self (c : Bool) (s : Str) : estimate c s s = 1 := by
  by_cases hne : s = []
  · rw [hne]; rfl
  · have h := (H2.Diff.C19_similarity_one c s s).2 rfl
    obtain ⟨n, h1, h2⟩ := H2.Diff.C19_levenshtein c s s
    have hp := half_pos (s := s) (t := s) (.inl hne)
    rw [H2.Diff.estimate, if_neg (by intro h; exact hne (List.length_eq_zero_iff.1 h.1)), h1, Option.map_some, Option.some.injEq] at h
    have h3 : (n : Rat) / (((s.length + s.length : Nat) : Rat) * (1 / 2)) = 0 := by grind
    have h4 : (n : Rat) = 0 := by
      have := Rat.div_mul_cancel (a := (n : Rat)) (b := ((s.length + s.length : Nat) : Rat) * (1 / 2)) (by grind)
      rw [h3] at this; grind
    rw [estimate_eq c s s n h2 (.inl hne), h4, dbl_zero, Rat.div_def, Rat.zero_mul, dbl_zero]
    decide +kernel

theorem div_nonneg {a b : Rat} (ha : 0 ≤ a) (hb : 0 ≤ b) : 0 ≤ a / b := by
  rw [Rat.div_def]
  refine Rat.mul_nonneg ha ?_
  by_cases h : b = 0
  · rw [h, Rat.inv_zero]; decide
  · exact Rat.le_of_lt (Rat.inv_pos.2 (by grind))

theorem estimate_le (c : Bool) (s t : Str) : estimate c s t ≤ 1 := by
  by_cases hne : s ≠ [] ∨ t ≠ []
  · obtain ⟨n, h1, h2⟩ := H2.Diff.C19_levenshtein c s t
    rw [estimate_eq c s t n h2 hne]
    have h0 : ∀ m : Nat, (0 : Rat) ≤ (m : Rat) := fun m => by exact_mod_cast Nat.zero_le m
    have hN := dbl_nonneg (h0 (s.length + t.length))
    have := dbl_nonneg (div_nonneg (dbl_nonneg (h0 n)) (dbl_nonneg (x := dbl ((s.length + t.length : Nat) : Rat) * (1 / 2)) (by grind)))
    rw [← dbl_one]
    refine dbl_mono ?_
    rw [dbl_one]; grind
  · have h1 : s = [] := Classical.byContradiction fun h => hne (.inl h)
    have h2 : t = [] := Classical.byContradiction fun h => hne (.inr h)
    rw [h1, h2, estimate_nil]; grind

theorem withKeys_mono (c : Bool) (ek ak : Str) {s s' : Rat} (h : s ≤ s') : withKeys c ek ak s ≤ withKeys c ek ak s' := by
  unfold withKeys
  split
  · refine dbl_mono ?_
    have := dbl_mono (x := s * (1 / 2)) (y := s' * (1 / 2)) (by grind)
    grind
  · exact h

theorem withKeys_self (c : Bool) (k : Str) {s : Rat} (h : 0 ≤ s) : 0 ≤ withKeys c k k s := by
  unfold withKeys
  rw [estimate_self]
  split
  · refine dbl_nonneg ?_
    have h1 := dbl_nonneg (x := s * (1 / 2)) (by grind)
    have h2 := dbl_nonneg (x := 1 / 2 * 1) (by grind)
    grind
  · exact h

theorem inv_nonneg (i : Nat) : (0 : Rat) ≤ ((i : Rat) + 1)⁻¹ := by
  have h : (0 : Rat) < (i : Rat) + 1 := by
    have : (0 : Rat) ≤ (i : Rat) := by exact_mod_cast Nat.zero_le i
    grind
  exact Rat.le_of_lt (Rat.inv_pos.2 h)

theorem addScore_mono (i : Nat) {a b s t : Rat} (h : a ≤ b) (h' : s ≤ t) : addScore a i s ≤ addScore b i t := by
  unfold addScore
  rw [Rat.div_def, Rat.div_def]
  have h0 := inv_nonneg i
  have hi : (0 : Rat) ≤ (i : Rat) := by exact_mod_cast Nat.zero_le i
  have h1 := dbl_mono (Rat.mul_le_mul_of_nonneg_right h hi)
  have h2 : dbl (dbl (a * i) + s) ≤ dbl (dbl (b * i) + t) := dbl_mono (by grind)
  have h3 := dbl_mono (Rat.mul_le_mul_of_nonneg_right h2 h0)
  exact dbl_mono (by grind)

theorem addScore_nonneg (i : Nat) {a s : Rat} (h : 0 ≤ a) (h' : 0 ≤ s) : 0 ≤ addScore a i s := by
  have := addScore_mono i h h'
  have e : addScore 0 i 0 = 0 := by
    unfold addScore
    rw [Rat.div_def, Rat.zero_mul, dbl_zero, Rat.add_zero, dbl_zero, Rat.zero_mul, dbl_zero, Rat.add_zero, dbl_zero]
  rwa [e] at this

theorem three_tenths : (1 : Rat) / 4 ≤ dbl (3 / 10) := by decide +kernel
theorem seven_tenths : (0 : Rat) ≤ dbl (7 / 10) := by decide +kernel

theorem sizeScore_mono (n m : Nat) {a b : Rat} (h : a ≤ b) : sizeScore n m a ≤ sizeScore n n b := by
  unfold sizeScore
  have h1 := dbl_mono (Rat.mul_le_mul_of_nonneg_left h seven_tenths)
  have h2 := three_tenths
  rw [if_pos rfl]
  refine dbl_mono ?_
  split <;> grind

theorem sizeScore_self (n : Nat) {a : Rat} (h : 0 ≤ a) : 1 / 4 ≤ sizeScore n n a := by
  unfold sizeScore
  have h1 := dbl_nonneg (Rat.mul_nonneg seven_tenths h)
  have h2 := three_tenths
  rw [if_pos rfl]
  have h3 : dbl (dbl (3 / 10)) ≤ dbl (dbl (3 / 10) + dbl (dbl (7 / 10) * a)) := dbl_mono (by grind)
  rw [dbl_idem] at h3
  grind

/-- A value is at least as like to itself as any other. -/
def Top (c : Bool) (p : Json) : Prop := (∀ a, valueScore c p a ≤ valueScore c p p) ∧ 1 / 4 ≤ valueScore c p p

theorem arrayScore_top (c : Bool) (l : List Json) (h : ∀ p ∈ l, Top c p) : ∀ (i : Nat) (m full : List Json) (s s' : Rat), full.drop i = l → s ≤ s' → 0 ≤ s' →
    arrayScore c l i m s ≤ arrayScore c l i full s' ∧ 0 ≤ arrayScore c l i full s' := by
  induction l with
  | nil => intro i m full s s' _ hs h0; simp only [arrayScore]; exact ⟨hs, h0⟩
  | cons p l ih =>
    intro i m full s s' hd hs h0
    have hp := h p (by simp)
    have hfi : full[i]? = some p := by
      have := congrArg List.head? hd
      simpa using this
    have hd' : full.drop (i + 1) = l := by
      rw [← List.tail_drop, hd]; rfl
    have hself : 0 ≤ withKeys c [] [] (valueScore c p p) := withKeys_self c [] (by have := hp.2; grind)
    simp only [arrayScore, hfi]
    refine ih (fun q hq => h q (by simp [hq])) (i + 1) m full _ _ hd' (addScore_mono i hs ?_) (addScore_nonneg i h0 hself)
    split
    · exact withKeys_mono _ _ _ (hp.1 _)
    · exact hself

theorem objectScore_top (c : Bool) (l : List (Str × Json)) (h : ∀ p ∈ l, Top c p.2) : ∀ (i : Nat) (m pre : List (Str × Json)) (s s' : Rat),
    (pre ++ l).Pairwise (fun a b => ¬ SameText false a.1 b.1) → s ≤ s' → 0 ≤ s' →
    objectScore c l i m s ≤ objectScore c l i (pre ++ l) s' ∧ 0 ≤ objectScore c l i (pre ++ l) s' := by
  induction l with
  | nil => intro i m pre s s' _ hs h0; simp only [objectScore]; exact ⟨hs, h0⟩
  | cons p l ih =>
    intro i m pre s s' hd hs h0
    obtain ⟨k, p⟩ := p
    have hp := h (k, p) (by simp)
    have hfi : (pre ++ (k, p) :: l).find? (fun c => H2.Str.equals c.1 k false) = some (k, p) := by
      rw [List.find?_append, List.find?_eq_none.2, Option.none_or, List.find?_cons_of_pos]
      · exact (equals_iff _ _ _).2 (sameText_refl _ _)
      · intro q hq he
        exact (List.pairwise_append.1 hd).2.2 q hq (k, p) (by simp) ((equals_iff _ _ _).1 he)
    have hself : 0 ≤ withKeys c k k (valueScore c p p) := withKeys_self c k (by have := hp.2; grind)
    simp only [objectScore, hfi]
    have hd' : (pre ++ [(k, p)] ++ l).Pairwise (fun a b => ¬ SameText false a.1 b.1) := by simpa using hd
    have := ih (fun q hq => h q (by simp [hq])) (i + 1) m (pre ++ [(k, p)]) (addScore s i (match m.find? fun c => H2.Str.equals c.1 k false with
      | some c' => withKeys c k c'.1 (valueScore c p c'.2)
      | none => 0)) (addScore s' i (withKeys c k k (valueScore c p p))) hd' (addScore_mono i hs ?_) (addScore_nonneg i h0 hself)
    · rw [List.append_assoc] at this
      exact this
    · split
      · next c' hf =>
        have he := List.find?_some hf
        have : c'.1 = k := by
          rcases (equals_iff _ _ _).1 he with h | ⟨h, -⟩
          · exact h
          · cases h
        rw [this]
        exact withKeys_mono _ _ _ (hp.1 _)
      · exact hself

theorem top_of_distinct (c : Bool) (e : Json) (h : Distinct false e) : Top c e := by
  have leaf : ∀ (K : Kind) (a : Json), (if kind a = K then estimate c [] [] else 0 : Rat) ≤ 1 := by
    intro K a; rw [estimate_nil]; split <;> grind
  have leafText : ∀ (K : Kind) (s : Str) (a : Json), (if kind a = K then estimate c s (valueString a) else 0 : Rat) ≤ 1 := by
    intro K s a
    split
    · exact estimate_le _ _ _
    · decide +kernel
  have one : ∀ q : Rat, q = 1 → 1 / 4 ≤ q := by intro q h; rw [h]; decide +kernel
  have self : ∀ (p : Json), valueScore c p p = 1 → (∀ a, valueScore c p a ≤ 1) → Top c p := by
    intro p h h'
    exact ⟨fun a => by rw [h]; exact h' a, one _ h⟩
  induction h with
  | absent => exact self _ (by simp [valueScore, kind, estimate_nil]) fun a => by simp only [valueScore]; exact leaf .absent a
  | null => exact self _ (by simp [valueScore, kind, estimate_nil]) fun a => by simp only [valueScore]; exact leaf .null a
  | bool b => exact self _ (by simp [valueScore, kind, estimate_nil]) fun a => by simp only [valueScore]; exact leaf .boolean a
  | num d => exact self _ (by simp [valueScore, kind, estimate_nil]) fun a => by simp only [valueScore]; exact leaf .number a
  | str s => exact self _ (by simp [valueScore, kind, valueString, estimate_self]) fun a => by simp only [valueScore]; exact leafText .string s a
  | pat s => exact self _ (by simp [valueScore, kind, valueString, estimate_self]) fun a => by simp only [valueScore]; exact leafText .pattern s a
  | arr l _ ih =>
    have key := fun m => arrayScore_top c l ih 0 m l 0 0 rfl (by grind) (by grind)
    refine ⟨fun a => ?_, ?_⟩
    · simp only [valueScore]
      split
      · next m => exact sizeScore_mono _ _ (key m).1
      · have := sizeScore_self l.length (key []).2; grind
    · simp only [valueScore]; exact sizeScore_self l.length (key []).2
  | obj l hp _ ih =>
    have key := fun m => objectScore_top c l ih 0 m [] 0 0 hp (by grind) (by grind)
    simp only [List.nil_append] at key
    refine ⟨fun a => ?_, ?_⟩
    · simp only [valueScore]
      split
      · next m => exact sizeScore_mono _ _ (key m).1
      · have := sizeScore_self l.length (key []).2; grind
    · simp only [valueScore]; exact sizeScore_self l.length (key []).2

/-- C81.  Nothing is more like a value than the value itself (if no key occurs twice in an object of it). -/
theorem C81_self (c : Bool) (k : Str) (v u : Json) (hv : Distinct false v) : like c (k, v) (k, u) ≤ like c (k, v) (k, v) :=
  withKeys_mono _ _ _ ((top_of_distinct c v hv).1 u)

theorem like_eq (c : Bool) (k q : Str) (v u : Json) (hk : k ≠ []) :
    like c (k, v) (q, u) = dbl (dbl (valueScore c v u * (1 / 2)) + dbl (1 / 2 * estimate c k q)) := by
  rw [like, similarity, withKeys, if_pos (.inl hk)]

theorem div_le_iff {a b c : Rat} (hb : 0 < b) : a / b ≤ c ↔ a ≤ c * b := by
  rw [← Rat.not_lt, ← Rat.not_lt, Rat.lt_div_iff hb]

theorem le_div_iff {a b c : Rat} (hc : 0 < c) : a ≤ b / c ↔ a * c ≤ b := by
  rw [← Rat.not_lt, ← Rat.not_lt, Rat.div_lt_iff hc]

theorem ratio_le {a b c d : Nat} (hb : (0 : Rat) < (b : Rat) * (1 / 2)) (hd : (0 : Rat) < (d : Rat) * (1 / 2)) (h : a * d ≤ c * b) :
    (a : Rat) / ((b : Rat) * (1 / 2)) ≤ (c : Rat) / ((d : Rat) * (1 / 2)) := by
  rw [div_le_iff hb]
  have h1 : (a : Rat) * d ≤ (c : Rat) * b := by exact_mod_cast h
  have e : (c : Rat) / ((d : Rat) * (1 / 2)) * ((b : Rat) * (1 / 2)) = (c : Rat) * ((b : Rat) * (1 / 2)) / ((d : Rat) * (1 / 2)) := by
    rw [Rat.div_def, Rat.div_def]; grind
  rw [e, le_div_iff hd]
  grind

theorem ratio_lt {a b c d : Nat} (hb : (0 : Rat) < (b : Rat) * (1 / 2)) (hd : (0 : Rat) < (d : Rat) * (1 / 2)) (h : a * d < c * b) :
    (a : Rat) / ((b : Rat) * (1 / 2)) < (c : Rat) / ((d : Rat) * (1 / 2)) := by
  rw [Rat.div_lt_iff hb]
  have h1 : (a : Rat) * d < (c : Rat) * b := by exact_mod_cast h
  have e : (c : Rat) / ((d : Rat) * (1 / 2)) * ((b : Rat) * (1 / 2)) = (c : Rat) * ((b : Rat) * (1 / 2)) / ((d : Rat) * (1 / 2)) := by
    rw [Rat.div_def, Rat.div_def]; grind
  rw [e, Rat.lt_div_iff hd]
  grind

theorem distance_le {c : Bool} {s t : Str} {d : Nat} (h : IsDistance (folded c s) (folded c t) d) : d ≤ s.length + t.length := by
  obtain ⟨n, h1, h2⟩ := H2.Diff.C19_levenshtein c s t
  obtain ⟨m, h3, h4⟩ := H2.Diff.levenshtein_least c s t
  have := isDistance_unique h h2
  subst this
  rw [h1] at h3
  cases h3
  obtain ⟨l, h5, h6⟩ := H2.Diff.align_le_max (folded c s) (folded c t)
  have := h4.2 l h6
  rw [H2.Diff.folded_length, H2.Diff.folded_length] at h5
  omega

theorem dbl_nat {n : Nat} (h : n < 2 ^ 53) : dbl (n : Rat) = (n : Rat) :=
  round_exact 53 _ ⟨n, 0, by simpa using h, by rw [Rat.zpow_zero, Rat.mul_one]; rfl⟩

theorem dbl_half_nat {n : Nat} (h : n < 2 ^ 53) : dbl ((n : Rat) * (1 / 2)) = (n : Rat) * (1 / 2) :=
  round_exact 53 _ ⟨n, -1, by simpa using h, by rw [show (2 : Rat) ^ (-1 : Int) = 1 / 2 by decide +kernel]; rfl⟩

theorem dbl_err {x B : Rat} (h1 : x ≤ B) (h2 : -B ≤ x) :
    dbl x ≤ x + B * (1 / 9007199254740992) ∧ x - B * (1 / 9007199254740992) ≤ dbl x := by
  have h := H2.Round.round_err 53 x
  rw [H2.Round.u53] at h
  unfold dbl
  generalize H2.Round.round 53 x = r at *
  unfold H2.Matcher.rabs at h
  constructor <;> grind

/-- The likeness of two names of less than half a million characters each. -/
theorem estimate_short (c : Bool) (k q : Str) (d : Nat) (hk : k ≠ []) (hd : IsDistance (folded c k) (folded c q) d)
    (hn : k.length + q.length < 2 ^ 20) :
    estimate c k q = dbl (1 - dbl ((d : Rat) / (((k.length + q.length : Nat) : Rat) * (1 / 2)))) := by
  have h1 := distance_le hd
  rw [estimate_eq c k q d hd (.inl hk), dbl_nat (n := d) (by omega), dbl_nat (n := k.length + q.length) (by omega),
    dbl_half_nat (n := k.length + q.length) (by omega)]

theorem ratio_two {d n : Nat} (hn : 0 < n) (h : d ≤ n) : (d : Rat) / ((n : Rat) * (1 / 2)) ≤ 2 ∧ 0 ≤ (d : Rat) / ((n : Rat) * (1 / 2)) := by
  have h0 : (0 : Rat) < (n : Rat) := by exact_mod_cast hn
  have h1 : (d : Rat) ≤ (n : Rat) := by exact_mod_cast h
  have h2 : (0 : Rat) ≤ (d : Rat) := by exact_mod_cast Nat.zero_le d
  constructor
  · rw [div_le_iff (by grind)]; grind
  · exact div_nonneg h2 (by grind)

/-- Different ratios of small numbers differ by more than 2⁻³⁹. -/
theorem ratio_gap {a b c d : Nat} (hb : 0 < b) (hd : 0 < d) (hb' : b < 2 ^ 20) (hd' : d < 2 ^ 20) (h : a * d < c * b) :
    (a : Rat) / ((b : Rat) * (1 / 2)) + 1 / 549755813888 ≤ (c : Rat) / ((d : Rat) * (1 / 2)) := by
  have b0 : (0 : Rat) < (b : Rat) := by exact_mod_cast hb
  have d0 : (0 : Rat) < (d : Rat) := by exact_mod_cast hd
  have bd : (b : Rat) * (d : Rat) ≤ 1099511627776 := by
    have : b * d ≤ 2 ^ 20 * 2 ^ 20 := Nat.mul_le_mul (by omega) (by omega)
    have : b * d ≤ 1099511627776 := by omega
    exact_mod_cast this
  have h1 : (a : Rat) * d + 1 ≤ (c : Rat) * b := by exact_mod_cast h
  rw [le_div_iff (by grind)]
  have e : ((a : Rat) / ((b : Rat) * (1 / 2)) + 1 / 549755813888) * ((d : Rat) * (1 / 2)) =
      ((a : Rat) * ((d : Rat) * (1 / 2)) + 1 / 549755813888 * ((b : Rat) * (d : Rat)) * (1 / 4)) / ((b : Rat) * (1 / 2)) := by
    have hb2 : (b : Rat) * (1 / 2) ≠ 0 := by grind
    have hi : (b : Rat) * (1 / 2) * ((b : Rat) * (1 / 2))⁻¹ = 1 := Rat.mul_inv_cancel _ hb2
    rw [Rat.div_def, Rat.div_def]
    generalize ((b : Rat) * (1 / 2))⁻¹ = z at *
    grind
  rw [e, div_le_iff (by grind)]
  have e1 : (a : Rat) * ((d : Rat) * (1 / 2)) = (a : Rat) * d * (1 / 2) := by grind
  have e2 : (c : Rat) * ((b : Rat) * (1 / 2)) = (c : Rat) * b * (1 / 2) := by grind
  rw [e1, e2]
  clear e e1 e2
  generalize (a : Rat) * d = u at *
  generalize (c : Rat) * b = w at *
  generalize (b : Rat) * d = y at *
  grind

/-- C81.  One member of the expected object has another name in the actual one and the same value, all other expected members are
there, and members are added.  The old name stands beside the new one, if at most two fifths of the characters of the two names together are
edited between them and no name added is more like the old one, nor as like and earlier: by the number of edits, relative to the
characters of both names.  Partial: names of any two members have less than 2²⁰ characters together, and the likeness of the value with
itself is at most a thousand (`C81_absorbed_false`). -/
theorem C81_renamed_partial (x : Ctx) (hx : Numbers x.print) (hs : x.score = similarity x.caseless) (fold : Int)
    (l₁ l₂ m₁ m₂ : List (Str × Json)) (k k' : Str) (v : Json)
    (hl : (l₁ ++ (k, v) :: l₂).Pairwise fun p q => ¬ SameText x.caseless p.1 q.1)
    (hm : (m₁ ++ (k', v) :: m₂).Pairwise fun p q => ¬ SameText x.caseless p.1 q.1)
    (hothers : ∀ p ∈ l₁ ++ l₂, ∃ q ∈ m₁ ++ m₂, SameText x.caseless q.1 p.1)
    (hmiss : ∀ q ∈ m₁ ++ (k', v) :: m₂, ¬ SameText x.caseless q.1 k)
    (hk : k ≠ []) (d : Nat) (hd : IsDistance (folded x.caseless k) (folded x.caseless k') d) (hclose : 5 * d ≤ 2 * (k.length + k'.length))
    (hbefore : ∀ q ∈ m₁, (∀ p ∈ l₁ ++ l₂, ¬ SameText x.caseless q.1 p.1) → ∀ d', IsDistance (folded x.caseless k) (folded x.caseless q.1) d' →
      d * (k.length + q.1.length) < d' * (k.length + k'.length))
    (hbehind : ∀ q ∈ m₂, (∀ p ∈ l₁ ++ l₂, ¬ SameText x.caseless q.1 p.1) → ∀ d', IsDistance (folded x.caseless k) (folded x.caseless q.1) d' →
      d * (k.length + q.1.length) ≤ d' * (k.length + k'.length))
    (hshort : ∀ q ∈ m₁ ++ (k', v) :: m₂, k.length + q.1.length < 2 ^ 20) (hsmall : like x.caseless ([], v) ([], v) ≤ 1000)
    (hv : v ≠ .absent) (hdis : Distinct false v) :
    ∃ (i : Nat) (L R : Line) (t u : Str), (diff x fold (.obj (l₁ ++ (k, v) :: l₂)) (.obj (m₁ ++ (k', v) :: m₂))).1[i]? = some L ∧
      (diff x fold (.obj (l₁ ++ (k, v) :: l₂)) (.obj (m₁ ++ (k', v) :: m₂))).2[i]? = some R ∧
      Visible L t ∧ Visible R u ∧ label k <:+: t ∧ label k' <:+: u := by
  have top := top_of_distinct x.caseless v hdis
  have hs1 : valueScore x.caseless v v ≤ 1000 := by
    have : like x.caseless ([], v) ([], v) = valueScore x.caseless v v := by
      rw [like, similarity, withKeys, if_neg (by simp)]
    rwa [← this]
  have hp : ∀ q : Str, (0 : Rat) < ((k.length + q.length : Nat) : Rat) * (1 / 2) := fun q => half_pos (.inl hk)
  have hkl := List.length_pos_iff.2 hk
  have hn := hshort (k', v) (by simp)
  simp only [] at hn
  have S1 := dbl_err (x := valueScore x.caseless v v * (1 / 2)) (B := 500) (by grind) (by have := top.2; grind)
  have S2 := dbl_mono (x := (1 / 4) * (1 / 2)) (y := valueScore x.caseless v v * (1 / 2)) (by have := top.2; grind)
  have e8 : dbl ((1 / 4) * (1 / 2)) = 1 / 8 := by decide +kernel
  rw [e8] at S2
  have R1 : (d : Rat) / (((k.length + k'.length : Nat) : Rat) * (1 / 2)) ≤ 4 / 5 := by
    rw [div_le_iff (hp k')]
    have : (5 : Rat) * d ≤ 2 * ((k.length + k'.length : Nat) : Rat) := by exact_mod_cast hclose
    grind
  have R0 := (ratio_two (n := k.length + k'.length) (by omega) (distance_le hd)).2
  have R2 := dbl_err (B := 1) (x := (d : Rat) / (((k.length + k'.length : Nat) : Rat) * (1 / 2))) (by grind) (by grind)
  have R3 := dbl_err (B := 2) (x := 1 - dbl ((d : Rat) / (((k.length + k'.length : Nat) : Rat) * (1 / 2)))) (by grind) (by grind)
  have R4 := dbl_err (B := 2) (x := 1 / 2 * dbl (1 - dbl ((d : Rat) / (((k.length + k'.length : Nat) : Rat) * (1 / 2))))) (by grind) (by grind)
  have hE := estimate_short x.caseless k k' d hk hd hn
  refine C81_row x hx hs fold l₁ l₂ m₁ m₂ k k' v v hl hm hothers hmiss ?_ ?_ ?_ hv hv
  · rw [like_eq _ _ _ _ _ hk, hE]
    have L := dbl_mono (x := 9 / 40 - 1 / 1000) (y := dbl (valueScore x.caseless v v * (1 / 2)) +
      dbl (1 / 2 * dbl (1 - dbl ((d : Rat) / (((k.length + k'.length : Nat) : Rat) * (1 / 2)))))) (by grind)
    have h3 : threshold < dbl (9 / 40 - 1 / 1000) := by decide +kernel
    grind
  · intro q hq ha
    obtain ⟨d', -, hd'⟩ := H2.Diff.C19_levenshtein x.caseless k q.1
    have hqn := hshort q (by simp [hq])
    rw [like_eq x.caseless k k' v v hk, hE, like_eq _ _ _ _ _ hk]
    rw [estimate_short x.caseless k q.1 d' hk hd' hqn]
    have G := ratio_gap (b := k.length + k'.length) (d := k.length + q.1.length) (by omega) (by omega) hn hqn (hbefore q hq ha d' hd')
    have T := ratio_two (n := k.length + q.1.length) (by omega) (distance_le hd')
    have V := dbl_mono (x := valueScore x.caseless v q.2 * (1 / 2)) (y := valueScore x.caseless v v * (1 / 2)) (by have := top.1 q.2; grind)
    generalize (d : Rat) / (((k.length + k'.length : Nat) : Rat) * (1 / 2)) = r at *
    generalize (d' : Rat) / (((k.length + q.1.length : Nat) : Rat) * (1 / 2)) = r' at *
    generalize dbl (valueScore x.caseless v v * (1 / 2)) = S at *
    generalize dbl (valueScore x.caseless v q.2 * (1 / 2)) = S' at *
    have Q2 := dbl_err (B := 2) (x := r') (by grind) (by grind)
    have Q3 := dbl_err (B := 2) (x := 1 - dbl r') (by grind) (by grind)
    have Q4 := dbl_err (B := 2) (x := 1 / 2 * dbl (1 - dbl r')) (by grind) (by grind)
    have Q5 := dbl_mono (x := S' + dbl (1 / 2 * dbl (1 - dbl r'))) (y := S + dbl (1 / 2 * dbl (1 - dbl r'))) (by grind)
    have Q6 := dbl_err (B := 600) (x := S + dbl (1 / 2 * dbl (1 - dbl r'))) (by grind) (by grind)
    have Q7 := dbl_err (B := 600) (x := S + dbl (1 / 2 * dbl (1 - dbl r))) (by grind) (by grind)
    generalize dbl (S + dbl (1 / 2 * dbl (1 - dbl r'))) = A at *
    generalize dbl (S' + dbl (1 / 2 * dbl (1 - dbl r'))) = A' at *
    generalize dbl (S + dbl (1 / 2 * dbl (1 - dbl r))) = A'' at *
    generalize dbl (1 / 2 * dbl (1 - dbl r')) = B at *
    generalize dbl (1 / 2 * dbl (1 - dbl r)) = B' at *
    generalize dbl (1 - dbl r) = C at *
    generalize dbl (1 - dbl r') = C' at *
    generalize dbl r = D at *
    generalize dbl r' = D' at *
    clear hE hd' ha hbefore hbehind hshort hsmall
    grind
  · intro q hq ha
    obtain ⟨d', -, hd'⟩ := H2.Diff.C19_levenshtein x.caseless k q.1
    have hqn := hshort q (by simp [hq])
    rw [like_eq x.caseless k k' v v hk, hE, like_eq _ _ _ _ _ hk]
    rw [estimate_short x.caseless k q.1 d' hk hd' hqn]
    have h1 := dbl_mono (ratio_le (hp k') (hp q.1) (hbehind q hq ha d' hd'))
    have V := dbl_mono (x := valueScore x.caseless v q.2 * (1 / 2)) (y := valueScore x.caseless v v * (1 / 2)) (by have := top.1 q.2; grind)
    refine dbl_mono ?_
    generalize dbl ((d : Rat) / (((k.length + k'.length : Nat) : Rat) * (1 / 2))) = r at *
    generalize dbl ((d' : Rat) / (((k.length + q.1.length : Nat) : Rat) * (1 / 2))) = r' at *
    have h2 : dbl (1 - r') ≤ dbl (1 - r) := dbl_mono (by grind)
    have h3 : dbl (1 / 2 * dbl (1 - r')) ≤ dbl (1 / 2 * dbl (1 - r)) := dbl_mono (by grind)
    grind

/-- C81.  Texts, numbers, `true`, `false` and `null` have the likeness 1 with themselves, far below the bound of `C81_renamed_partial`. -/
theorem C81_scalar (c : Bool) (v : Json) (ha : ∀ l, v ≠ .arr l) (ho : ∀ l, v ≠ .obj l) : like c ([], v) ([], v) = 1 := by
  rw [like, similarity, withKeys, if_neg (by simp)]
  cases v with
  | arr l => exact absurd rfl (ha l)
  | obj l => exact absurd rfl (ho l)
  | str s => simp [valueScore, kind, valueString, estimate_self]
  | pat s => simp [valueScore, kind, valueString, estimate_self]
  | _ => simp [valueScore, kind, estimate_nil]

/-- Eleven elements are below the bound. -/
example : like false ([], .arr (List.replicate 11 .null)) ([], .arr (List.replicate 11 .null)) ≤ 1000 := by decide +kernel

/-! ### Cases -/

theorem distance_of {c : Bool} {s t : Str} {n : Nat} (h : H2.Diff.levenshtein c s t = some n) : IsDistance (folded c s) (folded c t) n := by
  obtain ⟨m, h1, h2⟩ := H2.Diff.C19_levenshtein c s t
  rw [h] at h1
  cases h1
  exact h2

section
private def sample : Ctx := ⟨⟨.fin, fun _ _ _ => false⟩, fun _ => "7".toList, similarity false, false⟩

private theorem sample_numbers : Numbers sample.print := by
  intro d
  constructor
  · rw [white_iff]; exact (by decide : ¬ blank "7".toList = true)
  · rw [colour_iff]; exact (by decide : ¬ isctrl "7".toList = true)

/-- `{"id": null, "size": [true]}` beside `{"name": "x", "sizes": [true], "id": null, "length": [true]}` -/
example (fold : Int) : ∃ (i : Nat) (L R : Line) (t u : Str),
    (diff sample fold (.obj ([("id".toList, .null)] ++ ("size".toList, .arr [.bool true]) :: []))
      (.obj ([("name".toList, .str "x".toList)] ++ ("sizes".toList, .arr [.bool true]) :: [("id".toList, .null), ("length".toList, .arr [.bool true])]))).1[i]? = some L ∧
    (diff sample fold (.obj ([("id".toList, .null)] ++ ("size".toList, .arr [.bool true]) :: []))
      (.obj ([("name".toList, .str "x".toList)] ++ ("sizes".toList, .arr [.bool true]) :: [("id".toList, .null), ("length".toList, .arr [.bool true])]))).2[i]? = some R ∧
    Visible L t ∧ Visible R u ∧ label "size".toList <:+: t ∧ label "sizes".toList <:+: u := by
  have no : ∀ s t : Str, SameText false s t → s = t := by
    rintro s t (h | ⟨h, -⟩)
    · exact h
    · cases h
  refine C81_renamed_partial sample sample_numbers rfl fold _ [] _ _ _ _ (.arr [.bool true]) ?_ ?_ ?_ ?_ (by decide) 1
    (distance_of (by decide +kernel)) (by decide) ?_ ?_ (by simp) (by decide +kernel) (by simp) (.arr _ (by simp; exact .bool _))
  · simp only [List.singleton_append, List.pairwise_cons, List.mem_cons, List.not_mem_nil, or_false, forall_eq]
    exact ⟨fun h => absurd (no _ _ h) (by decide), by simp, .nil⟩
  · simp only [List.singleton_append, List.pairwise_cons, List.mem_cons, List.not_mem_nil, or_false, forall_eq_or_imp, forall_eq]
    refine ⟨⟨?_, ?_, ?_⟩, ⟨?_, ?_⟩, ?_, by simp, .nil⟩ <;> exact fun h => absurd (no _ _ h) (by decide)
  · intro p hp
    simp only [List.append_nil, List.mem_singleton] at hp
    subst hp
    exact ⟨("id".toList, .null), by simp, sameText_refl _ _⟩
  · simp only [List.singleton_append, List.mem_cons, List.not_mem_nil, or_false, forall_eq_or_imp, forall_eq]
    refine ⟨?_, ?_, ?_, ?_⟩ <;> exact fun h => absurd (no _ _ h) (by decide)
  · simp only [List.mem_singleton, forall_eq]
    intro _ d' hd'
    have : d' = 3 := isDistance_unique hd' (distance_of (by decide +kernel))
    subst this; decide
  · simp only [List.mem_cons, List.not_mem_nil, or_false, forall_eq_or_imp, forall_eq]
    refine ⟨?_, ?_⟩
    · intro _ d' hd'
      have : d' = 3 := isDistance_unique hd' (distance_of (by decide +kernel))
      subst this; decide
    · intro _ d' hd'
      have : d' = 6 := isDistance_unique hd' (distance_of (by decide +kernel))
      subst this; decide

example : search sample ⟨0, "size".toList, .str "ab".toList⟩
    ([⟨0, "name".toList, .str "ab".toList⟩] ++ ⟨1, "sizes".toList, .str "ac".toList⟩ :: [⟨2, "length".toList, .null⟩]) = some 1 :=
  C81_search sample _ _ _ _ (by decide +kernel) (by simp only [List.mem_singleton, forall_eq]; decide +kernel)
    (by simp only [List.mem_singleton, forall_eq]; decide +kernel)

example : search sample ⟨0, "size".toList, .str "ab".toList⟩ [⟨0, "name".toList, .null⟩] = none :=
  C81_search_none sample _ _ (by simp only [List.mem_singleton, forall_eq]; decide +kernel)

example : like false ("a".toList, .arr [.str "ab".toList]) ("a".toList, .arr [.str "xb".toList]) ≤
    like false ("a".toList, .arr [.str "ab".toList]) ("a".toList, .arr [.str "ab".toList]) :=
  C81_self false _ _ _ (.arr _ (by simp; exact .str _))
end

/-! ### What is false of the code -/

/-- C81 (fails).  Values are not looked at when they are numbers: of two additional members with names as like, the first is taken,
although the other has the value of the missing one. -/
theorem C81_number_false : search ⟨⟨.fin, fun _ _ _ => false⟩, fun _ => [], similarity false, false⟩ ⟨0, "size".toList, .num (.fin 1)⟩
    [⟨0, "size1".toList, .num (.fin 2)⟩, ⟨1, "size2".toList, .num (.fin 1)⟩] = some 0 := by decide +kernel

/-- C81 (fails).  Nor when they are `true` and `false`. -/
theorem C81_bool_false : search ⟨⟨.fin, fun _ _ _ => false⟩, fun _ => [], similarity false, false⟩ ⟨0, "size".toList, .bool true⟩
    [⟨0, "size1".toList, .bool false⟩, ⟨1, "size2".toList, .bool true⟩] = some 0 := by decide +kernel

/-- C81 (fails).  The likeness is no number from 0 to 1: equal arrays of two elements have more, and the more elements the more. -/
theorem C81_range_false : like false ([], .arr [.null, .null]) ([], .arr [.null, .null]) = dbl (17 / 10) ∧
    10 < like false ([], .arr [.null, .null, .null, .null, .null, .null]) ([], .arr [.null, .null, .null, .null, .null, .null]) := by decide +kernel

/-- C81 (fails).  The likeness of the names is lost in that of long values: with sixty elements `x`, which comes first, takes the place of
`size` although `sizes` has the same value and nearly the same name. -/
theorem C81_absorbed_false : search ⟨⟨.fin, fun _ _ _ => false⟩, fun _ => [], similarity false, false⟩
    ⟨0, "size".toList, .arr (List.replicate 60 .null)⟩
    [⟨0, "x".toList, .arr (List.replicate 60 .null)⟩, ⟨1, "sizes".toList, .arr (List.replicate 60 .null)⟩] = some 0 := by decide +kernel

/-- C81 (fails).  So a member with another name and a longer value takes the place of the one with the nearly equal name: elements
outweigh names. -/
theorem C81_weight_false : search ⟨⟨.fin, fun _ _ _ => false⟩, fun _ => [], similarity false, false⟩
    ⟨0, "names".toList, .arr [.null, .null, .null, .null]⟩
    [⟨0, "name".toList, .arr [.null]⟩, ⟨1, "x".toList, .arr [.null, .null, .null, .bool true]⟩] = some 1 := by decide +kernel

end H2.Json.Dual
