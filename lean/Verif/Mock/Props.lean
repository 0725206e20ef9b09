import Verif.Mock.Lemmas
/-
Properties C28, C29 and C56: mocked functions.
-/
namespace H2.Mock
variable {V R : Type}

/-! ### C28: one call -/

/-- **C28.** A call is charged to expectation `j` exactly when it belongs to `j`. -/
theorem C28_belongs (m m' : Mocker V R) (args : List V) (o : Outcome) (h : m.call args = some (m', o)) (j : Nat) :
    o.charged = some j ↔ BelongsTo m args j := by
  rcases call_spec m args with ⟨o1, h1, h2, h3⟩ | ⟨j1, h1, ⟨m1, o1, h2, h3, _⟩ | ⟨h2, _⟩⟩
  · rw [h1] at h; simp at h; rw [← h.2, h2]
    simp only [reduceCtorEq, false_iff]
    rintro ⟨hb, f, g1, g2, _, g4, _⟩
    exact h3 f _ g1 (List.getElem?_eq_getElem (by omega)) (g4 f _ (by omega) g2 (List.getElem?_eq_getElem (by omega)))
  · rw [h2] at h; simp at h; rw [← h.2, h3]
    constructor
    · intro hj; simp at hj; rw [← hj]; exact h1
    · intro hj; rw [belongs_unique m args j j1 hj h1]
  · rw [h2] at h; simp at h

/-- **C28.** A call is reported as unexpected, and charged to nothing, exactly when no expectation
from the one that took the previous call on accepts it. -/
theorem C28_unexpected (m m' : Mocker V R) (args : List V) (o : Outcome) (h : m.call args = some (m', o)) :
    o.charged = none ↔ ∀ i e, m.index ≤ i → m.exps[i]? = some e → ¬ Accepts e args := by
  rcases call_spec m args with ⟨o1, h1, h2, h3⟩ | ⟨j1, h1, ⟨m1, o1, h2, h3, _⟩ | ⟨h2, _⟩⟩
  · rw [h1] at h; simp at h; rw [← h.2, h2]; simpa using h3
  · rw [h2] at h; simp at h; rw [← h.2, h3]
    simp only [reduceCtorEq, false_iff]
    intro hn
    obtain ⟨hb, f, g1, g2, _, g4, _⟩ := h1
    exact hn f _ g1 (List.getElem?_eq_getElem (by omega)) (g4 f _ (by omega) g2 (List.getElem?_eq_getElem (by omega)))
  · rw [h2] at h; simp at h

/-- **C28.** The argument failures of a call: one for every expectation passed over, before any
accepting one, whose count is out of its bounds; it names the positions of the rejected arguments. -/
theorem C28_wrong (m m' : Mocker V R) (args : List V) (o : Outcome) (h : m.call args = some (m', o)) (i : Nat) (ks : List Nat) :
    (i, ks) ∈ o.wrong ↔ ∃ e, m.exps[i]? = some e ∧ m.index ≤ i ∧ ¬ InBounds e.checkin ∧
      (∀ z e', m.index ≤ z → z ≤ i → m.exps[z]? = some e' → ¬ Accepts e' args) ∧
      ks.Pairwise (· < ·) ∧ ∀ k, k ∈ ks ↔ ∃ a, args[k]? = some a ∧ e.matchers k a = false := by
  have hw : o.wrong = (scan m.greed args (m.exps.drop m.index) m.index none).2 := by
    unfold Mocker.call at h
    simp only at h
    split at h
    · simp at h; rw [← h.2]
    · split at h
      · simp at h
      · simp at h; rw [← h.2]
  rw [hw, scan_wrong]
  have hd : ∀ i, m.index ≤ i → (m.exps.drop m.index)[i - m.index]? = m.exps[i]? := by
    intro i hi
    rw [List.getElem?_drop, show m.index + (i - m.index) = i by omega]
  constructor
  · rintro ⟨y, e, h1, h2, h3, h4, h5⟩
    subst h1 h3
    rw [List.getElem?_drop] at h2
    refine ⟨e, h2, by omega, h4, ?_, rejected_sorted _ _ _, ?_⟩
    · intro z e' hz hz' he
      exact h5 (z - m.index) e' (by omega) (by rw [hd z hz]; exact he)
    · intro k
      rw [mem_rejected]
      constructor
      · rintro ⟨x, a, g1, g2, g3⟩
        simp only [Nat.zero_add] at g1 g3; subst g1
        exact ⟨a, g2, g3⟩
      · rintro ⟨a, g2, g3⟩
        exact ⟨k, a, by omega, g2, by simpa using g3⟩
  · rintro ⟨e, h1, h2, h3, h4, h5, h6⟩
    refine ⟨i - m.index, e, by omega, by rw [hd i h2]; exact h1, ?_, h3, ?_⟩
    · apply List.Perm.eq_of_pairwise (le := (· < ·)) (fun a b _ _ g1 g2 => by omega) h5 (rejected_sorted _ _ _)
      apply (List.perm_ext_iff_of_nodup (h5.imp (by intro a b hab; omega)) ((rejected_sorted _ _ _).imp (by intro a b hab; omega))).2
      intro k
      rw [h6, mem_rejected]
      constructor
      · rintro ⟨a, g2, g3⟩; exact ⟨k, a, by omega, g2, by simpa using g3⟩
      · rintro ⟨x, a, g1, g2, g3⟩
        simp only [Nat.zero_add] at g1 g3; subst g1
        exact ⟨a, g2, g3⟩
    · intro z e' hz he
      exact h4 (m.index + z) e' (by omega) (by omega) (by rw [List.getElem?_drop] at he; exact he)

/-- **C28.** The effect of a call on the counts: the charged expectation counts one call more,
nothing else changes; an unexpected call changes nothing. -/
theorem C28_effect (m m' : Mocker V R) (args : List V) (o : Outcome) (h : m.call args = some (m', o)) :
    m'.greed = m.greed ∧
    match o.charged with
    | none => m' = m
    | some j => m'.index = j ∧ Counted m.exps m'.exps j := by
  rcases call_spec m args with ⟨o1, h1, h2, h3⟩ | ⟨j1, h1, ⟨m1, o1, h2, h3, h4, h5, _, h6⟩ | ⟨h2, _⟩⟩
  · rw [h1] at h; simp at h; rw [← h.2, h2, ← h.1]; exact ⟨rfl, rfl⟩
  · rw [h2] at h; simp at h; rw [← h.2, h3, ← h.1]; exact ⟨h5, h4, h6⟩
  · rw [h2] at h; simp at h

/-- **C28.** No call of a case with fewer than 2³¹ calls overflows a counter. -/
theorem C28_no_overflow (m : Mocker V R) (as : List (List V))
    (hb : ∀ e ∈ m.exps, e.checkin.call + ((as.length : Nat) : Int) ≤ intMax) : m.calls as ≠ none := by
  induction as generalizing m with
  | nil => simp [Mocker.calls]
  | cons a as ih =>
    have hmem : ∀ i e, m.exps[i]? = some e → e ∈ m.exps := fun i e he => List.mem_iff_getElem?.2 ⟨i, he⟩
    rw [Mocker.calls]
    rcases call_spec m a with ⟨o1, h1, h2, h3⟩ | ⟨j1, h1, ⟨m1, o1, h2, h3, h4, h5, _, h6⟩ | ⟨h2, h3⟩⟩
    · rw [h1]
      have := ih m (by
        intro e he
        have := hb e he
        simp at this; omega)
      simp only
      cases hc : m.calls as with
      | none => exact absurd hc this
      | some r => simp
    · rw [h2]
      have := ih m1 (by
        intro e he
        obtain ⟨i, hi⟩ := List.mem_iff_getElem?.1 he
        rw [h6 i] at hi
        simp only [Option.map_eq_some_iff] at hi
        obtain ⟨e0, he0, hi⟩ := hi
        have hb0 := hb e0 (hmem i e0 he0)
        rw [List.length_cons] at hb0
        split at hi
        · subst hi; simp only; omega
        · subst hi; omega)
      simp only
      cases hc : m1.calls as with
      | none => exact absurd hc this
      | some r => simp
    · exfalso
      have hj := List.getElem?_eq_getElem h1.bound
      have g1 := h3 _ hj
      have g2 := hb _ (hmem _ _ hj)
      rw [List.length_cons] at g2
      omega

/-! ### C28: histories -/

/-- **C28.** Over any history of calls: charges never go back to an earlier expectation, each
expectation has counted exactly the calls charged to it, and nothing else about it changed. -/
theorem C28_history (m m' : Mocker V R) (as : List (List V)) (os : List Outcome) (h : m.calls as = some (m', os)) :
    os.length = as.length ∧ (os.filterMap (·.charged)).Pairwise (· ≤ ·) ∧
    (∀ j ∈ os.filterMap (·.charged), m.index ≤ j) ∧
    ∀ i : Nat, m'.exps[i]? = m.exps[i]?.map (·.plus ((os.filterMap (·.charged)).count i)) := by
  induction as generalizing m os with
  | nil =>
    simp [Mocker.calls] at h
    obtain ⟨h1, h2⟩ := h
    subst h1 h2
    refine ⟨rfl, by simp, by simp, ?_⟩
    intro i
    cases hi : m.exps[i]? <;> simp [Exp.plus]
  | cons a as ih =>
    obtain ⟨m1, o, os', h1, h2, h3⟩ := (calls_cons m a as m' os).1 h
    subst h3
    obtain ⟨i1, i2, i3, i4⟩ := ih m1 os' h2
    obtain ⟨_, he⟩ := C28_effect m m1 a o h1
    have hbel := C28_belongs m m1 a o h1
    cases hc : o.charged with
    | none =>
      rw [hc] at he; simp only at he; subst he
      simp only [List.filterMap_cons, hc]
      exact ⟨by simp [i1], i2, i3, i4⟩
    | some j =>
      rw [hc] at he; simp only at he
      obtain ⟨e1, e2⟩ := he
      obtain ⟨hb, f, g1, g2, _⟩ := (hbel j).1 hc
      simp only [List.filterMap_cons, hc]
      rw [e1] at i3
      refine ⟨by simp [i1], List.Pairwise.cons i3 i2, ?_, ?_⟩
      · intro x hx
        simp only [List.mem_cons] at hx
        rcases hx with hx | hx
        · omega
        · have := i3 x hx; omega
      · intro i
        rw [i4 i, e2 i]
        cases hi : m.exps[i]? with
        | none => rfl
        | some e =>
          simp only [Option.map_some, Option.some.injEq]
          rw [List.count_cons]
          by_cases hij : i = j
          · subst hij; simp [Exp.plus]; omega
          · rw [if_neg hij, if_neg (by simpa using fun h => hij h.symm)]; simp

/-- **C28.** If a case passes, its calls can be handed out to the expectations in order, with every
call accepted by its expectation and every count in its bounds. -/
theorem C28_sound (m : Mocker V R) (as : List (List V)) (hle : ∀ e ∈ m.exps, e.checkin.least ≤ e.checkin.most)
    (h : Passes m as) : ∃ js, Plan m as js := by
  obtain ⟨m', os, h1, h2, h3⟩ := h
  obtain ⟨i1, i2, i3, i4⟩ := C28_history m m' as os h1
  have hall : ∀ o ∈ os, o.charged.isSome = true := by
    intro o ho
    cases hc : o.charged with
    | none => exact absurd hc (h2 o ho).1
    | some _ => rfl
  have hlen : (os.filterMap (·.charged)).length = os.length := by
    clear h1 h2 i1 i2 i3 i4
    induction os with
    | nil => rfl
    | cons o os ih =>
      have ho := hall o (by simp)
      cases hc : o.charged with
      | none => rw [hc] at ho; simp at ho
      | some j =>
        rw [List.filterMap_cons, hc]
        simp only [List.length_cons]
        rw [ih (fun o h => hall o (by simp [h]))]
  refine ⟨os.filterMap (·.charged), by omega, i3, i2, ?_, ?_⟩
  · -- acceptance, by induction over the history
    clear i2 i3 i4 i1 hlen
    induction as generalizing m os with
    | nil => intro k j a _ ha; simp at ha
    | cons a as ih =>
      obtain ⟨m1, o, os', g1, g2, g3⟩ := (calls_cons m a as m' os).1 h1
      subst g3
      have ho := hall o (by simp)
      cases hc : o.charged with
      | none => rw [hc] at ho; simp at ho
      | some j0 =>
        obtain ⟨_, he⟩ := C28_effect m m1 a o g1
        rw [hc] at he; simp only at he
        obtain ⟨e1, e2⟩ := he
        have hles : ∀ e ∈ m1.exps, e.checkin.least ≤ e.checkin.most := by
          intro e he
          obtain ⟨i, hi⟩ := List.mem_iff_getElem?.1 he
          rw [e2 i] at hi
          simp only [Option.map_eq_some_iff] at hi
          obtain ⟨e0, he0, hi⟩ := hi
          have := hle e0 (List.mem_iff_getElem?.2 ⟨i, he0⟩)
          split at hi <;> (subst hi; exact this)
        have hih := ih m1 hles os' g2 (fun o h => h2 o (by simp [h])) (fun o h => hall o (by simp [h]))
        intro k j a' hj ha
        rw [List.filterMap_cons, hc] at hj
        cases k with
        | zero =>
          simp at hj ha
          subst hj ha
          obtain ⟨hb, f, q1, q2, _, q4, _⟩ := (C28_belongs m m1 a o g1 j0).1 hc
          exact ⟨_, List.getElem?_eq_getElem hb, q4 j0 _ q2 (Nat.le_refl _) (List.getElem?_eq_getElem hb)⟩
        | succ k =>
          obtain ⟨e, q1, q2⟩ := hih k j a' (by simpa using hj) (by simpa using ha)
          rw [e2 j] at q1
          simp only [Option.map_eq_some_iff] at q1
          obtain ⟨e0, he0, q1⟩ := q1
          refine ⟨e0, he0, ?_⟩
          split at q1 <;> (subst q1; exact q2)
  · intro i e he
    have hi := i4 i
    rw [he] at hi
    simp only [Option.map_some] at hi
    have hnf : ¬ i ∈ m'.check := by rw [h3]; simp
    rw [Mocker.check, checkFrom_mem] at hnf
    have hcf : ¬ (_ : Checkin).checkFails = true := fun hc => hnf ⟨i, _, by omega, hi, hc⟩
    rw [checkFails_iff] at hcf
    simp only [InBounds, Exp.plus] at hcf
    have hl := hle e (List.mem_iff_getElem?.2 ⟨i, he⟩)
    refine Decidable.byContradiction fun hno => hcf ⟨fun hb => hno hb, ?_⟩
    omega

/-- One step of a plan: if the next call belongs to its planned expectation, it is charged to it
without failure, and the rest of the plan is a plan for the rest. -/
theorem plan_step (m : Mocker V R) (a : List V) (as : List (List V)) (j : Nat) (js : List Nat)
    (hmost : ∀ e ∈ m.exps, e.checkin.most ≤ intMax) (hp : Plan m (a :: as) (j :: js)) (hbel : BelongsTo m a j) :
    ∃ m1 o, m.call a = some (m1, o) ∧ o.charged ≠ none ∧ o.wrong = [] ∧ m1.index = j ∧ m1.greed = m.greed ∧
      Counted m.exps m1.exps j ∧ Plan m1 as js := by
  obtain ⟨ej, hj, hacc⟩ := hp.accepted 0 j a rfl rfl
  have hstart := hp.start j (by simp)
  have hbj := hp.bounds j ej hj
  have hmj := hmost ej (List.mem_iff_getElem?.2 ⟨j, hj⟩)
  have hcnt : (j :: js).count j = js.count j + 1 := by simp
  rw [hcnt] at hbj
  rcases call_spec m a with ⟨o1, h1, h2, h3⟩ | ⟨j1, h1, ⟨m1, o1, h2, h3, h4, h5, _, h6⟩ | ⟨h2, h3⟩⟩
  · exact absurd hacc (h3 j ej hstart hj)
  · have hj1 := belongs_unique m a j j1 hbel h1
    subst hj1
    refine ⟨m1, o1, h2, by rw [h3]; simp, ?_, h4, h5, h6, ?_⟩
    · refine List.eq_nil_iff_forall_not_mem.2 ?_
      rintro ⟨i, ks⟩ hi
      obtain ⟨e, g1, g2, g3, g4, _⟩ := (C28_wrong m m1 a o1 h2 i ks).1 hi
      have hij : i < j := by
        refine Decidable.byContradiction fun hn => ?_
        exact g4 j ej hstart (by omega) hj hacc
      apply g3
      have hb := hp.bounds i e g1
      have hz : (j :: js).count i = 0 := by
        rw [List.count_eq_zero]
        intro hmem
        simp only [List.mem_cons] at hmem
        rcases hmem with hmem | hmem
        · omega
        · have := (List.pairwise_cons.1 hp.sorted).1 i hmem; omega
      rw [hz] at hb
      simpa [InBounds] using hb
    · refine ⟨by have := hp.length; simpa using this, ?_, (List.pairwise_cons.1 hp.sorted).2, ?_, ?_⟩
      · intro x hx; rw [h4]; exact (List.pairwise_cons.1 hp.sorted).1 x hx
      · intro k x b hx hb
        obtain ⟨e, q1, q2⟩ := hp.accepted (k + 1) x b (by simpa using hx) (by simpa using hb)
        refine ⟨_, by rw [h6 x, q1]; rfl, ?_⟩
        split <;> exact q2
      · intro i e he
        rw [h6 i] at he
        simp only [Option.map_eq_some_iff] at he
        obtain ⟨e0, he0, he⟩ := he
        have hb0 := hp.bounds i e0 he0
        split at he
        · rename_i hij
          subst hij
          rw [hcnt] at hb0
          subst he; simp only; omega
        · rename_i hij
          subst he
          rw [List.count_cons, if_neg (by simpa using fun h => hij h.symm)] at hb0
          simpa using hb0
  · have hj1 := belongs_unique m a j j1 hbel h1
    subst hj1
    have := h3 ej hj
    omega

theorem plan_nil (m : Mocker V R) (js : List Nat) (hp : Plan m [] js) : Passes m [] := by
  refine ⟨m, [], rfl, by simp, ?_⟩
  have hjs : js = [] := List.eq_nil_of_length_eq_zero hp.length
  subst hjs
  refine List.eq_nil_iff_forall_not_mem.2 ?_
  intro i hi
  obtain ⟨y, e, _, h2, h3⟩ := (checkFrom_mem _ _ _).1 hi
  have := hp.bounds y e h2
  rw [checkFails_iff] at h3
  apply h3.1
  simpa [InBounds] using this

theorem passes_cons (m m1 : Mocker V R) (a : List V) (as : List (List V)) (o : Outcome) (h : m.call a = some (m1, o))
    (hc : o.charged ≠ none) (hw : o.wrong = []) (hp : Passes m1 as) : Passes m (a :: as) := by
  obtain ⟨m2, os, p1, p2, p3⟩ := hp
  refine ⟨m2, o :: os, (calls_cons m a as m2 _).2 ⟨m1, o, os, h, p1, rfl⟩, ?_, p3⟩
  intro o' ho
  simp only [List.mem_cons] at ho
  rcases ho with ho | ho
  · subst ho; exact ⟨hc, hw⟩
  · exact p2 o' ho

/-- A property of the bounds and matchers of the expectations survives counting. -/
theorem counted_get (es es' : List (Exp V R)) (j i : Nat) (e : Exp V R) (h : Counted es es' j) (he : es'[i]? = some e) :
    ∃ e0, es[i]? = some e0 ∧ e.checkin.least = e0.checkin.least ∧ e.checkin.most = e0.checkin.most ∧
      (∀ a, Accepts e a ↔ Accepts e0 a) := by
  rw [h i] at he
  simp only [Option.map_eq_some_iff] at he
  obtain ⟨e0, he0, he⟩ := he
  refine ⟨e0, he0, ?_⟩
  split at he <;> (subst he; exact ⟨rfl, rfl, fun _ => Iff.rfl⟩)

/-- **C28.** If no argument list is accepted by two expectations, a case passes exactly when its
calls can be handed out to the expectations in order. -/
theorem C28_disjoint (m : Mocker V R) (as : List (List V))
    (hmost : ∀ e ∈ m.exps, e.checkin.least ≤ e.checkin.most ∧ e.checkin.most ≤ intMax)
    (hdis : ∀ (i j : Nat) (e e' : Exp V R) (a : List V),
      m.exps[i]? = some e → m.exps[j]? = some e' → Accepts e a → Accepts e' a → i = j) :
    Passes m as ↔ ∃ js, Plan m as js := by
  constructor
  · exact C28_sound m as (fun e he => (hmost e he).1)
  · rintro ⟨js, hp⟩
    induction as generalizing m js with
    | nil => exact plan_nil m js hp
    | cons a as ih =>
      cases js with
      | nil => have := hp.length; simp at this
      | cons j js =>
        obtain ⟨ej, hj, hacc⟩ := hp.accepted 0 j a rfl rfl
        have hbel : BelongsTo m a j := by
          refine ⟨(List.getElem?_eq_some_iff.1 hj).1, j, hp.start j (by simp), Nat.le_refl _, ?_, ?_, ?_, ?_⟩
          · intro i e _ hi he hac
            have := hdis i j e ej a he hj hac hacc; omega
          · intro i e h1 h2 he
            have : i = j := by omega
            subst this; rw [hj] at he; simp at he; subst he; exact hacc
          · intro i e h1 h2; omega
          · right
            intro e he hac
            have := hdis (j + 1) j e ej a he hj hac hacc; omega
        obtain ⟨m1, o, h1, h2, h3, _, _, h4, h5⟩ := plan_step m a as j js (fun e he => (hmost e he).2) hp hbel
        refine passes_cons m m1 a as o h1 h2 h3 (ih m1 ?_ ?_ js h5)
        · intro e he
          obtain ⟨i, hi⟩ := List.mem_iff_getElem?.1 he
          obtain ⟨e0, q1, q2, q3, _⟩ := counted_get _ _ j i e h4 hi
          rw [q2, q3]; exact hmost e0 (List.mem_iff_getElem?.2 ⟨i, q1⟩)
        · intro x y e e' b hx hy hax hay
          obtain ⟨e0, q1, _, _, q2⟩ := counted_get _ _ j x e h4 hx
          obtain ⟨e1, q3, _, _, q4⟩ := counted_get _ _ j y e' h4 hy
          exact hdis x y e0 e1 b q1 q3 ((q2 b).1 hax) ((q4 b).1 hay)

/-- **C28.** If every expectation wants an exact positive number of calls (`Once`, `Twice`,
`Times`), a case passes exactly when its calls can be handed out to the expectations in order,
whatever the overlap of their matchers and in both modes. -/
theorem C28_exact (m : Mocker V R) (as : List (List V))
    (hex : ∀ e ∈ m.exps, e.checkin.least = e.checkin.most ∧ 1 ≤ e.checkin.least ∧ e.checkin.most ≤ intMax)
    (hnew : ∀ (i : Nat) (e : Exp V R), m.index < i → m.exps[i]? = some e → e.checkin.call = 0) :
    Passes m as ↔ ∃ js, Plan m as js := by
  constructor
  · exact C28_sound m as (fun e he => by have := hex e he; omega)
  · rintro ⟨js, hp⟩
    induction as generalizing m js with
    | nil => exact plan_nil m js hp
    | cons a as ih =>
      cases js with
      | nil => have := hp.length; simp at this
      | cons j js =>
        obtain ⟨ej, hj, hacc⟩ := hp.accepted 0 j a rfl rfl
        have hjlt := (List.getElem?_eq_some_iff.1 hj).1
        have hstart := hp.start j (by simp)
        have hexj := hex ej (List.mem_iff_getElem?.2 ⟨j, hj⟩)
        have hbj := hp.bounds j ej hj
        have hcnt : (j :: js).count j = js.count j + 1 := by simp
        rw [hcnt] at hbj
        have htake : Takes m.greed ej.checkin := ⟨by omega, Or.inr (by omega)⟩
        have hskip : ∀ i e, i < j → m.exps[i]? = some e → e.checkin.call = e.checkin.least := by
          intro i e hi he
          have hb := hp.bounds i e he
          have he' := hex e (List.mem_iff_getElem?.2 ⟨i, he⟩)
          have hz : (j :: js).count i = 0 := by
            rw [List.count_eq_zero]
            intro hmem
            simp only [List.mem_cons] at hmem
            rcases hmem with hmem | hmem
            · omega
            · have := (List.pairwise_cons.1 hp.sorted).1 i hmem; omega
          rw [hz] at hb; omega
        have hnear : j ≤ m.index + 1 := by
          refine Decidable.byContradiction fun hn => ?_
          have hget : m.exps[m.index + 1]? = some m.exps[m.index + 1] := List.getElem?_eq_getElem (by omega)
          have g1 := hskip (m.index + 1) _ (by omega) hget
          have g2 := hnew (m.index + 1) _ (by omega) hget
          have g3 := hex _ (List.mem_iff_getElem?.2 ⟨_, hget⟩)
          omega
        have hnot : ∀ i e, i < j → m.exps[i]? = some e → ¬ Takes m.greed e.checkin := by
          intro i e hi he ht
          have g1 := hskip i e hi he
          have g2 := hex e (List.mem_iff_getElem?.2 ⟨i, he⟩)
          exact ht.1 (by omega)
        have hself : ∀ i e, j ≤ i → i ≤ j → m.exps[i]? = some e → Accepts e a := by
          intro i e h1 h2 he
          have : i = j := by omega
          subst this; rw [hj] at he; simp at he; subst he; exact hacc
        have hbel : BelongsTo m a j := by
          by_cases hcase : ∃ e, m.exps[m.index]? = some e ∧ Accepts e a
          · obtain ⟨e, he, hae⟩ := hcase
            refine ⟨hjlt, m.index, Nat.le_refl _, hstart, by intros; omega, ?_, ?_, Or.inl ⟨ej, hj, htake⟩⟩
            · intro i e' h1 h2 he'
              by_cases hi : i = j
              · exact hself i e' (by omega) (by omega) he'
              · have : i = m.index := by omega
                subst this; rw [he] at he'; simp at he'; subst he'; exact hae
            · intro i e' _ h2 he'; exact hnot i e' h2 he'
          · refine ⟨hjlt, j, hstart, Nat.le_refl _, ?_, hself, by intros; omega, Or.inl ⟨ej, hj, htake⟩⟩
            intro i e h1 h2 he hae
            have : i = m.index := by omega
            subst this
            exact hcase ⟨e, he, hae⟩
        obtain ⟨m1, o, h1, h2, h3, h6, _, h4, h5⟩ := plan_step m a as j js (fun e he => (hex e he).2.2) hp hbel
        refine passes_cons m m1 a as o h1 h2 h3 (ih m1 ?_ ?_ js h5)
        · intro e he
          obtain ⟨i, hi⟩ := List.mem_iff_getElem?.1 he
          obtain ⟨e0, q1, q2, q3, _⟩ := counted_get _ _ j i e h4 hi
          rw [q2, q3]; exact hex e0 (List.mem_iff_getElem?.2 ⟨i, q1⟩)
        · intro i e hi he
          rw [h6] at hi
          rw [h4 i] at he
          simp only [Option.map_eq_some_iff] at he
          obtain ⟨e0, he0, he⟩ := he
          rw [if_neg (by omega)] at he
          subst he
          exact hnew i e0 (by omega) he0

/-! ### The slots of exact expectations -/

theorem count_slots (es : List (Exp V R)) (s i : Nat) :
    (slots es s).count i = if s ≤ i then ((es[i - s]?).map (·.checkin.least.toNat)).getD 0 else 0 := by
  induction es generalizing s with
  | nil => simp [slots]
  | cons e es ih =>
    rw [slots, List.count_append, ih, List.count_replicate]
    rcases Nat.lt_trichotomy s i with h | h | h
    · rw [if_neg (by simp; omega), if_pos (by omega), if_pos (by omega)]
      obtain ⟨d, hd⟩ : ∃ d, i - s = d + 1 := ⟨i - s - 1, by omega⟩
      rw [hd, show i - (s + 1) = d by omega]; simp
    · subst h; simp; omega
    · rw [if_neg (by simp; omega), if_neg (by omega), if_neg (by omega)]

theorem slots_sorted (es : List (Exp V R)) (s : Nat) : (slots es s).Pairwise (· ≤ ·) ∧ ∀ j ∈ slots es s, s ≤ j := by
  induction es generalizing s with
  | nil => simp [slots]
  | cons e es ih =>
    obtain ⟨h1, h2⟩ := ih (s + 1)
    rw [slots]
    constructor
    · rw [List.pairwise_append]
      refine ⟨List.pairwise_replicate.2 (Or.inr (Nat.le_refl _)), h1, ?_⟩
      intro x hx y hy
      have := h2 y hy
      simp at hx; omega
    · intro j hj
      simp only [List.mem_append, List.mem_replicate] at hj
      rcases hj with hj | hj
      · omega
      · have := h2 j hj; omega

theorem slots_lt (es : List (Exp V R)) (s j : Nat) (h : j ∈ slots es s) : j < s + es.length := by
  induction es generalizing s with
  | nil => simp [slots] at h
  | cons e es ih =>
    rw [slots] at h
    simp only [List.mem_append, List.mem_replicate] at h
    rcases h with h | h
    · simp; omega
    · have := ih (s + 1) h; simp; omega

/-- **C28.** For expectations with exact positive counts, in their initial state: a case passes
exactly when there are as many calls as the counts add up to, and every call is accepted by the
expectation whose turn it is (the first as often as its count, then the second, and so on). -/
theorem C28_turns (m : Mocker V R) (as : List (List V)) (hidx : m.index = 0)
    (hex : ∀ e ∈ m.exps, e.checkin.call = 0 ∧ e.checkin.least = e.checkin.most ∧ 1 ≤ e.checkin.least ∧ e.checkin.most ≤ intMax) :
    Passes m as ↔ as.length = (slots m.exps 0).length ∧
      ∀ (k j : Nat) (a : List V), (slots m.exps 0)[k]? = some j → as[k]? = some a → ∃ e, m.exps[j]? = some e ∧ Accepts e a := by
  have hget : ∀ i e, m.exps[i]? = some e → e ∈ m.exps := fun i e he => List.mem_iff_getElem?.2 ⟨i, he⟩
  rw [C28_exact m as (fun e he => (hex e he).2) (fun i e _ he => (hex e (hget i e he)).1)]
  have hcount : ∀ i, (slots m.exps 0).count i = ((m.exps[i]?).map (·.checkin.least.toNat)).getD 0 := by
    intro i; rw [count_slots]; simp
  constructor
  · rintro ⟨js, hp⟩
    have heq : js = slots m.exps 0 := by
      apply List.Perm.eq_of_pairwise (le := (· ≤ ·)) (fun a b _ _ g1 g2 => by omega) hp.sorted (slots_sorted _ _).1
      rw [List.perm_iff_count]
      intro i
      rw [hcount]
      cases hi : m.exps[i]? with
      | none =>
        simp only [Option.map_none, Option.getD_none]
        rw [List.count_eq_zero]
        intro hmem
        obtain ⟨k, hk⟩ := List.mem_iff_getElem?.1 hmem
        have hklt := (List.getElem?_eq_some_iff.1 hk).1
        rw [hp.length] at hklt
        obtain ⟨e, he, _⟩ := hp.accepted k i _ hk (List.getElem?_eq_getElem hklt)
        rw [hi] at he; simp at he
      | some e =>
        have hb := hp.bounds i e hi
        have he := hex e (hget i e hi)
        simp only [Option.map_some, Option.getD_some]
        omega
    subst heq
    exact ⟨hp.length.symm, hp.accepted⟩
  · rintro ⟨h1, h2⟩
    refine ⟨slots m.exps 0, h1.symm, by rw [hidx]; intros; omega, (slots_sorted _ _).1, h2, ?_⟩
    intro i e he
    rw [hcount, he]
    have := hex e (hget i e he)
    simp only [Option.map_some, Option.getD_some]
    omega

/-! ### C28: the maximum -/

/-- **C28 is false as stated**: an expectation can be charged beyond its maximum.  `Once()` called
twice is charged twice. -/
theorem C28_maximum_false :
    let m : Mocker Nat Nat := ({} : Mocker Nat Nat).expect .once (fun _ _ => true)
    ∃ m' os, m.calls [[1], [1]] = some (m', os) ∧ os.map (·.charged) = [some 0, some 0] ∧ m'.check = [0] := by
  exact ⟨_, _, rfl, by decide, by decide⟩

/-- **C28.** Whatever else happens, a charge beyond the maximum is reported: if an expectation was
charged more often than its maximum, the check at the end of the case names it. -/
theorem C28_beyond_maximum (m m' : Mocker V R) (as : List (List V)) (os : List Outcome) (h : m.calls as = some (m', os))
    (i : Nat) (e : Exp V R) (he : m.exps[i]? = some e)
    (hmax : e.checkin.most < e.checkin.call + (((os.filterMap (·.charged)).count i : Nat) : Int)) : i ∈ m'.check := by
  obtain ⟨_, _, _, i4⟩ := C28_history m m' as os h
  have hi := i4 i
  rw [he] at hi
  rw [Mocker.check, checkFrom_mem]
  refine ⟨i, _, by omega, hi, ?_⟩
  rw [checkFails_iff]
  simp only [InBounds, Exp.plus]
  omega

/-- **Finding.** The order is not respected as a user may expect around optional expectations:
`Once(1).Any(2).Once(1)` called with 1 and 1 is a valid order (the optional one called zero times),
but the second call is charged to the first expectation again and the case fails. -/
theorem C28_optional_false :
    let is (n : Nat) : Nat → Nat → Bool := fun _ a => a == n
    let m := ((({} : Mocker Nat Nat).expect .once (is 1)).expect .any (is 2)).expect .once (is 1)
    Plan m [[1], [1]] [0, 2] ∧ ¬ Passes m [[1], [1]] := by
  constructor
  · refine ⟨rfl, by decide, by decide, ?_, ?_⟩
    · intro k j a hj ha
      match k with
      | 0 =>
        simp at hj ha; subst hj ha
        refine ⟨_, rfl, ?_⟩
        intro k a h; match k with
        | 0 => simp at h; subst h; rfl
        | k + 1 => simp at h
      | 1 =>
        simp at hj ha; subst hj ha
        refine ⟨_, rfl, ?_⟩
        intro k a h; match k with
        | 0 => simp at h; subst h; rfl
        | k + 1 => simp at h
      | k + 2 => simp at hj
    · intro i e he
      match i with
      | 0 => simp [Mocker.expect] at he; subst he; decide
      | 1 => simp [Mocker.expect] at he; subst he; decide
      | 2 => simp [Mocker.expect] at he; subst he; decide
      | i + 3 => simp [Mocker.expect] at he
  · rintro ⟨m', os, h1, _, h3⟩
    revert h3
    have : (Mocker.calls (((({} : Mocker Nat Nat).expect .once (fun _ a => a == 1)).expect .any (fun _ a => a == 2)).expect .once
      (fun _ a => a == 1)) [[1], [1]]).map (·.1.check) = some [0, 2] := by decide
    rw [h1] at this
    simp at this
    rw [this]; simp

/-! ### C29 -/

/-- Number of calls charged to expectation `i` during a history. -/
def chargedTo (os : List Outcome) (i : Nat) : Nat := (os.map (·.charged)).count (some i)

theorem count_filterMap (os : List Outcome) (i : Nat) : (os.filterMap (·.charged)).count i = chargedTo os i := by
  unfold chargedTo
  induction os with
  | nil => rfl
  | cons o os ih =>
    rw [List.map_cons, List.filterMap_cons]
    cases hc : o.charged with
    | none => simp [ih]
    | some j => simp [List.count_cons, ih]

/-- **C29.** At the end of a case exactly those expectations are reported whose number of charged
calls is outside their bounds. -/
theorem C29_report (m m' : Mocker V R) (as : List (List V)) (os : List Outcome) (h : m.calls as = some (m', os))
    (hfresh : ∀ e ∈ m.exps, e.checkin.call = 0) (hle : ∀ e ∈ m.exps, e.checkin.least ≤ e.checkin.most) (i : Nat) :
    i ∈ m'.check ↔ ∃ e, m.exps[i]? = some e ∧
      ¬ (e.checkin.least ≤ ((chargedTo os i : Nat) : Int) ∧ ((chargedTo os i : Nat) : Int) ≤ e.checkin.most) := by
  obtain ⟨_, _, _, i4⟩ := C28_history m m' as os h
  rw [Mocker.check, checkFrom_mem]
  constructor
  · rintro ⟨y, e, h1, h2, h3⟩
    have : i = y := by omega
    subst this
    rw [i4 i, Option.map_eq_some_iff] at h2
    obtain ⟨e0, he0, h2⟩ := h2
    subst h2
    refine ⟨e0, he0, ?_⟩
    rw [checkFails_iff] at h3
    simp only [InBounds, Exp.plus, count_filterMap] at h3
    have := hfresh e0 (List.mem_iff_getElem?.2 ⟨i, he0⟩)
    rw [this] at h3; simpa using h3.1
  · rintro ⟨e, he, hn⟩
    have hm := List.mem_iff_getElem?.2 ⟨i, he⟩
    have h0 := hfresh e hm
    have hl := hle e hm
    refine ⟨i, _, by omega, by rw [i4 i, he]; rfl, ?_⟩
    rw [checkFails_iff]
    simp only [InBounds, Exp.plus, count_filterMap]
    omega

/-- Counts an expectation built by `Once` … `Between` allows. -/
inductive Allowed : Checkin → Nat → Prop where
  | once : Allowed .once 1
  | twice : Allowed .twice 2
  | times (n : Nat) : Allowed (.times n) n
  | any (c : Nat) : Allowed .any c
  | atleast (n c : Nat) : n ≤ c → Allowed (.atleast n) c
  | atmost (n c : Nat) : c ≤ n → Allowed (.atmost n) c
  | between (l r c : Nat) : l ≤ c → c ≤ r → Allowed (.between l r) c

/-- The expectations a user can write with sensible arguments. -/
inductive Written : Checkin → Prop where
  | once : Written .once
  | twice : Written .twice
  | times (n : Nat) : (n : Int) ≤ intMax → Written (.times n)
  | any : Written .any
  | atleast (n : Nat) : (n : Int) ≤ intMax → Written (.atleast n)
  | atmost (n : Nat) : (n : Int) ≤ intMax → Written (.atmost n)
  | between (l r : Nat) : l ≤ r → (r : Int) ≤ intMax → Written (.between l r)

theorem allowed_iff (k : Checkin) (hk : Written k) (c : Nat) (hc : (c : Int) ≤ intMax) :
    Allowed k c ↔ k.least ≤ (c : Int) ∧ (c : Int) ≤ k.most := by
  constructor
  · intro h
    cases h <;> simp [Checkin.once, Checkin.twice, Checkin.times, Checkin.any, Checkin.atleast, Checkin.atmost, Checkin.between] <;> omega
  · cases hk <;> simp only [Checkin.once, Checkin.twice, Checkin.times, Checkin.any, Checkin.atleast, Checkin.atmost, Checkin.between] <;> rintro ⟨h1, h2⟩
    · have : c = 1 := by omega
      subst this; exact .once
    · have : c = 2 := by omega
      subst this; exact .twice
    · rename_i n _
      have : c = n := by omega
      subst this; exact .times c
    · exact .any c
    · exact .atleast _ _ (by omega)
    · exact .atmost _ _ (by omega)
    · exact .between _ _ _ (by omega) (by omega)

/-- **C29.** `Once`, `Twice`, `Times(n)`, `Any`, `Atleast(n)`, `Atmost(n)` and `Between(n,m)` are
reported at the end exactly when the number of calls charged to them is not an allowed one, for any
history of fewer than 2³¹ calls. -/
theorem C29_counts (m m' : Mocker V R) (as : List (List V)) (os : List Outcome) (h : m.calls as = some (m', os))
    (hfresh : ∀ e ∈ m.exps, e.checkin.call = 0 ∧ Written e.checkin) (hlen : ((as.length : Nat) : Int) ≤ intMax) (i : Nat) :
    i ∈ m'.check ↔ ∃ e, m.exps[i]? = some e ∧ ¬ Allowed e.checkin (chargedTo os i) := by
  have hle : ∀ e ∈ m.exps, e.checkin.least ≤ e.checkin.most := by
    intro e he
    have hw := (hfresh e he).2
    generalize e.checkin = k at hw ⊢
    cases hw <;> simp [Checkin.once, Checkin.twice, Checkin.times, Checkin.any, Checkin.atleast, Checkin.atmost, Checkin.between] <;>
      first | omega | assumption | decide
  rw [C29_report m m' as os h (fun e he => (hfresh e he).1) hle]
  have hc : ((chargedTo os i : Nat) : Int) ≤ intMax := by
    have : chargedTo os i ≤ os.length := by
      unfold chargedTo
      have := List.count_le_length (a := some i) (l := os.map (·.charged))
      simpa using this
    have := (C28_history m m' as os h).1
    omega
  constructor
  · rintro ⟨e, he, hn⟩
    exact ⟨e, he, fun ha => hn ((allowed_iff _ (hfresh e (List.mem_iff_getElem?.2 ⟨i, he⟩)).2 _ hc).1 ha)⟩
  · rintro ⟨e, he, hn⟩
    exact ⟨e, he, fun ha => hn ((allowed_iff _ (hfresh e (List.mem_iff_getElem?.2 ⟨i, he⟩)).2 _ hc).2 ha)⟩

/-- **Finding.** `Between(3, 1)` can be met by no count, but one call passes. -/
theorem C29_reversed_false : Passes (({} : Mocker Nat Nat).expect (.between 3 1) (fun _ _ => true)) [[7]] :=
  ⟨_, _, rfl, by decide, by decide⟩

/-! ### C56: what a mocked call does in place of the function -/

/-- **C56.** An unexpected call runs the original function; a call charged to an expectation runs
the reaction set for that expectation, or the original function if none is set.  Counting calls
never changes reactions. -/
theorem C56_reply (m m' : Mocker V R) (as : List (List V)) (os : List Outcome) (h : m.calls as = some (m', os))
    (o : Outcome) (ho : o ∈ os) :
    m'.reply o = match o.charged.bind (fun j => m.exps[j]?) with
      | some e => match e.routine with
        | some r => .routine r
        | none => .original
      | none => .original := by
  obtain ⟨_, _, _, i4⟩ := C28_history m m' as os h
  unfold Mocker.reply
  cases hc : o.charged with
  | none => rfl
  | some j =>
    simp only [Option.bind_some, i4 j]
    cases m.exps[j]? with
    | none => rfl
    | some e => simp only [Option.map_some, Exp.plus]; cases e.routine <;> rfl

theorem onLast_append (f : α → α) (l : List α) (e : α) : onLast f (l ++ [e]) = l ++ [f e] := by
  induction l with
  | nil => rfl
  | cons a l ih =>
    cases l with
    | nil => rfl
    | cons b l => simp only [List.cons_append, onLast] at ih ⊢; rw [ih]

theorem orAny_expect (m : Mocker V R) (k : Checkin) (ms : Nat → V → Bool) : (m.expect k ms).orAny = m.expect k ms := by
  unfold Mocker.orAny
  rw [if_neg]
  simp [Mocker.expect]

/-- **C56.** `Return` after an expectation sets the reaction of that expectation and of no other. -/
theorem C56_return (m : Mocker V R) (k : Checkin) (ms : Nat → V → Bool) (r : R) :
    ((m.expect k ms).returns (some r)).exps = m.exps ++ [⟨k, ms, some r⟩] := by
  simp only [Mocker.returns, orAny_expect]
  simp [Mocker.expect, onLast_append]

/-- **C56.** The body of `MOCKS` becomes the reaction of exactly the expectations without `Return`. -/
theorem C56_body (m : Mocker V R) (hne : m.exps ≠ []) (b : R) (i : Nat) :
    (m.body b).exps[i]?.map (·.routine) = m.exps[i]?.map (fun e => some (e.routine.getD b)) := by
  have : m.orAny = m := by
    unfold Mocker.orAny
    rw [if_neg]; simpa using hne
  simp only [Mocker.body, this, List.getElem?_map, Option.map_map]
  cases m.exps[i]? with
  | none => rfl
  | some e => cases h : e.routine <;> simp [h]

/-- **C56.** `Th` with an index replaces the matcher of that argument of the last expectation only. -/
theorem C56_th (m : Mocker V R) (k : Checkin) (ms : Nat → V → Bool) (n : Nat) (p : V → Bool) :
    ((m.expect k ms).th n p).exps = m.exps ++ [⟨k, fun x => if x = n then p else ms x, none⟩] := by
  simp only [Mocker.th, orAny_expect]
  simp [Mocker.expect, onLast_append]

/-- **C56.** Without any expectation, `Return` means `Any().Return`. -/
theorem C56_bare_return (r : R) : (({} : Mocker V R).returns (some r)).exps = [⟨.any, fun _ _ => true, some r⟩] := rfl

/-! ### Non-trivial cases -/

section Examples
/-- `MOCK(f, …).Once(1, 5).Twice(2).Return(22).Atleast(1)`. -/
def sample : Mocker Nat Nat :=
  ((((({} : Mocker Nat Nat).expect .once (fun k a => if k = 0 then a == 1 else if k = 1 then a == 5 else true)).expect .twice
    (fun k a => if k = 0 then a == 2 else true)).returns (some 22)).expect (.atleast 1) (fun _ _ => true))

example : (sample.calls [[1, 5], [2, 0], [2, 1], [2, 2], [9, 9]]).map (fun r => (r.2.map (·.charged), r.2.map (·.wrong), r.1.check)) =
    some ([some 0, some 1, some 1, some 2, some 2], [[], [], [], [], []], []) := by rfl
example : (sample.calls [[1, 6], [2, 0]]).map (fun r => (r.2.map (·.charged), r.2.map (·.wrong), r.1.check)) =
    some ([some 2, some 2], [[(0, [1]), (1, [0])], []], [0, 1]) := by rfl
/-- Exact expectations with overlapping matchers meet the hypotheses of `C28_turns`. -/
example : Passes (((({} : Mocker Nat Nat).expect .once (fun _ _ => true)).expect (.times 2) (fun _ a => a == 3))) [[7], [3], [3]] :=
  ⟨_, _, rfl, by decide, by decide⟩
example : slots ((({} : Mocker Nat Nat).expect .once (fun _ _ => true)).expect (.times 2) (fun _ a => a == 3)).exps 0 = [0, 1, 1] := by decide
/-- Disjoint expectations, one optional. -/
example : Passes ((({} : Mocker Nat Nat).expect .any (fun _ a => a == 1)).expect (.between 1 2) (fun _ a => a == 2)) [[2], [2]] :=
  ⟨_, _, rfl, by decide, by decide⟩
example : (sample.calls [[1, 5], [2, 0], [7, 7]]).map (fun r => r.2.map (fun o => match r.1.reply o with | .original => 0 | .routine r => r)) =
    some [0, 22, 0] := by decide
end Examples

/-- **C28.** Of two expectations that both accept a call, the first of them content with what it has and not at its maximum: the first takes
the call after `greed(true)`, the second after `greed(false)`.  A new mock is greedy, whatever was asked of the one before. -/
theorem C28_greed (m0 : Mocker V R) (g : Bool) (n : Int) (hn : 0 < n) (k : Checkin) (hk : k.call = 0) (ms ns : Nat → V → Bool) (args : List V)
    (h1 : ∀ i a, args[i]? = some a → ms i a = true) (h2 : ∀ i a, args[i]? = some a → ns i a = true) :
    ((((m0.reset.setGreed g).expect (.atmost n) ms).expect k ns).call args).map (·.2.charged) = some (some (if g then 0 else 1)) ∧
    ((((m0.setGreed g).reset.expect (.atmost n) ms).expect k ns).call args).map (·.2.charged) = some (some 0) := by
  have r1 : rejected ms args = [] := (rejected_nil ms args 0).2 (by simpa using h1)
  have r2 : rejected ns args = [] := (rejected_nil ns args 0).2 (by simpa using h2)
  have s1 : ((0 : Int) == n) = false := by simp; omega
  have sc : ∀ g, scan g args [({ checkin := .atmost n, matchers := ms } : Exp V R), { checkin := k, matchers := ns }] 0 none =
      (some (if g then 0 else 1), []) := by
    intro g
    cases g <;> simp [scan, r1, r2, Checkin.isSaturated, Checkin.insufficient, Checkin.atmost, s1]
  have ch : ∀ g : Bool, ∃ es, charge [({ checkin := .atmost n, matchers := ms } : Exp V R), { checkin := k, matchers := ns }] (if g then 0 else 1) = some es := by
    intro g
    cases g <;> simp [charge, hk, Checkin.atmost, intMax]
  constructor
  · obtain ⟨es, he⟩ := ch g
    simp [Mocker.reset, Mocker.setGreed, Mocker.expect, Mocker.call, sc, he]
  · obtain ⟨es, he⟩ := ch true
    have he' : charge [({ checkin := .atmost n, matchers := ms } : Exp V R), { checkin := k, matchers := ns }] 0 = some es := he
    simp [Mocker.reset, Mocker.expect, Mocker.call, sc, he']

example : (((((({} : Mocker Nat Nat).reset.setGreed false).expect (.atmost 2) (fun _ _ => true)).expect .once (fun _ _ => true)).call [1]).map (·.2.charged)) =
    some (some 1) := by decide

end H2.Mock
