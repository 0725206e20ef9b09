import Verif.Mock.Spec
namespace H2.Mock
variable {V R : Type}

theorem rejected_nil (ms : Nat → V → Bool) (args : List V) (k : Nat) :
    rejected ms args k = [] ↔ ∀ i a, args[i]? = some a → ms (k + i) a = true := by
  induction args generalizing k with
  | nil => simp [rejected]
  | cons a args ih =>
    rw [rejected]
    constructor
    · intro h i b hb
      split at h
      · rename_i hm
        cases i with
        | zero => simp at hb; subst hb; simpa using hm
        | succ i =>
          have := (ih (k + 1)).1 h i b (by simpa using hb)
          rw [← this]; congr 1; omega
      · simp at h
    · intro h
      rw [if_pos (by simpa using h 0 a rfl)]
      apply (ih (k + 1)).2
      intro i b hb
      rw [← h (i + 1) b (by simpa using hb)]; congr 1; omega

theorem accepts_iff (e : Exp V R) (args : List V) : Accepts e args ↔ rejected e.matchers args = [] := by
  rw [rejected_nil]; simp [Accepts]

theorem mem_rejected (ms : Nat → V → Bool) (args : List V) (k x : Nat) :
    x ∈ rejected ms args k ↔ ∃ i a, x = k + i ∧ args[i]? = some a ∧ ms (k + i) a = false := by
  induction args generalizing k with
  | nil => simp [rejected]
  | cons a args ih =>
    have key : x ∈ rejected ms (a :: args) k ↔ (x = k ∧ ms k a = false) ∨ x ∈ rejected ms args (k + 1) := by
      rw [rejected]
      cases h : ms k a <;> simp
    rw [key, ih (k + 1)]
    constructor
    · rintro (⟨h1, h2⟩ | ⟨i, b, h1, h2, h3⟩)
      · exact ⟨0, a, by omega, rfl, by simpa using h2⟩
      · refine ⟨i + 1, b, by omega, by simpa using h2, ?_⟩
        rw [← h3]; congr 1; omega
    · rintro ⟨i, b, h1, h2, h3⟩
      cases i with
      | zero => left; simp at h2; subst h2; exact ⟨by omega, by simpa using h3⟩
      | succ i =>
        right
        refine ⟨i, b, by omega, by simpa using h2, ?_⟩
        rw [← h3]; congr 1; omega

theorem rejected_sorted (ms : Nat → V → Bool) (args : List V) (k : Nat) :
    (rejected ms args k).Pairwise (· < ·) := by
  induction args generalizing k with
  | nil => simp [rejected]
  | cons a args ih =>
    rw [rejected]
    split
    · exact ih _
    · refine List.Pairwise.cons ?_ (ih _)
      intro x hx
      obtain ⟨i, _, h, _⟩ := (mem_rejected ms args (k + 1) x).1 hx
      omega

theorem takes_iff (g : Bool) (k : Checkin) :
    Takes g k ↔ k.isSaturated = false ∧ (k.insufficient = true ∨ g = true) := by
  unfold Takes Checkin.isSaturated Checkin.insufficient
  simp only [beq_eq_false_iff_ne, decide_eq_true_eq]
  constructor
  · rintro ⟨h1, h2 | h2⟩ <;> simp_all
  · rintro ⟨h1, h2 | h2⟩ <;> simp_all

theorem satisfied_iff (k : Checkin) : k.isSatisfied = true ↔ InBounds k := by
  simp [Checkin.isSatisfied, InBounds]

/-- One step of the scan, by cases. -/
theorem scan_cons (g : Bool) (args : List V) (e : Exp V R) (es : List (Exp V R)) (i : Nat) (off : Option Nat) :
    (Accepts e args → Takes g e.checkin → scan g args (e :: es) i off = (some i, [])) ∧
    (Accepts e args → ¬ Takes g e.checkin → scan g args (e :: es) i off = scan g args es (i + 1) (some i)) ∧
    (¬ Accepts e args → off.isSome → scan g args (e :: es) i off = (off, [])) ∧
    (¬ Accepts e args → off = none → InBounds e.checkin → scan g args (e :: es) i off = scan g args es (i + 1) none) ∧
    (¬ Accepts e args → off = none → ¬ InBounds e.checkin → scan g args (e :: es) i off =
      ((scan g args es (i + 1) none).1, (i, rejected e.matchers args) :: (scan g args es (i + 1) none).2)) := by
  rw [accepts_iff, takes_iff, ← satisfied_iff]
  refine ⟨?_, ?_, ?_, ?_, ?_⟩
  · rintro h1 ⟨h2, h3 | h3⟩ <;> simp [scan, h1, h2, h3]
  · intro h1 h2
    by_cases h3 : e.checkin.isSaturated = true
    · simp [scan, h1, h3]
    · simp only [Bool.not_eq_true] at h3
      have : ¬ (e.checkin.insufficient = true ∨ g = true) := fun h => h2 ⟨h3, h⟩
      simp only [not_or, Bool.not_eq_true] at this
      simp [scan, h1, h3, this.1, this.2]
  · intro h1 h2; simp [scan, h1, h2]
  · intro h1 h2 h3; subst h2; simp [scan, h1, h3]
  · intro h1 h2 h3; subst h2; simp [scan, h1, h3]

/-- The scan once an accepting expectation has been seen. -/
theorem scan_some (g : Bool) (args : List V) (es : List (Exp V R)) (i o : Nat) :
    ∃ j, scan g args es i (some o) = (some j, []) ∧
      ((j = o ∧ ∀ e, es[0]? = some e → ¬ Accepts e args) ∨
       (∃ k, j = i + k ∧ k < es.length ∧ (∀ x e, x ≤ k → es[x]? = some e → Accepts e args) ∧
        (∀ x e, x < k → es[x]? = some e → ¬ Takes g e.checkin) ∧
        ((∃ e, es[k]? = some e ∧ Takes g e.checkin) ∨ ∀ e, es[k + 1]? = some e → ¬ Accepts e args))) := by
  induction es generalizing i o with
  | nil => exact ⟨o, rfl, Or.inl ⟨rfl, by simp⟩⟩
  | cons e es ih =>
    obtain ⟨c1, c2, c3, _, _⟩ := scan_cons g args e es i (some o)
    by_cases ha : Accepts e args
    · by_cases ht : Takes g e.checkin
      · refine ⟨i, c1 ha ht, Or.inr ⟨0, by omega, by simp, ?_, by simp, Or.inl ⟨e, rfl, ht⟩⟩⟩
        intro x e' hx he
        have : x = 0 := by omega
        subst this; simp at he; subst he; exact ha
      · rw [c2 ha ht]
        obtain ⟨j, h1, h2⟩ := ih (i + 1) i
        refine ⟨j, h1, Or.inr ?_⟩
        rcases h2 with ⟨h2, h3⟩ | ⟨k, h2, h3, h4, h5, h6⟩
        · refine ⟨0, by omega, by simp, ?_, by simp, Or.inr (by simpa using h3)⟩
          intro x e' hx he
          have : x = 0 := by omega
          subst this; simp at he; subst he; exact ha
        · refine ⟨k + 1, by omega, by simpa using h3, ?_, ?_, by simpa using h6⟩
          · intro x e' hx he
            cases x with
            | zero => simp at he; subst he; exact ha
            | succ x => exact h4 x e' (by omega) (by simpa using he)
          · intro x e' hx he
            cases x with
            | zero => simp at he; subst he; exact ht
            | succ x => exact h5 x e' (by omega) (by simpa using he)
    · refine ⟨o, c3 ha rfl, Or.inl ⟨rfl, ?_⟩⟩
      intro e' he; simp at he; subst he; exact ha

/-- The scan from the start. -/
theorem scan_none (g : Bool) (args : List V) (es : List (Exp V R)) (i : Nat) :
    ((scan g args es i none).1 = none ∧ ∀ e ∈ es, ¬ Accepts e args) ∨
    (∃ f k, (scan g args es i none).1 = some (i + k) ∧ f ≤ k ∧ k < es.length ∧
      (∀ x e, x < f → es[x]? = some e → ¬ Accepts e args) ∧
      (∀ x e, f ≤ x → x ≤ k → es[x]? = some e → Accepts e args) ∧
      (∀ x e, f ≤ x → x < k → es[x]? = some e → ¬ Takes g e.checkin) ∧
      ((∃ e, es[k]? = some e ∧ Takes g e.checkin) ∨ ∀ e, es[k + 1]? = some e → ¬ Accepts e args)) := by
  induction es generalizing i with
  | nil => exact Or.inl ⟨rfl, by simp⟩
  | cons e es ih =>
    obtain ⟨c1, c2, _, c4, c5⟩ := scan_cons g args e es i none
    by_cases ha : Accepts e args
    · by_cases ht : Takes g e.checkin
      · refine Or.inr ⟨0, 0, by rw [c1 ha ht]; simp, by omega, by simp, by omega, ?_, by omega, Or.inl ⟨e, rfl, ht⟩⟩
        intro x e' _ hx he
        have : x = 0 := by omega
        subst this; simp at he; subst he; exact ha
      · rw [c2 ha ht]
        obtain ⟨j, h1, h2⟩ := scan_some g args es (i + 1) i
        rw [h1]
        rcases h2 with ⟨h2, h3⟩ | ⟨k, h2, h3, h4, h5, h6⟩
        · refine Or.inr ⟨0, 0, by simp [h2], by omega, by simp, by omega, ?_, by omega, Or.inr (by simpa using h3)⟩
          intro x e' _ hx he
          have : x = 0 := by omega
          subst this; simp at he; subst he; exact ha
        · refine Or.inr ⟨0, k + 1, by simp [h2]; omega, by omega, by simpa using h3, by omega, ?_, ?_, by simpa using h6⟩
          · intro x e' _ hx he
            cases x with
            | zero => simp at he; subst he; exact ha
            | succ x => exact h4 x e' (by omega) (by simpa using he)
          · intro x e' _ hx he
            cases x with
            | zero => simp at he; subst he; exact ht
            | succ x => exact h5 x e' (by omega) (by simpa using he)
    · have hfst : (scan g args (e :: es) i none).1 = (scan g args es (i + 1) none).1 := by
        by_cases hb : InBounds e.checkin
        · rw [c4 ha rfl hb]
        · rw [c5 ha rfl hb]
      rw [hfst]
      rcases ih (i + 1) with ⟨h1, h2⟩ | ⟨f, k, h1, h2, h3, h4, h5, h6, h7⟩
      · refine Or.inl ⟨h1, ?_⟩
        intro e' he; simp at he
        rcases he with he | he
        · subst he; exact ha
        · exact h2 e' he
      · refine Or.inr ⟨f + 1, k + 1, by rw [h1]; congr 1; omega, by omega, by simpa using h3, ?_, ?_, ?_, by simpa using h7⟩
        · intro x e' hx he
          cases x with
          | zero => simp at he; subst he; exact ha
          | succ x => exact h4 x e' (by omega) (by simpa using he)
        · intro x e' hf hx he
          cases x with
          | zero => omega
          | succ x => exact h5 x e' (by omega) (by omega) (by simpa using he)
        · intro x e' hf hx he
          cases x with
          | zero => omega
          | succ x => exact h6 x e' (by omega) (by omega) (by simpa using he)

/-- The argument failures of a scan. -/
theorem scan_wrong (g : Bool) (args : List V) (es : List (Exp V R)) (i : Nat) (x : Nat) (ks : List Nat) :
    (x, ks) ∈ (scan g args es i none).2 ↔ ∃ y e, x = i + y ∧ es[y]? = some e ∧ ks = rejected e.matchers args ∧
      ¬ InBounds e.checkin ∧ ∀ z e', z ≤ y → es[z]? = some e' → ¬ Accepts e' args := by
  induction es generalizing i with
  | nil => simp [scan]
  | cons e es ih =>
    obtain ⟨c1, c2, _, c4, c5⟩ := scan_cons g args e es i none
    by_cases ha : Accepts e args
    · have h2 : (scan g args (e :: es) i none).2 = [] := by
        by_cases ht : Takes g e.checkin
        · rw [c1 ha ht]
        · rw [c2 ha ht]
          obtain ⟨j, h1, _⟩ := scan_some g args es (i + 1) i
          rw [h1]
      rw [h2]
      simp only [List.not_mem_nil, false_iff]
      rintro ⟨y, e', _, _, _, _, h⟩
      exact h 0 e (by omega) rfl ha
    · have hsucc : (∃ y e', x = (i + 1) + y ∧ es[y]? = some e' ∧ ks = rejected e'.matchers args ∧
          ¬ InBounds e'.checkin ∧ ∀ z e', z ≤ y → es[z]? = some e' → ¬ Accepts e' args) ↔
          (∃ y e', x = i + (y + 1) ∧ (e :: es)[y + 1]? = some e' ∧ ks = rejected e'.matchers args ∧
          ¬ InBounds e'.checkin ∧ ∀ z e', z ≤ y + 1 → (e :: es)[z]? = some e' → ¬ Accepts e' args) := by
        constructor
        · rintro ⟨y, e', h1, h2, h3, h4, h5⟩
          refine ⟨y, e', by omega, by simpa using h2, h3, h4, ?_⟩
          intro z e'' hz he
          cases z with
          | zero => simp at he; subst he; exact ha
          | succ z => exact h5 z e'' (by omega) (by simpa using he)
        · rintro ⟨y, e', h1, h2, h3, h4, h5⟩
          refine ⟨y, e', by omega, by simpa using h2, h3, h4, ?_⟩
          intro z e'' hz he
          exact h5 (z + 1) e'' (by omega) (by simpa using he)
      by_cases hb : InBounds e.checkin
      · rw [c4 ha rfl hb, ih, hsucc]
        constructor
        · rintro ⟨y, e', h⟩; exact ⟨y + 1, e', h⟩
        · rintro ⟨y, e', h1, h2, h3, h4, h5⟩
          cases y with
          | zero => simp at h2; subst h2; exact absurd hb h4
          | succ y => exact ⟨y, e', h1, h2, h3, h4, h5⟩
      · rw [c5 ha rfl hb, List.mem_cons, ih, hsucc]
        constructor
        · rintro (h | ⟨y, e', h⟩)
          · simp only [Prod.mk.injEq] at h
            refine ⟨0, e, by omega, rfl, h.2, hb, ?_⟩
            intro z e'' hz he
            have : z = 0 := by omega
            subst this; simp at he; subst he; exact ha
          · exact ⟨y + 1, e', h⟩
        · rintro ⟨y, e', h1, h2, h3, h4, h5⟩
          cases y with
          | zero => simp at h2; subst h2; left; simp [h1, h3]
          | succ y => exact Or.inr ⟨y, e', h1, h2, h3, h4, h5⟩

theorem charge_spec (es : List (Exp V R)) (j : Nat) :
    (∃ es', charge es j = some es' ∧ Counted es es' j ∧ es'.length = es.length ∧
      ∃ e, es[j]? = some e ∧ e.checkin.call < intMax) ∨
    (charge es j = none ∧ ∀ e, es[j]? = some e → intMax ≤ e.checkin.call) := by
  induction es generalizing j with
  | nil => exact Or.inr ⟨rfl, by simp⟩
  | cons e es ih =>
    cases j with
    | zero =>
      by_cases h : e.checkin.call < intMax
      · refine Or.inl ⟨_, by rw [charge, if_pos h], ?_, by simp, e, rfl, h⟩
        intro i
        cases i with
        | zero => simp
        | succ i => simp
      · exact Or.inr ⟨by rw [charge, if_neg h], by simp; omega⟩
    | succ j =>
      rcases ih j with ⟨es', h1, h2, h3, h4⟩ | ⟨h1, h2⟩
      · refine Or.inl ⟨e :: es', by simp [charge, h1], ?_, by simp [h3], by simpa using h4⟩
        intro i
        cases i with
        | zero => simp
        | succ i => simpa using h2 i
      · exact Or.inr ⟨by simp [charge, h1], by simpa using h2⟩

/-- What one call does. -/
theorem call_spec (m : Mocker V R) (args : List V) :
    (∃ o, m.call args = some (m, o) ∧ o.charged = none ∧ ∀ i e, m.index ≤ i → m.exps[i]? = some e → ¬ Accepts e args) ∨
    (∃ j, BelongsTo m args j ∧
      ((∃ m' o, m.call args = some (m', o) ∧ o.charged = some j ∧ m'.index = j ∧ m'.greed = m.greed ∧
        m'.exps.length = m.exps.length ∧ Counted m.exps m'.exps j) ∨
       (m.call args = none ∧ ∀ e, m.exps[j]? = some e → intMax ≤ e.checkin.call))) := by
  rcases scan_none m.greed args (m.exps.drop m.index) m.index with ⟨h1, h2⟩ | ⟨f, k, h1, h2, h3, h4, h5, h6, h7⟩
  · left
    refine ⟨⟨none, (scan m.greed args (m.exps.drop m.index) m.index none).2⟩, by simp [Mocker.call, h1], rfl, ?_⟩
    intro i e hi he
    apply h2
    rw [List.mem_iff_getElem?]
    refine ⟨i - m.index, ?_⟩
    rw [List.getElem?_drop, show m.index + (i - m.index) = i by omega]
    exact he
  · right
    have hd : ∀ i, m.index ≤ i → (m.exps.drop m.index)[i - m.index]? = m.exps[i]? := by
      intro i hi
      rw [List.getElem?_drop, show m.index + (i - m.index) = i by omega]
    refine ⟨m.index + k, ⟨by simp at h3; omega, m.index + f, by omega, by omega, ?_, ?_, ?_, ?_⟩, ?_⟩
    · intro i e hi hf he
      exact h4 (i - m.index) e (by omega) (by rw [hd i hi]; exact he)
    · intro i e hi hf he
      exact h5 (i - m.index) e (by omega) (by omega) (by rw [hd i (by omega)]; exact he)
    · intro i e hi hf he
      exact h6 (i - m.index) e (by omega) (by omega) (by rw [hd i (by omega)]; exact he)
    · rcases h7 with ⟨e, h7, h8⟩ | h7
      · left
        refine ⟨e, ?_, h8⟩
        rw [List.getElem?_drop] at h7; exact h7
      · right
        intro e he
        apply h7 e
        rw [List.getElem?_drop, ← Nat.add_assoc]; exact he
    · rcases charge_spec m.exps (m.index + k) with ⟨es', c1, c2, c3, _⟩ | ⟨c1, c2⟩
      · left
        exact ⟨{ m with exps := es', index := m.index + k }, ⟨some (m.index + k), (scan m.greed args (m.exps.drop m.index) m.index none).2⟩, by simp [Mocker.call, h1, c1], rfl, rfl, rfl, c3, c2⟩
      · right
        exact ⟨by simp [Mocker.call, h1, c1], c2⟩

theorem belongs_unique (m : Mocker V R) (args : List V) (j j' : Nat) (h : BelongsTo m args j) (h' : BelongsTo m args j') :
    j = j' := by
  have lt : ∀ j j', BelongsTo m args j → BelongsTo m args j' → ¬ j < j' := by
    intro j j' h h' hlt
    obtain ⟨b, f, h1, h2, h3, h4, h5, h6⟩ := h
    obtain ⟨b', f', h1', h2', h3', h4', h5', h6'⟩ := h'
    have hget : ∀ i, i < m.exps.length → ∃ e, m.exps[i]? = some e := fun i hi => ⟨_, List.getElem?_eq_getElem hi⟩
    have hf : f = f' := by
      rcases Nat.lt_trichotomy f f' with hf | hf | hf
      · obtain ⟨e, he⟩ := hget f (by omega)
        exact absurd (h4 f e (by omega) (by omega) he) (h3' f e h1 hf he)
      · exact hf
      · obtain ⟨e, he⟩ := hget f' (by omega)
        exact absurd (h4' f' e (by omega) (by omega) he) (h3 f' e h1' hf he)
    rcases h6 with ⟨e, he, ht⟩ | h6
    · exact h5' j e (by omega) hlt he ht
    · obtain ⟨e, he⟩ := hget (j + 1) (by omega)
      exact h6 e he (h4' (j + 1) e (by omega) (by omega) he)
  rcases Nat.lt_trichotomy j j' with hl | hl | hl
  · exact absurd hl (lt j j' h h')
  · exact hl
  · exact absurd hl (lt j' j h' h)

theorem checkFrom_mem (es : List (Exp V R)) (i x : Nat) :
    x ∈ checkFrom es i ↔ ∃ y e, x = i + y ∧ es[y]? = some e ∧ e.checkin.checkFails = true := by
  induction es generalizing i with
  | nil => simp [checkFrom]
  | cons e es ih =>
    have key : x ∈ checkFrom (e :: es) i ↔ (x = i ∧ e.checkin.checkFails = true) ∨ x ∈ checkFrom es (i + 1) := by
      rw [checkFrom]
      cases h : e.checkin.checkFails <;> simp
    rw [key, ih]
    constructor
    · rintro (⟨h1, h2⟩ | ⟨y, e', h1, h2, h3⟩)
      · exact ⟨0, e, by omega, rfl, h2⟩
      · exact ⟨y + 1, e', by omega, by simpa using h2, h3⟩
    · rintro ⟨y, e', h1, h2, h3⟩
      cases y with
      | zero => left; simp at h2; subst h2; exact ⟨by omega, h3⟩
      | succ y => right; exact ⟨y, e', by omega, by simpa using h2, h3⟩

theorem checkFails_iff (k : Checkin) : k.checkFails = true ↔ ¬ InBounds k ∧ k.call ≠ k.most := by
  unfold Checkin.checkFails Checkin.isSatisfied Checkin.isSaturated InBounds
  simp only [Bool.not_eq_true', Bool.or_eq_false_iff, beq_eq_false_iff_ne]
  rw [Bool.eq_false_iff]
  simp

theorem calls_cons (m : Mocker V R) (a : List V) (as : List (List V)) (m'' : Mocker V R) (os : List Outcome) :
    m.calls (a :: as) = some (m'', os) ↔
      ∃ m' o os', m.call a = some (m', o) ∧ m'.calls as = some (m'', os') ∧ os = o :: os' := by
  rw [Mocker.calls]
  cases h1 : m.call a with
  | none => simp
  | some r =>
    obtain ⟨m', o⟩ := r
    simp only
    cases h2 : m'.calls as with
    | none =>
      simp only [reduceCtorEq, false_iff]
      rintro ⟨m1, o1, os1, h3, h4, _⟩
      simp at h3
      rw [← h3.1, h2] at h4; simp at h4
    | some r =>
      obtain ⟨m3, os3⟩ := r
      simp only [Option.some.injEq, Prod.mk.injEq]
      constructor
      · rintro ⟨h3, h4⟩; exact ⟨m', o, os3, ⟨rfl, rfl⟩, by rw [h2, h3], h4.symm⟩
      · rintro ⟨m1, o1, os1, ⟨h3, h4⟩, h5, h6⟩
        subst h3; subst h4
        rw [h2] at h5; simp at h5
        exact ⟨h5.1, by rw [h6, h5.2]⟩

end H2.Mock
