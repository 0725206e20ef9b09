import Verif.Runner.Lemmas
/-
C34: the orders in which suites and cases are run.
-/
namespace H2.Runner

/-! ### Specification -/

/-- Lower case of a text. -/
def lower (s : List Char) : List Char := (cstr s).map Char.toLower

/-- `a` may come before `b` when running by name. -/
def NameLe (a b : Key) : Prop := lower a.name ≤ lower b.name
/-- `a` may come before `b` when running by file: file name, then line. -/
def FileLe (a b : Key) : Prop := lower a.file < lower b.file ∨ (lower a.file = lower b.file ∧ a.line ≤ b.line)
/-- `a` may come before `b` in declaration order (or in the order of random numbers). -/
def SeqLe (a b : Key) : Prop := a.seq ≤ b.seq

/-- What a suite, and a case, is put in order by. -/
def Suite.place (s : Suite) : Key := { seq := s.seq, name := s.name, file := s.file, line := s.line }
def Case.place (c : Case) : Key := { seq := c.seq, name := c.name, file := c.file, line := c.line }

/-- The order asked for by the options. -/
def Le (o : Opts) (a b : Key) : Prop :=
  let le := if o.byName then NameLe else if o.byFile then FileLe else SeqLe
  if o.reverse then le b a else le a b

/-! ### Proofs -/

theorem toLower_ne_nul {c : Char} (h : c ≠ Char.ofNat 0) : c.toLower.toNat ≠ 0 := by
  have hc : c.toNat ≠ 0 := by
    intro e
    apply h
    have : Char.ofNat c.toNat = c := Char.ofNat_toNat c
    rw [e] at this
    exact this.symm
  unfold Char.toLower
  split
  · show (c.val + 32).toNat ≠ 0
    rename_i hu
    have h1 : 65 ≤ c.val.toNat := UInt32.le_iff_toNat_le.1 hu.1
    have h2 : c.val.toNat ≤ 90 := UInt32.le_iff_toNat_le.1 hu.2
    rw [UInt32.toNat_add]
    show (c.val.toNat + 32) % 2 ^ 32 ≠ 0
    omega
  · exact hc

theorem char_lt_toNat {a b : Char} : a < b ↔ a.toNat < b.toNat := by
  rw [Char.lt_def, UInt32.lt_iff_toNat_lt]
  rfl

theorem char_toNat_inj {a b : Char} (h : a.toNat = b.toNat) : a = b := by
  have h1 := Char.ofNat_toNat a
  rw [h, Char.ofNat_toNat b] at h1
  exact h1.symm

theorem casecmp_pos (as bs : List Char) (ha : ∀ c ∈ as, c ≠ Char.ofNat 0) (hb : ∀ c ∈ bs, c ≠ Char.ofNat 0) :
    0 < casecmp as bs ↔ bs.map Char.toLower < as.map Char.toLower := by
  induction as generalizing bs with
  | nil =>
    cases bs with
    | nil => simp [casecmp]
    | cons b bs => simp [casecmp]
  | cons a as ih =>
    cases bs with
    | nil =>
      have := toLower_ne_nul (ha a (List.mem_cons_self ..))
      simp only [casecmp, List.map_nil, List.map_cons]
      constructor
      · intro _; exact List.nil_lt_cons ..
      · intro _; omega
    | cons b bs =>
      simp only [casecmp, List.map_cons, List.cons_lt_cons_iff]
      split
      · rename_i e
        rw [ih bs (fun c hc => ha c (List.mem_cons_of_mem _ hc)) (fun c hc => hb c (List.mem_cons_of_mem _ hc))]
        constructor
        · intro h; exact .inr ⟨e.symm, h⟩
        · rintro (h | h)
          · rw [e, char_lt_toNat] at h; omega
          · exact h.2
      · rename_i e
        rw [char_lt_toNat]
        constructor
        · intro h; left; omega
        · rintro (h | h)
          · omega
          · exact absurd h.1.symm e

theorem casecmp_neg (as bs : List Char) : casecmp bs as = 0 - casecmp as bs := by
  induction as generalizing bs with
  | nil => cases bs <;> simp [casecmp]
  | cons a as ih =>
    cases bs with
    | nil => simp [casecmp]
    | cons b bs =>
      simp only [casecmp]
      by_cases e : a.toLower = b.toLower
      · rw [if_pos e, if_pos e.symm, ih bs]
      · rw [if_neg e, if_neg (Ne.symm e)]; omega

theorem cstr_ne_nul (s : List Char) : ∀ c ∈ cstr s, c ≠ Char.ofNat 0 := by
  intro c hc
  unfold cstr at hc
  induction s with
  | nil => cases hc
  | cons x xs ih =>
    rw [List.takeWhile_cons] at hc
    split at hc
    · rename_i hx
      rcases List.mem_cons.1 hc with e | e
      · subst e; simpa using hx
      · exact ih e
    · cases hc

theorem strcasecmp_pos (a b : List Char) : 0 < strcasecmp a b ↔ lower b < lower a :=
  casecmp_pos _ _ (cstr_ne_nul a) (cstr_ne_nul b)

theorem strcasecmp_neg (a b : List Char) : strcasecmp b a = 0 - strcasecmp a b := casecmp_neg ..

theorem strcasecmp_zero (a b : List Char) : strcasecmp a b = 0 ↔ lower a = lower b := by
  have h1 := strcasecmp_pos a b
  have h2 := strcasecmp_pos b a
  rw [strcasecmp_neg a b] at h2
  constructor
  · intro h
    have n1 : ¬ lower b < lower a := fun x => by have := h1.2 x; omega
    have n2 : ¬ lower a < lower b := fun x => by have := h2.2 x; omega
    exact List.le_antisymm n1 n2
  · intro h
    have n1 : ¬ 0 < strcasecmp a b := fun x => by have := h1.1 x; rw [h] at this; exact List.lt_irrefl _ this
    have n2 : ¬ 0 < 0 - strcasecmp a b := fun x => by have := h2.1 x; rw [h] at this; exact List.lt_irrefl _ this
    omega

theorem cmpFile_pos (a b : Key) : 0 < cmpFile a b ↔ ¬ FileLe a b := by
  unfold cmpFile FileLe
  simp only
  have h1 := strcasecmp_pos a.file b.file
  have h0 := strcasecmp_zero a.file b.file
  split
  · rename_i hne
    rw [h1]
    constructor
    · rintro h (x | x)
      · exact List.lt_asymm h x
      · exact hne (h0.2 x.1)
    · intro h
      apply Classical.byContradiction
      intro hn
      have h2 : lower a.file ≤ lower b.file := hn
      rcases List.le_iff_lt_or_eq.1 h2 with x | x
      · exact h (.inl x)
      · exact hne (h0.2 x)
  · rename_i hz
    have hz : strcasecmp a.file b.file = 0 := Classical.byContradiction fun x => hz x
    have he := h0.1 hz
    constructor
    · rintro h (x | x)
      · rw [he] at x; exact List.lt_irrefl _ x
      · omega
    · intro h
      apply Classical.byContradiction
      intro hn
      exact h (.inr ⟨he, by omega⟩)

theorem cmpFile_neg (a b : Key) : cmpFile b a = 0 - cmpFile a b := by
  unfold cmpFile
  simp only
  rw [strcasecmp_neg a.file b.file]
  by_cases h : strcasecmp a.file b.file = 0
  · rw [h]; simp; omega
  · rw [if_pos h, if_pos (by omega)]

/-- The comparison is positive exactly when the order asked for is violated. -/
theorem cmpOpt_pos (o : Opts) (a b : Key) : 0 < cmpOpt o a b ↔ ¬ Le o a b := by
  unfold cmpOpt Le
  simp only
  cases o.byName <;> cases o.byFile <;> cases o.reverse <;> simp only [Bool.false_eq_true, if_false, if_true, Int.mul_one, Int.mul_neg]
  · unfold cmpSeq SeqLe; omega
  · unfold cmpSeq SeqLe; omega
  · exact cmpFile_pos a b
  · rw [← cmpFile_pos b a, cmpFile_neg a b]; omega
  all_goals unfold cmpName NameLe
  · rw [strcasecmp_pos]; exact Decidable.not_not.symm
  · rw [show (lower b.name ≤ lower a.name) = ¬ lower a.name < lower b.name from rfl, Decidable.not_not, ← strcasecmp_pos, strcasecmp_neg a.name b.name]; omega
  · rw [strcasecmp_pos]; exact Decidable.not_not.symm
  · rw [show (lower b.name ≤ lower a.name) = ¬ lower a.name < lower b.name from rfl, Decidable.not_not, ← strcasecmp_pos, strcasecmp_neg a.name b.name]; omega

theorem FileLe.total (a b : Key) : FileLe a b ∨ FileLe b a := by
  unfold FileLe
  by_cases h : lower a.file = lower b.file
  · rcases Int.le_total a.line b.line with x | x
    · exact .inl (.inr ⟨h, x⟩)
    · exact .inr (.inr ⟨h.symm, x⟩)
  · by_cases h2 : lower a.file < lower b.file
    · exact .inl (.inl h2)
    · rcases List.le_iff_lt_or_eq.1 (show lower b.file ≤ lower a.file from h2) with x | x
      · exact .inr (.inl x)
      · exact absurd x.symm h

theorem FileLe.trans {a b c : Key} (h1 : FileLe a b) (h2 : FileLe b c) : FileLe a c := by
  unfold FileLe at *
  rcases h1 with x | x
  · rcases h2 with y | y
    · exact .inl (List.lt_trans x y)
    · left; rw [← y.1]; exact x
  · rcases h2 with y | y
    · left; rw [x.1]; exact y
    · right; exact ⟨x.1.trans y.1, Int.le_trans x.2 y.2⟩

theorem Le.total (o : Opts) (a b : Key) : Le o a b ∨ Le o b a := by
  unfold Le
  simp only
  cases o.byName <;> cases o.byFile <;> cases o.reverse <;> simp only [Bool.false_eq_true, if_false, if_true]
  · exact Int.le_total ..
  · exact Int.le_total ..
  · exact FileLe.total ..
  · exact FileLe.total ..
  all_goals exact List.le_total ..

theorem Le.trans (o : Opts) {a b c : Key} (h1 : Le o a b) (h2 : Le o b c) : Le o a c := by
  revert h1 h2
  unfold Le
  simp only
  cases o.byName <;> cases o.byFile <;> cases o.reverse <;> simp only [Bool.false_eq_true, if_false, if_true] <;> intro h1 h2
  · exact Int.le_trans h1 h2
  · exact Int.le_trans h2 h1
  · exact h1.trans h2
  · exact h2.trans h1
  · exact List.le_trans h1 h2
  · exact List.le_trans h2 h1
  · exact List.le_trans h1 h2
  · exact List.le_trans h2 h1

theorem ordering_cmpOpt (o : Opts) {α : Type} (key : α → Key) : Ordering fun a b : α => cmpOpt o (key a) (key b) where
  anti := by
    intro a b h h'
    rw [cmpOpt_pos] at h h'
    rcases Le.total o (key a) (key b) with x | x
    · exact h x
    · exact h' x
  trans := by
    intro a b c h1 h2
    rw [cmpOpt_pos, Classical.not_not] at *
    exact Le.trans o h1 h2

theorem ordering_cmpSeq {α : Type} (key : α → Key) : Ordering fun a b : α => cmpSeq (key a) (key b) :=
  ⟨fun a b => by unfold cmpSeq; omega, fun a b c => by unfold cmpSeq; omega⟩

/-- Is an order asked for on the command line? -/
def Opts.shuffles (o : Opts) : Bool := o.byName || o.byFile || o.reverse || o.random

/-- The suites that are sorted: with fresh sequence numbers when the order is random. -/
def prepared (o : Opts) (rnd : Nat → Int) (ss : List Suite) : List Suite := if o.random then ss.map (randomize rnd) else ss

theorem shuffle_fresh (o : Opts) (rnd : Nat → Int) (st : State) (hf : st.lastOrder = none) (ho : o.shuffles = true) :
    (st.shuffle o rnd).suites = sortAll (cmpOpt o) (prepared o rnd st.suites) := by
  unfold Opts.shuffles at ho
  unfold State.shuffle prepared
  simp only [State.restore, hf, ne_eq, not_true, if_false, ho, if_true]

theorem sortAll_map_key (cmp : Key → Key → Int) (ss : List Suite) :
    (sortAll cmp ss).map Suite.key = (sort (fun a b => cmp a.key b.key) ss).map Suite.key := by
  unfold sortAll
  rw [List.map_map]
  rfl

/-- C34: without a record of an earlier run and without an order option, suites and cases stay in the
order they are in (the order of declaration). -/
theorem C34_declared (o : Opts) (rnd : Nat → Int) (st : State) (hf : st.lastOrder = none) (ho : o.shuffles = false) :
    (st.shuffle o rnd).suites = st.suites := by
  unfold Opts.shuffles at ho
  unfold State.shuffle
  simp only [State.restore, hf, ne_eq, not_true, if_false, ho]
  simp

/-- C34: an order option puts the suites in the order asked for (name or file without regard to case,
declaration order otherwise; reversed with `reverse`), and the cases of each suite. -/
theorem C34_sorted (o : Opts) (rnd : Nat → Int) (st : State) (hf : st.lastOrder = none) (ho : o.shuffles = true) :
    (st.shuffle o rnd).suites.Pairwise (fun a b => Le o a.place b.place) ∧
      ∀ s ∈ (st.shuffle o rnd).suites, s.cases.Pairwise fun a b => Le o a.place b.place := by
  rw [shuffle_fresh o rnd st hf ho]
  constructor
  · have h := sort_sorted (ordering_cmpOpt o Suite.key) (prepared o rnd st.suites)
    have h2 : (sortAll (cmpOpt o) (prepared o rnd st.suites)).map Suite.key |>.Pairwise (Le o) := by
      rw [sortAll_map_key, List.pairwise_map]
      exact h.imp fun {a b} x => by rw [cmpOpt_pos] at x; exact Classical.not_not.1 x
    rwa [List.pairwise_map] at h2
  · intro s hs
    obtain ⟨t, _, rfl⟩ := List.mem_map.1 hs
    exact (sort_sorted (ordering_cmpOpt o Case.key) t.cases).imp fun {a b} x => by rw [cmpOpt_pos] at x; exact Classical.not_not.1 x

/-- C34: sorting is stable: of two suites, the one that came first stays first unless the order asked
for forbids it; the same for the cases of each suite. -/
theorem C34_stable (o : Opts) (rnd : Nat → Int) (st : State) (hf : st.lastOrder = none) (ho : o.shuffles = true) :
    (∀ a b : Suite, [a, b].Sublist (prepared o rnd st.suites) → Le o a.place b.place → [a.id, b.id].Sublist ((st.shuffle o rnd).suites.map (·.id))) ∧
      ∀ s ∈ (st.shuffle o rnd).suites, ∃ s0 ∈ prepared o rnd st.suites, s0.id = s.id ∧ s.cases.Perm s0.cases ∧
        ∀ a b : Case, [a, b].Sublist s0.cases → Le o a.place b.place → [a, b].Sublist s.cases := by
  rw [shuffle_fresh o rnd st hf ho]
  constructor
  · intro a b hs hle
    have h := sort_stable (ordering_cmpOpt o Suite.key) hs (by rw [cmpOpt_pos]; exact fun x => x hle)
    unfold sortAll
    rw [List.map_map]
    have := h.map (·.id)
    exact this
  · intro s hs
    obtain ⟨t, ht, rfl⟩ := List.mem_map.1 hs
    refine ⟨t, (sort_perm _ _).mem_iff.1 ht, rfl, sort_perm _ _, ?_⟩
    intro a b hs hle
    exact sort_stable (ordering_cmpOpt o Case.key) hs (by rw [cmpOpt_pos]; exact fun x => x hle)

theorem idxOf_pairwise (l : List Nat) (h : l.Nodup) : l.Pairwise fun a b => l.idxOf a ≤ l.idxOf b := by
  induction l with
  | nil => exact .nil
  | cons x xs ih =>
    have hx := List.nodup_cons.1 h
    rw [List.pairwise_cons]
    constructor
    · intro b _; simp
    · refine List.Pairwise.imp_of_mem ?_ (ih hx.2)
      intro a b ha hb hab
      have h1 : (x == a) = false := by simp; intro e; exact hx.1 (e ▸ ha)
      have h2 : (x == b) = false := by simp; intro e; exact hx.1 (e ▸ hb)
      rw [List.idxOf_cons, List.idxOf_cons, h1, h2]
      simp; exact hab

theorem idxOf_inj {l : List Nat} {a b : Nat} (ha : a ∈ l) (hb : b ∈ l) (h : l.idxOf a = l.idxOf b) : a = b := by
  have h1 := List.getElem_idxOf (List.idxOf_lt_length_of_mem ha)
  have h2 := List.getElem_idxOf (List.idxOf_lt_length_of_mem hb)
  rw [← h1, ← h2]
  simp only [h]

/-- Any order of the cases of a suite can come out of the random numbers, and nothing but a
reordering. -/
theorem C34_random_any (cs ds : List Case) (hp : ds.Perm cs) (hn : (cs.map (·.id)).Nodup) (id : Nat) :
    ∃ rnd : Nat → Int, (((State.mk [⟨id, [], 0, [], 0, cs⟩] none 0 0 {} [] []).shuffle { random := true } rnd).suites.map fun s => s.cases.map (·.id)) = [ds.map (·.id)] := by
  let l := ds.map (·.id)
  let rnd : Nat → Int := fun i => (l.idxOf i : Int)
  have hpl : l.Perm (cs.map (·.id)) := hp.map _
  have hnl : l.Nodup := hpl.nodup_iff.2 hn
  refine ⟨rnd, ?_⟩
  rw [shuffle_fresh _ _ _ rfl rfl]
  let xs := cs.map fun c => { c with seq := rnd c.id }
  let r := sort (fun a b : Case => cmpOpt { random := true } a.key b.key) xs
  show [r.map (·.id)] = [l]
  have hids : xs.map (·.id) = cs.map (·.id) := by simp [xs]
  have hr : (r.map (·.id)).Perm l := ((sort_perm _ xs).map _).trans (by rw [hids]; exact hpl.symm)
  have hseq : ∀ c ∈ r, c.seq = rnd c.id := by
    intro c hc
    obtain ⟨d, _, rfl⟩ := List.mem_map.1 ((sort_perm _ xs).mem_iff.1 hc)
    rfl
  have hs : r.Pairwise fun a b => a.seq ≤ b.seq := by
    refine (sort_sorted (ordering_cmpOpt { random := true } Case.key) xs).imp ?_
    intro a b h
    rw [cmpOpt_pos] at h
    exact Classical.not_not.1 h
  have hr2 : (r.map (·.id)).Pairwise fun a b => l.idxOf a ≤ l.idxOf b := by
    rw [List.pairwise_map]
    refine hs.imp_of_mem ?_
    intro a b ha hb h
    rw [hseq a ha, hseq b hb] at h
    exact Int.ofNat_le.1 h
  congr 1
  refine List.Perm.eq_of_pairwise ?_ hr2 (idxOf_pairwise l hnl) hr
  intro a b ha hb h1 h2
  exact idxOf_inj (hr.mem_iff.1 ha) hb (Nat.le_antisymm h1 h2)

/-- Names, with a tie and mixed case. -/
def sampleSuite : Suite := { id := 1, cases := [{ id := 1, name := "beta".toList }, { id := 2, name := "Alpha".toList }, { id := 3, name := "ALPHA".toList }] }
example : (((State.mk [sampleSuite] none 0 0 {} [] []).shuffle { byName := true } (fun _ => 0)).suites.map fun s => s.cases.map (·.id)) = [[2, 3, 1]] := by decide +kernel
example : (((State.mk [sampleSuite] none 0 0 {} [] []).shuffle { byName := true, reverse := true } (fun _ => 0)).suites.map fun s => s.cases.map (·.id)) = [[1, 2, 3]] := by decide +kernel

end H2.Runner
