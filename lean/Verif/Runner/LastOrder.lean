import Verif.Runner.LastLemmas
/-
C36: the record of a failed run makes the next run repeat its failures, in its order.
-/
namespace H2.Runner

/-! ### Specification -/

/-- The names fit the record: every file, suite and case name is a line of at most 503 characters, and no
two cases agree in suite name, case name and file. -/
structure Recordable (ss : List Suite) : Prop where
  short : ∀ s ∈ ss, ∀ c ∈ s.cases, Short c.file ∧ Short s.name ∧ Short c.name
  distinct : (ss.flatMap fun s => s.cases.map fun c => (s.name, c.name, c.file)).Nodup
  suites : (ss.map (·.id)).Nodup

/-- A program just started: nothing counted, reported, failed or marked. -/
structure Started (st : State) : Prop where
  fresh : Fresh st
  failed : ∀ c ∈ allCases st.suites, c.failed = false
  last : ∀ c ∈ allCases st.suites, c.lastFailed = false

/-- The ids of the cases reported, in order, that satisfy `p`. -/
def reported (p : Event → Bool) (log : List Event) : List Nat := (log.filter p).map (·.case.id)

/-! ### Proofs -/

def recs (ss : List Suite) : List Rec := ss.flatMap fun s => s.cases.map fun c => ⟨c.file, s.name, c.name, c.failed⟩

theorem saveOrder_recs (ss : List Suite) : saveOrder ss = (recs ss).flatMap Rec.text := by
  unfold saveOrder recs
  rw [List.flatMap_assoc]
  congr 1
  funext s
  rw [List.flatMap_map]
  rfl

theorem recs_keys (ss : List Suite) : (recs ss).map Rec.key = keys ss := by
  unfold recs keys
  rw [List.map_flatMap]
  congr 1
  funext s
  rw [List.map_map]
  rfl

abbrev SigE := Nat × List Char × Case
def SigE.triple (x : SigE) : Triple := (x.2.1, x.2.2.name, x.2.2.file)

theorem sig_keys (ss : List Suite) : (sig ss).map SigE.triple = keys ss := by
  unfold sig keys
  rw [List.map_flatMap]
  congr 1
  funext s
  rw [List.map_map]
  rfl

theorem Rec.text_ne (r : Rec) : 0 < r.text.length := by
  unfold Rec.text
  simp only [List.length_append]
  have : " file: ".toList.length = 7 := rfl
  omega

theorem length_texts (rs : List Rec) : rs.length ≤ (rs.flatMap Rec.text).length := by
  induction rs with
  | nil => simp
  | cons r rs ih =>
    have := r.text_ne
    simp only [List.flatMap_cons, List.length_append, List.length_cons]
    omega

theorem idxOf_pairwise_lt {α : Type} [BEq α] [LawfulBEq α] (l : List α) (h : l.Nodup) : l.Pairwise fun a b => l.idxOf a < l.idxOf b := by
  induction l with
  | nil => exact .nil
  | cons x xs ih =>
    have hx := List.nodup_cons.1 h
    have hne : ∀ a ∈ xs, (x == a) = false := by
      intro a ha
      rw [beq_eq_false_iff_ne]
      intro e; exact hx.1 (e ▸ ha)
    rw [List.pairwise_cons]
    constructor
    · intro b hb
      rw [List.idxOf_cons, List.idxOf_cons, hne b hb]
      simp
    · refine List.Pairwise.imp_of_mem ?_ (ih hx.2)
      intro a b ha hb hab
      rw [List.idxOf_cons, List.idxOf_cons, hne a ha, hne b hb]
      simp; exact hab

theorem idxOf_injective {α : Type} [BEq α] [LawfulBEq α] {l : List α} {a b : α} (ha : a ∈ l) (hb : b ∈ l) (h : l.idxOf a = l.idxOf b) : a = b := by
  have h1 := List.getElem_idxOf (List.idxOf_lt_length_of_mem ha)
  have h2 := List.getElem_idxOf (List.idxOf_lt_length_of_mem hb)
  rw [← h1, ← h2]
  simp only [h]

theorem nodup_map_inj {α β : Type} {f : α → β} {l : List α} (h : (l.map f).Nodup) {a b : α} (ha : a ∈ l) (hb : b ∈ l) (e : f a = f b) : a = b := by
  induction l with
  | nil => cases ha
  | cons x xs ih =>
    rw [List.map_cons, List.nodup_cons] at h
    rcases List.mem_cons.1 ha with p | p <;> rcases List.mem_cons.1 hb with q | q
    · rw [p, q]
    · exact absurd (List.mem_map.2 ⟨b, q, by rw [← e, p]⟩) h.1
    · exact absurd (List.mem_map.2 ⟨a, p, by rw [e, q]⟩) h.1
    · exact ih h.2 p q

theorem pairwise_two {α : Type} {R : α → α → Prop} {l : List α} (h : l.Pairwise R) {a b : α} (ha : a ∈ l) (hb : b ∈ l) (hn : a ≠ b) : R a b ∨ R b a := by
  induction h with
  | nil => cases ha
  | cons h1 _ ih =>
    rcases List.mem_cons.1 ha with p | p <;> rcases List.mem_cons.1 hb with q | q
    · exact absurd (p.trans q.symm) hn
    · exact .inl (p ▸ h1 b q)
    · exact .inr (q ▸ h1 a p)
    · exact ih p q

/-- After the record of `S` was read, the suites come in the order of `S`. -/
theorem order_restored (S D : List Suite) (k : Int) (hp : (sig S).Perm (sig D)) (hkS : (keys S).Nodup) (hidS : (S.map (·.id)).Nodup) (hidD : (D.map (·.id)).Nodup)
    (hl : ∀ s ∈ D, ∀ c ∈ s.cases, c.lastFailed = false) :
    sig (sortAll cmpSeq (D.map (marks (recs S) k))) = sig S ∧
      ∀ s ∈ sortAll cmpSeq (D.map (marks (recs S) k)), ∀ c ∈ s.cases, c.lastFailed = (recs S).any fun r => decide (r.key = (s.name, c.name, c.file)) && r.failed := by
  have hkR : ((recs S).map Rec.key).Nodup := by rw [recs_keys]; exact hkS
  let G := sortAll cmpSeq (D.map (marks (recs S) k))
  let idx : SigE → Nat := fun x => (keys S).idxOf x.triple
  -- facts about the suites before sorting
  have facts : ∀ s ∈ D, Marked (recs S) k s (marks (recs S) k s) := fun s hs => marks_marked k s (hl s hs) _ _ rfl hkR
  have hsigD : sig (D.map (marks (recs S) k)) = sig D ∧ (D.map (marks (recs S) k)).map (·.id) = D.map (·.id) := by
    have hm : ∀ (t : Suite), (t.cases.map fun c => (t.id, t.name, c.static)) = (t.cases.map Case.static).map fun c => (t.id, t.name, c) := by
      intro t; rw [List.map_map]; rfl
    clear hp hidD hl
    induction D with
    | nil => exact ⟨rfl, rfl⟩
    | cons s D ih =>
      have f := facts s (List.mem_cons_self ..)
      have ih := ih fun t ht => facts t (List.mem_cons_of_mem _ ht)
      constructor
      · have i1 := ih.1
        unfold sig at i1 ⊢
        rw [List.map_cons, List.flatMap_cons, List.flatMap_cons, i1]
        congr 1
        rw [hm, hm, f.static, f.id, f.name]
      · simp only [List.map_cons, f.id]; rw [ih.2]
  have hGp : (sig G).Perm (sig S) := ((sig_sortAll cmpSeq _).1.trans (hsigD.1 ▸ .refl _)).trans hp.symm
  have hGid : (G.map (·.id)).Nodup := by
    have h1 : (G.map (·.id)).Perm (D.map (·.id)) := (sig_sortAll cmpSeq _).2.trans (hsigD.2 ▸ .refl _)
    exact h1.nodup_iff.2 hidD
  -- facts about the suites after sorting
  have after : ∀ s ∈ G, ∃ u ∈ D, ∃ t, s.id = t.id ∧ s.name = t.name ∧ s.seq = t.seq ∧ s.cases.Perm t.cases ∧ Marked (recs S) k u t := by
    intro s hs
    obtain ⟨t, ht, rfl⟩ := List.mem_map.1 hs
    have ht := (sort_perm _ _).mem_iff.1 ht
    obtain ⟨u, hu, rfl⟩ := List.mem_map.1 ht
    exact ⟨u, hu, marks (recs S) k u, rfl, rfl, rfl, sort_perm _ _, facts u hu⟩
  have inSig : ∀ s ∈ G, ∀ c ∈ s.cases, (s.id, s.name, c.static) ∈ sig S := by
    intro s hs c hc
    exact hGp.mem_iff.1 (List.mem_flatMap.2 ⟨s, hs, List.mem_map.2 ⟨c, hc, rfl⟩⟩)
  have inKeys : ∀ s ∈ G, ∀ c ∈ s.cases, keyOf s c ∈ (recs S).map Rec.key := by
    intro s hs c hc
    rw [recs_keys, ← sig_keys]
    exact List.mem_map.2 ⟨_, inSig s hs c hc, rfl⟩
  have seqIdx : ∀ s ∈ G, ∀ c ∈ s.cases, c.seq = k + idx (s.id, s.name, c.static) + 1 := by
    intro s hs c hc
    obtain ⟨u, _, t, _, h2, _, h4, m⟩ := after s hs
    have hk := inKeys s hs c hc
    rw [keyOf_congr h2] at hk
    have := m.seq c (h4.mem_iff.1 hc) hk
    rw [recs_keys, ← keyOf_congr h2] at this
    exact this
  have top : ∀ s ∈ G, ∀ c ∈ s.cases, c.seq ≤ s.seq ∧ ∃ d ∈ s.cases, d.seq = s.seq := by
    intro s hs c hc
    obtain ⟨u, _, t, _, h2, h3, h4, m⟩ := after s hs
    have hk := inKeys s hs c hc
    rw [keyOf_congr h2] at hk
    have h5 := m.top c (h4.mem_iff.1 hc) hk
    obtain ⟨_, d, hd, _, hds⟩ := m.hit ⟨c, h4.mem_iff.1 hc, hk⟩
    exact ⟨h3 ▸ h5, d, h4.mem_iff.2 hd, h3 ▸ hds⟩
  constructor
  · -- the order
    have hSp : (sig S).Pairwise fun a b => idx a < idx b := by
      have := idxOf_pairwise_lt (keys S) hkS
      rw [← sig_keys] at this
      rw [List.pairwise_map, sig_keys] at this
      exact this
    have hblocks := hSp
    unfold sig at hblocks
    rw [List.pairwise_flatMap] at hblocks
    have hGs : G.Pairwise fun a b => a.seq ≤ b.seq := by
      have h := sort_sorted (ordering_cmpSeq Suite.key) (D.map (marks (recs S) k))
      have h2 : (G.map Suite.key).Pairwise fun a b => a.seq ≤ b.seq := by
        show ((sortAll cmpSeq (D.map (marks (recs S) k))).map Suite.key).Pairwise _
        rw [sortAll_map_key, List.pairwise_map]
        exact h.imp fun {a b} x => by unfold cmpSeq at x; omega
      rwa [List.pairwise_map] at h2
    have hGc : ∀ s ∈ G, s.cases.Pairwise fun a b => a.seq ≤ b.seq := by
      intro s hs
      obtain ⟨t, _, rfl⟩ := List.mem_map.1 hs
      exact (sort_sorted (ordering_cmpSeq Case.key) t.cases).imp fun {a b} x => by
        have x : ¬ 0 < a.seq - b.seq := x
        omega
    have hGn : G.Pairwise fun a b => a.id ≠ b.id := by
      have h := hGid
      unfold List.Nodup at h
      rwa [List.pairwise_map] at h
    have hGp2 : (sig G).Pairwise fun a b => idx a ≤ idx b := by
      unfold sig
      rw [List.pairwise_flatMap]
      constructor
      · intro s hs
        rw [List.pairwise_map]
        refine (hGc s hs).imp_of_mem ?_
        intro a b ha hb h
        rw [seqIdx s hs a ha, seqIdx s hs b hb] at h
        omega
      · refine (hGs.and hGn).imp_of_mem ?_
        rintro s t hs ht ⟨hst, hne⟩ x hx y hy
        obtain ⟨c, hc, rfl⟩ := List.mem_map.1 hx
        obtain ⟨e, he, rfl⟩ := List.mem_map.1 hy
        obtain ⟨he2, d, hd, hds⟩ := top t ht e he
        have hc2 := (top s hs c hc).1
        apply Classical.byContradiction
        intro hlt
        have hcd : c.seq ≤ d.seq := by omega
        rw [seqIdx s hs c hc, seqIdx t ht d hd] at hcd
        have memS : ∀ u ∈ G, ∀ c ∈ u.cases, ∃ A ∈ S, A.id = u.id ∧ (u.id, u.name, c.static) ∈ A.cases.map fun c => (A.id, A.name, c.static) := by
          intro u hu c hc
          obtain ⟨A, hA, hm⟩ := List.mem_flatMap.1 (inSig u hu c hc)
          obtain ⟨z, hz, hz2⟩ := List.mem_map.1 hm
          exact ⟨A, hA, congrArg Prod.fst hz2, hm⟩
        obtain ⟨A, hA, hA1, hA2⟩ := memS s hs c hc
        obtain ⟨B, hB, hB1, hB2⟩ := memS t ht e he
        obtain ⟨B', hB', hB1', hB2'⟩ := memS t ht d hd
        have hBB : B' = B := nodup_map_inj hidS hB' hB (hB1'.trans hB1.symm)
        subst hBB
        have hAB : A ≠ B' := by intro h; subst h; exact hne (hA1.symm.trans hB1)
        rcases pairwise_two hblocks.2 hA hB hAB with h | h
        · have := h _ hA2 _ hB2; omega
        · have := h _ hB2' _ hA2; omega
    refine List.Perm.eq_of_pairwise ?_ hGp2 (hSp.imp fun {a b} h => Nat.le_of_lt h) hGp
    intro a b ha hb h1 h2
    have ha := hGp.mem_iff.1 ha
    have hi : SigE.triple a = SigE.triple b := idxOf_injective (l := keys S) (by rw [← sig_keys]; exact List.mem_map_of_mem ha)
      (by rw [← sig_keys]; exact List.mem_map_of_mem hb) (Nat.le_antisymm h1 h2)
    refine nodup_map_inj (f := SigE.triple) ?_ ha hb hi
    rw [sig_keys]; exact hkS
  · intro s hs c hc
    obtain ⟨u, _, t, _, h2, _, h4, m⟩ := after s hs
    have := m.last c (h4.mem_iff.1 hc)
    rw [← keyOf_congr h2] at this
    exact this

/-- The suites at the end of a round and what was reported. -/
theorem round_turn (o : Opts) (env : Env) (rnd : Nat → Int) (round : Nat) (st : State) : ∃ es,
    (st.round o env rnd round).log = st.log ++ es ∧ es.map (·.case) = allCases (st.round o env rnd round).suites ∧
      All₂ (Turn o) (allCases (st.shuffle o rnd).suites) es ∧ sig (st.round o env rnd round).suites = sig (st.shuffle o rnd).suites ∧
      (st.round o env rnd round).suites.map (·.id) = (st.shuffle o rnd).suites.map (·.id) := by
  obtain ⟨f, e⟩ := round_eq o env rnd round st
  obtain ⟨r1, r2, r3⟩ := shuffle_rest o rnd st
  obtain ⟨es, h1, h2, h3, h4, h5⟩ := runSuites_turn o env round (st.shuffle o rnd).suites (st.shuffle o rnd).stats (st.shuffle o rnd).log (st.shuffle o rnd).suiteLog
  refine ⟨es, ?_, ?_, h3, ?_, ?_⟩
  · rw [e]; show (runSuites _ _ _ _ _ _ _).2.2.1 = _; rw [h1, r2]
  · rw [e]; exact h2
  · rw [e]; exact h4
  · rw [e]; exact h5

theorem sig_static_ids (ss : List Suite) : (sig ss).map (fun x => x.2.2) = (allCases ss).map Case.static := by
  unfold sig allCases
  rw [List.map_flatMap, List.map_flatMap]
  congr 1
  funext s
  rw [List.map_map]
  rfl

theorem tally_pos {b : Bucket} {es : List Event} {e : Event} (he : e ∈ es) (hb : e.is b = true) : 0 < tally b es := by
  have := List.countP_pos_iff (p := fun e : Event => e.is b) (l := es) |>.2 ⟨e, he, hb⟩
  unfold tally
  omega

theorem tally_zero {b : Bucket} {es : List Event} (h : ∀ e ∈ es, e.is b = false) : tally b es = 0 := by
  unfold tally
  have : es.countP (fun e => e.is b) = 0 := by
    rw [List.countP_eq_zero]
    intro e he
    rw [h e he]; simp
  omega

/-- The run that makes the record. -/
structure First (st one : State) (o : Opts) : Prop where
  sigp : (sig one.suites).Perm (sig st.suites)
  idp : (one.suites.map (·.id)).Perm (st.suites.map (·.id))
  cases : one.log.map (·.case) = allCases one.suites
  idle : ∀ e ∈ one.log, e.ran = false → e.case.failed = false
  ran : ∀ e ∈ one.log, e.ran = (!o.lists && !e.case.todo && !e.case.filtered && !e.case.ignored)
  saved : (∃ e ∈ one.log, e.ran = true ∧ e.case.failed = true) → one.lastOrder = some (saveOrder one.suites)
  dropped : (∀ e ∈ one.log, e.ran = true → e.case.failed = false) → one.lastOrder = none

theorem all₂_mem {α β : Type} {R : α → β → Prop} {as : List α} {bs : List β} (h : All₂ R as bs) {b : β} (hb : b ∈ bs) : ∃ a ∈ as, R a b := by
  induction h with
  | nil => cases hb
  | cons r _ ih =>
    rcases List.mem_cons.1 hb with e | e
    · subst e; exact ⟨_, List.mem_cons_self .., r⟩
    · obtain ⟨a, ha, x⟩ := ih e; exact ⟨a, List.mem_cons_of_mem _ ha, x⟩

theorem first_run (o : Opts) (env : Env) (rnd : Nat → Nat → Int) (st : State) (h : Started st) (hn : st.lastOrder = none) (ho : o.rounds = 1) :
    First st (st.main o env rnd).1 o := by
  have hcount := C32_counts o env rnd st h.fresh .failed
  have hm : (st.main o env rnd).1 = st.round o env (rnd 0) 0 := by
    unfold State.main; rw [ho]; rfl
  rw [hm] at hcount ⊢
  obtain ⟨es, h1, h2, h3, h4, h5⟩ := round_turn o env (rnd 0) 0 st
  rw [h.fresh.log, List.nil_append] at h1
  obtain ⟨s1, s2⟩ := sig_shuffle o (rnd 0) st
  have hsave : (st.round o env (rnd 0) 0).lastOrder = if (st.round o env (rnd 0) 0).stats.failed = 0 then none else some (saveOrder (st.round o env (rnd 0) 0).suites) := by
    have hl : (st.shuffle o (rnd 0)).lasts = 0 := by
      unfold State.shuffle
      simp only [State.restore, hn, ne_eq, not_true, if_false]
      split <;> rfl
    unfold State.round
    simp only [hl]
    split
    · rename_i hz; simp only [hz, if_true]
    · rename_i hz; simp only [if_true, if_neg hz]
  refine ⟨?_, ?_, ?_, ?_, ?_, ?_, ?_⟩
  · rw [h4]; exact s1
  · rw [h5]; exact s2
  · rw [h1, h2]
  · intro e he hr
    rw [h1] at he
    obtain ⟨c, hc, t⟩ := all₂_mem h3 he
    rw [t.idle hr]
    obtain ⟨c0, hc0, s, l, rfl⟩ := (shuffle_alike o (rnd 0) st).mem hc
    exact h.failed c0 hc0
  · intro e he
    rw [h1] at he
    obtain ⟨c, _, t⟩ := all₂_mem h3 he
    exact t.ran
  · rintro ⟨e, he, hr, hf⟩
    have := tally_pos (b := .failed) he (by simp [Event.is, hr, hf])
    rw [← hcount] at this
    rw [hsave, if_neg (by have : 0 < (st.round o env (rnd 0) 0).stats.failed := this; omega)]
  · intro hno
    have := tally_zero (b := .failed) (es := (st.round o env (rnd 0) 0).log) (by
      intro e he
      cases hr : e.ran
      · simp [Event.is, hr]
      · simp [Event.is, hno e he hr])
    rw [← hcount] at this
    rw [hsave, if_pos (show (st.round o env (rnd 0) 0).stats.failed = 0 from this)]

theorem keys_perm {S D : List Suite} (h : (sig S).Perm (sig D)) : (keys S).Perm (keys D) := by
  rw [← sig_keys, ← sig_keys]; exact h.map _

theorem recs_ok {S D : List Suite} (h : (sig S).Perm (sig D)) (hr : Recordable D) : ∀ r ∈ recs S, r.ok := by
  intro r hr'
  obtain ⟨s, hs, hm⟩ := List.mem_flatMap.1 hr'
  obtain ⟨c, hc, rfl⟩ := List.mem_map.1 hm
  have : (s.id, s.name, c.static) ∈ sig D := h.mem_iff.1 (List.mem_flatMap.2 ⟨s, hs, List.mem_map.2 ⟨c, hc, rfl⟩⟩)
  obtain ⟨t, ht, hm2⟩ := List.mem_flatMap.1 this
  obtain ⟨d, hd, e⟩ := List.mem_map.1 hm2
  have h1 : t.name = s.name := congrArg (fun x : SigE => x.2.1) e
  have h2 : d.name = c.name := congrArg (fun x : SigE => x.2.2.name) e
  have h3 : d.file = c.file := congrArg (fun x : SigE => x.2.2.file) e
  have := hr.short t ht d hd
  rw [h1, h2, h3] at this
  exact this

/-- Shuffling in a process that finds the record of `S`. -/
theorem shuffle_record (o : Opts) (rnd : Nat → Int) (st : State) (S : List Suite) (hl : ∀ c ∈ allCases st.suites, c.lastFailed = false) (hr : Recordable st.suites)
    (hp : (sig S).Perm (sig st.suites)) (hi : (S.map (·.id)).Perm (st.suites.map (·.id))) (hne : recs S ≠ []) :
    sig (({ st with lastOrder := some (saveOrder S) } : State).shuffle o rnd).suites = sig S ∧
      (∀ s ∈ (({ st with lastOrder := some (saveOrder S) } : State).shuffle o rnd).suites, ∀ c ∈ s.cases,
        c.lastFailed = (recs S).any fun r => decide (r.key = (s.name, c.name, c.file)) && r.failed) ∧
      (({ st with lastOrder := some (saveOrder S) } : State).shuffle o rnd).lasts ≠ 0 := by
  have hks : (keys st.suites).Nodup := hr.distinct
  have hkp := keys_perm hp
  have hseq := sequence_marks (recs S) ((saveOrder S).length + 1) st.suites st.findSeq (by rw [saveOrder_recs]; have := length_texts (recs S); omega)
    (recs_ok hp hr) (by
      intro r hr
      rw [← hkp.mem_iff, ← recs_keys]
      exact List.mem_map_of_mem hr) hks
  rw [← saveOrder_recs] at hseq
  have hlen : (recs S).length ≠ 0 := fun e => hne (List.length_eq_zero_iff.1 e)
  have hsh : (({ st with lastOrder := some (saveOrder S) } : State).shuffle o rnd).suites = sortAll cmpSeq (st.suites.map (marks (recs S) st.findSeq)) ∧
      (({ st with lastOrder := some (saveOrder S) } : State).shuffle o rnd).lasts = (recs S).length := by
    unfold State.shuffle
    simp only [State.restore, hseq, ne_eq, hlen, not_false_eq_true, if_true]
    exact ⟨trivial, trivial⟩
  have := order_restored S st.suites st.findSeq hp (hkp.nodup_iff.2 hks) (hi.nodup_iff.2 hr.suites) hr.suites
    (fun s hs c hc => hl c (List.mem_flatMap.2 ⟨s, hs, hc⟩))
  rw [hsh.1, hsh.2]
  exact ⟨this.1, this.2, hlen⟩

theorem sortAll_perm_mem (cmp : Key → Key → Int) (ss : List Suite) {c : Case} (hc : c ∈ allCases (sortAll cmp ss)) : c ∈ allCases ss := by
  obtain ⟨s, hs, hcs⟩ := List.mem_flatMap.1 hc
  obtain ⟨t, ht, rfl⟩ := List.mem_map.1 hs
  exact List.mem_flatMap.2 ⟨t, (sort_perm _ _).mem_iff.1 ht, (sort_perm _ _).mem_iff.1 hcs⟩

/-- Filtering the cases by what is known of their names. -/
theorem filter_by_sig (ss : List Suite) (p : Case → Bool) (F : SigE → Bool) (h : ∀ s ∈ ss, ∀ c ∈ s.cases, p c = F (s.id, s.name, c.static)) :
    ((allCases ss).filter p).map (·.id) = ((sig ss).filter F).map fun x => x.2.2.id := by
  induction ss with
  | nil => rfl
  | cons s ss ih =>
    have ih := ih fun t ht => h t (List.mem_cons_of_mem _ ht)
    unfold allCases sig at ih ⊢
    rw [List.flatMap_cons, List.flatMap_cons, List.filter_append, List.filter_append, List.map_append, List.map_append, ih]
    congr 1
    have hs := h s (List.mem_cons_self ..)
    generalize s.cases = cs at hs
    induction cs with
    | nil => rfl
    | cons c cs ihc =>
      have ihc := ihc fun d hd => hs d (List.mem_cons_of_mem _ hd)
      rw [List.map_cons, List.filter_cons, List.filter_cons, hs c (List.mem_cons_self ..)]
      split
      · rw [List.map_cons, List.map_cons, ihc]; rfl
      · exact ihc

theorem started_second {st : State} (h : Started st) (f : Option (List Char)) : Started { st with lastOrder := f } :=
  ⟨⟨h.fresh.stats, h.fresh.log, h.fresh.suiteLog, h.fresh.ignored⟩, h.failed, h.last⟩

/-- C36: after a run in which a case failed, the next run goes through all cases in the order of that
run, whatever its options ask for. -/
theorem C36_order (st : State) (h : Started st) (hr : Recordable st.suites) (hn : st.lastOrder = none) (o o' : Opts) (env env' : Env) (rnd rnd' : Nat → Nat → Int)
    (ho : o.rounds = 1) (ho' : o'.rounds = 1) (hf : ∃ e ∈ (st.main o env rnd).1.log, e.ran = true ∧ e.case.failed = true) :
    reported (fun _ => true) (({ st with lastOrder := (st.main o env rnd).1.lastOrder } : State).main o' env' rnd').1.log =
      reported (fun _ => true) (st.main o env rnd).1.log := by
  have F := first_run o env rnd st h hn ho
  obtain ⟨one, hone⟩ : ∃ one, (st.main o env rnd).1 = one := ⟨_, rfl⟩
  rw [hone] at F hf ⊢
  rw [F.saved hf]
  have hne : recs one.suites ≠ [] := by
    obtain ⟨e, he, _⟩ := hf
    intro hz
    have : (recs one.suites).map Rec.key = [] := by rw [hz]; rfl
    rw [recs_keys, ← sig_keys, List.map_eq_nil_iff] at this
    have h2 := sig_static_ids one.suites
    rw [this, ← F.cases] at h2
    have h3 : one.log = [] := by simpa using h2.symm
    rw [h3] at he; cases he
  obtain ⟨g1, g2, _⟩ := shuffle_record o' (rnd' 0) st one.suites h.last hr F.sigp F.idp hne
  have hm : (({ st with lastOrder := some (saveOrder one.suites) } : State).main o' env' rnd').1 =
      ({ st with lastOrder := some (saveOrder one.suites) } : State).round o' env' (rnd' 0) 0 := by
    unfold State.main; rw [ho']; rfl
  rw [hm]
  obtain ⟨es, h1, h2, h3, h4, h5⟩ := round_turn o' env' (rnd' 0) 0 ({ st with lastOrder := some (saveOrder one.suites) } : State)
  rw [h1]
  simp only [h.fresh.log, List.nil_append]
  unfold reported
  rw [List.filter_eq_self.2 (by intros; rfl), List.filter_eq_self.2 (by intros; rfl)]
  have e1 : es.map (fun e => e.case.id) = ((sig one.suites).map fun x => x.2.2).map (·.id) := by
    rw [← g1, sig_static_ids, ← turn_static h3, List.map_map, List.map_map]
    rfl
  rw [e1, sig_static_ids, ← F.cases, List.map_map, List.map_map]
  rfl

/-- C36: the next run with `-f` runs exactly the cases that failed, in the order in which they failed. -/
theorem C36_rerun (st : State) (h : Started st) (hr : Recordable st.suites) (hn : st.lastOrder = none) (o o' : Opts) (env env' : Env) (rnd rnd' : Nat → Nat → Int)
    (ho : o.rounds = 1) (ho' : o'.rounds = 1) (hl : o'.onlyLast = true) (hli : o'.lists = false) (hb : o'.breakAfter = 0) :
    reported (fun e => e.ran) (({ st with lastOrder := (st.main o env rnd).1.lastOrder } : State).main o' env' rnd').1.log =
      reported (fun e => e.ran && e.case.failed) (st.main o env rnd).1.log := by
  have F := first_run o env rnd st h hn ho
  obtain ⟨one, hone⟩ : ∃ one, (st.main o env rnd).1 = one := ⟨_, rfl⟩
  rw [hone] at F ⊢
  have key : ∀ f : Option (List Char), ∃ es, (({ st with lastOrder := f } : State).main o' env' rnd').1.log = es ∧
      All₂ (Turn o') (allCases (({ st with lastOrder := f } : State).shuffle o' (rnd' 0)).suites) es ∧
      reported (fun e => e.ran) es = ((allCases (({ st with lastOrder := f } : State).shuffle o' (rnd' 0)).suites).filter fun c => c.lastFailed && !c.todo && !c.filtered).map (·.id) := by
    intro f
    have hm : (({ st with lastOrder := f } : State).main o' env' rnd').1 = ({ st with lastOrder := f } : State).round o' env' (rnd' 0) 0 := by
      unfold State.main; rw [ho']; rfl
    obtain ⟨es, h1, h2, h3, h4, h5⟩ := round_turn o' env' (rnd' 0) 0 ({ st with lastOrder := f } : State)
    refine ⟨es, by rw [hm, h1]; simp [h.fresh.log], h3, ?_⟩
    symm
    have hig : ∀ c ∈ allCases (({ st with lastOrder := f } : State).shuffle o' (rnd' 0)).suites, c.ignored = false := by
      intro c hc
      obtain ⟨c0, hc0, s, l, rfl⟩ := (shuffle_alike o' (rnd' 0) ({ st with lastOrder := f } : State)).mem hc
      exact h.fresh.ignored c0 hc0
    have h3' : All₂ (fun c e => Turn o' c e ∧ c.ignored = false) (allCases (({ st with lastOrder := f } : State).shuffle o' (rnd' 0)).suites) es := by
      clear h2 h4 h5
      generalize allCases (({ st with lastOrder := f } : State).shuffle o' (rnd' 0)).suites = cs at h3 hig
      clear h1
      induction h3 with
      | nil => exact .nil
      | cons t _ ih => exact .cons ⟨t, hig _ (List.mem_cons_self ..)⟩ (ih fun c hc => hig c (List.mem_cons_of_mem _ hc))
    refine all₂_filter h3' _ _ _ _ ?_ ?_
    · rintro c e ⟨t, hi⟩
      have e1 : e.case.todo = c.todo := show e.case.static.todo = c.static.todo by rw [t.static]
      have e2 : e.case.filtered = c.filtered := show e.case.static.filtered = c.static.filtered by rw [t.static]
      rw [t.ran, t.ignored (by omega), e1, e2, hi, hl, hli]
      cases c.lastFailed <;> cases c.todo <;> cases c.filtered <;> rfl
    · rintro c e ⟨t, _⟩
      exact (congrArg (fun x : Case => x.id) t.static).symm
  by_cases hf : ∃ e ∈ one.log, e.ran = true ∧ e.case.failed = true
  · rw [F.saved hf]
    have hne : recs one.suites ≠ [] := by
      obtain ⟨e, he, _⟩ := hf
      intro hz
      have : (recs one.suites).map Rec.key = [] := by rw [hz]; rfl
      rw [recs_keys, ← sig_keys, List.map_eq_nil_iff] at this
      have h2 := sig_static_ids one.suites
      rw [this, ← F.cases] at h2
      have h3 : one.log = [] := by simpa using h2.symm
      rw [h3] at he; cases he
    obtain ⟨g1, g2, _⟩ := shuffle_record o' (rnd' 0) st one.suites h.last hr F.sigp F.idp hne
    obtain ⟨es, k1, k2, k3⟩ := key (some (saveOrder one.suites))
    rw [k1, k3]
    -- the mark in terms of names
    let M : SigE → Bool := fun x => (recs one.suites).any fun r => decide (r.key = SigE.triple x) && r.failed
    let P : SigE → Bool := fun x => M x && !x.2.2.todo && !x.2.2.filtered
    rw [filter_by_sig _ _ P (by intro s hs c hc; rw [g2 s hs c hc]; rfl), g1]
    -- the failed cases of the first run
    have hone2 : reported (fun e => e.ran && e.case.failed) one.log = ((allCases one.suites).filter (·.failed)).map (·.id) := by
      unfold reported
      rw [← F.cases, List.filter_map, List.map_map]
      have : one.log.filter (fun e => e.ran && e.case.failed) = one.log.filter ((fun c : Case => c.failed) ∘ fun e : Event => e.case) := by
        apply List.filter_congr
        intro e he
        cases hr : e.ran
        · simp [F.idle e he hr]
        · simp
      rw [this]
      rfl
    rw [hone2]
    symm
    apply filter_by_sig
    intro s hs c hc
    have hks : (keys one.suites).Nodup := (keys_perm F.sigp).nodup_iff.2 hr.distinct
    have hrn : ((recs one.suites).map Rec.key).Nodup := by rw [recs_keys]; exact hks
    have hrec : (⟨c.file, s.name, c.name, c.failed⟩ : Rec) ∈ recs one.suites := List.mem_flatMap.2 ⟨s, hs, List.mem_map.2 ⟨c, hc, rfl⟩⟩
    have hM : M (s.id, s.name, c.static) = c.failed := by
      rw [Bool.eq_iff_iff]
      simp only [M, List.any_eq_true, Bool.and_eq_true, decide_eq_true_eq]
      constructor
      · rintro ⟨r, hr1, hk, hf⟩
        have : r = ⟨c.file, s.name, c.name, c.failed⟩ := nodup_map_inj hrn hr1 hrec hk
        rw [this] at hf; exact hf
      · intro hf
        exact ⟨_, hrec, rfl, hf⟩
    show c.failed = (M (s.id, s.name, c.static) && !c.todo && !c.filtered)
    rw [hM]
    cases hcf : c.failed
    · rfl
    · have hmem : c ∈ one.log.map (·.case) := by rw [F.cases]; exact List.mem_flatMap.2 ⟨s, hs, hc⟩
      obtain ⟨e, he, rfl⟩ := List.mem_map.1 hmem
      have hran : e.ran = true := by
        cases hr : e.ran
        · rw [F.idle e he hr] at hcf; cases hcf
        · rfl
      have := F.ran e he
      rw [hran] at this
      revert this
      cases e.case.todo <;> cases e.case.filtered <;> simp
  · have hno : ∀ e ∈ one.log, e.ran = true → e.case.failed = false := by
      intro e he hr
      cases hc : e.case.failed
      · rfl
      · exact absurd ⟨e, he, hr, hc⟩ hf
    rw [F.dropped hno]
    obtain ⟨es, k1, k2, k3⟩ := key none
    rw [k1, k3]
    have e1 : reported (fun e => e.ran && e.case.failed) one.log = [] := by
      unfold reported
      rw [List.map_eq_nil_iff, List.filter_eq_nil_iff]
      intro e he hx
      cases hr : e.ran
      · simp [hr] at hx
      · simp [hno e he hr] at hx
    rw [e1, List.map_eq_nil_iff, List.filter_eq_nil_iff]
    intro c hc hx
    have : ∀ c ∈ allCases (({ st with lastOrder := none } : State).shuffle o' (rnd' 0)).suites, c.lastFailed = false := by
      intro c hc
      have hre : ({ st with lastOrder := none } : State).restore.suites = st.suites := rfl
      unfold State.shuffle at hc
      simp only [State.restore, ne_eq, not_true, if_false] at hc
      split at hc
      · have hc := (sortAll_perm_mem _ _ hc)
        split at hc
        · obtain ⟨t, ht, hct⟩ := List.mem_flatMap.1 hc
          obtain ⟨u, hu, rfl⟩ := List.mem_map.1 ht
          obtain ⟨d, hd, rfl⟩ := List.mem_map.1 hct
          exact h.last d (List.mem_flatMap.2 ⟨u, hu, hd⟩)
        · exact h.last c hc
      · exact h.last c hc
    simp [this c hc] at hx

/-- C36: a run that finds a record and has a failure leaves the record as it is. -/
theorem C36_stale (o : Opts) (env : Env) (rnd : Nat → Int) (round : Nat) (st : State) (S : List Suite) (hl : ∀ c ∈ allCases st.suites, c.lastFailed = false) (hr : Recordable st.suites)
    (hp : (sig S).Perm (sig st.suites)) (hi : (S.map (·.id)).Perm (st.suites.map (·.id))) (hne : allCases S ≠ []) (hs : st.lastOrder = some (saveOrder S))
    (hf : (st.round o env rnd round).stats.failed ≠ 0) : (st.round o env rnd round).lastOrder = st.lastOrder := by
  have hne : recs S ≠ [] := by
    intro hz
    apply hne
    have : (recs S).map Rec.key = [] := by rw [hz]; rfl
    rw [recs_keys, ← sig_keys, List.map_eq_nil_iff] at this
    have h2 := sig_static_ids S
    rw [this] at h2
    simpa using h2.symm
  have hst : st = { st with lastOrder := some (saveOrder S) } := by rw [← hs]
  have h3 := (shuffle_record o rnd st S hl hr hp hi hne).2.2
  rw [← hst] at h3
  have hlo : (st.shuffle o rnd).lastOrder = st.lastOrder := by
    have h : st.restore.lastOrder = st.lastOrder := by unfold State.restore; split <;> rfl
    unfold State.shuffle
    simp only
    split
    · exact h
    · split <;> exact h
  revert hf
  unfold State.round
  simp only
  split
  · rename_i hz; intro hf; exact absurd hz hf
  · intro _; exact hlo

/-- Finding: listing the cases (`-l`) throws the record away: nothing is run, so nothing failed. -/
theorem C36_list_false (o : Opts) (env : Env) (rnd : Nat → Nat → Int) (st : State) (h : Fresh st) (hl : o.lists = true) (hr : 0 < o.rounds) :
    (st.main o env rnd).1.lastOrder = none := by
  have hc := C32_counts o env rnd st h .failed
  have hran := C32_ran o env rnd st h
  have hz : (st.main o env rnd).1.stats.failed = 0 := by
    show (st.main o env rnd).1.stats.get .failed = 0
    rw [hc]
    apply tally_zero
    intro e he
    simp [Event.is, hran e he, hl]
  have hm : (st.main o env rnd).1 = (st.rounds o env rnd (o.rounds - 1)).round o env (rnd (o.rounds - 1)) (o.rounds - 1) := by
    unfold State.main
    simp only
    obtain ⟨n, hn⟩ : ∃ n, o.rounds = n + 1 := ⟨o.rounds - 1, by omega⟩
    rw [hn]
    rfl
  rw [hm] at hz ⊢
  revert hz
  unfold State.round
  simp only
  split
  · intro _; rfl
  · rename_i hz
    split
    · intro h; exact absurd h hz
    · intro h; exact absurd h hz

/-! ### A run that fails twice, and its repetition -/

def twoSuites : List Suite :=
  [{ id := 1, name := "alpha".toList, seq := 1, cases := [{ id := 1, name := "one".toList, file := "a.cpp".toList, seq := 1 }, { id := 2, name := "two".toList, file := "a.cpp".toList, seq := 2 }] },
   { id := 2, name := "beta".toList, seq := 2, cases := [{ id := 3, name := "one".toList, file := "b.cpp".toList, seq := 3 }, { id := 4, name := "two".toList, file := "b.cpp".toList, todo := true, seq := 4 }] }]
def twoState : State := { suites := twoSuites }
def twoEnv : Env := fun _ c => (c.id != 1, false)

theorem two_started : Started twoState := by
  refine ⟨⟨rfl, rfl, rfl, ?_⟩, ?_, ?_⟩ <;> decide

theorem short_of {l : List Char} (h : ('\n' ∉ l ∧ l.length ≤ 503)) : Short l := h

theorem two_recordable : Recordable twoSuites := by
  refine ⟨?_, by decide, by decide⟩
  unfold Short
  decide

/-- The cases are run by name in reverse; 2 and 3 fail; the next run repeats 3, then 2. -/
example : reported (fun e => e.ran) (twoState.main { reverse := true, byName := true } twoEnv (fun _ _ => 0)).1.log = [3, 2, 1] ∧
    reported (fun e => e.ran && e.case.failed) (twoState.main { reverse := true, byName := true } twoEnv (fun _ _ => 0)).1.log = [3, 2] ∧
    reported (fun e => e.ran) (({ twoState with lastOrder := (twoState.main { reverse := true, byName := true } twoEnv (fun _ _ => 0)).1.lastOrder } : State).main
      { onlyLast := true } twoEnv (fun _ _ => 0)).1.log = [3, 2] := by
  have h2 : reported (fun e => e.ran && e.case.failed) (twoState.main { reverse := true, byName := true } twoEnv (fun _ _ => 0)).1.log = [3, 2] := by decide +kernel
  refine ⟨by decide +kernel, h2, ?_⟩
  rw [C36_rerun twoState two_started two_recordable rfl _ _ _ _ _ _ rfl rfl rfl rfl rfl, h2]

end H2.Runner
