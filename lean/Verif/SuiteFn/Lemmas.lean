import Verif.SuiteFn.Spec
namespace H2.SuiteFn

variable {V : Type}

theorem foreach_eq (i : Nat) : ∀ xs : List V, foreach_ i xs = (xs.zipIdx i).map fun p => (p.2, p.1)
  | [] => rfl
  | x :: xs => by simp [foreach_, foreach_eq (i + 1) xs, List.zipIdx_cons]

theorem foreachy_eq (i j : Nat) (x : V) : ∀ ys : List V, foreachy i j x ys = (ys.zipIdx j).map fun q => (i, q.2, x, q.1)
  | [] => rfl
  | y :: ys => by simp [foreachy, foreachy_eq i (j + 1) x ys, List.zipIdx_cons]

theorem foreachx_eq (i : Nat) (ys : List V) : ∀ xs : List V,
    foreachx i ys xs = (xs.zipIdx i).flatMap fun p => ys.zipIdx.map fun q => (p.2, q.2, p.1, q.1)
  | [] => rfl
  | x :: xs => by simp [foreachx, foreachx_eq (i + 1) ys xs, List.zipIdx_cons, foreachy_eq]

/-- The cases among `l` that are not yet known are added. -/
def regAll (cs : List Id) (l : List Id) : List Id := l.foldl register cs

theorem regAll_append (cs a b) : regAll cs (a ++ b) = regAll (regAll cs a) b := by
  simp [regAll, List.foldl_append]

theorem regAll_known : ∀ (l cs : List Id), (∀ c ∈ l, c ∈ cs) → regAll cs l = cs
  | [], _, _ => rfl
  | c :: l, cs, h => by
    have h1 : register cs c = cs := by simp [register, h c (by simp)]
    simp only [regAll, List.foldl_cons, h1]
    exact regAll_known l cs (fun d hd => h d (by simp [hd]))

theorem regAll_fresh : ∀ (l cs : List Id), l.Nodup → (∀ c ∈ l, c ∉ cs) → regAll cs l = cs ++ l
  | [], _, _, _ => by simp [regAll]
  | c :: l, cs, hn, h => by
    have h1 : register cs c = cs ++ [c] := by simp [register, h c (by simp)]
    simp only [regAll, List.foldl_cons, h1]
    have hn' := List.nodup_cons.mp hn
    have := regAll_fresh l (cs ++ [c]) hn'.2 (by
      intro d hd hm
      rcases List.mem_append.mp hm with hm | hm
      · exact h d (by simp [hd]) hm
      · simp at hm; subst hm; exact hn'.1 hd)
    simpa [regAll] using this

theorem reg_cases (k : Nat) (xs : List V) (cs : List Id) :
    (foreach_ 0 xs).foldl (fun cs p => register cs ⟨k, p.1, 0⟩) cs = regAll cs ((declares k (.cases xs)).map Prod.fst) := by
  rw [foreach_eq, regAll, List.foldl_map, declares, List.map_map, List.foldl_map]
  rfl

theorem reg_casess (k : Nat) (xs ys : List V) (cs : List Id) :
    (fullmesh [xs, ys]).foldl (fun cs p => register cs ⟨k, p.1, p.2.1⟩) cs
      = regAll cs ((declares k (.casess xs ys)).map Prod.fst) := by
  rw [fullmesh, foreachx_eq, regAll, declares, List.map_flatMap]
  rw [show (fun p : V × Nat => List.map Prod.fst (List.map (fun q : V × Nat => ((⟨k, p.2, q.2⟩ : Id), [p.1, q.1])) ys.zipIdx))
    = (fun p => ((fun p : V × Nat => ys.zipIdx.map fun q => (p.2, q.2, p.1, q.1)) p).map (fun r => (⟨k, r.1, r.2.1⟩ : Id))) from by
      funext p; simp [List.map_map, Function.comp_def]]
  rw [← List.map_flatMap, List.foldl_map]

/-- Every declared case belongs to its item. -/
theorem declares_item (k : Nat) (it : Item V) : ∀ p ∈ declares k it, p.1.item = k := by
  cases it <;> simp [declares]
  · intro a b x i h rfl; intros; subst_vars; rfl
  · intro a b x i _ y j _ h; intros; subst_vars; rfl

theorem declaredFrom_item : ∀ (l : List (Item V)) (k : Nat), ∀ p ∈ declaredFrom k l, k ≤ p.1.item ∧ p.1.item < k + l.length
  | [], _, p, h => by simp [declaredFrom] at h
  | it :: r, k, p, h => by
    rcases List.mem_append.mp h with h | h
    · have := declares_item k it p h
      simp; omega
    · have := declaredFrom_item r (k + 1) p h
      simp; omega

theorem declaredFrom_append : ∀ (a b : List (Item V)) (k : Nat),
    declaredFrom k (a ++ b) = declaredFrom k a ++ declaredFrom (k + a.length) b
  | [], b, k => by simp [declaredFrom]
  | it :: r, b, k => by
    simp only [List.cons_append, declaredFrom, declaredFrom_append r b (k + 1), List.append_assoc, List.length_cons]
    congr 3; omega

theorem zipIdx_nodup (xs : List V) (n : Nat) : ((xs.zipIdx n).map Prod.snd).Nodup := by
  rw [List.zipIdx_map_snd]; exact List.nodup_range'

theorem declares_nodup (k : Nat) (it : Item V) : ((declares k it).map Prod.fst).Nodup := by
  cases it with
  | cases xs =>
    have := zipIdx_nodup xs 0
    rw [declares, List.map_map]
    have e : (Prod.fst ∘ fun p : V × Nat => ((⟨k, p.2, 0⟩ : Id), [p.1])) = (fun i => (⟨k, i, 0⟩ : Id)) ∘ Prod.snd := rfl
    rw [e, ← List.map_map]
    exact List.Pairwise.map _ (by intro a b h h'; injection h' with _ h2; exact h h2) this
  | casess xs ys =>
    have h1 := zipIdx_nodup xs 0
    have h2 := zipIdx_nodup ys 0
    rw [declares, List.map_flatMap]
    refine List.pairwise_flatMap.mpr ⟨fun p _ => ?_, ?_⟩
    · rw [List.map_map]
      have e : (Prod.fst ∘ fun q : V × Nat => ((⟨k, p.2, q.2⟩ : Id), [p.1, q.1])) = (fun j => (⟨k, p.2, j⟩ : Id)) ∘ Prod.snd := rfl
      rw [e, ← List.map_map]
      exact List.Pairwise.map _ (by intro a b h h'; injection h' with _ _ h2; exact h h2) h2
    · refine List.Pairwise.imp ?_ (List.pairwise_map.mp h1)
      intro a b hab x hx y hy hxy
      simp only [List.map_map, List.mem_map, Function.comp] at hx hy
      obtain ⟨_, _, rfl⟩ := hx
      obtain ⟨_, _, rfl⟩ := hy
      injection hxy with _ h2
      exact hab h2
  | _ => simp [declares]

theorem declaredFrom_nodup : ∀ (l : List (Item V)) (k : Nat), ((declaredFrom k l).map Prod.fst).Nodup
  | [], _ => by simp [declaredFrom]
  | it :: r, k => by
    rw [declaredFrom, List.map_append]
    refine List.nodup_append.mpr ⟨declares_nodup k it, declaredFrom_nodup r (k + 1), ?_⟩
    intro a ha b hb hab
    obtain ⟨p, hp, rfl⟩ := List.mem_map.mp ha
    obtain ⟨q, hq, rfl⟩ := List.mem_map.mp hb
    have h1 := declares_item k it p hp
    have h2 := declaredFrom_item r (k + 1) q hq
    rw [hab] at h1
    omega

/-! ### The doors -/

theorem casesDoor_shut (conv : V → V → V) (first : V) (pc : Nat) (cp : Option Id) :
    ∀ (l : List (Nat × V)) (q : Option V), (∀ p ∈ l, cp ≠ some ⟨pc, p.1, 0⟩) → casesDoor conv first pc cp l q = q
  | [], _, _ => rfl
  | (i, x) :: r, q, h => by
    rw [casesDoor, if_neg (h (i, x) (by simp))]
    exact casesDoor_shut conv first pc cp r q (fun p hp => h p (by simp [hp]))

theorem casessDoor_shut (conv : V → V → V) (fx fy : V) (pc : Nat) (cp : Option Id) :
    ∀ (l : List (Nat × Nat × V × V)) (q : Option (V × V)), (∀ p ∈ l, cp ≠ some ⟨pc, p.1, p.2.1⟩) →
      casessDoor conv fx fy pc cp l q = q
  | [], _, _ => rfl
  | (i, j, x, y) :: r, q, h => by
    rw [casessDoor, if_neg (h (i, j, x, y) (by simp))]
    exact casessDoor_shut conv fx fy pc cp r q (fun p hp => h p (by simp [hp]))

theorem casesDoor_open (conv : V → V → V) (first : V) (pc i : Nat) (x : V) :
    ∀ (l : List (Nat × V)) (q : Option V), (l.map Prod.fst).Nodup → (i, x) ∈ l →
      casesDoor conv first pc (some ⟨pc, i, 0⟩) l q = some (conv first x)
  | [], _, _, h => by simp at h
  | (i', x') :: r, q, hn, h => by
    simp only [List.map_cons, List.nodup_cons] at hn
    rw [casesDoor]
    rcases List.mem_cons.mp h with h | h
    · injection h with h1 h2
      subst h1 h2
      rw [if_pos rfl, casesDoor_shut]
      intro p hp he
      injection he with he
      injection he with _ he
      exact hn.1 (List.mem_map.mpr ⟨p, hp, he.symm⟩)
    · exact casesDoor_open conv first pc i x r _ hn.2 h

theorem casessDoor_open (conv : V → V → V) (fx fy : V) (pc i j : Nat) (x y : V) :
    ∀ (l : List (Nat × Nat × V × V)) (q : Option (V × V)), (l.map fun p => (p.1, p.2.1)).Nodup → (i, j, x, y) ∈ l →
      casessDoor conv fx fy pc (some ⟨pc, i, j⟩) l q = some (conv fx x, conv fy y)
  | [], _, _, h => by simp at h
  | (i', j', x', y') :: r, q, hn, h => by
    simp only [List.map_cons, List.nodup_cons] at hn
    rw [casessDoor]
    rcases List.mem_cons.mp h with h | h
    · injection h with h1 h2
      injection h2 with h2 h3
      injection h3 with h3 h4
      subst h1 h2 h3 h4
      rw [if_pos rfl, casessDoor_shut]
      intro p hp he
      injection he with he
      injection he with _ he he'
      exact hn.1 (List.mem_map.mpr ⟨p, hp, by rw [he, he']⟩)
    · exact casessDoor_open conv fx fy pc i j x y r _ hn.2 h

theorem assigned_shut (conv : V → V → V) (pc : Nat) (cp : Option Id) (xs : List V)
    (h : ∀ p ∈ declares pc (.cases xs), cp ≠ some p.1) : assigned conv pc cp xs = none := by
  cases xs with
  | nil => rfl
  | cons a r =>
    rw [assigned, casesDoor_shut]
    intro p hp
    rw [foreach_eq] at hp
    obtain ⟨q, hq, rfl⟩ := List.mem_map.mp hp
    exact h (⟨pc, q.2, 0⟩, [q.1]) (List.mem_map.mpr ⟨q, hq, rfl⟩)

theorem assigned2_shut (conv : V → V → V) (pc : Nat) (cp : Option Id) (xs ys : List V)
    (h : ∀ p ∈ declares pc (.casess xs ys), cp ≠ some p.1) : assigned2 conv pc cp xs ys = none := by
  cases xs with
  | nil => rfl
  | cons a r =>
    cases ys with
    | nil => rfl
    | cons b s =>
      rw [assigned2, casessDoor_shut]
      intro p hp
      rw [fullmesh, foreachx_eq] at hp
      obtain ⟨q, hq, hp⟩ := List.mem_flatMap.mp hp
      obtain ⟨t, ht, rfl⟩ := List.mem_map.mp hp
      exact h (⟨pc, q.2, t.2⟩, [q.1, t.1]) (List.mem_flatMap.mpr ⟨q, hq, List.mem_map.mpr ⟨t, ht, rfl⟩⟩)

theorem assigned_open (conv : V → V → V) (pc : Nat) (c : Id) (vs : List V) (xs : List V)
    (h : (c, vs) ∈ declares pc (.cases xs)) (hs : SameType conv (.cases xs)) :
    ∃ v, assigned conv pc (some c) xs = some v ∧ vs = [v] := by
  obtain ⟨p, hp, he⟩ := List.mem_map.mp h
  injection he with h1 h2
  subst h1 h2
  cases xs with
  | nil => simp at hp
  | cons a r =>
    refine ⟨p.1, ?_, rfl⟩
    rw [assigned, casesDoor_open (x := p.1)]
    · rw [hs a rfl p.1]
      obtain ⟨x, i⟩ := p
      have := List.mem_zipIdx hp
      simp only [this.2.2]
      exact List.getElem_mem _
    · rw [foreach_eq, List.map_map]
      exact zipIdx_nodup (a :: r) 0
    · rw [foreach_eq]
      exact List.mem_map.mpr ⟨p, hp, rfl⟩

theorem assigned2_open (conv : V → V → V) (pc : Nat) (c : Id) (vs : List V) (xs ys : List V)
    (h : (c, vs) ∈ declares pc (.casess xs ys)) (hs : SameType conv (.casess xs ys)) :
    ∃ v w, assigned2 conv pc (some c) xs ys = some (v, w) ∧ vs = [v, w] := by
  obtain ⟨p, hp, h⟩ := List.mem_flatMap.mp h
  obtain ⟨q, hq, he⟩ := List.mem_map.mp h
  injection he with h1 h2
  subst h1 h2
  cases xs with
  | nil => simp at hp
  | cons a r =>
    cases ys with
    | nil => simp at hq
    | cons b s =>
      refine ⟨p.1, q.1, ?_, rfl⟩
      rw [assigned2, casessDoor_open (x := p.1) (y := q.1)]
      · obtain ⟨x, i⟩ := p
        obtain ⟨y, j⟩ := q
        have h1 := List.mem_zipIdx hp
        have h2 := List.mem_zipIdx hq
        rw [hs.1 a rfl x (by simp only [h1.2.2]; exact List.getElem_mem _),
          hs.2 b rfl y (by simp only [h2.2.2]; exact List.getElem_mem _)]
      · rw [fullmesh, foreachx_eq]
        have := declares_nodup 0 (Item.casess (a :: r) (b :: s))
        have e : ((List.zipIdx (a :: r)).flatMap fun p => (List.zipIdx (b :: s)).map fun q => (p.2, q.2, p.1, q.1)).map (fun p => (p.1, p.2.1))
          = ((declares 0 (Item.casess (a :: r) (b :: s))).map Prod.fst).map fun d : Id => (d.i, d.j) := by
          simp only [declares, List.map_flatMap, List.map_map]
          rfl
        rw [e]
        refine List.Pairwise.map (R := fun (x y : Id) => x.item = 0 ∧ y.item = 0 ∧ x ≠ y) _ ?_
          (List.Pairwise.imp_of_mem (S := fun (x y : Id) => x.item = 0 ∧ y.item = 0 ∧ x ≠ y) ?_ this)
        · rintro ⟨x1, x2, x3⟩ ⟨y1, y2, y3⟩ ⟨h1, h2, h3⟩ he
          simp only [Prod.mk.injEq] at he h1 h2
          exact h3 (by rw [h1, h2, he.1, he.2])
        · intro x y hx hy hxy
          obtain ⟨p, hp, rfl⟩ := List.mem_map.mp hx
          obtain ⟨q, hq, rfl⟩ := List.mem_map.mp hy
          exact ⟨declares_item _ _ p hp, declares_item _ _ q hq, hxy⟩
      · rw [fullmesh, foreachx_eq]
        exact List.mem_flatMap.mpr ⟨p, hp, List.mem_map.mpr ⟨q, hq, rfl⟩⟩

/-! ### Passing over items that do not declare the case -/

/-- What `cleanup_hole` is after these items. -/
def holeAfter (k : Nat) : List (Item V) → Hole → Hole
  | [], h => h
  | .cleanup _ :: r, _ => holeAfter (k + 1) r (.live k)
  | _ :: r, h => holeAfter (k + 1) r h

/-- The events of items passed over. -/
def passed (cp : Option Id) (l : List (Item V)) : List (Event V) := if cp.isSome then setups l else codes l

theorem pass (conv : V → V → V) (cp : Option Id) (post : List (Item V)) :
    ∀ (seg pre : List (Item V)) (st : State V) (f : Nat),
      (∀ p ∈ declaredFrom pre.length seg, cp ≠ some p.1) →
      exec conv (pre ++ seg ++ post) (f + seg.length) pre.length cp st =
        exec conv (pre ++ seg ++ post) f (pre.length + seg.length) cp
          ⟨regAll st.cases ((declaredFrom pre.length seg).map Prod.fst), holeAfter pre.length seg st.hole,
            st.trace ++ passed cp seg⟩
  | [], pre, st, f, _ => by
    simp [declaredFrom, regAll, holeAfter, passed, setups, codes]
  | it :: r, pre, st, f, h => by
    have hd : ∀ p ∈ declares pre.length it, cp ≠ some p.1 := fun p hp => h p (List.mem_append.mpr (.inl hp))
    have hr : ∀ p ∈ declaredFrom (pre ++ [it]).length r, cp ≠ some p.1 := by
      intro p hp
      exact h p (List.mem_append.mpr (.inr (by simpa using hp)))
    have ih := fun st => pass conv cp post r (pre ++ [it]) st f hr
    have ea : pre ++ [it] ++ r ++ post = pre ++ it :: r ++ post := by simp
    rw [ea] at ih
    have el : (pre ++ [it]).length = pre.length + 1 := by simp
    rw [el] at ih
    have eg : (pre ++ it :: r ++ post)[pre.length]? = some it := by simp
    have ef : f + (it :: r).length = (f + r.length) + 1 := by simp; omega
    have en : pre.length + (it :: r).length = pre.length + 1 + r.length := by simp; omega
    rw [ef, en, exec, eg]
    cases it with
    | code n =>
      simp only
      rw [ih]
      cases cp <;> simp [declaredFrom, declares, holeAfter, passed, setups, codes]
    | setup n =>
      cases cp with
      | none =>
        simp only [Option.isSome_none, Bool.false_eq_true, if_false]
        rw [ih]
        simp [declaredFrom, declares, holeAfter, passed, codes]
      | some c =>
        simp only [Option.isSome_some, if_true]
        rw [ih]
        simp [declaredFrom, declares, holeAfter, passed, setups]
    | cleanup n =>
      simp only
      rw [ih]
      cases cp <;> simp [declaredFrom, declares, holeAfter, passed, setups, codes]
    | one =>
      simp only
      rw [if_neg (hd (⟨pre.length, 0, 0⟩, []) (by simp [declares])), ih]
      cases cp <;> simp [declaredFrom, declares, holeAfter, passed, setups, codes, regAll]
    | cases xs =>
      simp only
      rw [assigned_shut conv _ _ _ hd]
      rw [reg_cases]
      cases cp <;> simp only <;> rw [ih] <;>
        simp [declaredFrom, List.map_append, regAll_append, holeAfter, passed, setups, codes]
    | casess xs ys =>
      simp only
      rw [assigned2_shut conv _ _ _ _ hd, reg_casess]
      cases cp <;> simp only <;> rw [ih] <;>
        simp [declaredFrom, List.map_append, regAll_append, holeAfter, passed, setups, codes]

/-! ### The run of a case -/

/-- What `case_` is when `suite_cleaner` is destroyed. -/
def kept (c : Id) : Item V → Option Id
  | .one => none
  | _ => some c

theorem opens (conv : V → V → V) (all : List (Item V)) (it : Item V) (pc : Nat) (c : Id) (vs : List V)
    (st : State V) (f : Nat) (hi : all[pc]? = some it) (hc : (c, vs) ∈ declares pc it) (hs : SameType conv it) :
    exec conv all (f + 1) pc (some c) st =
      finish all pc (kept c it) none
        ⟨regAll st.cases ((declares pc it).map Prod.fst), st.hole, st.trace ++ [.body c vs]⟩ (exec conv all f) := by
  rw [exec, hi]
  cases it with
  | code n => simp [declares] at hc
  | setup n => simp [declares] at hc
  | cleanup n => simp [declares] at hc
  | one =>
    simp only [declares, List.mem_singleton, Prod.mk.injEq] at hc
    obtain ⟨rfl, rfl⟩ := hc
    simp [kept, declares, regAll]
  | cases xs =>
    obtain ⟨v, hv, rfl⟩ := assigned_open conv pc c vs xs hc hs
    simp only [hv, reg_cases, kept]
  | casess xs ys =>
    obtain ⟨v, w, hv, rfl⟩ := assigned2_open conv pc c vs xs ys hc hs
    simp only [hv, reg_casess, kept]

/-- More fuel changes nothing once the call has come to its end. -/
def Result.final : Result α → Prop
  | .running _ => False
  | _ => True

theorem finish_mono (all : List (Item V)) (pc : Nat) (a b : Option Id) (st : State V)
    (g h : Nat → Option Id → State V → Result (State V))
    (hg : ∀ k c s, (g k c s).final → h k c s = g k c s) (hf : (finish all pc a b st g).final) :
    finish all pc a b st h = finish all pc a b st g := by
  unfold finish at *
  cases hl : leave pc st.hole with
  | none => rfl
  | some p =>
    obtain ⟨k, z⟩ := p
    rw [hl] at hf
    cases z <;> exact hg _ _ _ hf

theorem exec_mono (conv : V → V → V) (all : List (Item V)) : ∀ (f pc : Nat) (cp : Option Id) (st : State V),
    (exec conv all f pc cp st).final → exec conv all (f + 1) pc cp st = exec conv all f pc cp st
  | 0, _, _, _, h => by simp [exec, Result.final] at h
  | f + 1, pc, cp, st, h => by
    have ih := exec_mono conv all f
    rw [exec] at h
    conv => lhs; rw [exec]
    conv => rhs; rw [exec]
    cases hi : all[pc]? with
    | none => rfl
    | some it =>
      rw [hi] at h
      cases it with
      | code n => exact ih _ _ _ h
      | setup n =>
        simp only at h ⊢
        split at h <;> rename_i hc <;> simp only [hc, if_true, Bool.false_eq_true, if_false] <;> exact ih _ _ _ h
      | cleanup n => exact ih _ _ _ h
      | one =>
        simp only at h ⊢
        split at h <;> rename_i hc
        · rw [if_pos hc, if_pos hc]; exact finish_mono _ _ _ _ _ _ _ ih h
        · rw [if_neg hc, if_neg hc]; exact ih _ _ _ h
      | cases xs =>
        simp only at h ⊢
        cases cp with
        | none => exact ih _ _ _ h
        | some c =>
          cases ha : assigned conv pc (some c) xs with
          | none => rw [ha] at h; exact ih _ _ _ h
          | some v => rw [ha] at h; exact finish_mono _ _ _ _ _ _ _ ih h
      | casess xs ys =>
        simp only at h ⊢
        cases cp with
        | none => exact ih _ _ _ h
        | some c =>
          cases ha : assigned2 conv pc (some c) xs ys with
          | none => rw [ha] at h; exact ih _ _ _ h
          | some v => rw [ha] at h; exact finish_mono _ _ _ _ _ _ _ ih h

theorem exec_mono_le (conv : V → V → V) (all : List (Item V)) (f d pc : Nat) (cp : Option Id) (st : State V)
    (h : (exec conv all f pc cp st).final) : exec conv all (f + d) pc cp st = exec conv all f pc cp st := by
  induction d with
  | zero => rfl
  | succ d ih => rw [← Nat.add_assoc, exec_mono conv all (f + d) pc cp st (by rw [ih]; exact h), ih]

/-! ### What is true of the suite object at all times after the enumeration -/

/-- The cases are those of the text, and `cleanup_hole` has been set exactly if there is a `Cleanup`. -/
def Inv (all : List (Item V)) (st : State V) : Prop :=
  st.cases = (declared all).map Prod.fst ∧ (st.hole = .unset ↔ ∀ it ∈ all, it.isCleanup = false)

theorem declares_sub : ∀ (all : List (Item V)) (k pc : Nat) (it : Item V), all[pc]? = some it →
    ∀ p ∈ declares (k + pc) it, p ∈ declaredFrom k all
  | [], _, _, _, h => by simp at h
  | a :: r, k, 0, it, h => by
    simp at h; subst h
    intro p hp
    exact List.mem_append.mpr (.inl hp)
  | a :: r, k, pc + 1, it, h => by
    intro p hp
    refine List.mem_append.mpr (.inr (declares_sub r (k + 1) pc it (by simpa using h) p ?_))
    rw [show k + 1 + pc = k + (pc + 1) from by omega]
    exact hp

theorem known (all : List (Item V)) (pc : Nat) (it : Item V) (hi : all[pc]? = some it) (cs : List Id)
    (hc : cs = (declared all).map Prod.fst) : regAll cs ((declares pc it).map Prod.fst) = cs := by
  refine regAll_known _ _ fun c h => ?_
  obtain ⟨p, hp, rfl⟩ := List.mem_map.mp h
  rw [hc]
  refine List.mem_map.mpr ⟨p, declares_sub all 0 pc it hi p (by simpa using hp), rfl⟩

theorem finish_inv (all : List (Item V)) (pc : Nat) (a b : Option Id) (st st' : State V)
    (g : Nat → Option Id → State V → Result (State V))
    (hg : ∀ k c s, Inv all s → g k c s = .ended st' → Inv all st') (hi : Inv all st)
    (hf : finish all pc a b st g = .ended st') : Inv all st' := by
  unfold finish at hf
  cases hl : leave pc st.hole with
  | none => simp [hl] at hf
  | some p =>
    obtain ⟨k, z⟩ := p
    rw [hl] at hf
    cases z <;> refine hg _ _ _ ?_ hf <;> exact hi

theorem exec_inv (conv : V → V → V) (all : List (Item V)) : ∀ (f pc : Nat) (cp : Option Id) (st st' : State V),
    Inv all st → exec conv all f pc cp st = .ended st' → Inv all st'
  | 0, _, _, _, _, _, h => by simp [exec] at h
  | f + 1, pc, cp, st, st', hv, h => by
    have ih := fun pc cp st => exec_inv conv all f pc cp st st'
    rw [exec] at h
    cases hi : all[pc]? with
    | none => rw [hi] at h; simp only [Result.ended.injEq] at h; exact h ▸ hv
    | some it =>
      have hk := known all pc it hi st.cases hv.1
      rw [hi] at h
      cases it with
      | code n => refine ih _ _ _ ?_ h; exact hv
      | setup n =>
        simp only at h
        split at h
        · refine ih _ _ _ ?_ h; exact hv
        · refine ih _ _ _ ?_ h; exact hv
      | cleanup n =>
        refine ih _ _ _ ?_ h
        refine ⟨hv.1, fun h => by simp at h, fun hn => ?_⟩
        have := hn _ (List.mem_of_getElem? hi)
        simp [Item.isCleanup] at this
      | one =>
        have hk' : register st.cases ⟨pc, 0, 0⟩ = st.cases := by simpa [declares, regAll] using hk
        simp only [hk'] at h
        split at h
        · refine finish_inv _ _ _ _ _ _ _ ih ?_ h; exact hv
        · refine ih _ _ _ ?_ h; exact hv
      | cases xs =>
        simp only [reg_cases, hk] at h
        cases cp with
        | none => refine ih _ _ _ ?_ h; exact hv
        | some c =>
          cases ha : assigned conv pc (some c) xs with
          | none => rw [ha] at h; refine ih _ _ _ ?_ h; exact hv
          | some v => rw [ha] at h; exact finish_inv _ _ _ _ _ _ _ ih (by exact hv) h
      | casess xs ys =>
        simp only [reg_casess, hk] at h
        cases cp with
        | none => refine ih _ _ _ ?_ h; exact hv
        | some c =>
          cases ha : assigned2 conv pc (some c) xs ys with
          | none => rw [ha] at h; refine ih _ _ _ ?_ h; exact hv
          | some v => rw [ha] at h; exact finish_inv _ _ _ _ _ _ _ ih (by exact hv) h

theorem call_inv (conv : V → V → V) (all : List (Item V)) (f : Nat) (cp : Option Id) (st st' : State V)
    (hv : Inv all st) (h : call conv all f cp st = .ended st') : Inv all st' := by
  unfold call at h
  cases he : exec conv all f 0 cp st with
  | running s => simp [he] at h
  | undefined => simp [he] at h
  | ended s =>
    rw [he] at h
    simp only [Result.ended.injEq] at h
    have := exec_inv conv all f 0 cp st s hv he
    subst h
    refine ⟨this.1, ?_⟩
    rw [← this.2]
    cases s.hole <;> simp [Hole.returned]

/-- The end of the list of items. -/
theorem exec_end (conv : V → V → V) (all : List (Item V)) (f : Nat) (cp : Option Id) (st : State V) :
    exec conv all (f + 1) all.length cp st = .ended st := by
  rw [exec]; simp

theorem holeAfter_none : ∀ (l : List (Item V)) (k : Nat) (h : Hole), (∀ it ∈ l, it.isCleanup = false) → holeAfter k l h = h
  | [], _, _, _ => rfl
  | it :: r, k, h, hn => by
    have := holeAfter_none r (k + 1) h (fun i hi => hn i (by simp [hi]))
    have h1 := hn it (by simp)
    cases it <;> first | exact this | simp [Item.isCleanup] at h1

theorem holeAfter_some : ∀ (l : List (Item V)) (k : Nat) (h : Hole), (∃ it ∈ l, it.isCleanup = true) → holeAfter k l h ≠ .unset
  | [], _, _, hn => by simp at hn
  | it :: r, k, h, hn => by
    by_cases hr : ∃ i ∈ r, i.isCleanup = true
    · cases it <;> exact holeAfter_some r (k + 1) _ hr
    · have hr' : ∀ i ∈ r, i.isCleanup = false := by
        intro i hi
        cases hb : i.isCleanup with
        | false => rfl
        | true => exact absurd ⟨i, hi, hb⟩ hr
      cases it with
      | cleanup n => rw [holeAfter, holeAfter_none r _ _ hr']; simp
      | _ =>
        obtain ⟨i, hi, hb⟩ := hn
        rcases List.mem_cons.mp hi with rfl | hi
        · simp [Item.isCleanup] at hb
        · exact absurd ⟨i, hi, hb⟩ hr

end H2.SuiteFn
