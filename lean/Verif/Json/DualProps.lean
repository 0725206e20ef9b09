import Verif.Json.DualLemmas
import Verif.Json.MatchProps
import Verif.Json.SyntaxProps
/-
C17: what the two sides of a comparison show.
-/
namespace H2.Json.Dual
open H2.Json

/-- Numbers are printed as words: not blank, no colour. -/
def Numbers (num : Dbl → Str) : Prop := ∀ d, ¬ White (num d) ∧ ¬ Colour (num d)

theorem numbers_prints {x : Ctx} (h : Numbers x.print) : Prints x := by
  intro d
  obtain ⟨h1, h2⟩ := h d
  rw [white_iff] at h1; rw [colour_iff] at h2
  simp [seen, h1, h2]

/-- C17.  Both sides have the same number of lines, for every pair of trees and every way of folding. -/
theorem C17_height (x : Ctx) (fold : Int) (e a : Json) : (diff x fold e a).1.length = (diff x fold e a).2.length :=
  align_length _ _

theorem diff_vis (x : Ctx) (hx : Prints x) (fold : Int) (s : Bool) (e a : Json) (h : Whole (pick s (e, a))) :
    Shown x.print (mayCut x fold s (pick s (a, e))) (s = true) (.value (pick s (e, a))) (vis (pick s (diff x fold e a)).flatten) := by
  have hd : (dual x (some ⟨0, [], e⟩) (some ⟨0, [], a⟩) 0 0) = (dual x (some ⟨0, [], e⟩) (some ⟨0, [], a⟩) 0 0).setLast true true := by
    rw [dual_eq]; rfl
  unfold diff
  rw [hd]
  have hp : pick s (some (⟨0, [], e⟩ : Kid), some ⟨0, [], a⟩) = some ⟨0, [], pick s (e, a)⟩ := by cases s <;> rfl
  have hq : pick s (some (⟨0, [], a⟩ : Kid), some ⟨0, [], e⟩) = some ⟨0, [], pick s (a, e)⟩ := by cases s <;> rfl
  obtain ⟨h1, h2⟩ := dual_vis x hx fold s (pick s (a, e)) _ (some ⟨0, [], e⟩) (some ⟨0, [], a⟩) (Nat.lt_succ_self _)
    (by rw [hq]; intro k hk; cases hk; exact .refl) (by rw [hp]; intro k hk; cases hk; exact h) 0 0
  have : pick s (true, true) = true := by cases s <;> rfl
  by_cases hab : pick s (e, a) = .absent
  · rw [h1 (by rw [hp, hab]; rfl), hab]
    exact .absent
  · obtain ⟨t, ht, hv⟩ := h2 _ hp hab
    rw [hv, this]
    simpa [label] using ht

/-- C17.  The left side shows the expected tree: every child once, in its order.  Dots stand for the children of an array
or object only if these take 20 characters or more and folding is on: from level 2 if it matches a part of the actual tree, from level 3 otherwise. -/
theorem C17_left (x : Ctx) (hx : Numbers x.print) (fold : Int) (e a : Json) (h : Whole e) {t : Str}
    (ht : Visible (diff x fold e a).1.flatten t) :
    Shown x.print (fun j => 3 ≤ fold ∨ 2 ≤ fold ∧ ∃ i, Within a i ∧ Match x.env x.caseless j i) True (.value e) t := by
  rw [visible_iff] at ht
  subst ht
  have := diff_vis x (numbers_prints hx) fold true e a h
  have hm : mayCut x fold true a = fun j => 3 ≤ fold ∨ 2 ≤ fold ∧ ∃ i, Within a i ∧ Match x.env x.caseless j i := by
    funext j; simp [mayCut, C11_match]
  simpa [pick, hm] using this

/-- C17.  The right side shows the actual tree: every child once, in some order. -/
theorem C17_right (x : Ctx) (hx : Numbers x.print) (fold : Int) (e a : Json) (h : Whole a) {t : Str}
    (ht : Visible (diff x fold e a).2.flatten t) :
    Shown x.print (fun j => 3 ≤ fold ∨ 2 ≤ fold ∧ ∃ i, Within e i ∧ Match x.env x.caseless i j) False (.value a) t := by
  rw [visible_iff] at ht
  subst ht
  have := diff_vis x (numbers_prints hx) fold false e a h
  have hm : mayCut x fold false e = fun j => 3 ≤ fold ∨ 2 ≤ fold ∧ ∃ i, Within e i ∧ Match x.env x.caseless i j := by
    funext j; simp [mayCut, C11_match]
  simpa [pick, hm] using this

/-- C17.  Trees that are read from texts have nothing missing inside. -/
theorem C17_whole (m : Expr.Machine) (s : Str) (j : Json) (h : tree m s = .ok j []) : Whole j := by
  have key : ∀ {p ts}, WellFormed m p ts → match p with
      | .value j => j ≠ .absent ∧ Whole j
      | .elements l => ∀ v ∈ l, v ≠ .absent ∧ Whole v
      | .members l => ∀ k v, (k, v) ∈ l → v ≠ .absent ∧ Whole v
      | _ => True := by
    intro p ts h
    have inner : ∀ {j : Json}, (∀ k v, Child j k v → v ≠ .absent ∧ Whole v) → Whole j := by
      intro j hj i k v hi hc
      have : ∀ i, Within j i → i = j ∨ ∃ k v, Child j k v ∧ Within v i := by
        intro i hi
        induction hi with
        | refl => exact .inl rfl
        | child h1 h2 ih =>
          rcases ih with rfl | ⟨k, v, h3, h4⟩
          · exact .inr ⟨_, _, h2, .refl⟩
          · exact .inr ⟨_, _, h3, .child h4 h2⟩
      rcases this i hi with rfl | ⟨k', v', h1, h2⟩
      · exact (hj _ _ hc).1
      · exact (hj _ _ h1).2 _ _ _ h2 hc
    have scalar : ∀ {j : Json}, (∀ k v, ¬ Child j k v) → Whole j := fun hj => inner fun k v hc => absurd hc (hj k v)
    induction h with
    | null => exact ⟨by simp, scalar (by intro k v h; cases h)⟩
    | true => exact ⟨by simp, scalar (by intro k v h; cases h)⟩
    | false => exact ⟨by simp, scalar (by intro k v h; cases h)⟩
    | scalar _ h => cases h <;> exact ⟨by simp, scalar (by intro k v h; cases h)⟩
    | array _ ih => exact ⟨by simp, inner (by intro k v h; cases h with | element h => exact ih v h)⟩
    | object _ ih => exact ⟨by simp, inner (by intro k v h; cases h with | member h => exact ih k v h)⟩
    | noElement => intro v h; simp at h
    | element _ _ ih => intro v h; simp at h; subst h; exact ih
    | elements _ _ _ ih1 ih2 =>
      intro v h
      rcases List.mem_cons.1 h with rfl | h
      · exact ih1
      · exact ih2 v h
    | noMember => intro k v h; simp at h
    | member _ _ _ ih =>
      intro k v h; simp at h
      obtain ⟨rfl, rfl⟩ := h
      exact ih
    | members _ _ _ _ ih1 ih2 =>
      intro k v h
      rcases List.mem_cons.1 h with h | h
      · injection h with h1 h2; subst h2; exact ih1
      · exact ih2 k v h
  rcases (C14_parse m (lex s) j).1 h with ⟨_, rfl⟩ | h
  · intro i k v hi hc
    have : ∀ i, Within .absent i → i = .absent := by
      intro i hi
      induction hi with
      | refl => rfl
      | child h1 h2 ih => rw [ih] at h2; cases h2
    rw [this i hi] at hc
    cases hc
  · exact (key h).2

/-! ### Members with one key are side by side -/

theorem byKey_some {x : Ctx} {c : Kid} {l : List Kid} {i : Nat} (h : byKey x c l = some i) :
    ∃ k, l[i]? = some k ∧ SameText x.caseless k.key c.key := by
  have key : ∀ cl, findKey c.key cl l = some i → ∃ k, l[i]? = some k ∧ SameText cl k.key c.key := by
    intro cl h
    obtain ⟨hlt, h1, -⟩ := List.findIdx?_eq_some_iff_getElem.1 h
    exact ⟨l[i], List.getElem?_eq_getElem hlt, (equals_iff _ _ _).1 h1⟩
  unfold byKey at h
  split at h
  · rename_i j hj
    cases h
    obtain ⟨k, h1, h2⟩ := key false hj
    refine ⟨k, h1, ?_⟩
    rcases h2 with h2 | ⟨h2, -⟩
    · exact .inl h2
    · exact absurd h2 (by decide)
  · split at h
    · rename_i hc
      rw [hc]; exact key true h
    · cases h

theorem byKey_found {x : Ctx} {c : Kid} {l : List Kid} {k : Kid} (hk : k ∈ l) (h : SameText x.caseless k.key c.key) : ∃ i, byKey x c l = some i := by
  have key : ∀ cl, SameText cl k.key c.key → ∃ i, findKey c.key cl l = some i := by
    intro cl h
    cases hf : findKey c.key cl l with
    | some i => exact ⟨i, rfl⟩
    | none =>
      have := List.findIdx?_eq_none_iff.1 hf k hk
      rw [(equals_iff _ _ _).2 h] at this
      exact absurd this (by decide)
  unfold byKey
  split
  · exact ⟨_, rfl⟩
  · rename_i hn
    by_cases hc : x.caseless = true
    · rw [if_pos hc]; rw [hc] at h; exact key true h
    · have hc : x.caseless = false := by simpa using hc
      rw [hc] at h
      obtain ⟨i, hi⟩ := key false h
      rw [hn] at hi; cases hi

theorem pass_byKey (x : Ctx) {ke ka : Kid} (hs : SameText x.caseless ka.key ke.key) (es : List Kid) : ∀ as, ke ∈ es → ka ∈ as →
    (∀ c ∈ es, SameText x.caseless c.key ke.key → c = ke) → (∀ c ∈ as, SameText x.caseless c.key ke.key → c = ka) →
    (ke, ka) ∈ (pass (byKey x) es as).1 := by
  induction es with
  | nil => intro as h; simp at h
  | cons c es ih =>
    intro as he ha hue hua
    by_cases hc : SameText x.caseless c.key ke.key
    · have := hue c (by simp) hc
      subst this
      obtain ⟨i, hi⟩ := byKey_found ha hs
      obtain ⟨k, hk, hks⟩ := byKey_some hi
      have := hua k (List.mem_of_getElem? hk) hks
      subst this
      simp [pass, hi, hk]
    · have he : ke ∈ es := by
        rcases List.mem_cons.1 he with rfl | h
        · exact absurd (sameText_refl _ _) hc
        · exact h
      simp only [pass]
      split
      · rename_i k as' h
        obtain ⟨i, hi, hk⟩ := Option.bind_eq_some_iff.1 h
        obtain ⟨k', hk', e⟩ := Option.map_eq_some_iff.1 hk
        simp at e; obtain ⟨rfl, rfl⟩ := e
        refine List.mem_cons_of_mem _ (ih _ he ?_ (fun c hc => hue c (by simp [hc])) fun c hc => hua c (List.mem_of_mem_eraseIdx hc))
        obtain ⟨k2, hk2, hs2⟩ := byKey_some hi
        rw [hk'] at hk2; cases hk2
        have hne : ka ≠ k' := by
          rintro rfl
          exact hc (sameText_trans (sameText_symm hs2) hs)
        rcases List.mem_cons.1 ((eraseIdx_perm hk').mem_iff.1 ha) with h | h
        · exact absurd h hne
        · exact h
      · exact ih as he ha (fun c hc => hue c (by simp [hc])) hua

theorem alignAll_rows (fold : Int) {d : Dual} {l : List Dual} (h : d ∈ l) : ∃ A B A' B', (alignAll fold l).1 = A ++ (align fold d).1 ++ B ∧
    (alignAll fold l).2 = A' ++ (align fold d).2 ++ B' ∧ A.length = A'.length := by
  induction l with
  | nil => simp at h
  | cons c l ih =>
    rcases List.mem_cons.1 h with rfl | h
    · exact ⟨[], (alignAll fold l).1, [], (alignAll fold l).2, by simp [alignAll], by simp [alignAll], rfl⟩
    · obtain ⟨A, B, A', B', h1, h2, h3⟩ := ih h
      refine ⟨(align fold c).1 ++ A, B, (align fold c).2 ++ A', B', by simp [alignAll, h1], by simp [alignAll, h2], ?_⟩
      simp [h3, align_length fold c]

theorem first_line (fold : Int) (s : Bool) (d : Dual) (hk : d.key s ≠ [] → seen (d.key s) = true)
    (hv : d.value s ≠ [] → seen (d.value s) = true) :
    ∃ L ls, pick s (align fold d) = L :: ls ∧ before (d.type s) (d.key s) (d.value s) <+: vis L := by
  obtain ⟨depth, r, i, ke, vm, el, al, et, at', ek, ak, ev, av, c⟩ := d
  simp only [Dual.key, Dual.value, Dual.type] at *
  simp only [align]
  split
  · cases s
    · simp only [pick, Bool.false_eq_true, if_false] at *
      refine ⟨_, _, rfl, ?_⟩
      rw [List.append_assoc, vis_append, vis_headLine hk hv]
      exact List.prefix_append ..
    · simp only [pick, if_true] at *
      refine ⟨_, _, rfl, ?_⟩
      rw [List.append_assoc, vis_append, vis_headLine hk hv]
      exact List.prefix_append ..
  · split
    · cases s
      · simp only [pick, Bool.false_eq_true, if_false] at *
        refine ⟨_, _, rfl, ?_⟩
        rw [List.append_assoc, vis_append, vis_headLine hk hv]
        exact List.prefix_append ..
      · simp only [pick, if_true] at *
        refine ⟨_, _, rfl, ?_⟩
        rw [List.append_assoc, vis_append, vis_headLine hk hv]
        exact List.prefix_append ..
    · cases s
      · simp only [pick, Bool.false_eq_true, if_false, unfolded] at *
        by_cases hc : container at' = true
        · rw [if_pos hc]
          refine ⟨_, _, rfl, ?_⟩
          rw [vis_headLine hk hv]
          exact List.prefix_rfl
        · rw [if_neg hc]
          refine ⟨_, _, rfl, ?_⟩
          rw [vis_append, vis_headLine hk hv]
          exact List.prefix_append ..
      · simp only [pick, if_true, unfolded] at *
        by_cases hc : container et = true
        · rw [if_pos hc]
          refine ⟨_, _, rfl, ?_⟩
          rw [vis_headLine hk hv]
          exact List.prefix_rfl
        · rw [if_neg hc]
          refine ⟨_, _, rfl, ?_⟩
          rw [vis_append, vis_headLine hk hv]
          exact List.prefix_append ..

theorem markLast_mem {d : Dual} {l : List Dual} (h : d ∈ l) : ∃ el al, d.setLast el al ∈ markLast l := by
  induction l with
  | nil => simp at h
  | cons c l ih =>
    rcases List.mem_cons.1 h with rfl | h
    · exact ⟨_, _, by simp only [markLast]; exact List.mem_cons_self⟩
    · obtain ⟨el, al, h⟩ := ih h
      exact ⟨el, al, by simp [markLast, h]⟩

theorem label_before {x : Ctx} {k : Kid} (h : k.value ≠ .absent) :
    label k.key <+: before (kindOf (some k)) (keyOf (some k)) (valueOf x (some k)) := by
  have : kind k.value ≠ .absent := by obtain ⟨i, key, v⟩ := k; cases v <;> simp_all [kind]
  simp only [kindOf, keyOf]
  rw [before_some this, List.append_assoc]
  exact List.prefix_append ..

theorem number_mem {l l₁ l₂ : List (Str × Json)} {k : Str} {v : Json} (h : l = l₁ ++ (k, v) :: l₂) :
    (⟨l₁.length, k, v⟩ : Kid) ∈ number 0 l ∧
      ∀ c ∈ number 0 l, c = ⟨l₁.length, k, v⟩ ∨ ∃ p ∈ l₁ ++ l₂, p.1 = c.key := by
  have key : ∀ (l₁ : List (Str × Json)) (i : Int), (⟨i + l₁.length, k, v⟩ : Kid) ∈ number i (l₁ ++ (k, v) :: l₂) ∧
      ∀ c ∈ number i (l₁ ++ (k, v) :: l₂), c = ⟨i + l₁.length, k, v⟩ ∨ ∃ p ∈ l₁ ++ l₂, p.1 = c.key := by
    intro l₁
    induction l₁ with
    | nil =>
      intro i
      simp only [List.nil_append, number, List.length_nil, List.mem_cons]
      refine ⟨.inl (by simp), ?_⟩
      rintro c (rfl | hc)
      · exact .inl (by simp)
      · right
        have : (c.key, c.value) ∈ l₂ := by
          rw [← number_kv l₂ (i + 1)]; exact List.mem_map.2 ⟨c, hc, rfl⟩
        exact ⟨_, this, rfl⟩
    | cons p l₁ ih =>
      intro i
      obtain ⟨k', v'⟩ := p
      obtain ⟨h1, h2⟩ := ih (i + 1)
      have e : i + 1 + (l₁.length : Int) = i + (((k', v') :: l₁).length : Int) := by simp; omega
      rw [e] at h1 h2
      simp only [List.cons_append, number, List.mem_cons]
      refine ⟨.inr h1, ?_⟩
      rintro c (rfl | hc)
      · exact .inr ⟨(k', v'), .inl rfl, rfl⟩
      · rcases h2 c hc with h | ⟨p, hp, e⟩
        · exact .inl h
        · exact .inr ⟨p, .inr hp, e⟩
  subst h
  simpa using key l₁ 0

theorem samesizify_get {a b : Lines} {i : Nat} {L R : Line} (h1 : a[i]? = some L) (h2 : b[i]? = some R) :
    (samesizify a b).1[i]? = some L ∧ (samesizify a b).2[i]? = some R := by
  obtain ⟨l1, -⟩ := List.getElem?_eq_some_iff.1 h1
  obtain ⟨l2, -⟩ := List.getElem?_eq_some_iff.1 h2
  simp only [samesizify]
  rw [List.getElem?_append_left l1, List.getElem?_append_left l2]
  exact ⟨h1, h2⟩

theorem unfolded_get {depth : Nat} {t : Kind} {line tail : Line} {c P Q ls : Lines} {L : Line} (ht : t = .object)
    (hc : c = P ++ (L :: ls) ++ Q) : (unfolded depth t line tail c)[1 + P.length]? = some L := by
  subst ht hc
  unfold unfolded
  rw [if_pos (by rfl)]
  simp only [List.append_assoc, List.cons_append, List.nil_append]
  rw [Nat.add_comm, List.getElem?_cons_succ, List.getElem?_append_right (Nat.le_refl _)]
  simp

/-- Two members that are a pair have a line on which both keys are shown. -/
theorem row_of_pair (x : Ctx) (hx : Prints x) (fold : Int) (l m : List (Str × Json)) (ke ka : Kid)
    (hmem : (⟨some ke, some ka, 0⟩ : Pair) ∈ ordered x (some ⟨0, [], .obj l⟩) (some ⟨0, [], .obj m⟩))
    (hv : ke.value ≠ .absent) (hw : ka.value ≠ .absent)
    (hf : fold < 2 ∨ ¬ Match x.env x.caseless (.obj l) (.obj m)) :
    ∃ (i : Nat) (L R : Line) (t u : Str), (diff x fold (.obj l) (.obj m)).1[i]? = some L ∧
      (diff x fold (.obj l) (.obj m)).2[i]? = some R ∧
      Visible L t ∧ Visible R u ∧ label ke.key <:+: t ∧ label ka.key <:+: u := by
  simp only [visible_iff]
  generalize hE : Json.obj l = E at hf hmem
  generalize hA : Json.obj m = A at hf hmem
  -- the lines of the two members
  obtain ⟨el, al, hin⟩ := markLast_mem (List.mem_map.2 ⟨_, hmem, rfl⟩ :
    dual x (some ke) (some ka) (0 + 1) 0 ∈
      (ordered x (some ⟨0, [], E⟩) (some ⟨0, [], A⟩)).map fun p => dual x p.e p.a (0 + 1) p.relationship)
  obtain ⟨P, Q, P', Q', hc1, hc2, hlen⟩ := alignAll_rows fold hin
  have hfirst : ∀ s, ∃ L ls, pick s (align fold ((dual x (some ke) (some ka) (0 + 1) 0).setLast el al)) = L :: ls ∧
      label (pick s (ke.key, ka.key)) <+: vis L := by
    intro s
    have := first_line fold s ((dual x (some ke) (some ka) (0 + 1) 0).setLast el al)
    rw [dual_eq] at this ⊢
    simp only [Dual.setLast, Dual.key, Dual.value, Dual.type] at this ⊢
    obtain ⟨L, ls, h1, h2⟩ := this (by
        cases s
        · exact seen_key (e := some ka)
        · exact seen_key (e := some ke)) (by
        cases s
        · exact seen_value hx (e := some ka)
        · exact seen_value hx (e := some ke))
    refine ⟨L, ls, h1, .trans ?_ h2⟩
    cases s
    · exact label_before (x := x) (k := ka) hw
    · exact label_before (x := x) (k := ke) hv
  obtain ⟨L, ls, hL, hLt⟩ := hfirst true
  obtain ⟨R, rs, hR, hRt⟩ := hfirst false
  simp only [pick, if_true, Bool.false_eq_true, if_false] at hL hLt hR hRt
  rw [hL] at hc1; rw [hR] at hc2
  have hkE : kindOf (some ⟨0, [], E⟩) = .object := by subst hE; rfl
  have hkA : kindOf (some ⟨0, [], A⟩) = .object := by subst hA; rfl
  unfold diff
  rw [dual_eq]
  simp only [align]
  generalize markLast _ = ds at hc1 hc2
  rw [if_neg]
  · split
    · refine ⟨0, _, _, _, _, (samesizify_get rfl rfl).1, (samesizify_get rfl rfl).2, rfl, rfl, ?_, ?_⟩
      · rw [vis_append, vis_append, vis_folds, hc1]
        simp only [List.flatten_append, List.flatten_cons, vis_append]
        obtain ⟨z, hz⟩ := hLt
        rw [← hz]
        simp only [List.append_assoc]
        refine List.IsInfix.trans ?_ (List.suffix_append _ _).isInfix
        refine List.IsInfix.trans ?_ (List.suffix_append _ _).isInfix
        exact (List.prefix_append _ _).isInfix
      · rw [vis_append, vis_append, vis_folds, hc2]
        simp only [List.flatten_append, List.flatten_cons, vis_append]
        obtain ⟨z, hz⟩ := hRt
        rw [← hz]
        simp only [List.append_assoc]
        refine List.IsInfix.trans ?_ (List.suffix_append _ _).isInfix
        refine List.IsInfix.trans ?_ (List.suffix_append _ _).isInfix
        exact (List.prefix_append _ _).isInfix
    · refine ⟨1 + P.length, L, R, _, _, ?_, ?_, rfl, rfl, hLt.isInfix, hRt.isInfix⟩
      · exact (samesizify_get (R := R) (unfolded_get hkE hc1) (hlen ▸ unfolded_get hkA hc2)).1
      · exact (samesizify_get (L := L) (unfolded_get hkE hc1) (hlen ▸ unfolded_get hkA hc2)).2
  · rintro (⟨h1, -, h3⟩ | ⟨-, h⟩)
    · rcases hf with h | h
      · omega
      · exact h ((C11_match _ _ _ _).1 h3)
    · omega

/-- C17.  Members with the same key stand side by side.  Let two objects be compared, and a member of the expected one and a
member of the actual one have keys that agree, and no other member of either such a key.  Then there is a line on which both
keys are shown, the one on the left and the other on the right, unless the objects match and are folded. -/
theorem C17_same_row (x : Ctx) (hx : Numbers x.print) (fold : Int) (l₁ l₂ m₁ m₂ : List (Str × Json)) (k k' : Str) (v w : Json)
    (hk : SameText x.caseless k' k) (hl : ∀ p ∈ l₁ ++ l₂, ¬ SameText x.caseless p.1 k) (hm : ∀ p ∈ m₁ ++ m₂, ¬ SameText x.caseless p.1 k)
    (hv : v ≠ .absent) (hw : w ≠ .absent)
    (hf : fold < 2 ∨ ¬ Match x.env x.caseless (.obj (l₁ ++ (k, v) :: l₂)) (.obj (m₁ ++ (k', w) :: m₂))) :
    ∃ (i : Nat) (L R : Line) (t u : Str), (diff x fold (.obj (l₁ ++ (k, v) :: l₂)) (.obj (m₁ ++ (k', w) :: m₂))).1[i]? = some L ∧
      (diff x fold (.obj (l₁ ++ (k, v) :: l₂)) (.obj (m₁ ++ (k', w) :: m₂))).2[i]? = some R ∧
      Visible L t ∧ Visible R u ∧ label k <:+: t ∧ label k' <:+: u := by
  have hx := numbers_prints hx
  obtain ⟨he1, he2⟩ := number_mem (k := k) (v := v) (l₁ := l₁) (l₂ := l₂) rfl
  obtain ⟨ha1, ha2⟩ := number_mem (k := k') (v := w) (l₁ := m₁) (l₂ := m₂) rfl
  have hmem : (⟨some ⟨l₁.length, k, v⟩, some ⟨m₁.length, k', w⟩, 0⟩ : Pair) ∈ ordered x (some ⟨0, [], Json.obj (l₁ ++ (k, v) :: l₂)⟩) (some ⟨0, [], Json.obj (m₁ ++ (k', w) :: m₂)⟩) := by
    rw [(ordered_perm _ _ _).mem_iff]
    have : ((⟨l₁.length, k, v⟩, ⟨m₁.length, k', w⟩) : Kid × Kid) ∈ (pass (byKey x) (kidsOf (some ⟨0, [], Json.obj (l₁ ++ (k, v) :: l₂)⟩)) (kidsOf (some ⟨0, [], Json.obj (m₁ ++ (k', w) :: m₂)⟩))).1 := by
      refine pass_byKey x hk _ _ he1 ha1 ?_ ?_
      · intro c hc hs
        rcases he2 c hc with h | ⟨p, hp, e⟩
        · exact h
        · rw [← e] at hs; exact absurd hs (hl p hp)
      · intro c hc hs
        rcases ha2 c hc with h | ⟨p, hp, e⟩
        · exact h
        · rw [← e] at hs; exact absurd hs (hm p hp)
    unfold pairs
    rw [if_pos (by left; rfl)]
    simp only [List.mem_append, List.mem_map]
    exact .inl (.inl ⟨_, this, rfl⟩)
  exact row_of_pair x hx fold _ _ _ _ hmem hv hw hf

/-! ### Cases -/

section
/-- A printer and scores for the examples. -/
private def ctx : Ctx := ⟨⟨.fin, fun _ _ _ => false⟩, fun _ => "7".toList, fun _ _ => 0, false⟩

private theorem ctx_numbers : Numbers ctx.print := by
  intro d
  constructor
  · rw [white_iff]; exact (by decide : ¬ blank "7".toList = true)
  · rw [colour_iff]; exact (by decide : ¬ isctrl "7".toList = true)

/-- `{"a": [true, null], "b": "x"}` -/
private def left : Json := .obj [("a".toList, .arr [.bool true, .null]), ("b".toList, .str "x".toList)]
/-- `{"b": "y", "c": null}` -/
private def right : Json := .obj [("b".toList, .str "y".toList), ("c".toList, .null)]

/-- The two trees have nothing missing inside. -/
example : Whole left ∧ Whole right := by
  constructor
  · intro i k v hi hc
    have : ∀ i, Within left i → i = left ∨ i = .arr [.bool true, .null] ∨ ∀ k v, ¬ Child i k v := by
      intro i hi
      induction hi with
      | refl => exact .inl rfl
      | child h1 h2 ih =>
        rcases ih with rfl | rfl | h
        · cases h2 with
          | member h =>
            simp [left] at h
            rcases h with ⟨_, rfl⟩ | ⟨_, rfl⟩
            · exact .inr (.inl rfl)
            · exact .inr (.inr (by intro k v h; cases h))
        · cases h2 with
          | element h =>
            simp at h
            rcases h with rfl | rfl <;> exact .inr (.inr (by intro k v h; cases h))
        · exact absurd h2 (h _ _)
    rcases this i hi with rfl | rfl | h
    · cases hc with
      | member h => simp [left] at h; rcases h with ⟨_, rfl⟩ | ⟨_, rfl⟩ <;> simp
    · cases hc with
      | element h => simp at h; rcases h with rfl | rfl <;> simp
    · exact absurd hc (h _ _)
  · intro i k v hi hc
    have : ∀ i, Within right i → i = right ∨ ∀ k v, ¬ Child i k v := by
      intro i hi
      induction hi with
      | refl => exact .inl rfl
      | child h1 h2 ih =>
        rcases ih with rfl | h
        · cases h2 with
          | member h => simp [right] at h; rcases h with ⟨_, rfl⟩ | ⟨_, rfl⟩ <;> exact .inr (by intro k v h; cases h)
        · exact absurd h2 (h _ _)
    rcases this i hi with rfl | h
    · cases hc with
      | member h => simp [right] at h; rcases h with ⟨_, rfl⟩ | ⟨_, rfl⟩ <;> simp
    · exact absurd hc (h _ _)

/-- Colours of the words are as they should be; a word that is shown. -/
example : Visible [" ".toList, "\x1b{green}".toList, "\"b\"".toList, "\x1b{reset}".toList, ": ".toList] "\"b\": ".toList :=
  visible_iff.2 (by decide)

/-- The keys `b` of the two trees meet the hypotheses of `C17_same_row`. -/
example : ∃ (i : Nat) (L R : Line) (t u : Str), (diff ctx 5 left right).1[i]? = some L ∧ (diff ctx 5 left right).2[i]? = some R ∧
    Visible L t ∧ Visible R u ∧ label "b".toList <:+: t ∧ label "b".toList <:+: u :=
  C17_same_row ctx ctx_numbers 5 [("a".toList, .arr [.bool true, .null])] [] [] [("c".toList, .null)] "b".toList "b".toList
    (.str "x".toList) (.str "y".toList) (.inl rfl) (by simp [SameText, ctx]) (by simp [SameText, ctx]) (by simp) (by simp)
    (.inr (by rw [← C11_match]; decide +kernel))
end

end H2.Json.Dual
