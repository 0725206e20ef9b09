import Verif.Json.MarkLemmas
/-
C82: in the comparison of two JSON trees what does not match is coloured, and what matches is not.
-/
namespace H2.Json.Dual
open H2.Json

/-! ### What matches is not coloured -/

/-- None of the colours is in a line. -/
def Clean (C : List Str) (L : Line) : Prop := ∀ c ∈ C, inColour c ∉ L

theorem clean_append {C : List Str} {L M : Line} (h : Clean C L) (h' : Clean C M) : Clean C (L ++ M) := by
  intro c hc hm
  rcases List.mem_append.1 hm with hm | hm
  · exact h c hc hm
  · exact h' c hc hm

theorem clean_nil (C : List Str) : Clean C [] := by intro c _ h; simp at h

theorem clean_word {C : List Str} {w : Str} (h : isctrl w = false) : Clean C [w] := by
  intro c _ hm
  rw [List.mem_singleton] at hm
  subst hm
  simp [isctrl, inColour] at h

theorem clean_folds {C : List Str} {ls : Lines} (h : ∀ L ∈ ls, Clean C L) : Clean C (folds ls) := by
  intro c hc hm
  unfold folds at hm
  obtain ⟨L, hL, hw⟩ := List.mem_flatten.1 (List.mem_filter.1 hm).1
  exact h L hL c hc hw

theorem clean_indent {C : List Str} (n : Nat) : Clean C (indent n) := by
  unfold indent
  split
  · exact clean_nil C
  · refine clean_word ?_
    match n with
    | 0 => rfl
    | 1 => rfl
    | n + 2 => simp [isctrl, List.replicate]

theorem clean_color {C : List Str} {w c : Str} (hw : seen w = true) (hc : c ∉ C) (hr : "reset".toList ∉ C) : Clean C (color w c) := by
  have hi : isctrl w = false := by simp [seen] at hw; exact hw.2
  have inj : ∀ a b, inColour a = inColour b → a = b := by
    intro a b h; simpa [inColour] using h
  intro d hd hm
  unfold color at hm
  simp only [List.mem_cons, List.not_mem_nil, or_false] at hm
  rcases hm with h | h | h
  · have : d = c := inj d c (h.trans rfl)
    exact hc (this ▸ hd)
  · rw [← h] at hi; simp [isctrl, inColour] at hi
  · have : d = "reset".toList := inj d _ (h.trans (by rfl))
    exact hr (this ▸ hd)

theorem clean_head {C : List Str} {depth : Nat} {t : Kind} {key value style : Str} {ke vm : Bool} (h0 : [] ∉ C) (hr : "reset".toList ∉ C)
    (hk : key ≠ [] → seen key = true) (hv : value ≠ [] → seen value = true) (h : t = .absent ∨ style ∉ C ∨ (ke = true ∧ vm = true)) :
    Clean C (headLine depth t key value style ke vm) := by
  unfold headLine
  have hst : ∀ b : Bool, t ≠ .absent → (b = ke ∨ b = vm) → (if b then [] else style) ∉ C := by
    intro b ht hb
    rcases h with h | h | ⟨h1, h2⟩
    · exact absurd h ht
    · split
      · exact h0
      · exact h
    · have : b = true := by rcases hb with h | h <;> rw [h] <;> assumption
      rw [if_pos this]; exact h0
  refine clean_append (clean_append (clean_append (clean_indent _) ?_) ?_) ?_
  · split
    · rename_i hh
      exact clean_append (clean_color (hk hh.2) (hst ke hh.1 (.inl rfl)) hr) (clean_word (by decide))
    · exact clean_nil C
  · split
    · rename_i hh
      exact clean_color (hv hh.2) (hst vm hh.1 (.inr rfl)) hr
    · exact clean_nil C
  · split
    · refine clean_word ?_
      split <;> rfl
    · exact clean_nil C

theorem clean_tail {C : List Str} (t : Kind) (last : Bool) : Clean C (tailLine t last) := by
  unfold tailLine
  refine clean_append ?_ ?_
  · split
    · refine clean_word ?_
      split <;> rfl
    · exact clean_nil C
  · split
    · exact clean_word (by decide)
    · exact clean_nil C

theorem clean_dots {C : List Str} (h1 : "+dark gray".toList ∉ C) (h2 : "-dark gray".toList ∉ C) : Clean C dots := by
  have inj : ∀ a b, inColour a = inColour b → a = b := by
    intro a b h; simpa [inColour] using h
  intro d hd hm
  unfold dots at hm
  simp only [List.mem_cons, List.not_mem_nil, or_false] at hm
  rcases hm with h | h | h
  · exact h1 ((inj d _ (h.trans (by rfl)) : d = "+dark gray".toList) ▸ hd)
  · have : isctrl (inColour d) = true := by simp [isctrl, inColour]
    rw [h] at this
    exact absurd this (by decide)
  · exact h2 ((inj d _ (h.trans (by rfl)) : d = "-dark gray".toList) ▸ hd)

/-- A set of colours without the ones that are used for other things. -/
def Proper (C : List Str) : Prop := [] ∉ C ∧ "reset".toList ∉ C ∧ "+dark gray".toList ∉ C ∧ "-dark gray".toList ∉ C

theorem samesizify_clean {C : List Str} (s : Bool) {a b : Lines} (h : ∀ L ∈ pick s (a, b), Clean C L) : ∀ L ∈ pick s (samesizify a b), Clean C L := by
  intro L hL
  cases s
  · simp only [pick, Bool.false_eq_true, if_false, samesizify, List.mem_append, List.mem_replicate] at h hL
    rcases hL with hL | ⟨-, rfl⟩
    · exact h L hL
    · exact clean_nil C
  · simp only [pick, if_true, samesizify, List.mem_append, List.mem_replicate] at h hL
    rcases hL with hL | ⟨-, rfl⟩
    · exact h L hL
    · exact clean_nil C

theorem unfolded_clean {C : List Str} {depth : Nat} {t : Kind} {line tail : Line} {c : Lines} (h1 : Clean C line) (h2 : Clean C tail)
    (h3 : ∀ L ∈ c, Clean C L) : ∀ L ∈ unfolded depth t line tail c, Clean C L := by
  intro L hL
  unfold unfolded at hL
  split at hL
  · simp only [List.mem_append, List.mem_singleton] at hL
    rcases hL with (rfl | hL) | rfl
    · exact h1
    · exact h3 L hL
    · exact clean_append (clean_indent _) h2
  · rw [List.mem_singleton] at hL
    subst hL
    exact clean_append h1 h2

theorem alignAll_clean {C : List Str} {fold : Int} (s : Bool) {l : List Dual} (h : ∀ d ∈ l, ∀ L ∈ pick s (align fold d), Clean C L) :
    ∀ L ∈ pick s (alignAll fold l), Clean C L := by
  induction l with
  | nil => intro L hL; cases s <;> simp [alignAll, pick] at hL
  | cons d l ih =>
    have ih := ih fun d' hd => h d' (by simp [hd])
    have h := h d (by simp)
    intro L hL
    cases s
    · simp only [alignAll, pick, Bool.false_eq_true, if_false, List.mem_append] at hL h ih
      rcases hL with hL | hL
      · exact h L hL
      · exact ih L hL
    · simp only [alignAll, pick, if_true, List.mem_append] at hL h ih
      rcases hL with hL | hL
      · exact h L hL
      · exact ih L hL

theorem align_clean {C : List Str} (hC : Proper C) (fold : Int) (s : Bool) (d : Dual) (hh : Clean C (headOf s d))
    (hc : ∀ c ∈ d.children, ∀ L ∈ pick s (align fold c), Clean C L) : ∀ L ∈ pick s (align fold d), Clean C L := by
  obtain ⟨depth, r, i, ke, vm, el, al, et, at', ek, ak, ev, av, c⟩ := d
  have hE : (if at' = Kind.absent ∨ r < 0 then "light blue".toList else "green".toList) = eStyle r at' := rfl
  have hA : (if et = Kind.absent ∨ r < 0 then "light purple".toList else "red,bold".toList) = aStyle r et := rfl
  have hch := alignAll_clean (fold := fold) s (l := c) hc
  have hd := clean_dots hC.2.2.1 hC.2.2.2
  simp only [align, hE, hA]
  cases s
  · simp only [headOf, Bool.false_eq_true, if_false] at hh
    simp only [pick, Bool.false_eq_true, if_false] at hch
    split
    · refine samesizify_clean false fun L hL => ?_
      have hL := List.mem_singleton.1 hL
      subst hL
      refine clean_append (clean_append hh ?_) (clean_tail _ _)
      split
      · exact clean_folds hch
      · exact hd
    · split
      · refine samesizify_clean false fun L hL => ?_
        have hL := List.mem_singleton.1 hL
        subst hL
        exact clean_append (clean_append hh (clean_folds hch)) (clean_tail _ _)
      · exact samesizify_clean false (unfolded_clean hh (clean_tail _ _) hch)
  · simp only [headOf, if_true] at hh
    simp only [pick, if_true] at hch
    split
    · refine samesizify_clean true fun L hL => ?_
      have hL := List.mem_singleton.1 hL
      subst hL
      refine clean_append (clean_append hh ?_) (clean_tail _ _)
      split
      · exact clean_folds hch
      · exact hd
    · split
      · refine samesizify_clean true fun L hL => ?_
        have hL := List.mem_singleton.1 hL
        subst hL
        exact clean_append (clean_append hh (clean_folds hch)) (clean_tail _ _)
      · exact samesizify_clean true (unfolded_clean hh (clean_tail _ _) hch)

theorem mem_markLast {d : Dual} {l : List Dual} (h : d ∈ markLast l) : ∃ c ∈ l, ∃ el al, d = c.setLast el al := by
  induction l with
  | nil => simp [markLast] at h
  | cons c l ih =>
    rw [markLast] at h
    rcases List.mem_cons.1 h with rfl | h
    · exact ⟨c, by simp, _, _, rfl⟩
    · obtain ⟨c', hc', h⟩ := ih h
      exact ⟨c', by simp [hc'], h⟩

/-- A pair nothing of which is to be coloured: nothing is expected, or the keys and the values match. -/
def Good (x : Ctx) (e a : Option Kid) : Prop :=
  e = none ∨ (H2.Str.equals (keyOf e) (keyOf a) x.caseless = true ∧ matchOf x e a = true ∧
    (∀ k ∈ e, Distinct x.caseless k.value) ∧ ∀ k ∈ a, Distinct x.caseless k.value)

theorem zip_at {r : Int} : ∀ {es as : List Kid} {p : Pair}, p ∈ zip r es as → ∃ i : Nat, p = ⟨es[i]?, as[i]?, r⟩
  | [], as, p, h => by
    simp only [zip, List.mem_map] at h
    obtain ⟨a, ha, rfl⟩ := h
    obtain ⟨i, hi, rfl⟩ := List.getElem_of_mem ha
    exact ⟨i, by simp [hi]⟩
  | e :: es, [], p, h => by
    simp only [zip, List.mem_map] at h
    obtain ⟨a, ha, rfl⟩ := h
    obtain ⟨i, hi, rfl⟩ := List.getElem_of_mem ha
    exact ⟨i, by simp [hi]⟩
  | e :: es, a :: as, p, h => by
    simp only [zip] at h
    rcases List.mem_cons.1 h with rfl | h
    · exact ⟨0, rfl⟩
    · obtain ⟨i, rfl⟩ := zip_at h
      exact ⟨i + 1, by simp⟩

theorem pass_same (x : Ctx) : ∀ (es as : List Kid), ∀ c ∈ (pass (byKey x) es as).1, SameText x.caseless c.2.key c.1.key
  | [], as, c, h => by simp [pass] at h
  | e :: es, as, c, h => by
    simp only [pass] at h
    split at h
    · rename_i k as' hf
      obtain ⟨i, hi, hk⟩ := Option.bind_eq_some_iff.1 hf
      obtain ⟨k', hk', e'⟩ := Option.map_eq_some_iff.1 hk
      simp at e'; obtain ⟨rfl, rfl⟩ := e'
      rcases List.mem_cons.1 h with rfl | h
      · obtain ⟨k2, hk2, hs2⟩ := byKey_some hi
        rw [hk'] at hk2; cases hk2
        exact hs2
      · exact pass_same x es _ c h
    · exact pass_same x es as c h

theorem format_same {b : Bool} {k k' : Str} (h : SameText b k' k) : SameText b (formatKey k) (formatKey k') := by
  have hnil : k = [] ↔ k' = [] := by
    rcases h with rfl | ⟨-, h⟩
    · exact .rfl
    · constructor
      · rintro rfl; simpa using h
      · rintro rfl; simpa using h.symm
  unfold formatKey
  by_cases hk : k = []
  · rw [if_pos hk, if_pos (hnil.1 hk)]; exact sameText_refl _ _
  · rw [if_neg hk, if_neg fun h => hk (hnil.2 h)]
    rcases h with rfl | ⟨hb, h⟩
    · exact sameText_refl _ _
    · exact .inr ⟨hb, by simp [h]⟩

theorem good_step (x : Ctx) {e a : Option Kid} (h : Good x e a) {p : Pair} (hp : p ∈ pairs x e a) : Good x p.e p.a := by
  obtain ⟨g1, g2, -⟩ := pairs_mem hp
  rcases h with rfl | ⟨hk, hm, hde, hda⟩
  · left
    cases hq : p.e with
    | none => rfl
    | some k => have := g1 k hq; simp [kidsOf] at this
  · cases e with
    | none => simp [matchOf] at hm
    | some ke =>
    cases a with
    | none => simp [matchOf] at hm
    | some ka =>
    have hde := hde ke rfl
    have hda := hda ka rfl
    obtain ⟨i, k, v⟩ := ke
    obtain ⟨i', k', w⟩ := ka
    simp only [matchOf] at hm hde hda
    have hsub : (∀ c ∈ p.e, Distinct x.caseless c.value) ∧ ∀ c ∈ p.a, Distinct x.caseless c.value :=
      ⟨fun c hc => distinct_kid (c := ⟨i, k, v⟩) hde (g1 c hc), fun c hc => distinct_kid (c := ⟨i', k', w⟩) hda (g2 c hc)⟩
    cases v with
    | arr l =>
      cases w with
      | arr l' =>
        simp only [matches?, Bool.and_eq_true, beq_iff_eq, matchArray_iff] at hm
        obtain ⟨hlen, hall⟩ := hm
        have hpairs : pairs x (some ⟨i, k, .arr l⟩) (some ⟨i', k', .arr l'⟩) =
            zip 0 (number 0 (l.map fun v => ([], v))) (number 0 (l'.map fun v => ([], v))) := by
          simp [pairs, kindOf, kind, kidsOf, kids]
        rw [hpairs] at hp
        obtain ⟨n, rfl⟩ := zip_at hp
        have e1 := number_get (l.map fun v => (([] : Str), v)) 0 n
        have e2 := number_get (l'.map fun v => (([] : Str), v)) 0 n
        revert hsub
        show ((∀ c ∈ (number 0 (l.map fun v => ([], v)))[n]?, Distinct x.caseless c.value) ∧ ∀ c ∈ (number 0 (l'.map fun v => ([], v)))[n]?, Distinct x.caseless c.value) →
          Good x (number 0 (l.map fun v => ([], v)))[n]? (number 0 (l'.map fun v => ([], v)))[n]?
        generalize (number 0 (l.map fun v => ([], v)))[n]? = o1 at e1
        generalize (number 0 (l'.map fun v => ([], v)))[n]? = o2 at e2
        intro hsub
        cases o1 with
        | none => exact .inl rfl
        | some c1 =>
          simp only [List.getElem?_map, Option.map_some] at e1 e2
          obtain ⟨v, hv, hv'⟩ := Option.map_eq_some_iff.1 e1.symm
          simp only [Prod.mk.injEq] at hv'
          obtain ⟨hn, hvn⟩ := List.getElem?_eq_some_iff.1 hv
          obtain ⟨w, hw, hvw⟩ := hall n hn
          simp only [Nat.zero_add] at hw
          rw [hw] at e2
          cases o2 with
          | none => simp at e2
          | some c2 =>
            simp only [Option.map_some, Option.some.injEq, Prod.mk.injEq] at e2
            refine .inr ⟨?_, ?_, hsub.1, hsub.2⟩
            · simp only [keyOf, ← hv'.1, e2.1, equals_iff]; exact sameText_refl _ _
            · simp only [matchOf, ← hv'.2, e2.2]
              rw [← hvn]; exact hvw
      | _ => simp [matches?] at hm
    | obj l =>
      cases w with
      | obj l' =>
        simp only [matches?, Bool.and_eq_true, matchObject_iff, Bool.not_eq_true', decide_eq_false_iff_not, Nat.not_lt, gt_iff_lt] at hm
        obtain ⟨hlen, hall⟩ := hm
        cases hde with
        | obj _ hpl _ =>
        cases hda with
        | obj _ hpl' _ =>
        have hq := number_pairwise x.caseless l 0 hpl
        have hq' := number_pairwise x.caseless l' 0 hpl'
        -- every expected member has a partner that matches
        have hpart : ∀ c ∈ number 0 l, ∃ d ∈ number 0 l', SameText x.caseless d.key c.key ∧ matches? x.env x.caseless c.value d.value = true := by
          intro c hc
          obtain ⟨y, hy, hcy⟩ := hall _ (mem_number.1 c hc)
          obtain ⟨j, hj, hs, -⟩ := (getKey_iff _ _ _ _).1 hy
          obtain ⟨d, hd, hdj⟩ := (mem_number (i := 0)).2 l'[j] (List.getElem_mem _)
          refine ⟨d, hd, ?_, ?_⟩
          · have : d.key = l'[j].1 := by rw [← hdj]
            rw [this]; exact hs
          · have : d.value = y := by rw [← hj, ← hdj]
            rw [this]; exact hcy
        have hnil : (pass (byKey x) (number 0 l) (number 0 l')).2.1 = [] := by
          obtain ⟨hleft, -⟩ := pass_left x (number 0 l) (number 0 l') hq hq'
          refine List.eq_nil_iff_forall_not_mem.2 fun c hc => ?_
          obtain ⟨hc1, hc2⟩ := (hleft c).1 hc
          obtain ⟨d, hd, hs, -⟩ := hpart c hc1
          exact hc2 d hd hs
        have hpairs : pairs x (some ⟨i, k, .obj l⟩) (some ⟨i', k', .obj l'⟩) =
            ((pass (byKey x) (number 0 l) (number 0 l')).1.map fun c => ⟨some c.1, some c.2, 0⟩) ++
              zip (-1) [] (pass (byKey x) (number 0 l) (number 0 l')).2.2 := by
          simp [pairs, kindOf, kind, kidsOf, kids, hnil, pass]
        rw [hpairs] at hp
        rcases List.mem_append.1 hp with hp | hp
        · obtain ⟨c, hc, rfl⟩ := List.mem_map.1 hp
          refine .inr ⟨?_, ?_, hsub.1, hsub.2⟩
          · rw [equals_iff]; exact format_same (pass_same x _ _ c hc)
          · obtain ⟨m1, m2⟩ := (pass_mem (find := byKey x) (number 0 l) (number 0 l')).1 c hc
            obtain ⟨d, hd, hs, hcd⟩ := hpart c.1 m1
            have : d = c.2 := same_kid hq' hd m2 (sameText_trans hs (sameText_symm (pass_same x _ _ c hc)))
            rw [this] at hcd
            exact hcd
        · simp only [zip, List.mem_map] at hp
          obtain ⟨b, -, rfl⟩ := hp
          exact .inl rfl
      | _ => simp [matches?] at hm
    | _ => cases w <;> simp_all [matches?, pairs, kindOf, kind]

theorem good_clean (x : Ctx) (hx : Prints x) (fold : Int) : ∀ (n : Nat) (e a : Option Kid), measure e + measure a < n → ∀ (depth : Nat) (r : Int),
    Good x e a → ∀ el al, (∀ L ∈ (align fold ((dual x e a depth r).setLast el al)).1, Clean leftColours L) ∧
      ∀ L ∈ (align fold ((dual x e a depth r).setLast el al)).2, Clean [differs] L := by
  intro n
  induction n with
  | zero => intro e a h; omega
  | succ n ih =>
    intro e a hn depth r hg el al
    have hch : ∀ c ∈ ((dual x e a depth r).setLast el al).children,
        (∀ L ∈ (align fold c).1, Clean leftColours L) ∧ ∀ L ∈ (align fold c).2, Clean [differs] L := by
      intro c hc
      rw [dual_eq] at hc
      simp only [Dual.setLast, Dual.children] at hc
      obtain ⟨c', hc', el', al', rfl⟩ := mem_markLast hc
      obtain ⟨p, hp, rfl⟩ := List.mem_map.1 hc'
      have hp := (ordered_perm x e a).mem_iff.1 hp
      have := pairs_lt hp
      exact ih p.e p.a (by omega) _ _ (good_step x hg hp) el' al'
    have hp1 : Proper leftColours := by unfold Proper; decide
    have hp2 : Proper [differs] := by unfold Proper; decide
    constructor
    · refine align_clean hp1 fold true _ ?_ fun c hc => (hch c hc).1
      rw [dual_eq]
      refine clean_head hp1.1 hp1.2.1 seen_key (seen_value hx) ?_
      rcases hg with rfl | ⟨h1, h2, -⟩
      · exact .inl rfl
      · exact .inr (.inr ⟨h1, h2⟩)
    · refine align_clean hp2 fold false _ ?_ fun c hc => (hch c hc).2
      rw [dual_eq]
      show Clean [differs] (headLine depth (kindOf a) (keyOf a) (valueOf x a) (aStyle r (kindOf e)) (H2.Str.equals (keyOf e) (keyOf a) x.caseless) (matchOf x e a))
      refine clean_head hp2.1 hp2.2.1 seen_key (seen_value hx) ?_
      rcases hg with rfl | ⟨h1, h2, -⟩
      · right; left
        have : aStyle r (kindOf none) = unexpected := if_pos (.inl rfl)
        rw [this]; decide
      · exact .inr (.inr ⟨h1, h2⟩)

/-! ### The property -/

theorem setLast_root (x : Ctx) (e a : Option Kid) (depth : Nat) (r : Int) : (dual x e a depth r).setLast true true = dual x e a depth r := by
  rw [dual_eq]; rfl

/-- C82.  What matches is not coloured.  If the actual tree matches the expected one, and no key is twice in an object, then nothing on
the left has the colour of a difference, and nothing on the right the colour of a value that differs: whatever is folded.  (Additional
members, which do not prevent a match, are in the colour of the unexpected.) -/
theorem C82_match (x : Ctx) (hx : Numbers x.print) (fold : Int) (e a : Json) (h : Match x.env x.caseless e a)
    (he : Distinct x.caseless e) (ha : Distinct x.caseless a) :
    Plain leftColours (diff x fold e a).1 ∧ Plain [differs] (diff x fold e a).2 := by
  have := good_clean x (numbers_prints hx) fold _ (some ⟨0, [], e⟩) (some ⟨0, [], a⟩) (Nat.lt_succ_self _) 0 0
    (.inr ⟨(equals_iff _ _ _).2 (sameText_refl _ _), (C11_match _ _ _ _).2 h, by intro k hk; cases hk; exact he, by intro k hk; cases hk; exact ha⟩)
    true true
  rw [setLast_root] at this
  exact this

/-- C82.  What does not match is seen: some word is written in colour, on the left or on the right, whatever is folded, if no key is
twice in an object, and nothing in the trees is empty or missing. -/
theorem C82_mismatch (x : Ctx) (hx : Numbers x.print) (fold : Int) (e a : Json) (h : ¬ Match x.env x.caseless e a)
    (he : Distinct x.caseless e) (ha : Distinct x.caseless a) (hse : Solid e) (hsa : Solid a) :
    Marked leftColours (diff x fold e a).1 ∨ Marked rightColours (diff x fold e a).2 := by
  obtain ⟨s, -, hs⟩ := mismatch_shows x (numbers_prints hx) fold _ (some ⟨0, [], e⟩) (some ⟨0, [], a⟩) (Nat.lt_succ_self _) 0 (.inl (by simp))
    (by intro k hk; cases hk; exact ⟨hse, he⟩) (by intro k hk; cases hk; exact ⟨hsa, ha⟩)
    (by rw [← C11_match] at h; simpa [matchOf] using h)
  have := hs true true
  rw [setLast_root] at this
  cases s
  · exact .inr (marked_iff.2 this)
  · exact .inl (marked_iff.2 this)

/-- C82.  A member that is missing has its key in colour on the left: no key of the actual object agrees with its key. -/
theorem C82_missing (x : Ctx) (fold : Int) (l m : List (Str × Json)) (k : Str) (v : Json) (hk : k ≠ []) (hv : v ≠ .absent)
    (hmem : (k, v) ∈ l) (hno : ∀ q ∈ m, ¬ SameText x.caseless q.1 k) :
    Marked leftColours (diff x fold (.obj l) (.obj m)).1 := by
  obtain ⟨c, hc, hcm⟩ := (mem_number (i := 0)).2 _ hmem
  simp only [Prod.mk.injEq] at hcm
  have hnm : matchOf x (some ⟨0, [], .obj l⟩) (some ⟨0, [], .obj m⟩) = false := by
    rw [← Bool.not_eq_true]
    intro h
    simp only [matchOf, matches?, Bool.and_eq_true, matchObject_iff] at h
    obtain ⟨y, hy, -⟩ := h.2 _ hmem
    obtain ⟨j, -, hs, -⟩ := (getKey_iff _ _ _ _).1 hy
    exact hno _ (List.getElem_mem _) hs
  have := keydiff x fold true (some ⟨0, [], .obj l⟩) (some ⟨0, [], .obj m⟩) 0 c hc (by rw [hcm.1]; exact hk) (by rw [hcm.2]; exact hv)
    (by intro d hd; rw [hcm.1]; exact hno _ (mem_number.1 d hd)) hnm true true
  rw [setLast_root] at this
  exact marked_iff.2 this

/-! ### Concrete cases -/

section
private def plainCtx : Ctx := ⟨⟨.fin, fun _ _ _ => false⟩, fun _ => "1".toList, fun _ _ => 0, false⟩
private theorem plain_numbers : Numbers plainCtx.print := fun _ => ⟨by simp [plainCtx, White], by simp [plainCtx, Colour]⟩

private theorem no : ∀ a b : Str, SameText false a b → a = b := by
  rintro a b (h | ⟨h, -⟩)
  · exact h
  · cases h

/-- `{"a": [true]}` -/
private def one : Json := .obj [("a".toList, .arr [.bool true])]
/-- `{"b": null, "a": [true]}` -/
private def two : Json := .obj [("b".toList, .null), ("a".toList, .arr [.bool true])]

private theorem one_distinct : Distinct false one := .obj _ (by simp) (by simp; exact .arr _ (by simp; exact .bool _))
private theorem two_distinct : Distinct false two := .obj _ (by
    simp only [List.pairwise_cons, List.mem_singleton, forall_eq, List.not_mem_nil, false_imp_iff, implies_true, List.Pairwise.nil, and_true]
    exact fun h => absurd (no _ _ h) (by decide)) (by
    simp only [List.mem_cons, List.not_mem_nil, or_false, forall_eq_or_imp, forall_eq]
    exact ⟨.null, .arr _ (by simp; exact .bool _)⟩)
private theorem one_solid : Solid one := .obj _ (by simp) (by simp) (by simp; exact .arr _ (by simp) (by simp; exact .bool _))
private theorem two_solid : Solid two := .obj _ (by simp) (by simp) (by
    simp only [List.mem_cons, List.not_mem_nil, or_false, forall_eq_or_imp, forall_eq]
    exact ⟨.null, .arr _ (by simp) (by simp; exact .bool _)⟩)

/-- The first is matched by the second, which has more. -/
example (fold : Int) : Plain leftColours (diff plainCtx fold one two).1 ∧ Plain [differs] (diff plainCtx fold one two).2 :=
  C82_match plainCtx plain_numbers fold one two ((C11_match _ _ _ _).1 (by decide +kernel)) one_distinct two_distinct

/-- But not the second by the first, which has less. -/
example (fold : Int) : Marked leftColours (diff plainCtx fold two one).1 ∨ Marked rightColours (diff plainCtx fold two one).2 :=
  C82_mismatch plainCtx plain_numbers fold two one (by rw [← C11_match]; decide +kernel) two_distinct one_distinct two_solid one_solid

example (fold : Int) : Marked leftColours (diff plainCtx fold two one).1 :=
  C82_missing plainCtx fold _ _ "b".toList .null (by decide) (by simp) (by simp) (by
    simp only [List.mem_singleton, forall_eq]; exact fun h => absurd (no _ _ h) (by decide))
end

/-! ### What is false of the code -/

theorem plain_iff {C : List Str} {ls : Lines} : Plain C ls ↔ ∀ c ∈ C, ∀ L ∈ ls, inColour c ∉ L := by
  unfold Plain; exact ⟨fun h c hc L hL => h L hL c hc, fun h L hL c hc => h c hc L hL⟩

/-- C82 (fails).  An empty array is compared with an empty object: they do not match, and nothing is coloured.  Brackets never are. -/
theorem C82_empty_false : let x : Ctx := ⟨⟨.fin, fun _ _ _ => false⟩, fun _ => "1".toList, fun _ _ => 0, false⟩
    ¬ Match x.env x.caseless (.arr []) (.obj []) ∧
    Plain leftColours (diff x 5 (.arr []) (.obj [])).1 ∧ Plain rightColours (diff x 5 (.arr []) (.obj [])).2 := by
  intro x
  refine ⟨(by intro h; cases h), ?_⟩
  simp only [plain_iff]
  decide +kernel

/-- C82 (fails).  An object with a key that is there twice, with two values, does not match itself, and nothing is coloured. -/
theorem C82_twice_false : let x : Ctx := ⟨⟨.fin, fun _ _ _ => false⟩, fun _ => "1".toList, fun _ _ => 0, false⟩
    let e : Json := .obj [("a".toList, .null), ("a".toList, .bool true)]
    ¬ Match x.env x.caseless e e ∧ Plain leftColours (diff x 5 e e).1 ∧ Plain rightColours (diff x 5 e e).2 := by
  intro x e
  refine ⟨by rw [← C11_match]; decide +kernel, ?_⟩
  simp only [plain_iff]
  decide +kernel

/-- C82 (fails).  A member with an empty key that is missing is folded away: its values are not seen, and it has no key to be coloured. -/
theorem C82_nameless_false : let x : Ctx := ⟨⟨.fin, fun _ _ _ => false⟩, fun _ => "1".toList, fun _ _ => 0, false⟩
    let e : Json := .obj [([], .arr [.str "a long text, expected".toList]), ("b".toList, .null)]
    let a : Json := .obj [("b".toList, .null)]
    ¬ Match x.env x.caseless e a ∧ Plain leftColours (diff x 5 e a).1 ∧ Plain rightColours (diff x 5 e a).2 := by
  intro x e a
  refine ⟨by rw [← C11_match]; decide +kernel, ?_⟩
  simp only [plain_iff]
  decide +kernel

end H2.Json.Dual
