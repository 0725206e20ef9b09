import Verif.Json.SimProps
import Verif.Json.MarkSpec
/-
Lemmas for C82: the colours in the comparison of two JSON trees.
-/
namespace H2.Json.Dual
open H2.Json

/-! ### A coloured word stays one -/

/-- The colours of one side. -/
def side (s : Bool) : List Str := if s then leftColours else rightColours

/-- A word that is seen is written in one of the colours. -/
def Tri (C : List Str) (L : Line) : Prop := ∃ c ∈ C, ∃ w, seen w = true ∧ [inColour c, w, "\x1b{reset}".toList] <:+: L

theorem marked_iff {C : List Str} {ls : Lines} : Marked C ls ↔ ∃ L ∈ ls, Tri C L := by
  have hs : ∀ w, seen w = true ↔ ¬ White w ∧ ¬ Colour w := by
    intro w; rw [white_iff, colour_iff]; simp [seen]
  simp only [Marked, Tri, hs, and_assoc]

theorem Tri.left {C : List Str} {L M : Line} (h : Tri C L) : Tri C (L ++ M) := by
  obtain ⟨c, hc, w, hw, h⟩ := h
  exact ⟨c, hc, w, hw, h.trans (List.prefix_append ..).isInfix⟩

theorem Tri.right {C : List Str} {L M : Line} (h : Tri C M) : Tri C (L ++ M) := by
  obtain ⟨c, hc, w, hw, h⟩ := h
  exact ⟨c, hc, w, hw, h.trans (List.suffix_append ..).isInfix⟩

theorem Tri.color {C : List Str} {c w : Str} (hc : c ∈ C) (hw : seen w = true) : Tri C (color w c) :=
  ⟨c, hc, w, hw, List.infix_refl _⟩

theorem Tri.folds {C : List Str} {ls : Lines} {L : Line} (hL : L ∈ ls) (h : Tri C L) : Tri C (folds ls) := by
  obtain ⟨c, hc, w, hw, p, q, h⟩ := h
  refine ⟨c, hc, w, hw, ?_⟩
  obtain ⟨A, B, rfl⟩ := List.append_of_mem hL
  have hb : blank w = false := by
    simp only [seen, Bool.and_eq_true, Bool.not_eq_true'] at hw; exact hw.1
  have h1 : blank (inColour c) = false := by simp [blank, inColour, cSpace]
  have h2 : blank "\x1b{reset}".toList = false := by decide
  unfold Dual.folds
  rw [List.flatten_append, List.flatten_cons, ← h]
  generalize "\x1b{reset}".toList = z at h2 ⊢
  refine ⟨(A.flatten ++ p).filter (fun w => !blank w), (q ++ B.flatten).filter (fun w => !blank w), ?_⟩
  simp [List.filter_append, List.filter_cons, hb, h1, h2]

theorem Tri.headKey {C : List Str} {depth : Nat} {t : Kind} {key value style : Str} {ke vm : Bool} (ht : t ≠ .absent) (hk : seen key = true)
    (hs : style ∈ C) (he : ke = false) : Tri C (headLine depth t key value style ke vm) := by
  have hne : key ≠ [] := by rintro rfl; simp [seen, blank] at hk
  unfold headLine
  rw [if_pos ⟨ht, hne⟩, he]
  exact (((Tri.color hs hk).left).right).left.left

theorem Tri.headValue {C : List Str} {depth : Nat} {t : Kind} {key value style : Str} {ke vm : Bool} (ht : t ≠ .absent) (hv : seen value = true)
    (hs : style ∈ C) (he : vm = false) : Tri C (headLine depth t key value style ke vm) := by
  have hne : value ≠ [] := by rintro rfl; simp [seen, blank] at hv
  unfold headLine
  rw [he, if_pos (⟨ht, hne⟩ : t ≠ .absent ∧ value ≠ [])]
  exact (Tri.color hs hv).right.left

/-! ### One node -/

def eStyle (r : Int) (t : Kind) : Str := if t = .absent ∨ r < 0 then "light blue".toList else "green".toList
def aStyle (r : Int) (t : Kind) : Str := if t = .absent ∨ r < 0 then "light purple".toList else "red,bold".toList

theorem eStyle_mem (r : Int) (t : Kind) : eStyle r t ∈ leftColours := by
  unfold eStyle leftColours; split <;> simp
theorem aStyle_mem (r : Int) (t : Kind) : aStyle r t ∈ rightColours := by
  unfold aStyle rightColours differs unexpected; split <;> simp

/-- The first words of a node on one side. -/
def headOf (s : Bool) : Dual → Line
  | .mk depth r _ ke vm _ _ et at' ek ak ev av _ =>
    if s then headLine depth et ek ev (eStyle r at') ke vm else headLine depth at' ak av (aStyle r et) ke vm

theorem samesizify_mem {a b : Lines} (s : Bool) {L : Line} (h : L ∈ pick s (a, b)) : L ∈ pick s (samesizify a b) := by
  cases s <;> simp [pick, samesizify] at h ⊢ <;> exact .inl h

theorem unfolded_mem (depth : Nat) (t : Kind) (line tail : Line) (c : Lines) {C : List Str} (h : Tri C line) :
    ∃ L ∈ unfolded depth t line tail c, Tri C L := by
  unfold unfolded
  split
  · exact ⟨line, by simp, h⟩
  · exact ⟨line ++ tail, by simp, h.left⟩

/-- What is coloured at the beginning of a node is coloured. -/
theorem align_head {C : List Str} (fold : Int) (s : Bool) (d : Dual) (h : Tri C (headOf s d)) : ∃ L ∈ pick s (align fold d), Tri C L := by
  obtain ⟨depth, r, i, ke, vm, el, al, et, at', ek, ak, ev, av, c⟩ := d
  have hE : (if at' = Kind.absent ∨ r < 0 then "light blue".toList else "green".toList) = eStyle r at' := rfl
  have hA : (if et = Kind.absent ∨ r < 0 then "light purple".toList else "red,bold".toList) = aStyle r et := rfl
  simp only [align, hE, hA]
  cases s
  · simp only [headOf, Bool.false_eq_true, if_false] at h
    split
    · exact ⟨_, samesizify_mem false (by simp only [pick, Bool.false_eq_true, if_false]; exact List.mem_singleton.2 rfl), h.left.left⟩
    · split
      · exact ⟨_, samesizify_mem false (by simp only [pick, Bool.false_eq_true, if_false]; exact List.mem_singleton.2 rfl), h.left.left⟩
      · obtain ⟨L, hL, hT⟩ := unfolded_mem depth at' _ (tailLine at' al) (alignAll fold c).2 h
        exact ⟨L, samesizify_mem false (by simpa only [pick, Bool.false_eq_true, if_false] using hL), hT⟩
  · simp only [headOf, if_true] at h
    split
    · exact ⟨_, samesizify_mem true (by simp only [pick, if_true]; exact List.mem_singleton.2 rfl), h.left.left⟩
    · split
      · exact ⟨_, samesizify_mem true (by simp only [pick, if_true]; exact List.mem_singleton.2 rfl), h.left.left⟩
      · obtain ⟨L, hL, hT⟩ := unfolded_mem depth et _ (tailLine et el) (alignAll fold c).1 h
        exact ⟨L, samesizify_mem true (by simpa only [pick, if_true] using hL), hT⟩

theorem alignAll_mem {fold : Int} (s : Bool) {d : Dual} {l : List Dual} (h : d ∈ l) {L : Line} (hL : L ∈ pick s (align fold d)) :
    L ∈ pick s (alignAll fold l) := by
  obtain ⟨A, B, A', B', h1, h2, -⟩ := alignAll_rows fold h
  cases s
  · simp only [pick, Bool.false_eq_true, if_false] at hL ⊢
    rw [h2]; simp [hL]
  · simp only [pick, if_true] at hL ⊢
    rw [h1]; simp [hL]

theorem unfolded_child {depth : Nat} {t : Kind} {line tail : Line} {c : Lines} {L : Line} (h : L ∈ c) (ht : container t = true) :
    L ∈ unfolded depth t line tail c := by
  unfold unfolded
  rw [if_pos ht]
  exact List.mem_append_left _ (List.mem_append_right _ h)

/-- What is coloured in a child is coloured, unless the children are folded away. -/
theorem align_child {C : List Str} (fold : Int) (s : Bool) (d c : Dual) (hr : d.relationship = 0) (hsame : d.same = false)
    (hc : c ∈ d.children) (ht : container (d.type s) = true) (h : ∃ L ∈ pick s (align fold c), Tri C L) :
    ∃ L ∈ pick s (align fold d), Tri C L := by
  obtain ⟨L, hL, hT⟩ := h
  obtain ⟨depth, r, i, ke, vm, el, al, et, at', ek, ak, ev, av, ch⟩ := d
  simp only [Dual.relationship, Dual.same, Dual.children, Dual.type] at hr hsame hc ht
  have hin := alignAll_mem s hc hL
  simp only [align]
  rw [if_neg]
  · split
    · have hf := Tri.folds hin hT
      cases s
      · simp only [pick, Bool.false_eq_true, if_false] at hf
        exact ⟨_, samesizify_mem false (by simp only [pick, Bool.false_eq_true, if_false]; exact List.mem_singleton.2 rfl), hf.right.left⟩
      · simp only [pick, if_true] at hf
        exact ⟨_, samesizify_mem true (by simp only [pick, if_true]; exact List.mem_singleton.2 rfl), hf.right.left⟩
    · refine ⟨L, samesizify_mem s ?_, hT⟩
      cases s
      · exact unfolded_child hin ht
      · exact unfolded_child hin ht
  · rintro (⟨-, h1, h2⟩ | ⟨-, h⟩)
    · simp [h1, h2] at hsame
    · omega

/-! ### What does not match is coloured -/

/-- Something is coloured in a pair, on one side. -/
def Shows (x : Ctx) (fold : Int) (s : Bool) (e a : Option Kid) (depth : Nat) (r : Int) : Prop :=
  ∀ el al, ∃ L ∈ pick s (align fold ((dual x e a depth r).setLast el al)), Tri (side s) L

theorem key_mark (x : Ctx) (fold : Int) (s : Bool) (e a : Option Kid) (depth : Nat) (r : Int) (ht : kindOf (pick s (e, a)) ≠ .absent)
    (hk : keyOf (pick s (e, a)) ≠ []) (he : H2.Str.equals (keyOf e) (keyOf a) x.caseless = false) : Shows x fold s e a depth r := by
  intro el al
  refine align_head fold s _ ?_
  rw [dual_eq]
  cases s
  · exact Tri.headKey ht (seen_key hk) (aStyle_mem _ _) he
  · exact Tri.headKey ht (seen_key hk) (eStyle_mem _ _) he

theorem value_mark (x : Ctx) (hx : Prints x) (fold : Int) (s : Bool) (e a : Option Kid) (depth : Nat) (r : Int) (ht : kindOf (pick s (e, a)) ≠ .absent)
    (hk : valueOf x (pick s (e, a)) ≠ []) (he : matchOf x e a = false) : Shows x fold s e a depth r := by
  intro el al
  refine align_head fold s _ ?_
  rw [dual_eq]
  cases s
  · exact Tri.headValue ht (seen_value hx hk) (aStyle_mem _ _) he
  · exact Tri.headValue ht (seen_value hx hk) (eStyle_mem _ _) he

theorem child_mark (x : Ctx) (fold : Int) (s : Bool) (e a : Option Kid) (depth : Nat) (p : Pair) (hp : p ∈ pairs x e a)
    (hs : sideOf s p ≠ none) (h : Shows x fold s p.e p.a (depth + 1) p.relationship) (he : matchOf x e a = false) :
    Shows x fold s e a depth 0 := by
  intro el al
  have hk : container (kindOf (pick s (e, a))) = true := by
    obtain ⟨h1, h2, -⟩ := pairs_mem hp
    have : ∃ k, k ∈ kidsOf (pick s (e, a)) := by
      cases s
      · cases hq : p.a with
        | none => exact absurd hq hs
        | some k => exact ⟨k, h2 k hq⟩
      · cases hq : p.e with
        | none => exact absurd hq hs
        | some k => exact ⟨k, h1 k hq⟩
    obtain ⟨k, hk⟩ := this
    generalize pick s (e, a) = q at hk
    by_cases h1 : kindOf q = .object
    · simp [container, h1]
    · by_cases h2 : kindOf q = .array
      · simp [container, h2]
      · rw [kidsOf_none h1 h2] at hk; simp at hk
  rw [dual_eq]
  have hin := (ordered_perm x e a).mem_iff.2 hp
  obtain ⟨el', al', hin⟩ := markLast_mem (List.mem_map.2 ⟨_, hin, rfl⟩ :
    dual x p.e p.a (depth + 1) p.relationship ∈ (ordered x e a).map fun p => dual x p.e p.a (depth + 1) p.relationship)
  refine align_child fold s _ _ rfl ?_ hin ?_ (h el' al')
  · simp [Dual.setLast, Dual.same, he]
  · cases s <;> exact hk

/-- A key no child of the other side has is coloured. -/
theorem keydiff (x : Ctx) (fold : Int) (s : Bool) (e a : Option Kid) (depth : Nat) (c : Kid) (hc : c ∈ kidsOf (pick s (e, a)))
    (hk : c.key ≠ []) (hv : c.value ≠ .absent) (hn : ∀ d ∈ kidsOf (pick (!s) (e, a)), ¬ SameText x.caseless d.key c.key)
    (he : matchOf x e a = false) : Shows x fold s e a depth 0 := by
  obtain ⟨p, hp, hps⟩ := List.mem_filterMap.1 ((pairs_perm x s e a).mem_iff.2 hc)
  obtain ⟨h1, h2, -⟩ := pairs_mem hp
  refine child_mark x fold s e a depth p hp (by simp [hps]) ?_ he
  have hkey : keyOf (some c) ≠ [] := by simp [keyOf, formatKey, hk]
  have hkind : kindOf (some c) ≠ .absent := by
    obtain ⟨i, k, v⟩ := c; cases v <;> simp_all [kindOf, kind]
  have hdiff : ∀ o : Option Kid, (∀ d ∈ o, d ∈ kidsOf (pick (!s) (e, a))) → ¬ SameText x.caseless (keyOf o) (keyOf (some c)) := by
    intro o ho hsame
    cases o with
    | none =>
      simp only [keyOf, formatKey, if_neg hk] at hsame
      rcases hsame with h | ⟨-, h⟩ <;> simp at h
    | some d =>
      refine hn d (ho d rfl) ?_
      simp only [keyOf, formatKey, if_neg hk] at hsame
      split at hsame
      · rcases hsame with h | ⟨-, h⟩ <;> simp at h
      · rcases hsame with h | ⟨hcl, h⟩
        · left
          simpa using h
        · right
          refine ⟨hcl, ?_⟩
          simpa using h
  cases s
  · simp only [sideOf, pick, Bool.false_eq_true, if_false] at hps
    refine key_mark x fold false _ _ _ _ ?_ ?_ ?_
    · simp only [pick, Bool.false_eq_true, if_false, hps]; exact hkind
    · simp only [pick, Bool.false_eq_true, if_false, hps]; exact hkey
    · rw [← Bool.not_eq_true, equals_iff, hps]; exact hdiff _ h1
  · simp only [sideOf, pick, if_true] at hps
    refine key_mark x fold true _ _ _ _ ?_ ?_ ?_
    · simp only [pick, if_true, hps]; exact hkind
    · simp only [pick, if_true, hps]; exact hkey
    · rw [← Bool.not_eq_true, equals_iff, hps]; exact fun h => hdiff _ h2 (sameText_symm h)

/-- The members of an object, numbered. -/
theorem mem_number {l : List (Str × Json)} {i : Int} : (∀ c ∈ number i l, (c.key, c.value) ∈ l) ∧ ∀ m ∈ l, ∃ c ∈ number i l, (c.key, c.value) = m := by
  constructor
  · intro c hc
    rw [← number_kv l i]; exact List.mem_map.2 ⟨c, hc, rfl⟩
  · intro m hm
    rw [← number_kv l i] at hm
    exact List.mem_map.1 hm

theorem same_kid {b : Bool} {l : List Kid} (h : l.Pairwise fun c c' => ¬ SameText b c.key c'.key) {c d : Kid} (hc : c ∈ l) (hd : d ∈ l)
    (hs : SameText b c.key d.key) : c = d := by
  induction h with
  | nil => simp at hc
  | cons h _ ih =>
    rcases List.mem_cons.1 hc with rfl | hc' <;> rcases List.mem_cons.1 hd with rfl | hd'
    · rfl
    · exact absurd hs (h d hd')
    · exact absurd (sameText_symm hs) (h c hc')
    · exact ih hc' hd'

theorem solid_kid {c k : Kid} (hs : Solid c.value) (hk : k ∈ kids c.value) : Solid k.value := by
  obtain ⟨i, key, v⟩ := c
  simp only at hs hk
  cases hs with
  | arr l _ h =>
    have := mem_number.1 k hk
    simp only [List.mem_map, Prod.mk.injEq] at this
    obtain ⟨w, hw, -, e⟩ := this
    rw [← e]; exact h w hw
  | obj l _ _ h => exact h _ (mem_number.1 k hk)
  | _ => simp [kids] at hk

theorem distinct_kid {b : Bool} {c k : Kid} (hs : Distinct b c.value) (hk : k ∈ kids c.value) : Distinct b k.value := by
  obtain ⟨i, key, v⟩ := c
  simp only at hs hk
  cases hs with
  | arr l h =>
    have := mem_number.1 k hk
    simp only [List.mem_map, Prod.mk.injEq] at this
    obtain ⟨w, hw, -, e⟩ := this
    rw [← e]; exact h w hw
  | obj l _ h => exact h _ (mem_number.1 k hk)
  | _ => simp [kids] at hk

theorem solid_present {j : Json} (h : Solid j) : j ≠ .absent := by cases h <;> simp

/-- What is needed of a node. -/
def Fine (b : Bool) (e : Option Kid) : Prop := ∀ k ∈ e, Solid k.value ∧ Distinct b k.value

theorem fine_kid {b : Bool} {e : Option Kid} (h : Fine b e) {o : Option Kid} (ho : ∀ k ∈ o, k ∈ kidsOf e) : Fine b o := by
  intro k hk
  have := ho k hk
  cases e with
  | none => simp [kidsOf] at this
  | some c => exact ⟨solid_kid (h c rfl).1 this, distinct_kid (h c rfl).2 this⟩

theorem scalar_or {x : Ctx} (hx : Prints x) {j : Json} (h : Solid j) : formatValue x.print j ≠ [] ∨ (∃ l, j = .arr l ∧ l ≠ []) ∨
    ∃ l, j = .obj l ∧ l ≠ [] ∧ (∀ m ∈ l, m.1 ≠ []) ∧ ∀ m ∈ l, Solid m.2 := by
  cases h with
  | null => exact .inl (by simp [formatValue])
  | bool b => exact .inl (by cases b <;> simp [formatValue])
  | num d =>
    left
    intro h
    have := hx d
    simp only [formatValue] at h
    rw [h] at this; simp [seen, blank] at this
  | str s => exact .inl (by simp [formatValue])
  | pat s => exact .inl (by simp [formatValue])
  | arr l h1 _ => exact .inr (.inl ⟨l, rfl, h1⟩)
  | obj l h1 h2 h3 => exact .inr (.inr ⟨l, rfl, h1, h2, h3⟩)

theorem zip_get (r : Int) : ∀ (es as : List Kid) (i : Nat), i < es.length ∨ i < as.length → (⟨es[i]?, as[i]?, r⟩ : Pair) ∈ zip r es as
  | [], as, i, h => by
    have h : i < as.length := by simpa using h
    simp only [zip, List.mem_map]
    exact ⟨as[i], List.getElem_mem _, by simp [h]⟩
  | e :: es, [], i, h => by
    have h : i < (e :: es).length := by simpa using h
    simp only [zip, List.mem_map]
    exact ⟨(e :: es)[i], List.getElem_mem _, by simp [h]⟩
  | e :: es, a :: as, 0, h => by simp [zip]
  | e :: es, a :: as, i + 1, h => by
    simp only [zip, List.getElem?_cons_succ]
    exact List.mem_cons_of_mem _ (zip_get r es as i (by simpa using h))

theorem number_get (l : List (Str × Json)) : ∀ (i : Int) (n : Nat), (number i l)[n]?.map (fun c => (c.key, c.value)) = l[n]? := by
  intro i n
  conv => rhs; rw [← number_kv l i]
  simp

theorem number_length (l : List (Str × Json)) (i : Int) : (number i l).length = l.length := by
  conv => rhs; rw [← number_kv l i]
  simp

theorem mismatch_shows (x : Ctx) (hx : Prints x) (fold : Int) : ∀ (n : Nat) (e a : Option Kid), measure e + measure a < n → ∀ depth : Nat,
    (e ≠ none ∨ a ≠ none) → Fine x.caseless e → Fine x.caseless a → matchOf x e a = false →
    ∃ s, pick s (e, a) ≠ none ∧ Shows x fold s e a depth 0 := by
  intro n
  induction n with
  | zero => intro e a h; omega
  | succ n ih =>
    intro e a hn depth hsome he ha hm
    -- a pair inside that does not match
    have step : ∀ p ∈ pairs x e a, p.relationship = 0 → matchOf x p.e p.a = false → ∃ s, pick s (e, a) ≠ none ∧ Shows x fold s e a depth 0 := by
      intro p hp hr hpm
      obtain ⟨h1, h2, h3⟩ := pairs_mem hp
      have hlt := pairs_lt hp
      obtain ⟨s, hs, hsh⟩ := ih p.e p.a (by omega) (depth + 1) h3 (fine_kid he h1) (fine_kid ha h2) hpm
      refine ⟨s, ?_, child_mark x fold s e a depth p hp hs (by rw [hr]; exact hsh) hm⟩
      intro hnone
      cases s
      · simp only [pick, Bool.false_eq_true, if_false] at hs hnone
        cases hq : p.a with
        | none => exact hs hq
        | some k => have := h2 k hq; simp [hnone, kidsOf] at this
      · simp only [pick, if_true] at hs hnone
        cases hq : p.e with
        | none => exact hs hq
        | some k => have := h1 k hq; simp [hnone, kidsOf] at this
    -- a scalar
    by_cases hsc : ∃ s, ∃ k, pick s (e, a) = some k ∧ formatValue x.print k.value ≠ []
    · obtain ⟨s, k, hk, hv⟩ := hsc
      refine ⟨s, by simp [hk], value_mark x hx fold s e a depth 0 ?_ (by rw [hk]; exact hv) hm⟩
      have hsol : Solid k.value := by
        cases s
        · exact (ha k hk).1
        · exact (he k hk).1
      rw [hk]
      obtain ⟨i, key, v⟩ := k
      cases hsol <;> simp [kindOf, kind]
    -- a key without a partner
    · have hcon : ∀ s k, pick s (e, a) = some k → (∃ l, k.value = .arr l ∧ l ≠ []) ∨
          ∃ l, k.value = .obj l ∧ l ≠ [] ∧ (∀ m ∈ l, m.1 ≠ []) ∧ ∀ m ∈ l, Solid m.2 := by
        intro s k hk
        have hsol : Solid k.value := by
          cases s
          · exact (ha k hk).1
          · exact (he k hk).1
        rcases scalar_or hx hsol with h | h
        · exact absurd ⟨s, k, hk, h⟩ hsc
        · exact h
      by_cases hkd : ∃ s, ∃ c ∈ kidsOf (pick s (e, a)), c.key ≠ [] ∧ ∀ d ∈ kidsOf (pick (!s) (e, a)), ¬ SameText x.caseless d.key c.key
      · obtain ⟨s, c, hc, hk, hd⟩ := hkd
        refine ⟨s, ?_, keydiff x fold s e a depth c hc hk ?_ hd hm⟩
        · intro hnone; simp [hnone, kidsOf] at hc
        · have : Fine x.caseless (some c) := by
            cases s
            · exact fine_kid ha (o := some c) (by intro k hk; cases hk; exact hc)
            · exact fine_kid he (o := some c) (by intro k hk; cases hk; exact hc)
          exact solid_present (this c rfl).1
      · have hall : ∀ s, ∀ c ∈ kidsOf (pick s (e, a)), c.key ≠ [] → ∃ d ∈ kidsOf (pick (!s) (e, a)), SameText x.caseless d.key c.key := by
          intro s c hc hk
          refine Classical.byContradiction fun h => hkd ⟨s, c, hc, hk, fun d hd hs => h ⟨d, hd, hs⟩⟩
        -- an object has a partner that is an object
        have hobj : ∀ s k l, pick s (e, a) = some k → k.value = .obj l → ∃ k' l', pick (!s) (e, a) = some k' ∧ k'.value = .obj l' := by
          intro s k l hk hv
          rcases hcon s k hk with ⟨l', h, -⟩ | ⟨l', h, hne, hkeys, -⟩
          · rw [hv] at h; cases h
          · obtain ⟨m, hm⟩ := List.exists_mem_of_ne_nil _ hne
            obtain ⟨c, hc, hcm⟩ := (mem_number (i := 0)).2 m hm
            have hck : c.key ≠ [] := by
              have := hkeys m hm
              rw [← hcm] at this; exact this
            obtain ⟨d, hd, hsame⟩ := hall s c (by rw [hk, kidsOf, h]; exact hc) hck
            cases hk' : pick (!s) (e, a) with
            | none => simp [hk', kidsOf] at hd
            | some k' =>
              rcases hcon (!s) k' hk' with ⟨l'', h', -⟩ | ⟨l'', h', -⟩
              · rw [hk', kidsOf, h', kids] at hd
                have := mem_number.1 d hd
                simp only [List.mem_map, Prod.mk.injEq] at this
                obtain ⟨w, -, hdk, -⟩ := this
                rw [← hdk] at hsame
                rcases hsame with h | ⟨-, h⟩
                · exact absurd h.symm hck
                · exact absurd (by simpa using h.symm) hck
              · exact ⟨k', l'', rfl, h'⟩
        cases e with
        | none =>
          cases a with
          | none => simp at hsome
          | some ka =>
            rcases hcon false ka rfl with ⟨l, h, hne⟩ | ⟨l, h, -⟩
            · refine step ⟨none, (kids ka.value)[0]?, 0⟩ ?_ rfl rfl
              have := zip_get 0 [] (kids ka.value) 0 (.inr (by rw [h, kids, number_length]; simp; exact List.length_pos_iff.2 hne))
              simpa [pairs, kindOf, kind, h, kidsOf] using this
            · obtain ⟨k', l', h', -⟩ := hobj false ka l rfl h
              simp [pick] at h'
        | some ke =>
          cases a with
          | none =>
            rcases hcon true ke rfl with ⟨l, h, hne⟩ | ⟨l, h, -⟩
            · refine step ⟨(kids ke.value)[0]?, none, 0⟩ ?_ rfl (by cases (kids ke.value)[0]? <;> rfl)
              have := zip_get 0 (kids ke.value) [] 0 (.inl (by rw [h, kids, number_length]; simp; exact List.length_pos_iff.2 hne))
              simpa [pairs, kindOf, kind, h, kidsOf] using this
            · obtain ⟨k', l', h', -⟩ := hobj true ke l rfl h
              simp [pick] at h'
          | some ka =>
            rcases hcon true ke rfl with ⟨l, h, hne⟩ | ⟨l, h, -⟩
            · rcases hcon false ka rfl with ⟨l', h', hne'⟩ | ⟨l', h', -⟩
              · -- two arrays
                have hpairs : pairs x (some ke) (some ka) = zip 0 (number 0 (l.map fun v => ([], v))) (number 0 (l'.map fun v => ([], v))) := by
                  simp [pairs, kindOf, kind, h, h', kidsOf, kids]
                rw [hpairs] at step
                have hi : ∃ i, (i < l.length ∨ i < l'.length) ∧ ∀ v w, l[i]? = some v → l'[i]? = some w → matches? x.env x.caseless v w = false := by
                  refine Classical.byContradiction fun hno => ?_
                  have hall' : ∀ i, i < l.length ∨ i < l'.length → ∃ v w, l[i]? = some v ∧ l'[i]? = some w ∧ matches? x.env x.caseless v w = true := by
                    intro i hi
                    refine Classical.byContradiction fun h2 => hno ⟨i, hi, fun v w hv hw => ?_⟩
                    rw [← Bool.not_eq_true]
                    exact fun h3 => h2 ⟨v, w, hv, hw, h3⟩
                  have hlen : l.length = l'.length := by
                    rcases Nat.lt_trichotomy l.length l'.length with h1 | h1 | h1
                    · obtain ⟨v, w, hv, -⟩ := hall' l.length (.inr h1)
                      simp at hv
                    · exact h1
                    · obtain ⟨v, w, -, hw, -⟩ := hall' l'.length (.inl h1)
                      simp at hw
                  rw [← Bool.not_eq_true] at hm
                  apply hm
                  simp only [matchOf, h, h', matches?, Bool.and_eq_true, beq_iff_eq, matchArray_iff]
                  refine ⟨hlen, fun i hi => ?_⟩
                  obtain ⟨v, w, hv, hw, hvw⟩ := hall' i (.inl hi)
                  refine ⟨w, by simpa using hw, ?_⟩
                  rw [List.getElem?_eq_getElem hi] at hv
                  cases hv; exact hvw
                obtain ⟨i, hi, hmis⟩ := hi
                refine step _ (zip_get 0 _ _ i (by simpa [number_length] using hi)) rfl ?_
                show matchOf x (number 0 (l.map fun v => ([], v)))[i]? (number 0 (l'.map fun v => ([], v)))[i]? = false
                have e1 := number_get (l.map fun v => (([] : Str), v)) 0 i
                have e2 := number_get (l'.map fun v => (([] : Str), v)) 0 i
                generalize (number 0 (l.map fun v => ([], v)))[i]? = o1 at e1
                generalize (number 0 (l'.map fun v => ([], v)))[i]? = o2 at e2
                cases o1 with
                | none => cases o2 <;> rfl
                | some c1 =>
                  cases o2 with
                  | none => rfl
                  | some c2 =>
                    simp only [List.getElem?_map, Option.map_some] at e1 e2
                    obtain ⟨v, hv, hv'⟩ := Option.map_eq_some_iff.1 e1.symm
                    obtain ⟨w, hw, hw'⟩ := Option.map_eq_some_iff.1 e2.symm
                    simp only [Prod.mk.injEq] at hv' hw'
                    simp only [matchOf, ← hv'.2, ← hw'.2]
                    exact hmis v w hv hw
              · obtain ⟨k', l'', h1, h2⟩ := hobj false ka l' rfl h'
                simp [pick] at h1
                subst h1
                rw [h] at h2; cases h2
            · -- two objects
              obtain ⟨k', l', h1, h'⟩ := hobj true ke l rfl h
              simp [pick] at h1
              subst h1
              have hdl := (he ke rfl).2
              have hdl' := (ha ka rfl).2
              rw [h] at hdl; rw [h'] at hdl'
              cases hdl with
              | obj _ hpl _ =>
              cases hdl' with
              | obj _ hpl' _ =>
              have hq := number_pairwise x.caseless l 0 hpl
              have hq' := number_pairwise x.caseless l' 0 hpl'
              have hall1 : ∀ c ∈ number 0 l, ∃ d ∈ number 0 l', SameText x.caseless d.key c.key := by
                intro c hc
                refine (hall true c (by simpa [pick, kidsOf, h, kids] using hc) ?_).imp fun d hd => by simpa [pick, kidsOf, h', kids] using hd
                rcases hcon true ke rfl with ⟨l2, h2, -⟩ | ⟨l2, h2, -, h3, -⟩
                · rw [h] at h2; cases h2
                · rw [h] at h2; cases h2
                  exact h3 _ (mem_number.1 c hc)
              have hpairs : pairs x (some ke) (some ka) = ((pass (byKey x) (number 0 l) (number 0 l')).1.map fun c => ⟨some c.1, some c.2, 0⟩) ++
                  ((pass (search x) (pass (byKey x) (number 0 l) (number 0 l')).2.1 (pass (byKey x) (number 0 l) (number 0 l')).2.2).1.map fun c => ⟨some c.1, some c.2, 0⟩) ++
                  zip (-1) (pass (search x) (pass (byKey x) (number 0 l) (number 0 l')).2.1 (pass (byKey x) (number 0 l) (number 0 l')).2.2).2.1
                    (pass (search x) (pass (byKey x) (number 0 l) (number 0 l')).2.1 (pass (byKey x) (number 0 l) (number 0 l')).2.2).2.2 := by
                simp [pairs, kindOf, kind, h, h', kidsOf, kids]
              have hlen : l.length ≤ l'.length := by
                obtain ⟨hleft, -⟩ := pass_left x (number 0 l) (number 0 l') hq hq'
                have hnil : (pass (byKey x) (number 0 l) (number 0 l')).2.1 = [] := by
                  refine List.eq_nil_iff_forall_not_mem.2 fun c hc => ?_
                  obtain ⟨hc1, hc2⟩ := (hleft c).1 hc
                  obtain ⟨d, hd, hs⟩ := hall1 c hc1
                  exact hc2 d hd hs
                obtain ⟨p1, p2⟩ := pass_perm (byKey x) (number 0 l) (number 0 l')
                have l1 := p1.length_eq
                have l2 := p2.length_eq
                rw [hnil] at l1
                simp only [number_length, List.length_append, List.length_map, List.length_nil] at l1 l2
                omega
              have hex : ∃ m ∈ l, ∀ y, getKey l' m.1 x.caseless = some y → matches? x.env x.caseless m.2 y = false := by
                refine Classical.byContradiction fun hno => ?_
                rw [← Bool.not_eq_true] at hm
                apply hm
                simp only [matchOf, h, h', matches?, Bool.and_eq_true, matchObject_iff, Bool.not_eq_true', decide_eq_false_iff_not, Nat.not_lt, gt_iff_lt]
                refine ⟨hlen, fun m hm' => ?_⟩
                refine Classical.byContradiction fun h2 => hno ⟨m, hm', fun y hy => ?_⟩
                rw [← Bool.not_eq_true]
                exact fun h3 => h2 ⟨y, hy, h3⟩
              obtain ⟨m, hml, hmis⟩ := hex
              obtain ⟨c, hc, hcm⟩ := (mem_number (i := 0)).2 m hml
              obtain ⟨d, hd, hs⟩ := hall1 c hc
              refine step ⟨some c, some d, 0⟩ ?_ rfl ?_
              · rw [hpairs]
                refine List.mem_append_left _ (List.mem_append_left _ (List.mem_map.2 ⟨(c, d), ?_, rfl⟩))
                exact pass_byKey x hs _ _ hc hd (fun c' hc' hs' => same_kid hq hc' hc hs') fun d' hd' hs' => same_kid hq' hd' hd (sameText_trans hs' (sameText_symm hs))
              · subst hcm
                show matches? x.env x.caseless c.value d.value = false
                refine hmis d.value ?_
                obtain ⟨j, hj, hjd⟩ := List.getElem_of_mem (mem_number.1 d hd)
                refine (getKey_iff _ _ _ _).2 ⟨⟨j, hj⟩, by show l'[j].2 = _; rw [hjd], by show SameText _ l'[j].1 _; rw [hjd]; exact hs, ?_⟩
                intro i hij hsi
                have := List.pairwise_iff_getElem.1 hpl' i.1 j i.2 hj hij
                rw [hjd] at this
                exact this (sameText_trans hsi (sameText_symm hs))

end H2.Json.Dual
