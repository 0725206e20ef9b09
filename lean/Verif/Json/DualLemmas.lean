import Verif.Json.Dual
import Verif.Json.DualSpec
import Verif.Runner.Lemmas
namespace H2.Json.Dual
open H2.Json

/-! ### What is visible -/

def seen (w : Str) : Bool := !blank w && !isctrl w

def vis (ws : List Str) : Str := (ws.filter seen).flatten

@[simp] theorem vis_nil : vis [] = [] := rfl

theorem vis_append (a b : List Str) : vis (a ++ b) = vis a ++ vis b := by simp [vis]

theorem vis_cons (w : Str) (ws : List Str) : vis (w :: ws) = (if seen w then w else []) ++ vis ws := by
  unfold vis
  by_cases h : seen w = true <;> simp [h]

theorem white_iff (w : Str) : White w ↔ blank w = true := by
  simp only [White, blank, List.all_eq_true]
  refine forall_congr' fun c => forall_congr' fun _ => ?_
  simp [cSpace, or_assoc]

theorem colour_iff (w : Str) : Colour w ↔ isctrl w = true := by
  unfold Colour isctrl
  match w with
  | [] => simp
  | [a] => simp
  | a :: b :: t => simp

theorem visible_iff {ws : List Str} {t : Str} : Visible ws t ↔ t = vis ws := by
  constructor
  · intro h
    induction h with
    | nil => rfl
    | skip h _ ih =>
      rw [vis_cons, ih, if_neg]
      · rfl
      · rw [colour_iff, white_iff] at h
        simp only [seen]; rcases h with h | h <;> simp [h]
    | seen h1 h2 _ ih =>
      rw [vis_cons, ih, if_pos]
      rw [colour_iff] at h1; rw [white_iff] at h2
      simp [seen, h1, h2]
  · rintro rfl
    induction ws with
    | nil => exact .nil
    | cons w ws ih =>
      rw [vis_cons]
      by_cases h : seen w = true
      · rw [if_pos h]
        simp only [seen, Bool.and_eq_true, Bool.not_eq_true'] at h
        exact .seen (by rw [colour_iff]; simp [h]) (by rw [white_iff]; simp [h]) ih
      · rw [if_neg h]
        refine .skip ?_ ih
        simp only [seen, Bool.and_eq_true, Bool.not_eq_true'] at h
        rw [colour_iff, white_iff]
        grind

theorem blank_replicate (n : Nat) : blank (List.replicate n ' ') = true := by
  simp only [blank, List.all_eq_true]
  intro c hc
  rw [(List.mem_replicate.1 hc).2]; decide

theorem vis_indent (n : Nat) : vis (indent n) = [] := by
  unfold indent
  split
  · rfl
  · rw [vis_cons]; simp [seen, blank_replicate]

theorem vis_color {w : Str} (h : seen w = true) (style : Str) : vis (color w style) = w := by
  have h1 : seen (['\x1b', '{'] ++ style ++ ['}']) = false := by simp [seen, isctrl]
  have h2 : seen "\x1b{reset}".toList = false := by decide
  unfold color
  rw [vis_cons, vis_cons, vis_cons, h1, h2, h]
  simp

theorem vis_dots : vis dots = " ... ".toList := by decide

theorem vis_folds (ls : Lines) : vis (folds ls) = vis ls.flatten := by
  unfold vis folds
  rw [List.filter_filter]
  congr 1
  refine List.filter_congr fun w _ => ?_
  simp only [seen]; grind

theorem foldable_iff (ls : Lines) : foldable ls = true ↔ (vis ls.flatten).length < 20 := by
  have key : ∀ l : Line, (l.map fun w => if !blank w && !isctrl w then w.length else 0).sum = (vis l).length := by
    intro l
    induction l with
    | nil => rfl
    | cons w l ih =>
      rw [vis_cons]
      simp only [List.map_cons, List.sum_cons, ih, List.length_append]
      by_cases hs : seen w = true
      · rw [if_pos hs, if_pos (by simpa [seen] using hs)]
      · rw [if_neg hs, if_neg (by simpa [seen] using hs)]; rfl
  have : (ls.map fun l => (l.map fun w => if !blank w && !isctrl w then w.length else 0).sum).sum = (vis ls.flatten).length := by
    induction ls with
    | nil => rfl
    | cons l ls ih => simp only [List.map_cons, List.sum_cons, ih, key l, List.flatten_cons, vis_append, List.length_append]
  unfold foldable
  rw [this, decide_eq_true_eq]

theorem vis_blank {ls : Lines} (h : vis ls.flatten = []) : foldable ls = true := by
  rw [foldable_iff, h]; decide

/-! ### Sides -/

def pick {α : Type} (s : Bool) (p : α × α) : α := if s then p.1 else p.2

def Dual.type (s : Bool) : Dual → Kind
  | .mk _ _ _ _ _ _ _ e a _ _ _ _ _ => pick s (e, a)
def Dual.key (s : Bool) : Dual → Str
  | .mk _ _ _ _ _ _ _ _ _ e a _ _ _ => pick s (e, a)
def Dual.value (s : Bool) : Dual → Str
  | .mk _ _ _ _ _ _ _ _ _ _ _ e a _ => pick s (e, a)
def Dual.last (s : Bool) : Dual → Bool
  | .mk _ _ _ _ _ e a _ _ _ _ _ _ _ => pick s (e, a)
def Dual.children : Dual → List Dual
  | .mk _ _ _ _ _ _ _ _ _ _ _ _ _ c => c
def Dual.same : Dual → Bool
  | .mk _ _ _ ke vm _ _ _ _ _ _ _ _ _ => ke && vm
def Dual.relationship : Dual → Int
  | .mk _ r _ _ _ _ _ _ _ _ _ _ _ _ => r

/-- What one node shows before and behind its children. -/
def before (t : Kind) (key value : Str) : Str :=
  (if t ≠ .absent ∧ key ≠ [] then key ++ ": ".toList else []) ++ (if t ≠ .absent ∧ value ≠ [] then value else []) ++
    (if container t then if t = .object then ['{'] else ['['] else [])

def behind (t : Kind) (last : Bool) : Str :=
  (if container t then if t = .object then ['}'] else [']'] else []) ++ (if t ≠ .absent ∧ last = false then ", ".toList else [])

theorem vis_headLine {depth : Nat} {t : Kind} {key value style : Str} {ke vm : Bool} (hk : key ≠ [] → seen key = true)
    (hv : value ≠ [] → seen value = true) : vis (headLine depth t key value style ke vm) = before t key value := by
  unfold headLine before
  rw [vis_append, vis_append, vis_append, vis_indent, List.nil_append]
  congr 1
  · congr 1
    · split
      · rename_i h
        rw [vis_append, vis_color (hk h.2)]
        congr 1
      · rfl
    · split
      · rename_i h
        rw [vis_color (hv h.2)]
      · rfl
  · split
    · split <;> decide
    · rfl

theorem vis_tailLine (t : Kind) (last : Bool) : vis (tailLine t last) = behind t last := by
  unfold tailLine behind
  rw [vis_append]
  congr 1
  · split
    · split <;> decide
    · rfl
  · split
    · decide
    · rfl

theorem vis_samesizify (s : Bool) (a b : Lines) : vis (pick s (samesizify a b)).flatten = vis (pick s (a, b)).flatten := by
  have : ∀ n, (List.replicate n ([] : Line)).flatten = [] := by
    intro n; induction n with
    | zero => rfl
    | succ n ih => simp
  cases s <;> simp [pick, samesizify, this]

theorem samesizify_length (a b : Lines) : (samesizify a b).1.length = (samesizify a b).2.length := by
  simp [samesizify]; omega

theorem vis_unfolded (depth : Nat) (t : Kind) (line tail : Line) (c : Lines) :
    vis (unfolded depth t line tail c).flatten = vis line ++ (if container t then vis c.flatten else []) ++ vis tail := by
  unfold unfolded
  split <;> simp [vis_append, vis_indent]

/-- What one side shows of a node: what comes before, the children or dots, what comes behind. -/
theorem vis_align (s : Bool) (fold : Int) (d : Dual) (hk : d.key s ≠ [] → seen (d.key s) = true)
    (hv : d.value s ≠ [] → seen (d.value s) = true)
    (hc : container (d.type s) = false → vis (pick s (alignAll fold d.children)).flatten = []) :
    ∃ m, (∀ el al, vis (pick s (align fold (d.setLast el al))).flatten =
        before (d.type s) (d.key s) (d.value s) ++ m ++ behind (d.type s) (pick s (el, al))) ∧
      (m = vis (pick s (alignAll fold d.children)).flatten ∨
        m = " ... ".toList ∧ 20 ≤ (vis (pick s (alignAll fold d.children)).flatten).length ∧ container (d.type s) = true ∧ ((2 ≤ fold ∧ d.same = true) ∨ (3 ≤ fold ∧ d.relationship < 0))) := by
  obtain ⟨depth, r, i, ke, vm, el, al, et, at', ek, ak, ev, av, c⟩ := d
  simp only [Dual.key, Dual.value, Dual.type, Dual.children, Dual.same, Dual.relationship, Dual.setLast] at *
  simp only [align]
  by_cases hcut : (2 ≤ fold ∧ ke ∧ vm) ∨ (3 ≤ fold ∧ r < 0)
  · refine ⟨if foldable (pick s (alignAll fold c)) then vis (pick s (alignAll fold c)).flatten else " ... ".toList, ?_, ?_⟩
    · intro el al
      rw [if_pos hcut, vis_samesizify]
      cases s
      · simp only [pick, Bool.false_eq_true, if_false, List.flatten_cons, List.flatten_nil, List.append_nil] at *
        rw [vis_append, vis_append, vis_headLine hk hv, vis_tailLine]
        congr 2
        split
        · exact vis_folds _
        · exact vis_dots
      · simp only [pick, if_true, List.flatten_cons, List.flatten_nil, List.append_nil] at *
        rw [vis_append, vis_append, vis_headLine hk hv, vis_tailLine]
        congr 2
        split
        · exact vis_folds _
        · exact vis_dots
    · split
      · exact .inl rfl
      · rename_i hf
        refine .inr ⟨rfl, by rw [foldable_iff] at hf; omega, ?_, ?_⟩
        · cases ht : container (pick s (et, at')) with
          | true => rfl
          | false => exact absurd (vis_blank (hc ht)) hf
        · rcases hcut with ⟨h1, h2, h3⟩ | h
          · exact .inl ⟨h1, by simp [h2, h3]⟩
          · exact .inr h
  · by_cases hfold : fold ≠ 0 ∧ foldable (alignAll fold c).1 ∧ foldable (alignAll fold c).2
    · refine ⟨_, ?_, .inl rfl⟩
      intro el al
      rw [if_neg hcut, if_pos hfold, vis_samesizify]
      cases s
      · simp only [pick, Bool.false_eq_true, if_false, List.flatten_cons, List.flatten_nil, List.append_nil] at *
        rw [vis_append, vis_append, vis_headLine hk hv, vis_tailLine, vis_folds]
      · simp only [pick, if_true, List.flatten_cons, List.flatten_nil, List.append_nil] at *
        rw [vis_append, vis_append, vis_headLine hk hv, vis_tailLine, vis_folds]
    · refine ⟨_, ?_, .inl rfl⟩
      intro el al
      rw [if_neg hcut, if_neg hfold, vis_samesizify]
      cases s
      · simp only [pick, Bool.false_eq_true, if_false] at *
        rw [vis_unfolded, vis_headLine hk hv, vis_tailLine]
        congr 2
        split
        · rfl
        · rename_i h; exact (hc (by simpa using h)).symm
      · simp only [pick, if_true] at *
        rw [vis_unfolded, vis_headLine hk hv, vis_tailLine]
        congr 2
        split
        · rfl
        · rename_i h; exact (hc (by simpa using h)).symm

theorem before_some {t : Kind} (h : t ≠ .absent) (key value : Str) : before t (formatKey key) value =
    label key ++ value ++ (if container t then if t = .object then ['{'] else ['['] else []) := by
  unfold before label formatKey
  congr 1
  congr 1
  · by_cases hk : key = [] <;> simp [hk, h]
  · by_cases hv : value = [] <;> simp [hv, h]

theorem behind_some {t : Kind} (h : t ≠ .absent) (last : Bool) : behind t last =
    (if container t then if t = .object then ['}'] else [']'] else []) ++ (if last then [] else ", ".toList) := by
  unfold behind
  cases last <;> simp [h]

/-! ### Both sides have the same height -/

theorem align_length (fold : Int) (d : Dual) : (align fold d).1.length = (align fold d).2.length := by
  obtain ⟨depth, r, i, ke, vm, el, al, et, at', ek, ak, ev, av, c⟩ := d
  simp only [align]
  repeat' split
  all_goals exact samesizify_length _ _

/-! ### Pairs -/

def sideOf (s : Bool) (p : Pair) : Option Kid := pick s (p.e, p.a)

theorem zip_e (r : Int) (es : List Kid) : ∀ as, (zip r es as).filterMap (·.e) = es := by
  induction es with
  | nil => intro as; simp [zip, List.filterMap_map]
  | cons e es ih =>
    intro as
    cases as with
    | nil =>
      simp only [zip]
      rw [List.filterMap_map]
      exact List.filterMap_some
    | cons a as => simp [zip, ih]

theorem zip_a (r : Int) (es : List Kid) : ∀ as, (zip r es as).filterMap (·.a) = as := by
  induction es with
  | nil =>
    intro as
    simp only [zip]
    rw [List.filterMap_map]
    exact List.filterMap_some
  | cons e es ih =>
    intro as
    cases as with
    | nil => simp [zip, List.filterMap_map]
    | cons a as => simp [zip, ih]

theorem eraseIdx_perm {α : Type} {l : List α} {i : Nat} {k : α} (h : l[i]? = some k) : l.Perm (k :: l.eraseIdx i) := by
  induction l generalizing i with
  | nil => simp at h
  | cons a l ih =>
    cases i with
    | zero => simp at h; subst h; exact .refl _
    | succ i =>
      simp at h
      exact ((ih h).cons a).trans (.swap ..)

theorem pass_perm (find : Kid → List Kid → Option Nat) (es : List Kid) : ∀ as,
    es.Perm ((pass find es as).1.map (·.1) ++ (pass find es as).2.1) ∧ as.Perm ((pass find es as).1.map (·.2) ++ (pass find es as).2.2) := by
  induction es with
  | nil => intro as; simp [pass]
  | cons c es ih =>
    intro as
    simp only [pass]
    split
    · rename_i k as' h
      obtain ⟨h1, h2⟩ := ih as'
      obtain ⟨i, hi, hk⟩ := Option.bind_eq_some_iff.1 h
      obtain ⟨k', hk', e⟩ := Option.map_eq_some_iff.1 hk
      simp at e; obtain ⟨rfl, rfl⟩ := e
      exact ⟨h1.cons c, (eraseIdx_perm hk').trans (h2.cons _)⟩
    · obtain ⟨h1, h2⟩ := ih as
      exact ⟨(h1.cons c).trans List.perm_middle.symm, h2⟩

theorem filterMap_both_e (l : List (Kid × Kid)) (r : Int) : (l.map fun c => (⟨some c.1, some c.2, r⟩ : Pair)).filterMap (·.e) = l.map (·.1) := by
  rw [List.filterMap_map]
  induction l with
  | nil => rfl
  | cons c l ih => simpa using ih

theorem filterMap_both_a (l : List (Kid × Kid)) (r : Int) : (l.map fun c => (⟨some c.1, some c.2, r⟩ : Pair)).filterMap (·.a) = l.map (·.2) := by
  rw [List.filterMap_map]
  induction l with
  | nil => rfl
  | cons c l ih => simpa using ih

theorem kidsOf_none {e : Option Kid} (h1 : kindOf e ≠ .object) (h2 : kindOf e ≠ .array) : kidsOf e = [] := by
  cases e with
  | none => rfl
  | some k =>
    obtain ⟨i, key, v⟩ := k
    cases v <;> simp_all [kindOf, kind, kidsOf, kids]

theorem pairs_perm (x : Ctx) (s : Bool) (e a : Option Kid) : ((pairs x e a).filterMap (sideOf s)).Perm (kidsOf (pick s (e, a))) := by
  unfold pairs
  split
  · obtain ⟨h1, h2⟩ := pass_perm (byKey x) (kidsOf e) (kidsOf a)
    obtain ⟨g1, g2⟩ := pass_perm (search x) (pass (byKey x) (kidsOf e) (kidsOf a)).2.1 (pass (byKey x) (kidsOf e) (kidsOf a)).2.2
    cases s
    · simp only [pick, Bool.false_eq_true, if_false, List.filterMap_append]
      have : sideOf false = Pair.a := by funext p; rfl
      rw [this, filterMap_both_a, filterMap_both_a, zip_a, List.append_assoc]
      exact ((g2.symm.append_left _).trans h2.symm)
    · simp only [pick, if_true, List.filterMap_append]
      have : sideOf true = Pair.e := by funext p; rfl
      rw [this, filterMap_both_e, filterMap_both_e, zip_e, List.append_assoc]
      exact ((g1.symm.append_left _).trans h1.symm)
  · split
    · cases s
      · have : sideOf false = Pair.a := by funext p; rfl
        rw [this, zip_a]; exact .refl _
      · have : sideOf true = Pair.e := by funext p; rfl
        rw [this, zip_e]; exact .refl _
    · rename_i h1 h2
      have : kidsOf (pick s (e, a)) = [] := by
        cases s <;> exact kidsOf_none (by grind [pick]) (by grind [pick])
      rw [this]
      exact .refl _

/-! ### The order of the children -/

/-- The pairs in the order in which they are shown. -/
def ordered (x : Ctx) (e a : Option Kid) : List Pair :=
  if kindOf e = .object ∨ kindOf a = .object then H2.Runner.sort (fun p q : Pair => indexOf p.e - indexOf q.e) (pairs x e a) else pairs x e a

theorem sort_map {α β : Type} (f : α → β) (c : α → α → Int) (c' : β → β → Int) (h : ∀ p q, c' (f p) (f q) = c p q) (l : List α) :
    H2.Runner.sort c' (l.map f) = (H2.Runner.sort c l).map f := by
  have ins : ∀ (p : α) (l : List α), H2.Runner.insertStable c' (f p) (l.map f) = (H2.Runner.insertStable c p l).map f := by
    intro p l
    induction l with
    | nil => rfl
    | cons q l ih =>
      simp only [List.map_cons, H2.Runner.insertStable, h]
      split
      · rfl
      · simp [ih]
  unfold H2.Runner.sort
  have : ∀ (l m : List α), (l.map f).foldl (fun ys p => H2.Runner.insertStable c' p ys) (m.map f) =
      (l.foldl (fun ys p => H2.Runner.insertStable c p ys) m).map f := by
    intro l
    induction l with
    | nil => intro m; rfl
    | cons p l ih => intro m; simp only [List.map_cons, List.foldl_cons, ins]; exact ih _
  exact this l []

theorem dual_index (x : Ctx) (e a : Option Kid) (depth : Nat) (r : Int) : (dual x e a depth r).index = indexOf e := by
  rw [dual]; rfl

theorem dual_eq (x : Ctx) (e a : Option Kid) (depth : Nat) (r : Int) : dual x e a depth r =
    .mk depth r (indexOf e) (H2.Str.equals (keyOf e) (keyOf a) x.caseless) (matchOf x e a) true true (kindOf e) (kindOf a)
      (keyOf e) (keyOf a) (valueOf x e) (valueOf x a)
      (markLast ((ordered x e a).map fun p => dual x p.e p.a (depth + 1) p.relationship)) := by
  rw [dual]
  simp only [List.map_attach_eq_pmap, List.pmap_eq_map]
  congr 2
  unfold ordered
  split
  · exact sort_map _ _ _ (fun p q => by rw [dual_index, dual_index]) _
  · rfl

theorem ordered_perm (x : Ctx) (e a : Option Kid) : (ordered x e a).Perm (pairs x e a) := by
  unfold ordered
  split
  · exact H2.Runner.sort_perm _ _
  · exact .refl _

theorem number_index {l : List (Str × Json)} : ∀ {i : Int}, (number i l).Pairwise (fun a b => a.index < b.index) ∧ ∀ k ∈ number i l, i ≤ k.index := by
  induction l with
  | nil => intro i; simp [number]
  | cons p l ih =>
    intro i
    obtain ⟨k, v⟩ := p
    obtain ⟨h1, h2⟩ := @ih (i + 1)
    simp only [number, List.pairwise_cons, List.mem_cons]
    refine ⟨⟨fun b hb => ?_, h1⟩, ?_⟩
    · have := h2 b hb; show i < b.index; omega
    · rintro k (rfl | hk)
      · exact Int.le_refl _
      · have := h2 k hk; omega

theorem kids_index (e : Option Kid) : (kidsOf e).Pairwise (fun a b => a.index < b.index) := by
  cases e with
  | none => simp [kidsOf]
  | some k =>
    simp only [kidsOf]
    unfold kids
    split
    · exact number_index.1
    · exact number_index.1
    · exact .nil

/-- On the left the children are in their order. -/
theorem ordered_left (x : Ctx) (e a : Option Kid) : (ordered x e a).filterMap (·.e) = kidsOf e := by
  have hp : ((pairs x e a).filterMap (·.e)).Perm (kidsOf e) := pairs_perm x true e a
  by_cases h : kindOf e = .object ∨ kindOf a = .object
  · have hs : (ordered x e a).Pairwise fun p q => ¬ 0 < indexOf p.e - indexOf q.e := by
      rw [ordered, if_pos h]
      exact H2.Runner.sort_sorted ⟨fun p q h => by omega, fun p q r h h' => by omega⟩ _
    have hq : ((ordered x e a).filterMap (·.e)).Perm (kidsOf e) := ((ordered_perm x e a).filterMap _).trans hp
    refine List.Perm.eq_of_pairwise (le := fun a b => a.index ≤ b.index) ?_ ?_ ?_ hq
    · intro c d hc hd h1 h2
      have hc := hq.mem_iff.1 hc
      have key : ∀ l : List Kid, l.Pairwise (fun a b => a.index < b.index) → c ∈ l → d ∈ l → c = d := by
        intro l hl
        induction hl with
        | nil => intro h; simp at h
        | cons hx _ ih =>
          intro hc hd
          rcases List.mem_cons.1 hc with rfl | hc' <;> rcases List.mem_cons.1 hd with rfl | hd'
          · rfl
          · have := hx _ hd'; omega
          · have := hx _ hc'; omega
          · exact ih hc' hd'
      exact key _ (kids_index e) hc hd
    · rw [List.pairwise_filterMap]
      refine hs.imp ?_
      intro p q hpq b hb c hc
      simp only [hb, hc, indexOf] at hpq
      omega
    · exact (kids_index e).imp (by intros; omega)
  · have : ordered x e a = pairs x e a := by rw [ordered, if_neg h]
    rw [this]
    unfold pairs
    rw [if_neg h]
    split
    · exact zip_e _ _ _
    · rename_i h2
      exact (kidsOf_none (by grind) (by grind)).symm

theorem ordered_side (x : Ctx) (s : Bool) (e a : Option Kid) : ((ordered x e a).filterMap (sideOf s)).Perm (kidsOf (pick s (e, a))) :=
  ((ordered_perm x e a).filterMap _).trans (pairs_perm x s e a)

/-! ### One node -/

theorem dual_type (x : Ctx) (s : Bool) (e a : Option Kid) (depth : Nat) (r : Int) : (dual x e a depth r).type s = kindOf (pick s (e, a)) := by
  rw [dual_eq]; cases s <;> rfl

theorem setLast_type (s el al : Bool) (d : Dual) : (d.setLast el al).type s = d.type s := by
  obtain ⟨depth, r, i, ke, vm, _, _, et, at', ek, ak, ev, av, c⟩ := d; rfl

theorem seen_quoted (k : Str) : seen ('"' :: k ++ ['"']) = true := by
  cases k <;> simp [seen, blank, isctrl, cSpace]

/-- Numbers are printed as words that can be seen. -/
def Prints (x : Ctx) : Prop := ∀ d, seen (x.print d) = true

theorem seen_key {e : Option Kid} (h : keyOf e ≠ []) : seen (keyOf e) = true := by
  cases e with
  | none => simp [keyOf] at h
  | some k =>
    simp only [keyOf, formatKey] at h ⊢
    split
    · simp_all
    · exact seen_quoted _

theorem seen_value {x : Ctx} (hx : Prints x) {e : Option Kid} (h : valueOf x e ≠ []) : seen (valueOf x e) = true := by
  cases e with
  | none => simp [valueOf] at h
  | some k =>
    obtain ⟨i, key, v⟩ := k
    simp only [valueOf] at h ⊢
    cases v with
    | bool b => cases b <;> rfl
    | num d => exact hx d
    | str s => exact seen_quoted s
    | pat s => cases s <;> simp [formatValue, seen, blank, isctrl, cSpace]
    | null => rfl
    | _ => simp [formatValue] at h

/-- What is shown of the children, if every one is shown. -/
theorem vis_children {num : Dbl → Str} {may : Json → Prop} {o : Prop} (s : Bool) (fold : Int) (f : Pair → Dual) (ps : List Pair)
    (ht : ∀ p ∈ ps, (f p).type s = kindOf (sideOf s p))
    (h0 : ∀ p ∈ ps, sideOf s p = none → ∀ el al, vis (pick s (align fold ((f p).setLast el al))).flatten = [])
    (h1 : ∀ p ∈ ps, ∀ k, sideOf s p = some k → k.value ≠ .absent ∧ ∃ t, Shown num may o (.member k.key k.value) t ∧ ∀ el al,
      vis (pick s (align fold ((f p).setLast el al))).flatten = t ++ (if pick s (el, al) then [] else ", ".toList)) :
    Shown num may o (.members ((ps.filterMap (sideOf s)).map fun k => (k.key, k.value)))
      (vis (pick s (alignAll fold (markLast (ps.map f)))).flatten) := by
  induction ps with
  | nil => cases s <;> exact .none
  | cons p ps ih =>
    have ih := ih (fun q hq => ht q (by simp [hq])) (fun q hq => h0 q (by simp [hq])) (fun q hq => h1 q (by simp [hq]))
    simp only [List.map_cons, markLast]
    have hsplit : ∀ d l, vis (pick s (alignAll fold (d :: l))).flatten = vis (pick s (align fold d)).flatten ++ vis (pick s (alignAll fold l)).flatten := by
      intro d l; cases s <;> simp [alignAll, pick, vis_append]
    rw [hsplit]
    cases hp : sideOf s p with
    | none =>
      rw [h0 p (by simp) hp, List.filterMap_cons_none hp]
      exact ih
    | some k =>
      obtain ⟨hk, t, ht', hv⟩ := h1 p (by simp) k hp
      rw [hv, List.filterMap_cons_some hp]
      have hlast : pick s ((!((ps.map f).any fun d => d.eType ≠ .absent) || (f p).eType = .absent),
          (!((ps.map f).any fun d => d.aType ≠ .absent) || (f p).aType = .absent)) = !((ps.map f).any fun d => d.type s ≠ .absent) := by
        have hty := ht p (by simp)
        rw [hp] at hty
        have : kindOf (some k) ≠ .absent := by
          obtain ⟨i, key, v⟩ := k
          simp only at hk
          cases v <;> simp_all [kindOf, kind]
        rw [← hty] at this
        cases s
        · have e1 : (fun d : Dual => decide (d.aType ≠ .absent)) = fun d => decide (d.type false ≠ .absent) := by
            funext d; obtain ⟨⟩ := d; rfl
          have e2 : (f p).aType = (f p).type false := by generalize f p = d; obtain ⟨⟩ := d; rfl
          simp only [pick, Bool.false_eq_true, if_false, e1, e2, decide_eq_false this, Bool.or_false]
        · have e1 : (fun d : Dual => decide (d.eType ≠ .absent)) = fun d => decide (d.type true ≠ .absent) := by
            funext d; obtain ⟨⟩ := d; rfl
          have e2 : (f p).eType = (f p).type true := by generalize f p = d; obtain ⟨⟩ := d; rfl
          simp only [pick, if_true, e1, e2, decide_eq_false this, Bool.or_false]
      rw [hlast]
      simp only [List.map_cons]
      -- whether another one follows
      have hany : ((ps.map f).any fun d => d.type s ≠ .absent) = true ↔ ps.filterMap (sideOf s) ≠ [] := by
        simp only [List.any_eq_true, List.mem_map, decide_eq_true_eq]
        constructor
        · rintro ⟨d, ⟨q, hq, rfl⟩, hd⟩ hn
          rw [ht q (by simp [hq])] at hd
          cases hq' : sideOf s q with
          | none => simp [hq', kindOf] at hd
          | some k' => exact List.ne_nil_of_mem (List.mem_filterMap.2 ⟨q, hq, hq'⟩) hn
        · intro hn
          obtain ⟨k', hk'⟩ := List.exists_mem_of_ne_nil _ hn
          obtain ⟨q, hq, hq'⟩ := List.mem_filterMap.1 hk'
          refine ⟨f q, ⟨q, hq, rfl⟩, ?_⟩
          rw [ht q (by simp [hq]), hq']
          obtain ⟨h, -⟩ := h1 q (by simp [hq]) k' hq'
          obtain ⟨i, key, v⟩ := k'
          simp only at h
          cases v <;> simp_all [kindOf, kind]
      cases hn : ps.filterMap (sideOf s) with
      | nil =>
        have : ((ps.map f).any fun d => d.type s ≠ .absent) = false := by
          cases h : (ps.map f).any fun d => d.type s ≠ .absent with
          | false => rfl
          | true => exact absurd hn (hany.1 h)
        rw [this]
        rw [hn] at ih
        have he : vis (pick s (alignAll fold (markLast (ps.map f)))).flatten = [] := by
          generalize vis (pick s (alignAll fold (markLast (ps.map f)))).flatten = u at ih
          cases ih; rfl
        rw [he]
        simpa using Shown.last ht'
      | cons k' l =>
        rw [hany.2 (by rw [hn]; simp)]
        rw [hn] at ih
        exact .more ht' ih

/-- Whether a node is shown with dots. -/
def mayCut (x : Ctx) (fold : Int) (s : Bool) (other : Json) (j : Json) : Prop :=
  3 ≤ fold ∨ 2 ≤ fold ∧ ∃ i, Within other i ∧ (if s then matches? x.env x.caseless j i else matches? x.env x.caseless i j) = true

theorem number_kv (l : List (Str × Json)) : ∀ i : Int, (number i l).map (fun k => (k.key, k.value)) = l := by
  induction l with
  | nil => intro i; rfl
  | cons p l ih => intro i; obtain ⟨k, v⟩ := p; simp [number, ih]

theorem kids_child {k c : Kid} (h : c ∈ kids k.value) : Child k.value c.key c.value := by
  obtain ⟨i, key, v⟩ := k
  simp only at *
  cases v with
  | arr l =>
    have : (c.key, c.value) ∈ l.map fun x => (([] : Str), x) := by
      rw [← number_kv (l.map _) 0]; exact List.mem_map.2 ⟨c, h, rfl⟩
    obtain ⟨v, hv, e⟩ := List.mem_map.1 this
    injection e with e1 e2
    rw [← e1, ← e2]; exact .element hv
  | obj l =>
    have : (c.key, c.value) ∈ l := by
      rw [← number_kv l 0]; exact List.mem_map.2 ⟨c, h, rfl⟩
    exact .member this
  | _ => simp [kids] at h

theorem perm_unmap {l : List Json} {ms : List (Str × Json)} (h : ms.Perm (l.map fun x => (([] : Str), x))) :
    ∃ m, l.Perm m ∧ ms = m.map fun x => (([] : Str), x) := by
  refine ⟨ms.map (·.2), ?_, ?_⟩
  · have := (h.map (·.2)).symm
    simp only [List.map_map] at this
    rwa [show ((fun x : Str × Json => x.2) ∘ fun x => (([] : Str), x)) = id from rfl, List.map_id] at this
  · rw [List.map_map]
    symm
    have : ∀ p ∈ ms, p.1 = [] := by
      intro p hp
      obtain ⟨v, -, e⟩ := List.mem_map.1 (h.mem_iff.1 hp)
      rw [← e]
    calc ms.map _ = ms.map id := List.map_congr_left (fun p hp => by
            have := this p hp
            obtain ⟨a, b⟩ := p
            simp only at this
            subst this; rfl)
      _ = ms := List.map_id _

theorem dual_vis (x : Ctx) (hx : Prints x) (fold : Int) (s : Bool) (root : Json) : ∀ (n : Nat) (e a : Option Kid), measure e + measure a < n →
    (∀ k ∈ pick s (a, e), Within root k.value) → (∀ k ∈ pick s (e, a), Whole k.value) →
    ∀ (depth : Nat) (r : Int),
      (kindOf (pick s (e, a)) = .absent → ∀ el al, vis (pick s (align fold ((dual x e a depth r).setLast el al))).flatten = []) ∧
      (∀ k, pick s (e, a) = some k → k.value ≠ .absent → ∃ t, Shown x.print (mayCut x fold s root) (s = true) (.value k.value) t ∧ ∀ el al,
        vis (pick s (align fold ((dual x e a depth r).setLast el al))).flatten = label k.key ++ t ++ (if pick s (el, al) then [] else ", ".toList)) := by
  intro n
  induction n with
  | zero => intro e a h; omega
  | succ n ih =>
    intro e a hn hother hwhole depth r
    -- the children
    have hkids : ∀ p ∈ ordered x e a, (∀ k ∈ p.e, k ∈ kidsOf e) ∧ (∀ k ∈ p.a, k ∈ kidsOf a) ∧ measure p.e + measure p.a < measure e + measure a := by
      intro p hp
      have hp := (ordered_perm x e a).mem_iff.1 hp
      exact ⟨(pairs_mem hp).1, (pairs_mem hp).2.1, pairs_lt hp⟩
    have hside : ∀ p ∈ ordered x e a, ∀ k ∈ sideOf s p, k ∈ kidsOf (pick s (e, a)) := by
      intro p hp k hk
      cases s
      · exact (hkids p hp).2.1 k hk
      · exact (hkids p hp).1 k hk
    have hother' : ∀ p ∈ ordered x e a, ∀ k ∈ pick s (p.a, p.e), Within root k.value := by
      intro p hp k hk
      have : k ∈ kidsOf (pick s (a, e)) := by
        cases s
        · exact (hkids p hp).1 k hk
        · exact (hkids p hp).2.1 k hk
      obtain ⟨o, ho⟩ : ∃ o, pick s (a, e) = o := ⟨_, rfl⟩
      rw [ho] at this hother
      cases o with
      | none => simp [kidsOf] at this
      | some k' => exact .child (hother k' rfl) (kids_child this)
    have hchild : ∀ k ∈ kidsOf (pick s (e, a)), k.value ≠ .absent ∧ Whole k.value := by
      intro k hk
      obtain ⟨o, ho⟩ : ∃ o, pick s (e, a) = o := ⟨_, rfl⟩
      rw [ho] at hk hwhole
      cases o with
      | none => simp [kidsOf] at hk
      | some k' =>
        have hc := kids_child hk
        refine ⟨hwhole k' rfl _ _ _ .refl hc, ?_⟩
        intro i k2 v hi hv
        refine hwhole k' rfl i k2 v ?_ hv
        clear hv
        induction hi with
        | refl => exact .child .refl hc
        | child _ h2 ih => exact .child ih h2
    obtain ⟨u, hu⟩ : ∃ u, vis (pick s (alignAll fold (markLast ((ordered x e a).map fun p => dual x p.e p.a (depth + 1) p.relationship)))).flatten = u := ⟨_, rfl⟩
    have hall : Shown x.print (mayCut x fold s root) (s = true) (.members (((ordered x e a).filterMap (sideOf s)).map fun k => (k.key, k.value))) u := by
      rw [← hu]
      refine vis_children s fold (fun p => dual x p.e p.a (depth + 1) p.relationship) (ordered x e a) ?_ ?_ ?_
      · intro p _; exact dual_type x s p.e p.a _ _
      · intro p hp hnone
        refine (ih p.e p.a (by have := (hkids p hp).2.2; omega) (hother' p hp) ?_ _ _).1 ?_
        · intro k hk
          exact (hchild k (hside p hp k hk)).2
        · rw [show pick s (p.e, p.a) = none from hnone]; rfl
      · intro p hp k hk
        have hck := hchild k (hside p hp k hk)
        refine ⟨hck.1, ?_⟩
        obtain ⟨t, ht, hv⟩ := (ih p.e p.a (by have := (hkids p hp).2.2; omega) (hother' p hp) (fun k hk => (hchild k (hside p hp k hk)).2)
          (depth + 1) p.relationship).2 k hk hck.1
        exact ⟨label k.key ++ t, .member ht, hv⟩
    have hperm := ordered_side x s e a
    have hnil : kidsOf (pick s (e, a)) = [] → u = [] := by
      intro hz
      rw [hz] at hperm
      rw [hperm.eq_nil] at hall
      cases hall; rfl
    -- the node itself
    obtain ⟨m, hm, hm'⟩ : ∃ m, (∀ el al, vis (pick s (align fold ((dual x e a depth r).setLast el al))).flatten =
        before (kindOf (pick s (e, a))) (keyOf (pick s (e, a))) (valueOf x (pick s (e, a))) ++ m ++ behind (kindOf (pick s (e, a))) (pick s (el, al))) ∧
        (m = u ∨ m = " ... ".toList ∧ 20 ≤ u.length ∧ container (kindOf (pick s (e, a))) = true ∧
          ((2 ≤ fold ∧ (H2.Str.equals (keyOf e) (keyOf a) x.caseless && matchOf x e a) = true) ∨ (3 ≤ fold ∧ r < 0))) := by
      have := vis_align s fold (dual x e a depth r)
      rw [dual_eq] at this ⊢
      simp only [Dual.key, Dual.value, Dual.type, Dual.children, Dual.same, Dual.relationship] at this ⊢
      have hpk : pick s (keyOf e, keyOf a) = keyOf (pick s (e, a)) := by cases s <;> rfl
      have hpv : pick s (valueOf x e, valueOf x a) = valueOf x (pick s (e, a)) := by cases s <;> rfl
      have hpt : pick s (kindOf e, kindOf a) = kindOf (pick s (e, a)) := by cases s <;> rfl
      rw [hpk, hpv, hpt, hu] at this
      refine this seen_key (seen_value hx) ?_
      intro hc
      exact hnil (kidsOf_none (by intro h; rw [h] at hc; exact absurd hc (by decide)) (by intro h; rw [h] at hc; exact absurd hc (by decide)))
    constructor
    · intro hnone el al
      rw [hm, hnone]
      have : u = [] := hnil (kidsOf_none (by rw [hnone]; decide) (by rw [hnone]; decide))
      rcases hm' with h | ⟨_, _, h, _⟩
      · rw [h, this]; rfl
      · rw [hnone] at h; exact absurd h (by decide)
    · intro k hk hab
      have hpl : s = true → (ordered x e a).filterMap (sideOf s) = kidsOf (pick s (e, a)) := by
        rintro rfl
        exact ordered_left x e a
      rw [hk] at hm hm' hnil hperm hpl
      have hcut : (2 ≤ fold ∧ (H2.Str.equals (keyOf e) (keyOf a) x.caseless && matchOf x e a) = true) ∨ (3 ≤ fold ∧ r < 0) →
          mayCut x fold s root k.value := by
        rintro (⟨h1, h2⟩ | ⟨h, -⟩)
        · refine .inr ⟨h1, ?_⟩
          have h2 : matchOf x e a = true := by simp at h2; exact h2.2
          cases s
          · simp only [pick, Bool.false_eq_true, if_false] at hk hother
            subst hk
            cases e with
            | none => simp [matchOf] at h2
            | some c => exact ⟨c.value, hother c rfl, by simpa [matchOf] using h2⟩
          · simp only [pick, if_true] at hk hother
            subst hk
            cases a with
            | none => simp [matchOf] at h2
            | some c => exact ⟨c.value, hother c rfl, by simpa [matchOf] using h2⟩
        · exact .inl h
      obtain ⟨i, key, v⟩ := k
      simp only at hab hcut
      have hkind : kind v ≠ .absent := by cases v <;> simp_all [kind]
      simp only [kindOf, keyOf, valueOf, kidsOf] at hm hm' hnil hperm hpl
      rw [before_some hkind] at hm
      simp only [behind_some hkind] at hm
      have scalar : container (kind v) = false → m = [] := by
        intro hc
        rcases hm' with h | ⟨_, _, h, _⟩
        · rw [h]
          refine hnil ?_
          cases v <;> simp_all [kids, kind, container]
        · rw [hc] at h; exact absurd h (by decide)
      cases v with
      | absent => exact absurd rfl hab
      | null => rw [scalar rfl] at hm; exact ⟨_, .null, fun el al => by rw [hm]; simp [kind, container, formatValue]⟩
      | bool b =>
        rw [scalar rfl] at hm
        cases b
        · exact ⟨_, .false, fun el al => by rw [hm]; simp [kind, container, formatValue]⟩
        · exact ⟨_, .true, fun el al => by rw [hm]; simp [kind, container, formatValue]⟩
      | num d => rw [scalar rfl] at hm; exact ⟨_, .num, fun el al => by rw [hm]; simp [kind, container, formatValue]⟩
      | str t => rw [scalar rfl] at hm; exact ⟨_, .str, fun el al => by rw [hm]; simp [kind, container, formatValue]⟩
      | pat t => rw [scalar rfl] at hm; exact ⟨_, .pat, fun el al => by rw [hm]; simp [kind, container, formatValue]⟩
      | arr l =>
        refine ⟨'[' :: m ++ [']'], ?_, fun el al => by rw [hm]; simp [kind, container, formatValue]⟩
        rcases hm' with h | ⟨h1, h20, _, h3⟩
        · rw [h]
          have hp := hperm.map (fun k : Kid => (k.key, k.value))
          rw [kids, number_kv] at hp
          obtain ⟨ms, h1, h2⟩ := perm_unmap hp
          rw [h2] at hall
          refine .arr h1 ?_ hall
          intro hs
          rw [hpl hs, kids, number_kv] at h2
          have := congrArg (List.map (·.2)) h2
          rw [List.map_map, List.map_map, show ((fun x : Str × Json => x.2) ∘ fun x => (([] : Str), x)) = id from rfl, List.map_id, List.map_id] at this
          exact this
        · rw [h1]
          have hp := hperm.map (fun k : Kid => (k.key, k.value))
          rw [kids, number_kv] at hp
          obtain ⟨ms, g1, g2⟩ := perm_unmap hp
          rw [g2] at hall
          exact .arrDots (hcut h3) g1 hall h20
      | obj l =>
        refine ⟨'{' :: m ++ ['}'], ?_, fun el al => by rw [hm]; simp [kind, container, formatValue]⟩
        rcases hm' with h | ⟨h1, h20, _, h3⟩
        · rw [h]
          have hp := hperm.map (fun k : Kid => (k.key, k.value))
          rw [kids, number_kv] at hp
          refine .obj hp.symm ?_ hall
          intro hs
          rw [hpl hs, kids, number_kv]
        · rw [h1]
          have hp := hperm.map (fun k : Kid => (k.key, k.value))
          rw [kids, number_kv] at hp
          exact .objDots (hcut h3) hp.symm hall h20

end H2.Json.Dual
