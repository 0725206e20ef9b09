import Verif.SuiteFn.Props
import Verif.Filter.Props
import Verif.Macro.Index
/-
C76: the names that the cases of a `Cases` or `Casess` have in reports and for `-i` and `-e`: the description without its tags.
-/
namespace H2.SuiteFn
open H2.Filter (Clean Tags Test isspace isQuote scan splitDescribe stripLeft Fits Special Alike Sep)

/-- C76.  The text of an index is what the macros write for it. -/
theorem C76_index (i : Nat) : index i = H2.Macro.letters i := by
  have : ∀ n : Nat, (List.replicate n "H2PP_INC_".toList).flatten ++ "32".toList = H2.Macro.incs n := by
    intro n
    induction n with
    | zero => rfl
    | succ n ih =>
      rw [List.replicate_succ, List.flatten_cons, List.append_assoc, ih]; rfl
  unfold index H2.Macro.letters
  rw [this]

theorem scan_over (s : List Char) : ∀ (q : Bool) (rest : List Char), (s.countP isQuote + q.toNat) % 2 = 0 →
    (∀ u v, s = u ++ '[' :: v → (u.countP isQuote + q.toNat) % 2 = 1) →
    scan '[' q (s ++ rest) = (s ++ (scan '[' false rest).1, (scan '[' false rest).2) := by
  induction s with
  | nil => intro q rest h _; cases q <;> simp_all
  | cons c s ih =>
    intro q rest h1 h2
    rw [List.cons_append, scan]
    by_cases hc : c = '"'
    · subst hc
      have e : isQuote '"' = true := rfl
      rw [List.countP_cons_of_pos e] at h1
      rw [if_pos rfl]
      have : (!(!q) && '"' == '[') = false := by cases q <;> decide
      simp only [this, Bool.false_eq_true, if_false]
      rw [ih (!q) rest (by cases q <;> simp_all <;> omega) (by
        intro u v hs
        have := h2 ('"' :: u) v (by rw [hs]; rfl)
        rw [List.countP_cons_of_pos e] at this
        cases q <;> simp_all <;> omega)]
      rfl
    · have e : isQuote c = false := by simpa [isQuote] using hc
      rw [if_neg hc]
      rw [List.countP_cons_of_neg (by rw [e]; decide)] at h1
      have hstop : (!q && c == '[') = false := by
        cases hq : q
        · by_cases hb : c = '['
          · have := h2 [] s (by rw [hb]; rfl)
            rw [hq] at this
            simp at this
          · simpa using hb
        · rfl
      simp only [hstop, Bool.false_eq_true, if_false]
      rw [ih q rest h1 (by
        intro u v hs
        have := h2 (c :: u) v (by rw [hs]; rfl)
        rwa [List.countP_cons_of_neg (by rw [e]; decide)] at this)]
      rfl

/-- What stands before the value. -/
def label1 (i : Nat) : List Char := index i ++ ['.']
def label2 (i j : Nat) : List Char := index i ++ '.' :: (index j ++ ['.'])

theorem name1_label (p : List Char) (i : Nat) (x : List Char) : name1 p i x = p ++ ' ' :: (label1 i ++ ' ' :: x) := by simp [name1, label1]

theorem name2_label (p : List Char) (i j : Nat) (x y : List Char) : name2 p i j x y = p ++ ' ' :: (label2 i j ++ ' ' :: (x ++ ',' :: ' ' :: y)) := by
  simp [name2, label2]

theorem label1_mem {i : Nat} {c : Char} (h : c ∈ label1 i) : c ∈ index i ∨ c = '.' := by simpa [label1] using h

theorem label2_mem {i j : Nat} {c : Char} (h : c ∈ label2 i j) : c ∈ index i ∨ c ∈ index j ∨ c = '.' := by
  simp [label2] at h; rcases h with h | h | h | h <;> simp [h]

/-- The tags of a generated case are cut out behind the index. -/
theorem name_labelled {f p lab r : List Char} {t : Test} (hp : Clean '[' p) (hlab : ∀ c ∈ lab, c ≠ '"' ∧ c ≠ '[')
    (h : Test.new f (p ++ ' ' :: (lab ++ r)) = some t) : ∃ r', t.name = (p ++ ' ' :: (lab ++ r')).dropWhile isspace := by
  unfold Test.new at h
  split at h
  · cases h
  next s hs =>
  injection h with h
  subst h
  suffices ∃ r', s.1 = p ++ ' ' :: (lab ++ r') by
    obtain ⟨r', e⟩ := this
    exact ⟨r', by simp only [e, stripLeft]⟩
  unfold splitDescribe at hs
  split at hs
  · cases hs
  have hl : ∀ c ∈ ' ' :: lab, c ≠ '"' ∧ c ≠ '[' := by
    intro c hc
    rcases List.mem_cons.1 hc with rfl | hc
    · decide
    · exact hlab c hc
  have e1 : p ++ ' ' :: (lab ++ r) = (p ++ ' ' :: lab) ++ r := by simp
  have fin : ∀ w, ∃ r', (p ++ ' ' :: lab) ++ w = p ++ ' ' :: (lab ++ r') := fun w => ⟨w, by simp⟩
  generalize ' ' :: lab = lb at hl e1 fin
  have hq : lb.countP isQuote = 0 := by
    rw [List.countP_eq_zero]
    intro c hc; have := (hl c hc).1; simpa [isQuote] using this
  have e2 := scan_over (p ++ lb) false r (by rw [List.countP_append, hq]; simpa using hp.1) (by
    intro u v e
    rcases List.append_eq_append_iff.1 e with ⟨a, h1, h2⟩ | ⟨a, h1, h2⟩
    · rw [h2] at hl
      exact absurd rfl (hl '[' (by simp)).2
    · cases a with
      | nil =>
        simp only [List.nil_append] at h2
        rw [← h2] at hl
        exact absurd rfl (hl '[' (by simp)).2
      | cons c a =>
        injection h2 with h2 _
        subst h2
        simpa using hp.2 u a h1)
  rw [e1, e2] at hs
  simp only [] at hs
  split at hs
  · cases hs; exact fin _
  · split at hs
    · cases hs; exact fin _
    · cases hs
      next rest _ => have := fin ((scan '[' false r).1 ++ rest); simpa only [List.append_assoc] using this

/-- What is left of a prefix when blanks before the name are cut. -/
def stem (p : List Char) : List Char := if p.all isspace then [] else p.dropWhile isspace ++ [' ']

theorem index_head (i : Nat) : ∃ c l, index i = c :: l ∧ isspace c = false := by
  have hne : index i ≠ [] := by
    unfold index
    split
    · exact Nat.toDigits_ne_nil
    · simp
  obtain ⟨c, l, e⟩ := List.exists_cons_of_ne_nil hne
  refine ⟨c, l, e, ?_⟩
  have := index_mem (n := i) (c := c) (by rw [e]; simp)
  rcases this with h | h | h
  · have : 48 ≤ c.toNat := by
      simp only [Char.isDigit, Bool.and_eq_true, decide_eq_true_eq] at h
      exact h.1
    unfold isspace
    have h1 : c ≠ ' ' := by rintro rfl; simp at this
    simp only [Bool.or_eq_false_iff, beq_eq_false_iff_ne, ne_eq, h1, not_false_eq_true, Bool.and_eq_false_iff, decide_eq_false_iff_not, true_and]
    omega
  · have : ∀ c ∈ "H2PP_INC_".toList, isspace c = false := by decide
    exact this c h
  · have : ∀ c ∈ "32".toList, isspace c = false := by decide
    exact this c h

theorem drop_labelled (p : List Char) (i : Nat) (r : List Char) :
    (p ++ ' ' :: (index i ++ r)).dropWhile isspace = stem p ++ (index i ++ r) := by
  have h0 : (' ' :: (index i ++ r)).dropWhile isspace = index i ++ r := by
    obtain ⟨c, l, e, hc⟩ := index_head i
    rw [e, List.dropWhile_cons, if_pos (by decide), List.cons_append, List.dropWhile_cons, if_neg (by rw [hc]; decide)]
  unfold stem
  induction p with
  | nil => rw [if_pos (by simp)]; simpa using h0
  | cons c p ih =>
    rw [List.cons_append, List.dropWhile_cons]
    by_cases hc : isspace c = true
    · rw [if_pos hc, ih]
      simp only [List.all_cons, hc, Bool.true_and, List.dropWhile_cons, if_true]
    · rw [if_neg hc, if_neg (by simp [hc]), List.dropWhile_cons, if_neg hc]
      simp

theorem index_clean {n : Nat} {c : Char} (h : c ∈ index n) : c ≠ '"' ∧ c ≠ '[' :=
  ⟨fun e => index_not (n := n) (d := '"') (by decide) (by decide) (e ▸ h), fun e => index_not (n := n) (d := '[') (by decide) (by decide) (e ▸ h)⟩

theorem label1_clean (i : Nat) : ∀ c ∈ label1 i, c ≠ '"' ∧ c ≠ '[' := by
  intro c hc
  rcases label1_mem hc with h | rfl
  · exact index_clean h
  · decide

theorem label2_clean (i j : Nat) : ∀ c ∈ label2 i j, c ≠ '"' ∧ c ≠ '[' := by
  intro c hc
  rcases label2_mem hc with h | h | rfl
  · exact index_clean h
  · exact index_clean h
  · decide

/-- **C76.** The cases of one `Cases` have different names in reports and for filters, whatever the values and also when tags are cut out of them. -/
theorem C76_test_names (f f' p : List Char) (i i' : Nat) (x x' : List Char) (hp : Clean '[' p) (t t' : Test)
    (h : Test.new f (name1 p i x) = some t) (h' : Test.new f' (name1 p i' x') = some t') (he : t.name = t'.name) : i = i' := by
  rw [name1_label] at h h'
  obtain ⟨r, e⟩ := name_labelled hp (label1_clean i) h
  obtain ⟨r', e'⟩ := name_labelled hp (label1_clean i') h'
  rw [e, e'] at he
  simp only [label1, List.append_assoc, drop_labelled] at he
  exact (digits_dot i i' _ _ (List.append_cancel_left he)).1

/-- **C76.** So have the cases of one `Casess`. -/
theorem C76_test_names2 (f f' p : List Char) (i j i' j' : Nat) (x y x' y' : List Char) (hp : Clean '[' p) (t t' : Test)
    (h : Test.new f (name2 p i j x y) = some t) (h' : Test.new f' (name2 p i' j' x' y') = some t') (he : t.name = t'.name) : i = i' ∧ j = j' := by
  rw [name2_label] at h h'
  obtain ⟨r, e⟩ := name_labelled hp (label2_clean i j) h
  obtain ⟨r', e'⟩ := name_labelled hp (label2_clean i' j') h'
  rw [e, e'] at he
  simp only [label2, List.append_assoc, List.cons_append, drop_labelled] at he
  obtain ⟨h1, h2⟩ := digits_dot i i' _ _ (List.append_cancel_left he)
  exact ⟨h1, (digits_dot j j' _ _ h2).1⟩

/-- **C76.** The name tells prefix, index and value, if nothing is written in brackets outside of quotes. -/
theorem C76_test_name (f p : List Char) (i : Nat) (x : List Char) (hlen : (name1 p i x).length < 512) (hc : ∀ u v, name1 p i x = u ++ '[' :: v → u.countP isQuote % 2 = 1) :
    ∃ t, Test.new f (name1 p i x) = some t ∧ t.name = (name1 p i x).dropWhile isspace ∧ t.tags = [] := by
  obtain ⟨t, h1, _, h2, h3⟩ := H2.Filter.C38_plain f (name1 p i x) hlen (by
    rintro ⟨pre, mid, post, e, h1, -⟩
    have := hc pre (mid ++ ']' :: post) (by simpa using e)
    have := h1.1
    omega)
  exact ⟨t, h1, h2, h3⟩

/-- **C76.** Tags written in the prefix are the tags of every case, and no part of its name. -/
theorem C76_test_tags (f pre mid post : List Char) (ts : List (List Char)) (i : Nat) (x : List Char)
    (hlen : (name1 (pre ++ '[' :: mid ++ ']' :: post) i x).length < 512) (h1 : Clean '[' pre) (h2 : Clean ']' mid) (h3 : Tags mid ts) :
    ∃ t, Test.new f (name1 (pre ++ '[' :: mid ++ ']' :: post) i x) = some t ∧ t.name = (name1 (pre ++ post) i x).dropWhile isspace ∧ t.tags = ts.take 63 := by
  have e : name1 (pre ++ '[' :: mid ++ ']' :: post) i x = pre ++ '[' :: mid ++ ']' :: (post ++ ' ' :: (label1 i ++ ' ' :: x)) := by
    rw [name1_label]; simp
  rw [e] at hlen ⊢
  obtain ⟨t, h4, _, h5, h6⟩ := H2.Filter.C38_tags f pre mid (post ++ ' ' :: (label1 i ++ ' ' :: x)) ts hlen h1 h2 h3
  refine ⟨t, h4, ?_, h6⟩
  rw [h5, name1_label]
  simp

theorem last_split {d : Char} {u v a b : List Char} (ha : d ∉ a) (hb : d ∉ b) (h : u ++ d :: a = v ++ d :: b) : a = b := by
  have h1 := congrArg List.reverse h
  simp only [List.reverse_append, List.reverse_cons, List.append_assoc, List.singleton_append] at h1
  have := (split_at (by simpa using ha) (by simpa using hb) h1).1
  simpa using this

theorem lower_other {c d : Char} (hd : d = '.' ∨ d = ' ') (h : c.toLower = d) : c = d := by
  unfold Char.toLower at h
  split at h
  · next hc =>
    exfalso
    have h1 := congrArg Char.toNat h
    rcases hd with rfl | rfl <;>
    · simp only [Char.toNat] at h1
      have := hc.1
      have := hc.2
      simp only [UInt32.le_iff_toNat_le] at *
      simp at *
      omega
  · exact h

theorem index_lower_inj {i j : Nat} (h : (index i).map Char.toLower = (index j).map Char.toLower) : i = j := by
  have digits : ∀ n, n ≤ 32 → (index n).map Char.toLower = index n := by
    have : ∀ n ∈ List.range 33, (index n).map Char.toLower = index n := by decide +kernel
    exact fun n hn => this n (by simp; omega)
  have mixed : ∀ a b : Nat, a ≤ 32 → ¬ b ≤ 32 → (index a).map Char.toLower = (index b).map Char.toLower → False := by
    intro a b ha hb e
    have h1 : 'h' ∈ (index b).map Char.toLower := by
      rw [List.mem_map]
      refine ⟨'H', ?_, by decide⟩
      unfold index
      rw [if_neg hb, show b - 32 = (b - 33) + 1 by omega, List.replicate_succ]
      simp
    rw [← e, digits a ha] at h1
    exact index_not (by decide) (by decide) h1
  by_cases hi : i ≤ 32
  · by_cases hj : j ≤ 32
    · rw [digits i hi, digits j hj] at h; exact index_inj h
    · exact (mixed i j hi hj h).elim
  · by_cases hj : j ≤ 32
    · exact (mixed j i hj hi h.symm).elim
    · have := congrArg List.length h
      rw [List.length_map, List.length_map, index_length hi, index_length hj] at this
      omega

theorem index_lower_not {n : Nat} {d : Char} (hd : d = '.' ∨ d = ' ') : d ∉ (index n).map Char.toLower := by
  intro h
  obtain ⟨c, hc, e⟩ := List.mem_map.1 h
  have := lower_other hd e
  subst this
  rcases hd with rfl | rfl
  · exact index_not (by decide) (by decide) hc
  · exact index_not (by decide) (by decide) hc

/-- **C76.** One case of a `Cases` is run alone by its name, `-i case=name`: of the names of its cases the pattern fits no other, if the prefix has no
point and is not blank, no value has the index with a point and a blank in it, and there are no brackets and wildcards. -/
theorem C76_alone (Wild : List Char → List Char → Prop) (f f' p : List Char) (i j : Nat) (x y : List Char) (t u : Test)
    (ht : Test.new f (name1 p i x) = some t) (hu : Test.new f' (name1 p j y) = some u)
    (hp : ∃ c ∈ p, isspace c = false) (hdot : '.' ∉ p) (hx : ∀ c ∈ name1 p i x, c ∉ ['?', '*', '[', ']']) (hy : '[' ∉ name1 p j y)
    (hv : ∀ a b c, ' ' :: y = a ++ b ++ c → ¬ Alike b (' ' :: index i ++ ['.', ' ']))
    (hfit : Fits Wild t.name u.name) : i = j := by
  have name : ∀ (f : List Char) (i : Nat) (x : List Char) (t : Test), '[' ∉ name1 p i x → Test.new f (name1 p i x) = some t →
      t.name = stem p ++ (index i ++ '.' :: ' ' :: x) ∧ ∀ c ∈ t.name, c ∈ name1 p i x := by
    intro f i x t hn h
    have hlen : (name1 p i x).length < 512 := by
      rcases Nat.lt_or_ge (name1 p i x).length 512 with h' | h'
      · exact h'
      · rw [Test.new, splitDescribe, if_pos h'] at h; cases h
    obtain ⟨t', h1, h2, _⟩ := C76_test_name f p i x hlen (fun u v e => absurd (by rw [e]; simp) hn)
    rw [h] at h1; cases h1
    refine ⟨?_, fun c hc => by rw [h2] at hc; exact (List.dropWhile_sublist isspace).subset hc⟩
    rw [h2, name1_label, label1]
    simp only [List.append_assoc, List.singleton_append]
    exact drop_labelled p i _
  obtain ⟨e1, hsub⟩ := name f i x t (fun h => hx _ h (by simp)) ht
  obtain ⟨e2, -⟩ := name f' j y u hy hu
  have hs : stem p = p.dropWhile isspace ++ [' '] := by
    unfold stem
    rw [if_neg]
    intro h
    obtain ⟨c, hc, h'⟩ := hp
    rw [List.all_eq_true.1 h c hc] at h'; cases h'
  have hq : '.' ∉ p.dropWhile isspace := fun h => hdot ((List.dropWhile_sublist isspace).subset h)
  generalize p.dropWhile isspace = q at hs hq
  rw [hs] at e1 e2
  rcases hfit with ⟨a, b, c, h1, h2⟩ | ⟨⟨c, hc, hs⟩, _⟩
  · rw [e2] at h1
    rw [e1] at h2
    have h3 := congrArg (List.map Char.toLower) h1
    unfold Alike at h2
    simp only [List.map_append, h2] at h3
    simp only [List.map_append, List.map_cons, List.map_nil, List.append_assoc, List.singleton_append, List.cons_append, List.nil_append] at h3
    have ld : '.'.toLower = '.' := by decide
    have ls : ' '.toLower = ' ' := by decide
    rw [ld, ls] at h3
    have hq' : '.' ∉ q.map Char.toLower := by
      intro h
      obtain ⟨c, hc, e⟩ := List.mem_map.1 h
      exact hq (lower_other (.inl rfl) e ▸ hc)
    have hv' : ¬ (' ' :: ((index i).map Char.toLower ++ ['.', ' '])) <:+: ' ' :: y.map Char.toLower := by
      rintro ⟨u, v, e⟩
      have e' : (' ' :: y).map Char.toLower = u ++ ((' ' :: ((index i).map Char.toLower ++ ['.', ' '])) ++ v) := by
        rw [List.map_cons, ls, ← e, List.append_assoc]
      obtain ⟨l1, l2, h4, h5, h6⟩ := List.map_eq_append_iff.1 e'
      obtain ⟨l3, l4, h7, h8, h9⟩ := List.map_eq_append_iff.1 h6
      refine hv l1 l3 l4 (by rw [h4, h7, List.append_assoc]) ?_
      unfold Alike
      rw [h8]
      simp [ld, ls]
    have ndi : '.' ∉ (index i).map Char.toLower := index_lower_not (.inl rfl)
    have ndj : '.' ∉ (index j).map Char.toLower := index_lower_not (.inl rfl)
    have nsi : ' ' ∉ (index i).map Char.toLower := index_lower_not (.inr rfl)
    have nsj : ' ' ∉ (index j).map Char.toLower := index_lower_not (.inr rfl)
    apply index_lower_inj
    generalize (index i).map Char.toLower = di at *
    generalize (index j).map Char.toLower = dj at *
    generalize q.map Char.toLower = q at *
    generalize a.map Char.toLower = a at *
    generalize c.map Char.toLower = c at *
    generalize x.map Char.toLower = x at *
    generalize y.map Char.toLower = y at *
    -- the point of the pattern is that of the name, or one in the value
    have h4 : (q ++ ' ' :: dj) ++ '.' :: (' ' :: y) = (a ++ q ++ ' ' :: di) ++ '.' :: (' ' :: (x ++ c)) := by simpa using h3
    have nA : '.' ∉ q ++ ' ' :: dj := by simp [hq', ndj]
    rcases List.append_eq_append_iff.1 h4 with ⟨w, h5, h6⟩ | ⟨w, h5, h6⟩
    · cases w with
      | nil =>
        rw [List.append_nil] at h5
        exact last_split (u := a ++ q) (v := q) nsi nsj h5
      | cons k w =>
        injection h6 with h6 h7
        subst h6
        -- the point is before the index
        exfalso
        have h8 : (a ++ q) ++ ' ' :: di = (q ++ ' ' :: dj) ++ '.' :: w := h5
        rcases List.append_eq_append_iff.1 h8 with ⟨z, h9, h10⟩ | ⟨z, h9, h10⟩
        · have : '.' ∈ ' ' :: di := by rw [h10]; simp
          simp [ndi] at this
        · cases z with
          | nil =>
            simp only [List.nil_append] at h10
            injection h10 with h10 _
            exact absurd h10 (by decide)
          | cons k z =>
            injection h10 with h10 h11
            subst h10
            refine hv' ⟨z, x ++ c, ?_⟩
            rw [h7, h11]; simp
    · cases w with
      | nil =>
        rw [List.append_nil] at h5
        exact last_split (u := a ++ q) (v := q) nsi nsj h5.symm
      | cons k w =>
        injection h6 with h6 _
        subst h6
        exact absurd (by rw [h5]; simp) nA
  · exact absurd hs (hx c (hsub c hc))

/-! ### Cases -/

example (t t' : Test) (h : Test.new [] (name1 "get [fast]".toList 0 "m[0]".toList) = some t)
    (h' : Test.new [] (name1 "get".toList 1 "m[0]".toList) = some t') : t.tags = ["fast".toList] ∧ t'.name = "get 1. m".toList := by
  rw [show Test.new [] (name1 "get [fast]".toList 0 "m[0]".toList) = some ⟨[], "get  0. m[0]".toList, ["fast".toList]⟩ by decide +kernel] at h
  rw [show Test.new [] (name1 "get".toList 1 "m[0]".toList) = some ⟨[], "get 1. m".toList, ["0".toList]⟩ by decide +kernel] at h'
  cases h; cases h'; decide

private theorem clean_get : Clean '[' "get".toList := by
  refine ⟨by decide, fun u v e => ?_⟩
  have : '[' ∈ "get".toList := by rw [e]; simp
  exact absurd this (by decide)

/-- The values `m[0]` and `m[1]`. -/
example (t t' : Test) (h : Test.new [] (name1 "get".toList 0 "m[0]".toList) = some t) (h' : Test.new [] (name1 "get".toList 1 "m[1]".toList) = some t') :
    t.name ≠ t'.name := fun e => absurd (C76_test_names [] [] _ 0 1 _ _ clean_get t t' h h' e) (by decide)

example (t t' : Test) (h : Test.new [] (name2 "get".toList 0 1 "a".toList "b".toList) = some t)
    (h' : Test.new [] (name2 "get".toList 0 2 "a".toList "b".toList) = some t') : t.name ≠ t'.name :=
  fun e => absurd (C76_test_names2 [] [] _ 0 1 0 2 _ _ _ _ clean_get t t' h h' e).2 (by decide)

/-- `-i "case=add 1. 2.5"` beside `add 11. 2.5`. -/
example : ¬ Fits (fun _ _ => True) "add 1. 2.5".toList "add 11. 2.5".toList := by
  intro h
  have := C76_alone (fun _ _ => True) [] [] "add".toList 1 11 "2.5".toList "2.5".toList ⟨[], "add 1. 2.5".toList, []⟩ ⟨[], "add 11. 2.5".toList, []⟩
    (by decide +kernel) (by decide +kernel) ⟨'a', by decide, by decide⟩ (by decide) (by decide +kernel) (by decide +kernel) (by
      intro a b c e hb
      have h1 := congrArg List.length hb
      have h2 := congrArg List.length e
      rw [List.length_map, List.length_map, show (' ' :: index 1 ++ ['.', ' ']).length = 4 by decide +kernel] at h1
      rw [List.length_append, List.length_append, show (' ' :: "2.5".toList).length = 4 by decide] at h2
      have ha : a = [] := List.length_eq_zero_iff.1 (by omega)
      have hc : c = [] := List.length_eq_zero_iff.1 (by omega)
      subst ha hc
      simp only [List.nil_append, List.append_nil] at e
      subst e
      exact absurd hb (by unfold Alike; decide +kernel)) h
  exact absurd this (by decide)

example : ∃ t, Test.new [] (name1 "add".toList 3 "\"[x]\"".toList) = some t ∧ t.name = "add 3. \"[x]\"".toList ∧ t.tags = [] := by
  refine ⟨⟨[], "add 3. \"[x]\"".toList, []⟩, by decide +kernel, rfl, rfl⟩

example (x : List Char) (hx : x.length < 400) : ∃ t, Test.new [] (name1 ("add ".toList ++ '[' :: "slow".toList ++ ']' :: []) 3 x) = some t ∧
    t.name = (name1 ("add ".toList ++ []) 3 x).dropWhile isspace ∧ t.tags = ["slow".toList].take 63 := by
  have none : ∀ (d : Char) (l : List Char), l.countP isQuote = 0 → d ∉ l → Clean d l :=
    fun d l h h' => ⟨by omega, fun u v e => absurd (by rw [e]; simp) h'⟩
  refine C76_test_tags [] _ _ _ _ 3 x ?_ (none _ _ (by decide) (by decide)) (none _ _ (by decide) (by decide)) ?_
  · rw [name1_label]
    simp only [List.length_append, List.length_cons]
    have : (label1 3).length = 2 := by decide +kernel
    simp [this]; omega
  · exact Tags.last (ds := []) (t := "slow".toList) (by simp) (by decide) (by unfold H2.Filter.Sep; decide)

/-! ### What is false of the code -/

/-- C76 (fails).  A value in brackets is cut out of the name and becomes a tag: `m[0]` of `Cases(get, (m[0], m[1]))`. -/
theorem C76_bracket_false : Test.new [] (name1 "get".toList 0 "m[0]".toList) = some ⟨[], "get 0. m".toList, ["0".toList]⟩ := by decide +kernel

/-- C76 (fails).  From the thirty-fourth value on the name tells no number. -/
theorem C76_number_false : name1 "add".toList 33 "7".toList = "add H2PP_INC_32. 7".toList ∧
    name1 "add".toList 34 "7".toList = "add H2PP_INC_H2PP_INC_32. 7".toList := by decide +kernel

/-- C76 (fails).  Without a prefix a case cannot be run alone by its name: `-i "case=1. 5"` runs also the one named `11. 5`. -/
theorem C76_alone_false : ∃ t u, Test.new [] (name1 [] 1 "5".toList) = some t ∧ Test.new [] (name1 [] 11 "5".toList) = some u ∧
    Fits (fun _ _ => False) t.name u.name :=
  ⟨⟨[], "1. 5".toList, []⟩, ⟨[], "11. 5".toList, []⟩, by decide +kernel, by decide +kernel, .inl ⟨['1'], "1. 5".toList, [], by decide, rfl⟩⟩

end H2.SuiteFn
