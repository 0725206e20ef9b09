import Verif.MemText.Model
import Verif.MemText.Spec
import Verif.Message.Lemmas
import Verif.Memory.Props2
namespace H2.MemText
open H2.Layout (Word Line brush indent text)
open H2.Message (gray decimal text_append text_word text_gray text_brush text_indent text_nil)
open H2.Memory

theorem distinct_mem {α} [DecidableEq α] (x : α) (xs : List α) : x ∈ distinct xs ↔ x ∈ xs := by
  induction xs with
  | nil => simp [distinct]
  | cons y ys ih =>
    simp only [distinct, List.mem_cons, List.mem_filter, ih]
    by_cases h : x = y <;> simp [h]

theorem distinct_snoc {α} [DecidableEq α] (xs : List α) (y : α) :
    distinct (xs ++ [y]) = if y ∈ xs then distinct xs else distinct xs ++ [y] := by
  induction xs with
  | nil => simp [distinct]
  | cons x xs ih =>
    simp only [List.cons_append, distinct, ih]
    by_cases h : y = x
    · subst h
      simp only [List.mem_cons, true_or, if_true]
      split
      · rfl
      · rw [List.filter_append]; simp
    · simp only [List.mem_cons, h, false_or]
      split
      · rfl
      · rw [List.filter_append]; simp [h]

theorem distinct_nodup {α} [DecidableEq α] (xs : List α) : (distinct xs).Nodup := by
  induction xs with
  | nil => simp [distinct]
  | cons x xs ih =>
    simp only [distinct, List.nodup_cons]
    exact ⟨by simp, ih.filter _⟩

theorem distinct_len {α} [DecidableEq α] (xs : List α) : (distinct xs).length ≤ xs.length := by
  induction xs with
  | nil => simp [distinct]
  | cons x xs ih =>
    simp only [distinct, List.length_cons]
    have := List.length_filter_le (fun y => decide (y ≠ x)) (distinct xs)
    omega

/-- The sizes of areas, and how many have each. -/
def tally (ns : List Nat) : List (Nat × Nat) := (distinct ns).map fun n => (n, ns.count n)

theorem addSize_tally (ns : List Nat) (n : Nat) : addSize n (tally ns) = tally (ns ++ [n]) := by
  have key : ∀ (l : List Nat) (f : Nat → Nat), l.Nodup → addSize n (l.map fun m => (m, f m)) =
      if n ∈ l then l.map (fun m => (m, if m = n then f m + 1 else f m)) else l.map (fun m => (m, f m)) ++ [(n, 1)] := by
    intro l f
    induction l with
    | nil => intro _; simp [addSize]
    | cons m l ih =>
      intro hn
      simp only [List.nodup_cons] at hn
      simp only [List.map_cons, addSize]
      by_cases h : m = n
      · subst h
        simp only [if_true, List.mem_cons, true_or]
        congr 1
        apply List.map_congr_left
        intro a ha
        rw [if_neg]
        rintro rfl
        exact hn.1 ha
      · have h' : ¬ n = m := fun e => h e.symm
        rw [if_neg h, ih hn.2]
        simp only [List.mem_cons, h', false_or]
        split
        · simp [h]
        · simp
  unfold tally
  rw [key _ _ (distinct_nodup ns), distinct_snoc]
  simp only [distinct_mem]
  split
  · apply List.map_congr_left
    intro a _
    rw [List.count_append]
    by_cases h : a = n
    · simp [h]
    · have : ¬ n = a := fun e => h e.symm
      simp [h, this]
  · next hm =>
    rw [List.map_append]
    congr 1
    · apply List.map_congr_left
      intro a ha
      have : ¬ n = a := by rintro rfl; exact hm ((distinct_mem _ _).1 ha)
      rw [List.count_append]; simp [this]
    · have := List.count_eq_zero_of_not_mem hm
      simp [List.count_append, this]

theorem total_tally (ns : List Nat) : totalOf (tally ns) = ns.sum := by
  have : ∀ k (l : List Nat), l.length = k → totalOf (tally l) = l.sum := by
    intro k
    induction k with
    | zero => intro l hl; rw [List.length_eq_zero_iff.1 hl]; rfl
    | succ k ih =>
      intro l hl
      rcases List.eq_nil_or_concat l with h | ⟨l', n, h⟩
      · subst h; simp at hl
      · subst h
        rw [List.concat_eq_append] at hl ⊢
        rw [← addSize_tally, total_addSize, ih l' (by simpa using hl)]
        simp
  exact this _ ns rfl

/-- The leaks of areas, by call site. -/
def groups (xs : List (Nat × Nat × Site)) : List LeakEntry :=
  (distinct (xs.map fun x => x.2.2)).map fun s =>
    (((xs.filter fun x => x.2.2 == s).map fun x => x.1).headD 0, s, tally ((xs.filter fun x => x.2.2 == s).map fun x => x.2.1))

theorem addLeak_groups (xs : List (Nat × Nat × Site)) (x : Nat × Nat × Site) :
    addLeak x.1 x.2.1 x.2.2 (groups xs) = groups (xs ++ [x]) := by
  obtain ⟨p, n, s⟩ := x
  have key : ∀ (l : List Site) (f : Site → Nat) (g : Site → List (Nat × Nat)), l.Nodup →
      addLeak p n s (l.map fun t => (f t, t, g t)) =
      if s ∈ l then l.map (fun t => (f t, t, if t = s then addSize n (g t) else g t)) else l.map (fun t => (f t, t, g t)) ++ [(p, s, [(n, 1)])] := by
    intro l f g
    induction l with
    | nil => intro _; simp [addLeak]
    | cons m l ih =>
      intro hn
      simp only [List.nodup_cons] at hn
      simp only [List.map_cons, addLeak]
      by_cases h : m = s
      · subst h
        simp only [if_true, List.mem_cons, true_or]
        congr 1
        apply List.map_congr_left
        intro a ha
        rw [if_neg]
        rintro rfl
        exact hn.1 ha
      · have h' : ¬ s = m := fun e => h e.symm
        rw [if_neg h, ih hn.2]
        simp only [List.mem_cons, h', false_or]
        split
        · simp [h]
        · simp
  unfold groups
  simp only
  rw [key _ _ _ (distinct_nodup _), List.map_append, List.map_cons, List.map_nil, distinct_snoc]
  simp only [distinct_mem]
  split
  · next hm =>
    apply List.map_congr_left
    intro a _
    rw [List.filter_append]
    by_cases h : a = s
    · subst h
      simp only [if_true, addSize_tally]
      obtain ⟨y, hy, hya⟩ := List.mem_map.1 hm
      obtain ⟨ys, hys⟩ : ∃ ys, xs.filter (fun x => x.2.2 == a) = ys := ⟨_, rfl⟩
      have : y ∈ ys := by rw [← hys]; simp [hy, hya]
      rw [hys]
      cases ys with
      | nil => simp at this
      | cons z zs => simp
    · have : ¬ s = a := fun e => h e.symm
      simp [h, this]
  · next hm =>
    rw [List.map_append]
    have hnil : xs.filter (fun x => x.2.2 == s) = [] := by
      rw [List.filter_eq_nil_iff]
      intro y hy e
      exact hm (List.mem_map.2 ⟨y, hy, by simpa using e⟩)
    congr 1
    · apply List.map_congr_left
      intro a ha
      have : ¬ s = a := by rintro rfl; exact hm ((distinct_mem _ _).1 ha)
      rw [List.filter_append]; simp [this]
    · rw [List.map_cons, List.map_nil, List.filter_append, hnil]
      simp [tally, distinct]

theorem foldl_groups (ps : List Piece) (xs : List (Nat × Nat × Site)) :
    ps.foldl (fun ls p => if !false && p.freeTimes == 0 then addLeak p.userPtr p.userSize p.site ls else ls) (groups xs) =
      groups (xs ++ (ps.filter fun p => p.freeTimes == 0).map fun p => (p.userPtr, p.userSize, p.site)) := by
  induction ps generalizing xs with
  | nil => simp
  | cons p ps ih =>
    rw [List.foldl_cons]
    by_cases h : (p.freeTimes == 0) = true
    · simp only [h, Bool.not_false, Bool.and_self, if_true, List.filter_cons, List.map_cons]
      have := ih (xs ++ [(p.userPtr, p.userSize, p.site)])
      simp only [Bool.not_false] at this
      rw [addLeak_groups xs (p.userPtr, p.userSize, p.site), this]
      simp
    · have h' : (p.freeTimes == 0) = false := by simpa using h
      simp only [h', Bool.and_false, Bool.false_eq_true, if_false, List.filter_cons]
      exact ih xs

theorem triples {page l ps} (h : All2 (Rep page) l ps) :
    ps.map (fun p => (p.userPtr, p.userSize, p.site)) = l.map fun e => (e.area.ptr, e.size, e.site) := by
  induction h with
  | nil => rfl
  | cons h _ ih => simp only [List.map_cons, ih, h.size, h.ptr, h.site]

theorem pop_leaks {page es h a l rest} (hp : 0 < page) (hr : Reach page es h) (hh : history page es = (a, l) :: rest)
    (hbad : ∀ e ∈ l, e.bad = none) (hn : a.noleak = false) :
    h.pop.2 = (distinct ((live l).map fun e => e.site)).map fun s =>
      Fail.leak (((ofSite s (live l)).map fun e => e.area.ptr).headD 0) ((ofSite s (live l)).map fun e => e.size).sum
        (tally ((ofSite s (live l)).map fun e => e.size)) s := by
  obtain ⟨b, bs, hb, hattr, hall, hpop⟩ := pop_cons hp hr hh
  rw [hpop, check_eq hall hbad, hattr, hn]
  have h0 := foldl_groups b.pieces []
  rw [List.nil_append, triples (live_partner hall)] at h0
  have h1 : groups [] = [] := rfl
  rw [h1] at h0
  rw [h0]
  unfold groups ofSite
  rw [List.map_map, List.map_map]
  apply List.map_congr_left
  intro s _
  simp only [Function.comp, leakFail, List.filter_map, List.map_map]
  have := total_tally (((live l).filter fun e => e.site == s).map fun e => e.size)
  unfold totalOf at this
  unfold Function.comp
  rw [this]

/-! ### Texts -/

theorem mem_toDigits (b : Nat) (hb : 1 < b) (n : Nat) (c : Char) (h : c ∈ Nat.toDigits b n) : ∃ d, d < b ∧ c = d.digitChar := by
  induction n using Nat.strongRecOn with
  | ind n ih =>
    rw [Nat.toDigits_eq_if hb] at h
    split at h
    · next hn => exact ⟨n, hn, by simpa using h⟩
    · next hn =>
      rcases List.mem_append.1 h with h | h
      · exact ih (n / b) (Nat.div_lt_self (by omega) hb) h
      · exact ⟨n % b, Nat.mod_lt _ (by omega), by simpa using h⟩

theorem esc_digits (b : Nat) (hb : 1 < b) (hb' : b ≤ 16) (n : Nat) : '\x1b' ∉ Nat.toDigits b n := by
  intro h
  obtain ⟨d, hd, e⟩ := mem_toDigits b hb n _ h
  have : ∀ d, d < 16 → '\x1b' ≠ d.digitChar := by decide
  exact this d (by omega) e

theorem pointer_eq (p : Nat) : pointer p = address p := rfl

theorem esc_address (p : Nat) : '\x1b' ∉ address p := by
  unfold address
  intro h
  rcases List.mem_append.1 h with h | h
  · exact absurd h (by decide)
  · exact esc_digits 16 (by omega) (by omega) p h

theorem number_eq (n : Nat) : number n = dec n := Nat.toList_repr

theorem esc_dec (n : Nat) : '\x1b' ∉ dec n := esc_digits 10 (by omega) (by omega) n

theorem signed_nat (k : Nat) : signed (k : Int) = ahead k := by
  unfold signed ahead decimal
  rw [if_pos (by omega)]
  congr 1
  exact Nat.toList_repr

theorem signed_neg (k : Nat) (h : 0 < k) : signed (-(k : Int)) = behind k := by
  unfold signed behind decimal
  rw [if_neg (by omega)]
  obtain ⟨m, rfl⟩ : ∃ m, k = m + 1 := ⟨k - 1, by omega⟩
  show ("-" ++ Nat.repr (m + 1)).toList = _
  rw [String.toList_append, Nat.toList_repr]; rfl

theorem esc_ahead (k : Nat) : '\x1b' ∉ ahead k := by
  intro h
  rcases List.mem_cons.1 h with h | h
  · exact absurd h (by decide)
  · exact esc_dec k h

theorem esc_behind (k : Nat) : '\x1b' ∉ behind k := by
  intro h
  rcases List.mem_cons.1 h with h | h
  · exact absurd h (by decide)
  · exact esc_dec k h

theorem wrap32 (n : Int) (h1 : -2 ^ 31 ≤ n) (h2 : n < 2 ^ 31) : wrap 32 n = n := by
  unfold wrap
  simp only [show 32 - 1 = 31 from rfl]
  omega

theorem wrap64 (n : Int) (h1 : -2 ^ 63 ≤ n) (h2 : n < 2 ^ 63) : wrap 64 n = n := by
  unfold wrap
  simp only [show 64 - 1 = 63 from rfl]
  omega

theorem text_cons (w : Word) (l : Line) (h : '\x1b' ∉ w) : text (w :: l) = w ++ text l := by
  rw [← List.singleton_append, text_append, text_word w h]

theorem upper_digit (d : Nat) (h : d < 16) : H2.MemDiff.upperDigit d = digits.getD d ' ' := by
  have : ∀ d, d < 16 → H2.MemDiff.upperDigit d = digits.getD d ' ' := by decide
  exact this d h

theorem esc_upper (d : Nat) (h : d < 16) : H2.MemDiff.upperDigit d ≠ '\x1b' := by
  have : ∀ d, d < 16 → H2.MemDiff.upperDigit d ≠ '\x1b' := by decide
  exact this d h

theorem spot_brush (b : UInt8) :
    spotByte b = brush [[H2.MemDiff.upperDigit (b.toNat / 16), H2.MemDiff.upperDigit (b.toNat % 16), ' ']] "bold,red".toList := rfl

theorem text_spot (b : UInt8) : text (spotByte b) = byteText b ++ " ".toList := by
  have h1 : b.toNat / 16 < 16 := by have := b.toNat_lt; omega
  have h2 : b.toNat % 16 < 16 := Nat.mod_lt _ (by omega)
  rw [spot_brush, text_brush, text_word]
  · unfold byteText
    rw [upper_digit _ h1, upper_digit _ h2]; rfl
  · have a := esc_upper _ h1
    have c := esc_upper _ h2
    simp only [List.mem_cons, List.not_mem_nil, or_false, not_or]
    exact ⟨fun e => a e.symm, fun e => c e.symm, by decide⟩

theorem text_flatten (ls : List Line) : text ls.flatten = (ls.map text).flatten := by
  induction ls with
  | nil => rfl
  | cons l ls ih => rw [List.flatten_cons, text_append, ih, List.map_cons, List.flatten_cons]

theorem text_spots (bs : List UInt8) : text (bs.map spotByte).flatten = (bs.map fun b => byteText b ++ " ".toList).flatten := by
  rw [text_flatten, List.map_map]
  congr 1
  apply List.map_congr_left
  intro b _
  exact text_spot b

theorem esc_alloc (a : Alloc) : '\x1b' ∉ allocName a := by cases a <;> decide
theorem esc_rel (r : Rel) : '\x1b' ∉ relName r := by cases r <;> decide
theorem esc_action (r : Action) : '\x1b' ∉ actionName r := by cases r <;> decide
theorem alloc_eq (a : Alloc) : allocName a = (allocator a).toList := by cases a <;> rfl
theorem rel_eq (a : Rel) : relName a = (releaser a).toList := by cases a <;> rfl
theorem action_eq (a : Action) : actionName a = (deed a).toList := by cases a <;> rfl

/-! ### Backtraces -/

theorem text_sequence (pad : Nat) (ls : List Line) (i : Nat) :
    (sequence pad i ls).map text = (List.range ls.length).map fun j =>
      List.replicate pad ' ' ++ dec (i + j) ++ ". ".toList ++ (ls.map text).getD j [] := by
  induction ls generalizing i with
  | nil => rfl
  | cons l ls ih =>
    have hd : text (["\x1b{+dark gray}".toList, number i ++ ". ".toList, "\x1b{-dark gray}".toList] ++ l) = dec i ++ ". ".toList ++ text l := by
      rw [text_append]
      congr 1
      have : ["\x1b{+dark gray}".toList, number i ++ ". ".toList, "\x1b{-dark gray}".toList] = H2.Abbrev.dim (number i ++ ". ".toList) := rfl
      rw [this, H2.Abbrev.text_vis, H2.Abbrev.vis_dim, number_eq]
      rw [number_eq]
      intro h
      rcases List.mem_append.1 h with h | h
      · exact esc_dec i h
      · exact absurd h (by decide)
    have hi : ∀ l : Line, text (indent l pad) = List.replicate pad ' ' ++ text l := by
      intro l
      have : indent l pad = indent [] pad ++ l := by unfold indent; split <;> rfl
      rw [this, text_append, text_indent]
    rw [sequence, List.map_cons, hi, hd, List.length_cons, List.range_succ_eq_map, List.map_cons, ih (i + 1), List.map_map]
    congr 1
    · simp
    · apply List.map_congr_left
      intro j _
      simp [show i + 1 + j = i + (j + 1) by omega]

theorem text_backtrace (pad : Nat) (fs : List Word) (h : ∀ f ∈ fs, '\x1b' ∉ f) : (backtrace pad fs).map text = traceText pad fs := by
  unfold backtrace traceText
  rw [text_sequence, List.length_map, List.map_map]
  apply List.map_congr_left
  intro j _
  have : List.map (text ∘ fun c => if ("h2::".toList.isPrefixOf c || contains c ": h2::".toList) = true then brush [c] "dark gray".toList else [c]) fs = fs := by
    rw [List.map_congr_left (g := id)]
    · simp
    · intro c hc
      simp only [Function.comp, id]
      split
      · rw [text_brush, text_word _ (h c hc)]
      · rw [text_word _ (h c hc)]
  rw [this, Nat.zero_add]

/-! ### Leaks -/

theorem sizeLoop_all (v : Int) (total n i : Nat) (ps : List (Nat × Nat)) (h : ¬ v ≤ 3 ∨ i + ps.length ≤ n) :
    (sizeLoop v total n i ps).2 = (ps.map (·.2)).sum ∧
    text (sizeLoop v total n i ps).1 = (if i = 0 ∨ ps = [] then [] else ", ".toList) ++
      List.intercalate ", ".toList (ps.map fun p => dec p.1 ++ if 1 < p.2 then 'x' :: dec p.2 else []) := by
  induction ps generalizing i with
  | nil => simp [sizeLoop, text_nil]
  | cons p ps ih =>
    obtain ⟨a, b⟩ := p
    have hc : ¬ (v ≤ compactPassed ∧ n < i + 1) := by
      simp only [List.length_cons] at h
      rintro ⟨h1, h2⟩
      rcases h with h | h
      · exact h h1
      · omega
    obtain ⟨ih1, ih2⟩ := ih (i + 1) (by simp only [List.length_cons] at h; omega)
    simp only [sizeLoop, if_neg hc]
    refine ⟨by rw [ih1]; simp, ?_⟩
    rw [text_append, text_append, text_append, ih2]
    have hcomma : text (gray (H2.Message.commaIf (i ≠ 0) ", ".toList [])) = if i = 0 then [] else ", ".toList := by
      by_cases h0 : i = 0
      · subst h0; rfl
      · rw [if_neg h0]
        unfold H2.Message.commaIf
        simp only [ne_eq, h0, not_false_eq_true, decide_true, if_true]
        exact text_gray _ (by decide)
    have hx : text (if 1 < b then gray "x".toList ++ [number b] else []) = if 1 < b then 'x' :: dec b else [] := by
      split
      · rw [text_append, text_gray _ (by decide), number_eq, text_word _ (esc_dec b)]; rfl
      · rfl
    rw [hcomma, hx, number_eq, text_word _ (esc_dec a)]
    simp only [List.cons_ne_nil, or_false, Nat.add_eq_zero_iff, Nat.one_ne_zero, and_false, false_or, List.map_cons]
    cases ps with
    | nil => simp
    | cons q qs => simp [List.intercalate_cons_cons]

theorem sizeLoop_cut (v : Int) (total i : Nat) (ps : List (Nat × Nat)) (hv : v ≤ 3) (n : Nat) (h : n < i + ps.length) (hi : i ≤ n) :
    (sizeLoop v total n i ps).2 = ((ps.take (n - i)).map (·.2)).sum ∧
    text (sizeLoop v total n i ps).1 = (if i = 0 then [] else ", ".toList) ++
      List.intercalate ", ".toList (((ps.take (n - i)).map fun p => dec p.1 ++ if 1 < p.2 then 'x' :: dec p.2 else []) ++
        ["...".toList ++ dec (total - n)]) := by
  induction ps generalizing i with
  | nil => simp at h; omega
  | cons p ps ih =>
    obtain ⟨a, b⟩ := p
    have hcomma : text (gray (H2.Message.commaIf (i ≠ 0) ", ".toList [])) = if i = 0 then [] else ", ".toList := by
      by_cases h0 : i = 0
      · subst h0; rfl
      · rw [if_neg h0]
        unfold H2.Message.commaIf
        simp only [ne_eq, h0, not_false_eq_true, decide_true, if_true]
        exact text_gray _ (by decide)
    by_cases hin : i = n
    · subst hin
      have hc : v ≤ compactPassed ∧ i < i + 1 := ⟨hv, by omega⟩
      simp only [sizeLoop, if_pos hc, Nat.sub_self, List.take_zero, List.map_nil, List.sum_nil, List.nil_append, List.intercalate_singleton, true_and]
      rw [text_append, hcomma, text_brush, number_eq, text_cons _ _ (by decide), text_word _ (esc_dec _)]
    · have hc : ¬ (v ≤ compactPassed ∧ n < i + 1) := by omega
      obtain ⟨ih1, ih2⟩ := ih (i + 1) (by simp only [List.length_cons] at h; omega) (by omega)
      obtain ⟨k, hk⟩ : ∃ k, n - i = k + 1 := ⟨n - i - 1, by omega⟩
      have hk' : n - (i + 1) = k := by omega
      simp only [sizeLoop, if_neg hc, hk, List.take_succ_cons]
      rw [hk'] at ih1 ih2
      refine ⟨by rw [ih1]; simp, ?_⟩
      rw [text_append, text_append, text_append, ih2]
      have hx : text (if 1 < b then gray "x".toList ++ [number b] else []) = if 1 < b then 'x' :: dec b else [] := by
        split
        · rw [text_append, text_gray _ (by decide), number_eq, text_word _ (esc_dec b)]; rfl
        · rfl
      rw [hcomma, hx, number_eq, text_word _ (esc_dec a)]
      simp only [Nat.add_eq_zero_iff, Nat.one_ne_zero, and_false, if_false, List.map_cons, List.cons_append]
      rw [List.intercalate_cons_of_ne_nil (by simp)]
      simp

theorem count_pos_of_distinct {ns : List Nat} {n : Nat} (h : n ∈ distinct ns) : 0 < ns.count n :=
  List.count_pos_iff.2 ((distinct_mem _ _).1 h)

theorem counts_sum (ns : List Nat) : ((tally ns).map (·.2)).sum = ns.length := by
  have key : ∀ (n : Nat) (l : List (Nat × Nat)), ((addSize n l).map (·.2)).sum = (l.map (·.2)).sum + 1 := by
    intro n l
    induction l with
    | nil => simp [addSize]
    | cons p l ih =>
      obtain ⟨s, c⟩ := p
      rw [addSize]
      split
      · simp; omega
      · simp only [List.map_cons, List.sum_cons, ih]; omega
  have : ∀ k (l : List Nat), l.length = k → ((tally l).map (·.2)).sum = l.length := by
    intro k
    induction k with
    | zero => intro l hl; rw [List.length_eq_zero_iff.1 hl]; rfl
    | succ k ih =>
      intro l hl
      rcases List.eq_nil_or_concat l with h | ⟨l', n, h⟩
      · subst h; simp at hl
      · subst h
        rw [List.concat_eq_append] at hl ⊢
        rw [← addSize_tally, key, ih l' (by simpa using hl)]
        simp
  exact this _ ns rfl

theorem item_eq (ns l : List Nat) (h : ∀ n ∈ l, n ∈ distinct ns) :
    (l.map fun n => (n, ns.count n)).map (fun p => dec p.1 ++ if 1 < p.2 then 'x' :: dec p.2 else []) = l.map (sizeItem ns) := by
  rw [List.map_map]
  apply List.map_congr_left
  intro n hn
  have := count_pos_of_distinct (h n hn)
  simp only [Function.comp, sizeItem]
  by_cases h1 : ns.count n = 1
  · simp [h1]
  · rw [if_neg h1, if_pos (by omega)]

theorem text_leak (v : Int) (ptr : Nat) (ns : List Nat) (w : Word) (place : Option Word) (hw : '\x1b' ∉ w)
    (hp : ∀ p, place = some p → '\x1b' ∉ p) : text (leakLine v ptr ns.sum (tally ns) w place) = leakText v ptr ns w place := by
  have hbr : (1 < (sizeLoop v (tally ns).length 3 0 (tally ns)).2 ↔ ¬ ns.length ≤ 1) ∧
      text (sizeLoop v (tally ns).length 3 0 (tally ns)).1 = List.intercalate ", ".toList (sizesTold v ns) := by
    have hlen : (tally ns).length = (distinct ns).length := by simp [tally]
    by_cases hc : 4 ≤ v ∨ (distinct ns).length ≤ 3
    · obtain ⟨h1, h2⟩ := sizeLoop_all v (tally ns).length 3 0 (tally ns) (by rw [hlen]; omega)
      refine ⟨by rw [h1, counts_sum]; omega, ?_⟩
      rw [h2]
      simp only [true_or, if_true, List.nil_append, sizesTold, List.length_map]
      rw [if_pos hc, tally, item_eq _ _ (fun _ h => h)]
    · have hc' : v ≤ 3 ∧ 3 < (distinct ns).length := by omega
      obtain ⟨h1, h2⟩ := sizeLoop_cut v (tally ns).length 0 (tally ns) hc'.1 3 (by rw [hlen]; omega) (by omega)
      constructor
      · rw [h1]
        have := distinct_len ns
        have hge : ∀ (l : List Nat), (∀ n ∈ l, n ∈ distinct ns) → l.length ≤ ((l.map fun n => (n, ns.count n)).map (·.2)).sum := by
          intro l
          induction l with
          | nil => simp
          | cons a l ih =>
            intro hl
            have h1 := ih (fun n hn => hl n (List.mem_cons_of_mem _ hn))
            have h2 := count_pos_of_distinct (hl a List.mem_cons_self)
            simp only [List.map_cons, List.sum_cons, List.length_cons] at h1 ⊢
            omega
        have h3 := hge ((distinct ns).take 3) (fun n hn => List.mem_of_mem_take hn)
        rw [List.length_take] at h3
        unfold tally
        rw [← List.map_take]
        simp only [Nat.sub_zero]
        omega
      · rw [h2]
        simp only [if_true, List.nil_append, sizesTold, List.length_map, Nat.sub_zero, hlen]
        rw [if_neg hc, tally, ← List.map_take, item_eq _ _ (fun n hn => List.mem_of_mem_take hn), List.map_take]
  have hloc : text (H2.Message.locate { filine := place }) = at_ place := by
    unfold H2.Message.locate at_
    cases place with
    | none => rfl
    | some p => simp only; rw [text_append, text_gray _ (by decide), text_word _ (hp p rfl)]
  unfold leakLine leakText
  simp only
  rw [text_append, text_append, text_append, text_append, text_append, text_append, text_append, text_append, text_append, text_brush, text_brush, hloc,
    text_word _ hw, pointer_eq, number_eq, text_word _ (esc_address ptr), text_word _ (esc_dec _), text_word _ (by decide), text_word _ (by decide),
    text_word _ (by decide), text_word _ (by decide)]
  have hmid : text (if 1 < (sizeLoop v (tally ns).length 3 0 (tally ns)).2 then
      gray "[".toList ++ (sizeLoop v (tally ns).length 3 0 (tally ns)).1 ++ gray "] ".toList else []) =
      if ns.length ≤ 1 then [] else "[".toList ++ List.intercalate ", ".toList (sizesTold v ns) ++ "] ".toList := by
    by_cases h : ns.length ≤ 1
    · rw [if_pos h, if_neg (fun hh => (hbr.1.1 hh) h)]; rfl
    · rw [if_neg h, if_pos (hbr.1.2 h), text_append, text_append, text_gray _ (by decide), text_gray _ (by decide), hbr.2]
  rw [hmid]
  simp only [List.append_assoc]

/-! ### Accesses -/

theorem text_over (ptr size addr : Nat) (act : Action) (spot : List UInt8) (traced : Bool) (hout : addr < ptr ∨ ptr + size ≤ addr)
    (h1 : addr < ptr + size + 2 ^ 31) (h2 : ptr ≤ addr + 2 ^ 31) :
    text (overLine ptr size addr act spot traced) = outsideText ptr size addr act spot ++ (if traced then " at backtrace:".toList else []) := by
  have ho : overOffset ptr size addr = if ptr ≤ addr then ((addr - (ptr + size) : Nat) : Int) else -((ptr - addr : Nat) : Int) := by
    unfold overOffset
    by_cases hlt : ptr < addr
    · rw [if_pos hlt, if_pos (by omega), wrap64] <;> omega
    · rw [if_neg hlt, wrap64]
      · split <;> omega
      · omega
      · omega
  have hs : signed (wrap 32 (overOffset ptr size addr)) = if ptr ≤ addr then ahead (addr - (ptr + size)) else behind (ptr - addr) := by
    rw [ho]
    by_cases hle : ptr ≤ addr
    · rw [if_pos hle, if_pos hle, wrap32 _ (by omega) (by omega), signed_nat]
    · rw [if_neg hle, if_neg hle, wrap32 _ (by omega) (by omega), signed_neg _ (by omega)]
  have he : '\x1b' ∉ signed (wrap 32 (overOffset ptr size addr)) := by
    rw [hs]; split
    · exact esc_ahead _
    · exact esc_behind _
  have hw : (if overOffset ptr size addr ≥ 0 then "overflow".toList else "underflow".toList) = if ptr ≤ addr then "overflow".toList else "underflow".toList := by
    rw [ho]
    by_cases hle : ptr ≤ addr
    · rw [if_pos hle, if_pos hle, if_pos (by omega)]
    · rw [if_neg hle, if_neg hle, if_neg (by omega)]
  have hwe : '\x1b' ∉ (if ptr ≤ addr then "overflow".toList else "underflow".toList : List Char) := by split <;> decide
  have hte : '\x1b' ∉ (if traced then " at backtrace:".toList else [] : List Char) := by split <;> decide
  have hwt : (if ptr ≤ addr then " overflow ".toList else " underflow ".toList : List Char) =
      " ".toList ++ (if ptr ≤ addr then "overflow".toList else "underflow".toList) ++ " ".toList := by split <;> decide
  unfold overLine outsideText
  simp only
  rw [hw, text_append, text_append, text_append, text_append, text_append, text_append, text_append, text_append, text_append, text_append, text_append,
    text_append, text_append, text_append, text_brush, text_brush, text_gray _ (by decide), text_gray _ (by decide), text_word _ he,
    text_word _ hwe, text_word _ hte, pointer_eq, pointer_eq, text_word _ (esc_address _), text_word _ (esc_address _), text_word _ (esc_action _),
    text_spots, text_word _ (show '\x1b' ∉ " ".toList by decide), hs, action_eq, hwt]
  have e1 : " (".toList = " ".toList ++ "(".toList := by decide
  have e2 : ") ".toList = ")".toList ++ " ".toList := by decide
  rw [e1, e2]
  simp only [List.append_assoc]

theorem text_after (ptr addr : Nat) (act : Action) (h1 : addr < ptr + 2 ^ 31) (h2 : ptr ≤ addr + 2 ^ 31) :
    text (afterLine ptr addr act) = afterText ptr addr act := by
  have hs : signed (wrap 32 ((addr : Int) - ptr)) = if ptr ≤ addr then ahead (addr - ptr) else behind (ptr - addr) := by
    rw [wrap32 _ (by omega) (by omega)]
    by_cases hle : ptr ≤ addr
    · rw [if_pos hle, show (addr : Int) - ptr = ((addr - ptr : Nat) : Int) by omega, signed_nat]
    · rw [if_neg hle, show (addr : Int) - ptr = -((ptr - addr : Nat) : Int) by omega, signed_neg _ (by omega)]
  have he : '\x1b' ∉ signed (wrap 32 ((addr : Int) - ptr)) := by
    rw [hs]; split
    · exact esc_ahead _
    · exact esc_behind _
  unfold afterLine afterText
  rw [text_append, text_append, text_append, text_append, text_append, text_append, text_append, text_append, text_append, text_append, text_append,
    text_brush, text_brush, text_brush, text_gray _ (by decide), text_gray _ (by decide), text_word _ he, pointer_eq, pointer_eq,
    text_word _ (esc_address _), text_word _ (esc_address _), text_word _ (esc_action _), text_word _ (show '\x1b' ∉ " ".toList by decide),
    text_word _ (show '\x1b' ∉ " after free".toList by decide), text_word _ (show '\x1b' ∉ " at backtrace:".toList by decide), hs, action_eq]
  have e1 : " (".toList = " ".toList ++ "(".toList := by decide
  have e2 : ") ".toList = ")".toList ++ " ".toList := by decide
  have e3 : " after free at backtrace:".toList = " after free".toList ++ " at backtrace:".toList := by decide
  rw [e1, e2, e3]
  simp only [List.append_assoc]

/-! ### Forbidden accesses of a history -/

/-- A forbidden access lies in the mapping; one before the release lies on the guard page. -/
structure Sound (page : Nat) (e : Entry) : Prop where
  clean : e.clean = true → e.freed = true
  inside : ∀ a u, e.bad = some (a, u) → e.area.lo ≤ a ∧ a < e.area.hi + page
  guard : ∀ a, e.bad = some (a, false) → e.area.hi ≤ a
  freed : ∀ a, e.bad = some (a, true) → e.freed = true

theorem sound_touch {page addr w e} (h : Sound page e) : Sound page (e.touch page addr w) := by
  unfold Entry.touch
  split
  · next hc =>
    simp only [Bool.and_eq_true, Entry.covers, decide_eq_true_eq, Bool.or_eq_true] at hc
    refine ⟨h.clean, ?_, ?_, ?_⟩
    · intro a u e'
      simp only [Option.some.injEq, Prod.mk.injEq] at e'
      obtain ⟨rfl, _⟩ := e'
      exact hc.1.1
    · intro a e'
      simp only [Option.some.injEq, Prod.mk.injEq] at e'
      obtain ⟨rfl, hf⟩ := e'
      rcases hc.1.2 with h2 | h2
      · have := h.clean h2; rw [hf] at this; cases this
      · exact h2.2
    · intro a e'
      simp only [Option.some.injEq, Prod.mk.injEq] at e'
      exact e'.2
  · exact h

theorem sound_release {page ptr ok e} (h : Sound page e) : Sound page (e.release ptr ok) := by
  unfold Entry.release
  split
  · exact ⟨fun _ => rfl, h.inside, h.guard, fun _ _ => rfl⟩
  · exact h

theorem sound_updLast {page} (e : Entry) (he : Sound page e) : ∀ bs : Hist, (∀ b ∈ bs, ∀ e ∈ b.2, Sound page e) →
    ∀ b ∈ updLast (fun b : Attrs × List Entry => (b.1, b.2 ++ [e])) bs, ∀ e ∈ b.2, Sound page e
  | [], _ => by simp [updLast]
  | [x], h => by
    intro b hb e' he'
    simp only [updLast, List.mem_cons, List.not_mem_nil, or_false] at hb
    subst hb
    rcases List.mem_append.1 he' with h' | h'
    · exact h x (by simp) e' h'
    · rw [List.mem_singleton.1 h']; exact he
  | x :: y :: r, h => by
    intro b hb
    simp only [updLast, List.mem_cons] at hb
    rcases hb with rfl | hb
    · exact h b (by simp)
    · exact sound_updLast e he (y :: r) (fun b hb => h b (List.mem_cons_of_mem _ hb)) b (by simpa [updLast] using hb)

theorem sound_history (page : Nat) (es : List Event) : ∀ b ∈ history page es, ∀ e ∈ b.2, Sound page e := by
  induction es with
  | nil => intro b hb; simp [history] at hb; subst hb; simp
  | cons ev es ih =>
    have hmap : ∀ f : Entry → Entry, (∀ e, Sound page e → Sound page (f e)) → ∀ b ∈ Hist.map f (history page es), ∀ e ∈ b.2, Sound page e := by
      intro f hf b hb e he
      obtain ⟨c, hc, rfl⟩ := List.mem_map.1 hb
      obtain ⟨e', he', rfl⟩ := List.mem_map.1 he
      exact hf _ (ih c hc e' he')
    rw [history]
    cases ev with
    | push a => intro b hb; rcases List.mem_cons.1 hb with rfl | hb; · simp
                exact ih b hb
    | pop => intro b hb; exact ih b (List.mem_of_mem_tail hb)
    | alloc who size site r =>
      cases r with
      | none => exact ih
      | some a =>
        have he : Sound page { area := a, who := who, size := size, site := site } := ⟨by simp, by simp, by simp, by simp⟩
        show ∀ b ∈ addEntry { area := a, who := who, size := size, site := site } (history page es), _
        clear hmap
        generalize history page es = s at ih ⊢
        cases s with
        | nil => exact fun b hb => absurd hb (by simp [addEntry])
        | cons c bs =>
          simp only [addEntry]
          split
          · exact sound_updLast _ he _ ih
          · intro b hb e' he'
            rcases List.mem_cons.1 hb with rfl | hb
            · rcases List.mem_append.1 he' with h' | h'
              · exact ih c (by simp) e' h'
              · rw [List.mem_singleton.1 h']; exact he
            · exact ih b (List.mem_cons_of_mem _ hb) e' he'
    | free r ptr res => exact hmap _ (fun e h => sound_release h)
    | read a => exact hmap _ (fun e h => sound_touch h)
    | write a => exact hmap _ (fun e h => sound_touch h)

end H2.MemText
