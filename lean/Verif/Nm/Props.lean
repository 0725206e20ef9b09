import Verif.Nm.Spec
/-
C49: looking symbols up.
-/
namespace H2.Nm

theorem underscoreLoop_eq (ps : List Symbol) : ∀ m, underscoreLoop ps m = true ↔
    (m = true ∨ ∃ p ∈ ps, p.symbol = "_main".toList) ∧ ¬ ∃ p ∈ ps, p.symbol = "main".toList := by
  induction ps with
  | nil => intro m; simp [underscoreLoop]
  | cons p ps ih =>
    intro m
    rw [underscoreLoop]
    by_cases h : p.symbol = "main".toList
    · rw [if_pos h]
      constructor
      · intro h; cases h
      · rintro ⟨-, h2⟩
        exact absurd ⟨p, by simp, h⟩ h2
    · rw [if_neg h, ih]
      by_cases h' : p.symbol = "_main".toList
      · rw [if_pos h']
        constructor
        · rintro ⟨-, h2⟩
          refine ⟨.inr ⟨p, by simp, h'⟩, ?_⟩
          rintro ⟨q, hq, e⟩
          rcases List.mem_cons.mp hq with rfl | hq
          · exact h e
          · exact h2 ⟨q, hq, e⟩
        · rintro ⟨-, h2⟩
          exact ⟨.inl rfl, fun ⟨q, hq, e⟩ => h2 ⟨q, by simp [hq], e⟩⟩
      · rw [if_neg h']
        constructor
        · rintro ⟨h1, h2⟩
          refine ⟨?_, ?_⟩
          · rcases h1 with h1 | ⟨q, hq, e⟩
            · exact .inl h1
            · exact .inr ⟨q, by simp [hq], e⟩
          · rintro ⟨q, hq, e⟩
            rcases List.mem_cons.mp hq with rfl | hq
            · exact h e
            · exact h2 ⟨q, hq, e⟩
        · rintro ⟨h1, h2⟩
          refine ⟨?_, fun ⟨q, hq, e⟩ => h2 ⟨q, by simp [hq], e⟩⟩
          rcases h1 with h1 | ⟨q, hq, e⟩
          · exact .inl h1
          · rcases List.mem_cons.mp hq with rfl | hq
            · exact absurd e h'
            · exact .inr ⟨q, hq, e⟩

theorem data_iff (t : Char) : ("bBcCdDiIuU".toList.contains t) = true ↔ Data t := by
  rw [List.contains_iff_mem]; rfl

theorem take127 (s w : List Char) (hw : w.length < 127) : s.take 127 = w ↔ s = w := by
  constructor
  · intro h
    have hl : (s.take 127).length = w.length := by rw [h]
    rw [List.length_take] at hl
    rw [← h, List.take_of_length_le]
    omega
  · rintro rfl
    exact List.take_of_length_le (by omega)

theorem mem_nmLines (lines : List Line) (p : Symbol) :
    p ∈ nmLines lines ↔ ∃ l ∈ lines, ¬ Data l.type ∧ p = ⟨l.symbol.take 127, l.addr⟩ := by
  simp only [nmLines, List.mem_map, List.mem_filter, mk]
  constructor
  · rintro ⟨l, ⟨hl, hd⟩, rfl⟩
    refine ⟨l, hl, ?_, rfl⟩
    rw [← data_iff]
    simpa using hd
  · rintro ⟨l, hl, hd, rfl⟩
    refine ⟨l, ⟨hl, ?_⟩, rfl⟩
    rw [← data_iff] at hd
    simpa using hd

theorem underscored_iff (lines : List Line) : underscoreLoop (nmLines lines) false = true ↔ Underscored lines := by
  rw [underscoreLoop_eq]
  have key : ∀ w : List Char, w.length < 127 → ((∃ p ∈ nmLines lines, p.symbol = w) ↔ ∃ l ∈ lines, ¬ Data l.type ∧ l.symbol = w) := by
    intro w hw
    constructor
    · rintro ⟨p, hp, e⟩
      obtain ⟨l, hl, hd, rfl⟩ := (mem_nmLines _ _).mp hp
      exact ⟨l, hl, hd, (take127 _ _ hw).mp e⟩
    · rintro ⟨l, hl, hd, e⟩
      exact ⟨_, (mem_nmLines _ _).mpr ⟨l, hl, hd, rfl⟩, (take127 _ _ hw).mpr e⟩
  rw [key _ (by decide), key _ (by decide)]
  simp only [Bool.false_eq_true, false_or]
  rfl

/-- The names of symbols. -/
theorem C49_called (b : Bool) (p : Symbol) (text : List Char) : name b p = text ↔ Called (b = true) p.symbol text := by
  unfold name Called
  cases b with
  | false => simp
  | true =>
    cases h : p.symbol with
    | nil => simp
    | cons c cs =>
      by_cases hc : c = '_'
      · subst hc; simp
      · simp [hc]

theorem strncmpReverse_iff (a b : List Char) : strncmpReverse a b b.length = true ↔ ∃ s, a = s ++ b := by
  unfold strncmpReverse
  simp only [Nat.lt_irrefl, decide_false, Bool.or_false, decide_eq_true_eq, Nat.sub_self, List.drop_zero]
  split
  · rename_i h
    constructor
    · intro h; cases h
    · rintro ⟨s, rfl⟩
      rw [List.length_append] at h
      omega
  · rename_i h
    rw [beq_iff_eq]
    constructor
    · intro e
      exact ⟨a.take (a.length - b.length), by conv => rhs; rhs; rw [← e]
                                              rw [List.take_append_drop]⟩
    · rintro ⟨s, rfl⟩
      simp

theorem split_paren (text : List Char) (h : '(' ∈ text) :
    ∃ args, text = text.takeWhile (· ≠ '(') ++ '(' :: args := by
  induction text with
  | nil => simp at h
  | cons c cs ih =>
    by_cases hc : c = '('
    · exact ⟨cs, by simp [hc]⟩
    · obtain ⟨args, e⟩ := ih (by simpa [Ne.symm hc] using h)
      refine ⟨args, ?_⟩
      rw [List.takeWhile_cons]
      simp only [ne_eq, hc, not_false_eq_true, decide_true, if_true, List.cons_append]
      rw [← e]

theorem takeWhile_pre (pre args : List Char) (h : '(' ∉ pre) : (pre ++ '(' :: args).takeWhile (· ≠ '(') = pre := by
  induction pre with
  | nil => simp
  | cons c cs ih =>
    have hc : c ≠ '(' := by rintro rfl; simp at h
    rw [List.cons_append, List.takeWhile_cons]
    simp [hc]
    have := ih (by intro hm; exact h (by simp [hm]))
    simpa using this

theorem notMem_takeWhile (text : List Char) : '(' ∉ text.takeWhile (· ≠ '(') := by
  intro h
  induction text with
  | nil => simp at h
  | cons c cs ih =>
    rw [List.takeWhile_cons] at h
    split at h
    · rename_i hc
      rcases List.mem_cons.mp h with rfl | h
      · simp at hc
      · exact ih h
    · simp at h

/-- The end of a scope, as the code looks for it. -/
theorem scope_end (before : Char) (hb : before ≠ ':') (scope rest : List Char) :
    (0 < scope.length && (charBefore before (scope ++ rest) scope.length 1 ≠ ':' || charBefore before (scope ++ rest) scope.length 2 ≠ ':')) = false ↔
      (scope = [] ∨ ∃ outer, scope = outer ++ [':', ':']) := by
  have hr : scope = scope.reverse.reverse := by simp
  cases h : scope.reverse with
  | nil => rw [h] at hr; simp at hr; simp [hr]
  | cons c cs =>
    rw [h] at hr
    cases cs with
    | nil =>
      rw [hr]
      simp [charBefore, hb]
      intro o e
      have := congrArg List.length e
      simp at this
    | cons d ds =>
      rw [hr]
      have e1 : (d :: ds).length = ds.length + 1 := rfl
      simp [charBefore, List.getD_eq_getElem?_getD]
      constructor
      · rintro ⟨rfl, rfl⟩
        exact ⟨_, rfl⟩
      · rintro ⟨o, e⟩
        have h2 := congrArg List.reverse e
        simp at h2
        exact ⟨h2.1, h2.2.1⟩

theorem qualifies_iff (before : Char) (hb : before ≠ ':') (u : Bool) (nm : List Char) (p : Symbol) :
    qualifies before u nm p = true ↔ IsFunction nm (name u p) := by
  unfold qualifies
  generalize name u p = text
  simp only
  constructor
  · intro h
    split at h
    · rename_i hp
      obtain ⟨args, e⟩ := split_paren text hp
      have hn := notMem_takeWhile text
      revert h e hn
      generalize text.takeWhile (· ≠ '(') = pre
      rintro h rfl hn
      rw [List.take_left] at h
      split at h
      · cases h
      · rename_i h1
        simp only [Bool.not_eq_true', Bool.not_eq_false] at h1
        obtain ⟨scope, rfl⟩ := (strncmpReverse_iff pre nm).mp h1
        simp only [List.length_append, Nat.add_sub_cancel] at h
        split at h
        · cases h
        · rename_i h2
          rw [List.append_assoc] at h2
          have := (scope_end before hb scope (nm ++ '(' :: args)).mp (by simpa using h2)
          simp only [List.mem_append, not_or] at hn
          exact ⟨scope, args, rfl, hn.1, hn.2, this⟩
    · cases h
  · rintro ⟨scope, args, rfl, h1, h2, h3⟩
    rw [if_pos (by simp)]
    rw [takeWhile_pre (scope ++ nm) args (by simp [h1, h2])]
    rw [List.take_left, (strncmpReverse_iff (scope ++ nm) nm).mpr ⟨scope, rfl⟩]
    simp only [Bool.not_true, Bool.false_eq_true, if_false, List.length_append, Nat.add_sub_cancel]
    rw [if_neg]
    rw [List.append_assoc]
    have := (scope_end before hb scope (nm ++ '(' :: args)).mpr h3
    rw [this]; simp

theorem secondLoop_eq (before : Char) (u : Bool) (nm : List Char) (n : Nat) (ps : List Symbol) : ∀ res, res.length ≤ n →
    secondLoop before u nm n ps res = res ++ (ps.filter (qualifies before u nm)).take (n - res.length) := by
  induction ps with
  | nil => intro res _; simp [secondLoop]
  | cons p ps ih =>
    intro res hl
    rw [secondLoop]
    cases hq : qualifies before u nm p with
    | false => simp [hq, ih res hl]
    | true =>
      by_cases hn : res.length < n
      · simp only [hn, decide_true, Bool.and_self, if_true]
        rw [ih _ (by simp; omega)]
        rw [List.filter_cons, if_pos hq]
        have : n - res.length = (n - (res ++ [p]).length) + 1 := by simp; omega
        rw [this, List.take_succ_cons]
        simp
      · have hz : n - res.length = 0 := by omega
        simp only [hn, decide_false, Bool.and_false, Bool.false_eq_true, if_false]
        rw [ih res hl, hz]; simp

/-- What a state remembers is what `nm` prints. -/
structure Inv (dl ml : List Line) (u : Bool) (s : St) : Prop where
  d : s.demangled = [] ∨ (s.demangled = nmLines dl ∧ s.once = false)
  m : s.mangled = [] ∨ (s.mangled = nmLines ml ∧ s.once = false)
  u : s.once = false → s.leading = u

theorem load_inv {dl ml : List Line} {u : Bool} (lines : List Line) (hu : underscoreLoop (nmLines lines) false = u) (s : St) (h : Inv dl ml u s) :
    Inv dl ml u (load lines s).2 ∧ (load lines s).1 = nmLines lines ∧ (load lines s).2.once = false ∧
      (load lines s).2.demangled = s.demangled ∧ (load lines s).2.mangled = s.mangled := by
  unfold load
  cases ho : s.once with
  | true =>
    refine ⟨⟨?_, ?_, fun _ => hu⟩, rfl, rfl, rfl, rfl⟩
    · rcases h.d with h | h
      · exact .inl h
      · exact absurd h.2 (by simp [ho])
    · rcases h.m with h | h
      · exact .inl h
      · exact absurd h.2 (by simp [ho])
  | false => exact ⟨h, rfl, ho, rfl, rfl⟩

theorem getByName_inv {before : Char} {dl ml : List Line} {u : Bool} (hd : underscoreLoop (nmLines dl) false = u) (s : St) (h : Inv dl ml u s)
    (nm : List Char) (hn : nm ≠ []) (n : Nat) :
    Inv dl ml u (getByName before dl (some nm) n s).2 ∧ (getByName before dl (some nm) n s).1 = search before u nm n (nmLines dl) := by
  have hl : nm.length ≠ 0 := by simpa using hn
  unfold getByName
  simp only [hl, if_false]
  by_cases he : s.demangled = []
  · obtain ⟨i, a, o, d, m⟩ := load_inv dl hd s h
    simp only [he, if_true]
    refine ⟨⟨.inr ⟨a, o⟩, ?_, fun _ => i.u o⟩, ?_⟩
    · rcases i.m with im | im
      · exact .inl im
      · exact .inr ⟨im.1, o⟩
    · simp only [a]
      rw [i.u o]
  · simp only [he, if_false]
    refine ⟨h, ?_⟩
    rcases h.d with hh | hh
    · exact absurd hh he
    · rw [h.u hh.2, hh.1]

theorem getMangle_inv {dl ml : List Line} {u : Bool} (hm : underscoreLoop (nmLines ml) false = u) (s : St) (h : Inv dl ml u s)
    (nm : List Char) (hn : nm ≠ []) :
    Inv dl ml u (getMangle ml (some nm) s).2 ∧
      (getMangle ml (some nm) s).1 = (((nmLines ml).find? fun p => name u p = nm).map Symbol.addr).getD 0 := by
  have hl : nm.length ≠ 0 := by simpa using hn
  have key : ∀ s' : St, Inv dl ml u s' → s'.mangled = nmLines ml → s'.leading = u →
      Inv dl ml u (match s'.mangled.find? fun p => name s'.leading p = nm with | some p => (p.addr, s') | none => (0, s')).2 ∧
      (match s'.mangled.find? fun p => name s'.leading p = nm with | some p => (p.addr, s') | none => (0, s')).1 =
        (((nmLines ml).find? fun p => name u p = nm).map Symbol.addr).getD 0 := by
    intro s' hi e1 e2
    rw [e1, e2]
    cases (nmLines ml).find? fun p => decide (name u p = nm) with
    | none => exact ⟨hi, rfl⟩
    | some p => exact ⟨hi, rfl⟩
  unfold getMangle
  simp only [hl, if_false]
  by_cases he : s.mangled = []
  · obtain ⟨i, a, o, d, m⟩ := load_inv ml hm s h
    rw [if_pos he]
    refine key _ ⟨?_, .inr ⟨a, o⟩, fun _ => i.u o⟩ a (i.u o)
    rcases i.d with im | im
    · exact .inl im
    · exact .inr ⟨im.1, o⟩
  · rw [if_neg he]
    rcases h.m with hh | hh
    · exact absurd hh he
    · exact key s h hh.1 (h.u hh.2)

theorem run_inv {before : Char} {dl ml : List Line} {u : Bool} (hd : underscoreLoop (nmLines dl) false = u)
    (hm : underscoreLoop (nmLines ml) false = u) (ops : List Op) : ∀ s, Inv dl ml u s → Inv dl ml u (run before dl ml ops s) := by
  induction ops with
  | nil => intro s h; exact h
  | cons o ops ih =>
    intro s h
    cases o with
    | byName nm n =>
      rw [run]
      apply ih
      cases nm with
      | none => exact h
      | some nm =>
        by_cases hn : nm = []
        · subst hn; exact h
        · exact (getByName_inv hd s h nm hn n).1
    | mangle nm =>
      rw [run]
      apply ih
      cases nm with
      | none => exact h
      | some nm =>
        by_cases hn : nm = []
        · subst hn; exact h
        · exact (getMangle_inv hm s h nm hn).1

theorem inv_init (dl ml : List Line) (u : Bool) : Inv dl ml u {} := ⟨.inl rfl, .inl rfl, fun h => by simp at h⟩

/-- The two outputs of `nm` are of one program: they agree on the leading underscore. -/
def OneProgram (dl ml : List Line) : Prop := Underscored dl ↔ Underscored ml

theorem oneProgram_eq {dl ml : List Line} (h : OneProgram dl ml) : underscoreLoop (nmLines ml) false = underscoreLoop (nmLines dl) false := by
  rw [Bool.eq_iff_iff, underscored_iff, underscored_iff]
  exact h.symm

/-- **C49**: whatever was looked up before, a symbol that is called by the name is what is found, the first of them, alone. -/
theorem C49_exact (before : Char) (dl ml : List Line) (h1 : OneProgram dl ml) (ops : List Op) (nm : List Char) (hn : nm ≠ []) (n : Nat)
    (front back : List Line) (l : Line) (hl : dl = front ++ l :: back) (hd : ¬ Data l.type) (hc : Called (Underscored dl) (l.symbol.take 127) nm)
    (hf : ∀ l' ∈ front, ¬ Data l'.type → ¬ Called (Underscored dl) (l'.symbol.take 127) nm) :
    (getByName before dl (some nm) n (run before dl ml ops {})).1 = [⟨l.symbol.take 127, l.addr⟩] := by
  rw [(getByName_inv rfl _ (run_inv rfl (oneProgram_eq h1) ops {} (inv_init ..)) nm hn n).2]
  have hu := underscored_iff dl
  have key : (nmLines dl).find? (fun p => decide (name (underscoreLoop (nmLines dl) false) p = nm)) = some ⟨l.symbol.take 127, l.addr⟩ := by
    rw [List.find?_eq_some_iff_append]
    refine ⟨?_, nmLines front, nmLines back, ?_, ?_⟩
    · rw [decide_eq_true_iff, C49_called, hu]; exact hc
    · rw [hl]
      have : (!"bBcCdDiIuU".toList.contains l.type) = true := by
        rw [← data_iff] at hd; simpa using hd
      unfold nmLines
      rw [List.filter_append, List.filter_cons, if_pos this]
      simp [mk]
    · intro p hp
      obtain ⟨l', hl', hd', rfl⟩ := (mem_nmLines _ _).mp hp
      have := hf l' hl' hd'
      rw [← hu, ← C49_called _ ⟨l'.symbol.take 127, l'.addr⟩] at this
      simpa using this
  unfold search
  rw [key]

/-- The symbols of lines that are functions called `nm`, in the order of the lines. -/
inductive Functions (u : Prop) (nm : List Char) : List Line → List Symbol → Prop
  | nil : Functions u nm [] []
  | take (l : Line) (ls : List Line) (ps : List Symbol) (text : List Char) : ¬ Data l.type → Called u (l.symbol.take 127) text →
      IsFunction nm text → Functions u nm ls ps → Functions u nm (l :: ls) (⟨l.symbol.take 127, l.addr⟩ :: ps)
  | skip (l : Line) (ls : List Line) (ps : List Symbol) : (Data l.type ∨ ∀ text, Called u (l.symbol.take 127) text → ¬ IsFunction nm text) →
      Functions u nm ls ps → Functions u nm (l :: ls) ps

theorem functions_filter (before : Char) (hb : before ≠ ':') (u : Bool) (nm : List Char) (lines : List Line) :
    Functions (u = true) nm lines ((nmLines lines).filter (qualifies before u nm)) := by
  induction lines with
  | nil => exact .nil
  | cons l ls ih =>
    by_cases hd : Data l.type
    · have : nmLines (l :: ls) = nmLines ls := by
        rw [← data_iff] at hd
        unfold nmLines
        rw [List.filter_cons, if_neg (by rw [hd]; simp)]
      rw [this]
      exact .skip _ _ _ (.inl hd) ih
    · have : nmLines (l :: ls) = mk l.symbol l.addr :: nmLines ls := by
        rw [← data_iff] at hd
        unfold nmLines
        rw [List.filter_cons, if_pos (by simpa using hd)]; rfl
      rw [this, List.filter_cons]
      split
      · rename_i hq
        exact .take _ _ _ _ hd ((C49_called u (mk l.symbol l.addr) _).mp rfl) ((qualifies_iff before hb u nm _).mp hq) ih
      · rename_i hq
        refine .skip _ _ _ (.inr ?_) ih
        intro text ht hf
        have ht := (C49_called u (mk l.symbol l.addr) text).mpr ht
        subst ht
        exact hq ((qualifies_iff before hb u nm _).mpr hf)

/-- **C49**: when no symbol is called by the name, the functions called by it, in any scope, are found: all of them, in the order of the
table, as many as asked for, and nothing else. -/
theorem C49_functions (before : Char) (hb : before ≠ ':') (dl ml : List Line) (h1 : OneProgram dl ml) (ops : List Op) (nm : List Char) (hn : nm ≠ [])
    (n : Nat) (hx : ∀ l ∈ dl, ¬ Data l.type → ¬ Called (Underscored dl) (l.symbol.take 127) nm) :
    ∃ all, Functions (Underscored dl) nm dl all ∧ (getByName before dl (some nm) n (run before dl ml ops {})).1 = all.take n := by
  rw [(getByName_inv rfl _ (run_inv rfl (oneProgram_eq h1) ops {} (inv_init ..)) nm hn n).2]
  have hu := underscored_iff dl
  refine ⟨(nmLines dl).filter (qualifies before (underscoreLoop (nmLines dl) false) nm), ?_, ?_⟩
  · rw [← propext hu]
    exact functions_filter before hb _ nm dl
  · have key : (nmLines dl).find? (fun p => decide (name (underscoreLoop (nmLines dl) false) p = nm)) = none := by
      rw [List.find?_eq_none]
      intro p hp
      obtain ⟨l, hl, hd, rfl⟩ := (mem_nmLines _ _).mp hp
      have := hx l hl hd
      rw [← hu, ← C49_called _ ⟨l.symbol.take 127, l.addr⟩] at this
      simpa using this
    unfold search
    rw [key]
    simp only
    rw [secondLoop_eq _ _ _ _ _ [] (Nat.zero_le _)]
    rfl

/-- The functions are determined. -/
theorem C49_functions_unique (u : Prop) (nm : List Char) (lines : List Line) : ∀ ps qs, Functions u nm lines ps → Functions u nm lines qs → ps = qs := by
  induction lines with
  | nil => intro ps qs h h'; cases h; cases h'; rfl
  | cons l ls ih =>
    intro ps qs h h'
    cases h with
    | take _ _ ps' text hd hc hf hr =>
      cases h' with
      | take _ _ qs' text' hd' hc' hf' hr' => rw [ih _ _ hr hr']
      | skip _ _ _ hs hr' =>
        rcases hs with hs | hs
        · exact absurd hs hd
        · exact absurd hf (hs _ hc)
    | skip _ _ _ hs hr =>
      cases h' with
      | take _ _ qs' text' hd' hc' hf' hr' =>
        rcases hs with hs | hs
        · exact absurd hs hd'
        · exact absurd hf' (hs _ hc')
      | skip _ _ _ hs' hr' => exact ih _ _ hr hr'

/-- No name, no symbol. -/
theorem C49_no_name (before : Char) (dl ml : List Line) (s : St) (n : Nat) :
    (getByName before dl none n s).1 = [] ∧ (getByName before dl (some []) n s).1 = [] ∧
    (getMangle ml none s).1 = 0 ∧ (getMangle ml (some []) s).1 = 0 := ⟨rfl, rfl, rfl, rfl⟩

/-- **C49**: the address of a mangled name is that of the first symbol called by it, 0 without one. -/
theorem C49_mangled (before : Char) (dl ml : List Line) (h1 : OneProgram dl ml) (ops : List Op) (nm : List Char) (hn : nm ≠ []) :
    (∀ front back l, ml = front ++ l :: back → ¬ Data l.type → Called (Underscored ml) (l.symbol.take 127) nm →
      (∀ l' ∈ front, ¬ Data l'.type → ¬ Called (Underscored ml) (l'.symbol.take 127) nm) →
      (getMangle ml (some nm) (run before dl ml ops {})).1 = l.addr) ∧
    ((∀ l ∈ ml, ¬ Data l.type → ¬ Called (Underscored ml) (l.symbol.take 127) nm) →
      (getMangle ml (some nm) (run before dl ml ops {})).1 = 0) := by
  have hu := underscored_iff ml
  rw [(getMangle_inv rfl _ (run_inv (dl := dl) (oneProgram_eq h1).symm rfl ops {} (inv_init ..)) nm hn).2]
  constructor
  · intro front back l hl hd hc hf
    have key : (nmLines ml).find? (fun p => decide (name (underscoreLoop (nmLines ml) false) p = nm)) = some ⟨l.symbol.take 127, l.addr⟩ := by
      rw [List.find?_eq_some_iff_append]
      refine ⟨?_, nmLines front, nmLines back, ?_, ?_⟩
      · rw [decide_eq_true_iff, C49_called, hu]; exact hc
      · rw [hl]
        have : (!"bBcCdDiIuU".toList.contains l.type) = true := by
          rw [← data_iff] at hd; simpa using hd
        unfold nmLines
        rw [List.filter_append, List.filter_cons, if_pos this]
        simp [mk]
      · intro p hp
        obtain ⟨l', hl', hd', rfl⟩ := (mem_nmLines _ _).mp hp
        have := hf l' hl' hd'
        rw [← hu, ← C49_called _ ⟨l'.symbol.take 127, l'.addr⟩] at this
        simpa using this
    rw [key]; rfl
  · intro hx
    have key : (nmLines ml).find? (fun p => decide (name (underscoreLoop (nmLines ml) false) p = nm)) = none := by
      rw [List.find?_eq_none]
      intro p hp
      obtain ⟨l, hl, hd, rfl⟩ := (mem_nmLines _ _).mp hp
      have := hx l hl hd
      rw [← hu, ← C49_called _ ⟨l.symbol.take 127, l.addr⟩] at this
      simpa using this
    rw [key]; rfl

/-- A function in an anonymous namespace is never found by its own name. -/
theorem C49_anonymous (nm args : List Char) (hn : nm ≠ []) (hc : '(' ∉ nm) :
    ¬ IsFunction nm ("(anonymous namespace)::".toList ++ nm ++ '(' :: args) := by
  rintro ⟨scope, args', e, h1, h2, h3⟩
  have e' := congrArg (List.takeWhile (· ≠ '(')) e
  rw [takeWhile_pre (scope ++ nm) args' (by simp [h1, h2])] at e'
  have : (("(anonymous namespace)::".toList ++ nm ++ '(' :: args).takeWhile (· ≠ '(')) = [] := by
    rw [show "(anonymous namespace)::".toList = '(' :: "anonymous namespace)::".toList from rfl]
    simp
  rw [this] at e'
  have := congrArg List.length e'
  simp at this
  exact hn (List.length_eq_zero_iff.mp (by omega))

def sample : List Line :=
  [⟨16, 'T', "main".toList⟩, ⟨32, 't', "f(int)".toList⟩, ⟨48, 'W', "ns::f(char)".toList⟩, ⟨64, 'B', "f(data)".toList⟩, ⟨80, 'T', "xf(int)".toList⟩,
   ⟨96, 'T', "g".toList⟩, ⟨112, 'T', "ns::K::f()".toList⟩, ⟨128, 'T', "(anonymous namespace)::f()".toList⟩]
example : (getByName 'x' sample (some "f".toList) 100 {}).1.map Symbol.addr = [32, 48, 112] ∧
    (getByName 'x' sample (some "f".toList) 2 {}).1.map Symbol.addr = [32, 48] ∧
    (getByName 'x' sample (some "K::f".toList) 100 {}).1.map Symbol.addr = [112] ∧
    (getByName 'x' sample (some "g".toList) 100 {}).1.map Symbol.addr = [96] ∧
    (getMangle sample (some "main".toList) {}).1 = 16 := by decide
example : (getByName 'x' [⟨1, 'T', "_main".toList⟩, ⟨2, 'T', "_g".toList⟩] (some "g".toList) 100 {}).1.map Symbol.addr = [2] := by decide

end H2.Nm
