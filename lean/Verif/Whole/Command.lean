import Verif.Whole.Spec
import Verif.Cli.Props
import Verif.Filter.Props
/-
From the command line to the options: which cases are asked for.
-/
namespace H2.Whole
open H2.Cli (Item Writes Good Stands kPattern kList Given FirstBare given last Sets keyed)
open H2.Filter (Category Selects Wanted Fits)

/-! ### The number of patterns -/

/-- The room words take. -/
def room (l : List Str) : Nat := (l.map fun a => a.length + 1).sum

theorem room_append (a b : List Str) : room (a ++ b) = room a + room b := by simp [room]
theorem room_cons (a : Str) (b : List Str) : room (a :: b) = a.length + 1 + room b := by simp [room]

theorem given_cons (c : Char) (i : Item) (is : List Item) : given c (i :: is) = (match i with
    | .words d ws => if d = c then ws else []
    | _ => []) ++ given c is := by
  cases i <;> simp [given]

theorem writes_room {j : Str} {args : List Str} {is : List Item} (h : Writes j args is) (c : Char) :
    room (given c is) ≤ room args ∧ (j = [] → given c is ≠ [] → room (given c is) + 2 ≤ room args) := by
  induction h with
  | nil => simp [given, room]
  | stray _ _ ih =>
    rw [room_cons]
    exact ⟨by have := ih.1; omega, fun _ hg => by have := ih.2 rfl hg; omega⟩
  | dash _ ih =>
    rw [room_cons]
    have := ih.1
    simp only [List.length_cons]
    exact ⟨by omega, fun _ _ => by omega⟩
  | flag _ _ _ _ ih => exact ⟨by rw [given_cons]; exact ih.1, fun h => by cases h⟩
  | attached _ _ _ _ ih => exact ⟨by rw [given_cons]; exact ih.1, fun h => by cases h⟩
  | separate _ _ _ _ ih =>
    refine ⟨?_, fun h => by cases h⟩
    rw [given_cons, room_cons]
    have := ih.1
    simp only [List.nil_append]
    omega
  | bare _ _ _ _ ih => exact ⟨by rw [given_cons]; exact ih.1, fun h => by cases h⟩
  | words _ _ _ _ ih =>
    refine ⟨?_, fun h => by cases h⟩
    rw [given_cons, room_append, room_append]
    have := ih.1
    simp only
    split
    · omega
    · simp only [room, List.map_nil, List.sum_nil] at this ⊢; omega
  | word _ _ _ ih =>
    refine ⟨?_, fun h => by cases h⟩
    rw [given_cons, room_cons]
    have := ih.1
    simp only [List.nil_append]
    omega
  | noWord _ _ _ ih => exact ⟨by rw [given_cons]; exact ih.1, fun h => by cases h⟩

theorem line_room {w : World} {args : List Str} {is : List Item} (h : Line w args is) (c : Char) : room (given c is) ≤ 253 := by
  have hr := writes_room h.writes c
  have hf : room args < 256 := h.fit
  by_cases hg : given c is = []
  · rw [hg]; simp [room]
  · have := hr.2 rfl hg; omega

theorem room_filter (P : Str → Bool) (l : List Str) : room (l.filter P) ≤ room l := by
  induction l with
  | nil => simp
  | cons a l ih =>
    rw [List.filter_cons, room_cons]
    split
    · rw [room_cons]; omega
    · omega

theorem filterMap_room {f : Str → Option Str} (hf : f [] = none) (l : List Str) : 2 * (l.filterMap f).length ≤ room l := by
  induction l with
  | nil => simp
  | cons a l ih =>
    rw [List.filterMap_cons, room_cons]
    cases h : f a with
    | none => simp only; omega
    | some v =>
      have : a ≠ [] := by intro e; rw [e, hf] at h; cases h
      have : 0 < a.length := List.length_pos_iff.2 this
      simp only [List.length_cons]; omega

theorem nil_early (l : List Str) (h : room l ≤ 253) : l.length ≤ 127 ∨ [] ∈ l.take 127 := by
  refine Classical.byContradiction fun hn => ?_
  have h1 : 127 < l.length := Nat.lt_of_not_le fun hh => hn (.inl hh)
  have h2 : [] ∉ l.take 127 := fun hh => hn (.inr hh)
  have key : ∀ m : List Str, [] ∉ m → 2 * m.length ≤ room m := by
    intro m
    induction m with
    | nil => simp
    | cons a m ih =>
      intro hm
      rw [List.mem_cons] at hm
      have : 0 < a.length := List.length_pos_iff.2 fun e => hm (.inl e.symm)
      have := ih fun e => hm (.inr e)
      rw [room_cons, List.length_cons]; omega
  have h3 := key _ h2
  have h4 : room (l.take 127) + room (l.drop 127) = room l := by rw [← room_append, List.take_append_drop]
  have h5 : (l.take 127).length = 127 := by rw [List.length_take]; omega
  omega

/-- A pattern in the list of a kind. -/
theorem keyed_mem {c : Char} {is : List Item} {key : Str} {ps : List Str} (hr : room (given c is) ≤ 253) (h : keyed c is key ps) (q : Str) :
    q ∈ ps ↔ ∃ k, k ++ '=' :: q ∈ given c is ∧ '=' ∉ k ∧ Stands kPattern k key := by
  obtain ⟨f, hf, rfl⟩ := h
  have hn : f [] = none := by
    cases e : f [] with
    | none => rfl
    | some v =>
      obtain ⟨k, hk, -⟩ := (hf [] v).1 e
      simp at hk
  have := filterMap_room hn (given c is)
  rw [List.take_of_length_le (by omega), List.mem_filterMap]
  constructor
  · rintro ⟨a, ha, hq⟩
    obtain ⟨k, rfl, h1, h2⟩ := (hf a q).1 hq
    exact ⟨k, ha, h1, h2⟩
  · rintro ⟨k, ha, h1, h2⟩
    exact ⟨_, ha, (hf _ q).2 ⟨k, rfl, h1, h2⟩⟩

/-- The patterns without key: those that are left out make no difference, because an empty one is among the others. -/
theorem plain_mem {c : Char} {is : List Item} (hr : room (given c is) ≤ 253) (P : Str → Prop) (hP : P []) :
    (∃ q ∈ ((given c is).filter ('=' ∉ ·)).take 127, P q) ↔ ∃ q, (q ∈ given c is ∧ '=' ∉ q) ∧ P q := by
  have hr' := Nat.le_trans (room_filter (fun q => decide ('=' ∉ q)) (given c is)) hr
  constructor
  · rintro ⟨q, hq, hp⟩
    have := List.mem_of_mem_take hq
    rw [List.mem_filter] at this
    exact ⟨q, ⟨this.1, by simpa using this.2⟩, hp⟩
  · rintro ⟨q, ⟨h1, h2⟩, hp⟩
    rcases nil_early _ hr' with h | h
    · exact ⟨q, by rw [List.take_of_length_le h, List.mem_filter]; exact ⟨h1, by simpa using h2⟩, hp⟩
    · exact ⟨[], h, hP⟩

theorem plain_nil {c : Char} {is : List Item} : ((given c is).filter ('=' ∉ ·)).take 127 = [] ↔ ∀ q ∈ given c is, '=' ∈ q := by
  rw [List.take_eq_nil_iff]
  simp [List.filter_eq_nil_iff]

/-! ### The options -/

/-- What `parse` yields. -/
theorem line_parse {w : World} {args : List Str} {is : List Item} (h : Line w args is) :
    ∃ o, Cli.parse w.path args = .ok o ∧ Sets w.path is o :=
  Cli.C39_sets w.path args is h.writes h.good (by unfold Cli.argumentsFit; simpa using h.fit)

theorem fits_nil (Wild : Str → Str → Prop) (t : Str) : Fits Wild [] t := .inl ⟨[], [], t, rfl, rfl⟩

theorem asked_iff {w : World} {args : List Str} {is : List Item} (h : Line w args is) {o : Cli.Options} (ho : Sets w.path is o) (Wild : Str → Str → Prop)
    (s c : Filter.Test) : Wanted Wild (lists o) s (some c) ↔ Asked Wild is s c := by
  have hri := line_room h 'i'
  have hre := line_room h 'e'
  have mi : ∀ k, k ≠ .any → ∀ q, q ∈ (lists o).inc k ↔ Pattern 'i' is q k := by
    intro k hk q
    unfold Pattern
    cases k with
    | any => exact absurd rfl hk
    | file => simpa [Filter.Lists.inc, lists, keyName] using keyed_mem hri ho.fileIncludes q
    | suite => simpa [Filter.Lists.inc, lists, keyName] using keyed_mem hri ho.suiteIncludes q
    | case => simpa [Filter.Lists.inc, lists, keyName] using keyed_mem hri ho.caseIncludes q
    | tag => simpa [Filter.Lists.inc, lists, keyName] using keyed_mem hri ho.tagsIncludes q
  have me : ∀ k, k ≠ .any → ∀ q, q ∈ (lists o).exc k ↔ Pattern 'e' is q k := by
    intro k hk q
    unfold Pattern
    cases k with
    | any => exact absurd rfl hk
    | file => simpa [Filter.Lists.exc, lists, keyName] using keyed_mem hre ho.fileExcludes q
    | suite => simpa [Filter.Lists.exc, lists, keyName] using keyed_mem hre ho.suiteExcludes q
    | case => simpa [Filter.Lists.exc, lists, keyName] using keyed_mem hre ho.caseExcludes q
    | tag => simpa [Filter.Lists.exc, lists, keyName] using keyed_mem hre ho.tagsExcludes q
  have pany : ∀ l q, Pattern l is q .any ↔ q ∈ given l is ∧ '=' ∉ q := by intro l q; simp [Pattern]
  have selnil : Selects Wild s (some c) [] .any := .inl (.inl (fits_nil Wild _))
  have ci : (∃ k, ∃ q ∈ (lists o).inc k, Selects Wild s (some c) q k) ↔ ∃ q k, Pattern 'i' is q k ∧ Selects Wild s (some c) q k := by
    constructor
    · rintro ⟨k, q, hq, hs⟩
      by_cases hk : k = .any
      · subst hk
        obtain ⟨q', h1, h2⟩ := (plain_mem hri (fun q => Selects Wild s (some c) q .any) selnil).1 ⟨q, by rw [← ho.includes]; exact hq, hs⟩
        exact ⟨q', .any, (pany 'i' q').2 h1, h2⟩
      · exact ⟨q, k, (mi k hk q).1 hq, hs⟩
    · rintro ⟨q, k, hq, hs⟩
      by_cases hk : k = .any
      · subst hk
        obtain ⟨q', h1, h2⟩ := (plain_mem hri (fun q => Selects Wild s (some c) q .any) selnil).2 ⟨q, (pany 'i' q).1 hq, hs⟩
        exact ⟨.any, q', by rw [← ho.includes] at h1; exact h1, h2⟩
      · exact ⟨k, q, (mi k hk q).2 hq, hs⟩
  have ce : (∃ k, ∃ q ∈ (lists o).exc k, Selects Wild s (some c) q k) ↔ ∃ q k, Pattern 'e' is q k ∧ Selects Wild s (some c) q k := by
    constructor
    · rintro ⟨k, q, hq, hs⟩
      by_cases hk : k = .any
      · subst hk
        obtain ⟨q', h1, h2⟩ := (plain_mem hre (fun q => Selects Wild s (some c) q .any) selnil).1 ⟨q, by rw [← ho.excludes]; exact hq, hs⟩
        exact ⟨q', .any, (pany 'e' q').2 h1, h2⟩
      · exact ⟨q, k, (me k hk q).1 hq, hs⟩
    · rintro ⟨q, k, hq, hs⟩
      by_cases hk : k = .any
      · subst hk
        obtain ⟨q', h1, h2⟩ := (plain_mem hre (fun q => Selects Wild s (some c) q .any) selnil).2 ⟨q, (pany 'e' q).1 hq, hs⟩
        exact ⟨.any, q', by rw [← ho.excludes] at h1; exact h1, h2⟩
      · exact ⟨k, q, (me k hk q).2 hq, hs⟩
  have cn : (∀ k, (lists o).inc k = []) ↔ ∀ q k, ¬ Pattern 'i' is q k := by
    constructor
    · intro hh q k hq
      by_cases hk : k = .any
      · subst hk
        have h1 : ((given 'i' is).filter ('=' ∉ ·)).take 127 = [] := by rw [← ho.includes]; exact hh .any
        have h2 := (pany 'i' q).1 hq
        exact h2.2 (plain_nil.1 h1 q h2.1)
      · have := (mi k hk q).2 hq
        rw [hh k] at this
        cases this
    · intro hh k
      by_cases hk : k = .any
      · subst hk
        show o.includes = []
        rw [ho.includes]
        exact plain_nil.2 fun q hq => Classical.byContradiction fun hn => hh q .any ((pany 'i' q).2 ⟨hq, hn⟩)
      · refine List.eq_nil_iff_forall_not_mem.2 fun q hq => hh q k ((mi k hk q).1 hq)
  unfold Wanted Asked
  rw [ci, ce, cn]
  constructor
  · exact fun ⟨h1, h2⟩ => ⟨h1, fun q k hq hs => h2 ⟨q, k, hq, hs⟩⟩
  · exact fun ⟨h1, h2⟩ => ⟨h1, fun ⟨q, k, hq, hs⟩ => h2 q k hq hs⟩

theorem given_none {c : Char} {is : List Item} (h : ∀ ws, .words c ws ∉ is) : given c is = [] := by
  unfold given
  rw [List.flatMap_eq_nil_iff]
  intro i hi
  cases i with
  | words d ws =>
    simp only
    split
    · rename_i e; subst e; exact absurd hi (h ws)
    · rfl
  | _ => rfl

theorem first_words {c : Char} {is : List Item} (h : ∃ ws, .words c ws ∈ is) : ∃ a ws b, is = a ++ .words c ws :: b ∧ ∀ ws, .words c ws ∉ a := by
  induction is with
  | nil => obtain ⟨ws, h⟩ := h; cases h
  | cons i is ih =>
    by_cases hi : ∃ ws, i = .words c ws
    · obtain ⟨ws, rfl⟩ := hi
      exact ⟨[], ws, is, rfl, by simp⟩
    · obtain ⟨ws, hws⟩ := h
      rcases List.mem_cons.1 hws with e | e
      · exact absurd ⟨ws, e.symm⟩ hi
      · obtain ⟨a, vs, b, rfl, hb⟩ := ih ⟨ws, e⟩
        refine ⟨i :: a, vs, b, rfl, fun us hu => ?_⟩
        rcases List.mem_cons.1 hu with e | e
        · exact hi ⟨us, e.symm⟩
        · exact hb us e

theorem lists_iff {w : World} {args : List Str} {is : List Item} (h : Line w args is) {o : Cli.Options} (ho : Sets w.path is o) :
    (opts o).lists = true ↔ Lists is := by
  simp only [opts, Bool.or_eq_true, ho.listSuite, ho.listCase, ho.listTodo, ho.listTags]
  constructor
  · intro hh
    refine Classical.byContradiction fun hn => ?_
    have hn : ∀ ws, .words 'l' ws ∉ is := fun ws hw => hn ⟨ws, hw⟩
    have h1 : ∀ k, ¬ Given kList 'l' is k := by
      rintro k ⟨x, hx, -⟩
      rw [given_none hn] at hx
      cases hx
    have h2 : ¬ FirstBare 'l' is := by
      rintro ⟨a, b, rfl, -⟩
      exact hn [] (by simp)
    simp [h1, h2] at hh
  · intro hl
    obtain ⟨a, ws, b, rfl, ha⟩ := first_words hl
    cases ws with
    | nil => exact .inl (.inl (.inl (.inr ⟨a, b, rfl, ha⟩)))
    | cons x ws =>
      have hg := h.good (.words 'l' (x :: ws)) (by simp)
      have hg := hg x (by simp)
      simp only [Char.reduceEq, or_self, if_false, Cli.GoodWord] at hg
      obtain ⟨k, hk⟩ := hg
      have hG : Given kList 'l' (a ++ .words 'l' (x :: ws) :: b) k := ⟨x, by simp [given], hk⟩
      have hm := hk.1
      simp only [kList, List.mem_cons, List.not_mem_nil, or_false] at hm
      rcases hm with rfl | rfl | rfl | rfl
      · exact .inl (.inl (.inl (.inl hG)))
      · exact .inl (.inl (.inr (.inl hG)))
      · exact .inl (.inr (.inl hG))
      · exact .inr hG

theorem junit_path {w : World} {is : List Item} {o : Cli.Options} (ho : Sets w.path is o) {file : Str} (h : JunitTo w is file) : o.junitPath = file := by
  obtain ⟨-, a, b, hb, h | ⟨h, rfl⟩⟩ := h
  · exact ho.junitPath a b file h hb
  · exact ho.junitBare a b h hb

end H2.Whole
