import Verif.Cli.Spec
namespace H2.Cli

/-! Keywords. -/

theorem begins_iff : ∀ w k : Str, begins w k = true ↔ Abbreviates w k
  | [], k => by simp [begins, Abbreviates]
  | a :: w, [] => by simp [begins, Abbreviates]
  | a :: w, b :: k => by
    have ih := begins_iff w k
    simp only [Abbreviates] at ih
    simp only [begins, Bool.and_eq_true, beq_iff_eq, ih, Abbreviates, List.map_cons, List.cons_append, List.cons.injEq]
    constructor
    · rintro ⟨h, r, hr⟩; exact ⟨r, h.symm, hr⟩
    · rintro ⟨r, h, hr⟩; exact ⟨h.symm, r, hr⟩

theorem candidate_iff {ks : List Str} (hn : ks.Nodup) (w k : Str) : candidate w ks = some k ↔ Stands ks w k := by
  have key : ks.filter (begins w) = [k] ↔ Stands ks w k := by
    constructor
    · intro h
      have hm : ∀ x, x ∈ ks ∧ begins w x = true ↔ x = k := by
        intro x; rw [← List.mem_filter, h]; simp
      refine ⟨((hm k).mpr rfl).1, (begins_iff w k).mp ((hm k).mpr rfl).2, fun k' hk' ha => ?_⟩
      exact (hm k').mp ⟨hk', (begins_iff w k').mpr ha⟩
    · rintro ⟨hk, ha, hu⟩
      induction ks with
      | nil => simp at hk
      | cons x xs ih =>
        obtain ⟨hx, hxs⟩ := List.nodup_cons.mp hn
        by_cases e : x = k
        · subst e
          have : xs.filter (begins w) = [] := by
            rw [List.filter_eq_nil_iff]
            intro y hy hb
            have := hu y (by simp [hy]) ((begins_iff w y).mp hb)
            exact hx (this ▸ hy)
          rw [List.filter_cons, if_pos ((begins_iff w x).mpr ha), this]
        · have hb : ¬ begins w x = true := fun hb => e (hu x (by simp) ((begins_iff w x).mp hb))
          rw [List.filter_cons, if_neg hb]
          refine ih hxs ?_ (fun k' hk' => hu k' (by simp [hk']))
          rcases List.mem_cons.mp hk with h | h
          · exact absurd h.symm e
          · exact h
  rw [← key]
  unfold candidate
  split
  · rename_i k' h; rw [h]; simp
  · rename_i h
    simp only [reduceCtorEq, false_iff]
    exact fun h' => h k h'

theorem candidate_mem {ks : List Str} {w k : Str} (h : candidate w ks = some k) : k ∈ ks := by
  unfold candidate at h
  split at h
  · rename_i k' hk
    simp only [Option.some.injEq] at h
    subst h
    have : k' ∈ ks.filter (begins w) := by rw [hk]; simp
    exact (List.mem_filter.mp this).1
  · simp at h

/-! Words and numbers. -/

theorem splitEq_none {w : Str} : splitEq w = none ↔ '=' ∉ w := by
  unfold splitEq
  split
  · rename_i h
    simp only [true_iff]
    intro hm
    have h2 := List.takeWhile_append_dropWhile (p := fun c : Char => decide (c ≠ '=')) (l := w)
    rw [h, List.append_nil] at h2
    have h3 := List.all_takeWhile (p := fun c : Char => decide (c ≠ '=')) (l := w)
    rw [h2, List.all_eq_true] at h3
    exact absurd (h3 '=' hm) (by simp)
  · rename_i x v h
    simp only [reduceCtorEq, false_iff, Classical.not_not]
    have h1 : x = '=' := by
      have := List.head_dropWhile_not (p := fun c : Char => decide (c ≠ '=')) (l := w) (by rw [h]; simp)
      simp only [h] at this
      exact Classical.not_not.mp (of_decide_eq_false this)
    have : x ∈ w.dropWhile (· ≠ '=') := by rw [h]; simp
    exact h1 ▸ (List.dropWhile_sublist _).subset this

theorem splitEq_some {w k v : Str} : splitEq w = some (k, v) ↔ w = k ++ '=' :: v ∧ '=' ∉ k := by
  unfold splitEq
  constructor
  · intro h
    split at h
    · simp at h
    · rename_i x v' hd
      simp only [Option.some.injEq, Prod.mk.injEq] at h
      obtain ⟨rfl, rfl⟩ := h
      have h1 : x = '=' := by
        have := List.head_dropWhile_not (p := fun c : Char => decide (c ≠ '=')) (l := w) (by rw [hd]; simp)
        simp only [hd] at this
        exact Classical.not_not.mp (of_decide_eq_false this)
      refine ⟨?_, ?_⟩
      · have := List.takeWhile_append_dropWhile (p := fun c : Char => decide (c ≠ '=')) (l := w)
        rw [hd, h1] at this
        exact this.symm
      · intro hm
        have := List.all_takeWhile (p := fun c : Char => decide (c ≠ '=')) (l := w)
        rw [List.all_eq_true] at this
        exact absurd (this _ hm) (by simp)
  · rintro ⟨rfl, hk⟩
    have hall : ∀ c ∈ k, decide (c ≠ '=') = true := by
      intro c hc; simp only [decide_eq_true_eq]; rintro rfl; exact hk hc
    have h1 : (k ++ '=' :: v).dropWhile (fun c : Char => decide (c ≠ '=')) = '=' :: v := by
      rw [List.dropWhile_append_of_pos hall, List.dropWhile_cons_of_neg (by simp)]
    have h2 : (k ++ '=' :: v).takeWhile (fun c : Char => decide (c ≠ '=')) = k := by
      rw [List.takeWhile_append_of_pos hall, List.takeWhile_cons_of_neg (by simp), List.append_nil]
    rw [h1, h2]

/-- All words are accepted one after the other. -/
def run (f : Options → Str → Outcome) : Options → List Str → Outcome
  | o, [] => .ok o
  | o, w :: ws => match f o w with
    | .ok o => run f o ws
    | e => e

theorem each_run (f : Options → Str → Outcome) : ∀ (ws : List Str) (o : Options) (args : List Str),
    (∀ w ∈ ws, w.head? ≠ some '-') → OptionNext args →
    (each f o (ws ++ args)).1 = run f o ws ∧ (∀ o', run f o ws = .ok o' → each f o (ws ++ args) = (.ok o', args)) := by
  intro ws
  induction ws with
  | nil =>
    intro o args _ ha
    cases args with
    | nil => exact ⟨rfl, fun o' h => by cases h; rfl⟩
    | cons w r =>
      have : w.head? = some '-' := ha w (by simp)
      simp [each, extractString, this, run]
  | cons w ws ih =>
    intro o args hw ha
    have h1 : extractString (w :: (ws ++ args)) = some (w, ws ++ args) := by
      simp [extractString, hw w (by simp)]
    simp only [List.cons_append, each, h1, run]
    cases hf : f o w with
    | ok o' => exact ih o' args (fun w hw' => hw w (by simp [hw'])) ha
    | exit n => simp
    | undefined => simp

theorem cDigit_eq : cDigit = isDigit := by
  funext c
  rw [Bool.eq_iff_iff]
  have e : "0123456789".toList = ['0', '1', '2', '3', '4', '5', '6', '7', '8', '9'] := rfl
  simp only [cDigit, isDigit, e, List.contains_cons, List.contains_nil, Bool.or_eq_true, beq_iff_eq, Bool.or_false,
    Bool.and_eq_true, decide_eq_true_eq, Char.ext_iff, ← UInt32.toNat_inj]
  show 48 ≤ c.toNat ∧ c.toNat ≤ 57 ↔ c.toNat = 48 ∨ c.toNat = 49 ∨ c.toNat = 50 ∨ c.toNat = 51 ∨ c.toNat = 52 ∨
    c.toNat = 53 ∨ c.toNat = 54 ∨ c.toNat = 55 ∨ c.toNat = 56 ∨ c.toNat = 57
  omega

theorem takeWhile_digits {ds j : Str} (hd : ∀ c ∈ ds, isDigit c = true) (hj : NoDigit j) :
    (ds ++ j).takeWhile isDigit = ds := by
  rw [List.takeWhile_append_of_pos hd]
  cases j with
  | nil => simp
  | cons c r =>
    have : isDigit c = false := hj c (by simp)
    rw [List.takeWhile_cons_of_neg (by simp [this]), List.append_nil]

theorem extractNumber_attached {ds j : Str} (args) (hd : Number ds) (hj : NoDigit j) :
    extractNumber (ds ++ j) args = (some ds, j, args) := by
  unfold extractNumber
  simp only [cDigit_eq]
  rw [takeWhile_digits hd.2 hj]
  simp [hd.1]

theorem extractNumber_separate {w j : Str} (args) (hw : Number w) (hj : NoDigit j) :
    extractNumber j (w :: args) = (some w, j, args) := by
  unfold extractNumber
  simp only [cDigit_eq]
  have := takeWhile_digits (ds := []) (by simp) hj
  rw [List.nil_append] at this
  rw [this]
  have h2 : w.all isDigit = true := by rw [List.all_eq_true]; exact hw.2
  simp [hw.1, h2]

theorem extractNumber_bare {j : Str} {args : List Str} (hj : NoDigit j) (ha : ∀ w ∈ args.head?, ¬ Number w) :
    extractNumber j args = (none, j, args) := by
  unfold extractNumber
  simp only [cDigit_eq]
  have := takeWhile_digits (ds := []) (by simp) hj
  rw [List.nil_append] at this
  rw [this]
  cases args with
  | nil => simp
  | cons w r =>
    have hw := ha w (by simp)
    have : ¬ (w ≠ [] ∧ w.all isDigit = true) := by
      rintro ⟨h1, h2⟩
      rw [List.all_eq_true] at h2
      exact hw ⟨h1, h2⟩
    simp only [ne_eq, not_true_eq_false, if_false, List.all_eq_true, ite_eq_right_iff]
    intro h
    exact absurd ⟨h.1, List.all_eq_true.mpr h.2⟩ this

/-! The effect of an item. -/

def numberOf (path : Str) (o : Options) (c : Char) (n : Nat) : Options :=
  match c with
  | 'b' => { o with breakAfterFails := n }
  | 'F' => { o with foldJson := n }
  | 'r' => { o with runRounds := n }
  | _ => { o with verbose := n }

def bareOf : Char → Nat
  | 'b' => 1
  | 'F' => 0
  | 'r' => 2
  | _ => 8

def wordOf : Char → Options → Str → Outcome
  | 'e' => excludeWord
  | 'i' => includeWord
  | 'l' => listWord
  | 's' => shuffleWord
  | _ => warnWord

def lastOf : Char → Options → Options
  | 'l' => fun o => if !o.listSuite && !o.listCase && !o.listTodo && !o.listTags
      then { o with listSuite := true, listCase := true, listTodo := true } else o
  | 's' => fun o => if !o.shuffleRandom && !o.shuffleName && !o.shuffleFile && !o.shuffleReverse
      then { o with shuffleRandom := true } else o
  | _ => id

def apply (path : Str) (o : Options) : Item → Outcome
  | .flag c => (option path o c [] []).1
  | .number c none => .ok (numberOf path o c (bareOf c))
  | .number c (some ds) => match atoi ds with
    | some n => .ok (numberOf path o c n)
    | none => .undefined
  | .words c ws => match run (wordOf c) o ws with
    | .ok o => .ok (lastOf c o)
    | e => e
  | .word c none => (option path o c [] []).1
  | .word c (some w) => (option path o c [] [w]).1

theorem option_number (path o) {c : Char} (hc : c ∈ numeric) (j args) :
    option path o c j args = match extractNumber j args with
      | (none, j, args) => (.ok (numberOf path o c (bareOf c)), j, args)
      | (some ds, j, args) => match atoi ds with
        | some n => (.ok (numberOf path o c n), j, args)
        | none => (.undefined, j, args) := by
  simp only [numeric, List.mem_cons, List.not_mem_nil, or_false] at hc
  rcases hc with rfl | rfl | rfl | rfl <;> rfl

theorem option_words (path o) {c : Char} (hc : c ∈ listed) (j args) :
    option path o c j args = match each (wordOf c) o args with
      | (.ok o, args) => (.ok (lastOf c o), j, args)
      | (e, args) => (e, j, args) := by
  simp only [listed, List.mem_cons, List.not_mem_nil, or_false] at hc
  rcases hc with rfl | rfl | rfl | rfl | rfl <;> rfl

theorem option_flag (path o) {c : Char} (h1 : c ∉ numeric) (h2 : c ∉ listed) (h3 : c ∉ single) (j args) :
    option path o c j args = (apply path o (.flag c), j, args) := by
  simp only [numeric, listed, single, List.mem_cons, List.not_mem_nil, or_false, not_or] at h1 h2 h3
  obtain ⟨b1, b2, b3, b4⟩ := h1
  obtain ⟨l1, l2, l3, l4, l5⟩ := h2
  obtain ⟨s1, s2, s3, s4⟩ := h3
  by_cases e1 : c = 'c'
  · subst e1; rfl
  by_cases e2 : c = 'C'
  · subst e2; rfl
  by_cases e3 : c = 'd'
  · subst e3; rfl
  by_cases e4 : c = 'f'
  · subst e4; rfl
  by_cases e5 : c = 'm'
  · subst e5; rfl
  by_cases e6 : c = 'p'
  · subst e6; rfl
  by_cases e7 : c = 'x'
  · subst e7; rfl
  have key : ∀ j args, option path o c j args = (.ok o, j, args) := by
    intro j args
    unfold option
    split <;> first | exact absurd rfl (by assumption) | rfl
  simp only [apply, key]

theorem option_word (path o) {c : Char} (hc : c ∈ single) {w : Str} (hw : w.head? ≠ some '-') (j args) :
    option path o c j (w :: args) = ((apply path o (.word c (some w)), j, args)) ∨ c = 'h' ∨ c = '?' ∨
      (option path o c j (w :: args)).1 = .undefined := by
  simp only [single, List.mem_cons, List.not_mem_nil, or_false] at hc
  have h1 : ∀ args, extractString (w :: args) = some (w, args) := by intro args; simp [extractString, hw]
  rcases hc with rfl | rfl | rfl | rfl
  · simp only [apply, option, h1]
    split
    · exact .inl rfl
    · exact .inr (.inr (.inr rfl))
  · left; simp only [apply, option, h1]
  · exact .inr (.inl rfl)
  · exact .inr (.inr (.inl rfl))

theorem option_word_fst (path o) {c : Char} (hc : c ∈ single) {w : Str} (hw : w.head? ≠ some '-') (j args) :
    (option path o c j (w :: args)).1 = apply path o (.word c (some w)) := by
  simp only [single, List.mem_cons, List.not_mem_nil, or_false] at hc
  have h1 : ∀ args, extractString (w :: args) = some (w, args) := by intro args; simp [extractString, hw]
  rcases hc with rfl | rfl | rfl | rfl
  · simp only [apply, option, h1]
    split <;> rfl
  · simp only [apply, option, h1]
  · rfl
  · rfl

theorem option_noWord (path o) {c : Char} (hc : c ∈ single) {args} (ha : OptionNext args) (j) :
    option path o c j args = ((apply path o (.word c none), j, args)) := by
  simp only [single, List.mem_cons, List.not_mem_nil, or_false] at hc
  have h1 : extractString args = none := by
    cases args with
    | nil => rfl
    | cons w r =>
      have : w.head? = some '-' := ha w (by simp)
      simp [extractString, this]
  have h2 : extractString [] = none := rfl
  rcases hc with rfl | rfl | rfl | rfl
  · simp only [apply, option, h1, h2]
    split <;> rfl
  · simp only [apply, option, h1, h2]
  · rfl
  · rfl

/-! The loop. -/

def size (j : Str) (args : List Str) : Nat := j.length + (args.map List.length).sum

theorem next_dash (j args) : next [] (('-' :: j) :: args) = next j args := by
  cases j with
  | nil => simp [next]
  | cons c r => simp [next]

theorem next_stray {w : Str} (hw : w.head? ≠ some '-') (args) : next [] (w :: args) = next [] args := by
  cases w with
  | nil => simp [next]
  | cons c r =>
    have : c ≠ '-' := by simpa using hw
    rw [next]
    intro c' j' h
    cases h
    exact this rfl

theorem loop_congr (path f o) {j args j' args'} (h : next j args = next j' args') :
    loop path f o j args = loop path f o j' args' := by
  cases f with
  | zero => rfl
  | succ f => simp only [loop, h]

/-- The items one after the other. -/
def applyAll (path : Str) : Options → List Item → Outcome
  | o, [] => .ok o
  | o, i :: is => match apply path o i with
    | .ok o => applyAll path o is
    | e => e

/-- What the loop does after an option. -/
def after (path : Str) (f : Nat) : Outcome × Str × List Str → Outcome
  | (.ok o, j, args) => loop path f o j args
  | (e, _, _) => e

theorem loop_step (path f o c j args) {e} (h : option path o c j args = e) :
    loop path (f + 1) o (c :: j) args = after path f e := by
  rw [← h]
  simp only [loop, next]
  rfl

theorem loop_fail (path f o c j args) (h : ∀ o', (option path o c j args).1 ≠ .ok o') :
    loop path (f + 1) o (c :: j) args = (option path o c j args).1 := by
  rw [loop_step path f o c j args rfl]
  generalize option path o c j args = r at h ⊢
  match r, h with
  | (.ok o', j, a), h => exact absurd rfl (h o')
  | (.exit n, j, a), _ => rfl
  | (.undefined, j, a), _ => rfl

theorem loop_writes (path) {j args is} (hw : Writes j args is) :
    ∀ (f : Nat) (o : Options), size j args < f → loop path f o j args = applyAll path o is := by
  induction hw with
  | nil => intro f o hf; cases f with
    | zero => omega
    | succ f => rfl
  | stray h _ ih =>
    intro f o hf
    rw [loop_congr path f o (next_stray h _)]
    refine ih f o ?_
    simp only [size, List.map_cons, List.sum_cons] at hf ⊢; omega
  | dash _ ih =>
    intro f o hf
    rw [loop_congr path f o (next_dash _ _)]
    refine ih f o ?_
    simp only [size, List.map_cons, List.sum_cons, List.length_cons, List.length_nil] at hf ⊢; omega
  | @flag c j args is h1 h2 h3 _ ih =>
    intro f o hf
    cases f with
    | zero => omega
    | succ f =>
      rw [loop_step path f o c j args (option_flag path o h1 h2 h3 j args)]
      simp only [applyAll]
      have hs : size j args < f := by simp only [size, List.length_cons] at hf ⊢; omega
      cases apply path o (.flag c) with
      | ok o' => exact ih f o' hs
      | exit n => rfl
      | undefined => rfl
  | @attached c ds j args is hc hd hj _ ih =>
    intro f o hf
    cases f with
    | zero => omega
    | succ f =>
      rw [loop_step path f o c (ds ++ j) args (option_number path o hc _ _), extractNumber_attached args hd hj]
      have hs : size j args < f := by simp only [size, List.length_cons, List.length_append] at hf ⊢; omega
      simp only [applyAll, apply]
      cases atoi ds with
      | none => rfl
      | some n => exact ih f _ hs
  | @separate c w j args is hc hj hw _ ih =>
    intro f o hf
    cases f with
    | zero => omega
    | succ f =>
      rw [loop_step path f o c j (w :: args) (option_number path o hc _ _), extractNumber_separate args hw hj]
      have hs : size j args < f := by
        simp only [size, List.length_cons, List.map_cons, List.sum_cons] at hf ⊢; omega
      simp only [applyAll, apply]
      cases atoi w with
      | none => rfl
      | some n => exact ih f _ hs
  | @bare c j args is hc hj ha _ ih =>
    intro f o hf
    cases f with
    | zero => omega
    | succ f =>
      rw [loop_step path f o c j args (option_number path o hc _ _), extractNumber_bare hj ha]
      have hs : size j args < f := by simp only [size, List.length_cons] at hf ⊢; omega
      simp only [applyAll, apply]
      exact ih f _ hs
  | @words c ws j args is hc hw ha _ ih =>
    intro f o hf
    cases f with
    | zero => omega
    | succ f =>
      have hs : size j args < f := by
        simp only [size, List.length_cons, List.map_append, List.sum_append] at hf ⊢; omega
      obtain ⟨h1, h2⟩ := each_run (wordOf c) ws o args hw ha
      simp only [applyAll, apply]
      cases hr : run (wordOf c) o ws with
      | ok o' =>
        rw [loop_step path f o c j (ws ++ args) (option_words path o hc _ _), h2 o' hr]
        exact ih f _ hs
      | exit n =>
        have : (option path o c j (ws ++ args)).1 = .exit n := by
          rw [option_words path o hc]
          rw [hr] at h1
          obtain ⟨r, hr'⟩ : ∃ r, each (wordOf c) o (ws ++ args) = r := ⟨_, rfl⟩
          rw [hr'] at h1 ⊢
          obtain ⟨a, b⟩ := r
          simp only at h1; subst h1; rfl
        rw [loop_fail path f o c j _ (by rw [this]; simp), this]
      | undefined =>
        have : (option path o c j (ws ++ args)).1 = .undefined := by
          rw [option_words path o hc]
          rw [hr] at h1
          obtain ⟨r, hr'⟩ : ∃ r, each (wordOf c) o (ws ++ args) = r := ⟨_, rfl⟩
          rw [hr'] at h1 ⊢
          obtain ⟨a, b⟩ := r
          simp only at h1; subst h1; rfl
        rw [loop_fail path f o c j _ (by rw [this]; simp), this]
  | @word c w j args is hc hw _ ih =>
    intro f o hf
    cases f with
    | zero => omega
    | succ f =>
      have hs : size j args < f := by
        simp only [size, List.length_cons, List.map_cons, List.sum_cons] at hf ⊢; omega
      simp only [applyAll]
      have h1 := option_word_fst path o hc hw j args
      cases hr : apply path o (.word c (some w)) with
      | ok o' =>
        rw [hr] at h1
        have h2 : option path o c j (w :: args) = (.ok o', j, args) := by
          rcases option_word path o hc hw j args with h | rfl | rfl | h
          · rw [h, hr]
          · simp [apply, option] at hr
          · simp [apply, option] at hr
          · rw [h] at h1; simp at h1
        rw [loop_step path f o c j (w :: args) h2]
        exact ih f _ hs
      | exit n => rw [loop_fail path f o c j _ (by rw [h1, hr]; simp), h1, hr]
      | undefined => rw [loop_fail path f o c j _ (by rw [h1, hr]; simp), h1, hr]
  | @noWord c j args is hc ha _ ih =>
    intro f o hf
    cases f with
    | zero => omega
    | succ f =>
      have hs : size j args < f := by simp only [size, List.length_cons] at hf ⊢; omega
      rw [loop_step path f o c j args (option_noWord path o hc ha j)]
      simp only [applyAll]
      cases apply path o (.word c none) with
      | ok o' => exact ih f o' hs
      | exit n => rfl
      | undefined => rfl

end H2.Cli
