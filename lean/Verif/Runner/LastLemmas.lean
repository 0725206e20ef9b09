import Verif.Runner.Sort
import Verif.Runner.Props
/-
Lemmas for C36: what a run leaves unchanged, reading back the record of the last order, and the effect of
the record on marks and sequence numbers.
-/
namespace H2.Runner

/-! ### What a run leaves unchanged -/

/-- The part of a case that running does not change. -/
def Case.static (c : Case) : Case := { c with seq := 0, ignored := false, failed := false, lastFailed := false, warning := false }

/-- Every case with the suite it belongs to, in order. -/
def sig (ss : List Suite) : List (Nat × List Char × Case) := ss.flatMap fun s => s.cases.map fun c => (s.id, s.name, c.static)

theorem sig_of_like {ss ss' : List Suite} (h : All₂ SuiteLike ss ss') : sig ss' = sig ss ∧ ss'.map (·.id) = ss.map (·.id) := by
  induction h with
  | nil => exact ⟨rfl, rfl⟩
  | @cons a b as bs hab _ ih =>
    constructor
    · simp only [sig, List.flatMap_cons] at *
      rw [ih.1, hab.id, hab.name]
      congr 1
      have := hab.cases
      generalize a.cases = xs at this
      generalize b.cases = ys at this
      induction this with
      | nil => rfl
      | cons h _ ih2 => obtain ⟨s, l, rfl⟩ := h; simp only [List.map_cons, ih2]; rfl
    · simp only [List.map_cons, ih.2, hab.id]

theorem sig_perm {ss ss' : List Suite} (p : ss.Perm ss') : (sig ss).Perm (sig ss') := List.Perm.flatMap_right _ p

theorem sig_sortAll (cmp : Key → Key → Int) (ss : List Suite) : (sig (sortAll cmp ss)).Perm (sig ss) ∧ ((sortAll cmp ss).map (·.id)).Perm (ss.map (·.id)) := by
  unfold sortAll
  constructor
  · refine List.Perm.trans ?_ (sig_perm (sort_perm (fun (a b : Suite) => cmp a.key b.key) ss))
    generalize sort (fun (a b : Suite) => cmp a.key b.key) ss = ts
    unfold sig
    induction ts with
    | nil => exact .refl _
    | cons t ts ih =>
      simp only [List.map_cons, List.flatMap_cons]
      exact ((sort_perm _ _).map _).append ih
  · rw [List.map_map]
    exact (sort_perm _ ss).map _

theorem sig_shuffle (o : Opts) (rnd : Nat → Int) (st : State) : (sig (st.shuffle o rnd).suites).Perm (sig st.suites) ∧
    ((st.shuffle o rnd).suites.map (·.id)).Perm (st.suites.map (·.id)) := by
  obtain ⟨h1, h2⟩ := sig_of_like (restore_like st)
  unfold State.shuffle
  simp only
  split
  · have := sig_sortAll cmpSeq st.restore.suites
    exact ⟨h1 ▸ this.1, h2 ▸ this.2⟩
  · split
    · have hr : sig (if o.random then st.restore.suites.map (randomize rnd) else st.restore.suites) = sig st.suites ∧
          (if o.random then st.restore.suites.map (randomize rnd) else st.restore.suites).map (·.id) = st.suites.map (·.id) := by
        split
        · have : All₂ SuiteLike st.restore.suites (st.restore.suites.map (randomize rnd)) := by
            generalize st.restore.suites = ss
            induction ss with
            | nil => exact .nil
            | cons s ss ih => exact .cons (randomize_like rnd s) ih
          obtain ⟨g1, g2⟩ := sig_of_like this
          exact ⟨g1.trans h1, g2.trans h2⟩
        · exact ⟨h1, h2⟩
      have := sig_sortAll (cmpOpt o) (if o.random then st.restore.suites.map (randomize rnd) else st.restore.suites)
      rw [hr.1, hr.2] at this
      exact this
    · exact ⟨h1 ▸ .refl _, h2 ▸ .refl _⟩

/-- What one turn of the loop does with a case. -/
structure Turn (o : Opts) (c : Case) (e : Event) : Prop where
  static : e.case.static = c.static
  idle : e.ran = false → e.case.failed = c.failed
  ran : e.ran = (!o.lists && !e.case.todo && !e.case.filtered && !e.case.ignored)
  ignored : o.breakAfter ≤ 0 → e.case.ignored = (c.ignored || (o.onlyLast && !c.lastFailed))

theorem runCase_turn (o : Opts) (env : Env) (round : Nat) (l : Loop) (c : Case) : ∃ e, (runCase o env round l c).2.log = l.log ++ [e] ∧
    e.case = (runCase o env round l c).1 ∧ Turn o c e := by
  unfold runCase
  simp only
  by_cases hg : (0 < o.breakAfter ∧ o.breakAfter ≤ l.stats.failed) ∨ (o.onlyLast = true ∧ c.lastFailed = false)
  · rw [if_pos hg]
    simp only [Bool.not_true, Bool.and_false, Bool.false_eq_true, if_false]
    refine ⟨_, rfl, rfl, rfl, fun _ => rfl, by simp, ?_⟩
    intro hb
    rcases hg with h | h
    · omega
    · simp [h.1, h.2]
  · rw [if_neg hg]
    have hi : (o.onlyLast && !c.lastFailed) = false := by
      cases h1 : o.onlyLast <;> cases h2 : c.lastFailed <;> simp
      exact hg (.inr ⟨h1, h2⟩)
    split
    · rename_i hr
      refine ⟨_, rfl, rfl, rfl, fun h => by simp at h, by simpa using hr, ?_⟩
      intro _
      simp [hi]
    · rename_i hr
      refine ⟨_, rfl, rfl, rfl, fun _ => rfl, ?_, ?_⟩
      · simpa using hr
      · intro _; simp [hi]

theorem runCases_turn (o : Opts) (env : Env) (round : Nat) (cs : List Case) : ∀ l : Loop, ∃ es,
    (runCases o env round l cs).2.log = l.log ++ es ∧ es.map (·.case) = (runCases o env round l cs).1 ∧ All₂ (Turn o) cs es := by
  induction cs with
  | nil => intro l; exact ⟨[], by simp [runCases], rfl, .nil⟩
  | cons c cs ih =>
    intro l
    obtain ⟨e, h1, h2, h3⟩ := runCase_turn o env round l c
    obtain ⟨es, g1, g2, g3⟩ := ih (runCase o env round l c).2
    refine ⟨e :: es, ?_, ?_, .cons h3 g3⟩
    · show (runCases o env round (runCase o env round l c).2 cs).2.log = _
      rw [g1, h1]; simp
    · show _ = (runCase o env round l c).1 :: (runCases o env round (runCase o env round l c).2 cs).1
      rw [List.map_cons, g2, h2]

theorem all₂_append {α β : Type} {R : α → β → Prop} {as as' : List α} {bs bs' : List β} (h : All₂ R as bs) (h' : All₂ R as' bs') :
    All₂ R (as ++ as') (bs ++ bs') := by
  induction h with
  | nil => exact h'
  | cons a _ ih => exact .cons a ih

theorem turn_static {o : Opts} {cs : List Case} {es : List Event} (h : All₂ (Turn o) cs es) : (es.map (·.case)).map Case.static = cs.map Case.static := by
  induction h with
  | nil => rfl
  | cons a _ ih => simp only [List.map_cons, a.static, ih]

theorem runSuites_turn (o : Opts) (env : Env) (round : Nat) (ss : List Suite) : ∀ (st : Stats) (log : List Event) (sl : List (Nat × Stats)), ∃ es,
    (runSuites o env round st log sl ss).2.2.1 = log ++ es ∧ es.map (·.case) = allCases (runSuites o env round st log sl ss).1 ∧
      All₂ (Turn o) (allCases ss) es ∧ sig (runSuites o env round st log sl ss).1 = sig ss ∧
      (runSuites o env round st log sl ss).1.map (·.id) = ss.map (·.id) := by
  induction ss with
  | nil => intro st log sl; exact ⟨[], by simp [runSuites], rfl, .nil, rfl, rfl⟩
  | cons s ss ih =>
    intro st log sl
    obtain ⟨es, h1, h2, h3⟩ := runCases_turn o env round s.cases ⟨st, {}, log⟩
    obtain ⟨r, hr⟩ : ∃ r, runCases o env round ⟨st, {}, log⟩ s.cases = r := ⟨_, rfl⟩
    rw [hr] at h1 h2
    obtain ⟨fs, g1, g2, g3, g4, g5⟩ := ih r.2.stats r.2.log (sl ++ [(s.id, r.2.suite)])
    simp only [runSuites, hr]
    refine ⟨es ++ fs, ?_, ?_, ?_, ?_, ?_⟩
    · rw [g1, h1, List.append_assoc]
    · simp only [allCases, List.flatMap_cons, List.map_append] at *
      rw [h2, g2]
    · exact all₂_append h3 g3
    · have ht := turn_static h3
      rw [h2] at ht
      have hm : ∀ cs : List Case, (cs.map fun c => (s.id, s.name, c.static)) = (cs.map Case.static).map fun c => (s.id, s.name, c) := by
        intro cs; rw [List.map_map]; rfl
      simp only [sig, List.flatMap_cons] at *
      rw [g4, hm, ht, ← hm]
    · simp only [List.map_cons, g5]

/-- Filtering two related lists. -/
theorem all₂_filter {α β γ : Type} {R : α → β → Prop} {as : List α} {bs : List β} (h : All₂ R as bs) (p : α → Bool) (q : β → Bool) (f : α → γ) (g : β → γ)
    (hp : ∀ a b, R a b → p a = q b) (hf : ∀ a b, R a b → f a = g b) : (as.filter p).map f = (bs.filter q).map g := by
  induction h with
  | nil => rfl
  | cons a _ ih =>
    rw [List.filter_cons, List.filter_cons, hp _ _ a]
    split
    · rw [List.map_cons, List.map_cons, ih, hf _ _ a]
    · exact ih

/-! ### Reading the record -/

/-- A line that is read back as it was written: no newline, and short enough for the buffer. -/
def Short (name : List Char) : Prop := '\n' ∉ name ∧ name.length ≤ 503

theorem fgetsC_line (line rest : List Char) (n : Nat) (h : '\n' ∉ line) (hn : line.length < n) : fgetsC n (line ++ '\n' :: rest) = (line ++ ['\n'], rest) := by
  induction line generalizing n with
  | nil =>
    cases n with
    | zero => simp at hn
    | succ n => simp [fgetsC]
  | cons c cs ih =>
    cases n with
    | zero => simp at hn
    | succ n =>
      have hc : c ≠ '\n' := fun e => h (e ▸ List.mem_cons_self ..)
      simp only [List.cons_append, fgetsC, if_neg hc]
      rw [ih n (fun x => h (List.mem_cons_of_mem _ x)) (by simp at hn; omega)]

theorem fgets_line (line rest : List Char) (h : '\n' ∉ line) (hn : line.length ≤ 510) : fgets (line ++ '\n' :: rest) = some (line, rest) := by
  unfold fgets
  cases hl : line ++ '\n' :: rest with
  | nil => simp at hl
  | cons c cs =>
    simp only
    rw [← hl, fgetsC_line line rest 511 h (by omega)]
    simp

/-- One record. -/
structure Rec where
  file : List Char
  sname : List Char
  cname : List Char
  failed : Bool

/-- The names that identify a case in the record: suite, case, file. -/
abbrev Triple := List Char × List Char × List Char

def Rec.key (r : Rec) : Triple := (r.sname, r.cname, r.file)

/-- The text of a record. -/
def Rec.text (r : Rec) : List Char :=
  " file: ".toList ++ r.file ++ "\nsuite: ".toList ++ r.sname ++ "\n case: ".toList ++ r.cname ++ "\n test: ".toList ++
    (if r.failed then "failed" else "passed").toList ++ "\n\n".toList

def Rec.ok (r : Rec) : Prop := Short r.file ∧ Short r.sname ∧ Short r.cname

theorem readFive_text (r : Rec) (h : r.ok) (rest : List Char) :
    readFive (r.text ++ rest) = some ((" file: ".toList ++ r.file, "suite: ".toList ++ r.sname, " case: ".toList ++ r.cname,
      " test: ".toList ++ (if r.failed then "failed" else "passed").toList), rest) := by
  obtain ⟨⟨f1, f2⟩, ⟨s1, s2⟩, c1, c2⟩ := h
  have e : r.text ++ rest = (" file: ".toList ++ r.file) ++ '\n' :: (("suite: ".toList ++ r.sname) ++ '\n' :: ((" case: ".toList ++ r.cname) ++ '\n' ::
      ((" test: ".toList ++ (if r.failed then "failed" else "passed").toList) ++ '\n' :: ([] ++ '\n' :: rest)))) := by
    unfold Rec.text
    rw [show "\nsuite: ".toList = '\n' :: "suite: ".toList from rfl, show "\n case: ".toList = '\n' :: " case: ".toList from rfl,
      show "\n test: ".toList = '\n' :: " test: ".toList from rfl, show "\n\n".toList = ['\n', '\n'] from rfl]
    simp only [List.append_assoc, List.cons_append, List.nil_append]
  rw [e]
  unfold readFive
  rw [fgets_line (" file: ".toList ++ r.file) _ (by simp only [List.mem_append, not_or]; exact ⟨by decide, f1⟩)
    (by rw [List.length_append]; have : " file: ".toList.length = 7 := rfl; omega)]
  simp only
  rw [fgets_line ("suite: ".toList ++ r.sname) _ (by simp only [List.mem_append, not_or]; exact ⟨by decide, s1⟩)
    (by rw [List.length_append]; have : "suite: ".toList.length = 7 := rfl; omega)]
  simp only
  rw [fgets_line (" case: ".toList ++ r.cname) _ (by simp only [List.mem_append, not_or]; exact ⟨by decide, c1⟩)
    (by rw [List.length_append]; have : " case: ".toList.length = 7 := rfl; omega)]
  simp only
  rw [fgets_line (" test: ".toList ++ (if r.failed then "failed" else "passed").toList) _ (by cases r.failed <;> decide) (by cases r.failed <;> decide)]
  simp only
  rw [fgets_line [] rest (by simp) (by simp)]

/-! ### The effect of one record -/

def Hit (r : Rec) (s : Suite) (c : Case) : Prop := r.sname = s.name ∧ r.cname = c.name ∧ r.file = c.file

instance (r : Rec) (s : Suite) (c : Case) : Decidable (Hit r s c) := inferInstanceAs (Decidable (_ ∧ _ ∧ _))

def markC (r : Rec) (k : Int) (s : Suite) (c : Case) : Case := if Hit r s c then { c with seq := k, lastFailed := c.lastFailed || r.failed } else c

def mark (r : Rec) (k : Int) (s : Suite) : Suite :=
  { s with cases := s.cases.map (markC r k s), seq := if ∃ c ∈ s.cases, Hit r s c then k else s.seq }

def keyOf (s : Suite) (c : Case) : Triple := (s.name, c.name, c.file)

/-- The names of all cases. -/
def keys (ss : List Suite) : List Triple := ss.flatMap fun s => s.cases.map (keyOf s)

theorem hit_iff (r : Rec) (s : Suite) (c : Case) : Hit r s c ↔ keyOf s c = r.key := by
  unfold Hit keyOf Rec.key
  simp only [Prod.mk.injEq]
  constructor
  · rintro ⟨a, b, c⟩; exact ⟨a.symm, b.symm, c.symm⟩
  · rintro ⟨a, b, c⟩; exact ⟨a.symm, b.symm, c.symm⟩

theorem findIn_none (r : Rec) (s : Suite) (hs : r.sname = s.name) (cs : List Case) (k : Int) (h : ∀ c ∈ cs, ¬ Hit r s c) :
    findIn r.file r.cname r.failed cs k = (cs, k) := by
  induction cs with
  | nil => rfl
  | cons c cs ih =>
    have hc : ¬ (r.cname = c.name ∧ r.file = c.file) := fun x => h c (List.mem_cons_self ..) ⟨hs, x⟩
    simp only [findIn, if_neg hc, ih fun d hd => h d (List.mem_cons_of_mem _ hd)]

theorem markC_none (r : Rec) (k : Int) (s : Suite) (cs : List Case) (h : ∀ c ∈ cs, ¬ Hit r s c) : cs.map (markC r k s) = cs := by
  have : cs.map (markC r k s) = cs.map id := List.map_congr_left fun c hc => by simp [markC, h c hc]
  rw [this, List.map_id]

theorem findIn_one (r : Rec) (s : Suite) (hs : r.sname = s.name) (cs : List Case) (k : Int) (hn : (cs.map (keyOf s)).Nodup) (h : ∃ c ∈ cs, Hit r s c) :
    findIn r.file r.cname r.failed cs k = (cs.map (markC r (k + 1) s), k + 1) := by
  induction cs with
  | nil => obtain ⟨c, hc, _⟩ := h; cases hc
  | cons c cs ih =>
    rw [List.map_cons, List.nodup_cons] at hn
    by_cases hc : r.cname = c.name ∧ r.file = c.file
    · have hh : Hit r s c := ⟨hs, hc⟩
      have hr : ∀ d ∈ cs, ¬ Hit r s d := by
        intro d hd x
        rw [hit_iff] at x hh
        exact hn.1 (hh.trans x.symm ▸ List.mem_map_of_mem hd)
      simp only [findIn, if_pos hc, findIn_none r s hs cs (k + 1) hr, List.map_cons, markC_none r (k + 1) s cs hr]
      simp only [markC, if_pos hh]
    · have hh : ¬ Hit r s c := fun x => hc x.2
      have : ∃ d ∈ cs, Hit r s d := by
        obtain ⟨d, hd, x⟩ := h
        rcases List.mem_cons.1 hd with e | e
        · exact absurd (e ▸ x) hh
        · exact ⟨d, e, x⟩
      simp only [findIn, if_neg hc, ih hn.2 this, List.map_cons]
      simp only [markC, if_neg hh]

theorem mark_none (r : Rec) (k : Int) (s : Suite) (h : ∀ c ∈ s.cases, ¬ Hit r s c) : mark r k s = s := by
  unfold mark
  rw [markC_none r k s s.cases h, if_neg (by rintro ⟨c, hc, x⟩; exact h c hc x)]

theorem findCase_none (r : Rec) (ss : List Suite) (k : Int) (h : ∀ s ∈ ss, ∀ c ∈ s.cases, ¬ Hit r s c) :
    findCase r.file r.sname r.cname r.failed ss k = (ss, k) := by
  induction ss with
  | nil => rfl
  | cons s ss ih =>
    have ih := ih fun t ht => h t (List.mem_cons_of_mem _ ht)
    unfold findCase
    split
    · rename_i hs
      simp only [findIn_none r s hs s.cases k (h s (List.mem_cons_self ..)), ih]
      rw [if_neg (by omega)]
    · simp only [ih]

theorem nohit_of_notin {r : Rec} {ss : List Suite} (h : r.key ∉ keys ss) : ∀ s ∈ ss, ∀ c ∈ s.cases, ¬ Hit r s c := by
  intro s hs c hc x
  rw [hit_iff] at x
  exact h (List.mem_flatMap.2 ⟨s, hs, x ▸ List.mem_map_of_mem hc⟩)

theorem findCase_mark (r : Rec) (ss : List Suite) (k : Int) (hn : (keys ss).Nodup) (h : r.key ∈ keys ss) :
    findCase r.file r.sname r.cname r.failed ss k = (ss.map (mark r (k + 1)), k + 1) := by
  induction ss with
  | nil => cases h
  | cons s ss ih =>
    unfold keys at hn h
    rw [List.flatMap_cons, List.nodup_append] at hn
    obtain ⟨n1, n2, n3⟩ := hn
    by_cases hh : ∃ c ∈ s.cases, Hit r s c
    · have hs : r.sname = s.name := by obtain ⟨c, _, x⟩ := hh; exact x.1
      have hr : r.key ∉ keys ss := by
        intro hm
        obtain ⟨c, hc, x⟩ := hh
        rw [hit_iff] at x
        exact n3 _ (List.mem_map_of_mem hc) _ hm x
      have hr := nohit_of_notin hr
      have hm : ss.map (mark r (k + 1)) = ss := by
        have : ss.map (mark r (k + 1)) = ss.map id := List.map_congr_left fun t ht => mark_none r _ t (hr t ht)
        rw [this, List.map_id]
      simp only [findCase, if_pos hs, findIn_one r s hs s.cases k n1 hh, findCase_none r ss _ hr, List.map_cons, hm]
      simp only [mark, if_pos hh]
      rw [if_pos (by omega)]
    · have hno : ∀ c ∈ s.cases, ¬ Hit r s c := fun c hc x => hh ⟨c, hc, x⟩
      have hm : r.key ∈ keys ss := by
        rw [List.flatMap_cons] at h
        rcases List.mem_append.1 h with x | x
        · obtain ⟨c, hc, e⟩ := List.mem_map.1 x
          exact absurd ((hit_iff r s c).2 e) (hno c hc)
        · exact x
      have ih := ih n2 hm
      rw [List.map_cons, mark_none r _ s hno]
      unfold findCase
      split
      · rename_i hs
        simp only [findIn_none r s hs s.cases k hno, ih]
        rw [if_neg (by omega)]
      · simp only [ih]

theorem markC_static (r : Rec) (k : Int) (s : Suite) (c : Case) : (markC r k s c).static = c.static := by
  unfold markC; split <;> rfl

theorem markC_key (r : Rec) (k : Int) (s : Suite) (c : Case) : keyOf s (markC r k s c) = keyOf s c := by
  unfold markC; split <;> rfl

theorem keyOf_congr {s t : Suite} (h : s.name = t.name) (c : Case) : keyOf s c = keyOf t c := by unfold keyOf; rw [h]

theorem mark_keys (r : Rec) (k : Int) (s : Suite) : (mark r k s).cases.map (keyOf (mark r k s)) = s.cases.map (keyOf s) := by
  show (s.cases.map (markC r k s)).map (keyOf s) = _
  rw [List.map_map]
  exact List.map_congr_left fun c _ => markC_key r k s c

theorem keys_mark (r : Rec) (k : Int) (ss : List Suite) : keys (ss.map (mark r k)) = keys ss := by
  unfold keys
  rw [List.flatMap_map]
  induction ss with
  | nil => rfl
  | cons s ss ih => rw [List.flatMap_cons, List.flatMap_cons, mark_keys, ih]

/-- The effect of all records on a suite. -/
def marks : List Rec → Int → Suite → Suite
  | [], _, s => s
  | r :: rs, k, s => marks rs (k + 1) (mark r (k + 1) s)

theorem sequence_marks (rs : List Rec) : ∀ (n : Nat) (ss : List Suite) (k : Int), rs.length < n → (∀ r ∈ rs, r.ok) → (∀ r ∈ rs, r.key ∈ keys ss) →
    (keys ss).Nodup → sequence n (rs.flatMap Rec.text) ss k = (ss.map (marks rs k), k + rs.length, rs.length) := by
  induction rs with
  | nil =>
    intro n ss k hn _ _ _
    cases n with
    | zero => simp at hn
    | succ n => simp [sequence, readFive, fgets, marks]
  | cons r rs ih =>
    intro n ss k hn hok hk hnd
    cases n with
    | zero => simp at hn
    | succ n =>
      rw [List.flatMap_cons]
      simp only [sequence]
      rw [readFive_text r (hok r (List.mem_cons_self ..))]
      simp only
      have d1 : (" file: ".toList ++ r.file).drop 7 = r.file := rfl
      have d2 : ("suite: ".toList ++ r.sname).drop 7 = r.sname := rfl
      have d3 : (" case: ".toList ++ r.cname).drop 7 = r.cname := rfl
      have d4 : ("failed".toList == (" test: ".toList ++ (if r.failed then "failed" else "passed").toList).drop 7) = r.failed := by
        cases r.failed <;> decide
      rw [d1, d2, d3, d4, findCase_mark r ss k hnd (hk r (List.mem_cons_self ..))]
      simp only
      rw [ih n _ (k + 1) (by simp at hn; omega) (fun x hx => hok x (List.mem_cons_of_mem _ hx))
        (fun x hx => by rw [keys_mark]; exact hk x (List.mem_cons_of_mem _ hx)) (by rw [keys_mark]; exact hnd)]
      simp only [List.map_map, List.length_cons]
      refine Prod.ext ?_ (Prod.ext ?_ ?_)
      · rfl
      · simp only; omega
      · rfl

theorem marks_snoc (rs : List Rec) (r : Rec) : ∀ (k : Int) (s : Suite), marks (rs ++ [r]) k s = mark r (k + rs.length + 1) (marks rs k s) := by
  induction rs with
  | nil => intro k s; simp [marks]
  | cons x xs ih =>
    intro k s
    simp only [List.cons_append, marks, ih, List.length_cons]
    congr 1
    omega

/-- The invariant of reading the records. -/
structure Marked (rs : List Rec) (k : Int) (s F : Suite) : Prop where
  id : F.id = s.id
  name : F.name = s.name
  static : F.cases.map Case.static = s.cases.map Case.static
  seq : ∀ c ∈ F.cases, keyOf F c ∈ rs.map Rec.key → c.seq = k + (rs.map Rec.key).idxOf (keyOf F c) + 1
  top : ∀ c ∈ F.cases, keyOf F c ∈ rs.map Rec.key → c.seq ≤ F.seq
  hit : (∃ c ∈ F.cases, keyOf F c ∈ rs.map Rec.key) → F.seq ≤ k + rs.length ∧ ∃ d ∈ F.cases, keyOf F d ∈ rs.map Rec.key ∧ d.seq = F.seq
  last : ∀ c ∈ F.cases, c.lastFailed = rs.any fun r => decide (r.key = keyOf F c) && r.failed

theorem marks_marked (k : Int) (s : Suite) (h0 : ∀ c ∈ s.cases, c.lastFailed = false) (n : Nat) : ∀ (rs : List Rec), rs.length = n → (rs.map Rec.key).Nodup →
    Marked rs k s (marks rs k s) := by
  induction n with
  | zero =>
    intro rs hl _
    rw [List.length_eq_zero_iff] at hl
    subst hl
    exact ⟨rfl, rfl, rfl, by simp, by simp, by simp, fun c hc => by simp [h0 c hc]⟩
  | succ n ih =>
    intro rs hl hn
    rcases List.eq_nil_or_concat rs with e | ⟨xs, r, e⟩
    · subst e; simp at hl
    · rw [List.concat_eq_append] at e
      subst e
      have hxl : xs.length = n := by simpa using hl
      rw [List.map_append, List.nodup_append] at hn
      obtain ⟨n1, _, n3⟩ := hn
      have hr : r.key ∉ xs.map Rec.key := fun x => n3 _ x r.key (by simp) rfl
      have I := ih xs hxl n1
      rw [marks_snoc]
      obtain ⟨F, hF⟩ : ∃ F, marks xs k s = F := ⟨_, rfl⟩
      rw [hF] at I ⊢
      let K : Int := k + xs.length + 1
      have mem : ∀ t : Triple, t ∈ (xs ++ [r]).map Rec.key ↔ t ∈ xs.map Rec.key ∨ t = r.key := by
        intro t; simp
      -- each case after marking
      have each : ∀ c ∈ (mark r K F).cases, ∃ b ∈ F.cases, c = markC r K F b ∧ keyOf F c = keyOf F b := by
        intro c hc
        obtain ⟨b, hb, rfl⟩ := List.mem_map.1 hc
        exact ⟨b, hb, rfl, markC_key ..⟩
      have knew : ∀ b, keyOf F b = r.key → (markC r K F b).seq = K := by
        intro b hb; unfold markC; rw [if_pos ((hit_iff r F b).2 hb)]
      have kold : ∀ b, keyOf F b ≠ r.key → markC r K F b = b := by
        intro b hb; unfold markC; rw [if_neg fun x => hb ((hit_iff r F b).1 x)]
      have hseq : ∀ b ∈ F.cases, keyOf F b = r.key → (mark r K F).seq = K := by
        intro b hb he; unfold mark; rw [if_pos ⟨b, hb, (hit_iff r F b).2 he⟩]
      have hseq' : (¬ ∃ b ∈ F.cases, keyOf F b = r.key) → (mark r K F).seq = F.seq := by
        intro hno; unfold mark; rw [if_neg]
        rintro ⟨b, hb, x⟩; exact hno ⟨b, hb, (hit_iff r F b).1 x⟩
      refine ⟨I.id, I.name, ?_, ?_, ?_, ?_, ?_⟩
      · show (F.cases.map (markC r K F)).map Case.static = _
        rw [List.map_map, ← I.static]
        exact List.map_congr_left fun c _ => markC_static ..
      · intro c hc hm
        obtain ⟨b, hb, rfl, hkb⟩ := each c hc
        show (markC r K F b).seq = k + (((xs ++ [r]).map Rec.key).idxOf (keyOf F (markC r K F b)) : Int) + 1
        rw [hkb]
        have hm : keyOf F b ∈ (xs ++ [r]).map Rec.key := by rw [← hkb]; exact hm
        rw [List.map_append, List.idxOf_append]
        by_cases he : keyOf F b = r.key
        · rw [knew b he, he, if_neg hr]
          simp [K]
        · have hx : keyOf F b ∈ xs.map Rec.key := ((mem _).1 hm).resolve_right he
          rw [kold b he, if_pos hx]
          exact I.seq b hb hx
      · intro c hc hm
        obtain ⟨b, hb, rfl, hkb⟩ := each c hc
        have hm : keyOf F b ∈ (xs ++ [r]).map Rec.key := by rw [← hkb]; exact hm
        by_cases he : keyOf F b = r.key
        · rw [knew b he, hseq b hb he]; exact Int.le_refl _
        · have hx : keyOf F b ∈ xs.map Rec.key := ((mem _).1 hm).resolve_right he
          rw [kold b he]
          have h1 := I.top b hb hx
          by_cases hno : ∃ b ∈ F.cases, keyOf F b = r.key
          · obtain ⟨b', hb', he'⟩ := hno
            rw [hseq b' hb' he']
            have := (I.hit ⟨b, hb, hx⟩).1
            simp only [K]; omega
          · rw [hseq' hno]; exact h1
      · rintro ⟨c, hc, hm⟩
        obtain ⟨b, hb, rfl, hkb⟩ := each c hc
        have hm : keyOf F b ∈ (xs ++ [r]).map Rec.key := by rw [← hkb]; exact hm
        by_cases hno : ∃ b ∈ F.cases, keyOf F b = r.key
        · obtain ⟨b', hb', he'⟩ := hno
          rw [hseq b' hb' he']
          refine ⟨by simp [K]; omega, markC r K F b', List.mem_map_of_mem hb', ?_, knew b' he'⟩
          show keyOf F (markC r K F b') ∈ _
          rw [markC_key, mem]; exact .inr he'
        · have hx : keyOf F b ∈ xs.map Rec.key := ((mem _).1 hm).resolve_right fun e => hno ⟨b, hb, e⟩
          obtain ⟨h1, d, hd, hdk, hds⟩ := I.hit ⟨b, hb, hx⟩
          rw [hseq' hno]
          have hdn : keyOf F d ≠ r.key := fun e => hno ⟨d, hd, e⟩
          refine ⟨by simp; omega, markC r K F d, List.mem_map_of_mem hd, ?_, by rw [kold d hdn]; exact hds⟩
          show keyOf F (markC r K F d) ∈ _
          rw [markC_key, mem]; exact .inl hdk
      · intro c hc
        obtain ⟨b, hb, rfl, hkb⟩ := each c hc
        show (markC r K F b).lastFailed = (xs ++ [r]).any fun x => decide (x.key = keyOf F (markC r K F b)) && x.failed
        rw [hkb, List.any_append, ← I.last b hb]
        by_cases he : keyOf F b = r.key
        · unfold markC
          rw [if_pos ((hit_iff r F b).2 he)]
          simp [he]
        · rw [kold b he]
          simp [Ne.symm he]

end H2.Runner
