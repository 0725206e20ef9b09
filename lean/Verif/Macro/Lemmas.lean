import Verif.Macro.Look
/-
The macros of the library, from the smaller to the larger ones.
-/
namespace H2.Macro

variable {user : String → Option Macro} {N : List String} [Free N] {out : List String} {r : List Item} {ts us : List Tok}

/-- The call of a macro. -/
def callT (s : String) (args : List (List Tok)) : List Tok := .id s :: .lp :: (join args ++ [.rp])

theorem Becomes.fn {T : String → Option Macro} {s : String} {m : Macro} {p : Nat × Bool} (hs : T s = some m) (hp : m.params = some p)
    (args : List (List Tok)) (hd : s ∉ out ++ marks r) (hne : args ≠ []) (ha : ∀ a ∈ args, Bal false a)
    {bs : List (List Tok)} (hb : bind p args = some bs) (e : Nat → List Tok)
    (he : ∀ i, .arg i ∈ m.body → Becomes T (out ++ marks r) (toks (bs.getD i [])) (e i)) {b : List Tok}
    (hbuild : build (fun i => some (e i)) (fun i => bs.getD i []) m.body = some b)
    (h : Becomes T out (toks b ++ .mark s :: r) ts) : Becomes T out (toks (callT s args) ++ r) ts := by
  have := Becomes.call hs hp [] args hd hne ha hb e he hbuild h
  simpa [callT, toks] using this

theorem Becomes.obj {T : String → Option Macro} {s : String} {m : Macro} (hs : T s = some m) (hp : m.params = none)
    (hd : s ∉ out ++ marks r) {b : List Tok} (hb : build (fun _ => none) (fun _ => []) m.body = some b)
    (h : Becomes T out (toks b ++ .mark s :: r) ts) : Becomes T out (toks [.id s] ++ r) ts := .object hs hp hd hb h

theorem Becomes.fin {T : String → Option Macro} {x : List Tok} (h : Becomes T out (toks x ++ []) ts) : Becomes T out (toks x) ts := by
  rwa [List.append_nil] at h

theorem opens_toks {t : Tok} (h : t ≠ .lp) {x : List Tok} : opens (toks (t :: x) ++ r) = none := by
  cases t with
  | lp => exact absurd rfl h
  | _ => rfl

/-- No names of macros. -/
def Plain (T : String → Option Macro) (ts : List Tok) : Prop := ∀ s, .id s ∈ ts → T s = none

theorem pass_plain {T : String → Option Macro} (h : Plain T ts) (hr : Becomes T out r us) : Becomes T out (toks ts ++ r) (ts ++ us) := by
  induction ts with
  | nil => exact hr
  | cons t ts ih =>
    have ih := ih (fun s hs => h s (.tail _ hs))
    cases t with
    | id s => exact .name (h s (.head _)) ih
    | _ => exact .tok (by simp) ih

theorem pass_plain' {T : String → Option Macro} (h : Plain T ts) : Becomes T out (toks ts) ts := by
  have := pass_plain h (out := out) (r := []) .nil
  simpa using this

/-- Names of macros are allowed where they are not called. -/
def Still (T : String → Option Macro) (N : List String) : List Tok → Prop
  | [] => True
  | .id s :: r => (T s = none ∨ ∃ m p, T s = some m ∧ m.params = some p ∧ rank N s = 0 ∧ r.head? ≠ some .lp) ∧ Still T N r
  | _ :: r => Still T N r

omit [Free N] in
theorem pass_still {T : String → Option Macro} (h : Still T N ts) (hk : Ok N 1 (out ++ marks r)) (ho : opens r = none)
    (hr : Becomes T out r us) : Becomes T out (toks ts ++ r) (ts ++ us) := by
  induction ts with
  | nil => exact hr
  | cons t ts ih =>
    cases t with
    | id s =>
      obtain ⟨h1, h2⟩ := h
      have ih := ih h2
      rcases h1 with h1 | ⟨m, p, hs, hp, hrk, hh⟩
      · exact .name h1 ih
      · refine .alone hs hp ?_ ?_ ih
        · show s ∉ out ++ marks (toks ts ++ r)
          rw [marks_append, marks_toks]; exact hk.not_mem (by omega)
        · cases ts with
          | nil => exact ho
          | cons t ts => exact opens_toks (by simpa using hh)
    | _ => exact .tok (by simp) (ih h)

omit [Free N] in
theorem pass_still' {T : String → Option Macro} (h : Still T N ts) (hk : Ok N 1 out) : Becomes T out (toks ts) ts := by
  have := pass_still h (out := out) (r := []) (by simpa [marks] using hk) rfl .nil
  simpa using this

omit [Free N] in
theorem still_plain {T : String → Option Macro} (h : Plain T ts) : Still T N ts := by
  induction ts with
  | nil => trivial
  | cons t ts ih =>
    have ih := ih (fun s hs => h s (.tail _ hs))
    cases t with
    | id s => exact ⟨.inl (h s (.head _)), ih⟩
    | _ => exact ih

omit [Free N] in
theorem still_append {T : String → Option Macro} {x y : List Tok} (hx : Still T N x) (hy : Still T N y) (hh : y.head? ≠ some .lp) :
    Still T N (x ++ y) := by
  induction x with
  | nil => exact hy
  | cons t x ih =>
    cases t with
    | id s =>
      refine ⟨?_, ih hx.2⟩
      rcases hx.1 with h | ⟨m, p, hs, hp, hrk, hl⟩
      · exact .inl h
      · refine .inr ⟨m, p, hs, hp, hrk, ?_⟩
        cases x with
        | nil => exact hh
        | cons t x => exact hl
    | _ => exact ih hx

omit [Free N] in
theorem still_lp {T : String → Option Macro} {x : List Tok} : Still T N (.lp :: x) ↔ Still T N x := Iff.rfl

/-! ### Pasting -/

theorem bal_id {c : Bool} {s : String} : Bal c [.id s] := .tok (by simp) (by simp) (by simp) .nil
theorem bal_num {c : Bool} {s : String} : Bal c [.num s] := .tok (by simp) (by simp) (by simp) .nil

theorem bal_join {c : Bool} {args : List (List Tok)} (h : ∀ a ∈ args, Bal c a) : Bal true (join args) := by
  induction args with
  | nil => exact .nil
  | cons a as ih =>
    cases as with
    | nil => exact (h a (.head _)).weak
    | cons b bs =>
      rw [join]
      exact (h a (.head _)).weak.append (.tok (by simp) (by simp) (fun _ => rfl) (ih (fun x hx => h x (.tail _ hx))))

theorem bal_callT {c d : Bool} {s : String} {args : List (List Tok)} (h : ∀ a ∈ args, Bal d a) : Bal c (callT s args) := by
  refine .tok (by simp) (by simp) (by simp) ?_
  exact .paren (ys := []) (bal_join h) .nil

theorem cat2' {A B g : List Tok} (h1 : Ok N 2 out) (h2 : Ok N 2 (marks r)) (hA : Bal false A) (hB : Bal false B)
    (hg : pastes [] [A, B] = some g) (h : Becomes (defs user) out (toks g ++ .mark "_H2PP_CAT2" :: r) ts) :
    Becomes (defs user) out (toks (callT "_H2PP_CAT2" [A, B]) ++ r) ts := by
  refine .fn d_H2PP_CAT2 rfl [A, B] (Ok.not_mem (N := N) (k := 2) (by ok) (by rw [r_H2PP_CAT2]; decide)) (by simp) (by simp [hA, hB]) rfl (fun _ => []) (by simp) ?_ h
  simp [build, operand, hg]

theorem cat2 {A B a b g : List Tok} (h1 : Ok N 3 out) (h2 : Ok N 3 (marks r)) (hA : Bal false A) (hB : Bal false B)
    (ha : Becomes (defs user) (out ++ marks r) (toks A) a) (hb : Becomes (defs user) (out ++ marks r) (toks B) b) (hA' : Bal false a) (hB' : Bal false b)
    (hg : pastes [] [a, b] = some g) (h : Becomes (defs user) out (toks g ++ .mark "_H2PP_CAT2" :: .mark "H2PP_CAT2" :: r) ts) :
    Becomes (defs user) out (toks (callT "H2PP_CAT2" [A, B]) ++ r) ts := by
  refine .fn dH2PP_CAT2 rfl [A, B] (Ok.not_mem (N := N) (k := 3) (by ok) (by rw [rH2PP_CAT2]; decide)) (by simp) (by simp [hA, hB]) rfl (fun i => [a, b].getD i []) ?_
    (b := callT "_H2PP_CAT2" [a, b]) (by simp [build, callT, join]) ?_
  · intro i hi
    simp at hi
    rcases hi with rfl | rfl
    · exact ha
    · exact hb
  · exact cat2' (N := N) (by ok) (by ok) hA' hB' hg h

/-! ### Counting -/

/-- A text that stays what it is. -/
def Stable (user : String → Option Macro) (N : List String) (k : Nat) (P : List Tok) : Prop := ∀ D, Ok N k D → Becomes (defs user) D (toks P) P

theorem rescan {A R : List Tok} (h1 : Ok N 2 out) (h2 : Ok N 2 (marks r)) (hA : Bal false A) (hR : Becomes (defs user) (out ++ marks r) (toks A) R)
    (h : Becomes (defs user) out (toks R ++ .mark "H2PP_RESCAN" :: r) ts) : Becomes (defs user) out (toks (callT "H2PP_RESCAN" [A]) ++ r) ts := by
  refine .fn dH2PP_RESCAN rfl [A] (Ok.not_mem (N := N) (k := 2) (by ok) (by rw [rH2PP_RESCAN]; decide)) (by simp) (by simp [hA]) rfl (fun _ => R) ?_
    (b := R) (by simp [build]) h
  intro i hi
  simp at hi
  subst hi
  exact hR

theorem proxy {M : String} {m : Macro} {p : Nat × Bool} (hm : defs user M = some m) (hp : m.params = some p) (hr : rank N M = 0) {P R : List Tok}
    (h1 : Ok N 4 out) (h2 : Ok N 4 (marks r)) (hP : Bal false P) (hs : Stable user N 2 P)
    (hR : ∀ D, Ok N 2 D → Becomes (defs user) D (toks (.id M :: P)) R)
    (h : Becomes (defs user) out (toks R ++ .mark "H2PP_RESCAN" :: .mark "_H2PP_PROXY" :: .mark "H2PP_PROXY" :: r) ts) :
    Becomes (defs user) out (toks (callT "H2PP_PROXY" [[.id M], P]) ++ r) ts := by
  have hM : ∀ D, Ok N 2 D → Becomes (defs user) D (toks [.id M]) [.id M] := fun D hD =>
    pass_still' (N := N) ⟨.inr ⟨m, p, hm, hp, hr, by simp⟩, trivial⟩ (hD.mono (by decide))
  refine .fn dH2PP_PROXY rfl [[.id M], P] (Ok.not_mem (N := N) (k := 4) (by ok) (by rw [rH2PP_PROXY]; decide)) (by simp) (by simp [hP, bal_id]) rfl
    (fun i => [[.id M], P].getD i []) ?_ (b := callT "_H2PP_PROXY" [[.id M], P]) (by simp [build, callT, join]) ?_
  · intro i hi
    simp at hi
    rcases hi with rfl | rfl
    · exact hM _ (by ok)
    · exact hs _ (by ok)
  · refine .fn d_H2PP_PROXY rfl [[.id M], P] (Ok.not_mem (N := N) (k := 3) (by ok) (by rw [r_H2PP_PROXY]; decide)) (by simp) (by simp [hP, bal_id]) rfl
      (fun i => [[.id M], P].getD i []) ?_ (b := callT "H2PP_RESCAN" [.id M :: P]) (by simp [build, callT, join]) ?_
    · intro i hi
      simp at hi
      rcases hi with rfl | rfl
      · exact hM _ (by ok)
      · exact hs _ (by ok)
    · exact rescan (N := N) (by ok) (by ok) (.tok (by simp) (by simp) (by simp) hP) (hR _ (by ok)) h

theorem join_append {x y : List (List Tok)} (hx : x ≠ []) (hy : y ≠ []) : join (x ++ y) = join x ++ .comma :: join y := by
  induction x with
  | nil => exact absurd rfl hx
  | cons a x ih =>
    cases x with
    | nil =>
      cases y with
      | nil => exact absurd rfl hy
      | cons b y => rfl
    | cons b x =>
      have := ih (by simp)
      simp only [List.cons_append] at this ⊢
      rw [join, this, join]; simp

/-- Numbers as arguments. -/
def nums (l : List String) : List (List Tok) := l.map fun s => [.num s]

theorem plain_nums {T : String → Option Macro} {l : List String} : Plain T (join (nums l)) := by
  induction l with
  | nil => intro s hs; simp [nums, join] at hs
  | cons a l ih =>
    cases l with
    | nil => intro s hs; simp [nums, join] at hs
    | cons b l =>
      intro s hs
      simp only [nums, List.map_cons, join, List.cons_append, List.nil_append, List.mem_cons] at hs
      rcases hs with hs | hs | hs
      · cases hs
      · cases hs
      · exact ih s hs

theorem bal_nums {c : Bool} {l : List String} : ∀ a ∈ nums l, Bal c a := by
  intro a ha
  simp only [nums, List.mem_map] at ha
  obtain ⟨s, _, rfl⟩ := ha
  exact bal_num

/-- `_H2PP_64TH` takes the 65th argument. -/
theorem th64 {as : List (List Tok)} (h0 : as ≠ []) (h64 : as.length ≤ 64) (hb : ∀ a ∈ as, Bal false a) {l : List String} (hl : l.length = 64) {x : String}
    (hx : l[64 - as.length]? = some x) (h1 : Ok N 1 out) (h2 : Ok N 1 (marks r)) (h : Becomes (defs user) out r ts) :
    Becomes (defs user) out (toks (callT "_H2PP_64TH" (as ++ nums l)) ++ r) (.num x :: ts) := by
  have hpos : 0 < as.length := List.length_pos_iff.2 h0
  have hlen : (nums l).length = 64 := by simp [nums, hl]
  have hget : ((as ++ nums l).take 65 ++ [join ((as ++ nums l).drop 65)]).getD 64 [] = [.num x] := by
    rw [List.getD_eq_getElem?_getD, List.getElem?_append_left (by simp [hlen]; omega), List.getElem?_take_of_lt (by omega),
      List.getElem?_append_right (by omega)]
    simp [nums, hx]
  refine .fn d_H2PP_64TH rfl (as ++ nums l) (Ok.not_mem (N := N) (k := 1) (by ok) (by rw [r_H2PP_64TH]; decide)) (by simp [h0])
    (by intro a ha; rcases List.mem_append.1 ha with ha | ha; exact hb a ha; exact bal_nums a ha)
    (bs := (as ++ nums l).take 65 ++ [join ((as ++ nums l).drop 65)]) ?_ (fun _ => [.num x]) ?_ (b := [.num x]) (by simp [build]) ?_
  · simp only [bind]; rw [if_pos (by simp [hlen]; omega)]
  · intro i hi
    simp at hi
    subst hi
    rw [hget]
    exact .tok (by simp) .nil
  · exact .tok (by simp) (.mark h)

/-- `PROXY(_H2PP_64TH, (as, l))`. -/
theorem count {as : List (List Tok)} (h0 : as ≠ []) (h64 : as.length ≤ 64) (hb : ∀ a ∈ as, Bal false a) (hstill : Still (defs user) N (join as))
    {l : List String} (hl : l.length = 64) {x : String} (hx : l[64 - as.length]? = some x) (h1 : Ok N 4 out) (h2 : Ok N 4 (marks r)) (h : Becomes (defs user) out r ts) :
    Becomes (defs user) out (toks (callT "H2PP_PROXY" [[.id "_H2PP_64TH"], .lp :: (join (as ++ nums l) ++ [.rp])]) ++ r) (.num x :: ts) := by
  have hbal : ∀ a ∈ as ++ nums l, Bal false a := by
    intro a ha; rcases List.mem_append.1 ha with ha | ha; exact hb a ha; exact bal_nums a ha
  have hne : nums l ≠ [] := by intro e; simp [nums] at e; rw [e] at hl; simp at hl
  have hst : Still (defs user) N (.lp :: (join (as ++ nums l) ++ [.rp])) := by
    rw [still_lp, join_append h0 hne]
    refine still_append (still_append hstill (still_plain (N := N) (ts := .comma :: join (nums l)) ?_) (by simp)) trivial (by simp)
    intro s hs
    cases hs with
    | tail _ hs => exact plain_nums s hs
  refine proxy (N := N) (M := "_H2PP_64TH") d_H2PP_64TH rfl r_H2PP_64TH h1 h2 (.paren (ys := []) (bal_join hbal) .nil)
    (fun D hD => pass_still' (N := N) hst (hD.mono (by decide))) (R := [.num x]) (fun D hD => ?_) ?_
  · have := th64 (N := N) (user := user) (out := D) (r := []) h0 h64 hb hl hx (hD.mono (by decide)) ok_nil .nil
    simpa [callT] using this
  · exact .tok (by simp) (.mark (.mark (.mark h)))

/-- What `H2PP_HAS_COMMA` gives. -/
theorem hasComma {raws as : List (List Tok)} (hr : raws ≠ []) (hrb : ∀ a ∈ raws, Bal false a) (h0 : as ≠ []) (h64 : as.length ≤ 64)
    (hb : ∀ a ∈ as, Bal false a) (hstill : Still (defs user) N (join as)) (h1 : Ok N 5 out) (h2 : Ok N 5 (marks r))
    (hA : Becomes (defs user) (out ++ marks r) (toks (join raws)) (join as)) {x : String} (hx : (if as.length = 1 then "0" else "1") = x)
    (h : Becomes (defs user) out r ts) :
    Becomes (defs user) out (toks (callT "H2PP_HAS_COMMA" raws) ++ r) (.num x :: ts) := by
  have hpos : 0 < as.length := List.length_pos_iff.2 h0
  have hne : nums (List.replicate 63 "1" ++ ["0"]) ≠ [] := by simp [nums]
  refine .fn dH2PP_HAS_COMMA rfl raws (Ok.not_mem (N := N) (k := 5) (by ok) (by rw [rH2PP_HAS_COMMA]; decide)) hr hrb (bs := [join raws]) (by simp [bind])
    (fun _ => join as) ?_ (b := callT "H2PP_PROXY" [[.id "_H2PP_64TH"], .lp :: (join (as ++ nums (List.replicate 63 "1" ++ ["0"])) ++ [.rp])]) ?_ ?_
  · intro i hi
    simp at hi
    subst hi
    exact hA
  · rw [join_append h0 hne]
    simp [build, callT, join, nums, List.replicate]
  · refine count (N := N) h0 h64 hb hstill (by simp) ?_ (by ok) (by ok) (.mark h)
    rw [← hx]
    split
    · rename_i h; rw [h]; rfl
    · rw [List.getElem?_append_left (by simp; omega), List.getElem?_replicate, if_pos (by omega)]

/-- The numbers of `H2PP_ARG_COUNT`. -/
def downFrom64 : List String := ["64", "63", "62", "61", "60", "59", "58", "57", "56", "55", "54", "53", "52", "51", "50", "49", "48", "47", "46", "45", "44",
  "43", "42", "41", "40", "39", "38", "37", "36", "35", "34", "33", "32", "31", "30", "29", "28", "27", "26", "25", "24", "23", "22", "21", "20", "19", "18",
  "17", "16", "15", "14", "13", "12", "11", "10", "9", "8", "7", "6", "5", "4", "3", "2", "1"]

theorem down_eq : ∀ n, 0 < n → n ≤ 64 → downFrom64[64 - n]? = some (toString n) := by
  have : ∀ n : Fin 65, 0 < n.val → downFrom64[64 - n.val]? = some (toString n.val) := by decide +kernel
  intro n h0 h; exact this ⟨n, by omega⟩ h0

/-- What `H2PP_ARG_COUNT` gives. -/
theorem argCount {raws as : List (List Tok)} (hr : raws ≠ []) (hrb : ∀ a ∈ raws, Bal false a) (h0 : as ≠ []) (h64 : as.length ≤ 64)
    (hb : ∀ a ∈ as, Bal false a) (hstill : Still (defs user) N (join as)) (h1 : Ok N 5 out) (h2 : Ok N 5 (marks r))
    (hA : Becomes (defs user) (out ++ marks r) (toks (join raws)) (join as)) (h : Becomes (defs user) out r ts) :
    Becomes (defs user) out (toks (callT "H2PP_ARG_COUNT" raws) ++ r) (.num (toString as.length) :: ts) := by
  have hpos : 0 < as.length := List.length_pos_iff.2 h0
  have hne : nums downFrom64 ≠ [] := by simp [nums, downFrom64]
  refine .fn dH2PP_ARG_COUNT rfl raws (Ok.not_mem (N := N) (k := 5) (by ok) (by rw [rH2PP_ARG_COUNT]; decide)) hr hrb (bs := [join raws]) (by simp [bind])
    (fun _ => join as) ?_ (b := callT "H2PP_PROXY" [[.id "_H2PP_64TH"], .lp :: (join (as ++ nums downFrom64) ++ [.rp])]) ?_ ?_
  · intro i hi
    simp at hi
    subst hi
    exact hA
  · rw [join_append h0 hne]
    simp [build, callT, join, nums, downFrom64]
  · exact count (N := N) h0 h64 hb hstill (by simp [downFrom64]) (down_eq _ hpos h64) (by ok) (by ok) (.mark h)

/-! ### Is it empty? -/

theorem bal_split {xs : List Tok} (h : Bal true xs) : ∃ args : List (List Tok), args ≠ [] ∧ (∀ a ∈ args, Bal false a) ∧ join args = xs := by
  generalize hc : true = c at h
  induction h with
  | nil => exact ⟨[[]], by simp, by simp [Bal.nil], rfl⟩
  | @tok c t ts h1 h2 h3 _ ih =>
    obtain ⟨args, ha, hb, e⟩ := ih hc
    cases args with
    | nil => exact absurd rfl ha
    | cons a as =>
      by_cases ht : t = .comma
      · exact ⟨[] :: a :: as, by simp, by simpa [Bal.nil] using hb, by rw [join, ht, e]; rfl⟩
      · refine ⟨(t :: a) :: as, by simp, ?_, ?_⟩
        · intro x hx
          rcases List.mem_cons.1 hx with rfl | hx
          · exact .tok h1 h2 (fun h => absurd h ht) (hb a (.head _))
          · exact hb x (.tail _ hx)
        · rw [← e]; cases as <;> simp [join]
  | @paren c xs ys h1 h2 ih1 ih2 =>
    obtain ⟨args, ha, hb, e⟩ := ih2 hc
    cases args with
    | nil => exact absurd rfl ha
    | cons a as =>
      refine ⟨(.lp :: (xs ++ .rp :: a)) :: as, by simp, ?_, ?_⟩
      · intro x hx
        rcases List.mem_cons.1 hx with rfl | hx
        · exact .paren h1 (hb a (.head _))
        · exact hb x (.tail _ hx)
      · rw [← e]; cases as <;> simp [join]

theorem bal_lp {a : List Tok} (h : Bal false (.lp :: a)) : ∃ xs ys, a = xs ++ .rp :: ys ∧ Bal true xs ∧ Bal false ys := by
  cases h with
  | tok h1 => exact absurd rfl h1
  | paren h1 h2 => exact ⟨_, _, rfl, h1, h2⟩

/-- With `H2PP_COMMA` in front. -/
def pre : List (List Tok) → List (List Tok)
  | [] => [[.id "H2PP_COMMA"]]
  | a :: r => (.id "H2PP_COMMA" :: a) :: r

/-- With `()` behind. -/
def post : List (List Tok) → List (List Tok)
  | [] => [[.lp, .rp]]
  | [a] => [a ++ [.lp, .rp]]
  | a :: b :: r => a :: post (b :: r)

theorem join_pre (as : List (List Tok)) : join (pre as) = .id "H2PP_COMMA" :: join as := by
  cases as with
  | nil => rfl
  | cons a r => cases r <;> rfl

theorem join_post (as : List (List Tok)) : join (post as) = join as ++ [.lp, .rp] := by
  induction as with
  | nil => rfl
  | cons a r ih =>
    cases r with
    | nil => rfl
    | cons b r =>
      rw [post, join, List.append_assoc, List.cons_append, ← ih]
      cases r <;> rfl

theorem post_length {as : List (List Tok)} (h : as ≠ []) : (post as).length = as.length := by
  induction as with
  | nil => exact absurd rfl h
  | cons a r ih =>
    cases r with
    | nil => rfl
    | cons b r => rw [post, List.length_cons, ih (by simp)]; rfl

theorem bal_post {as : List (List Tok)} (h : ∀ a ∈ as, Bal false a) : ∀ a ∈ post as, Bal false a := by
  have hp : Bal false [.lp, .rp] := .paren (xs := []) (ys := []) .nil .nil
  induction as with
  | nil => intro a ha; simp [post] at ha; rw [ha]; exact hp
  | cons a r ih =>
    cases r with
    | nil => intro x hx; simp [post] at hx; rw [hx]; exact (h a (.head _)).append hp
    | cons b r =>
      intro x hx
      rcases List.mem_cons.1 hx with rfl | hx
      · exact h _ (.head _)
      · exact ih (fun y hy => h y (.tail _ hy)) x hx

theorem join_cons (a : List Tok) (r : List (List Tok)) : join (a :: r) = a ++ (match r with | [] => [] | _ :: _ => .comma :: join r) := by
  cases r <;> simp [join]

/-- What becomes of a text behind `H2PP_COMMA`. -/
theorem commaPre {a : List Tok} {as : List (List Tok)} (hp : Plain (defs user) (join (a :: as))) (hb : ∀ x ∈ a :: as, Bal false x) (hk : Ok N 1 out) :
    ∃ as' : List (List Tok), Becomes (defs user) out (toks (join (pre (a :: as)))) (join as') ∧ as' ≠ [] ∧ as'.length ≤ as.length + 2 ∧ (∀ x ∈ as', Bal false x) ∧
      Still (defs user) N (join as') ∧ (as'.length = 1 ↔ as = [] ∧ a.head? ≠ some .lp) := by
  by_cases hh : a.head? = some .lp
  · obtain ⟨a', rfl⟩ : ∃ a', a = .lp :: a' := by
      cases a with
      | nil => simp at hh
      | cons t a' => simp at hh; exact ⟨a', by rw [hh]⟩
    obtain ⟨xs, ys, rfl, h1, h2⟩ := bal_lp (hb _ (.head _))
    obtain ⟨args, hne, hba, e⟩ := bal_split h1
    have hq : Plain (defs user) (join (ys :: as)) := by
      intro s hs
      apply hp s
      rw [join_cons] at hs ⊢
      rcases List.mem_append.1 hs with hs | hs
      · simp [hs]
      · exact List.mem_append_right _ hs
    refine ⟨[] :: ys :: as, ?_, by simp, by simp, ?_, ?_, by simp [hh]⟩
    · have e2 : toks (join (pre ((.lp :: (xs ++ .rp :: ys)) :: as))) = toks (callT "H2PP_COMMA" args) ++ toks (join (ys :: as)) := by
        rw [join_pre, join_cons, join_cons, callT, e]; simp [toks]
      rw [e2]
      refine .fn dH2PP_COMMA rfl args (Ok.not_mem (N := N) (k := 1) (by ok) (by rw [rH2PP_COMMA]; decide)) hne hba (bs := [join args]) (by simp [bind])
        (fun _ => []) (by simp) (b := [.comma]) (by simp [build]) ?_
      exact .tok (by simp) (.mark (pass_plain' hq))
    · intro x hx
      rcases List.mem_cons.1 hx with rfl | hx
      · exact .nil
      · rcases List.mem_cons.1 hx with rfl | hx
        · exact h2
        · exact hb x (.tail _ hx)
    · refine still_plain (N := N) ?_
      intro s hs
      rw [join] at hs
      simp only [List.nil_append, List.mem_cons, reduceCtorEq, false_or] at hs
      exact hq s hs
  · have hst : Still (defs user) N (join (pre (a :: as))) := by
      rw [join_pre]
      refine ⟨.inr ⟨_, _, dH2PP_COMMA, rfl, rH2PP_COMMA, ?_⟩, still_plain (N := N) hp⟩
      rw [join_cons]
      cases a with
      | nil => cases as <;> simp
      | cons t a => simpa using hh
    refine ⟨pre (a :: as), pass_still' (N := N) hst hk, by simp [pre], by simp [pre], ?_, hst, by simp [pre, hh]⟩
    intro x hx
    rcases List.mem_cons.1 hx with rfl | hx
    · exact .tok (by simp) (by simp) (by simp) (hb a (.head _))
    · exact hb x (.tail _ hx)

theorem cat5' {A B C D E g : List Tok} (h1 : Ok N 2 out) (h2 : Ok N 2 (marks r)) (hA : ∀ x ∈ [A, B, C, D, E], Bal false x)
    (hg : pastes [] [A, B, C, D, E] = some g) (h : Becomes (defs user) out (toks g ++ .mark "_H2PP_CAT5" :: r) ts) :
    Becomes (defs user) out (toks (callT "_H2PP_CAT5" [A, B, C, D, E]) ++ r) ts := by
  refine .fn d_H2PP_CAT5 rfl [A, B, C, D, E] (Ok.not_mem (N := N) (k := 2) (by ok) (by rw [r_H2PP_CAT5]; decide)) (by simp) hA rfl (fun _ => []) (by simp) ?_ h
  simp [build, operand, hg]

/-- A bit. -/
def bit (b : Bool) : String := if b then "1" else "0"

theorem isEmpty' (hu : Apart user) {R1 R2 R3 R4 : List Tok} {c1 c2 c3 c4 : Bool} (hR : ∀ x ∈ [R1, R2, R3, R4], Bal false x)
    (h1 : Ok N 6 out) (h2 : Ok N 6 (marks r))
    (e1 : Becomes (defs user) (out ++ marks r) (toks R1) [.num (bit c1)]) (e2 : Becomes (defs user) (out ++ marks r) (toks R2) [.num (bit c2)])
    (e3 : Becomes (defs user) (out ++ marks r) (toks R3) [.num (bit c3)]) (e4 : Becomes (defs user) (out ++ marks r) (toks R4) [.num (bit c4)])
    (h : Becomes (defs user) out r ts) :
    Becomes (defs user) out (toks (callT "_H2PP_IS_EMPTY" [R1, R2, R3, R4]) ++ r) (.num (bit (!c1 && !c2 && !c3 && c4)) :: ts) := by
  refine .fn d_H2PP_IS_EMPTY rfl [R1, R2, R3, R4] (Ok.not_mem (N := N) (k := 6) (by ok) (by rw [r_H2PP_IS_EMPTY]; decide)) (by simp) hR rfl
    (fun i => [[.num (bit c1)], [.num (bit c2)], [.num (bit c3)], [.num (bit c4)]].getD i []) ?_
    (b := callT "H2PP_HAS_COMMA" [callT "_H2PP_CAT5" [[.id "_H2PP_IS_EMPTY_CASE_"], [.num (bit c1)], [.num (bit c2)], [.num (bit c3)], [.num (bit c4)]]])
    (by simp [build, callT, join]) ?_
  · intro i hi
    simp at hi
    rcases hi with rfl | rfl | rfl | rfl
    · exact e1
    · exact e2
    · exact e3
    · exact e4
  · have hbal : ∀ x ∈ [[Tok.id "_H2PP_IS_EMPTY_CASE_"], [.num (bit c1)], [.num (bit c2)], [.num (bit c3)], [.num (bit c4)]], Bal false x := by
      simp [bal_id, bal_num]
    have hg : pastes [] [[Tok.id "_H2PP_IS_EMPTY_CASE_"], [.num (bit c1)], [.num (bit c2)], [.num (bit c3)], [.num (bit c4)]] =
        some [.id ("_H2PP_IS_EMPTY_CASE_" ++ bit c1 ++ bit c2 ++ bit c3 ++ bit c4)] := by simp [pastes, paste, glue]
    by_cases hc : (!c1 && !c2 && !c3 && c4) = true
    · have hname : "_H2PP_IS_EMPTY_CASE_" ++ bit c1 ++ bit c2 ++ bit c3 ++ bit c4 = "_H2PP_IS_EMPTY_CASE_0001" := by
        clear hg hbal e1 e2 e3 e4
        revert hc; revert c1 c2 c3 c4; decide +kernel
      rw [hname] at hg
      rw [hc]
      refine hasComma (N := N) (as := [[], []]) (by simp) (by simp; exact bal_callT hbal) (by simp) (by simp) (by simp [Bal.nil]) trivial (by ok) (by ok) ?_ (by rfl) (.mark h)
      refine .fin ?_
      rw [join]
      refine cat5' (N := N) (by ok) (by ok) hbal hg ?_
      refine .obj d_H2PP_IS_EMPTY_CASE_0001 rfl (Ok.not_mem (N := N) (k := 1) (by ok) (by rw [r_H2PP_IS_EMPTY_CASE_0001]; decide)) rfl ?_
      exact .tok (by simp) (.mark (.mark .nil))
    · have hname : defs user ("_H2PP_IS_EMPTY_CASE_" ++ bit c1 ++ bit c2 ++ bit c3 ++ bit c4) = none := by
        have : table.lookup ("_H2PP_IS_EMPTY_CASE_" ++ bit c1 ++ bit c2 ++ bit c3 ++ bit c4) = none ∧
            reserved ("_H2PP_IS_EMPTY_CASE_" ++ bit c1 ++ bit c2 ++ bit c3 ++ bit c4) = true := by
          clear hg hbal e1 e2 e3 e4
          revert hc; revert c1 c2 c3 c4; decide +kernel
        exact defs_none hu this.1 this.2
      rw [Bool.not_eq_true] at hc
      rw [hc]
      refine hasComma (N := N) (as := [[.id ("_H2PP_IS_EMPTY_CASE_" ++ bit c1 ++ bit c2 ++ bit c3 ++ bit c4)]]) (by simp) (by simp; exact bal_callT hbal) (by simp) (by simp)
        (by simp [bal_id]) ⟨.inl hname, trivial⟩ (by ok) (by ok) ?_ (by rfl) (.mark h)
      refine .fin ?_
      rw [join]
      refine cat5' (N := N) (by ok) (by ok) hbal hg ?_
      exact .name hname (.mark .nil)

/-- What `H2PP_IS_EMPTY` gives. -/
theorem isEmpty (hu : Apart user) {raws as : List (List Tok)} (hr : raws ≠ []) (hrb : ∀ a ∈ raws, Bal false a) (h0 : as ≠ []) (h63 : as.length ≤ 63)
    (hb : ∀ a ∈ as, Bal false a) (hp : Plain (defs user) (join as)) (h1 : Ok N 7 out) (h2 : Ok N 7 (marks r))
    (hA : Becomes (defs user) (out ++ marks r) (toks (join raws)) (join as)) (h : Becomes (defs user) out r ts) :
    Becomes (defs user) out (toks (callT "H2PP_IS_EMPTY" raws) ++ r) (.num (bit (as == [[]])) :: ts) := by
  have hpost : Plain (defs user) (join (post as)) := by
    intro s hs
    rw [join_post] at hs
    rcases List.mem_append.1 hs with hs | hs
    · exact hp s hs
    · simp at hs
  have hpost0 : post as ≠ [] := by intro e; have := post_length h0; rw [e] at this; exact h0 (List.length_eq_zero_iff.1 this.symm)
  refine .fn dH2PP_IS_EMPTY rfl raws (Ok.not_mem (N := N) (k := 7) (by ok) (by rw [rH2PP_IS_EMPTY]; decide)) hr hrb (bs := [join raws]) (by simp [bind])
    (fun _ => join as) ?_ (b := callT "_H2PP_IS_EMPTY" [callT "H2PP_HAS_COMMA" as, callT "H2PP_HAS_COMMA" (pre as), callT "H2PP_HAS_COMMA" (post as),
      callT "H2PP_HAS_COMMA" (pre (post as))]) ?_ ?_
  · intro i hi
    simp at hi
    subst hi
    exact hA
  · simp [build, callT, join, join_pre, join_post]
  · have hpre : ∀ (x : List (List Tok)), x ≠ [] → (∀ a ∈ x, Bal false a) → ∀ a ∈ pre x, Bal false a := by
      intro x h0 h
      cases x with
      | nil => exact absurd rfl h0
      | cons b x =>
        intro a ha
        rcases List.mem_cons.1 ha with rfl | ha
        · exact .tok (by simp) (by simp) (by simp) (h b (.head _))
        · exact h a (.tail _ ha)
    have hok : Ok N 6 (out ++ marks (.mark "H2PP_IS_EMPTY" :: r)) := by ok
    have hbit : ∀ (b : Bool) (n : Nat), (b = false ↔ n = 1) → (if n = 1 then "0" else "1") = bit b := by
      intro b n h; cases b <;> simp [bit] at h ⊢ <;> omega
    obtain ⟨a, as, rfl⟩ := List.exists_cons_of_ne_nil h0
    obtain ⟨a', as', e'⟩ := List.exists_cons_of_ne_nil hpost0
    have hl' : as'.length = as.length := by have := post_length h0; rw [e'] at this; simpa using this
    obtain ⟨x2, b2, n2, l2, bb2, s2, i2⟩ := commaPre (N := N) (out := out ++ marks (.mark "H2PP_IS_EMPTY" :: r)) hp hb (hok.mono (by decide))
    obtain ⟨x4, b4, n4, l4, bb4, s4, i4⟩ := commaPre (N := N) (out := out ++ marks (.mark "H2PP_IS_EMPTY" :: r)) (e' ▸ hpost) (e' ▸ bal_post hb) (hok.mono (by decide))
    rw [← e'] at b4
    have hempty : ((a :: as : List (List Tok)) == [[]]) = (!(decide (as ≠ [])) && !(decide ¬(as = [] ∧ a.head? ≠ some Tok.lp)) && !(decide (as ≠ [])) &&
        decide ¬(as' = [] ∧ a'.head? ≠ some Tok.lp)) := by
      cases as with
      | cons b as => simp
      | nil =>
        have ea : a' = a ++ [.lp, .rp] ∧ as' = [] := by rw [post] at e'; simpa [eq_comm] using e'
        obtain ⟨rfl, rfl⟩ := ea
        cases a with
        | nil => rfl
        | cons t a => simp
    rw [hempty]
    refine isEmpty' (N := N) hu ?_ (by ok) (by ok) ?_ ?_ ?_ ?_ (.mark h)
    · intro x hx
      simp only [List.mem_cons, List.not_mem_nil, or_false] at hx
      rcases hx with rfl | rfl | rfl | rfl
      · exact bal_callT hb
      · exact bal_callT (hpre _ (by simp) hb)
      · exact bal_callT (bal_post hb)
      · exact bal_callT (hpre _ hpost0 (bal_post hb))
    · refine .fin (hasComma (N := N) (as := a :: as) (by simp) hb (by simp) (by omega) hb (still_plain hp) (by ok) (by ok) (by simpa [marks] using pass_plain' hp) ?_ .nil)
      exact hbit _ _ (by simp)
    · refine .fin (hasComma (N := N) (as := x2) (by simp [pre]) (hpre _ (by simp) hb) n2 (by simp at h63; omega) bb2 s2 (by ok) (by ok) (by simpa [marks] using b2) ?_ .nil)
      exact hbit _ _ (by rw [i2]; simp)
    · refine .fin (hasComma (N := N) (as := post (a :: as)) hpost0 (bal_post hb) hpost0 (by rw [post_length h0]; omega) (bal_post hb) (still_plain hpost) (by ok) (by ok)
        (by simpa [marks] using pass_plain' hpost) ?_ .nil)
      exact hbit _ _ (by rw [post_length h0]; simp)
    · refine .fin (hasComma (N := N) (as := x4) (by rw [e']; simp [pre]) (hpre _ hpost0 (bal_post hb)) n4 (by simp at h63; omega) bb4 s4 (by ok) (by ok) (by simpa [marks] using b4) ?_ .nil)
      exact hbit _ _ (by rw [i4]; simp)

end H2.Macro
