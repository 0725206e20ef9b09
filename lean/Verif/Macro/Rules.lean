import Verif.Macro.Table
/-
Rules for `Becomes`: scanning with enough steps, without counting them.
-/
namespace H2.Macro

theorem build_mono {ex ex' : Nat → Option (List Tok)} {raw : Nat → List Tok} {es : List Elem} {b : List Tok}
    (h : ∀ i a, .arg i ∈ es → ex i = some a → ex' i = some a) (hb : build ex raw es = some b) : build ex' raw es = some b := by
  induction es generalizing b with
  | nil => exact hb
  | cons e es ih =>
    have ih' := fun {b} => ih (b := b) (fun i a hi => h i a (.tail _ hi))
    cases e with
    | tok t =>
      simp only [build, Option.map_eq_some_iff] at hb ⊢
      obtain ⟨x, hx, rfl⟩ := hb
      exact ⟨x, ih' hx, rfl⟩
    | arg i =>
      simp only [build, Option.bind_eq_some_iff, Option.map_eq_some_iff] at hb ⊢
      obtain ⟨a, ha, x, hx, rfl⟩ := hb
      exact ⟨a, h i a (.head _) ha, x, ih' hx, rfl⟩
    | cat ops =>
      simp only [build, Option.bind_eq_some_iff, Option.map_eq_some_iff] at hb ⊢
      obtain ⟨a, ha, x, hx, rfl⟩ := hb
      exact ⟨a, ha, x, ih' hx, rfl⟩

theorem scan_succ {T : String → Option Macro} {n : Nat} {out : List String} {is : List Item} {ts : List Tok}
    (h : scan T n out is = some ts) : scan T (n + 1) out is = some ts := by
  induction n generalizing out is ts with
  | zero => simp [scan] at h
  | succ n ih =>
    have ihm : ∀ {f : List Tok → List Tok} {out is ts}, (scan T n out is).map f = some ts → (scan T (n + 1) out is).map f = some ts := by
      intro f out is ts h
      rw [Option.map_eq_some_iff] at h ⊢
      obtain ⟨x, hx, rfl⟩ := h
      exact ⟨x, ih hx, rfl⟩
    cases is with
    | nil => exact h
    | cons i r =>
      cases i with
      | mark s => exact ih h
      | tok t =>
        cases t with
        | id s =>
          rw [scan] at h ⊢
          cases hT : T s with
          | none => rw [hT] at h; exact ihm h
          | some m =>
            rw [hT] at h
            dsimp only at h ⊢
            split
            · rename_i hc; rw [if_pos hc] at h; exact ihm h
            · rename_i hc; rw [if_neg hc] at h
              cases hp : m.params with
              | none =>
                rw [hp] at h
                dsimp only at h ⊢
                rw [Option.bind_eq_some_iff] at h ⊢
                obtain ⟨b, hb, h⟩ := h
                exact ⟨b, hb, ih h⟩
              | some p =>
                rw [hp] at h
                dsimp only at h ⊢
                cases ho : opens r with
                | none => rw [ho] at h; exact ihm h
                | some r1 =>
                  rw [ho] at h
                  dsimp only at h ⊢
                  simp only [Option.bind_eq_some_iff] at h ⊢
                  obtain ⟨a, ha, bs, hbs, b, hb, h⟩ := h
                  exact ⟨a, ha, bs, hbs, b, build_mono (fun i x _ hx => ih hx) hb, ih h⟩
        | dead s => exact ihm h
        | num s => exact ihm h
        | lp => exact ihm h
        | rp => exact ihm h
        | comma => exact ihm h
        | other s => exact ihm h

theorem scan_le {T : String → Option Macro} {n k : Nat} {out : List String} {is : List Item} {ts : List Tok}
    (h : scan T n out is = some ts) (hk : n ≤ k) : scan T k out is = some ts := by
  induction hk with
  | refl => exact h
  | step _ ih => exact scan_succ ih

/-- A text becomes one text only. -/
theorem Becomes.unique {T : String → Option Macro} {out : List String} {is : List Item} {ts us : List Tok}
    (h : Becomes T out is ts) (h' : Becomes T out is us) : ts = us := by
  obtain ⟨n, hn⟩ := h
  obtain ⟨k, hk⟩ := h'
  have h1 := scan_le hn (Nat.le_max_left n k)
  have h2 := scan_le hk (Nat.le_max_right n k)
  rw [h1] at h2
  exact Option.some.inj h2

variable {T : String → Option Macro} {out : List String}

theorem Becomes.nil : Becomes T out [] [] := ⟨1, rfl⟩

theorem Becomes.mark {s : String} {r : List Item} {ts : List Tok} (h : Becomes T out r ts) : Becomes T out (.mark s :: r) ts := by
  obtain ⟨n, hn⟩ := h
  exact ⟨n + 1, hn⟩

/-- Tokens that are not names stay. -/
theorem Becomes.tok {t : Tok} (ht : ∀ s, t ≠ .id s) {r : List Item} {ts : List Tok} (h : Becomes T out r ts) :
    Becomes T out (.tok t :: r) (t :: ts) := by
  obtain ⟨n, hn⟩ := h
  refine ⟨n + 1, ?_⟩
  cases t with
  | id s => exact absurd rfl (ht s)
  | _ => simp [scan, hn]

/-- Names of no macro stay. -/
theorem Becomes.name {s : String} (hs : T s = none) {r : List Item} {ts : List Tok} (h : Becomes T out r ts) :
    Becomes T out (.tok (.id s) :: r) (.id s :: ts) := by
  obtain ⟨n, hn⟩ := h
  exact ⟨n + 1, by simp [scan, hs, hn]⟩

/-- Names of macros with parameters stay where no parenthesis follows. -/
theorem Becomes.alone {s : String} {m : Macro} {p : Nat × Bool} (hs : T s = some m) (hp : m.params = some p) {r : List Item}
    (hd : s ∉ out ++ marks r) (ho : opens r = none) {ts : List Tok} (h : Becomes T out r ts) :
    Becomes T out (.tok (.id s) :: r) (.id s :: ts) := by
  obtain ⟨n, hn⟩ := h
  exact ⟨n + 1, by rw [scan, hs]; dsimp only; rw [if_neg hd, hp]; dsimp only; rw [ho]; simp [hn]⟩

/-- Macros without parameters. -/
theorem Becomes.object {s : String} {m : Macro} (hs : T s = some m) (hp : m.params = none) {r : List Item}
    (hd : s ∉ out ++ marks r) {b : List Tok} (hb : build (fun _ => none) (fun _ => []) m.body = some b) {ts : List Tok}
    (h : Becomes T out (toks b ++ .mark s :: r) ts) : Becomes T out (.tok (.id s) :: r) ts := by
  obtain ⟨n, hn⟩ := h
  exact ⟨n + 1, by rw [scan, hs]; dsimp only; rw [if_neg hd, hp]; dsimp only; rw [hb]; exact hn⟩

/-- Texts with balanced parentheses; with commas outside of them or without. -/
inductive Bal : Bool → List Tok → Prop where
  | nil {c : Bool} : Bal c []
  | tok {c : Bool} {t : Tok} {ts : List Tok} (h1 : t ≠ .lp) (h2 : t ≠ .rp) (h3 : t = .comma → c = true) (h : Bal c ts) : Bal c (t :: ts)
  | paren {c : Bool} {xs ys : List Tok} (h1 : Bal true xs) (h2 : Bal c ys) : Bal c (.lp :: (xs ++ .rp :: ys))

theorem Bal.append {c : Bool} {xs ys : List Tok} (h : Bal c xs) (h' : Bal c ys) : Bal c (xs ++ ys) := by
  induction h with
  | nil => exact h'
  | tok h1 h2 h3 _ ih => exact .tok h1 h2 h3 (ih h')
  | paren h1 _ ih1 ih => rw [List.cons_append, List.append_assoc]; exact .paren h1 (ih h')

theorem Bal.weak {c : Bool} {xs : List Tok} (h : Bal c xs) : Bal true xs := by
  induction h with
  | nil => exact .nil
  | tok h1 h2 _ _ ih => exact .tok h1 h2 (fun _ => rfl) ih
  | paren h1 _ ih1 ih => exact .paren h1 ih

theorem grab_inside {c : Bool} {xs : List Tok} (h : Bal c xs) (d : Nat) (r : List Item) (cur : List Tok) (done : List (List Tok)) :
    grab (d + 1) (toks xs ++ r) cur done = grab (d + 1) r (cur ++ xs) done := by
  induction h generalizing d r cur with
  | nil => simp [toks]
  | @tok c t ts h1 h2 h3 _ ih =>
    cases t with
    | lp => exact absurd rfl h1
    | rp => exact absurd rfl h2
    | _ => simp only [toks, List.map_cons, List.cons_append, grab]; rw [← toks, ih]; simp
  | @paren c xs ys h1 h2 ih1 ih2 =>
    have e : toks (.lp :: (xs ++ .rp :: ys)) ++ r = .tok .lp :: (toks xs ++ (.tok .rp :: (toks ys ++ r))) := by simp [toks]
    rw [e, grab, ih1, grab, ih2]
    simp

theorem grab_arg {xs : List Tok} (h : Bal false xs) (r : List Item) (cur : List Tok) (done : List (List Tok)) :
    grab 0 (toks xs ++ r) cur done = grab 0 r (cur ++ xs) done := by
  generalize hc : false = c at h
  induction h generalizing r cur with
  | nil => simp [toks]
  | @tok c t ts h1 h2 h3 _ ih =>
    have ih := fun r cur => ih r cur hc
    cases t with
    | lp => exact absurd rfl h1
    | rp => exact absurd rfl h2
    | comma => exact absurd (h3 rfl) (by rw [← hc]; simp)
    | _ => simp only [toks, List.map_cons, List.cons_append, grab]; rw [← toks, ih]; simp
  | @paren c xs ys h1 h2 ih1 ih2 =>
    have ih2 := fun r cur => ih2 r cur hc
    have e : toks (.lp :: (xs ++ .rp :: ys)) ++ r = .tok .lp :: (toks xs ++ (.tok .rp :: (toks ys ++ r))) := by simp [toks]
    rw [e, grab, grab_inside h1, grab, ih2]
    simp

theorem grab_args {args : List (List Tok)} (hne : args ≠ []) (h : ∀ a ∈ args, Bal false a) (r : List Item) (done : List (List Tok)) :
    grab 0 (toks (join args) ++ .tok .rp :: r) [] done = some (done ++ args, r) := by
  induction args generalizing done with
  | nil => exact absurd rfl hne
  | cons a as ih =>
    cases as with
    | nil =>
      rw [join, grab_arg (h a (.head _)), grab]; simp
    | cons b bs =>
      have e : toks (join (a :: b :: bs)) ++ .tok .rp :: r = toks a ++ (.tok .comma :: (toks (join (b :: bs)) ++ .tok .rp :: r)) := by
        simp [join, toks]
      rw [e, grab_arg (h a (.head _)), grab, ih (by simp) (fun x hx => h x (.tail _ hx))]
      simp

theorem opens_marks {ms : List String} {r : List Item} : opens (ms.map .mark ++ r) = opens r := by
  induction ms with
  | nil => rfl
  | cons m ms ih => exact ih

theorem marks_append {a b : List Item} : marks (a ++ b) = marks a ++ marks b := by
  induction a with
  | nil => rfl
  | cons i a ih => cases i <;> simp [marks, ih]

theorem marks_marks {ms : List String} : marks (ms.map .mark) = ms := by
  induction ms with
  | nil => rfl
  | cons m ms ih => simp [marks, ih]

theorem marks_toks {ts : List Tok} : marks (toks ts) = [] := by
  induction ts with
  | nil => rfl
  | cons t ts ih => exact ih

theorem build_needs {es : List Elem} {raw : Nat → List Tok} {R : Nat → Nat → List Tok → Prop}
    (mono : ∀ {n k i a}, R n i a → n ≤ k → R k i a) (e : Nat → List Tok) (he : ∀ i, .arg i ∈ es → ∃ n, R n i (e i)) :
    ∃ n, ∀ i, .arg i ∈ es → R n i (e i) := by
  induction es with
  | nil => exact ⟨0, fun i hi => nomatch hi⟩
  | cons x es ih =>
    obtain ⟨n, hn⟩ := ih (fun i hi => he i (.tail _ hi))
    cases x with
    | arg j =>
      obtain ⟨k, hk⟩ := he j (.head _)
      refine ⟨max n k, fun i hi => ?_⟩
      cases hi with
      | head => exact mono hk (Nat.le_max_right ..)
      | tail _ hi => exact mono (hn i hi) (Nat.le_max_left ..)
    | _ =>
      refine ⟨n, fun i hi => ?_⟩
      cases hi with
      | tail _ hi => exact hn i hi

/-- Calls of macros with parameters. -/
theorem Becomes.call {s : String} {m : Macro} {p : Nat × Bool} (hs : T s = some m) (hp : m.params = some p) (ms : List String)
    (args : List (List Tok)) {r : List Item} (hd : s ∉ out ++ (ms ++ marks r)) (hne : args ≠ []) (ha : ∀ a ∈ args, Bal false a)
    {bs : List (List Tok)} (hb : bind p args = some bs) (e : Nat → List Tok)
    (he : ∀ i, .arg i ∈ m.body → Becomes T (out ++ marks r) (toks (bs.getD i [])) (e i)) {b : List Tok}
    (hbuild : build (fun i => some (e i)) (fun i => bs.getD i []) m.body = some b) {ts : List Tok}
    (h : Becomes T out (toks b ++ .mark s :: r) ts) :
    Becomes T out (.tok (.id s) :: (ms.map .mark ++ .tok .lp :: (toks (join args) ++ .tok .rp :: r))) ts := by
  obtain ⟨k, hk⟩ := h
  obtain ⟨n, hn⟩ := build_needs (raw := fun _ => [])
    (R := fun n i a => scan T n (out ++ marks r) (toks (bs.getD i [])) = some a) (fun h hk => scan_le h hk) e he
  refine ⟨max n k + 1, ?_⟩
  have hd' : s ∉ out ++ marks (ms.map .mark ++ .tok .lp :: (toks (join args) ++ .tok .rp :: r)) := by
    rw [marks_append, marks_marks]
    show s ∉ out ++ (ms ++ marks (toks (join args) ++ .tok .rp :: r))
    rw [marks_append, marks_toks]
    exact hd
  rw [scan, hs]
  dsimp only
  rw [if_neg hd', hp]
  dsimp only
  rw [opens_marks]
  dsimp only [opens]
  rw [grab_args hne ha, List.nil_append]
  dsimp only [Option.bind_some]
  rw [hb]
  dsimp only [Option.bind_some]
  have hbuild' : build (fun i => scan T (max n k) (out ++ marks r) (toks (bs.getD i []))) (fun i => bs.getD i []) m.body = some b :=
    build_mono (ex := fun i => some (e i)) (fun i a hi hx => by
      have : e i = a := Option.some.inj hx
      rw [← this]; exact scan_le (hn i hi) (Nat.le_max_left ..)) hbuild
  rw [hbuild']
  exact scan_le hk (Nat.le_max_right ..)

end H2.Macro
