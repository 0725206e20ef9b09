import Verif.Json.SyntaxSpec
import Verif.Json.LexProps
import Verif.Json.ExprProps
namespace H2.Json

/-! ### Escapes -/

/-- All replacements at once. -/
def scan (K : List (Char × Char)) : Str → Str
  | [] => []
  | [c] => [c]
  | c :: d :: s => if c = '\\' then (match K.lookup d with
      | some y => y :: scan K s
      | none => c :: scan K (d :: s)) else c :: scan K (d :: s)
termination_by s => s.length

theorem mem_of_lookup {K : List (Char × Char)} {d y} (h : K.lookup d = some y) : (d, y) ∈ K := by
  induction K with
  | nil => cases h
  | cons p K ih =>
    obtain ⟨a, b⟩ := p
    by_cases hd : d = a
    · subst hd; simp [List.lookup] at h; simp [h]
    · simp [List.lookup, beq_false_of_ne hd] at h; simp [ih h]

theorem scan_esc {K d y s} (h : K.lookup d = some y) : scan K ('\\' :: d :: s) = y :: scan K s := by
  rw [scan.eq_def]; simp [h]
theorem scan_none {K d s} (h : K.lookup d = none) : scan K ('\\' :: d :: s) = '\\' :: scan K (d :: s) := by
  rw [scan.eq_def]; simp [h]
theorem scan_other {K c s} (h : c ≠ '\\') : scan K (c :: s) = c :: scan K s := by
  cases s <;> simp [scan, h]
theorem scan_last {K c} : scan K [c] = [c] := by simp [scan]

theorem replace_other {x y c s} (h : c ≠ '\\') : replaceAll x y (c :: s) = c :: replaceAll x y s := by
  cases s <;> simp [replaceAll, h]
theorem replace_hit {x y s} : replaceAll x y ('\\' :: x :: s) = y :: replaceAll x y s := by simp [replaceAll]
theorem replace_miss {x y s} (h : s.head? ≠ some x) : replaceAll x y ('\\' :: s) = '\\' :: replaceAll x y s := by
  cases s with
  | nil => simp [replaceAll]
  | cons d s => simp at h; simp [replaceAll, h]

theorem replace_eq_scan (x y : Char) (s : Str) : replaceAll x y s = scan [(x, y)] s := by
  generalize hn : s.length = n
  induction n using Nat.strongRecOn generalizing s with
  | _ n ih =>
  match s, hn with
  | [], _ => simp [replaceAll, scan]
  | [c], _ => simp [replaceAll, scan]
  | c :: d :: s, hn =>
    by_cases hc : c = '\\'
    · subst hc
      by_cases hd : d = x
      · subst hd; rw [replace_hit, scan_esc (y := y) (by simp [List.lookup]), ih _ (by simp at hn; omega) s rfl]
      · rw [replace_miss (by simpa using hd), scan_none (by simp [List.lookup, beq_false_of_ne hd]), ih _ (by simp at hn ⊢; omega) _ rfl]
    · rw [replace_other hc, scan_other hc, ih _ (by simp at hn ⊢; omega) _ rfl]

theorem scan_head {K : List (Char × Char)} (x : Char) (hx : x ∉ K.map (·.2)) {d s} (hd : d ≠ x) : (scan K (d :: s)).head? ≠ some x := by
  by_cases hc : d = '\\'
  · subst hc
    cases s with
    | nil => simpa [scan] using hd
    | cons e s =>
      cases h : K.lookup e with
      | none => rw [scan_none h]; simpa using hd
      | some y =>
        rw [scan_esc h]
        have := mem_of_lookup h
        simp only [List.head?_cons, ne_eq, Option.some.injEq]
        rintro rfl
        exact hx (List.mem_map.2 ⟨_, this, rfl⟩)
  · rw [scan_other hc]; simpa using hd

/-- A further replacement after some others is one more among them. -/
theorem replace_scan {x y : Char} {K : List (Char × Char)} (hx : x ≠ '\\') (hk : K.lookup x = none) (hv : x ∉ K.map (·.2))
    (hb : '\\' ∉ K.map (·.2)) (s : Str) : replaceAll x y (scan K s) = scan ((x, y) :: K) s := by
  generalize hn : s.length = n
  induction n using Nat.strongRecOn generalizing s with
  | _ n ih =>
  match s, hn with
  | [], _ => simp [replaceAll, scan]
  | [c], _ => simp [replaceAll, scan]
  | c :: d :: s, hn =>
    by_cases hc : c = '\\'
    · subst hc
      by_cases hd : d = x
      · subst hd
        rw [scan_none hk, scan_other hx, replace_hit, scan_esc (y := y) (by simp [List.lookup]), ih _ (by simp at hn; omega) s rfl]
      · have hl : ((x, y) :: K).lookup d = K.lookup d := by simp [List.lookup, beq_false_of_ne hd]
        cases h : K.lookup d with
        | none =>
          rw [scan_none h, scan_none (hl.trans h), replace_miss (scan_head x hv hd), ih _ (by simp at hn ⊢; omega) _ rfl]
        | some z =>
          have hz : z ≠ '\\' := by
            rintro rfl
            exact hb (List.mem_map.2 ⟨_, mem_of_lookup h, rfl⟩)
          rw [scan_esc h, scan_esc (hl.trans h), replace_other hz, ih _ (by simp at hn; omega) s rfl]
    · rw [scan_other hc, scan_other hc, replace_other hc, ih _ (by simp at hn ⊢; omega) _ rfl]

theorem unescape_eq (s : Str) : unescape s = replaceAll '\\' '\\' (scan escapes.reverse s) := by
  simp only [unescape]
  rw [replace_eq_scan 'b', replace_scan, replace_scan, replace_scan, replace_scan, replace_scan] <;> first | rfl | decide

theorem letters_scan {e u} (h : Letters e u) : scan escapes.reverse e = u := by
  induction h with
  | nil => simp [scan]
  | @escape x c e u hx h ih =>
    rw [scan_esc (y := c) (by revert hx; simp only [escapes, List.mem_cons, Prod.mk.injEq, List.not_mem_nil, or_false]; rintro (⟨rfl, rfl⟩ | ⟨rfl, rfl⟩ | ⟨rfl, rfl⟩ | ⟨rfl, rfl⟩ | ⟨rfl, rfl⟩ | ⟨rfl, rfl⟩) <;> decide), ih]
  | @other c e u hc h ih =>
    by_cases hb : c = '\\'
    · subst hb
      cases e with
      | nil => cases h; simp [scan]
      | cons d e =>
        rw [scan_none (by have := hc rfl d rfl; rw [List.lookup_eq_none_iff]; intro p hp; rw [List.mem_reverse] at hp; rw [bne_iff_ne]; rintro rfl; exact this (List.mem_map.2 ⟨p, hp, rfl⟩)), ih]
    · rw [scan_other hb, ih]

theorem letters_total (e : Str) : ∃ u, Letters e u := by
  generalize hn : e.length = n
  induction n using Nat.strongRecOn generalizing e with
  | _ n ih =>
  match e, hn with
  | [], _ => exact ⟨_, .nil⟩
  | c :: e, hn =>
    obtain ⟨u, hu⟩ := ih e.length (by simp at hn; omega) e rfl
    by_cases h : c = '\\' ∧ ∃ x r, e = x :: r ∧ x ∈ escapes.map (·.1)
    · obtain ⟨rfl, x, r, rfl, hx⟩ := h
      obtain ⟨⟨x, y⟩, hm, rfl⟩ := List.mem_map.1 hx
      obtain ⟨u, hu⟩ := ih r.length (by simp at hn; omega) r rfl
      exact ⟨_, .escape hm hu⟩
    · refine ⟨_, .other (fun hc x hx hm => h ⟨hc, ?_⟩) hu⟩
      cases e with
      | nil => simp at hx
      | cons d r => simp at hx; exact ⟨d, r, rfl, hx ▸ hm⟩

theorem halved_replace {u t} (h : Halved u t) : replaceAll '\\' '\\' u = t := by
  induction h with
  | nil => simp [replaceAll]
  | pair h ih => rw [replace_hit, ih]
  | @other c u t hc h ih =>
    by_cases hb : c = '\\'
    · subst hb; rw [replace_miss (hc rfl), ih]
    · rw [replace_other hb, ih]

theorem halved_total (u : Str) : ∃ t, Halved u t := by
  generalize hn : u.length = n
  induction n using Nat.strongRecOn generalizing u with
  | _ n ih =>
  match u, hn with
  | [], _ => exact ⟨_, .nil⟩
  | c :: u, hn =>
    obtain ⟨t, ht⟩ := ih u.length (by simp at hn; omega) u rfl
    by_cases h : c = '\\' ∧ u.head? = some '\\'
    · obtain ⟨rfl, h⟩ := h
      cases u with
      | nil => simp at h
      | cons d r =>
        simp at h; subst h
        obtain ⟨t, ht⟩ := ih r.length (by simp at hn; omega) r rfl
        exact ⟨_, .pair ht⟩
    · exact ⟨_, .other (fun hc hu => h ⟨hc, hu⟩) ht⟩

theorem means_iff {e t : Str} : Means e t ↔ unescape e = t := by
  rw [unescape_eq]
  constructor
  · rintro ⟨u, hu, ht⟩
    rw [letters_scan hu, halved_replace ht]
  · intro h
    obtain ⟨u, hu⟩ := letters_total e
    obtain ⟨t', ht⟩ := halved_total u
    rw [letters_scan hu, halved_replace ht] at h
    subst h
    exact ⟨u, hu, ht⟩

theorem escaped_means {q t e} (h : Escaped q t e) : Means e t := by
  induction h with
  | nil => exact ⟨[], .nil, .nil⟩
  | plain h1 h2 h ih => obtain ⟨u, hu, ht⟩ := ih; exact ⟨_, .other (fun h => absurd h h2) hu, .other (fun h => absurd h h2) ht⟩
  | @escape x c t e hx h ih =>
    obtain ⟨u, hu, ht⟩ := ih
    refine ⟨_, .escape hx hu, .other (fun h => ?_) ht⟩
    subst h
    revert hx; simp [escapes]
  | backslash hb h ih =>
    obtain ⟨u, hu, ht⟩ := ih
    exact ⟨_, .other (fun _ x hx => by simp at hx; subst hx; decide) (.other (fun _ => hb) hu), .pair ht⟩

theorem enclosed_iff {q : Char} {s : Str} : enclosed q s = true ↔ s.head? = some q ∧ s.getLast? = some q := by
  simp [enclosed]

theorem enclosed_split {q : Char} {s : Str} (h : enclosed q s = true) : s = [q] ∨ ∃ e, s = q :: e ++ [q] := by
  obtain ⟨h1, h2⟩ := enclosed_iff.1 h
  cases s with
  | nil => simp at h1
  | cons c s =>
    simp at h1; subst h1
    by_cases hs : s = []
    · exact .inl (by simp [hs])
    · refine .inr ⟨s.dropLast, ?_⟩
      rw [List.getLast?_cons, Option.some.injEq] at h2
      rw [List.getLast?_eq_some_getLast hs] at h2
      simp at h2
      conv => lhs; rw [← List.dropLast_concat_getLast hs, h2]
      rfl

theorem unenclose_mid (q : Char) (e : Str) : unenclose (q :: e ++ [q]) = some e := by
  simp [unenclose]

theorem enclosed_mid (q : Char) (e : Str) : enclosed q (q :: e ++ [q]) = true := by
  rw [enclosed_iff]; simp [List.getLast?_cons]

theorem enclosed_ne {q q' : Char} (h : q ≠ q') (s : Str) : enclosed q' (q :: s) = false := by
  simp [enclosed, h]

theorem filterString_iff {t s : Str} : filterString t = some s ↔ StringToken t s := by
  constructor
  · intro h
    simp only [filterString] at h
    split at h
    · rename_i h1
      rcases enclosed_split h1 with rfl | ⟨e, rfl⟩
      · simp [unenclose] at h
      · rw [unenclose_mid] at h
        simp at h
        exact .quoted (.inl rfl) (means_iff.2 h)
    · rename_i h1
      split at h
      · rename_i h2
        rcases enclosed_split h2 with rfl | ⟨e, rfl⟩
        · simp [unenclose] at h
        · rw [unenclose_mid] at h
          simp at h
          exact .quoted (.inr rfl) (means_iff.2 h)
      · rename_i h2
        simp at h
        refine .bare ?_ (means_iff.2 h)
        intro q hq
        rw [← enclosed_iff]
        simp at hq
        rcases hq with rfl | rfl <;> assumption
  · intro h
    cases h with
    | @quoted q e s hq hm =>
      rw [means_iff] at hm
      rcases hq with rfl | rfl
      · rw [filterString, if_pos (enclosed_mid _ _), unenclose_mid]
        simp [hm]
      · rw [filterString, if_neg (by simp [enclosed]), if_pos (enclosed_mid _ _), unenclose_mid]
        simp [hm]
    | bare hq hm =>
      rw [means_iff] at hm
      have h1 := hq '"' (by simp)
      have h2 := hq '\'' (by simp)
      rw [← enclosed_iff] at h1 h2
      simp [filterString, h1, h2, hm]

/-! ### The parser, with enough fuel -/

theorem bind_ok {a : Reading} {f j r} (h : a.bind f = .ok j r) : ∃ j' r', a = .ok j' r' ∧ f j' r' = .ok j r := by
  cases a with
  | ok j' r' => exact ⟨j', r', rfl, h⟩
  | _ => cases h

theorem bind_fuel {a : Reading} {f} (ha : a ≠ .fuel) (hf : ∀ j r, a = .ok j r → f j r ≠ .fuel) : a.bind f ≠ .fuel := by
  cases a with
  | ok j r => exact hf j r rfl
  | fuel => exact absurd rfl ha
  | _ => intro h; cases h

theorem bind_mono {a a' : Reading} {f f' : Json → List Str → Reading} (ha : a ≠ .fuel → a' = a)
    (hf : ∀ j r, a = .ok j r → f j r ≠ .fuel → f' j r = f j r) (h : a.bind f ≠ .fuel) : a'.bind f' = a.bind f := by
  cases a with
  | ok j r => rw [ha (by simp)]; exact hf j r rfl h
  | fuel => exact absurd rfl h
  | _ => rw [ha (by simp)]; rfl

theorem orCrash_mono {o : Option Str} {f f' : Str → Reading} (hf : ∀ s, o = some s → f s ≠ .fuel → f' s = f s)
    (h : orCrash o f ≠ .fuel) : orCrash o f' = orCrash o f := by
  cases o with
  | none => rfl
  | some s => exact hf s rfl h

theorem orCrash_fuel {o : Option Str} {f : Str → Reading} (hf : ∀ s, o = some s → f s ≠ .fuel) : orCrash o f ≠ .fuel := by
  cases o with
  | none => intro h; cases h
  | some s => exact hf s rfl

theorem orCrash_ok {o : Option Str} {f j r} (h : orCrash o f = .ok j r) : ∃ s, o = some s ∧ f s = .ok j r := by
  cases o with
  | none => cases h
  | some s => exact ⟨s, rfl, h⟩

theorem read_mono (m) (n) : ∀ g ts, read m n g ts ≠ .fuel → read m (n + 1) g ts = read m n g ts := by
  induction n with
  | zero => intro g ts h; exact absurd rfl h
  | succ n ih =>
    intro g ts h
    match g, ts, h with
    | .value, [], h => rfl
    | .value, t :: r, h =>
      rw [read] at h ⊢
      conv => rhs; rw [read]
      repeat' split
      all_goals first | rfl | (apply ih; simp_all)
    | .elements l, [], h => rfl
    | .elements l, t :: r, h =>
      rw [read] at h ⊢
      conv => rhs; rw [read]
      split
      · rfl
      · rename_i hne
        rw [if_neg hne] at h
        refine bind_mono (ih _ _) ?_ h
        intro j r _ hf
        cases r with
        | nil => rfl
        | cons t r =>
          simp only at hf ⊢
          split
          · rename_i hc; rw [if_pos hc] at hf; exact ih _ _ hf
          · rfl
    | .members l, [], h => rfl
    | .members l, t :: r, h =>
      rw [read] at h ⊢
      conv => rhs; rw [read]
      split
      · rfl
      · rename_i hne
        rw [if_neg hne] at h
        refine orCrash_mono ?_ h
        intro k _ h
        cases r with
        | nil => rfl
        | cons c r =>
          simp only at h ⊢
          split
          · rename_i hc
            rw [if_pos hc] at h
            refine bind_mono (ih _ _) ?_ h
            intro j r _ hf
            cases r with
            | nil => rfl
            | cons t r =>
              simp only at hf ⊢
              split
              · rename_i hc; rw [if_pos hc] at hf; exact ih _ _ hf
              · rfl
          · rfl

theorem read_mono' {m n n' g ts} (hn : n ≤ n') (h : read m n g ts ≠ .fuel) : read m n' g ts = read m n g ts := by
  induction hn with
  | refl => rfl
  | step _ ih => rw [read_mono _ _ _ _ (by rw [ih]; exact h), ih]

theorem readScalar_ok {m t r j r'} (h : readScalar m t r = .ok j r') : r' = r ∧
    ((∃ d, Expr.evaluate m t = some d ∧ j = .num d) ∨ (Expr.evaluate m t = none ∧ ∃ s, filterString t = some s ∧ j = .str s)) := by
  rw [readScalar] at h
  cases hv : Expr.evaluate m t with
  | some d => rw [hv] at h; simp at h; exact ⟨h.2.symm, .inl ⟨d, rfl, h.1.symm⟩⟩
  | none =>
    rw [hv] at h
    obtain ⟨s, hs, h⟩ := orCrash_ok h
    simp at h; exact ⟨h.2.symm, .inr ⟨rfl, s, hs, h.1.symm⟩⟩

theorem readPattern_ok {t r j r'} (h : readPattern t r = .ok j r') : r' = r ∧
    ((∃ p, enclosed '/' t = true ∧ unenclose t = some p ∧ j = .pat p) ∨ (enclosed '/' t = false ∧ j = .pat t)) := by
  rw [readPattern] at h
  split at h
  · rename_i he
    obtain ⟨s, hs, h⟩ := orCrash_ok h
    simp at h; exact ⟨h.2.symm, .inl ⟨s, he, hs, h.1.symm⟩⟩
  · rename_i he
    simp at h; exact ⟨h.2.symm, .inr ⟨by simpa using he, h.1.symm⟩⟩

theorem read_length (m) (n) : ∀ g ts j r, read m n g ts = .ok j r → r.length ≤ ts.length := by
  induction n with
  | zero => intro g ts j r h; cases h
  | succ n ih =>
    intro g ts j r h
    match g, ts, h with
    | .value, [], h => rw [read] at h; simp at h; simp [h]
    | .value, t :: r0, h =>
      rw [read] at h
      repeat' split at h
      all_goals first
        | (simp at h; done)
        | (simp at h; rw [← h.2]; simp)
        | (have := ih _ _ _ _ h; simp; omega)
        | (rw [(readPattern_ok h).1]; simp)
        | (rw [(readScalar_ok h).1]; simp)
    | .elements l, [], h => cases h
    | .elements l, t :: r0, h =>
      rw [read] at h
      split at h
      · simp at h; rw [← h.2]; simp
      · obtain ⟨j', r', h1, h2⟩ := bind_ok h
        have := ih _ _ _ _ h1
        cases r' with
        | nil => cases h2
        | cons t r =>
          simp only at h2
          repeat' split at h2
          · have := ih _ _ _ _ h2; simp at *; omega
          · simp at h2; rw [← h2.2]; simp at *; omega
          · cases h2
    | .members l, [], h => cases h
    | .members l, t :: r0, h =>
      rw [read] at h
      split at h
      · simp at h; rw [← h.2]; simp
      · obtain ⟨k, hk, h⟩ := orCrash_ok h
        cases r0 with
        | nil => cases h
        | cons c r0 =>
          simp only at h
          split at h
          · obtain ⟨j', r', h1, h2⟩ := bind_ok h
            have := ih _ _ _ _ h1
            cases r' with
            | nil => cases h2
            | cons t r =>
              simp only at h2
              repeat' split at h2
              · have := ih _ _ _ _ h2; simp at *; omega
              · simp at h2; rw [← h2.2]; simp at *; omega
              · cases h2
          · cases h

def Part.rank : Part → Nat
  | .value => 0
  | _ => 1

theorem readScalar_fuel {m t r} : readScalar m t r ≠ .fuel := by
  rw [readScalar]
  split
  · simp
  · exact orCrash_fuel (by intro s _; simp)

theorem readPattern_fuel {t r} : readPattern t r ≠ .fuel := by
  rw [readPattern]
  split
  · exact orCrash_fuel (by intro s _; simp)
  · simp

theorem read_fuel (m) (n) : ∀ g ts, 2 * ts.length + g.rank < n → read m n g ts ≠ .fuel := by
  induction n with
  | zero => intro g ts h; omega
  | succ n ih =>
    intro g ts hn
    match g, ts, hn with
    | .value, [], hn => rw [read]; simp
    | .value, t :: r0, hn =>
      simp [Part.rank] at hn
      rw [read]
      repeat' split
      all_goals first
        | exact readScalar_fuel
        | exact readPattern_fuel
        | (apply ih; simp [Part.rank]; omega)
        | simp
    | .elements l, [], h => rw [read]; simp
    | .elements l, t :: r0, hn =>
      simp [Part.rank] at hn
      rw [read]
      split
      · simp
      · refine bind_fuel (ih _ _ (by simp [Part.rank]; omega)) ?_
        intro j r hr
        have hl := read_length _ _ _ _ _ _ hr
        cases r with
        | nil => simp
        | cons t r =>
          simp only
          simp at hl
          repeat' split
          · apply ih; simp [Part.rank]; omega
          · simp
          · simp
    | .members l, [], h => rw [read]; simp
    | .members l, t :: r0, hn =>
      simp [Part.rank] at hn
      rw [read]
      split
      · simp
      · refine orCrash_fuel ?_
        intro k _
        cases r0 with
        | nil => simp
        | cons c r0 =>
          simp only
          split
          · refine bind_fuel (ih _ _ (by simp [Part.rank] at *; omega)) ?_
            intro j r hr
            have hl := read_length _ _ _ _ _ _ hr
            cases r with
            | nil => simp
            | cons t r =>
              simp only
              simp at hl hn
              repeat' split
              · apply ih; simp [Part.rank]; omega
              · simp
              · simp
          · simp

/-- With some fuel, and so with enough. -/
def Yields (m : Expr.Machine) (g : Part) (ts : List Str) (j : Json) (r : List Str) : Prop := ∃ n, read m n g ts = .ok j r

theorem yields_at {m g ts j r} (h : Yields m g ts j r) {n} (hn : 2 * ts.length + g.rank < n) : read m n g ts = .ok j r := by
  obtain ⟨k, hk⟩ := h
  have h1 := read_mono' (m := m) (g := g) (ts := ts) (Nat.le_max_left k n) (by rw [hk]; simp)
  have h2 := read_mono' (m := m) (g := g) (ts := ts) (Nat.le_max_right k n) (read_fuel m n g ts hn)
  rw [← h2, h1, hk]

end H2.Json
