import Verif.Json.SyntaxLemmas
namespace H2.Json

/-! ### From well-formed tokens to the parser's result -/

theorem scalar_read {m t j} (hm : t ∉ ["null".toList, "true".toList, "false".toList, tok '[', tok '{', tok ':', tok ','])
    (h : Scalar m t j) (r : List Str) (n : Nat) : read m (n + 1) .value (t :: r) = .ok j r := by
  simp only [List.mem_cons, List.not_mem_nil, or_false, not_or, tok] at hm
  obtain ⟨h1, h2, h3, h4, h5, h6, h7⟩ := hm
  rw [read, if_neg h1, if_neg h3, if_neg h2, if_neg h4, if_neg h5]
  cases h with
  | @pattern p =>
    rw [if_pos (by rfl), readPattern, if_pos (enclosed_mid _ _), unenclose_mid]; rfl
  | @openPattern p hp hl =>
    have : enclosed '/' ('/' :: p) = false := by
      rw [Bool.eq_false_iff, ne_eq, enclosed_iff]
      rintro ⟨-, h⟩
      rw [List.getLast?_cons] at h
      cases hg : p.getLast? with
      | none => exact hp (List.getLast?_eq_none_iff.1 hg)
      | some c => rw [hg] at h; simp at h; exact hl (by rw [hg, h])
    rw [if_pos (by rfl), readPattern, if_neg (by simp [this])]
  | number hh hv => rw [if_neg hh, if_neg h6, if_neg h7, readScalar, hv]
  | string hh hv hs =>
    rw [if_neg hh, if_neg h6, if_neg h7, readScalar, hv]
    simp only [filterString_iff.2 hs, orCrash]

/-- What the parser does with tokens that stand for a piece. -/
def Accepts (m : Expr.Machine) : Piece → List Str → Prop
  | .value j, ts => ts ≠ [] ∧ ∀ r, Yields m .value (ts ++ r) j r
  | .elements l, ts => ∀ a r, Yields m (.elements a) (ts ++ tok ']' :: r) (.arr (a ++ l)) r
  | .members l, ts => ∀ a r, Yields m (.members a) (ts ++ tok '}' :: r) (.obj (a ++ l)) r
  | _, _ => True

theorem read_elements {m a j ts u r res r'} (hne : ts ≠ []) (hh : ts.head? ≠ some (tok ']')) (hv : Yields m .value (ts ++ u :: r) j (u :: r))
    (h : (u = tok ',' ∧ Yields m (.elements (a ++ [j])) r res r') ∨ (u = tok ']' ∧ res = .arr (a ++ [j]) ∧ r' = r)) :
    Yields m (.elements a) (ts ++ u :: r) res r' := by
  cases ts with
  | nil => exact absurd rfl hne
  | cons t ts =>
    have ht : t ≠ [']'] := by simpa [tok] using hh
    rcases h with ⟨rfl, n, hn⟩ | ⟨rfl, rfl, rfl⟩
    · obtain ⟨k, hk⟩ := hv
      refine ⟨max k n + 1, ?_⟩
      rw [List.cons_append, read, if_neg ht, ← List.cons_append,
        read_mono' (Nat.le_max_left k n) (by rw [hk]; simp), hk]
      simp only [Reading.bind]
      rw [if_pos (by rfl), read_mono' (Nat.le_max_right k n) (by rw [hn]; simp), hn]
    · obtain ⟨k, hk⟩ := hv
      refine ⟨k + 1, ?_⟩
      rw [List.cons_append, read, if_neg ht, ← List.cons_append, hk]
      simp only [Reading.bind]
      rw [if_neg (by decide), if_pos (by rfl)]

theorem read_members {m a k j t ts u r res r'} (ht : t ≠ tok '}') (hs : StringToken t k) (hv : Yields m .value (ts ++ u :: r) j (u :: r))
    (h : (u = tok ',' ∧ Yields m (.members (a ++ [(k, j)])) r res r') ∨ (u = tok '}' ∧ res = .obj (a ++ [(k, j)]) ∧ r' = r)) :
    Yields m (.members a) (t :: tok ':' :: ts ++ u :: r) res r' := by
  have ht : t ≠ ['}'] := ht
  rcases h with ⟨rfl, n, hn⟩ | ⟨rfl, rfl, rfl⟩
  · obtain ⟨q, hk⟩ := hv
    refine ⟨max q n + 1, ?_⟩
    rw [List.cons_append, List.cons_append, read, if_neg ht, filterString_iff.2 hs]
    simp only [orCrash]
    rw [if_pos (by rfl), read_mono' (Nat.le_max_left q n) (by rw [hk]; simp), hk]
    simp only [Reading.bind]
    rw [if_pos (by rfl), read_mono' (Nat.le_max_right q n) (by rw [hn]; simp), hn]
  · obtain ⟨q, hk⟩ := hv
    refine ⟨q + 1, ?_⟩
    rw [List.cons_append, List.cons_append, read, if_neg ht, filterString_iff.2 hs]
    simp only [orCrash]
    rw [if_pos (by rfl), hk]
    simp only [Reading.bind]
    rw [if_neg (by decide), if_pos (by rfl)]

theorem wellFormed_accepts {m p ts} (h : WellFormed m p ts) : Accepts m p ts := by
  induction h with
  | null => exact ⟨by simp, fun r => ⟨1, by simp [read]⟩⟩
  | true => exact ⟨by simp, fun r => ⟨1, by simp [read]⟩⟩
  | false => exact ⟨by simp, fun r => ⟨1, by simp [read]⟩⟩
  | scalar hm hs => exact ⟨by simp, fun r => ⟨1, scalar_read hm hs r 0⟩⟩
  | @array l ts h ih =>
    refine ⟨by simp, fun r => ?_⟩
    obtain ⟨n, hn⟩ := ih [] r
    refine ⟨n + 1, ?_⟩
    have : tok '[' :: ts ++ [tok ']'] ++ r = tok '[' :: (ts ++ tok ']' :: r) := by simp
    rw [this, read, if_neg (by decide), if_neg (by decide), if_neg (by decide), if_pos (by rfl), hn]
    rfl
  | @object l ts h ih =>
    refine ⟨by simp, fun r => ?_⟩
    obtain ⟨n, hn⟩ := ih [] r
    refine ⟨n + 1, ?_⟩
    have : tok '{' :: ts ++ [tok '}'] ++ r = tok '{' :: (ts ++ tok '}' :: r) := by simp
    rw [this, read, if_neg (by decide), if_neg (by decide), if_neg (by decide), if_neg (by decide), if_pos (by rfl), hn]
    rfl
  | noElement => intro a r; exact ⟨1, by simp [read, tok]⟩
  | element hh h ih =>
    intro a r
    exact read_elements ih.1 hh (ih.2 _) (.inr ⟨rfl, rfl, rfl⟩)
  | @elements j l ts us hh h h' ih ih' =>
    intro a r
    have : ts ++ tok ',' :: us ++ tok ']' :: r = ts ++ tok ',' :: (us ++ tok ']' :: r) := by simp
    rw [this]
    refine read_elements ih.1 hh (ih.2 _) (.inl ⟨rfl, ?_⟩)
    have := ih' (a ++ [j]) r
    simpa using this
  | noMember => intro a r; exact ⟨1, by simp [read, tok]⟩
  | member ht hs h ih =>
    intro a r
    exact read_members ht hs (ih.2 _) (.inr ⟨rfl, rfl, rfl⟩)
  | @members t k j l ts us ht hs h h' ih ih' =>
    intro a r
    have : t :: tok ':' :: ts ++ tok ',' :: us ++ tok '}' :: r = t :: tok ':' :: ts ++ tok ',' :: (us ++ tok '}' :: r) := by simp
    rw [this]
    refine read_members ht hs (ih.2 _) (.inl ⟨rfl, ?_⟩)
    have := ih' (a ++ [(k, j)]) r
    simpa using this

/-! ### And back -/

def Shows (m : Expr.Machine) : Part → List Str → Json → List Str → Prop
  | .value, ts, j, r => (ts = [] ∧ j = .absent ∧ r = []) ∨ ∃ us, us ≠ [] ∧ ts = us ++ r ∧ WellFormed m (.value j) us
  | .elements a, ts, j, r => ∃ l us, ts = us ++ tok ']' :: r ∧ j = .arr (a ++ l) ∧ WellFormed m (.elements l) us
  | .members a, ts, j, r => ∃ l us, ts = us ++ tok '}' :: r ∧ j = .obj (a ++ l) ∧ WellFormed m (.members l) us

theorem read_shows (m) (n) : ∀ g ts j r, read m n g ts = .ok j r → Shows m g ts j r := by
  induction n with
  | zero => intro g ts j r h; cases h
  | succ n ih =>
    intro g ts j r h
    match g, ts, h with
    | .value, [], h => rw [read] at h; simp at h; exact .inl ⟨rfl, h.1.symm, h.2⟩
    | .value, t :: r0, h =>
      rw [read] at h
      refine .inr ?_
      split at h
      · rename_i e; subst e; simp at h; obtain ⟨rfl, rfl⟩ := h; exact ⟨[_], by simp, rfl, .null⟩
      split at h
      · rename_i e; subst e; simp at h; obtain ⟨rfl, rfl⟩ := h; exact ⟨[_], by simp, rfl, .false⟩
      split at h
      · rename_i e; subst e; simp at h; obtain ⟨rfl, rfl⟩ := h; exact ⟨[_], by simp, rfl, .true⟩
      split at h
      · rename_i e; subst e
        obtain ⟨l, us, rfl, rfl, hw⟩ := ih _ _ _ _ h
        exact ⟨tok '[' :: us ++ [tok ']'], by simp, by simp [tok], .array hw⟩
      split at h
      · rename_i e; subst e
        obtain ⟨l, us, rfl, rfl, hw⟩ := ih _ _ _ _ h
        exact ⟨tok '{' :: us ++ [tok '}'], by simp, by simp [tok], .object hw⟩
      rename_i h1 h2 h3 h4 h5
      split at h
      · rename_i hh
        have hne : t ∉ ["null".toList, "true".toList, "false".toList, tok '[', tok '{', tok ':', tok ','] := by
          simp only [List.mem_cons, List.not_mem_nil, or_false, not_or]
          refine ⟨h1, h3, h2, h4, h5, ?_, ?_⟩ <;> (rintro rfl; revert hh; decide)
        obtain ⟨rfl, ⟨p, he, hu, rfl⟩ | ⟨he, rfl⟩⟩ := readPattern_ok h
        · refine ⟨[t], by simp, rfl, .scalar hne ?_⟩
          rcases enclosed_split he with rfl | ⟨e, rfl⟩
          · simp [unenclose] at hu
          · rw [unenclose_mid] at hu; simp at hu; subst hu; exact .pattern
        · refine ⟨[t], by simp, rfl, .scalar hne ?_⟩
          cases t with
          | nil => simp at hh
          | cons c t =>
            simp at hh; subst hh
            have ht : t ≠ [] := by rintro rfl; simp [enclosed] at he
            refine .openPattern ht ?_
            intro hl
            simp [enclosed, List.getLast?_cons, hl] at he
      split at h
      · cases h
      split at h
      · cases h
      rename_i hh h6 h7
      have hne : t ∉ ["null".toList, "true".toList, "false".toList, tok '[', tok '{', tok ':', tok ','] := by
        simp only [List.mem_cons, List.not_mem_nil, or_false, not_or]
        exact ⟨h1, h3, h2, h4, h5, h6, h7⟩
      obtain ⟨rfl, ⟨d, hv, rfl⟩ | ⟨hv, s, hs, rfl⟩⟩ := readScalar_ok h
      · exact ⟨[t], by simp, rfl, .scalar hne (.number hh hv)⟩
      · exact ⟨[t], by simp, rfl, .scalar hne (.string hh hv (filterString_iff.1 hs))⟩
    | .elements a, [], h => cases h
    | .elements a, t :: r0, h =>
      rw [read] at h
      split at h
      · rename_i e; subst e; simp at h; obtain ⟨rfl, rfl⟩ := h
        exact ⟨[], [], rfl, by simp, .noElement⟩
      · rename_i ht
        obtain ⟨j', r', h1, h2⟩ := bind_ok h
        obtain ⟨he, -⟩ | ⟨us, hus, he, hw⟩ := ih _ _ _ _ h1
        · cases he
        have hh : us.head? ≠ some (tok ']') := by
          cases us with
          | nil => exact absurd rfl hus
          | cons x us => simp at he; simp [← he.1]; exact ht
        rw [he]
        cases r' with
        | nil => cases h2
        | cons u r1 =>
          simp only at h2
          split at h2
          · rename_i e; subst e
            obtain ⟨l, vs, rfl, rfl, hw'⟩ := ih _ _ _ _ h2
            exact ⟨j' :: l, us ++ tok ',' :: vs, by simp [tok], by simp, .elements hh hw hw'⟩
          split at h2
          · rename_i e; subst e; simp at h2; obtain ⟨rfl, rfl⟩ := h2
            exact ⟨[j'], us, rfl, rfl, .element hh hw⟩
          · cases h2
    | .members a, [], h => cases h
    | .members a, t :: r0, h =>
      rw [read] at h
      split at h
      · rename_i e; subst e; simp at h; obtain ⟨rfl, rfl⟩ := h
        exact ⟨[], [], rfl, by simp, .noMember⟩
      · rename_i ht
        obtain ⟨k, hk, h'⟩ := orCrash_ok h
        clear h
        cases r0 with
        | nil => cases h'
        | cons c r0 =>
          simp only at h'
          split at h'
          · rename_i e; subst e
            obtain ⟨j', r', h1, h2⟩ := bind_ok h'
            cases r' with
            | nil => cases h2
            | cons u r1 =>
              obtain ⟨-, -, he⟩ | ⟨us, hus, he, hw⟩ := ih _ _ _ _ h1
              · cases he
              rw [he]
              simp only at h2
              split at h2
              · rename_i e; subst e
                obtain ⟨l, vs, rfl, rfl, hw'⟩ := ih _ _ _ _ h2
                exact ⟨(k, j') :: l, t :: tok ':' :: us ++ tok ',' :: vs, by simp [tok], by simp, .members ht (filterString_iff.1 hk) hw hw'⟩
              split at h2
              · rename_i e; subst e; simp at h2; obtain ⟨rfl, rfl⟩ := h2
                exact ⟨[(k, j')], t :: tok ':' :: us, by simp [tok], rfl, .member ht (filterString_iff.1 hk) hw⟩
              · cases h2
          · cases h'

/-! ### Crashes -/

theorem bind_crash {a : Reading} {f} (h : a.bind f = .crash) : a = .crash ∨ ∃ j r, a = .ok j r ∧ f j r = .crash := by
  cases a with
  | ok j r => exact .inr ⟨j, r, rfl, h⟩
  | crash => exact .inl rfl
  | _ => cases h

theorem orCrash_crash {o : Option Str} {f} (h : orCrash o f = .crash) : o = none ∨ ∃ s, o = some s ∧ f s = .crash := by
  cases o with
  | none => exact .inl rfl
  | some s => exact .inr ⟨s, rfl, h⟩

/-- A quote or a slash all alone. -/
def lone (t : Str) : Prop := t = ['"'] ∨ t = ['\''] ∨ t = ['/']

theorem filter_none {t} (h : filterString t = none) : t = ['"'] ∨ t = ['\''] := by
  simp only [filterString] at h
  split at h
  · rename_i he
    rcases enclosed_split he with rfl | ⟨e, rfl⟩
    · exact .inl rfl
    · rw [unenclose_mid] at h; simp at h
  split at h
  · rename_i he
    rcases enclosed_split he with rfl | ⟨e, rfl⟩
    · exact .inr rfl
    · rw [unenclose_mid] at h; simp at h
  · simp at h

theorem suffix_of_read {m n g ts j r} (h : read m n g ts = .ok j r) : ∀ t ∈ r, t ∈ ts := by
  intro t ht
  have := read_shows _ _ _ _ _ _ h
  cases g with
  | value =>
    rcases this with ⟨-, -, rfl⟩ | ⟨us, -, rfl, -⟩
    · simp at ht
    · simp [ht]
  | elements a => obtain ⟨l, us, rfl, -⟩ := this; simp [ht]
  | members a => obtain ⟨l, us, rfl, -⟩ := this; simp [ht]

theorem read_crash (m) (n) : ∀ g ts, read m n g ts = .crash → ∃ t ∈ ts, lone t := by
  induction n with
  | zero => intro g ts h; cases h
  | succ n ih =>
    intro g ts h
    match g, ts, h with
    | .value, [], h => rw [read] at h; cases h
    | .value, t :: r0, h =>
      rw [read] at h
      split at h
      · cases h
      split at h
      · cases h
      split at h
      · cases h
      split at h
      · obtain ⟨t, ht, hl⟩ := ih _ _ h; exact ⟨t, by simp [ht], hl⟩
      split at h
      · obtain ⟨t, ht, hl⟩ := ih _ _ h; exact ⟨t, by simp [ht], hl⟩
      split at h
      · rw [readPattern] at h
        split at h
        · rename_i he
          rcases orCrash_crash h with h | ⟨s, -, h⟩
          · rcases enclosed_split he with rfl | ⟨e, rfl⟩
            · exact ⟨_, List.mem_cons_self, .inr (.inr rfl)⟩
            · rw [unenclose_mid] at h; cases h
          · cases h
        · cases h
      split at h
      · cases h
      split at h
      · cases h
      rw [readScalar] at h
      split at h
      · cases h
      · rcases orCrash_crash h with h | ⟨s, -, h⟩
        · rcases filter_none h with rfl | rfl
          · exact ⟨_, List.mem_cons_self, .inl rfl⟩
          · exact ⟨_, List.mem_cons_self, .inr (.inl rfl)⟩
        · cases h
    | .elements a, [], h => cases h
    | .elements a, t :: r0, h =>
      rw [read] at h
      split at h
      · cases h
      · rcases bind_crash h with h | ⟨j, r, h1, h⟩
        · exact ih _ _ h
        · have hs := suffix_of_read h1
          cases r with
          | nil => cases h
          | cons u r =>
            simp only at h
            split at h
            · obtain ⟨t, ht, hl⟩ := ih _ _ h; exact ⟨t, hs t (by simp [ht]), hl⟩
            split at h
            · cases h
            · cases h
    | .members a, [], h => cases h
    | .members a, t :: r0, h =>
      rw [read] at h
      split at h
      · cases h
      · rcases orCrash_crash h with h | ⟨k, hk, h⟩
        · rcases filter_none h with rfl | rfl
          · exact ⟨_, List.mem_cons_self, .inl rfl⟩
          · exact ⟨_, List.mem_cons_self, .inr (.inl rfl)⟩
        · cases r0 with
          | nil => cases h
          | cons c r0 =>
            simp only at h
            split at h
            · rcases bind_crash h with h | ⟨j, r, h1, h⟩
              · obtain ⟨t, ht, hl⟩ := ih _ _ h; exact ⟨t, by simp [ht], hl⟩
              · have hs := suffix_of_read h1
                cases r with
                | nil => cases h
                | cons u r =>
                  simp only at h
                  split at h
                  · obtain ⟨t, ht, hl⟩ := ih _ _ h; exact ⟨t, by have := hs t (by simp [ht]); simp [this], hl⟩
                  split at h
                  · cases h
                  · cases h
            · cases h

end H2.Json
