import Verif.Macro.Pairs
/-
From the words of the specification to those of the proofs.
-/
namespace H2.Macro

theorem commas_eq (as : List (List Tok)) : commas as = join as := by
  unfold commas
  induction as with
  | nil => rfl
  | cons a as ih =>
    cases as with
    | nil => simp [join]
    | cons b bs =>
      rw [join, ← ih]
      simp [List.intercalate]

theorem call_eq (s : String) (as : List (List Tok)) : call s as = callT s as := by
  simp [call, callT, commas_eq]

theorem fits_both {c : Bool} : ∀ n (x : List Tok), x.length ≤ n → (fits c 0 x = true → Bal c x) ∧
    (∀ d, fits c (d + 1) x = true → ∃ xs ys, x = xs ++ .rp :: ys ∧ Bal true xs ∧ fits c d ys = true) := by
  intro n
  induction n with
  | zero =>
    intro x hx
    have : x = [] := List.eq_nil_of_length_eq_zero (by omega)
    subst this
    exact ⟨fun _ => .nil, fun d h => by simp [fits] at h⟩
  | succ n ih =>
    intro x hx
    cases x with
    | nil => exact ⟨fun _ => .nil, fun d h => by simp [fits] at h⟩
    | cons t r =>
      have hr : r.length ≤ n := by simp at hx; omega
      have ihr := ih r hr
      have other : (t ≠ .lp ∧ t ≠ .rp ∧ t ≠ .comma) → (fits c 0 (t :: r) = fits c 0 r) → (∀ d, fits c (d + 1) (t :: r) = fits c (d + 1) r) →
          (fits c 0 (t :: r) = true → Bal c (t :: r)) ∧ (∀ d, fits c (d + 1) (t :: r) = true → ∃ xs ys, t :: r = xs ++ .rp :: ys ∧ Bal true xs ∧ fits c d ys = true) := by
        intro ht h0 h1
        refine ⟨fun h => .tok ht.1 ht.2.1 (fun hc => absurd hc ht.2.2) (ihr.1 (h0 ▸ h)), fun d h => ?_⟩
        obtain ⟨xs, ys, rfl, hb, hf⟩ := ihr.2 d (h1 d ▸ h)
        exact ⟨t :: xs, ys, rfl, .tok ht.1 ht.2.1 (fun hc => absurd hc ht.2.2) hb, hf⟩
      cases t with
      | lp =>
        refine ⟨fun h => ?_, fun d h => ?_⟩
        · obtain ⟨xs, ys, rfl, hb, hf⟩ := ihr.2 0 (by simpa [fits] using h)
          exact .paren hb ((ih ys (by simp at hr; omega)).1 hf)
        · obtain ⟨xs, ys, rfl, hb, hf⟩ := ihr.2 (d + 1) (by simpa [fits] using h)
          obtain ⟨us, vs, rfl, hb', hf'⟩ := (ih ys (by simp at hr; omega)).2 d hf
          exact ⟨.lp :: (xs ++ .rp :: us), vs, by simp, .paren hb hb', hf'⟩
      | rp =>
        refine ⟨fun h => by simp [fits] at h, fun d h => ⟨[], r, rfl, .nil, by simpa [fits] using h⟩⟩
      | comma =>
        refine ⟨fun h => ?_, fun d h => ?_⟩
        · simp only [fits, Bool.and_eq_true] at h
          exact .tok (by simp) (by simp) (fun _ => h.1) (ihr.1 h.2)
        · obtain ⟨xs, ys, rfl, hb, hf⟩ := ihr.2 d (by simpa [fits] using h)
          exact ⟨.comma :: xs, ys, rfl, .tok (by simp) (by simp) (fun _ => rfl) hb, hf⟩
      | id s => exact other (by simp) (by simp [fits]) (by simp [fits])
      | dead s => exact other (by simp) (by simp [fits]) (by simp [fits])
      | num s => exact other (by simp) (by simp [fits]) (by simp [fits])
      | other s => exact other (by simp) (by simp [fits]) (by simp [fits])

theorem bal_of_fits {c : Bool} {x : List Tok} (h : fits c 0 x = true) : Bal c x := (fits_both x.length x (Nat.le_refl _)).1 h

theorem fits_bal {c k : Bool} {x : List Tok} (h : Bal c x) : ∀ d r, (d = 0 → c = true → k = true) → fits k d (x ++ r) = fits k d r := by
  induction h with
  | nil => intro d r _; rfl
  | paren hx hy ihx ihy =>
    intro d r hk
    have : ∀ xs ys : List Tok, .lp :: (xs ++ .rp :: ys) ++ r = .lp :: (xs ++ (.rp :: (ys ++ r))) := by simp
    rw [this, fits, ihx (d + 1) _ (by simp), fits, ihy d r hk]
  | @tok c t xs h1 h2 h3 _ ih =>
    intro d r hk
    cases t with
    | lp => exact absurd rfl h1
    | rp => exact absurd rfl h2
    | comma =>
      cases d with
      | zero => simp only [List.cons_append, fits]; rw [ih 0 r hk, hk rfl (h3 rfl)]; rfl
      | succ d => simp only [List.cons_append, fits]; exact ih (d + 1) r hk
    | id s => simp only [List.cons_append, fits]; exact ih d r hk
    | dead s => simp only [List.cons_append, fits]; exact ih d r hk
    | num s => simp only [List.cons_append, fits]; exact ih d r hk
    | other s => simp only [List.cons_append, fits]; exact ih d r hk

theorem fits_of_bal {c : Bool} {x : List Tok} (h : Bal c x) : fits c 0 x = true := by
  have := fits_bal (k := c) h 0 [] (by intro _ h; exact h)
  simpa [fits] using this

theorem Fixed.bal {T : String → Option Macro} {x : List Tok} (h : Fixed T x) : Bal false x := bal_of_fits h.fits

theorem Fixed.plain {T : String → Option Macro} {x : List Tok} (h : Fixed T x) : Plain T x := h.quiet

theorem Args63.bal {T : String → Option Macro} {as : List (List Tok)} (h : Args63 T as) : ∀ a ∈ as, Bal false a := fun a ha => (h.each a ha).bal

theorem Args63.plain {T : String → Option Macro} {as : List (List Tok)} (h : Args63 T as) : Plain T (join as) := plain_join fun a ha => (h.each a ha).plain

theorem List63.els {user : String → Option Macro} {xs : List (List Tok)} (h : List63 (defs user) xs) : Elements user xs :=
  ⟨fun x hx => (h.each x hx).plain, fun x hx => (h.each x hx).bal, h.last, h.few⟩

theorem enclosed_iff {a s : List Tok} (ha : Bal false a) : Enclosed a s ↔ inner a = some s := by
  constructor
  · rintro ⟨hf, rfl⟩
    have := inner_split (xs := s) (ys := []) (bal_of_fits hf)
    simpa using this
  · intro h
    obtain ⟨e, hb⟩ := inner_some ha h
    exact ⟨fits_of_bal hb, by simpa using e⟩

theorem bare_iff {a s : List Tok} (ha : Bal false a) (h : Bare a s) : s = (inner a).getD a := by
  rcases h with h | ⟨h, rfl⟩
  · rw [(enclosed_iff ha).1 h]; rfl
  · have : inner s = none := by
      cases hi : inner s with
      | none => rfl
      | some x => exact absurd ((enclosed_iff ha).2 hi) (h x)
    rw [this]; rfl

instance freeNil : Free [] := ⟨fun _ h => nomatch h⟩

theorem eachAll_eq {S s : List Tok} (hS : Bal false S) (hs : Bare S s) (o : Nat → List Tok → List Tok) (xs : List (List Tok)) :
    ∀ i, eachAll S o i xs = (xs.mapIdx fun j x => (if i + j = 0 then [] else s) ++ o (i + j) x).flatten := by
  induction xs with
  | nil => intro i; rfl
  | cons x xs ih =>
    intro i
    rw [eachAll, ih (i + 1), List.mapIdx_cons, List.flatten_cons, sep, ← bare_iff hS hs]
    congr 2
    congr 1
    funext j y
    rw [Nat.add_assoc, Nat.add_comm 1 j]

theorem yAll_eq {S s : List Tok} (hS : Bal false S) (hs : Bare S s) (o : Nat → Nat → List Tok → List Tok → List Tok) (i : Nat) (x : List Tok) (ys : List (List Tok)) :
    ∀ j, yAll S o i x j ys = (ys.mapIdx fun k y => (if i = 0 ∧ j + k = 0 then [] else s) ++ o i (j + k) x y).flatten := by
  induction ys with
  | nil => intro i; rfl
  | cons y ys ih =>
    intro j
    rw [yAll, ih (j + 1), List.mapIdx_cons, List.flatten_cons, sep2, ← bare_iff hS hs]
    congr 2
    congr 1
    funext k z
    rw [Nat.add_assoc, Nat.add_comm 1 k]

theorem xAll_eq {S s : List Tok} (hS : Bal false S) (hs : Bare S s) (o : Nat → Nat → List Tok → List Tok → List Tok) (ys xs : List (List Tok)) :
    ∀ i, xAll S o ys i xs = (xs.mapIdx fun k x => (ys.mapIdx fun j y => (if i + k = 0 ∧ j = 0 then [] else s) ++ o (i + k) j x y).flatten).flatten := by
  induction xs with
  | nil => intro i; rfl
  | cons x xs ih =>
    intro i
    rw [xAll, ih (i + 1), List.mapIdx_cons, List.flatten_cons, yAll_eq hS hs]
    simp only [Nat.zero_add, Nat.add_zero]
    congr 2
    congr 1
    funext k z
    rw [Nat.add_assoc, Nat.add_comm 1 k]

theorem mapIdx_const {α β : Type} (g : α → β) (xs : List α) : (xs.mapIdx fun _ x => g x) = xs.map g := by
  induction xs with
  | nil => rfl
  | cons x xs ih => rw [List.mapIdx_cons, List.map_cons, ih]

theorem idx_number {i : Nat} (h : i ≤ 32) : idx i = .num (toString i) := by unfold idx; rw [if_pos h]

end H2.Macro
