import Verif.Calls.Spec
/-
C96: how often and in which order the user's own functions are called while matching.
-/
namespace H2.Calls
open H2.Matcher

/-! ### Programs -/

theorem bind_eq {α β : Type} (p : Prog α) (g : α → Prog β) : (p >>= g) = p.bind g := rfl

theorem exec_bind {σ α β : Type} (e : Env σ) (p : Prog α) (g : α → Prog β) (s : σ) :
    exec e (p >>= g) s = exec e (g (exec e p s).1) (exec e p s).2 := by
  rw [bind_eq]
  induction p generalizing s with
  | ret x => rfl
  | ask id v k ih => exact ih _ _
  | explain id v k ih => exact ih _
  | call f v k ih => exact ih _ _

theorem events_bind {σ α β : Type} (e : Env σ) (p : Prog α) (g : α → Prog β) (s : σ) :
    events e (p >>= g) s = events e p s ++ events e (g (exec e p s).1) (exec e p s).2 := by
  rw [bind_eq]
  induction p generalizing s with
  | ret x => rfl
  | ask id v k ih =>
    show _ :: _ = _ :: _ ++ _
    rw [List.cons_append]; exact congrArg _ (ih _ _)
  | explain id v k ih =>
    show _ :: _ = _ :: _ ++ _
    rw [List.cons_append]; exact congrArg _ (ih _)
  | call f v k ih =>
    show _ :: _ = _ :: _ ++ _
    rw [List.cons_append]; exact congrArg _ (ih _ _)

@[simp] theorem exec_ret {σ α : Type} (e : Env σ) (x : α) (s : σ) : exec e (.ret x) s = (x, s) := rfl
@[simp] theorem events_ret {σ α : Type} (e : Env σ) (x : α) (s : σ) : events e (.ret x) s = [] := rfl

@[simp] theorem calls_append (l l' : List Event) : calls (l ++ l') = calls l ++ calls l' := List.filterMap_append
@[simp] theorem calls_nil : calls [] = [] := rfl
@[simp] theorem fns_append (l l' : List Event) : fns (l ++ l') = fns l ++ fns l' := by simp [fns]
@[simp] theorem fns_nil : fns [] = [] := rfl

/-- For the examples: own matchers that answer yes and no in turn, whatever they are asked, methods that give how often
anything was called so far. -/
def turns : Env Nat := ⟨fun _ _ s => (s % 2 == 0, s + 1), fun _ _ s => s, fun _ _ s => (.num s, s + 1)⟩

/-! ### A single value: everything is called, once, in the order it is written -/

mutual
theorem written_run {σ : Type} (e : Env σ) : ∀ (m : X) (a : Val) (c : C) (s : σ), straight m = true →
    fns (events e (run m a c) s) = written m
  | .own id, a, c, s, _ => by
    simp only [run, events, written]
    split <;> rfl
  | .plain t, a, c, s, _ => rfl
  | .member clear f m, a, c, s, h => by
    simp only [run, events, written]
    exact congrArg _ (written_run e m _ _ _ h)
  | .poly g m, a, c, s, h => written_run e m a _ s h
  | .not m, a, c, s, h => written_run e m a _ s h
  | .cond b t f, a, c, s, h => by
    simp only [straight, Bool.and_eq_true] at h
    cases b
    · exact written_run e f a c s h.2
    · exact written_run e t a c s h.1
  | .and l r, a, c, s, h => by
    simp only [straight, Bool.and_eq_true] at h
    simp only [run, events_bind, exec_bind, fns_append, written, events_ret, fns_nil, List.append_nil,
      written_run e l _ _ _ h.1, written_run e r _ _ _ h.2]
  | .or l r, a, c, s, h => by
    simp only [straight, Bool.and_eq_true] at h
    simp only [run, events_bind, exec_bind, fns_append, written, events_ret, fns_nil, List.append_nil,
      written_run e l _ _ _ h.1, written_run e r _ _ _ h.2]
  | .allOf ms, a, c, s, h => by
    simp only [run, events_bind, fns_append, written, events_ret, fns_nil, List.append_nil, written_all e ms _ _ _ _ h]
  | .noneOf ms, a, c, s, h => by
    simp only [run, events_bind, fns_append, written, events_ret, fns_nil, List.append_nil, written_none e ms _ _ _ _ h]
  | .anyOf _, _, _, _, h => by simp [straight] at h
  | .pair _ _, _, _, _, h => by simp [straight] at h
  | .every _ _, _, _, _, h => by simp [straight] at h
  | .has _ _ _, _, _, _, h => by simp [straight] at h
  | .listOf _ _, _, _, _, h => by simp [straight] at h
  | .stat _ _ _, _, _, _, h => by simp [straight] at h
theorem written_all {σ : Type} (e : Env σ) : ∀ (ms : Xs) (a : Val) (c : C) (i : Nat) (s : σ), straights ms = true →
    fns (events e (allLoop ms a c i) s) = writtens ms
  | .nil, _, _, _, _, _ => rfl
  | .cons m ms, a, c, i, s, h => by
    simp only [straights, Bool.and_eq_true] at h
    simp only [allLoop, events_bind, fns_append, writtens, events_ret, fns_nil, List.append_nil,
      written_run e m _ _ _ h.1, written_all e ms _ _ _ _ h.2]
theorem written_none {σ : Type} (e : Env σ) : ∀ (ms : Xs) (a : Val) (c : C) (i : Nat) (s : σ), straights ms = true →
    fns (events e (noneLoop ms a c i) s) = writtens ms
  | .nil, _, _, _, _, _ => rfl
  | .cons m ms, a, c, i, s, h => by
    simp only [straights, Bool.and_eq_true] at h
    simp only [noneLoop, events_bind, fns_append, writtens, events_ret, fns_nil, List.append_nil,
      written_run e m _ _ _ h.1, written_none e ms _ _ _ _ h.2]
end

/-- **C96, a single value.** In an expression about one value (own matchers, methods and data members, `Pointee`, `&&`, `||`,
`Not`, `AllOf`, `NoneOf`, `Conditional`, modifiers), `OK` and `KO` call every own matcher and every method exactly as often as
it is written (in the chosen branch of a `Conditional`), from left to right, whatever the answers are: nothing is left out
because the outcome is already decided, and nothing is called twice. -/
theorem C96_single {σ : Type} (e : Env σ) (oppose : Bool) (m : X) (a : Val) (s : σ) (h : straight m = true) :
    fns (events e (assertion oppose m a) s) = written m := by
  simp only [assertion, events_bind, events_ret, List.append_nil]
  exact written_run e m a _ s h

example : straight (.and (.not (.own 0)) (.member false 7 (.allOf (.cons (.own 1) (.cons (.own 0) .nil))))) = true ∧
    fns (events turns (assertion false (.and (.not (.own 0)) (.member false 7 (.allOf (.cons (.own 1) (.cons (.own 0) .nil))))) (.str [])) 0) =
      [.own 0, .method 7, .own 1, .own 0] := ⟨rfl, rfl⟩

/-! ### Containers -/

@[simp] theorem asks_append (l l' : List Event) : asks (l ++ l') = asks l ++ asks l' := List.filterMap_append
@[simp] theorem asks_nil : asks [] = [] := rfl

theorem within_cons (lo hi : Int) (r : Rng) (c : C) (h1 : c.rangeStart = lo) (h2 : c.rangeEnd = hi) (n : Nat) (xs : List Val) :
    ((xs.zipIdx n).filter fun p => decide (lo ≤ p.2 ∧ (p.2 : Int) < hi ∧
      (if r.second = -1 then 0 ≤ (p.2 : Int) ∧ (p.2 : Int) < r.first else r.first ≤ p.2 ∧ (p.2 : Int) < r.second))).map Prod.fst =
    selectFrom r c n xs := by
  induction xs generalizing n with
  | nil => rfl
  | cons x xs ih =>
    have hk := ih (n + 1)
    simp only [List.zipIdx_cons, List.filter_cons, selectFrom]
    have hc : (decide (lo ≤ (n : Int) ∧ (n : Int) < hi ∧
      (if r.second = -1 then 0 ≤ (n : Int) ∧ (n : Int) < r.first else r.first ≤ (n : Int) ∧ (n : Int) < r.second))) = rangeIn r c n := by
      subst h1; subst h2
      unfold rangeIn C.inRange Rng.inRange Rng.start Rng.stop
      rw [Bool.eq_iff_iff]
      by_cases hs : r.second = -1 <;> simp [hs] <;> omega
    rw [hc]
    cases rangeIn r c n
    · simpa using hk
    · simpa using hk

theorem asks_every {σ : Type} (e : Env σ) (inside : Int → Bool) (f : Val → Prog (Option Fail)) (pl : Val → List (Nat × Val))
    (h : ∀ x s, asks (events e (f x) s) = pl x) (r : Rng) (c : C) (hin : inside = rangeIn r c) (i : Int) (xs : List Val) (s : σ) :
    asks (events e (everyLoop inside f i xs) s) = (selectFrom r c i xs).flatMap pl := by
  subst hin
  induction xs generalizing i s with
  | nil => rfl
  | cons x xs ih =>
    simp only [everyLoop, selectFrom]
    split
    · simp only [events_bind, asks_append, events_ret, asks_nil, List.append_nil, h, ih, List.flatMap_cons]
    · exact ih _ _

theorem pick_eq (t : Int) (n : Nat) (xs : List Val) :
    pick t n xs = if t < n then none else xs[(t - n).toNat]? := by
  induction xs generalizing n with
  | nil => simp [pick]
  | cons x xs ih =>
    simp only [pick]
    by_cases h : (n : Int) = t
    · subst h; simp
    · have hk := ih (n + 1)
      rw [if_neg h]
      have : ((n : Int) + 1) = ((n + 1 : Nat) : Int) := by omega
      rw [this, hk]
      by_cases h1 : t < n
      · rw [if_pos h1, if_pos (by omega)]
      · rw [if_neg h1, if_neg (by omega)]
        have h2 : (t - n).toNat = (t - ((n + 1 : Nat) : Int)).toNat + 1 := by omega
        rw [h2, List.getElem?_cons_succ]

theorem pick_elementAt (t : Int) (xs : List Val) : pick t 0 xs = elementAt xs t := by
  have := pick_eq t 0 xs
  simpa [elementAt] using this

theorem asks_listStep {σ : Type} (e : Env σ) (i : Nat) (f : Val → Prog (Option Fail)) (pl : Val → List (Nat × Val))
    (h : ∀ x s, asks (events e (f x) s) = pl x) (o : Option Val) (s : σ) :
    asks (events e (listStep i f o) s) = o.toList.flatMap pl := by
  cases o with
  | none => rfl
  | some x => simp [listStep, events_bind, h]

theorem configure_start (g : Cfg) (c : C) : (g.configure c).rangeStart = if g.rangeStart = -1 ∨ g.rangeEnd = -1 then c.rangeStart else g.rangeStart := by
  unfold Cfg.configure; dsimp only
  by_cases h1 : g.rangeStart = -1 <;> by_cases h2 : g.rangeEnd = -1 <;> simp [h1, h2]

theorem configure_end (g : Cfg) (c : C) : (g.configure c).rangeEnd = if g.rangeStart = -1 ∨ g.rangeEnd = -1 then c.rangeEnd else g.rangeEnd := by
  unfold Cfg.configure; dsimp only
  by_cases h1 : g.rangeStart = -1 <;> by_cases h2 : g.rangeEnd = -1 <;> simp [h1, h2]

mutual
theorem places_run {σ : Type} (e : Env σ) : ∀ (m : X) (a : Val) (c : C) (s : σ), thorough m = true →
    asks (events e (run m a c) s) = places m c.rangeStart c.rangeEnd a
  | .own id, a, c, s, _ => by
    simp only [run, events, places]
    split <;> rfl
  | .plain t, a, c, s, _ => rfl
  | .member _ _ _, _, _, _, h => by simp [thorough] at h
  | .poly g m, a, c, s, h => by
    have := places_run e m a (g.configure c) s h
    rw [run, this, configure_start, configure_end, places]
    split <;> rfl
  | .not m, a, c, s, h => places_run e m a (c.setNegative (!c.negative)) s h
  | .cond b t f, a, c, s, h => by
    simp only [thorough, Bool.and_eq_true] at h
    cases b
    · exact places_run e f a c s h.2
    · exact places_run e t a c s h.1
  | .and l r, a, c, s, h => by
    simp only [thorough, Bool.and_eq_true] at h
    simp only [run, events_bind, exec_bind, asks_append, places, events_ret, asks_nil, List.append_nil,
      places_run e l _ _ _ h.1, places_run e r _ _ _ h.2]
    rfl
  | .or l r, a, c, s, h => by
    simp only [thorough, Bool.and_eq_true] at h
    simp only [run, events_bind, exec_bind, asks_append, places, events_ret, asks_nil, List.append_nil,
      places_run e l _ _ _ h.1, places_run e r _ _ _ h.2]
    rfl
  | .allOf ms, a, c, s, h => by
    simp only [run, events_bind, asks_append, places, events_ret, asks_nil, List.append_nil, places_all e ms _ _ _ _ h]
    rfl
  | .noneOf ms, a, c, s, h => by
    simp only [run, events_bind, asks_append, places, events_ret, asks_nil, List.append_nil, places_none e ms _ _ _ _ h]
    rfl
  | .anyOf _, _, _, _, h => by simp [thorough] at h
  | .has _ _ _, _, _, _, h => by simp [thorough] at h
  | .pair k v, a, c, s, h => by
    simp only [thorough, Bool.and_eq_true] at h
    cases a with
    | pair ka va =>
      simp only [run, events_bind, exec_bind, asks_append, places, events_ret, asks_nil, List.append_nil,
        places_run e k _ _ _ h.1, places_run e v _ _ _ h.2]
      rfl
    | num q => rfl
    | str t => rfl
    | seq xs => rfl
  | .every r m, a, c, s, h => by
    have hm := fun x s => places_run e m x (c.clearSize.setNegative false) s h
    simp only [run, events_bind, asks_append, events_ret, asks_nil, List.append_nil]
    rw [asks_every e _ _ (fun x => places m 0 5413722 x) hm r c rfl]
    cases a with
    | seq xs =>
      simp only [places, within, Val.elems]
      rw [within_cons _ _ r c rfl rfl 0 xs]; rfl
    | num q => rfl
    | str t => rfl
    | pair x y => rfl
  | .listOf r ms, a, c, s, h => by
    simp only [run, events_bind, asks_append, events_ret, asks_nil, List.append_nil]
    rw [places_listLoop e ms _ _ _ _ _ h rfl rfl]
    cases a with
    | seq xs =>
      simp only [places, Val.elems, Rng.start]; simp
    | num q => exact placesList_nil ms _
    | str t => exact placesList_nil ms _
    | pair x y => exact placesList_nil ms _
  | .stat st r m, a, c, s, h => by
    simp only [thorough, Bool.and_eq_true, beq_iff_eq] at h
    obtain ⟨hst, h⟩ := h
    subst hst
    have hm := fun x s => places_run e m x (c.clearSize.setNegative false) s h
    simp only [run, statValue, statStep, events_bind, asks_append, events_ret, asks_nil, List.append_nil, hm]
    cases a <;> rfl
theorem places_all {σ : Type} (e : Env σ) : ∀ (ms : Xs) (a : Val) (c : C) (i : Nat) (s : σ), thoroughs ms = true →
    asks (events e (allLoop ms a c i) s) = placesAll ms c.rangeStart c.rangeEnd a
  | .nil, _, _, _, _, _ => rfl
  | .cons m ms, a, c, i, s, h => by
    simp only [thoroughs, Bool.and_eq_true] at h
    simp only [allLoop, events_bind, asks_append, placesAll, events_ret, asks_nil, List.append_nil,
      places_run e m _ _ _ h.1, places_all e ms _ _ _ _ h.2]
theorem places_none {σ : Type} (e : Env σ) : ∀ (ms : Xs) (a : Val) (c : C) (i : Nat) (s : σ), thoroughs ms = true →
    asks (events e (noneLoop ms a c i) s) = placesAll ms c.rangeStart c.rangeEnd a
  | .nil, _, _, _, _, _ => rfl
  | .cons m ms, a, c, i, s, h => by
    simp only [thoroughs, Bool.and_eq_true] at h
    simp only [noneLoop, events_bind, asks_append, placesAll, events_ret, asks_nil, List.append_nil,
      places_run e m _ _ _ h.1, places_none e ms _ _ _ _ h.2]
theorem places_listLoop {σ : Type} (e : Env σ) : ∀ (ms : Xs) (xs : List Val) (start : Int) (c : C) (i : Nat) (s : σ),
    thoroughs ms = true → c.rangeStart = 0 → c.rangeEnd = 5413722 →
    asks (events e (listLoop ms xs start c i) s) = placesList ms (i + start) xs
  | .nil, _, _, _, _, _, _, _, _ => rfl
  | .cons m ms, xs, start, c, i, s, h, h1, h2 => by
    simp only [thoroughs, Bool.and_eq_true] at h
    have hm : ∀ x s, asks (events e (run m x c) s) = places m 0 5413722 x := fun x s => by
      rw [places_run e m x c s h.1, h1, h2]
    simp only [listLoop, events_bind, asks_append, placesList, events_ret, asks_nil, List.append_nil,
      asks_listStep e i _ _ hm, places_listLoop e ms _ _ _ _ _ h.2 h1 h2, pick_elementAt]
    have : ((i + 1 : Nat) : Int) + start = i + start + 1 := by omega
    rw [this]
theorem placesList_nil : ∀ (ms : Xs) (i : Int), placesList ms i [] = []
  | .nil, _ => rfl
  | .cons m ms, i => by
    simp only [placesList, placesList_nil ms]
    simp [elementAt]
end

/-- **C96, containers.** In an expression without methods, `AnyOf`, `Has` and statistics other than `CountOf`, `OK` and `KO`
ask every own matcher exactly once about every value it stands for (`places`), from left to right and element by element,
whatever the answers are; elements out of range are not asked about. -/
theorem C96_containers {σ : Type} (e : Env σ) (oppose : Bool) (m : X) (a : Val) (s : σ) (h : thorough m = true) :
    asks (events e (assertion oppose m a) s) = places m 0 5413722 a := by
  simp only [assertion, events_bind, events_ret, List.append_nil]
  exact places_run e m a _ s h

example : thorough (.poly { rangeStart := 1, rangeEnd := 3 } (.every {} (.pair (.own 0) (.own 1)))) = true ∧
    places (.poly { rangeStart := 1, rangeEnd := 3 } (.every {} (.pair (.own 0) (.own 1)))) 0 5413722
      (.seq [.pair (.num 0) (.num 1), .pair (.num 2) (.num 3), .pair (.num 4) (.num 5), .pair (.num 6) (.num 7)]) =
      [(0, .num 2), (1, .num 3), (0, .num 4), (1, .num 5)] := ⟨rfl, rfl⟩
example : asks (events turns (assertion true (.listOf {} (.cons (.own 4) (.cons (.own 5) (.cons (.own 6) .nil))))
    (.seq [.num 8, .num 9])) 0) = [(4, .num 8), (5, .num 9)] := C96_containers turns true _ _ 0 rfl

/-! ### Matchers made of matchers are like assertions made one after the other -/

theorem sees_eq {σ : Type} (e : Env σ) (m : X) (a : Val) (s : σ) :
    sees e m a s = ((exec e (run m a {}) s).1.isNone, events e (run m a {}) s, (exec e (run m a {}) s).2) := by
  simp only [sees, assertion, exec_bind, events_bind, exec_ret, events_ret, List.append_nil, stash]; rfl

theorem inTurn_cons {σ : Type} (e : Env σ) (m : X) (a : Val) (l : List (X × Val)) (s : σ) :
    inTurn e ((m, a) :: l) s = ((exec e (run m a {}) s).1.isNone :: (inTurn e l (exec e (run m a {}) s).2).1,
      events e (run m a {}) s ++ (inTurn e l (exec e (run m a {}) s).2).2.1, (inTurn e l (exec e (run m a {}) s).2).2.2) := by
  simp only [inTurn, sees_eq]

theorem conclude_pass (ok : Bool) (f : List Fail) : (conclude {} ok f).isNone = ok := by
  cases ok <;> rfl

theorem toList_isEmpty_map {α β : Type} (o : Option α) (f : α → β) : (o.map f).toList.isEmpty = o.isNone := by
  cases o <;> rfl
theorem toList_isEmpty {α : Type} (o : Option α) : o.toList.isEmpty = o.isNone := by
  cases o <;> rfl
theorem isEmpty_append' {α : Type} (l l' : List α) : (l ++ l').isEmpty = (l.isEmpty && l'.isEmpty) := by
  cases l <;> rfl

theorem all_turn {σ : Type} (e : Env σ) (a : Val) : ∀ (ms : List X) (i : Nat) (s : σ),
    ((exec e (allLoop (Xs.ofList ms) a {} i) s).1.isEmpty, events e (allLoop (Xs.ofList ms) a {} i) s,
      (exec e (allLoop (Xs.ofList ms) a {} i) s).2) =
    ((inTurn e (ms.map (·, a)) s).1.all id, (inTurn e (ms.map (·, a)) s).2)
  | [], _, _ => rfl
  | m :: ms, i, s => by
    have ih := all_turn e a ms (i + 1) (exec e (run m a {}) s).2
    simp only [Prod.mk.injEq, Prod.ext_iff] at ih
    simp only [Xs.ofList, allLoop, exec_bind, events_bind, exec_ret, events_ret, List.append_nil, List.map_cons, inTurn_cons,
      isEmpty_append', toList_isEmpty_map, List.all_cons, id, ih.1, ih.2.1, ih.2.2]

theorem none_turn {σ : Type} (e : Env σ) (a : Val) : ∀ (ms : List X) (i : Nat) (s : σ),
    ((exec e (noneLoop (Xs.ofList ms) a {} i) s).1.isEmpty, events e (noneLoop (Xs.ofList ms) a {} i) s,
      (exec e (noneLoop (Xs.ofList ms) a {} i) s).2) =
    ((inTurn e (ms.map (·, a)) s).1.all (!·), (inTurn e (ms.map (·, a)) s).2)
  | [], _, _ => rfl
  | m :: ms, i, s => by
    have ih := none_turn e a ms (i + 1) (exec e (run m a {}) s).2
    simp only [Prod.mk.injEq, Prod.ext_iff] at ih
    simp only [Xs.ofList, noneLoop, exec_bind, events_bind, exec_ret, events_ret, List.append_nil, List.map_cons, inTurn_cons,
      List.all_cons, Prod.mk.injEq, ih.2.1, ih.2.2]
    cases (exec e (run m a {}) s).1 <;> simp [ih.1]

theorem every_turn {σ : Type} (e : Env σ) (r : Rng) (m : X) : ∀ (xs : List Val) (i : Int) (s : σ),
    ((exec e (everyLoop (rangeIn r {}) (fun x => run m x {}) i xs) s).1.isEmpty, events e (everyLoop (rangeIn r {}) (fun x => run m x {}) i xs) s,
      (exec e (everyLoop (rangeIn r {}) (fun x => run m x {}) i xs) s).2) =
    ((inTurn e ((selectFrom r {} i xs).map (m, ·)) s).1.all id, (inTurn e ((selectFrom r {} i xs).map (m, ·)) s).2)
  | [], _, _ => rfl
  | x :: xs, i, s => by
    simp only [everyLoop, selectFrom]
    by_cases hi : rangeIn r {} i = true
    · have ih := every_turn e r m xs (i + 1) (exec e (run m x {}) s).2
      simp only [Prod.mk.injEq, Prod.ext_iff] at ih
      simp only [if_pos hi, exec_bind, events_bind, exec_ret, events_ret, List.append_nil, List.map_cons, inTurn_cons,
        isEmpty_append', toList_isEmpty, List.all_cons, id, ih.1, ih.2.1, ih.2.2]
    · rw [if_neg hi, if_neg hi]; exact every_turn e r m xs (i + 1) s

theorem list_turn {σ : Type} (e : Env σ) (xs : List Val) (start : Int) : ∀ (ms : List X) (i : Nat) (s : σ),
    ((exec e (listLoop (Xs.ofList ms) xs start {} i) s).1.isEmpty, events e (listLoop (Xs.ofList ms) xs start {} i) s,
      (exec e (listLoop (Xs.ofList ms) xs start {} i) s).2) =
    ((inTurn e (pairing xs ms (i + start)) s).1.all id && decide (ms.length = (pairing xs ms (i + start)).length),
      (inTurn e (pairing xs ms (i + start)) s).2)
  | [], _, _ => rfl
  | m :: ms, i, s => by
    have hi : ((i + 1 : Nat) : Int) + start = i + start + 1 := by omega
    have hlen : ∀ (ms : List X) (i : Int), (pairing xs ms i).length ≤ ms.length := by
      intro ms
      induction ms with
      | nil => intro i; simp [pairing]
      | cons m ms ih =>
        intro i
        have := ih (i + 1)
        simp only [pairing, List.length_append, List.length_map, List.length_cons]
        cases elementAt xs i <;> simp <;> omega
    simp only [Xs.ofList, listLoop, pairing, pick_elementAt]
    obtain hx | ⟨x, hx⟩ : elementAt xs (i + start) = none ∨ ∃ x, elementAt xs (i + start) = some x := by
      cases elementAt xs (i + start)
      · exact .inl rfl
      · exact .inr ⟨_, rfl⟩
    · simp only [hx]
      have ih := list_turn e xs start ms (i + 1) s
      simp only [Prod.mk.injEq, Prod.ext_iff, hi] at ih
      have := hlen ms (i + start + 1)
      have hne : decide ((m :: ms).length = (pairing xs ms (i + start + 1)).length) = false := by
        simp only [List.length_cons, decide_eq_false_iff_not]; omega
      simp only [listStep, exec_bind, events_bind, exec_ret, events_ret, List.append_nil, List.nil_append, Option.toList,
        List.map_nil, Prod.mk.injEq, isEmpty_append', ih.2.1, ih.2.2, hne]
      simp
    · simp only [hx]
      have ih := list_turn e xs start ms (i + 1) (exec e (run m x {}) s).2
      simp only [Prod.mk.injEq, Prod.ext_iff, hi] at ih
      simp only [listStep, exec_bind, events_bind, exec_ret, events_ret, List.append_nil, Option.toList,
        List.map_cons, List.map_nil, List.cons_append, List.nil_append, inTurn_cons, List.all_cons, id, List.length_cons,
        Prod.mk.injEq, isEmpty_append', ih.1, ih.2.1, ih.2.2]
      cases (exec e (run m x {}) s).1 <;> simp

/-- **C96, one after the other.** Whatever effects the user's functions have, `OK` with a matcher made of matchers does what a row
of assertions would do, each made after the one before: `AllOf`, `NoneOf`, `&&` and `||` set each operand against the value,
`Every` its matcher against each element in range, `Pair` its two against the two parts, `ListOf` its matchers against one
element each.  `AllOf`, `&&`, `Every`, `Pair` and `ListOf` pass when all of the row pass (and for `ListOf` no element is missing),
`NoneOf` when all fail, `||` when one passes. -/
theorem C96_in_turn {σ : Type} (e : Env σ) (ms : List X) (l r k v m : X) (rng : Rng) (a x y : Val) (xs : List Val) (s : σ) :
    sees e (.allOf (Xs.ofList ms)) a s = ((inTurn e (ms.map (·, a)) s).1.all id, (inTurn e (ms.map (·, a)) s).2) ∧
    sees e (.noneOf (Xs.ofList ms)) a s = ((inTurn e (ms.map (·, a)) s).1.all (!·), (inTurn e (ms.map (·, a)) s).2) ∧
    sees e (.and l r) a s = ((inTurn e [(l, a), (r, a)] s).1.all id, (inTurn e [(l, a), (r, a)] s).2) ∧
    sees e (.or l r) a s = ((inTurn e [(l, a), (r, a)] s).1.any id, (inTurn e [(l, a), (r, a)] s).2) ∧
    sees e (.pair k v) (.pair x y) s = ((inTurn e [(k, x), (v, y)] s).1.all id, (inTurn e [(k, x), (v, y)] s).2) ∧
    sees e (.every rng m) (.seq xs) s =
      ((inTurn e ((within 0 5413722 rng xs).map (m, ·)) s).1.all id, (inTurn e ((within 0 5413722 rng xs).map (m, ·)) s).2) ∧
    sees e (.listOf rng (Xs.ofList ms)) (.seq xs) s =
      (let row := pairing xs ms (max 0 (if rng.second = -1 then 0 else rng.first))
       ((inTurn e row s).1.all id && decide (ms.length = row.length), (inTurn e row s).2)) := by
  have hc : (C.setNegative {} false) = ({} : C) := rfl
  have hk : (C.clearSize {}).setNegative false = ({} : C) := rfl
  refine ⟨?_, ?_, ?_, ?_, ?_, ?_, ?_⟩
  · rw [← all_turn e a ms 0 s, sees_eq]
    simp only [run, exec_bind, events_bind, exec_ret, events_ret, List.append_nil, hc, conclude_pass]
  · rw [← none_turn e a ms 0 s, sees_eq]
    simp only [run, exec_bind, events_bind, exec_ret, events_ret, List.append_nil, hc, conclude_pass]
  · rw [sees_eq, inTurn_cons, inTurn_cons]
    simp only [run, exec_bind, events_bind, exec_ret, events_ret, List.append_nil, hc, conclude_pass, isEmpty_append', toList_isEmpty, inTurn]
    simp
  · rw [sees_eq, inTurn_cons, inTurn_cons]
    simp only [run, exec_bind, events_bind, exec_ret, events_ret, List.append_nil, hc, conclude_pass, inTurn]
    simp
  · rw [sees_eq, inTurn_cons, inTurn_cons]
    simp only [run, exec_bind, events_bind, exec_ret, events_ret, List.append_nil, hk, conclude_pass, isEmpty_append', toList_isEmpty, inTurn]
    simp
  · have hw : within 0 5413722 rng xs = selectFrom rng {} 0 xs := within_cons 0 5413722 rng {} rfl rfl 0 xs
    rw [hw, ← every_turn e rng m xs 0 s, sees_eq]
    simp only [run, exec_bind, events_bind, exec_ret, events_ret, List.append_nil, hk, conclude_pass, Val.elems]
  · have := list_turn e xs (max 0 (if rng.second = -1 then 0 else rng.first)) ms 0 s
    simp only [Int.ofNat_zero, Int.zero_add, Int.natCast_zero] at this
    dsimp only
    rw [← this, sees_eq]
    simp only [run, exec_bind, events_bind, exec_ret, events_ret, List.append_nil, hk, conclude_pass, Val.elems, Rng.start]

example : sees turns (.every ⟨2, -1⟩ (.member false 1 (.own 0))) (.seq [.num 5, .num 6, .num 7]) 0 =
    (false, [.called 1 (.num 5) (.num 0), .asked 0 (.num 0) false, .explained 0 (.num 0),
      .called 1 (.num 6) (.num 2), .asked 0 (.num 2) false, .explained 0 (.num 2)], 4) := rfl
example : pairing [.num 5, .num 6] [.own 0, .own 1, .own 2] 0 = [(.own 0, .num 5), (.own 1, .num 6)] := rfl

/-! ### AnyOf stops at the first operand that accepts -/

theorem any_rest {σ : Type} (e : Env σ) (a : Val) (c : C) (ms' : List X) : ∀ (ms : List X) (i : Nat) (s : σ),
    (exec e (anyLoop (Xs.ofList ms) a c i) s).1.1 = true →
    exec e (anyLoop (Xs.ofList (ms ++ ms')) a c i) s = exec e (anyLoop (Xs.ofList ms) a c i) s ∧
    events e (anyLoop (Xs.ofList (ms ++ ms')) a c i) s = events e (anyLoop (Xs.ofList ms) a c i) s
  | [], _, _, h => by simp [Xs.ofList, anyLoop] at h
  | m :: ms, i, s, h => by
    simp only [List.cons_append, Xs.ofList, anyLoop, exec_bind, events_bind] at h ⊢
    cases hr : (exec e (run m a c) s).1 with
    | none => exact ⟨rfl, rfl⟩
    | some f =>
      rw [hr] at h
      simp only [exec_bind, events_bind, exec_ret, events_ret, List.append_nil] at h ⊢
      have := any_rest e a c ms' ms (i + 1) (exec e (run m a c) s).2 h
      rw [this.1, this.2]
      exact ⟨rfl, rfl⟩

theorem any_all {σ : Type} (e : Env σ) (a : Val) (c : C) : ∀ (ms : List X) (i : Nat) (s : σ),
    (exec e (anyLoop (Xs.ofList ms) a c i) s).1.1 = false →
    (exec e (anyLoop (Xs.ofList ms) a c i) s).2 = (exec e (allLoop (Xs.ofList ms) a c i) s).2 ∧
    events e (anyLoop (Xs.ofList ms) a c i) s = events e (allLoop (Xs.ofList ms) a c i) s
  | [], _, _, _ => ⟨rfl, rfl⟩
  | m :: ms, i, s, h => by
    simp only [Xs.ofList, anyLoop, allLoop, exec_bind, events_bind] at h ⊢
    cases hr : (exec e (run m a c) s).1 with
    | none => rw [hr] at h; simp at h
    | some f =>
      rw [hr] at h
      simp only [exec_bind, events_bind, exec_ret, events_ret, List.append_nil] at h ⊢
      have := any_all e a c ms (i + 1) (exec e (run m a c) s).2 h
      rw [this.1, this.2]
      exact ⟨rfl, rfl⟩

theorem pass_iff {σ : Type} (e : Env σ) (oppose : Bool) (m : X) (a : Val) (s : σ) :
    (exec e (assertion oppose m a) s).1 = ((exec e (run m a {}) s).1.isNone != oppose) := by
  simp only [assertion, exec_bind, exec_ret, stash]
  cases oppose <;> cases (exec e (run m a {}) s).1 <;> rfl

theorem any_pass {σ : Type} (e : Env σ) (ms : Xs) (a : Val) (s : σ) :
    (exec e (assertion false (.anyOf ms) a) s).1 = (exec e (anyLoop ms a {} 0) s).1.1 := by
  rw [pass_iff]
  have : (C.setNegative {} false) = ({} : C) := rfl
  simp only [run, exec_bind, exec_ret, this]
  cases h : (exec e (anyLoop ms a {} 0) s).1.1 <;> simp [conclude, C.fit]

/-- **C96, AnyOf stops.** When `OK(AnyOf(ms...))` passes, further operands behind change nothing: they are not called. -/
theorem C96_any_rest {σ : Type} (e : Env σ) (ms ms' : List X) (a : Val) (s : σ)
    (h : (exec e (assertion false (.anyOf (Xs.ofList ms)) a) s).1 = true) :
    exec e (assertion false (.anyOf (Xs.ofList (ms ++ ms'))) a) s = exec e (assertion false (.anyOf (Xs.ofList ms)) a) s ∧
    events e (assertion false (.anyOf (Xs.ofList (ms ++ ms'))) a) s = events e (assertion false (.anyOf (Xs.ofList ms)) a) s := by
  rw [any_pass] at h
  have := any_rest e a {} ms' ms 0 s h
  simp only [assertion, run, exec_bind, events_bind, exec_ret, events_ret, List.append_nil]
  have hc : (C.setNegative {} false) = ({} : C) := rfl
  rw [hc, this.1, this.2]
  exact ⟨rfl, rfl⟩

example : (exec turns (assertion false (.anyOf (Xs.ofList [.own 0, .own 1])) (.num 5)) 1).1 = true ∧
    fns (events turns (assertion false (.anyOf (Xs.ofList [.own 0, .own 1, .own 2])) (.num 5)) 1) = [.own 0, .own 1] := ⟨rfl, rfl⟩

/-- **C96, AnyOf goes on.** When `OK(AnyOf(ms...))` fails, all operands were called, as by `AllOf`. -/
theorem C96_any_all {σ : Type} (e : Env σ) (ms : List X) (a : Val) (s : σ)
    (h : (exec e (assertion false (.anyOf (Xs.ofList ms)) a) s).1 = false) :
    (exec e (assertion false (.anyOf (Xs.ofList ms)) a) s).2 = (exec e (assertion false (.allOf (Xs.ofList ms)) a) s).2 ∧
    events e (assertion false (.anyOf (Xs.ofList ms)) a) s = events e (assertion false (.allOf (Xs.ofList ms)) a) s := by
  rw [any_pass] at h
  have := any_all e a {} ms 0 s h
  simp only [assertion, run, exec_bind, events_bind, exec_ret, events_ret, List.append_nil]
  have hc : (C.setNegative {} false) = ({} : C) := rfl
  rw [hc]
  exact this

example : (exec turns (assertion false (.anyOf (Xs.ofList [.own 0, .not (.own 1)])) (.num 5)) 1).1 = false ∧
    fns (events turns (assertion false (.anyOf (Xs.ofList [.own 0, .not (.own 1)])) (.num 5)) 1) = [.own 0, .own 1] := ⟨rfl, rfl⟩

/-! ### Has stops at the element that makes the number full -/

theorem hasLoop_le {σ : Type} (e : Env σ) (inside : Int → Bool) (f : Val → Prog (Option Fail)) (times : Int) :
    ∀ (xs : List Val) (i found : Int) (s : σ), found < times → ∀ ys,
    (times ≤ (exec e (hasLoop inside f times i xs found) s).1 →
      exec e (hasLoop inside f times i (xs ++ ys) found) s = exec e (hasLoop inside f times i xs found) s ∧
      events e (hasLoop inside f times i (xs ++ ys) found) s = events e (hasLoop inside f times i xs found) s)
  | [], i, found, s, hf, ys, h => by
    simp only [hasLoop, exec_ret] at h; omega
  | x :: xs, i, found, s, hf, ys, h => by
    simp only [List.cons_append, hasLoop] at h ⊢
    by_cases hi : inside i = true
    · rw [if_pos hi] at h
      rw [if_pos hi, if_pos hi]
      simp only [exec_bind, events_bind] at h ⊢
      by_cases hn : (exec e (f x) s).1.isNone = true
      · rw [if_pos hn] at h
        rw [if_pos hn, if_pos hn]
        by_cases ht : found + 1 ≥ times
        · rw [if_pos ht, if_pos ht]; exact ⟨rfl, rfl⟩
        · rw [if_neg ht] at h
          rw [if_neg ht, if_neg ht]
          have := hasLoop_le e inside f times xs (i + 1) (found + 1) _ (by omega) ys h
          rw [this.1, this.2]; exact ⟨rfl, rfl⟩
      · rw [if_neg hn] at h
        rw [if_neg hn, if_neg hn]
        have := hasLoop_le e inside f times xs (i + 1) found _ hf ys h
        rw [this.1, this.2]; exact ⟨rfl, rfl⟩
    · rw [if_neg hi] at h
      rw [if_neg hi, if_neg hi]
      exact hasLoop_le e inside f times xs (i + 1) found s hf ys h

theorem hasLoop_all {σ : Type} (e : Env σ) (inside : Int → Bool) (f : Val → Prog (Option Fail)) (g : Val → Val) (times : Int) :
    ∀ (xs : List Val) (i found : Int) (s : σ),
    ((exec e (hasLoop inside (fun x => f (g x)) times i xs found) s).1 < times →
      (exec e (hasLoop inside (fun x => f (g x)) times i xs found) s).2 = (exec e (everyLoop inside f i (xs.map g)) s).2 ∧
      events e (hasLoop inside (fun x => f (g x)) times i xs found) s = events e (everyLoop inside f i (xs.map g)) s)
  | [], i, found, s, h => ⟨rfl, rfl⟩
  | x :: xs, i, found, s, h => by
    simp only [List.map_cons, hasLoop, everyLoop] at h ⊢
    by_cases hi : inside i = true
    · rw [if_pos hi] at h
      rw [if_pos hi, if_pos hi]
      simp only [exec_bind, events_bind, exec_ret, events_ret, List.append_nil] at h ⊢
      by_cases hn : (exec e (f (g x)) s).1.isNone = true
      · rw [if_pos hn] at h
        rw [if_pos hn]
        by_cases ht : found + 1 ≥ times
        · rw [if_pos ht] at h; simp only [exec_ret] at h; omega
        · rw [if_neg ht] at h
          rw [if_neg ht]
          have := hasLoop_all e inside f g times xs (i + 1) (found + 1) _ h
          rw [this.1, this.2]; exact ⟨rfl, rfl⟩
      · rw [if_neg hn] at h
        rw [if_neg hn]
        have := hasLoop_all e inside f g times xs (i + 1) found _ h
        rw [this.1, this.2]; exact ⟨rfl, rfl⟩
    · rw [if_neg hi] at h
      rw [if_neg hi, if_neg hi]
      exact hasLoop_all e inside f g times xs (i + 1) found s h

theorem has_pass {σ : Type} (e : Env σ) (g : Cfg) (hn : g.negative = false) (r : Rng) (k : Bool) (m : X) (xs : List Val) (s : σ) :
    (exec e (assertion false (.poly g (.has r k m)) (.seq xs)) s).1 =
      decide ((exec e (hasLoop (rangeIn r (g.configure {})) (fun x => run m (entry k x) ((g.configure {}).clearSize.setNegative false))
        g.times 0 xs 0) s).1 ≥ g.times) := by
  rw [pass_iff]
  have ht : (g.configure {}).times = g.times := by simp [Cfg.configure]
  have hneg : (g.configure {}).negative = false := by simp [Cfg.configure, hn]
  simp only [run, exec_bind, exec_ret, conclude, C.fit, ht, hneg, Val.elems, Bool.not_false, beq_true, decide_eq_true_eq]
  split
  · next h => simp [h]
  · next h => simp [h]

/-- **C96, Has stops.** When `OK(Has(m), xs)` passes (with a range behind it, or with `* n` for a positive `n`), elements
further behind change nothing: the matcher is not set against them. -/
theorem C96_has_rest {σ : Type} (e : Env σ) (g : Cfg) (hn : g.negative = false) (ht : 0 < g.times) (r : Rng) (k : Bool) (m : X)
    (xs ys : List Val) (s : σ) (h : (exec e (assertion false (.poly g (.has r k m)) (.seq xs)) s).1 = true) :
    exec e (assertion false (.poly g (.has r k m)) (.seq (xs ++ ys))) s = exec e (assertion false (.poly g (.has r k m)) (.seq xs)) s ∧
    events e (assertion false (.poly g (.has r k m)) (.seq (xs ++ ys))) s = events e (assertion false (.poly g (.has r k m)) (.seq xs)) s := by
  rw [has_pass e g hn] at h
  have htt : (g.configure {}).times = g.times := by simp [Cfg.configure]
  have := hasLoop_le e _ _ g.times xs 0 0 s ht ys (of_decide_eq_true h)
  simp only [assertion, run, exec_bind, events_bind, exec_ret, events_ret, List.append_nil, Val.elems, htt]
  rw [this.1, this.2]
  exact ⟨rfl, rfl⟩

example : (exec turns (assertion false (.poly { times := 2 } (.has {} false (.own 0))) (.seq [.num 5, .num 6, .num 7])) 0).1 = true ∧
    calls (events turns (assertion false (.poly { times := 2 } (.has {} false (.own 0))) (.seq ([.num 5, .num 6, .num 7] ++ [.num 8]))) 0) =
      [(.own 0, .num 5), (.own 0, .num 6), (.own 0, .num 7)] := ⟨rfl, rfl⟩

/-- **C96, Has goes on.** When `OK(Has(m), xs)` fails, the matcher was set against every element in range, as by `Every` (against
the keys, in the case of a map). -/
theorem C96_has_all {σ : Type} (e : Env σ) (g : Cfg) (hn : g.negative = false) (r : Rng) (k : Bool) (m : X)
    (xs : List Val) (s : σ) (h : (exec e (assertion false (.poly g (.has r k m)) (.seq xs)) s).1 = false) :
    (exec e (assertion false (.poly g (.has r k m)) (.seq xs)) s).2 =
      (exec e (assertion false (.poly g (.every r m)) (.seq (xs.map fun x => if k then x.key else x))) s).2 ∧
    events e (assertion false (.poly g (.has r k m)) (.seq xs)) s =
      events e (assertion false (.poly g (.every r m)) (.seq (xs.map fun x => if k then x.key else x))) s := by
  rw [has_pass e g hn] at h
  have htt : (g.configure {}).times = g.times := by simp [Cfg.configure]
  have := hasLoop_all e (rangeIn r (g.configure {})) (fun x => run m x ((g.configure {}).clearSize.setNegative false)) (entry k)
    g.times xs 0 0 s (by have := of_decide_eq_false h; omega)
  simp only [assertion, run, exec_bind, events_bind, exec_ret, events_ret, List.append_nil, Val.elems, htt]
  exact this

example : (exec turns (assertion false (.poly { times := 2 } (.has {} true (.own 0))) (.seq [.pair (.num 5) (.num 6), .pair (.num 7) (.num 8)])) 0).1 = false ∧
    calls (events turns (assertion false (.poly { times := 2 } (.has {} true (.own 0))) (.seq [.pair (.num 5) (.num 6), .pair (.num 7) (.num 8)])) 0) =
      [(.own 0, .num 5), (.own 0, .num 7)] := ⟨rfl, rfl⟩

/-! ### Statistics run their matcher once -/

theorem bestOf_none (b : Bool) : ∀ (l : List Rat), bestOf b l none = none → l = []
  | [], _ => rfl
  | x :: l, h => by
    have : ∀ (l : List Rat) (v : Rat), bestOf b l (some v) ≠ none := by
      intro l
      induction l with
      | nil => intro v h; simp [bestOf] at h
      | cons y l ih => intro v; simp only [bestOf]; exact ih _
    exact absurd h (by simp only [bestOf]; exact this l x)

theorem statValue_none {st : Stat} {r : Rng} {c : C} {xs : List Val} (h : statValue st r c xs = none) :
    st ≠ .count ∧ selectFrom r c 0 xs = [] := by
  cases st with
  | count => simp [statValue] at h
  | max => exact ⟨by simp, List.map_eq_nil_iff.mp (bestOf_none _ _ h)⟩
  | min => exact ⟨by simp, List.map_eq_nil_iff.mp (bestOf_none _ _ h)⟩
  | avg =>
    refine ⟨by simp, ?_⟩
    simp only [statValue] at h
    split at h
    · next hl => simpa using hl
    · simp at h

/-- **C96, statistics.** `CountOf`, `MaxOf`, `MinOf` and `AvgOf` run their matcher once, on one number; only when there is no
element in range (and it is not `CountOf`) nothing is called, and the assertion fails. -/
theorem C96_stat {σ : Type} (e : Env σ) (st : Stat) (r : Rng) (m : X) (xs : List Val) (s : σ) :
    (∃ q, exec e (assertion false (.stat st r m) (.seq xs)) s = exec e (assertion false m (.num q)) s ∧
      events e (assertion false (.stat st r m) (.seq xs)) s = events e (assertion false m (.num q)) s) ∨
    (st ≠ .count ∧ within 0 5413722 r xs = [] ∧ exec e (assertion false (.stat st r m) (.seq xs)) s = (false, s) ∧
      events e (assertion false (.stat st r m) (.seq xs)) s = []) := by
  have hc : (C.clearSize {}).setNegative false = ({} : C) := rfl
  cases hv : statValue st r {} xs with
  | some q =>
    refine .inl ⟨q, ?_⟩
    simp only [assertion, run, exec_bind, events_bind, exec_ret, events_ret, List.append_nil, Val.elems, hv, statStep, hc]
    refine ⟨?_, trivial⟩
    cases (exec e (run m (.num q) {}) s).1 <;> rfl
  | none =>
    obtain ⟨h1, h2⟩ := statValue_none hv
    refine .inr ⟨h1, ?_, ?_, ?_⟩
    · unfold within; rw [within_cons 0 5413722 r {} rfl rfl 0 xs]; exact h2
    · simp only [assertion, run, exec_bind, exec_ret, Val.elems, hv, statStep]; rfl
    · simp only [assertion, run, events_bind, events_ret, Val.elems, hv, statStep]; rfl

example : calls (events turns (assertion false (.stat .count {} (.own 3)) (.seq [.num 5, .num 6])) 0) = [(.own 3, .num (2 : Nat))] ∧
    exec turns (assertion false (.stat .max ⟨2, -1⟩ (.own 3)) (.seq [])) 0 = (false, 0) := ⟨rfl, rfl⟩

/-! ### Negation changes no call -/

theorem set_set (c : C) (b b' : Bool) : (c.setNegative b).setNegative b' = c.setNegative b' := rfl
theorem clear_set (c : C) (b : Bool) : (c.setNegative b).clearSize = c.clearSize.setNegative b := rfl
theorem conf_set (g : Cfg) (c : C) (b : Bool) : g.configure (c.setNegative b) = (g.configure c).setNegative (g.negative != b) := rfl
theorem select_set (r : Rng) (c : C) (b : Bool) (xs : List Val) : ∀ i, selectFrom r (c.setNegative b) i xs = selectFrom r c i xs := by
  induction xs with
  | nil => intro i; rfl
  | cons x xs ih => intro i; simp only [selectFrom, ih]; rfl
theorem stat_set (st : Stat) (r : Rng) (c : C) (b : Bool) (xs : List Val) : statValue st r (c.setNegative b) xs = statValue st r c xs := by
  simp only [statValue, select_set]

theorem negate {σ : Type} (e : Env σ) (hq : Quiet e) (b : Bool) : ∀ (m : X) (a : Val) (c : C) (s : σ),
    (exec e (run m a (c.setNegative b)) s).2 = (exec e (run m a c) s).2 ∧
    calls (events e (run m a (c.setNegative b)) s) = calls (events e (run m a c) s)
  | .own id, a, c, s => by
    have h1 : ∀ (c : C), (exec e (run (.own id) a c) s).2 = (e.ask id a s).2 := by
      intro c; simp only [run, exec]; split
      · rfl
      · simp only [exec]; exact hq _ _ _
    have h2 : ∀ (c : C), calls (events e (run (.own id) a c) s) = [(.own id, a)] := by
      intro c; simp only [run, events]; split <;> rfl
    rw [h1, h1, h2, h2]; exact ⟨rfl, rfl⟩
  | .plain t, a, c, s => ⟨rfl, rfl⟩
  | .member clear f m, a, c, s => by
    have := negate e hq b m (e.call f a s).1 (if clear then c.clearSize else c) (e.call f a s).2
    have hc : (if clear = true then (c.setNegative b).clearSize else c.setNegative b) = (if clear then c.clearSize else c).setNegative b := by
      cases clear <;> rfl
    simp only [run, exec, events, hc]
    exact ⟨this.1, congrArg (_ :: ·) this.2⟩
  | .poly g m, a, c, s => by
    simp only [run, conf_set]
    exact negate e hq _ m a (g.configure c) s
  | .not m, a, c, s => by
    have h1 := negate e hq (!b) m a c s
    have h2 := negate e hq (!c.negative) m a c s
    simp only [run, set_set]
    exact ⟨h1.1.trans h2.1.symm, h1.2.trans h2.2.symm⟩
  | .cond b' t f, a, c, s => by
    cases b'
    · exact negate e hq b f a c s
    · exact negate e hq b t a c s
  | .and l r, a, c, s => by simp [run, set_set, exec_bind, events_bind]
  | .or l r, a, c, s => by simp [run, set_set, exec_bind, events_bind]
  | .allOf ms, a, c, s => by simp [run, set_set, exec_bind, events_bind]
  | .anyOf ms, a, c, s => by simp [run, set_set, exec_bind, events_bind]
  | .noneOf ms, a, c, s => by simp [run, set_set, exec_bind, events_bind]
  | .pair k v, a, c, s => by
    cases a <;> simp [run, set_set, clear_set, exec_bind, events_bind]
  | .every r m, a, c, s => by
    have : rangeIn r (c.setNegative b) = rangeIn r c := rfl
    simp [run, set_set, clear_set, exec_bind, events_bind, this]
  | .has r k m, a, c, s => by
    have : rangeIn r (c.setNegative b) = rangeIn r c := rfl
    have ht : (c.setNegative b).times = c.times := rfl
    simp [run, set_set, clear_set, exec_bind, events_bind, this, ht]
  | .listOf r ms, a, c, s => by
    have ht : (c.setNegative b).rangeStart = c.rangeStart := rfl
    simp [run, set_set, clear_set, exec_bind, events_bind, ht]
  | .stat st r m, a, c, s => by
    simp only [run, set_set, clear_set, stat_set]
    cases statValue st r c a.elems <;> simp [statStep, exec_bind, events_bind]

theorem conclude_flip (c : C) (b : Bool) (ok : Bool) (f f' : List Fail) (h : b = !c.negative) :
    (conclude (c.setNegative b) ok f).isNone = !(conclude c ok f').isNone := by
  subst h
  simp only [conclude, C.fit, C.setNegative]
  cases ok <;> rcases Bool.eq_false_or_eq_true c.negative with hc | hc <;> simp [hc]

theorem flip {σ : Type} (e : Env σ) : ∀ (m : X) (a : Val) (c : C) (s : σ), noPair m = true →
    (exec e (run m a (c.setNegative (!c.negative))) s).1.isNone = !(exec e (run m a c) s).1.isNone
  | .own id, a, c, s, _ => by
    simp only [run, exec, C.fit, C.setNegative]
    cases (e.ask id a s).1 <;> rcases Bool.eq_false_or_eq_true c.negative with hc | hc <;> simp [hc, exec]
  | .plain t, a, c, s, _ => conclude_flip c _ _ _ _ rfl
  | .member clear f m, a, c, s, h => by
    have hc : (if clear = true then (c.setNegative (!c.negative)).clearSize else c.setNegative (!c.negative)) =
        (if clear then c.clearSize else c).setNegative (!(if clear then c.clearSize else c).negative) := by
      cases clear <;> rfl
    simp only [run, exec, hc]
    exact flip e m _ _ _ h
  | .poly g m, a, c, s, h => by
    have hc : (g.configure c).setNegative (g.negative != !c.negative) = (g.configure c).setNegative (!(g.configure c).negative) := by
      have : (g.configure c).negative = (g.negative != c.negative) := rfl
      rw [this]; cases g.negative <;> cases c.negative <;> rfl
    simp only [run, conf_set, hc]
    exact flip e m a (g.configure c) s h
  | .not m, a, c, s, h => by
    simp only [run, set_set]
    have h1 := flip e m a c s h
    have hc : c.setNegative (!(c.setNegative (!c.negative)).negative) = c := by
      cases c; simp [C.setNegative]
    rw [hc, h1, Bool.not_not]
  | .cond b' t f, a, c, s, h => by
    simp only [noPair, Bool.and_eq_true] at h
    cases b'
    · exact flip e f a c s h.2
    · exact flip e t a c s h.1
  | .and l r, a, c, s, _ => by simp only [run, set_set, exec_bind, exec_ret]; exact conclude_flip c _ _ _ _ rfl
  | .or l r, a, c, s, _ => by simp only [run, set_set, exec_bind, exec_ret]; exact conclude_flip c _ _ _ _ rfl
  | .allOf ms, a, c, s, _ => by simp only [run, set_set, exec_bind, exec_ret]; exact conclude_flip c _ _ _ _ rfl
  | .anyOf ms, a, c, s, _ => by simp only [run, set_set, exec_bind, exec_ret]; exact conclude_flip c _ _ _ _ rfl
  | .noneOf ms, a, c, s, _ => by simp only [run, set_set, exec_bind, exec_ret]; exact conclude_flip c _ _ _ _ rfl
  | .pair k v, a, c, s, h => by simp [noPair] at h
  | .every r m, a, c, s, _ => by
    have : rangeIn r (c.setNegative (!c.negative)) = rangeIn r c := rfl
    simp only [run, set_set, clear_set, exec_bind, exec_ret, this]; exact conclude_flip c _ _ _ _ rfl
  | .has r k m, a, c, s, _ => by
    have : rangeIn r (c.setNegative (!c.negative)) = rangeIn r c := rfl
    have ht : (c.setNegative (!c.negative)).times = c.times := rfl
    simp only [run, set_set, clear_set, exec_bind, exec_ret, this, ht]; exact conclude_flip c _ _ _ _ rfl
  | .listOf r ms, a, c, s, _ => by
    have ht : (c.setNegative (!c.negative)).rangeStart = c.rangeStart := rfl
    simp only [run, set_set, clear_set, exec_bind, exec_ret, ht]; exact conclude_flip c _ _ _ _ rfl
  | .stat st r m, a, c, s, _ => by
    simp only [run, set_set, clear_set, stat_set]
    cases statValue st r c a.elems
    · simp only [statStep, exec_ret]; exact conclude_flip c _ _ _ _ rfl
    · simp only [statStep, exec_bind, exec_ret]; exact conclude_flip c _ _ _ _ rfl

/-- **C96, negation.** `Not(m)` and `!m` call the same functions on the same values in the same order as `m`, and leave the
user's objects as `m` does, whatever the answers are (when making a message changes nothing), and the assertion passes
exactly when it fails with `m` (where no `Pair` refuses). -/
theorem C96_negation {σ : Type} (e : Env σ) (hq : Quiet e) (m m' : X) (hm : m' = .not m ∨ m' = .poly { negative := true } m)
    (a : Val) (s : σ) (oppose : Bool) :
    (exec e (assertion oppose m' a) s).2 = (exec e (assertion oppose m a) s).2 ∧
    calls (events e (assertion oppose m' a) s) = calls (events e (assertion oppose m a) s) ∧
    (noPair m = true → (exec e (assertion oppose m' a) s).1 = !(exec e (assertion oppose m a) s).1) := by
  have hr : run m' a {} = run m a (C.setNegative {} true) := by
    rcases hm with rfl | rfl <;> rfl
  have h1 := negate e hq true m a {} s
  refine ⟨?_, ?_, fun hp => ?_⟩
  · simpa only [assertion, exec_bind, exec_ret, hr] using h1.1
  · simpa only [assertion, events_bind, events_ret, List.append_nil, hr] using h1.2
  · have h2 := flip e m a {} s hp
    rw [pass_iff, pass_iff, hr]
    have : (C.setNegative {} (!(({} : C).negative))) = C.setNegative {} true := rfl
    rw [this] at h2
    rw [h2]
    cases (exec e (run m a {}) s).1.isNone <;> cases oppose <;> rfl

example : Quiet turns ∧ noPair (.and (.own 0) (.member false 1 (.own 2))) = true ∧
    exec turns (assertion false (.not (.and (.own 0) (.member false 1 (.own 2)))) (.num 5)) 0 = (false, 3) ∧
    exec turns (assertion false (.and (.own 0) (.member false 1 (.own 2))) (.num 5)) 0 = (true, 3) := ⟨fun _ _ _ => rfl, rfl, rfl, rfl⟩

/-- **C96, KO.** `KO` calls the same functions on the same values as `OK`, in the same order, with the same effects, and passes
exactly when `OK` fails. -/
theorem C96_ko {σ : Type} (e : Env σ) (m : X) (a : Val) (s : σ) :
    events e (assertion true m a) s = events e (assertion false m a) s ∧
    (exec e (assertion true m a) s).2 = (exec e (assertion false m a) s).2 ∧
    (exec e (assertion true m a) s).1 = !(exec e (assertion false m a) s).1 := by
  refine ⟨?_, ?_, ?_⟩
  · simp only [assertion, events_bind, events_ret]
  · simp only [assertion, exec_bind, exec_ret]
  · rw [pass_iff, pass_iff]
    cases (exec e (run m a {}) s).1.isNone <;> rfl

example : exec turns (assertion true (.or (.own 0) (.own 1)) (.num 5)) 0 = (false, 2) ∧
    exec turns (assertion false (.or (.own 0) (.own 1)) (.num 5)) 0 = (true, 2) := ⟨rfl, rfl⟩

/-! ### Functions without effects -/

theorem every_settled {σ : Type} (e : Env σ) (f : Val → Prog (Option Fail)) (g : Val → Option Fail)
    (h : ∀ x s, exec e (f x) s = (g x, s)) (r : Rng) (c : C) : ∀ (xs : List Val) (i : Int) (s : σ),
    exec e (everyLoop (rangeIn r c) f i xs) s = ((selectFrom r c i xs).filterMap g, s)
  | [], i, s => rfl
  | x :: xs, i, s => by
    simp only [everyLoop, selectFrom]
    split
    · simp only [exec_bind, h, exec_ret, every_settled e f g h r c xs]
      cases hg : g x <;> simp [hg]
    · exact every_settled e f g h r c xs _ s

theorem has_settled {σ : Type} (e : Env σ) (f : Val → Prog (Option Fail)) (g : Val → Option Fail)
    (h : ∀ x s, exec e (f x) s = (g x, s)) (r : Rng) (c : C) (times : Int) : ∀ (xs : List Val) (i found : Int) (s : σ),
    exec e (hasLoop (rangeIn r c) f times i xs found) s =
      (H2.Matcher.hasLoop (fun x => (g x).isNone) times (selectFrom r c i xs) found, s)
  | [], i, found, s => rfl
  | x :: xs, i, found, s => by
    simp only [hasLoop, selectFrom]
    by_cases hi : rangeIn r c i = true
    · rw [if_pos hi, if_pos hi]
      simp only [exec_bind, h, H2.Matcher.hasLoop]
      by_cases hg : (g x).isNone = true
      · rw [if_pos hg, if_pos hg]
        by_cases ht : found + 1 ≥ times
        · rw [if_pos ht, if_pos ht]; rfl
        · rw [if_neg ht, if_neg ht]; exact has_settled e f g h r c times xs _ _ s
      · rw [if_neg hg, if_neg hg]; exact has_settled e f g h r c times xs _ _ s
    · rw [if_neg hi, if_neg hi]; exact has_settled e f g h r c times xs _ _ s

mutual
theorem settled_run {σ : Type} (e : Env σ) (p : Nat → Val → Bool) (q : Nat → Val → Val)
    (h1 : ∀ id v s, e.ask id v s = (p id v, s)) (h2 : ∀ f v s, e.call f v s = (q f v, s)) (h3 : Quiet e) :
    ∀ (m : X) (a : Val) (c : C) (s : σ), exec e (run m a c) s = (matchesM (settled p q m) a c, s)
  | .own id, a, c, s => by
    simp only [run, exec, h1, settled, matchesM, conclude]
    split
    · rfl
    · simp only [exec, h3 id a s]
  | .plain t, a, c, s => by simp only [run, exec_ret, settled, matchesM]
  | .member clear f m, a, c, s => by
    simp only [run, exec, h2, settled, matchesM]
    exact settled_run e p q h1 h2 h3 m _ _ s
  | .poly g m, a, c, s => by
    simp only [run, settled, matchesM]; exact settled_run e p q h1 h2 h3 m _ _ s
  | .not m, a, c, s => by
    simp only [run, settled, matchesM]; exact settled_run e p q h1 h2 h3 m _ _ s
  | .cond b t f, a, c, s => by
    cases b
    · simp only [run, settled, matchesM]; exact settled_run e p q h1 h2 h3 f _ _ s
    · simp only [run, settled, matchesM]; exact settled_run e p q h1 h2 h3 t _ _ s
  | .and l r, a, c, s => by
    simp only [run, exec_bind, exec_ret, settled, matchesM, settled_run e p q h1 h2 h3 l, settled_run e p q h1 h2 h3 r]
  | .or l r, a, c, s => by
    simp only [run, exec_bind, exec_ret, settled, matchesM, settled_run e p q h1 h2 h3 l, settled_run e p q h1 h2 h3 r]
  | .allOf ms, a, c, s => by
    simp only [run, exec_bind, exec_ret, settled, matchesM, settled_all e p q h1 h2 h3 ms]
  | .anyOf ms, a, c, s => by
    simp only [run, exec_bind, exec_ret, settled, matchesM, settled_any e p q h1 h2 h3 ms]
  | .noneOf ms, a, c, s => by
    simp only [run, exec_bind, exec_ret, settled, matchesM, settled_none e p q h1 h2 h3 ms]
  | .pair k v, a, c, s => by
    cases a with
    | pair ka va =>
      simp only [run, exec_bind, exec_ret, settled, matchesM, settled_run e p q h1 h2 h3 k, settled_run e p q h1 h2 h3 v]
    | num x => simp only [run, exec_ret, settled, matchesM]
    | str x => simp only [run, exec_ret, settled, matchesM]
    | seq x => simp only [run, exec_ret, settled, matchesM]
  | .every r m, a, c, s => by
    have hm := fun x s => settled_run e p q h1 h2 h3 m x (c.clearSize.setNegative false) s
    simp only [run, exec_bind, exec_ret, settled, matchesM,
      every_settled e _ (fun x => matchesM (settled p q m) x (c.clearSize.setNegative false)) hm]
  | .has r k m, a, c, s => by
    have hm := fun x s => settled_run e p q h1 h2 h3 m (entry k x) (c.clearSize.setNegative false) s
    simp only [run, exec_bind, exec_ret, settled, matchesM,
      has_settled e _ (fun x => matchesM (settled p q m) (entry k x) (c.clearSize.setNegative false)) hm]
    rfl
  | .listOf r ms, a, c, s => by
    simp only [run, exec_bind, exec_ret, settled, matchesM, settled_list e p q h1 h2 h3 ms]
  | .stat st r m, a, c, s => by
    simp only [run, settled, matchesM]
    cases statValue st r c a.elems with
    | none => rfl
    | some v => simp only [statStep, exec_bind, exec_ret, settled_run e p q h1 h2 h3 m]
theorem settled_all {σ : Type} (e : Env σ) (p : Nat → Val → Bool) (q : Nat → Val → Val)
    (h1 : ∀ id v s, e.ask id v s = (p id v, s)) (h2 : ∀ f v s, e.call f v s = (q f v, s)) (h3 : Quiet e) :
    ∀ (ms : Xs) (a : Val) (c : C) (i : Nat) (s : σ), exec e (allLoop ms a c i) s = (allFails (settleds p q ms) a c i, s)
  | .nil, a, c, i, s => rfl
  | .cons m ms, a, c, i, s => by
    simp only [allLoop, exec_bind, exec_ret, settleds, allFails, settled_run e p q h1 h2 h3 m, settled_all e p q h1 h2 h3 ms]
theorem settled_any {σ : Type} (e : Env σ) (p : Nat → Val → Bool) (q : Nat → Val → Val)
    (h1 : ∀ id v s, e.ask id v s = (p id v, s)) (h2 : ∀ f v s, e.call f v s = (q f v, s)) (h3 : Quiet e) :
    ∀ (ms : Xs) (a : Val) (c : C) (i : Nat) (s : σ), exec e (anyLoop ms a c i) s = (anyFails (settleds p q ms) a c i, s)
  | .nil, a, c, i, s => rfl
  | .cons m ms, a, c, i, s => by
    simp only [anyLoop, exec_bind, settleds, anyFails, settled_run e p q h1 h2 h3 m]
    cases matchesM (settled p q m) a c with
    | none => rfl
    | some f => simp only [exec_bind, exec_ret, settled_any e p q h1 h2 h3 ms]
theorem settled_none {σ : Type} (e : Env σ) (p : Nat → Val → Bool) (q : Nat → Val → Val)
    (h1 : ∀ id v s, e.ask id v s = (p id v, s)) (h2 : ∀ f v s, e.call f v s = (q f v, s)) (h3 : Quiet e) :
    ∀ (ms : Xs) (a : Val) (c : C) (i : Nat) (s : σ), exec e (noneLoop ms a c i) s = (noneFails (settleds p q ms) a c i, s)
  | .nil, a, c, i, s => rfl
  | .cons m ms, a, c, i, s => by
    simp only [noneLoop, exec_bind, exec_ret, settleds, noneFails, settled_run e p q h1 h2 h3 m, settled_none e p q h1 h2 h3 ms]
    cases matchesM (settled p q m) a c <;> rfl
theorem settled_list {σ : Type} (e : Env σ) (p : Nat → Val → Bool) (q : Nat → Val → Val)
    (h1 : ∀ id v s, e.ask id v s = (p id v, s)) (h2 : ∀ f v s, e.call f v s = (q f v, s)) (h3 : Quiet e) :
    ∀ (ms : Xs) (xs : List Val) (start : Int) (c : C) (i : Nat) (s : σ),
      exec e (listLoop ms xs start c i) s = (listFails (settleds p q ms) xs start c i, s)
  | .nil, _, _, _, _, _ => rfl
  | .cons m ms, xs, start, c, i, s => by
    simp only [listLoop, exec_bind, exec_ret, settleds, listFails]
    cases pick (i + start) 0 xs with
    | none => simp only [listStep, exec_ret, settled_list e p q h1 h2 h3 ms]
    | some x => simp only [listStep, exec_bind, exec_ret, settled_run e p q h1 h2 h3 m, settled_list e p q h1 h2 h3 ms]
end

/-- **C96, functions without effects.** When the own matchers answer by a test of the value and the methods give a fixed value,
`OK` and `KO` pass exactly when they do with these tests and values in place of the functions, so that all that is proved of
matchers (C01 to C05) holds with own matchers and methods in them; and nothing is changed. -/
theorem C96_settled {σ : Type} (e : Env σ) (p : Nat → Val → Bool) (q : Nat → Val → Val)
    (h1 : ∀ id v s, e.ask id v s = (p id v, s)) (h2 : ∀ f v s, e.call f v s = (q f v, s)) (h3 : Quiet e)
    (m : X) (a : Val) (s : σ) :
    exec e (assertion false m a) s = (okPasses (settled p q m) a, s) ∧
    exec e (assertion true m a) s = (koPasses (settled p q m) a, s) := by
  simp only [assertion, exec_bind, exec_ret, settled_run e p q h1 h2 h3]
  exact ⟨rfl, rfl⟩

example : ∃ (e : Env Unit) (p : Nat → Val → Bool) (q : Nat → Val → Val), (∀ id v s, e.ask id v s = (p id v, s)) ∧
    (∀ f v s, e.call f v s = (q f v, s)) ∧ Quiet e ∧ (p 0 (q 1 (.num 3)) = true ∧ p 0 (.num 3) = false) :=
  ⟨⟨fun id v _ => ((match v with | .num x => x == 4 | _ => false), ()), fun _ _ s => s, fun _ _ _ => (.num 4, ())⟩,
    fun _ v => (match v with | .num x => x == 4 | _ => false), fun _ _ => .num 4, fun _ _ _ => rfl, fun _ _ _ => rfl, fun _ _ _ => rfl,
    by decide, by decide⟩

/-! ### Messages -/

theorem wraps_run {σ : Type} (e : Env σ) (id : Nat) (a : Val) (s : σ) {n : Bool} {m : X} (h : Wraps id n m) : ∀ c : C,
    (exec e (run m a c) s).1.isNone = ((e.ask id a s).1 != (n != c.negative)) ∧
    events e (run m a c) s = if (e.ask id a s).1 = (n != c.negative) then [.asked id a (e.ask id a s).1, .explained id a]
      else [.asked id a (e.ask id a s).1] := by
  induction h with
  | own =>
    intro c
    simp only [run, exec, events, C.fit]
    cases (e.ask id a s).1 <;> rcases Bool.eq_false_or_eq_true c.negative with hc | hc <;> simp [hc, exec, events]
  | @not n m _ ih =>
    intro c
    have hn : (n != (c.setNegative (!c.negative)).negative) = ((!n) != c.negative) := by
      show (n != !c.negative) = _
      cases n <;> cases c.negative <;> rfl
    have := ih (c.setNegative (!c.negative))
    rw [hn] at this
    exact this
  | @poly n m g _ ih =>
    intro c
    have hn : (n != (g.configure c).negative) = ((n != g.negative) != c.negative) := by
      show (n != (g.negative != c.negative)) = _
      cases n <;> cases g.negative <;> cases c.negative <;> rfl
    have := ih (g.configure c)
    rw [hn] at this
    exact this
  | condT f _ ih => exact ih
  | condF t _ ih => exact ih

/-- **C96, the message with OK.** The message of an own matcher, behind `Not`, `!` and other modifiers or not, is made exactly
when `OK` fails, once, after the one call of the matcher. -/
theorem C96_message_partial {σ : Type} (e : Env σ) (id : Nat) (n : Bool) (m : X) (h : Wraps id n m) (a : Val) (s : σ) :
    (exec e (assertion false m a) s).1 = ((e.ask id a s).1 != n) ∧
    events e (assertion false m a) s = .asked id a (e.ask id a s).1 ::
      (if (exec e (assertion false m a) s).1 then [] else [.explained id a]) := by
  have := wraps_run e id a s h {}
  have hn : (n != ({} : C).negative) = n := by cases n <;> rfl
  rw [hn] at this
  have hp : (exec e (assertion false m a) s).1 = ((e.ask id a s).1 != n) := by
    rw [pass_iff, this.1, Bool.bne_false]
  refine ⟨hp, ?_⟩
  rw [hp]
  simp only [assertion, events_bind, events_ret, List.append_nil, this.2]
  cases (e.ask id a s).1 <;> cases n <;> rfl

example : Wraps 3 true (.poly { negative := true } (.cond false (.own 9) (.not (.not (.own 3))))) ∧
    events turns (assertion false (.poly { negative := true } (.cond false (.own 9) (.not (.not (.own 3))))) (.num 5)) 0 =
      [.asked 3 (.num 5) true, .explained 3 (.num 5)] := 
  ⟨show Wraps 3 ((!!false) != true) _ from .poly { negative := true } (.condF _ (.not (.not .own))), rfl⟩

/-- **C96, the message with KO: refuted.** With `KO` it is the other way round: the message of an own matcher is made when the
assertion passes, and a failing `KO` has none. -/
theorem C96_message_false :
    ¬ ∀ (σ : Type) (e : Env σ) (oppose : Bool) (id : Nat) (a : Val) (s : σ),
      (exec e (assertion oppose (.own id) a) s).1 = false → Event.explained id a ∈ events e (assertion oppose (.own id) a) s := by
  intro h
  have := h Unit ⟨fun _ _ s => (true, s), fun _ _ s => s, fun _ v s => (v, s)⟩ true 0 (.num 1) () rfl
  simp [assertion, run, events, events_bind, C.fit] at this

/-- What an observer sees is in order: a message comes right after the answer of its matcher on that value. -/
def InOrder (l : List Event) : Prop :=
  ∀ before after id v, l = before ++ .explained id v :: after → ∃ first b, before = first ++ [.asked id v b]

theorem inOrder_nil : InOrder [] := by
  intro before after id v h
  simp at h

theorem inOrder_append {l l' : List Event} (h : InOrder l) (h' : InOrder l') : InOrder (l ++ l') := by
  intro before after id v he
  rcases List.append_eq_append_iff.mp he with ⟨t, h1, h2⟩ | ⟨t, h1, h2⟩
  · -- before = l ++ t, l' = t ++ explained :: after
    obtain ⟨first, b, hb⟩ := h' t after id v h2
    exact ⟨l ++ first, b, by rw [h1, hb, List.append_assoc]⟩
  · cases t with
    | nil =>
      simp only [List.append_nil] at h1
      obtain ⟨first, b, hb⟩ := h' [] after id v (by simpa using h2.symm)
      simp at hb
    | cons x t =>
      simp only [List.cons_append, List.cons.injEq] at h2
      exact h before t id v (by rw [h1, ← h2.1])

theorem inOrder_every {σ : Type} (e : Env σ) (inside : Int → Bool) (f : Val → Prog (Option Fail))
    (h : ∀ x s, InOrder (events e (f x) s)) : ∀ (xs : List Val) (i : Int) (s : σ), InOrder (events e (everyLoop inside f i xs) s)
  | [], _, _ => inOrder_nil
  | x :: xs, i, s => by
    simp only [everyLoop]
    split
    · simp only [events_bind, events_ret, List.append_nil]
      exact inOrder_append (h _ _) (inOrder_every e inside f h xs _ _)
    · exact inOrder_every e inside f h xs _ _

theorem inOrder_has {σ : Type} (e : Env σ) (inside : Int → Bool) (f : Val → Prog (Option Fail)) (times : Int)
    (h : ∀ x s, InOrder (events e (f x) s)) : ∀ (xs : List Val) (i found : Int) (s : σ),
    InOrder (events e (hasLoop inside f times i xs found) s)
  | [], _, _, _ => inOrder_nil
  | x :: xs, i, found, s => by
    simp only [hasLoop]
    split
    · rw [events_bind]
      refine inOrder_append (h _ _) ?_
      split
      · split
        · exact inOrder_nil
        · exact inOrder_has e inside f times h xs _ _ _
      · exact inOrder_has e inside f times h xs _ _ _
    · exact inOrder_has e inside f times h xs _ _ _

mutual
theorem inOrder_run {σ : Type} (e : Env σ) : ∀ (m : X) (a : Val) (c : C) (s : σ), InOrder (events e (run m a c) s)
  | .own id, a, c, s => by
    simp only [run, events]
    split
    · intro before after i v h
      cases before with
      | nil => simp [events] at h
      | cons x t => simp [events] at h
    · intro before after i v h
      cases before with
      | nil => simp [events] at h
      | cons x t =>
        cases t with
        | nil =>
          simp only [events, List.cons_append, List.nil_append, List.cons.injEq, Event.explained.injEq] at h
          obtain ⟨rfl, ⟨rfl, rfl⟩, _⟩ := h
          exact ⟨[], _, rfl⟩
        | cons y u => simp [events] at h
  | .plain t, a, c, s => inOrder_nil
  | .member clear f m, a, c, s => by
    simp only [run, events]
    have h1 : InOrder [Event.called f a (e.call f a s).1] := by
      intro before after i v h
      cases before with
      | nil => simp at h
      | cons x t => simp at h
    exact inOrder_append h1 (inOrder_run e m _ _ _)
  | .poly g m, a, c, s => inOrder_run e m a _ s
  | .not m, a, c, s => inOrder_run e m a _ s
  | .cond b t f, a, c, s => by
    cases b
    · exact inOrder_run e f a c s
    · exact inOrder_run e t a c s
  | .and l r, a, c, s => by
    simp only [run, events_bind, events_ret, List.append_nil]
    exact inOrder_append (inOrder_run e l _ _ _) (inOrder_run e r _ _ _)
  | .or l r, a, c, s => by
    simp only [run, events_bind, events_ret, List.append_nil]
    exact inOrder_append (inOrder_run e l _ _ _) (inOrder_run e r _ _ _)
  | .allOf ms, a, c, s => by
    simp only [run, events_bind, events_ret, List.append_nil]; exact inOrder_all e ms _ _ _ _
  | .anyOf ms, a, c, s => by
    simp only [run, events_bind, events_ret, List.append_nil]; exact inOrder_any e ms _ _ _ _
  | .noneOf ms, a, c, s => by
    simp only [run, events_bind, events_ret, List.append_nil]; exact inOrder_none e ms _ _ _ _
  | .pair k v, a, c, s => by
    cases a with
    | pair ka va =>
      simp only [run, events_bind, events_ret, List.append_nil]
      exact inOrder_append (inOrder_run e k _ _ _) (inOrder_run e v _ _ _)
    | num q => exact inOrder_nil
    | str t => exact inOrder_nil
    | seq xs => exact inOrder_nil
  | .every r m, a, c, s => by
    simp only [run, events_bind, events_ret, List.append_nil]
    exact inOrder_every e _ _ (fun x s => inOrder_run e m x _ s) _ _ _
  | .has r k m, a, c, s => by
    simp only [run, events_bind, events_ret, List.append_nil]
    exact inOrder_has e _ _ _ (fun x s => inOrder_run e m _ _ s) _ _ _ _
  | .listOf r ms, a, c, s => by
    simp only [run, events_bind, events_ret, List.append_nil]; exact inOrder_list e ms _ _ _ _ _
  | .stat st r m, a, c, s => by
    simp only [run]
    cases statValue st r c a.elems with
    | none => exact inOrder_nil
    | some q =>
      simp only [statStep, events_bind, events_ret, List.append_nil]; exact inOrder_run e m _ _ _
theorem inOrder_all {σ : Type} (e : Env σ) : ∀ (ms : Xs) (a : Val) (c : C) (i : Nat) (s : σ),
    InOrder (events e (allLoop ms a c i) s)
  | .nil, _, _, _, _ => inOrder_nil
  | .cons m ms, a, c, i, s => by
    simp only [allLoop, events_bind, events_ret, List.append_nil]
    exact inOrder_append (inOrder_run e m _ _ _) (inOrder_all e ms _ _ _ _)
theorem inOrder_any {σ : Type} (e : Env σ) : ∀ (ms : Xs) (a : Val) (c : C) (i : Nat) (s : σ),
    InOrder (events e (anyLoop ms a c i) s)
  | .nil, _, _, _, _ => inOrder_nil
  | .cons m ms, a, c, i, s => by
    simp only [anyLoop, events_bind]
    refine inOrder_append (inOrder_run e m _ _ _) ?_
    split
    · exact inOrder_nil
    · simp only [events_bind, events_ret, List.append_nil]
      exact inOrder_any e ms _ _ _ _
theorem inOrder_none {σ : Type} (e : Env σ) : ∀ (ms : Xs) (a : Val) (c : C) (i : Nat) (s : σ),
    InOrder (events e (noneLoop ms a c i) s)
  | .nil, _, _, _, _ => inOrder_nil
  | .cons m ms, a, c, i, s => by
    simp only [noneLoop, events_bind, events_ret, List.append_nil]
    exact inOrder_append (inOrder_run e m _ _ _) (inOrder_none e ms _ _ _ _)
theorem inOrder_list {σ : Type} (e : Env σ) : ∀ (ms : Xs) (xs : List Val) (start : Int) (c : C) (i : Nat) (s : σ),
    InOrder (events e (listLoop ms xs start c i) s)
  | .nil, _, _, _, _, _ => inOrder_nil
  | .cons m ms, xs, start, c, i, s => by
    simp only [listLoop, events_bind, events_ret, List.append_nil]
    refine inOrder_append ?_ (inOrder_list e ms _ _ _ _ _)
    cases pick (i + start) 0 xs with
    | none => exact inOrder_nil
    | some x =>
      simp only [listStep, events_bind, events_ret, List.append_nil]; exact inOrder_run e m _ _ _
end

/-- **C96, messages in general.** In every expression a message is made only right after its matcher was asked about that value,
and so at most once for each time it is asked. -/
theorem C96_message_after {σ : Type} (e : Env σ) (oppose : Bool) (m : X) (a : Val) (s : σ) (before after : List Event) (id : Nat) (v : Val)
    (h : events e (assertion oppose m a) s = before ++ .explained id v :: after) :
    ∃ first b, before = first ++ [.asked id v b] := by
  have : InOrder (events e (assertion oppose m a) s) := by
    simp only [assertion, events_bind, events_ret, List.append_nil]
    exact inOrder_run e m a _ s
  exact this before after id v h

example : events turns (assertion false (.allOf (.cons (.own 0) (.cons (.own 1) .nil))) (.num 5)) 0 =
    [.asked 0 (.num 5) true, .asked 1 (.num 5) false] ++ .explained 1 (.num 5) :: [] := rfl

end H2.Calls
