import Verif.Json.ExprSpec
/-
Lemmas about the parser of arithmetic: fuel, what it accepts, what it returns.
-/
namespace H2.Json.Expr
open H2.Json

def tok : Sym → Tok
  | .num q => .number q
  | .name k f => .function ⟨k, f⟩
  | .plus => .add ⟨2, .add⟩
  | .minus => .sub ⟨2, .sub⟩
  | .times => .mmd ⟨2, .mul⟩
  | .slash => .mmd ⟨2, .div⟩
  | .percent => .mmd ⟨2, .fmod⟩
  | .caret => .pow ⟨2, .pow⟩
  | .bang => .fac ⟨1, .factorial⟩
  | .lparen => .open_
  | .rparen => .close
  | .comma => .comma

mutual
def tree : Ex → Tree
  | .num q => .const q
  | .add a b => .call ⟨2, .add⟩ [tree a, tree b]
  | .sub a b => .call ⟨2, .sub⟩ [tree a, tree b]
  | .mul a b => .call ⟨2, .mul⟩ [tree a, tree b]
  | .div a b => .call ⟨2, .div⟩ [tree a, tree b]
  | .mod a b => .call ⟨2, .fmod⟩ [tree a, tree b]
  | .pow a b => .call ⟨2, .pow⟩ [tree a, tree b]
  | .neg a => .call ⟨1, .negate⟩ [tree a]
  | .fac a => .call ⟨1, .factorial⟩ [tree a]
  | .app f as => .call ⟨as.length, f⟩ (trees as)
  | .seq a b => .call ⟨2, .comma⟩ [tree a, tree b]
def trees : List Ex → List Tree
  | [] => []
  | a :: as => tree a :: trees as
end

theorem trees_map (l) : trees l = l.map tree := by
  induction l with
  | nil => rfl
  | cons a l ih => simp [trees, ih]

theorem fn_comma : fnOf "comma".toList = ⟨2, .comma⟩ := by decide
theorem fn_negate : fnOf "negate".toList = ⟨1, .negate⟩ := by decide
theorem fn_factorial : fnOf "factorial".toList = ⟨1, .factorial⟩ := by decide

/-! ### Fuel -/

theorem bind_mono {a a' : Res} {f f' : Tree → List Tok → Res} (ha : a ≠ .fuel → a' = a)
    (hf : ∀ t r, f t r ≠ .fuel → f' t r = f t r) (h : a.bind f ≠ .fuel) : a'.bind f' = a.bind f := by
  cases a with
  | ok t r => rw [ha (by simp)]; exact hf t r h
  | error => rw [ha (by simp)]; rfl
  | fuel => exact absurd rfl h

theorem parse_mono (n) : ∀ g ts, parse n g ts ≠ .fuel → parse (n + 1) g ts = parse n g ts := by
  induction n with
  | zero => intro g ts h; exact absurd rfl h
  | succ n ih =>
    intro g ts h
    cases g with
    | list => exact bind_mono (ih _ _) (fun t r => ih _ _) h
    | expr => exact bind_mono (ih _ _) (fun t r => ih _ _) h
    | term => exact bind_mono (ih _ _) (fun t r => ih _ _) h
    | factor => exact bind_mono (ih _ _) (fun t r => ih _ _) h
    | factorial => exact bind_mono (ih _ _) (fun t r => ih _ _) h
    | args f ps => exact bind_mono (ih _ _) (fun t r => ih _ _) h
    | power => exact ih _ _ h
    | listLoop st =>
      rcases ts with _ | ⟨c, ts⟩
      · rfl
      · cases c <;> first | rfl | exact bind_mono (ih _ _) (fun t r => ih _ _) h
    | exprLoop st =>
      rcases ts with _ | ⟨c, ts⟩
      · rfl
      · cases c <;> first | rfl | exact bind_mono (ih _ _) (fun t r => ih _ _) h
    | termLoop st =>
      rcases ts with _ | ⟨c, ts⟩
      · rfl
      · cases c <;> first | rfl | exact bind_mono (ih _ _) (fun t r => ih _ _) h
    | factorLoop st =>
      rcases ts with _ | ⟨c, ts⟩
      · rfl
      · cases c <;> first | rfl | exact bind_mono (ih _ _) (fun t r => ih _ _) h
    | factorialLoop st =>
      rcases ts with _ | ⟨c, ts⟩
      · rfl
      · cases c <;> first | rfl | exact ih _ _ h
    | sign neg =>
      rcases ts with _ | ⟨c, ts⟩
      · exact bind_mono (ih _ _) (fun t r _ => rfl) h
      · cases c <;> first | exact ih _ _ h | exact bind_mono (ih _ _) (fun t r _ => rfl) h
    | argsNext f ps =>
      rcases ts with _ | ⟨c, ts⟩
      · rfl
      · cases c <;> first | rfl | skip
        simp only [parse] at h ⊢
        split
        · next hl => rw [if_pos hl] at h; exact ih _ _ h
        · rfl
    | base =>
      rcases ts with _ | ⟨c, ts⟩
      · rfl
      · cases c <;> first | rfl | exact bind_mono (ih _ _) (fun t r _ => rfl) h | skip
        simp only [parse] at h ⊢
        by_cases h0 : (‹FnSpec›).parameters = 0
        · simp only [h0, if_true]
        · simp only [h0, if_false] at h ⊢
          by_cases h1 : (‹FnSpec›).parameters = 1
          · simp only [h1, if_true] at h ⊢
            exact bind_mono (ih _ _) (fun t r _ => rfl) h
          · simp only [h1, if_false] at h ⊢
            rcases ts with _ | ⟨c, ts⟩
            · rfl
            · cases c <;> first | rfl | exact ih _ _ h

theorem parse_mono' {n n' g ts} (hn : n ≤ n') (h : parse n g ts ≠ .fuel) : parse n' g ts = parse n g ts := by
  obtain ⟨k, rfl⟩ := Nat.exists_eq_add_of_le hn
  clear hn
  induction k with
  | zero => rfl
  | succ k ih => rw [← ih]; exact parse_mono (n + k) g ts (by rw [ih]; exact h)

/-! ### What is left is no longer -/

theorem bind_ok {a : Res} {f t r} (h : a.bind f = .ok t r) : ∃ t' r', a = .ok t' r' ∧ f t' r' = .ok t r := by
  cases a with
  | ok t' r' => exact ⟨t', r', rfl, h⟩
  | error => cases h
  | fuel => cases h

theorem parse_length (n) : ∀ g ts t r, parse n g ts = .ok t r → r.length ≤ ts.length := by
  induction n with
  | zero => intro g ts t r h; cases h
  | succ n ih =>
    intro g ts t r h
    have seq : ∀ {g ts} {g' : Tree → Goal} , ((parse n g ts).bind fun st r => parse n (g' st) r) = .ok t r →
        r.length ≤ ts.length := by
      intro g ts g' h
      obtain ⟨t', r', h1, h2⟩ := bind_ok h
      exact Nat.le_trans (ih _ _ _ _ h2) (ih _ _ _ _ h1)
    have self : ∀ {st ts}, Res.ok st ts = .ok t r → r.length ≤ ts.length := by
      intro st ts h
      injection h with _ h; subst h; exact Nat.le_refl _
    cases g with
    | list => exact seq h
    | expr => exact seq h
    | term => exact seq h
    | factor => exact seq h
    | factorial => exact seq h
    | args f ps => exact seq (g' := fun st => .argsNext f (ps ++ [st])) h
    | power => exact ih _ _ _ _ h
    | listLoop st =>
      rcases ts with _ | ⟨c, ts⟩
      · exact self h
      · cases c <;> first | exact self h | exact Nat.le_succ_of_le (seq (g' := fun st' => .listLoop (.call (fnOf "comma".toList) [st, st'])) h)
    | exprLoop st =>
      rcases ts with _ | ⟨c, ts⟩
      · exact self h
      · cases c <;> first | exact self h | (rename_i f; exact Nat.le_succ_of_le (seq (g := .term) (ts := ts) (g' := fun st' => .exprLoop (.call f [st, st'])) h))
    | termLoop st =>
      rcases ts with _ | ⟨c, ts⟩
      · exact self h
      · cases c <;> first | exact self h | (rename_i f; exact Nat.le_succ_of_le (seq (g := .factor) (ts := ts) (g' := fun st' => .termLoop (.call f [st, st'])) h))
    | factorLoop st =>
      rcases ts with _ | ⟨c, ts⟩
      · exact self h
      · cases c <;> first | exact self h | (rename_i f; exact Nat.le_succ_of_le (seq (g := .power) (ts := ts) (g' := fun st' => .factorLoop (.call f [st, st'])) h))
    | factorialLoop st =>
      rcases ts with _ | ⟨c, ts⟩
      · exact self h
      · cases c <;> first | exact self h | exact Nat.le_succ_of_le (ih _ _ _ _ h)
    | sign neg =>
      have last : ∀ {ts}, ((parse n .factorial ts).bind fun st r =>
          .ok (if neg then .call (fnOf "negate".toList) [st] else st) r) = .ok t r → r.length ≤ ts.length := by
        intro ts h
        obtain ⟨t', r', h1, h2⟩ := bind_ok h
        injection h2 with _ h2; subst h2
        exact ih _ _ _ _ h1
      rcases ts with _ | ⟨c, ts⟩
      · exact last h
      · cases c <;> first | exact last h | exact Nat.le_succ_of_le (ih _ _ _ _ h)
    | argsNext f ps =>
      rcases ts with _ | ⟨c, ts⟩
      · cases h
      · cases c <;> first | (cases h; done) | skip
        all_goals
          simp only [parse] at h
          split at h
          · first | exact Nat.le_succ_of_le (ih _ _ _ _ h) | exact Nat.le_succ_of_le (self h)
          · cases h
    | base =>
      rcases ts with _ | ⟨c, ts⟩
      · cases h
      · cases c with
        | number q => exact Nat.le_succ_of_le (self h)
        | open_ =>
          obtain ⟨t', r', h1, h2⟩ := bind_ok h
          have := ih _ _ _ _ h1
          rcases r' with _ | ⟨c, r'⟩
          · cases h2
          · cases c <;> first | (cases h2; done) | skip
            have := self h2
            simp only [List.length_cons] at *
            omega
        | function f =>
          simp only [parse] at h
          split at h
          · rcases ts with _ | ⟨c, ts⟩
            · exact Nat.le_succ_of_le (self h)
            · cases c <;> first | exact Nat.le_succ_of_le (self h) | skip
              rcases ts with _ | ⟨c, ts⟩
              · cases h
              · cases c <;> first | (cases h; done) | skip
                have := self h
                simp only [List.length_cons] at *
                omega
          · split at h
            · obtain ⟨t', r', h1, h2⟩ := bind_ok h
              have := self h2
              have := ih _ _ _ _ h1
              simp only [List.length_cons] at *
              omega
            · rcases ts with _ | ⟨c, ts⟩
              · cases h
              · cases c <;> first | (cases h; done) | skip
                have := ih _ _ _ _ h
                simp only [List.length_cons] at *
                omega
        | _ => cases h

/-! ### The fuel suffices -/

def rank : Goal → Nat
  | .list => 8
  | .expr => 7
  | .args _ _ => 8
  | .term => 6
  | .factor => 5
  | .power => 4
  | .sign _ => 3
  | .factorial => 2
  | .base => 1
  | _ => 0

theorem bind_ne_fuel {a : Res} {f : Tree → List Tok → Res} (ha : a ≠ .fuel)
    (hf : ∀ t r, a = .ok t r → f t r ≠ .fuel) : a.bind f ≠ .fuel := by
  cases a with
  | ok t r => exact hf t r rfl
  | error => simp [Res.bind]
  | fuel => exact absurd rfl ha

theorem parse_fuel (n) : ∀ g ts, 10 * ts.length + rank g < n → parse n g ts ≠ .fuel := by
  induction n with
  | zero => intro g ts h; omega
  | succ n ih =>
    intro g ts h
    have seq : ∀ {g ts} {g' : Tree → Goal}, 10 * ts.length + rank g < n → (∀ t, 10 * ts.length + rank (g' t) < n) →
        ((parse n g ts).bind fun st r => parse n (g' st) r) ≠ .fuel := by
      intro g ts g' h1 h2
      refine bind_ne_fuel (ih _ _ h1) fun t r e => ih _ _ ?_
      have := parse_length n _ _ _ _ e
      have := h2 t
      omega
    cases g with
    | list => exact seq (g' := .listLoop) (by simp [rank] at h ⊢; omega) (by intro t; simp [rank] at h ⊢; omega)
    | expr => exact seq (g' := .exprLoop) (by simp [rank] at h ⊢; omega) (by intro t; simp [rank] at h ⊢; omega)
    | term => exact seq (g' := .termLoop) (by simp [rank] at h ⊢; omega) (by intro t; simp [rank] at h ⊢; omega)
    | factor => exact seq (g' := .factorLoop) (by simp [rank] at h ⊢; omega) (by intro t; simp [rank] at h ⊢; omega)
    | factorial => exact seq (g' := .factorialLoop) (by simp [rank] at h ⊢; omega) (by intro t; simp [rank] at h ⊢; omega)
    | args f ps => exact seq (g' := fun st => .argsNext f (ps ++ [st])) (by simp [rank] at h ⊢; omega) (by intro t; simp [rank] at h ⊢; omega)
    | power => exact ih _ _ (by simp [rank] at h ⊢; omega)
    | listLoop st =>
      rcases ts with _ | ⟨c, ts⟩
      · simp [parse]
      · cases c <;> first | (simp [parse]; done) | exact seq (g' := fun st' => .listLoop (.call (fnOf "comma".toList) [st, st'])) (by simp [rank] at h ⊢; omega) (by intro t; simp [rank] at h ⊢; omega)
    | exprLoop st =>
      rcases ts with _ | ⟨c, ts⟩
      · simp [parse]
      · cases c <;> first | (simp [parse]; done) | exact seq (g := .term) (ts := ts) (g' := fun st' => .exprLoop (.call (by assumption) [st, st'])) (by simp [rank] at h ⊢; omega) (by intro t; simp [rank] at h ⊢; omega)
    | termLoop st =>
      rcases ts with _ | ⟨c, ts⟩
      · simp [parse]
      · cases c <;> first | (simp [parse]; done) | exact seq (g := .factor) (ts := ts) (g' := fun st' => .termLoop (.call (by assumption) [st, st'])) (by simp [rank] at h ⊢; omega) (by intro t; simp [rank] at h ⊢; omega)
    | factorLoop st =>
      rcases ts with _ | ⟨c, ts⟩
      · simp [parse]
      · cases c <;> first | (simp [parse]; done) | exact seq (g := .power) (ts := ts) (g' := fun st' => .factorLoop (.call (by assumption) [st, st'])) (by simp [rank] at h ⊢; omega) (by intro t; simp [rank] at h ⊢; omega)
    | factorialLoop st =>
      rcases ts with _ | ⟨c, ts⟩
      · simp [parse]
      · cases c <;> first | (simp [parse]; done) | exact ih _ _ (by simp [rank] at h ⊢; omega)
    | sign neg =>
      have last : ∀ {ts}, 10 * ts.length + 2 < n → ((parse n .factorial ts).bind fun st r =>
          .ok (if neg then .call (fnOf "negate".toList) [st] else st) r) ≠ .fuel := by
        intro ts h
        exact bind_ne_fuel (ih _ _ h) (by simp)
      rcases ts with _ | ⟨c, ts⟩
      · exact last (by simp [rank] at h ⊢; omega)
      · cases c <;> first | exact last (by simp [rank] at h ⊢; omega) | exact ih _ _ (by simp [rank] at h ⊢; omega)
    | argsNext f ps =>
      rcases ts with _ | ⟨c, ts⟩
      · simp [parse]
      · cases c <;> first | (simp [parse]; done) | skip
        all_goals
          simp only [parse]
          split
          · first | exact ih _ _ (by simp [rank] at h ⊢; omega) | simp
          · simp
    | base =>
      rcases ts with _ | ⟨c, ts⟩
      · simp [parse]
      · cases c with
        | open_ =>
          refine bind_ne_fuel (ih _ _ (by simp [rank] at h ⊢; omega)) ?_
          intro t r _
          rcases r with _ | ⟨c, r⟩
          · simp [closed]
          · cases c <;> simp [closed]
        | function f =>
          simp only [parse]
          split
          · rcases ts with _ | ⟨c, ts⟩
            · simp
            · cases c <;> first | (simp; done) | skip
              rcases ts with _ | ⟨c, ts⟩
              · simp
              · cases c <;> simp
          · split
            · exact bind_ne_fuel (ih _ _ (by simp [rank] at h ⊢; omega)) (by simp)
            · rcases ts with _ | ⟨c, ts⟩
              · simp
              · cases c <;> first | (simp; done) | skip
                exact ih _ _ (by simp [rank] at h ⊢; omega)
        | _ => simp [parse]

/-! ### Runs that succeed -/

def Yields (g : Goal) (ts : List Tok) (t : Tree) (r : List Tok) : Prop := ∃ n, parse n g ts = .ok t r

theorem yields_at {g ts t r} (h : Yields g ts t r) {n} (hn : 10 * ts.length + rank g < n) : parse n g ts = .ok t r := by
  obtain ⟨k, hk⟩ := h
  rcases Nat.le_total k n with hle | hle
  · rw [parse_mono' hle (by rw [hk]; simp), hk]
  · rw [← parse_mono' hle (parse_fuel n g ts hn), hk]

theorem yields_seq {g ts t r} {g' : Tree → Goal} {G : Goal} {T : List Tok} {t' r'} (h1 : Yields g ts t r) (h2 : Yields (g' t) r t' r')
    (hG : ∀ n, parse (n + 1) G T = (parse n g ts).bind fun st r => parse n (g' st) r) : Yields G T t' r' := by
  obtain ⟨n, hn⟩ := h1
  obtain ⟨k, hk⟩ := h2
  refine ⟨max n k + 1, ?_⟩
  rw [hG, parse_mono' (Nat.le_max_left n k) (by rw [hn]; simp), hn]
  show parse (max n k) (g' t) r = _
  rw [parse_mono' (Nat.le_max_right n k) (by rw [hk]; simp), hk]

theorem yields_one {g ts t r} {G : Goal} {T : List Tok}  (h1 : Yields g ts t r)
    (hG : ∀ n, parse (n + 1) G T = parse n g ts) : Yields G T t r := by
  obtain ⟨n, hn⟩ := h1
  exact ⟨n + 1, by rw [hG, hn]⟩

theorem yields_ret {g ts t r} {G : Goal} {T : List Tok} {f : Tree → List Tok → Res} {t' r'} (h1 : Yields g ts t r)
    (hf : f t r = .ok t' r')
    (hG : ∀ n, parse (n + 1) G T = (parse n g ts).bind f) : Yields G T t' r' := by
  obtain ⟨n, hn⟩ := h1
  exact ⟨n + 1, by rw [hG, hn]; exact hf⟩

/-! ### What is written is accepted -/

/-- The next token is none of the kind. -/
def NotNext (p : Tok → Bool) (r : List Tok) : Prop := ∀ c ∈ r.head?, p c = false

def isOpen : Tok → Bool | .open_ => true | _ => false
def isFac : Tok → Bool | .fac _ => true | _ => false
def isPow : Tok → Bool | .pow _ => true | _ => false
def isMmd : Tok → Bool | .mmd _ => true | _ => false
def isAdd : Tok → Bool | .add _ => true | .sub _ => true | _ => false
def isComma : Tok → Bool | .comma => true | _ => false

/-- What parsing at a level does with what is written at that level. -/
def Accepts (l : Level) (ss : List Sym) (es : List Ex) : Prop :=
  match l with
  | .atom => ∃ e, es = [e] ∧ ∀ r, NotNext isOpen r → Yields .base (ss.map tok ++ r) (tree e) r
  | .postfix => ∃ e, es = [e] ∧ ∀ r t' r', NotNext isOpen r → Yields (.factorialLoop (tree e)) r t' r' →
      Yields .factorial (ss.map tok ++ r) t' r'
  | .prefix => ∃ e, es = [e] ∧ ∀ r, NotNext isOpen r → NotNext isFac r → Yields .factorial (ss.map tok ++ r) (tree e) r
  | .signed => ∃ e, es = [e] ∧ ∀ r, NotNext isOpen r → NotNext isFac r → Yields .power (ss.map tok ++ r) (tree e) r
  | .powers => ∃ e, es = [e] ∧ ∀ r t' r', NotNext isOpen r → NotNext isFac r →
      Yields (.factorLoop (tree e)) r t' r' → Yields .factor (ss.map tok ++ r) t' r'
  | .products => ∃ e, es = [e] ∧ ∀ r t' r', NotNext isOpen r → NotNext isFac r → NotNext isPow r →
      Yields (.termLoop (tree e)) r t' r' → Yields .term (ss.map tok ++ r) t' r'
  | .sums => ∃ e, es = [e] ∧ ∀ r t' r', NotNext isOpen r → NotNext isFac r → NotNext isPow r → NotNext isMmd r →
      Yields (.exprLoop (tree e)) r t' r' → Yields .expr (ss.map tok ++ r) t' r'
  | .sequence => ∃ e, es = [e] ∧ ∀ r t' r', NotNext isOpen r → NotNext isFac r → NotNext isPow r → NotNext isMmd r →
      NotNext isAdd r → Yields (.listLoop (tree e)) r t' r' → Yields .list (ss.map tok ++ r) t' r'
  | .arguments => ∀ f ps r t' r', NotNext isOpen r → NotNext isFac r → NotNext isPow r → NotNext isMmd r →
      NotNext isAdd r → ps.length + es.length ≤ 4 → Yields (.argsNext f (ps ++ es.map tree)) r t' r' →
      Yields (.args f ps) (ss.map tok ++ r) t' r'

theorem factorialLoop_ends {r t} (h : NotNext isFac r) : Yields (.factorialLoop t) r t r := by
  refine ⟨1, ?_⟩
  rcases r with _ | ⟨c, r⟩
  · rfl
  · have := h c rfl
    cases c <;> first | rfl | simp [isFac] at this

theorem factorLoop_ends {r t} (h : NotNext isPow r) : Yields (.factorLoop t) r t r := by
  refine ⟨1, ?_⟩
  rcases r with _ | ⟨c, r⟩
  · rfl
  · have := h c rfl
    cases c <;> first | rfl | simp [isPow] at this

theorem termLoop_ends {r t} (h : NotNext isMmd r) : Yields (.termLoop t) r t r := by
  refine ⟨1, ?_⟩
  rcases r with _ | ⟨c, r⟩
  · rfl
  · have := h c rfl
    cases c <;> first | rfl | simp [isMmd] at this

theorem exprLoop_ends {r t} (h : NotNext isAdd r) : Yields (.exprLoop t) r t r := by
  refine ⟨1, ?_⟩
  rcases r with _ | ⟨c, r⟩
  · rfl
  · have := h c rfl
    cases c <;> first | rfl | simp [isAdd] at this

theorem listLoop_ends {r t} (h : NotNext isComma r) : Yields (.listLoop t) r t r := by
  refine ⟨1, ?_⟩
  rcases r with _ | ⟨c, r⟩
  · rfl
  · have := h c rfl
    cases c <;> first | rfl | simp [isComma] at this

theorem notNext_cons {p c r} (h : p c = false) : NotNext p (c :: r) := by
  intro d hd
  simp only [List.head?_cons, Option.mem_def, Option.some.injEq] at hd
  subst hd; exact h

theorem notNext_nil {p} : NotNext p [] := by intro d hd; simp at hd

theorem sign_last {ts t r} (neg : Bool) (h : Yields .factorial ts t r) :
    Yields (.sign neg) ts (if neg then .call ⟨1, .negate⟩ [t] else t) r := by
  rcases ts with _ | ⟨c, ts⟩
  · exact yields_ret h (by rw [← fn_negate]) fun n => rfl
  · cases c with
    | add f =>
      obtain ⟨n, hn⟩ := h
      rcases n with _ | _ | n <;> cases hn
    | sub f =>
      obtain ⟨n, hn⟩ := h
      rcases n with _ | _ | n <;> cases hn
    | _ => exact yields_ret h (by rw [← fn_negate]) fun n => rfl

theorem sign_all {ts t r} (signs : List Sym) (hs : ∀ s ∈ signs, s = .plus ∨ s = .minus) (h : Yields .factorial ts t r) :
    ∀ neg : Bool, Yields (.sign neg) (signs.map tok ++ ts)
      (if (neg ^^ odd signs) then .call ⟨1, .negate⟩ [t] else t) r := by
  induction signs with
  | nil => intro neg; simpa [odd] using sign_last neg h
  | cons s signs ih =>
    intro neg
    have ih := ih fun x hx => hs x (List.mem_cons_of_mem _ hx)
    rcases hs s (List.mem_cons_self ..) with rfl | rfl
    · have : odd (.plus :: signs) = odd signs := by simp [odd]
      rw [this]
      exact yields_one (ih neg) fun n => rfl
    · have : odd (.minus :: signs) = !odd signs := by
        simp only [odd, List.count_cons_self]
        rcases Nat.mod_two_eq_zero_or_one (List.count Sym.minus signs) with h | h
        · have : (List.count Sym.minus signs + 1) % 2 = 1 := by omega
          rw [h, this]; rfl
        · have : (List.count Sym.minus signs + 1) % 2 = 0 := by omega
          rw [h, this]; rfl
      rw [this]
      have h2 : (neg ^^ !odd signs) = (!neg ^^ odd signs) := by cases neg <;> cases odd signs <;> rfl
      rw [h2]
      exact yields_one (ih (!neg)) fun n => rfl

theorem one_eq {a b : Ex} (h : [a] = [b]) : a = b := by injection h

theorem accepts {l ss es} (h : Writes l ss es) : Accepts l ss es := by
  induction h with
  | num q => exact ⟨_, rfl, fun r _ => ⟨1, rfl⟩⟩
  | @paren ss e _ ih =>
    obtain ⟨e', he, ih⟩ := ih
    obtain rfl := one_eq he
    refine ⟨e, rfl, fun r _ => ?_⟩
    have := ih (.close :: r) (tree e) (.close :: r) (notNext_cons rfl) (notNext_cons rfl) (notNext_cons rfl)
      (notNext_cons rfl) (notNext_cons rfl) (listLoop_ends (notNext_cons rfl))
    refine yields_ret (f := closed) this rfl fun n => ?_
    simp [tok, parse]
  | constant f =>
    refine ⟨_, rfl, fun r hr => ⟨1, ?_⟩⟩
    rcases r with _ | ⟨c, r⟩
    · rfl
    · have := hr c rfl
      cases c <;> first | rfl | simp [isOpen] at this
  | constant' f => exact ⟨_, rfl, fun r _ => ⟨1, rfl⟩⟩
  | @apply ss es k f h2 h4 _ hl ih =>
    refine ⟨_, rfl, fun r _ => ?_⟩
    have := ih ⟨k, f⟩ [] (.close :: r) (.call ⟨k, f⟩ (es.map tree)) r (notNext_cons rfl) (notNext_cons rfl) (notNext_cons rfl)
      (notNext_cons rfl) (notNext_cons rfl) (by simp; omega) ⟨1, by simp [parse, hl]⟩
    rw [tree, trees_map, hl]
    refine yields_one this fun n => ?_
    simp [tok, parse, show k ≠ 0 by omega, show k ≠ 1 by omega]
  | @atom ss e _ ih =>
    obtain ⟨e', he, ih⟩ := ih
    obtain rfl := one_eq he
    exact ⟨e, rfl, fun r t' r' ho hl => yields_seq (g' := .factorialLoop) (ih r ho) hl fun n => rfl⟩
  | @fac ss e _ ih =>
    obtain ⟨e', he, ih⟩ := ih
    obtain rfl := one_eq he
    refine ⟨_, rfl, fun r t' r' ho hl => ?_⟩
    rw [List.map_append, List.append_assoc]
    refine ih _ _ _ (notNext_cons rfl) (yields_one hl fun n => ?_)
    simp only [parse, fn_factorial, List.map_cons, List.map_nil, tok, List.cons_append, List.nil_append, tree]
  | @«postfix» ss e _ ih =>
    obtain ⟨e', he, ih⟩ := ih
    obtain rfl := one_eq he
    exact ⟨e, rfl, fun r ho hf => ih r _ _ ho (factorialLoop_ends hf)⟩
  | @apply1 ss e f _ ih =>
    obtain ⟨e', he, ih⟩ := ih
    obtain rfl := one_eq he
    refine ⟨_, rfl, fun r ho hf => ?_⟩
    have h1 : Yields .base ((Sym.name 1 f :: ss).map tok ++ r) (.call ⟨1, f⟩ [tree e]) r :=
      yields_ret (f := fun st r => .ok (.call ⟨1, f⟩ [st]) r) (ih r ho hf) rfl fun n => rfl
    exact yields_seq (g' := .factorialLoop) h1 (factorialLoop_ends hf) fun n => rfl
  | @signed signs ss e hs _ ih =>
    obtain ⟨e', he, ih⟩ := ih
    obtain rfl := one_eq he
    refine ⟨_, rfl, fun r ho hf => ?_⟩
    have := sign_all signs hs (ih r ho hf) false
    rw [List.map_append, List.append_assoc]
    refine yields_one (g := .sign false) ?_ fun n => rfl
    rw [Bool.false_xor] at this
    cases h : odd signs
    · simpa [h] using this
    · simpa [h, tree] using this
  | @power ss e _ ih =>
    obtain ⟨e', he, ih⟩ := ih
    obtain rfl := one_eq he
    exact ⟨e, rfl, fun r t' r' ho hf hl => yields_seq (g' := .factorLoop) (ih r ho hf) hl fun n => rfl⟩
  | @caret ss tt a b _ _ iha ihb =>
    obtain ⟨a', ha, iha⟩ := iha
    obtain rfl := one_eq ha
    obtain ⟨b', hb, ihb⟩ := ihb
    obtain rfl := one_eq hb
    refine ⟨_, rfl, fun r t' r' ho hf hl => ?_⟩
    rw [List.map_append, List.append_assoc]
    refine iha _ _ _ (notNext_cons rfl) (notNext_cons rfl) ?_
    exact yields_seq (g' := fun st' => .factorLoop (.call ⟨2, .pow⟩ [tree a, st'])) (ihb r ho hf) hl fun n => rfl
  | @product ss e _ ih =>
    obtain ⟨e', he, ih⟩ := ih
    obtain rfl := one_eq he
    exact ⟨e, rfl, fun r t' r' ho hf hp hl =>
      yields_seq (g' := .termLoop) (ih r _ _ ho hf (factorLoop_ends hp)) hl fun n => rfl⟩
  | @times ss tt a b _ _ iha ihb =>
    obtain ⟨a', ha, iha⟩ := iha
    obtain rfl := one_eq ha
    obtain ⟨b', hb, ihb⟩ := ihb
    obtain rfl := one_eq hb
    refine ⟨_, rfl, fun r t' r' ho hf hp hl => ?_⟩
    rw [List.map_append, List.append_assoc]
    refine iha _ _ _ (notNext_cons rfl) (notNext_cons rfl) (notNext_cons rfl) ?_
    exact yields_seq (g' := fun st' => .termLoop (.call ⟨2, .mul⟩ [tree a, st'])) (ihb r _ _ ho hf (factorLoop_ends hp)) hl fun n => rfl
  | @slash ss tt a b _ _ iha ihb =>
    obtain ⟨a', ha, iha⟩ := iha
    obtain rfl := one_eq ha
    obtain ⟨b', hb, ihb⟩ := ihb
    obtain rfl := one_eq hb
    refine ⟨_, rfl, fun r t' r' ho hf hp hl => ?_⟩
    rw [List.map_append, List.append_assoc]
    refine iha _ _ _ (notNext_cons rfl) (notNext_cons rfl) (notNext_cons rfl) ?_
    exact yields_seq (g' := fun st' => .termLoop (.call ⟨2, .div⟩ [tree a, st'])) (ihb r _ _ ho hf (factorLoop_ends hp)) hl fun n => rfl
  | @percent ss tt a b _ _ iha ihb =>
    obtain ⟨a', ha, iha⟩ := iha
    obtain rfl := one_eq ha
    obtain ⟨b', hb, ihb⟩ := ihb
    obtain rfl := one_eq hb
    refine ⟨_, rfl, fun r t' r' ho hf hp hl => ?_⟩
    rw [List.map_append, List.append_assoc]
    refine iha _ _ _ (notNext_cons rfl) (notNext_cons rfl) (notNext_cons rfl) ?_
    exact yields_seq (g' := fun st' => .termLoop (.call ⟨2, .fmod⟩ [tree a, st'])) (ihb r _ _ ho hf (factorLoop_ends hp)) hl fun n => rfl
  | @sum ss e _ ih =>
    obtain ⟨e', he, ih⟩ := ih
    obtain rfl := one_eq he
    exact ⟨e, rfl, fun r t' r' ho hf hp hm hl =>
      yields_seq (g' := .exprLoop) (ih r _ _ ho hf hp (termLoop_ends hm)) hl fun n => rfl⟩
  | @plus ss tt a b _ _ iha ihb =>
    obtain ⟨a', ha, iha⟩ := iha
    obtain rfl := one_eq ha
    obtain ⟨b', hb, ihb⟩ := ihb
    obtain rfl := one_eq hb
    refine ⟨_, rfl, fun r t' r' ho hf hp hm hl => ?_⟩
    rw [List.map_append, List.append_assoc]
    refine iha _ _ _ (notNext_cons rfl) (notNext_cons rfl) (notNext_cons rfl) (notNext_cons rfl) ?_
    exact yields_seq (g' := fun st' => .exprLoop (.call ⟨2, .add⟩ [tree a, st'])) (ihb r _ _ ho hf hp (termLoop_ends hm)) hl fun n => rfl
  | @minus ss tt a b _ _ iha ihb =>
    obtain ⟨a', ha, iha⟩ := iha
    obtain rfl := one_eq ha
    obtain ⟨b', hb, ihb⟩ := ihb
    obtain rfl := one_eq hb
    refine ⟨_, rfl, fun r t' r' ho hf hp hm hl => ?_⟩
    rw [List.map_append, List.append_assoc]
    refine iha _ _ _ (notNext_cons rfl) (notNext_cons rfl) (notNext_cons rfl) (notNext_cons rfl) ?_
    exact yields_seq (g' := fun st' => .exprLoop (.call ⟨2, .sub⟩ [tree a, st'])) (ihb r _ _ ho hf hp (termLoop_ends hm)) hl fun n => rfl
  | @single ss e _ ih =>
    obtain ⟨e', he, ih⟩ := ih
    obtain rfl := one_eq he
    exact ⟨e, rfl, fun r t' r' ho hf hp hm ha hl =>
      yields_seq (g' := .listLoop) (ih r _ _ ho hf hp hm (exprLoop_ends ha)) hl fun n => rfl⟩
  | @comma ss tt a b _ _ iha ihb =>
    obtain ⟨a', ha, iha⟩ := iha
    obtain rfl := one_eq ha
    obtain ⟨b', hb, ihb⟩ := ihb
    obtain rfl := one_eq hb
    refine ⟨_, rfl, fun r t' r' ho hf hp hm ha hl => ?_⟩
    rw [List.map_append, List.append_assoc]
    refine iha _ _ _ (notNext_cons rfl) (notNext_cons rfl) (notNext_cons rfl) (notNext_cons rfl) (notNext_cons rfl) ?_
    refine yields_seq (g' := fun st' => .listLoop (.call ⟨2, .comma⟩ [tree a, st'])) (ihb r _ _ ho hf hp hm (exprLoop_ends ha)) hl fun n => ?_
    simp only [List.map_cons, tok, List.cons_append, parse, fn_comma]
  | @argument ss e _ ih =>
    obtain ⟨e', he, ih⟩ := ih
    obtain rfl := one_eq he
    intro f ps r t' r' ho hf hp hm ha _ hl
    exact yields_seq (g' := fun st => .argsNext f (ps ++ [st])) (ih r _ _ ho hf hp hm (exprLoop_ends ha)) hl fun n => rfl
  | @arguments ss tt es e _ _ iha ihb =>
    obtain ⟨b', hb, ihb⟩ := ihb
    obtain rfl := one_eq hb
    intro f ps r t' r' ho hf hp hm ha hlen hl
    simp only [List.length_append, List.length_cons, List.length_nil] at hlen
    rw [List.map_append, List.append_assoc]
    refine iha f ps _ _ _ (notNext_cons rfl) (notNext_cons rfl) (notNext_cons rfl) (notNext_cons rfl) (notNext_cons rfl)
      (by omega) ?_
    rw [List.map_append, ← List.append_assoc] at hl
    have : Yields (.args f (ps ++ es.map tree)) (tt.map tok ++ r) t' r' :=
      yields_seq (g' := fun st => .argsNext f ((ps ++ es.map tree) ++ [st])) (ihb r _ _ ho hf hp hm (exprLoop_ends ha)) hl fun n => rfl
    refine yields_one this fun n => ?_
    have hlt : (ps ++ es.map tree).length < 4 := by simp; omega
    simp only [List.map_cons, tok, List.cons_append, parse, hlt, if_true]

end H2.Json.Expr
