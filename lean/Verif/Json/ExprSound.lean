import Verif.Json.ExprParse
/-
What the parser of arithmetic accepts is written by the grammar.
-/
namespace H2.Json.Expr
open H2.Json

/-- Tokens of symbols, or errors. -/
def Good (x : Tok) : Prop := x = .error ∨ ∃ s, x = tok s

/-- What a run of the parser that takes the symbols `us`, leaves `r` and returns `t` shows. -/
def Shows (us : List Sym) (r : List Tok) (t : Tree) : Goal → Prop
  | .list => ∃ e, Writes .sequence us [e] ∧ t = tree e
  | .listLoop st => ∀ us0 e0, Writes .sequence us0 [e0] → st = tree e0 → ∃ e, Writes .sequence (us0 ++ us) [e] ∧ t = tree e
  | .expr => ∃ e, Writes .sums us [e] ∧ t = tree e
  | .exprLoop st => ∀ us0 e0, Writes .sums us0 [e0] → st = tree e0 → ∃ e, Writes .sums (us0 ++ us) [e] ∧ t = tree e
  | .term => ∃ e, Writes .products us [e] ∧ t = tree e
  | .termLoop st => ∀ us0 e0, Writes .products us0 [e0] → st = tree e0 → ∃ e, Writes .products (us0 ++ us) [e] ∧ t = tree e
  | .factor => ∃ e, Writes .powers us [e] ∧ t = tree e
  | .factorLoop st => ∀ us0 e0, Writes .powers us0 [e0] → st = tree e0 → ∃ e, Writes .powers (us0 ++ us) [e] ∧ t = tree e
  | .power => NotNext isFac r ∧ ∃ e, Writes .signed us [e] ∧ t = tree e
  | .sign neg => NotNext isFac r ∧ ∃ signs ss e, us = signs ++ ss ∧ (∀ s ∈ signs, s = .plus ∨ s = .minus) ∧
      Writes .prefix ss [e] ∧ t = tree (if (neg ^^ odd signs) then .neg e else e)
  | .factorial => NotNext isFac r ∧ ∃ e, Writes .prefix us [e] ∧ t = tree e
  | .factorialLoop st => NotNext isFac r ∧ (NotNext isFac (us.map tok ++ r) → us = [] ∧ t = st) ∧ ∀ us0 e0, Writes .postfix us0 [e0] → st = tree e0 →
      ∃ e, Writes .postfix (us0 ++ us) [e] ∧ t = tree e
  | .base => ∃ e, t = tree e ∧ (Writes .atom us [e] ∨ Writes .prefix us [e] ∧ NotNext isFac r)
  | .args f ps => ps.length ≤ 3 → ∀ K es0, (∀ tt e, Writes .sums tt [e] → Writes .arguments (K ++ tt) (es0 ++ [e])) →
      ps = es0.map tree → ∃ vs es, us = vs ++ [.rparen] ∧ Writes .arguments (K ++ vs) es ∧ es.length = f.parameters ∧
        es.length ≤ 4 ∧ t = .call f (es.map tree)
  | .argsNext f ps => ps.length ≤ 4 → ∀ us0 es0, Writes .arguments us0 es0 → ps = es0.map tree →
      ∃ vs es, us = vs ++ [.rparen] ∧ Writes .arguments (us0 ++ vs) es ∧ es.length = f.parameters ∧
        es.length ≤ 4 ∧ t = .call f (es.map tree)

theorem good_tok {x} (h : Good x) (hne : x ≠ .error) : ∃ s, x = tok s := h.resolve_left hne

theorem good_add {f} (h : Good (.add f)) : f = ⟨2, .add⟩ := by
  obtain ⟨s, hs⟩ := good_tok h (by simp); cases s <;> simp_all [tok]
theorem good_sub {f} (h : Good (.sub f)) : f = ⟨2, .sub⟩ := by
  obtain ⟨s, hs⟩ := good_tok h (by simp); cases s <;> simp_all [tok]
theorem good_pow {f} (h : Good (.pow f)) : f = ⟨2, .pow⟩ := by
  obtain ⟨s, hs⟩ := good_tok h (by simp); cases s <;> simp_all [tok]
theorem good_fac {f} (h : Good (.fac f)) : f = ⟨1, .factorial⟩ := by
  obtain ⟨s, hs⟩ := good_tok h (by simp); cases s <;> simp_all [tok]
theorem good_mmd {f} (h : Good (.mmd f)) : f = ⟨2, .mul⟩ ∨ f = ⟨2, .div⟩ ∨ f = ⟨2, .fmod⟩ := by
  obtain ⟨s, hs⟩ := good_tok h (by simp); cases s <;> simp_all [tok]

theorem odd_minus (signs) : odd (.minus :: signs) = !odd signs := by
  simp only [odd, List.count_cons_self]
  rcases Nat.mod_two_eq_zero_or_one (List.count Sym.minus signs) with h | h
  · have : (List.count Sym.minus signs + 1) % 2 = 1 := by omega
    rw [h, this]; rfl
  · have : (List.count Sym.minus signs + 1) % 2 = 0 := by omega
    rw [h, this]; rfl

theorem sound (n) : ∀ g ts t r, (∀ x ∈ ts, Good x) → parse n g ts = .ok t r →
    ∃ us : List Sym, ts = us.map tok ++ r ∧ Shows us r t g := by
  induction n with
  | zero => intro g ts t r _ h; cases h
  | succ n ih =>
    intro g ts t r hg h
    /- two runs one after the other -/
    have seq : ∀ {g ts} {g' : Tree → Goal}, (∀ x ∈ ts, Good x) → ((parse n g ts).bind fun st r => parse n (g' st) r) = .ok t r →
        ∃ us vs r' t', ts = us.map tok ++ (vs.map tok ++ r) ∧ r' = vs.map tok ++ r ∧ Shows us r' t' g ∧ Shows vs r t (g' t') := by
      intro g ts g' hg h
      obtain ⟨t', r', h1, h2⟩ := bind_ok h
      obtain ⟨us, e1, s1⟩ := ih _ _ _ _ hg h1
      obtain ⟨vs, e2, s2⟩ := ih _ _ _ _ (fun x hx => hg x (by rw [e1]; exact List.mem_append_right _ hx)) h2
      exact ⟨us, vs, r', t', by rw [e1, e2], e2, s1, s2⟩
    cases g with
    | list =>
      obtain ⟨us, vs, r', t', e1, e2, ⟨e, w, rfl⟩, s2⟩ := seq hg h
      exact ⟨us ++ vs, by simp [e1], s2 us e (.single w) rfl⟩
    | expr =>
      obtain ⟨us, vs, r', t', e1, e2, ⟨e, w, rfl⟩, s2⟩ := seq hg h
      exact ⟨us ++ vs, by simp [e1], s2 us e (.sum w) rfl⟩
    | term =>
      obtain ⟨us, vs, r', t', e1, e2, ⟨e, w, rfl⟩, s2⟩ := seq hg h
      exact ⟨us ++ vs, by simp [e1], s2 us e (.product w) rfl⟩
    | factor =>
      obtain ⟨us, vs, r', t', e1, e2, ⟨_, e, w, rfl⟩, s2⟩ := seq hg h
      exact ⟨us ++ vs, by simp [e1], s2 us e (.power w) rfl⟩
    | factorial =>
      obtain ⟨us, vs, r', t', e1, e2, ⟨e, rfl, w⟩, ⟨hf, h0, s2⟩⟩ := seq hg h
      refine ⟨us ++ vs, by simp [e1], hf, ?_⟩
      rcases w with w | ⟨w, hf'⟩
      · obtain ⟨e', w', he'⟩ := s2 us e (.atom w) rfl
        exact ⟨e', .postfix w', he'⟩
      · rw [e2] at hf'
        obtain ⟨rfl, rfl⟩ := h0 hf'
        exact ⟨e, by simpa using w, rfl⟩
    | args f ps =>
      obtain ⟨us, vs, r', t', e1, e2, ⟨e, w, rfl⟩, s2⟩ := seq (g' := fun st => .argsNext f (ps ++ [st])) hg h
      refine ⟨us ++ vs, by simp [e1], fun hps K es0 hK hes => ?_⟩
      obtain ⟨ws, es, hws, w', hl, h4, ht⟩ := s2 (by simp; omega) (K ++ us) (es0 ++ [e]) (hK us e w) (by simp [hes])
      refine ⟨us ++ ws, es, by simp [hws], ?_, hl, h4, ht⟩
      rw [← List.append_assoc]; exact w'
    | power =>
      obtain ⟨us, e1, hf, signs, ss, e, rfl, hs, w, ht⟩ := ih _ _ _ _ hg h
      refine ⟨signs ++ ss, e1, hf, _, .signed hs w, ?_⟩
      rw [ht, Bool.false_xor]
    | listLoop st =>
      have last : ∀ {ts}, Res.ok st ts = .ok t r → ∃ us : List Sym, ts = us.map tok ++ r ∧ Shows us r t (.listLoop st) := by
        intro ts h
        injection h with h1 h2
        subst h1 h2
        exact ⟨[], rfl, fun us0 e0 w h => ⟨e0, by simpa using w, h⟩⟩
      rcases ts with _ | ⟨c, ts⟩
      · exact last h
      · cases c <;> first | exact last h | skip
        have hg' : ∀ x ∈ ts, Good x := fun x hx => hg x (List.mem_cons_of_mem _ hx)
        obtain ⟨us, vs, r', t', e1, e2, ⟨e, w, rfl⟩, s2⟩ := seq (g' := fun st' => .listLoop (.call (fnOf "comma".toList) [st, st'])) hg' h
        refine ⟨.comma :: us ++ vs, by simp [e1, tok], fun us0 e0 w0 h0 => ?_⟩
        obtain ⟨e', w', ht⟩ := s2 _ _ (.comma w0 w) (by rw [fn_comma, h0, tree])
        exact ⟨e', by simpa using w', ht⟩
    | exprLoop st =>
      have last : ∀ {ts}, Res.ok st ts = .ok t r → ∃ us : List Sym, ts = us.map tok ++ r ∧ Shows us r t (.exprLoop st) := by
        intro ts h
        injection h with h1 h2
        subst h1 h2
        exact ⟨[], rfl, fun us0 e0 w h => ⟨e0, by simpa using w, h⟩⟩
      rcases ts with _ | ⟨c, ts⟩
      · exact last h
      · have hg' : ∀ x ∈ ts, Good x := fun x hx => hg x (List.mem_cons_of_mem _ hx)
        have hc := hg c (List.mem_cons_self ..)
        cases c with
        | add f =>
          obtain rfl := good_add hc
          obtain ⟨us, vs, r', t', e1, e2, ⟨e, w, rfl⟩, s2⟩ := seq (g' := fun st' => .exprLoop (.call ⟨2, .add⟩ [st, st'])) hg' h
          refine ⟨.plus :: us ++ vs, by simp [e1, tok], fun us0 e0 w0 h0 => ?_⟩
          obtain ⟨e', w', ht⟩ := s2 _ _ (.plus w0 w) (by rw [h0, tree])
          exact ⟨e', by simpa using w', ht⟩
        | sub f =>
          obtain rfl := good_sub hc
          obtain ⟨us, vs, r', t', e1, e2, ⟨e, w, rfl⟩, s2⟩ := seq (g' := fun st' => .exprLoop (.call ⟨2, .sub⟩ [st, st'])) hg' h
          refine ⟨.minus :: us ++ vs, by simp [e1, tok], fun us0 e0 w0 h0 => ?_⟩
          obtain ⟨e', w', ht⟩ := s2 _ _ (.minus w0 w) (by rw [h0, tree])
          exact ⟨e', by simpa using w', ht⟩
        | _ => exact last h
    | termLoop st =>
      have last : ∀ {ts}, Res.ok st ts = .ok t r → ∃ us : List Sym, ts = us.map tok ++ r ∧ Shows us r t (.termLoop st) := by
        intro ts h
        injection h with h1 h2
        subst h1 h2
        exact ⟨[], rfl, fun us0 e0 w h => ⟨e0, by simpa using w, h⟩⟩
      rcases ts with _ | ⟨c, ts⟩
      · exact last h
      · have hg' : ∀ x ∈ ts, Good x := fun x hx => hg x (List.mem_cons_of_mem _ hx)
        have hc := hg c (List.mem_cons_self ..)
        cases c with
        | mmd f =>
          rcases good_mmd hc with rfl | rfl | rfl
          · obtain ⟨us, vs, r', t', e1, e2, ⟨e, w, rfl⟩, s2⟩ := seq (g' := fun st' => .termLoop (.call ⟨2, .mul⟩ [st, st'])) hg' h
            refine ⟨.times :: us ++ vs, by simp [e1, tok], fun us0 e0 w0 h0 => ?_⟩
            obtain ⟨e', w', ht⟩ := s2 _ _ (.times w0 w) (by rw [h0, tree])
            exact ⟨e', by simpa using w', ht⟩
          · obtain ⟨us, vs, r', t', e1, e2, ⟨e, w, rfl⟩, s2⟩ := seq (g' := fun st' => .termLoop (.call ⟨2, .div⟩ [st, st'])) hg' h
            refine ⟨.slash :: us ++ vs, by simp [e1, tok], fun us0 e0 w0 h0 => ?_⟩
            obtain ⟨e', w', ht⟩ := s2 _ _ (.slash w0 w) (by rw [h0, tree])
            exact ⟨e', by simpa using w', ht⟩
          · obtain ⟨us, vs, r', t', e1, e2, ⟨e, w, rfl⟩, s2⟩ := seq (g' := fun st' => .termLoop (.call ⟨2, .fmod⟩ [st, st'])) hg' h
            refine ⟨.percent :: us ++ vs, by simp [e1, tok], fun us0 e0 w0 h0 => ?_⟩
            obtain ⟨e', w', ht⟩ := s2 _ _ (.percent w0 w) (by rw [h0, tree])
            exact ⟨e', by simpa using w', ht⟩
        | _ => exact last h
    | factorLoop st =>
      have last : ∀ {ts}, Res.ok st ts = .ok t r → ∃ us : List Sym, ts = us.map tok ++ r ∧ Shows us r t (.factorLoop st) := by
        intro ts h
        injection h with h1 h2
        subst h1 h2
        exact ⟨[], rfl, fun us0 e0 w h => ⟨e0, by simpa using w, h⟩⟩
      rcases ts with _ | ⟨c, ts⟩
      · exact last h
      · have hg' : ∀ x ∈ ts, Good x := fun x hx => hg x (List.mem_cons_of_mem _ hx)
        have hc := hg c (List.mem_cons_self ..)
        cases c with
        | pow f =>
          obtain rfl := good_pow hc
          obtain ⟨us, vs, r', t', e1, e2, ⟨_, e, w, rfl⟩, s2⟩ := seq (g' := fun st' => .factorLoop (.call ⟨2, .pow⟩ [st, st'])) hg' h
          refine ⟨.caret :: us ++ vs, by simp [e1, tok], fun us0 e0 w0 h0 => ?_⟩
          obtain ⟨e', w', ht⟩ := s2 _ _ (.caret w0 w) (by rw [h0, tree])
          exact ⟨e', by simpa using w', ht⟩
        | _ => exact last h
    | factorialLoop st =>
      have last : ∀ {ts}, NotNext isFac ts → Res.ok st ts = .ok t r → ∃ us : List Sym, ts = us.map tok ++ r ∧ Shows us r t (.factorialLoop st) := by
        intro ts hn h
        injection h with h1 h2
        subst h1 h2
        exact ⟨[], rfl, hn, fun _ => ⟨rfl, rfl⟩, fun us0 e0 w h => ⟨e0, by simpa using w, h⟩⟩
      rcases ts with _ | ⟨c, ts⟩
      · exact last notNext_nil h
      · have hg' : ∀ x ∈ ts, Good x := fun x hx => hg x (List.mem_cons_of_mem _ hx)
        have hc := hg c (List.mem_cons_self ..)
        cases c with
        | fac f =>
          obtain rfl := good_fac hc
          obtain ⟨us, e1, hf, _, s⟩ := ih _ _ _ _ hg' h
          refine ⟨.bang :: us, by simp [e1, tok], hf, fun hn => ?_, fun us0 e0 w0 h0 => ?_⟩
          · have := hn _ rfl
            simp [tok, isFac] at this
          · obtain ⟨e', w', ht⟩ := s _ _ (.fac w0) (by rw [fn_factorial, h0, tree])
            exact ⟨e', by simpa using w', ht⟩
        | _ => exact last (notNext_cons rfl) h
    | sign neg =>
      have last : ∀ {ts}, (∀ x ∈ ts, Good x) → ((parse n .factorial ts).bind fun st r =>
          .ok (if neg then .call (fnOf "negate".toList) [st] else st) r) = .ok t r →
          ∃ us : List Sym, ts = us.map tok ++ r ∧ Shows us r t (.sign neg) := by
        intro ts hg h
        obtain ⟨t', r', h1, h2⟩ := bind_ok h
        injection h2 with h2 h3
        subst h2 h3
        obtain ⟨us, e1, hf, e, w, rfl⟩ := ih _ _ _ _ hg h1
        refine ⟨us, e1, hf, [], us, e, rfl, by simp, w, ?_⟩
        cases neg
        · rfl
        · rw [fn_negate]; rfl
      rcases ts with _ | ⟨c, ts⟩
      · exact last hg h
      · have hg' : ∀ x ∈ ts, Good x := fun x hx => hg x (List.mem_cons_of_mem _ hx)
        have hc := hg c (List.mem_cons_self ..)
        cases c with
        | add f =>
          obtain rfl := good_add hc
          obtain ⟨us, e1, hf, signs, ss, e, hus, hs, w, ht⟩ := ih _ _ _ _ hg' h
          refine ⟨.plus :: us, by simp [e1, tok], hf, .plus :: signs, ss, e, by simp [hus], ?_, w, ?_⟩
          · intro s hs'
            rcases List.mem_cons.1 hs' with rfl | hs'
            · exact Or.inl rfl
            · exact hs s hs'
          · have : odd (.plus :: signs) = odd signs := by simp [odd]
            rw [this]; exact ht
        | sub f =>
          obtain rfl := good_sub hc
          obtain ⟨us, e1, hf, signs, ss, e, hus, hs, w, ht⟩ := ih _ _ _ _ hg' h
          refine ⟨.minus :: us, by simp [e1, tok], hf, .minus :: signs, ss, e, by simp [hus], ?_, w, ?_⟩
          · intro s hs'
            rcases List.mem_cons.1 hs' with rfl | hs'
            · exact Or.inr rfl
            · exact hs s hs'
          · rw [odd_minus]
            have h2 : (neg ^^ !odd signs) = (!neg ^^ odd signs) := by cases neg <;> cases odd signs <;> rfl
            rw [h2]; exact ht
        | _ => exact last hg h
    | argsNext f ps =>
      rcases ts with _ | ⟨c, ts⟩
      · cases h
      · have hg' : ∀ x ∈ ts, Good x := fun x hx => hg x (List.mem_cons_of_mem _ hx)
        cases c with
        | comma =>
          simp only [parse] at h
          split at h
          · next hl =>
            obtain ⟨us, e1, s⟩ := ih _ _ _ _ hg' h
            refine ⟨.comma :: us, by simp [e1, tok], fun _ us0 es0 w0 h0 => ?_⟩
            obtain ⟨vs, es, hvs, w, hlen, h4, ht⟩ := s (by omega) (us0 ++ [.comma]) es0
              (fun tt e w => by simpa using Writes.arguments w0 w) h0
            exact ⟨.comma :: vs, es, by simp [hvs], by simpa using w, hlen, h4, ht⟩
          · cases h
        | close =>
          simp only [parse] at h
          split at h
          · next hl =>
            injection h with h1 h2
            subst h1 h2
            refine ⟨[.rparen], rfl, fun hps us0 es0 w0 h0 => ⟨[], es0, rfl, by simpa using w0, ?_, ?_, by rw [h0]⟩⟩
            · rw [← hl, h0, List.length_map]
            · rw [h0, List.length_map] at hps; exact hps
          · cases h
        | _ => cases h
    | base =>
      rcases ts with _ | ⟨c, ts⟩
      · cases h
      · have hg' : ∀ x ∈ ts, Good x := fun x hx => hg x (List.mem_cons_of_mem _ hx)
        cases c with
        | number q =>
          injection h with h1 h2
          subst h1 h2
          exact ⟨[.num q], rfl, .num q, rfl, Or.inl (.num q)⟩
        | open_ =>
          obtain ⟨t', r', h1, h2⟩ := bind_ok h
          obtain ⟨us, e1, e, w, rfl⟩ := ih _ _ _ _ hg' h1
          rcases r' with _ | ⟨c, r'⟩
          · cases h2
          · cases c <;> first | (cases h2; done) | skip
            injection h2 with h2 h3
            subst h2 h3
            exact ⟨.lparen :: us ++ [.rparen], by simp [e1, tok], e, rfl, Or.inl (.paren w)⟩
        | function f =>
          obtain ⟨k, f⟩ := f
          simp only [parse] at h
          split at h
          · next h0 =>
            subst h0
            have plain : ∀ {ts}, Res.ok (.call ⟨0, f⟩ []) ts = .ok t r →
                ∃ us : List Sym, .function ⟨0, f⟩ :: ts = us.map tok ++ r ∧ Shows us r t .base := by
              intro ts h
              injection h with h1 h2
              subst h1 h2
              exact ⟨[.name 0 f], rfl, .app f [], rfl, Or.inl (.constant f)⟩
            rcases ts with _ | ⟨c, ts⟩
            · exact plain h
            · cases c <;> first | exact plain h | skip
              rcases ts with _ | ⟨c, ts⟩
              · cases h
              · cases c <;> first | (cases h; done) | skip
                injection h with h1 h2
                subst h1 h2
                exact ⟨[.name 0 f, .lparen, .rparen], rfl, .app f [], rfl, Or.inl (.constant' f)⟩
          · next h0 =>
            split at h
            · next h1 =>
              subst h1
              obtain ⟨t', r', h1, h2⟩ := bind_ok h
              obtain ⟨us, e1, hf, e, w, rfl⟩ := ih _ _ _ _ hg' h1
              injection h2 with h2 h3
              subst h2 h3
              exact ⟨.name 1 f :: us, by simp [e1, tok], .app f [e], rfl, Or.inr ⟨.apply1 f w, hf⟩⟩
            · next h1 =>
              rcases ts with _ | ⟨c, ts⟩
              · cases h
              · cases c <;> first | (cases h; done) | skip
                obtain ⟨us, e1, s⟩ := ih _ _ _ _ (fun x hx => hg' x (List.mem_cons_of_mem _ hx)) h
                obtain ⟨vs, es, hvs, w, hl, h4, ht⟩ := s (by simp) [] [] (fun tt e w => .argument w) rfl
                subst hl
                refine ⟨.name es.length f :: .lparen :: us, by simp [e1, tok], .app f es, by rw [tree, trees_map]; exact ht, Or.inl ?_⟩
                rw [hvs]
                exact .apply es.length f (by have h0' : es.length ≠ 0 := h0; have h1' : es.length ≠ 1 := h1; omega) h4 w rfl
        | _ => cases h

end H2.Json.Expr
