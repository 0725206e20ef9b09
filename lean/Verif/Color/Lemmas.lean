import Verif.Color.Model
import Verif.Color.Spec
import Verif.Abbrev.Lemmas
namespace H2.Color
open H2.Layout (Word Line isctrl Style style_iff text)
open H2.Abbrev (vis vis_append vis_cons vis_nil text_vis not_ctrl)

theorem term_text {on : List Word} {t : List Char} (h : '\x1b' ∉ t) (r : List Char) :
    terminal .text on (t ++ r) = t.map (fun c => (on, c)) ++ terminal .text on r := by
  induction t with
  | nil => rfl
  | cons c t ih =>
    have h1 : c ≠ '\x1b' := fun e => h (by simp [e])
    simp only [List.cons_append, terminal, if_neg h1, List.map_cons]
    rw [ih fun e => h (List.mem_cons_of_mem _ e)]

theorem term_param {on : List Word} {d : List Char} (h : 'm' ∉ d ∧ ';' ∉ d) (p r : List Char) :
    terminal (.params p) on (d ++ r) = terminal (.params (p ++ d)) on r := by
  induction d generalizing p with
  | nil => simp
  | cons c d ih =>
    have h1 : c ≠ 'm' := fun e => h.1 (by simp [e])
    have h2 : c ≠ ';' := fun e => h.2 (by simp [e])
    simp only [List.cons_append, terminal, if_neg h1, if_neg h2]
    rw [ih ⟨fun e => h.1 (List.mem_cons_of_mem _ e), fun e => h.2 (List.mem_cons_of_mem _ e)⟩]
    simp

theorem number_digits (n : Nat) : ∀ c ∈ number n, c.isDigit = true := by
  intro c hc
  unfold number at hc
  exact Nat.isDigit_of_mem_toDigits (b := 10) (n := n) (by omega) (by omega) (by simpa [Nat.repr] using hc)

theorem number_free (n : Nat) : 'm' ∉ number n ∧ ';' ∉ number n :=
  ⟨fun e => absurd (number_digits n _ e) (by decide), fun e => absurd (number_digits n _ e) (by decide)⟩

theorem term_codes (codes : List Nat) (hne : codes ≠ []) : ∀ (on : List Word) (r : List Char),
    terminal (.params []) on ((codes.flatMap fun n => number n ++ [';']).dropLast ++ ['m'] ++ r) =
      terminal .text ((codes.map number).foldl switch on) r := by
  induction codes with
  | nil => exact absurd rfl hne
  | cons n l ih =>
    intro on r
    cases l with
    | nil =>
      simp only [List.flatMap_cons, List.flatMap_nil, List.append_nil, List.dropLast_concat, List.append_assoc]
      rw [term_param (number_free n)]
      simp [terminal]
    | cons k l =>
      have e : ((n :: k :: l).flatMap fun n => number n ++ [';']).dropLast =
          number n ++ (';' :: ((k :: l).flatMap fun n => number n ++ [';']).dropLast) := by
        rw [List.flatMap_cons, List.append_assoc, List.dropLast_append_of_ne_nil (by simp)]
        congr 1
        rw [List.singleton_append, List.dropLast_cons_of_ne_nil (by simp)]
      rw [e, List.append_assoc, List.append_assoc, term_param (number_free n)]
      simp only [List.cons_append, List.nil_append, terminal]
      rw [if_neg (by decide), if_pos trivial]
      have := ih (by simp) (switch on (number n)) r
      simp only [List.append_assoc, List.cons_append, List.nil_append] at this
      rw [this]
      rfl

/-- What is switched on after a change. -/
def codesOn (s : Slots) : List Word := ((s.filter fun x => x != []).map fun n => number (style2value n)).foldl switch []

theorem number_zero : number (style2value "reset".toList) = ['0'] := by decide +kernel

theorem term_change (s : Slots) (on : List Word) (r : List Char) :
    terminal .text on (change s ++ r) = terminal .text (codesOn s) r := by
  unfold change
  simp only [List.cons_append, List.nil_append, terminal, if_true]
  have := term_codes (style2value "reset".toList :: (s.filter fun x => x != []).map style2value) (by simp) on r
  rw [this]
  simp only [List.map_cons, List.foldl_cons, number_zero, List.map_map]
  rfl

theorem printl_append (b : Bool) (x y : Line) : ∀ s, printl b s (x ++ y) =
    ((printl b (printl b s x).1 y).1, (printl b s x).2 ++ (printl b (printl b s x).1 y).2) := by
  induction x with
  | nil => intro s; simp [printl]
  | cons w ws ih => intro s; simp only [List.cons_append, printl, ih, List.append_assoc]

theorem printl_off (l : Line) : ∀ s, printl false s l = (s, vis l) := by
  induction l with
  | nil => intro s; rfl
  | cons w ws ih =>
    intro s
    rw [vis_cons]
    unfold printl print
    cases isctrl w <;> simp [ih]

theorem printl_text (l : Line) (h : '\x1b' ∉ vis l) : ∀ s on r, ∃ on',
    (terminal .text on ((printl true s l).2 ++ r)).map (·.2) = vis l ++ (terminal .text on' r).map (·.2) := by
  induction l with
  | nil => intro s on r; exact ⟨on, rfl⟩
  | cons w ws ih =>
    intro s on r
    rw [vis_cons] at h ⊢
    unfold printl print
    cases hc : isctrl w with
    | true =>
      rw [hc] at h
      simp only [if_true, List.append_assoc] at h ⊢
      rw [term_change]
      obtain ⟨on', h'⟩ := ih (by simpa using h) (parse s w) (codesOn (parse s w)) r
      exact ⟨on', by rw [h']; simp⟩
    | false =>
      rw [hc] at h
      simp only [Bool.false_eq_true, if_false, List.append_assoc] at h ⊢
      rw [term_text (fun e => h (List.mem_append_left _ e)), List.map_append]
      obtain ⟨on', h'⟩ := ih (fun e => h (List.mem_append_right _ e)) s on r
      exact ⟨on', by rw [h']; simp [Function.comp_def]⟩

/- names -/

theorem table : ∀ p ∈ ecma48, number (style2value p.1.toList) = code p.1.toList ∧ code p.1.toList ≠ ['0'] ∧ p.1.toList ≠ [] ∧
    ',' ∉ p.1.toList ∧ '}' ∉ p.1.toList ∧ p.1.toList.isPrefixOf "reset".toList = false ∧ p.1.toList.head? ≠ some '+' ∧ p.1.toList.head? ≠ some '-' := by
  decide +kernel

theorem known {n : Word} (h : Known n) : number (style2value n) = code n ∧ code n ≠ ['0'] ∧ n ≠ [] ∧ ',' ∉ n ∧ '}' ∉ n ∧
    n.isPrefixOf "reset".toList = false ∧ n.head? ≠ some '+' ∧ n.head? ≠ some '-' := by
  obtain ⟨p, hp, rfl⟩ := h
  exact table p hp

theorem pieces_name {n : Word} (h : ',' ∉ n ∧ '}' ∉ n) (cur r : Word) : pieces cur (n ++ r) = pieces (cur ++ n) r := by
  induction n generalizing cur with
  | nil => simp
  | cons c n ih =>
    have h1 : c ≠ ',' := fun e => h.1 (by simp [e])
    have h2 : c ≠ '}' := fun e => h.2 (by simp [e])
    simp only [List.cons_append, pieces, if_neg h1, if_neg h2]
    rw [ih ⟨fun e => h.1 (List.mem_cons_of_mem _ e), fun e => h.2 (List.mem_cons_of_mem _ e)⟩]
    simp

theorem pieces_commas {ns : List Word} (hne : ns ≠ []) (h : ∀ n ∈ ns, ',' ∉ n ∧ '}' ∉ n) : pieces [] (commas ns ++ ['}']) = ns := by
  induction ns with
  | nil => exact absurd rfl hne
  | cons n l ih =>
    cases l with
    | nil =>
      simp only [commas]
      rw [pieces_name (h n (by simp))]
      simp [pieces]
    | cons k l =>
      simp only [commas, List.append_assoc, List.cons_append, List.nil_append]
      rw [pieces_name (h n (by simp))]
      simp only [List.nil_append, pieces]
      rw [if_neg (by decide), if_pos trivial]
      congr 1
      exact ih (by simp) fun m hm => h m (List.mem_cons_of_mem _ hm)

theorem push_free {outer : List Word} (h : ∀ n ∈ outer, n ≠ []) (r : Slots) (n : Word) :
    pushStyle (outer ++ [] :: r) n = outer ++ n :: r := by
  induction outer with
  | nil => rfl
  | cons x l ih =>
    cases x with
    | nil => exact absurd rfl (h [] (by simp))
    | cons c s =>
      simp only [List.cons_append, pushStyle]
      rw [ih fun m hm => h m (List.mem_cons_of_mem _ hm)]

theorem push_all {ns : List Word} (hn : ∀ n ∈ ns, Known n) : ∀ {outer : List Word} {k : Nat}, (∀ n ∈ outer, n ≠ []) → ns.length ≤ k →
    ns.foldl (apply false) (outer ++ List.replicate k []) = outer ++ ns ++ List.replicate (k - ns.length) [] := by
  induction ns with
  | nil => intro outer k _ _; simp
  | cons n l ih =>
    intro outer k ho hk
    cases k with
    | zero => simp at hk
    | succ k =>
      have kn := known (hn n (by simp))
      rw [List.foldl_cons]
      have : apply false (outer ++ List.replicate (k + 1) []) n = (outer ++ [n]) ++ List.replicate k [] := by
        unfold apply
        simp only [Bool.false_eq_true, if_false, List.replicate_succ]
        rw [push_free ho, kn.2.2.2.2.2.1]
        simp
      rw [this, ih (fun m hm => hn m (List.mem_cons_of_mem _ hm)) (by
        intro m hm
        rcases List.mem_append.1 hm with hm | hm
        · exact ho m hm
        · simp at hm; subst hm; exact kn.2.2.1) (by simpa using hk)]
      simp

theorem pop_all {ns : List Word} (hn : ∀ n ∈ ns, Known n) : ∀ s : Slots,
    ns.foldl (apply true) s = s.map fun x => if x ∈ ns then [] else x := by
  induction ns with
  | nil => intro s; simp
  | cons n l ih =>
    intro s
    have kn := known (hn n (by simp))
    rw [List.foldl_cons]
    have : apply true s n = popStyle s n := by
      unfold apply
      simp only [if_true]
      rw [kn.2.2.2.2.2.1]
      rfl
    rw [this, ih fun m hm => hn m (List.mem_cons_of_mem _ hm)]
    unfold popStyle
    rw [List.map_map]
    apply List.map_congr_left
    intro x _
    simp only [Function.comp_apply, List.mem_cons]
    by_cases h : x = n
    · subst h
      rw [if_pos rfl, if_pos (Or.inl rfl)]
      split <;> rfl
    · rw [if_neg h]
      by_cases h2 : x ∈ l
      · rw [if_pos h2, if_pos (Or.inr h2)]
      · rw [if_neg h2, if_neg (fun e => e.elim h h2)]

/-- The array when `outer` is on. -/
def state (outer : List Word) : Slots := outer ++ List.replicate (8 - outer.length) []

theorem codesOn_state {outer : List Word} (h : ∀ n ∈ outer, Known n) : codesOn (state outer) = outer.map code := by
  unfold codesOn state
  have e : (outer ++ List.replicate (8 - outer.length) []).filter (fun x => x != []) = outer := by
    rw [List.filter_append]
    have h1 : outer.filter (fun x => x != []) = outer := by
      rw [List.filter_eq_self]
      intro n hn
      have := (known (h n hn)).2.2.1
      simp [this]
    have h2 : (List.replicate (8 - outer.length) ([] : Word)).filter (fun x => x != []) = [] := by
      rw [List.filter_eq_nil_iff]
      intro a ha
      rw [(List.mem_replicate.1 ha).2]
      simp
    rw [h1, h2, List.append_nil]
  rw [e]
  have : ∀ (l : List Word) (on : List Word), (∀ n ∈ l, Known n) → (l.map fun n => number (style2value n)).foldl switch on = on ++ l.map code := by
    intro l
    induction l with
    | nil => intro on _; simp
    | cons n l ih =>
      intro on hl
      have kn := known (hl n (by simp))
      simp only [List.map_cons, List.foldl_cons, kn.1]
      rw [ih _ fun m hm => hl m (List.mem_cons_of_mem _ hm)]
      unfold switch
      rw [if_neg kn.2.1]
      simp
  simpa using this outer [] h

theorem parse_push {ns outer : List Word} (hne : ns ≠ []) (hn : ∀ n ∈ ns, Known n) (ho : ∀ n ∈ outer, Known n) (hl : (outer ++ ns).length ≤ 8) :
    (pieces [] (commas ns ++ ['}'])).foldl (apply false) (state outer) = state (outer ++ ns) := by
  rw [List.length_append] at hl
  rw [pieces_commas hne fun n h => ⟨(known (hn n h)).2.2.2.1, (known (hn n h)).2.2.2.2.1⟩]
  unfold state
  rw [push_all hn (fun n h => (known (ho n h)).2.2.1) (by omega), List.length_append]
  congr 2
  omega

theorem parse_pop {ns outer : List Word} (hne : ns ≠ []) (hn : ∀ n ∈ ns, Known n) (hd : (outer ++ ns).Nodup) (hl : (outer ++ ns).length ≤ 8) :
    (pieces [] (commas ns ++ ['}'])).foldl (apply true) (state (outer ++ ns)) = state outer := by
  rw [List.length_append] at hl
  rw [pieces_commas hne fun n h => ⟨(known (hn n h)).2.2.2.1, (known (hn n h)).2.2.2.2.1⟩, pop_all hn]
  unfold state
  rw [List.map_append, List.map_append]
  have h1 : (outer.map fun x => if x ∈ ns then [] else x) = outer := by
    rw [List.nodup_append] at hd
    conv => rhs; rw [← List.map_id outer]
    apply List.map_congr_left
    intro x hx
    rw [if_neg (fun e => hd.2.2 x hx x e rfl)]
    rfl
  have h2 : (ns.map fun x => if x ∈ ns then ([] : Word) else x) = List.replicate ns.length [] := by
    rw [List.eq_replicate_iff]
    refine ⟨by simp, ?_⟩
    intro b hb
    obtain ⟨x, hx, rfl⟩ := List.mem_map.1 hb
    rw [if_pos hx]
  have h3 : (List.replicate (8 - (outer ++ ns).length) ([] : Word)).map (fun x => if x ∈ ns then [] else x) = List.replicate (8 - (outer ++ ns).length) [] := by
    rw [List.map_replicate]
    split <;> rfl
  rw [h1, h2, h3, List.append_assoc, List.replicate_append_replicate, List.length_append]
  congr 2
  omega

theorem parse_reset (s : Slots) : parse s "\x1b{reset}".toList = s.map fun _ => [] := by
  show (pieces [] "reset}".toList).foldl (apply false) s = _
  have : pieces [] "reset}".toList = ["reset".toList] := by decide +kernel
  rw [this]
  simp only [List.foldl_cons, List.foldl_nil, apply, Bool.false_eq_true, if_false]
  rw [if_pos (by decide)]
  unfold clearStyle
  have : ∀ (s : Slots) (n : Word), (pushStyle s n).length = s.length := by
    intro s n
    induction s with
    | nil => rfl
    | cons x r ih => cases x <;> simp [pushStyle, ih]
  apply List.ext_getElem
  · simp [this]
  · intro i h1 h2; simp

end H2.Color
