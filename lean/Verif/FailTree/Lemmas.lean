import Verif.FailTree.Spec
namespace H2.FailTree
variable {α : Type}

theorem Holds.append {a b : Chain α} {ts us} (h : Holds a ts) (g : Holds b us) : Holds (appendSubling a b) (ts ++ us) := by
  induction h with
  | nothing => exact g
  | more h1 _ _ ih => exact .more h1 ih

theorem holds_unique {c : Chain α} {ts us} (h : Holds c ts) (g : Holds c us) : ts = us := by
  induction h generalizing us with
  | nothing => cases g; rfl
  | more _ _ ih1 ih2 => cases g with | more g1 g2 => rw [ih1 g1, ih2 g2]

theorem holds_exists (c : Chain α) : ∃ ts, Holds c ts := by
  induction c with
  | null => exact ⟨_, .nothing⟩
  | fail a c s ih1 ih2 =>
    obtain ⟨_, h1⟩ := ih1
    obtain ⟨_, h2⟩ := ih2
    exact ⟨_, .more h1 h2⟩

theorem holds_nil {c : Chain α} (h : Holds c []) : c = .null := by cases h; rfl

theorem holds_ne_nil {a} {c s : Chain α} {ts} (h : Holds (.fail a c s) ts) : ts ≠ [] := by cases h; simp

theorem holds_foldl {l : List (Chain α × List (Report α))} (hl : ∀ x ∈ l, Holds x.1 x.2) :
    ∀ {c : Chain α} {ts}, Holds c ts → Holds ((l.map (·.1)).foldl appendSubling c) (ts ++ (l.map (·.2)).flatten) := by
  induction l with
  | nil => intro c ts h; simpa using h
  | cons x r ih =>
    intro c ts h
    have := ih (fun y hy => hl y (List.mem_cons_of_mem _ hy)) (h.append (hl x (by simp)))
    simpa using this

theorem foreach_outline {c : Chain α} {ts} (h : Holds c ts) (si d : Nat) :
    Outline d ts ((foreach c si d).map fun x => (x.1, x.2.2)) := by
  induction h generalizing si d with
  | nothing => exact .nothing
  | more _ _ ih1 ih2 =>
    simp only [foreach, List.map_cons, List.map_append]
    exact .more (ih1 0 (d + 1)) (ih2 (si + 1) d)

theorem outline_unique {d : Nat} {ts : List (Report α)} {l m} (h : Outline d ts l) (g : Outline d ts m) : l = m := by
  induction h generalizing m with
  | nothing => cases g; rfl
  | more _ _ ih1 ih2 => cases g with | more g1 g2 => rw [ih1 g1, ih2 g2]

theorem outline_append {d : Nat} {ts us : List (Report α)} {l m} (h : Outline d ts l) (g : Outline d us m) :
    Outline d (ts ++ us) (l ++ m) := by
  generalize hd : d = d' at h
  induction h with
  | nothing => exact hd ▸ g
  | more h1 _ _ ih =>
    subst hd
    simp only [List.cons_append, List.append_assoc]
    exact .more h1 (ih rfl)

theorem outline_members {d : Nat} {ts : List (Report α)} {l} (h : Outline d ts l) : Members ts (l.map (·.1)) := by
  induction h with
  | nothing => exact .nothing
  | more _ _ ih1 ih2 => exact .more ih1 ih2 (by simp)

theorem members_perm {ts : List (Report α)} {l m} (h : Members ts l) (g : Members ts m) : List.Perm l m := by
  induction h generalizing m with
  | nothing => cases g; exact .refl _
  | more _ _ p ih1 ih2 =>
    cases g with
    | more g1 g2 q => exact p.trans ((((ih1 g1).append (ih2 g2)).cons _).trans q.symm)

theorem members_of_perm {ts : List (Report α)} {l m} (h : Members ts l) (p : List.Perm l m) : Members ts m := by
  cases h with
  | nothing => rw [List.nil_perm] at p; subst p; exact .nothing
  | more h1 h2 q => exact .more h1 h2 (p.symm.trans q)

theorem destroy_members {c : Chain α} {ts} (h : Holds c ts) : Members ts (destroy c) := by
  induction h with
  | nothing => exact .nothing
  | more _ _ ih1 ih2 =>
    refine .more ih1 ih2 ?_
    simp only [destroy]
    exact List.perm_append_comm

theorem failing_null (w : α → Bool) (c : Case α) (b : Bool) : failing w c .null b = c := rfl

end H2.FailTree
