import Verif.Lemmas.CoreSolid

/-! Literals in the layout of a tree. -/

set_option linter.unusedSectionVars false

namespace SqlV.Core

open Lex

/-- The text is on one of the lines. -/
def Has (x : Str) (d : Doc) : Prop := ∃ l ∈ d, x <:+: l

theorem Has.left {x : Str} {d : Doc} (h : Has x d) (e : Doc) : Has x (d ++ e) := by
  obtain ⟨l, hl, h⟩ := h
  exact ⟨l, by simp [hl], h⟩

theorem Has.right {x : Str} {d : Doc} (h : Has x d) (e : Doc) : Has x (e ++ d) := by
  obtain ⟨l, hl, h⟩ := h
  exact ⟨l, by simp [hl], h⟩

theorem infix_left {x a : Str} (h : x <:+: a) (b : Str) : x <:+: a ++ b := by
  obtain ⟨s, t, rfl⟩ := h
  exact ⟨s, t ++ b, by simp⟩

theorem infix_right {x a : Str} (h : x <:+: a) (b : Str) : x <:+: b ++ a := by
  obtain ⟨s, t, rfl⟩ := h
  exact ⟨b ++ s, t, by simp⟩

theorem Has.before {x : Str} {d : Doc} (h : Has x d) (e : Doc) : Has x (d <+> e) := by
  induction d with
  | nil => obtain ⟨l, hl, -⟩ := h; cases hl
  | cons a d ih =>
    by_cases hd : d = []
    · subst hd
      obtain ⟨l, hl, h⟩ := h
      obtain rfl : l = a := List.mem_singleton.1 hl
      cases e with
      | nil => exact ⟨l, by simp [Doc.beside], h⟩
      | cons b e => exact ⟨l ++ b, by simp [Doc.beside], infix_left h b⟩
    · rw [beside_cons hd]
      obtain ⟨l, hl, h⟩ := h
      rcases List.mem_cons.1 hl with rfl | hl
      · exact ⟨l, by simp, h⟩
      · obtain ⟨m, hm, h⟩ := ih ⟨l, hl, h⟩
        exact ⟨m, by simp [hm], h⟩

theorem Has.behind {x : Str} {d : Doc} (h : Has x d) (e : Doc) : Has x (e <+> d) := by
  induction e with
  | nil => exact h
  | cons a e ih =>
    by_cases he : e = []
    · subst he
      obtain ⟨l, hl, h⟩ := h
      cases d with
      | nil => cases hl
      | cons b d =>
        rcases List.mem_cons.1 hl with rfl | hl
        · exact ⟨a ++ l, by simp [Doc.beside], infix_right h a⟩
        · exact ⟨l, by simp [Doc.beside, hl], h⟩
    · rw [beside_cons he]
      obtain ⟨m, hm, h⟩ := ih
      exact ⟨m, by simp [hm], h⟩

theorem Has.indent {x : Str} {d : Doc} (h : Has x d) : Has x (Doc.indent d) := by
  obtain ⟨l, hl, h⟩ := h
  exact ⟨' ' :: l, List.mem_map.2 ⟨l, hl, rfl⟩, infix_right h [' ']⟩

theorem Has.boxed {x : Str} {d : Doc} (h : Has x d) (k : Nat) : Has x (Core.boxed k d) := (h.indent.right _).left _

theorem Has.wrap {x : Str} {d : Doc} (h : Has x d) (p : Pos) : Has x (p.wrap d) := by
  unfold Pos.wrap
  split
  · exact h.boxed _
  · exact h

theorem Has.ite {x : Str} {d e : Doc} {c : Prop} [Decidable c] (hd : Has x d) (he : Has x e) : Has x (if c then d else e) := by
  split <;> assumption

theorem has_commas {x : Str} {d : Doc} {ds : List Doc} (h : Has x d) (hm : d ∈ ds) : Has x (commas ds) := by
  induction ds with
  | nil => cases hm
  | cons e ds ih =>
    cases ds with
    | nil => obtain rfl := List.mem_singleton.1 hm; exact h
    | cons e' ds =>
      rcases List.mem_cons.1 hm with rfl | hm
      · exact (h.before _).before _
      · exact (ih hm).behind _

theorem has_stacked {x : Str} {d : Doc} {ds : List Doc} (h : Has x d) (hm : d ∈ ds) : Has x (stacked ds) := by
  induction ds with
  | nil => cases hm
  | cons e ds ih =>
    cases ds with
    | nil => obtain rfl := List.mem_singleton.1 hm; exact h
    | cons e' ds =>
      rcases List.mem_cons.1 hm with rfl | hm
      · exact (h.before _).left _
      · exact (ih hm).right _

theorem has_listed {x : Str} {d : Doc} {ds : List Doc} {kw : Str} (h : Has x d) (hm : d ∈ ds) : Has x (listed kw ds) := by
  match ds, hm with
  | [e], hm => obtain rfl := List.mem_singleton.1 hm; exact h.behind _
  | e :: e' :: ds, hm => exact (has_stacked h hm).indent.right _

theorem has_clause {x : Str} {d : Doc} {kw : Str} {b : Bool} (h : Has x d) : Has x (clause kw b d) :=
  Has.ite (h.behind _) (h.indent.right _)

theorem has_call {x : Str} {d : Doc} {ds : List Doc} {kw : Str} (h : Has x d) (hm : d ∈ ds) : Has x (layCall kw ds) :=
  Has.ite (((has_stacked h hm).indent.right _).left _) (((has_commas h hm).behind _).before _)

theorem has_when {x : Str} {w t : Doc} (h : Has x w ∨ Has x t) : Has x (layWhen w t) := by
  rcases h with h | h
  · exact Has.ite (h.indent.left _) ((h.indent.before _).before _)
  · exact Has.ite ((h.behind _).right _) (h.behind _)

theorem has_star {x : Str} {e : Doc} {ds : List Doc} {kw : Str} (h : Has x e ∨ ∃ d ∈ ds, Has x d) : Has x (layStar e kw ds) := by
  unfold layStar
  split
  · rcases h with h | ⟨d, hd, h⟩
    · exact ((h.before _).before _).before _
    · obtain rfl := List.mem_singleton.1 hd
      exact (h.behind _).before _
  · rcases h with h | ⟨d, hd, h⟩
    · exact ((h.before _).left _).left _
    · exact ((has_stacked (h.behind [str!" "]) (List.mem_map.2 ⟨d, hd, rfl⟩)).right _).left _

theorem has_part {x : Str} {d : Doc} {ds : List Doc} (h : Has x d) (hd : d ∈ ds) : Has x (layPart ds) := by
  unfold layPart
  split
  · cases hd
  · obtain rfl := List.mem_singleton.1 hd
    exact h.behind _
  · exact (has_stacked (h.behind [str!"  "]) (List.mem_map.2 ⟨d, hd, rfl⟩)).right _

theorem has_over {x : Str} {f o fr : Doc} {ds : List Doc} (h : Has x f ∨ (∃ d ∈ ds, Has x d) ∨ Has x o) : Has x (layOver f ds o fr) := by
  have rows : (∃ d ∈ ds, Has x d) ∨ Has x o → Has x (layPart ds ++ Doc.indent o) := by
    rintro (⟨d, hd, h⟩ | h)
    · exact (has_part h hd).left _
    · exact h.indent.right _
  unfold layOver
  dsimp only
  split
  · rename_i he
    simp only [Bool.and_eq_true, List.isEmpty_iff] at he
    rcases h with h | h
    · exact ((h.before _).before _).before _
    · obtain ⟨l, hl, -⟩ := rows h
      rw [he.1] at hl
      cases hl
  · rcases h with h | h
    · exact (((h.before _).left _).left _).left _
    · exact (((rows h).right _).left _).left _

theorem literals_list {x : Str} {ns : List Node} (h : x ∈ literalsList ns) : ∃ n ∈ ns, x ∈ literals n := by
  induction ns with
  | nil => cases h
  | cons n ns ih =>
    rcases List.mem_append.1 h with h | h
    · exact ⟨n, by simp, h⟩
    · obtain ⟨m, hm, h⟩ := ih h
      exact ⟨m, by simp [hm], h⟩

/-- The literals of the tree are in its layout. -/
def Lits (n : Node) : Prop := ∀ x ∈ literals n, ∀ p, Has x (lay n p)

theorem lits_list {ns : List Node} (h : ∀ n ∈ ns, Lits n) {x : Str} (hx' : x ∈ literalsList ns) :
    ∃ d ∈ (layList ns).map (· .plain), Has x d := by
  obtain ⟨n, hn, hx⟩ := literals_list hx'
  refine ⟨lay n .plain, ?_, h n hn x hx .plain⟩
  clear h hx hx'
  induction ns with
  | nil => cases hn
  | cons m ns ih =>
    rw [layList]
    rcases List.mem_cons.1 hn with rfl | hn
    · exact List.mem_cons_self
    · exact List.mem_cons_of_mem _ (ih hn)

theorem has_paren {x : Str} {n : Node} {ns : List Node} (hn : n ∈ ns) (h : Has x (lay n .plain)) :
    ∃ d ∈ parenDoc ns (layList ns), Has x d := by
  induction ns with
  | nil => cases hn
  | cons m ns ih =>
    rcases List.mem_cons.1 hn with rfl | hn
    · exact ⟨_, by rw [layList, parenDoc]; exact List.mem_cons_self, Has.ite ((h.indent.right _).left _) h⟩
    · obtain ⟨d, hd, h⟩ := ih hn
      exact ⟨d, by rw [layList, parenDoc]; exact List.mem_cons_of_mem _ hd, h⟩

theorem lits_paren {args : List Node} (h : ∀ n ∈ args, Lits n) : Lits (.paren args) := by
  intro x hx p
  obtain ⟨n, hn, hx'⟩ := literals_list (ns := args) hx
  obtain ⟨d, hd, hh⟩ := has_paren hn (h n hn x hx' .plain)
  have hf : Has x ([str!"("] <+> commas (parenDoc args (layList args)) <+> [str!")"]) := ((has_commas hh hd).behind _).before _
  rw [lay]
  match args, h, hn, hf with
  | [m], h, hn, hf =>
    obtain rfl := List.mem_singleton.1 hn
    have hm := h n (by simp) x hx'
    cases p with
    | plain => exact hf
    | block => exact Has.ite ((hm .plain).boxed _) hf
    | operand => exact Has.ite ((hm .plain).boxed _) (((hm .plain).behind _).before _)
    | source => exact (hm .plain).boxed _
    | inline => exact hf
    | side k => exact hm _
  | m :: m' :: ms, h, hn, hf => cases p <;> first | exact Has.wrap hf .plain | exact Has.wrap hf .block | exact Has.wrap hf .operand | exact Has.wrap hf .source | exact Has.wrap hf .inline | exact Has.wrap hf (.side _)

theorem Lits.truthy {n : Node} (h : Lits n) {x : Str} (hx : x ∈ literals n) {d e : Doc} (p : Pos)
    (hd : Has x (lay n p) → Has x e) : Has x (d ++ optional n.truthy e) := by
  have : n.truthy = true := by cases n <;> first | rfl | cases hx
  rw [this]
  exact (hd (h x hx p)).right _

theorem lits_select {es : List Node} {all d : Bool} {on : List Node} {f w g h o l off : Node} {semi : Bool}
    (hes : ∀ m ∈ es, Lits m) (hon : ∀ m ∈ on, Lits m) (hf : Lits f) (hw : Lits w) (hg : Lits g) (hh : Lits h) (ho : Lits o) (hl : Lits l)
    (hoff : Lits off) : Lits (.select es all d on f w g h o l off semi) := by
  intro x hx p
  have hst : ∀ stmt : Doc, Has x stmt → Has x (if semi then stmt <+> [str!";"] else stmt) := fun stmt h => Has.ite (h.before _) h
  rw [lay]
  refine Has.wrap (hst _ ?_) p
  simp only [literals, List.mem_append] at hx
  rcases hx with (((((((hx | hx) | hx) | hx) | hx) | hx) | hx) | hx) | hx
  · refine (((((((Has.left ?_ _).left _).left _).left _).left _).left _).left _)
    obtain ⟨e, he, hx⟩ := lits_list hes hx
    split
    · rename_i e' he'
      rw [he'] at he
      obtain rfl := List.mem_singleton.1 he
      exact hx.behind _
    · exact (has_stacked hx he).indent.right _
  · refine (((((((Has.left ?_ _).left _).left _).left _).left _).left _).left _)
    obtain ⟨e, he, hx⟩ := lits_list hon hx
    have hne : on.isEmpty = false := by
      cases on with
      | nil => cases he
      | cons => rfl
    have hd : ∀ a b c : Doc, Has x (if on.isEmpty then a else b <+> c <+> commas ((layList on).map (· .plain)) <+> [str!")"]) := by
      intro a b c
      rw [hne, if_neg Bool.false_ne_true]
      exact ((has_commas hx he).behind _).before _
    split
    · exact ((hd _ _ _).before _).before _
    · exact (hd _ _ _).left _
  · exact (((((((hf.truthy hx .source) fun h => h.behind _).left _).left _).left _).left _).left _).left _
  · exact ((((((hw.truthy hx .plain) id).left _).left _).left _).left _).left _
  · exact (((((hg.truthy hx .plain) id).left _).left _).left _).left _
  · exact ((((hh.truthy hx .plain) id).left _).left _).left _
  · exact (((ho.truthy hx .plain) id).left _).left _
  · exact ((hl.truthy hx .plain) id).left _
  · exact (hoff.truthy hx .plain) id

theorem lits_case {o : Node} {ws : List Node} {e : Node} (ho : Lits o) (hws : ∀ m ∈ ws, Lits m) (he : Lits e) : Lits (.case o ws e) := by
  intro x hx p
  rw [lay]
  refine Has.wrap (Has.left ?_ _) p
  simp only [literals, List.mem_append] at hx
  rcases hx with (hx | hx) | hx
  · refine Has.left (Has.left ?_ _) _
    have : o.truthy = true := by cases o <;> first | rfl | cases hx
    rw [this]
    exact (ho x hx .plain).behind _
  · refine Has.left (Has.right ?_ _) _
    obtain ⟨d, hd, l, hl, hx⟩ := lits_list hws hx
    exact ⟨l, List.mem_flatten.2 ⟨d, hd, hl⟩, hx⟩
  · exact he.truthy hx .plain fun h => h.behind _

theorem lits (n : Node) : Lits n := by
  induction n using Node.rec (motive_2 := fun ns => ∀ n ∈ ns, Lits n) with
  | nil => rename_i h; cases h
  | cons n ns h1 h2 =>
    rename_i m hm
    rcases List.mem_cons.1 hm with rfl | hm
    · exact h1
    · exact h2 m hm
  | string v q pre =>
    intro x hx p
    obtain rfl := List.mem_singleton.1 hx
    cases pre with
    | none =>
      rw [lay]
      exact Has.wrap ⟨q ++ v ++ q, List.mem_singleton.2 rfl, List.infix_refl _⟩ p
    | some c =>
      rw [lay]
      exact Has.wrap ⟨c ++ q ++ v ++ q, List.mem_singleton.2 rfl, c, [], by simp⟩ p
  | chained l r hl hr =>
    intro x hx p
    rw [lay]
    refine Has.wrap ?_ p
    rcases List.mem_append.1 hx with hx | hx
    · exact ((hl x hx _).before _).before _
    · exact (hr x hx _).behind _
  | func f args ih =>
    intro x hx p
    obtain ⟨d, hd, h⟩ := lits_list ih hx
    rw [lay]
    exact (has_call h hd).wrap p
  | count args d ih =>
    intro x hx p
    obtain ⟨d, hd, h⟩ := lits_list ih hx
    rw [lay]
    exact (((has_commas h hd).behind _).before _).wrap p
  | cast c t hc ht =>
    intro x hx p
    rw [lay]
    refine Has.wrap ?_ p
    rcases List.mem_append.1 hx with hx | hx
    · exact ((((hc x hx _).behind _).before _).before _).before _
    · exact ((ht x hx _).behind _).before _
  | paren args ih => exact lits_paren ih
  | array args ih =>
    intro x hx p
    obtain ⟨d, hd, h⟩ := lits_list ih hx
    rw [lay]
    exact (((has_commas h hd).behind _).before _).wrap p
  | index e is he ih =>
    intro x hx p
    rw [lay]
    refine Has.wrap ?_ p
    rcases List.mem_append.1 hx with hx | hx
    · exact (((he x hx _).before _).before _).before _
    · obtain ⟨d, hd, h⟩ := lits_list ih hx
      exact ((has_commas h hd).behind _).before _
  | arrayAgg c d i r o l hc ho =>
    intro x hx p
    rw [lay]
    refine Has.wrap ?_ p
    rcases List.mem_append.1 hx with hx | hx
    · exact ((((hc x hx _).behind _).before _).before _).before _
    · exact ((ho x hx _).behind _).before _
  | filtered c w hc hw =>
    intro x hx p
    rw [lay]
    refine Has.wrap ?_ p
    rcases List.mem_append.1 hx with hx | hx
    · exact (((hc x hx _).before _).before _).before _
    · exact ((hw x hx _).behind _).before _
  | analytics f part o fr hf hp ho hfr =>
    intro x hx p
    rw [lay]
    refine Has.wrap ?_ p
    simp only [literals, List.mem_append] at hx
    rcases hx with (hx | hx) | hx
    · exact has_over (.inl (hf x hx _))
    · obtain ⟨d, hd, h⟩ := lits_list hp hx
      exact has_over (.inr (.inl ⟨d, hd, h⟩))
    · exact has_over (.inr (.inr (ho x hx _)))
  | datePart part e ih => intro x hx p; rw [lay]; exact ((ih x hx _).behind _).wrap p
  | except_ e args he ih =>
    intro x hx p
    rw [lay]
    refine Has.wrap ?_ p
    rcases List.mem_append.1 hx with hx | hx
    · exact has_star (.inl (he x hx _))
    · exact has_star (.inr (lits_list ih hx))
  | replace e args he ih =>
    intro x hx p
    rw [lay]
    refine Has.wrap ?_ p
    rcases List.mem_append.1 hx with hx | hx
    · exact has_star (.inl (he x hx _))
    · exact has_star (.inr (lits_list ih hx))
  | bitwise l op r hl hr =>
    intro x hx p
    rw [lay]
    refine Has.wrap ?_ p
    rcases List.mem_append.1 hx with hx | hx
    · exact ((hl x hx _).before _).before _
    · exact (hr x hx _).behind _
  | arith op l r hl hr =>
    intro x hx p
    rw [lay]
    refine Has.wrap ?_ p
    rcases List.mem_append.1 hx with hx | hx
    · exact ((hl x hx _).before _).before _
    · exact (hr x hx _).behind _
  | neg e ih =>
    intro x hx p
    rw [lay]
    exact ((ih x hx _).behind _).wrap p
  | cond l q r hl hr =>
    intro x hx p
    rw [lay]
    refine Has.wrap ?_ p
    rcases List.mem_append.1 hx with hx | hx
    · exact ((hl x hx _).before _).before _
    · exact (hr x hx _).behind _
  | boolc op l r hl hr =>
    intro x hx p
    rw [lay]
    rcases List.mem_append.1 hx with hx | hx
    · exact Has.ite ((((hl x hx _).before _).before _).wrap p) (((hl x hx _).left _).wrap p)
    · exact Has.ite (((hr x hx _).behind _).wrap p) ((((hr x hx _).behind _).right _).wrap p)
  | whenThen w t hw ht =>
    intro x hx p
    rw [lay]
    rcases List.mem_append.1 hx with hx | hx
    · exact has_when (.inl (has_clause (hw x hx _)))
    · exact has_when (.inr (ht x hx _))
  | case o ws e ho hws he => exact lits_case ho hws he
  | «alias» e al w he hal =>
    intro x hx p
    rw [lay]
    rcases List.mem_append.1 hx with hx | hx
    · exact Has.ite ((he x hx _).before _) (((he x hx _).before _).wrap p)
    · exact Has.ite (((hal x hx _).behind _).behind _) ((((hal x hx _).behind _).behind _).wrap p)
  | table v sq ih =>
    intro x hx p
    rw [lay]
    exact (Has.ite (((ih x hx _).behind _).before _) (ih x hx _)).wrap p
  | join type l r on us hl hr hon hus =>
    intro x hx p
    rw [lay]
    refine Has.wrap ?_ p
    simp only [literals, List.mem_append] at hx
    rcases hx with ((hx | hx) | hx) | hx
    · refine Has.left (Has.left (Has.ite ?_ ?_) _) _
      · exact ((hl x hx _).before _).before _
      · exact (hl x hx _).left _
    · refine Has.left (Has.left (Has.ite ?_ ?_) _) _
      · exact (hr x hx _).behind _
      · exact ((hr x hx _).behind _).right _
    · exact ((hon.truthy hx .plain) id).left _
    · exact (hus.truthy hx .plain) id
  | unnest v o oa al ih =>
    intro x hx p
    rw [lay]
    exact ((ih x hx _).before _).wrap p
  | combined op l r hl hr =>
    intro x hx p
    rw [lay]
    refine Has.wrap ?_ p
    rcases List.mem_append.1 hx with hx | hx
    · exact (hl x hx _).left _
    · exact (Has.ite ((hr x hx _).behind _) ((hr x hx _).right _)).right _
  | on e ih => intro x hx p; rw [lay]; exact has_clause (ih x hx _)
  | using_ e ih => intro x hx p; rw [lay]; exact has_clause (ih x hx _)
  | where_ e ih => intro x hx p; rw [lay]; exact has_clause (ih x hx _)
  | having e ih => intro x hx p; rw [lay]; exact has_clause (ih x hx _)
  | groupBy args rollup each ih =>
    intro x hx p
    obtain ⟨d, hd, h⟩ := lits_list ih hx
    rw [lay]
    exact has_listed h hd
  | orderItem v asc desc ih => intro x hx p; rw [lay]; exact (ih x hx _).before _
  | orderBy args ih =>
    intro x hx p
    obtain ⟨d, hd, h⟩ := lits_list ih hx
    rw [lay]
    exact Has.ite ((has_commas h hd).behind _) (has_listed h hd)
  | offset v ih => intro x hx p; rw [lay]; exact (ih x hx _).behind _
  | limit all v ih =>
    intro x hx p
    cases all with
    | true => cases hx
    | false => rw [lay, if_neg Bool.false_ne_true]; exact (ih x hx _).behind _
  | select es all d on f w g h o l off semi ies ion ief iw ig ih io il ioff => exact lits_select ies ion ief iw ig ih io il ioff
  | withQuery name q ih =>
    intro x hx p
    rw [lay]
    exact ((ih x hx _).indent.right _).left _
  | withStmt qs s ihq ihs =>
    intro x hx p
    rw [lay]
    refine Has.wrap ?_ p
    rcases List.mem_append.1 hx with hx | hx
    · obtain ⟨d, hd, h⟩ := lits_list ihq hx
      exact ((has_stacked h hd).behind _).left _
    · exact (ihs x hx _).right _
  | _ => intro x hx p; exact absurd hx (by simp [literals])

theorem has_text {x : Str} {d : Doc} (h : Has x d) : x <:+: Doc.text d := by
  induction d with
  | nil => obtain ⟨l, hl, -⟩ := h; cases hl
  | cons a d ih =>
    obtain ⟨l, hl, h⟩ := h
    by_cases hd : d = []
    · subst hd
      obtain rfl := List.mem_singleton.1 hl
      exact h
    · rw [text_cons hd]
      rcases List.mem_cons.1 hl with rfl | hl
      · exact infix_left h _
      · exact infix_right (infix_right (ih ⟨l, hl, h⟩) ['\n']) a

end SqlV.Core
