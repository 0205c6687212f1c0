import Verif.Spec.Printable
import Verif.Lemmas.Repr
import Verif.Lemmas.Prints
import Verif.Lemmas.Shown

/-! Of which trees the printer makes a text: both directions, for every tree. -/

set_option linter.unusedSectionVars false
set_option linter.unusedSimpArgs false
set_option linter.unusedTactic false

namespace SqlV.Printable

open SqlV.Core (Works works_ok works_pure)
open SqlV.Shown (present)

/-! ### Exceptions -/

theorem works_okI {α : Type} (a : α) : Works (.ok a : Except PyErr α) ↔ True := ⟨fun _ => trivial, fun _ => ⟨a, rfl⟩⟩

theorem works_pureI {α : Type} (a : α) : Works (pure a : Except PyErr α) ↔ True := works_okI a

theorem works_errorI {α : Type} (e : PyErr) : Works (.error e : Except PyErr α) ↔ False :=
  ⟨fun ⟨_, h⟩ => (by cases h), False.elim⟩

theorem works_bindI {α β : Type} (x : Except PyErr α) (f : α → Except PyErr β) :
    Works (x >>= f) ↔ ∃ a, x = .ok a ∧ Works (f a) := by
  cases x with
  | ok a => exact ⟨fun h => ⟨a, rfl, h⟩, fun ⟨b, hb, h⟩ => by cases hb; exact h⟩
  | error e => exact ⟨fun ⟨_, h⟩ => (by cases h), fun ⟨_, h, _⟩ => (by cases h)⟩

/-- What comes after does not depend on the value. -/
theorem works_step {α β : Type} {x : Except PyErr α} {f : α → Except PyErr β} {p : Prop} (h : ∀ a, Works (f a) ↔ p) :
    Works (x >>= f) ↔ Works x ∧ p := by
  rw [works_bindI]
  constructor
  · rintro ⟨a, rfl, hf⟩
    exact ⟨⟨a, rfl⟩, (h a).1 hf⟩
  · rintro ⟨⟨a, rfl⟩, hp⟩
    exact ⟨a, rfl, (h a).2 hp⟩

theorem works_last {α β : Type} {x : Except PyErr α} {f : α → Except PyErr β} (h : ∀ a, Works (f a)) :
    Works (x >>= f) ↔ Works x := by
  rw [works_step (p := True) fun a => ⟨fun _ => trivial, fun _ => h a⟩]
  simp

theorem works_mapI {α β : Type} (x : Except PyErr α) (f : α → β) : Works (x.map f) ↔ Works x := by
  cases x with
  | ok a => exact ⟨fun _ => ⟨a, rfl⟩, fun _ => ⟨f a, rfl⟩⟩
  | error e => exact ⟨fun ⟨_, h⟩ => (by cases h), fun ⟨_, h⟩ => (by cases h)⟩

theorem works_iteI {α : Type} (c : Prop) [Decidable c] (x y : Except PyErr α) :
    Works (if c then x else y) ↔ if c then Works x else Works y := by split <;> rfl

section

variable [E : PyEnv] [L : LawfulPyEnv E]

theorem works_mapRI {f : R → RStr} {ns : List Node} : Works (mapR f (renderList ns)) ↔ ∀ n ∈ ns, Works (f (render n)) := by
  induction ns with
  | nil => simp [renderList, mapR, works_okI]
  | cons n ns ih =>
    rw [renderList, mapR, works_step (p := ∀ n ∈ ns, Works (f (render n)))]
    · simp
    · intro a
      rw [works_last fun _ => works_pure _, ih]

/-! ### The helpers of the printer -/

theorem truthy_eq (n : Node) : (render n).truthy = present n := by
  cases n <;> simp only [render, R.ofStr, R.ofTransform, R.select, R.paren, R.alias, present]

theorem isParen_eq (n : Node) : (render n).isParen = isParens n := by
  cases n <;> simp only [render, R.ofStr, R.ofTransform, R.select, R.paren, R.alias, isParens]

theorem isStatement_eq (n : Node) : (render n).isSelect = isStatement n := by
  cases n <;> simp only [render, R.ofStr, R.ofTransform, R.select, R.paren, R.alias, isStatement]

theorem renderList_nil : renderList [] = [] := by simp [renderList]

theorem renderList_cons (n : Node) (ns : List Node) : renderList (n :: ns) = render n :: renderList ns := by simp [renderList]

theorem select_sub (n : Node) (es on : List R) (all d : Bool) (f w g h o l off : R) (semi : Bool) :
    Works (R.select n es all d on f w g h o l off semi).sub ↔ Works (selectBody es all d on f w g h o l off) := by
  unfold R.select
  exact works_last fun _ => ⟨_, rfl⟩

theorem select_t (n : Node) (es on : List R) (all d : Bool) (f w g h o l off : R) (semi : Bool) :
    Works (R.select n es all d on f w g h o l off semi).t ↔ Works (selectBody es all d on f w g h o l off) := by
  unfold R.select
  exact works_last fun _ => ⟨_, rfl⟩

/-- The text of a statement with and without indentation. -/
theorem sub_iff {n : Node} (hs : (render n).isSelect = true) : Works (render n).sub ↔ Works (render n).t := by
  cases n <;> first | exact absurd hs Bool.false_ne_true | skip
  rw [render, select_sub, select_t]

/-- Where the text in parentheses has a line break there is something in them, with a text. -/
theorem paren_arg0 {args : List Node} {x : Str} (h : parenStr (renderList args) = .ok x) (hx : hasNL x = true) :
    Works (render (.paren args)).arg0 := by
  cases args with
  | nil =>
    obtain rfl : str!"()" = x := Except.ok.inj h
    exact absurd hx (by decide)
  | cons a as =>
    show Works (render a).t
    have hw : Works (parenStr (renderList (a :: as))) := ⟨x, h⟩
    unfold parenStr at hw
    rw [works_last fun _ => works_pure _, works_mapRI] at hw
    have ha := hw a (by simp)
    by_cases hs : (render a).isSelect = true
    · rw [if_pos hs, works_last fun _ => works_pure _] at ha
      exact sub_iff hs |>.1 ha
    · rwa [if_neg hs] at ha

theorem arg0_of {v : Node} {x : Str} (hp : (render v).isParen = true) (h : (render v).t = .ok x) (hx : hasNL x = true) :
    Works (render v).arg0 := by
  cases v <;> first | exact absurd hp Bool.false_ne_true | skip
  exact paren_arg0 h hx

theorem works_clauseBodyI (v : Node) : Works (clauseBody (render v)) ↔ Works (render v).t := by
  unfold clauseBody
  constructor
  · intro h
    obtain ⟨a, h, -⟩ := (works_bindI _ _).1 h
    exact ⟨a, h⟩
  · rintro ⟨x, hx⟩
    refine (works_bindI _ _).2 ⟨x, hx, ?_⟩
    split
    · rename_i hc
      simp only [Bool.and_eq_true] at hc
      rw [works_last fun _ => works_pure _]
      exact arg0_of hc.1 hx hc.2
    · split <;> exact works_pure _

theorem works_whenI (w t : Node) : Works (whenStr (render w) (render t)) ↔ Works (render w).t ∧ Works (render t).s := by
  unfold whenStr
  dsimp only
  have key : ∀ s : Str, Works (do
      let y ← (render t).s
      (return s ++ str!"THEN " ++ y : RStr)) ↔ Works (render t).s := fun s => works_last fun _ => works_pure _
  constructor
  · intro h
    obtain ⟨a, h1, h2⟩ := (works_bindI _ _).1 h
    refine ⟨⟨a, h1⟩, ?_⟩
    split at h2
    · obtain ⟨b, -, h3⟩ := (works_bindI _ _).1 h2
      obtain ⟨c, -, h4⟩ := (works_bindI _ _).1 h3
      exact (key _).1 h4
    · split at h2
      · obtain ⟨c, -, h4⟩ := (works_bindI _ _).1 h2
        exact (key _).1 h4
      · obtain ⟨c, -, h4⟩ := (works_bindI _ _).1 h2
        exact (key _).1 h4
  · rintro ⟨⟨x, hx⟩, ht⟩
    refine (works_bindI _ _).2 ⟨x, hx, ?_⟩
    split
    · rename_i hc
      simp only [Bool.and_eq_true] at hc
      obtain ⟨a, ha⟩ := arg0_of hc.1 hx hc.2
      exact (works_bindI _ _).2 ⟨a, ha, (works_bindI _ _).2 ⟨_, rfl, (key _).2 ht⟩⟩
    · split
      · exact (works_bindI _ _).2 ⟨_, rfl, (key _).2 ht⟩
      · exact (works_bindI _ _).2 ⟨_, rfl, (key _).2 ht⟩

/-- GROUP BY and ORDER BY. -/
def someWork (args : List Node) : Prop :=
  match args with
  | [] => False
  | n :: ns => (if ns.isEmpty then Works (render n).t else Works (render n).s) ∧ ∀ m ∈ ns, Works (render m).s

theorem works_orderByI (args : List Node) (b : Bool) : Works (orderByStr (renderList args) b) ↔ someWork args := by
  match args with
  | [] => rw [renderList_nil, orderByStr, works_errorI]; rfl
  | [a] =>
    rw [renderList_cons, renderList_nil, orderByStr, works_last fun _ => works_pure _]
    simp [someWork]
  | a :: a' :: as =>
    have h := works_mapRI (f := R.s) (ns := a :: a' :: as)
    rw [renderList_cons, renderList_cons] at h ⊢
    rw [orderByStr, works_last, h]
    · simp [someWork]
    · intro x
      split <;> exact works_pure _
    · intro hx
      cases hx
    · intro x hx
      cases hx

theorem works_groupByI (args : List Node) (b : Bool) : Works (groupByStr (renderList args) b) ↔ someWork args := by
  unfold groupByStr
  dsimp only
  match args with
  | [] => rw [renderList_nil]; exact ⟨fun ⟨_, h⟩ => (by cases h), False.elim⟩
  | [a] =>
    rw [renderList_cons, renderList_nil]
    dsimp only
    refine (works_last fun _ => ⟨_, rfl⟩).trans ?_
    simp [someWork]
  | a :: a' :: as =>
    have h := works_mapRI (f := R.s) (ns := a :: a' :: as)
    rw [renderList_cons, renderList_cons] at h ⊢
    dsimp only
    refine (works_last fun _ => ⟨_, rfl⟩).trans ?_
    rw [h]
    simp [someWork]

theorem works_funcI (name : Str) (args : List Node) : Works (funcStr name (renderList args)) ↔ ∀ a ∈ args, Works (render a).t := by
  unfold funcStr
  rw [works_last, works_mapRI]
  intro xs
  split <;> exact works_pure _

theorem works_countI (name : Str) (args : List Node) (d : Bool) :
    Works (countStr name (renderList args) d) ↔ ∀ a ∈ args, Works (render a).t := by
  unfold countStr
  rw [works_last fun _ => works_pure _, works_mapRI]

theorem works_arrayAggI (name : Str) (c o : Node) (d i r : Bool) (l : Option Int) :
    Works (arrayAggStr name (render c) d i r (render o) l) ↔
      Works (render c).t ∧ if present o then Works (render o).flat else True := by
  unfold arrayAggStr
  dsimp only
  rw [truthy_eq]
  refine works_step fun a => ?_
  split
  · exact works_last fun _ => ⟨_, rfl⟩
  · exact ⟨fun _ => trivial, fun _ => works_pure _⟩

/-- A part of the text that may be missing. -/
theorem works_part {o : Node} {K : Str → RStr} {p : Prop} (hK : ∀ s, Works (K s) ↔ p) (g : Str → Str) (s : Str) :
    Works (if present o = true then do
        let x ← (render o).t
        let y ← pure (g x)
        K y
      else do
        let y ← pure s
        K y) ↔ (if present o then Works (render o).t else True) ∧ p := by
  split
  · exact works_step fun x => hK _
  · exact (hK s).trans (by simp)

theorem works_optClauseI (name : Str) (c : Node) : Works (optClause name (render c)) ↔ if present c then Works (render c).t else True := by
  unfold optClause
  rw [truthy_eq]
  split
  · exact works_last fun _ => works_pure _
  · exact ⟨fun _ => trivial, fun _ => works_pure _⟩

theorem works_analyticsI (f o fr : Node) (part : List Node) :
    Works (analyticsStr (render f) (renderList part) (render o) (render fr)) ↔
      Works (render f).t ∧ (∀ a ∈ part, Works (render a).t) ∧ (if present o then Works (render o).t else True) ∧
        if present fr then Works (render fr).t else True := by
  unfold analyticsStr
  dsimp only
  simp only [truthy_eq]
  have k1 : ∀ s : Str, Works (if present fr = true then do
      let x ← (render fr).t
      let s ← pure ((if hasNL s = true then s ++ str!"\n " else s) ++ x)
      pure (s ++ if hasNL s = true then str!"\n)" else str!")")
    else do
      let s ← pure s
      pure (s ++ if hasNL s = true then str!"\n)" else str!")")) ↔ if present fr then Works (render fr).t else True := by
    intro s
    split
    · exact works_last fun _ => works_pure _
    · exact ⟨fun _ => trivial, fun _ => works_pure _⟩
  have k2 := fun s : Str => works_part (o := o) k1 (fun x => s ++ str!"\n ORDER BY" ++ indentNL x) s
  refine works_step fun a => ?_
  match part with
  | [] =>
    rw [renderList_nil]
    exact (k2 _).trans (by simp)
  | [p] =>
    rw [renderList_cons, renderList_nil]
    dsimp only
    simp only [List.mem_singleton, forall_eq]
    exact works_step fun x => k2 _
  | p :: p' :: ps =>
    have h := works_mapRI (f := R.t) (ns := p :: p' :: ps)
    rw [renderList_cons, renderList_cons] at h ⊢
    dsimp only
    rw [← h]
    exact works_step fun x => k2 _

theorem works_selectAllI (e : Node) (kw : Str) (args : List Node) : Works (selectAllStr (render e) kw (renderList args)) ↔
    Works (render e).t ∧ args ≠ [] ∧ ∀ a ∈ args, Works (render a).t := by
  unfold selectAllStr
  refine works_step fun x => ?_
  match args with
  | [] => rw [renderList_nil]; simpa using works_errorI _
  | [a] =>
    rw [renderList_cons, renderList_nil]
    dsimp only
    rw [works_last fun _ => works_pure _]
    simp
  | a :: a' :: as =>
    have h := works_mapRI (f := R.t) (ns := a :: a' :: as)
    rw [renderList_cons, renderList_cons] at h ⊢
    dsimp only
    rw [works_last fun _ => works_pure _, h]
    simp

theorem works_caseI (o e : Node) (ws : List Node) : Works (caseStr (render o) (renderList ws) (render e)) ↔
    (if present o then Works (render o).t else True) ∧ (∀ a ∈ ws, Works (render a).t) ∧ if present e then Works (render e).t else True := by
  unfold caseStr
  dsimp only
  simp only [truthy_eq]
  have key : ∀ s : Str, Works (do
      let ws ← mapR R.t (renderList ws)
      if present e = true then do
        let x ← (render e).t
        let s ← pure (s ++ str!"\n " ++ Str.join str!"\n " ws ++ str!"\n ELSE " ++ x)
        pure (s ++ str!"\nEND")
      else do
        let s ← pure (s ++ str!"\n " ++ Str.join str!"\n " ws)
        pure (s ++ str!"\nEND")) ↔ (∀ a ∈ ws, Works (render a).t) ∧ if present e then Works (render e).t else True := by
    intro s
    rw [← works_mapRI]
    refine works_step fun xs => ?_
    split
    · exact works_last fun _ => works_pure _
    · exact ⟨fun _ => trivial, fun _ => works_pure _⟩
  split
  · exact works_step fun x => key _
  · exact (key _).trans (by simp)

theorem works_selectI (es on : List Node) (all d : Bool) (f w g h o l off : Node) :
    Works (selectBody (renderList es) all d (renderList on) (render f) (render w) (render g) (render h) (render o) (render l) (render off)) ↔
      (all = true ∨ d = false ∨ ∀ a ∈ on, Works (render a).s) ∧ (∀ a ∈ es, Works (render a).t) ∧
        (if present f then Works (render f).fromPos else True) ∧ (if present w then Works (render w).t else True) ∧
        (if present g then Works (render g).t else True) ∧ (if present h then Works (render h).t else True) ∧
        (if present o then Works (render o).t else True) ∧ (if present l then Works (render l).t else True) ∧
        (if present off then Works (render off).t else True) := by
  rw [Shown.selectBody_eq]
  have h1 : Works (if all = true then pure str!"SELECT ALL"
      else if d = true then
        if (renderList on).isEmpty = true then pure str!"SELECT DISTINCT"
        else do
          let xs ← mapR R.s (renderList on)
          pure (str!"SELECT DISTINCT ON (" ++ Str.join str!", " xs ++ str!")")
      else pure str!"SELECT" : RStr) ↔ all = true ∨ d = false ∨ ∀ a ∈ on, Works (render a).s := by
    cases all
    · cases d
      · simpa using works_pure _
      · simp only [Bool.false_eq_true, if_false, if_true, false_or, Bool.true_eq_false]
        cases on with
        | nil => simpa [renderList] using works_pure _
        | cons a as =>
          rw [if_neg (by simp [renderList]), ← works_mapRI]
          exact works_last fun _ => works_pure _
    · simpa using works_pure _
  have h2 : Works (match renderList es with
      | [e] => do
        let x ← e.t
        pure (' ' :: x)
      | es => do
        let xs ← mapR R.t es
        pure (str!"\n " ++ Str.join str!",\n " (xs.map indentNL)) : RStr) ↔ ∀ a ∈ es, Works (render a).t := by
    rw [← works_mapRI]
    rcases es with _ | ⟨e, _ | ⟨e', es⟩⟩
    · exact works_last fun _ => works_pure _
    · rw [works_mapRI]
      simp only [renderList, List.mem_singleton, forall_eq]
      exact works_last fun _ => works_pure _
    · simp only [renderList]
      exact works_last fun _ => works_pure _
  have h3 : Works (if (render f).truthy then do
      let x ← (render f).fromPos
      pure (str!"\nFROM " ++ x)
    else pure [] : RStr) ↔ if present f then Works (render f).fromPos else True := by
    rw [truthy_eq]
    split
    · exact works_last fun _ => works_pure _
    · exact ⟨fun _ => trivial, fun _ => works_pure _⟩
  rw [← h1, ← h2, ← h3]
  refine works_step fun _ => works_step fun _ => works_step fun _ => ?_
  have next : ∀ {c : Node} {name : Str} {f : Str → RStr} {p : Prop}, (∀ a, Works (f a) ↔ p) →
      (Works (optClause name (render c) >>= f) ↔ (if present c then Works (render c).t else True) ∧ p) := by
    intro c name f p h
    rw [works_step h, works_optClauseI]
  exact next fun _ => next fun _ => next fun _ => next fun _ => next fun _ =>
    (works_last fun _ => works_pure _).trans (works_optClauseI _ _)

theorem works_parenI (args : List Node) : Works (parenStr (renderList args)) ↔ ∀ a ∈ args, Works (render a).t := by
  unfold parenStr
  rw [works_last fun _ => works_pure _, works_mapRI]
  refine forall_congr' fun a => imp_congr_right fun _ => ?_
  by_cases hs : (render a).isSelect = true
  · rw [if_pos hs, works_last fun _ => works_pure _, sub_iff hs]
  · rw [if_neg hs]

/-- A side of a join. -/
def sideWorks (x : R) : Prop :=
  match x.aliased with
  | some (p, _, a) => Works p ∧ Works a
  | none => Works x.peel

theorem works_sideI (lead : Str) (x : R) : Works (joinSide lead x) ↔ sideWorks x := by
  unfold joinSide sideWorks
  cases x.aliased with
  | none =>
    dsimp only
    exact works_last fun _ => works_pure _
  | some v =>
    obtain ⟨p, w, a⟩ := v
    dsimp only
    exact works_step fun _ => works_last fun _ => works_pure _

theorem works_joinI (type upper : Str) (l r on us : Node) : Works (joinStr type upper (render l) (render r) (render on) (render us)) ↔
    sideWorks (render l) ∧ sideWorks (render r) ∧
      if present on then Works (render on).t else if present us then Works (render us).t else True := by
  unfold joinStr
  rw [works_step (p := sideWorks (render l) ∧ if present on then Works (render on).t else if present us then Works (render us).t else True),
    works_sideI]
  · exact ⟨fun ⟨a, b, c⟩ => ⟨b, a, c⟩, fun ⟨a, b, c⟩ => ⟨b, a, c⟩⟩
  · intro a
    rw [← works_sideI []]
    refine works_step fun b => ?_
    simp only [truthy_eq]
    split
    · exact works_last fun _ => works_pure _
    · split
      · exact works_last fun _ => works_pure _
      · exact ⟨fun _ => trivial, fun _ => works_pure _⟩

/-! ### Conditions -/

theorem works_boolE {type : Str} {l r : Node} {b : Bool} (h : Works (boolStr type (render l) (render r) b)) :
    Works (render l).t ∧ Works (render r).t := by
  unfold boolStr at h
  obtain ⟨x, h1, h⟩ := (works_bindI _ _).1 h
  obtain ⟨y, h2, -⟩ := (works_bindI _ _).1 h
  exact ⟨⟨x, h1⟩, ⟨y, h2⟩⟩

/-- What a condition asks of its operands if it is long. -/
structure Operand (n : Node) : Prop where
  nl : n.isBoolc = true → Works (render n).nl
  arg0 : isParens n = true → Works (render n).arg0

theorem works_boolI {type : Str} {l r : Node} {b : Bool} (hl : Works (render l).t) (hr : Works (render r).t) (ol : Operand l)
    (or' : Operand r) : Works (boolStr type (render l) (render r) b) := by
  have arg : ∀ {x : Node}, Works (render x).t → Operand x → Works (if (render x).isBoolc then (render x).nl
      else if (render x).isParen then do
        let y ← (render x).arg0
        return if hasNL y then str!"(\n " ++ indentNL y ++ str!"\n)" else str!"(" ++ y ++ str!")"
      else (render x).t) := by
    intro x hx ho
    split
    · exact ho.nl (by rw [← Core.isBoolc_render]; assumption)
    · split
      · exact (works_last fun _ => works_pure _).2 (ho.arg0 (by rw [← isParen_eq]; assumption))
      · exact hx
  unfold boolStr
  refine hl.bind fun _ _ => hr.bind fun _ _ => Core.Works.ite (fun _ => works_pure _) fun _ => ?_
  exact (arg hl ol).bind fun _ _ => (arg hr or').bind fun _ _ => works_pure _

/-! ### All trees -/

/-- The text of the tree can be had in this way. -/
def Ask (how : How) (n : Node) : Prop :=
  match how with
  | .plain => Works (render n).t
  | .str => Works (render n).s
  | .source => Works (render n).fromPos
  | .side => sideWorks (render n)
  | .inner => Works (render n).peel

theorem ask_str {n : Node} {s : RStr} (ht : (render n).t = s) (hs : (render n).s = s) (hp : (render n).peel = s.map fun y => ⟨0, false, y⟩)
    (hf : (render n).fromPos = s) (ha : (render n).aliased = none) (how : How) : Ask how n ↔ Works s := by
  cases how
  · rw [Ask, ht]
  · rw [Ask, hs]
  · rw [Ask, hf]
  · rw [Ask, sideWorks, ha, hp, works_mapI]
  · rw [Ask, hp, works_mapI]

theorem ask_transform {n : Node} {t s : RStr} (ht : (render n).t = t) (hs : (render n).s = s) (hp : (render n).peel = t.map fun y => ⟨0, false, y⟩)
    (hf : (render n).fromPos = t) (ha : (render n).aliased = none) (how : How) : Ask how n ↔ if how = .str then Works s else Works t := by
  cases how
  · rw [Ask, ht]; simp
  · rw [Ask, hs]; simp
  · rw [Ask, hf]; simp
  · rw [Ask, sideWorks, ha, hp, works_mapI]; simp
  · rw [Ask, hp, works_mapI]; simp

/-- Necessary and sufficient: the former where the flag is false, the latter where it is true. -/
def Rel (p : Prop) (q : Bool → Prop) : Prop := (p → q false) ∧ (q true → p)

theorem Rel.congr {p p' : Prop} {q q' : Bool → Prop} (hp : p ↔ p') (hq : ∀ s, q s ↔ q' s) (h : Rel p' q') : Rel p q :=
  ⟨fun x => (hq _).2 (h.1 (hp.1 x)), fun x => hp.2 (h.2 ((hq _).1 x))⟩

theorem Rel.refl {p : Prop} : Rel p fun _ => p := ⟨id, id⟩

theorem Rel.true {q : Bool → Prop} (h : ∀ s, q s) : Rel True q := ⟨fun _ => h _, fun _ => trivial⟩

theorem Rel.false {q : Bool → Prop} (h : ∀ s, ¬ q s) : Rel False q := ⟨False.elim, fun x => h _ x⟩

theorem Rel.and {p p' : Prop} {q q' : Bool → Prop} (h1 : Rel p q) (h2 : Rel p' q') : Rel (p ∧ p') fun s => q s ∧ q' s :=
  ⟨fun h => ⟨h1.1 h.1, h2.1 h.2⟩, fun h => ⟨h1.2 h.1, h2.2 h.2⟩⟩

theorem Rel.or {p p' : Prop} {q q' : Bool → Prop} (h1 : Rel p q) (h2 : Rel p' q') : Rel (p ∨ p') fun s => q s ∨ q' s :=
  ⟨fun h => h.imp h1.1 h2.1, fun h => h.imp h1.2 h2.2⟩

theorem Rel.ite {c : Prop} [Decidable c] {p p' : Prop} {q q' : Bool → Prop} (h1 : c → Rel p q) (h2 : ¬ c → Rel p' q') :
    Rel (if c then p else p') fun s => if c then q s else q' s := by
  split
  · exact h1 ‹_›
  · exact h2 ‹_›

theorem Rel.opt {p : Prop} {b : Bool} {c : Bool → Bool} (h : Rel p fun s => c s = Bool.true) :
    Rel (if b then p else True) fun s => (!b || c s) = Bool.true := by
  cases b
  · exact Rel.true fun _ => rfl
  · simpa using h

theorem printsList_iff {s : Bool} {how : How} {l : List Node} : printsList s how l = true ↔ ∀ n ∈ l, prints s how n = true := by
  induction l with
  | nil => simp [printsList]
  | cons n ns ih => simp [printsList, ih]

/-- The text of the tree can be had exactly if the tree `prints`, and that of long conditions. -/
structure Fits (n : Node) : Prop where
  ask : ∀ how, Rel (Ask how n) fun s => prints s how n = true
  nl : n.isBoolc = true → prints true .plain n = true → Works (render n).nl

theorem Rel.all {how : How} {l : List Node} (h : ∀ n ∈ l, Fits n) : Rel (∀ n ∈ l, Ask how n) fun s => printsList s how l = Bool.true :=
  Rel.congr Iff.rfl (fun _ => printsList_iff)
    ⟨fun x n hn => ((h n hn).ask how).1 (x n hn), fun x n hn => ((h n hn).ask how).2 (x n hn)⟩

theorem Rel.some {l : List Node} (h : ∀ n ∈ l, Fits n) : Rel (someWork l) fun s => printsSome s l = Bool.true := by
  cases l with
  | nil => exact Rel.false fun s => by simp [printsSome]
  | cons n ns =>
    refine Rel.congr Iff.rfl (fun s => by rw [printsSome, Bool.and_eq_true]) (Rel.and ?_ (Rel.all (how := .str) fun m hm => h m (by simp [hm])))
    cases hn : ns.isEmpty
    · exact (h n (by simp)).ask .str
    · exact (h n (by simp)).ask .plain

theorem operand {n : Node} (h : Fits n) (hp : prints true .plain n = true) (he : isHollow n = false) : Operand n where
  nl := fun hb => h.nl hb hp
  arg0 := by
    intro hn
    cases n <;> first | exact absurd hn Bool.false_ne_true | skip
    rename_i args
    cases args with
    | nil => exact absurd he (by decide)
    | cons a as =>
      have := (h.ask .plain).2 hp
      exact (works_parenI _).1 this a (by simp)

theorem fits_of {n : Node} {p : Prop} (h : ∀ how, Ask how n ↔ p) (hr : ∀ how, Rel p fun s => prints s how n = true)
    (hb : n.isBoolc = false) : Fits n where
  ask := fun how => Rel.congr (h how) (fun _ => Iff.rfl) (hr how)
  nl := fun h => by rw [hb] at h; cases h

/-- Objects with `__str__` only. -/
macro "str_fits" h:term : tactic =>
  `(tactic| refine fits_of (ask_str rfl rfl rfl rfl rfl) (fun how => Rel.congr $h (fun s => by simp only [prints, Bool.and_eq_true, and_assoc]; rfl) ?_) rfl)

theorem ask_select {n : Node} {es on : List R} {all d : Bool} {f w g h o l off : R} {semi : Bool}
    (hn : render n = R.select n es all d on f w g h o l off semi) (how : How) :
    Ask how n ↔ if how = .str then Works (pyRepr n) else Works (selectBody es all d on f w g h o l off) := by
  have h1 := select_sub n es on all d f w g h o l off semi
  have h2 := select_t n es on all d f w g h o l off semi
  cases how
  · rw [Ask, hn, h2]; rfl
  · rw [Ask, hn]; rfl
  · rw [Ask, hn]; exact h2
  · rw [Ask, hn]; exact (works_mapI _ _).trans h1
  · rw [Ask, hn]; exact (works_mapI _ _).trans h1

theorem ask_paren (args : List Node) (how : How) : Ask how (.paren args) ↔ match how with
    | .source => ∃ a as, args = a :: as ∧ Ask .plain a
    | .side | .inner => ∃ a as, args = a :: as ∧ Ask .inner a
    | _ => ∀ a ∈ args, Ask .plain a := by
  have hp : Works (render (.paren args)).peel ↔ ∃ a as, args = a :: as ∧ Works (render a).peel := by
    rw [render]
    cases args with
    | nil => simpa [renderList, R.paren] using works_errorI _
    | cons a as =>
      rw [renderList, R.paren]
      dsimp only
      rw [works_mapI]
      exact ⟨fun h => ⟨a, as, rfl, h⟩, fun ⟨_, _, e, h⟩ => by cases e; exact h⟩
  cases how
  · exact works_parenI args
  · exact works_parenI args
  · show Works (render (.paren args)).fromPos ↔ ∃ a as, args = a :: as ∧ Works (render a).t
    rw [render]
    cases args with
    | nil => simpa [renderList, R.paren] using works_errorI _
    | cons a as =>
      rw [renderList, R.paren]
      dsimp only
      refine Iff.trans (b := Works (render a).t) ?_ ⟨fun h => ⟨a, as, rfl, h⟩, fun ⟨_, _, e, h⟩ => by cases e; exact h⟩
      by_cases hs : (render a).isSelect = true
      · rw [if_pos hs, ← sub_iff hs]
        exact works_last fun _ => works_pure _
      · rw [if_neg hs]
        exact works_last fun _ => works_pure _
  · exact hp
  · exact hp

theorem ask_alias (e a : Node) (w : Bool) (how : How) : Ask how (.alias e a w) ↔ match how with
    | .str => False
    | .source => (if isParens e then Ask .source e else Ask .plain e) ∧ Ask .plain a
    | .side => Ask .inner e ∧ Ask .str a
    | _ => Ask .plain e ∧ Ask .plain a := by
  have ht : Works (render (.alias e a w)).t ↔ Ask .plain e ∧ Ask .plain a := by
    show Works (aliasStr (render e).t (render a) w) ↔ _
    exact works_step fun _ => works_last fun _ => works_pure _
  cases how
  · exact ht
  · exact works_errorI _
  · show Works (do
      let x ← (if (render e).isParen then (render e).fromPos else (render e).t)
      if x.isEmpty then aliasStr (render e).t (render a) w else aliasStr (.ok x) (render a) w) ↔ _
    rw [isParen_eq]
    have h2 : ∀ x : Str, Works (aliasStr (.ok x) (render a) w) ↔ Ask .plain a := fun x => works_last fun _ => works_pure _
    cases hp : isParens e
    · simp only [Bool.false_eq_true, if_false]
      rw [works_bindI]
      constructor
      · rintro ⟨x, hx, h⟩
        refine ⟨⟨x, hx⟩, ?_⟩
        split at h
        · exact (ht.1 h).2
        · exact (h2 x).1 h
      · rintro ⟨⟨x, hx⟩, h⟩
        refine ⟨x, hx, ?_⟩
        split
        · exact ht.2 ⟨⟨x, hx⟩, h⟩
        · exact (h2 x).2 h
    · simp only [if_true]
      cases e <;> first | exact absurd hp Bool.false_ne_true | skip
      rename_i args
      have hne : ∀ x, (render (.paren args)).fromPos = .ok x → x.isEmpty = false := by
        intro x hx
        rw [render] at hx
        cases args with
        | nil => cases hx
        | cons b bs =>
          rw [renderList, R.paren] at hx
          dsimp only at hx
          split at hx
          · cases hs : (render b).sub with
            | error _ => rw [hs] at hx; cases hx
            | ok y => rw [hs] at hx; cases hx; rfl
          · cases hs : (render b).t with
            | error _ => rw [hs] at hx; cases hx
            | ok y => rw [hs] at hx; cases hx; rfl
      rw [works_bindI]
      constructor
      · rintro ⟨x, hx, h⟩
        rw [hne x hx] at h
        exact ⟨⟨x, hx⟩, (h2 x).1 h⟩
      · rintro ⟨⟨x, hx⟩, h⟩
        refine ⟨x, hx, ?_⟩
        rw [hne x hx]
        exact (h2 x).2 h
  · rfl
  · exact (works_mapI _ _).trans ht

theorem fits_step (n : Node) (ih : ∀ m, sizeOf m < sizeOf n → Fits m) : Fits n := by
  have list : ∀ ns : List Node, sizeOf ns < sizeOf n → ∀ a ∈ ns, Fits a := by
    intro ns hs a ha
    exact ih a (by have := List.sizeOf_lt_of_mem ha; omega)
  cases n with
  | none => str_fits works_okI _; exact Rel.true fun _ => trivial
  | raw v => str_fits works_okI _; exact Rel.true fun _ => trivial
  | column v => str_fits works_okI _; exact Rel.true fun _ => trivial
  | type v => str_fits works_okI _; exact Rel.true fun _ => trivial
  | string v q p => str_fits works_okI _; exact Rel.true fun _ => trivial
  | int i => str_fits works_okI _; exact Rel.true fun _ => trivial
  | float i => str_fits works_okI _; exact Rel.true fun _ => trivial
  | null => str_fits works_okI _; exact Rel.true fun _ => trivial
  | bool i => str_fits works_okI _; exact Rel.true fun _ => trivial
  | frame i j => str_fits works_okI _; exact Rel.true fun _ => trivial
  | having v =>
    have h := (ih v (by simp <;> omega)).ask .plain
    str_fits works_clauseBodyI v
    exact h
  | on v =>
    have h := (ih v (by simp <;> omega)).ask .plain
    str_fits works_clauseBodyI v
    exact h
  | using_ v =>
    have h := (ih v (by simp <;> omega)).ask .plain
    str_fits works_clauseBodyI v
    exact h
  | datePart p v =>
    have h := (ih v (by simp <;> omega)).ask .plain
    str_fits works_last fun _ => works_pure _
    exact h
  | neg v =>
    have h := (ih v (by simp <;> omega)).ask .plain
    str_fits works_last fun _ => works_pure _
    exact h
  | table v q =>
    have h := (ih v (by simp <;> omega)).ask .plain
    str_fits works_last fun _ => works_pure _
    exact h
  | unnest v o w a =>
    have h := (ih v (by simp <;> omega)).ask .plain
    str_fits works_last fun _ => (by split <;> exact works_pure _)
    exact h
  | orderItem v a d =>
    have h := (ih v (by simp <;> omega)).ask .str
    str_fits works_last fun _ => works_pure _
    exact h
  | offset v =>
    have h := (ih v (by simp <;> omega)).ask .str
    str_fits Iff.rfl
    exact h
  | cast a b =>
    have h1 := (ih a (by simp <;> omega)).ask .plain
    have h2 := (ih b (by simp <;> omega)).ask .plain
    str_fits works_step fun _ => works_last fun _ => works_pure _
    exact h1.and h2
  | filtered a b =>
    have h1 := (ih a (by simp <;> omega)).ask .plain
    have h2 := (ih b (by simp <;> omega)).ask .plain
    str_fits works_step fun _ => works_last fun _ => works_pure _
    exact h1.and h2
  | chained a b =>
    have h1 := (ih a (by simp <;> omega)).ask .plain
    have h2 := (ih b (by simp <;> omega)).ask .plain
    str_fits works_step fun _ => works_last fun _ => works_pure _
    exact h1.and h2
  | bitwise a o b =>
    have h1 := (ih a (by simp <;> omega)).ask .plain
    have h2 := (ih b (by simp <;> omega)).ask .plain
    str_fits works_step fun _ => works_last fun _ => works_pure _
    exact h1.and h2
  | combined o a b =>
    have h1 := (ih a (by simp <;> omega)).ask .plain
    have h2 := (ih b (by simp <;> omega)).ask .plain
    str_fits works_step fun _ => works_last fun _ => works_pure _
    exact h1.and h2
  | cond a o b =>
    have h1 := (ih a (by simp <;> omega)).ask .plain
    have h2 := (ih b (by simp <;> omega)).ask .plain
    str_fits works_step fun _ => works_last fun _ => works_pure _
    exact h1.and h2
  | arith o a b =>
    have h1 := (ih a (by simp <;> omega)).ask .str
    have h2 := (ih b (by simp <;> omega)).ask .str
    str_fits works_step fun _ => works_last fun _ => works_pure _
    exact h1.and h2
  | whenThen a b =>
    have h1 := (ih a (by simp <;> omega)).ask .plain
    have h2 := (ih b (by simp <;> omega)).ask .str
    str_fits works_whenI _ _
    exact h1.and h2
  | func f args =>
    have h := list args (by simp <;> omega)
    str_fits works_funcI _ _
    exact Rel.all (how := .plain) h
  | count args d =>
    have h := list args (by simp <;> omega)
    str_fits works_countI _ _ _
    exact Rel.all (how := .plain) h
  | array args =>
    have h := list args (by simp <;> omega)
    str_fits (works_last fun _ => works_pure _).trans works_mapRI
    exact Rel.all (how := .plain) h
  | groupBy args ro ea =>
    have h := list args (by simp <;> omega)
    str_fits works_groupByI _ _
    exact Rel.some h
  | index e is =>
    have h1 := (ih e (by simp <;> omega)).ask .plain
    have h2 := list is (by simp <;> omega)
    str_fits works_step fun _ => (works_last fun _ => works_pure _).trans works_mapRI
    exact h1.and (Rel.all (how := .plain) h2)
  | limit all v =>
    have h := (ih v (by simp <;> omega)).ask .str
    cases all
    · str_fits Iff.rfl
      exact h
    · str_fits works_okI _
      exact Rel.true fun _ => rfl
  | withQuery name q =>
    have h := (ih q (by simp <;> omega)).ask .plain
    str_fits works_last fun _ => works_pure _
    cases q <;> first
      | (refine Rel.congr (p' := False) ?_ (fun _ => Iff.rfl) (Rel.false fun s => by simp [isStatement]); exact works_errorI _)
      | skip
    refine Rel.congr (sub_iff (by rfl)) ?_ h
    simp [isStatement]
  | withStmt qs t =>
    have h1 := list qs (by simp <;> omega)
    have h2 := (ih t (by simp <;> omega)).ask .plain
    refine ⟨fun how => Rel.congr (ask_transform rfl rfl rfl rfl rfl how) (q' := fun s => if how = .str then False else
      (printsList s .plain qs = true ∧ prints s .plain t = true)) ?_ (Rel.ite ?_ ?_), fun h => by cases h⟩
    · cases how <;> simp [prints]
    · intro _
      exact Rel.congr (works_errorI _) (fun _ => Iff.rfl) Rel.refl
    · intro _
      exact Rel.congr (works_step fun _ => works_last fun _ => works_pure _) (fun _ => Iff.rfl)
        (Rel.and (Rel.congr works_mapRI (fun _ => Iff.rfl) (Rel.all (how := .plain) h1)) h2)
  | select es all d on f w g h o l off semi =>
    have hes := list es (by simp <;> omega)
    have hon := list on (by simp <;> omega)
    have hf := (ih f (by simp <;> omega)).ask .source
    have hw := (ih w (by simp <;> omega)).ask .plain
    have hg := (ih g (by simp <;> omega)).ask .plain
    have hh := (ih h (by simp <;> omega)).ask .plain
    have ho := (ih o (by simp <;> omega)).ask .plain
    have hl := (ih l (by simp <;> omega)).ask .plain
    have hoff := (ih off (by simp <;> omega)).ask .plain
    have key := Rel.congr (works_selectI es on all d f w g h o l off) (fun _ => Iff.rfl) (Rel.and (Rel.or (Rel.refl (p := all = true))
      (Rel.or (Rel.refl (p := d = false)) (Rel.all (how := .str) hon)))
        (Rel.and (Rel.all (how := .plain) hes) (hf.opt.and (hw.opt.and (hg.opt.and (hh.opt.and (ho.opt.and (hl.opt.and hoff.opt))))))))
    refine ⟨fun how => Rel.congr (ask_select rfl how) (fun s => ?_) (Rel.ite (fun _ => Rel.refl) fun _ => key), fun h => by cases h⟩
    rw [prints]
    split
    · have := (repr_ok (.select es all d on f w g h o l off semi)).symm
      rwa [pictured] at this
    · simp only [Bool.and_eq_true, Bool.or_eq_true, Bool.not_eq_true', and_assoc, or_assoc]
  | where_ v =>
    have h1 := (ih v (by simp <;> omega)).ask .plain
    have h2 := (ih v (by simp <;> omega)).ask .str
    have h3 := Rel.congr (works_clauseBodyI v) (fun _ => Iff.rfl) h1
    refine ⟨fun how => Rel.congr (ask_transform rfl rfl rfl rfl rfl how) (fun s => ?_) (Rel.ite (fun _ => h2) fun _ => h3), fun h => by cases h⟩
    cases how <;> simp [prints]
  | orderBy args =>
    have h := list args (by simp <;> omega)
    refine ⟨fun how => Rel.congr (ask_transform rfl rfl rfl rfl rfl how) (q' := fun s => if how = .str then False else
      printsSome s args = true) ?_ (Rel.ite (fun _ => ?_) fun _ => ?_), fun h => by cases h⟩
    · cases how <;> simp [prints]
    · exact Rel.congr (works_errorI _) (fun _ => Iff.rfl) Rel.refl
    · exact Rel.congr (works_orderByI _ _) (fun _ => Iff.rfl) (Rel.some h)
  | boolc t l r =>
    have h1 := ih l (by simp <;> omega)
    have h2 := ih r (by simp <;> omega)
    have key : ∀ b, prints true .plain (.boolc t l r) = true → Works (boolStr (E.upper t) (render l) (render r) b) := by
      intro b h
      simp only [prints, Bool.and_eq_true, Bool.not_true, Bool.false_or, Bool.not_eq_true'] at h
      exact works_boolI ((h1.ask .plain).2 h.1.1.2) ((h2.ask .plain).2 h.1.2) (operand h1 h.1.1.2 h.2.1) (operand h2 h.1.2 h.2.2)
    refine ⟨fun how => Rel.congr (ask_transform rfl rfl rfl rfl rfl how) (q' := fun s => if how = .str then False else
      prints s .plain (.boolc t l r) = true) ?_ (Rel.ite (fun _ => ?_) fun _ => ?_), fun _ h => key true h⟩
    · cases how <;> simp [prints]
    · exact Rel.congr (works_errorI _) (fun _ => Iff.rfl) Rel.refl
    · refine ⟨fun h => ?_, key false⟩
      obtain ⟨a, b⟩ := works_boolE h
      simp only [prints, Bool.and_eq_true, Bool.not_false, Bool.true_or, and_true]
      exact ⟨⟨by simp, (h1.ask .plain).1 a⟩, (h2.ask .plain).1 b⟩
  | arrayAgg c d i r o l =>
    have h1 := (ih c (by simp <;> omega)).ask .plain
    have h2 := (ih o (by simp <;> omega)).ask .plain
    str_fits works_arrayAggI _ _ _ _ _ _ _
    refine h1.and (Rel.opt ?_)
    cases o <;> first
      | (refine Rel.congr (p' := False) ?_ (fun _ => Iff.rfl) (Rel.false fun s => by simp [isOrder]); exact works_errorI _)
      | skip
    rename_i args
    refine Rel.congr ((works_orderByI args false).trans (works_orderByI args true).symm) ?_ h2
    simp [isOrder]
  | analytics f part o fr =>
    have h1 := (ih f (by simp <;> omega)).ask .plain
    have h2 := list part (by simp <;> omega)
    have h3 := (ih o (by simp <;> omega)).ask .plain
    have h4 := (ih fr (by simp <;> omega)).ask .plain
    str_fits works_analyticsI _ _ _ _
    exact h1.and ((Rel.all (how := .plain) h2).and (h3.opt.and h4.opt))
  | except_ e args =>
    have h1 := (ih e (by simp <;> omega)).ask .plain
    have h2 := list args (by simp <;> omega)
    str_fits works_selectAllI _ _ _
    refine h1.and (Rel.and ?_ (Rel.all (how := .plain) h2))
    cases args <;> simp [Rel]
  | replace e args =>
    have h1 := (ih e (by simp <;> omega)).ask .plain
    have h2 := list args (by simp <;> omega)
    str_fits works_selectAllI _ _ _
    refine h1.and (Rel.and ?_ (Rel.all (how := .plain) h2))
    cases args <;> simp [Rel]
  | case o ws e =>
    have h1 := (ih o (by simp <;> omega)).ask .plain
    have h2 := list ws (by simp <;> omega)
    have h3 := (ih e (by simp <;> omega)).ask .plain
    str_fits works_caseI _ _ _
    exact h1.opt.and ((Rel.all (how := .plain) h2).and h3.opt)
  | join t l r on us =>
    have h1 := (ih l (by simp <;> omega)).ask .side
    have h2 := (ih r (by simp <;> omega)).ask .side
    have h3 := (ih on (by simp <;> omega)).ask .plain
    have h4 := (ih us (by simp <;> omega)).ask .plain
    str_fits works_joinI _ _ _ _ _ _
    refine h1.and (h2.and ?_)
    cases present on
    · exact h4.opt
    · exact h3
  | paren args =>
    have h := list args (by simp <;> omega)
    refine ⟨fun how => Rel.congr (ask_paren args how) (fun _ => Iff.rfl) ?_, fun h => by cases h⟩
    have first : ∀ how', Rel (∃ a as, args = a :: as ∧ Ask how' a) fun s => printsFirst s how' args = true := by
      intro how'
      cases args with
      | nil => exact Rel.congr (p' := False) (by simp) (fun _ => Iff.rfl) (Rel.false fun s => by simp [printsFirst])
      | cons a as =>
        exact Rel.congr (p' := Ask how' a) ⟨fun ⟨_, _, e, h⟩ => by cases e; exact h, fun h => ⟨a, as, rfl, h⟩⟩
          (fun s => by rw [printsFirst]) ((h a (by simp)).ask how')
    cases how
    · exact Rel.all (how := .plain) h
    · exact Rel.all (how := .plain) h
    · exact first .plain
    · exact first .inner
    · exact first .inner
  | «alias» e a w =>
    have h1 := ih e (by simp <;> omega)
    have h2 := ih a (by simp <;> omega)
    refine ⟨fun how => Rel.congr (ask_alias e a w how) (fun _ => Iff.rfl) ?_, fun h => by cases h⟩
    cases how
    · exact Rel.congr Iff.rfl (fun s => by simp only [prints, Bool.and_eq_true]) ((h1.ask .plain).and (h2.ask .plain))
    · exact Rel.false fun s => by simp [prints]
    · refine Rel.congr Iff.rfl (fun s => by simp only [prints, Bool.and_eq_true]; rfl) (Rel.and ?_ (h2.ask .plain))
      cases isParens e
      · exact h1.ask .plain
      · exact h1.ask .source
    · exact Rel.congr Iff.rfl (fun s => by simp only [prints, Bool.and_eq_true]) ((h1.ask .inner).and (h2.ask .str))
    · exact Rel.congr Iff.rfl (fun s => by simp only [prints, Bool.and_eq_true]) ((h1.ask .plain).and (h2.ask .plain))

theorem fits (n : Node) : Fits n := by
  induction h : sizeOf n using Nat.strongRecOn generalizing n with
  | _ k ih => exact fits_step n fun m hm => ih _ (h ▸ hm) m rfl

end

end SqlV.Printable
