import Verif.Termination

/-! The parsers are monotone in their recursion depth. -/

set_option linter.unusedSectionVars false

namespace SqlV

/-- `q` does what `p` does unless `p` diverges. -/
structure PLe (p q : P α) : Prop where
  run : ∀ s, p s = .diverge ∨ p s = q s

theorem PLe.refl (p : P α) : PLe p p := ⟨fun _ => .inr rfl⟩

theorem PLe.bind {p q : P α} {f g : α → P β} (hp : PLe p q) (hf : ∀ a, PLe (f a) (g a)) :
    PLe (p >>= f) (q >>= g) := by
  refine ⟨fun s => ?_⟩
  show P.bind p f s = _ ∨ P.bind p f s = P.bind q g s
  unfold P.bind
  rcases hp.run s with h | h
  · exact .inl (by rw [h])
  · rw [h]
    cases q s with
    | ok x => exact (hf x.1).run x.2
    | err e => exact .inr rfl
    | diverge => exact .inr rfl

theorem PLe.sub {p q : P α} (l : List Str) (hp : PLe p q) : PLe (P.sub l p) (P.sub l q) := by
  refine ⟨fun s => ?_⟩
  unfold P.sub
  rcases hp.run ⟨l, none⟩ with h | h
  · exact .inl (by rw [h])
  · exact .inr (by rw [h])

theorem PLe.orElse {p q p' q' : P α} (hp : PLe p q) (hp' : PLe p' q') :
    PLe (P.orElseParsing p p') (P.orElseParsing q q') := by
  refine ⟨fun s => ?_⟩
  unfold P.orElseParsing
  rcases hp.run s with h | h
  · exact .inl (by rw [h])
  · rw [h]
    cases q s with
    | ok x => exact .inr rfl
    | err e => cases e <;> first | exact hp'.run s | exact .inr rfl
    | diverge => exact .inr rfl

theorem PLe.ite {c : Prop} [Decidable c] {p q p' q' : P α} (hp : PLe p p') (hq : PLe q q') :
    PLe (if c then p else q) (if c then p' else q') := by
  split
  · exact hp
  · exact hq

/-- `PLe` for all recursive parsers. -/
structure Rec.Le (r r' : Rec) : Prop where
  stmt : PLe r.stmt r'.stmt
  select : PLe r.select r'.select
  from_ : PLe r.from_ r'.from_
  expr : ∀ a, PLe (r.expr a) (r'.expr a)
  exprList : ∀ a, PLe (r.exprList a) (r'.exprList a)
  orderLoop : ∀ a, PLe (r.orderLoop a) (r'.orderLoop a)
  caseLoop : ∀ a b c, PLe (r.caseLoop a b c) (r'.caseLoop a b c)
  withLoop : ∀ a, PLe (r.withLoop a) (r'.withLoop a)
  setLoop : ∀ a b, PLe (r.setLoop a b) (r'.setLoop a b)
  joinLoop : ∀ a b, PLe (r.joinLoop a b) (r'.joinLoop a b)
  dotLoop : ∀ a b c, PLe (r.dotLoop a b c) (r'.dotLoop a b c)
  indexLoop : ∀ a b, PLe (r.indexLoop a b) (r'.indexLoop a b)

variable [E : PyEnv]

/-- One step of a monotonicity proof. -/
macro "mono_step" h:ident : tactic =>
  `(tactic| first
    | with_reducible exact PLe.refl _
    | with_reducible exact ($h).stmt
    | with_reducible exact ($h).select
    | with_reducible exact ($h).from_
    | with_reducible exact ($h).expr _
    | with_reducible exact ($h).exprList _
    | with_reducible exact ($h).orderLoop _
    | with_reducible exact ($h).caseLoop _ _ _
    | with_reducible exact ($h).withLoop _
    | with_reducible exact ($h).setLoop _ _
    | with_reducible exact ($h).joinLoop _ _
    | with_reducible exact ($h).dotLoop _ _ _
    | with_reducible exact ($h).indexLoop _ _
    | with_reducible assumption
    | with_reducible refine PLe.bind ?_ ?_
    | with_reducible refine PLe.sub _ ?_
    | with_reducible refine PLe.orElse ?_ ?_
    | with_reducible refine PLe.ite ?_ ?_
    | (intro x; try dsimp only)
    | split)

/-- A monotonicity proof. -/
macro "mono_auto" h:ident : tactic => `(tactic| repeat' mono_step $h)

section

variable {r r' : Rec} (h : r.Le r')
include h

theorem stmtF_le : PLe (stmtF r) (stmtF r') := by unfold stmtF; mono_auto h
theorem withLoopF_le (a : List Node) : PLe (withLoopF r a) (withLoopF r' a) := by
  unfold withLoopF; mono_auto h
theorem orderItemF_le : PLe (orderItemF r) (orderItemF r') := by unfold orderItemF; mono_auto h
theorem orderLoopF_le (t : Option Str) : PLe (orderLoopF r t) (orderLoopF r' t) := by
  have := orderItemF_le h
  unfold orderLoopF; mono_auto h
theorem orderByF_le : PLe (orderByF r) (orderByF r') := by
  have := orderItemF_le h
  unfold orderByF; mono_auto h
theorem whereF_le : PLe (whereF r) (whereF r') := by unfold whereF; mono_auto h
theorem havingF_le : PLe (havingF r) (havingF r') := by unfold havingF; mono_auto h
theorem groupByF_le (e : Bool) : PLe (groupByF r e) (groupByF r' e) := by unfold groupByF; mono_auto h
theorem limitF_le : PLe (limitF r) (limitF r') := by unfold limitF; mono_auto h
theorem offsetF_le : PLe (offsetF r) (offsetF r') := by unfold offsetF; mono_auto h
theorem selectHeadF_le : PLe (selectHeadF r) (selectHeadF r') := by unfold selectHeadF; mono_auto h
theorem selectFromF_le (t : Option Str) : PLe (selectFromF r t) (selectFromF r' t) := by
  unfold selectFromF; mono_auto h
theorem selectWhereF_le (t : Option Str) : PLe (selectWhereF r t) (selectWhereF r' t) := by
  have := whereF_le h
  unfold selectWhereF; mono_auto h
theorem selectGroupF_le (t : Option Str) : PLe (selectGroupF r t) (selectGroupF r' t) := by
  have := groupByF_le h
  unfold selectGroupF; mono_auto h
  all_goals exact this _
theorem selectHavingF_le (t : Option Str) : PLe (selectHavingF r t) (selectHavingF r' t) := by
  have := havingF_le h
  unfold selectHavingF; mono_auto h
theorem selectOrderF_le (t : Option Str) : PLe (selectOrderF r t) (selectOrderF r' t) := by
  have := orderByF_le h
  unfold selectOrderF; mono_auto h
theorem selectLimitF_le (t : Option Str) : PLe (selectLimitF r t) (selectLimitF r' t) := by
  have := limitF_le h
  unfold selectLimitF; mono_auto h
theorem selectOffsetF_le (t : Option Str) : PLe (selectOffsetF r t) (selectOffsetF r' t) := by
  have := offsetF_le h
  unfold selectOffsetF; mono_auto h
theorem selectF_le : PLe (selectF r) (selectF r') := by
  unfold selectF
  mono_auto h
  · exact selectHeadF_le h
  · exact selectFromF_le h _
  · exact selectWhereF_le h _
  · exact selectGroupF_le h _
  · exact selectHavingF_le h _
  · exact selectOrderF_le h _
  · exact selectLimitF_le h _
  · exact selectOffsetF_le h _
theorem unnestF_le : PLe (unnestF r) (unnestF r') := by unfold unnestF; mono_auto h
theorem fromHeadF_le : PLe (fromHeadF r) (fromHeadF r') := by
  have := unnestF_le h
  unfold fromHeadF; mono_auto h
theorem fromF_le : PLe (fromF r) (fromF r') := by
  have := fromHeadF_le h
  unfold fromF; mono_auto h
theorem setLoopF_le (e : Node) (t : Option Str) : PLe (setLoopF r e t) (setLoopF r' e t) := by
  unfold setLoopF; mono_auto h
theorem joinLoopF_le (e : Node) (t : Option Str) : PLe (joinLoopF r e t) (joinLoopF r' e t) := by
  unfold joinLoopF; mono_auto h
theorem parseGroups_le (b : Bool) (gs : List (List Str)) :
    PLe (parseGroups r b gs) (parseGroups r' b gs) := by
  induction gs with
  | nil => exact PLe.refl _
  | cons g gs ih => unfold parseGroups; mono_auto h
theorem exprListF_le (b : Bool) : PLe (exprListF r b) (exprListF r' b) := by
  have := parseGroups_le h b
  unfold exprListF; mono_auto h
  all_goals exact this _
theorem caseF_le : PLe (caseF r) (caseF r') := by unfold caseF; mono_auto h
theorem caseLoopF_le (t : Option Str) (w : List Node) (e : Node) :
    PLe (caseLoopF r t w e) (caseLoopF r' t w e) := by
  unfold caseLoopF; mono_auto h
theorem castF_le (a : ExprArgs) : PLe (castF r a) (castF r' a) := by unfold castF; mono_auto h
theorem arrayAggF_le (a : ExprArgs) : PLe (arrayAggF r a) (arrayAggF r' a) := by
  have := orderByF_le h
  unfold arrayAggF; mono_auto h
theorem countF_le : PLe (countF r) (countF r') := by unfold countF; mono_auto h
theorem callF_le (a : ExprArgs) (n : Str) : PLe (callF r a n) (callF r' a n) := by
  unfold callF; mono_auto h
theorem functionF_le (a : ExprArgs) (m : Str) : PLe (functionF r a m) (functionF r' a m) := by
  have h1 := castF_le h a
  have h2 := arrayAggF_le h a
  have h3 := countF_le h
  have h4 := callF_le h a m
  unfold functionF; mono_auto h
theorem primaryF_le (a : ExprArgs) (m : Str) : PLe (primaryF r a m) (primaryF r' a m) := by
  have h1 := caseF_le h
  unfold primaryF; mono_auto h
theorem secondaryF_le (a : ExprArgs) (m : Str) (t : Option Str) :
    PLe (secondaryF r a m t) (secondaryF r' a m t) := by
  have h1 := functionF_le h a m
  unfold secondaryF; mono_auto h
theorem overF_le (e : Node) (t : Option Str) : PLe (overF r e t) (overF r' e t) := by
  have := orderByF_le h
  unfold overF; mono_auto h
theorem dotLoopF_le (u : List Str) (e : Node) (t : Option Str) :
    PLe (dotLoopF r u e t) (dotLoopF r' u e t) := by
  unfold dotLoopF; mono_auto h
theorem arithF_le (a : ExprArgs) (e : Node) (t : Option Str) :
    PLe (arithF r a e t) (arithF r' a e t) := by
  unfold arithF; mono_auto h
theorem indexLoopF_le (e : Node) (t : Option Str) : PLe (indexLoopF r e t) (indexLoopF r' e t) := by
  unfold indexLoopF; mono_auto h
theorem condF_le (a : ExprArgs) (e : Node) (t : Option Str) :
    PLe (condF r a e t) (condF r' a e t) := by
  unfold condF; mono_auto h
theorem boolF_le (a : ExprArgs) (e : Node) (t : Option Str) :
    PLe (boolF r a e t) (boolF r' a e t) := by
  unfold boolF; mono_auto h
theorem starArgsF_le : PLe (starArgsF r) (starArgsF r') := by unfold starArgsF; mono_auto h
theorem exceptF_le (e : Node) (t : Option Str) : PLe (exceptF r e t) (exceptF r' e t) := by
  have := starArgsF_le h
  unfold exceptF; mono_auto h
theorem replaceF_le (e : Node) (t : Option Str) : PLe (replaceF r e t) (replaceF r' e t) := by
  have := starArgsF_le h
  unfold replaceF; mono_auto h
theorem aliasF_le (a : ExprArgs) (e : Node) (t : Option Str) :
    PLe (aliasF r a e t) (aliasF r' a e t) := by
  unfold aliasF; mono_auto h
theorem tailF_le (a : ExprArgs) (e : Node) (t : Option Str) :
    PLe (tailF r a e t) (tailF r' a e t) := by
  unfold tailF
  mono_auto h
  · exact condF_le h _ _ _
  · exact boolF_le h _ _ _
  · exact exceptF_le h _ _
  · exact replaceF_le h _ _
  · exact aliasF_le h _ _ _
theorem atomF_le (a : ExprArgs) (m : Str) : PLe (atomF r a m) (atomF r' a m) := by
  unfold atomF
  mono_auto h
  all_goals first
    | exact primaryF_le h _ _
    | exact secondaryF_le h _ _ _
theorem operandF_le (a : ExprArgs) : PLe (operandF r a) (operandF r' a) := by
  unfold operandF
  mono_auto h
  all_goals first
    | exact atomF_le h _ _
    | exact overF_le h _ _
    | exact arithF_le h _ _ _
theorem exprF_le (a : ExprArgs) : PLe (exprF r a) (exprF r' a) := by
  have := operandF_le h a
  unfold exprF; mono_auto h
  all_goals exact tailF_le h _ _ _

theorem Rec.Le.next : r.next.Le r'.next where
  stmt := stmtF_le h
  select := selectF_le h
  from_ := fromF_le h
  expr := exprF_le h
  exprList := exprListF_le h
  orderLoop := orderLoopF_le h
  caseLoop := caseLoopF_le h
  withLoop := withLoopF_le h
  setLoop := setLoopF_le h
  joinLoop := joinLoopF_le h
  dotLoop := dotLoopF_le h
  indexLoop := indexLoopF_le h

end

theorem Rec.Le.bot (r : Rec) : Rec.bot.Le r := by
  constructor <;> intros <;> exact ⟨fun s => .inl rfl⟩

theorem parsers_le {m n : Nat} (h : m ≤ n) : (parsers m).Le (parsers n) := by
  induction m generalizing n with
  | zero => exact Rec.Le.bot _
  | succ m ih =>
    obtain ⟨n, rfl⟩ : ∃ k, n = k + 1 := ⟨n - 1, by omega⟩
    exact (ih (by omega)).next

end SqlV
