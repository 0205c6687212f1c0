import Verif.Spec.Calm

/-!
# Correct queries over tables

A query that reads from tables alone knows nothing about their columns: any name may be one of them, and its type is
not known.  What can then be wrong is a join without a condition, the type of a condition, a position in GROUP BY or
ORDER BY, and the argument of LIMIT or OFFSET.  `sound` says that nothing of this is wrong.
-/

namespace SqlV.Core

/-- A FROM clause of tables: one of them, or several with commas and joins between them, without parentheses. -/
def tablesFrom : Node → Bool
  | .table .. => true
  | .join _ l r _ _ => tablesFrom l && tablesFrom r
  | _ => false

mutual

/-- The queries inside an expression read from tables or from nothing.  CASE, arithmetic, NOT, arrays, indices, parts
of dates and dotted paths are left alone: validation does not look into them. -/
def within : Node → Bool
  | .paren args => withinList args
  | .func _ args => withinList args
  | .count args _ => withinList args
  | .arrayAgg c _ _ _ _ _ => within c
  | .filtered c w => within c && within w
  | .analytics f part o _ => within f && withinList part && within o
  | .alias e _ _ => within e
  | .cond l _ r => within l && within r
  | .boolc _ l r => within l && within r
  | .where_ v => within v
  | .having v => within v
  | .orderBy args => withinList args
  | .orderItem v _ _ => within v
  | .select es _ _ _ f w _ h o _ _ _ => (!f.truthy || tablesFrom f) && withinList es && within w && within h && within o
  | _ => true

/-- `within` for every element. -/
def withinList : List Node → Bool
  | [] => true
  | n :: ns => within n && withinList ns

end

/-- A query over tables, whose sub-queries read from tables or from nothing. -/
def overTables : Node → Bool
  | .select es all d on f w g h o l off semi => tablesFrom f && within (.select es all d on f w g h o l off semi)
  | _ => false

mutual

/-- The type of an expression as far as its form tells; `object` if it does not tell.  Queries have no type. -/
def kind : Node → Option PType
  | .string .. => some .str
  | .int _ => some .int
  | .float _ => some .float
  | .null => some .noneType
  | .bool _ => some .bool
  | .arith .. => some .int
  | .cond .. | .boolc .. | .neg _ => some .bool
  | .paren args => kindFirst args
  | .alias e _ _ => kind e
  | .chained _ r => kind r
  | .none | .raw _ | .select .. | .whenThen .. => none
  | _ => some .object

/-- The same for the first of a list. -/
def kindFirst : List Node → Option PType
  | [] => none
  | n :: _ => kind n

end

/-- Boolean as far as its form tells. -/
def boolish (n : Node) : Bool := decide (kind n = some .bool) || decide (kind n = some .object)

/-- A count for LIMIT or OFFSET: an integer that is not negative, possibly in parentheses. -/
def isCount (n : Node) : Bool :=
  match first n with
  | some (.int i) => decide (0 ≤ i)
  | _ => false

/-- An element of GROUP BY; a number is a position in the select list. -/
def goodKey (width : Nat) (n : Node) : Bool :=
  match first n with
  | some (.int i) => decide (1 ≤ i) && decide (i ≤ width)
  | some _ => true
  | none => false

/-- A join has a condition, if it is of a type that needs one.  Nothing is asked of the joins inside it. -/
def conditioned (type : Str) (on using_ : Node) : Bool :=
  decide (type = str!"CROSS JOIN") || decide (type = str!",") || on.truthy || using_.truthy

mutual

/-- Nothing is wrong in an expression or a clause; `width` is the length of the select list, if there is one. -/
def sound (width : Option Nat) : Node → Bool
  | .paren args => soundList none args
  | .func _ args => soundList none args
  | .count args _ => soundList none args
  | .cast .. => false
  | .arrayAgg c _ _ _ _ _ => sound none c
  | .filtered c w => sound none c && sound none w
  | .analytics f part o _ => sound none f && soundList none part && sound none o
  | .alias e _ _ => sound none e
  | .cond l p r => sound none l && (if p = str!"between" then soundBounds r else sound none r)
  | .boolc _ l r => sound none l && boolish l && sound none r && boolish r
  | .where_ v => sound none v && boolish v
  | .having v => sound none v && boolish v
  | .groupBy args _ _ => args.all (goodKey (width.getD 0))
  | .orderBy args => soundList width args
  | .orderItem v _ _ =>
    match first v with
    | none => false
    | some (.int i) => match width with
      | none => false
      | some m => decide (1 ≤ i) && decide (i ≤ m)
    | some _ => sound none v
  | .limit _ v => isCount v
  | .offset v => isCount v
  | .join type _ _ on using_ => conditioned type on using_
  | .select es _ _ _ f w g h o l off _ =>
    soundList none es && sound none f && sound none w && sound (some es.length) g && sound none h && sound (some es.length) o &&
      sound none l && sound none off
  | .withStmt .. => false
  | _ => true

/-- The bounds of BETWEEN: any type will do. -/
def soundBounds : Node → Bool
  | .boolc _ l r => sound none l && sound none r
  | _ => false

/-- `sound` for every element. -/
def soundList (width : Option Nat) : List Node → Bool
  | [] => true
  | n :: ns => sound width n && soundList width ns

end

end SqlV.Core
