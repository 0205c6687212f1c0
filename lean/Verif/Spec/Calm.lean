import Verif.Spec.Core

/-!
# Statements that can be validated

`calm` leaves out what makes the methods of validation raise: CAST, LIMIT ALL, empty parentheses, sub-queries where a
type is needed, names in GROUP BY that could be ambiguous, and positions in ORDER BY of a window.
-/

namespace SqlV.Core

mutual

/-- The expression inside all parentheses around it; of several expressions, the first. -/
def first : Node → Option Node
  | .paren args => firstOf args
  | n => some n

/-- The same for a list. -/
def firstOf : List Node → Option Node
  | [] => none
  | n :: _ => first n

end

mutual

/-- An expression that has a type: everything but sub-queries. -/
def typed : Node → Bool
  | .none | .raw _ | .select .. | .whenThen .. => false
  | .paren args => typedFirst args
  | .alias e _ _ => typed e
  | .chained _ r => typed r
  | _ => true

/-- The same for the first of a list. -/
def typedFirst : List Node → Bool
  | [] => false
  | n :: _ => typed n

end

/-- A FROM clause with a table outside all parentheses: any column may come from it. -/
def starFrom : Node → Bool
  | .table .. => true
  | .join _ l r _ _ => starFrom l || starFrom r
  | _ => false

mutual

/-- A FROM clause whose columns have no qualifiers or are not known, or with a table outside all parentheses. -/
def clearFrom : Node → Bool
  | .none | .table .. | .select .. | .withStmt .. | .unnest .. | .combined .. => true
  | .paren args => clearFirst args
  | .join _ l r _ _ => starFrom l || starFrom r || (clearFrom l && clearFrom r)
  | _ => false

/-- The same for the first of a list. -/
def clearFirst : List Node → Bool
  | [] => false
  | n :: _ => clearFrom n

end

/-- The elements of GROUP BY: names only if they cannot be ambiguous. -/
def calmKeys (clear : Bool) (args : List Node) : Bool :=
  args.all fun a => match first a with
    | none => false
    | some (.column _) => clear
    | some (.string ..) => clear
    | some _ => true

/-- An ORDER BY clause without positions. -/
def noPositions : Node → Bool
  | .orderBy args => args.all fun a => match a with
    | .orderItem v _ _ => match first v with
      | some (.int _) => false
      | _ => true
    | _ => true
  | _ => true

/-- A query with WITH in parentheses: validation does not look into it. -/
def isUnseen : List Node → Bool
  | [.withStmt ..] => true
  | _ => false

/-- An alias that is a literal. -/
def litAlias : Node → Bool
  | .alias _ a _ => isLit a
  | _ => false

/-- No query in a FROM clause has a literal as an alias in its select list: a literal names no column, and validation
raises. -/
def namedFrom : Node → Bool
  | .paren (n :: _) => namedFrom n
  | .alias e _ _ => namedFrom e
  | .join _ l r _ _ => namedFrom l && namedFrom r
  | .select es _ _ _ f _ _ _ _ _ _ _ => !es.any litAlias && namedFrom f
  | _ => true

mutual

/-- Nothing in the tree makes validation raise.  `clear` says that names cannot be ambiguous. -/
def calm (clear : Bool) : Node → Bool
  | .paren args => !args.isEmpty && (isUnseen args || calmList clear args)
  | .func _ args => calmList clear args
  | .count args _ => calmList clear args
  | .cast .. => false
  | .arrayAgg c _ _ _ _ _ => calm clear c
  | .filtered c w => calm clear c && calm clear w
  | .analytics f part o _ => calm clear f && calmList clear part && calm clear o && noPositions o
  | .alias e _ _ => calm clear e
  | .chained l r => calm clear l && calm clear r
  | .cond l p r => calm clear l && (if p = str!"between" then calmBounds clear r else calm clear r)
  | .boolc _ l r => typed l && typed r && calm clear l && calm clear r
  | .where_ v => typed v && calm clear v
  | .having v => typed v && calm clear v
  | .groupBy args _ _ => calmKeys clear args
  | .orderBy args => calmList clear args
  | .orderItem v _ _ => calm clear v
  | .limit all v => !all && typed v
  | .offset v => typed v
  | .join _ l r _ _ => calm true l && calm true r
  | .select es _ _ _ f w g h o l off _ =>
    calmList (clear && clearFrom f) es && calm true f && calm (clear && clearFrom f) w && calm (clear && clearFrom f) g &&
      calm (clear && clearFrom f) h && calm (clear && clearFrom f) o && calm (clear && clearFrom f) l &&
      calm (clear && clearFrom f) off && namedFrom f
  | .withStmt .. => false
  | _ => true

/-- The bounds of BETWEEN. -/
def calmBounds (clear : Bool) : Node → Bool
  | .boolc _ l r => calm clear l && calm clear r
  | _ => false

/-- `calm` of every element. -/
def calmList (clear : Bool) : List Node → Bool
  | [] => true
  | n :: ns => calm clear n && calmList clear ns

end

/-- Empty parentheses. -/
def isEmptyParen : Node → Bool
  | .paren args => args.isEmpty
  | _ => false

mutual

/-- No empty parentheses as an operand of AND or OR, or as a bound of BETWEEN: the printer raises when it breaks the
line between such operands (sql.py 1467-1478).  No WITH directly inside the parentheses of another: the printer raises
(sql.py 498 with 516). -/
def firm : Node → Bool
  | .chained l r => firm l && firm r
  | .func _ args => firmList args
  | .count args _ => firmList args
  | .cast c _ => firm c
  | .paren args => firmList args
  | .array args => firmList args
  | .index e is => firm e && firmList is
  | .arrayAgg c _ _ _ o _ => firm c && firm o
  | .filtered c w => firm c && firm w
  | .analytics f part o _ => firm f && firmList part && firm o
  | .datePart _ e => firm e
  | .except_ e args => firm e && firmList args
  | .replace e args => firm e && firmList args
  | .bitwise l _ r => firm l && firm r
  | .arith _ l r => firm l && firm r
  | .neg e => firm e
  | .cond l _ r => firm l && firm r
  | .boolc _ l r => !isEmptyParen l && !isEmptyParen r && firm l && firm r
  | .whenThen w t => firm w && firm t
  | .case o ws e => firm o && firmList ws && firm e
  | .alias e a _ => firm e && firm a
  | .table v _ => firm v
  | .join _ l r on using_ => firm l && firm r && firm on && firm using_
  | .unnest v _ _ _ => firm v
  | .combined _ l r => firm l && firm r
  | .on e => firm e
  | .using_ e => firm e
  | .where_ e => firm e
  | .having e => firm e
  | .groupBy args _ _ => firmList args
  | .orderItem v _ _ => firm v
  | .orderBy args => firmList args
  | .limit _ v => firm v
  | .offset v => firm v
  | .select es _ _ on f w g h o l off _ =>
    firmList es && firmList on && firm f && firm w && firm g && firm h && firm o && firm l && firm off
  | .withQuery _ q => q.isSelect && firm q
  | .withStmt qs s => firmList qs && firm s
  | _ => true

/-- `firm` of every element. -/
def firmList : List Node → Bool
  | [] => true
  | n :: ns => firm n && firmList ns

end

end SqlV.Core
