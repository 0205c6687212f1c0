import Verif.Spec.Shown

/-!
# Trees that the printer can print

`prints how n` says of which trees a text can be made.  Some objects can be asked for a text in several ways, and some of
these ways do not exist for all classes.
-/

namespace SqlV.Printable

open SqlV.Shown (present)

/-- The ways in which the text of an object is asked for. -/
inductive How
  /-- `transform(obj)` -/
  | plain
  /-- `str(obj)` -/
  | str
  /-- as what stands after FROM -/
  | source
  /-- as a side of a join -/
  | side
  /-- as what stands in a side of a join before the alias -/
  | inner
deriving DecidableEq

/-- A clause ORDER BY. -/
def isOrder : Node → Bool
  | .orderBy _ => true
  | _ => false

/-- A statement. -/
def isStatement : Node → Bool
  | .select .. => true
  | _ => false

/-- In parentheses. -/
def isParens : Node → Bool
  | .paren _ => true
  | _ => false

/-- Empty parentheses. -/
def isHollow : Node → Bool
  | .paren args => args.isEmpty
  | _ => false

mutual

/-- Wherever `repr` looks there are no calls with FILTER and no WITH: these objects have no representation.  It does not look at what comes
after WHEN, THEN and ELSE and at the ORDER BY of ARRAY_AGG. -/
def pictured : Node → Bool
  | .none | .raw _ | .int _ | .float _ | .null | .bool _ | .string .. | .column _ | .type _ | .frame .. => true
  | .select es _ _ on f w g h o l off _ =>
    picturedList es && picturedList on && pictured f && pictured w && pictured g && pictured h && pictured o && pictured l && pictured off
  | .where_ v | .having v | .on v | .using_ v | .datePart _ v | .neg v | .table v _ | .unnest v _ _ _ | .orderItem v _ _ | .offset v
  | .limit _ v | .arrayAgg v _ _ _ _ _ | .case v _ _ => pictured v
  | .groupBy args _ _ | .orderBy args | .func _ args | .count args _ | .array args | .paren args => picturedList args
  | .withQuery .. | .withStmt .. | .filtered .. => false
  | .cast a b | .chained a b | .bitwise a _ b | .combined _ a b | .cond a _ b | .alias a b _ | .arith _ a b
  | .boolc _ a b | .whenThen a b => pictured a && pictured b
  | .analytics f part o frame => pictured f && picturedList part && pictured o && pictured frame
  | .index e args | .except_ e args | .replace e args => pictured e && picturedList args
  | .join _ l r on using_ => pictured l && pictured r && pictured on && pictured using_

/-- All of them. -/
def picturedList : List Node → Bool
  | [] => true
  | n :: ns => pictured n && picturedList ns

end

mutual

/-- The text of the tree can be had in this way.  No text is there of: aliases, conditions with AND and OR, ORDER BY and WITH
where `str` is called; clauses, EXCEPT and REPLACE with nothing in them; empty parentheses after FROM and in joins.
Empty parentheses next to AND and OR are printed if the condition is short enough: where `sure` is true they are left out. -/
def prints (sure : Bool) (how : How) : Node → Bool
  | .none | .raw _ | .int _ | .float _ | .null | .bool _ | .string .. | .column _ | .type _ | .frame .. => true
  | .select es all distinct on f w g h o l off _ =>
    if how = .str then
      picturedList es && picturedList on && pictured f && pictured w && pictured g && pictured h && pictured o && pictured l && pictured off
    else (all || !distinct || printsList sure .str on) && printsList sure .plain es && (!present f || prints sure .source f) &&
      (!present w || prints sure .plain w) && (!present g || prints sure .plain g) && (!present h || prints sure .plain h) &&
      (!present o || prints sure .plain o) && (!present l || prints sure .plain l) && (!present off || prints sure .plain off)
  | .where_ v => if how = .str then prints sure .str v else prints sure .plain v
  | .having v | .on v | .using_ v | .datePart _ v | .neg v | .table v _ | .unnest v _ _ _ => prints sure .plain v
  | .groupBy args _ _ => printsSome sure args
  | .orderBy args => how ≠ .str && printsSome sure args
  | .orderItem v _ _ | .offset v => prints sure .str v
  | .limit all v => all || prints sure .str v
  | .withQuery _ q => isStatement q && prints sure .plain q
  | .withStmt qs s => how ≠ .str && printsList sure .plain qs && prints sure .plain s
  | .func _ args | .count args _ | .array args => printsList sure .plain args
  | .cast a b | .filtered a b | .chained a b | .bitwise a _ b | .combined _ a b | .cond a _ b => prints sure .plain a && prints sure .plain b
  | .arrayAgg c _ _ _ o _ => prints sure .plain c && (!present o || isOrder o && prints sure .plain o)
  | .analytics f part o frame =>
    prints sure .plain f && printsList sure .plain part && (!present o || prints sure .plain o) && (!present frame || prints sure .plain frame)
  | .paren args => match how with
    | .source => printsFirst sure .plain args
    | .side | .inner => printsFirst sure .inner args
    | _ => printsList sure .plain args
  | .alias e a _ => match how with
    | .str => false
    | .source => (if isParens e then prints sure .source e else prints sure .plain e) && prints sure .plain a
    | .side => prints sure .inner e && prints sure .str a
    | _ => prints sure .plain e && prints sure .plain a
  | .index e is => prints sure .plain e && printsList sure .plain is
  | .arith _ l r => prints sure .str l && prints sure .str r
  | .join _ l r on using_ =>
    prints sure .side l && prints sure .side r && (if present on then prints sure .plain on else !present using_ || prints sure .plain using_)
  | .boolc _ l r => how ≠ .str && prints sure .plain l && prints sure .plain r && (!sure || !isHollow l && !isHollow r)
  | .except_ e args | .replace e args => prints sure .plain e && !args.isEmpty && printsList sure .plain args
  | .whenThen w t => prints sure .plain w && prints sure .str t
  | .case operand whens els =>
    (!present operand || prints sure .plain operand) && printsList sure .plain whens && (!present els || prints sure .plain els)

/-- All of them. -/
def printsList (sure : Bool) (how : How) : List Node → Bool
  | [] => true
  | n :: ns => prints sure how n && printsList sure how ns

/-- The first one. -/
def printsFirst (sure : Bool) (how : How) : List Node → Bool
  | [] => false
  | n :: _ => prints sure how n

/-- The elements of GROUP BY or ORDER BY. -/
def printsSome (sure : Bool) : List Node → Bool
  | [] => false
  | n :: ns => prints sure (if ns.isEmpty then .plain else .str) n && printsList sure .str ns

end

mutual

/-- Whatever is named in WITH is a statement, and whatever orders the values of ARRAY_AGG is a clause ORDER BY. -/
def straight : Node → Bool
  | .none | .raw _ | .int _ | .float _ | .null | .bool _ | .string .. | .column _ | .type _ | .frame .. => true
  | .select es _ _ on f w g h o l off _ =>
    straightList es && straightList on && straight f && straight w && straight g && straight h && straight o && straight l && straight off
  | .where_ v | .having v | .on v | .using_ v | .datePart _ v | .neg v | .table v _ | .unnest v _ _ _ | .orderItem v _ _ | .offset v
  | .limit _ v => straight v
  | .groupBy args _ _ | .orderBy args | .func _ args | .count args _ | .array args | .paren args => straightList args
  | .withQuery _ q => isStatement q && straight q
  | .withStmt qs s => straightList qs && straight s
  | .cast a b | .filtered a b | .chained a b | .bitwise a _ b | .combined _ a b | .cond a _ b | .alias a b _ | .arith _ a b
  | .boolc _ a b | .whenThen a b => straight a && straight b
  | .arrayAgg c _ _ _ o _ => straight c && straight o && (!present o || isOrder o)
  | .analytics f part o frame => straight f && straightList part && straight o && straight frame
  | .index e args | .except_ e args | .replace e args => straight e && straightList args
  | .join _ l r on using_ => straight l && straight r && straight on && straight using_
  | .case operand whens els => straight operand && straightList whens && straight els

/-- All of them. -/
def straightList : List Node → Bool
  | [] => true
  | n :: ns => straight n && straightList ns

end

end SqlV.Printable
