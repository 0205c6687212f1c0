import Verif.Tree

/-!
# What equality of trees looks at

`blur` forgets what `==` does not compare: AS, the quotes and the prefix of a literal, the part of a date, indices,
the operator and the right operand of bitwise operations, the brackets of a table, the columns of EXCEPT and REPLACE,
the branches of CASE, all of ARRAY_AGG but its argument, and the sign of zero.
-/

namespace SqlV

mutual

/-- The tree without what `==` does not compare. -/
def blur : Node → Node
  | .select es all d on f w g h o l off semi =>
    .select (blurList es) all d (blurList on) (blur f) (blur w) (blur g) (blur h) (blur o) (blur l) (blur off) semi
  | .where_ v => .where_ (blur v)
  | .groupBy args rollup each => .groupBy (blurList args) rollup each
  | .having v => .having (blur v)
  | .orderBy args => .orderBy (blurList args)
  | .orderItem v asc desc => .orderItem (blur v) asc desc
  | .limit all v => .limit all (blur v)
  | .offset v => .offset (blur v)
  | .withQuery name q => .withQuery name (blur q)
  | .withStmt qs s => .withStmt (blurList qs) (blur s)
  | .func f args => .func f (blurList args)
  | .cast c t => .cast (blur c) (blur t)
  | .count args d => .count (blurList args) d
  | .arrayAgg c _ _ _ _ _ => .arrayAgg (blur c) false false false .none none
  | .filtered c w => .filtered (blur c) (blur w)
  | .analytics f part o fr => .analytics (blur f) (blurList part) (blur o) (blur fr)
  | .chained l r => .chained (blur l) (blur r)
  | .datePart _ e => .datePart [] (blur e)
  | .string v _ _ => .string v [] none
  | .float r => .float (if r = str!"-0.0" then str!"0.0" else r)
  | .paren args => .paren (blurList args)
  | .array args => .array (blurList args)
  | .alias e al _ => .alias (blur e) (blur al) false
  | .index e _ => .index (blur e) []
  | .arith op l r => .arith op (blur l) (blur r)
  | .bitwise l _ _ => .bitwise (blur l) [] .none
  | .table v _ => .table (blur v) false
  | .unnest v o oa al => .unnest (blur v) o oa al
  | .join type l r on us => .join type (blur l) (blur r) (blur on) (blur us)
  | .combined op l r => .combined op (blur l) (blur r)
  | .on v => .on (blur v)
  | .using_ v => .using_ (blur v)
  | .cond l p r => .cond (blur l) p (blur r)
  | .boolc t l r => .boolc t (blur l) (blur r)
  | .neg e => .neg (blur e)
  | .except_ e _ => .except_ (blur e) []
  | .replace e _ => .replace (blur e) []
  | .whenThen w t => .whenThen (blur w) (blur t)
  | .case o _ _ => .case (blur o) [] .none
  | n => n

/-- `blur` of every element. -/
def blurList : List Node → List Node
  | [] => []
  | n :: ns => blur n :: blurList ns

end

mutual

/-- No DISTINCT ON and no PARTITION BY where `==` looks. -/
def unlisted : Node → Bool
  | .select es _ _ on f w g h o l off _ =>
    on.isEmpty && unlistedList es && unlisted f && unlisted w && unlisted g && unlisted h && unlisted o && unlisted l && unlisted off
  | .where_ v => unlisted v
  | .groupBy args _ _ => unlistedList args
  | .having v => unlisted v
  | .orderBy args => unlistedList args
  | .orderItem v _ _ => unlisted v
  | .limit _ v => unlisted v
  | .offset v => unlisted v
  | .withQuery _ q => unlisted q
  | .withStmt qs s => unlistedList qs && unlisted s
  | .func _ args => unlistedList args
  | .cast c t => unlisted c && unlisted t
  | .count args _ => unlistedList args
  | .arrayAgg c _ _ _ _ _ => unlisted c
  | .filtered c w => unlisted c && unlisted w
  | .analytics f part o fr => part.isEmpty && unlisted f && unlisted o && unlisted fr
  | .chained l r => unlisted l && unlisted r
  | .datePart _ e => unlisted e
  | .paren args => unlistedList args
  | .array args => unlistedList args
  | .alias e al _ => unlisted e && unlisted al
  | .index e _ => unlisted e
  | .arith _ l r => unlisted l && unlisted r
  | .bitwise l _ _ => unlisted l
  | .table v _ => unlisted v
  | .unnest v _ _ _ => unlisted v
  | .join _ l r on us => unlisted l && unlisted r && unlisted on && unlisted us
  | .combined _ l r => unlisted l && unlisted r
  | .on v => unlisted v
  | .using_ v => unlisted v
  | .cond l _ r => unlisted l && unlisted r
  | .boolc _ l r => unlisted l && unlisted r
  | .neg e => unlisted e
  | .except_ e _ => unlisted e
  | .replace e _ => unlisted e
  | .whenThen w t => unlisted w && unlisted t
  | .case o _ _ => unlisted o
  | _ => true

/-- `unlisted` for every element. -/
def unlistedList : List Node → Bool
  | [] => true
  | n :: ns => unlisted n && unlistedList ns

end

end SqlV
