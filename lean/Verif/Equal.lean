import Verif.Tree

/-!
# Equality of trees (`__eq__` of the classes of `sqlvalidator/grammar/sql.py`)

The repository's tests of the parser compare trees with `==`.  Simplification: an empty list of `DISTINCT ON` or
`PARTITION BY` is read as `None` (see `Tree`), so `DISTINCT ON ()` is not told apart from no `DISTINCT ON`.
-/

namespace SqlV

/-- `a and b` for comparisons that may raise. -/
def both (a b : Except PyErr Bool) : Except PyErr Bool :=
  match a with
  | .ok true => b
  | r => r

/-- `(a is None and b is None) or (len(a) == len(b) and …)`, sql.py 180-192 and 700-708: `len(None)` raises. -/
def unlessNone (a b : List Node) (r : Except PyErr Bool) : Except PyErr Bool :=
  if a.isEmpty && b.isEmpty then .ok true else if a.isEmpty || b.isEmpty then .error .type else r

/-- `==` of two floats, given by their representations: they are equal but for the sign of zero. -/
def floatEq (a b : Str) : Bool :=
  decide (a = b) || (decide (a ∈ [str!"0.0", str!"-0.0"]) && decide (b ∈ [str!"0.0", str!"-0.0"]))

/-- `len(a) == len(b) and …` -/
def sameLength (a b : List Node) (r : Except PyErr Bool) : Except PyErr Bool :=
  both (.ok (decide (a.length = b.length))) r

mutual

/-- `a == b`.  Objects of different classes are not equal. -/
def pyEq : Node → Node → Except PyErr Bool
  | .none, b => match b with
    | .none => .ok true
    | _ => .ok false
  | .raw a0, b => match b with
    | .raw b0 => .ok (decide (a0 = b0))
    | _ => .ok false
  -- sql.py 175-202
  | .select a0 a1 a2 a3 a4 a5 a6 a7 a8 a9 a10 a11, b => match b with
    | .select b0 b1 b2 b3 b4 b5 b6 b7 b8 b9 b10 b11 =>
      both (.ok (decide (a1 = b1))) (both (.ok (decide (a2 = b2))) (both (unlessNone a3 b3 (sameLength a3 b3 (pyEqAll a3 b3))) (both (pyEq a4 b4)
        (both (sameLength a0 b0 (pyEqAll a0 b0)) (both (pyEq a5 b5) (both (pyEq a6 b6) (both (pyEq a7 b7) (both (pyEq a8 b8) (both (pyEq a9 b9) (both (pyEq a10 b10) (.ok (decide (a11 = b11)))))))))))))
    | _ => .ok false
  -- sql.py 282-283
  | .where_ a0, b => match b with
    | .where_ b0 => pyEq a0 b0
    | _ => .ok false
  -- sql.py 308-315
  | .groupBy a0 a1 a2, b => match b with
    | .groupBy b0 b1 b2 => both (sameLength a0 b0 (pyEqAll a0 b0)) (both (.ok (decide (a1 = b1))) (.ok (decide (a2 = b2))))
    | _ => .ok false
  -- sql.py 244-245
  | .having a0, b => match b with
    | .having b0 => pyEq a0 b0
    | _ => .ok false
  -- sql.py 390-395
  | .orderBy a0, b => match b with
    | .orderBy b0 => sameLength a0 b0 (pyEqAll a0 b0)
    | _ => .ok false
  -- sql.py 423-428
  | .orderItem a0 a1 a2, b => match b with
    | .orderItem b0 b1 b2 => both (pyEq a0 b0) (both (.ok (decide (a1 = b1))) (.ok (decide (a2 = b2))))
    | _ => .ok false
  -- sql.py 461-462
  | .limit a0 a1, b => match b with
    | .limit b0 b1 => both (pyEq a1 b1) (.ok (decide (a0 = b0)))
    | _ => .ok false
  -- sql.py 244-245
  | .offset a0, b => match b with
    | .offset b0 => pyEq a0 b0
    | _ => .ok false
  -- sql.py 502-507
  | .withQuery a0 a1, b => match b with
    | .withQuery b0 b1 => both (.ok (decide (a0 = b0))) (pyEq a1 b1)
    | _ => .ok false
  -- sql.py 522-528
  | .withStmt a0 a1, b => match b with
    | .withStmt b0 b1 => both (sameLength a0 b0 (pyEqAll a0 b0)) (pyEq a1 b1)
    | _ => .ok false
  -- sql.py 565-571
  | .func a0 a1, b => match b with
    | .func b0 b1 => both (.ok (decide (a0 = b0))) (sameLength a1 b1 (pyEqAll a1 b1))
    | _ => .ok false
  -- sql.py 565-571, the arguments are the column, "AS" and the type
  | .cast a0 a1, b => match b with
    | .cast b0 b1 => both (pyEq a0 b0) (pyEq a1 b1)
    | _ => .ok false
  -- sql.py 598-599
  | .count a0 a1, b => match b with
    | .count b0 b1 => both (sameLength a0 b0 (pyEqAll a0 b0)) (.ok (decide (a1 = b1)))
    | _ => .ok false
  -- sql.py 565-571, the column is the only argument
  | .arrayAgg a0 _ _ _ _ _, b => match b with
    | .arrayAgg b0 _ _ _ _ _ => pyEq a0 b0
    | _ => .ok false
  -- sql.py 653-658
  | .filtered a0 a1, b => match b with
    | .filtered b0 b1 => both (pyEq a0 b0) (pyEq a1 b1)
    | _ => .ok false
  -- sql.py 696-711
  | .analytics a0 a1 a2 a3, b => match b with
    | .analytics b0 b1 b2 b3 => both (pyEq a0 b0) (both (unlessNone a1 b1 (sameLength a1 b1 (pyEqAll a1 b1))) (both (pyEq a2 b2) (pyEq a3 b3)))
    | _ => .ok false
  -- sql.py 756-761
  | .frame a0 a1, b => match b with
    | .frame b0 b1 => both (.ok (decide (a0 = b0))) (.ok (decide (a1 = b1)))
    | _ => .ok false
  -- sql.py 244-245
  | .column a0, b => match b with
    | .column b0 => .ok (decide (a0 = b0))
    | _ => .ok false
  -- sql.py 813-818
  | .chained a0 a1, b => match b with
    | .chained b0 b1 => both (pyEq a0 b0) (pyEq a1 b1)
    | _ => .ok false
  -- sql.py 244-245
  | .type a0, b => match b with
    | .type b0 => .ok (decide (a0 = b0))
    | _ => .ok false
  -- sql.py 244-245
  | .datePart _ a1, b => match b with
    | .datePart _ b1 => pyEq a1 b1
    | _ => .ok false
  -- sql.py 244-245
  | .string a0 _ _, b => match b with
    | .string b0 _ _ => .ok (decide (a0 = b0))
    | _ => .ok false
  -- sql.py 244-245
  | .int a0, b => match b with
    | .int b0 => .ok (decide (a0 = b0))
    | _ => .ok false
  -- sql.py 244-245
  | .float a0, b => match b with
    | .float b0 => .ok (floatEq a0 b0)
    | _ => .ok false
  -- sql.py 244-245
  | .null, b => match b with
    | .null => .ok true
    | _ => .ok false
  -- sql.py 244-245
  | .bool a0, b => match b with
    | .bool b0 => .ok (decide (a0 = b0))
    | _ => .ok false
  -- sql.py 987-992
  | .paren a0, b => match b with
    | .paren b0 => sameLength a0 b0 (pyEqAll a0 b0)
    | _ => .ok false
  -- sql.py 1028-1033
  | .array a0, b => match b with
    | .array b0 => sameLength a0 b0 (pyEqAll a0 b0)
    | _ => .ok false
  -- sql.py 1055-1060
  | .«alias» a0 a1 _, b => match b with
    | .«alias» b0 b1 _ => both (pyEq a0 b0) (pyEq a1 b1)
    | _ => .ok false
  -- sql.py 244-245
  | .index a0 _, b => match b with
    | .index b0 _ => pyEq a0 b0
    | _ => .ok false
  -- sql.py 1109-1115
  | .arith a0 a1 a2, b => match b with
    | .arith b0 b1 b2 => both (.ok (decide (a0 = b0))) (both (pyEq a1 b1) (pyEq a2 b2))
    | _ => .ok false
  -- sql.py 244-245
  | .bitwise a0 _ _, b => match b with
    | .bitwise b0 _ _ => pyEq a0 b0
    | _ => .ok false
  -- sql.py 244-245
  | .table a0 _, b => match b with
    | .table b0 _ => pyEq a0 b0
    | _ => .ok false
  -- sql.py 1182-1189
  | .unnest a0 a1 a2 a3, b => match b with
    | .unnest b0 b1 b2 b3 => both (pyEq a0 b0) (both (.ok (decide (a1 = b1))) (both (.ok (decide (a2 = b2))) (.ok (decide (a3 = b3)))))
    | _ => .ok false
  -- sql.py 1282-1290
  | .join a0 a1 a2 a3 a4, b => match b with
    | .join b0 b1 b2 b3 b4 => both (.ok (decide (a0 = b0))) (both (pyEq a1 b1) (both (pyEq a2 b2) (both (pyEq a3 b3) (pyEq a4 b4))))
    | _ => .ok false
  -- sql.py 1357-1363
  | .combined a0 a1 a2, b => match b with
    | .combined b0 b1 b2 => both (.ok (decide (a0 = b0))) (both (pyEq a1 b1) (pyEq a2 b2))
    | _ => .ok false
  -- sql.py 244-245
  | .on a0, b => match b with
    | .on b0 => pyEq a0 b0
    | _ => .ok false
  -- sql.py 244-245
  | .using_ a0, b => match b with
    | .using_ b0 => pyEq a0 b0
    | _ => .ok false
  -- sql.py 1429-1435
  | .cond a0 a1 a2, b => match b with
    | .cond b0 b1 b2 => both (pyEq a0 b0) (both (.ok (decide (a1 = b1))) (pyEq a2 b2))
    | _ => .ok false
  -- sql.py 1487-1493
  | .boolc a0 a1 a2, b => match b with
    | .boolc b0 b1 b2 => both (.ok (decide (a0 = b0))) (both (pyEq a1 b1) (pyEq a2 b2))
    | _ => .ok false
  -- sql.py 244-245
  | .neg a0, b => match b with
    | .neg b0 => pyEq a0 b0
    | _ => .ok false
  -- sql.py 244-245
  | .except_ a0 _, b => match b with
    | .except_ b0 _ => pyEq a0 b0
    | _ => .ok false
  -- sql.py 244-245
  | .replace a0 _, b => match b with
    | .replace b0 _ => pyEq a0 b0
    | _ => .ok false
  -- a tuple
  | .whenThen a0 a1, b => match b with
    | .whenThen b0 b1 => both (pyEq a0 b0) (pyEq a1 b1)
    | _ => .ok false
  -- sql.py 244-245
  | .case a0 _ _, b => match b with
    | .case b0 _ _ => pyEq a0 b0
    | _ => .ok false

/-- `all(a == o for a, o in zip(a, b))` -/
def pyEqAll : List Node → List Node → Except PyErr Bool
  | a :: as, b :: bs => both (pyEq a b) (pyEqAll as bs)
  | _, _ => .ok true

end

end SqlV
