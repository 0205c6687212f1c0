import Verif.Tree

/-! Equality of trees can be decided; used to evaluate examples. -/

namespace SqlV

mutual

/-- Structural equality test. -/
def Node.beq : Node → Node → Bool
  | .none, .none => true
  | .raw a0, .raw b0 => decide (a0 = b0)
  | .select a0 a1 a2 a3 a4 a5 a6 a7 a8 a9 a10 a11, .select b0 b1 b2 b3 b4 b5 b6 b7 b8 b9 b10 b11 =>
    Node.beqList a0 b0 && decide (a1 = b1) && decide (a2 = b2) && Node.beqList a3 b3 &&
    Node.beq a4 b4 && Node.beq a5 b5 && Node.beq a6 b6 && Node.beq a7 b7 && Node.beq a8 b8 &&
    Node.beq a9 b9 && Node.beq a10 b10 && decide (a11 = b11)
  | .where_ a0, .where_ b0 => Node.beq a0 b0
  | .groupBy a0 a1 a2, .groupBy b0 b1 b2 => Node.beqList a0 b0 && decide (a1 = b1) && decide (a2 = b2)
  | .having a0, .having b0 => Node.beq a0 b0
  | .orderBy a0, .orderBy b0 => Node.beqList a0 b0
  | .orderItem a0 a1 a2, .orderItem b0 b1 b2 => Node.beq a0 b0 && decide (a1 = b1) && decide (a2 = b2)
  | .limit a0 a1, .limit b0 b1 => decide (a0 = b0) && Node.beq a1 b1
  | .offset a0, .offset b0 => Node.beq a0 b0
  | .withQuery a0 a1, .withQuery b0 b1 => decide (a0 = b0) && Node.beq a1 b1
  | .withStmt a0 a1, .withStmt b0 b1 => Node.beqList a0 b0 && Node.beq a1 b1
  | .func a0 a1, .func b0 b1 => decide (a0 = b0) && Node.beqList a1 b1
  | .cast a0 a1, .cast b0 b1 => Node.beq a0 b0 && Node.beq a1 b1
  | .count a0 a1, .count b0 b1 => Node.beqList a0 b0 && decide (a1 = b1)
  | .arrayAgg a0 a1 a2 a3 a4 a5, .arrayAgg b0 b1 b2 b3 b4 b5 =>
    Node.beq a0 b0 && decide (a1 = b1) && decide (a2 = b2) && decide (a3 = b3) && Node.beq a4 b4 &&
    decide (a5 = b5)
  | .filtered a0 a1, .filtered b0 b1 => Node.beq a0 b0 && Node.beq a1 b1
  | .analytics a0 a1 a2 a3, .analytics b0 b1 b2 b3 =>
    Node.beq a0 b0 && Node.beqList a1 b1 && Node.beq a2 b2 && Node.beq a3 b3
  | .frame a0 a1, .frame b0 b1 => decide (a0 = b0) && decide (a1 = b1)
  | .column a0, .column b0 => decide (a0 = b0)
  | .chained a0 a1, .chained b0 b1 => Node.beq a0 b0 && Node.beq a1 b1
  | .type a0, .type b0 => decide (a0 = b0)
  | .datePart a0 a1, .datePart b0 b1 => decide (a0 = b0) && Node.beq a1 b1
  | .string a0 a1 a2, .string b0 b1 b2 => decide (a0 = b0) && decide (a1 = b1) && decide (a2 = b2)
  | .int a0, .int b0 => decide (a0 = b0)
  | .float a0, .float b0 => decide (a0 = b0)
  | .null, .null => true
  | .bool a0, .bool b0 => decide (a0 = b0)
  | .paren a0, .paren b0 => Node.beqList a0 b0
  | .array a0, .array b0 => Node.beqList a0 b0
  | .alias a0 a1 a2, .alias b0 b1 b2 => Node.beq a0 b0 && Node.beq a1 b1 && decide (a2 = b2)
  | .index a0 a1, .index b0 b1 => Node.beq a0 b0 && Node.beqList a1 b1
  | .arith a0 a1 a2, .arith b0 b1 b2 => decide (a0 = b0) && Node.beq a1 b1 && Node.beq a2 b2
  | .bitwise a0 a1 a2, .bitwise b0 b1 b2 => Node.beq a0 b0 && decide (a1 = b1) && Node.beq a2 b2
  | .table a0 a1, .table b0 b1 => Node.beq a0 b0 && decide (a1 = b1)
  | .unnest a0 a1 a2 a3, .unnest b0 b1 b2 b3 =>
    Node.beq a0 b0 && decide (a1 = b1) && decide (a2 = b2) && decide (a3 = b3)
  | .join a0 a1 a2 a3 a4, .join b0 b1 b2 b3 b4 =>
    decide (a0 = b0) && Node.beq a1 b1 && Node.beq a2 b2 && Node.beq a3 b3 && Node.beq a4 b4
  | .combined a0 a1 a2, .combined b0 b1 b2 => decide (a0 = b0) && Node.beq a1 b1 && Node.beq a2 b2
  | .on a0, .on b0 => Node.beq a0 b0
  | .using_ a0, .using_ b0 => Node.beq a0 b0
  | .cond a0 a1 a2, .cond b0 b1 b2 => Node.beq a0 b0 && decide (a1 = b1) && Node.beq a2 b2
  | .boolc a0 a1 a2, .boolc b0 b1 b2 => decide (a0 = b0) && Node.beq a1 b1 && Node.beq a2 b2
  | .neg a0, .neg b0 => Node.beq a0 b0
  | .except_ a0 a1, .except_ b0 b1 => Node.beq a0 b0 && Node.beqList a1 b1
  | .replace a0 a1, .replace b0 b1 => Node.beq a0 b0 && Node.beqList a1 b1
  | .whenThen a0 a1, .whenThen b0 b1 => Node.beq a0 b0 && Node.beq a1 b1
  | .case a0 a1 a2, .case b0 b1 b2 => Node.beq a0 b0 && Node.beqList a1 b1 && Node.beq a2 b2
  | _, _ => false

/-- … on lists. -/
def Node.beqList : List Node → List Node → Bool
  | [], [] => true
  | a :: as, b :: bs => Node.beq a b && Node.beqList as bs
  | _, _ => false

end

theorem Node.beq_sound (a : Node) : ∀ b, Node.beq a b = true ↔ a = b := by
  induction a using Node.rec (motive_2 := fun as => ∀ bs, Node.beqList as bs = true ↔ as = bs) with
  | nil => rename_i bs; cases bs <;> simp [Node.beqList]
  | cons a as h1 h2 => rename_i bs; cases bs <;> simp [Node.beqList, h1, h2]
  | _ => intro b; cases b <;> simp [Node.beq, and_assoc, *]

instance : DecidableEq Node := fun a b => decidable_of_iff _ (Node.beq_sound a b)

end SqlV
