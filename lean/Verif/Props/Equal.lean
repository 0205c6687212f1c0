import Verif.Lemmas.Equal
import Verif.Query
import Verif.Props.Scope

/-!
# Equality of trees (C68)
-/

namespace SqlV

/-- C68: two trees are equal with `==` exactly if they agree on all that `==` compares. -/
theorem C68_equal_iff (a b : Node) : pyEq a b = .ok true ↔ blur a = blur b := pyEq_blur a b

/-- C68: every tree is equal to itself. -/
theorem C68_reflexive (a : Node) : pyEq a a = .ok true := (pyEq_blur a a).2 rfl

/-- C68: the order of the operands does not matter, also for what `==` raises. -/
theorem C68_symmetric (a b : Node) : pyEq a b = pyEq b a := pyEq_comm a b

/-- C68: trees equal to the same tree are equal to one another. -/
theorem C68_transitive (a b c : Node) (h1 : pyEq a b = .ok true) (h2 : pyEq b c = .ok true) : pyEq a c = .ok true :=
  (pyEq_blur a c).2 (((pyEq_blur a b).1 h1).trans ((pyEq_blur b c).1 h2))

/-- C68: all that `==` can raise is a `TypeError`, and only where DISTINCT ON or PARTITION BY occurs. -/
theorem C68_raises (a b : Node) (e : PyErr) (h : pyEq a b = .error e) :
    e = .type ∧ ¬(unlisted a = true ∧ unlisted b = true) :=
  (pyEq_raises a b).only e h

/-- C68: without DISTINCT ON and PARTITION BY, `==` answers. -/
theorem C68_answers (a b : Node) (ha : unlisted a = true) (hb : unlisted b = true) :
    pyEq a b = .ok (decide (blur a = blur b)) := by
  cases h : pyEq a b with
  | error e => exact absurd ⟨ha, hb⟩ (C68_raises a b e h).2
  | ok v =>
    cases v with
    | true => rw [decide_eq_true ((pyEq_blur a b).1 h)]
    | false =>
      rw [decide_eq_false fun h' => ?_]
      rw [(pyEq_blur a b).2 h'] at h
      cases h

/-- C68: on trees without what `==` overlooks, `==` is equality. -/
theorem C68_exact (a b : Node) (ha : blur a = a) (hb : blur b = b) : pyEq a b = .ok true ↔ a = b := by
  rw [pyEq_blur, ha, hb]

/-- The texts parse to trees that are equal with `==`, and are formatted differently. -/
def confused (s t : Str) : Bool :=
  match @parseSql asciiEnv s, @parseSql asciiEnv t with
  | .ok a, .ok b => decide (pyEq a b = .ok true) && decide (@formatSql asciiEnv s ≠ @formatSql asciiEnv t)
  | _, _ => false

/-- C68: `==` does not tell apart other indices, other branches of CASE, other bitwise operators and their right operands,
other columns of EXCEPT and REPLACE, other parts of a date, other options of ARRAY_AGG, other quotes, and a table in brackets; AS it does
tell apart, since the name after it is parsed to another class. -/
theorem C68_hides :
    confused str!"select a[0]" str!"select a[1]" = true ∧
    confused str!"select case when a then b end" str!"select case when c then d else e end" = true ∧
    confused str!"select a | b" str!"select a & c" = true ∧
    confused str!"select * except (a) from t" str!"select * except (b, c) from t" = true ∧
    confused str!"select * replace (a as b) from t" str!"select * replace (c as b) from t" = true ∧
    confused str!"select extract(day from a)" str!"select extract(week from a)" = true ∧
    confused str!"select array_agg(distinct a)" str!"select array_agg(a limit 1)" = true ∧
    confused str!"select 'a'" str!"select \"a\"" = true ∧
    confused str!"select a from [b]" str!"select a from b" = true ∧
    confused str!"select a as b" str!"select a b" = false := by
  decide +kernel

/-- Non-vacuity of C68: trees that are equal, that differ, and on which `==` raises. -/
example : pyEq demo demo = .ok true ∧ pyEq demo demo2 = .ok false ∧ unlisted demo5 = true ∧ blur demo5 = demo5 ∧ unlisted (plainQuery [.column str!"a"] .none) = true ∧
    pyEq (plainQuery [.column str!"a"] .none) (plainQuery [.column str!"b"] .none) = .ok false ∧
    pyEq (.select [.column str!"a"] false false [.column str!"b"] .none .none .none .none .none .none .none false)
      (plainQuery [.column str!"a"] .none) = .error .type := by
  decide +kernel

end SqlV
