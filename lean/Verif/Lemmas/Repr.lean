import Verif.Repr
import Verif.Spec.Printable
import Verif.Spec.Repr

/-! Of which objects `repr` makes a text, and what it raises for the others. -/

set_option linter.unusedSimpArgs false

namespace SqlV.Printable

/-- A text if `b`, else an `AttributeError`. -/
def Says {α : Type} (b : Bool) (x : Except PyErr α) : Prop :=
  match x with
  | .ok _ => b = true
  | .error e => b = false ∧ e = .attribute

theorem Says.bind {α β : Type} {b c : Bool} {x : Except PyErr α} {f : α → Except PyErr β} (h : Says b x) (k : ∀ a, Says c (f a)) :
    Says (b && c) (x >>= f) := by
  cases x with
  | ok a =>
    have hb : b = true := h
    rw [hb, Bool.true_and]
    exact k a
  | error e =>
    have hb : b = false ∧ e = .attribute := h
    rw [hb.1]
    exact ⟨rfl, hb.2⟩

theorem Says.pure {α : Type} (a : α) : Says true (Pure.pure a : Except PyErr α) := rfl

theorem Says.last {α β : Type} {b : Bool} {x : Except PyErr α} {f : α → β} (h : Says b x) :
    Says b (x >>= fun a => Pure.pure (f a)) := by
  have := h.bind fun a => Says.pure (f a)
  rwa [Bool.and_true] at this

variable [E : PyEnv]

/-- A sequence of calls. -/
macro "says_all" a:ident b:ident : tactic =>
  `(tactic| (rw [pyRepr]
             simp only [pictured, Bool.and_assoc]
             repeat first
               | exact Says.last ($a _)
               | exact Says.last ($b _)
               | refine Says.bind ($a _) fun _ => ?_
               | refine Says.bind ($b _) fun _ => ?_))

mutual

theorem says : ∀ n, Says (pictured n) (pyRepr n)
  | .none | .raw _ | .int _ | .float _ | .null | .bool _ | .string .. | .column _ | .type _ | .frame .. => by
    rw [pyRepr]; exact rfl
  | .withQuery .. | .withStmt .. | .filtered .. => by rw [pyRepr]; exact ⟨rfl, rfl⟩
  | .select es a b on f w g h o l off c => by says_all says saysList
  | .where_ v => by says_all says saysList
  | .having v => by says_all says saysList
  | .on v => by says_all says saysList
  | .using_ v => by says_all says saysList
  | .datePart _ v => by says_all says saysList
  | .neg v => by says_all says saysList
  | .table v _ => by says_all says saysList
  | .unnest v _ _ _ => by says_all says saysList
  | .orderItem v _ _ => by says_all says saysList
  | .offset v => by says_all says saysList
  | .limit _ v => by says_all says saysList
  | .arrayAgg v _ _ _ _ _ => by says_all says saysList
  | .case v _ _ => by says_all says saysList
  | .groupBy args _ _ => by says_all says saysList
  | .orderBy args => by says_all says saysList
  | .func _ args => by says_all says saysList
  | .count args _ => by says_all says saysList
  | .array args => by says_all says saysList
  | .paren args => by says_all says saysList
  | .cast a b => by says_all says saysList
  | .chained a b => by says_all says saysList
  | .bitwise a _ b => by says_all says saysList
  | .combined _ a b => by says_all says saysList
  | .cond a _ b => by says_all says saysList
  | .alias a b _ => by says_all says saysList
  | .arith _ a b => by says_all says saysList
  | .boolc _ a b => by says_all says saysList
  | .whenThen a b => by says_all says saysList
  | .analytics f part o frame => by says_all says saysList
  | .index e args => by says_all says saysList
  | .except_ e args => by says_all says saysList
  | .replace e args => by says_all says saysList
  | .join _ l r on using_ => by says_all says saysList

theorem saysList : ∀ ns, Says (picturedList ns) (pyReprs ns)
  | [] => rfl
  | n :: ns => by
    rw [pyReprs]
    exact Says.bind (says n) fun _ => Says.last (saysList ns)

end

theorem repr_error {n : Node} {e : PyErr} (h : pyRepr n = .error e) : e = .attribute := by
  have := says n
  rw [h] at this
  exact this.2

theorem repr_ok (n : Node) : (∃ x, pyRepr n = .ok x) ↔ pictured n = true := by
  have := says n
  cases h : pyRepr n with
  | ok x =>
    rw [h] at this
    exact ⟨fun _ => this, fun _ => ⟨x, rfl⟩⟩
  | error e =>
    rw [h] at this
    rw [this.1]
    exact ⟨fun ⟨_, h⟩ => (by cases h), fun h => (by cases h)⟩

/-! ### The texts -/

open SqlV.Picture

omit E in
theorem truth_eq (b : Bool) : reprBool b = truth b := by cases b <;> rfl

omit E in
theorem listed_eq (xs : List Str) : Str.join str!", " xs = listed xs := by
  match xs with
  | [] => rfl
  | [x] => rfl
  | x :: y :: xs => rw [Str.join, listed, listed_eq (y :: xs)]; simp

omit E in
theorem listOrNone_eq (xs : List Str) : (if xs.isEmpty = true then str!"None" else '[' :: (listed xs ++ str!"]")) = listOrNone xs := by
  cases xs with
  | nil => rfl
  | cons x xs => rfl

omit E in
theorem bind_ok {α β : Type} (a : α) (f : α → Except PyErr β) : ((.ok a : Except PyErr α) >>= f) = f a := rfl

set_option maxRecDepth 8000 in
theorem drawn (n : Node) : pictured n = true → pyRepr n = .ok (picture reprStr n) := by
  induction n using Node.rec (motive_2 := fun ns => picturedList ns = true → pyReprs ns = .ok (pictures reprStr ns)) with
  | string v q p =>
    intro _
    cases p <;> simp only [pyRepr, picture, reprOpt, List.append_assoc, List.cons_append, List.nil_append] <;> rfl
  | withQuery | withStmt | filtered => intro h; cases h
  | none | raw => intro _; rfl
  | nil => rfl
  | cons n ns h1 h2 h =>
    simp only [picturedList, Bool.and_eq_true] at h
    rw [pyReprs, h1 h.1, h2 h.2]
    rfl
  | _ =>
    intro h
    simp only [pictured, Bool.and_eq_true] at h
    simp_all only [pyRepr, picture, bind_ok, pure, Except.pure, listOrNone_eq, listed_eq, truth_eq, reprSeq, reprValue,
      forall_const, true_and, and_true, List.append_assoc, List.cons_append, List.nil_append, listed]
    try rfl

end SqlV.Printable
