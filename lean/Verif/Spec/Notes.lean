import Verif.Spec.Report
import Verif.Spec.Verdict
import Verif.Spec.Said

/-!
# The messages of validation, for any tree

`tells k n` is the set of message lists that validation of `n` may come to where the columns `k` are known.  There is at
most one such list, unless known columns of the same name have different types (`settled`): then the type of any of them
may be reported.  Where an exception is raised for certain, the set is empty.

`Blames` says which messages are about something that is in the tree (`Within`), `About` the same for the tokens of a text.
-/

namespace SqlV.Notes

open SqlV.Core (has found candidate kind first conditioned untyped agree called columnNotes groupNotes countNotes positionNotes)
open SqlV.Shown (present)
open SqlV.Verdict (text typable inside)
open SqlV.Printable (isStatement)

/-- A set of message lists. -/
abbrev Notes := List Str → Prop

/-- No list. -/
def never : Notes := fun _ => False

/-- No message. -/
def silent : Notes := fun ms => ms = []

/-- A single message. -/
def note (m : Str) : Notes := fun ms => ms = [m]

/-- The messages, if there are any for certain. -/
def given (r : Core.Notes) : Notes := fun ms => r = .ok ms

/-- One after the other. -/
def both (a b : Notes) : Notes := fun ms => ∃ x y, a x ∧ b y ∧ ms = x ++ y

@[inherit_doc] infixr:67 " ⨾ " => both

/-- What is there, if it is there. -/
def clause (c : Node) (a : Notes) : Notes := if present c then a else silent

variable [E : PyEnv]

/-- What `str` makes of an object. -/
def strText (n : Node) : Option Str :=
  match (render n).s with
  | .ok x => some x
  | .error _ => none

/-- The type of an object may be this one: that of a column that is called as its text is, or its own. -/
def typed (k : List Field) (n : Node) (t : PType) : Prop :=
  if k.isEmpty then kind n = some t else
    match text n with
    | none => False
    | some x => if has k x then ∃ f ∈ k, f.name = x ∧ f.type = some t else kind n = some t

/-- A condition: `word` is the clause or the connective. -/
def truth (k : List Field) (word : Str) (n : Node) : Notes := fun ms =>
  typable n = true ∧ ∃ t, typed k n t ∧ ms = match t with
    | .bool => []
    | .object => []
    | t => [str!"The argument of " ++ word ++ str!" must be type boolean, not type " ++ called t]

/-- A dotted path. -/
def path (k : List Field) (l r : Node) : Notes :=
  match text (.chained l r), text l with
  | some x, some y =>
    if has k str!"*" || has k x || has k (y ++ str!".*") then silent else
      match strText r with
      | some z => note (str!"The column " ++ z ++ str!" was not found in alias " ++ y)
      | none => never
  | _, _ => never

/-- The elements of GROUP BY. -/
def keys (k : List Field) (es : List Node) : List Node → Notes
  | [] => silent
  | n :: ns => given (groupNotes k es n) ⨾ keys k es ns

/-- A clause GROUP BY. -/
def group (k : List Field) (es : List Node) : Node → Notes
  | .groupBy args _ _ => keys k es args
  | _ => never

/-- A position in ORDER BY; without a select list it cannot be looked up, but one that is not positive is wrong anyway. -/
def place (width : Option Nat) (i : Int) : Notes :=
  match width with
  | some m => given (positionNotes str!"ORDER" m i)
  | none => if 1 ≤ i then never else given (positionNotes str!"ORDER" 0 i)

mutual

/-- The messages about a tree. -/
def tells (k : List Field) : Node → Notes
  | .none | .raw _ | .whenThen .. | .groupBy .. | .orderBy _ | .orderItem .. | .cast .. => never
  | .column v => given (columnNotes k v)
  | .chained l r => path k l r
  | .paren args | .func _ args | .count args _ => tellsList k args
  | .arrayAgg e _ _ _ _ _ | .alias e _ _ => tells k e
  | .filtered e w => tells k e ⨾ tells k w
  | .analytics f part o _ => tells k f ⨾ tellsList k part ⨾ clause o (tellsOrder k none o)
  | .cond l p r => tells k l ⨾ if E.lower p = str!"between" then tellsBounds k r else tells k r
  | .boolc t l r => tells k l ⨾ truth k (E.upper t) l ⨾ tells k r ⨾ truth k (E.upper t) r
  | .where_ v => tells k v ⨾ truth k str!"WHERE" v
  | .having v => tells k v ⨾ truth k str!"HAVING" v
  | .limit _ v => given (countNotes str!"argument of LIMIT must not contain variables" str!"LIMIT must not be negative" v)
  | .offset v => given (countNotes str!"argument of OFFSET must be integer" str!"OFFSET must not be negative" v)
  | .join type _ _ on using_ => if conditioned type on using_ then silent else note str!"Missing ON or USING for join"
  | .replace _ args => tellsAliases k args
  | .select es _ _ _ f w g h o l off _ =>
    tellsList (inside k f) es ⨾ clause f (tells [] f) ⨾ clause w (tells (inside k f) w) ⨾ clause g (group (inside k f) es g) ⨾
      clause h (tells (inside k f) h) ⨾ clause o (tellsOrder (inside k f) (some es.length) o) ⨾ clause l (tells (inside k f) l) ⨾
      clause off (tells (inside k f) off)
  | _ => silent

/-- One after the other. -/
def tellsList (k : List Field) : List Node → Notes
  | [] => silent
  | n :: ns => tells k n ⨾ tellsList k ns

/-- The names in REPLACE. -/
def tellsAliases (k : List Field) : List Node → Notes
  | [] => silent
  | .alias _ a _ :: ns => tells k a ⨾ tellsAliases k ns
  | _ :: _ => never

/-- The bounds of BETWEEN need not be boolean. -/
def tellsBounds (k : List Field) : Node → Notes
  | .boolc _ l r => tells k l ⨾ tells k r
  | _ => never

/-- A clause ORDER BY or an element of it; `width` is the length of the select list, if there is one. -/
def tellsOrder (k : List Field) (width : Option Nat) : Node → Notes
  | .orderBy args => tellsOrders k width args
  | .orderItem v _ _ =>
    match first v with
    | none => never
    | some (.int i) => place width i
    | some _ => tells k v
  | _ => never

/-- All elements of ORDER BY. -/
def tellsOrders (k : List Field) (width : Option Nat) : List Node → Notes
  | [] => silent
  | n :: ns => tellsOrder k width n ⨾ tellsOrders k width ns

end

mutual

/-- Wherever validation looks, known columns of the same name have the same type. -/
def settled (k : List Field) : Node → Bool
  | .paren args | .func _ args | .count args _ | .orderBy args => settledList k args
  | .arrayAgg e _ _ _ _ _ | .alias e _ _ | .where_ e | .having e | .orderItem e _ _ => settled k e
  | .filtered l r | .cond l _ r | .boolc _ l r => settled k l && settled k r
  | .analytics f part o _ => settled k f && settledList k part && settled k o
  | .replace _ args => settledNames k args
  | .select es _ _ _ f w _ h o l off _ =>
    agree (inside k f) && settledList (inside k f) es && settled [] f && settled (inside k f) w && settled (inside k f) h &&
      settled (inside k f) o && settled (inside k f) l && settled (inside k f) off
  | _ => true

/-- All of them. -/
def settledList (k : List Field) : List Node → Bool
  | [] => true
  | n :: ns => settled k n && settledList k ns

/-- The names in REPLACE. -/
def settledNames (k : List Field) : List Node → Bool
  | [] => true
  | .alias _ a _ :: ns => settled k a && settledNames k ns
  | _ :: ns => settledNames k ns

end

/-! ### Sub-trees -/

/-- The trees right below a tree. -/
def children : Node → List Node
  | .none | .raw _ | .int _ | .float _ | .null | .bool _ | .string .. | .column _ | .type _ | .frame .. => []
  | .select es _ _ on f w g h o l off _ => on ++ es ++ [f, w, g, h, o, l, off]
  | .where_ v | .having v | .on v | .using_ v | .datePart _ v | .neg v | .table v _ | .unnest v _ _ _ | .orderItem v _ _ | .offset v
  | .limit _ v | .withQuery _ v => [v]
  | .groupBy args _ _ | .orderBy args | .func _ args | .count args _ | .array args | .paren args => args
  | .withStmt qs s => qs ++ [s]
  | .cast a b | .filtered a b | .chained a b | .bitwise a _ b | .combined _ a b | .cond a _ b | .alias a b _ | .arith _ a b
  | .boolc _ a b | .whenThen a b => [a, b]
  | .arrayAgg c _ _ _ o _ => [c, o]
  | .analytics f part o frame => f :: part ++ [o, frame]
  | .index e args | .except_ e args | .replace e args => e :: args
  | .join _ l r on using_ => [l, r, on, using_]
  | .case operand whens els => operand :: whens ++ [els]

/-- The first tree is part of the second. -/
inductive Within : Node → Node → Prop
  | self (n : Node) : Within n n
  | child {m c n : Node} : c ∈ children n → Within m c → Within m n

/-- The messages that are about something in the tree. -/
inductive Blames (n : Node) : Str → Prop
  | missing (x : Str) : Within (.column x) n → Blames n (str!"The column " ++ x ++ str!" was not found")
  | ambiguous (x : Str) : Within (.column x) n → Blames n (str!"column \"" ++ x ++ str!"\" is ambiguous")
  | key (x : Str) : (Within (.column x) n ∨ ∃ q p, Within (.string x q p) n) → Blames n (str!"column \"" ++ x ++ str!"\" does not exist")
  | path (l r : Node) (y z : Str) : Within (.chained l r) n → text l = some y → strText r = some z →
    Blames n (str!"The column " ++ z ++ str!" was not found in alias " ++ y)
  | position (word : Str) (i : Int) : word ∈ [str!"GROUP", str!"ORDER"] → Within (.int i) n →
    Blames n (word ++ str!" BY position " ++ Str.ofInt i ++ str!" is not in select list")
  | where_ (v : Node) (t : PType) : Within (.where_ v) n → t ≠ .bool → t ≠ .object →
    Blames n (str!"The argument of WHERE must be type boolean, not type " ++ called t)
  | having (v : Node) (t : PType) : Within (.having v) n → t ≠ .bool → t ≠ .object →
    Blames n (str!"The argument of HAVING must be type boolean, not type " ++ called t)
  | operand (op : Str) (l r : Node) (t : PType) : Within (.boolc op l r) n → t ≠ .bool → t ≠ .object →
    Blames n (str!"The argument of " ++ E.upper op ++ str!" must be type boolean, not type " ++ called t)
  | limit (all : Bool) (v : Node) (m : Str) : Within (.limit all v) n →
    m ∈ [str!"argument of LIMIT must not contain variables", str!"LIMIT must not be negative"] → Blames n m
  | offset (v : Node) (m : Str) : Within (.offset v) n →
    m ∈ [str!"argument of OFFSET must be integer", str!"OFFSET must not be negative"] → Blames n m
  | join (type : Str) (l r on using_ : Node) : Within (.join type l r on using_) n → conditioned type on using_ = false →
    Blames n str!"Missing ON or USING for join"

/-- The messages that are about these tokens. -/
inductive About (ws : List Str) : Str → Prop
  | missing (x : Str) : x ∈ ws → About ws (str!"The column " ++ x ++ str!" was not found")
  | ambiguous (x : Str) : x ∈ ws → About ws (str!"column \"" ++ x ++ str!"\" is ambiguous")
  | key (x : Str) : (x ∈ ws ∨ x = []) → About ws (str!"column \"" ++ x ++ str!"\" does not exist")
  | path (l r : Node) (y z : Str) (vs us : List Str) : Said.said l vs → Said.said r us → (vs ++ [str!"."] ++ us).Sublist ws →
    text l = some y → strText r = some z → About ws (str!"The column " ++ z ++ str!" was not found in alias " ++ y)
  | position (by_ : Str) (i : Int) (w : Str) : by_ ∈ [str!"GROUP", str!"ORDER"] → w ∈ ws →
    (E.toInt w = some i ∨ E.toInt w = some (-i)) → About ws (by_ ++ str!" BY position " ++ Str.ofInt i ++ str!" is not in select list")
  | truth (w word : Str) (t : PType) : w ∈ ws →
    (word = str!"WHERE" ∧ lower w = str!"where" ∨ word = str!"HAVING" ∧ lower w = str!"having" ∨
      word = E.upper w ∧ lower w ∈ [str!"and", str!"or"] ∨ word = E.upper str!"and" ∧ lower w = str!"and") → t ≠ .bool → t ≠ .object →
    About ws (str!"The argument of " ++ word ++ str!" must be type boolean, not type " ++ called t)
  | limit (w m : Str) : w ∈ ws → lower w = str!"limit" →
    m ∈ [str!"argument of LIMIT must not contain variables", str!"LIMIT must not be negative"] → About ws m
  | offset (w m : Str) : w ∈ ws → lower w = str!"offset" →
    m ∈ [str!"argument of OFFSET must be integer", str!"OFFSET must not be negative"] → About ws m
  | join (w : Str) : w ∈ ws → lower w ∈ Said.joinWords → About ws str!"Missing ON or USING for join"

end SqlV.Notes
