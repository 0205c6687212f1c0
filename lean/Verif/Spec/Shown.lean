import Verif.Tree
import Verif.Spec.Names

/-!
# What the formatter writes, layout aside

`shown n` is the list of words by which a tree is printed; `Laid ws x` says that a text consists of the words, with nothing
but blanks between them.  `whole n` leaves out the trees of which the printer forgets a part or to which it adds something.
-/

namespace SqlV.Shown

/-- Only spaces and line breaks. -/
def Gap (b : Str) : Prop := ∀ c ∈ b, c = ' ' ∨ c = '\n'

/-- The text with some spaces after each line break. -/
def pushed (k : Nat) (w : Str) : Str := w.flatMap fun c => if c = '\n' then '\n' :: List.replicate k ' ' else [c]

/-- The text consists of the words, in this order, with gaps before, between and after them; in a word with line breaks
(there are such literals) these may be followed by further spaces. -/
inductive Laid : List Str → Str → Prop
  | done (b : Str) : Gap b → Laid [] b
  | word (b : Str) (k : Nat) (w : Str) (ws : List Str) (x : Str) : Gap b → Laid ws x → Laid (w :: ws) (b ++ pushed k w ++ x)

/-- There is something. -/
def present : Node → Bool
  | .none => false
  | _ => true

/-- The words, if there is something. -/
def opt (n : Node) (ws : List Str) : List Str := if present n then ws else []

/-- GROUP EACH BY. -/
def isEach : Node → Bool
  | .groupBy _ _ each => each
  | _ => false

/-- LIMIT in a call. -/
def bounded : Option Int → List Str
  | none => []
  | some i => [str!"LIMIT"] ++ [Str.ofInt i]

variable [E : PyEnv]

mutual

/-- The words by which a tree is printed.  Clauses are printed without their keyword, which belongs to the statement. -/
def shown : Node → List Str
  | .none => []
  | .raw s => [s]
  | .select es all distinct on f w g h o l off semi =>
    [str!"SELECT"] ++
      (if all then [str!"ALL"] else if distinct then [str!"DISTINCT"] ++
        (if on.isEmpty then [] else [str!"ON", str!"("] ++ shownList on ++ [str!")"]) else []) ++
      shownList es ++ opt f ([str!"FROM"] ++ shown f) ++ opt w ([str!"WHERE"] ++ shown w) ++
      opt g ([str!"GROUP"] ++ (if isEach g then [str!"EACH"] else []) ++ [str!"BY"] ++ shown g) ++
      opt h ([str!"HAVING"] ++ shown h) ++ opt o ([str!"ORDER", str!"BY"] ++ shown o) ++
      opt l ([str!"LIMIT"] ++ shown l) ++ opt off ([str!"OFFSET"] ++ shown off) ++ (if semi then [str!";"] else [])
  | .where_ v | .having v | .offset v | .on v | .using_ v => shown v
  | .groupBy args rollup _ => (if rollup then [str!"ROLLUP"] else []) ++ shownList args
  | .orderBy args => shownList args
  | .orderItem v asc desc => shown v ++ (if asc then [str!"ASC"] else if desc then [str!"DESC"] else [])
  | .limit all v => if all then [str!"ALL"] else shown v
  | .withQuery name q => [name] ++ [str!"AS", str!"("] ++ shown q ++ [str!")"]
  | .withStmt qs s => [str!"WITH"] ++ shownList qs ++ shown s
  | .func name args => [E.upper name] ++ [str!"("] ++ shownList args ++ [str!")"]
  | .cast c t => [str!"CAST", str!"("] ++ shown c ++ [str!"AS"] ++ shown t ++ [str!")"]
  | .count args distinct =>
    [str!"COUNT", str!"("] ++ (if distinct then [str!"DISTINCT"] else []) ++ shownList args ++ [str!")"]
  | .arrayAgg c distinct ignore respect o lim =>
    [str!"ARRAY_AGG", str!"("] ++ (if distinct then [str!"DISTINCT"] else []) ++ shown c ++
      (if ignore then [str!"IGNORE", str!"NULLS"] else if respect then [str!"RESPECT", str!"NULLS"] else []) ++
      opt o ([str!"ORDER", str!"BY"] ++ shown o) ++
      bounded lim ++ [str!")"]
  | .filtered c w => shown c ++ [str!"FILTER", str!"(", str!"WHERE"] ++ shown w ++ [str!")"]
  | .analytics f part o frame =>
    shown f ++ [str!"OVER", str!"("] ++ (if part.isEmpty then [] else [str!"PARTITION", str!"BY"] ++ shownList part) ++
      opt o ([str!"ORDER", str!"BY"] ++ shown o) ++ opt frame (shown frame) ++ [str!")"]
  | .frame unit bounds => [E.upper unit] ++ [E.upper bounds]
  | .column v => [printedName v]
  | .chained l r => shown l ++ [str!"."] ++ shown r
  | .type v => [E.upper v]
  | .datePart part e => [E.upper part] ++ [str!"FROM"] ++ shown e
  | .string v q pre => pre.toList ++ [q] ++ [v] ++ [q]
  | .int i => [Str.ofInt i]
  | .float f => [f]
  | .null => [str!"NULL"]
  | .bool b => if b then [str!"TRUE"] else [str!"FALSE"]
  | .paren args => [str!"("] ++ shownList args ++ [str!")"]
  | .array args => [str!"["] ++ shownList args ++ [str!"]"]
  | .alias e a withAs => shown e ++ (if withAs then [str!"AS"] else []) ++ shown a
  | .index e is => shown e ++ [str!"["] ++ shownList is ++ [str!"]"]
  | .arith op l r => shown l ++ [op] ++ shown r
  | .bitwise l op r => shown l ++ [op] ++ shown r
  | .table v square => if square then [str!"["] ++ shown v ++ [str!"]"] else shown v
  | .unnest v offset withAs a =>
    shown v ++ (if offset then [str!"WITH", str!"OFFSET"] ++ (if withAs then [str!"AS"] else []) ++ a.toList else [])
  | .join type l r on using_ =>
    shown l ++ [E.upper type] ++ shown r ++
      (if present on then [str!"ON"] ++ shown on else opt using_ ([str!"USING"] ++ shown using_))
  | .combined op l r => shown l ++ [E.upper op] ++ shown r
  | .cond l p r => shown l ++ [E.upper p] ++ shown r
  | .boolc type l r => shown l ++ [E.upper type] ++ shown r
  | .neg e => [str!"NOT"] ++ shown e
  | .except_ e args => shown e ++ [str!"EXCEPT", str!"("] ++ shownList args ++ [str!")"]
  | .replace e args => shown e ++ [str!"REPLACE", str!"("] ++ shownList args ++ [str!")"]
  | .whenThen w t => [str!"WHEN"] ++ shown w ++ [str!"THEN"] ++ shown t
  | .case operand whens els =>
    [str!"CASE"] ++ opt operand (shown operand) ++ shownSeq whens ++ opt els ([str!"ELSE"] ++ shown els) ++ [str!"END"]

/-- One after the other. -/
def shownSeq : List Node → List Str
  | [] => []
  | n :: ns => shown n ++ shownSeq ns

/-- Each with a comma before it. -/
def shownMore : List Node → List Str
  | [] => []
  | n :: ns => [str!","] ++ shown n ++ shownMore ns

/-- With commas between them. -/
def shownList : List Node → List Str
  | [] => []
  | n :: ns => shown n ++ shownMore ns

end

/-- Not a statement: where `str` is called, a statement is printed as the address of a Python object. -/
def sayable : Node → Bool
  | .select .. | .where_ _ => false
  | _ => true

/-- Not several expressions in parentheses. -/
def lone : Node → Bool
  | .paren (_ :: _ :: _) => false
  | _ => true

/-- A column without line breaks, perhaps qualified. -/
def named : Node → Bool
  | .column v => '\n' ∉ v
  | .chained l r => named l && named r
  | _ => false

/-- After WHERE, HAVING, ON, USING and WHEN, of several expressions in parentheses only the first is printed if they do not fit
on a line. -/
def condition : Node → Bool
  | .paren args => lone (.paren args) || args.all named
  | _ => true

/-- Not a statement with a semicolon, which is not printed in parentheses. -/
def ended : Node → Bool
  | .select (semi := semi) .. => !semi
  | _ => true

/-- A side of a join in parentheses, or none. -/
def bracketed : Node → Bool
  | .paren [a] => bracketed a
  | .paren (_ :: _ :: _) => false
  | n => ended n

/-- A side of a join. -/
def side : Node → Bool
  | .alias e a _ => bracketed e && sayable a
  | n => bracketed n

/-- What stands after FROM. -/
def source : Node → Bool
  | .alias e _ _ => lone e
  | n => lone n

mutual

/-- No part of the tree is forgotten by the printer, and nothing is added to it. -/
def whole : Node → Bool
  | .none => false
  | .raw _ | .int _ | .float _ | .null | .bool _ | .string .. | .column _ | .type _ | .frame .. => true
  | .select es all distinct on f w g h o l off _ =>
    wholeList es && (on.isEmpty || distinct && !all) && on.all sayable && wholeList on && (!present f || source f && whole f) && (!present w || whole w) &&
      (!present g || whole g) && (!present h || whole h) && (!present o || whole o) && (!present l || whole l) &&
      (!present off || whole off)
  | .where_ v | .having v | .on v | .using_ v => condition v && whole v
  | .offset v => sayable v && whole v
  | .groupBy args _ _ | .orderBy args => args.all sayable && wholeList args
  | .orderItem v _ _ => sayable v && whole v
  | .limit all v => if all then !present v else sayable v && whole v
  | .withQuery _ q => ended q && whole q
  | .withStmt qs s => wholeList qs && whole s
  | .func _ args | .count args _ | .array args => wholeList args
  | .paren args => args.all ended && wholeList args
  | .cast c t => whole c && whole t
  | .arrayAgg c _ _ _ o lim => whole c && (!present o || whole o) && lim != some 0
  | .filtered c w => whole c && whole w
  | .analytics f part o frame => whole f && wholeList part && (!present o || whole o) && (!present frame || whole frame)
  | .chained l r | .bitwise l _ r | .combined _ l r | .cond l _ r => whole l && whole r
  | .datePart _ e | .neg e | .table e _ => whole e
  | .alias e a _ => whole e && whole a
  | .index e is => whole e && wholeList is
  | .arith _ l r => sayable l && whole l && sayable r && whole r
  | .unnest v offset withAs a => whole v && (offset || a.isNone) && (match a with
      | none => !withAs
      | some a => !a.isEmpty)
  | .join _ l r on using_ =>
    side l && whole l && side r && whole r && (!present on || whole on) && (!present using_ || whole using_) &&
      !(present on && present using_)
  | .boolc _ l r => lone l && whole l && lone r && whole r
  | .except_ e args | .replace e args => whole e && wholeList args
  | .whenThen w t => condition w && whole w && sayable t && whole t
  | .case operand whens els => (!present operand || whole operand) && wholeList whens && (!present els || whole els)

/-- All of them. -/
def wholeList : List Node → Bool
  | [] => true
  | n :: ns => whole n && wholeList ns

end

/-- The words of the first list are, in order, in the second, as they are or in capitals. -/
inductive Kept : List Str → List Str → Prop
  | nil (l : List Str) : Kept [] l
  | skip (ws : List Str) (x : Str) (l : List Str) : Kept ws l → Kept ws (x :: l)
  | same (w : Str) (ws l : List Str) : Kept ws l → Kept (w :: ws) (w :: l)
  | capital (w : Str) (ws l : List Str) : Kept ws l → Kept (w :: ws) (E.upper w :: l)

end SqlV.Shown
