import Verif.Validate
import Verif.Spec.Names

/-! Notions used by the statements about validation. -/

namespace SqlV

/-! ### Fields -/

/-- Fields of the same name have the same type. -/
def Unambiguous (S : List Field) : Prop := ∀ f ∈ S, ∀ g ∈ S, f.name = g.name → f.type = g.type

/-- The name under which an element of a select list is visible outside. -/
def exportName : Node → Option Str
  | .column v => some v
  | .alias _ (.column a) _ => some a
  | .alias _ (.raw a) _ => some a
  | _ => none

/-- The names visible outside a query: those of the select list, where `*` stands for the names of the
sub-query in the FROM clause if these are all known. -/
def exports : Node → List Str
  | .select es _ _ _ (.paren (s :: _)) _ _ _ _ _ _ _ =>
    let own := es.filterMap exportName
    if s.isSelect ∧ str!"*" ∈ own ∧ str!"*" ∉ exports s then
      own.filter (· ≠ str!"*") ++ exports s
    else own
  | .select es _ _ _ _ _ _ _ _ _ _ _ => es.filterMap exportName
  | _ => []

/-- `k` pairs of parentheses. -/
def nest : Nat → Node → Node
  | 0, n => n
  | k + 1, n => .paren [nest k n]

/-! ### Types -/

/-- The type an expression has by its form alone; `object` if nothing is known about it. -/
inductive StaticType : Node → PType → Prop
  | string (v q p) : StaticType (.string v q p) .str
  | int (i) : StaticType (.int i) .int
  | float (r) : StaticType (.float r) .float
  | null : StaticType .null .noneType
  | bool (b) : StaticType (.bool b) .bool
  | arith (op l r) : StaticType (.arith op l r) .int
  | cond (l p r) : StaticType (.cond l p r) .bool
  | boolc (t l r) : StaticType (.boolc t l r) .bool
  | neg (e) : StaticType (.neg e) .bool
  | paren (a as t) : StaticType a t → StaticType (.paren (a :: as)) t
  | alias (e a w t) : StaticType e t → StaticType (.alias e a w) t
  | chained (l r t) : StaticType r t → StaticType (.chained l r) t
  | column (v) : StaticType (.column v) .object
  | func (f as) : StaticType (.func f as) .object
  | cast (c t) : StaticType (.cast c t) .object
  | count (as d) : StaticType (.count as d) .object
  | arrayAgg (c d i r o l) : StaticType (.arrayAgg c d i r o l) .object
  | filtered (c d) : StaticType (.filtered c d) .object
  | analytics (f p o w) : StaticType (.analytics f p o w) .object
  | datePart (p e) : StaticType (.datePart p e) .object
  | array (as) : StaticType (.array as) .object
  | index (e is) : StaticType (.index e is) .object
  | bitwise (l o r) : StaticType (.bitwise l o r) .object
  | case (o ws e) : StaticType (.case o ws e) .object

/-- Queries whose exported names can be computed: aliased expressions have a type, aliases are names, and
the same holds for the query in the FROM clause. -/
inductive Exporting : Node → Prop
  | select (es all d on f w g h o l off semi) :
      (∀ e a b, .alias e a b ∈ es → (∃ t, StaticType e t) ∧ ∃ s, a = .column s ∨ a = .raw s) →
      f ≠ .paren [] →
      (∀ s as, f = .paren (s :: as) → s.isSelect → Exporting s) →
      Exporting (.select es all d on f w g h o l off semi)

section
variable [E : PyEnv]

/-- The type of an expression among known fields: that of the field it names, else its own. -/
inductive TypeIn (known : List Field) (v : Node) (t : PType) : Prop
  | field (f : Field) (t' : PType) : StaticType v t' → f ∈ known → transform v = .ok f.name → f.type = some t →
      (∀ g ∈ known, g.name = f.name → g.type = f.type) → TypeIn known v t
  | own : (known = [] ∨ ∃ x, transform v = .ok x ∧ ∀ f ∈ known, f.name ≠ x) → StaticType v t →
      TypeIn known v t

end

/-! ### Columns -/

/-- `Uses n x`: the plain column `x` occurs in `n`, outside sub-queries and outside the constructs whose
contents are never looked at. -/
inductive Uses : Node → Str → Prop
  | column (x) : Uses (.column x) x
  | func (f as a x) : a ∈ as → Uses a x → Uses (.func f as) x
  | count (as d a x) : a ∈ as → Uses a x → Uses (.count as d) x
  | arrayAgg (c d i r o l x) : Uses c x → Uses (.arrayAgg c d i r o l) x
  | filteredCall (c d x) : Uses c x → Uses (.filtered c d) x
  | filteredCond (c d x) : Uses d x → Uses (.filtered c d) x
  | analyticsFunc (f p o w x) : Uses f x → Uses (.analytics f p o w) x
  | analyticsPart (f p o w a x) : a ∈ p → Uses a x → Uses (.analytics f p o w) x
  | paren (as a x) : a ∈ as → Uses a x → Uses (.paren as) x
  | alias (e a w x) : Uses e x → Uses (.alias e a w) x
  | condLeft (l p r x) : Uses l x → Uses (.cond l p r) x
  | condRight (l p r x) : Uses r x → Uses (.cond l p r) x
  | boolLeft (t l r x) : Uses l x → Uses (.boolc t l r) x
  | boolRight (t l r x) : Uses r x → Uses (.boolc t l r) x

section
variable [E : PyEnv]

/-- `Reaches n m`: the expression `m` stands in `n`, outside sub-queries and outside the constructs whose
contents are never looked at.  The pair of bounds of BETWEEN is not an expression, its components are. -/
inductive Reaches : Node → Node → Prop
  | self (n) : Reaches n n
  | func (f as a m) : a ∈ as → Reaches a m → Reaches (.func f as) m
  | count (as d a m) : a ∈ as → Reaches a m → Reaches (.count as d) m
  | arrayAgg (c d i r o l m) : Reaches c m → Reaches (.arrayAgg c d i r o l) m
  | filteredCall (c d m) : Reaches c m → Reaches (.filtered c d) m
  | filteredCond (c d m) : Reaches d m → Reaches (.filtered c d) m
  | analyticsFunc (f p o w m) : Reaches f m → Reaches (.analytics f p o w) m
  | analyticsPart (f p o w a m) : a ∈ p → Reaches a m → Reaches (.analytics f p o w) m
  | paren (as a m) : a ∈ as → Reaches a m → Reaches (.paren as) m
  | alias (e a w m) : Reaches e m → Reaches (.alias e a w) m
  | condLeft (l p r m) : Reaches l m → Reaches (.cond l p r) m
  | condRight (l p r m) : E.lower p ≠ str!"between" → Reaches r m → Reaches (.cond l p r) m
  | lowerBound (l p t b c m) : E.lower p = str!"between" → Reaches b m →
      Reaches (.cond l p (.boolc t b c)) m
  | upperBound (l p t b c m) : E.lower p = str!"between" → Reaches c m →
      Reaches (.cond l p (.boolc t b c)) m
  | boolLeft (t l r m) : Reaches l m → Reaches (.boolc t l r) m
  | boolRight (t l r m) : Reaches r m → Reaches (.boolc t l r) m

/-- The expression `m` stands in the select list, the WHERE or the HAVING clause of a query. -/
inductive Contains : Node → Node → Prop
  | expr (es all d on f w g h o l off semi e m) : e ∈ es → Reaches e m →
      Contains (.select es all d on f w g h o l off semi) m
  | where_ (es all d on f v g h o l off semi m) : Reaches v m →
      Contains (.select es all d on f (.where_ v) g h o l off semi) m
  | having (es all d on f w g v o l off semi m) : Reaches v m →
      Contains (.select es all d on f w g (.having v) o l off semi) m

end

/-- Boolean, or of unknown type. -/
def BooleanLike (t : PType) : Prop := t = .bool ∨ t = .object

/-- The plain column `x` occurs in the select list, the WHERE or the HAVING clause of a query. -/
inductive Mentions : Node → Str → Prop
  | expr (es all d on f w g h o l off semi e x) : e ∈ es → Uses e x →
      Mentions (.select es all d on f w g h o l off semi) x
  | where_ (es all d on f v g h o l off semi x) : Uses v x →
      Mentions (.select es all d on f (.where_ v) g h o l off semi) x
  | having (es all d on f w g v o l off semi x) : Uses v x →
      Mentions (.select es all d on f w g (.having v) o l off semi) x

/-- The FROM clause of a query. -/
def fromOf : Node → Node
  | .select _ _ _ _ f _ _ _ _ _ _ _ => f
  | _ => .none

/-- `SELECT es FROM f` -/
def plainSelect (es : List Node) (f : Node) : Node :=
  .select es false false [] f .none .none .none .none .none .none false

/-- A message about a column that is missing or ambiguous. -/
def isColumnError (e : Str) : Bool :=
  str!"The column ".isPrefixOf e || str!"column ".isPrefixOf e

/-! ### Sub-queries -/

/-- `Inside n s`: the query `s` is `n`, or stands in `n` within parentheses, aliases, and FROM clauses of
queries. -/
inductive Inside : Node → Node → Prop
  | self (n) : Inside n n
  | paren (as a s) : a ∈ as → Inside a s → Inside (.paren as) s
  | alias (e a w s) : Inside e s → Inside (.alias e a w) s
  | from_ (es all d on f w g h o l off semi s) : f.truthy → Inside f s →
      Inside (.select es all d on f w g h o l off semi) s

mutual

/-- Every query in `n` reads from a table or from nothing. -/
def tablesOnly : Node → Bool
  | .select es _ _ on f w g h o l off _ =>
    (!f.truthy || f.isTable) && tablesOnlyList es && tablesOnlyList on && tablesOnly w &&
      tablesOnly g && tablesOnly h && tablesOnly o && tablesOnly l && tablesOnly off
  | .where_ v => tablesOnly v
  | .groupBy as _ _ => tablesOnlyList as
  | .having v => tablesOnly v
  | .orderBy as => tablesOnlyList as
  | .orderItem v _ _ => tablesOnly v
  | .limit _ v => tablesOnly v
  | .offset v => tablesOnly v
  | .func _ as => tablesOnlyList as
  | .cast c t => tablesOnly c && tablesOnly t
  | .count as _ => tablesOnlyList as
  | .arrayAgg c _ _ _ o _ => tablesOnly c && tablesOnly o
  | .filtered c d => tablesOnly c && tablesOnly d
  | .analytics f p o w => tablesOnly f && tablesOnlyList p && tablesOnly o && tablesOnly w
  | .chained l r => tablesOnly l && tablesOnly r
  | .datePart _ e => tablesOnly e
  | .paren as => tablesOnlyList as
  | .array as => tablesOnlyList as
  | .alias e a _ => tablesOnly e && tablesOnly a
  | .index e is => tablesOnly e && tablesOnlyList is
  | .arith _ l r => tablesOnly l && tablesOnly r
  | .bitwise l _ r => tablesOnly l && tablesOnly r
  | .table v _ => tablesOnly v
  | .unnest v _ _ _ => tablesOnly v
  | .join _ l r on using_ => tablesOnly l && tablesOnly r && tablesOnly on && tablesOnly using_
  | .combined _ l r => tablesOnly l && tablesOnly r
  | .on v => tablesOnly v
  | .using_ v => tablesOnly v
  | .cond l _ r => tablesOnly l && tablesOnly r
  | .boolc _ l r => tablesOnly l && tablesOnly r
  | .neg e => tablesOnly e
  | .except_ e as => tablesOnly e && tablesOnlyList as
  | .replace e as => tablesOnly e && tablesOnlyList as
  | .whenThen w t => tablesOnly w && tablesOnly t
  | .case o ws e => tablesOnly o && tablesOnlyList ws && tablesOnly e
  | .withQuery _ s => tablesOnly s
  | .withStmt qs s => tablesOnlyList qs && tablesOnly s
  | _ => true

/-- … in each of them. -/
def tablesOnlyList : List Node → Bool
  | [] => true
  | n :: ns => tablesOnly n && tablesOnlyList ns

end

section
variable [E : PyEnv]

/-- The fields a query adds to those known outside. -/
def fromFields (f : Node) : List Field :=
  match knownFields f with
  | .ok fs => fs
  | .error _ => []

/-- The fields known inside a query that is not itself inside another one. -/
def known (n : Node) : List Field := unionFields [] (fromFields (fromOf n))

mutual

/-- The sets of known fields used inside `n` when `known` is the set outside. -/
def scopes : Node → List Field → List (List Field)
  | .select es _ _ on f w g h o l off _, known =>
    let inner := unionFields known (fromFields f)
    inner :: scopesList es inner ++ scopesList on inner ++ scopes f [] ++ scopes w inner ++
      scopes g inner ++ scopes h inner ++ scopes o inner ++ scopes l inner ++ scopes off inner
  | .where_ v, k => k :: scopes v k
  | .groupBy as _ _, k => k :: scopesList as k
  | .having v, k => k :: scopes v k
  | .orderBy as, k => k :: scopesList as k
  | .orderItem v _ _, k => k :: scopes v k
  | .limit _ v, k => k :: scopes v k
  | .offset v, k => k :: scopes v k
  | .func _ as, k => k :: scopesList as k
  | .cast c t, k => k :: scopes c k ++ scopes t k
  | .count as _, k => k :: scopesList as k
  | .arrayAgg c _ _ _ o _, k => k :: scopes c k ++ scopes o k
  | .filtered c d, k => k :: scopes c k ++ scopes d k
  | .analytics f p o w, k => k :: scopes f k ++ scopesList p k ++ scopes o k ++ scopes w k
  | .paren as, k => k :: scopesList as k
  | .alias e a _, k => k :: scopes e k ++ scopes a k
  | .cond l _ r, k => k :: scopes l k ++ scopes r k
  | .boolc _ l r, k => k :: scopes l k ++ scopes r k
  | .replace e as, k => k :: scopes e k ++ scopesList as k
  | _, k => [k]

/-- … in each of them. -/
def scopesList : List Node → List Field → List (List Field)
  | [], _ => []
  | n :: ns, k => scopes n k ++ scopesList ns k

end

end

end SqlV
