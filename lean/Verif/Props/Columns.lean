import Verif.Lemmas.Order
import Verif.Lemmas.Exports
import Verif.Lemmas.Query
import Verif.Lemmas.NodeEq

/-! Properties of validation that concern columns and sub-queries. -/

set_option linter.unusedSectionVars false

namespace SqlV

/-! ### C20 -/

/-- C20: two interpreters that differ only in the order in which they enumerate sets report the same
errors, if no set of known fields used in the query has one name with two types. -/
theorem C20_order_irrelevant (E : PyEnv) (o : List Field → List Field)
    (h1 : ∀ S f, f ∈ E.setOrder S ↔ f ∈ S) (h2 : ∀ S f, f ∈ o S ↔ f ∈ S) (n : Node)
    (hn : ∀ S ∈ @scopes E n [], Unambiguous S) :
    @validate { E with setOrder := o } n = @validate E n := by
  have h := ((vtable_order E o ⟨h1, h2⟩ n).1 [] hn).v
  cases n <;> first | rfl | exact h

/-- `SELECT x FROM (SELECT 1 = 1 x, 1 x) WHERE x` as a tree. -/
def twoTypes : Node :=
  .select [.column str!"x"] false false []
    (.paren [plainSelect [.alias (.cond (.int 1) str!"=" (.int 1)) (.raw str!"x") false,
      .alias (.int 1) (.raw str!"x") false] .none])
    (.where_ (.column str!"x")) .none .none .none .none .none false

/-- The condition of C20 is needed: with a name of two types the verdict depends on the order. -/
theorem C20_two_types_depend_on_order :
    @validate asciiEnv twoTypes = .ok [] ∧
    @validate { asciiEnv with setOrder := List.reverse } twoTypes =
      .ok [str!"The argument of WHERE must be type boolean, not type int"] := by
  decide +kernel

/-- `SELECT x FROM (SELECT 1 x, 'a' y) WHERE x` as a tree: two fields, and a verdict that looks one up. -/
def twoNames : Node :=
  .select [.column str!"x"] false false []
    (.paren [plainSelect [.alias (.int 1) (.raw str!"x") false,
      .alias (.string str!"a" str!"'" none) (.raw str!"y") false] .none])
    (.where_ (.column str!"x")) .none .none .none .none .none false

/-- Non-vacuity of C20. -/
example : (∀ S ∈ @scopes asciiEnv twoNames [], Unambiguous S) ∧ (∃ S ∈ @scopes asciiEnv twoNames [], S.length = 2) ∧
    @validate asciiEnv twoNames = .ok [str!"The argument of WHERE must be type boolean, not type int"] := by
  refine ⟨?_, by decide +kernel, by decide +kernel⟩
  have h : ∀ S ∈ @scopes asciiEnv twoNames [], ∀ f ∈ S, ∀ g ∈ S, f.name = g.name → f.type = g.type := by
    decide +kernel
  exact h

/-- Both texts are read as these trees. -/
example : (@parseSql asciiEnv str!"SELECT x FROM (SELECT 1 = 1 x, 1 x) WHERE x").toOption = some twoTypes ∧
    (@parseSql asciiEnv str!"SELECT x FROM (SELECT 1 x, 'a' y) WHERE x").toOption = some twoNames := by
  decide +kernel

variable [E : PyEnv]

/-! ### C21 -/

/-- C21: with a plain table in the FROM clause, no error is about a column. -/
theorem C21_tables_accept_columns (es : List Node) (all d : Bool) (on : List Node) (t : Node) (b : Bool)
    (w g h o l off : Node) (semi : Bool)
    (ht : tablesOnly (.select es all d on (.table t b) w g h o l off semi) = true) (errs : List Str)
    (hv : validate (.select es all d on (.table t b) w g h o l off semi) = .ok errs) :
    ∀ e ∈ errs, isColumnError e = false := by
  simp only [tablesOnly, Bool.and_eq_true] at ht
  simp only [validate, validateWith, vtable_select] at hv
  revert errs
  refine Post.bind' fun ff hff => ?_
  simp only [knownFields, optFields] at hff
  injection hff with hff
  subst hff
  have hi : hasField (innerFields [] (some [⟨str!"*", some .object⟩])) str!"*" = true := by decide
  refine clausesV_post noCol_nil (fun _ _ => noCol_app) (post_concat fun x hx => ?_) ?_
    ((noCol_vtable w).1 _ hi (by simp [ht])).v (fun as _ _ _ => post_group _ hi _ _)
    ((noCol_vtable h).1 _ hi (by simp [ht])).v
    (((noCol_vtable o).1 _ hi (by simp [ht])).vIn _) ((noCol_vtable l).1 _ hi (by simp [ht])).v
    ((noCol_vtable off).1 _ hi (by simp [ht])).v
  · obtain ⟨e, he, rfl⟩ := mem_vtableList.1 hx
    refine ((noCol_vtable e).1 _ hi ?_).v
    have hl : tablesOnlyList es = true := by simp [ht]
    clear ht hx
    induction es with
    | nil => simp at he
    | cons a as ih =>
      simp only [tablesOnlyList, Bool.and_eq_true] at hl
      rcases List.mem_cons.1 he with rfl | he
      · exact hl.1
      · exact ih he hl.2
  · intro _
    rw [vtable] <;> first | exact Post.ok noCol_nil | (intros; contradiction)

/-- Non-vacuity of C21: a query over a table with columns in every clause and an error of another kind. -/
example :
    (match @parseSql asciiEnv str!"SELECT a, f(b.c) FROM t WHERE d GROUP BY e HAVING 3 ORDER BY g LIMIT 1" with
    | .ok n => tablesOnly n && (fromOf n).isTable && decide (@validate asciiEnv n =
        .ok [str!"The argument of HAVING must be type boolean, not type int"])
    | .error _ => false) = true := by
  decide +kernel

/-! ### C22 -/

/-- C22: a query without FROM that mentions a column is not valid, and the column is reported unless
validation raises. -/
theorem C22_columns_need_from (n : Node) (x : Str) (hf : fromOf n = .none) (hm : Mentions n x)
    (hx : x ≠ str!"*") :
    validate n ≠ .ok [] ∧
    ∀ errs, validate n = .ok errs → str!"The column " ++ x ++ str!" was not found" ∈ errs := by
  have h : Post (validate n) (str!"The column " ++ x ++ str!" was not found" ∈ ·) := by
    refine mentions_reports hm fun ff hff => ?_
    rw [hf, knownFields] at hff
    · simp only [optFields] at hff
      injection hff with hff
      subst hff
      simp [innerFields, validateColumn, hasField, fieldsWithoutAlias, hx]
    all_goals simp
  refine ⟨fun h' => ?_, h⟩
  exact absurd (h [] h') (by simp)

/-- … so that `is_valid` does not answer `True` for its text. -/
theorem C22_text_not_valid (s : Str) (n : Node) (x : Str) (hp : parseSql s = .ok n)
    (hf : fromOf n = .none) (hm : Mentions n x) (hx : x ≠ str!"*") :
    (SQLQuery.new s).isValid.1 ≠ .ok true := by
  rw [(isValid_new s).1, hp, verdict]
  have h := (C22_columns_need_from n x hf hm hx).1
  generalize validate n = r at h
  match r, h with
  | .ok [], h => exact absurd rfl h
  | .ok (_ :: _), _ => simp
  | .error e, _ => cases e <;> simp

/-- Non-vacuity of C22. -/
example : Mentions (plainSelect [.alias (.func str!"f" [.int 1, .column str!"a"]) (.raw str!"y") false] .none)
      str!"a" ∧
    (@parseSql asciiEnv str!"SELECT f(1, a) y").toOption =
      some (plainSelect [.alias (.func str!"f" [.int 1, .column str!"a"]) (.raw str!"y") false] .none) ∧
    (@SQLQuery.isValid asciiEnv (SQLQuery.new str!"SELECT f(1, a) y")).1 = .ok false := by
  refine ⟨?_, by decide +kernel⟩
  exact .expr _ _ _ _ _ _ _ _ _ _ _ _ _ _ (List.mem_singleton.2 rfl)
    (.alias _ _ _ _ (.func _ _ (.column str!"a") _ (by simp) (.column _)))

/-! ### C23 -/

theorem plainSelect_valid (es : List Node) (f : Node) (ff : Option (List Field))
    (hff : optFields (knownFields f) = .ok ff) :
    validate (plainSelect es f) = .ok [] ↔
      (∀ e ∈ es, (vtable e).v (innerFields [] ff) = .ok []) ∧ optV f ((vtable f).v []) = .ok [] := by
  simp only [plainSelect, validate, validateWith, vtable_select, V.of, hff]
  show clausesV .. = _ ↔ _
  rw [clausesV_nil, concat_nil_iff]
  simp only [mem_vtableList, forall_exists_index, and_imp, forall_apply_eq_imp_iff₂]
  simp [optV, Node.truthy]

theorem validate_select {n : Node} (h : n.isSelect = true) : validate n = (vtable n).v [] := by
  cases n <;> simp [Node.isSelect] at h
  rfl

theorem paren_valid {s : Node} (h : s.isSelect = true) :
    optV (.paren [s]) ((vtable (.paren [s])).v []) = .ok [] ↔ validate s = .ok [] := by
  rw [validate_select h]
  simp only [optV, Node.truthy, if_true, vtable, V.of, vtableList, concat_nil_iff]
  simp

/-- C23: over a valid sub-query, a query of plain columns is valid exactly when each of them is `*`, or
exported by the sub-query, or the sub-query exports `*`. -/
theorem C23_outer_columns_exported_partial (s : Node) (hs : Exporting s) (hd : ∀ y ∈ exports s, '.' ∉ y)
    (hv : validate s = .ok []) (xs : List Str) :
    validate (plainSelect (xs.map .column) (.paren [s])) = .ok [] ↔
      ∀ x ∈ xs, x = str!"*" ∨ x ∈ exports s ∨ str!"*" ∈ exports s := by
  obtain ⟨ff, hff, hN⟩ := scope_paren hs
  rw [plainSelect_valid _ _ ff hff, paren_valid (isSelect_of_exporting hs)]
  simp only [hv, and_true, List.mem_map, forall_exists_index, and_imp, forall_apply_eq_imp_iff₂]
  refine forall_congr' fun x => forall_congr' fun _ => ?_
  simp only [vtable, V.of, validateColumn_plain hN hd]
  by_cases h : x = str!"*" ∨ x ∈ exports s ∨ str!"*" ∈ exports s <;> simp [h]

/-- … and in any query over a sub-query, a column that is not exported is reported wherever it is mentioned
in the select list, WHERE and HAVING. -/
theorem C23_missing_column_reported_partial (n s : Node) (hs : Exporting s) (hd : ∀ y ∈ exports s, '.' ∉ y)
    (hf : fromOf n = .paren [s]) (x : Str) (hm : Mentions n x) (hx : x ≠ str!"*")
    (h1 : x ∉ exports s) (h2 : str!"*" ∉ exports s) :
    validate n ≠ .ok [] ∧
    ∀ errs, validate n = .ok errs → str!"The column " ++ x ++ str!" was not found" ∈ errs := by
  have h : Post (validate n) (str!"The column " ++ x ++ str!" was not found" ∈ ·) := by
    refine mentions_reports hm fun ff hff => ?_
    obtain ⟨ff', hff', hN⟩ := scope_paren hs
    rw [hf, hff'] at hff
    injection hff with hff
    subst hff
    rw [validateColumn_plain hN hd, if_neg]
    simp [hx, h1, h2]
  refine ⟨fun h' => ?_, h⟩
  exact absurd (h [] h') (by simp)

/-- Non-vacuity of C23: `(SELECT *, 1 z FROM (SELECT a, b y FROM t))` exports `z`, `a` and `y`. -/
def nestedStar : Node :=
  plainSelect [.column str!"*", .alias (.int 1) (.raw str!"z") false]
    (.paren [plainSelect [.column str!"a", .alias (.column str!"b") (.raw str!"y") false]
      (.table (.column str!"t") false)])

example : (@parseSql asciiEnv str!"SELECT *, 1 z FROM (SELECT a, b y FROM t)").toOption = some nestedStar ∧
    exports nestedStar = [str!"z", str!"a", str!"y"] ∧ @validate asciiEnv nestedStar = .ok [] ∧
    (@SQLQuery.isValid asciiEnv (SQLQuery.new
      str!"SELECT z, y FROM (SELECT *, 1 z FROM (SELECT a, b y FROM t))")).1 = .ok true ∧
    (@SQLQuery.isValid asciiEnv (SQLQuery.new
      str!"SELECT z, b FROM (SELECT *, 1 z FROM (SELECT a, b y FROM t))")).1 = .ok false := by
  decide +kernel

example : Exporting nestedStar := by
  refine .select _ _ _ _ _ _ _ _ _ _ _ _ ?_ (by simp) ?_
  · simp only [List.mem_cons, List.not_mem_nil, or_false, Node.alias.injEq, reduceCtorEq, false_or]
    rintro e a b ⟨rfl, rfl, rfl⟩
    exact ⟨⟨_, .int 1⟩, _, .inr rfl⟩
  · intro s as h _
    simp only [Node.paren.injEq, List.cons.injEq] at h
    obtain ⟨rfl, rfl⟩ := h
    refine .select _ _ _ _ _ _ _ _ _ _ _ _ ?_ (by simp) (by simp)
    simp only [List.mem_cons, List.not_mem_nil, or_false, Node.alias.injEq, reduceCtorEq, false_or]
    rintro e a b ⟨rfl, rfl, rfl⟩
    exact ⟨⟨_, .column _⟩, _, .inr rfl⟩

/-- C23 is false for a sub-query that aliases another query: `x` is exported but reported. -/
theorem C23_not_all :
    (@SQLQuery.isValid asciiEnv (SQLQuery.new str!"SELECT (SELECT 1) x")).1 = .ok true ∧
    (@SQLQuery.isValid asciiEnv (SQLQuery.new str!"SELECT x FROM (SELECT (SELECT 1) x)")).1 = .ok false := by
  decide +kernel

/-- Qualified columns of a sub-query are not exported: `x` is selected inside but reported outside. -/
theorem C23_qualified_not_exported :
    (@SQLQuery.isValid asciiEnv (SQLQuery.new str!"SELECT x FROM (SELECT t.x FROM t)")).1 = .ok false := by
  decide +kernel

/-! ### C24 -/

theorem alias_valid {s : Node} (h : s.isSelect = true) (a : Node) (w : Bool) :
    optV (.alias (.paren [s]) a w) ((vtable (.alias (.paren [s]) a w)).v []) = .ok [] ↔
      validate s = .ok [] := by
  rw [validate_select h]
  simp only [optV, Node.truthy, if_true, vtable, V.of, vtableList, concat_nil_iff]
  simp

/-- C24: over a valid sub-query with alias `a`, a query of qualified columns is valid exactly when each
of them is qualified by `a` and exported by the sub-query, or the sub-query exports `*`.  The names must not
be among those that are printed in capitals (`Column.KEYWORDS`). -/
theorem C24_qualified_columns_partial (s : Node) (hs : Exporting s) (hv : validate s = .ok []) (a : Str)
    (w : Bool) (ha : '.' ∉ a) (refs : List (Str × Str))
    (hr : ∀ r ∈ refs, '.' ∉ r.1 ∧ r.1 ∉ capitalNames ∧ r.2 ∉ capitalNames) :
    validate (plainSelect (refs.map fun r => .chained (.column r.1) (.column r.2))
        (.alias (.paren [s]) (.raw a) w)) = .ok [] ↔
      ∀ r ∈ refs, r.1 = a ∧ (r.2 ∈ exports s ∨ str!"*" ∈ exports s) := by
  obtain ⟨ff, hff, hN⟩ := scope_alias hs a w
  rw [plainSelect_valid _ _ ff hff, alias_valid (isSelect_of_exporting hs)]
  simp only [hv, and_true, List.mem_map, forall_exists_index, and_imp, forall_apply_eq_imp_iff₂]
  refine forall_congr' fun r => forall_congr' fun hm => ?_
  obtain ⟨h1, h2, h3⟩ := hr r hm
  simp only [vtable, V.of, validateChained_names hN h2 h3]
  have e : ∀ x, dotted r.1 x ∈ (exports s).map (dotted a) ↔ r.1 = a ∧ x ∈ exports s := by
    intro x
    simp only [List.mem_map]
    constructor
    · rintro ⟨y, hy, he⟩
      obtain ⟨e1, e2⟩ := dotted_eq ha h1 he
      exact ⟨e1.symm, e2 ▸ hy⟩
    · rintro ⟨e1, hx⟩
      exact ⟨x, hx, by rw [e1]⟩
  have e' : str!"*" ∉ (exports s).map (dotted a) := by
    simp only [List.mem_map, not_exists, not_and]
    intro y _ he
    have : '.' ∈ str!"*" := by rw [← he]; simp [dotted]
    exact absurd this (by decide)
  simp only [e, e', or_false]
  by_cases hc : r.1 = a ∧ (r.2 ∈ exports s ∨ str!"*" ∈ exports s)
  · rw [if_pos (by rw [← and_or_left]; exact hc)]
    simp [hc]
  · rw [if_neg (by rw [← and_or_left]; exact hc)]
    simp [hc]

/-- C24 for all names: what counts is how the names are printed. -/
theorem C24_qualified_columns_printed (s : Node) (hs : Exporting s) (hv : validate s = .ok []) (a : Str)
    (w : Bool) (ha : '.' ∉ a) (refs : List (Str × Str)) (hr : ∀ r ∈ refs, '.' ∉ printedName r.1) :
    validate (plainSelect (refs.map fun r => .chained (.column r.1) (.column r.2))
        (.alias (.paren [s]) (.raw a) w)) = .ok [] ↔
      ∀ r ∈ refs, printedName r.1 = a ∧ (printedName r.2 ∈ exports s ∨ str!"*" ∈ exports s) := by
  obtain ⟨ff, hff, hN⟩ := scope_alias hs a w
  rw [plainSelect_valid _ _ ff hff, alias_valid (isSelect_of_exporting hs)]
  simp only [hv, and_true, List.mem_map, forall_exists_index, and_imp, forall_apply_eq_imp_iff₂]
  refine forall_congr' fun r => forall_congr' fun hm => ?_
  have h1 := hr r hm
  simp only [vtable, V.of, validateChained_printed hN]
  have e : ∀ x, dotted (printedName r.1) x ∈ (exports s).map (dotted a) ↔ printedName r.1 = a ∧ x ∈ exports s := by
    intro x
    simp only [List.mem_map]
    constructor
    · rintro ⟨y, hy, he⟩
      obtain ⟨e1, e2⟩ := dotted_eq ha h1 he
      exact ⟨e1.symm, e2 ▸ hy⟩
    · rintro ⟨e1, hx⟩
      exact ⟨x, hx, by rw [e1]⟩
  have e' : str!"*" ∉ (exports s).map (dotted a) := by
    simp only [List.mem_map, not_exists, not_and]
    intro y _ he
    have : '.' ∈ str!"*" := by rw [← he]; simp [dotted]
    exact absurd this (by decide)
  simp only [e, e', or_false]
  by_cases hc : printedName r.1 = a ∧ (printedName r.2 ∈ exports s ∨ str!"*" ∈ exports s)
  · rw [if_pos (by rw [← and_or_left]; exact hc)]
    simp [hc]
  · rw [if_neg (by rw [← and_or_left]; exact hc)]
    simp [hc]

/-- The names printed in capitals are met by the last theorem: `SELECT t.monday FROM (SELECT monday FROM u) t` compares
`t.MONDAY`. -/
example : @printedName asciiEnv str!"monday" = str!"MONDAY" ∧ @printedName asciiEnv str!"Monday" = str!"Monday" ∧
    @printedName asciiEnv str!"t" = str!"t" := by decide +kernel

/-- C24 is false for names that are printed in capitals: `t.monday` is rejected although exported. -/
theorem C24_not_all :
    (@SQLQuery.isValid asciiEnv (SQLQuery.new str!"SELECT t.monday FROM (SELECT monday FROM u) t")).1 =
      .ok false := by
  decide +kernel

/-- Non-vacuity of C24. -/
example : (@parseSql asciiEnv str!"SELECT q.z, q.y FROM (SELECT *, 1 z FROM (SELECT a, b y FROM t)) q").toOption =
      some (plainSelect ([(str!"q", str!"z"), (str!"q", str!"y")].map fun r =>
        .chained (.column r.1) (.column r.2)) (.alias (.paren [nestedStar]) (.raw str!"q") false)) ∧
    (@SQLQuery.isValid asciiEnv (SQLQuery.new
      str!"SELECT q.z, q.y FROM (SELECT *, 1 z FROM (SELECT a, b y FROM t)) q")).1 = .ok true ∧
    (@SQLQuery.isValid asciiEnv (SQLQuery.new
      str!"SELECT q.z, q.b FROM (SELECT *, 1 z FROM (SELECT a, b y FROM t)) q")).1 = .ok false ∧
    (@SQLQuery.isValid asciiEnv (SQLQuery.new
      str!"SELECT q.z, p.y FROM (SELECT *, 1 z FROM (SELECT a, b y FROM t)) q")).1 = .ok false := by
  decide +kernel

/-! ### C25 -/

/-- The two sides of an aliased join, with their join type and condition. -/
def aliasedJoin (t : Str) (s : Node) (a : Str) (w : Bool) (s' : Node) (b : Str) (w' : Bool) (on us : Node) :
    Node :=
  .join t (.alias (.paren [s]) (.raw a) w) (.alias (.paren [s']) (.raw b) w') on us

/-- C25, first half: a column that both sides of an aliased join export is reported as ambiguous wherever it
is mentioned in the select list, WHERE and HAVING. -/
theorem C25_ambiguous_reported_partial (n s s' : Node) (hs : Exporting s) (hs' : Exporting s') (t a b : Str)
    (w w' : Bool) (on us : Node) (ha : '.' ∉ a) (hb : '.' ∉ b) (hab : a ≠ b)
    (hf : fromOf n = aliasedJoin t s a w s' b w' on us) (x : Str) (hm : Mentions n x) (hx : x ≠ str!"*")
    (hd : '.' ∉ x) (h1 : x ∈ exports s) (h2 : x ∈ exports s') :
    validate n ≠ .ok [] ∧
    ∀ errs, validate n = .ok errs → str!"column \"" ++ x ++ str!"\" is ambiguous" ∈ errs := by
  have h : Post (validate n) (str!"column \"" ++ x ++ str!"\" is ambiguous" ∈ ·) := by
    refine mentions_reports hm fun ff hff => ?_
    obtain ⟨ff', hff', hN⟩ := scope_join hs hs' t a b w w' on us
    rw [hf, aliasedJoin, hff'] at hff
    injection hff with hff
    subst hff
    have c1 : 0 < countField (innerFields [] ff') (dotted a x) := by
      rw [← hasField_iff_count, hN.has, List.mem_append]
      exact .inl (List.mem_map.2 ⟨x, h1, rfl⟩)
    have c2 : 0 < countField (innerFields [] ff') (dotted b x) := by
      rw [← hasField_iff_count, hN.has, List.mem_append]
      exact .inr (List.mem_map.2 ⟨x, h2, rfl⟩)
    rw [validateColumn_join ha hb hab hN hd hx, if_pos (by omega)]
  refine ⟨fun h' => ?_, h⟩
  exact absurd (h [] h') (by simp)

theorem count_map_dotted (a x : Str) (ys : List Str) : (ys.map (dotted a)).count (dotted a x) = ys.count x := by
  rw [List.count, List.count, List.countP_map]
  apply List.countP_congr
  intro y _
  simp [dotted_inj]

theorem count_map_dotted_ne {a b : Str} (ha : '.' ∉ a) (hb : '.' ∉ b) (hab : a ≠ b) (x : Str)
    (ys : List Str) : (ys.map (dotted a)).count (dotted b x) = 0 := by
  rw [List.count_eq_zero, List.mem_map]
  rintro ⟨y, _, h⟩
  exact hab (dotted_eq ha hb h).1

/-- C25, second half: over a join with a condition, a query of plain columns that are each exported once by
one side and not by the other is valid. -/
theorem C25_unambiguous_accepted_partial (s s' : Node) (hs : Exporting s) (hs' : Exporting s') (t a b : Str)
    (w w' : Bool) (on us : Node) (ha : '.' ∉ a) (hb : '.' ∉ b) (hab : a ≠ b)
    (hj : on.truthy = true ∨ us.truthy = true ∨ t = str!"CROSS JOIN" ∨ t = str!",") (xs : List Str)
    (hxs : ∀ x ∈ xs, '.' ∉ x ∧ (exports s).count x + (exports s').count x = 1) :
    validate (plainSelect (xs.map .column) (aliasedJoin t s a w s' b w' on us)) = .ok [] := by
  obtain ⟨ff, hff, hN⟩ := scope_join hs hs' t a b w w' on us
  rw [aliasedJoin, plainSelect_valid _ _ ff hff]
  constructor
  · simp only [List.mem_map, forall_exists_index, and_imp, forall_apply_eq_imp_iff₂]
    intro x hx
    obtain ⟨hd, hc⟩ := hxs x hx
    simp only [vtable, V.of]
    by_cases hst : x = str!"*"
    · simp [validateColumn, hst]
    · have m1 := hN.count (dotted a x)
      have m2 := hN.count (dotted b x)
      rw [List.count_append, count_map_dotted, count_map_dotted_ne hb ha (Ne.symm hab)] at m1
      rw [List.count_append, count_map_dotted, count_map_dotted_ne ha hb hab] at m2
      have hpos : 0 < countField (innerFields [] ff) (dotted a x) +
          countField (innerFields [] ff) (dotted b x) := by
        have hmem : x ∈ exports s ∨ x ∈ exports s' := by
          rw [← List.count_pos_iff, ← List.count_pos_iff (l := exports s')]
          omega
        rcases hmem with h | h
        · have : 0 < countField (innerFields [] ff) (dotted a x) := by
            rw [← hasField_iff_count, hN.has, List.mem_append]
            exact .inl (List.mem_map.2 ⟨x, h, rfl⟩)
          omega
        · have : 0 < countField (innerFields [] ff) (dotted b x) := by
            rw [← hasField_iff_count, hN.has, List.mem_append]
            exact .inr (List.mem_map.2 ⟨x, h, rfl⟩)
          omega
      rw [validateColumn_join ha hb hab hN hd hst, if_neg (by omega), if_neg (by omega)]
  · have hn : ¬(t ≠ str!"CROSS JOIN" ∧ t ≠ str!"," ∧ (!(us.truthy || on.truthy)) = true) := by
      rintro ⟨h1, h2, h3⟩
      rcases hj with h | h | h | h <;> simp_all
    rw [vtable]
    simp only [optV, V.of, if_neg hn, ite_self]

/-- A column exported by neither side of the join is reported. -/
theorem C25_missing_reported_partial (n s s' : Node) (hs : Exporting s) (hs' : Exporting s') (t a b : Str)
    (w w' : Bool) (on us : Node) (ha : '.' ∉ a) (hb : '.' ∉ b) (hab : a ≠ b)
    (hf : fromOf n = aliasedJoin t s a w s' b w' on us) (x : Str) (hm : Mentions n x) (hx : x ≠ str!"*")
    (hd : '.' ∉ x) (h1 : x ∉ exports s) (h2 : x ∉ exports s') :
    validate n ≠ .ok [] ∧
    ∀ errs, validate n = .ok errs → str!"The column " ++ x ++ str!" was not found" ∈ errs := by
  have h : Post (validate n) (str!"The column " ++ x ++ str!" was not found" ∈ ·) := by
    refine mentions_reports hm fun ff hff => ?_
    obtain ⟨ff', hff', hN⟩ := scope_join hs hs' t a b w w' on us
    rw [hf, aliasedJoin, hff'] at hff
    injection hff with hff
    subst hff
    have m1 := hN.count (dotted a x)
    have m2 := hN.count (dotted b x)
    rw [List.count_append, count_map_dotted, count_map_dotted_ne hb ha (Ne.symm hab),
      List.count_eq_zero.2 h1] at m1
    rw [List.count_append, count_map_dotted, count_map_dotted_ne ha hb hab, List.count_eq_zero.2 h2] at m2
    rw [validateColumn_join ha hb hab hN hd hx, if_neg (by omega), if_pos (by omega)]
  refine ⟨fun h' => ?_, h⟩
  exact absurd (h [] h') (by simp)

/-- The last theorem holds even if a side exports `*`: with `SELECT *` on one side, its columns are not
found without a qualifier. -/
theorem C25_star_side_rejected :
    (@SQLQuery.isValid asciiEnv (SQLQuery.new
      str!"SELECT c FROM (SELECT * FROM t) p JOIN (SELECT k FROM u) q ON p.k = q.k")).1 = .ok false ∧
    (@SQLQuery.isValid asciiEnv (SQLQuery.new
      str!"SELECT p.c FROM (SELECT * FROM t) p JOIN (SELECT k FROM u) q ON p.k = q.k")).1 = .ok true := by
  decide +kernel

/-- Non-vacuity of C25. -/
example :
    (match @parseSql asciiEnv str!"SELECT c FROM (SELECT c, k FROM t) p JOIN (SELECT k FROM u) q ON p.k = q.k" with
    | .ok n => some (fromOf n)
    | .error _ => none) =
      some (aliasedJoin str!"JOIN"
        (plainSelect [.column str!"c", .column str!"k"] (.table (.column str!"t") false)) str!"p" false
        (plainSelect [.column str!"k"] (.table (.column str!"u") false)) str!"q" false
        (.on (.cond (.chained (.column str!"p") (.column str!"k")) str!"="
          (.chained (.column str!"q") (.column str!"k")))) .none) ∧
    (@SQLQuery.isValid asciiEnv (SQLQuery.new
      str!"SELECT c FROM (SELECT c, k FROM t) p JOIN (SELECT k FROM u) q ON p.k = q.k")).1 = .ok true ∧
    (@SQLQuery.isValid asciiEnv (SQLQuery.new
      str!"SELECT k FROM (SELECT c, k FROM t) p JOIN (SELECT k FROM u) q ON p.k = q.k")).1 = .ok false ∧
    (@SQLQuery.isValid asciiEnv (SQLQuery.new
      str!"SELECT d FROM (SELECT c, k FROM t) p JOIN (SELECT k FROM u) q ON p.k = q.k")).1 = .ok false := by
  decide +kernel

/-! ### C33 -/

/-- C33: whatever is reported for a query standing in the FROM clause, within parentheses, aliases and FROM
clauses at any depth, is reported for the whole query. -/
theorem C33_inner_errors_surface_partial (n s : Node) (hn : n.isSelect = true) (hs : s.isSelect = true)
    (hi : Inside n s) (errs : List Str) (hv : validate n = .ok errs) :
    ∃ errs', validate s = .ok errs' ∧ errs' ⊆ errs := by
  rw [validate_select hn] at hv
  rw [validate_select hs]
  exact inside_includes hi hv

/-- … in particular, a query around an invalid one is invalid. -/
theorem C33_invalid_inside_invalid_partial (n s : Node) (hn : n.isSelect = true) (hs : s.isSelect = true)
    (hi : Inside n s) (hv : validate s ≠ .ok []) : validate n ≠ .ok [] := by
  intro h
  obtain ⟨errs', h1, h2⟩ := C33_inner_errors_surface_partial n s hn hs hi [] h
  rw [List.subset_nil.1 h2] at h1
  exact hv h1

/-- C33 is false for the sides of a join: `SELECT a WHERE 3` is invalid, a join with it is not. -/
theorem C33_not_all :
    (@SQLQuery.isValid asciiEnv (SQLQuery.new str!"SELECT a WHERE 3")).1 = .ok false ∧
    (@SQLQuery.isValid asciiEnv (SQLQuery.new
      str!"SELECT p.a FROM (SELECT a WHERE 3) p JOIN (SELECT k FROM u) q ON p.a = q.k")).1 = .ok true := by
  decide +kernel

/-- Non-vacuity of C33. -/
example : (@parseSql asciiEnv str!"SELECT b FROM (SELECT b FROM (SELECT a b) p) q").toOption =
    some (plainSelect [.column str!"b"] (.alias (.paren [plainSelect [.column str!"b"]
      (.alias (.paren [plainSelect [.alias (.column str!"a") (.raw str!"b") false] .none])
        (.raw str!"p") false)]) (.raw str!"q") false)) ∧
    Inside (plainSelect [.column str!"b"] (.alias (.paren [plainSelect [.column str!"b"]
      (.alias (.paren [plainSelect [.alias (.column str!"a") (.raw str!"b") false] .none])
        (.raw str!"p") false)]) (.raw str!"q") false))
      (plainSelect [.alias (.column str!"a") (.raw str!"b") false] .none) ∧
    @validate asciiEnv (plainSelect [.alias (.column str!"a") (.raw str!"b") false] .none) =
      .ok [str!"The column a was not found"] := by
  refine ⟨by decide +kernel, ?_, by decide +kernel⟩
  exact .from_ _ _ _ _ _ _ _ _ _ _ _ _ _ rfl (.alias _ _ _ _ (.paren _ _ _ (List.mem_singleton.2 rfl)
    (.from_ _ _ _ _ _ _ _ _ _ _ _ _ _ rfl (.alias _ _ _ _ (.paren _ _ _ (List.mem_singleton.2 rfl) (.self _))))))

end SqlV
