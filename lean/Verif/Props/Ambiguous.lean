import Verif.Props.Columns

/-!
# C23 over any sub-query, C24 and C25 over joins, for all columns

Which queries of plain columns over an aliased join of two sub-queries are valid: those with a join
condition, or a join that needs none, whose columns are each exported by one side and not by the other.
-/

namespace SqlV

variable [PyEnv]

/-- C23 together with C33: a query of plain columns over a sub-query is valid exactly when the sub-query is valid on its own, and each of
the columns is `*` or exported, or the sub-query exports `*`. -/
theorem C23_iff (s : Node) (hs : Exporting s) (hd : ∀ y ∈ exports s, '.' ∉ y) (xs : List Str) :
    validate (plainSelect (xs.map .column) (.paren [s])) = .ok [] ↔
      validate s = .ok [] ∧ ∀ x ∈ xs, x = str!"*" ∨ x ∈ exports s ∨ str!"*" ∈ exports s := by
  constructor
  · intro h
    have hv : validate s = .ok [] := by
      obtain ⟨ff, hff, -⟩ := scope_paren hs
      rw [plainSelect_valid _ _ ff hff, paren_valid (isSelect_of_exporting hs)] at h
      exact h.2
    exact ⟨hv, (C23_outer_columns_exported_partial s hs hd hv xs).1 h⟩
  · rintro ⟨hv, h⟩
    exact (C23_outer_columns_exported_partial s hs hd hv xs).2 h

/-- Non-vacuity of C23_iff: the first is valid; then the sub-query is invalid, then the column is not exported. -/
example :
    Exporting (plainSelect [.column str!"c"] (.table (.column str!"t") false)) ∧
    (@SQLQuery.isValid asciiEnv (SQLQuery.new str!"SELECT c FROM (SELECT c FROM t)")).1 = .ok true ∧
    (@SQLQuery.isValid asciiEnv (SQLQuery.new str!"SELECT c FROM (SELECT c)")).1 = .ok false ∧
    (@SQLQuery.isValid asciiEnv (SQLQuery.new str!"SELECT d FROM (SELECT c FROM t)")).1 = .ok false := by
  refine ⟨.select _ _ _ _ _ _ _ _ _ _ _ _ (by simp) (by simp) (by simp), ?_⟩
  decide +kernel

/-- Nothing is reported about the join itself exactly if it has a condition or needs none. -/
theorem join_valid (s s' : Node) (t a b : Str) (w w' : Bool) (on us : Node) :
    optV (.join t (.alias (.paren [s]) (.raw a) w) (.alias (.paren [s']) (.raw b) w') on us)
        ((vtable (.join t (.alias (.paren [s]) (.raw a) w) (.alias (.paren [s']) (.raw b) w') on us)).v []) = .ok [] ↔
      (on.truthy = true ∨ us.truthy = true ∨ t = str!"CROSS JOIN" ∨ t = str!",") := by
  rw [vtable]
  have ht : (Node.join t (.alias (.paren [s]) (.raw a) w) (.alias (.paren [s']) (.raw b) w') on us).truthy = true :=
    rfl
  simp only [optV, V.of, ht, if_true]
  by_cases h : t ≠ str!"CROSS JOIN" ∧ t ≠ str!"," ∧ (!(us.truthy || on.truthy)) = true
  · rw [if_pos h]
    obtain ⟨h1, h2, h3⟩ := h
    simp only [Bool.not_eq_true', Bool.or_eq_false_iff] at h3
    simp [h1, h2, h3.1, h3.2]
  · rw [if_neg h]
    refine iff_of_true rfl ?_
    refine Classical.byContradiction fun hc => ?_
    simp only [not_or] at hc
    exact h ⟨hc.2.2.1, hc.2.2.2, by simp [hc.1, hc.2.1]⟩

/-- C25, both halves in one: over a join of two sub-queries that export no name twice, a query of columns is
valid exactly when the join has a condition or needs none, and each of the columns is `*` or exported by
exactly one of the sides. -/
theorem C25_iff (s s' : Node) (hs : Exporting s) (hs' : Exporting s') (hn : (exports s).Nodup)
    (hn' : (exports s').Nodup) (t a b : Str) (w w' : Bool) (on us : Node) (ha : '.' ∉ a) (hb : '.' ∉ b)
    (hab : a ≠ b) (xs : List Str) (hxs : ∀ x ∈ xs, '.' ∉ x) :
    validate (plainSelect (xs.map .column) (aliasedJoin t s a w s' b w' on us)) = .ok [] ↔
      (on.truthy = true ∨ us.truthy = true ∨ t = str!"CROSS JOIN" ∨ t = str!",") ∧
      ∀ x ∈ xs, x = str!"*" ∨ (x ∈ exports s ∧ x ∉ exports s') ∨ (x ∉ exports s ∧ x ∈ exports s') := by
  obtain ⟨ff, hff, hN⟩ := scope_join hs hs' t a b w w' on us
  rw [aliasedJoin, plainSelect_valid _ _ ff hff, and_comm]
  refine and_congr ?_ ?_
  · exact join_valid ..
  · simp only [List.mem_map, forall_exists_index, and_imp, forall_apply_eq_imp_iff₂]
    refine forall_congr' fun x => forall_congr' fun hx => ?_
    have hd := hxs x hx
    simp only [vtable, V.of]
    by_cases hst : x = str!"*"
    · simp [validateColumn, hst]
    · have m1 := hN.count (dotted a x)
      have m2 := hN.count (dotted b x)
      rw [List.count_append, count_map_dotted, count_map_dotted_ne hb ha (Ne.symm hab)] at m1
      rw [List.count_append, count_map_dotted, count_map_dotted_ne ha hb hab] at m2
      have c1 : x ∈ exports s → 0 < countField (innerFields [] ff) (dotted a x) := fun h => by
        rw [← hasField_iff_count, hN.has, List.mem_append]
        exact .inl (List.mem_map.2 ⟨x, h, rfl⟩)
      have c2 : x ∈ exports s' → 0 < countField (innerFields [] ff) (dotted b x) := fun h => by
        rw [← hasField_iff_count, hN.has, List.mem_append]
        exact .inr (List.mem_map.2 ⟨x, h, rfl⟩)
      have k1 := List.nodup_iff_count.1 hn x
      have k2 := List.nodup_iff_count.1 hn' x
      rw [validateColumn_join ha hb hab hN hd hst]
      by_cases h1 : x ∈ exports s <;> by_cases h2 : x ∈ exports s'
      · have := c1 h1
        have := c2 h2
        rw [if_pos (by omega)]
        simp [hst, h1, h2]
      · have := c1 h1
        have := List.count_eq_zero.2 h2
        rw [if_neg (by omega), if_neg (by omega)]
        simp [h1, h2]
      · have := c2 h2
        have := List.count_eq_zero.2 h1
        rw [if_neg (by omega), if_neg (by omega)]
        simp [h1, h2]
      · have := List.count_eq_zero.2 h1
        have := List.count_eq_zero.2 h2
        rw [if_neg (by omega), if_pos (by omega)]
        simp [hst, h1, h2]

/-- Without the condition on repeated names, one direction remains: in a valid query each column is exported by
exactly one side. -/
theorem C25_valid_exports (s s' : Node) (hs : Exporting s) (hs' : Exporting s') (t a b : Str) (w w' : Bool)
    (on us : Node) (ha : '.' ∉ a) (hb : '.' ∉ b) (hab : a ≠ b) (xs : List Str) (hxs : ∀ x ∈ xs, '.' ∉ x)
    (hv : validate (plainSelect (xs.map .column) (aliasedJoin t s a w s' b w' on us)) = .ok []) :
    ∀ x ∈ xs, x = str!"*" ∨ (x ∈ exports s ∧ x ∉ exports s') ∨ (x ∉ exports s ∧ x ∈ exports s') := by
  obtain ⟨ff, hff, hN⟩ := scope_join hs hs' t a b w w' on us
  rw [aliasedJoin, plainSelect_valid _ _ ff hff] at hv
  intro x hx
  have hd := hxs x hx
  have h := hv.1 (.column x) (List.mem_map.2 ⟨x, hx, rfl⟩)
  simp only [vtable, V.of] at h
  by_cases hst : x = str!"*"
  · exact .inl hst
  have m1 := hN.count (dotted a x)
  have m2 := hN.count (dotted b x)
  rw [List.count_append, count_map_dotted, count_map_dotted_ne hb ha (Ne.symm hab)] at m1
  rw [List.count_append, count_map_dotted, count_map_dotted_ne ha hb hab] at m2
  rw [validateColumn_join ha hb hab hN hd hst] at h
  by_cases h1 : x ∈ exports s <;> by_cases h2 : x ∈ exports s'
  · have c1 : 0 < countField (innerFields [] ff) (dotted a x) := by
      rw [← hasField_iff_count, hN.has, List.mem_append]
      exact .inl (List.mem_map.2 ⟨x, h1, rfl⟩)
    have c2 : 0 < countField (innerFields [] ff) (dotted b x) := by
      rw [← hasField_iff_count, hN.has, List.mem_append]
      exact .inr (List.mem_map.2 ⟨x, h2, rfl⟩)
    rw [if_pos (by omega)] at h
    simp at h
  · exact .inr (.inl ⟨h1, h2⟩)
  · exact .inr (.inr ⟨h1, h2⟩)
  · have := List.count_eq_zero.2 h1
    have := List.count_eq_zero.2 h2
    rw [if_neg (by omega), if_pos (by omega)] at h
    simp at h

/-- C24 over joins: a query of qualified columns over an aliased join is valid exactly when the join has a condition or needs none, and each
column is qualified by the alias of a side that exports it, or exports `*`; names count as they are printed. -/
theorem C24_join_iff (s s' : Node) (hs : Exporting s) (hs' : Exporting s') (t a b : Str) (w w' : Bool) (on us : Node)
    (ha : '.' ∉ a) (hb : '.' ∉ b) (refs : List (Str × Str)) (hr : ∀ r ∈ refs, '.' ∉ printedName r.1) :
    validate (plainSelect (refs.map fun r => .chained (.column r.1) (.column r.2)) (aliasedJoin t s a w s' b w' on us)) = .ok [] ↔
      (on.truthy = true ∨ us.truthy = true ∨ t = str!"CROSS JOIN" ∨ t = str!",") ∧
      ∀ r ∈ refs, (printedName r.1 = a ∧ (printedName r.2 ∈ exports s ∨ str!"*" ∈ exports s)) ∨
        (printedName r.1 = b ∧ (printedName r.2 ∈ exports s' ∨ str!"*" ∈ exports s')) := by
  obtain ⟨ff, hff, hN⟩ := scope_join hs hs' t a b w w' on us
  rw [aliasedJoin, plainSelect_valid _ _ ff hff, and_comm]
  refine and_congr (join_valid ..) ?_
  simp only [List.mem_map, forall_exists_index, and_imp, forall_apply_eq_imp_iff₂]
  refine forall_congr' fun r => forall_congr' fun hm => ?_
  have h1 := hr r hm
  simp only [vtable, V.of, validateChained_printed hN, List.mem_append]
  have e : ∀ (q : Str), '.' ∉ q → ∀ (l : List Str) x,
      dotted (printedName r.1) x ∈ l.map (dotted q) ↔ printedName r.1 = q ∧ x ∈ l := by
    intro q hq l x
    simp only [List.mem_map]
    constructor
    · rintro ⟨y, hy, he⟩
      obtain ⟨e1, e2⟩ := dotted_eq hq h1 he
      exact ⟨e1.symm, e2 ▸ hy⟩
    · rintro ⟨e1, hx⟩
      exact ⟨x, hx, by rw [e1]⟩
  have e' : ∀ (q : Str) (l : List Str), str!"*" ∉ l.map (dotted q) := by
    intro q l
    simp only [List.mem_map, not_exists, not_and]
    intro y _ he
    have : '.' ∈ str!"*" := by rw [← he]; simp [dotted]
    exact absurd this (by decide)
  simp only [e a ha, e b hb, e', or_false]
  have : (((printedName r.1 = a ∧ printedName r.2 ∈ exports s) ∨ (printedName r.1 = b ∧ printedName r.2 ∈ exports s')) ∨
      ((printedName r.1 = a ∧ str!"*" ∈ exports s) ∨ (printedName r.1 = b ∧ str!"*" ∈ exports s'))) ↔
      ((printedName r.1 = a ∧ (printedName r.2 ∈ exports s ∨ str!"*" ∈ exports s)) ∨
        (printedName r.1 = b ∧ (printedName r.2 ∈ exports s' ∨ str!"*" ∈ exports s'))) := by
    rw [and_or_left, and_or_left]
    constructor
    · rintro ((h | h) | h | h)
      · exact .inl (.inl h)
      · exact .inr (.inl h)
      · exact .inl (.inr h)
      · exact .inr (.inr h)
    · rintro ((h | h) | h | h)
      · exact .inl (.inl h)
      · exact .inr (.inl h)
      · exact .inl (.inr h)
      · exact .inr (.inr h)
  rw [← this]
  split
  · rename_i h; simp [h]
  · rename_i h; simp [h]

/-- Non-vacuity of C24_join_iff: `p.k` and `q.k` are accepted together, `p.d` is not. -/
example :
    (@SQLQuery.isValid asciiEnv (SQLQuery.new
      str!"SELECT p.k, q.k FROM (SELECT c, k FROM t) p CROSS JOIN (SELECT k, d FROM u) q")).1 = .ok true ∧
    (@SQLQuery.isValid asciiEnv (SQLQuery.new
      str!"SELECT p.k, p.d FROM (SELECT c, k FROM t) p CROSS JOIN (SELECT k, d FROM u) q")).1 = .ok false := by
  decide +kernel

/-- Non-vacuity of C25_iff: two sides with a common column; `c` and `d` are accepted together, `k` is not. -/
example :
    let p := plainSelect [.column str!"c", .column str!"k"] (.table (.column str!"t") false)
    let q := plainSelect [.column str!"k", .column str!"d"] (.table (.column str!"u") false)
    Exporting p ∧ Exporting q ∧ (exports p).Nodup ∧ (exports q).Nodup ∧
    (match @parseSql asciiEnv
        str!"SELECT c, d FROM (SELECT c, k FROM t) p CROSS JOIN (SELECT k, d FROM u) q" with
      | .ok n => some n
      | .error _ => none) = some (plainSelect ([str!"c", str!"d"].map .column)
        (aliasedJoin str!"CROSS JOIN" p str!"p" false q str!"q" false .none .none)) ∧
    @validate asciiEnv (plainSelect ([str!"c", str!"d"].map .column)
      (aliasedJoin str!"CROSS JOIN" p str!"p" false q str!"q" false .none .none)) = .ok [] ∧
    @validate asciiEnv (plainSelect ([str!"c", str!"k"].map .column)
      (aliasedJoin str!"CROSS JOIN" p str!"p" false q str!"q" false .none .none)) =
      .ok [str!"column \"k\" is ambiguous"] := by
  refine ⟨?_, ?_, by decide, by decide, by decide +kernel, by decide +kernel, by decide +kernel⟩ <;>
  exact .select _ _ _ _ _ _ _ _ _ _ _ _ (by simp) (by simp) (by simp)

end SqlV
