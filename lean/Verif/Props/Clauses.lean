import Verif.Lemmas.Types
import Verif.Lemmas.Query
import Verif.Lemmas.NodeEq
import Verif.Spec.Scope

/-! Properties of validation that concern types, positions, LIMIT, OFFSET and joins. -/

set_option linter.unusedSectionVars false

namespace SqlV

variable [E : PyEnv]

/-- Validity of a query, clause by clause. -/
theorem select_valid_iff (es : List Node) (all d : Bool) (on : List Node) (f w g h ob l off : Node)
    (semi : Bool) :
    validate (.select es all d on f w g h ob l off semi) = .ok [] ↔
      ∃ ff, optFields (knownFields f) = .ok ff ∧
        clausesV es f w g h ob l off (known (.select es all d on f w g h ob l off semi)) = .ok [] := by
  simp only [validate, validateWith, vtable_select, V.of, bind_ok_iff]
  constructor
  · rintro ⟨ff, h1, h2⟩
    rw [innerFields_known (n := .select es all d on f w g h ob l off semi) h1] at h2
    exact ⟨ff, h1, h2⟩
  · rintro ⟨ff, h1, h2⟩
    rw [← innerFields_known (n := .select es all d on f w g h ob l off semi) h1] at h2
    exact ⟨ff, h1, h2⟩

theorem optV_none (r : VRes) : optV .none r = .ok [] := rfl

/-! ### C26 -/

/-- C26: a WHERE clause reports what its expression reports and, exactly if the type of the expression is
neither boolean nor unknown, one error more. -/
theorem C26_where_errors (hE : LawfulPyEnv E) (k : List Field) (v : Node) (t : PType) (ht : TypeIn k v t) :
    validateWith (.where_ v) k = (validateWith v k).map fun errs =>
      if t = .bool ∨ t = .object then errs
      else errs ++ [str!"The argument of WHERE must be type boolean, not type " ++ t.pyName] := by
  have hm := mustBeBoolean_typeIn (fun S f => (hE.setOrder_perm S).mem_iff) ht
  simp only [validateWith, vtable, V.of, hm, booleanReport]
  cases (vtable v).v k with
  | error e => rfl
  | ok a =>
    simp only [bind, Except.bind, pure, Except.pure, Except.map]
    split <;> simp

/-- C26 for HAVING. -/
theorem C26_having_errors (hE : LawfulPyEnv E) (k : List Field) (v : Node) (t : PType) (ht : TypeIn k v t) :
    validateWith (.having v) k = (validateWith v k).map fun errs =>
      if t = .bool ∨ t = .object then errs
      else errs ++ [str!"The argument of HAVING must be type boolean, not type " ++ t.pyName] := by
  have hm := mustBeBoolean_typeIn (fun S f => (hE.setOrder_perm S).mem_iff) ht
  simp only [validateWith, vtable, V.of, hm, booleanReport]
  cases (vtable v).v k with
  | error e => rfl
  | ok a =>
    simp only [bind, Except.bind, pure, Except.pure, Except.map]
    split <;> simp

/-- … so a WHERE clause keeps a query valid exactly if its expression is valid and boolean. -/
theorem C26_where_valid (hE : LawfulPyEnv E) (es : List Node) (all d : Bool) (on : List Node)
    (f v g h ob l off : Node) (semi : Bool) (t : PType)
    (ht : TypeIn (known (.select es all d on f (.where_ v) g h ob l off semi)) v t) :
    validate (.select es all d on f (.where_ v) g h ob l off semi) = .ok [] ↔
      validate (.select es all d on f .none g h ob l off semi) = .ok [] ∧
      validateWith v (known (.select es all d on f (.where_ v) g h ob l off semi)) = .ok [] ∧
      (t = .bool ∨ t = .object) := by
  have hk : known (.select es all d on f .none g h ob l off semi) =
    known (.select es all d on f (.where_ v) g h ob l off semi) := rfl
  rw [select_valid_iff, select_valid_iff, hk, clausesV_nil, clausesV_nil, optV_none]
  have hw := C26_where_errors hE _ v t ht
  generalize known (.select es all d on f (.where_ v) g h ob l off semi) = k at hw ht ⊢
  have e : optV (.where_ v) ((vtable (.where_ v)).v k) = validateWith (.where_ v) k := rfl
  rw [e, hw]
  have e' : (validateWith v k).map (fun errs =>
      if t = .bool ∨ t = .object then errs
      else errs ++ [str!"The argument of WHERE must be type boolean, not type " ++ t.pyName]) = .ok [] ↔
      validateWith v k = .ok [] ∧ (t = .bool ∨ t = .object) := by
    cases validateWith v k with
    | error e => simp [Except.map]
    | ok a =>
      by_cases hb : t = .bool ∨ t = .object
      · simp [Except.map, hb]
      · simp [Except.map, hb]
  rw [e']
  constructor
  · rintro ⟨ff, h1, h2, h3, h4, h5, h6, h7, h8, h9⟩
    exact ⟨⟨ff, h1, h2, h3, rfl, h5, h6, h7, h8, h9⟩, h4⟩
  · rintro ⟨⟨ff, h1, h2, h3, _, h5, h6, h7, h8, h9⟩, h4⟩
    exact ⟨ff, h1, h2, h3, h4, h5, h6, h7, h8, h9⟩

/-- C26 for HAVING: validity of the query. -/
theorem C26_having_valid (hE : LawfulPyEnv E) (es : List Node) (all d : Bool) (on : List Node)
    (f w g v ob l off : Node) (semi : Bool) (t : PType)
    (ht : TypeIn (known (.select es all d on f w g (.having v) ob l off semi)) v t) :
    validate (.select es all d on f w g (.having v) ob l off semi) = .ok [] ↔
      validate (.select es all d on f w g .none ob l off semi) = .ok [] ∧
      validateWith v (known (.select es all d on f w g (.having v) ob l off semi)) = .ok [] ∧
      (t = .bool ∨ t = .object) := by
  have hk : known (.select es all d on f w g .none ob l off semi) =
    known (.select es all d on f w g (.having v) ob l off semi) := rfl
  rw [select_valid_iff, select_valid_iff, hk, clausesV_nil, clausesV_nil, optV_none (r := (vtable .none).v _)]
  have hw := C26_having_errors hE _ v t ht
  generalize known (.select es all d on f w g (.having v) ob l off semi) = k at hw ht ⊢
  have e : optV (.having v) ((vtable (.having v)).v k) = validateWith (.having v) k := rfl
  rw [e, hw]
  have e' : (validateWith v k).map (fun errs =>
      if t = .bool ∨ t = .object then errs
      else errs ++ [str!"The argument of HAVING must be type boolean, not type " ++ t.pyName]) = .ok [] ↔
      validateWith v k = .ok [] ∧ (t = .bool ∨ t = .object) := by
    cases validateWith v k with
    | error e => simp [Except.map]
    | ok a =>
      by_cases hb : t = .bool ∨ t = .object
      · simp [Except.map, hb]
      · simp [Except.map, hb]
  rw [e']
  constructor
  · rintro ⟨ff, h1, h2, h3, h4, h5, h6, h7, h8, h9⟩
    exact ⟨⟨ff, h1, h2, h3, h4, h5, rfl, h7, h8, h9⟩, h6⟩
  · rintro ⟨⟨ff, h1, h2, h3, h4, h5, _, h7, h8, h9⟩, h6⟩
    exact ⟨ff, h1, h2, h3, h4, h5, h6, h7, h8, h9⟩

/-- `SELECT x FROM (SELECT 1 x, 1 = 1 y)` -/
def xAndY : Node := plainSelect [.column str!"x"]
  (.paren [plainSelect [.alias (.int 1) (.raw str!"x") false,
    .alias (.cond (.int 1) str!"=" (.int 1)) (.raw str!"y") false] .none])

/-- Non-vacuity of C26: literals, conditions and columns of a sub-query have the expected types. -/
example : @TypeIn asciiEnv [] (.paren [.int 3]) .int ∧
    @TypeIn asciiEnv [] (.cond (.int 3) str!"=" (.int 3)) .bool ∧
    @TypeIn asciiEnv (@known asciiEnv xAndY) (.column str!"x") .int ∧
    @TypeIn asciiEnv (@known asciiEnv xAndY) (.column str!"y") .bool := by
  refine ⟨@TypeIn.own asciiEnv _ _ _ (.inl rfl) (.paren _ _ _ (.int _)),
    @TypeIn.own asciiEnv _ _ _ (.inl rfl) (.cond _ _ _), ?_, ?_⟩
  · refine @TypeIn.field asciiEnv _ _ _ ⟨str!"x", some .int⟩ .object (.column _) (by decide +kernel) (by decide +kernel) rfl ?_
    decide +kernel
  · refine @TypeIn.field asciiEnv _ _ _ ⟨str!"y", some .bool⟩ .object (.column _) (by decide +kernel) (by decide +kernel) rfl ?_
    decide +kernel

/-! ### C27 -/

/-- C27: AND and OR report what their operands report and one error for each operand whose type is neither
boolean nor unknown. -/
theorem C27_operand_errors (hE : LawfulPyEnv E) (k : List Field) (type : Str) (l r : Node) (tl tr : PType)
    (hl : TypeIn k l tl) (hr : TypeIn k r tr) :
    validateWith (.boolc type l r) k = (do
      let a ← validateWith l k
      let b ← validateWith r k
      let report (t : PType) := if t = .bool ∨ t = .object then []
        else [str!"The argument of " ++ E.upper type ++ str!" must be type boolean, not type " ++ t.pyName]
      return a ++ report tl ++ b ++ report tr) := by
  have hm := fun {v t} (h : TypeIn k v t) =>
    mustBeBoolean_typeIn (fun S f => (hE.setOrder_perm S).mem_iff) h
  simp only [validateWith, vtable, validateBool_eq, operandV, hm hl, hm hr, booleanReport,
    Bool.false_eq_true, if_false]
  cases (vtable l).v k with
  | error e => rfl
  | ok a => cases (vtable r).v k <;> rfl

/-- … and the bounds of BETWEEN are only validated. -/
theorem C27_between_bounds (k : List Field) (e : Node) (p type : Str) (lo hi : Node)
    (hp : E.lower p = str!"between") :
    validateWith (.cond e p (.boolc type lo hi)) k = (do
      let a ← validateWith e k
      let b ← validateWith lo k
      let c ← validateWith hi k
      return a ++ b ++ c) := by
  simp only [validateWith, V.of, if_pos hp, vtable, validateBool_eq, operandV]
  cases (vtable e).v k with
  | error e => rfl
  | ok a =>
    cases (vtable lo).v k with
    | error e => rfl
    | ok b =>
      cases (vtable hi).v k with
      | error e => rfl
      | ok c => simp [bind, Except.bind, pure, Except.pure]

/-- An operand of known non-boolean type makes the query invalid, wherever AND or OR stands in the select
list, WHERE and HAVING; the error is reported unless validation raises. -/
theorem C27_operand_reported (hE : LawfulPyEnv E) (n : Node) (type : Str) (l r : Node)
    (hc : Contains n (.boolc type l r)) (t : PType)
    (ht : TypeIn (known n) l t ∨ TypeIn (known n) r t) (hb : t ≠ .bool) (ho : t ≠ .object) :
    validate n ≠ .ok [] ∧ ∀ errs, validate n = .ok errs →
      str!"The argument of " ++ E.upper type ++ str!" must be type boolean, not type " ++ t.pyName ∈ errs := by
  have hm := fun {v t} (h : TypeIn (known n) v t) =>
    mustBeBoolean_typeIn (fun S f => (hE.setOrder_perm S).mem_iff) h
  have key : ∀ errs, validate n = .ok errs →
      str!"The argument of " ++ E.upper type ++ str!" must be type boolean, not type " ++ t.pyName ∈ errs := by
    intro errs hn
    obtain ⟨errs', h1, h2⟩ := contains_includes hc hn
    refine h2 ?_
    simp only [vtable, validateBool_eq, operandV, Bool.false_eq_true, if_false, bind_ok_iff,
      pure_ok_iff] at h1
    obtain ⟨x, hx, y, hy, z, hz, u, hu, rfl⟩ := h1
    rcases ht with ht | ht
    · rw [hm ht] at hy
      injection hy with hy
      subst hy
      simp [booleanReport, hb, ho]
    · rw [hm ht] at hu
      injection hu with hu
      subst hu
      simp [booleanReport, hb, ho]
  exact ⟨fun h => absurd (key [] h) (by simp), key⟩

/-- Non-vacuity of C27. -/
example : (@parseSql asciiEnv str!"SELECT 1 WHERE f(2) AND (3 OR 4 BETWEEN 5 AND 6)").toOption =
      some (.select [.int 1] false false [] .none (.where_ (.boolc str!"AND" (.func str!"f" [.int 2])
        (.paren [.boolc str!"OR" (.int 3) (.cond (.int 4) str!"BETWEEN" (.boolc str!"and" (.int 5) (.int 6)))])))
        .none .none .none .none .none false) ∧
    (@SQLQuery.isValid asciiEnv (SQLQuery.new str!"SELECT 1 WHERE f(2) AND (3 OR 4 BETWEEN 5 AND 6)")).2.errors =
      [str!"The argument of OR must be type boolean, not type int"] ∧
    Contains (.select [.int 1] false false [] .none (.where_ (.boolc str!"AND" (.func str!"f" [.int 2])
        (.paren [.boolc str!"OR" (.int 3) (.cond (.int 4) str!"BETWEEN" (.boolc str!"and" (.int 5) (.int 6)))])))
        .none .none .none .none .none false)
      (.boolc str!"OR" (.int 3) (.cond (.int 4) str!"BETWEEN" (.boolc str!"and" (.int 5) (.int 6)))) := by
  refine ⟨by decide +kernel, by decide +kernel, ?_⟩
  exact .where_ _ _ _ _ _ _ _ _ _ _ _ _ _ (.boolRight _ _ _ _ (.paren _ _ _ (List.mem_singleton.2 rfl) (.self _)))

/-! ### C28 -/

theorem unparen_nest (k : Nat) (n : Node) : unparen (nest k n) = unparen n := by
  induction k with
  | zero => rfl
  | succ k ih => simp only [nest, unparen, unparenHead, ih]

theorem groupArg_int (k : List Field) (es : List Node) (j : Nat) (i : Int) :
    validateGroupArg k es (nest j (.int i)) = .ok [] ↔ 1 ≤ i ∧ i ≤ es.length := by
  unfold validateGroupArg
  rw [unparen_nest]
  simp only [unparen, bind, Except.bind]
  by_cases h : i ≤ 0 ∨ i > es.length
  · rw [if_pos h]
    simp only [pure, Except.pure, Except.ok.injEq, reduceCtorEq, false_iff]
    omega
  · rw [if_neg h]
    simp only [pure, Except.pure, true_iff]
    omega

/-- C28: a GROUP BY clause of positions, each under any number of parentheses, keeps a query valid exactly if
each position is between 1 and the number of select expressions. -/
theorem C28_group_by_positions (es : List Node) (all d : Bool) (on : List Node) (f w h ob l off : Node)
    (semi r s : Bool) (ps : List (Nat × Int)) :
    validate (.select es all d on f w (.groupBy (ps.map fun p => nest p.1 (.int p.2)) r s) h ob l off semi) =
        .ok [] ↔
      validate (.select es all d on f w .none h ob l off semi) = .ok [] ∧
      ∀ p ∈ ps, 1 ≤ p.2 ∧ p.2 ≤ es.length := by
  have hk : known (.select es all d on f w .none h ob l off semi) =
    known (.select es all d on f w (.groupBy (ps.map fun p => nest p.1 (.int p.2)) r s) h ob l off semi) := rfl
  rw [select_valid_iff, select_valid_iff, hk, clausesV_nil, clausesV_nil]
  generalize known _ = k
  have e : optV (.groupBy (ps.map fun p => nest p.1 (.int p.2)) r s)
      (validateGroupBy k es (ps.map fun p => nest p.1 (.int p.2))) = .ok [] ↔
      ∀ p ∈ ps, 1 ≤ p.2 ∧ p.2 ≤ es.length := by
    simp only [optV, Node.truthy, if_true, validateGroupBy, concatV_nil_iff, List.mem_map,
      forall_exists_index, and_imp, forall_apply_eq_imp_iff₂, groupArg_int]
  simp only [e, optV_none]
  constructor
  · rintro ⟨ff, h1, h2, h3, h4, h5, h6, h7, h8, h9⟩
    exact ⟨⟨ff, h1, h2, h3, h4, trivial, h6, h7, h8, h9⟩, h5⟩
  · rintro ⟨⟨ff, h1, h2, h3, h4, _, h6, h7, h8, h9⟩, h5⟩
    exact ⟨ff, h1, h2, h3, h4, h5, h6, h7, h8, h9⟩

/-- Non-vacuity of C28, and the list behind a parenthesis of several positions is not looked at. -/
theorem C28_only_first_in_parentheses :
    (@SQLQuery.isValid asciiEnv (SQLQuery.new str!"SELECT a, b FROM t GROUP BY ((2)), 1")).1 = .ok true ∧
    (@SQLQuery.isValid asciiEnv (SQLQuery.new str!"SELECT a, b FROM t GROUP BY ((3)), 1")).1 = .ok false ∧
    (@SQLQuery.isValid asciiEnv (SQLQuery.new str!"SELECT a, b FROM t GROUP BY (2, 3)")).1 = .ok true := by
  decide +kernel

/-! ### C29 -/

theorem concatIn_nil_iff {k : List Field} {s : Option (List Node)} {vs : List V} :
    V.concatIn k s vs = .ok [] ↔ ∀ x ∈ vs, x.vIn k s = .ok [] := by
  induction vs with
  | nil => simp [V.concatIn]
  | cons x xs ih =>
    simp only [V.concatIn, bind_ok_iff, pure_ok_iff, List.append_eq_nil_iff, List.mem_cons,
      forall_eq_or_imp, ← ih]
    constructor
    · rintro ⟨a, ha, b, hb, rfl, rfl⟩; exact ⟨ha, hb⟩
    · rintro ⟨ha, hb⟩; exact ⟨_, ha, _, hb, rfl, rfl⟩

theorem orderItem_int (k : List Field) (es : List Node) (j : Nat) (i : Int) (vv : V) :
    validateOrderItem (nest j (.int i)) vv k (some es) = .ok [] ↔ 1 ≤ i ∧ i ≤ es.length := by
  unfold validateOrderItem
  rw [unparen_nest]
  simp only [unparen, bind, Except.bind]
  by_cases h : i ≤ 0
  · rw [if_pos h]
    simp only [pure, Except.pure, Except.ok.injEq, reduceCtorEq, false_iff]
    omega
  · rw [if_neg h]
    by_cases h' : i > es.length
    · rw [if_pos h']
      simp only [pure, Except.pure, Except.ok.injEq, reduceCtorEq, false_iff]
      omega
    · rw [if_neg h']
      simp only [pure, Except.pure, true_iff]
      omega

/-- C29: an ORDER BY clause of positions, each under any number of parentheses and with any direction, keeps
a query valid exactly if each position is between 1 and the number of select expressions. -/
theorem C29_order_by_positions (es : List Node) (all d : Bool) (on : List Node) (f w g h l off : Node)
    (semi : Bool) (ps : List (Nat × Int × Bool × Bool)) :
    validate (.select es all d on f w g h
        (.orderBy (ps.map fun p => .orderItem (nest p.1 (.int p.2.1)) p.2.2.1 p.2.2.2)) l off semi) = .ok [] ↔
      validate (.select es all d on f w g h .none l off semi) = .ok [] ∧
      ∀ p ∈ ps, 1 ≤ p.2.1 ∧ p.2.1 ≤ es.length := by
  have hk : known (.select es all d on f w g h .none l off semi) =
    known (.select es all d on f w g h
        (.orderBy (ps.map fun p => .orderItem (nest p.1 (.int p.2.1)) p.2.2.1 p.2.2.2)) l off semi) := rfl
  rw [select_valid_iff, select_valid_iff, hk, clausesV_nil, clausesV_nil]
  generalize known _ = k
  have e : optV (.orderBy (ps.map fun p => .orderItem (nest p.1 (.int p.2.1)) p.2.2.1 p.2.2.2))
      ((vtable (.orderBy (ps.map fun p => .orderItem (nest p.1 (.int p.2.1)) p.2.2.1 p.2.2.2))).vIn k (some es)) =
        .ok [] ↔ ∀ p ∈ ps, 1 ≤ p.2.1 ∧ p.2.1 ≤ es.length := by
    simp only [optV, Node.truthy, if_true, vtable, concatIn_nil_iff, mem_vtableList, List.mem_map,
      forall_exists_index, and_imp, forall_apply_eq_imp_iff₂, orderItem_int]
  rw [e]
  simp only [optV_none]
  constructor
  · rintro ⟨ff, h1, h2, h3, h4, h5, h6, h7, h8, h9⟩
    exact ⟨⟨ff, h1, h2, h3, h4, h5, h6, trivial, h8, h9⟩, h7⟩
  · rintro ⟨⟨ff, h1, h2, h3, h4, h5, h6, _, h8, h9⟩, h7⟩
    exact ⟨ff, h1, h2, h3, h4, h5, h6, h7, h8, h9⟩

/-- Non-vacuity of C29, and the list behind a parenthesis of several positions is not looked at. -/
theorem C29_only_first_in_parentheses :
    (@SQLQuery.isValid asciiEnv (SQLQuery.new str!"SELECT a, b FROM t ORDER BY ((2)) DESC, 1")).1 = .ok true ∧
    (@SQLQuery.isValid asciiEnv (SQLQuery.new str!"SELECT a, b FROM t ORDER BY ((3)) DESC, 1")).1 = .ok false ∧
    (@SQLQuery.isValid asciiEnv (SQLQuery.new str!"SELECT a, b FROM t ORDER BY (2, 3)")).1 = .ok true := by
  decide +kernel

/-! ### C30 and C31 -/

theorem unparen_exact (n : Node) : unparen n = match Core.first n with | some m => .ok m | none => .error .index := by
  induction n using Node.rec (motive_2 := fun ns => unparenHead ns = match Core.firstOf ns with | some m => .ok m | none => .error .index) with
  | nil => rfl
  | cons n ns h1 h2 => exact h1
  | paren args ih => exact ih
  | _ => rfl

theorem returnType_untyped (n : Node) :
    if Core.untyped n then returnType n = .error .attribute else ∃ t, returnType n = .ok t := by
  induction n using Node.rec (motive_2 := fun ns => if Core.untypedFirst ns then returnTypeHead ns = .error .attribute
    else ∃ t, returnTypeHead ns = .ok t) with
  | nil => exact ⟨_, rfl⟩
  | cons n ns h1 h2 => exact h1
  | chained l r _ hr => exact hr
  | paren args ih => exact ih
  | «alias» e al w he _ => exact he
  | _ => first | rfl | exact ⟨_, rfl⟩

theorem validateCount_exact (v : Node) (a b : Str) :
    validateCount v a b = match Core.first v with
      | none => .error .index
      | some (.int i) => .ok (if i < 0 then [b] else [])
      | some m => if Core.untyped m then .error .attribute else .ok [a] := by
  unfold validateCount
  rw [unparen_exact]
  cases Core.first v with
  | none => rfl
  | some m =>
    have ht := returnType_untyped m
    have other : (∀ i, m ≠ .int i) → Except.bind (returnType m) (fun _ => (.ok [a] : VRes)) =
        if Core.untyped m then .error .attribute else .ok [a] := by
      intro _
      cases hu : Core.untyped m with
      | true => rw [if_pos hu] at ht; rw [ht]; rfl
      | false =>
        rw [if_neg (by simp [hu])] at ht
        obtain ⟨t, ht⟩ := ht
        rw [ht]; rfl
    cases m with
    | int i =>
      simp only [bind, Except.bind, returnType, ne_eq, not_true_eq_false, if_false, pure, Except.pure]
      split <;> rfl
    | _ => exact other (by intro i h; cases h)

theorem validateCount_nil (v : Node) (a b : Str) :
    validateCount v a b = .ok [] ↔ ∃ i : Int, 0 ≤ i ∧ Core.first v = some (.int i) := by
  rw [validateCount_exact]
  cases hf : Core.first v with
  | none => simp
  | some m =>
    cases m with
    | int i =>
      by_cases h : i < 0
      · simp [h]
      · simp [h]; omega
    | _ => dsimp only; split <;> simp

theorem first_nest (j : Nat) (e : Node) (he : e.isParen = false) : Core.first (nest j e) = some e := by
  induction j with
  | zero => cases e <;> first | rfl | exact absurd he.symm Bool.false_ne_true
  | succ j ih => exact ih

/-- C30: a LIMIT clause keeps a query valid exactly if its argument, under any number of parentheses, is a
non-negative integer literal; of several arguments in parentheses, the first counts. -/
theorem C30_limit_valid (es : List Node) (all d : Bool) (on : List Node) (f w g h ob off : Node)
    (semi b : Bool) (v : Node) :
    validate (.select es all d on f w g h ob (.limit b v) off semi) = .ok [] ↔
      validate (.select es all d on f w g h ob .none off semi) = .ok [] ∧ ∃ i : Int, 0 ≤ i ∧ Core.first v = some (.int i) := by
  have hk : known (.select es all d on f w g h ob .none off semi) =
    known (.select es all d on f w g h ob (.limit b v) off semi) := rfl
  rw [select_valid_iff, select_valid_iff, hk, clausesV_nil, clausesV_nil]
  generalize known _ = k
  have e' : optV (.limit b v) ((vtable (.limit b v)).v k) = .ok [] ↔
      ∃ i : Int, 0 ≤ i ∧ Core.first v = some (.int i) := by
    simp only [optV, Node.truthy, if_true, vtable, V.of]
    exact validateCount_nil v _ _
  rw [e']
  simp only [optV_none]
  constructor
  · rintro ⟨ff, h1, h2, h3, h4, h5, h6, h7, h8, h9⟩
    exact ⟨⟨ff, h1, h2, h3, h4, h5, h6, h7, trivial, h9⟩, h8⟩
  · rintro ⟨⟨ff, h1, h2, h3, h4, h5, h6, h7, _, h9⟩, h8⟩
    exact ⟨ff, h1, h2, h3, h4, h5, h6, h7, h8, h9⟩

/-- C30, messages: exactly what is said about each argument. -/
theorem C30_limit_messages_partial (k : List Field) (b : Bool) (v : Node) :
    validateWith (.limit b v) k = match Core.first v with
      | none => .error .index
      | some (.int i) => .ok (if i < 0 then [str!"LIMIT must not be negative"] else [])
      | some e => if Core.untyped e then .error .attribute else .ok [str!"argument of LIMIT must not contain variables"] := by
  simp only [validateWith, vtable, V.of]
  exact validateCount_exact v _ _

/-- C30: under any number of parentheses, a negative literal gets its message, and every other expression that is not a
sub-query gets the other one. -/
theorem C30_limit_nested_partial (k : List Field) (b : Bool) (j : Nat) (e : Node) (he : e.isParen = false) :
    validateWith (.limit b (nest j e)) k = match e with
      | .int i => .ok (if i < 0 then [str!"LIMIT must not be negative"] else [])
      | e => if Core.untyped e then .error .attribute else .ok [str!"argument of LIMIT must not contain variables"] := by
  rw [C30_limit_messages_partial, first_nest j e he]
  cases e <;> rfl

/-- The messages are not given to all other arguments: `LIMIT ALL` and `LIMIT (SELECT 1)` raise, and only
the first of several arguments in a parenthesis is looked at. -/
theorem C30_not_all :
    (@SQLQuery.isValid asciiEnv (SQLQuery.new str!"SELECT 1 LIMIT ALL")).1 = .error .attribute ∧
    (@SQLQuery.isValid asciiEnv (SQLQuery.new str!"SELECT 1 LIMIT (SELECT 1)")).1 = .error .attribute ∧
    (@SQLQuery.isValid asciiEnv (SQLQuery.new str!"SELECT 1 LIMIT (1, x)")).1 = .ok true := by
  decide +kernel

/-- Non-vacuity of C30. -/
example :
    (@SQLQuery.isValid asciiEnv (SQLQuery.new str!"SELECT 1 LIMIT ((7))")).1 = .ok true ∧
    (@SQLQuery.isValid asciiEnv (SQLQuery.new str!"SELECT 1 LIMIT (-7)")).2.errors =
      [str!"LIMIT must not be negative"] ∧
    (@SQLQuery.isValid asciiEnv (SQLQuery.new str!"SELECT 1 LIMIT (x)")).2.errors =
      [str!"argument of LIMIT must not contain variables"] := by
  decide +kernel

/-- C31: an OFFSET clause keeps a query valid exactly if its argument, under any number of parentheses, is a
non-negative integer literal; of several arguments in parentheses, the first counts. -/
theorem C31_offset_valid (es : List Node) (all d : Bool) (on : List Node) (f w g h ob l : Node)
    (semi : Bool) (v : Node) :
    validate (.select es all d on f w g h ob l (.offset v) semi) = .ok [] ↔
      validate (.select es all d on f w g h ob l .none semi) = .ok [] ∧ ∃ i : Int, 0 ≤ i ∧ Core.first v = some (.int i) := by
  have hk : known (.select es all d on f w g h ob l .none semi) =
    known (.select es all d on f w g h ob l (.offset v) semi) := rfl
  rw [select_valid_iff, select_valid_iff, hk, clausesV_nil, clausesV_nil]
  generalize known _ = k
  have e' : optV (.offset v) ((vtable (.offset v)).v k) = .ok [] ↔
      ∃ i : Int, 0 ≤ i ∧ Core.first v = some (.int i) := by
    simp only [optV, Node.truthy, if_true, vtable, V.of]
    exact validateCount_nil v _ _
  rw [e']
  simp only [optV_none]
  constructor
  · rintro ⟨ff, h1, h2, h3, h4, h5, h6, h7, h8, h9⟩
    exact ⟨⟨ff, h1, h2, h3, h4, h5, h6, h7, h8, trivial⟩, h9⟩
  · rintro ⟨⟨ff, h1, h2, h3, h4, h5, h6, h7, h8, _⟩, h9⟩
    exact ⟨ff, h1, h2, h3, h4, h5, h6, h7, h8, h9⟩

/-- C31, messages: exactly what is said about each argument. -/
theorem C31_offset_messages_partial (k : List Field) (v : Node) :
    validateWith (.offset v) k = match Core.first v with
      | none => .error .index
      | some (.int i) => .ok (if i < 0 then [str!"OFFSET must not be negative"] else [])
      | some e => if Core.untyped e then .error .attribute else .ok [str!"argument of OFFSET must be integer"] := by
  simp only [validateWith, vtable, V.of]
  exact validateCount_exact v _ _

/-- C31: under any number of parentheses, a negative literal gets its message, and every other expression that is not a
sub-query gets the other one. -/
theorem C31_offset_nested_partial (k : List Field) (j : Nat) (e : Node) (he : e.isParen = false) :
    validateWith (.offset (nest j e)) k = match e with
      | .int i => .ok (if i < 0 then [str!"OFFSET must not be negative"] else [])
      | e => if Core.untyped e then .error .attribute else .ok [str!"argument of OFFSET must be integer"] := by
  rw [C31_offset_messages_partial, first_nest j e he]
  cases e <;> rfl

/-- The messages are not given to all other arguments: `OFFSET (SELECT 1)` raises, and only the first of
several arguments in a parenthesis is looked at. -/
theorem C31_not_all :
    (@SQLQuery.isValid asciiEnv (SQLQuery.new str!"SELECT 1 OFFSET (SELECT 1)")).1 = .error .attribute ∧
    (@SQLQuery.isValid asciiEnv (SQLQuery.new str!"SELECT 1 OFFSET (1, x)")).1 = .ok true := by
  decide +kernel

/-- Non-vacuity of C31. -/
example :
    (@SQLQuery.isValid asciiEnv (SQLQuery.new str!"SELECT 1 OFFSET ((7))")).1 = .ok true ∧
    (@SQLQuery.isValid asciiEnv (SQLQuery.new str!"SELECT 1 OFFSET (-7)")).2.errors =
      [str!"OFFSET must not be negative"] ∧
    (@SQLQuery.isValid asciiEnv (SQLQuery.new str!"SELECT 1 OFFSET x")).2.errors =
      [str!"argument of OFFSET must be integer"] := by
  decide +kernel

/-! ### C32 -/

/-- C32: a join reports a missing condition exactly if it is neither a CROSS JOIN nor a comma and has
neither ON nor USING; it reports nothing else. -/
theorem C32_join_condition (k : List Field) (t : Str) (l r on us : Node) :
    (validateWith (.join t l r on us) k = .ok [] ∨
      validateWith (.join t l r on us) k = .ok [str!"Missing ON or USING for join"]) ∧
    (validateWith (.join t l r on us) k = .ok [str!"Missing ON or USING for join"] ↔
      t ≠ str!"CROSS JOIN" ∧ t ≠ str!"," ∧ on = .none ∧ us = .none) := by
  have hn : ∀ n : Node, n.truthy = false ↔ n = .none := by intro n; cases n <;> simp [Node.truthy]
  simp only [validateWith, vtable, V.of]
  by_cases hc : t ≠ str!"CROSS JOIN" ∧ t ≠ str!"," ∧ (!(us.truthy || on.truthy)) = true
  · rw [if_pos hc]
    refine ⟨.inr rfl, fun _ => ?_, fun _ => rfl⟩
    simp only [Bool.not_eq_true', Bool.or_eq_false_iff, hn] at hc
    exact ⟨hc.1, hc.2.1, hc.2.2.2, hc.2.2.1⟩
  · rw [if_neg hc]
    refine ⟨.inl rfl, by simp, fun h => absurd ?_ hc⟩
    simp [h.1, h.2.1, h.2.2.1, h.2.2.2, Node.truthy]

/-- … and the query around it is invalid then, with this error unless validation raises. -/
theorem C32_join_condition_reported (es : List Node) (all d : Bool) (dOn : List Node) (w g h ob l off : Node)
    (semi : Bool) (t : Str) (left right : Node) (h1 : t ≠ str!"CROSS JOIN") (h2 : t ≠ str!",") :
    let n := Node.select es all d dOn (.join t left right .none .none) w g h ob l off semi
    validate n ≠ .ok [] ∧ ∀ errs, validate n = .ok errs → str!"Missing ON or USING for join" ∈ errs := by
  intro n
  have key : ∀ errs, validate n = .ok errs → str!"Missing ON or USING for join" ∈ errs := by
    intro errs hn
    obtain ⟨errs', h3, h4⟩ := inside_includes (s := .join t left right .none .none)
      (.from_ es all d dOn _ w g h ob l off semi _ rfl (.self _)) hn
    have := (C32_join_condition [] t left right .none .none).2.2 ⟨h1, h2, rfl, rfl⟩
    rw [validateWith, h3] at this
    injection this with this
    exact h4 (by simp [this])
  exact ⟨fun h => absurd (key [] h) (by simp), key⟩

/-- Non-vacuity of C32. -/
example :
    (@SQLQuery.isValid asciiEnv (SQLQuery.new str!"SELECT a FROM t LEFT JOIN u")).2.errors =
      [str!"Missing ON or USING for join"] ∧
    (@SQLQuery.isValid asciiEnv (SQLQuery.new str!"SELECT a FROM t CROSS JOIN u")).1 = .ok true ∧
    (@SQLQuery.isValid asciiEnv (SQLQuery.new str!"SELECT a FROM t, u")).1 = .ok true ∧
    (@SQLQuery.isValid asciiEnv (SQLQuery.new str!"SELECT a FROM t LEFT JOIN u ON b = c")).1 = .ok true ∧
    (@SQLQuery.isValid asciiEnv (SQLQuery.new str!"SELECT a FROM t JOIN u USING (b)")).1 = .ok true := by
  decide +kernel

/-! ### C35 -/

/-- C35: grouping by aliases of the select list that were given without AS changes nothing. -/
theorem C35_group_by_alias_partial (es : List Node) (all d : Bool) (on : List Node) (f w h ob l off : Node)
    (semi r s : Bool) (as : List (Nat × Str))
    (ha : ∀ a ∈ as, ∃ e b, .alias e (.raw a.2) b ∈ es) :
    validate (.select es all d on f w (.groupBy (as.map fun a => nest a.1 (.column a.2)) r s) h ob l off semi) =
      validate (.select es all d on f w .none h ob l off semi) := by
  have hraw : ∀ (es : List Node) (a : Str), (∃ e b, .alias e (.raw a) b ∈ es) → a ∈ rawAliases es := by
    intro es a
    induction es with
    | nil => simp
    | cons x xs ih =>
      rintro ⟨e, b, hm⟩
      rcases List.mem_cons.1 hm with rfl | hm
      · simp [rawAliases]
      · have := ih ⟨e, b, hm⟩
        unfold rawAliases
        split
        · simp_all
        · simp_all
        · simp_all
  have hg : ∀ k, validateGroupBy k es (as.map fun a => nest a.1 (.column a.2)) = .ok [] := by
    intro k
    simp only [validateGroupBy, concatV_nil_iff, List.mem_map, forall_exists_index, and_imp,
      forall_apply_eq_imp_iff₂]
    intro a hm
    simp only [validateGroupArg, unparen_nest, unparen, bind, Except.bind]
    rw [if_neg]
    · rfl
    · simp [hraw es a.2 (ha a hm)]
  have e : ∀ x, optV .none x = .ok [] := fun _ => rfl
  simp only [validate, validateWith, vtable_select, V.of, clausesV, e]
  simp only [hg, optV, ite_self]

/-- C35 is false for aliases given with AS. -/
theorem C35_not_all :
    (@SQLQuery.isValid asciiEnv (SQLQuery.new str!"SELECT 1 y GROUP BY y")).1 = .ok true ∧
    (@SQLQuery.isValid asciiEnv (SQLQuery.new str!"SELECT 1 AS y GROUP BY y")).2.errors =
      [str!"column \"y\" does not exist"] := by
  decide +kernel

/-- Non-vacuity of C35. -/
example : (@parseSql asciiEnv str!"SELECT a + 1 y FROM (SELECT a FROM t) GROUP BY (y)").toOption =
    some (.select [.alias (.arith str!"+" (.column str!"a") (.int 1)) (.raw str!"y") false] false false []
      (.paren [plainSelect [.column str!"a"] (.table (.column str!"t") false)]) .none
      (.groupBy ([(1, str!"y")].map fun a => nest a.1 (.column a.2)) false false) .none .none .none .none
      false) := by
  decide +kernel

end SqlV
