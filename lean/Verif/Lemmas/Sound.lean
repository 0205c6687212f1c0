import Verif.Spec.Sound
import Verif.Lemmas.CalmAll

/-! Validation of queries over tables. -/

set_option linter.unusedSectionVars false

namespace SqlV.Core

section

variable [E : PyEnv] [L : LawfulPyEnv E]

/-! ### Lists -/

theorem soundList_iff {w : Option Nat} {ns : List Node} : soundList w ns = true ↔ ∀ n ∈ ns, sound w n = true := by
  induction ns with
  | nil => simp [soundList]
  | cons n ns ih => simp [soundList, ih]

theorem withinList_iff {ns : List Node} : withinList ns = true ↔ ∀ n ∈ ns, within n = true := by
  induction ns with
  | nil => simp [withinList]
  | cons n ns ih => simp [withinList, ih]

theorem foldList_forall {P : Node → Prop} {ns : List Node} : (∀ n ∈ foldList ns, P n) ↔ ∀ n ∈ ns, P (fold n) := by
  rw [foldList_eq]; simp

/-! ### The fields of tables -/

/-- Any column, of any type. -/
def anyField : List Field := [⟨str!"*", some .object⟩]

theorem tablesFrom_known (n : Node) : tablesFrom (fold n) = true → knownFields n = .ok anyField := by
  induction n using Node.rec (motive_2 := fun _ => True) with
  | nil => trivial
  | cons => trivial
  | table v sq => intro _; rfl
  | join t l r on us ihl ihr =>
    intro h
    simp only [fold, tablesFrom, Bool.and_eq_true] at h
    rw [knownFields_join, sideFields_other l [] (by rintro e a w rfl; exact absurd h.1 Bool.false_ne_true), ihl h.1]
    simp only [bind, Except.bind, pure, Except.pure]
    rw [sideFields_other r _ (by rintro e a w rfl; exact absurd h.2 Bool.false_ne_true), ihr h.2]
    rfl
  | _ => intro h; exact absurd h Bool.false_ne_true

theorem any_column (v : Str) : validateColumn anyField v = .ok [] := by
  simp [validateColumn, anyField, hasField]

/-! ### Types -/

theorem kind_type (n : Node) : ∀ t, kind (fold n) = some t ↔ returnType n = .ok (some t) := by
  induction n using Node.rec (motive_2 := fun ns => ∀ t, kindFirst (foldList ns) = some t ↔ returnTypeHead ns = .ok (some t)) with
  | nil => rename_i t; simp [foldList, kindFirst, returnTypeHead]
  | cons n ns h1 h2 => rename_i t; exact h1 t
  | chained l r _ hr => exact hr
  | paren args ih => exact ih
  | «alias» e al w he _ => exact he
  | _ => intro t; simp [fold, kind, returnType]

theorem two_chars {a b : Str} (ha : a ≠ []) (hb : b ≠ []) (c : Char) : a ++ b ≠ [c] := by
  cases a with
  | nil => exact absurd rfl ha
  | cons x xs => cases xs <;> cases b <;> simp_all

/-- Of the expressions that have a type of their own, none is printed as a star. -/
theorem star_text {n : Node} (hw : wf (fold n) = true) (hl : level (fold n) ≤ 3) (h : transform n = .ok str!"*") :
    returnType n = .ok (some .object) := by
  have hlen : ∀ a b : Str, a ≠ [] → b ≠ [] → a ++ b ≠ str!"*" := fun a b ha hb => two_chars ha hb _
  cases n with
  | string v q p =>
    simp only [fold, wf, Bool.and_eq_true, decide_eq_true_eq] at hw
    have hq : q ≠ [] := (by decide : ∀ q ∈ quotes, q ≠ []) _ hw.1.2
    refine absurd (Except.ok.inj h) (hlen (p.getD [] ++ q ++ v) q ?_ hq)
    simp [hq]
  | int i =>
    exfalso
    have h : Str.ofInt i = str!"*" := Except.ok.inj h
    cases i with
    | ofNat n =>
      have := ofNat_digits n '*' (by rw [show Str.ofNat n = str!"*" from h]; simp)
      exact absurd this (by decide)
    | negSucc n => exact absurd (List.cons.inj h).1 (by decide)
  | float r =>
    exfalso
    obtain rfl : r = str!"*" := Except.ok.inj h
    simp only [fold, wf, Bool.and_eq_true] at hw
    exact absurd hw.1 (by decide)
  | null => exact absurd (Except.ok.inj h) (by decide)
  | bool b =>
    exfalso
    have h : E.upper (if b then str!"True" else str!"False") = str!"*" := Except.ok.inj h
    cases b <;> rw [L.upper_ascii _ (by decide)] at h <;> exact absurd h (by decide)
  | paren args =>
    exfalso
    have h : parenStr (renderList args) = .ok str!"*" := h
    unfold parenStr at h
    obtain ⟨xs, -, h⟩ := bind_ok_iff.1 h
    exact hlen (str!"(" ++ Str.join str!", " xs) str!")" (by simp) (by simp) (pure_ok_iff.1 h)
  | chained l r =>
    exfalso
    obtain ⟨x, -, h⟩ := bind_ok_iff.1 (show ((render l).t >>= fun x => (render r).t >>= fun y => pure (x ++ str!"." ++ y)) = .ok str!"*" from h)
    obtain ⟨y, -, h⟩ := bind_ok_iff.1 h
    have := pure_ok_iff.1 h
    have hm : '.' ∈ str!"*" := by rw [← this]; simp
    exact absurd hm (by decide)
  | arith op l r =>
    exfalso
    obtain ⟨x, -, h⟩ := bind_ok_iff.1 (show ((render l).s >>= fun x => (render r).s >>= fun y => pure (x ++ (str!" " ++ op ++ str!" ") ++ y)) = .ok str!"*" from h)
    obtain ⟨y, -, h⟩ := bind_ok_iff.1 h
    have := pure_ok_iff.1 h
    have hm : ' ' ∈ str!"*" := by rw [← this]; simp
    exact absurd hm (by decide)
  | cond l p r =>
    exfalso
    obtain ⟨x, -, h⟩ := bind_ok_iff.1 (show ((render l).t >>= fun x => (render r).t >>= fun y => pure (x ++ str!" " ++ E.upper p ++ str!" " ++ y)) = .ok str!"*" from h)
    obtain ⟨y, -, h⟩ := bind_ok_iff.1 h
    have := pure_ok_iff.1 h
    have hm : ' ' ∈ str!"*" := by rw [← this]; simp
    exact absurd hm (by decide)
  | boolc t l r =>
    exfalso
    have h : boolStr (E.upper t) (render l) (render r) false = .ok str!"*" := h
    unfold boolStr at h
    obtain ⟨x, -, h⟩ := bind_ok_iff.1 h
    obtain ⟨y, -, h⟩ := bind_ok_iff.1 h
    have key : ' ' ∈ str!"*" := by
      dsimp only at h
      split at h
      · rw [← pure_ok_iff.1 h]; simp
      · obtain ⟨x', -, h⟩ := bind_ok_iff.1 h
        obtain ⟨y', -, h⟩ := bind_ok_iff.1 h
        rw [← pure_ok_iff.1 h]; simp
    exact absurd key (by decide)
  | neg e =>
    exfalso
    obtain ⟨x, -, h⟩ := bind_ok_iff.1 (show ((render e).t >>= fun x => pure (str!"NOT" ++ (if (render e).isParen then [] else str!" ") ++ x)) = .ok str!"*" from h)
    have := pure_ok_iff.1 h
    have hm : 'N' ∈ str!"*" := by rw [← this]; simp
    exact absurd hm (by decide)
  | «alias» e al w =>
    exfalso
    rw [fold, level] at hl
    generalize (decide (level (fold e) ≤ 3) && isAlias (fold al) w) = b at hl
    cases b <;> exact absurd hl (by decide)
  | select es all d on f w g h o l off semi =>
    exfalso
    rw [fold, level] at hl
    split at hl <;> omega
  | none | raw _ | whenThen _ _ => simp [fold, level] at hl
  | _ => rfl

theorem resolve_any {n : Node} (hw : wf (fold n) = true) (ht : firm (fold n) = true) (hl : level (fold n) ≤ 3) :
    resolveType n anyField = returnType n := by
  have hm : mute n = false := by
    cases n with
    | none | raw _ | whenThen _ _ => simp [fold, level] at hl
    | select es all d on f w g h o l off semi =>
      exfalso
      rw [fold, level] at hl
      split at hl <;> omega
    | _ => rfl
  obtain ⟨name, hn⟩ : Works (transform n) := (prints n hw ht).t
  rw [resolveType_eq, hm, hn]
  simp only [Bool.false_eq_true, if_false, bind, Except.bind]
  rw [if_neg (by decide)]
  by_cases hs : name = str!"*"
  · subst hs
    rw [star_text hw hl hn]
    generalize hfs : (E.setOrder anyField).filter _ = fs
    cases fs with
    | nil => rfl
    | cons f fs =>
      have hf : f ∈ (E.setOrder anyField).filter (fun g => decide (g.name = str!"*")) := by rw [hfs]; simp
      have := (L.setOrder_perm anyField).mem_iff.1 (List.mem_filter.1 hf).1
      obtain rfl := List.mem_singleton.1 this
      rfl
  · have : (E.setOrder anyField).filter (fun g => decide (g.name = name)) = [] := by
      rw [List.filter_eq_nil_iff]
      intro f hf
      have := (L.setOrder_perm anyField).mem_iff.1 hf
      obtain rfl := List.mem_singleton.1 this
      simpa using fun h => hs h.symm
    rw [this]

theorem boolean_any {n : Node} (msg : Str) (hw : wf (fold n) = true) (ht : firm (fold n) = true) (hl : level (fold n) ≤ 3) :
    mustBeBoolean msg n anyField = .ok [] ↔ boolish (fold n) = true := by
  unfold mustBeBoolean
  rw [resolve_any hw ht hl, boolish, Bool.or_eq_true, decide_eq_true_eq, decide_eq_true_eq, kind_type, kind_type]
  cases returnType n with
  | error e => simp [bind, Except.bind]
  | ok t =>
    simp only [bind, Except.bind, notBoolean, Bool.not_eq_true', Bool.or_eq_false_iff, decide_eq_false_iff_not, Except.ok.injEq]
    cases t with
    | none => simp [typeName]
    | some t => cases t <;> simp [typeName, pure, Except.pure]

/-! ### Clauses -/

theorem both_nil {x y : VRes} : (do let a ← x; let b ← y; return a ++ b : VRes) = .ok [] ↔ x = .ok [] ∧ y = .ok [] := by
  simp only [bind_ok_iff, pure_ok_iff, List.append_eq_nil_iff]
  constructor
  · rintro ⟨a, ha, b, hb, rfl, rfl⟩; exact ⟨ha, hb⟩
  · rintro ⟨ha, hb⟩; exact ⟨_, ha, _, hb, rfl, rfl⟩

theorem optV_nil {c : Node} {r : VRes} : optV c r = .ok [] ↔ (c.truthy = true → r = .ok []) := by
  unfold optV
  split
  · rename_i h; simp [h]
  · rename_i h; simp [h]

theorem concat_list {k : List Field} {args : List Node} :
    V.concat k (vtableList args) = .ok [] ↔ ∀ a ∈ args, (vtable a).v k = .ok [] := by
  rw [concat_nil_iff, vtableList_eq]
  simp

theorem concatIn_list {k : List Field} {s : Option (List Node)} {args : List Node} :
    V.concatIn k s (vtableList args) = .ok [] ↔ ∀ a ∈ args, (vtable a).vIn k s = .ok [] := by
  induction args with
  | nil => simp [vtableList, V.concatIn]
  | cons a as ih =>
    rw [vtableList, V.concatIn, both_nil, ih]
    simp

theorem unparen_none (n : Node) : (∃ e, unparen n = .error e) ↔ first (fold n) = none := by
  constructor
  · rintro ⟨e, he⟩
    cases hf : first (fold n) with
    | none => rfl
    | some m =>
      obtain ⟨m', hm, -⟩ := first_unparen n m hf
      rw [hm] at he
      cases he
  · intro hf
    cases hu : unparen n with
    | error e => exact ⟨e, rfl⟩
    | ok m =>
      rw [unparen_first n m hu] at hf
      cases hf

theorem count_any {v : Node} {a b : Str} : validateCount v a b = .ok [] ↔ isCount (fold v) = true := by
  unfold validateCount isCount
  cases hu : unparen v with
  | error e => rw [(unparen_none v).1 ⟨e, hu⟩]; simp [bind, Except.bind]
  | ok m =>
    rw [unparen_first v m hu]
    cases m with
    | int i =>
      simp only [bind, Except.bind, returnType, fold]
      by_cases hi : i < 0
      · simp [hi, pure, Except.pure]
      · simp [hi, pure, Except.pure]; omega
    | _ =>
      simp only [bind, Except.bind, fold]
      split
      · simp
      · simp [pure, Except.pure]

theorem key_any {es : List Node} {a : Node} : validateGroupArg anyField es a = .ok [] ↔ goodKey es.length (fold a) = true := by
  have hs : hasField anyField str!"*" = true := by decide
  unfold validateGroupArg goodKey
  cases hu : unparen a with
  | error e => rw [(unparen_none a).1 ⟨e, hu⟩]; simp [bind, Except.bind]
  | ok m =>
    rw [unparen_first a m hu]
    cases m with
    | int i =>
      simp only [bind, Except.bind, fold]
      by_cases hi : i ≤ 0 ∨ i > es.length
      · simp [hi, pure, Except.pure]; omega
      · simp [hi, pure, Except.pure]; omega
    | _ => simp [bind, Except.bind, fold, hs, pure, Except.pure]

theorem group_any {es args : List Node} : validateGroupBy anyField es args = .ok [] ↔ (foldList args).all (goodKey es.length) = true := by
  rw [validateGroupBy, concatV_nil_iff, List.all_eq_true, foldList_forall]
  exact forall₂_congr fun a _ => key_any

/-! ### Expressions and queries -/

/-- Validation of an expression or a query finds nothing exactly if nothing is wrong with it. -/
def Right (n : Node) : Prop := wf (fold n) = true → firm (fold n) = true → within (fold n) = true → level (fold n) ≤ 5 →
  ((vtable n).v anyField = .ok [] ↔ sound none (fold n) = true)

def RightSub (n : Node) : Prop := ∀ m, sizeOf m < sizeOf n → Right m

theorem right_list {args : List Node} (ih : ∀ a ∈ args, Right a) (hw : wfList (foldList args) = true) (ht : firmList (foldList args) = true)
    (hi : withinList (foldList args) = true) (hl : ∀ a ∈ args, level (fold a) ≤ 5) :
    V.concat anyField (vtableList args) = .ok [] ↔ soundList none (foldList args) = true := by
  rw [wfList_iff] at hw
  rw [firmList_iff] at ht
  rw [withinList_iff] at hi
  rw [soundList_iff, foldList_forall, concat_list]
  exact forall₂_congr fun a ha => ih a ha (hw _ (foldList_mem ha)) (ht _ (foldList_mem ha)) (hi _ (foldList_mem ha)) (hl a ha)

theorem item_any {v : Node} (ih : Right v) (hw : wf (fold v) = true) (ht : firm (fold v) = true) (hi : within (fold v) = true)
    (hl : level (fold v) ≤ 5) (s : Option (List Node)) (a d : Bool) :
    validateOrderItem v (vtable v) anyField s = .ok [] ↔ sound (s.map List.length) (.orderItem (fold v) a d) = true := by
  have hv := ih hw ht hi hl
  rw [sound]
  unfold validateOrderItem
  cases hu : unparen v with
  | error e => rw [(unparen_none v).1 ⟨e, hu⟩]; simp [bind, Except.bind]
  | ok m =>
    rw [unparen_first v m hu]
    cases m with
    | int i =>
      simp only [bind, Except.bind, fold]
      cases s with
      | none =>
        by_cases hi : i ≤ 0
        · simp [hi, pure, Except.pure]
        · simp [hi]
      | some es =>
        simp only [Option.map_some]
        by_cases hi : i ≤ 0
        · simp [hi, pure, Except.pure] <;> omega
        · by_cases hj : i > es.length
          · simp [hi, hj, pure, Except.pure]
          · simp [hi, hj, pure, Except.pure] <;> omega
    | _ => simpa only [bind, Except.bind, fold] using hv

theorem order_any {args : List Node} (ih : ∀ a ∈ args, ∀ v x d, a = .orderItem v x d → Right v) (hw : wf (fold (.orderBy args)) = true)
    (ht : firm (fold (.orderBy args)) = true) (hi : within (fold (.orderBy args)) = true) (s : Option (List Node)) :
    (vtable (.orderBy args)).vIn anyField s = .ok [] ↔ sound (s.map List.length) (fold (.orderBy args)) = true := by
  simp only [fold, wf, firm, within, Bool.and_eq_true, wfList_iff, firmList_iff, withinList_iff, List.all_eq_true] at hw ht hi
  rw [vtable, fold, sound, soundList_iff, foldList_forall]
  simp only
  rw [concatIn_list]
  refine forall₂_congr fun a ha => ?_
  have h1 := hw.1.2 _ (foldList_mem ha)
  have h2 := hw.2 _ (foldList_mem ha)
  have h3 := ht _ (foldList_mem ha)
  have h4 := hi _ (foldList_mem ha)
  cases a <;> first | exact absurd h1 Bool.false_ne_true | skip
  simp only [fold, wf, firm, within, Bool.and_eq_true, decide_eq_true_eq] at h2 h3 h4
  rw [vtable, fold]
  exact item_any (ih _ ha _ _ _ rfl) h2.2 h3 h4 (by omega) s _ _

theorem where_any {v : Node} (msg : Str) (ih : Right v) (hw : wf (fold v) = true) (ht : firm (fold v) = true) (hi : within (fold v) = true)
    (hl : level (fold v) ≤ 3) :
    (do let a ← (vtable v).v anyField; let b ← mustBeBoolean msg v anyField; return a ++ b : VRes) = .ok [] ↔
      (sound none (fold v) && boolish (fold v)) = true := by
  rw [both_nil, boolean_any msg hw ht hl, ih hw ht hi (by omega), Bool.and_eq_true]

theorem join_says {t : Str} {l r on us : Node} (ks : List Field) :
    (vtable (.join t l r on us)).v ks = .ok (if conditioned t (fold on) (fold us) then [] else [str!"Missing ON or USING for join"]) := by
  rw [vtable]
  simp only [V.of, conditioned, truthy_fold]
  by_cases h1 : t = str!"CROSS JOIN" <;> by_cases h2 : t = str!"," <;> simp only [h1, h2, ne_eq, not_true_eq_false, not_false_eq_true,
    false_and, and_false, true_and, decide_true, decide_false, Bool.true_or, Bool.or_true, Bool.false_or, if_false, if_true] <;>
    cases on.truthy <;> cases us.truthy <;> rfl

theorem join_any {f : Node} (ht : tablesFrom (fold f) = true) : (vtable f).v [] = .ok [] ↔ sound none (fold f) = true := by
  cases f <;> first | exact absurd ht Bool.false_ne_true | skip
  · exact iff_of_true rfl rfl
  · rw [join_says, fold, sound, Except.ok.injEq]
    cases conditioned _ _ _ <;> simp

theorem select_any {es : List Node} {all d : Bool} {on : List Node} {f w g h o l off : Node} {semi : Bool}
    (ih : RightSub (.select es all d on f w g h o l off semi)) (hw : wf (fold (.select es all d on f w g h o l off semi)) = true)
    (ht : firm (fold (.select es all d on f w g h o l off semi)) = true)
    (hi : within (fold (.select es all d on f w g h o l off semi)) = true) :
    clausesV es f w g h o l off anyField = .ok [] ↔ sound none (fold (.select es all d on f w g h o l off semi)) = true := by
  simp only [fold, wf, firm, within, Bool.and_eq_true, Bool.or_eq_true, Bool.not_eq_true', decide_eq_true_eq] at hw ht hi
  obtain ⟨⟨⟨⟨⟨⟨⟨⟨⟨⟨⟨⟨⟨⟨⟨⟨⟨⟨⟨⟨h1, h2⟩, h3⟩, -⟩, -⟩, h6⟩, h7⟩, nf⟩, hf⟩, nw⟩, hw⟩, ng⟩, hg⟩, nh⟩, hh⟩, no⟩, ho⟩, nl⟩, hl⟩, noff⟩, hoff⟩ := hw
  obtain ⟨⟨⟨⟨⟨⟨⟨⟨t1, -⟩, tf⟩, tw⟩, tg⟩, th⟩, to⟩, tl⟩, toff⟩ := ht
  obtain ⟨⟨⟨⟨inf, ies⟩, iw⟩, ih'⟩, io⟩ := hi
  have e1 : V.concat anyField (vtableList es) = .ok [] ↔ soundList none (foldList es) = true :=
    right_list (fun a ha => ih a (by have := List.sizeOf_lt_of_mem ha; simp only [Node.select.sizeOf_spec]; omega)) h3 t1 ies
      fun a ha => Nat.le_trans (levels_fold h2 a ha) (by omega)
  have e2 : optV f ((vtable f).v []) = .ok [] ↔ sound none (fold f) = true := by
    rw [optV_nil]
    rcases inf with h | h
    · obtain rfl : f = .none := by
        rw [truthy_fold] at h
        cases f <;> first | rfl | exact absurd h.symm Bool.false_ne_true
      exact iff_of_true (fun h => by cases h) rfl
    · rw [← join_any h]
      have : f.truthy = true := by cases f <;> first | rfl | exact absurd h Bool.false_ne_true
      exact ⟨fun h => h this, fun h _ => h⟩
  have e3 : optV w ((vtable w).v anyField) = .ok [] ↔ sound none (fold w) = true := by
    rw [optV_nil]
    cases w <;> first | exact absurd nw Bool.false_ne_true | skip
    · exact iff_of_true (fun h => by cases h) rfl
    · simp only [fold, wf, firm, within, Bool.and_eq_true, decide_eq_true_eq] at hw tw iw
      rw [vtable, fold, sound]
      simp only [V.of]
      rw [where_any _ (ih _ (by simp only [Node.select.sizeOf_spec, Node.where_.sizeOf_spec]; omega)) hw.2 tw iw hw.1]
      exact ⟨fun h => h rfl, fun h _ => h⟩
  have e4 : optV g (match (generalizing := false) g with
        | .groupBy args _ _ => validateGroupBy anyField es args
        | _ => .error .type) = .ok [] ↔ sound (some (foldList es).length) (fold g) = true := by
    rw [optV_nil]
    cases g <;> first | exact absurd ng Bool.false_ne_true | skip
    · exact iff_of_true (fun h => by cases h) rfl
    · rw [fold, sound, Option.getD_some, length_fold, ← group_any]
      exact ⟨fun h => h rfl, fun h _ => h⟩
  have e5 : optV h ((vtable h).v anyField) = .ok [] ↔ sound none (fold h) = true := by
    rw [optV_nil]
    cases h <;> first | exact absurd nh Bool.false_ne_true | skip
    · exact iff_of_true (fun h => by cases h) rfl
    · simp only [fold, wf, firm, within, Bool.and_eq_true, decide_eq_true_eq] at hh th ih'
      rw [vtable, fold, sound]
      simp only [V.of]
      rw [where_any _ (ih _ (by simp only [Node.select.sizeOf_spec, Node.having.sizeOf_spec]; omega)) hh.2 th ih' hh.1]
      exact ⟨fun h => h rfl, fun h _ => h⟩
  have e6 : optV o ((vtable o).vIn anyField (some es)) = .ok [] ↔ sound (some (foldList es).length) (fold o) = true := by
    rw [optV_nil]
    cases o <;> first | exact absurd no Bool.false_ne_true | skip
    · exact iff_of_true (fun h => by cases h) rfl
    · rename_i args
      rw [order_any (fun a ha v x d he => ih v (by
        have := List.sizeOf_lt_of_mem ha
        subst he
        simp only [Node.orderItem.sizeOf_spec] at this
        simp only [Node.select.sizeOf_spec, Node.orderBy.sizeOf_spec]
        omega)) ho to io, length_fold]
      exact ⟨fun h => h rfl, fun h _ => h⟩
  have e7 : optV l ((vtable l).v anyField) = .ok [] ↔ sound none (fold l) = true := by
    rw [optV_nil]
    cases l <;> first | exact absurd nl Bool.false_ne_true | skip
    · exact iff_of_true (fun h => by cases h) rfl
    · rw [vtable, fold, sound]
      simp only [V.of]
      rw [count_any]
      exact ⟨fun h => h rfl, fun h _ => h⟩
  have e8 : optV off ((vtable off).v anyField) = .ok [] ↔ sound none (fold off) = true := by
    rw [optV_nil]
    cases off <;> first | exact absurd noff Bool.false_ne_true | skip
    · exact iff_of_true (fun h => by cases h) rfl
    · rw [vtable, fold, sound]
      simp only [V.of]
      rw [count_any]
      exact ⟨fun h => h rfl, fun h _ => h⟩
  refine clausesV_nil.trans ((and_congr e1 (and_congr e2 (and_congr e3 (and_congr e4 (and_congr e5
    (and_congr e6 (and_congr e7 e8))))))).trans ?_)
  rw [fold, sound]
  simp only [Bool.and_eq_true, and_assoc]

theorem known_any {f : Node} (hi : f.truthy = false ∨ tablesFrom (fold f) = true) :
    ∃ ff, optFields (knownFields f) = .ok ff ∧ innerFields anyField ff = anyField ∧
      (tablesFrom (fold f) = true → innerFields [] ff = anyField) := by
  by_cases ht : tablesFrom (fold f) = true
  · exact ⟨some anyField, by rw [tablesFrom_known f ht]; rfl, by decide, fun _ => by decide⟩
  · rcases hi with h | h
    · obtain rfl : f = .none := by cases f <;> first | rfl | exact absurd h.symm Bool.false_ne_true
      exact ⟨none, rfl, rfl, fun h => absurd h ht⟩
    · exact absurd h ht

theorem right_step {n : Node} (ih : RightSub n) : Right n := by
  cases n with
  | paren args =>
    intro hw ht hi hl
    have hlv : levels (foldList args) ≤ 5 := by
      rw [fold, level] at hl
      split at hl
      · assumption
      · omega
    simp only [fold, wf, firm, within, Bool.and_eq_true] at hw ht hi
    rw [vtable, fold, sound]
    exact right_list (fun a ha => ih a (by have := List.sizeOf_lt_of_mem ha; simp only [Node.paren.sizeOf_spec]; omega)) hw.2 ht hi
      fun a ha => levels_fold hlv a ha
  | select es all d on f w g h o l off semi =>
    intro hw ht hi hl
    have hf : f.truthy = false ∨ tablesFrom (fold f) = true := by
      simp only [fold, within, Bool.and_eq_true, Bool.or_eq_true, Bool.not_eq_true'] at hi
      rw [← truthy_fold]
      exact hi.1.1.1.1
    obtain ⟨ff, h1, h2, -⟩ := known_any hf
    rw [vtable_select]
    simp only [V.of]
    rw [h1]
    simp only [bind, Except.bind]
    rw [h2]
    exact select_any ih hw ht hi
  | cond l p r =>
    intro hw ht hi hl
    simp only [fold, wf, firm, within, Bool.and_eq_true, decide_eq_true_eq] at hw ht hi
    obtain ⟨⟨⟨h1, h2⟩, h3⟩, h4⟩ := hw
    rw [vtable_cond, fold, sound]
    simp only [V.of]
    rw [both_nil, ih l (by simp only [Node.cond.sizeOf_spec]; omega) h2 ht.1 hi.1 (by omega), Bool.and_eq_true]
    refine and_congr_right fun _ => ?_
    unfold condRightV
    by_cases hp : p.map Char.toLower = str!"between"
    · rw [between_lower (by rw [hp]; decide), if_pos hp, if_pos hp]
      rw [if_pos hp] at h4
      cases r <;> first | exact absurd h4 Bool.false_ne_true | skip
      rename_i t a b
      have iha := ih a (by simp only [Node.cond.sizeOf_spec, Node.boolc.sizeOf_spec]; omega)
      have ihb := ih b (by simp only [Node.cond.sizeOf_spec, Node.boolc.sizeOf_spec]; omega)
      simp only [fold, isRange, firm, wf, within, Bool.and_eq_true, decide_eq_true_eq] at h3 h4 ht hi
      rw [vtable, fold, soundBounds]
      simp only [validateBool_eq, operandV, if_true, bind_ok_iff, pure_ok_iff, List.append_eq_nil_iff, Bool.and_eq_true]
      rw [← iha h3.1.2 ht.2.1.2 hi.2.1 (by omega), ← ihb h3.2 ht.2.2 hi.2.2 (by omega)]
      constructor
      · rintro ⟨a, ha, b, hb, c, hc, d, hd, ⟨⟨rfl, rfl⟩, rfl⟩, rfl⟩; exact ⟨ha, hc⟩
      · rintro ⟨ha, hc⟩; exact ⟨_, ha, _, rfl, _, hc, _, rfl, ⟨⟨rfl, rfl⟩, rfl⟩, rfl⟩
    · rw [if_neg hp] at h4
      have hasc : (p.map Char.toLower).all isAscii = true := by
        simp only [Bool.and_eq_true, decide_eq_true_eq] at h4
        exact (by decide : ∀ q ∈ corePreds, q.all isAscii = true) _ h4.1.1
      simp only [Bool.and_eq_true, decide_eq_true_eq] at h4
      rw [between_lower hasc, if_neg hp, if_neg hp]
      exact ih r (by simp only [Node.cond.sizeOf_spec]; omega) h3 ht.2 hi.2 (by omega)
  | boolc t l r =>
    intro hw ht hi hl
    simp only [fold, wf, firm, within, Bool.and_eq_true, decide_eq_true_eq] at hw ht hi
    obtain ⟨⟨⟨⟨h1, h2⟩, h3⟩, h4⟩, h5⟩ := hw
    obtain ⟨⟨⟨h6, h7⟩, h8⟩, h9⟩ := ht
    rw [vtable, fold, sound]
    simp only [validateBool_eq, operandV, Bool.false_eq_true, if_false, bind_ok_iff, pure_ok_iff, List.append_eq_nil_iff, Bool.and_eq_true]
    rw [← ih l (by simp only [Node.boolc.sizeOf_spec]; omega) h4 h8 hi.1 (by omega), ← ih r (by simp only [Node.boolc.sizeOf_spec]; omega) h5 h9 hi.2 (by omega),
      ← boolean_any (str!"The argument of " ++ E.upper t ++ str!" must be type boolean, not type ") h4 h8 (by omega),
      ← boolean_any (str!"The argument of " ++ E.upper t ++ str!" must be type boolean, not type ") h5 h9 (by omega)]
    constructor
    · rintro ⟨a, ha, b, hb, c, hc, d, hd, ⟨⟨rfl, rfl⟩, rfl⟩, rfl⟩; exact ⟨⟨⟨ha, hb⟩, hc⟩, hd⟩
    · rintro ⟨⟨⟨ha, hb⟩, hc⟩, hd⟩; exact ⟨_, ha, _, hb, _, hc, _, hd, ⟨⟨rfl, rfl⟩, rfl⟩, rfl⟩
  | chained l r =>
    intro hw ht hi hl
    obtain ⟨x, e1⟩ : Works (transform (.chained l r)) := (prints _ hw ht).t
    simp only [fold, wf, firm, Bool.and_eq_true] at hw ht
    obtain ⟨y, e2⟩ : Works (transform l) := (prints l hw.1.2 ht.1).t
    refine iff_of_true ?_ rfl
    rw [vtable]
    show validateChained anyField l r = _
    unfold validateChained
    rw [e1, e2]
    simp [bind, Except.bind, show hasField anyField str!"*" = true by decide, pure, Except.pure]
  | func f args =>
    intro hw ht hi hl
    simp only [fold, wf, firm, within, Bool.and_eq_true, decide_eq_true_eq] at hw ht hi
    rw [vtable, fold, sound]
    exact right_list (fun a ha => ih a (by have := List.sizeOf_lt_of_mem ha; simp only [Node.func.sizeOf_spec]; omega)) hw.2 ht hi
      fun a ha => levels_fold hw.1.2 a ha
  | count args d =>
    intro hw ht hi hl
    simp only [fold, wf, firm, within, Bool.and_eq_true, decide_eq_true_eq] at hw ht hi
    rw [vtable, fold, sound]
    exact right_list (fun a ha => ih a (by have := List.sizeOf_lt_of_mem ha; simp only [Node.count.sizeOf_spec]; omega)) hw.2 ht hi
      fun a ha => levels_fold hw.1 a ha
  | «alias» e al w =>
    intro hw ht hi hl
    have hle : level (fold e) ≤ 3 := by
      rw [fold, level] at hl
      by_cases h : level (fold e) ≤ 3
      · exact h
      · simp [h] at hl
    have hw' := wf_alias hw
    simp only [fold, firm, within, Bool.and_eq_true] at ht hi
    rw [vtable, fold, sound]
    exact ih e (by simp only [Node.alias.sizeOf_spec]; omega) hw'.2.1 ht.1 hi (by omega)
  | column v =>
    intro hw ht hi hl
    rw [vtable]
    exact iff_of_true (any_column v) rfl
  | arrayAgg e d i r o l =>
    intro hw ht hi hl
    simp only [fold, wf, firm, within, Bool.and_eq_true, decide_eq_true_eq] at hw ht hi
    obtain ⟨⟨⟨⟨⟨⟨h1, h2⟩, -⟩, -⟩, -⟩, -⟩, -⟩ := hw
    rw [vtable, fold, sound]
    exact ih e (by simp only [Node.arrayAgg.sizeOf_spec]; omega) h2 ht.1 hi (by omega)
  | filtered e w =>
    intro hw ht hi hl
    simp only [fold, wf, firm, within, Bool.and_eq_true, decide_eq_true_eq] at hw ht hi
    obtain ⟨⟨⟨h1, h2⟩, h3⟩, h4⟩ := hw
    rw [vtable, fold, sound]
    simp only [V.of]
    rw [both_nil, ih e (by simp only [Node.filtered.sizeOf_spec]; omega) h3 ht.1 hi.1 (Nat.le_trans (level_call h1) (by omega)),
      ih w (by simp only [Node.filtered.sizeOf_spec]; omega) h4 ht.2 hi.2 (by omega), Bool.and_eq_true]
  | analytics f part o fr =>
    intro hw ht hi hl
    simp only [fold, wf, firm, within, Bool.and_eq_true, decide_eq_true_eq] at hw ht hi
    obtain ⟨⟨⟨⟨⟨⟨⟨⟨⟨h1, h2⟩, h3⟩, h4⟩, h5⟩, h6⟩, h7⟩, h8⟩, h9⟩, h10⟩ := hw
    have e1 := ih f (by simp only [Node.analytics.sizeOf_spec]; omega) h2 ht.1.1 hi.1.1 (Nat.le_trans (level_function h1) (by omega))
    have e2 := right_list (fun a ha => ih a (by have := List.sizeOf_lt_of_mem ha; simp only [Node.analytics.sizeOf_spec]; omega)) h4 ht.1.2
        hi.1.2 fun a ha => Nat.le_trans (levels_fold h3 a ha) (by omega)
    have e3 : optV o ((vtable o).vIn anyField none) = .ok [] ↔ sound none (fold o) = true := by
      rw [optV_nil]
      cases o <;> first | exact absurd h6 Bool.false_ne_true | skip
      · exact iff_of_true (fun h => by cases h) rfl
      · rename_i args
        rw [order_any (fun a ha v x d he => ih v (by
          have := List.sizeOf_lt_of_mem ha
          subst he
          simp only [Node.orderItem.sizeOf_spec] at this
          simp only [Node.analytics.sizeOf_spec, Node.orderBy.sizeOf_spec]
          omega)) h7 ht.2 hi.2]
        exact ⟨fun h => h rfl, fun h _ => h⟩
    rw [vtable, fold, sound]
    simp only [V.of, Bool.and_eq_true, ← e1, ← e2, ← e3, bind_ok_iff, pure_ok_iff, List.append_eq_nil_iff]
    constructor
    · rintro ⟨a, ha, b, hb, c, hc, ⟨rfl, rfl⟩, rfl⟩; exact ⟨⟨ha, hb⟩, hc⟩
    · rintro ⟨⟨ha, hb⟩, hc⟩; exact ⟨_, ha, _, hb, _, hc, ⟨rfl, rfl⟩, rfl⟩
  | replace e args =>
    intro hw ht hi hl
    simp only [fold, wf, Bool.and_eq_true, decide_eq_true_eq] at hw
    obtain ⟨⟨⟨⟨⟨-, -⟩, h3⟩, h4⟩, -⟩, -⟩ := hw
    refine iff_of_true ?_ rfl
    rw [vtable]
    simp only [V.of]
    replace h3 := levels_fold h3
    replace h4 : ∀ a ∈ args, isNamed (fold a) = true := fun a ha => List.all_eq_true.1 h4 _ (foldList_mem ha)
    clear ih ht hi hl
    induction args with
    | nil => rfl
    | cons a as iha =>
      have h1 := h3 a (by simp)
      have h2 := h4 a (by simp)
      have iha := iha (fun x hx => h3 x (by simp [hx])) fun x hx => h4 x (by simp [hx])
      cases a <;> first | exact absurd h2 Bool.false_ne_true | skip
      rename_i e al w
      simp only [fold, isNamed, Bool.and_eq_true] at h2
      obtain ⟨rfl, hal⟩ := h2
      cases al <;> first | exact absurd hal Bool.false_ne_true | skip
      rw [vtableAliases, V.concat, both_nil]
      exact ⟨any_column _, iha⟩
  | cast e t =>
    intro hw ht hi hl
    rw [vtable, fold, sound]
    simp only [V.of]
    cases (vtable e).v anyField <;> simp [bind, Except.bind]
  | _ =>
    intro hw ht hi hl
    first
    | exact iff_of_true rfl rfl
    | (exfalso; simp [fold, level] at hl)

theorem right (n : Node) : Right n := by
  induction h : sizeOf n using Nat.strongRecOn generalizing n with
  | _ k ih => exact right_step fun m hm => ih _ (h ▸ hm) m rfl

/-- Validation of a query over tables. -/
theorem validate_tables {n : Node} (hw : wf (fold n) = true) (ht : firm (fold n) = true) (ho : overTables (fold n) = true) :
    validate n = .ok [] ↔ sound none (fold n) = true := by
  cases n <;> first | exact absurd ho Bool.false_ne_true | skip
  rename_i es all d on f w g h o l off semi
  simp only [fold, overTables, Bool.and_eq_true] at ho
  obtain ⟨ff, h1, -, h2⟩ := known_any (.inr ho.1)
  show (vtable (.select es all d on f w g h o l off semi)).v [] = .ok [] ↔ _
  rw [vtable_select]
  simp only [V.of]
  rw [h1]
  simp only [bind, Except.bind]
  rw [h2 ho.1]
  exact select_any (fun m _ => right m) hw ht ho.2

end

end SqlV.Core
