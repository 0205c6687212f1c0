import Verif.Lemmas.Verdict
import Verif.Lemmas.PrintErrors

/-! Which exceptions validation raises. -/

set_option linter.unusedSectionVars false
set_option linter.unusedSimpArgs false
set_option linter.unusedTactic false

namespace SqlV.Verdict

open SqlV.Printable (Only errs_all)

section

variable [E : PyEnv] [L : LawfulPyEnv E] {A : PyErr → Prop}

/-- What may be raised. -/
structure Allowed (A : PyErr → Prop) : Prop where
  attr : A .attribute
  index : A .index
  type : A .type
  repr : ∀ n e, pyRepr n = .error e → A e

variable (h : Allowed A)
include h

theorem only_transform (n : Node) : Only A (transform n) := (errs_all h.attr h.index h.type h.repr n).t

theorem only_str (n : Node) : Only A (render n).s := (errs_all h.attr h.index h.type h.repr n).s

theorem only_type (n : Node) : Only A (returnType n) := by
  have := type_of n
  split at this
  · rw [this.2]; exact Only.error h.attr
  · rw [this]; exact Only.ok _

theorem only_unparen (n : Node) : Only A (unparen n) := by
  rw [unparen_eq]
  split
  · exact Only.ok _
  · exact Only.error h.index

theorem only_expr (es : List Node) (acc : List Field) : Only A (exprFields es acc) := by
  induction es generalizing acc with
  | nil => exact Only.ok _
  | cons e es ih =>
    cases e with
    | «alias» x a w =>
      simp only [exprFields]
      refine (only_type h x).bind fun _ => Only.bind ?_ fun _ => ih _
      cases a <;> first | exact Only.error h.type | exact Only.ok _
    | _ => exact ih _

theorem only_prefix (a : Node) (fs acc : List Field) : Only A (prefixFields a fs acc) := by
  induction fs generalizing acc with
  | nil => exact Only.ok _
  | cons f fs ih =>
    cases a <;> first | exact Only.error h.type | exact ih _

theorem only_format (a : Node) (fs acc : List Field) : Only A (formatFields a fs acc) := by
  induction fs generalizing acc with
  | nil => exact Only.ok _
  | cons f fs ih => exact (only_transform h a).bind fun _ => ih _

omit h in
theorem only_opt {r : Except PyErr (List Field)} (hr : Only A r) : Only A (optFields r) := by
  cases r with
  | ok fs => exact Only.ok _
  | error e => cases e <;> first | exact Only.ok _ | exact Only.error (hr _ rfl)

theorem only_fields (n : Node) : Only A (knownFields n) := by
  induction hn : sizeOf n using Nat.strongRecOn generalizing n with
  | _ k ih =>
    have ih : ∀ m, sizeOf m < sizeOf n → Only A (knownFields m) := fun m hm => ih _ (hn ▸ hm) m rfl
    cases n with
    | select es all d on f w g hv o l off semi =>
      cases f with
      | paren args =>
        cases args with
        | nil => exact (only_expr h es []).bind fun _ => Only.error h.index
        | cons a as =>
          simp only [knownFields]
          exact (only_expr h es []).bind fun _ => Only.ite
            (fun _ => (ih a (by simp <;> omega)).bind fun _ => Only.ite (fun _ => Only.pure _) fun _ => Only.pure _) fun _ => Only.pure _
      | _ =>
        simp only [knownFields]
        exact (only_expr h es []).bind fun _ => Only.pure _
    | paren args =>
      cases args with
      | nil => exact Only.error h.index
      | cons a as =>
        simp only [knownFields, knownFieldsHead]
        exact (only_opt (ih a (by simp <;> omega))).bind fun _ => Only.pure _
    | «alias» e a w =>
      simp only [knownFields]
      exact (ih e (by simp <;> omega)).bind fun _ => only_format h _ _ _
    | join t l r on us =>
      have hl := ih l (by simp <;> omega)
      have hr := ih r (by simp <;> omega)
      have side : ∀ m : Node, sizeOf m < sizeOf (Node.join t l r on us) → ∀ acc, Only A (sideFields m acc) := by
        intro m hm acc
        cases m with
        | «alias» e a w => exact (ih e (by simp at hm ⊢; omega)).bind fun _ => only_prefix h _ _ _
        | _ => exact (ih _ hm).bind fun _ => Only.pure _
      rw [knownFields_join]
      exact Only.bind (side l (by simp <;> omega) []) fun acc => side r (by simp <;> omega) acc
    | table v q => exact Only.ok _
    | _ => exact Only.error h.attr

theorem only_resolve (n : Node) (ks : List Field) : Only A (resolveType n ks) := by
  rw [Core.resolveType_eq]
  refine Only.ite (fun _ => Only.error h.attr) fun _ => Only.ite (fun _ => only_type h n) fun _ => (only_transform h n).bind fun x => ?_
  split
  · exact Only.pure _
  · exact only_type h n

theorem only_boolean (msg : Str) (n : Node) (ks : List Field) : Only A (mustBeBoolean msg n ks) := by
  refine (only_resolve h n ks).bind fun ty => Only.ite (fun _ => Only.bind ?_ fun _ => Only.pure _) fun _ => Only.pure _
  cases ty with
  | none => exact Only.error h.attr
  | some t => exact Only.ok _

theorem only_group (ks : List Field) (es args : List Node) : Only A (validateGroupBy ks es args) := by
  rw [validateGroupBy]
  induction args with
  | nil => exact Only.ok _
  | cons a as ih =>
    rw [concatV]
    refine Only.bind ?_ fun _ => ih.bind fun _ => Only.pure _
    unfold validateGroupArg
    refine (only_unparen h a).bind fun m => ?_
    have hc : ∀ v, Only A (if (!hasField ks v && decide (v ∉ rawAliases es) && !hasField ks str!"*") = true then
        if (fieldsWithoutAlias ks v).length > 1 then (.error .attribute : VRes)
        else if (fieldsWithoutAlias ks v).length = 0 then return [str!"column \"" ++ v ++ str!"\" does not exist"] else return []
        else return []) := fun v =>
      Only.ite (fun _ => Only.ite (fun _ => Only.error h.attr) fun _ => Only.ite (fun _ => Only.pure _) fun _ => Only.pure _) fun _ => Only.pure _
    cases m with
    | int i => exact Only.ite (fun _ => Only.pure _) fun _ => Only.pure _
    | column v => exact hc v
    | string v q p => exact hc v
    | _ => exact Only.pure _

theorem only_count (v : Node) (a b : Str) : Only A (validateCount v a b) := by
  refine (only_unparen h v).bind fun m => (only_type h m).bind fun ty => ?_
  cases m with
  | int i => exact Only.ite (fun _ => Only.pure _) fun _ => Only.ite (fun _ => Only.pure _) fun _ => Only.pure _
  | _ => exact Only.pure _

omit h in
theorem only_column (ks : List Field) (v : Str) : Only A (validateColumn ks v) := by
  obtain ⟨e, he⟩ := Core.column_fine ks v
  rw [he]
  exact Only.ok _

theorem only_chained (ks : List Field) (l r : Node) : Only A (validateChained ks l r) :=
  (only_transform h _).bind fun _ => (only_transform h _).bind fun _ =>
    Only.ite (fun _ => (only_str h r).bind fun _ => Only.pure _) fun _ => Only.pure _

/-- The methods of an object. -/
structure OnlyV (A : PyErr → Prop) (x : V) : Prop where
  v : ∀ ks, Only A (x.v ks)
  between : ∀ ks, Only A (x.between ks)
  vIn : ∀ ks es, Only A (x.vIn ks es)

omit h in
theorem OnlyV.of (ht : A .type) {v : List Field → VRes} (hv : ∀ ks, Only A (v ks)) : OnlyV A (V.of v) :=
  ⟨hv, fun _ => Only.error ht, fun _ _ => Only.error ht⟩

omit h in
theorem only_concat {xs : List V} (hx : ∀ x ∈ xs, OnlyV A x) (ks : List Field) : Only A (V.concat ks xs) := by
  induction xs with
  | nil => exact Only.ok _
  | cons x xs ih =>
    exact ((hx x (by simp)).v ks).bind fun _ => (ih fun y hy => hx y (by simp [hy])).bind fun _ => Only.pure _

omit h in
theorem only_concatIn {xs : List V} (hx : ∀ x ∈ xs, OnlyV A x) (ks : List Field) (es : Option (List Node)) : Only A (V.concatIn ks es xs) := by
  induction xs with
  | nil => exact Only.ok _
  | cons x xs ih =>
    exact ((hx x (by simp)).vIn ks es).bind fun _ => (ih fun y hy => hx y (by simp [hy])).bind fun _ => Only.pure _

omit h in
theorem only_optV {c : Node} {r : VRes} (hr : Only A r) : Only A (optV c r) := Only.ite (fun _ => hr) fun _ => Only.ok _

theorem only_validateBool (t : Str) (l r : Node) {vl vr : V} (hl : OnlyV A vl) (hr : OnlyV A vr) (b : Bool) (ks : List Field) :
    Only A (validateBool t l r vl vr b ks) := by
  rw [validateBool_eq]
  have ho : ∀ n, Only A (operandV t b n ks) := fun n =>
    Only.ite (fun _ => Only.ok _) fun _ => only_boolean h _ n ks
  exact (hl.v ks).bind fun _ => (ho l).bind fun _ => (hr.v ks).bind fun _ => (ho r).bind fun _ => Only.pure _

theorem only_vtable (n : Node) : OnlyV A (vtable n) := by
  induction hn : sizeOf n using Nat.strongRecOn generalizing n with
  | _ k ih =>
    have ih : ∀ m, sizeOf m < sizeOf n → OnlyV A (vtable m) := fun m hm => ih _ (hn ▸ hm) m rfl
    have list : ∀ ns : List Node, sizeOf ns < sizeOf n → ∀ x ∈ vtableList ns, OnlyV A x := by
      intro ns hs
      induction ns with
      | nil => intro x hx; cases hx
      | cons m ms ihm =>
        intro x hx
        rw [vtableList, List.mem_cons] at hx
        rcases hx with rfl | hx
        · exact ih m (by simp at hs; omega)
        · exact ihm (by simp at hs; omega) x hx
    have aliases : ∀ ns : List Node, sizeOf ns < sizeOf n → ∀ x ∈ vtableAliases ns, OnlyV A x := by
      intro ns hs
      induction ns with
      | nil => intro x hx; cases hx
      | cons m ms ihm =>
        intro x hx
        have ihm := ihm (by simp at hs; omega)
        cases m with
        | «alias» e a w =>
          rw [vtableAliases, List.mem_cons] at hx
          rcases hx with rfl | hx
          · exact ih a (by simp at hs; omega)
          · exact ihm x hx
        | _ =>
          rw [vtableAliases] at hx
          · rcases List.mem_cons.1 hx with rfl | hx
            · exact OnlyV.of h.type fun _ => Only.error h.attr
            · exact ihm x hx
          · exact fun _ _ _ h => by cases h
    cases n with
    | none => exact ⟨fun _ => Only.error h.attr, fun _ => Only.error h.type, fun _ _ => Only.error h.type⟩
    | orderBy args => exact ⟨fun _ => Only.error h.type, fun _ => Only.error h.type, fun ks es => only_concatIn (list args (by simp <;> omega)) ks es⟩
    | orderItem v a d =>
      refine ⟨fun _ => Only.error h.type, fun _ => Only.error h.type, fun ks es => (only_unparen h v).bind fun m => ?_⟩
      cases m with
      | int i =>
        refine Only.ite (fun _ => Only.pure _) fun _ => ?_
        cases es with
        | none => exact Only.error h.type
        | some es => exact Only.ite (fun _ => Only.pure _) fun _ => Only.pure _
      | _ => exact (ih v (by simp <;> omega)).v ks
    | boolc t l r =>
      exact ⟨fun ks => only_validateBool h _ _ _ (ih l (by simp <;> omega)) (ih r (by simp <;> omega)) _ ks,
        fun ks => only_validateBool h _ _ _ (ih l (by simp <;> omega)) (ih r (by simp <;> omega)) _ ks, fun _ _ => Only.error h.type⟩
    | select es all d on f w g hv o l off semi =>
      rw [vtable_select]
      refine OnlyV.of h.type fun ks => (only_opt (only_fields h f)).bind fun ff => ?_
      have hg : Only A (match g with
          | .groupBy args _ _ => validateGroupBy (innerFields ks ff) es args
          | _ => .error .type) := by
        cases g with
        | groupBy args ro ea => exact only_group h _ _ _
        | _ => exact Only.error h.type
      unfold clausesV
      exact (only_concat (list es (by simp <;> omega)) _).bind fun _ => (only_optV ((ih f (by simp <;> omega)).v _)).bind fun _ =>
        (only_optV ((ih w (by simp <;> omega)).v _)).bind fun _ => (only_optV hg).bind fun _ =>
        (only_optV ((ih hv (by simp <;> omega)).v _)).bind fun _ => (only_optV ((ih o (by simp <;> omega)).vIn _ _)).bind fun _ =>
        (only_optV ((ih l (by simp <;> omega)).v _)).bind fun _ => (only_optV ((ih off (by simp <;> omega)).v _)).bind fun _ => Only.pure _
    | where_ v =>
      exact OnlyV.of h.type fun ks => ((ih v (by simp <;> omega)).v ks).bind fun _ => (only_boolean h _ _ _).bind fun _ => Only.pure _
    | having v =>
      exact OnlyV.of h.type fun ks => ((ih v (by simp <;> omega)).v ks).bind fun _ => (only_boolean h _ _ _).bind fun _ => Only.pure _
    | groupBy args ro ea => exact OnlyV.of h.type fun ks => Only.error h.type
    | limit all v => exact OnlyV.of h.type fun ks => only_count h _ _ _
    | offset v => exact OnlyV.of h.type fun ks => only_count h _ _ _
    | func name args => exact OnlyV.of h.type fun ks => only_concat (list args (by simp <;> omega)) ks
    | count args d => exact OnlyV.of h.type fun ks => only_concat (list args (by simp <;> omega)) ks
    | paren args => exact OnlyV.of h.type fun ks => only_concat (list args (by simp <;> omega)) ks
    | cast a b => exact OnlyV.of h.type fun ks => ((ih a (by simp <;> omega)).v ks).bind fun _ => Only.error h.attr
    | arrayAgg c d i r o l => exact OnlyV.of h.type fun ks => (ih c (by simp <;> omega)).v ks
    | «alias» e a w => exact OnlyV.of h.type fun ks => (ih e (by simp <;> omega)).v ks
    | filtered a b =>
      exact OnlyV.of h.type fun ks => ((ih a (by simp <;> omega)).v ks).bind fun _ => ((ih b (by simp <;> omega)).v ks).bind fun _ => Only.pure _
    | analytics f part o fr =>
      exact OnlyV.of h.type fun ks => ((ih f (by simp <;> omega)).v ks).bind fun _ =>
        (only_concat (list part (by simp <;> omega)) ks).bind fun _ => (only_optV ((ih o (by simp <;> omega)).vIn ks none)).bind fun _ => Only.pure _
    | column v => exact OnlyV.of h.type fun ks => only_column ks v
    | chained l r => exact OnlyV.of h.type fun ks => only_chained h ks l r
    | join t l r on us => exact OnlyV.of h.type fun ks => Only.ite (fun _ => Only.ok _) fun _ => Only.ok _
    | cond l p r =>
      rw [vtable_cond]
      exact OnlyV.of h.type fun ks => ((ih l (by simp <;> omega)).v ks).bind fun _ =>
        (Only.ite (fun _ => (ih r (by simp <;> omega)).between ks) fun _ => (ih r (by simp <;> omega)).v ks).bind fun _ => Only.pure _
    | replace e args => exact OnlyV.of h.type fun ks => only_concat (aliases args (by simp <;> omega)) ks
    | raw s => exact OnlyV.of h.type fun _ => Only.error h.attr
    | whenThen a b => exact OnlyV.of h.type fun _ => Only.error h.attr
    | _ => exact OnlyV.of h.type fun _ => Only.ok _

theorem only_validate (n : Node) : Only A (validate n) := by
  cases n <;> first | exact Only.error h.attr | exact Only.error h.type | exact (only_vtable h _).v []

end

end SqlV.Verdict
