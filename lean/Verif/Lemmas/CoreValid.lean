import Verif.Lemmas.CoreLetters
import Verif.Lemmas.Order

/-! Validation of a tree and of the tree with its words in lower case. -/

set_option linter.unusedSectionVars false

namespace SqlV.Core

section

variable [E : PyEnv] [L : LawfulPyEnv E]

theorem returnType_fold (n : Node) : returnType (fold n) = returnType n := by
  induction n using Node.rec (motive_2 := fun ns => returnTypeHead (foldList ns) = returnTypeHead ns) with
  | nil => rfl
  | cons a as iha _ => rw [foldList, returnTypeHead, returnTypeHead, iha]
  | paren args ih => rw [fold, returnType, returnType, ih]
  | «alias» e al w ih _ => rw [fold, returnType, returnType, ih]
  | chained l r _ ih => rw [fold, returnType, returnType, ih]
  | _ => rfl

/-- Objects without `resolve_return_type`. -/
def mute : Node → Bool
  | .select .. | .none | .raw _ | .whenThen .. => true
  | _ => false

theorem resolveType_eq (n : Node) (k : List Field) : resolveType n k = if mute n then .error .attribute
    else if k.isEmpty then returnType n else (transform n >>= fun name =>
      match (E.setOrder k).filter (fun f => decide (f.name = name)) with
      | f :: _ => .ok f.type
      | [] => returnType n) := by
  cases n <;> rfl

theorem resolveType_fold {n : Node} (hw : wf (fold n) = true) (k : List Field) : resolveType (fold n) k = resolveType n k := by
  rw [resolveType_eq, resolveType_eq, returnType_fold, transform_fold hw, show mute (fold n) = mute n by cases n <;> rfl]

theorem mustBeBoolean_fold {n : Node} (hw : wf (fold n) = true) (msg : Str) (k : List Field) :
    mustBeBoolean msg (fold n) k = mustBeBoolean msg n k := by
  rw [mustBeBoolean, mustBeBoolean, resolveType_fold hw]

theorem unparen_fold (n : Node) : unparen (fold n) = (unparen n).map fold := by
  induction n using Node.rec (motive_2 := fun ns => unparenHead (foldList ns) = (unparenHead ns).map fold) with
  | nil => rfl
  | cons a as iha _ => rw [foldList, unparenHead, unparenHead, iha]
  | paren args ih => rw [fold, unparen, unparen, ih]
  | _ => rfl

theorem rawAliases_fold (es : List Node) : rawAliases (foldList es) = rawAliases es := by
  induction es with
  | nil => rfl
  | cons e es ih =>
    rw [foldList]
    cases e with
    | «alias» x al w =>
      rw [fold]
      cases al with
      | raw s => rw [show fold (.raw s) = .raw s from rfl, rawAliases, rawAliases, ih]
      | _ => exact ih
    | _ => exact ih

theorem length_fold (es : List Node) : (foldList es).length = es.length := by rw [foldList_eq, List.length_map]

theorem groupArg_fold (k : List Field) (es : List Node) (a : Node) :
    validateGroupArg k (foldList es) (fold a) = validateGroupArg k es a := by
  rw [validateGroupArg, validateGroupArg, unparen_fold, rawAliases_fold, length_fold]
  cases unparen a with
  | error e => rfl
  | ok m => cases m <;> rfl

theorem groupBy_fold (k : List Field) (es args : List Node) :
    validateGroupBy k (foldList es) (foldList args) = validateGroupBy k es args := by
  rw [validateGroupBy, validateGroupBy]
  induction args with
  | nil => rfl
  | cons a as ih => rw [foldList, concatV, concatV, ih, groupArg_fold]

theorem count_fold (v : Node) (a b : Str) : validateCount (fold v) a b = validateCount v a b := by
  rw [validateCount, validateCount, unparen_fold]
  cases unparen v with
  | error e => rfl
  | ok m =>
    show (returnType (fold m) >>= _) = (returnType m >>= _)
    rw [returnType_fold]
    cases m <;> rfl

theorem exprFields_fold (es : List Node) (acc : List Field) (h : ∀ e ∈ es, ∀ x al w, e = .alias x al w → fold al = al) :
    exprFields (foldList es) acc = exprFields es acc := by
  induction es generalizing acc with
  | nil => rfl
  | cons e es ih =>
    have ih := fun acc => ih acc fun e he => h e (List.mem_cons_of_mem _ he)
    rw [foldList]
    cases e with
    | «alias» x al w =>
      rw [fold, exprFields, exprFields, returnType_fold, h _ List.mem_cons_self x al w rfl]
      simp only [ih]
    | column v =>
      rw [fold, exprFields, exprFields]
      simp only [ih]
    | _ => exact ih acc

theorem alias_fold {e al : Node} {w : Bool} (h : wf (fold (.alias e al w)) = true) : fold al = al := by
  rw [fold] at h
  simp only [wf, Bool.and_eq_true, Bool.or_eq_true] at h
  have key : isAlias (fold al) true = true ∨ isRaw (fold al) = true := by
    rcases h.1.1 with h | h
    · cases w
      · exact .inr h.2
      · exact .inl h.2
    · exact .inr h.2
  cases al with
  | column | raw | string => rfl
  | _ => rcases key with h | h <;> exact absurd h Bool.false_ne_true

theorem exprFields_wf {es : List Node} (h : wfList (foldList es) = true) (acc : List Field) :
    exprFields (foldList es) acc = exprFields es acc := by
  refine exprFields_fold es acc fun e he x al w hx => ?_
  subst hx
  rw [wfList_iff, foldList_eq] at h
  exact alias_fold (h _ (List.mem_map_of_mem he))

theorem knownFields_fold (n : Node) (hw : wf (fold n) = true) : knownFields (fold n) = knownFields n := by
  have main : ∀ k n, sizeOf n < k → wf (fold n) = true → knownFields (fold n) = knownFields n := by
    intro k
    induction k with
    | zero => intro n h; omega
    | succ k ih =>
      intro n hk hw
      cases n with
      | paren args =>
        rw [fold] at hw ⊢
        simp only [wf, Bool.and_eq_true] at hw
        rw [knownFields, knownFields]
        cases args with
        | nil => rfl
        | cons a as =>
          simp only [foldList, wfList, Bool.and_eq_true] at hw
          simp only [Node.paren.sizeOf_spec, List.cons.sizeOf_spec] at hk
          rw [foldList, knownFieldsHead, knownFieldsHead, ih a (by omega) hw.2.1]
      | «alias» e al w =>
        have hal := alias_fold hw
        rw [fold] at hw ⊢
        simp only [wf, Bool.and_eq_true] at hw
        simp only [Node.alias.sizeOf_spec] at hk
        rw [knownFields, knownFields, ih e (by omega) hw.1.2, hal]
      | table => rfl
      | join type l r on us =>
        rw [fold] at hw ⊢
        simp only [wf, Bool.and_eq_true] at hw
        simp only [Node.join.sizeOf_spec] at hk
        obtain ⟨⟨⟨⟨⟨h1, h2⟩, h3⟩, h4⟩, h5⟩, h6⟩ := hw
        have side : ∀ (m : Node) (acc : List Field), sizeOf m < k → wf (fold m) = true → sideFields (fold m) acc = sideFields m acc := by
          intro m acc hm hwm
          cases m with
          | «alias» e al w =>
            have hal := alias_fold hwm
            rw [fold] at hwm ⊢
            simp only [wf, Bool.and_eq_true] at hwm
            simp only [Node.alias.sizeOf_spec] at hm
            rw [sideFields, sideFields, ih e (by omega) hwm.1.2, hal]
          | _ =>
            rw [sideFields_other _ _ (fun _ _ _ h => by simp [fold] at h), sideFields_other _ _ (fun _ _ _ h => by cases h),
              ih _ hm hwm]
        rw [knownFields_join, knownFields_join, side l _ (by omega) h2]
        refine congrArg (Except.bind _) (funext fun left => ?_)
        exact side r _ (by omega) h3
      | select es all d on f w g h o l off semi =>
        rw [fold] at hw ⊢
        simp only [wf, Bool.and_eq_true, Bool.or_eq_true, Bool.not_eq_true', decide_eq_true_eq] at hw
        obtain ⟨⟨⟨⟨⟨⟨⟨⟨⟨⟨⟨⟨⟨⟨⟨⟨⟨⟨⟨⟨h1, h2⟩, h3⟩, h4⟩, h5⟩, h6⟩, h7⟩, f1⟩, f2⟩, w1⟩, w2⟩, g1⟩, g2⟩, i1⟩, i2⟩, o1⟩, o2⟩, l1⟩, l2⟩, p1⟩, p2⟩ := hw
        simp only [Node.select.sizeOf_spec] at hk
        rw [knownFields, knownFields, exprFields_wf h3]
        refine congrArg (Except.bind _) (funext fun fields => ?_)
        cases f with
        | paren args =>
          rw [fold] at f2 ⊢
          simp only [wf, Bool.and_eq_true] at f2
          cases args with
          | nil => rfl
          | cons a as =>
            simp only [foldList, wfList, Bool.and_eq_true] at f2
            simp only [Node.paren.sizeOf_spec, List.cons.sizeOf_spec] at hk
            simp only [foldList, show (fold a).isSelect = a.isSelect by cases a <;> rfl]
            rw [ih a (by omega) f2.2.1]
        | _ => rfl
      | _ => rfl
  exact main _ n (Nat.lt_succ_self _) hw

/-! ### The methods -/

theorem toLower_twice (c : Char) : c.toLower.toLower = c.toLower := by
  by_cases h : c.val ≥ 'A'.val ∧ c.val ≤ 'Z'.val
  · have h1 : 65 ≤ c.val.toNat := UInt32.le_iff_toNat_le.1 h.1
    have h2 : c.val.toNat ≤ 90 := UInt32.le_iff_toNat_le.1 h.2
    have e1 : (c.val + ('a'.val - 'A'.val)).toNat = c.val.toNat + 32 := by
      rw [UInt32.toNat_add]
      have : ('a'.val - 'A'.val).toNat = 32 := by decide
      rw [this]
      omega
    have h4 : c.toLower.val = c.val + ('a'.val - 'A'.val) := by
      unfold Char.toLower
      rw [dif_pos h]
    have h3 : ¬ (c.toLower.val ≥ 'A'.val ∧ c.toLower.val ≤ 'Z'.val) := by
      rintro ⟨-, h3⟩
      have : c.toLower.val.toNat ≤ 90 := UInt32.le_iff_toNat_le.1 h3
      rw [h4, e1] at this
      omega
    generalize c.toLower = d at h3
    unfold Char.toLower
    rw [dif_neg h3]
  · have : c.toLower = c := by
      unfold Char.toLower
      rw [dif_neg h]
    rw [this, this]

theorem vtableList_eq (ns : List Node) : vtableList ns = ns.map vtable := by
  induction ns with
  | nil => rfl
  | cons n ns ih => rw [vtableList, ih, List.map_cons]

/-- Validation does not depend on letter case; `vIn` is treated apart. -/
structure SameV (n : Node) : Prop where
  v : (vtable (fold n)).v = (vtable n).v
  between : (vtable (fold n)).between = (vtable n).between
  vIn : ∀ k es, (vtable (fold n)).vIn k (es.map foldList) = (vtable n).vIn k es

def SubV (n : Node) : Prop := ∀ m, sizeOf m < sizeOf n → wf (fold m) = true → SameV m

theorem SubV.concat {n : Node} {args : List Node} (ih : SubV n) (hs : sizeOf args < sizeOf n) (hw : wfList (foldList args) = true)
    (k : List Field) : V.concat k (vtableList (foldList args)) = V.concat k (vtableList args) := by
  have : ∀ a ∈ args, (vtable (fold a)).v = (vtable a).v := by
    intro a ha
    rw [wfList_iff, foldList_eq] at hw
    exact (ih a (by have := List.sizeOf_lt_of_mem ha; omega) (hw _ (List.mem_map_of_mem ha))).v
  clear hs hw
  induction args with
  | nil => rfl
  | cons a as ih =>
    rw [foldList, vtableList, vtableList, V.concat, V.concat, ih fun b hb => this b (List.mem_cons_of_mem _ hb),
      this a List.mem_cons_self]

theorem SubV.concatIn {n : Node} {args : List Node} (ih : SubV n) (hs : sizeOf args < sizeOf n) (hw : wfList (foldList args) = true)
    (k : List Field) (es : Option (List Node)) :
    V.concatIn k (es.map foldList) (vtableList (foldList args)) = V.concatIn k es (vtableList args) := by
  have : ∀ a ∈ args, (vtable (fold a)).vIn k (es.map foldList) = (vtable a).vIn k es := by
    intro a ha
    rw [wfList_iff, foldList_eq] at hw
    exact (ih a (by have := List.sizeOf_lt_of_mem ha; omega) (hw _ (List.mem_map_of_mem ha))).vIn k es
  clear hs hw
  induction args with
  | nil => rfl
  | cons a as ih =>
    rw [foldList, vtableList, vtableList, V.concatIn, V.concatIn, ih fun b hb => this b (List.mem_cons_of_mem _ hb),
      this a List.mem_cons_self]

/-- A class without the special signatures. -/
theorem sameV_of {n : Node} {f g : List Field → VRes} (hf : vtable (fold n) = V.of f) (hg : vtable n = V.of g) (h : f = g) : SameV n := by
  subst h
  exact ⟨by rw [hf, hg], by rw [hf, hg], fun k es => by rw [hf, hg]; rfl⟩

theorem truthy_fold (n : Node) : (fold n).truthy = n.truthy := by cases n <;> rfl

theorem optV_fold {n : Node} {a b : VRes} (h : a = b) : optV (fold n) a = optV n b := by
  rw [h, optV, optV, truthy_fold]

theorem aliases_fold (ns : List Node) (hw : wfList (foldList ns) = true) : vtableAliases (foldList ns) = vtableAliases ns := by
  induction ns with
  | nil => rfl
  | cons n ns ih =>
    rw [foldList, wfList, Bool.and_eq_true] at hw
    rw [foldList]
    cases n with
    | «alias» e al w =>
      have hal := alias_fold hw.1
      rw [fold, vtableAliases, vtableAliases, ih hw.2, hal]
    | _ =>
      rw [vtableAliases, vtableAliases, ih hw.2]
      all_goals intro _ _ _ h; simp [fold] at h

theorem chained_fold {l r : Node} (hw : wf (fold (.chained l r)) = true) (k : List Field) :
    validateChained k (fold l) (fold r) = validateChained k l r := by
  have h0 := transform_fold hw
  rw [fold] at hw h0
  simp only [wf, Bool.and_eq_true] at hw
  rw [validateChained, validateChained, ← h0, ← transform_fold hw.1.2,
    (same r hw.2).eq (select_of hw.1.1.2 fun _ _ _ _ _ _ _ _ _ _ _ _ => rfl)]

theorem sameV_step (n : Node) (ih : SubV n) (hw : wf (fold n) = true) : SameV n := by
  have hw0 := hw
  cases n with
  | none => exact ⟨rfl, rfl, fun _ _ => rfl⟩
  | select es all d on f w g h o l off semi =>
    rw [fold] at hw
    simp only [wf, Bool.and_eq_true, Bool.or_eq_true, Bool.not_eq_true', decide_eq_true_eq] at hw
    obtain ⟨⟨⟨⟨⟨⟨⟨⟨⟨⟨⟨⟨⟨⟨⟨⟨⟨⟨⟨⟨h1, h2⟩, h3⟩, h4⟩, h5⟩, h6⟩, h7⟩, f1⟩, f2⟩, w1⟩, w2⟩, g1⟩, g2⟩, i1⟩, i2⟩, o1⟩, o2⟩, l1⟩, l2⟩, p1⟩, p2⟩ := hw
    refine sameV_of (by rw [fold, vtable]) (by rw [vtable]) (funext fun known => ?_)
    rw [knownFields_fold f f2]
    refine congrArg (Except.bind _) (funext fun ff => ?_)
    simp only
    rw [ih.concat (by simp only [Node.select.sizeOf_spec]; omega) h3,
      optV_fold (n := f) (congrFun (ih f (by simp only [Node.select.sizeOf_spec]; omega) f2).v _),
      optV_fold (n := w) (congrFun (ih w (by simp only [Node.select.sizeOf_spec]; omega) w2).v _),
      optV_fold (n := h) (congrFun (ih h (by simp only [Node.select.sizeOf_spec]; omega) i2).v _),
      optV_fold (n := o) (a := (vtable (fold o)).vIn _ (some (foldList es)))
        ((ih o (by simp only [Node.select.sizeOf_spec]; omega) o2).vIn _ (some es)),
      optV_fold (n := l) (congrFun (ih l (by simp only [Node.select.sizeOf_spec]; omega) l2).v _),
      optV_fold (n := off) (congrFun (ih off (by simp only [Node.select.sizeOf_spec]; omega) p2).v _)]
    cases g with
    | groupBy args rollup each => simp only [fold, groupBy_fold]; rfl
    | _ => rfl
  | where_ v =>
    rw [fold] at hw
    simp only [wf, Bool.and_eq_true, decide_eq_true_eq] at hw
    refine sameV_of (by rw [fold, vtable]) (by rw [vtable]) (funext fun known => ?_)
    rw [(ih v (by simp only [Node.where_.sizeOf_spec]; omega) hw.2).v, mustBeBoolean_fold hw.2]
  | having v =>
    rw [fold] at hw
    simp only [wf, Bool.and_eq_true, decide_eq_true_eq] at hw
    refine sameV_of (by rw [fold, vtable]) (by rw [vtable]) (funext fun known => ?_)
    rw [(ih v (by simp only [Node.having.sizeOf_spec]; omega) hw.2).v, mustBeBoolean_fold hw.2]
  | orderBy args =>
    rw [fold] at hw
    simp only [wf, Bool.and_eq_true] at hw
    refine ⟨rfl, rfl, fun k es => ?_⟩
    rw [fold, vtable, vtable]
    exact ih.concatIn (by simp only [Node.orderBy.sizeOf_spec]; omega) hw.2 k es
  | orderItem v asc desc =>
    rw [fold] at hw
    simp only [wf, Bool.and_eq_true, decide_eq_true_eq] at hw
    refine ⟨rfl, rfl, fun k es => ?_⟩
    rw [fold, vtable, vtable]
    simp only
    rw [validateOrderItem, validateOrderItem, unparen_fold, (ih v (by simp only [Node.orderItem.sizeOf_spec]; omega) hw.2).v]
    cases unparen v with
    | error e => rfl
    | ok m =>
      cases m with
      | int i =>
        cases es with
        | none => rfl
        | some es => simp [Except.map, fold, bind, Except.bind, length_fold]
      | _ => rfl
  | limit all v =>
    refine sameV_of (by rw [fold, vtable]) (by rw [vtable]) (funext fun known => ?_)
    rw [count_fold]
  | offset v =>
    refine sameV_of (by rw [fold, vtable]) (by rw [vtable]) (funext fun known => ?_)
    rw [count_fold]
  | func f args =>
    rw [fold] at hw
    simp only [wf, Bool.and_eq_true, decide_eq_true_eq] at hw
    refine sameV_of (by rw [fold, vtable]) (by rw [vtable]) (funext fun known => ?_)
    rw [ih.concat (by simp only [Node.func.sizeOf_spec]; omega) hw.2]
  | count args d =>
    rw [fold] at hw
    simp only [wf, Bool.and_eq_true, decide_eq_true_eq] at hw
    refine sameV_of (by rw [fold, vtable]) (by rw [vtable]) (funext fun known => ?_)
    rw [ih.concat (by simp only [Node.count.sizeOf_spec]; omega) hw.2]
  | cast c t =>
    rw [fold] at hw
    simp only [wf, Bool.and_eq_true, decide_eq_true_eq] at hw
    refine sameV_of (by rw [fold, vtable]) (by rw [vtable]) (funext fun known => ?_)
    rw [(ih c (by simp only [Node.cast.sizeOf_spec]; omega) hw.1.2).v]
  | arrayAgg c d ignore respect o l =>
    rw [fold] at hw
    simp only [wf, Bool.and_eq_true, decide_eq_true_eq] at hw
    obtain ⟨⟨⟨⟨⟨⟨h1, h2⟩, h3⟩, h4⟩, h5⟩, h6⟩, h7⟩ := hw
    refine sameV_of (by rw [fold, vtable]) (by rw [vtable]) (funext fun known => ?_)
    rw [(ih c (by simp only [Node.arrayAgg.sizeOf_spec]; omega) h2).v]
  | filtered c w =>
    rw [fold] at hw
    simp only [wf, Bool.and_eq_true, decide_eq_true_eq] at hw
    obtain ⟨⟨⟨h1, h2⟩, h3⟩, h4⟩ := hw
    refine sameV_of (by rw [fold, vtable]) (by rw [vtable]) (funext fun known => ?_)
    rw [(ih c (by simp only [Node.filtered.sizeOf_spec]; omega) h3).v, (ih w (by simp only [Node.filtered.sizeOf_spec]; omega) h4).v]
  | analytics f part o fr =>
    rw [fold] at hw
    simp only [wf, Bool.and_eq_true, decide_eq_true_eq] at hw
    obtain ⟨⟨⟨⟨⟨⟨⟨⟨⟨h1, h2⟩, h3⟩, h4⟩, h5⟩, h6⟩, h7⟩, h8⟩, h9⟩, h10⟩ := hw
    refine sameV_of (by rw [fold, vtable]) (by rw [vtable]) (funext fun known => ?_)
    rw [(ih f (by simp only [Node.analytics.sizeOf_spec]; omega) h2).v, ih.concat (by simp only [Node.analytics.sizeOf_spec]; omega) h4,
      optV_fold (n := o) (a := (vtable (fold o)).vIn _ none) ((ih o (by simp only [Node.analytics.sizeOf_spec]; omega) h7).vIn _ none)]
  | chained l r =>
    refine sameV_of (by rw [fold, vtable]) (by rw [vtable]) (funext fun known => ?_)
    rw [chained_fold hw0]
  | paren args =>
    rw [fold] at hw
    simp only [wf, Bool.and_eq_true] at hw
    refine sameV_of (by rw [fold, vtable]) (by rw [vtable]) (funext fun known => ?_)
    rw [ih.concat (by simp only [Node.paren.sizeOf_spec]; omega) hw.2]
  | «alias» e al w =>
    rw [fold] at hw
    simp only [wf, Bool.and_eq_true] at hw
    refine sameV_of (by rw [fold, vtable]) (by rw [vtable]) (funext fun known => ?_)
    rw [(ih e (by simp only [Node.alias.sizeOf_spec]; omega) hw.1.2).v]
  | join type l r on us =>
    refine sameV_of (by rw [fold, vtable]) (by rw [vtable]) (funext fun known => ?_)
    rw [truthy_fold, truthy_fold]
  | cond l q r =>
    rw [fold] at hw
    simp only [wf, Bool.and_eq_true, decide_eq_true_eq] at hw
    obtain ⟨⟨⟨h1, h2⟩, h3⟩, h4⟩ := hw
    have hq : (q.map Char.toLower).all isAscii = true := by
      split at h4
      · rename_i h
        rw [h]; decide
      · simp only [Bool.and_eq_true, decide_eq_true_eq] at h4
        exact (by decide : ∀ q ∈ corePreds, q.all isAscii = true) _ h4.1.1
    refine sameV_of (by rw [fold, vtable]) (by rw [vtable]) (funext fun known => ?_)
    rw [(ih l (by simp only [Node.cond.sizeOf_spec]; omega) h2).v, (ih r (by simp only [Node.cond.sizeOf_spec]; omega) h3).v,
      (ih r (by simp only [Node.cond.sizeOf_spec]; omega) h3).between, L.lower_ascii _ hq, L.lower_ascii _ (all_ascii_of_lower rfl hq),
      List.map_map, show Char.toLower ∘ Char.toLower = Char.toLower from funext toLower_twice]
  | boolc op l r =>
    rw [fold] at hw
    simp only [wf, Bool.and_eq_true, decide_eq_true_eq] at hw
    obtain ⟨⟨⟨⟨h1, h2⟩, h3⟩, h4⟩, h5⟩ := hw
    have hu := upper_fold (E := E) ((by decide : ∀ q ∈ boolPredicates, q.all isAscii = true) _ h1)
    have key : ∀ b k, validateBool (E.upper (op.map Char.toLower)) (fold l) (fold r) (vtable (fold l)) (vtable (fold r)) b k =
        validateBool (E.upper op) l r (vtable l) (vtable r) b k := by
      intro b k
      rw [validateBool, validateBool, hu, (ih l (by simp only [Node.boolc.sizeOf_spec]; omega) h4).v,
        (ih r (by simp only [Node.boolc.sizeOf_spec]; omega) h5).v]
      simp only [mustBeBoolean_fold h4, mustBeBoolean_fold h5]
    refine ⟨funext fun k => ?_, funext fun k => ?_, fun _ _ => rfl⟩
    · rw [fold, vtable, vtable]; exact key _ _
    · rw [fold, vtable, vtable]; exact key _ _
  | replace e args =>
    rw [fold] at hw
    simp only [wf, Bool.and_eq_true] at hw
    refine sameV_of (by rw [fold, vtable]) (by rw [vtable]) (funext fun known => ?_)
    rw [aliases_fold _ hw.2]
  | _ => exact ⟨rfl, rfl, fun _ _ => rfl⟩

theorem sameV (n : Node) (hw : wf (fold n) = true) : SameV n := by
  have : ∀ k n, sizeOf n < k → wf (fold n) = true → SameV n := by
    intro k
    induction k with
    | zero => intro n h; omega
    | succ k ih => exact fun n h hw => sameV_step n (fun m hm hwm => ih m (by omega) hwm) hw
  exact this _ n (Nat.lt_succ_self _) hw

/-- The letter case of words does not matter for validation. -/
theorem validate_fold {n : Node} (hw : wf (fold n) = true) : validate (fold n) = validate n := by
  cases n with
  | select es all d on f w g h o l off semi => exact congrFun (sameV _ hw).v []
  | _ => rfl

end

end SqlV.Core
