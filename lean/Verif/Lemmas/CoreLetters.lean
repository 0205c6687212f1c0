import Verif.Lemmas.CorePrintAll

/-! The printer on a tree and on the tree with its words in lower case: no condition on parenthesised lists. -/

set_option linter.unusedSectionVars false

namespace SqlV.Core

section

variable [E : PyEnv] [L : LawfulPyEnv E]

/-- The methods without `str` of statements, which is not used for trees of the core grammar. -/
def blur (r : R) : R := { r with s := if r.isSelect then .ok [] else r.s }

theorem blur_same {a b : R} (h : blur a = blur b) (hs : a.isSelect = false) : a = b := by
  have hb : b.isSelect = false := by rw [← hs]; exact (congrArg R.isSelect h).symm
  have ha : blur a = a := by cases a; cases hs; rfl
  have hb : blur b = b := by cases b; cases hb; rfl
  rw [← ha, h, hb]

theorem blur_t {a b : R} (h : blur a = blur b) : a.t = b.t := (congrArg R.t h :)
theorem blur_sub {a b : R} (h : blur a = blur b) : a.sub = b.sub := (congrArg R.sub h :)
theorem blur_peel {a b : R} (h : blur a = blur b) : a.peel = b.peel := (congrArg R.peel h :)
theorem blur_isSelect {a b : R} (h : blur a = blur b) : a.isSelect = b.isSelect := (congrArg R.isSelect h :)

theorem mapR_blur {l l' : List R} (h : l.map blur = l'.map blur) : mapR R.t l = mapR R.t l' := by
  induction l generalizing l' with
  | nil => cases l' with
    | nil => rfl
    | cons => cases h
  | cons a l ih => cases l' with
    | nil => cases h
    | cons b l' =>
      simp only [List.map_cons, List.cons.injEq] at h
      rw [mapR, mapR, ih h.2, blur_t h.1]

theorem parenStr_blur {l l' : List R} (h : l.map blur = l'.map blur) : parenStr l = parenStr l' := by
  unfold parenStr
  congr 1
  induction l generalizing l' with
  | nil => cases l' with
    | nil => rfl
    | cons => cases h
  | cons a l ih => cases l' with
    | nil => cases h
    | cons b l' =>
      simp only [List.map_cons, List.cons.injEq] at h
      rw [mapR, mapR, ih h.2, blur_t h.1, blur_isSelect h.1,
        blur_sub h.1]

theorem paren_blur {l l' : List R} (h : l.map blur = l'.map blur) : R.paren l = R.paren l' := by
  unfold R.paren
  rw [parenStr_blur h]
  cases l with
  | nil => cases l' with
    | nil => rfl
    | cons => cases h
  | cons a l => cases l' with
    | nil => cases h
    | cons b l' =>
      simp only [List.map_cons, List.cons.injEq] at h
      simp only [blur_t h.1, blur_isSelect h.1,
        blur_sub h.1, blur_peel h.1]

/-- The methods do not depend on letter case. -/
def Same (n : Node) : Prop := blur (render n) = blur (render (fold n))

def SubC (n : Node) : Prop := ∀ m, sizeOf m < sizeOf n → wf (fold m) = true → Same m

theorem Same.eq {n : Node} (h : Same n) (hs : (fold n).isSelect = false) : render n = render (fold n) :=
  blur_same h (by rw [isSelect_render, hs])

theorem level_select {n : Node} {k : Nat} (h : level n ≤ k) (hk : k ≤ 4) : n.isSelect = false := by
  cases n with
  | select es all d on f w g h' o l off semi =>
    exfalso
    rcases select_levels es all d on f w g h' o l off semi with h1 | h1
    · rw [h1.1] at h; omega
    · rw [h1] at h; omega
  | _ => rfl

theorem select_of {p : Node → Bool} {n : Node} (h : p n = true)
    (hp : ∀ es all d on f w g h o l off semi, p (.select es all d on f w g h o l off semi) = false) : n.isSelect = false := by
  cases n with
  | select es all d on f w g h' o l off semi => rw [hp] at h; cases h
  | _ => rfl

theorem SubC.list {n : Node} {args : List Node} (ih : SubC n) (hs : sizeOf args < sizeOf n) (hw : wfList (foldList args) = true) :
    (renderList args).map blur = (renderList (foldList args)).map blur := by
  rw [wfList_iff, foldList_eq] at hw
  rw [renderList_eq, renderList_eq, foldList_eq, List.map_map, List.map_map, List.map_map]
  refine List.map_congr_left fun a ha => ?_
  exact ih a (by have := List.sizeOf_lt_of_mem ha; omega) (hw _ (List.mem_map_of_mem ha))

theorem SubC.all {n : Node} {args : List Node} (ih : SubC n) (hs : sizeOf args < sizeOf n) (hw : wfList (foldList args) = true)
    (hn : ∀ a ∈ foldList args, a.isSelect = false) : renderList args = renderList (foldList args) := by
  rw [wfList_iff, foldList_eq] at hw
  rw [foldList_eq] at hn
  rw [renderList_eq, renderList_eq, foldList_eq, List.map_map]
  refine List.map_congr_left fun a ha => ?_
  exact (ih a (by have := List.sizeOf_lt_of_mem ha; omega) (hw _ (List.mem_map_of_mem ha))).eq (hn _ (List.mem_map_of_mem ha))

theorem orNone_select {p : Node → Bool} {n : Node} (h : orNone p n = true)
    (hp : ∀ es all d on f w g h o l off semi, p (.select es all d on f w g h o l off semi) = false) : n.isSelect = false := by
  cases n with
  | select es all d on f w g h' o l off semi => rw [orNone, hp] at h; cases h; rintro ⟨⟩
  | _ => rfl

theorem upper_fold {s : Str} (h : (s.map Char.toLower).all isAscii = true) : E.upper s = E.upper (s.map Char.toLower) := by
  rw [upper_caps h, L.upper_ascii _ h]; rfl

theorem same_step (n : Node) (ih : SubC n) (hw : wf (fold n) = true) : Same n := by
  cases n with
  | none | raw | column | int | float | string | null | bool => rfl
  | type v =>
    rw [fold] at hw
    simp only [wf] at hw
    rw [Same, fold, render, render, upper_fold (fname_ascii hw)]
  | chained l r =>
    rw [fold] at hw
    simp only [wf, Bool.and_eq_true] at hw
    rw [Same, fold, render, render, (ih l (by simp only [Node.chained.sizeOf_spec]; omega) hw.1.2).eq
      (select_of hw.1.1.1 fun _ _ _ _ _ _ _ _ _ _ _ _ => rfl), (ih r (by simp only [Node.chained.sizeOf_spec]; omega) hw.2).eq
      (select_of hw.1.1.2 fun _ _ _ _ _ _ _ _ _ _ _ _ => rfl)]
  | func f args =>
    rw [fold] at hw
    simp only [wf, Bool.and_eq_true, decide_eq_true_eq] at hw
    rw [Same, fold, render, render, upper_fold (cname_ascii hw.1.1.1)]
    unfold funcStr
    rw [mapR_blur (ih.list (by simp only [Node.func.sizeOf_spec]; omega) hw.2)]
  | count args d =>
    rw [fold] at hw
    simp only [wf, Bool.and_eq_true, decide_eq_true_eq] at hw
    rw [Same, fold, render, render]
    unfold countStr
    rw [mapR_blur (ih.list (by simp only [Node.count.sizeOf_spec]; omega) hw.2)]
  | cast c t =>
    rw [fold] at hw
    simp only [wf, Bool.and_eq_true, decide_eq_true_eq] at hw
    rw [Same, fold, render, render, (ih c (by simp only [Node.cast.sizeOf_spec]; omega) hw.1.2).eq (level_select hw.1.1.1 (by omega)),
      (ih t (by simp only [Node.cast.sizeOf_spec]; omega) hw.2).eq (select_of hw.1.1.2 fun _ _ _ _ _ _ _ _ _ _ _ _ => rfl)]
  | paren args =>
    rw [fold] at hw
    simp only [wf, Bool.and_eq_true] at hw
    rw [Same, fold, render, render, paren_blur (ih.list (by simp only [Node.paren.sizeOf_spec]; omega) hw.2)]
  | array args =>
    rw [fold] at hw
    simp only [wf, Bool.and_eq_true] at hw
    rw [Same, fold, render, render, mapR_blur (ih.list (by simp only [Node.array.sizeOf_spec]; omega) hw.2)]
  | index e is =>
    rw [fold] at hw
    simp only [wf, Bool.and_eq_true] at hw
    rw [Same, fold, render, render, mapR_blur (ih.list (by simp only [Node.index.sizeOf_spec]; omega) hw.2),
      (ih e (by simp only [Node.index.sizeOf_spec]; omega) hw.1.2).eq (level_select (level_base hw.1.1.1) (by omega))]
  | arrayAgg c d ignore respect o l =>
    rw [fold] at hw
    simp only [wf, Bool.and_eq_true, decide_eq_true_eq] at hw
    obtain ⟨⟨⟨⟨⟨⟨h1, h2⟩, h3⟩, h4⟩, h5⟩, h6⟩, h7⟩ := hw
    rw [Same, fold, render, render, (ih c (by simp only [Node.arrayAgg.sizeOf_spec]; omega) h2).eq (level_select h1 (by omega)),
      (ih o (by simp only [Node.arrayAgg.sizeOf_spec]; omega) h6).eq (orNone_select h5 fun _ _ _ _ _ _ _ _ _ _ _ _ => rfl)]
  | filtered c w =>
    rw [fold] at hw
    simp only [wf, Bool.and_eq_true, decide_eq_true_eq] at hw
    obtain ⟨⟨⟨h1, h2⟩, h3⟩, h4⟩ := hw
    rw [Same, fold, render, render, (ih c (by simp only [Node.filtered.sizeOf_spec]; omega) h3).eq (level_select (level_call h1) (by omega)),
      (ih w (by simp only [Node.filtered.sizeOf_spec]; omega) h4).eq (level_select h2 (by omega))]
  | frame r f =>
    rw [fold] at hw
    simp only [wf, Bool.and_eq_true, decide_eq_true_eq] at hw
    rw [Same, fold, render, render, upper_fold ((by decide : ∀ r ∈ [str!"rows", str!"range"], r.all isAscii = true) _ hw.1),
      upper_fold (frame_ascii hw.2)]
  | analytics f part o fr =>
    rw [fold] at hw
    simp only [wf, Bool.and_eq_true, decide_eq_true_eq] at hw
    obtain ⟨⟨⟨⟨⟨⟨⟨⟨⟨h1, h2⟩, h3⟩, h4⟩, h5⟩, h6⟩, h7⟩, h8⟩, h9⟩, h10⟩ := hw
    rw [Same, fold, render, render, (ih f (by simp only [Node.analytics.sizeOf_spec]; omega) h2).eq (level_select (level_function h1) (by omega)),
      ih.all (by simp only [Node.analytics.sizeOf_spec]; omega) h4 fun a ha => level_select (levels_le.1 h3 a ha) (by omega),
      (ih o (by simp only [Node.analytics.sizeOf_spec]; omega) h7).eq (orNone_select h6 fun _ _ _ _ _ _ _ _ _ _ _ _ => rfl),
      (ih fr (by simp only [Node.analytics.sizeOf_spec]; omega) h10).eq (orNone_select h9 fun _ _ _ _ _ _ _ _ _ _ _ _ => rfl)]
  | datePart part e =>
    rw [fold] at hw
    simp only [wf, Bool.and_eq_true, decide_eq_true_eq] at hw
    rw [Same, fold, render, render, (ih e (by simp only [Node.datePart.sizeOf_spec]; omega) hw.2).eq (level_select hw.1.2 (by omega)),
      upper_fold ((by decide : ∀ r ∈ dateParts, r.all isAscii = true) _ hw.1.1)]
  | except_ e args =>
    rw [fold] at hw
    simp only [wf, Bool.and_eq_true, decide_eq_true_eq, Bool.not_eq_true'] at hw
    obtain ⟨⟨⟨⟨h1, h2⟩, h3⟩, h4⟩, h5⟩ := hw
    rw [Same, fold, render, render, (ih e (by simp only [Node.except_.sizeOf_spec]; omega) h4).eq
        (select_of h1 fun _ _ _ _ _ _ _ _ _ _ _ _ => rfl),
      ih.all (by simp only [Node.except_.sizeOf_spec]; omega) h5 fun a ha => level_select (levels_le.1 h3 a ha) (by omega)]
  | replace e args =>
    rw [fold] at hw
    simp only [wf, Bool.and_eq_true, decide_eq_true_eq, Bool.not_eq_true', Bool.or_eq_true] at hw
    obtain ⟨⟨⟨⟨⟨h1, h2⟩, h3⟩, -⟩, h4⟩, h5⟩ := hw
    have he : (fold e).isSelect = false := by
      rcases h1 with h | h
      · exact select_of h fun _ _ _ _ _ _ _ _ _ _ _ _ => rfl
      · exact select_of h fun _ _ _ _ _ _ _ _ _ _ _ _ => rfl
    rw [Same, fold, render, render, (ih e (by simp only [Node.replace.sizeOf_spec]; omega) h4).eq he,
      ih.all (by simp only [Node.replace.sizeOf_spec]; omega) h5 fun a ha => level_select (levels_le.1 h3 a ha) (by omega)]
  | bitwise l op r =>
    rw [fold] at hw
    simp only [wf, Bool.and_eq_true, decide_eq_true_eq] at hw
    obtain ⟨⟨⟨⟨h1, h2⟩, h3⟩, h4⟩, h5⟩ := hw
    rw [Same, fold, render, render, (ih l (by simp only [Node.bitwise.sizeOf_spec]; omega) h4).eq (level_select h2 (by omega)),
      (ih r (by simp only [Node.bitwise.sizeOf_spec]; omega) h5).eq (level_select h3 (by omega))]
  | arith op l r =>
    rw [fold] at hw
    simp only [wf, Bool.and_eq_true, decide_eq_true_eq] at hw
    rw [Same, fold, render, render, (ih l (by simp only [Node.arith.sizeOf_spec]; omega) hw.1.2).eq
      (level_select (Nat.le_of_eq hw.1.1.1.2) (by omega)),
      (ih r (by simp only [Node.arith.sizeOf_spec]; omega) hw.2).eq (level_select hw.1.1.2 (by omega))]
  | neg e =>
    rw [fold] at hw
    simp only [wf, Bool.and_eq_true, decide_eq_true_eq] at hw
    rw [Same, fold, render, render, (ih e (by simp only [Node.neg.sizeOf_spec]; omega) hw.2).eq (level_select hw.1 (by omega))]
  | cond l q r =>
    rw [fold] at hw
    simp only [wf, Bool.and_eq_true, decide_eq_true_eq] at hw
    obtain ⟨⟨⟨h1, h2⟩, h3⟩, h4⟩ := hw
    have hq : (q.map Char.toLower).all isAscii = true ∧ (fold r).isSelect = false := by
      split at h4
      · rename_i h
        exact ⟨by rw [h]; decide, select_of h4 fun _ _ _ _ _ _ _ _ _ _ _ _ => rfl⟩
      · simp only [Bool.and_eq_true, decide_eq_true_eq] at h4
        exact ⟨(by decide : ∀ q ∈ corePreds, q.all isAscii = true) _ h4.1.1, level_select h4.1.2 (by omega)⟩
    rw [Same, fold, render, render, (ih l (by simp only [Node.cond.sizeOf_spec]; omega) h2).eq (level_select h1 (by omega)),
      (ih r (by simp only [Node.cond.sizeOf_spec]; omega) h3).eq hq.2, upper_fold hq.1]
  | boolc op l r =>
    rw [fold] at hw
    simp only [wf, Bool.and_eq_true, decide_eq_true_eq] at hw
    obtain ⟨⟨⟨⟨h1, h2⟩, h3⟩, h4⟩, h5⟩ := hw
    rw [Same, fold, render, render, (ih l (by simp only [Node.boolc.sizeOf_spec]; omega) h4).eq (level_select h2 (by omega)),
      (ih r (by simp only [Node.boolc.sizeOf_spec]; omega) h5).eq (level_select h3 (by omega)),
      upper_fold ((by decide : ∀ q ∈ boolPredicates, q.all isAscii = true) _ h1)]
  | whenThen w t =>
    rw [fold] at hw
    simp only [wf, Bool.and_eq_true, decide_eq_true_eq] at hw
    rw [Same, fold, render, render, (ih w (by simp only [Node.whenThen.sizeOf_spec]; omega) hw.1.2).eq (level_select hw.1.1.1 (by omega)),
      (ih t (by simp only [Node.whenThen.sizeOf_spec]; omega) hw.2).eq (level_select hw.1.1.2 (by omega))]
  | case o ws e =>
    rw [fold] at hw
    simp only [wf, Bool.and_eq_true, Bool.or_eq_true, decide_eq_true_eq, Bool.not_eq_true'] at hw
    obtain ⟨⟨⟨⟨⟨⟨⟨h1, _⟩, _⟩, h3⟩, h4⟩, h5⟩, h6⟩, h7⟩ := hw
    have key : ∀ m : Node, (m.truthy = false ∨ level m ≤ 3) → m.isSelect = false := by
      intro m h
      rcases h with h | h
      · cases m <;> first | rfl | cases h
      · exact level_select h (by omega)
    rw [Same, fold, render, render, (ih o (by simp only [Node.case.sizeOf_spec]; omega) h5).eq (key _ h1),
      (ih e (by simp only [Node.case.sizeOf_spec]; omega) h7).eq (key _ h4),
      ih.all (by simp only [Node.case.sizeOf_spec]; omega) h6 fun a ha => select_of (List.all_eq_true.1 h3 a ha)
        fun _ _ _ _ _ _ _ _ _ _ _ _ => rfl]
  | «alias» e al w =>
    rw [fold] at hw
    simp only [wf, Bool.and_eq_true, Bool.or_eq_true, decide_eq_true_eq] at hw
    have he : (fold e).isSelect = false := by
      rcases hw.1.1 with h | h
      · exact level_select h.1 (by omega)
      · rcases h.1 with h | h
        · exact select_of h fun _ _ _ _ _ _ _ _ _ _ _ _ => rfl
        · exact select_of h fun _ _ _ _ _ _ _ _ _ _ _ _ => rfl
    have hal : (fold al).isSelect = false := by
      rcases hw.1.1 with h | h
      · cases w
        · exact select_of (p := isRaw) h.2 fun _ _ _ _ _ _ _ _ _ _ _ _ => rfl
        · exact select_of (p := (isAlias · true)) h.2 fun _ _ _ _ _ _ _ _ _ _ _ _ => rfl
      · exact select_of h.2 fun _ _ _ _ _ _ _ _ _ _ _ _ => rfl
    rw [Same, fold, render, render, (ih e (by simp only [Node.alias.sizeOf_spec]; omega) hw.1.2).eq he,
      (ih al (by simp only [Node.alias.sizeOf_spec]; omega) hw.2).eq hal]
  | table v sq =>
    rw [fold] at hw
    obtain ⟨h1, h2, h3⟩ := table_level hw
    rw [Same, fold, render, render, (ih v (by simp only [Node.table.sizeOf_spec]; omega) h2).eq (level_select h3 (by omega))]
  | on e =>
    rw [fold] at hw
    simp only [wf, Bool.and_eq_true, decide_eq_true_eq] at hw
    rw [Same, fold, render, render, (ih e (by simp only [Node.on.sizeOf_spec]; omega) hw.2).eq (level_select hw.1 (by omega))]
  | using_ e =>
    rw [fold] at hw
    simp only [wf, Bool.and_eq_true, decide_eq_true_eq] at hw
    rw [Same, fold, render, render, (ih e (by simp only [Node.using_.sizeOf_spec]; omega) hw.2).eq
      (level_select (Nat.le_of_eq hw.1) (by omega))]
  | where_ e =>
    rw [fold] at hw
    simp only [wf, Bool.and_eq_true, decide_eq_true_eq] at hw
    rw [Same, fold, render, render, (ih e (by simp only [Node.where_.sizeOf_spec]; omega) hw.2).eq (level_select hw.1 (by omega))]
  | having e =>
    rw [fold] at hw
    simp only [wf, Bool.and_eq_true, decide_eq_true_eq] at hw
    rw [Same, fold, render, render, (ih e (by simp only [Node.having.sizeOf_spec]; omega) hw.2).eq (level_select hw.1 (by omega))]
  | join type l r on us =>
    rw [fold] at hw
    simp only [wf, Bool.and_eq_true, Bool.or_eq_true, Bool.not_eq_true', decide_eq_true_eq] at hw
    obtain ⟨⟨⟨⟨⟨h1, h2⟩, h3⟩, h4⟩, h5⟩, h6⟩ := hw
    have key : ∀ {p : Node → Bool} {m : Node}, p m = true →
        (∀ es all d on f w g h o l off semi, p (.select es all d on f w g h o l off semi) = false) → m.isSelect = false :=
      fun h hp => select_of h hp
    have none : ∀ m : Node, m.truthy = false → m.isSelect = false := by
      intro m h
      cases m <;> first | rfl | cases h
    have hr : (fold r).isSelect = false ∧ (fold on).isSelect = false ∧ (fold us).isSelect = false := by
      rcases h6 with ⟨⟨_, h⟩, (h' | h') | h'⟩ | ⟨⟨⟨_, h⟩, h'⟩, h''⟩
      · exact ⟨key h fun _ _ _ _ _ _ _ _ _ _ _ _ => rfl, key h'.1 fun _ _ _ _ _ _ _ _ _ _ _ _ => rfl, none _ h'.2⟩
      · exact ⟨key h fun _ _ _ _ _ _ _ _ _ _ _ _ => rfl, none _ h'.1, key h'.2 fun _ _ _ _ _ _ _ _ _ _ _ _ => rfl⟩
      · exact ⟨key h fun _ _ _ _ _ _ _ _ _ _ _ _ => rfl, none _ h'.1, none _ h'.2⟩
      · exact ⟨key h fun _ _ _ _ _ _ _ _ _ _ _ _ => rfl, none _ h', none _ h''⟩
    rw [Same, fold, render, render, (ih l (by simp only [Node.join.sizeOf_spec]; omega) h2).eq
        (key h1 fun _ _ _ _ _ _ _ _ _ _ _ _ => rfl),
      (ih r (by simp only [Node.join.sizeOf_spec]; omega) h3).eq hr.1,
      (ih on (by simp only [Node.join.sizeOf_spec]; omega) h4).eq hr.2.1,
      (ih us (by simp only [Node.join.sizeOf_spec]; omega) h5).eq hr.2.2]
  | groupBy args rollup each =>
    rw [fold] at hw
    simp only [wf, Bool.and_eq_true, decide_eq_true_eq] at hw
    rw [Same, fold, render, render, ih.all (by simp only [Node.groupBy.sizeOf_spec]; omega) hw.2 fun a ha =>
      level_select (levels_le.1 hw.1.2 a ha) (by omega)]
  | orderItem v asc desc =>
    rw [fold] at hw
    simp only [wf, Bool.and_eq_true, decide_eq_true_eq] at hw
    rw [Same, fold, render, render, (ih v (by simp only [Node.orderItem.sizeOf_spec]; omega) hw.2).eq (level_select hw.1.1 (by omega))]
  | orderBy args =>
    rw [fold] at hw
    simp only [wf, Bool.and_eq_true] at hw
    rw [Same, fold, render, render, ih.all (by simp only [Node.orderBy.sizeOf_spec]; omega) hw.2 fun a ha =>
      select_of (List.all_eq_true.1 hw.1.2 a ha) fun _ _ _ _ _ _ _ _ _ _ _ _ => rfl]
  | limit all v =>
    rw [fold] at hw
    simp only [wf, Bool.and_eq_true] at hw
    rw [Same, fold, render, render]
    cases all with
    | true => rfl
    | false =>
      simp only [Bool.false_eq_true, if_false, decide_eq_true_eq] at hw
      rw [(ih v (by simp only [Node.limit.sizeOf_spec]; omega) hw.2).eq (level_select hw.1 (by omega))]
  | offset v =>
    rw [fold] at hw
    simp only [wf, Bool.and_eq_true, decide_eq_true_eq] at hw
    rw [Same, fold, render, render, (ih v (by simp only [Node.offset.sizeOf_spec]; omega) hw.2).eq (level_select hw.1 (by omega))]
  | select es all d on f w g h o l off semi =>
    rw [fold] at hw
    simp only [wf, Bool.and_eq_true, Bool.or_eq_true, Bool.not_eq_true', decide_eq_true_eq] at hw
    obtain ⟨⟨⟨⟨⟨⟨⟨⟨⟨⟨⟨⟨⟨⟨⟨⟨⟨⟨⟨⟨h1, h2⟩, h3⟩, h4⟩, h5⟩, h6⟩, h7⟩, f1⟩, f2⟩, w1⟩, w2⟩, g1⟩, g2⟩, i1⟩, i2⟩, o1⟩, o2⟩, l1⟩, l2⟩, p1⟩, p2⟩ := hw
    have key : ∀ {p : Node → Bool} {m : Node}, sizeOf m < sizeOf (Node.select es all d on f w g h o l off semi) →
        orNone p (fold m) = true → wf (fold m) = true →
        (∀ es all d on f w g h o l off semi, p (.select es all d on f w g h o l off semi) = false) → render m = render (fold m) :=
      fun hs hm hw hp => (ih _ hs hw).eq (orNone_select hm hp)
    rw [Same, fold, render, render, ih.all (by simp only [Node.select.sizeOf_spec]; omega) h3 fun a ha =>
        level_select (levels_le.1 h2 a ha) (by omega),
      ih.all (by simp only [Node.select.sizeOf_spec]; omega) h7 fun a ha => level_select (levels_le.1 h6 a ha) (by omega),
      key (by simp only [Node.select.sizeOf_spec]; omega) f1 f2 fun _ _ _ _ _ _ _ _ _ _ _ _ => rfl,
      key (by simp only [Node.select.sizeOf_spec]; omega) w1 w2 fun _ _ _ _ _ _ _ _ _ _ _ _ => rfl,
      key (by simp only [Node.select.sizeOf_spec]; omega) g1 g2 fun _ _ _ _ _ _ _ _ _ _ _ _ => rfl,
      key (by simp only [Node.select.sizeOf_spec]; omega) i1 i2 fun _ _ _ _ _ _ _ _ _ _ _ _ => rfl,
      key (by simp only [Node.select.sizeOf_spec]; omega) o1 o2 fun _ _ _ _ _ _ _ _ _ _ _ _ => rfl,
      key (by simp only [Node.select.sizeOf_spec]; omega) l1 l2 fun _ _ _ _ _ _ _ _ _ _ _ _ => rfl,
      key (by simp only [Node.select.sizeOf_spec]; omega) p1 p2 fun _ _ _ _ _ _ _ _ _ _ _ _ => rfl]
    rfl
  | withQuery name q =>
    rw [fold] at hw
    simp only [wf, Bool.and_eq_true] at hw
    rw [Same, fold, render, render, blur_sub (ih q (by simp only [Node.withQuery.sizeOf_spec]; omega) hw.2)]
  | withStmt qs s =>
    rw [fold] at hw
    simp only [wf, Bool.and_eq_true] at hw
    rw [Same, fold, render, render, mapR_blur (ih.list (by simp only [Node.withStmt.sizeOf_spec]; omega) hw.1.1.2),
      blur_t (ih s (by simp only [Node.withStmt.sizeOf_spec]; omega) hw.2)]
  | unnest v o oa al =>
    rw [fold] at hw
    simp only [wf, Bool.and_eq_true] at hw
    rw [Same, fold, render, render, blur_t (ih v (by simp only [Node.unnest.sizeOf_spec]; omega) hw.1.2)]
  | combined op l r =>
    rw [fold] at hw
    simp only [wf, Bool.and_eq_true] at hw
    rw [Same, fold, render, render, blur_t (ih l (by simp only [Node.combined.sizeOf_spec]; omega) hw.1.2),
      blur_t (ih r (by simp only [Node.combined.sizeOf_spec]; omega) hw.2), show (render r).isTable = (render (fold r)).isTable by cases r <;> rfl]

theorem same (n : Node) (hw : wf (fold n) = true) : Same n := by
  have : ∀ k n, sizeOf n < k → wf (fold n) = true → Same n := by
    intro k
    induction k with
    | zero => intro n h; omega
    | succ k ih => exact fun n h hw => same_step n (fun m hm hwm => ih m (by omega) hwm) hw
  exact this _ n (Nat.lt_succ_self _) hw

/-- The letter case of words does not matter for the printed text. -/
theorem transform_fold {n : Node} (hw : wf (fold n) = true) : transform n = transform (fold n) :=
  blur_t (same n hw)

end

end SqlV.Core
