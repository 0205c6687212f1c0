import Verif.Lemmas.Exports

/-! Types of expressions and errors of sub-expressions. -/

set_option linter.unusedSectionVars false

namespace SqlV

variable [E : PyEnv]

/-- `resolve_return_type` computes the type among known fields. -/
theorem resolveType_typeIn (hE : ∀ S f, f ∈ E.setOrder S ↔ f ∈ S) {k : List Field} {v : Node} {t : PType}
    (h : TypeIn k v t) : resolveType v k = .ok (some t) := by
  obtain ⟨t', ht'⟩ : ∃ t', StaticType v t' := by
    cases h with
    | field f t' h => exact ⟨t', h⟩
    | own _ h => exact ⟨t, h⟩
  have hdef : resolveType v k = if k.isEmpty then returnType v else (transform v >>= fun name =>
      match (E.setOrder k).filter (fun f => decide (f.name = name)) with
      | f :: _ => .ok f.type
      | [] => returnType v) := by
    cases ht' <;> rfl
  rw [hdef]
  cases h with
  | field f _ _ hf hn ht hu =>
    have hk : k.isEmpty = false := by cases k <;> simp_all
    rw [hk, hn]
    simp only [Bool.false_eq_true, if_false, bind, Except.bind]
    have hm : f ∈ (E.setOrder k).filter (fun g => decide (g.name = f.name)) := by
      simp [List.mem_filter, hE, hf]
    generalize hl : (E.setOrder k).filter (fun g => decide (g.name = f.name)) = l at hm
    cases l with
    | nil => simp at hm
    | cons g l =>
      have hg : g ∈ (E.setOrder k).filter (fun g => decide (g.name = f.name)) := by rw [hl]; simp
      simp only [List.mem_filter, hE, decide_eq_true_eq] at hg
      simp only
      rw [hu g hg.1 hg.2, ht]
  | own hx hs =>
    rw [returnType_static hs]
    rcases hx with rfl | ⟨x, hx, hn⟩
    · rfl
    · rw [hx]
      have : (E.setOrder k).filter (fun g => decide (g.name = x)) = [] := by
        simp only [List.filter_eq_nil_iff, hE, decide_eq_true_eq]
        exact hn
      split
      · rfl
      · simp only [bind, Except.bind, this]

/-- What the check for a boolean adds. -/
def booleanReport (msg : Str) (t : PType) : List Str :=
  if t = .bool ∨ t = .object then [] else [msg ++ t.pyName]

theorem mustBeBoolean_typeIn (hE : ∀ S f, f ∈ E.setOrder S ↔ f ∈ S) {k : List Field} {v : Node} {t : PType}
    (h : TypeIn k v t) (msg : Str) :
    mustBeBoolean msg v k = .ok (booleanReport msg t) := by
  unfold mustBeBoolean
  rw [resolveType_typeIn hE h]
  cases t <;> rfl

/-! ### Errors of sub-expressions -/

theorem reaches_includes {n m : Node} (h : Reaches n m) {k : List Field} {errs : List Str}
    (hn : (vtable n).v k = .ok errs) : ∃ errs', (vtable m).v k = .ok errs' ∧ errs' ⊆ errs := by
  have step : ∀ (as : List Node) (a : Node) (errs : List Str), a ∈ as →
      V.concat k (vtableList as) = .ok errs → ∃ errs', (vtable a).v k = .ok errs' ∧ errs' ⊆ errs :=
    fun as a errs ha hc => concat_includes hc _ (mem_vtableList.2 ⟨a, ha, rfl⟩)
  have trans : ∀ {errs errs₁ : List Str}, errs₁ ⊆ errs →
      (∃ errs', (vtable m).v k = .ok errs' ∧ errs' ⊆ errs₁) →
      ∃ errs', (vtable m).v k = .ok errs' ∧ errs' ⊆ errs :=
    fun h ⟨e, h1, h2⟩ => ⟨e, h1, fun x hx => h (h2 hx)⟩
  induction h generalizing errs with
  | self n => exact ⟨errs, hn, fun _ h => h⟩
  | func f as a m ha _ ih =>
    simp only [vtable, V.of] at hn
    obtain ⟨e, h1, h2⟩ := step as a errs ha hn
    exact trans h2 (ih h1 trans)
  | count as d a m ha _ ih =>
    simp only [vtable, V.of] at hn
    obtain ⟨e, h1, h2⟩ := step as a errs ha hn
    exact trans h2 (ih h1 trans)
  | paren as a m ha _ ih =>
    simp only [vtable, V.of] at hn
    obtain ⟨e, h1, h2⟩ := step as a errs ha hn
    exact trans h2 (ih h1 trans)
  | arrayAgg c d i r o l m _ ih =>
    simp only [vtable, V.of] at hn
    exact ih hn trans
  | alias e a w m _ ih =>
    simp only [vtable, V.of] at hn
    exact ih hn trans
  | filteredCall c d m _ ih =>
    simp only [vtable, V.of, bind_ok_iff, pure_ok_iff] at hn
    obtain ⟨a, ha, b, hb, rfl⟩ := hn
    exact trans (by simp) (ih ha trans)
  | filteredCond c d m _ ih =>
    simp only [vtable, V.of, bind_ok_iff, pure_ok_iff] at hn
    obtain ⟨a, ha, b, hb, rfl⟩ := hn
    exact trans (by simp) (ih hb trans)
  | analyticsFunc f p o w m _ ih =>
    simp only [vtable, V.of, bind_ok_iff, pure_ok_iff] at hn
    obtain ⟨a, ha, b, hb, c, hc, rfl⟩ := hn
    exact trans (by simp) (ih ha trans)
  | analyticsPart f p o w a m hp _ ih =>
    simp only [vtable, V.of, bind_ok_iff, pure_ok_iff] at hn
    obtain ⟨x, hx, b, hb, c, hc, rfl⟩ := hn
    obtain ⟨e, h1, h2⟩ := step p a b hp hb
    exact trans (fun y hy => by simp [h2 hy]) (ih h1 trans)
  | condLeft l p r m _ ih =>
    simp only [vtable_cond, V.of, bind_ok_iff, pure_ok_iff] at hn
    obtain ⟨a, ha, b, hb, rfl⟩ := hn
    exact trans (by simp) (ih ha trans)
  | condRight l p r m hp _ ih =>
    simp only [vtable_cond, V.of, bind_ok_iff, pure_ok_iff, condRightV, if_neg hp] at hn
    obtain ⟨a, ha, b, hb, rfl⟩ := hn
    exact trans (by simp) (ih hb trans)
  | lowerBound l p t b c m hp _ ih =>
    simp only [V.of, bind_ok_iff, pure_ok_iff, if_pos hp, vtable, validateBool_eq] at hn
    obtain ⟨a, ha, b, ⟨x, hx, y, hy, z, hz, u, hu, rfl⟩, rfl⟩ := hn
    exact trans (fun e he => by simp [he]) (ih hx trans)
  | upperBound l p t b c m hp _ ih =>
    simp only [V.of, bind_ok_iff, pure_ok_iff, if_pos hp, vtable, validateBool_eq] at hn
    obtain ⟨a, ha, b, ⟨x, hx, y, hy, z, hz, u, hu, rfl⟩, rfl⟩ := hn
    exact trans (fun e he => by simp [he]) (ih hz trans)
  | boolLeft t l r m _ ih =>
    simp only [vtable, validateBool_eq, bind_ok_iff, pure_ok_iff] at hn
    obtain ⟨x, hx, y, hy, z, hz, u, hu, rfl⟩ := hn
    exact trans (fun e he => by simp [he]) (ih hx trans)
  | boolRight t l r m _ ih =>
    simp only [vtable, validateBool_eq, bind_ok_iff, pure_ok_iff] at hn
    obtain ⟨x, hx, y, hy, z, hz, u, hu, rfl⟩ := hn
    exact trans (fun e he => by simp [he]) (ih hz trans)

theorem innerFields_known {n : Node} {ff : Option (List Field)}
    (h : optFields (knownFields (fromOf n)) = .ok ff) : innerFields [] ff = known n := by
  unfold known fromFields
  generalize knownFields (fromOf n) = r at h
  match r, h with
  | .ok _, rfl => rfl
  | .error .attribute, rfl => rfl

/-- The errors of an expression are among those of the query it stands in. -/
theorem contains_includes {n m : Node} (h : Contains n m) {errs : List Str}
    (hn : validate n = .ok errs) : ∃ errs', (vtable m).v (known n) = .ok errs' ∧ errs' ⊆ errs := by
  cases h with
  | expr es all d on f w g h o l off semi e m he hr =>
    simp only [validate, validateWith, vtable_select, V.of, bind_ok_iff] at hn
    obtain ⟨ff, hff, hn⟩ := hn
    have hk := innerFields_known (n := .select es all d on f w g h o l off semi) hff
    rw [hk] at hn
    simp only [clausesV, bind_ok_iff, pure_ok_iff] at hn
    obtain ⟨a, ha, b, hb, c, _, d, _, e, _, f', _, g', _, h', _, rfl⟩ := hn
    obtain ⟨e1, h1, h2⟩ := concat_includes ha _ (mem_vtableList.2 ⟨_, he, rfl⟩)
    obtain ⟨e2, h3, h4⟩ := reaches_includes hr h1
    exact ⟨e2, h3, fun x hx => by simp [h2 (h4 hx)]⟩
  | where_ es all d on f v g h o l off semi m hr =>
    simp only [validate, validateWith, vtable_select, V.of, bind_ok_iff] at hn
    obtain ⟨ff, hff, hn⟩ := hn
    have hk := innerFields_known (n := .select es all d on f (.where_ v) g h o l off semi) hff
    rw [hk] at hn
    simp only [clausesV, bind_ok_iff, pure_ok_iff, optV, Node.truthy, if_true, vtable, V.of] at hn
    obtain ⟨a, ha, b, hb, c, ⟨c1, hc1, c2, hc2, rfl⟩, d, _, e, _, f', _, g', _, h', _, rfl⟩ := hn
    obtain ⟨e2, h3, h4⟩ := reaches_includes hr hc1
    exact ⟨e2, h3, fun x hx => by simp [h4 hx]⟩
  | having es all d on f w g v o l off semi m hr =>
    simp only [validate, validateWith, vtable_select, V.of, bind_ok_iff] at hn
    obtain ⟨ff, hff, hn⟩ := hn
    have hk := innerFields_known (n := .select es all d on f w g (.having v) o l off semi) hff
    rw [hk] at hn
    simp only [clausesV, bind_ok_iff, pure_ok_iff, optV, Node.truthy, if_true, vtable, V.of] at hn
    obtain ⟨a, ha, b, hb, c, _, d, _, e, ⟨c1, hc1, c2, hc2, rfl⟩, f', _, g', _, h', _, rfl⟩ := hn
    obtain ⟨e2, h3, h4⟩ := reaches_includes hr hc1
    exact ⟨e2, h3, fun x hx => by simp [h4 hx]⟩

end SqlV
