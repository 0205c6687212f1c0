import Verif.Lemmas.Validate

/-! Where errors about columns can come from. -/

set_option linter.unusedSectionVars false

namespace SqlV

variable [E : PyEnv]

/-- No error about a column. -/
def NoColumnError (errs : List Str) : Prop := ∀ e ∈ errs, isColumnError e = false

theorem noCol_nil : NoColumnError [] := by simp [NoColumnError]

theorem noCol_app {a b : List Str} (ha : NoColumnError a) (hb : NoColumnError b) :
    NoColumnError (a ++ b) := by
  intro e he
  rcases List.mem_append.1 he with h | h
  · exact ha e h
  · exact hb e h

theorem noCol_one {e : Str} (h : isColumnError e = false) : NoColumnError [e] := by
  simpa [NoColumnError] using h

theorem post_concat {k : List Field} {vs : List V} (h : ∀ x ∈ vs, Post (x.v k) NoColumnError) :
    Post (V.concat k vs) NoColumnError := by
  induction vs with
  | nil => exact Post.ok noCol_nil
  | cons x xs ih =>
    refine Post.bind (h x (by simp)) fun a ha => ?_
    refine Post.bind (ih fun x hx => h x (by simp [hx])) fun b hb => ?_
    exact Post.pure (noCol_app ha hb)

theorem post_mustBe (msg : Str) (hm : ∀ x, isColumnError (msg ++ x) = false) (n : Node) (k : List Field) :
    Post (mustBeBoolean msg n k) NoColumnError := by
  unfold mustBeBoolean
  refine Post.bind' fun ty _ => ?_
  split
  · exact Post.bind' fun name _ => Post.pure (noCol_one (hm name))
  · exact Post.pure noCol_nil

theorem post_count (v : Node) (a b : Str) (ha : isColumnError a = false) (hb : isColumnError b = false) :
    Post (validateCount v a b) NoColumnError := by
  unfold validateCount
  refine Post.bind' fun v' _ => Post.bind' fun ty _ => ?_
  split
  · split
    · exact Post.pure (noCol_one ha)
    · split
      · exact Post.pure (noCol_one hb)
      · exact Post.pure noCol_nil
  · exact Post.pure (noCol_one ha)

theorem post_group (k : List Field) (hk : hasField k str!"*" = true) (es as : List Node) :
    Post (validateGroupBy k es as) NoColumnError := by
  unfold validateGroupBy
  refine concatV_post noCol_nil (fun _ _ => noCol_app) fun a _ => ?_
  unfold validateGroupArg
  simp only [hk, Bool.not_true, Bool.and_false, Bool.false_eq_true, if_false]
  refine Post.bind' fun v _ => ?_
  split
  · split
    · exact Post.pure (noCol_one rfl)
    · exact Post.pure noCol_nil
  · exact Post.pure noCol_nil
  · exact Post.pure noCol_nil
  · exact Post.pure noCol_nil

/-- All methods of an object. -/
structure NoColV (k : List Field) (x : V) : Prop where
  v : Post (x.v k) NoColumnError
  between : Post (x.between k) NoColumnError
  vIn : ∀ s, Post (x.vIn k s) NoColumnError

theorem NoColV.ofV {k : List Field} {f : List Field → VRes} (h : Post (f k) NoColumnError) :
    NoColV k (V.of f) := ⟨h, Post.error, fun _ => Post.error⟩

/-- The claim of the induction for a node. -/
def NoColAt (n : Node) : Prop :=
  ∀ k, hasField k str!"*" = true → tablesOnly n = true → NoColV k (vtable n)

theorem noCol_bool (type : Str) (l r : Node) {k : List Field} {vl vr : V} (hl : NoColV k vl)
    (hr : NoColV k vr) (b : Bool) : Post (validateBool type l r vl vr b k) NoColumnError := by
  rw [validateBool_eq]
  have hm : ∀ n, Post (operandV type b n k) NoColumnError := by
    intro n
    unfold operandV
    split
    · exact Post.ok noCol_nil
    · exact post_mustBe _ (fun _ => rfl) _ _
  refine Post.bind hl.v fun a ha => Post.bind (hm l) fun b hb => ?_
  refine Post.bind hr.v fun c hc => Post.bind (hm r) fun d hd => ?_
  exact Post.pure (noCol_app (noCol_app (noCol_app ha hb) hc) hd)

theorem noCol_vtable (n : Node) : NoColAt n ∧ (∀ e a w, n = .alias e a w → NoColAt a) := by
  induction n using Node.rec (motive_2 := fun ns => ∀ k, hasField k str!"*" = true →
      tablesOnlyList ns = true → Post (V.concat k (vtableList ns)) NoColumnError ∧
      (∀ s, Post (V.concatIn k s (vtableList ns)) NoColumnError) ∧
      Post (V.concat k (vtableAliases ns)) NoColumnError) with
  | select es all d on f w g h ob l off semi hes hon hf hw hg hh hob hl hoff =>
    refine ⟨fun k hk ht => ?_, by simp⟩
    simp only [tablesOnly, Bool.and_eq_true] at ht
    rw [vtable_select]
    refine NoColV.ofV ?_
    refine Post.bind' fun ff _ => ?_
    have hi := hasField_inner hk ff
    refine clausesV_post noCol_nil (fun _ _ => noCol_app) (hes _ hi (by simp [ht])).1 ?_
      (hw.1 _ hi (by simp [ht])).v (fun as _ _ _ => post_group _ hi _ _) (hh.1 _ hi (by simp [ht])).v
      ((hob.1 _ hi (by simp [ht])).vIn _) (hl.1 _ hi (by simp [ht])).v (hoff.1 _ hi (by simp [ht])).v
    intro hft
    have : f.isTable = true := by
      have := ht.1.1.1.1.1.1.1.1
      simpa [hft] using this
    cases f <;> simp [Node.isTable] at this
    rw [vtable] <;> first | exact Post.ok noCol_nil | (intros; contradiction)
  | where_ v hv =>
    refine ⟨fun k hk ht => ?_, by simp⟩
    simp only [tablesOnly] at ht
    simp only [vtable]
    refine NoColV.ofV (Post.bind (hv.1 k hk ht).v fun a ha => ?_)
    exact Post.bind (post_mustBe _ (fun _ => rfl) _ _) fun b hb => Post.pure (noCol_app ha hb)
  | having v hv =>
    refine ⟨fun k hk ht => ?_, by simp⟩
    simp only [tablesOnly] at ht
    simp only [vtable]
    refine NoColV.ofV (Post.bind (hv.1 k hk ht).v fun a ha => ?_)
    exact Post.bind (post_mustBe _ (fun _ => rfl) _ _) fun b hb => Post.pure (noCol_app ha hb)
  | orderBy as has =>
    refine ⟨fun k hk ht => ?_, by simp⟩
    simp only [tablesOnly] at ht
    simp only [vtable]
    exact ⟨Post.error, Post.error, (has k hk ht).2.1⟩
  | orderItem v x y hv =>
    refine ⟨fun k hk ht => ?_, by simp⟩
    simp only [tablesOnly] at ht
    simp only [vtable]
    refine ⟨Post.error, Post.error, fun s => ?_⟩
    unfold validateOrderItem
    refine Post.bind' fun v' _ => ?_
    split
    · split
      · exact Post.pure (noCol_one rfl)
      · split
        · exact Post.error
        · split
          · exact Post.pure (noCol_one rfl)
          · exact Post.pure noCol_nil
    · exact (hv.1 k hk ht).v
  | limit a v =>
    refine ⟨fun k hk ht => ?_, by simp⟩
    simp only [vtable]
    exact NoColV.ofV (post_count _ _ _ rfl rfl)
  | offset v =>
    refine ⟨fun k hk ht => ?_, by simp⟩
    simp only [vtable]
    exact NoColV.ofV (post_count _ _ _ rfl rfl)
  | func f as has =>
    refine ⟨fun k hk ht => ?_, by simp⟩
    simp only [tablesOnly] at ht
    simp only [vtable]
    exact NoColV.ofV (has k hk ht).1
  | cast c t hc ht' =>
    refine ⟨fun k hk ht => ?_, by simp⟩
    simp only [vtable]
    exact NoColV.ofV (Post.bind' fun _ _ => Post.error)
  | count as d has =>
    refine ⟨fun k hk ht => ?_, by simp⟩
    simp only [tablesOnly] at ht
    simp only [vtable]
    exact NoColV.ofV (has k hk ht).1
  | arrayAgg c d i r o' l hc =>
    refine ⟨fun k hk ht => ?_, by simp⟩
    simp only [tablesOnly, Bool.and_eq_true] at ht
    simp only [vtable]
    exact NoColV.ofV (hc.1 k hk ht.1).v
  | filtered c d hc hd =>
    refine ⟨fun k hk ht => ?_, by simp⟩
    simp only [tablesOnly, Bool.and_eq_true] at ht
    simp only [vtable]
    refine NoColV.ofV (Post.bind (hc.1 k hk ht.1).v fun a ha => ?_)
    exact Post.bind (hd.1 k hk ht.2).v fun b hb => Post.pure (noCol_app ha hb)
  | analytics f p o' w hf hp ho' hw =>
    refine ⟨fun k hk ht => ?_, by simp⟩
    simp only [tablesOnly, Bool.and_eq_true] at ht
    simp only [vtable]
    refine NoColV.ofV (Post.bind (hf.1 k hk ht.1.1.1).v fun a ha => ?_)
    refine Post.bind (hp k hk ht.1.1.2).1 fun b hb => ?_
    refine Post.bind (optV_post noCol_nil fun _ => (ho'.1 k hk ht.1.2).vIn none) fun c hc => ?_
    exact Post.pure (noCol_app (noCol_app ha hb) hc)
  | column v =>
    refine ⟨fun k hk ht => ?_, by simp⟩
    simp only [vtable]
    refine NoColV.ofV ?_
    simp only [validateColumn, hk, Bool.not_true, Bool.and_false, Bool.false_eq_true, if_false]
    exact Post.ok noCol_nil
  | chained l r =>
    refine ⟨fun k hk ht => ?_, by simp⟩
    simp only [vtable]
    refine NoColV.ofV ?_
    unfold validateChained
    refine Post.bind' fun a _ => Post.bind' fun b _ => ?_
    simp only [hk, Bool.not_true, Bool.and_false, Bool.false_eq_true, if_false]
    exact Post.pure noCol_nil
  | paren as has =>
    refine ⟨fun k hk ht => ?_, by simp⟩
    simp only [tablesOnly] at ht
    simp only [vtable]
    exact NoColV.ofV (has k hk ht).1
  | alias e a w he ha =>
    refine ⟨fun k hk ht => ?_, fun e' a' w' h => ?_⟩
    · simp only [tablesOnly, Bool.and_eq_true] at ht
      simp only [vtable]
      exact NoColV.ofV (he.1 k hk ht.1).v
    · simp only [Node.alias.injEq] at h
      rw [← h.2.1]; exact ha.1
  | join t l r on us =>
    refine ⟨fun k hk ht => ?_, by simp⟩
    simp only [vtable]
    refine NoColV.ofV ?_
    split
    · exact Post.ok (noCol_one rfl)
    · exact Post.ok noCol_nil
  | cond l p r hl hr =>
    refine ⟨fun k hk ht => ?_, by simp⟩
    simp only [tablesOnly, Bool.and_eq_true] at ht
    rw [vtable_cond]
    refine NoColV.ofV (Post.bind (hl.1 k hk ht.1).v fun a ha => ?_)
    refine Post.bind (Q := NoColumnError) ?_ fun b hb => Post.pure (noCol_app ha hb)
    unfold condRightV
    split
    · exact (hr.1 k hk ht.2).between
    · exact (hr.1 k hk ht.2).v
  | boolc t l r hl hr =>
    refine ⟨fun k hk ht => ?_, by simp⟩
    simp only [tablesOnly, Bool.and_eq_true] at ht
    simp only [vtable]
    have b := noCol_bool (E.upper t) l r (hl.1 k hk ht.1) (hr.1 k hk ht.2)
    exact ⟨b false, b true, fun _ => Post.error⟩
  | replace e as he has =>
    refine ⟨fun k hk ht => ?_, by simp⟩
    simp only [tablesOnly, Bool.and_eq_true] at ht
    simp only [vtable]
    exact NoColV.ofV (has k hk ht.2).2.2
  | nil =>
    rename_i k hk ht
    exact ⟨Post.ok noCol_nil, fun _ => Post.ok noCol_nil, Post.ok noCol_nil⟩
  | cons a as ha has =>
    rename_i k hk ht
    simp only [tablesOnlyList, Bool.and_eq_true] at ht
    have h1 := ha.1 k hk ht.1
    have h2 := has k hk ht.2
    refine ⟨?_, fun s => ?_, ?_⟩
    · exact Post.bind h1.v fun x hx => Post.bind h2.1 fun y hy => Post.pure (noCol_app hx hy)
    · exact Post.bind (h1.vIn s) fun x hx => Post.bind (h2.2.1 s) fun y hy =>
        Post.pure (noCol_app hx hy)
    · by_cases h : ∃ e x w, a = .alias e x w
      · obtain ⟨e, x, w, rfl⟩ := h
        simp only [tablesOnly, Bool.and_eq_true] at ht
        have h3 := (ha.2 e x w rfl) k hk ht.1.2
        simp only [vtableAliases, V.concat]
        exact Post.bind h3.v fun x hx => Post.bind h2.2.2 fun y hy => Post.pure (noCol_app hx hy)
      · cases a <;> first
          | exact absurd ⟨_, _, _, rfl⟩ h
          | exact Post.bind' fun _ h => by cases h
  | _ =>
    refine ⟨fun k hk ht => ?_, by simp⟩
    first
      | (simp only [vtable]; exact NoColV.ofV Post.error)
      | (simp only [vtable]; exact ⟨Post.error, Post.error, fun _ => Post.error⟩)
      | (simp only [vtable]; exact NoColV.ofV (Post.ok noCol_nil))

/-! ### Reports about a column -/

theorem concat_includes {k : List Field} {vs : List V} {errs : List Str}
    (h : V.concat k vs = .ok errs) : ∀ x ∈ vs, ∃ a, x.v k = .ok a ∧ a ⊆ errs := by
  induction vs generalizing errs with
  | nil => simp
  | cons y ys ih =>
    simp only [V.concat, bind_ok_iff, pure_ok_iff] at h
    obtain ⟨a, ha, b, hb, rfl⟩ := h
    intro x hx
    rcases List.mem_cons.1 hx with rfl | hx
    · exact ⟨a, ha, by simp⟩
    · obtain ⟨c, hc, hs⟩ := ih hb x hx
      exact ⟨c, hc, fun e he => by simp [hs he]⟩

/-- A report about a column reaches the expression that uses it. -/
theorem uses_reports {e : Node} {x : Str} (h : Uses e x) {k : List Field} {m : Str}
    (hm : validateColumn k x = .ok [m]) :
    Post ((vtable e).v k) (m ∈ ·) ∧ Post ((vtable e).between k) (m ∈ ·) := by
  have arg : ∀ (as : List Node) (a : Node), a ∈ as → Post ((vtable a).v k) (m ∈ ·) →
      Post (V.concat k (vtableList as)) (m ∈ ·) := by
    intro as a ha h errs hc
    obtain ⟨b, hb, hs⟩ := concat_includes hc _ (mem_vtableList.2 ⟨a, ha, rfl⟩)
    exact hs (h b hb)
  induction h with
  | column x =>
    refine ⟨?_, by simp only [vtable]; exact Post.error⟩
    simp only [vtable, V.of, hm]
    exact Post.ok (by simp)
  | func f as a x ha _ ih =>
    simp only [vtable]
    exact ⟨arg as a ha (ih hm).1, Post.error⟩
  | count as d a x ha _ ih =>
    simp only [vtable]
    exact ⟨arg as a ha (ih hm).1, Post.error⟩
  | paren as a x ha _ ih =>
    simp only [vtable]
    exact ⟨arg as a ha (ih hm).1, Post.error⟩
  | arrayAgg c d i r o l x _ ih =>
    simp only [vtable]
    exact ⟨(ih hm).1, Post.error⟩
  | alias e a w x _ ih =>
    simp only [vtable]
    exact ⟨(ih hm).1, Post.error⟩
  | filteredCall c d x _ ih =>
    simp only [vtable]
    refine ⟨?_, Post.error⟩
    refine Post.bind (ih hm).1 fun a ha => Post.bind' fun b _ => Post.pure (by simp [ha])
  | filteredCond c d x _ ih =>
    simp only [vtable]
    refine ⟨?_, Post.error⟩
    refine Post.bind' fun a _ => Post.bind (ih hm).1 fun b hb => Post.pure (by simp [hb])
  | analyticsFunc f p o w x _ ih =>
    simp only [vtable]
    refine ⟨?_, Post.error⟩
    refine Post.bind (ih hm).1 fun a ha => Post.bind' fun b _ => Post.bind' fun c _ => ?_
    exact Post.pure (by simp [ha])
  | analyticsPart f p o w a x hp _ ih =>
    simp only [vtable]
    refine ⟨?_, Post.error⟩
    refine Post.bind' fun a _ => Post.bind (arg p _ hp (ih hm).1) fun b hb => Post.bind' fun c _ => ?_
    exact Post.pure (by simp [hb])
  | condLeft l p r x _ ih =>
    simp only [vtable_cond]
    refine ⟨?_, Post.error⟩
    refine Post.bind (ih hm).1 fun a ha => Post.bind' fun b _ => Post.pure (by simp [ha])
  | condRight l p r x _ ih =>
    simp only [vtable_cond]
    refine ⟨?_, Post.error⟩
    refine Post.bind' fun a _ => Post.bind (Q := (m ∈ ·)) ?_ fun b hb => Post.pure (by simp [hb])
    unfold condRightV
    split
    · exact (ih hm).2
    · exact (ih hm).1
  | boolLeft t l r x _ ih =>
    have : ∀ b, Post (validateBool (E.upper t) l r (vtable l) (vtable r) b k) (m ∈ ·) := by
      intro b
      rw [validateBool_eq]
      refine Post.bind (ih hm).1 fun a ha => Post.bind' fun b _ => Post.bind' fun c _ =>
        Post.bind' fun d _ => Post.pure (by simp [ha])
    simp only [vtable]
    exact ⟨this false, this true⟩
  | boolRight t l r x _ ih =>
    have : ∀ b, Post (validateBool (E.upper t) l r (vtable l) (vtable r) b k) (m ∈ ·) := by
      intro b
      rw [validateBool_eq]
      refine Post.bind' fun a _ => Post.bind' fun b _ => Post.bind (ih hm).1 fun c hc =>
        Post.bind' fun d _ => Post.pure (by simp [hc])
    simp only [vtable]
    exact ⟨this false, this true⟩

/-- … and the query that mentions it; `k` are the fields of the FROM clause. -/
theorem mentions_reports {n : Node} {x : Str} (h : Mentions n x) {m : Str}
    (hm : ∀ ff, optFields (knownFields (fromOf n)) = .ok ff →
      validateColumn (innerFields [] ff) x = .ok [m]) :
    Post (validate n) (m ∈ ·) := by
  cases h with
  | expr es all d on f w g h o l off semi e x he hu =>
    simp only [validate, validateWith, vtable_select]
    refine Post.bind' fun ff hff => ?_
    refine Post.bind (Q := (m ∈ ·)) ?_ fun a ha => ?_
    · intro errs hc
      obtain ⟨b, hb, hs⟩ := concat_includes hc _ (mem_vtableList.2 ⟨e, he, rfl⟩)
      exact hs ((uses_reports hu (hm ff hff)).1 b hb)
    · refine Post.bind' fun b _ => Post.bind' fun c _ => Post.bind' fun d _ => Post.bind' fun e _ =>
        Post.bind' fun f _ => Post.bind' fun g _ => Post.bind' fun h _ => Post.pure (by simp [ha])
  | where_ es all d on f v g h o l off semi x hu =>
    simp only [validate, validateWith, vtable_select]
    refine Post.bind' fun ff hff => Post.bind' fun a _ => Post.bind' fun b _ => ?_
    refine Post.bind (Q := (m ∈ ·)) ?_ fun c hc => ?_
    · simp only [optV, Node.truthy, if_true, vtable]
      exact Post.bind (uses_reports hu (hm ff hff)).1 fun a ha => Post.bind' fun b _ =>
        Post.pure (by simp [ha])
    · refine Post.bind' fun d _ => Post.bind' fun e _ =>
        Post.bind' fun f _ => Post.bind' fun g _ => Post.bind' fun h _ => Post.pure (by simp [hc])
  | having es all d on f w g v o l off semi x hu =>
    simp only [validate, validateWith, vtable_select]
    refine Post.bind' fun ff hff => Post.bind' fun a _ => Post.bind' fun b _ => Post.bind' fun c _ =>
      Post.bind' fun d _ => ?_
    refine Post.bind (Q := (m ∈ ·)) ?_ fun e he => ?_
    · simp only [optV, Node.truthy, if_true, vtable]
      exact Post.bind (uses_reports hu (hm ff hff)).1 fun a ha => Post.bind' fun b _ =>
        Post.pure (by simp [ha])
    · refine Post.bind' fun f _ => Post.bind' fun g _ => Post.bind' fun h _ => Post.pure (by simp [he])

/-! ### Sub-queries -/

theorem inside_includes {n s : Node} (h : Inside n s) {errs : List Str}
    (hn : (vtable n).v [] = .ok errs) : ∃ errs', (vtable s).v [] = .ok errs' ∧ errs' ⊆ errs := by
  induction h generalizing errs with
  | self n => exact ⟨errs, hn, fun _ h => h⟩
  | paren as a s ha _ ih =>
    simp only [vtable, V.of] at hn
    obtain ⟨c, hc, hs⟩ := concat_includes hn _ (mem_vtableList.2 ⟨a, ha, rfl⟩)
    obtain ⟨e', he', hs'⟩ := ih hc
    exact ⟨e', he', fun e he => hs (hs' he)⟩
  | alias e a w s _ ih =>
    simp only [vtable, V.of] at hn
    exact ih hn
  | from_ es all d on f w g h o l off semi s hf _ ih =>
    rw [vtable_select] at hn
    simp only [V.of, bind_ok_iff] at hn
    obtain ⟨ff, _, hn⟩ := hn
    simp only [clausesV, bind_ok_iff, pure_ok_iff] at hn
    obtain ⟨a, _, b, hb, c, _, d, _, e, _, f', _, g', _, h', _, rfl⟩ := hn
    simp only [optV, hf, if_true] at hb
    obtain ⟨e', he', hs'⟩ := ih hb
    exact ⟨e', he', fun e he => by simp [hs' he]⟩

end SqlV
