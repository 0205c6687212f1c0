import Verif.Lemmas.Calm
import Verif.Lemmas.Types
import Verif.Lemmas.Prints
import Verif.Lemmas.CoreValid

/-! Validation of calm statements raises nothing: expressions, clauses and statements. -/

set_option linter.unusedSectionVars false

namespace SqlV.Core

section

variable [E : PyEnv] [L : LawfulPyEnv E]

/-- No exception. -/
def Fine' {α : Type} (x : Except PyErr α) : Prop := ∃ a, x = .ok a

theorem Fine'.bind {α β : Type} {x : Except PyErr α} {f : α → Except PyErr β} (hx : Fine' x) (hf : ∀ a, Fine' (f a)) : Fine' (x >>= f) := by
  obtain ⟨a, rfl⟩ := hx
  exact hf a

theorem fine_pure {α : Type} (a : α) : Fine' (pure a : Except PyErr α) := ⟨a, rfl⟩

theorem fine_ok {α : Type} (a : α) : Fine' (.ok a : Except PyErr α) := ⟨a, rfl⟩

/-! ### Types -/

theorem resolveType_fine {n : Node} {k : List Field} (hw : wf (fold n) = true) (ht : firm (fold n) = true) (hl : level (fold n) ≤ 3)
    (hty : typed (fold n) = true) (hk : Sorted k) : ∃ t, resolveType n k = .ok (some t) := by
  obtain ⟨t, hr⟩ := typed_type n hty
  have hdef : resolveType n k = if k.isEmpty then returnType n else (transform n >>= fun name =>
      match (E.setOrder k).filter (fun f => decide (f.name = name)) with
      | f :: _ => .ok f.type
      | [] => returnType n) := by
    cases n <;> first | rfl | exact absurd hty Bool.false_ne_true
  rw [hdef]
  split
  · exact ⟨t, hr⟩
  · obtain ⟨name, this⟩ : Works (transform n) := (prints n hw ht).t
    rw [this]
    simp only [bind, Except.bind]
    generalize hfs : (E.setOrder k).filter _ = fs
    cases fs with
    | nil => exact ⟨t, hr⟩
    | cons f fs =>
      have hm : f ∈ (E.setOrder k).filter (fun g => decide (g.name = name)) := by rw [hfs]; simp
      have hf := hk f ((L.setOrder_perm k).mem_iff.1 (List.mem_filter.1 hm).1)
      cases hty : f.type with
      | none => exact absurd hty hf
      | some t => exact ⟨t, by simp only; rw [hty]⟩

theorem mustBeBoolean_fine {n : Node} {k : List Field} (msg : Str) (hw : wf (fold n) = true) (ht : firm (fold n) = true)
    (hl : level (fold n) ≤ 3) (hty : typed (fold n) = true) (hk : Sorted k) : Fine' (mustBeBoolean msg n k) := by
  obtain ⟨t, h⟩ := resolveType_fine hw ht hl hty hk
  unfold mustBeBoolean
  rw [h]
  simp only [bind, Except.bind]
  split
  · exact ⟨_, rfl⟩
  · exact fine_pure _

/-! ### Parentheses -/

theorem first_unparen (n : Node) : ∀ m, first (fold n) = some m → ∃ m', unparen n = .ok m' ∧ fold m' = m := by
  induction n using Node.rec (motive_2 := fun ns => ∀ m, firstOf (foldList ns) = some m → ∃ m', unparenHead ns = .ok m' ∧ fold m' = m) with
  | nil => rename_i h; cases h
  | cons n ns h1 h2 => rename_i m h; exact h1 m h
  | paren args ih => exact ih
  | _ => intro m h; exact ⟨_, rfl, Option.some.inj h⟩

theorem unparen_first (n : Node) : ∀ m, unparen n = .ok m → first (fold n) = some (fold m) := by
  induction n using Node.rec (motive_2 := fun ns => ∀ m, unparenHead ns = .ok m → firstOf (foldList ns) = some (fold m)) with
  | nil => rename_i h; cases h
  | cons n ns h1 h2 => rename_i m h; exact h1 m h
  | paren args ih => exact ih
  | _ => intro m h; cases h; rfl

theorem calm_unparen (n : Node) : ∀ c, calm c (fold n) = true → ∃ m, unparen n = .ok m := by
  induction n using Node.rec (motive_2 := fun ns => ∀ c, (!(foldList ns).isEmpty && calmList c (foldList ns)) = true →
    ∃ m, unparenHead ns = .ok m) with
  | nil => rename_i c h; cases h
  | cons n ns h1 h2 =>
    rename_i c h
    simp only [foldList, calmList, List.isEmpty_cons, Bool.not_false, Bool.true_and, Bool.and_eq_true] at h
    exact h1 c h.1
  | paren args ih =>
    intro c h
    rcases unseen_or args with ⟨qs, s, rfl⟩ | hun
    · exact ⟨_, rfl⟩
    · rw [fold, calm, hun, Bool.false_or] at h
      exact ih c h
  | _ => intro c h; exact ⟨_, rfl⟩

theorem typed_unparen (n : Node) : typed (fold n) = true → ∃ m, unparen n = .ok m ∧ typed (fold m) = true := by
  induction n using Node.rec (motive_2 := fun ns => typedFirst (foldList ns) = true → ∃ m, unparenHead ns = .ok m ∧ typed (fold m) = true) with
  | nil => rename_i h; cases h
  | cons n ns h1 h2 => rename_i h; exact h1 h
  | paren args ih => exact ih
  | _ => intro h; exact ⟨_, rfl, h⟩

/-! ### Clauses -/

theorem count_fine {v : Node} (a b : Str) (h : typed (fold v) = true) : Fine' (validateCount v a b) := by
  obtain ⟨m, hm, ht⟩ := typed_unparen v h
  obtain ⟨t, hr⟩ := typed_type m ht
  unfold validateCount
  rw [hm]
  simp only [bind, Except.bind, hr]
  split
  · split
    · exact fine_pure _
    · split <;> exact fine_pure _
  · exact fine_pure _

theorem clear_unambiguous {k : List Field} (h : Clear k) {v : Str} (h1 : hasField k v = false) (h2 : hasField k str!"*" = false) :
    (fieldsWithoutAlias k v).length = 0 := by
  rcases h with h | h
  · rw [h2] at h
    cases h
  · rw [List.length_eq_zero_iff, fieldsWithoutAlias, List.filter_eq_nil_iff]
    intro f hf he
    rw [decide_eq_true_eq, afterDot_plain (h f hf)] at he
    have : hasField k v = true := hasField_iff.2 ⟨f, hf, he⟩
    rw [h1] at this
    cases this

theorem group_arg_fine {k : List Field} {c : Bool} (hk : c = true → Clear k) (es : List Node) {a : Node}
    (h : (match first (fold a) with | none => false | some (.column _) => c | some (.string ..) => c | some _ => true) = true) :
    Fine' (validateGroupArg k es a) := by
  have check : c = true → ∀ v : Str, Fine' (if (!hasField k v && decide (v ∉ rawAliases es) && !hasField k str!"*") = true then
      if (fieldsWithoutAlias k v).length > 1 then (.error .attribute : VRes)
      else if (fieldsWithoutAlias k v).length = 0 then return [str!"column \"" ++ v ++ str!"\" does not exist"] else return []
      else return []) := by
    intro hc v
    split
    · rename_i h
      simp only [Bool.and_eq_true, Bool.not_eq_true'] at h
      rw [clear_unambiguous (hk hc) h.1.1 h.2]
      exact fine_pure _
    · exact fine_pure _
  cases hf : first (fold a) with
  | none => rw [hf] at h; cases h
  | some m =>
    rw [hf] at h
    obtain ⟨m', hm, rfl⟩ := first_unparen a m hf
    unfold validateGroupArg
    rw [hm]
    cases m' <;> first | exact check h _ | exact fine_pure _ | skip
    simp only [bind, Except.bind]
    split <;> exact fine_pure _

theorem group_fine {k : List Field} {c : Bool} (hk : c = true → Clear k) (es : List Node) {args : List Node}
    (h : calmKeys c (foldList args) = true) : Fine' (validateGroupBy k es args) := by
  unfold validateGroupBy
  induction args with
  | nil => exact fine_ok _
  | cons a as ih =>
    simp only [calmKeys, foldList, List.all_cons, Bool.and_eq_true] at h
    rw [concatV]
    exact (group_arg_fine hk es h.1).bind fun _ => (ih h.2).bind fun _ => fine_pure _

theorem column_fine (k : List Field) (v : Str) : Fine' (validateColumn k v) := by
  unfold validateColumn
  split
  · split
    · exact fine_ok _
    · split <;> exact fine_ok _
  · exact fine_ok _

theorem concat_fine {k : List Field} {args : List Node} (h : ∀ a ∈ args, Fine' ((vtable a).v k)) : Fine' (V.concat k (vtableList args)) := by
  induction args with
  | nil => exact fine_ok _
  | cons a as ih =>
    rw [vtableList, V.concat]
    exact (h a (by simp)).bind fun _ => (ih fun x hx => h x (by simp [hx])).bind fun _ => fine_pure _

theorem concatIn_fine {k : List Field} {s : Option (List Node)} {args : List Node} (h : ∀ a ∈ args, Fine' ((vtable a).vIn k s)) :
    Fine' (V.concatIn k s (vtableList args)) := by
  induction args with
  | nil => exact fine_ok _
  | cons a as ih =>
    rw [vtableList, V.concatIn]
    exact (h a (by simp)).bind fun _ => (ih fun x hx => h x (by simp [hx])).bind fun _ => fine_pure _

/-! ### Expressions and statements -/

/-- A query, of the first kind or with WITH. -/
def asks : Node → Bool
  | .select .. => true
  | .withStmt .. => true
  | _ => false

theorem select_asks {n : Node} (h : n.isSelect = true) : asks n = true := by
  cases n <;> first | rfl | exact absurd h Bool.false_ne_true

theorem asks_or {n : Node} (h : asks n = true) : n.isSelect = true ∨ ∃ qs s, n = .withStmt qs s := by
  cases n <;> first | exact .inl rfl | exact .inr ⟨_, _, rfl⟩ | exact absurd h Bool.false_ne_true

theorem isQuery_asks {n : Node} (h : isQuery (fold n) = true) : asks n = true := by
  cases n <;> first | rfl | exact absurd h Bool.false_ne_true

/-- `validate` of an expression, a FROM clause or a query raises nothing. -/
def Safe (n : Node) : Prop := ∀ k c, Sorted k → (c = true → Clear k) → wf (fold n) = true → firm (fold n) = true → calm c (fold n) = true →
  (level (fold n) ≤ 5 ∨ isBody (fold n) = true ∨ n.isSelect = true) → Fine' ((vtable n).v k)

theorem safe_list {args : List Node} {k : List Field} {c : Bool} (ih : ∀ a ∈ args, Safe a) (hk : Sorted k) (hc : c = true → Clear k)
    (hw : wfList (foldList args) = true) (ht : firmList (foldList args) = true) (hca : calmList c (foldList args) = true)
    (hl : ∀ a ∈ args, level (fold a) ≤ 5 ∨ isBody (fold a) = true ∨ a.isSelect = true) : Fine' (V.concat k (vtableList args)) := by
  rw [wfList_iff] at hw
  rw [firmList_iff] at ht
  rw [calmList_iff] at hca
  exact concat_fine fun a ha => ih a ha k c hk hc (hw _ (foldList_mem ha)) (ht _ (foldList_mem ha)) (hca _ (foldList_mem ha)) (hl a ha)

/-- Of the queries in parentheses, those without WITH. -/
theorem seen_select {b : Node} (hu : isUnseen (foldList [b]) = false) (h : isQuery (fold b) = true) : b.isSelect = true := by
  rcases asks_or (isQuery_asks h) with h | ⟨qs, s, rfl⟩
  · exact h
  · cases hu

theorem safe_paren {args : List Node} (ih : ∀ a ∈ args, Safe a) : Safe (.paren args) := by
  intro k c hk hcl hw ht hc hl
  simp only [fold, wf, firm, calm, Bool.and_eq_true, Bool.or_eq_true, decide_eq_true_eq] at hw ht hc
  rcases unseen_or args with ⟨qs, s, rfl⟩ | hun
  · exact fine_ok _
  rw [vtable]
  refine safe_list ih hk hcl hw.2 ht (hc.2.resolve_left (by simp [hun])) fun a ha => ?_
  rcases hw.1 with h | h
  · exact .inl (levels_fold h a ha)
  · match args, h with
    | [b], h =>
      obtain rfl := List.mem_singleton.1 ha
      simp only [foldList, isGroup, Bool.or_eq_true] at h
      rcases h with ((h | h) | h) | h
      · exact .inr (.inr (seen_select hun h))
      · exact .inr (.inl (by simp [isBody, isFrom, h]))
      · exact .inr (.inl (by simp [isBody, isFrom, h]))
      · exact .inr (.inl (by simp [isBody, h]))

theorem between_lower {p : Str} (h : (p.map Char.toLower).all isAscii = true) : E.lower p = p.map Char.toLower :=
  L.lower_ascii p (all_ascii_of_lower rfl h)

theorem safe_cond {l r : Node} {p : Str} (ihl : Safe l) (ihr : Safe r) (ihb : ∀ t a b, r = .boolc t a b → Safe a ∧ Safe b) : Safe (.cond l p r) := by
  intro k c hk hcl hw ht hc hl
  simp only [fold, wf, firm, calm, Bool.and_eq_true, decide_eq_true_eq] at hw ht hc
  obtain ⟨⟨⟨h1, h2⟩, h3⟩, h4⟩ := hw
  rw [vtable_cond]
  refine (ihl k c hk hcl h2 ht.1 hc.1 (.inl (by omega))).bind fun _ => Fine'.bind ?_ fun _ => fine_pure _
  unfold condRightV
  by_cases hp : p.map Char.toLower = str!"between"
  · rw [between_lower (by rw [hp]; decide), if_pos hp]
    rw [if_pos hp] at h4 hc
    cases r <;> first | exact absurd h4 Bool.false_ne_true | skip
    rename_i t a b
    obtain ⟨iha, ihb⟩ := ihb _ _ _ rfl
    simp only [fold, isRange, calmBounds, firm, wf, Bool.and_eq_true, decide_eq_true_eq] at h3 h4 hc ht
    rw [vtable]
    simp only [validateBool_eq, operandV, if_true]
    exact (iha k c hk hcl h3.1.2 ht.2.1.2 hc.2.1 (.inl (by omega))).bind fun _ => (fine_ok _).bind fun _ =>
      (ihb k c hk hcl h3.2 ht.2.2 hc.2.2 (.inl (by omega))).bind fun _ => (fine_ok _).bind fun _ => fine_pure _
  · rw [if_neg hp] at h4 hc
    have hasc : (p.map Char.toLower).all isAscii = true := by
      simp only [Bool.and_eq_true, decide_eq_true_eq] at h4
      exact (by decide : ∀ q ∈ corePreds, q.all isAscii = true) _ h4.1.1
    simp only [Bool.and_eq_true, decide_eq_true_eq] at h4
    rw [between_lower hasc, if_neg hp]
    exact ihr k c hk hcl h3 ht.2 hc.2 (.inl (by omega))

theorem safe_boolc {t : Str} {l r : Node} (ihl : Safe l) (ihr : Safe r) : Safe (.boolc t l r) := by
  intro k c hk hcl hw ht hc hl
  simp only [fold, wf, firm, calm, Bool.and_eq_true, decide_eq_true_eq] at hw ht hc
  obtain ⟨⟨⟨⟨h1, h2⟩, h3⟩, h4⟩, h5⟩ := hw
  obtain ⟨⟨⟨h6, h7⟩, h8⟩, h9⟩ := ht
  obtain ⟨⟨⟨c1, c2⟩, c3⟩, c4⟩ := hc
  rw [vtable]
  simp only [validateBool_eq, operandV, Bool.false_eq_true, if_false]
  exact (ihl k c hk hcl h4 h8 c3 (.inl (by omega))).bind fun _ => (mustBeBoolean_fine _ h4 h8 (by omega) c1 hk).bind fun _ =>
    (ihr k c hk hcl h5 h9 c4 (.inl (by omega))).bind fun _ => (mustBeBoolean_fine _ h5 h9 (by omega) c2 hk).bind fun _ => fine_pure _

theorem safe_chained {l r : Node} : Safe (.chained l r) := by
  intro k c hk hcl hw ht hc hl
  obtain ⟨x, e1⟩ : Works (transform (.chained l r)) := (prints _ hw ht).t
  simp only [fold, wf, firm, calm, Bool.and_eq_true] at hw ht hc
  obtain ⟨⟨⟨h1, h2⟩, h3⟩, h4⟩ := hw
  obtain ⟨y, e2⟩ : Works (transform l) := (prints l h3 ht.1).t
  obtain ⟨z, hgr⟩ := (prints r h4 ht.2).str (by rw [level_chain h2]; omega)
  rw [vtable]
  show Fine' (validateChained k l r)
  unfold validateChained
  rw [e1, e2, hgr]
  simp only [bind, Except.bind]
  split <;> exact fine_pure _

theorem where_fine {v : Node} {msg : Str} (ih : Safe v) {k : List Field} {c : Bool} (hk : Sorted k) (hcl : c = true → Clear k)
    (hw : wf (fold v) = true) (hl : level (fold v) ≤ 3) (ht : firm (fold v) = true) (hc : (typed (fold v) && calm c (fold v)) = true) :
    Fine' (do
      let a ← (vtable v).v k
      let b ← mustBeBoolean msg v k
      return a ++ b) := by
  simp only [Bool.and_eq_true] at hc
  exact (ih k c hk hcl hw ht hc.2 (.inl (by omega))).bind fun _ => (mustBeBoolean_fine _ hw ht hl hc.1 hk).bind fun _ => fine_pure _

theorem orderItem_fine {v : Node} (ih : Safe v) {k : List Field} {c : Bool} (hk : Sorted k) (hcl : c = true → Clear k)
    (hw : wf (fold v) = true) (hl : level (fold v) ≤ 3) (ht : firm (fold v) = true) (hc : calm c (fold v) = true) (es : List Node) :
    Fine' (validateOrderItem v (vtable v) k (some es)) := by
  obtain ⟨m, hm⟩ := calm_unparen v c hc
  have hv := ih k c hk hcl hw ht hc (.inl (by omega))
  unfold validateOrderItem
  rw [hm]
  simp only [bind, Except.bind]
  split
  · split
    · exact fine_pure _
    · split <;> exact fine_pure _
  · exact hv

theorem windowItem_fine {v : Node} (ih : Safe v) {k : List Field} {c : Bool} (hk : Sorted k) (hcl : c = true → Clear k)
    (hw : wf (fold v) = true) (hl : level (fold v) ≤ 3) (ht : firm (fold v) = true) (hc : calm c (fold v) = true)
    (hp : (match first (fold v) with | some (.int _) => false | _ => true) = true) : Fine' (validateOrderItem v (vtable v) k none) := by
  obtain ⟨m, hm⟩ := calm_unparen v c hc
  have hf := unparen_first v m hm
  have hv := ih k c hk hcl hw ht hc (.inl (by omega))
  unfold validateOrderItem
  rw [hm]
  simp only [bind, Except.bind]
  split
  · rw [hf] at hp
    cases hp
  · exact hv

/-- The names in REPLACE are columns. -/
theorem names_fine {args : List Node} {k : List Field} (hl : ∀ a ∈ args, level (fold a) ≤ 4) (hn : ∀ a ∈ args, isNamed (fold a) = true) :
    Fine' (V.concat k (vtableAliases args)) := by
  induction args with
  | nil => exact fine_ok _
  | cons a as ih =>
    have h1 := hl a (by simp)
    have h2 := hn a (by simp)
    have ih := ih (fun x hx => hl x (by simp [hx])) fun x hx => hn x (by simp [hx])
    cases a <;> first | exact absurd h2 Bool.false_ne_true | skip
    rename_i e al w
    simp only [fold, isNamed, Bool.and_eq_true] at h2
    obtain ⟨rfl, hal⟩ := h2
    cases al <;> first | exact absurd hal Bool.false_ne_true | skip
    rw [vtableAliases, V.concat]
    exact (column_fine _ _).bind fun _ => ih.bind fun _ => fine_pure _

theorem optV_fine {c : Node} {r : VRes} (h : c.truthy = true → Fine' r) : Fine' (optV c r) := by
  unfold optV
  split
  · exact h ‹_›
  · exact fine_ok _

/-- The parts are safe. -/
def SafeSub (n : Node) : Prop := ∀ m, sizeOf m < sizeOf n → Safe m

theorem orNone_truthy {p : Node → Bool} {n : Node} (h : orNone p (fold n) = true) (ht : n.truthy = true) : p (fold n) = true := by
  rcases orNone_or h with h | h
  · rw [← truthy_fold, h] at ht
    cases ht
  · exact h

theorem safe_select {es : List Node} {all d : Bool} {on : List Node} {f w g h o l off : Node} {semi : Bool}
    (ih : SafeSub (.select es all d on f w g h o l off semi)) : Safe (.select es all d on f w g h o l off semi) := by
  intro k c hk hcl hw ht hc hl
  simp only [fold, wf, firm, calm, Bool.and_eq_true, decide_eq_true_eq] at hw ht hc
  obtain ⟨⟨⟨⟨⟨⟨⟨⟨⟨⟨⟨⟨⟨⟨⟨⟨⟨⟨⟨⟨h1, h2⟩, h3⟩, -⟩, -⟩, h6⟩, h7⟩, nf⟩, hf⟩, nw⟩, hw⟩, ng⟩, hg⟩, nh⟩, hh⟩, no⟩, ho⟩, nl⟩, hl⟩, noff⟩, hoff⟩ := hw
  obtain ⟨⟨⟨⟨⟨⟨⟨⟨t1, -⟩, tf⟩, tw⟩, tg⟩, th⟩, to⟩, tl⟩, toff⟩ := ht
  obtain ⟨⟨⟨⟨⟨⟨⟨⟨c1, cf⟩, cw⟩, cg⟩, ch⟩, co⟩, cl⟩, coff⟩, cn⟩ := hc
  rw [vtable_select]
  show Fine' (optFields (knownFields f) >>= _)
  have hff : ∃ ff, optFields (knownFields f) = .ok ff ∧ ∀ fs, ff = some fs → Known f fs := by
    have := fields f true hf cf cn
    cases hkf : knownFields f with
    | ok fs => rw [hkf] at this; exact ⟨some fs, rfl, by rintro _ ⟨⟩; exact this⟩
    | error e =>
      rw [hkf] at this
      obtain rfl : e = .attribute := this
      exact ⟨none, rfl, by rintro _ ⟨⟩⟩
  obtain ⟨ff, hff, hkn⟩ := hff
  rw [hff]
  simp only [bind, Except.bind]
  have hk' : Sorted (innerFields k ff) := by
    cases ff with
    | none => exact hk
    | some fs => exact hk.union (hkn fs rfl).sorted
  have hcl' : (c && clearFrom (fold f)) = true → Clear (innerFields k ff) := by
    intro h
    simp only [Bool.and_eq_true] at h
    cases ff with
    | none => exact hcl h.1
    | some fs => exact (hcl h.1).union ((hkn fs rfl).clear h.2)
  generalize innerFields k ff = k' at hk' hcl'
  generalize (c && clearFrom (fold f)) = c' at *
  unfold clausesV
  refine Fine'.bind ?_ fun _ => Fine'.bind ?_ fun _ => Fine'.bind ?_ fun _ => Fine'.bind ?_ fun _ => Fine'.bind ?_ fun _ =>
    Fine'.bind ?_ fun _ => Fine'.bind ?_ fun _ => Fine'.bind ?_ fun _ => fine_pure _
  · exact safe_list (fun a ha => ih a (by have := List.sizeOf_lt_of_mem ha; simp only [Node.select.sizeOf_spec]; omega)) hk' hcl' h3 t1 c1
      fun a ha => .inl (Nat.le_trans (levels_fold h2 a ha) (by omega))
  · refine optV_fine fun hft => ?_
    exact ih f (by simp only [Node.select.sizeOf_spec]; omega) [] true (by simp [Sorted]) (fun _ => .inr (by simp [Undotted])) hf tf cf
      (.inr (.inl (orNone_truthy nf hft)))
  · refine optV_fine fun ht => ?_
    have := orNone_truthy nw ht
    cases w <;> first | exact absurd this Bool.false_ne_true | skip
    simp only [fold, wf, firm, calm, Bool.and_eq_true, decide_eq_true_eq] at hw tw cw
    rw [vtable]
    exact where_fine (ih _ (by simp only [Node.select.sizeOf_spec, Node.where_.sizeOf_spec]; omega)) hk' hcl' hw.2 hw.1 tw (by simp [cw])
  · refine optV_fine fun ht => ?_
    have := orNone_truthy ng ht
    cases g <;> first | exact absurd this Bool.false_ne_true | skip
    exact group_fine hcl' es cg
  · refine optV_fine fun ht => ?_
    have := orNone_truthy nh ht
    cases h <;> first | exact absurd this Bool.false_ne_true | skip
    simp only [fold, wf, firm, calm, Bool.and_eq_true, decide_eq_true_eq] at hh th ch
    rw [vtable]
    exact where_fine (ih _ (by simp only [Node.select.sizeOf_spec, Node.having.sizeOf_spec]; omega)) hk' hcl' hh.2 hh.1 th (by simp [ch])
  · refine optV_fine fun ht => ?_
    have := orNone_truthy no ht
    cases o <;> first | exact absurd this Bool.false_ne_true | skip
    rename_i args
    simp only [fold, wf, firm, calm, Bool.and_eq_true, wfList_iff, firmList_iff, calmList_iff, List.all_eq_true] at ho to co
    rw [vtable]
    refine concatIn_fine fun a ha => ?_
    have hi := ho.1.2 _ (foldList_mem ha)
    have ha1 := ho.2 _ (foldList_mem ha)
    have ha2 := to _ (foldList_mem ha)
    have ha3 := co _ (foldList_mem ha)
    cases a <;> first | exact absurd hi Bool.false_ne_true | skip
    simp only [fold, wf, firm, calm, Bool.and_eq_true, decide_eq_true_eq] at ha1 ha2 ha3
    rw [vtable]
    refine orderItem_fine (ih _ ?_) hk' hcl' ha1.2 (by omega) ha2 ha3 es
    have := List.sizeOf_lt_of_mem ha
    simp only [Node.select.sizeOf_spec, Node.orderBy.sizeOf_spec]
    simp only [Node.orderItem.sizeOf_spec] at this
    omega
  · refine optV_fine fun ht => ?_
    have := orNone_truthy nl ht
    cases l <;> first | exact absurd this Bool.false_ne_true | skip
    simp only [fold, calm, Bool.and_eq_true] at cl
    rw [vtable]
    exact count_fine _ _ cl.2
  · refine optV_fine fun ht => ?_
    have := orNone_truthy noff ht
    cases off <;> first | exact absurd this Bool.false_ne_true | skip
    rw [vtable]
    exact count_fine _ _ coff

theorem safe_step {n : Node} (ih : SafeSub n) : Safe n := by
  cases n with
  | paren args => exact safe_paren fun a ha => ih a (by have := List.sizeOf_lt_of_mem ha; simp only [Node.paren.sizeOf_spec]; omega)
  | select es all d on f w g h o l off semi => exact safe_select ih
  | cond l p r =>
    refine safe_cond (ih l (by simp only [Node.cond.sizeOf_spec]; omega)) (ih r (by simp only [Node.cond.sizeOf_spec]; omega)) ?_
    rintro t a b rfl
    exact ⟨ih a (by simp only [Node.cond.sizeOf_spec, Node.boolc.sizeOf_spec]; omega), ih b (by simp only [Node.cond.sizeOf_spec, Node.boolc.sizeOf_spec]; omega)⟩
  | boolc t l r => exact safe_boolc (ih l (by simp only [Node.boolc.sizeOf_spec]; omega)) (ih r (by simp only [Node.boolc.sizeOf_spec]; omega))
  | chained l r => exact safe_chained
  | func f args =>
    intro k c hk hcl hw ht hc hl
    simp only [fold, wf, firm, calm, Bool.and_eq_true, decide_eq_true_eq] at hw ht hc
    rw [vtable]
    exact safe_list (fun a ha => ih a (by have := List.sizeOf_lt_of_mem ha; simp only [Node.func.sizeOf_spec]; omega)) hk hcl hw.2 ht hc
      fun a ha => .inl (levels_fold hw.1.2 a ha)
  | count args d =>
    intro k c hk hcl hw ht hc hl
    simp only [fold, wf, firm, calm, Bool.and_eq_true, decide_eq_true_eq] at hw ht hc
    rw [vtable]
    exact safe_list (fun a ha => ih a (by have := List.sizeOf_lt_of_mem ha; simp only [Node.count.sizeOf_spec]; omega)) hk hcl hw.2 ht hc
      fun a ha => .inl (levels_fold hw.1 a ha)
  | «alias» e al w =>
    intro k c hk hcl hw ht hc hl
    have hw' := wf_alias hw
    simp only [fold, firm, calm] at ht hc
    rw [vtable]
    refine ih e (by simp only [Node.alias.sizeOf_spec]; omega) k c hk hcl hw'.2.1 (Bool.and_eq_true_iff.1 ht).1 hc ?_
    simp only [fold, wf, Bool.and_eq_true, Bool.or_eq_true, decide_eq_true_eq] at hw
    rcases hw.1.1 with h | h
    · exact .inl (by omega)
    · rcases h.1 with h | h
      · exact .inr (.inl (isWhole_from h))
      · refine .inl ?_
        revert h
        generalize fold e = m
        intro h
        cases m <;> first | exact absurd h Bool.false_ne_true | (rw [level]; split <;> decide)
  | column v =>
    intro k c hk hcl hw ht hc hl
    rw [vtable]
    exact column_fine k v
  | join type l r on us =>
    intro k c hk hcl hw ht hc hl
    rw [vtable]
    simp only [V.of]
    split <;> exact fine_ok _
  | arrayAgg e d i r o l =>
    intro k c hk hcl hw ht hc hl
    simp only [fold, wf, firm, calm, Bool.and_eq_true, decide_eq_true_eq] at hw ht hc
    obtain ⟨⟨⟨⟨⟨⟨h1, h2⟩, -⟩, -⟩, -⟩, -⟩, -⟩ := hw
    rw [vtable]
    exact ih e (by simp only [Node.arrayAgg.sizeOf_spec]; omega) k c hk hcl h2 ht.1 hc (.inl (by omega))
  | filtered e w =>
    intro k c hk hcl hw ht hc hl
    simp only [fold, wf, firm, calm, Bool.and_eq_true, decide_eq_true_eq] at hw ht hc
    obtain ⟨⟨⟨h1, h2⟩, h3⟩, h4⟩ := hw
    rw [vtable]
    exact (ih e (by simp only [Node.filtered.sizeOf_spec]; omega) k c hk hcl h3 ht.1 hc.1 (.inl (Nat.le_trans (level_call h1) (by omega)))).bind fun _ =>
      (ih w (by simp only [Node.filtered.sizeOf_spec]; omega) k c hk hcl h4 ht.2 hc.2 (.inl (by omega))).bind fun _ => fine_pure _
  | analytics f part o fr =>
    intro k c hk hcl hw ht hc hl
    simp only [fold, wf, firm, calm, Bool.and_eq_true, decide_eq_true_eq] at hw ht hc
    obtain ⟨⟨⟨⟨⟨⟨⟨⟨⟨h1, h2⟩, h3⟩, h4⟩, h5⟩, h6⟩, h7⟩, h8⟩, h9⟩, h10⟩ := hw
    rw [vtable]
    refine Fine'.bind (ih f (by simp only [Node.analytics.sizeOf_spec]; omega) k c hk hcl h2 ht.1.1 hc.1.1.1
      (.inl (Nat.le_trans (level_function h1) (by omega)))) fun _ => Fine'.bind ?_ fun _ => Fine'.bind ?_ fun _ => fine_pure _
    · exact safe_list (fun a ha => ih a (by have := List.sizeOf_lt_of_mem ha; simp only [Node.analytics.sizeOf_spec]; omega)) hk hcl h4 ht.1.2
        hc.1.1.2 fun a ha => .inl (Nat.le_trans (levels_fold h3 a ha) (by omega))
    · refine optV_fine fun htr => ?_
      have := orNone_truthy h6 htr
      cases o <;> first | exact absurd this Bool.false_ne_true | skip
      rename_i args
      have hp := hc.2
      have hc := hc.1.2
      have ht := ht.2
      simp only [fold, wf, firm, calm, noPositions, Bool.and_eq_true, wfList_iff, firmList_iff, calmList_iff, List.all_eq_true] at h7 ht hc hp
      rw [vtable]
      refine concatIn_fine fun a ha => ?_
      have hi := h7.1.2 _ (foldList_mem ha)
      have ha1 := h7.2 _ (foldList_mem ha)
      have ha2 := ht _ (foldList_mem ha)
      have ha3 := hc _ (foldList_mem ha)
      have ha4 := hp _ (foldList_mem ha)
      cases a <;> first | exact absurd hi Bool.false_ne_true | skip
      simp only [fold, wf, firm, calm, Bool.and_eq_true, decide_eq_true_eq] at ha1 ha2 ha3 ha4
      rw [vtable]
      refine windowItem_fine (ih _ ?_) hk hcl ha1.2 (by omega) ha2 ha3 ha4
      have := List.sizeOf_lt_of_mem ha
      simp only [Node.analytics.sizeOf_spec, Node.orderBy.sizeOf_spec]
      simp only [Node.orderItem.sizeOf_spec] at this
      omega
  | replace e args =>
    intro k c hk hcl hw ht hc hl
    simp only [fold, wf, Bool.and_eq_true, decide_eq_true_eq] at hw
    obtain ⟨⟨⟨⟨⟨-, -⟩, h3⟩, h4⟩, -⟩, -⟩ := hw
    rw [vtable]
    exact names_fine (levels_fold h3) fun a ha => List.all_eq_true.1 h4 _ (foldList_mem ha)
  | cast e t => intro k c hk hcl hw ht hc hl; exact absurd hc Bool.false_ne_true
  | _ =>
    intro k c hk hcl hw ht hc hl
    first
    | exact fine_ok _
    | (exfalso
       rcases hl with h | h | h
       · exact absurd h (by simp [fold, level])
       · exact absurd h Bool.false_ne_true
       · exact absurd h Bool.false_ne_true)

theorem safe (n : Node) : Safe n := by
  induction h : sizeOf n using Nat.strongRecOn generalizing n with
  | _ k ih => exact safe_step fun m hm => ih _ (h ▸ hm) m rfl

/-- Validation of a calm statement raises nothing. -/
theorem validate_calm {n : Node} (hw : wf (fold n) = true) (hs : n.isSelect = true) (ht : firm (fold n) = true) (hc : calm true (fold n) = true) :
    ∃ errs, validate n = .ok errs := by
  have := safe n [] true (by simp [Sorted]) (fun _ => .inr (by simp [Undotted])) hw ht hc (.inr (.inr hs))
  cases n <;> first | exact absurd hs Bool.false_ne_true | exact this

end

end SqlV.Core
