import Verif.Lemmas.Columns

/-! The names a sub-query makes known. -/

set_option linter.unusedSectionVars false

namespace SqlV

variable [E : PyEnv]

theorem returnType_static {n : Node} {t : PType} (h : StaticType n t) : returnType n = .ok (some t) := by
  induction h <;> simp_all [returnType, returnTypeHead]

/-- How many fields have this name. -/
def countField (S : List Field) (x : Str) : Nat := S.countP fun f => decide (f.name = x)

theorem hasField_iff_count {S : List Field} {x : Str} : hasField S x = true ↔ 0 < countField S x := by
  rw [hasField_iff, countField, List.countP_pos_iff]
  simp

theorem countField_addField_le (S : List Field) (f : Field) (x : Str) :
    countField (addField S f) x ≤ countField S x + (if f.name = x then 1 else 0) := by
  unfold addField
  split
  · omega
  · simp [countField, List.countP_append, List.countP_cons]

theorem hasField_addField {S : List Field} {f : Field} {x : Str} :
    hasField (addField S f) x = true ↔ hasField S x = true ∨ f.name = x := by
  simp only [hasField_iff, mem_addField]
  constructor
  · rintro ⟨g, hg | rfl, rfl⟩
    · exact .inl ⟨g, hg, rfl⟩
    · exact .inr rfl
  · rintro (⟨g, hg, rfl⟩ | rfl)
    · exact ⟨g, .inl hg, rfl⟩
    · exact ⟨f, .inr rfl, rfl⟩

theorem countField_union_le (S T : List Field) (x : Str) :
    countField (unionFields S T) x ≤ countField S x + countField T x := by
  unfold unionFields
  induction T generalizing S with
  | nil => simp
  | cons f T ih =>
    have h1 := ih (addField S f)
    have h2 := countField_addField_le S f x
    have h3 : countField (f :: T) x = countField T x + (if f.name = x then 1 else 0) := by
      simp [countField, List.countP_cons]
    simp only [List.foldl_cons]
    omega

theorem hasField_union {S T : List Field} {x : Str} :
    hasField (unionFields S T) x = true ↔ hasField S x = true ∨ hasField T x = true := by
  simp only [hasField_iff, mem_unionFields]
  constructor
  · rintro ⟨g, hg | hg, rfl⟩
    · exact .inl ⟨g, hg, rfl⟩
    · exact .inr ⟨g, hg, rfl⟩
  · rintro (⟨g, hg, rfl⟩ | ⟨g, hg, rfl⟩)
    · exact ⟨g, .inl hg, rfl⟩
    · exact ⟨g, .inr hg, rfl⟩

/-- The fields have exactly these names, each at most as often as listed. -/
structure Names (fs : List Field) (xs : List Str) : Prop where
  has : ∀ x, hasField fs x = true ↔ x ∈ xs
  count : ∀ x, countField fs x ≤ xs.count x

theorem exprFields_names (es : List Node)
    (h : ∀ e a b, .alias e a b ∈ es → (∃ t, StaticType e t) ∧ ∃ s, a = .column s ∨ a = .raw s)
    (acc : List Field) (xs : List Str) (hacc : Names acc xs) :
    ∃ fs, exprFields es acc = .ok fs ∧ Names fs (xs ++ es.filterMap exportName) := by
  have add : ∀ (acc : List Field) (xs : List Str), Names acc xs → ∀ (y : Str) (t : Option PType),
      Names (addField acc ⟨y, t⟩) (xs ++ [y]) := by
    intro acc xs h y t
    refine ⟨fun x => ?_, fun x => ?_⟩
    · rw [hasField_addField, h.has, List.mem_append, List.mem_singleton]
      simp [eq_comm]
    · have h1 := countField_addField_le acc ⟨y, t⟩ x
      have h2 := h.count x
      simp only [List.count_append, List.count_singleton, beq_iff_eq] at h1 ⊢
      split at h1 <;> simp_all <;> omega
  induction es generalizing acc xs with
  | nil => exact ⟨acc, rfl, by simpa using hacc⟩
  | cons e es ih =>
    have ih' := ih (fun e a b hm => h e a b (by simp [hm]))
    simp only [exprFields]
    cases e with
    | column v =>
      obtain ⟨fs, h1, h2⟩ := ih' _ _ (add acc xs hacc v (some .object))
      exact ⟨fs, h1, by simpa [List.filterMap_cons, exportName] using h2⟩
    | alias e' a w =>
      obtain ⟨⟨t, ht⟩, s, hs⟩ := h e' a w (by simp)
      obtain ⟨fs, h1, h2⟩ := ih' _ _ (add acc xs hacc s (some t))
      refine ⟨fs, ?_, ?_⟩
      · simp only [returnType_static ht]
        rcases hs with rfl | rfl <;> exact h1
      · rcases hs with rfl | rfl <;> simpa [List.filterMap_cons, exportName] using h2
    | _ =>
      obtain ⟨fs, h1, h2⟩ := ih' _ _ hacc
      exact ⟨fs, h1, by simpa [List.filterMap_cons, exportName] using h2⟩

theorem exports_select_other (es all d on f w g h o l off semi) (hf : ∀ s as, f ≠ .paren (s :: as)) :
    exports (.select es all d on f w g h o l off semi) = es.filterMap exportName := by
  cases f with
  | paren as =>
    cases as with
    | nil => simp [exports]
    | cons a as => exact absurd rfl (hf a as)
  | _ => simp [exports]

theorem knownFields_names {n : Node} (h : Exporting n) : ∃ fs, knownFields n = .ok fs ∧ Names fs (exports n) := by
  induction h with
  | select es all d on f w g h o l off semi hes hne _ ih =>
    obtain ⟨fs, h1, h2⟩ := exprFields_names es hes [] [] ⟨by simp [hasField], by simp [countField]⟩
    simp only [List.nil_append] at h2
    by_cases hf : ∃ s as, f = .paren (s :: as)
    · obtain ⟨s, as, rfl⟩ := hf
      simp only [knownFields, h1, exports, bind, Except.bind]
      by_cases hs : s.isSelect = true
      · obtain ⟨subq, h3, h4⟩ := ih s as rfl hs
        simp only [hs, if_true, h3]
        have e1 : (hasField fs str!"*" = true) = (str!"*" ∈ es.filterMap exportName) :=
          propext (h2.has _)
        have e2 : (hasField subq str!"*" = true) = (str!"*" ∈ exports s) := propext (h4.has _)
        by_cases hc : str!"*" ∈ es.filterMap exportName ∧ str!"*" ∉ exports s
        · have e3 : hasField subq str!"*" = false := by
            rw [← Bool.not_eq_true, e2]; exact hc.2
          rw [if_pos (by simp [h2.has, hc.1, e3]), if_pos ⟨trivial, hc⟩]
          refine ⟨_, rfl, fun x => ?_, fun x => ?_⟩
          · rw [hasField_union, h4.has, List.mem_append, List.mem_filter, ← h2.has]
            simp only [hasField_iff, List.mem_filter, decide_eq_true_eq]
            refine or_congr_left ⟨?_, ?_⟩
            · rintro ⟨g, ⟨hg, hn⟩, rfl⟩; exact ⟨⟨g, hg, rfl⟩, hn⟩
            · rintro ⟨⟨g, hg, rfl⟩, hn⟩; exact ⟨g, ⟨hg, hn⟩, rfl⟩
          · refine Nat.le_trans (countField_union_le _ _ x) ?_
            rw [List.count_append]
            refine Nat.add_le_add ?_ (h4.count x)
            by_cases hx : x = str!"*"
            · subst hx
              rw [countField, List.countP_eq_zero.2]
              · exact Nat.zero_le _
              · intro f hf
                simp only [List.mem_filter, decide_eq_true_eq] at hf
                simpa using hf.2
            · have : (List.filter (fun x => decide (x ≠ str!"*")) (es.filterMap exportName)).count x =
                  (es.filterMap exportName).count x := by
                rw [List.count_filter]
                simpa using hx
              rw [this]
              refine Nat.le_trans ?_ (h2.count x)
              exact List.Sublist.countP_le List.filter_sublist
        · have e4 : ¬((hasField fs str!"*" && !hasField subq str!"*") = true) := by
            rw [Bool.and_eq_true, Bool.not_eq_true', ← Bool.not_eq_true, e1, e2]
            exact hc
          rw [if_neg e4, if_neg (by simpa [hs] using hc)]
          exact ⟨fs, rfl, h2⟩
      · simp only [hs, if_false, Bool.false_eq_true]
        exact ⟨fs, rfl, by simpa using h2⟩
    · rw [exports_select_other _ _ _ _ _ _ _ _ _ _ _ _ fun s as he => hf ⟨s, as, he⟩]
      refine ⟨fs, ?_, h2⟩
      simp only [knownFields, h1, bind, Except.bind]
      cases f with
      | paren as =>
        cases as with
        | nil => exact absurd rfl hne
        | cons a as => exact absurd ⟨a, as, rfl⟩ hf
      | _ => rfl

/-! ### Aliased sub-queries -/

/-- `a.y` -/
def dotted (a y : Str) : Str := a ++ str!"." ++ y

theorem dotted_inj {a y z : Str} : dotted a y = dotted a z ↔ y = z := by
  simp [dotted]

theorem afterDot_dotted {a y : Str} (ha : '.' ∉ a) : afterDot (dotted a y) = y := by
  have h : ('.' : Char) ∈ dotted a y := by simp [dotted]
  have hd : (dotted a y).dropWhile (· ≠ '.') = '.' :: y := by
    unfold dotted
    rw [List.append_assoc, List.dropWhile_append_of_pos]
    · simp
    · intro c hc
      simp only [ne_eq, decide_eq_true_eq]
      rintro rfl
      exact ha hc
  unfold afterDot
  rw [if_pos h, hd]
  rfl

theorem afterDot_plain {y : Str} (h : '.' ∉ y) : afterDot y = y := by simp [afterDot, h]

theorem dotted_eq {a b x y : Str} (ha : '.' ∉ a) (hb : '.' ∉ b) (h : dotted a x = dotted b y) :
    a = b ∧ x = y := by
  have h1 : x = y := by
    rw [← afterDot_dotted ha (y := x), h, afterDot_dotted hb]
  subst h1
  refine ⟨?_, rfl⟩
  simpa [dotted] using h

theorem prefixFields_names (a : Str) (fs : List Field) {acc : List Field} {xs : List Str}
    (h : Names acc xs) {ys : List Str} (hf : Names fs ys) :
    ∃ gs, prefixFields (.raw a) fs acc = .ok gs ∧ Names gs (xs ++ ys.map (dotted a)) := by
  have key : ∀ (fs acc : List Field), ∃ gs, prefixFields (.raw a) fs acc = .ok gs ∧
      (∀ z, hasField gs z = true ↔ hasField acc z = true ∨ ∃ f ∈ fs, dotted a f.name = z) ∧
      ∀ z, countField gs z ≤ countField acc z + fs.countP fun f => decide (dotted a f.name = z) := by
    intro fs
    induction fs with
    | nil => exact fun acc => ⟨acc, rfl, by simp, by simp⟩
    | cons f fs ih =>
      intro acc
      obtain ⟨gs, h1, h2, h3⟩ := ih (addField acc ⟨dotted a f.name, f.type⟩)
      refine ⟨gs, by simpa [prefixFields, dotted] using h1, fun z => ?_, fun z => ?_⟩
      · rw [h2, hasField_addField]
        simp [or_assoc]
      · have h4 := h3 z
        have h5 := countField_addField_le acc ⟨dotted a f.name, f.type⟩ z
        rw [List.countP_cons]
        simp only [decide_eq_true_eq] at h5 ⊢
        omega
  obtain ⟨gs, h1, h2, h3⟩ := key fs acc
  refine ⟨gs, h1, fun z => ?_, fun z => ?_⟩
  · rw [h2, h.has, List.mem_append, List.mem_map]
    refine or_congr_right ⟨?_, ?_⟩
    · rintro ⟨f, hm, rfl⟩
      exact ⟨f.name, (hf.has _).1 (hasField_iff.2 ⟨f, hm, rfl⟩), rfl⟩
    · rintro ⟨y, hm, rfl⟩
      obtain ⟨f, hm', rfl⟩ := hasField_iff.1 ((hf.has _).2 hm)
      exact ⟨f, hm', rfl⟩
  · refine Nat.le_trans (h3 z) ?_
    rw [List.count_append]
    refine Nat.add_le_add (h.count z) ?_
    by_cases hz : ∃ y, z = dotted a y
    · obtain ⟨y, rfl⟩ := hz
      simp only [dotted_inj]
      refine Nat.le_trans (hf.count y) ?_
      rw [List.count, List.count, List.countP_map]
      exact List.countP_mono_left (by simp +contextual)
    · rw [List.countP_eq_zero.2]
      · exact Nat.zero_le _
      · intro f _
        simp only [decide_eq_true_eq]
        intro he
        exact hz ⟨_, he.symm⟩

theorem transform_raw (a : Str) : transform (.raw a) = .ok a := rfl

theorem formatFields_eq (a : Str) (fs acc : List Field) :
    formatFields (.raw a) fs acc = prefixFields (.raw a) fs acc := by
  induction fs generalizing acc with
  | nil => rfl
  | cons f fs ih =>
    rw [formatFields, prefixFields, transform_raw]
    exact ih _

theorem names_nil : Names [] [] := ⟨by simp [hasField], by simp [countField]⟩

theorem names_union {S T : List Field} {xs ys : List Str} (h : Names S xs) (h' : Names T ys) :
    Names (unionFields S T) (xs ++ ys) := by
  refine ⟨fun x => ?_, fun x => ?_⟩
  · rw [hasField_union, h.has, h'.has, List.mem_append]
  · refine Nat.le_trans (countField_union_le _ _ x) ?_
    rw [List.count_append]
    exact Nat.add_le_add (h.count x) (h'.count x)

theorem isSelect_of_exporting {n : Node} (h : Exporting n) : n.isSelect = true := by
  cases h; rfl

theorem knownFields_paren_names {s : Node} (h : Exporting s) :
    ∃ fs, knownFields (.paren [s]) = .ok fs ∧ Names fs (exports s) := by
  obtain ⟨fs, h1, h2⟩ := knownFields_names h
  exact ⟨fs, by simp [knownFields, knownFieldsHead, h1, optFields, bind, Except.bind, pure, Except.pure], h2⟩

/-- The scope of a query over a sub-query. -/
theorem scope_paren {s : Node} (h : Exporting s) :
    ∃ ff, optFields (knownFields (.paren [s])) = .ok ff ∧ Names (innerFields [] ff) (exports s) := by
  obtain ⟨fs, h1, h2⟩ := knownFields_paren_names h
  refine ⟨some fs, by rw [h1]; rfl, ?_⟩
  simpa [innerFields] using names_union names_nil h2

/-- The scope of a query over an aliased sub-query. -/
theorem scope_alias {s : Node} (h : Exporting s) (a : Str) (w : Bool) :
    ∃ ff, optFields (knownFields (.alias (.paren [s]) (.raw a) w)) = .ok ff ∧
      Names (innerFields [] ff) ((exports s).map (dotted a)) := by
  obtain ⟨fs, h1, h2⟩ := knownFields_paren_names h
  obtain ⟨gs, h3, h4⟩ := prefixFields_names a fs names_nil h2
  refine ⟨some gs, ?_, ?_⟩
  · simp only [knownFields, bind, Except.bind] at h1 ⊢
    rw [h1]
    simp only [formatFields_eq, h3]
    rfl
  · simpa [innerFields] using names_union names_nil h4

/-- The scope of a query over a join of aliased sub-queries. -/
theorem scope_join {s s' : Node} (h : Exporting s) (h' : Exporting s') (t a b : Str) (w w' : Bool)
    (on us : Node) :
    ∃ ff, optFields (knownFields (.join t (.alias (.paren [s]) (.raw a) w)
        (.alias (.paren [s']) (.raw b) w') on us)) = .ok ff ∧
      Names (innerFields [] ff) ((exports s).map (dotted a) ++ (exports s').map (dotted b)) := by
  obtain ⟨fs, h1, h2⟩ := knownFields_paren_names h
  obtain ⟨fs', h1', h2'⟩ := knownFields_paren_names h'
  obtain ⟨gs, h3, h4⟩ := prefixFields_names a fs names_nil h2
  obtain ⟨gs', h3', h4'⟩ := prefixFields_names b fs' h4 h2'
  refine ⟨some gs', ?_, ?_⟩
  · rw [knownFields]
    simp only [h1, h1', h3, h3', bind, Except.bind]
    rfl
  · simpa [innerFields] using names_union names_nil h4'

/-! ### Columns in such scopes -/

theorem fieldsWithoutAlias_length (S : List Field) (x : Str) :
    (fieldsWithoutAlias S x).length = S.countP fun f => decide (afterDot f.name = x) := by
  rw [fieldsWithoutAlias, List.countP_eq_length_filter]

/-- A plain column where the known names have no dots. -/
theorem validateColumn_plain {S : List Field} {xs : List Str} (h : Names S xs)
    (hd : ∀ y ∈ xs, '.' ∉ y) (x : Str) :
    validateColumn S x = if x = str!"*" ∨ x ∈ xs ∨ str!"*" ∈ xs then .ok []
      else .ok [str!"The column " ++ x ++ str!" was not found"] := by
  unfold validateColumn
  by_cases hx : x = str!"*" ∨ x ∈ xs ∨ str!"*" ∈ xs
  · rw [if_pos hx, if_neg]
    simp only [Bool.and_eq_true, Bool.not_eq_true', ← Bool.not_eq_true, h.has, decide_eq_true_eq]
    rintro ⟨⟨h1, h2⟩, h3⟩
    rcases hx with hx | hx | hx
    · exact h2 hx
    · exact h1 hx
    · exact h3 hx
  · have hx' := hx
    simp only [not_or] at hx
    have h0 : (fieldsWithoutAlias S x).length = 0 := by
      rw [fieldsWithoutAlias_length, List.countP_eq_zero]
      intro f hf
      have hm : f.name ∈ xs := (h.has _).1 (hasField_iff.2 ⟨f, hf, rfl⟩)
      rw [decide_eq_true_eq, afterDot_plain (hd _ hm)]
      rintro rfl
      exact hx.2.1 hm
    rw [if_neg hx', if_pos, h0]
    · rfl
    · simp only [Bool.and_eq_true, Bool.not_eq_true', ← Bool.not_eq_true, h.has, decide_eq_true_eq]
      exact ⟨⟨hx.2.1, hx.1⟩, hx.2.2⟩

theorem transform_column {x : Str} (h : x ∉ columnKeywords) : transform (.column x) = .ok x := by
  simp [transform, render, R.ofStr, h]

theorem transform_chained {a x : Str} (ha : a ∉ columnKeywords) (hx : x ∉ columnKeywords) :
    transform (.chained (.column a) (.column x)) = .ok (dotted a x) := by
  simp [transform, render, R.ofStr, ha, hx, dotted, bind, Except.bind, pure, Except.pure]

/-- A qualified column, compared as it is printed. -/
theorem validateChained_printed {S : List Field} {xs : List Str} (h : Names S xs) (b x : Str) :
    validateChained S (.column b) (.column x) =
      if dotted (printedName b) (printedName x) ∈ xs ∨ dotted (printedName b) str!"*" ∈ xs ∨ str!"*" ∈ xs then .ok []
      else .ok [str!"The column " ++ printedName x ++ str!" was not found in alias " ++ printedName b] := by
  have ht : ∀ y : Str, (render (.column y)).t = .ok (printedName y) := fun y => rfl
  have hs : (render (.column x)).s = .ok (printedName x) := rfl
  have hc : transform (.chained (.column b) (.column x)) = .ok (dotted (printedName b) (printedName x)) := by
    show (render (.chained (.column b) (.column x))).t = _
    rw [render]
    simp only [R.ofStr, ht]
    rfl
  have ha : transform (.column b) = .ok (printedName b) := rfl
  unfold validateChained
  rw [hc, ha]
  generalize printedName b = b at *
  generalize printedName x = x at *
  simp only [hs, bind, Except.bind, pure, Except.pure]
  have e : (b ++ str!".*") = dotted b str!"*" := by simp [dotted]
  have he : ((!hasField S (dotted b x) && !hasField S (b ++ str!".*") && !hasField S str!"*") = true) ↔
      ¬(dotted b x ∈ xs ∨ dotted b str!"*" ∈ xs ∨ str!"*" ∈ xs) := by
    rw [e]
    simp only [Bool.and_eq_true, Bool.not_eq_true', ← Bool.not_eq_true, h.has, not_or, and_assoc]
  by_cases hc : dotted b x ∈ xs ∨ dotted b str!"*" ∈ xs ∨ str!"*" ∈ xs
  · rw [if_pos hc, if_neg (fun h => he.1 h hc)]
  · rw [if_neg hc, if_pos (he.2 hc)]

/-- A qualified column. -/
theorem validateChained_names {S : List Field} {xs : List Str} (h : Names S xs) {b x : Str}
    (hb : b ∉ columnKeywords) (hx : x ∉ columnKeywords) :
    validateChained S (.column b) (.column x) =
      if dotted b x ∈ xs ∨ dotted b str!"*" ∈ xs ∨ str!"*" ∈ xs then .ok []
      else .ok [str!"The column " ++ x ++ str!" was not found in alias " ++ b] := by
  have e : ∀ {y : Str}, y ∉ columnKeywords → printedName y = y := fun hy => if_neg hy
  rw [validateChained_printed h, e hb, e hx]

theorem countP_or_disjoint {α : Type} (p q : α → Bool) (l : List α)
    (h : ∀ a ∈ l, ¬(p a = true ∧ q a = true)) :
    (l.countP fun a => p a || q a) = l.countP p + l.countP q := by
  induction l with
  | nil => rfl
  | cons a l ih =>
    have := ih fun a ha => h a (by simp [ha])
    have h0 := h a (by simp)
    simp only [List.countP_cons, this]
    cases hp : p a <;> cases hq : q a <;> simp_all <;> omega

/-- A plain column over a join of aliased sides. -/
theorem fieldsWithoutAlias_join {S : List Field} {ys zs : List Str} {a b : Str} (ha : '.' ∉ a)
    (hb : '.' ∉ b) (hab : a ≠ b) (h : Names S (ys.map (dotted a) ++ zs.map (dotted b))) (x : Str) :
    (fieldsWithoutAlias S x).length = countField S (dotted a x) + countField S (dotted b x) := by
  rw [fieldsWithoutAlias_length, countField, countField, ← countP_or_disjoint]
  · apply List.countP_congr
    intro f hf
    have hm := (h.has _).1 (hasField_iff.2 ⟨f, hf, rfl⟩)
    simp only [decide_eq_true_eq, Bool.or_eq_true]
    rw [List.mem_append, List.mem_map, List.mem_map] at hm
    rcases hm with ⟨y, _, hy⟩ | ⟨y, _, hy⟩
    · rw [← hy, afterDot_dotted ha, dotted_inj]
      constructor
      · exact .inl
      · rintro (h | h)
        · exact h
        · exact absurd (dotted_eq ha hb h).1 hab
    · rw [← hy, afterDot_dotted hb, dotted_inj]
      constructor
      · exact .inr
      · rintro (h | h)
        · exact absurd (dotted_eq hb ha h).1.symm hab
        · exact h
  · intro f _
    simp only [decide_eq_true_eq]
    rintro ⟨h1, h2⟩
    exact hab (dotted_eq ha hb (h1.symm.trans h2)).1

/-- An undotted name is not the name of a field of the join. -/
theorem plain_not_joined {ys zs : List Str} {a b x : Str} (hx : '.' ∉ x) :
    x ∉ ys.map (dotted a) ++ zs.map (dotted b) := by
  simp only [List.mem_append, List.mem_map]
  rintro (⟨y, _, rfl⟩ | ⟨y, _, rfl⟩) <;> exact hx (by simp [dotted])

theorem validateColumn_join {S : List Field} {ys zs : List Str} {a b : Str} (ha : '.' ∉ a)
    (hb : '.' ∉ b) (hab : a ≠ b) (h : Names S (ys.map (dotted a) ++ zs.map (dotted b))) {x : Str}
    (hx : '.' ∉ x) (hs : x ≠ str!"*") :
    validateColumn S x =
      if countField S (dotted a x) + countField S (dotted b x) > 1 then
        .ok [str!"column \"" ++ x ++ str!"\" is ambiguous"]
      else if countField S (dotted a x) + countField S (dotted b x) = 0 then
        .ok [str!"The column " ++ x ++ str!" was not found"]
      else .ok [] := by
  unfold validateColumn
  rw [if_pos, fieldsWithoutAlias_join ha hb hab h]
  simp only [Bool.and_eq_true, Bool.not_eq_true', ← Bool.not_eq_true, h.has, decide_eq_true_eq]
  refine ⟨⟨plain_not_joined hx, hs⟩, plain_not_joined (by decide)⟩

end SqlV
