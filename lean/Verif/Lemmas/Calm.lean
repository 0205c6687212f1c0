import Verif.Spec.Calm
import Verif.Lemmas.CorePrintAll
import Verif.Lemmas.Exports
import Verif.Lemmas.Order

/-! Validation of calm statements raises nothing. -/

set_option linter.unusedSectionVars false

namespace SqlV.Core

section

variable [E : PyEnv] [L : LawfulPyEnv E]

/-! ### Types -/

/-- Asking for a type fails with one exception only. -/
theorem returnType_error (n : Node) : ∀ e, returnType n = .error e → e = .attribute := by
  induction n using Node.rec (motive_2 := fun ns => ∀ e, returnTypeHead ns = .error e → e = .attribute) with
  | nil => rename_i h; cases h
  | cons n ns h1 h2 => rename_i e h; exact h1 e h
  | chained l r _ hr => exact hr
  | paren args ih => exact ih
  | «alias» e al w he _ => exact he
  | _ => intro e h; cases h <;> rfl

theorem typed_type (n : Node) : typed (fold n) = true → ∃ t, returnType n = .ok (some t) := by
  induction n using Node.rec (motive_2 := fun ns => typedFirst (foldList ns) = true → ∃ t, returnTypeHead ns = .ok (some t)) with
  | nil => rename_i h; cases h
  | cons n ns h1 h2 => rename_i h; exact h1 h
  | chained l r _ hr => exact hr
  | paren args ih => exact ih
  | «alias» e al w he _ => exact he
  | _ => intro h; first | exact absurd h Bool.false_ne_true | exact ⟨_, rfl⟩

theorem calmList_iff {c : Bool} {ns : List Node} : calmList c ns = true ↔ ∀ n ∈ ns, calm c n = true := by
  induction ns with
  | nil => simp [calmList]
  | cons n ns ih => simp [calmList, ih]

/-- A query with WITH is the only thing in the parentheses, or there is none. -/
theorem unseen_or (args : List Node) : (∃ qs s, args = [.withStmt qs s]) ∨ isUnseen (foldList args) = false := by
  match args with
  | [] => exact .inr rfl
  | [a] => cases a <;> first | exact .inl ⟨_, _, rfl⟩ | exact .inr rfl
  | a :: _ :: _ => exact .inr (by simp [foldList, isUnseen])

/-- A type that is asked for is not `None`. -/
theorem calm_type (n : Node) : ∀ c, calm c (fold n) = true → returnType n ≠ .ok none := by
  induction n using Node.rec (motive_2 := fun ns => ∀ c, (!(foldList ns).isEmpty && calmList c (foldList ns)) = true →
    returnTypeHead ns ≠ .ok none) with
  | nil => rename_i c h; cases h
  | cons n ns h1 h2 =>
    rename_i c h
    simp only [foldList, calmList, List.isEmpty_cons, Bool.not_false, Bool.true_and, Bool.and_eq_true] at h
    exact h1 c h.1
  | chained l r _ hr =>
    intro c h
    simp only [fold, calm, Bool.and_eq_true] at h
    exact hr c h.2
  | paren args ih =>
    intro c h
    rcases unseen_or args with ⟨qs, s, rfl⟩ | hun
    · simp [returnType, returnTypeHead]
    · rw [fold, calm, hun, Bool.false_or] at h
      exact ih c h
  | «alias» e al w he _ => exact he
  | _ => intro c _; simp [returnType]

/-! ### Fields -/

/-- Fields have types. -/
def Sorted (k : List Field) : Prop := ∀ f ∈ k, f.type ≠ none

/-- No field is qualified. -/
def Undotted (k : List Field) : Prop := ∀ f ∈ k, '.' ∉ f.name

/-- Names cannot be ambiguous. -/
def Clear (k : List Field) : Prop := hasField k str!"*" = true ∨ Undotted k

theorem Sorted.add {k : List Field} {f : Field} (hk : Sorted k) (hf : f.type ≠ none) : Sorted (addField k f) := by
  intro g hg
  rcases mem_addField.1 hg with h | rfl
  · exact hk g h
  · exact hf

theorem Sorted.union {a b : List Field} (ha : Sorted a) (hb : Sorted b) : Sorted (unionFields a b) := by
  intro g hg
  rcases mem_unionFields.1 hg with h | h
  · exact ha g h
  · exact hb g h

theorem Undotted.add {k : List Field} {f : Field} (hk : Undotted k) (hf : '.' ∉ f.name) : Undotted (addField k f) := by
  intro g hg
  rcases mem_addField.1 hg with h | rfl
  · exact hk g h
  · exact hf

theorem Undotted.union {a b : List Field} (ha : Undotted a) (hb : Undotted b) : Undotted (unionFields a b) := by
  intro g hg
  rcases mem_unionFields.1 hg with h | h
  · exact ha g h
  · exact hb g h

theorem star_left {a b : List Field} (h : hasField a str!"*" = true) : hasField (unionFields a b) str!"*" = true := by
  obtain ⟨f, hf, hn⟩ := hasField_iff.1 h
  exact hasField_iff.2 ⟨f, mem_unionFields.2 (.inl hf), hn⟩

theorem star_right {a b : List Field} (h : hasField b str!"*" = true) : hasField (unionFields a b) str!"*" = true := by
  obtain ⟨f, hf, hn⟩ := hasField_iff.1 h
  exact hasField_iff.2 ⟨f, mem_unionFields.2 (.inr hf), hn⟩

theorem Clear.union {a b : List Field} (ha : Clear a) (hb : Clear b) : Clear (unionFields a b) := by
  rcases ha with ha | ha
  · exact .inl (star_left ha)
  · rcases hb with hb | hb
    · exact .inl (star_right hb)
    · exact .inr (ha.union hb)

/-- A result with the property, or the exception that is caught. -/
def Either {α : Type} (P : α → Prop) : Except PyErr α → Prop
  | .ok a => P a
  | .error e => e = .attribute

theorem Either.bind {α β : Type} {P : α → Prop} {Q : β → Prop} {x : Except PyErr α} {f : α → Except PyErr β} (hx : Either P x)
    (hf : ∀ a, P a → Either Q (f a)) : Either Q (x >>= f) := by
  cases x with
  | ok a => exact hf a hx
  | error e => exact hx

theorem Either.mono {α : Type} {P Q : α → Prop} {x : Except PyErr α} (hx : Either P x) (h : ∀ a, P a → Q a) : Either Q x := by
  cases x with
  | ok a => exact h a hx
  | error e => exact hx

theorem ident_undotted {s : Str} (h : ident s = true) : '.' ∉ s := by
  intro hd
  simp only [ident, Bool.and_eq_true] at h
  have := List.all_eq_true.1 h.1.1.1.1.2 _ hd
  simp at this

theorem wf_column_undotted {v : Str} (h : wf (.column v) = true) : '.' ∉ v := by
  simp only [wf, Bool.or_eq_true, decide_eq_true_eq] at h
  rcases h with h | rfl
  · exact ident_undotted h
  · decide

/-- The alias of an element of a select list. -/
theorem alias_name {al : Node} (h : isAlias (fold al) true = true ∨ isRaw (fold al) = true) (hl : isLit (fold al) = false) (hw : wf (fold al) = true) :
    ∃ s, aliasField al = .ok s ∧ '.' ∉ s := by
  cases al <;> first | (rcases h with h | h <;> exact absurd h Bool.false_ne_true) | skip
  · exact ⟨_, rfl, ident_undotted hw⟩
  · exact ⟨_, rfl, wf_column_undotted hw⟩
  · rename_i v q pre
    cases pre with
    | none => exact absurd hl (by simp [fold, isLit])
    | some p => rcases h with h | h <;> exact absurd h Bool.false_ne_true

theorem exprFields_either (es : List Node) : ∀ acc c, (∀ e ∈ es, level (fold e) ≤ 4 ∧ wf (fold e) = true ∧ calm c (fold e) = true ∧ litAlias (fold e) = false) →
    Sorted acc → Undotted acc → Either (fun fs => Sorted fs ∧ Undotted fs) (exprFields es acc) := by
  induction es with
  | nil => exact fun acc c _ h1 h2 => ⟨h1, h2⟩
  | cons e es ih =>
    intro acc c h h1 h2
    obtain ⟨hl, hw, hc, hn⟩ := h e (by simp)
    have ih' := fun acc => ih acc c fun x hx => h x (by simp [hx])
    cases e <;> first | exact ih' acc h1 h2 | skip
    · rename_i v
      exact ih' _ (h1.add (by simp)) (h2.add (wf_column_undotted hw))
    · rename_i e al w
      rw [fold] at hl hw hc
      have hal : isAlias (fold al) true = true ∨ isRaw (fold al) = true := by
        have := (level_alias hl).2
        cases w
        · exact .inr this
        · exact .inl this
      simp only [wf, Bool.and_eq_true] at hw
      obtain ⟨s, hs, hd⟩ := alias_name hal hn hw.2
      rw [exprFields]
      simp only
      cases ht : returnType e with
      | error e' => exact returnType_error e e' ht
      | ok ty =>
        rw [hs]
        exact ih' _ (h1.add (by rintro rfl; exact calm_type e c hc ht)) (h2.add hd)

theorem formatFields_either {al : Node} {s : Str} (h : transform al = .ok s) (fs : List Field) : ∀ acc, Sorted fs → Sorted acc →
    Either Sorted (formatFields al fs acc) := by
  induction fs with
  | nil => exact fun acc _ h => h
  | cons f fs ih =>
    intro acc hf ha
    rw [formatFields, h]
    exact ih _ (fun g hg => hf g (by simp [hg])) (ha.add (hf f (by simp)))

theorem prefixFields_either {s : Str} (fs : List Field) : ∀ acc, Sorted fs → Sorted acc →
    Either (fun gs => Sorted gs ∧ (hasField acc str!"*" = true → hasField gs str!"*" = true)) (prefixFields (.raw s) fs acc) := by
  induction fs with
  | nil => exact fun acc _ h => ⟨h, id⟩
  | cons f fs ih =>
    intro acc hf ha
    rw [prefixFields]
    have := ih (addField acc ⟨s ++ str!"." ++ f.name, f.type⟩) (fun g hg => hf g (by simp [hg])) (ha.add (hf f (by simp)))
    exact this.mono fun gs h => ⟨h.1, fun h' => h.2 (hasField_addField.2 (.inl h'))⟩

/-- What is known about the fields of a FROM clause or a query. -/
structure Known (n : Node) (fs : List Field) : Prop where
  sorted : Sorted fs
  clear : clearFrom (fold n) = true → Clear fs
  star : starFrom (fold n) = true → hasField fs str!"*" = true
  plain : n.isSelect = true → Undotted fs

/-- The fields of a FROM clause or a query. -/
def Fields (n : Node) : Prop := ∀ c, wf (fold n) = true → calm c (fold n) = true → namedFrom (fold n) = true → Either (Known n) (knownFields n)

theorem foldList_mem {args : List Node} {a : Node} (h : a ∈ args) : fold a ∈ foldList args := by
  rw [foldList_eq]
  exact List.mem_map_of_mem h

theorem Known.empty (n : Node) (h1 : starFrom (fold n) = false) : Known n [] :=
  ⟨by simp [Sorted], fun _ => .inr (by simp [Undotted]), fun h => (by rw [h1] at h; cases h), fun _ => by simp [Undotted]⟩

theorem fields_paren {args : List Node} (ih : ∀ a ∈ args, Fields a) : Fields (.paren args) := by
  intro c hw hc hp
  rcases unseen_or args with ⟨qs, s, rfl⟩ | hun
  · rw [knownFields, knownFieldsHead, knownFields.eq_def]
    exact Known.empty _ rfl
  rw [fold, calm, hun, Bool.false_or] at hc
  match args with
  | [] => exact absurd hc Bool.false_ne_true
  | a :: as =>
    simp only [fold, foldList, wf, wfList, calmList, List.isEmpty_cons, Bool.not_false, Bool.true_and, Bool.and_eq_true] at hw hc
    have := ih a (by simp) c hw.2.1 hc.1 (by simpa only [fold, foldList, namedFrom] using hp)
    rw [knownFields, knownFieldsHead]
    cases hk : knownFields a with
    | error e =>
      rw [hk] at this
      obtain rfl : e = .attribute := this
      exact Known.empty _ rfl
    | ok fs =>
      rw [hk] at this
      exact ⟨this.sorted, fun h => this.clear h, fun h => (by cases h), fun h => by cases h⟩

theorem isBody_paren {args : List Node} (h : isBody (.paren args) = true) : ∃ a, args = [a] := by
  simp only [isBody, isFrom, isJoin, isSet, isSource, Bool.false_or, Bool.or_false] at h
  match args, h with
  | [a], _ => exact ⟨a, rfl⟩

theorem fields_select {es : List Node} {all d : Bool} {on : List Node} {f w g h o l off : Node} {semi : Bool}
    (ih : ∀ args, f = .paren args → ∀ a ∈ args, Fields a) : Fields (.select es all d on f w g h o l off semi) := by
  intro c hw hc hp
  simp only [fold, wf, calm, Bool.and_eq_true, decide_eq_true_eq] at hw hc
  simp only [fold, namedFrom, Bool.and_eq_true, Bool.not_eq_true', List.any_eq_false] at hp
  obtain ⟨⟨⟨⟨⟨⟨⟨⟨⟨⟨⟨⟨⟨⟨⟨⟨⟨⟨⟨⟨h1, h2⟩, h3⟩, -⟩, -⟩, h6⟩, h7⟩, hf⟩, hwf⟩, -⟩, hww⟩, -⟩, hg⟩, -⟩, hh⟩, -⟩, ho⟩, -⟩, hl⟩, -⟩, hoff⟩ := hw
  obtain ⟨⟨⟨⟨⟨⟨⟨⟨c1, c2⟩, -⟩, -⟩, -⟩, -⟩, -⟩, -⟩, c9⟩ := hc
  rw [wfList_iff] at h3
  rw [calmList_iff] at c1
  have he := exprFields_either es [] (c && clearFrom (fold f)) (fun e he => ⟨levels_fold h2 e he, h3 _ (foldList_mem he), c1 _ (foldList_mem he), by simpa using hp.1 _ (foldList_mem he)⟩)
    (by simp [Sorted]) (by simp [Undotted])
  have hk : ∀ fs, Sorted fs ∧ Undotted fs → Known (.select es all d on f w g h o l off semi) fs := fun fs h =>
    ⟨h.1, fun _ => .inr h.2, fun h => (by cases h), fun _ => h.2⟩
  rw [knownFields.eq_def]
  simp only
  refine he.bind fun fs hfs => ?_
  split
  · rename_i args
    split
    · rcases orNone_or hf with h | h
      · cases h
      · obtain ⟨a, ha⟩ := isBody_paren h
        cases ha
    · rename_i a as
      split
      · rename_i hsel
        have hwf' := hwf
        rcases unseen_or (a :: as) with ⟨qs, s, he⟩ | hun
        · cases he
          cases hsel
        rw [fold, calm, hun, Bool.false_or] at c2
        simp only [fold, foldList, wf, wfList, calmList, List.isEmpty_cons, Bool.not_false, Bool.true_and, Bool.and_eq_true] at hwf' c2
        refine (ih _ rfl a (by simp) true hwf'.2.1 c2.1 (by simpa only [fold, foldList, namedFrom] using c9)).bind fun sub hs => ?_
        split
        · refine hk _ ⟨Sorted.union (fun g hg => hfs.1 g (List.mem_filter.1 hg).1) hs.sorted,
            Undotted.union (fun g hg => hfs.2 g (List.mem_filter.1 hg).1) (hs.plain hsel)⟩
        · exact hk _ hfs
      · exact hk _ hfs
  · exact hk _ hfs

theorem transform_alias {al : Node} (h : isAlias (fold al) true = true ∨ isRaw (fold al) = true) : ∃ s, transform al = .ok s := by
  cases al <;> first | (rcases h with h | h <;> exact absurd h Bool.false_ne_true) | exact ⟨_, rfl⟩

theorem wf_alias {e al : Node} {w : Bool} (h : wf (fold (.alias e al w)) = true) :
    (isAlias (fold al) true = true ∨ isRaw (fold al) = true) ∧ wf (fold e) = true ∧ wf (fold al) = true := by
  simp only [fold, wf, Bool.and_eq_true, Bool.or_eq_true] at h
  obtain ⟨⟨h1, h2⟩, h3⟩ := h
  refine ⟨?_, h2, h3⟩
  rcases h1 with h1 | h1
  · cases w
    · exact .inr h1.2
    · exact .inl h1.2
  · exact .inr h1.2

theorem fields_alias {e al : Node} {w : Bool} (ih : Fields e) : Fields (.alias e al w) := by
  intro c hw hc hp
  obtain ⟨h1, h2, -⟩ := wf_alias hw
  obtain ⟨s, hs⟩ := transform_alias h1
  rw [knownFields]
  refine (ih c h2 hc hp).bind fun fs hfs => ?_
  exact (formatFields_either hs fs [] hfs.sorted (by simp [Sorted])).mono fun gs hgs =>
    ⟨hgs, fun h => (by cases h), fun h => (by cases h), fun h => by cases h⟩

/-- The fields of a side of a join, added to others. -/
theorem side_either {n : Node} (hs : isLeft (fold n) = true ∨ isFrom (fold n) = true) (hw : wf (fold n) = true) (hc : calm true (fold n) = true)
    (hp : namedFrom (fold n) = true) (ih : Fields n) (ih' : ∀ e al w, n = .alias e al w → Fields e) (acc : List Field) (ha : Sorted acc) :
    Either (fun gs => Sorted gs ∧ (hasField acc str!"*" = true ∨ starFrom (fold n) = true → hasField gs str!"*" = true) ∧
      (Clear acc → clearFrom (fold n) = true → Clear gs)) (sideFields n acc) := by
  by_cases hal : ∃ e al w, n = .alias e al w
  · obtain ⟨e, al, w, rfl⟩ := hal
    obtain ⟨-, h2, -⟩ := wf_alias hw
    have hr : isRaw (fold al) = true := by
      have : isSource (.alias (fold e) (fold al) w) = true := by
        rcases hs with h | h
        · exact h
        · exact h
      simp only [isSource, Bool.and_eq_true] at this
      exact this.2
    cases al <;> first | exact absurd hr Bool.false_ne_true | skip
    rename_i s
    rw [sideFields]
    refine (ih' _ _ _ rfl true h2 hc hp).bind fun fs hfs => ?_
    refine (prefixFields_either fs acc hfs.sorted ha).mono fun gs hgs => ⟨hgs.1, ?_, fun _ h => (by cases h)⟩
    rintro (h | h)
    · exact hgs.2 h
    · cases h
  · rw [sideFields_other n acc (fun e a w h => hal ⟨e, a, w, h⟩)]
    refine (ih true hw hc hp).bind fun fs hfs => ⟨ha.union hfs.sorted, ?_, fun h h' => h.union (hfs.clear h')⟩
    rintro (h | h)
    · exact star_left h
    · exact star_right (hfs.star h)

theorem fields_join {type : Str} {l r on us : Node} (ihl : Fields l) (ihr : Fields r) (ihl' : ∀ e al w, l = .alias e al w → Fields e)
    (ihr' : ∀ e al w, r = .alias e al w → Fields e) : Fields (.join type l r on us) := by
  intro c hw hc hp
  simp only [fold, namedFrom, Bool.and_eq_true] at hp
  simp only [fold, wf, calm, Bool.and_eq_true, Bool.or_eq_true] at hw hc
  obtain ⟨⟨⟨⟨⟨h1, h2⟩, h3⟩, h4⟩, h5⟩, h6⟩ := hw
  have hr : isLeft (fold r) = true ∨ isFrom (fold r) = true := by
    rcases h6 with h | h
    · exact .inr (plain_from h.1.2)
    · exact .inr h.1.1.2
  rw [knownFields_join]
  refine (side_either (.inl h1) h2 hc.1 hp.1 ihl ihl' [] (by simp [Sorted])).bind fun gs hgs => ?_
  refine (side_either hr h3 hc.2 hp.2 ihr ihr' gs hgs.1).mono fun fs hfs => ⟨hfs.1, fun h => ?_, fun h => ?_, fun h => by cases h⟩
  · simp only [fold, clearFrom, Bool.or_eq_true, Bool.and_eq_true] at h
    rcases h with (h | h) | h
    · exact .inl (hfs.2.1 (.inl (hgs.2.1 (.inr h))))
    · exact .inl (hfs.2.1 (.inr h))
    · exact hfs.2.2 (hgs.2.2 (.inr (by simp [Undotted])) h.1) h.2
  · simp only [fold, starFrom, Bool.or_eq_true] at h
    rcases h with h | h
    · exact hfs.2.1 (.inl (hgs.2.1 (.inr h)))
    · exact hfs.2.1 (.inr h)

theorem fields (n : Node) : Fields n := by
  induction h : sizeOf n using Nat.strongRecOn generalizing n with
  | _ k ih =>
    subst h
    cases n with
    | paren args => exact fields_paren fun a ha => ih _ (by have := List.sizeOf_lt_of_mem ha; simp only [Node.paren.sizeOf_spec]; omega) a rfl
    | select es all d on f w g h o l off semi =>
      refine fields_select ?_
      rintro args rfl a ha
      exact ih _ (by have := List.sizeOf_lt_of_mem ha; simp only [Node.select.sizeOf_spec, Node.paren.sizeOf_spec]; omega) a rfl
    | «alias» e al w => exact fields_alias (ih _ (by simp only [Node.alias.sizeOf_spec]; omega) e rfl)
    | table v sq =>
      intro c _ _ _
      rw [knownFields]
      exact ⟨by simp [Sorted], fun _ => .inl (by decide), fun _ => by decide, fun h => by cases h⟩
    | join type l r on us =>
      refine fields_join (ih _ (by simp only [Node.join.sizeOf_spec]; omega) l rfl) (ih _ (by simp only [Node.join.sizeOf_spec]; omega) r rfl) ?_ ?_
      · rintro e al w rfl
        exact ih _ (by simp only [Node.join.sizeOf_spec, Node.alias.sizeOf_spec]; omega) e rfl
      · rintro e al w rfl
        exact ih _ (by simp only [Node.join.sizeOf_spec, Node.alias.sizeOf_spec]; omega) e rfl
    | _ =>
      intro c _ _ _
      rw [knownFields.eq_def]
      rfl

end

end SqlV.Core
