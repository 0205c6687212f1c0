import Verif.Spec.Verdict
import Verif.Lemmas.Scope

/-! The columns that FROM clauses and queries of any form offer. -/

set_option linter.unusedSectionVars false

namespace SqlV.Verdict

open SqlV.Core (has anything column? untyped untypedFirst untypedAlias expand qualify bare found plainAliases first firstOf kind kindFirst conditioned
  Offer Match has_eq formatFields_mem prefixFields_mem qualify_mem nodup_union)
open SqlV.Printable (isStatement)

section

variable [E : PyEnv] [L : LawfulPyEnv E]

/-- The fields are those; or there are none and the exception that is caught is raised; or another is raised. -/
def Tells (b : Bool) (o : Option (List Field)) (x : Except PyErr (List Field)) : Prop :=
  if b then Offer o x else ∃ e, e ≠ .attribute ∧ x = .error e

theorem type_of (n : Node) : if untyped n then kind n = none ∧ returnType n = .error .attribute else returnType n = .ok (kind n) := by
  induction n using Node.rec (motive_2 := fun ns => if untypedFirst ns then kindFirst ns = none ∧ returnTypeHead ns = .error .attribute
    else returnTypeHead ns = .ok (kindFirst ns)) with
  | nil => rfl
  | cons n ns h1 h2 => exact h1
  | chained l r _ hr => exact hr
  | paren args ih => exact ih
  | «alias» e al w he _ => exact he
  | _ => first | rfl | exact ⟨rfl, rfl⟩

/-- The fields of a select list. -/
def Items (es : List Node) (acc : List Field) (x : Except PyErr (List Field)) : Prop :=
  if named es then
    if es.any untypedAlias then x = .error .attribute
    else ∃ fs, x = .ok fs ∧ ∀ f, f ∈ fs ↔ f ∈ acc ∨ f ∈ es.filterMap column?
  else ∃ e, e ≠ .attribute ∧ x = .error e

theorem Items.plain {e : Node} {es : List Node} {acc : List Field} {x : Except PyErr (List Field)} (h1 : named (e :: es) = named es)
    (h2 : untypedAlias e = false) (h3 : column? e = none) (h : Items es acc x) : Items (e :: es) acc x := by
  unfold Items at h ⊢
  rw [h1, List.any_cons, h2, Bool.false_or]
  simp only [List.filterMap_cons, h3]
  exact h

theorem Items.makes {e : Node} {es : List Node} {acc : List Field} {f : Field} {x : Except PyErr (List Field)} (h1 : named (e :: es) = named es)
    (h2 : untypedAlias e = false) (h3 : column? e = some f) (h : Items es (addField acc f) x) : Items (e :: es) acc x := by
  unfold Items at h ⊢
  rw [h1, List.any_cons, h2, Bool.false_or]
  simp only [List.filterMap_cons, h3]
  split
  · rename_i hn
    rw [if_pos hn] at h
    split
    · rename_i hu
      rw [if_pos hu] at h
      exact h
    · rename_i hu
      rw [if_neg hu] at h
      obtain ⟨fs, e1, e2⟩ := h
      refine ⟨fs, e1, fun g => ?_⟩
      rw [e2, mem_addField, List.mem_cons, or_assoc]
  · rename_i hn
    rw [if_neg hn] at h
    exact h

theorem items (es : List Node) : ∀ acc, Items es acc (exprFields es acc) := by
  induction es with
  | nil => exact fun acc => by simp [Items, named, exprFields]
  | cons e es ih =>
    intro acc
    cases e <;> first | exact Items.plain rfl rfl rfl (ih acc) | skip
    · exact Items.makes rfl rfl rfl (ih _)
    · rename_i e al w
      have ht := type_of e
      cases hu : untyped e with
      | true =>
        rw [if_pos hu] at ht
        rw [exprFields]
        simp only [ht.2]
        have hn : named (.alias e al w :: es) = true := by cases al <;> simp [named, hu]
        have ha : (Node.alias e al w :: es).any untypedAlias = true := by simp [untypedAlias, hu]
        rw [Items, if_pos hn, if_pos ha]
        rfl
      | false =>
        rw [if_neg (by simp [hu])] at ht
        have good : ∀ s, aliasField al = .ok s → Core.aliasName al = s → named (.alias e al w :: es) = named es →
            Items (.alias e al w :: es) acc (exprFields (.alias e al w :: es) acc) := by
          intro s h1 h2 h3
          refine Items.makes (f := ⟨s, kind e⟩) h3 (by simp [untypedAlias, hu]) (by simp [column?, h2]) ?_
          rw [exprFields]
          simp only [ht, h1, bind, Except.bind, pure, Except.pure]
          exact ih _
        have bad : aliasField al = .error .type → named (.alias e al w :: es) = false →
            Items (.alias e al w :: es) acc (exprFields (.alias e al w :: es) acc) := by
          intro h1 h2
          rw [Items, if_neg (by simp [h2]), exprFields]
          simp only [ht, h1, bind, Except.bind]
          exact ⟨_, by simp, rfl⟩
        cases al <;> first | exact good _ rfl rfl (by simp [named, hu]) | exact bad rfl (by simp [named, hu])

theorem Tells.cases {b : Bool} {o : Option (List Field)} {x : Except PyErr (List Field)} (h : Tells b o x) :
    (b = true ∧ ∃ os fs, o = some os ∧ x = .ok fs ∧ ∀ f, f ∈ fs ↔ f ∈ os) ∨ (b = true ∧ o = none ∧ x = .error .attribute) ∨
      (b = false ∧ ∃ e, e ≠ .attribute ∧ x = .error e) := by
  cases b with
  | true =>
    rcases Core.Offer.cases h with h | h
    · exact .inl ⟨rfl, h⟩
    · exact .inr (.inl ⟨rfl, h⟩)
  | false => exact .inr (.inr ⟨rfl, h⟩)

theorem tells_some {b : Bool} {o : Option (List Field)} {x : Except PyErr (List Field)} {os fs : List Field} (hb : b = true) (ho : o = some os)
    (hx : x = .ok fs) (h : ∀ f, f ∈ fs ↔ f ∈ os) : Tells b o x := by
  subst hb ho hx
  exact h

theorem tells_none {b : Bool} {o : Option (List Field)} {x : Except PyErr (List Field)} (hb : b = true) (ho : o = none)
    (hx : x = .error .attribute) : Tells b o x := by
  subst hb ho hx
  rfl

theorem tells_error {b : Bool} {o : Option (List Field)} {x : Except PyErr (List Field)} {e : PyErr} (hb : b = false) (he : e ≠ .attribute)
    (hx : x = .error e) : Tells b o x := by
  subst hb hx
  exact ⟨e, he, rfl⟩

/-- What a FROM clause or a query offers. -/
def Told (n : Node) : Prop := Tells (listable false n) (offer n) (knownFields n)

theorem isStatement_eq (n : Node) : n.isSelect = isStatement n := by cases n <;> rfl

theorem told_paren {args : List Node} (ih : ∀ a ∈ args, Told a) : Told (.paren args) := by
  cases args with
  | nil => exact tells_error (e := .index) rfl (by simp) rfl
  | cons a as =>
    unfold Told
    rw [knownFields, knownFieldsHead, offer, listable]
    rcases (ih a (by simp)).cases with ⟨h1, os, fs, h2, h3, h4⟩ | ⟨h1, h2, h3⟩ | ⟨h1, e, h2, h3⟩
    · exact tells_some (fs := fs) h1 (by rw [h2]; rfl) (by rw [h3]; rfl) h4
    · exact tells_some (fs := []) h1 (by rw [h2]; rfl) (by rw [h3]; rfl) fun _ => Iff.rfl
    · refine tells_error h1 h2 ?_
      rw [h3]
      cases e <;> first | exact absurd rfl h2 | rfl

theorem listable_select (es : List Node) (all d : Bool) (on : List Node) (f w g h o l off : Node) (semi j : Bool) :
    listable j (.select es all d on f w g h o l off semi) = (named es && (es.any untypedAlias || match f with
      | .paren [] => false
      | .paren (s :: _) => !isStatement s || listable false s
      | _ => true)) := by
  cases f with
  | paren args => cases args <;> simp only [listable]
  | _ => simp only [listable]

theorem offer_select (es : List Node) (all d : Bool) (on : List Node) (f w g h o l off : Node) (semi : Bool) :
    offer (.select es all d on f w g h o l off semi) = if es.any untypedAlias then none else
      match f with
      | .paren (s :: _) => if isStatement s then (offer s).map (expand (es.filterMap column?)) else some (es.filterMap column?)
      | _ => some (es.filterMap column?) := by
  cases f with
  | paren args => cases args <;> simp only [offer]
  | _ => simp only [offer]

theorem told_select {es : List Node} {all d : Bool} {on : List Node} {f w g h o l off : Node} {semi : Bool}
    (ih : ∀ args, f = .paren args → ∀ a ∈ args, Told a) : Told (.select es all d on f w g h o l off semi) := by
  have he := items es []
  unfold Items at he
  unfold Told
  rw [listable_select, offer_select, knownFields.eq_def]
  simp only
  split at he
  · rename_i hn
    rw [hn, Bool.true_and]
    split at he
    · rename_i hu
      rw [hu, he]
      exact tells_none rfl rfl rfl
    · rename_i hu
      rw [Bool.eq_false_iff.2 hu, Bool.false_or]
      obtain ⟨fs, e1, e2⟩ := he
      have e2 : ∀ g, g ∈ fs ↔ g ∈ es.filterMap column? := fun g => by simpa using e2 g
      rw [e1]
      simp only [bind, Except.bind, Bool.false_eq_true, if_false]
      cases f with
      | paren args =>
        cases args with
        | nil => exact tells_error (e := .index) rfl (by simp) rfl
        | cons a as =>
          simp only
          rw [isStatement_eq]
          by_cases hs : isStatement a = true
          · rw [if_pos hs, if_pos hs, hs]
            simp only [Bool.not_true, Bool.false_or]
            rcases (ih _ rfl a (by simp)).cases with ⟨h1, os, gs, h2, h3, h4⟩ | ⟨h1, h2, h3⟩ | ⟨h1, e, h2, h3⟩
            · rw [h3]
              simp only
              refine tells_some (fs := if (hasField fs str!"*" && !hasField gs str!"*") = true then unionFields (fs.filter fun f => decide (f.name ≠ str!"*")) gs else fs)
                h1 (by rw [h2]; rfl) (by split <;> rfl) ?_
              rw [expand, ← has_eq e2, ← has_eq h4]
              split
              · intro x
                rw [mem_unionFields, List.mem_filter, List.mem_append, List.mem_filter, e2, h4]
              · exact e2
            · exact tells_none h1 (by rw [h2]; rfl) (by rw [h3])
            · exact tells_error h1 h2 (by rw [h3])
          · rw [if_neg hs, if_neg hs]
            exact tells_some (by simp [hs]) rfl rfl e2
      | _ => exact tells_some rfl rfl rfl e2
  · rename_i hn
    obtain ⟨e, h1, h2⟩ := he
    exact tells_error (by simp [hn]) h1 (by rw [h2]; rfl)

theorem formatFields_error {al : Node} {e : PyErr} (h : transform al = .error e) (f : Field) (fs acc : List Field) :
    formatFields al (f :: fs) acc = .error e := by
  rw [formatFields, h]
  rfl

theorem empty_iff {fs os : List Field} (h : ∀ f, f ∈ fs ↔ f ∈ os) : fs = [] ↔ os = [] := by
  simp only [List.eq_nil_iff_forall_not_mem, h]

theorem told_alias {e al : Node} {w : Bool} (ih : Told e) : Told (.alias e al w) := by
  unfold Told
  rw [knownFields, offer, listable]
  rcases ih.cases with ⟨h1, os, fs, h2, h3, h4⟩ | ⟨h1, h2, h3⟩ | ⟨h1, x, h2, h3⟩
  · rw [h1, h2, h3, Bool.true_and, Option.getD_some, Option.bind_some]
    simp only [bind, Except.bind]
    by_cases ho : os = []
    · obtain rfl := (empty_iff h4).2 ho
      subst ho
      exact tells_some rfl rfl rfl fun _ => Iff.rfl
    · have hf : fs ≠ [] := fun h => ho ((empty_iff h4).1 h)
      have hoe : os.isEmpty = false := by simpa using ho
      rw [hoe, Bool.false_or]
      simp only [Bool.false_eq_true, if_false]
      cases ht : transform al with
      | ok s =>
        obtain ⟨gs, k1, k2⟩ := formatFields_mem ht fs []
        refine tells_some (by simp [mild, ht]) (by simp [text, ht]; rfl) k1 fun f => ?_
        rw [k2, qualify_mem h4]
        simp
      | error x =>
        obtain ⟨f, fs', rfl⟩ := List.exists_cons_of_ne_nil hf
        rw [formatFields_error ht]
        by_cases hx : x = .attribute
        · exact tells_none (by simp [mild, ht, hx]) (by simp [text, ht]) (by rw [hx])
        · exact tells_error (by simp [mild, ht, hx]) hx rfl
  · rw [h1, h2, h3]
    exact tells_none rfl rfl rfl
  · rw [h1, h3]
    exact tells_error rfl h2 rfl

/-- A side of a join. -/
theorem told_side {n : Node} (ih : Told n) (ih' : ∀ e al w, n = .alias e al w → Told e) (acc : List Field) :
    Tells (listable true n) ((offer n).map (acc ++ ·)) (sideFields n acc) := by
  by_cases hal : ∃ e al w, n = .alias e al w
  · obtain ⟨e, al, w, rfl⟩ := hal
    rw [sideFields, offer, listable]
    rcases (ih' _ _ _ rfl).cases with ⟨h1, os, fs, h2, h3, h4⟩ | ⟨h1, h2, h3⟩ | ⟨h1, x, h2, h3⟩
    · rw [h1, h2, h3, Bool.true_and, Option.getD_some, Option.bind_some]
      simp only [bind, Except.bind]
      by_cases ho : os = []
      · obtain rfl := (empty_iff h4).2 ho
        subst ho
        exact tells_some rfl rfl rfl fun _ => by simp
      · have hf : fs ≠ [] := fun h => ho ((empty_iff h4).1 h)
        have hoe : os.isEmpty = false := by simpa using ho
        rw [hoe, Bool.false_or]
        simp only [Bool.false_eq_true, if_false]
        by_cases hr : isPlain al = true
        · cases al <;> first | exact absurd hr Bool.false_ne_true | skip
          rename_i s
          obtain ⟨gs, k1, k2⟩ := prefixFields_mem (s := s) fs acc
          refine tells_some (os := acc ++ qualify s os) rfl rfl k1 fun f => ?_
          rw [k2, qualify_mem h4, List.mem_append]
        · obtain ⟨f, fs', rfl⟩ := List.exists_cons_of_ne_nil hf
          refine tells_error (e := .type) (by simp [hr]) (by simp) ?_
          cases al <;> first | exact absurd rfl hr | rfl
    · rw [h1, h2, h3]
      exact tells_none rfl rfl rfl
    · rw [h1, h3]
      exact tells_error rfl h2 rfl
  · have hl : listable true n = listable false n := by
      cases n with
      | «alias» e al w => exact absurd ⟨e, al, w, rfl⟩ hal
      | paren args => cases args <;> simp [listable]
      | select => rw [listable_select, listable_select]
      | _ => simp [listable]
    rw [sideFields_other n acc (fun e a w h => hal ⟨e, a, w, h⟩), hl]
    rcases ih.cases with ⟨h1, os, fs, h2, h3, h4⟩ | ⟨h1, h2, h3⟩ | ⟨h1, x, h2, h3⟩
    · rw [h3]
      refine tells_some (os := acc ++ os) h1 (by rw [h2]; rfl) rfl fun f => ?_
      rw [mem_unionFields, h4, List.mem_append]
    · exact tells_none h1 (by rw [h2]; rfl) (by rw [h3]; rfl)
    · exact tells_error h1 h2 (by rw [h3]; rfl)

theorem told_join {type : Str} {l r on us : Node} (ihl : Told l) (ihr : Told r) (ihl' : ∀ e al w, l = .alias e al w → Told e)
    (ihr' : ∀ e al w, r = .alias e al w → Told e) : Told (.join type l r on us) := by
  unfold Told
  rw [knownFields_join, offer, listable]
  have hm : (offer l).map ([] ++ ·) = offer l := by cases offer l <;> rfl
  have hl := told_side ihl ihl' []
  rw [hm] at hl
  rcases hl.cases with ⟨h1, os, fs, h2, h3, h4⟩ | ⟨h1, h2, h3⟩ | ⟨h1, x, h2, h3⟩
  · rw [h1, h2, h3]
    simp only [bind, Except.bind, Option.bind_some, Option.isSome_some, Bool.not_true, Bool.false_or, Bool.true_and]
    rcases (told_side ihr ihr' fs).cases with ⟨g1, os', fs', g2, g3, g4⟩ | ⟨g1, g2, g3⟩ | ⟨g1, x, g2, g3⟩
    · obtain ⟨y, hy, rfl⟩ := Option.map_eq_some_iff.1 g2
      refine tells_some (os := os ++ y) g1 (by rw [hy]; rfl) g3 fun f => ?_
      rw [g4, List.mem_append, List.mem_append, h4]
    · exact tells_none g1 (by rw [Option.map_eq_none_iff.1 g2]; rfl) g3
    · exact tells_error g1 g2 g3
  · rw [h1, h2, h3]
    exact tells_none rfl rfl rfl
  · rw [h1, h3]
    exact tells_error rfl h2 rfl

theorem told (n : Node) : Told n := by
  induction h : sizeOf n using Nat.strongRecOn generalizing n with
  | _ k ih =>
    subst h
    cases n with
    | paren args => exact told_paren fun a ha => ih _ (by have := List.sizeOf_lt_of_mem ha; simp only [Node.paren.sizeOf_spec]; omega) a rfl
    | select es all d on f w g h o l off semi =>
      refine told_select ?_
      rintro args rfl a ha
      exact ih _ (by have := List.sizeOf_lt_of_mem ha; simp only [Node.select.sizeOf_spec, Node.paren.sizeOf_spec]; omega) a rfl
    | «alias» e al w => exact told_alias (ih _ (by simp only [Node.alias.sizeOf_spec]; omega) e rfl)
    | table v sq => exact tells_some rfl rfl rfl fun _ => Iff.rfl
    | join type l r on us =>
      refine told_join (ih _ (by simp only [Node.join.sizeOf_spec]; omega) l rfl) (ih _ (by simp only [Node.join.sizeOf_spec]; omega) r rfl) ?_ ?_
      · rintro e al w rfl
        exact ih _ (by simp only [Node.join.sizeOf_spec, Node.alias.sizeOf_spec]; omega) e rfl
      · rintro e al w rfl
        exact ih _ (by simp only [Node.join.sizeOf_spec, Node.alias.sizeOf_spec]; omega) e rfl
    | _ => exact tells_none rfl rfl rfl

end

end SqlV.Verdict
