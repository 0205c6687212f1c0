import Verif.Spec.Notes
import Verif.Lemmas.Verdict
import Verif.Lemmas.Report

/-! The messages of validation are those that are told. -/

set_option linter.unusedSectionVars false
set_option linter.unusedSimpArgs false
set_option linter.unusedTactic false

namespace SqlV.Notes

open SqlV.Core (has found candidate kind first firstOf conditioned untyped agree called columnNotes groupNotes countNotes positionNotes keyNotes
  Match Fine' nodup_union mute resolveType_eq candidate_iff column_says)
open SqlV.Shown (present)
open SqlV.Verdict (text typable inside unparen_eq type_of mute_eq plain_eq)
open SqlV.Printable (isStatement)

section

variable [E : PyEnv] [L : LawfulPyEnv E] {ks k : List Field}

/-- If it comes to messages, these are among the given lists. -/
def Ends (x : VRes) (a : Notes) : Prop := ∀ ms, x = .ok ms → a ms

theorem Ends.error {e : PyErr} {a : Notes} : Ends (.error e) a := fun _ h => by cases h

theorem Ends.nil : Ends (.ok []) silent := fun _ h => by cases h; rfl

theorem Ends.one {m : Str} : Ends (.ok [m]) (note m) := fun _ h => by cases h; rfl

theorem Ends.eq {x : VRes} {r : Core.Notes} (h : x = r) : Ends x (given r) := fun _ hm => h ▸ hm

theorem Ends.then {x y : VRes} {a b : Notes} (hx : Ends x a) (hy : Ends y b) : Ends (do
    let p ← x
    let q ← y
    return p ++ q) (a ⨾ b) := by
  intro ms h
  cases x with
  | error e => cases h
  | ok p =>
    cases y with
    | error e => cases h
    | ok q => cases h; exact ⟨p, q, hx p rfl, hy q rfl, rfl⟩

theorem Ends.opt {c : Node} {x : VRes} {a : Notes} (h : Ends x a) : Ends (optV c x) (clause c a) := by
  unfold optV clause
  cases c <;> first | exact Ends.nil | exact h

/-! ### Single checks -/

theorem key_eq (hm : Match ks k) (es : List Node) (a : Node) : validateGroupArg ks es a = groupNotes k es a := by
  have check : ∀ v : Str, (if (!hasField ks v && decide (v ∉ rawAliases es) && !hasField ks str!"*") = true then
      if (fieldsWithoutAlias ks v).length > 1 then (.error .attribute : VRes)
      else if (fieldsWithoutAlias ks v).length = 0 then return [str!"column \"" ++ v ++ str!"\" does not exist"] else return []
      else return []) = keyNotes k es v := by
    intro v
    have hf := hm.found v
    have hc := candidate_iff hm v
    unfold keyNotes
    rw [plain_eq]
    by_cases hs : v ∈ rawAliases es
    · simp [hs, pure, Except.pure]
    by_cases hfd : found k v = true
    · rw [if_pos (c := (found k v || _) = true) (by rw [hfd, Bool.true_or])]
      rw [hf] at hfd
      split
      · rename_i h
        simp only [Bool.and_eq_true, Bool.not_eq_true', decide_eq_true_eq] at h
        simp only [h.1.1, h.2, Bool.false_eq_true, false_or] at hfd
        simp [hfd, pure, Except.pure]
      · rfl
    · rw [if_neg (c := (found k v || _) = true) (by simp [hs, hfd])]
      rw [hf] at hfd
      simp only [not_or, Bool.not_eq_true] at hfd
      rw [if_pos (by simp [hfd, hs])]
      by_cases hcd : candidate k v = true
      · rw [if_pos hcd]
        rw [hc] at hcd
        rw [if_pos (by omega)]
      · rw [if_neg hcd]
        rw [hc, not_not] at hcd
        rw [if_neg (by omega), if_pos hcd]
        rfl
  unfold validateGroupArg groupNotes
  rw [unparen_eq]
  cases first a with
  | none => rfl
  | some m =>
    cases m with
    | int i =>
      simp only [bind, Except.bind, positionNotes]
      by_cases hi : i ≤ 0 ∨ i > es.length
      · rw [if_pos hi, if_neg (by omega)]
        simp [pure, Except.pure]
      · rw [if_neg hi, if_pos (by omega)]
        rfl
    | column v => exact check v
    | string v q p => exact check v
    | _ => rfl

theorem ends_keys (hm : Match ks k) (es args : List Node) : Ends (validateGroupBy ks es args) (keys k es args) := by
  unfold validateGroupBy
  induction args with
  | nil => exact Ends.nil
  | cons a as ih => exact (Ends.eq (key_eq hm es a)).then ih

theorem count_eq (v : Node) (a b : Str) : validateCount v a b = countNotes a b v := by
  unfold validateCount countNotes
  rw [unparen_eq]
  cases first v with
  | none => rfl
  | some m =>
    simp only [bind, Except.bind]
    have ht := type_of m
    split at ht
    · rename_i hu
      rw [ht.2]
      cases m <;> first | rfl | (simp [hu]; done) | exact absurd hu Bool.false_ne_true
    · rename_i hu
      rw [ht]
      cases m with
      | int i =>
        simp only [kind, ne_eq, not_true_eq_false, if_false]
        by_cases hi : i < 0
        · rw [if_pos hi, if_neg (by omega)]
          rfl
        · rw [if_neg hi, if_pos (by omega)]
          rfl
      | _ =>
        rw [Bool.not_eq_true] at hu
        simp [hu, pure, Except.pure]

theorem ends_type (word : Str) (ty : Option PType) : Ends (do
    if notBoolean ty then do
      let name ← typeName ty
      return [str!"The argument of " ++ word ++ str!" must be type boolean, not type " ++ name]
    else return []) fun ms => ∃ t, ty = some t ∧ ms = match t with
      | .bool => []
      | .object => []
      | t => [str!"The argument of " ++ word ++ str!" must be type boolean, not type " ++ called t] := by
  intro ms h
  cases ty with
  | none => cases h
  | some t => exact ⟨t, rfl, by cases t <;> cases h <;> rfl⟩

theorem ends_truth (hm : Match ks k) (word : Str) (n : Node) :
    Ends (mustBeBoolean (str!"The argument of " ++ word ++ str!" must be type boolean, not type ") n ks) (truth k word n) := by
  have hty : ∀ x : Except PyErr (Option PType), x = returnType n → Ends (x >>= fun ty => (do
      if notBoolean ty then do
        let name ← typeName ty
        return [str!"The argument of " ++ word ++ str!" must be type boolean, not type " ++ name]
      else return [])) fun ms => ∃ t, kind n = some t ∧ ms = match t with
      | .bool => []
      | .object => []
      | t => [str!"The argument of " ++ word ++ str!" must be type boolean, not type " ++ called t] := by
    rintro _ rfl
    have := type_of n
    split at this
    · rw [this.2]
      exact Ends.error
    · rw [this]
      exact ends_type word (kind n)
  have hemp : ks.isEmpty = k.isEmpty := by
    rw [Bool.eq_iff_iff, List.isEmpty_iff, List.isEmpty_iff]
    exact Verdict.empty_iff hm.mem
  unfold mustBeBoolean
  rw [resolveType_eq, mute_eq, hemp]
  intro ms h
  cases ht : typable n with
  | false =>
    rw [ht] at h
    cases h
  | true =>
    simp only [ht, Bool.not_true, Bool.false_eq_true, if_false] at h
    refine ⟨ht, ?_⟩
    unfold typed
    cases hk : k.isEmpty with
    | true =>
      simp only [hk, if_true] at h ⊢
      exact hty _ rfl ms h
    | false =>
      simp only [hk, Bool.false_eq_true, if_false] at h ⊢
      unfold text
      cases hx : transform n with
      | error e =>
        rw [hx] at h
        cases h
      | ok x =>
        rw [hx] at h
        simp only [bind, Except.bind] at h
        have hmem : ∀ f, f ∈ (E.setOrder ks).filter (fun f => decide (f.name = x)) ↔ f ∈ k ∧ f.name = x := by
          intro f
          rw [List.mem_filter, (L.setOrder_perm ks).mem_iff, hm.mem, decide_eq_true_eq]
        have hhas : has k x = true ↔ ∃ f ∈ k, f.name = x := by
          simp [has]
        generalize (E.setOrder ks).filter (fun f => decide (f.name = x)) = fs at hmem h
        cases fs with
        | nil =>
          have : has k x = false := by
            rw [← Bool.not_eq_true, hhas]
            rintro ⟨f, hf⟩
            exact absurd ((hmem f).2 hf) (by simp)
          simp only [this, Bool.false_eq_true, if_false]
          exact hty _ rfl ms h
        | cons f fs =>
          have hf := (hmem f).1 (by simp)
          simp only [hhas.2 ⟨f, hf⟩, if_true]
          obtain ⟨t, h1, h2⟩ := ends_type word f.type ms h
          exact ⟨t, ⟨f, hf.1, hf.2, h1⟩, h2⟩

theorem ends_truth' (hm : Match ks k) {msg word : Str} (h : msg = str!"The argument of " ++ word ++ str!" must be type boolean, not type ")
    (n : Node) : Ends (mustBeBoolean msg n ks) (truth k word n) := h ▸ ends_truth hm word n

theorem ends_path (hm : Match ks k) (l r : Node) : Ends (validateChained ks l r) (path k l r) := by
  unfold validateChained path text strText
  cases transform (.chained l r) with
  | error e => exact Ends.error
  | ok x =>
    cases transform l with
    | error e => exact Ends.error
    | ok y =>
      simp only [bind, Except.bind]
      rw [hm.has, hm.has, hm.has]
      cases has k str!"*" <;> cases has k x <;> cases has k (y ++ str!".*") <;>
        simp only [Bool.not_true, Bool.not_false, Bool.true_and, Bool.false_and, Bool.and_true, Bool.and_false, Bool.true_or, Bool.or_true,
          Bool.false_or, Bool.or_false, if_true, Bool.false_eq_true, if_false] <;>
        first
        | exact Ends.nil
        | skip
      cases (render r).s with
      | error e => exact Ends.error
      | ok z => exact Ends.one

/-! ### Trees -/

/-- Validation of a tree comes to what is told. -/
structure Told (n : Node) : Prop where
  v : ∀ ks k, Match ks k → Ends ((vtable n).v ks) (tells k n)
  between : ∀ ks k, Match ks k → Ends ((vtable n).between ks) (tellsBounds k n)
  order : ∀ ks k, Match ks k → ∀ es, Ends ((vtable n).vIn ks es) (tellsOrder k (es.map List.length) n)

theorem ends_list (hm : Match ks k) {l : List Node} (h : ∀ n ∈ l, Told n) : Ends (V.concat ks (vtableList l)) (tellsList k l) := by
  induction l with
  | nil => rw [tellsList]; exact Ends.nil
  | cons n ns ih =>
    rw [vtableList, V.concat, tellsList]
    exact ((h n (by simp)).v ks k hm).then (ih fun m hm' => h m (by simp [hm']))

theorem ends_orders (hm : Match ks k) (es : Option (List Node)) {l : List Node} (h : ∀ n ∈ l, Told n) :
    Ends (V.concatIn ks es (vtableList l)) (tellsOrders k (es.map List.length) l) := by
  induction l with
  | nil => rw [tellsOrders]; exact Ends.nil
  | cons n ns ih =>
    rw [vtableList, V.concatIn, tellsOrders]
    exact ((h n (by simp)).order ks k hm es).then (ih fun m hm' => h m (by simp [hm']))

theorem ends_aliases (hm : Match ks k) {l : List Node} (h : ∀ m, sizeOf m < sizeOf l → Told m) :
    Ends (V.concat ks (vtableAliases l)) (tellsAliases k l) := by
  induction l with
  | nil => rw [tellsAliases]; exact Ends.nil
  | cons n ns ih =>
    have ih := ih fun m hm' => h m (by simp only [List.cons.sizeOf_spec]; omega)
    cases n with
    | «alias» e a w =>
      rw [vtableAliases, V.concat, tellsAliases]
      exact ((h a (by simp only [List.cons.sizeOf_spec, Node.alias.sizeOf_spec]; omega)).v ks k hm).then ih
    | _ =>
      rw [vtableAliases, V.concat]
      · exact Ends.error
      · exact fun _ _ _ h => by cases h

/-- Without the two special signatures. -/
theorem told_of {n : Node} {v : List Field → VRes} (hv : vtable n = V.of v) (h : ∀ ks k, Match ks k → Ends (v ks) (tells k n)) : Told n where
  v := fun ks k hm => by rw [hv]; exact h ks k hm
  between := fun ks k hm => by rw [hv]; exact Ends.error
  order := fun ks k hm es => by rw [hv]; exact Ends.error

theorem ends_run {xs : List VRes} {a : Notes} (h : Ends (Verdict.run xs) a) {ms : List Str} (hx : Verdict.run xs = .ok ms) : a ms := h ms hx

theorem Ends.cons {x : VRes} {xs : List VRes} {a b : Notes} (hx : Ends x a) (hy : Ends (Verdict.run xs) b) :
    Ends (Verdict.run (x :: xs)) (a ⨾ b) := hx.then hy

theorem Ends.last {x : VRes} {a : Notes} (hx : Ends x a) : Ends (Verdict.run [x]) a := by
  intro ms h
  cases x with
  | error e => cases h
  | ok p =>
    rw [Verdict.run_cons_ok] at h
    simp only [Verdict.run, Except.map, List.append_nil] at h
    cases h
    exact hx _ rfl

theorem told_step (n : Node) (ih : ∀ m, sizeOf m < sizeOf n → Told m) : Told n := by
  have list : ∀ ns : List Node, sizeOf ns < sizeOf n → ∀ a ∈ ns, Told a := fun ns hn a ha =>
    ih a (by have := List.sizeOf_lt_of_mem ha; omega)
  cases n with
  | none => exact ⟨fun _ _ _ => Ends.error, fun _ _ _ => Ends.error, fun _ _ _ _ => Ends.error⟩
  | orderBy args =>
    refine ⟨fun _ _ _ => Ends.error, fun _ _ _ => Ends.error, fun ks k hm es => ?_⟩
    rw [vtable, tellsOrder]
    exact ends_orders hm es (list args (by simp <;> omega))
  | orderItem v x d =>
    refine ⟨fun _ _ _ => Ends.error, fun _ _ _ => Ends.error, fun ks k hm es => ?_⟩
    rw [vtable]
    have hv := (ih v (by simp <;> omega)).v ks k hm
    show Ends (validateOrderItem v (vtable v) ks es) _
    simp only [tellsOrder]
    unfold validateOrderItem
    rw [unparen_eq]
    cases first v with
    | none => exact Ends.error
    | some m =>
      cases m with
      | int i =>
        simp only [bind, Except.bind]
        cases es with
        | none =>
          simp only [place, Option.map_none]
          by_cases hi : i ≤ 0
          · rw [if_pos hi, if_neg (by omega)]
            exact Ends.eq (by rw [positionNotes, if_neg (by omega)]; simp [pure, Except.pure])
          · rw [if_neg hi]
            exact Ends.error
        | some es =>
          simp only [place, Option.map_some]
          refine Ends.eq ?_
          unfold positionNotes
          by_cases hi : i ≤ 0
          · rw [if_pos hi, if_neg (by omega)]
            simp [pure, Except.pure]
          · rw [if_neg hi]
            by_cases hj : i > es.length
            · rw [if_pos hj, if_neg (by omega)]
              simp [pure, Except.pure]
            · rw [if_neg hj, if_pos (by omega)]
              rfl
      | _ => exact hv
  | boolc t l r =>
    have hl := ih l (by simp <;> omega)
    have hr := ih r (by simp <;> omega)
    refine ⟨fun ks k hm => ?_, fun ks k hm => ?_, fun _ _ _ _ => Ends.error⟩
    · rw [vtable]
      simp only [validateBool_eq, operandV, Bool.false_eq_true, if_false, tells]
      have key := Ends.cons (hl.v ks k hm) (Ends.cons (ends_truth hm (E.upper t) l) (Ends.cons (hr.v ks k hm) (Ends.last (ends_truth hm (E.upper t) r))))
      intro ms h
      refine key ms ?_
      rw [← h]
      generalize (vtable l).v ks = a
      generalize mustBeBoolean _ l ks = b
      generalize (vtable r).v ks = c
      generalize mustBeBoolean _ r ks = d
      rcases a with e | a
      · rfl
      rcases b with e | b
      · rfl
      rcases c with e | c
      · rfl
      rcases d with e | d
      · rfl
      simp only [Verdict.run_cons_ok, Verdict.run, Except.map, bind, Except.bind, pure, Except.pure, List.append_assoc, List.append_nil]
    · rw [vtable]
      simp only [validateBool_eq, operandV, if_true, tellsBounds]
      have key := Ends.cons (hl.v ks k hm) (Ends.last (hr.v ks k hm))
      intro ms h
      refine key ms ?_
      rw [← h]
      rcases (vtable l).v ks with e | a
      · rfl
      rcases (vtable r).v ks with e | c
      · rfl
      simp only [Verdict.run_cons_ok, Verdict.run, Except.map, bind, Except.bind, pure, Except.pure, List.append_assoc, List.append_nil]
  | select es all d on f w g h o l off semi =>
    refine told_of (vtable_select ..) fun ks k hm => ?_
    rcases Verdict.inner hm f with ⟨h1, ff, h2, hm'⟩ | ⟨h1, e, h2⟩
    · rw [h2, tells]
      simp only [bind, Except.bind]
      rw [Verdict.clauses_run]
      refine Ends.cons (ends_list hm' (list es (by simp <;> omega))) ?_
      refine Ends.cons (Ends.opt ((ih f (by simp <;> omega)).v [] [] ⟨fun _ => Iff.rfl, List.nodup_nil⟩)) ?_
      refine Ends.cons (Ends.opt ((ih w (by simp <;> omega)).v _ _ hm')) ?_
      refine Ends.cons (Ends.opt ?_) ?_
      · cases g with
        | groupBy args ro ea => exact ends_keys hm' es args
        | _ => exact Ends.error
      refine Ends.cons (Ends.opt ((ih h (by simp <;> omega)).v _ _ hm')) ?_
      refine Ends.cons (Ends.opt ((ih o (by simp <;> omega)).order _ _ hm' (some es))) ?_
      refine Ends.cons (Ends.opt ((ih l (by simp <;> omega)).v _ _ hm')) ?_
      exact Ends.last (Ends.opt ((ih off (by simp <;> omega)).v _ _ hm'))
    · rw [h2]
      exact Ends.error
  | cond l p r =>
    refine told_of (vtable_cond ..) fun ks k hm => ?_
    have hr : Ends (condRightV p (vtable r) ks) (if E.lower p = str!"between" then tellsBounds k r else tells k r) := by
      unfold condRightV
      split
      · exact (ih r (by simp <;> omega)).between ks k hm
      · exact (ih r (by simp <;> omega)).v ks k hm
    rw [tells]
    exact ((ih l (by simp <;> omega)).v ks k hm).then hr
  | where_ v =>
    refine told_of (by rw [vtable]) fun ks k hm => ?_
    rw [tells]
    exact ((ih v (by simp <;> omega)).v ks k hm).then (ends_truth' hm (by decide) v)
  | having v =>
    refine told_of (by rw [vtable]) fun ks k hm => ?_
    rw [tells]
    exact ((ih v (by simp <;> omega)).v ks k hm).then (ends_truth' hm (by decide) v)
  | filtered a b =>
    refine told_of (by rw [vtable]) fun ks k hm => ?_
    rw [tells]
    exact ((ih a (by simp <;> omega)).v ks k hm).then ((ih b (by simp <;> omega)).v ks k hm)
  | analytics f part o fr =>
    refine told_of (by rw [vtable]) fun ks k hm => ?_
    rw [tells]
    have key := Ends.cons ((ih f (by simp <;> omega)).v ks k hm) (Ends.cons (ends_list hm (list part (by simp <;> omega)))
      (Ends.last (Ends.opt (c := o) ((ih o (by simp <;> omega)).order ks k hm none))))
    intro ms h
    refine key ms ?_
    rw [← h]
    rcases (vtable f).v ks with e | a
    · rfl
    rcases V.concat ks (vtableList part) with e | b
    · rfl
    rcases optV o ((vtable o).vIn ks none) with e | c
    · rfl
    simp only [Verdict.run_cons_ok, Verdict.run, Except.map, bind, Except.bind, pure, Except.pure, List.append_assoc, List.append_nil]
  | cast a b =>
    refine told_of (by rw [vtable]) fun ks k hm => ?_
    cases (vtable a).v ks <;> exact Ends.error
  | paren args =>
    refine told_of (by rw [vtable]) fun ks k hm => ?_
    rw [tells]
    exact ends_list hm (list args (by simp <;> omega))
  | func name args =>
    refine told_of (by rw [vtable]) fun ks k hm => ?_
    rw [tells]
    exact ends_list hm (list args (by simp <;> omega))
  | count args d =>
    refine told_of (by rw [vtable]) fun ks k hm => ?_
    rw [tells]
    exact ends_list hm (list args (by simp <;> omega))
  | arrayAgg c d i r o l =>
    refine told_of (by rw [vtable]) fun ks k hm => ?_
    rw [tells]
    exact (ih c (by simp <;> omega)).v ks k hm
  | «alias» e a w =>
    refine told_of (by rw [vtable]) fun ks k hm => ?_
    rw [tells]
    exact (ih e (by simp <;> omega)).v ks k hm
  | column v =>
    refine told_of (by rw [vtable]) fun ks k hm => ?_
    rw [tells]
    exact Ends.eq (column_says hm v)
  | chained l r =>
    refine told_of (by rw [vtable]) fun ks k hm => ?_
    rw [tells]
    exact ends_path hm l r
  | limit all v =>
    refine told_of (by rw [vtable]) fun ks k hm => ?_
    rw [tells]
    exact Ends.eq (count_eq ..)
  | offset v =>
    refine told_of (by rw [vtable]) fun ks k hm => ?_
    rw [tells]
    exact Ends.eq (count_eq ..)
  | join type l r on us =>
    refine told_of (by rw [vtable]) fun ks k hm => ?_
    rw [tells]
    by_cases hc : conditioned type on us = true
    · rw [hc, if_neg]
      · exact Ends.nil
      · simp only [conditioned, Bool.or_eq_true, decide_eq_true_eq] at hc
        rintro ⟨h1, h2, h3⟩
        simp only [Bool.not_eq_true', Bool.or_eq_false_iff] at h3
        rcases hc with ((h | h) | h) | h
        · exact h1 h
        · exact h2 h
        · rw [h3.2] at h; cases h
        · rw [h3.1] at h; cases h
    · rw [if_pos, if_neg hc]
      · exact Ends.one
      · simp only [conditioned, Bool.or_eq_true, decide_eq_true_eq, not_or] at hc
        simp [hc]
  | replace e args =>
    refine told_of (by rw [vtable]) fun ks k hm => ?_
    rw [tells]
    exact ends_aliases hm fun m hm' => ih m (by simp <;> omega)
  | raw _ | whenThen _ _ | groupBy _ _ _ =>
    exact told_of (by rw [vtable]) fun ks k hm => Ends.error
  | _ =>
    refine told_of (v := fun _ => .ok []) rfl fun ks k hm => ?_
    intro ms h
    cases h
    simp [tells, silent]

theorem told (n : Node) : Told n := by
  induction h : sizeOf n using Nat.strongRecOn generalizing n with
  | _ k ih => exact told_step n fun m hm => ih _ (h ▸ hm) m rfl

/-- The messages about a statement. -/
theorem ends_validate (n : Node) (ms : List Str) (h : validate n = .ok ms) : isStatement n = true ∧ tells [] n ms := by
  have key := (told n).v [] [] ⟨fun _ => Iff.rfl, List.nodup_nil⟩
  cases n <;> first
    | (cases h; done)
    | exact ⟨rfl, key ms h⟩

end

end SqlV.Notes
