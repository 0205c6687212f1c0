import Verif.Lemmas.Offer
import Verif.Lemmas.Printable

/-! What validation comes to for trees of any form. -/

set_option linter.unusedSectionVars false
set_option linter.unusedSimpArgs false
set_option linter.unusedTactic false

namespace SqlV.Verdict

open SqlV.Core (has anything column? untyped untypedFirst untypedAlias expand qualify bare found plainAliases first firstOf kind kindFirst conditioned
  Match Fine' nodup_union mute resolveType_eq Works bare_eq one_iff column_match fine_ok)
open SqlV.Shown (present)
open SqlV.Printable (prints isStatement Rel)

section

variable [E : PyEnv] [L : LawfulPyEnv E]

/-- Nothing is raised; and there is no message, where that is asked. -/
def Good (st : Bool) (x : VRes) : Prop := ∃ errs, x = .ok errs ∧ (st = true → errs = [])

theorem good_true {x : VRes} : Good true x ↔ x = .ok [] :=
  ⟨fun ⟨_, h, h'⟩ => by rw [h, h' rfl], fun h => ⟨_, h, fun _ => rfl⟩⟩

theorem good_false {x : VRes} : Good false x ↔ ∃ errs, x = .ok errs :=
  ⟨fun ⟨e, h, _⟩ => ⟨e, h⟩, fun ⟨e, h⟩ => ⟨e, h, fun h => by cases h⟩⟩

theorem good_ok {st : Bool} {errs : List Str} : Good st (.ok errs) ↔ (st = true → errs = []) :=
  ⟨fun ⟨_, h, h'⟩ => by cases h; exact h', fun h => ⟨_, rfl, h⟩⟩

theorem good_nil {st : Bool} : Good st (.ok []) := good_ok.2 fun _ => rfl

theorem good_error {st : Bool} {e : PyErr} : ¬ Good st (.error e) := fun ⟨_, h, _⟩ => by cases h

theorem good_one {st : Bool} {m : Str} : Good st (.ok [m]) ↔ st = false := by
  rw [good_ok]
  cases st <;> simp

/-- One after the other. -/
def run : List VRes → VRes
  | [] => .ok []
  | x :: xs => do
    let a ← x
    let b ← run xs
    return a ++ b

theorem good_append {st : Bool} {x y : VRes} : Good st (do
    let a ← x
    let b ← y
    return a ++ b) ↔ Good st x ∧ Good st y := by
  cases x with
  | error e => exact ⟨fun h => absurd h good_error, fun h => absurd h.1 good_error⟩
  | ok a =>
    cases y with
    | error e => exact ⟨fun h => absurd h good_error, fun h => absurd h.2 good_error⟩
    | ok b =>
      show Good st (.ok (a ++ b)) ↔ _
      rw [good_ok, good_ok, good_ok, List.append_eq_nil_iff]
      exact ⟨fun h => ⟨fun hs => (h hs).1, fun hs => (h hs).2⟩, fun h hs => ⟨h.1 hs, h.2 hs⟩⟩

theorem good_run {st : Bool} {xs : List VRes} : Good st (run xs) ↔ ∀ x ∈ xs, Good st x := by
  induction xs with
  | nil => simp [run, good_nil]
  | cons x xs ih =>
    rw [run, good_append, ih, List.forall_mem_cons]

theorem run_cons_ok (a : List Str) (xs : List VRes) : run (.ok a :: xs) = (run xs).map (a ++ ·) := by
  rw [run]
  cases run xs <;> rfl

theorem run_cons_error (e : PyErr) (xs : List VRes) : run (.error e :: xs) = .error e := rfl

theorem clauses_run (es : List Node) (f w g h ob l off : Node) (k : List Field) :
    clausesV es f w g h ob l off k = run [V.concat k (vtableList es), optV f ((vtable f).v []), optV w ((vtable w).v k),
      optV g (match g with
        | .groupBy args _ _ => validateGroupBy k es args
        | _ => .error .type),
      optV h ((vtable h).v k), optV ob ((vtable ob).vIn k (some es)), optV l ((vtable l).v k), optV off ((vtable off).v k)] := by
  unfold clausesV
  rcases V.concat k (vtableList es) with e | a
  · rfl
  rcases optV f ((vtable f).v []) with e | b
  · rfl
  rcases optV w ((vtable w).v k) with e | c
  · rfl
  generalize optV g _ = x
  rcases x with e | d
  · rfl
  rcases optV h ((vtable h).v k) with e | i
  · rfl
  rcases optV ob ((vtable ob).vIn k (some es)) with e | j
  · rfl
  rcases optV l ((vtable l).v k) with e | m
  · rfl
  rcases optV off ((vtable off).v k) with e | o
  · rfl
  simp only [bind, Except.bind, run_cons_ok, run, Except.map, pure, Except.pure, List.append_assoc, List.append_nil]

/-! ### Parentheses -/

theorem unparen_eq (n : Node) : unparen n = match first n with
    | some m => .ok m
    | none => .error .index := by
  induction n using Node.rec (motive_2 := fun ns => unparenHead ns = match firstOf ns with
    | some m => .ok m
    | none => .error .index) with
  | nil => rfl
  | cons n ns h1 h2 => exact h1
  | paren args ih => exact ih
  | _ => rfl

/-! ### Names and types -/

variable {ks k : List Field} {st : Bool}

theorem good_column (hm : Match ks k) (v : Str) : Good st (validateColumn ks v) ↔ (!st || decide (v = str!"*") || found k v) = true := by
  cases st with
  | true => rw [good_true, column_match hm]; simp
  | false => exact ⟨fun _ => rfl, fun _ => good_false.2 (Core.column_fine ks v)⟩

theorem plain_eq (es : List Node) : plainAliases es = rawAliases es := by
  unfold plainAliases
  induction es with
  | nil => rfl
  | cons e es ih =>
    cases e with
    | «alias» x al w =>
      cases al with
      | raw s => rw [List.filterMap_cons, rawAliases, ← ih]
      | _ => rw [List.filterMap_cons]; exact ih
    | _ => rw [List.filterMap_cons]; exact ih

theorem twice_iff (hm : Match ks k) (x : Str) : (fieldsWithoutAlias ks x).length > 1 ↔ twice k x = true := by
  have h1 := one_iff (p := fun f : Field => decide (afterDot f.name = x)) hm.nodup
  have ht : twice k x = true ↔ ∃ f ∈ ks, afterDot f.name = x ∧ ∃ g ∈ ks, afterDot g.name = x ∧ g ≠ f := by
    simp only [twice, List.any_eq_true, Bool.and_eq_true, decide_eq_true_eq, bare_eq, hm.mem]
  rw [ht]
  unfold fieldsWithoutAlias
  simp only [decide_eq_true_eq] at h1
  constructor
  · intro h
    have hne : ks.filter (fun f => decide (afterDot f.name = x)) ≠ [] := by
      intro he
      rw [he] at h
      simp at h
    obtain ⟨f, hf⟩ := List.exists_mem_of_ne_nil _ hne
    rw [List.mem_filter, decide_eq_true_eq] at hf
    refine ⟨f, hf.1, hf.2, ?_⟩
    refine Classical.byContradiction fun hn => ?_
    have := h1.2 ⟨f, hf.1, hf.2, fun g hg hx => Classical.byContradiction fun hgf => hn ⟨g, hg, hx, hgf⟩⟩
    omega
  · rintro ⟨f, hf, hx, g, hg, hy, hne⟩
    have h0 : 0 < (ks.filter fun f => decide (afterDot f.name = x)).length :=
      List.length_pos_of_mem (List.mem_filter.2 ⟨hf, by simpa using hx⟩)
    have h2 : (ks.filter fun f => decide (afterDot f.name = x)).length ≠ 1 := by
      intro h
      obtain ⟨a, -, -, ha⟩ := h1.1 h
      exact hne ((ha g hg hy).trans (ha f hf hx).symm)
    omega

theorem good_keyName (hm : Match ks k) (es : List Node) (v : Str) :
    Good st (if (!hasField ks v && decide (v ∉ rawAliases es) && !hasField ks str!"*") = true then
      if (fieldsWithoutAlias ks v).length > 1 then (.error .attribute : VRes)
      else if (fieldsWithoutAlias ks v).length = 0 then return [str!"column \"" ++ v ++ str!"\" does not exist"] else return []
      else return []) ↔ keyName st k es v = true := by
  have ht := twice_iff hm v
  have hf := hm.found v
  have h1 := hm.has v
  have h2 := hm.has str!"*"
  unfold keyName
  rw [plain_eq, ← h1, ← h2]
  cases hv : hasField ks v <;> cases hs : hasField ks str!"*" <;> by_cases hr : v ∈ rawAliases es <;>
    simp only [hv, hs, hr, Bool.not_true, Bool.not_false, Bool.true_and, Bool.false_and, Bool.and_true, Bool.and_false, decide_true, decide_false,
      not_true, not_false_eq_true, Bool.true_or, Bool.or_true, Bool.false_or, Bool.or_false, if_true, Bool.false_eq_true, if_false] at hf ⊢ <;>
    cases st <;> simp [pure, Except.pure, good_nil, hf]
  · by_cases hl : 1 < (fieldsWithoutAlias ks v).length
    · rw [if_pos hl]
      simp [good_error, ht.1 hl]
    · rw [if_neg hl]
      refine iff_of_true ?_ ?_
      · split
        · exact good_one.2 rfl
        · exact good_nil
      · rw [← Bool.not_eq_true]
        exact fun h => hl (ht.2 h)
  · by_cases hl : 1 < (fieldsWithoutAlias ks v).length
    · rw [if_pos hl]
      simp [good_error]
      omega
    · rw [if_neg hl]
      by_cases h0 : fieldsWithoutAlias ks v = []
      · simp [h0, good_one]
      · simp only [h0, if_false, good_nil, true_iff]
        have := List.length_pos_iff.2 h0
        omega

theorem good_key (hm : Match ks k) {es : List Node} {a : Node} : Good st (validateGroupArg ks es a) ↔ key st k es a = true := by
  unfold validateGroupArg key
  rw [unparen_eq]
  cases first a with
  | none => exact ⟨fun h => absurd h good_error, fun h => by cases h⟩
  | some m =>
    cases m with
    | int i =>
      simp only [bind, Except.bind]
      by_cases hi : i ≤ 0 ∨ i > es.length
      · rw [if_pos hi]
        show Good st (.ok _) ↔ _
        rw [good_one]
        cases st <;> simp
        omega
      · rw [if_neg hi]
        refine iff_of_true good_nil ?_
        have h1 : 1 ≤ i := by omega
        have h2 : i ≤ es.length := by omega
        simp [h1, h2]
    | column v => exact good_keyName hm es v
    | string v q p => exact good_keyName hm es v
    | _ => exact iff_of_true good_nil rfl

theorem good_concat {f : Node → VRes} {args : List Node} : Good st (concatV f args) ↔ ∀ a ∈ args, Good st (f a) := by
  induction args with
  | nil => simp [concatV, good_nil]
  | cons a as ih => rw [concatV, good_append, ih, List.forall_mem_cons]

theorem good_keys (hm : Match ks k) {es args : List Node} : Good st (validateGroupBy ks es args) ↔ args.all (key st k es) = true := by
  rw [validateGroupBy, good_concat, List.all_eq_true]
  exact forall₂_congr fun a _ => good_key hm

theorem good_type (msg : Str) (ty : Option PType) : Good st (do
    if notBoolean ty then do
      let name ← typeName ty
      return [msg ++ name]
    else return []) ↔ boolish st ty = true := by
  cases ty with
  | none => exact ⟨fun h => absurd h good_error, fun h => by cases h⟩
  | some t =>
    cases t <;> simp [notBoolean, typeName, boolish, bind, Except.bind, pure, Except.pure, good_one, good_nil]

theorem mute_eq (n : Node) : mute n = !typable n := by cases n <;> rfl

theorem rel_condition (hm : Match ks k) (msg : Str) (n : Node) :
    Rel (Good st (mustBeBoolean msg n ks)) fun s => condition st s k n = true := by
  have hty : ∀ x : Except PyErr (Option PType), x = returnType n → (Good st (x >>= fun ty => (do
      if notBoolean ty then do
        let name ← typeName ty
        return [msg ++ name]
      else return [])) ↔ boolish st (kind n) = true) := by
    rintro _ rfl
    have := type_of n
    split at this
    · rw [this.1, this.2]
      exact ⟨fun h => absurd h good_error, fun h => by cases h⟩
    · rw [this]
      exact good_type msg (kind n)
  have hemp : ks.isEmpty = k.isEmpty := by
    rw [Bool.eq_iff_iff, List.isEmpty_iff, List.isEmpty_iff]
    exact empty_iff hm.mem
  unfold mustBeBoolean condition
  rw [resolveType_eq, mute_eq, hemp]
  cases typable n with
  | false => exact Rel.false (fun s => by simp) |>.congr (iff_of_false good_error id) fun _ => Iff.rfl
  | true =>
    simp only [Bool.not_true, Bool.false_eq_true, if_false, Bool.true_and]
    cases hk : k.isEmpty with
    | true =>
      simp only [if_true]
      exact Rel.refl.congr (hty _ rfl) fun _ => Iff.rfl
    | false =>
      simp only [Bool.false_eq_true, if_false]
      unfold text
      cases ht : transform n with
      | error e => exact Rel.false (fun s => by simp) |>.congr (iff_of_false good_error id) fun _ => Iff.rfl
      | ok x =>
        simp only [bind, Except.bind]
        have hmem : ∀ f, f ∈ (E.setOrder ks).filter (fun f => decide (f.name = x)) ↔ f ∈ k ∧ f.name = x := by
          intro f
          rw [List.mem_filter, (L.setOrder_perm ks).mem_iff, hm.mem, decide_eq_true_eq]
        have hhas : has k x = true ↔ ∃ f ∈ k, f.name = x := by
          simp [has]
        generalize (E.setOrder ks).filter (fun f => decide (f.name = x)) = fs at hmem
        cases fs with
        | nil =>
          have : has k x = false := by
            rw [← Bool.not_eq_true, hhas]
            rintro ⟨f, hf⟩
            exact absurd ((hmem f).2 hf) (by simp)
          rw [this]
          simp only [Bool.not_false, if_true]
          exact Rel.refl.congr (hty _ rfl) fun _ => Iff.rfl
        | cons f fs =>
          have hf := (hmem f).1 (by simp)
          have : has k x = true := hhas.2 ⟨f, hf⟩
          rw [this]
          simp only [Bool.not_true, Bool.false_eq_true, if_false]
          have hg := good_type (st := st) msg f.type
          refine ⟨fun h => ?_, fun h => ?_⟩
          · simp only [Bool.false_eq_true, if_false, List.any_eq_true, Bool.and_eq_true, decide_eq_true_eq]
            exact ⟨f, hf.1, hf.2, hg.1 h⟩
          · simp only [if_true, List.all_eq_true, Bool.or_eq_true, decide_eq_true_eq] at h
            refine hg.2 ?_
            rcases h f hf.1 with h | h
            · exact absurd hf.2 h
            · exact h

theorem rel_path (hm : Match ks k) (l r : Node) : Rel (Good st (validateChained ks l r)) fun s => path st s k l r = true := by
  unfold validateChained path text
  cases transform (.chained l r) with
  | error e => exact Rel.false (fun s => by simp) |>.congr (iff_of_false good_error id) fun _ => Iff.rfl
  | ok x =>
    cases transform l with
    | error e => exact Rel.false (fun s => by simp) |>.congr (iff_of_false good_error id) fun _ => Iff.rfl
    | ok y =>
      simp only [bind, Except.bind]
      rw [hm.has, hm.has, hm.has]
      have hp : Rel (Works (render r).s) fun s => prints s .str r = true := (Printable.fits r).ask .str
      cases has k str!"*" <;> cases has k x <;> cases has k (y ++ str!".*") <;>
        simp only [Bool.not_true, Bool.not_false, Bool.true_and, Bool.false_and, Bool.and_true, Bool.and_false, Bool.true_or, Bool.or_true,
          Bool.false_or, Bool.or_false, if_true, Bool.false_eq_true, if_false] <;>
        first
        | exact Rel.true (fun _ => trivial) |>.congr (iff_of_true good_nil trivial) fun _ => Iff.rfl
        | skip
      cases st with
      | true =>
        refine Rel.false (fun s => by simp) |>.congr (iff_of_false (fun h => ?_) id) fun _ => Iff.rfl
        cases hs : (render r).s with
        | error e => rw [hs] at h; exact good_error h
        | ok z =>
          rw [hs] at h
          exact absurd (good_one.1 h) (by simp)
      | false =>
        refine hp.congr ?_ fun s => by simp
        cases hs : (render r).s with
        | error e => exact iff_of_false good_error (fun ⟨_, h⟩ => by cases h)
        | ok z => exact iff_of_true (good_one.2 rfl) ⟨_, rfl⟩

theorem good_number (v : Node) (a b : Str) : Good st (validateCount v a b) ↔ number st v = true := by
  unfold validateCount number
  rw [unparen_eq]
  cases first v with
  | none => exact ⟨fun h => absurd h good_error, fun h => by cases h⟩
  | some m =>
    simp only [bind, Except.bind]
    have ht := type_of m
    split at ht
    · rename_i hu
      rw [ht.2]
      refine iff_of_false good_error ?_
      cases m <;> simp [hu] <;> exact absurd hu Bool.false_ne_true
    · rename_i hu
      rw [ht]
      cases m with
      | int i =>
        simp only [kind, ne_eq, not_true_eq_false, if_false]
        by_cases hi : i < 0
        · rw [if_pos hi]
          show Good st (.ok [_]) ↔ _
          rw [good_one]
          cases st <;> simp
          omega
        · rw [if_neg hi]
          refine iff_of_true good_nil ?_
          have : 0 ≤ i := by omega
          simp [this]
      | _ =>
        show Good st (.ok [_]) ↔ _
        rw [good_one]
        simp [hu]

/-! ### Trees -/

/-- Validation of a tree comes to what is said. -/
structure Judged (st : Bool) (n : Node) : Prop where
  v : ∀ ks k, Match ks k → Rel (Good st ((vtable n).v ks)) fun s => judge st s k n = true
  between : ∀ ks k, Match ks k → Rel (Good st ((vtable n).between ks)) fun s => judgeBounds st s k n = true
  order : ∀ ks k, Match ks k → ∀ es, Rel (Good st ((vtable n).vIn ks es)) fun s => judgeOrder st s k (es.map List.length) n = true

theorem judgeList_iff {s : Bool} {l : List Node} : judgeList st s k l = true ↔ ∀ n ∈ l, judge st s k n = true := by
  induction l with
  | nil => simp [judgeList]
  | cons n ns ih => simp [judgeList, ih]

theorem rel_list (hm : Match ks k) {l : List Node} (h : ∀ n ∈ l, Judged st n) :
    Rel (Good st (V.concat ks (vtableList l))) fun s => judgeList st s k l = true := by
  induction l with
  | nil => exact (Rel.true fun _ => trivial).congr (iff_of_true good_nil trivial) fun s => by simp [judgeList]
  | cons n ns ih =>
    rw [vtableList, V.concat]
    exact (((h n (by simp)).v ks k hm).and (ih fun m hm' => h m (by simp [hm']))).congr good_append fun s => by rw [judgeList, Bool.and_eq_true]

theorem rel_orders (hm : Match ks k) (es : Option (List Node)) {l : List Node} (h : ∀ n ∈ l, Judged st n) :
    Rel (Good st (V.concatIn ks es (vtableList l))) fun s => judgeOrders st s k (es.map List.length) l = true := by
  induction l with
  | nil => exact (Rel.true fun _ => trivial).congr (iff_of_true good_nil trivial) fun s => by simp [judgeOrders]
  | cons n ns ih =>
    rw [vtableList, V.concatIn]
    exact (((h n (by simp)).order ks k hm es).and (ih fun m hm' => h m (by simp [hm']))).congr good_append fun s => by
      rw [judgeOrders, Bool.and_eq_true]

theorem rel_aliases (hm : Match ks k) {l : List Node} (h : ∀ m, sizeOf m < sizeOf l → Judged st m) :
    Rel (Good st (V.concat ks (vtableAliases l))) fun s => judgeAliases st s k l = true := by
  induction l with
  | nil => exact (Rel.true fun _ => trivial).congr (iff_of_true good_nil trivial) fun s => by simp [judgeAliases]
  | cons n ns ih =>
    have ih := ih fun m hm' => h m (by simp only [List.cons.sizeOf_spec]; omega)
    cases n with
    | «alias» e a w =>
      rw [vtableAliases, V.concat]
      exact (((h a (by simp only [List.cons.sizeOf_spec, Node.alias.sizeOf_spec]; omega)).v ks k hm).and ih).congr good_append fun s => by
        rw [judgeAliases, Bool.and_eq_true]
    | _ =>
      rw [vtableAliases, V.concat]
      · exact (Rel.false fun _ => id).congr (iff_of_false (fun h => absurd (good_append.1 h).1 good_error) id) fun s => by simp [judgeAliases]
      · exact fun _ _ _ h => by cases h

/-- Without the two special signatures. -/
theorem judged_of {n : Node} {v : List Field → VRes} (hv : vtable n = V.of v) (hb : ∀ s k, judgeBounds st s k n = false)
    (ho : ∀ s k w, judgeOrder st s k w n = false) (h : ∀ ks k, Match ks k → Rel (Good st (v ks)) fun s => judge st s k n = true) : Judged st n where
  v := fun ks k hm => by rw [hv]; exact h ks k hm
  between := fun ks k hm => by
    rw [hv]
    exact (Rel.false fun _ => id).congr (iff_of_false good_error id) fun s => by simp [hb]
  order := fun ks k hm es => by
    rw [hv]
    exact (Rel.false fun _ => id).congr (iff_of_false good_error id) fun s => by simp [ho]

theorem rel_opt {c : Node} {r : VRes} {q : Bool → Bool} (h : Rel (Good st r) fun s => q s = true) :
    Rel (Good st (optV c r)) fun s => (!present c || q s) = true := by
  refine (Rel.opt (b := present c) h).congr ?_ fun _ => Iff.rfl
  cases c <;> simp [optV, Node.truthy, present, good_nil]

/-- The fields known inside a query. -/
theorem inner (hm : Match ks k) (f : Node) : (listable false f = true ∧ ∃ ff, optFields (knownFields f) = .ok ff ∧ Match (innerFields ks ff) (inside k f)) ∨
    (listable false f = false ∧ ∃ e, optFields (knownFields f) = .error e) := by
  unfold inside
  rcases (told f).cases with ⟨h1, os, fs, h2, h3, h4⟩ | ⟨h1, h2, h3⟩ | ⟨h1, e, h2, h3⟩
  · refine .inl ⟨h1, some fs, by rw [h3]; rfl, fun g => ?_, nodup_union hm.nodup⟩
    show g ∈ unionFields ks fs ↔ _
    rw [h2, mem_unionFields, hm.mem, h4, Option.getD_some, List.mem_append]
  · refine .inl ⟨h1, none, by rw [h3]; rfl, fun g => ?_, hm.nodup⟩
    show g ∈ ks ↔ _
    rw [h2, hm.mem, Option.getD_none, List.append_nil]
  · refine .inr ⟨h1, e, ?_⟩
    rw [h3]
    cases e <;> first | exact absurd rfl h2 | rfl

theorem rel_keys (hm : Match ks k) (es : List Node) (g : Node) : Rel (Good st (match g with
    | .groupBy args _ _ => validateGroupBy ks es args
    | _ => .error .type)) fun _ => keys st k es g = true := by
  cases g with
  | groupBy args ro ea => exact Rel.refl.congr (good_keys hm) fun _ => Iff.rfl
  | _ => exact (Rel.false fun _ => id).congr (iff_of_false good_error id) fun s => by simp [keys]

theorem judged_step (n : Node) (ih : ∀ m, sizeOf m < sizeOf n → Judged st m) : Judged st n := by
  have never : ∀ {e : PyErr} {q : Bool → Bool}, (∀ s, q s = false) → Rel (Good st (.error e)) fun s => q s = true := fun h =>
    (Rel.false fun _ => id).congr (iff_of_false good_error id) fun s => by simp [h]
  have always : ∀ {q : Bool → Bool}, (∀ s, q s = true) → Rel (Good st (.ok [])) fun s => q s = true := fun h =>
    (Rel.true fun _ => trivial).congr (iff_of_true good_nil trivial) fun s => by simp [h]
  have list : ∀ ns : List Node, sizeOf ns < sizeOf n → ∀ a ∈ ns, Judged st a := fun ns hn a ha =>
    ih a (by have := List.sizeOf_lt_of_mem ha; omega)
  cases n with
  | none =>
    refine ⟨fun ks k hm => never fun s => ?_, fun ks k hm => never fun s => ?_, fun ks k hm es => never fun s => ?_⟩
    · simp [judge]
    · simp [judgeBounds]
    · simp [judgeOrder]
  | orderBy args =>
    refine ⟨fun ks k hm => never fun s => ?_, fun ks k hm => never fun s => ?_, fun ks k hm es => ?_⟩
    · simp [judge]
    · simp [judgeBounds]
    · rw [vtable]
      exact (rel_orders hm es (list args (by simp <;> omega))).congr Iff.rfl fun s => by rw [judgeOrder]
  | orderItem v x d =>
    refine ⟨fun ks k hm => never fun s => ?_, fun ks k hm => never fun s => ?_, fun ks k hm es => ?_⟩
    · simp [judge]
    · simp [judgeBounds]
    · rw [vtable]
      have hv := (ih v (by simp <;> omega)).v ks k hm
      show Rel (Good st (validateOrderItem v (vtable v) ks es)) _
      simp only [judgeOrder]
      unfold validateOrderItem
      rw [unparen_eq]
      cases first v with
      | none => exact never fun _ => rfl
      | some m =>
        cases m with
        | int i =>
          simp only [bind, Except.bind]
          by_cases hi : i ≤ 0
          · rw [if_pos hi, if_pos hi]
            refine Rel.refl.congr (good_one.trans ?_) fun _ => Iff.rfl
            cases st <;> simp
          · rw [if_neg hi, if_neg hi]
            cases es with
            | none => exact never fun _ => rfl
            | some es =>
              simp only [Option.map_some]
              by_cases hl : i > es.length
              · rw [if_pos hl]
                refine Rel.refl.congr (good_one.trans ?_) fun _ => Iff.rfl
                cases st <;> simp
                omega
              · rw [if_neg hl]
                refine always fun _ => ?_
                have : i ≤ es.length := by omega
                simp [this]
        | _ => exact hv
  | boolc t l r =>
    have hl := ih l (by simp <;> omega)
    have hr := ih r (by simp <;> omega)
    refine ⟨fun ks k hm => ?_, fun ks k hm => ?_, fun ks k hm es => never fun s => by simp [judgeOrder]⟩
    · rw [vtable]
      simp only [validateBool_eq, operandV, Bool.false_eq_true, if_false]
      have key := ((hl.v ks k hm).and ((rel_condition (st := st) hm (str!"The argument of " ++ E.upper t ++ str!" must be type boolean, not type ") l).and
        ((hr.v ks k hm).and (rel_condition (st := st) hm (str!"The argument of " ++ E.upper t ++ str!" must be type boolean, not type ") r))))
      refine key.congr ?_ fun s => by simp only [judge, Bool.and_eq_true, and_assoc]
      generalize (vtable l).v ks = a
      generalize mustBeBoolean _ l ks = b
      generalize (vtable r).v ks = c
      generalize mustBeBoolean _ r ks = d
      rw [← good_append, ← good_append, ← good_append]
      rcases a with e | a
      · rfl
      rcases b with e | b
      · rfl
      rcases c with e | c
      · rfl
      rcases d with e | d
      · rfl
      simp only [bind, Except.bind, pure, Except.pure, List.append_assoc]
    · rw [vtable]
      simp only [validateBool_eq, operandV, if_true]
      refine ((hl.v ks k hm).and (hr.v ks k hm)).congr ?_ fun s => by simp only [judgeBounds, Bool.and_eq_true]
      rw [← good_append]
      rcases (vtable l).v ks with e | a
      · rfl
      rcases (vtable r).v ks with e | c
      · rfl
      simp only [bind, Except.bind, pure, Except.pure, List.append_assoc, List.append_nil]
  | select es all d on f w g h o l off semi =>
    refine judged_of (vtable_select ..) (fun _ _ => by simp [judgeBounds]) (fun _ _ _ => by simp [judgeOrder]) fun ks k hm => ?_
    rcases inner hm f with ⟨h1, ff, h2, hm'⟩ | ⟨h1, e, h2⟩
    · rw [h2]
      simp only [bind, Except.bind]
      have key := ((rel_list hm' (list es (by simp <;> omega))).and
        ((rel_opt (c := f) ((ih f (by simp <;> omega)).v [] [] ⟨fun _ => Iff.rfl, List.nodup_nil⟩)).and
        ((rel_opt (c := w) ((ih w (by simp <;> omega)).v _ _ hm')).and ((rel_opt (c := g) (rel_keys (st := st) hm' es g)).and
        ((rel_opt (c := h) ((ih h (by simp <;> omega)).v _ _ hm')).and ((rel_opt (c := o) ((ih o (by simp <;> omega)).order _ _ hm' (some es))).and
        ((rel_opt (c := l) ((ih l (by simp <;> omega)).v _ _ hm')).and (rel_opt (c := off) ((ih off (by simp <;> omega)).v _ _ hm')))))))))
      refine key.congr ?_ fun s => by simp only [judge, h1, Bool.true_and, Bool.and_eq_true, and_assoc, Option.map_some]
      rw [clauses_run, good_run]
      simp only [List.forall_mem_cons, List.not_mem_nil, false_implies, implies_true, and_true]
    · rw [h2]
      exact never fun s => by simp [judge, h1]
  | cond l p r =>
    refine judged_of (vtable_cond ..) (fun _ _ => by simp [judgeBounds]) (fun _ _ _ => by simp [judgeOrder]) fun ks k hm => ?_
    have hr : Rel (Good st (condRightV p (vtable r) ks)) fun s =>
        (if E.lower p = str!"between" then judgeBounds st s k r else judge st s k r) = true := by
      unfold condRightV
      split
      · exact (ih r (by simp <;> omega)).between ks k hm
      · exact (ih r (by simp <;> omega)).v ks k hm
    exact (((ih l (by simp <;> omega)).v ks k hm).and hr).congr good_append fun s => by rw [judge, Bool.and_eq_true]
  | where_ v =>
    refine judged_of (by rw [vtable]) (fun _ _ => by simp [judgeBounds]) (fun _ _ _ => by simp [judgeOrder]) fun ks k hm => ?_
    exact (((ih v (by simp <;> omega)).v ks k hm).and (rel_condition hm _ v)).congr good_append fun s => by rw [judge, Bool.and_eq_true]
  | having v =>
    refine judged_of (by rw [vtable]) (fun _ _ => by simp [judgeBounds]) (fun _ _ _ => by simp [judgeOrder]) fun ks k hm => ?_
    exact (((ih v (by simp <;> omega)).v ks k hm).and (rel_condition hm _ v)).congr good_append fun s => by rw [judge, Bool.and_eq_true]
  | filtered a b =>
    refine judged_of (by rw [vtable]) (fun _ _ => by simp [judgeBounds]) (fun _ _ _ => by simp [judgeOrder]) fun ks k hm => ?_
    exact (((ih a (by simp <;> omega)).v ks k hm).and ((ih b (by simp <;> omega)).v ks k hm)).congr good_append fun s => by
      rw [judge, Bool.and_eq_true]
  | analytics f part o fr =>
    refine judged_of (by rw [vtable]) (fun _ _ => by simp [judgeBounds]) (fun _ _ _ => by simp [judgeOrder]) fun ks k hm => ?_
    have key := ((ih f (by simp <;> omega)).v ks k hm).and ((rel_list hm (list part (by simp <;> omega))).and
      (rel_opt (c := o) ((ih o (by simp <;> omega)).order ks k hm none)))
    refine key.congr ?_ fun s => by simp only [judge, Bool.and_eq_true, and_assoc, Option.map_none]
    rw [← good_append, ← good_append]
    rcases (vtable f).v ks with e | a
    · rfl
    rcases V.concat ks (vtableList part) with e | b
    · rfl
    rcases optV o ((vtable o).vIn ks none) with e | c
    · rfl
    simp only [bind, Except.bind, pure, Except.pure, List.append_assoc]
  | cast a b =>
    refine judged_of (by rw [vtable]) (fun _ _ => by simp [judgeBounds]) (fun _ _ _ => by simp [judgeOrder]) fun ks k hm => ?_
    refine (Rel.false fun _ => id).congr (iff_of_false (fun h => ?_) id) fun s => by simp [judge]
    cases hx : (vtable a).v ks with
    | error e => rw [hx] at h; exact good_error h
    | ok e => rw [hx] at h; exact good_error h
  | paren args =>
    refine judged_of (by rw [vtable]) (fun _ _ => by simp [judgeBounds]) (fun _ _ _ => by simp [judgeOrder]) fun ks k hm => ?_
    exact (rel_list hm (list args (by simp <;> omega))).congr Iff.rfl fun s => by rw [judge]
  | func name args =>
    refine judged_of (by rw [vtable]) (fun _ _ => by simp [judgeBounds]) (fun _ _ _ => by simp [judgeOrder]) fun ks k hm => ?_
    exact (rel_list hm (list args (by simp <;> omega))).congr Iff.rfl fun s => by rw [judge]
  | count args d =>
    refine judged_of (by rw [vtable]) (fun _ _ => by simp [judgeBounds]) (fun _ _ _ => by simp [judgeOrder]) fun ks k hm => ?_
    exact (rel_list hm (list args (by simp <;> omega))).congr Iff.rfl fun s => by rw [judge]
  | arrayAgg c d i r o l =>
    refine judged_of (by rw [vtable]) (fun _ _ => by simp [judgeBounds]) (fun _ _ _ => by simp [judgeOrder]) fun ks k hm => ?_
    exact ((ih c (by simp <;> omega)).v ks k hm).congr Iff.rfl fun s => by rw [judge]
  | «alias» e a w =>
    refine judged_of (by rw [vtable]) (fun _ _ => by simp [judgeBounds]) (fun _ _ _ => by simp [judgeOrder]) fun ks k hm => ?_
    exact ((ih e (by simp <;> omega)).v ks k hm).congr Iff.rfl fun s => by rw [judge]
  | column v =>
    refine judged_of (by rw [vtable]) (fun _ _ => by simp [judgeBounds]) (fun _ _ _ => by simp [judgeOrder]) fun ks k hm => ?_
    exact Rel.refl.congr (good_column hm v) fun s => by rw [judge]
  | chained l r =>
    refine judged_of (by rw [vtable]) (fun _ _ => by simp [judgeBounds]) (fun _ _ _ => by simp [judgeOrder]) fun ks k hm => ?_
    exact (rel_path hm l r).congr Iff.rfl fun s => by rw [judge]
  | limit all v =>
    refine judged_of (by rw [vtable]) (fun _ _ => by simp [judgeBounds]) (fun _ _ _ => by simp [judgeOrder]) fun ks k hm => ?_
    exact Rel.refl.congr (good_number v _ _) fun s => by rw [judge]
  | offset v =>
    refine judged_of (by rw [vtable]) (fun _ _ => by simp [judgeBounds]) (fun _ _ _ => by simp [judgeOrder]) fun ks k hm => ?_
    exact Rel.refl.congr (good_number v _ _) fun s => by rw [judge]
  | join type l r on us =>
    refine judged_of (by rw [vtable]) (fun _ _ => by simp [judgeBounds]) (fun _ _ _ => by simp [judgeOrder]) fun ks k hm => ?_
    refine Rel.refl.congr ?_ fun s => by rw [judge]
    by_cases hc : conditioned type on us = true
    · rw [hc, if_neg]
      · exact iff_of_true good_nil (by simp)
      · simp only [conditioned, Bool.or_eq_true, decide_eq_true_eq] at hc
        rintro ⟨h1, h2, h3⟩
        simp only [Bool.not_eq_true', Bool.or_eq_false_iff] at h3
        rcases hc with ((h | h) | h) | h
        · exact h1 h
        · exact h2 h
        · rw [h3.2] at h; cases h
        · rw [h3.1] at h; cases h
    · rw [if_pos]
      · rw [good_one]
        simp [hc]
      · simp only [conditioned, Bool.or_eq_true, decide_eq_true_eq, not_or] at hc
        simp [hc]
  | replace e args =>
    refine judged_of (by rw [vtable]) (fun _ _ => by simp [judgeBounds]) (fun _ _ _ => by simp [judgeOrder]) fun ks k hm => ?_
    exact (rel_aliases hm fun m hm' => ih m (by simp <;> omega)).congr Iff.rfl fun s => by rw [judge]
  | raw _ | whenThen _ _ | groupBy _ _ _ =>
    refine judged_of (by rw [vtable]) (fun _ _ => by simp [judgeBounds]) (fun _ _ _ => by simp [judgeOrder]) fun ks k hm => ?_
    exact never fun s => by simp [judge]
  | _ =>
    refine judged_of (v := fun _ => .ok []) rfl (fun _ _ => by simp [judgeBounds]) (fun _ _ _ => by simp [judgeOrder]) fun ks k hm => ?_
    exact always fun s => by simp [judge]

theorem judged (n : Node) : Judged st n := by
  induction h : sizeOf n using Nat.strongRecOn generalizing n with
  | _ k ih => exact judged_step n fun m hm => ih _ (h ▸ hm) m rfl

/-- The verdict on a statement. -/
theorem rel_validate (n : Node) : Rel (Good st (validate n)) fun s => passes st s n = true := by
  have h := (judged (st := st) n).v [] [] ⟨fun _ => Iff.rfl, List.nodup_nil⟩
  cases n <;> first
    | (refine (Rel.false fun _ => id).congr (iff_of_false good_error id) fun s => by simp [passes, isStatement]
       done)
    | (refine h.congr Iff.rfl fun s => by simp [passes, isStatement]
       done)

end

end SqlV.Verdict
