import Verif.Spec.Report
import Verif.Lemmas.Scope

/-! The messages of validation. -/

set_option linter.unusedSectionVars false

namespace SqlV.Core

section

variable [E : PyEnv] [L : LawfulPyEnv E]

variable {ks k : List Field}

/-! ### Sequences -/

theorem gather_two (x y : VRes) : (do let a ← x; let b ← y; return a ++ b : VRes) = gather [x, y] := by
  cases x with
  | error e => rfl
  | ok a =>
    cases y with
    | error e => rfl
    | ok b => simp [gather, bind, Except.bind, pure, Except.pure]

theorem gather_cons (x : Notes) (xs : List Notes) : gather (x :: xs) = gather [x, gather xs] := by
  cases x with
  | error e => rfl
  | ok a =>
    rw [gather, gather]
    cases gather xs with
    | error e => rfl
    | ok b => simp [gather]

theorem gather_concat (args : List Node) (f : V → VRes) (c : List V → VRes) (h0 : c [] = .ok [])
    (h : ∀ x xs, c (x :: xs) = do let a ← f x; let b ← c xs; return a ++ b) :
    c (vtableList args) = gather (args.map fun a => f (vtable a)) := by
  induction args with
  | nil => exact h0
  | cons a as ih => rw [vtableList, h, gather_two, ih, List.map_cons, ← gather_cons]

theorem gather_list (args : List Node) : V.concat ks (vtableList args) = gather (args.map fun a => (vtable a).v ks) :=
  gather_concat args (fun x => x.v ks) (V.concat ks) rfl fun _ _ => rfl

theorem gather_listIn (args : List Node) (s : Option (List Node)) :
    V.concatIn ks s (vtableList args) = gather (args.map fun a => (vtable a).vIn ks s) :=
  gather_concat args (fun x => x.vIn ks s) (V.concatIn ks s) rfl fun _ _ => rfl

theorem reportList_eq (s : Option (List Node)) (ns : List Node) : reportList k s ns = gather (ns.map (report k s)) := by
  induction ns with
  | nil => rfl
  | cons n ns ih => rw [reportList, ih, List.map_cons, ← gather_cons]

theorem foldList_map {α : Type} (f : Node → α) (ns : List Node) : (foldList ns).map f = ns.map fun n => f (fold n) := by
  rw [foldList_eq, List.map_map]
  rfl

/-! ### Single checks -/

theorem candidate_iff (hm : Match ks k) (x : Str) : candidate k x = true ↔ (fieldsWithoutAlias ks x).length ≠ 0 := by
  rw [candidate, List.any_eq_true, ← Nat.pos_iff_ne_zero, List.length_pos_iff_exists_mem]
  simp only [fieldsWithoutAlias, List.mem_filter, hm.mem, bare_eq]

theorem column_says (hm : Match ks k) (v : Str) : validateColumn ks v = columnNotes k v := by
  have hf := hm.found v
  have hc := candidate_iff hm v
  unfold columnNotes validateColumn
  by_cases hs : v = str!"*"
  · subst hs
    simp
  by_cases hfd : found k v = true
  · rw [if_pos (c := (decide _ || found k v) = true) (by rw [hfd, Bool.or_true])]
    rw [hf] at hfd
    split
    · rename_i h
      simp only [Bool.and_eq_true, Bool.not_eq_true', decide_eq_true_eq] at h
      simp only [h.1.1, h.2, Bool.false_eq_true, false_or] at hfd
      simp [hfd]
    · rfl
  · rw [if_neg (c := (decide _ || found k v) = true) (by simp [hs, hfd])]
    rw [hf] at hfd
    simp only [not_or, Bool.not_eq_true] at hfd
    rw [if_pos (by simp [hfd, hs])]
    by_cases hcd : candidate k v = true
    · rw [if_pos hcd]
      rw [hc] at hcd
      rw [if_pos (by omega)]
    · rw [if_neg hcd]
      rw [hc, not_not] at hcd
      rw [if_neg (by omega), if_pos hcd]

theorem unparen_error (n : Node) : ∀ e, unparen n = .error e → e = .index := by
  induction n using Node.rec (motive_2 := fun ns => ∀ e, unparenHead ns = .error e → e = .index) with
  | nil => rename_i h; cases h; rfl
  | cons n ns h1 h2 => rename_i e h; exact h1 e h
  | paren args ih => exact ih
  | _ => intro e h; cases h

theorem key_says (hm : Match ks k) {es : List Node} {a : Node} :
    validateGroupArg ks es a = groupNotes k (foldList es) (fold a) := by
  have check : ∀ v : Str, (if (!hasField ks v && decide (v ∉ rawAliases es) && !hasField ks str!"*") = true then
      if (fieldsWithoutAlias ks v).length > 1 then (.error .attribute : VRes)
      else if (fieldsWithoutAlias ks v).length = 0 then return [str!"column \"" ++ v ++ str!"\" does not exist"] else return []
      else return []) = keyNotes k (foldList es) v := by
    intro v
    have hf := hm.found v
    have hc := candidate_iff hm v
    unfold keyNotes
    rw [plainAliases_eq]
    by_cases hs : v ∈ rawAliases es
    · simp [hs, pure, Except.pure]
    by_cases hfd : found k v = true
    · rw [if_pos (c := (found k v || _) = true) (by rw [hfd, Bool.true_or])]
      rw [hf] at hfd
      split
      · rename_i h
        simp only [Bool.and_eq_true, Bool.not_eq_true', decide_eq_true_eq] at h
        simp only [h.1.1, h.2, Bool.false_eq_true, false_or] at hfd
        simp [hfd, pure, Except.pure]
      · rfl
    · rw [if_neg (c := (found k v || _) = true) (by simp [hs, hfd])]
      rw [hf] at hfd
      simp only [not_or, Bool.not_eq_true] at hfd
      rw [if_pos (by simp [hfd, hs])]
      by_cases hcd : candidate k v = true
      · rw [if_pos hcd]
        rw [hc] at hcd
        rw [if_pos (by omega)]
      · rw [if_neg hcd]
        rw [hc, not_not] at hcd
        rw [if_neg (by omega), if_pos hcd]
        rfl
  unfold validateGroupArg groupNotes
  cases hu : unparen a with
  | error e =>
    rw [(unparen_none a).1 ⟨e, hu⟩, unparen_error a e hu]
    rfl
  | ok m =>
    rw [unparen_first a m hu]
    cases m with
    | int i =>
      simp only [bind, Except.bind, fold, positionNotes, length_fold]
      by_cases hi : i ≤ 0 ∨ i > es.length
      · rw [if_pos hi, if_neg (by omega)]
        simp [pure, Except.pure]
      · rw [if_neg hi, if_pos (by omega)]
        rfl
    | column v => exact check v
    | string v q p => exact check v
    | _ => simp [bind, Except.bind, fold, pure, Except.pure]

theorem group_says (hm : Match ks k) {es args : List Node} :
    validateGroupBy ks es args = gather ((foldList args).map (groupNotes k (foldList es))) := by
  rw [validateGroupBy, foldList_map]
  induction args with
  | nil => rfl
  | cons a as ih => rw [concatV, gather_two, ih, key_says hm, List.map_cons, ← gather_cons]

theorem count_says {v : Node} {a b : Str} : validateCount v a b = countNotes a b (fold v) := by
  unfold validateCount countNotes
  cases hu : unparen v with
  | error e =>
    rw [(unparen_none v).1 ⟨e, hu⟩, unparen_error v e hu]
    rfl
  | ok m =>
    rw [unparen_first v m hu]
    have ht : Except.bind (returnType m) (fun _ => (.ok [a] : Notes)) = if untyped (fold m) = true then .error .attribute else .ok [a] := by
      have ht := untyped_type m
      by_cases h : untyped (fold m) = true
      · rw [if_pos h] at ht
        rw [if_pos h, ht.2]
        rfl
      · rw [if_neg h] at ht
        rw [if_neg h, ht]
        rfl
    cases m with
    | int i =>
      simp only [bind, Except.bind, returnType, fold]
      by_cases hi : i < 0
      · simp [hi, pure, Except.pure]
      · simp [hi, pure, Except.pure]
    | _ => exact ht

/-- The type of an expression; `none` may be no type or no method. -/
theorem resolve_says (hm : Match ks k) (ha : agree k = true) {n : Node} (hw : wf (fold n) = true) (ht : tidy (fold n) = true)
    (hl : level (fold n) ≤ 3) : resolveType n ks = .ok (kindIn k (fold n)) ∨
      resolveType n ks = .error .attribute ∧ kindIn k (fold n) = none := by
  cases hk : kindIn k (fold n) with
  | some t => exact .inl ((resolve_match hm ha hw ht hl t).2 hk)
  | none =>
    cases hr : resolveType n ks with
    | ok t =>
      cases t with
      | none => exact .inl rfl
      | some t =>
        rw [resolve_match hm ha hw ht hl t, hk] at hr
        cases hr
    | error e =>
      refine .inr ⟨?_, rfl⟩
      rw [resolveType_eq] at hr
      split at hr
      · cases hr; rfl
      · split at hr
        · rw [returnType_error n e hr]
        · rw [show transform n = .ok (layout (fold n)) from (good n hw ht).level hl (by omega)] at hr
          simp only [bind, Except.bind] at hr
          split at hr
          · cases hr
          · rw [returnType_error n e hr]

theorem called_eq (t : PType) : t.pyName = called t := by cases t <;> rfl

theorem boolean_says (hm : Match ks k) (ha : agree k = true) {n : Node} {msg word : Str}
    (hmsg : msg = str!"The argument of " ++ word ++ str!" must be type boolean, not type ") (hw : wf (fold n) = true) (ht : tidy (fold n) = true)
    (hl : level (fold n) ≤ 3) : mustBeBoolean msg n ks = booleanNotes k word (fold n) := by
  subst hmsg
  unfold mustBeBoolean booleanNotes boolishIn
  rcases resolve_says hm ha hw ht hl with h | ⟨h, h'⟩
  · rw [h]
    generalize kindIn k (fold n) = t
    cases t with
    | none => rfl
    | some t => cases t <;> rfl
  · rw [h, h']
    rfl

theorem chained_says (hm : Match ks k) {l r : Node} (hw : wf (fold (.chained l r)) = true) (ht : tidy (fold (.chained l r)) = true) :
    validateChained ks l r = pathNotes k (fold l) (fold r) := by
  have e1 : transform (.chained l r) = .ok (layout (.chained (fold l) (fold r))) := (good _ hw ht).level (k := 0) (by simp [fold, level]) (by omega)
  simp only [fold, wf, tidy, Bool.and_eq_true] at hw ht
  have e2 : transform l = .ok (layout (fold l)) := (good l hw.1.2 ht.1).level (Nat.le_of_eq (level_name hw.1.1.1)) (by omega)
  have e3 : (render r).s = .ok (layout (fold r)) := (good r hw.2 ht.2).str (Nat.le_of_eq (level_chain hw.1.1.2)) (by omega)
  unfold validateChained pathNotes
  rw [e1, e2, e3, foundPath, ← hm.has, ← hm.has, ← hm.has]
  simp only [bind, Except.bind]
  generalize hasField ks _ = a
  generalize hasField ks _ = b
  generalize hasField ks _ = c
  cases a <;> cases b <;> cases c <;> rfl

/-! ### Expressions and queries -/

/-- Validation of an expression, a FROM clause or a query says what is said about it. -/
def Says (n : Node) : Prop := ∀ ks k, Match ks k → agree k = true → wf (fold n) = true → tidy (fold n) = true →
  unmixed k (fold n) = true → (level (fold n) ≤ 5 ∨ isBody (fold n) = true ∨ n.isSelect = true) →
  (vtable n).v ks = report k none (fold n)

def SaysSub (n : Node) : Prop := ∀ m, sizeOf m < sizeOf n → Says m

theorem says_list {args : List Node} (ih : ∀ a ∈ args, Says a) (hm : Match ks k) (ha : agree k = true)
    (hw : wfList (foldList args) = true) (ht : tidyList (foldList args) = true)
    (hu : unmixedList k (foldList args) = true) (hl : ∀ a ∈ args, level (fold a) ≤ 5 ∨ isBody (fold a) = true ∨ a.isSelect = true) :
    V.concat ks (vtableList args) = reportList k none (foldList args) := by
  rw [wfList_iff] at hw
  rw [tidyList_iff] at ht
  rw [unmixedList_iff] at hu
  rw [gather_list, reportList_eq, foldList_map]
  congr 1
  refine List.map_congr_left fun a h => ih a h ks k hm ha (hw _ (foldList_mem h)) (ht _ (foldList_mem h))
    (hu _ (foldList_mem h)) (hl a h)

theorem item_says {v : Node} (ih : Says v) (hm : Match ks k) (ha : agree k = true) (hw : wf (fold v) = true) (ht : tidy (fold v) = true)
    (hu : unmixed k (fold v) = true) (hl : level (fold v) ≤ 5) (s : Option (List Node)) (a d : Bool) :
    validateOrderItem v (vtable v) ks s = report k (s.map foldList) (.orderItem (fold v) a d) := by
  have hv := ih ks k hm ha hw ht hu (.inl hl)
  rw [report]
  unfold validateOrderItem
  cases hun : unparen v with
  | error e =>
    rw [(unparen_none v).1 ⟨e, hun⟩, unparen_error v e hun]
    rfl
  | ok m =>
    rw [unparen_first v m hun]
    cases m with
    | int i =>
      simp only [bind, Except.bind, fold]
      cases s with
      | none =>
        by_cases hi : i ≤ 0
        · rw [if_pos hi]
          simp only [Option.map_none]
          rw [if_neg (by omega), positionNotes, if_neg (by omega)]
          simp [pure, Except.pure]
        · rw [if_neg hi]
          simp only [Option.map_none]
          rw [if_pos (by omega)]
      | some es =>
        simp only [Option.map_some, length_fold, positionNotes]
        by_cases hi : i ≤ 0
        · rw [if_pos hi, if_neg (by omega)]
          simp [pure, Except.pure]
        · rw [if_neg hi]
          by_cases hj : i > es.length
          · rw [if_pos hj, if_neg (by omega)]
            simp [pure, Except.pure]
          · rw [if_neg hj, if_pos (by omega)]
            rfl
    | _ => simpa only [bind, Except.bind, fold] using hv

theorem order_says {args : List Node} (ih : ∀ a ∈ args, ∀ v x d, a = .orderItem v x d → Says v) (hm : Match ks k)
    (ha : agree k = true) (hw : wf (fold (.orderBy args)) = true) (ht : tidy (fold (.orderBy args)) = true)
    (hu : unmixed k (fold (.orderBy args)) = true) (s : Option (List Node)) :
    (vtable (.orderBy args)).vIn ks s = report k (s.map foldList) (fold (.orderBy args)) := by
  simp only [fold, wf, tidy, unmixed, Bool.and_eq_true, wfList_iff, tidyList_iff, unmixedList_iff, List.all_eq_true] at hw ht hu
  rw [vtable, fold, report, reportList_eq, foldList_map]
  simp only
  rw [gather_listIn]
  congr 1
  refine List.map_congr_left fun a h => ?_
  have h1 := hw.1.2 _ (foldList_mem h)
  have h2 := hw.2 _ (foldList_mem h)
  have h3 := ht _ (foldList_mem h)
  have h5 := hu _ (foldList_mem h)
  cases a <;> first | exact absurd h1 Bool.false_ne_true | skip
  simp only [fold, wf, tidy, unmixed, Bool.and_eq_true, decide_eq_true_eq] at h2 h3 h5
  rw [vtable, fold]
  exact item_says (ih _ h _ _ _ rfl) hm ha h2.2 h3 h5 (by omega) s _ _

theorem clauses_says {x1 x2 x3 x4 x5 x6 x7 x8 : VRes} : (do
    let a ← x1; let b ← x2; let c ← x3; let d ← x4; let e ← x5; let f ← x6; let g ← x7; let h ← x8
    return a ++ b ++ c ++ d ++ e ++ f ++ g ++ h : VRes) = gather [x1, x2, x3, x4, x5, x6, x7, x8] := by
  rcases x1 with e | x1; · rfl
  rcases x2 with e | x2; · rfl
  rcases x3 with e | x3; · rfl
  rcases x4 with e | x4; · rfl
  rcases x5 with e | x5; · rfl
  rcases x6 with e | x6; · rfl
  rcases x7 with e | x7; · rfl
  rcases x8 with e | x8; · rfl
  simp [gather, bind, Except.bind, pure, Except.pure, List.append_assoc]

theorem says_select {es : List Node} {all d : Bool} {on : List Node} {f w g h o l off : Node} {semi : Bool}
    (ih : SaysSub (.select es all d on f w g h o l off semi)) : Says (.select es all d on f w g h o l off semi) := by
  intro ks k hm ha hw ht hu _
  simp only [fold, wf, tidy, unmixed, Bool.and_eq_true, decide_eq_true_eq] at hw ht hu
  obtain ⟨⟨⟨⟨⟨⟨⟨⟨⟨⟨⟨⟨⟨⟨⟨⟨⟨⟨⟨⟨h1, h2⟩, h3⟩, -⟩, -⟩, h6⟩, h7⟩, nf⟩, hf⟩, nw⟩, hw⟩, ng⟩, hg⟩, nh⟩, hh⟩, no⟩, ho⟩, nl⟩, hl⟩, noff⟩, hoff⟩ := hw
  obtain ⟨⟨⟨⟨⟨⟨⟨⟨t1, -⟩, tf⟩, tw⟩, tg⟩, th⟩, to⟩, tl⟩, toff⟩ := ht
  obtain ⟨⟨⟨⟨⟨⟨ua, u1⟩, uf⟩, uw⟩, uh⟩, uo⟩, un⟩ := hu
  obtain ⟨ff, hff, hm'⟩ := inner_match hm hf tf un nf
  rw [vtable_select]
  simp only [V.of]
  rw [hff]
  simp only [bind, Except.bind]
  rw [fold, report]
  generalize scope k (fold f) = k' at *
  generalize innerFields ks ff = ks' at *
  have e1 : V.concat ks' (vtableList es) = reportList k' none (foldList es) :=
    says_list (fun a ha => ih a (by have := List.sizeOf_lt_of_mem ha; simp only [Node.select.sizeOf_spec]; omega)) hm' ua h3 t1 u1
      fun a ha => .inl (Nat.le_trans (levels_fold h2 a ha) (by omega))
  have e2 : optV f ((vtable f).v []) = report [] none (fold f) := by
    unfold optV
    by_cases hft : f.truthy = true
    · rw [if_pos hft, ih f (by simp only [Node.select.sizeOf_spec]; omega) [] [] ⟨fun _ => Iff.rfl, List.nodup_nil⟩ rfl hf tf uf
        (.inr (.inl (orNone_truthy nf hft)))]
    · rw [if_neg hft]
      obtain rfl : f = .none := by cases f <;> first | rfl | exact absurd rfl hft
      rfl
  have e3 : optV w ((vtable w).v ks') = report k' none (fold w) := by
    cases w <;> first | exact absurd nw Bool.false_ne_true | skip
    · rfl
    · simp only [fold, wf, tidy, unmixed, Bool.and_eq_true, decide_eq_true_eq] at hw tw uw
      rw [optV, if_pos (c := Node.truthy _ = true) rfl, vtable, fold, report]
      simp only [V.of]
      rw [gather_two, boolean_says (msg := str!"The argument of WHERE must be type boolean, not type ") (word := str!"WHERE") hm' ua rfl hw.2 tw.2 hw.1,
        ih _ (by simp only [Node.select.sizeOf_spec, Node.where_.sizeOf_spec]; omega) ks' k' hm' ua hw.2 tw.2 uw (.inl (by omega))]
  have e4 : optV g (match (generalizing := false) g with
        | .groupBy args _ _ => validateGroupBy ks' es args
        | _ => .error .type) = report k' (some (foldList es)) (fold g) := by
    cases g <;> first | exact absurd ng Bool.false_ne_true | skip
    · rfl
    · rw [optV, if_pos (c := Node.truthy _ = true) rfl, fold, report, Option.getD_some, ← group_says hm']
  have e5 : optV h ((vtable h).v ks') = report k' none (fold h) := by
    cases h <;> first | exact absurd nh Bool.false_ne_true | skip
    · rfl
    · simp only [fold, wf, tidy, unmixed, Bool.and_eq_true, decide_eq_true_eq] at hh th uh
      rw [optV, if_pos (c := Node.truthy _ = true) rfl, vtable, fold, report]
      simp only [V.of]
      rw [gather_two, boolean_says (msg := str!"The argument of HAVING must be type boolean, not type ") (word := str!"HAVING") hm' ua rfl hh.2 th.2 hh.1,
        ih _ (by simp only [Node.select.sizeOf_spec, Node.having.sizeOf_spec]; omega) ks' k' hm' ua hh.2 th.2 uh (.inl (by omega))]
  have e6 : optV o ((vtable o).vIn ks' (some es)) = report k' (some (foldList es)) (fold o) := by
    cases o <;> first | exact absurd no Bool.false_ne_true | skip
    · rfl
    · rename_i args
      rw [optV, if_pos (c := Node.truthy _ = true) rfl, order_says (fun a ha v x d he => ih v (by
        have := List.sizeOf_lt_of_mem ha
        subst he
        simp only [Node.orderItem.sizeOf_spec] at this
        simp only [Node.select.sizeOf_spec, Node.orderBy.sizeOf_spec]
        omega)) hm' ua ho to uo]
      rfl
  have e7 : optV l ((vtable l).v ks') = report k' none (fold l) := by
    cases l <;> first | exact absurd nl Bool.false_ne_true | skip
    · rfl
    · rw [optV, if_pos (c := Node.truthy _ = true) rfl, vtable, fold, report]
      exact count_says
  have e8 : optV off ((vtable off).v ks') = report k' none (fold off) := by
    cases off <;> first | exact absurd noff Bool.false_ne_true | skip
    · rfl
    · rw [optV, if_pos (c := Node.truthy _ = true) rfl, vtable, fold, report]
      exact count_says
  have e0 : clausesV es f w g h o l off ks' = gather [V.concat ks' (vtableList es), optV f ((vtable f).v []), optV w ((vtable w).v ks'),
      optV g (match (generalizing := false) g with
        | .groupBy args _ _ => validateGroupBy ks' es args
        | _ => .error .type),
      optV h ((vtable h).v ks'), optV o ((vtable o).vIn ks' (some es)), optV l ((vtable l).v ks'), optV off ((vtable off).v ks')] :=
    clauses_says
  rw [e0, e1, e2, e3, e4, e5, e6, e7, e8]

/-- The names in REPLACE. -/
theorem names_says (hm : Match ks k) {args : List Node} (hl : ∀ a ∈ args, level (fold a) ≤ 4) (hn : ∀ a ∈ args, isNamed (fold a) = true) :
    V.concat ks (vtableAliases args) = gather ((foldList args).map (nameNotes k)) := by
  induction args with
  | nil => rfl
  | cons a as ih =>
    have h1 := hl a (by simp)
    have h2 := hn a (by simp)
    have ih := ih (fun x hx => hl x (by simp [hx])) fun x hx => hn x (by simp [hx])
    cases a <;> first | exact absurd h2 Bool.false_ne_true | skip
    rename_i e al w
    simp only [fold, isNamed, Bool.and_eq_true] at h2
    obtain ⟨rfl, hal⟩ := h2
    cases al <;> first | exact absurd hal Bool.false_ne_true | skip
    rename_i v
    rw [vtableAliases, V.concat, gather_two, ih, vtable, foldList, List.map_cons]
    simp only [V.of]
    rw [column_says hm, ← gather_cons]
    rfl

theorem says_paren {args : List Node} (ih : ∀ a ∈ args, Says a) : Says (.paren args) := by
  intro ks k hm ha hw ht hu hl
  simp only [fold, wf, tidy, unmixed, Bool.and_eq_true, Bool.or_eq_true, decide_eq_true_eq] at hw ht hu
  rcases unseen_or args with ⟨qs, s, rfl⟩ | hun
  · rfl
  rw [vtable, fold, report, hun, if_neg Bool.false_ne_true]
  refine says_list ih hm ha hw.2 ht hu fun a ha => ?_
  rcases hw.1 with h | h
  · exact .inl (levels_fold h a ha)
  · match args, h with
    | [b], h =>
      obtain rfl := List.mem_singleton.1 ha
      simp only [foldList, isGroup, Bool.or_eq_true] at h
      rcases h with ((h | h) | h) | h
      · exact .inr (.inr (seen_select hun h))
      · exact .inr (.inl (by simp [isBody, isFrom, h]))
      · exact .inr (.inl (by simp [isBody, isFrom, h]))
      · exact .inr (.inl (by simp [isBody, h]))

theorem bool_says {x1 x2 x3 x4 : VRes} : (do
    let a ← x1; let b ← x2; let c ← x3; let d ← x4
    return a ++ b ++ c ++ d : VRes) = gather [x1, x2, x3, x4] := by
  rcases x1 with e | x1; · rfl
  rcases x2 with e | x2; · rfl
  rcases x3 with e | x3; · rfl
  rcases x4 with e | x4; · rfl
  simp [gather, bind, Except.bind, pure, Except.pure, List.append_assoc]

theorem three_says {x1 x2 x3 : VRes} : (do
    let a ← x1; let b ← x2; let c ← x3
    return a ++ b ++ c : VRes) = gather [x1, x2, x3] := by
  rcases x1 with e | x1; · rfl
  rcases x2 with e | x2; · rfl
  rcases x3 with e | x3; · rfl
  simp [gather, bind, Except.bind, pure, Except.pure, List.append_assoc]

theorem gather_skip {x y : Notes} : gather [x, .ok [], y, .ok []] = gather [x, y] := by
  cases x <;> cases y <;> simp [gather]

theorem says_step {n : Node} (ih : SaysSub n) : Says n := by
  cases n with
  | paren args => exact says_paren fun a ha => ih a (by have := List.sizeOf_lt_of_mem ha; simp only [Node.paren.sizeOf_spec]; omega)
  | select es all d on f w g h o l off semi => exact says_select ih
  | cond l p r =>
    intro ks k hm ha hw ht hu hl
    simp only [fold, wf, tidy, unmixed, Bool.and_eq_true, decide_eq_true_eq] at hw ht hu
    obtain ⟨⟨⟨h1, h2⟩, h3⟩, h4⟩ := hw
    rw [vtable_cond, fold, report]
    simp only [V.of]
    rw [gather_two, ih l (by simp only [Node.cond.sizeOf_spec]; omega) ks k hm ha h2 ht.1 hu.1 (.inl (by omega))]
    congr 3
    unfold condRightV
    by_cases hp : p.map Char.toLower = str!"between"
    · rw [between_lower (by rw [hp]; decide), if_pos hp, if_pos hp]
      rw [if_pos hp] at h4
      cases r <;> first | exact absurd h4 Bool.false_ne_true | skip
      rename_i t a b
      have iha := ih a (by simp only [Node.cond.sizeOf_spec, Node.boolc.sizeOf_spec]; omega)
      have ihb := ih b (by simp only [Node.cond.sizeOf_spec, Node.boolc.sizeOf_spec]; omega)
      simp only [fold, isRange, tidy, wf, unmixed, Bool.and_eq_true, decide_eq_true_eq] at h3 h4 ht hu
      rw [vtable, fold, reportBounds]
      simp only [validateBool_eq, operandV, if_true]
      rw [bool_says, gather_skip, iha ks k hm ha h3.1.2 ht.2.1.2 hu.2.1 (.inl (by omega)), ihb ks k hm ha h3.2 ht.2.2 hu.2.2 (.inl (by omega))]
    · rw [if_neg hp] at h4
      have hasc : (p.map Char.toLower).all isAscii = true := by
        simp only [Bool.and_eq_true, decide_eq_true_eq] at h4
        exact (by decide : ∀ q ∈ corePreds, q.all isAscii = true) _ h4.1.1
      simp only [Bool.and_eq_true, decide_eq_true_eq] at h4
      rw [between_lower hasc, if_neg hp, if_neg hp]
      exact ih r (by simp only [Node.cond.sizeOf_spec]; omega) ks k hm ha h3 ht.2 hu.2 (.inl (by omega))
  | boolc t l r =>
    intro ks k hm ha hw ht hu hl
    simp only [fold, wf, tidy, unmixed, Bool.and_eq_true, decide_eq_true_eq] at hw ht hu
    obtain ⟨⟨⟨⟨h1, h2⟩, h3⟩, h4⟩, h5⟩ := hw
    obtain ⟨⟨⟨h6, h7⟩, h8⟩, h9⟩ := ht
    have hup : E.upper t = caps (t.map Char.toLower) := 
      upper_caps ((by decide : ∀ q ∈ boolPredicates, q.all isAscii = true) _ h1)
    rw [vtable, fold, report]
    simp only [validateBool_eq, operandV, Bool.false_eq_true, if_false]
    rw [bool_says, hup, ih l (by simp only [Node.boolc.sizeOf_spec]; omega) ks k hm ha h4 h8 hu.1 (.inl (by omega)),
      ih r (by simp only [Node.boolc.sizeOf_spec]; omega) ks k hm ha h5 h9 hu.2 (.inl (by omega)),
      boolean_says hm ha rfl h4 h8 (by omega), boolean_says hm ha rfl h5 h9 (by omega)]
  | chained l r =>
    intro ks k hm ha hw ht hu hl
    rw [vtable]
    exact chained_says hm hw ht
  | func f args =>
    intro ks k hm ha hw ht hu hl
    simp only [fold, wf, tidy, unmixed, Bool.and_eq_true, decide_eq_true_eq] at hw ht hu
    rw [vtable, fold, report]
    exact says_list (fun a ha => ih a (by have := List.sizeOf_lt_of_mem ha; simp only [Node.func.sizeOf_spec]; omega)) hm ha hw.2 ht hu
      fun a ha => .inl (levels_fold hw.1.2 a ha)
  | count args d =>
    intro ks k hm ha hw ht hu hl
    simp only [fold, wf, tidy, unmixed, Bool.and_eq_true, decide_eq_true_eq] at hw ht hu
    rw [vtable, fold, report]
    exact says_list (fun a ha => ih a (by have := List.sizeOf_lt_of_mem ha; simp only [Node.count.sizeOf_spec]; omega)) hm ha hw.2 ht hu
      fun a ha => .inl (levels_fold hw.1 a ha)
  | «alias» e al w =>
    intro ks k hm ha hw ht hu hl
    have hw' := wf_alias hw
    simp only [fold, tidy, unmixed] at ht hu
    rw [vtable, fold, report]
    refine ih e (by simp only [Node.alias.sizeOf_spec]; omega) ks k hm ha hw'.2.1 (Bool.and_eq_true_iff.1 ht).1 hu ?_
    simp only [fold, wf, Bool.and_eq_true, Bool.or_eq_true, decide_eq_true_eq] at hw
    rcases hw.1.1 with h | h
    · exact .inl (by omega)
    · rcases h.1 with h | h
      · exact .inr (.inl (isWhole_from h))
      · refine .inl ?_
        revert h
        generalize fold e = m
        intro h
        cases m <;> first | exact absurd h Bool.false_ne_true | (rw [level]; split <;> decide)
  | column v =>
    intro ks k hm ha hw ht hu hl
    rw [vtable]
    exact column_says hm v
  | join type l r on us =>
    intro ks k hm ha hw ht hu hl
    exact join_says _
  | arrayAgg e d i r o l =>
    intro ks k hm ha hw ht hu hl
    simp only [fold, wf, tidy, unmixed, Bool.and_eq_true, decide_eq_true_eq] at hw ht hu
    obtain ⟨⟨⟨⟨⟨⟨h1, h2⟩, -⟩, -⟩, -⟩, -⟩, -⟩ := hw
    rw [vtable, fold, report]
    exact ih e (by simp only [Node.arrayAgg.sizeOf_spec]; omega) ks k hm ha h2 ht.1 hu (.inl (by omega))
  | filtered e w =>
    intro ks k hm ha hw ht hu hl
    simp only [fold, wf, tidy, unmixed, Bool.and_eq_true, decide_eq_true_eq] at hw ht hu
    obtain ⟨⟨⟨h1, h2⟩, h3⟩, h4⟩ := hw
    rw [vtable, fold, report]
    simp only [V.of]
    rw [gather_two, ih e (by simp only [Node.filtered.sizeOf_spec]; omega) ks k hm ha h3 ht.1 hu.1 (.inl (Nat.le_trans (level_call h1) (by omega))),
      ih w (by simp only [Node.filtered.sizeOf_spec]; omega) ks k hm ha h4 ht.2 hu.2 (.inl (by omega))]
  | analytics f part o fr =>
    intro ks k hm ha hw ht hu hl
    simp only [fold, wf, tidy, unmixed, Bool.and_eq_true, decide_eq_true_eq] at hw ht hu
    obtain ⟨⟨⟨⟨⟨⟨⟨⟨⟨h1, h2⟩, h3⟩, h4⟩, h5⟩, h6⟩, h7⟩, h8⟩, h9⟩, h10⟩ := hw
    have e1 := ih f (by simp only [Node.analytics.sizeOf_spec]; omega) ks k hm ha h2 ht.1.1 hu.1.1 (.inl (Nat.le_trans (level_function h1) (by omega)))
    have e2 := says_list (fun a ha => ih a (by have := List.sizeOf_lt_of_mem ha; simp only [Node.analytics.sizeOf_spec]; omega)) hm ha h4 ht.1.2
        hu.1.2 fun a ha => .inl (Nat.le_trans (levels_fold h3 a ha) (by omega))
    have e3 : optV o ((vtable o).vIn ks none) = report k none (fold o) := by
      cases o <;> first | exact absurd h6 Bool.false_ne_true | skip
      · rfl
      · rename_i args
        rw [optV, if_pos (c := Node.truthy _ = true) rfl, order_says (fun a ha v x d he => ih v (by
          have := List.sizeOf_lt_of_mem ha
          subst he
          simp only [Node.orderItem.sizeOf_spec] at this
          simp only [Node.analytics.sizeOf_spec, Node.orderBy.sizeOf_spec]
          omega)) hm ha h7 ht.2 hu.2]
        rfl
    rw [vtable, fold, report]
    simp only [V.of]
    rw [three_says, e1, e2, e3]
  | replace e args =>
    intro ks k hm ha hw ht hu hl
    simp only [fold, wf, Bool.and_eq_true, decide_eq_true_eq] at hw
    obtain ⟨⟨⟨⟨⟨-, -⟩, h3⟩, h4⟩, -⟩, -⟩ := hw
    rw [vtable, fold, report]
    exact names_says hm (levels_fold h3) fun a ha => List.all_eq_true.1 h4 _ (foldList_mem ha)
  | cast e t =>
    intro ks k hm ha hw ht hu hl
    simp only [fold, wf, tidy, unmixed, Bool.and_eq_true, decide_eq_true_eq] at hw ht hu
    rw [vtable, fold, report]
    simp only [V.of]
    rw [ih e (by simp only [Node.cast.sizeOf_spec]; omega) ks k hm ha hw.1.2 ht hu (.inl (by omega))]
    cases report k none (fold e) <;> rfl
  | _ =>
    intro ks k hm ha hw ht hu hl
    first
    | rfl
    | (exfalso
       rcases hl with h | h | h
       · exact absurd h (by simp [fold, level])
       · exact absurd h Bool.false_ne_true
       · exact absurd h Bool.false_ne_true)

theorem says (n : Node) : Says n := by
  induction h : sizeOf n using Nat.strongRecOn generalizing n with
  | _ k ih => exact says_step fun m hm => ih _ (h ▸ hm) m rfl

/-- Validation of a query. -/
theorem validate_says {n : Node} (hw : wf (fold n) = true) (hs : n.isSelect = true) (ht : tidy (fold n) = true)
    (hu : unmixed [] (fold n) = true) : validate n = report [] none (fold n) := by
  have := says n [] [] ⟨fun _ => Iff.rfl, List.nodup_nil⟩ rfl hw ht hu (.inr (.inr hs))
  cases n <;> first | exact absurd hs Bool.false_ne_true | exact this

end

/-! ### Which exceptions there are -/

/-- The exceptions that validation of a core statement raises. -/
def Odd (x : Notes) : Prop := ∀ e, x = .error e → e = .attribute ∨ e = .index ∨ e = .type

theorem odd_ok (m : List Str) : Odd (.ok m) := fun _ h => by cases h

theorem odd_gather {xs : List Notes} (h : ∀ x ∈ xs, Odd x) : Odd (gather xs) := by
  induction xs with
  | nil => exact odd_ok []
  | cons x xs ih =>
    intro e he
    rw [gather.eq_def] at he
    simp only at he
    cases hx : x with
    | error e' =>
      rw [hx] at he
      cases he
      exact h x (by simp) _ hx
    | ok m =>
      rw [hx] at he
      simp only at he
      cases hg : gather xs with
      | error e' =>
        rw [hg] at he
        cases he
        exact ih (fun y hy => h y (by simp [hy])) _ hg
      | ok ms => rw [hg] at he; cases he

theorem odd_ite {c : Prop} [Decidable c] {x y : Notes} (hx : Odd x) (hy : Odd y) : Odd (if c then x else y) := by
  split <;> assumption

theorem odd_attribute : Odd (.error .attribute) := fun _ h => by cases h; exact .inl rfl
theorem odd_index : Odd (.error .index) := fun _ h => by cases h; exact .inr (.inl rfl)
theorem odd_type : Odd (.error .type) := fun _ h => by cases h; exact .inr (.inr rfl)

theorem odd_column (k : List Field) (v : Str) : Odd (columnNotes k v) := odd_ite (odd_ok _) (odd_ite (odd_ok _) (odd_ok _))
theorem odd_position (w : Str) (n : Nat) (i : Int) : Odd (positionNotes w n i) := odd_ite (odd_ok _) (odd_ok _)
theorem odd_key (k : List Field) (es : List Node) (v : Str) : Odd (keyNotes k es v) := odd_ite (odd_ok _) (odd_ite odd_attribute (odd_ok _))

theorem odd_boolean (k : List Field) (w : Str) (n : Node) : Odd (booleanNotes k w n) := by
  unfold booleanNotes
  split
  · exact odd_attribute
  · exact odd_ite (odd_ok _) (odd_ok _)

theorem odd_group (k : List Field) (es : List Node) (n : Node) : Odd (groupNotes k es n) := by
  unfold groupNotes
  split
  · exact odd_index
  · exact odd_position _ _ _
  · exact odd_key _ _ _
  · exact odd_key _ _ _
  · exact odd_ok _

theorem odd_count (a b : Str) (n : Node) : Odd (countNotes a b n) := by
  unfold countNotes
  split
  · exact odd_index
  · exact odd_ite (odd_ok _) (odd_ok _)
  · exact odd_ite odd_attribute (odd_ok _)

theorem odd_name (k : List Field) (n : Node) : Odd (nameNotes k n) := by
  cases n <;> first | exact odd_column _ _ | exact odd_ok _

theorem odd_map {α : Type} (f : α → Notes) (h : ∀ x, Odd (f x)) (xs : List α) : Odd (gather (xs.map f)) :=
  odd_gather fun x hx => by
    obtain ⟨a, -, rfl⟩ := List.mem_map.1 hx
    exact h a

theorem odd_report (n : Node) : (∀ k es, Odd (report k es n)) ∧ ∀ k, Odd (reportBounds k n) := by
  induction n using Node.rec (motive_2 := fun ns => ∀ k es, Odd (reportList k es ns)) with
  | nil => exact odd_ok []
  | cons n ns h1 h2 =>
    rename_i k es
    rw [reportList]
    exact odd_gather (by simp [h1.1 k es, h2 k es])
  | paren args ih =>
    refine ⟨fun k es => ?_, fun k => odd_ok _⟩
    rw [report]
    exact odd_ite (odd_ok _) (ih k none)
  | orderItem v a d ih =>
    refine ⟨fun k es => ?_, fun k => odd_ok _⟩
    rw [report]
    split
    · exact odd_index
    · split
      · exact odd_ite odd_type (odd_position _ _ _)
      · exact odd_position _ _ _
    · exact ih.1 k none
  | cond l p r h1 h2 =>
    refine ⟨fun k es => ?_, fun k => odd_ok _⟩
    rw [report]
    refine odd_gather ?_
    simp only [List.mem_cons, List.not_mem_nil, or_false, forall_eq_or_imp, forall_eq]
    exact ⟨h1.1 k none, odd_ite (h2.2 k) (h2.1 k none)⟩
  | _ =>
    refine ⟨fun k es => ?_, fun k => ?_⟩
    · first
      | exact odd_ok _
      | exact odd_type
      | exact odd_column _ _
      | exact odd_ite (odd_ok _) (odd_ok _)
      | exact odd_count _ _ _
      | exact odd_map _ (odd_name k) _
      | exact odd_map _ (odd_group k _) _
      | (rw [report]
         refine odd_gather ?_
         simp [*, odd_boolean, odd_attribute])
      | (rw [report]; simp only [*])
    · first
      | exact odd_ok _
      | (rw [reportBounds]
         refine odd_gather ?_
         simp [*])

theorem report_error (n : Node) (k : List Field) (es : Option (List Node)) (e : PyErr) (h : report k es n = .error e) :
    e = .attribute ∨ e = .index ∨ e = .type := (odd_report n).1 k es e h

end SqlV.Core
