import Verif.Spec.Scope
import Verif.Lemmas.Sound

/-! The columns that a FROM clause offers, and what may be written where they are known. -/

set_option linter.unusedSectionVars false

namespace SqlV.Core

section

variable [E : PyEnv] [L : LawfulPyEnv E]

/-! ### Offers -/

/-- The fields are those, or there are none and the exception that is caught is raised. -/
def Offer : Option (List Field) → Except PyErr (List Field) → Prop
  | some os, .ok fs => ∀ f, f ∈ fs ↔ f ∈ os
  | none, .error e => e = .attribute
  | _, _ => False

theorem Offer.cases {o : Option (List Field)} {x : Except PyErr (List Field)} (h : Offer o x) :
    (∃ os fs, o = some os ∧ x = .ok fs ∧ ∀ f, f ∈ fs ↔ f ∈ os) ∨ (o = none ∧ x = .error .attribute) := by
  cases o with
  | none =>
    cases x with
    | ok fs => exact absurd h id
    | error e =>
      obtain rfl : e = .attribute := h
      exact .inr ⟨rfl, rfl⟩
  | some os =>
    cases x with
    | ok fs => exact .inl ⟨os, fs, rfl, rfl, h⟩
    | error e => exact absurd h id

/-- What a FROM clause or a query offers. -/
def Offered (n : Node) : Prop := wf (fold n) = true → tidy (fold n) = true → namedFrom (fold n) = true → isBody (fold n) = true ∨ asks n = true →
  Offer (offers (fold n)) (knownFields n)

theorem untyped_type (n : Node) : if untyped (fold n) then kind (fold n) = none ∧ returnType n = .error .attribute
    else returnType n = .ok (kind (fold n)) := by
  induction n using Node.rec (motive_2 := fun ns => if untypedFirst (foldList ns) then kindFirst (foldList ns) = none ∧ returnTypeHead ns = .error .attribute
    else returnTypeHead ns = .ok (kindFirst (foldList ns))) with
  | nil => rfl
  | cons n ns h1 h2 => exact h1
  | chained l r _ hr => exact hr
  | paren args ih => exact ih
  | «alias» e al w he _ => exact he
  | _ => first | rfl | exact ⟨rfl, rfl⟩

theorem alias_field {al : Node} (h : isAlias (fold al) true = true ∨ isRaw (fold al) = true) (hl : isLit (fold al) = false) :
    aliasField al = .ok (aliasName (fold al)) := by
  cases al with
  | column | raw => rfl
  | string v q pre => cases pre with
    | none => exact absurd hl (by simp [fold, isLit])
    | some p => rcases h with h | h <;> exact absurd h Bool.false_ne_true
  | _ => rcases h with h | h <;> exact absurd h Bool.false_ne_true

theorem alias_text {al : Node} (h : isRaw (fold al) = true) : transform al = .ok (aliasName (fold al)) := by
  cases al <;> first | exact absurd h Bool.false_ne_true | rfl

theorem offer_items (es : List Node) (h : ∀ e ∈ es, wf (fold e) = true) (hn : ∀ e ∈ es, litAlias (fold e) = false) : ∀ acc,
    if (foldList es).any untypedAlias then exprFields es acc = .error .attribute
    else ∃ fs, exprFields es acc = .ok fs ∧ ∀ f, f ∈ fs ↔ f ∈ acc ∨ f ∈ (foldList es).filterMap column? := by
  induction es with
  | nil => exact fun acc => ⟨acc, rfl, by simp [foldList]⟩
  | cons e es ih =>
    intro acc
    have hw := h e (by simp)
    have hn' := hn e (by simp)
    have ih := ih (fun x hx => h x (by simp [hx])) fun x hx => hn x (by simp [hx])
    have plain : untypedAlias (fold e) = false → column? (fold e) = none → exprFields (e :: es) acc = exprFields es acc →
        if (foldList (e :: es)).any untypedAlias then exprFields (e :: es) acc = .error .attribute
        else ∃ fs, exprFields (e :: es) acc = .ok fs ∧ ∀ f, f ∈ fs ↔ f ∈ acc ∨ f ∈ (foldList (e :: es)).filterMap column? := by
      intro h1 h2 h3
      rw [h3, foldList, List.any_cons, h1, Bool.false_or]
      simp only [List.filterMap_cons, h2]
      exact ih acc
    have makes : ∀ f, untypedAlias (fold e) = false → column? (fold e) = some f → exprFields (e :: es) acc = exprFields es (addField acc f) →
        if (foldList (e :: es)).any untypedAlias then exprFields (e :: es) acc = .error .attribute
        else ∃ fs, exprFields (e :: es) acc = .ok fs ∧ ∀ f, f ∈ fs ↔ f ∈ acc ∨ f ∈ (foldList (e :: es)).filterMap column? := by
      intro f h1 h2 h3
      rw [h3, foldList, List.any_cons, h1, Bool.false_or]
      simp only [List.filterMap_cons, h2]
      have := ih (addField acc f)
      split
      · rename_i hu
        rw [if_pos hu] at this
        exact this
      · rename_i hu
        rw [if_neg hu] at this
        obtain ⟨fs, e1, e2⟩ := this
        refine ⟨fs, e1, fun g => ?_⟩
        rw [e2, mem_addField, List.mem_cons, or_assoc]
    cases e <;> first | exact plain rfl rfl rfl | skip
    · exact makes _ rfl rfl rfl
    · rename_i e al w
      have hal := alias_field (wf_alias hw).1 hn'
      have := untyped_type e
      cases hu : untyped (fold e) with
      | false =>
        rw [if_neg (by simp [hu])] at this
        refine makes ⟨aliasName (fold al), kind (fold e)⟩ (by simp [fold, untypedAlias, hu]) (by simp [fold, column?]) ?_
        rw [exprFields]
        simp only [this, hal, bind, Except.bind, pure, Except.pure]
      | true =>
        rw [if_pos hu] at this
        have h2 : untypedAlias (fold (.alias e al w)) = true := by simp [fold, untypedAlias, hu]
        rw [foldList, List.any_cons, h2, Bool.true_or, if_pos rfl, exprFields]
        simp only [this.2]
        rfl

theorem offer_paren {args : List Node} (ih : ∀ a ∈ args, Offered a) : Offered (.paren args) := by
  intro hw ht hp hb
  have hb := hb.resolve_right fun h => by cases h
  simp only [fold, isBody, isFrom, isJoin, isSet, isSource, Bool.false_or, Bool.or_false] at hb
  match args with
  | [] => exact absurd hb Bool.false_ne_true
  | _ :: _ :: _ => exact absurd hb Bool.false_ne_true
  | [a] =>
    simp only [foldList, isGroup, Bool.or_eq_true] at hb
    simp only [fold, foldList, wf, wfList, tidy, tidyList, Bool.and_eq_true] at hw ht
    rw [knownFields, knownFieldsHead, fold, foldList, offers]
    have hb : isBody (fold a) = true ∨ asks a = true := by
      rcases hb with ((h | h) | h) | h
      · exact .inr (isQuery_asks h)
      · exact .inl (by simp [isBody, isFrom, h])
      · exact .inl (by simp [isBody, isFrom, h])
      · exact .inl (by simp [isBody, h])
    rcases (ih a (by simp) hw.2.1 ht.1 (by simpa only [fold, foldList, namedFrom] using hp) hb).cases with ⟨os, fs, h1, h2, h3⟩ | ⟨h1, h2⟩
    · rw [h1, h2]; exact h3
    · rw [h1, h2]; exact fun f => Iff.rfl

theorem has_eq {fs os : List Field} (h : ∀ f, f ∈ fs ↔ f ∈ os) (x : Str) : hasField fs x = has os x := by
  rw [Bool.eq_iff_iff, hasField_iff, has, List.any_eq_true]
  simp only [h, decide_eq_true_eq]

theorem isSelect_fold (n : Node) : (fold n).isSelect = n.isSelect := by cases n <;> rfl

theorem offers_other {es : List Node} {all d : Bool} {on : List Node} {f w g h o l off : Node} {semi : Bool} (hf : ∀ s as, f ≠ .paren (s :: as)) :
    offers (.select es all d on f w g h o l off semi) = if es.any untypedAlias then none else some (es.filterMap column?) := by
  rw [offers]
  exact hf

theorem offer_select {es : List Node} {all d : Bool} {on : List Node} {f w g h o l off : Node} {semi : Bool}
    (ih : ∀ args, f = .paren args → ∀ a ∈ args, Offered a) : Offered (.select es all d on f w g h o l off semi) := by
  intro hw ht hp _
  simp only [fold, namedFrom, Bool.and_eq_true, Bool.not_eq_true', List.any_eq_false] at hp
  simp only [fold, wf, tidy, Bool.and_eq_true, decide_eq_true_eq] at hw ht
  obtain ⟨⟨⟨⟨⟨⟨⟨⟨⟨⟨⟨⟨⟨⟨⟨⟨⟨⟨⟨⟨h1, h2⟩, h3⟩, -⟩, -⟩, h6⟩, h7⟩, hf⟩, hwf⟩, -⟩, hww⟩, -⟩, hg⟩, -⟩, hh⟩, -⟩, ho⟩, -⟩, hl⟩, -⟩, hoff⟩ := hw
  obtain ⟨⟨⟨⟨⟨⟨⟨⟨t1, -⟩, tf⟩, tw⟩, tg⟩, th⟩, to⟩, tl⟩, toff⟩ := ht
  rw [wfList_iff] at h3
  have he := offer_items es (fun e he => h3 _ (foldList_mem he)) (fun e he => by simpa using hp.1 _ (foldList_mem he)) []
  have other : (∀ s as, f ≠ .paren (s :: as)) → (∀ as, f ≠ .paren as) → Offer (offers (fold (.select es all d on f w g h o l off semi)))
      (knownFields (.select es all d on f w g h o l off semi)) := by
    intro hne hne'
    have : knownFields (.select es all d on f w g h o l off semi) = exprFields es [] := by
      rw [knownFields.eq_def]
      simp only
      cases exprFields es [] with
      | error e => rfl
      | ok fs =>
        rfl
    rw [this, fold, offers_other]
    · split at he
      · rename_i hu
        rw [if_pos hu, he]
        rfl
      · rename_i hu
        obtain ⟨fs, e1, e2⟩ := he
        rw [if_neg hu, e1]
        intro g
        simpa using e2 g
    · intro s as hs
      cases f <;> simp only [fold, reduceCtorEq] at hs
      exact hne' _ rfl
  cases f with
  | paren args =>
    match args with
    | [] =>
      rcases orNone_or hf with h | h
      · cases h
      · obtain ⟨a, ha⟩ := isBody_paren h
        cases ha
    | a :: as =>
      rw [knownFields, fold, fold, foldList, offers]
      simp only [isSelect_fold]
      split at he
      · rename_i hu
        rw [if_pos hu, he]
        rfl
      · rename_i hu
        obtain ⟨fs, e1, e2⟩ := he
        rw [if_neg hu, e1]
        have e2 : ∀ g, g ∈ fs ↔ g ∈ (foldList es).filterMap column? := fun g => by simpa using e2 g
        simp only [bind, Except.bind]
        by_cases hsel : a.isSelect = true
        · rw [if_pos hsel, if_pos hsel]
          simp only [fold, foldList, wf, wfList, tidy, tidyList, Bool.and_eq_true] at hwf tf
          rcases (ih _ rfl a (by simp) hwf.2.1 tf.1 (by simpa only [fold, foldList, namedFrom] using hp.2) (.inr (select_asks hsel))).cases with ⟨os, gs, g1, g2, g3⟩ | ⟨g1, g2⟩
          · rw [g1, g2, Option.map_some, expand, ← has_eq e2, ← has_eq g3]
            simp only
            split
            · intro x
              rw [mem_unionFields, List.mem_filter, List.mem_append, List.mem_filter, e2, g3]
            · exact e2
          · rw [g1, g2]
            rfl
        · rw [if_neg hsel, if_neg hsel]
          exact e2
  | _ => exact other (by intro _ _ h; cases h) (by intro _ h; cases h)

theorem formatFields_mem {al : Node} {s : Str} (h : transform al = .ok s) (fs : List Field) : ∀ acc, ∃ gs, formatFields al fs acc = .ok gs ∧
    ∀ g, g ∈ gs ↔ g ∈ acc ∨ g ∈ qualify s fs := by
  induction fs with
  | nil => exact fun acc => ⟨acc, rfl, by simp [qualify]⟩
  | cons f fs ih =>
    intro acc
    obtain ⟨gs, h1, h2⟩ := ih (addField acc ⟨s ++ str!"." ++ f.name, f.type⟩)
    refine ⟨gs, by rw [formatFields, h]; exact h1, fun g => ?_⟩
    rw [h2, mem_addField, qualify, qualify, List.map_cons, List.mem_cons, or_assoc]

theorem prefixFields_mem {s : Str} (fs : List Field) : ∀ acc, ∃ gs, prefixFields (.raw s) fs acc = .ok gs ∧
    ∀ g, g ∈ gs ↔ g ∈ acc ∨ g ∈ qualify s fs := by
  induction fs with
  | nil => exact fun acc => ⟨acc, rfl, by simp [qualify]⟩
  | cons f fs ih =>
    intro acc
    obtain ⟨gs, h1, h2⟩ := ih (addField acc ⟨s ++ str!"." ++ f.name, f.type⟩)
    refine ⟨gs, by rw [prefixFields]; exact h1, fun g => ?_⟩
    rw [h2, mem_addField, qualify, qualify, List.map_cons, List.mem_cons, or_assoc]

theorem qualify_mem {s : Str} {fs os : List Field} (h : ∀ f, f ∈ fs ↔ f ∈ os) (g : Field) : g ∈ qualify s fs ↔ g ∈ qualify s os := by
  simp only [qualify, List.mem_map, h]

theorem offer_alias {e al : Node} {w : Bool} (ih : Offered e) : Offered (.alias e al w) := by
  intro hw ht hp hb
  have hb := hb.resolve_right fun h => by cases h
  obtain ⟨h1, h2, -⟩ := wf_alias hw
  simp only [fold, isBody, isFrom, isJoin, isSet, isSource, Bool.false_or, Bool.or_false, Bool.and_eq_true] at hb
  simp only [fold, tidy, Bool.and_eq_true] at ht
  rw [knownFields, fold, offers]
  rcases (ih h2 ht.1 hp (.inl (isWhole_from hb.1))).cases with ⟨os, fs, g1, g2, g3⟩ | ⟨g1, g2⟩
  · obtain ⟨gs, k1, k2⟩ := formatFields_mem (alias_text hb.2) fs []
    rw [g1, g2]
    simp only [bind, Except.bind]
    rw [k1]
    intro f
    rw [k2, qualify_mem g3]
    simp
  · rw [g1, g2]
    rfl

/-- A side of a join. -/
theorem offer_side {n : Node} (hs : isLeft (fold n) = true ∨ isFrom (fold n) = true) (hw : wf (fold n) = true) (ht : tidy (fold n) = true)
    (hp : namedFrom (fold n) = true) (ih : Offered n) (ih' : ∀ e al w, n = .alias e al w → Offered e) (acc : List Field) :
    Offer ((offers (fold n)).map (acc ++ ·)) (sideFields n acc) := by
  by_cases hal : ∃ e al w, n = .alias e al w
  · obtain ⟨e, al, w, rfl⟩ := hal
    obtain ⟨-, h2, -⟩ := wf_alias hw
    have hs' : isWhole (fold e) = true ∧ isRaw (fold al) = true := by
      have : isSource (.alias (fold e) (fold al) w) = true := by
        rcases hs with h | h
        · exact h
        · exact h
      simpa only [isSource, Bool.and_eq_true] using this
    have hr := hs'.2
    cases al <;> first | exact absurd hr Bool.false_ne_true | skip
    rename_i s
    simp only [fold, tidy, Bool.and_eq_true] at ht
    rw [sideFields, fold, offers]
    rcases (ih' _ _ _ rfl h2 ht.1 hp (.inl (isWhole_from hs'.1))).cases with ⟨os, fs, g1, g2, g3⟩ | ⟨g1, g2⟩
    · obtain ⟨gs, k1, k2⟩ := prefixFields_mem (s := s) fs acc
      rw [g1, g2]
      simp only [bind, Except.bind]
      rw [k1]
      intro f
      rw [k2, qualify_mem g3, List.mem_append]
      rfl
    · rw [g1, g2]
      rfl
  · rw [sideFields_other n acc (fun e a w h => hal ⟨e, a, w, h⟩)]
    have hb : isBody (fold n) = true := by
      rcases hs with h | h
      · revert h
        generalize fold n = m
        intro h
        cases m <;> first | rfl | (rw [isBody, isFrom, show isSource _ = true from h]; rfl)
      · rw [isBody, h, Bool.true_or]
    rcases (ih hw ht hp (.inl hb)).cases with ⟨os, fs, g1, g2, g3⟩ | ⟨g1, g2⟩
    · rw [g1, g2]
      intro f
      rw [mem_unionFields, g3, List.mem_append]
    · rw [g1, g2]
      rfl

theorem offer_join {type : Str} {l r on us : Node} (ihl : Offered l) (ihr : Offered r) (ihl' : ∀ e al w, l = .alias e al w → Offered e)
    (ihr' : ∀ e al w, r = .alias e al w → Offered e) : Offered (.join type l r on us) := by
  intro hw ht hp _
  simp only [fold, namedFrom, Bool.and_eq_true] at hp
  simp only [fold, wf, tidy, Bool.and_eq_true, Bool.or_eq_true] at hw ht
  obtain ⟨⟨⟨⟨⟨h1, h2⟩, h3⟩, h4⟩, h5⟩, h6⟩ := hw
  have hr : isLeft (fold r) = true ∨ isFrom (fold r) = true := by
    rcases h6 with h | h
    · exact .inr (plain_from h.1.2)
    · exact .inr h.1.1.2
  rw [knownFields_join, fold, offers]
  rcases (offer_side (.inl h1) h2 ht.1.1.1 hp.1 ihl ihl' []).cases with ⟨os, fs, g1, g2, g3⟩ | ⟨g1, g2⟩
  · rw [show (offers (fold l)).map ([] ++ ·) = offers (fold l) by cases offers (fold l) <;> rfl] at g1
    rw [g1, g2]
    simp only [bind, Except.bind, Option.bind]
    rcases (offer_side hr h3 ht.1.1.2 hp.2 ihr ihr' fs).cases with ⟨os', fs', k1, k2, k3⟩ | ⟨k1, k2⟩
    · obtain ⟨x, hx, rfl⟩ := Option.map_eq_some_iff.1 k1
      rw [hx, k2]
      intro f
      rw [k3, List.mem_append, List.mem_append, g3]
    · rw [Option.map_eq_none_iff.1 k1, k2]
      rfl
  · rw [show (offers (fold l)).map ([] ++ ·) = offers (fold l) by cases offers (fold l) <;> rfl] at g1
    rw [g1, g2]
    rfl

theorem offered (n : Node) : Offered n := by
  induction h : sizeOf n using Nat.strongRecOn generalizing n with
  | _ k ih =>
    subst h
    cases n with
    | paren args => exact offer_paren fun a ha => ih _ (by have := List.sizeOf_lt_of_mem ha; simp only [Node.paren.sizeOf_spec]; omega) a rfl
    | select es all d on f w g h o l off semi =>
      refine offer_select ?_
      rintro args rfl a ha
      exact ih _ (by have := List.sizeOf_lt_of_mem ha; simp only [Node.select.sizeOf_spec, Node.paren.sizeOf_spec]; omega) a rfl
    | «alias» e al w => exact offer_alias (ih _ (by simp only [Node.alias.sizeOf_spec]; omega) e rfl)
    | table v sq =>
      intro _ _ _ _
      rw [knownFields]
      exact fun f => Iff.rfl
    | join type l r on us =>
      refine offer_join (ih _ (by simp only [Node.join.sizeOf_spec]; omega) l rfl) (ih _ (by simp only [Node.join.sizeOf_spec]; omega) r rfl) ?_ ?_
      · rintro e al w rfl
        exact ih _ (by simp only [Node.join.sizeOf_spec, Node.alias.sizeOf_spec]; omega) e rfl
      · rintro e al w rfl
        exact ih _ (by simp only [Node.join.sizeOf_spec, Node.alias.sizeOf_spec]; omega) e rfl
    | _ =>
      intro _ _ _ _
      rw [knownFields.eq_def]
      rfl

/-! ### Names and types -/

/-- The fields in the set are those of the list. -/
structure Match (ks k : List Field) : Prop where
  mem : ∀ f, f ∈ ks ↔ f ∈ k
  nodup : ks.Nodup

theorem nodup_add {k : List Field} {f : Field} (h : k.Nodup) : (addField k f).Nodup := by
  unfold addField
  split
  · exact h
  · rename_i hf
    rw [List.nodup_append]
    refine ⟨h, by simp, ?_⟩
    rintro a ha b hb rfl
    rw [List.mem_singleton] at hb
    exact hf (hb ▸ ha)

theorem nodup_union {a b : List Field} (h : a.Nodup) : (unionFields a b).Nodup := by
  unfold unionFields
  induction b generalizing a with
  | nil => exact h
  | cons f b ih => exact ih (nodup_add h)

theorem bare_cons (c : Char) (s : Str) : bare (c :: s) = if c = '.' then s else if '.' ∈ s then bare s else c :: s := by
  have key : ∀ s : Str, '.' ∉ s → s.dropWhile (· ≠ '.') = [] := by
    intro s
    induction s with
    | nil => exact fun _ => rfl
    | cons c s ih =>
      intro h
      rw [List.mem_cons, not_or] at h
      rw [List.dropWhile_cons_of_pos (by simpa using fun hc => h.1 hc.symm), ih h.2]
  have key' : ∀ s : Str, '.' ∈ s → s.dropWhile (· ≠ '.') ≠ [] := by
    intro s
    induction s with
    | nil => exact fun h => by cases h
    | cons c s ih =>
      intro h
      by_cases hc : c = '.'
      · subst hc
        rw [List.dropWhile_cons_of_neg (by simp)]
        simp
      · rw [List.dropWhile_cons_of_pos (by simpa using hc)]
        rw [List.mem_cons] at h
        exact ih (h.resolve_left fun h => hc h.symm)
  unfold bare
  by_cases hc : c = '.'
  · subst hc
    rw [if_pos rfl, List.dropWhile_cons_of_neg (by simp)]
  · rw [if_neg hc, List.dropWhile_cons_of_pos (by simpa using hc)]
    by_cases hs : '.' ∈ s
    · rw [if_pos hs]
      have := key' s hs
      split
      · exact absurd ‹_› this
      · rfl
    · rw [if_neg hs, key s hs]

theorem bare_eq (s : Str) : afterDot s = bare s := by
  unfold afterDot
  induction s with
  | nil => rfl
  | cons c s ih =>
    rw [bare_cons]
    by_cases hc : c = '.'
    · subst hc
      simp
    · rw [if_neg hc, List.dropWhile_cons_of_pos (by simpa using hc)]
      by_cases hs : '.' ∈ s
      · rw [if_pos hs] at ih
        rw [if_pos hs, if_pos (List.mem_cons_of_mem _ hs), ih]
      · rw [if_neg hs, if_neg (by simpa using ⟨fun h => hc h.symm, hs⟩)]

theorem one_iff {α : Type} {l : List α} {p : α → Bool} (hn : l.Nodup) :
    (l.filter p).length = 1 ↔ ∃ f ∈ l, p f = true ∧ ∀ g ∈ l, p g = true → g = f := by
  constructor
  · intro h
    obtain ⟨a, ha⟩ := List.length_eq_one_iff.1 h
    have hm : a ∈ l.filter p := by rw [ha]; simp
    refine ⟨a, (List.mem_filter.1 hm).1, (List.mem_filter.1 hm).2, fun g hg hp => ?_⟩
    have : g ∈ l.filter p := List.mem_filter.2 ⟨hg, hp⟩
    rw [ha] at this
    exact List.mem_singleton.1 this
  · rintro ⟨f, hf, hp, hu⟩
    have h1 : f ∈ l.filter p := List.mem_filter.2 ⟨hf, hp⟩
    have h2 : ∀ g ∈ l.filter p, g = f := fun g hg => hu g (List.mem_filter.1 hg).1 (List.mem_filter.1 hg).2
    have h3 : (l.filter p).Nodup := hn.filter p
    generalize l.filter p = m at h1 h2 h3
    match m, h1, h2, h3 with
    | [a], _, _, _ => rfl
    | a :: b :: m, _, h2, h3 =>
      have e1 := h2 a (by simp)
      have e2 := h2 b (by simp)
      simp [e1, e2] at h3

variable {ks k : List Field}

theorem Match.has (hm : Match ks k) (x : Str) : hasField ks x = Core.has k x := has_eq hm.mem x

theorem Match.one (hm : Match ks k) (x : Str) : (fieldsWithoutAlias ks x).length = 1 ↔
    (k.any fun f => decide (bare f.name = x) && k.all fun g => decide (bare g.name ≠ x) || decide (g = f)) = true := by
  unfold fieldsWithoutAlias
  rw [one_iff hm.nodup]
  simp only [List.any_eq_true, List.all_eq_true, Bool.and_eq_true, Bool.or_eq_true, decide_eq_true_eq, bare_eq, hm.mem]
  refine exists_congr fun f => and_congr_right fun _ => and_congr_right fun _ => forall₂_congr fun g _ => ?_
  rw [← imp_iff_not_or]

theorem Match.found (hm : Match ks k) (x : Str) : Core.found k x = true ↔
    hasField ks str!"*" = true ∨ hasField ks x = true ∨ (fieldsWithoutAlias ks x).length = 1 := by
  rw [Core.found, Bool.or_eq_true, Bool.or_eq_true, hm.one, hm.has, hm.has, or_assoc]

theorem column_match (hm : Match ks k) (v : Str) : validateColumn ks v = .ok [] ↔ (decide (v = str!"*") || found k v) = true := by
  rw [Bool.or_eq_true, decide_eq_true_eq, hm.found]
  unfold validateColumn
  split
  · rename_i h
    simp only [Bool.and_eq_true, Bool.not_eq_true', decide_eq_true_eq] at h
    rw [h.1.1, h.2]
    simp only [h.1.2, Bool.false_eq_true, false_or]
    split
    · simp; omega
    · split
      · simp; omega
      · simp; omega
  · rename_i h
    simp only [Bool.and_eq_true, Bool.not_eq_true', decide_eq_true_eq, not_and_or, Bool.not_eq_false, Decidable.not_not] at h
    refine iff_of_true rfl ?_
    rcases h with (h | h) | h
    · exact .inr (.inr (.inl h))
    · exact .inl h
    · exact .inr (.inl h)

theorem plainAliases_eq (es : List Node) : plainAliases (foldList es) = rawAliases es := by
  rw [← rawAliases_fold]
  generalize foldList es = es
  unfold plainAliases
  induction es with
  | nil => rfl
  | cons e es ih =>
    cases e with
    | «alias» x al w =>
      cases al with
      | raw s => rw [List.filterMap_cons, rawAliases, ← ih]
      | _ => rw [List.filterMap_cons]; exact ih
    | _ => rw [List.filterMap_cons]; exact ih

theorem key_match (hm : Match ks k) {es : List Node} {a : Node} :
    validateGroupArg ks es a = .ok [] ↔ goodKeyIn k (foldList es) (fold a) = true := by
  have check : ∀ v : Str, (if (!hasField ks v && decide (v ∉ rawAliases es) && !hasField ks str!"*") = true then
      if (fieldsWithoutAlias ks v).length > 1 then (.error .attribute : VRes)
      else if (fieldsWithoutAlias ks v).length = 0 then return [str!"column \"" ++ v ++ str!"\" does not exist"] else return []
      else return []) = .ok [] ↔ (found k v || decide (v ∈ plainAliases (foldList es))) = true := by
    intro v
    rw [Bool.or_eq_true, decide_eq_true_eq, plainAliases_eq, hm.found]
    split
    · rename_i h
      simp only [Bool.and_eq_true, Bool.not_eq_true', decide_eq_true_eq] at h
      rw [h.1.1, h.2]
      simp only [h.1.2, Bool.false_eq_true, false_or, or_false]
      split
      · simp; omega
      · split
        · simp [pure, Except.pure]; omega
        · simp [pure, Except.pure]; omega
    · rename_i h
      simp only [Bool.and_eq_true, Bool.not_eq_true', decide_eq_true_eq, not_and_or, Bool.not_eq_false, Decidable.not_not] at h
      refine iff_of_true rfl ?_
      rcases h with (h | h) | h
      · exact .inl (.inr (.inl h))
      · exact .inr h
      · exact .inl (.inl h)
  unfold validateGroupArg goodKeyIn
  cases hu : unparen a with
  | error e => rw [(unparen_none a).1 ⟨e, hu⟩]; simp [bind, Except.bind]
  | ok m =>
    rw [unparen_first a m hu]
    cases m with
    | int i =>
      simp only [bind, Except.bind, fold, length_fold]
      by_cases hi : i ≤ 0 ∨ i > es.length
      · simp [hi, pure, Except.pure]; omega
      · simp [hi, pure, Except.pure]; omega
    | column v => exact check v
    | string v q p => exact check v
    | _ => simp [bind, Except.bind, fold, pure, Except.pure]

theorem group_match (hm : Match ks k) {es args : List Node} :
    validateGroupBy ks es args = .ok [] ↔ (foldList args).all (goodKeyIn k (foldList es)) = true := by
  rw [validateGroupBy, concatV_nil_iff, List.all_eq_true, foldList_forall]
  exact forall₂_congr fun a _ => key_match hm

theorem agree_iff : agree k = true ↔ ∀ f ∈ k, ∀ g ∈ k, f.name = g.name → f.type = g.type := by
  simp only [agree, List.all_eq_true, Bool.or_eq_true, decide_eq_true_eq, ← imp_iff_not_or]

theorem resolve_match (hm : Match ks k) (ha : agree k = true) {n : Node} (hw : wf (fold n) = true) (ht : tidy (fold n) = true)
    (hl : level (fold n) ≤ 3) (t : PType) : resolveType n ks = .ok (some t) ↔ kindIn k (fold n) = some t := by
  have hmute : mute n = false := by
    cases n with
    | none | raw _ | whenThen _ _ => simp [fold, level] at hl
    | select es all d on f w g h o l off semi =>
      exfalso
      rw [fold, level] at hl
      split at hl <;> omega
    | _ => rfl
  rw [agree_iff] at ha
  rw [resolveType_eq, hmute, kindIn]
  simp only [Bool.false_eq_true, if_false]
  split
  · rename_i he
    have hk : k = [] := by
      rw [List.isEmpty_iff] at he
      rw [List.eq_nil_iff_forall_not_mem]
      intro f hf
      rw [← hm.mem, he] at hf
      cases hf
    rw [hk, List.find?_nil]
    exact (kind_type n t).symm
  · have hx : transform n = .ok (layout (fold n)) := (good n hw ht).level hl (by omega)
    rw [hx]
    simp only [bind, Except.bind]
    have hmem : ∀ f, f ∈ (E.setOrder ks).filter (fun f => decide (f.name = layout (fold n))) ↔ f ∈ k ∧ f.name = layout (fold n) := by
      intro f
      rw [List.mem_filter, (L.setOrder_perm ks).mem_iff, hm.mem, decide_eq_true_eq]
    cases hf : k.find? fun f => decide (f.name = layout (fold n)) with
    | none =>
      have : (E.setOrder ks).filter (fun f => decide (f.name = layout (fold n))) = [] := by
        rw [List.eq_nil_iff_forall_not_mem]
        intro f h
        rw [hmem] at h
        exact absurd h.2 (by simpa using List.find?_eq_none.1 hf f h.1)
      rw [this]
      exact (kind_type n t).symm
    | some f =>
      have h1 := List.mem_of_find?_eq_some hf
      have h2 : f.name = layout (fold n) := by simpa using List.find?_some hf
      generalize hfs : (E.setOrder ks).filter _ = fs at hmem
      cases fs with
      | nil => exact absurd ((hmem f).2 ⟨h1, h2⟩) (by simp)
      | cons g fs =>
        have hg := (hmem g).1 (by simp)
        simp only [Except.ok.injEq]
        rw [ha g hg.1 f h1 (hg.2.trans h2.symm)]

theorem boolean_match (hm : Match ks k) (ha : agree k = true) {n : Node} (msg : Str) (hw : wf (fold n) = true) (ht : tidy (fold n) = true)
    (hl : level (fold n) ≤ 3) : mustBeBoolean msg n ks = .ok [] ↔ boolishIn k (fold n) = true := by
  unfold mustBeBoolean
  rw [boolishIn, Bool.or_eq_true, decide_eq_true_eq, decide_eq_true_eq, ← resolve_match hm ha hw ht hl, ← resolve_match hm ha hw ht hl]
  cases resolveType n ks with
  | error e => simp [bind, Except.bind]
  | ok t =>
    simp only [bind, Except.bind, notBoolean, Bool.not_eq_true', Bool.or_eq_false_iff, decide_eq_false_iff_not, Except.ok.injEq]
    cases t with
    | none => simp [typeName]
    | some t => cases t <;> simp [typeName, pure, Except.pure]

theorem chained_match (hm : Match ks k) {l r : Node} (hw : wf (fold (.chained l r)) = true) (ht : tidy (fold (.chained l r)) = true) :
    validateChained ks l r = .ok [] ↔ foundPath k (fold l) (fold r) = true := by
  have e1 : transform (.chained l r) = .ok (layout (.chained (fold l) (fold r))) := (good _ hw ht).level (k := 0) (by simp [fold, level]) (by omega)
  have hfirm := tidy_firm _ ht
  simp only [fold, wf, tidy, firm, Bool.and_eq_true] at hw ht hfirm
  have e2 : transform l = .ok (layout (fold l)) := (good l hw.1.2 ht.1).level (Nat.le_of_eq (level_name hw.1.1.1)) (by omega)
  obtain ⟨z, hz⟩ := (prints r hw.2 hfirm.2).str (by rw [level_chain hw.1.1.2]; omega)
  unfold validateChained
  rw [e1, e2, hz, foundPath, ← hm.has, ← hm.has, ← hm.has]
  simp only [bind, Except.bind]
  generalize hasField ks _ = a
  generalize hasField ks _ = b
  generalize hasField ks _ = c
  cases a <;> cases b <;> cases c <;> simp [pure, Except.pure]

/-! ### Expressions and queries -/

/-- Validation of an expression, a FROM clause or a query finds nothing exactly if nothing is wrong with it. -/
def Exact (n : Node) : Prop := ∀ ks k, Match ks k → agree k = true → wf (fold n) = true → tidy (fold n) = true →
  unmixed k (fold n) = true → (level (fold n) ≤ 5 ∨ isBody (fold n) = true ∨ n.isSelect = true) →
  ((vtable n).v ks = .ok [] ↔ fits k none (fold n) = true)

def ExactSub (n : Node) : Prop := ∀ m, sizeOf m < sizeOf n → Exact m

theorem fitsList_iff {s : Option (List Node)} {ns : List Node} : fitsList k s ns = true ↔ ∀ n ∈ ns, fits k s n = true := by
  induction ns with
  | nil => simp [fitsList]
  | cons n ns ih => simp [fitsList, ih]

theorem unmixedList_iff {ns : List Node} : unmixedList k ns = true ↔ ∀ n ∈ ns, unmixed k n = true := by
  induction ns with
  | nil => simp [unmixedList]
  | cons n ns ih => simp [unmixedList, ih]

theorem exact_list {args : List Node} (ih : ∀ a ∈ args, Exact a) (hm : Match ks k) (ha : agree k = true)
    (hw : wfList (foldList args) = true) (ht : tidyList (foldList args) = true)
    (hu : unmixedList k (foldList args) = true) (hl : ∀ a ∈ args, level (fold a) ≤ 5 ∨ isBody (fold a) = true ∨ a.isSelect = true) :
    V.concat ks (vtableList args) = .ok [] ↔ fitsList k none (foldList args) = true := by
  rw [wfList_iff] at hw
  rw [tidyList_iff] at ht
  rw [unmixedList_iff] at hu
  rw [fitsList_iff, foldList_forall, concat_list]
  exact forall₂_congr fun a h => ih a h ks k hm ha (hw _ (foldList_mem h)) (ht _ (foldList_mem h))
    (hu _ (foldList_mem h)) (hl a h)

theorem item_match {v : Node} (ih : Exact v) (hm : Match ks k) (ha : agree k = true) (hw : wf (fold v) = true) (ht : tidy (fold v) = true)
    (hu : unmixed k (fold v) = true) (hl : level (fold v) ≤ 5) (s : Option (List Node)) (a d : Bool) :
    validateOrderItem v (vtable v) ks s = .ok [] ↔ fits k (s.map foldList) (.orderItem (fold v) a d) = true := by
  have hv := ih ks k hm ha hw ht hu (.inl hl)
  rw [fits]
  unfold validateOrderItem
  cases hun : unparen v with
  | error e => rw [(unparen_none v).1 ⟨e, hun⟩]; simp [bind, Except.bind]
  | ok m =>
    rw [unparen_first v m hun]
    cases m with
    | int i =>
      simp only [bind, Except.bind, fold]
      cases s with
      | none =>
        by_cases hi : i ≤ 0
        · simp [hi, pure, Except.pure]
        · simp [hi]
      | some es =>
        simp only [Option.map_some, length_fold]
        by_cases hi : i ≤ 0
        · simp [hi, pure, Except.pure] <;> omega
        · by_cases hj : i > es.length
          · simp [hi, hj, pure, Except.pure]
          · simp [hi, hj, pure, Except.pure] <;> omega
    | _ => simpa only [bind, Except.bind, fold] using hv

theorem order_match {args : List Node} (ih : ∀ a ∈ args, ∀ v x d, a = .orderItem v x d → Exact v) (hm : Match ks k)
    (ha : agree k = true) (hw : wf (fold (.orderBy args)) = true) (ht : tidy (fold (.orderBy args)) = true)
    (hu : unmixed k (fold (.orderBy args)) = true) (s : Option (List Node)) :
    (vtable (.orderBy args)).vIn ks s = .ok [] ↔ fits k (s.map foldList) (fold (.orderBy args)) = true := by
  simp only [fold, wf, tidy, unmixed, Bool.and_eq_true, wfList_iff, tidyList_iff, unmixedList_iff, List.all_eq_true] at hw ht hu
  rw [vtable, fold, fits, fitsList_iff, foldList_forall]
  simp only
  rw [concatIn_list]
  refine forall₂_congr fun a h => ?_
  have h1 := hw.1.2 _ (foldList_mem h)
  have h2 := hw.2 _ (foldList_mem h)
  have h3 := ht _ (foldList_mem h)
  have h5 := hu _ (foldList_mem h)
  cases a <;> first | exact absurd h1 Bool.false_ne_true | skip
  simp only [fold, wf, tidy, unmixed, Bool.and_eq_true, decide_eq_true_eq] at h2 h3 h5
  rw [vtable, fold]
  exact item_match (ih _ h _ _ _ rfl) hm ha h2.2 h3 h5 (by omega) s _ _

theorem where_match {v : Node} (msg : Str) (ih : Exact v) (hm : Match ks k) (ha : agree k = true) (hw : wf (fold v) = true)
    (ht : tidy (fold v) = true) (hu : unmixed k (fold v) = true) (hl : level (fold v) ≤ 3) :
    (do let a ← (vtable v).v ks; let b ← mustBeBoolean msg v ks; return a ++ b : VRes) = .ok [] ↔
      (fits k none (fold v) && boolishIn k (fold v)) = true := by
  rw [both_nil, boolean_match hm ha msg hw ht hl, ih ks k hm ha hw ht hu (.inl (by omega)), Bool.and_eq_true]

theorem join_fits {t : Str} {l r on us : Node} :
    (vtable (.join t l r on us)).v ks = .ok [] ↔ conditioned t (fold on) (fold us) = true := by
  rw [join_says, Except.ok.injEq]
  cases conditioned _ _ _ <;> simp

theorem inner_match (hm : Match ks k) {f : Node} (hw : wf (fold f) = true) (ht : tidy (fold f) = true)
    (hp : namedFrom (fold f) = true) (hb : orNone isBody (fold f) = true) :
    ∃ ff, optFields (knownFields f) = .ok ff ∧ Match (innerFields ks ff) (scope k (fold f)) := by
  have key : Offer (offers (fold f)) (knownFields f) := by
    rcases orNone_or hb with h | h
    · obtain rfl : f = .none := by cases f <;> first | rfl | cases h
      exact rfl
    · exact offered f hw ht hp (.inl h)
  rcases key.cases with ⟨os, fs, h1, h2, h3⟩ | ⟨h1, h2⟩
  · refine ⟨some fs, by rw [h2]; rfl, ?_, nodup_union hm.nodup⟩
    intro g
    rw [innerFields, scope, h1, mem_unionFields, Option.getD_some, List.mem_append, hm.mem, h3]
  · refine ⟨none, by rw [h2]; rfl, ?_⟩
    rw [innerFields, scope, h1, Option.getD_none, List.append_nil]
    exact hm

theorem exact_select {es : List Node} {all d : Bool} {on : List Node} {f w g h o l off : Node} {semi : Bool}
    (ih : ExactSub (.select es all d on f w g h o l off semi)) : Exact (.select es all d on f w g h o l off semi) := by
  intro ks k hm ha hw ht hu _
  simp only [fold, wf, tidy, unmixed, Bool.and_eq_true, decide_eq_true_eq] at hw ht hu
  obtain ⟨⟨⟨⟨⟨⟨⟨⟨⟨⟨⟨⟨⟨⟨⟨⟨⟨⟨⟨⟨h1, h2⟩, h3⟩, -⟩, -⟩, h6⟩, h7⟩, nf⟩, hf⟩, nw⟩, hw⟩, ng⟩, hg⟩, nh⟩, hh⟩, no⟩, ho⟩, nl⟩, hl⟩, noff⟩, hoff⟩ := hw
  obtain ⟨⟨⟨⟨⟨⟨⟨⟨t1, -⟩, tf⟩, tw⟩, tg⟩, th⟩, to⟩, tl⟩, toff⟩ := ht
  obtain ⟨⟨⟨⟨⟨⟨ua, u1⟩, uf⟩, uw⟩, uh⟩, uo⟩, un⟩ := hu
  obtain ⟨ff, hff, hm'⟩ := inner_match hm hf tf un nf
  rw [vtable_select]
  simp only [V.of]
  rw [hff]
  simp only [bind, Except.bind]
  rw [fold, fits]
  generalize scope k (fold f) = k' at *
  generalize innerFields ks ff = ks' at *
  have e1 : V.concat ks' (vtableList es) = .ok [] ↔ fitsList k' none (foldList es) = true :=
    exact_list (fun a ha => ih a (by have := List.sizeOf_lt_of_mem ha; simp only [Node.select.sizeOf_spec]; omega)) hm' ua h3 t1 u1
      fun a ha => .inl (Nat.le_trans (levels_fold h2 a ha) (by omega))
  have e2 : optV f ((vtable f).v []) = .ok [] ↔ fits [] none (fold f) = true := by
    rw [optV_nil]
    by_cases hft : f.truthy = true
    · rw [← ih f (by simp only [Node.select.sizeOf_spec]; omega) [] [] ⟨fun _ => Iff.rfl, List.nodup_nil⟩ rfl hf tf uf
        (.inr (.inl (orNone_truthy nf hft)))]
      exact ⟨fun h => h hft, fun h _ => h⟩
    · refine iff_of_true (fun h => absurd h hft) ?_
      obtain rfl : f = .none := by cases f <;> first | rfl | exact absurd rfl hft
      rfl
  have e3 : optV w ((vtable w).v ks') = .ok [] ↔ fits k' none (fold w) = true := by
    rw [optV_nil]
    cases w <;> first | exact absurd nw Bool.false_ne_true | skip
    · exact iff_of_true (fun h => by cases h) rfl
    · simp only [fold, wf, tidy, unmixed, Bool.and_eq_true, decide_eq_true_eq] at hw tw uw
      rw [vtable, fold, fits]
      simp only [V.of]
      rw [where_match _ (ih _ (by simp only [Node.select.sizeOf_spec, Node.where_.sizeOf_spec]; omega)) hm' ua hw.2 tw.2 uw hw.1]
      exact ⟨fun h => h rfl, fun h _ => h⟩
  have e4 : optV g (match (generalizing := false) g with
        | .groupBy args _ _ => validateGroupBy ks' es args
        | _ => .error .type) = .ok [] ↔ fits k' (some (foldList es)) (fold g) = true := by
    rw [optV_nil]
    cases g <;> first | exact absurd ng Bool.false_ne_true | skip
    · exact iff_of_true (fun h => by cases h) rfl
    · rw [fold, fits, Option.getD_some, ← group_match hm']
      exact ⟨fun h => h rfl, fun h _ => h⟩
  have e5 : optV h ((vtable h).v ks') = .ok [] ↔ fits k' none (fold h) = true := by
    rw [optV_nil]
    cases h <;> first | exact absurd nh Bool.false_ne_true | skip
    · exact iff_of_true (fun h => by cases h) rfl
    · simp only [fold, wf, tidy, unmixed, Bool.and_eq_true, decide_eq_true_eq] at hh th uh
      rw [vtable, fold, fits]
      simp only [V.of]
      rw [where_match _ (ih _ (by simp only [Node.select.sizeOf_spec, Node.having.sizeOf_spec]; omega)) hm' ua hh.2 th.2 uh hh.1]
      exact ⟨fun h => h rfl, fun h _ => h⟩
  have e6 : optV o ((vtable o).vIn ks' (some es)) = .ok [] ↔ fits k' (some (foldList es)) (fold o) = true := by
    rw [optV_nil]
    cases o <;> first | exact absurd no Bool.false_ne_true | skip
    · exact iff_of_true (fun h => by cases h) rfl
    · rename_i args
      rw [order_match (fun a ha v x d he => ih v (by
        have := List.sizeOf_lt_of_mem ha
        subst he
        simp only [Node.orderItem.sizeOf_spec] at this
        simp only [Node.select.sizeOf_spec, Node.orderBy.sizeOf_spec]
        omega)) hm' ua ho to uo]
      exact ⟨fun h => h rfl, fun h _ => h⟩
  have e7 : optV l ((vtable l).v ks') = .ok [] ↔ fits k' none (fold l) = true := by
    rw [optV_nil]
    cases l <;> first | exact absurd nl Bool.false_ne_true | skip
    · exact iff_of_true (fun h => by cases h) rfl
    · rw [vtable, fold, fits]
      simp only [V.of]
      rw [count_any]
      exact ⟨fun h => h rfl, fun h _ => h⟩
  have e8 : optV off ((vtable off).v ks') = .ok [] ↔ fits k' none (fold off) = true := by
    rw [optV_nil]
    cases off <;> first | exact absurd noff Bool.false_ne_true | skip
    · exact iff_of_true (fun h => by cases h) rfl
    · rw [vtable, fold, fits]
      simp only [V.of]
      rw [count_any]
      exact ⟨fun h => h rfl, fun h _ => h⟩
  refine clausesV_nil.trans ((and_congr e1 (and_congr e2 (and_congr e3 (and_congr e4 (and_congr e5
    (and_congr e6 (and_congr e7 e8))))))).trans ?_)
  simp only [Bool.and_eq_true, and_assoc]

/-- The names in REPLACE. -/
theorem names_match (hm : Match ks k) {args : List Node} (hl : ∀ a ∈ args, level (fold a) ≤ 4) (hn : ∀ a ∈ args, isNamed (fold a) = true) :
    V.concat ks (vtableAliases args) = .ok [] ↔ goodNames k (foldList args) = true := by
  induction args with
  | nil => exact iff_of_true rfl rfl
  | cons a as ih =>
    have h1 := hl a (by simp)
    have h2 := hn a (by simp)
    have ih := ih (fun x hx => hl x (by simp [hx])) fun x hx => hn x (by simp [hx])
    cases a <;> first | exact absurd h2 Bool.false_ne_true | skip
    rename_i e al w
    simp only [fold, isNamed, Bool.and_eq_true] at h2
    obtain ⟨rfl, hal⟩ := h2
    cases al <;> first | exact absurd hal Bool.false_ne_true | skip
    rename_i v
    rw [vtableAliases, V.concat, both_nil, ih, vtable]
    simp only [V.of]
    rw [column_match hm, goodNames, goodNames, foldList, List.all_cons, fold, Bool.and_eq_true]
    rfl

theorem exact_paren {args : List Node} (ih : ∀ a ∈ args, Exact a) : Exact (.paren args) := by
  intro ks k hm ha hw ht hu hl
  simp only [fold, wf, tidy, unmixed, Bool.and_eq_true, Bool.or_eq_true, decide_eq_true_eq] at hw ht hu
  rcases unseen_or args with ⟨qs, s, rfl⟩ | hun
  · exact iff_of_true rfl rfl
  rw [vtable, fold, fits, hun, Bool.false_or]
  refine exact_list ih hm ha hw.2 ht hu fun a ha => ?_
  rcases hw.1 with h | h
  · exact .inl (levels_fold h a ha)
  · match args, h with
    | [b], h =>
      obtain rfl := List.mem_singleton.1 ha
      simp only [foldList, isGroup, Bool.or_eq_true] at h
      rcases h with ((h | h) | h) | h
      · exact .inr (.inr (seen_select hun h))
      · exact .inr (.inl (by simp [isBody, isFrom, h]))
      · exact .inr (.inl (by simp [isBody, isFrom, h]))
      · exact .inr (.inl (by simp [isBody, h]))

theorem exact_step {n : Node} (ih : ExactSub n) : Exact n := by
  cases n with
  | paren args => exact exact_paren fun a ha => ih a (by have := List.sizeOf_lt_of_mem ha; simp only [Node.paren.sizeOf_spec]; omega)
  | select es all d on f w g h o l off semi => exact exact_select ih
  | cond l p r =>
    intro ks k hm ha hw ht hu hl
    simp only [fold, wf, tidy, unmixed, Bool.and_eq_true, decide_eq_true_eq] at hw ht hu
    obtain ⟨⟨⟨h1, h2⟩, h3⟩, h4⟩ := hw
    rw [vtable_cond, fold, fits]
    simp only [V.of]
    rw [both_nil, ih l (by simp only [Node.cond.sizeOf_spec]; omega) ks k hm ha h2 ht.1 hu.1 (.inl (by omega)), Bool.and_eq_true]
    refine and_congr_right fun _ => ?_
    unfold condRightV
    by_cases hp : p.map Char.toLower = str!"between"
    · rw [between_lower (by rw [hp]; decide), if_pos hp, if_pos hp]
      rw [if_pos hp] at h4
      cases r <;> first | exact absurd h4 Bool.false_ne_true | skip
      rename_i t a b
      have iha := ih a (by simp only [Node.cond.sizeOf_spec, Node.boolc.sizeOf_spec]; omega)
      have ihb := ih b (by simp only [Node.cond.sizeOf_spec, Node.boolc.sizeOf_spec]; omega)
      simp only [fold, isRange, tidy, wf, unmixed, Bool.and_eq_true, decide_eq_true_eq] at h3 h4 ht hu
      rw [vtable, fold, fitsBounds]
      simp only [validateBool_eq, operandV, if_true, bind_ok_iff, pure_ok_iff, List.append_eq_nil_iff, Bool.and_eq_true]
      rw [← iha ks k hm ha h3.1.2 ht.2.1.2 hu.2.1 (.inl (by omega)), ← ihb ks k hm ha h3.2 ht.2.2 hu.2.2 (.inl (by omega))]
      constructor
      · rintro ⟨a, ha, b, hb, c, hc, d, hd, ⟨⟨rfl, rfl⟩, rfl⟩, rfl⟩; exact ⟨ha, hc⟩
      · rintro ⟨ha, hc⟩; exact ⟨_, ha, _, rfl, _, hc, _, rfl, ⟨⟨rfl, rfl⟩, rfl⟩, rfl⟩
    · rw [if_neg hp] at h4
      have hasc : (p.map Char.toLower).all isAscii = true := by
        simp only [Bool.and_eq_true, decide_eq_true_eq] at h4
        exact (by decide : ∀ q ∈ corePreds, q.all isAscii = true) _ h4.1.1
      simp only [Bool.and_eq_true, decide_eq_true_eq] at h4
      rw [between_lower hasc, if_neg hp, if_neg hp]
      exact ih r (by simp only [Node.cond.sizeOf_spec]; omega) ks k hm ha h3 ht.2 hu.2 (.inl (by omega))
  | boolc t l r =>
    intro ks k hm ha hw ht hu hl
    simp only [fold, wf, tidy, unmixed, Bool.and_eq_true, decide_eq_true_eq] at hw ht hu
    obtain ⟨⟨⟨⟨h1, h2⟩, h3⟩, h4⟩, h5⟩ := hw
    obtain ⟨⟨⟨h6, h7⟩, h8⟩, h9⟩ := ht
    rw [vtable, fold, fits]
    simp only [validateBool_eq, operandV, Bool.false_eq_true, if_false, bind_ok_iff, pure_ok_iff, List.append_eq_nil_iff, Bool.and_eq_true]
    rw [← ih l (by simp only [Node.boolc.sizeOf_spec]; omega) ks k hm ha h4 h8 hu.1 (.inl (by omega)),
      ← ih r (by simp only [Node.boolc.sizeOf_spec]; omega) ks k hm ha h5 h9 hu.2 (.inl (by omega)),
      ← boolean_match hm ha (str!"The argument of " ++ E.upper t ++ str!" must be type boolean, not type ") h4 h8 (by omega),
      ← boolean_match hm ha (str!"The argument of " ++ E.upper t ++ str!" must be type boolean, not type ") h5 h9 (by omega)]
    constructor
    · rintro ⟨a, ha, b, hb, c, hc, d, hd, ⟨⟨rfl, rfl⟩, rfl⟩, rfl⟩; exact ⟨⟨⟨ha, hb⟩, hc⟩, hd⟩
    · rintro ⟨⟨⟨ha, hb⟩, hc⟩, hd⟩; exact ⟨_, ha, _, hb, _, hc, _, hd, ⟨⟨rfl, rfl⟩, rfl⟩, rfl⟩
  | chained l r =>
    intro ks k hm ha hw ht hu hl
    rw [vtable]
    exact chained_match hm hw ht
  | func f args =>
    intro ks k hm ha hw ht hu hl
    simp only [fold, wf, tidy, unmixed, Bool.and_eq_true, decide_eq_true_eq] at hw ht hu
    rw [vtable, fold, fits]
    exact exact_list (fun a ha => ih a (by have := List.sizeOf_lt_of_mem ha; simp only [Node.func.sizeOf_spec]; omega)) hm ha hw.2 ht hu
      fun a ha => .inl (levels_fold hw.1.2 a ha)
  | count args d =>
    intro ks k hm ha hw ht hu hl
    simp only [fold, wf, tidy, unmixed, Bool.and_eq_true, decide_eq_true_eq] at hw ht hu
    rw [vtable, fold, fits]
    exact exact_list (fun a ha => ih a (by have := List.sizeOf_lt_of_mem ha; simp only [Node.count.sizeOf_spec]; omega)) hm ha hw.2 ht hu
      fun a ha => .inl (levels_fold hw.1 a ha)
  | «alias» e al w =>
    intro ks k hm ha hw ht hu hl
    have hw' := wf_alias hw
    simp only [fold, tidy, unmixed] at ht hu
    rw [vtable, fold, fits]
    refine ih e (by simp only [Node.alias.sizeOf_spec]; omega) ks k hm ha hw'.2.1 (Bool.and_eq_true_iff.1 ht).1 hu ?_
    simp only [fold, wf, Bool.and_eq_true, Bool.or_eq_true, decide_eq_true_eq] at hw
    rcases hw.1.1 with h | h
    · exact .inl (by omega)
    · rcases h.1 with h | h
      · exact .inr (.inl (isWhole_from h))
      · refine .inl ?_
        revert h
        generalize fold e = m
        intro h
        cases m <;> first | exact absurd h Bool.false_ne_true | (rw [level]; split <;> decide)
  | column v =>
    intro ks k hm ha hw ht hu hl
    rw [vtable]
    exact column_match hm v
  | join type l r on us =>
    intro ks k hm ha hw ht hu hl
    exact join_fits
  | arrayAgg e d i r o l =>
    intro ks k hm ha hw ht hu hl
    simp only [fold, wf, tidy, unmixed, Bool.and_eq_true, decide_eq_true_eq] at hw ht hu
    obtain ⟨⟨⟨⟨⟨⟨h1, h2⟩, -⟩, -⟩, -⟩, -⟩, -⟩ := hw
    rw [vtable, fold, fits]
    exact ih e (by simp only [Node.arrayAgg.sizeOf_spec]; omega) ks k hm ha h2 ht.1 hu (.inl (by omega))
  | filtered e w =>
    intro ks k hm ha hw ht hu hl
    simp only [fold, wf, tidy, unmixed, Bool.and_eq_true, decide_eq_true_eq] at hw ht hu
    obtain ⟨⟨⟨h1, h2⟩, h3⟩, h4⟩ := hw
    rw [vtable, fold, fits]
    simp only [V.of]
    rw [both_nil, ih e (by simp only [Node.filtered.sizeOf_spec]; omega) ks k hm ha h3 ht.1 hu.1 (.inl (Nat.le_trans (level_call h1) (by omega))),
      ih w (by simp only [Node.filtered.sizeOf_spec]; omega) ks k hm ha h4 ht.2 hu.2 (.inl (by omega)), Bool.and_eq_true]
  | analytics f part o fr =>
    intro ks k hm ha hw ht hu hl
    simp only [fold, wf, tidy, unmixed, Bool.and_eq_true, decide_eq_true_eq] at hw ht hu
    obtain ⟨⟨⟨⟨⟨⟨⟨⟨⟨h1, h2⟩, h3⟩, h4⟩, h5⟩, h6⟩, h7⟩, h8⟩, h9⟩, h10⟩ := hw
    have e1 := ih f (by simp only [Node.analytics.sizeOf_spec]; omega) ks k hm ha h2 ht.1.1 hu.1.1 (.inl (Nat.le_trans (level_function h1) (by omega)))
    have e2 := exact_list (fun a ha => ih a (by have := List.sizeOf_lt_of_mem ha; simp only [Node.analytics.sizeOf_spec]; omega)) hm ha h4 ht.1.2
        hu.1.2 fun a ha => .inl (Nat.le_trans (levels_fold h3 a ha) (by omega))
    have e3 : optV o ((vtable o).vIn ks none) = .ok [] ↔ fits k none (fold o) = true := by
      rw [optV_nil]
      cases o <;> first | exact absurd h6 Bool.false_ne_true | skip
      · exact iff_of_true (fun h => by cases h) rfl
      · rename_i args
        rw [order_match (fun a ha v x d he => ih v (by
          have := List.sizeOf_lt_of_mem ha
          subst he
          simp only [Node.orderItem.sizeOf_spec] at this
          simp only [Node.analytics.sizeOf_spec, Node.orderBy.sizeOf_spec]
          omega)) hm ha h7 ht.2 hu.2]
        exact ⟨fun h => h rfl, fun h _ => h⟩
    rw [vtable, fold, fits]
    simp only [V.of, Bool.and_eq_true, ← e1, ← e2, ← e3, bind_ok_iff, pure_ok_iff, List.append_eq_nil_iff]
    constructor
    · rintro ⟨a, ha, b, hb, c, hc, ⟨rfl, rfl⟩, rfl⟩; exact ⟨⟨ha, hb⟩, hc⟩
    · rintro ⟨⟨ha, hb⟩, hc⟩; exact ⟨_, ha, _, hb, _, hc, ⟨rfl, rfl⟩, rfl⟩
  | replace e args =>
    intro ks k hm ha hw ht hu hl
    simp only [fold, wf, Bool.and_eq_true, decide_eq_true_eq] at hw
    obtain ⟨⟨⟨⟨⟨-, -⟩, h3⟩, h4⟩, -⟩, -⟩ := hw
    rw [vtable, fold, fits]
    exact names_match hm (levels_fold h3) fun a ha => List.all_eq_true.1 h4 _ (foldList_mem ha)
  | cast e t =>
    intro ks k hm ha hw ht hu hl
    rw [vtable, fold, fits]
    simp only [V.of]
    cases (vtable e).v ks <;> simp [bind, Except.bind]
  | _ =>
    intro ks k hm ha hw ht hu hl
    first
    | exact iff_of_true rfl rfl
    | (exfalso
       rcases hl with h | h | h
       · exact absurd h (by simp [fold, level])
       · exact absurd h Bool.false_ne_true
       · exact absurd h Bool.false_ne_true)

theorem exact (n : Node) : Exact n := by
  induction h : sizeOf n using Nat.strongRecOn generalizing n with
  | _ k ih => exact exact_step fun m hm => ih _ (h ▸ hm) m rfl

/-- Validation of a query. -/
theorem validate_exact {n : Node} (hw : wf (fold n) = true) (hs : n.isSelect = true) (ht : tidy (fold n) = true)
    (hu : unmixed [] (fold n) = true) : validate n = .ok [] ↔ fits [] none (fold n) = true := by
  have := exact n [] [] ⟨fun _ => Iff.rfl, List.nodup_nil⟩ rfl hw ht hu (.inr (.inr hs))
  cases n <;> first | exact absurd hs Bool.false_ne_true | exact this

end

end SqlV.Core
