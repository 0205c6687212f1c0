import Verif.Spec.Calm
import Verif.Lemmas.CorePrint

/-! The printer raises nothing on trees of the core grammar without empty parentheses next to AND and OR. -/

set_option linter.unusedSectionVars false
set_option linter.unusedSimpArgs false

namespace SqlV.Core

open Lex

section

variable [E : PyEnv] [L : LawfulPyEnv E]

/-- No exception. -/
def Works {α : Type} (x : Except PyErr α) : Prop := ∃ a, x = .ok a

theorem works_ok {α : Type} (a : α) : Works (.ok a : Except PyErr α) := ⟨a, rfl⟩
theorem works_pure {α : Type} (a : α) : Works (pure a : Except PyErr α) := ⟨a, rfl⟩

theorem Works.bind {α β : Type} {x : Except PyErr α} {f : α → Except PyErr β} (hx : Works x) (hf : ∀ a, x = .ok a → Works (f a)) :
    Works (x >>= f) := by
  obtain ⟨a, rfl⟩ := hx
  exact hf a rfl

theorem Works.map {α β : Type} {x : Except PyErr α} {f : α → β} (hx : Works x) : Works (x.map f) := by
  obtain ⟨a, rfl⟩ := hx
  exact ⟨_, rfl⟩

theorem Works.ite {α : Type} {x y : Except PyErr α} {b : Bool} (hx : b = true → Works x) (hy : b = false → Works y) :
    Works (if b then x else y) := by
  cases b
  · exact hy rfl
  · exact hx rfl

theorem works_mapR {f : R → RStr} {ns : List Node} (h : ∀ n ∈ ns, Works (f (render n))) : Works (mapR f (renderList ns)) := by
  induction ns with
  | nil => exact works_ok _
  | cons n ns ih =>
    rw [renderList, mapR]
    exact (h n (by simp)).bind fun _ _ => (ih fun m hm => h m (by simp [hm])).bind fun _ _ => works_pure _

/-- The methods that callers of the printer use raise nothing. -/
structure Prints (n : Node) : Prop where
  t : Works (render n).t
  s : isOrderItem n = true → Works (render n).s
  nl : n.isBoolc = true → Works (render n).nl
  sub : (fold n).isSelect = true → Works (render n).sub
  flat : isOrderBy n = true → Works (render n).flat
  arg0 : ∀ x, (render n).isParen = true → (render n).t = .ok x → (hasNL x = true ∨ isEmptyParen (fold n) = false) →
    Works (render n).arg0
  src : isBody (fold n) = true → Works (render n).fromPos
  peel : (isBody (fold n) || isQuery (fold n)) = true → Works (render n).peel
  side : isFrom (fold n) = true → ∀ lead, Works (joinSide lead (render n))

theorem Prints.str {n : Node} (h : Prints n) (hl : level (fold n) ≤ 2) : Works (render n).s := by
  rw [s_eq_t hl]
  exact h.t

/-- A side without an alias. -/
theorem works_side {x : R} (ha : x.aliased = none) (hp : Works x.peel) (lead : Str) : Works (joinSide lead x) := by
  unfold joinSide
  rw [ha]
  obtain ⟨p, hp⟩ := hp
  rw [hp]
  exact works_pure _

theorem works_side' {x : R} {p : Peel} {w : Bool} {a : Str} (ha : x.aliased = some (.ok p, w, .ok a)) (lead : Str) :
    Works (joinSide lead x) := by
  unfold joinSide
  rw [ha]
  exact works_pure _

/-- Objects with `__str__` only. -/
theorem prints_str {n : Node} {x : RStr} (hx : Works x) (ht : (render n).t = x) (hs : (render n).s = x)
    (hp : (render n).peel = x.map fun y => ⟨0, false, y⟩) (hf : (render n).fromPos = x) (ha : (render n).aliased = none)
    (h1 : (fold n).isSelect = false) (h2 : n.isBoolc = false) (h3 : (render n).isParen = false) (h4 : isOrderBy n = false) : Prints n where
  t := by rw [ht]; exact hx
  s := fun _ => by rw [hs]; exact hx
  nl := fun h => by rw [h2] at h; exact absurd h Bool.false_ne_true
  sub := fun h => by rw [h1] at h; exact absurd h Bool.false_ne_true
  flat := fun h => by rw [h4] at h; exact absurd h Bool.false_ne_true
  arg0 := fun _ h => by rw [h3] at h; exact absurd h Bool.false_ne_true
  src := fun _ => by rw [hf]; exact hx
  peel := fun _ => by rw [hp]; exact hx.map
  side := fun _ lead => works_side ha (by rw [hp]; exact hx.map) lead

theorem works_clauseBody {v : Node} (h : Prints v) : Works (clauseBody (render v)) := by
  unfold clauseBody
  refine h.t.bind fun tv htv => Works.ite (fun hc => ?_) fun _ => Works.ite (fun _ => works_pure _) fun _ => works_pure _
  simp only [Bool.and_eq_true] at hc
  exact (h.arg0 tv hc.1 htv (.inl hc.2)).bind fun _ _ => works_pure _

theorem works_whenStr {w t : Node} (hw : Prints w) (ht : Works (render t).s) : Works (whenStr (render w) (render t)) := by
  unfold whenStr
  dsimp only
  refine hw.t.bind fun tv htv => Works.ite (fun hc => ?_) fun _ => Works.ite (fun _ => ?_) fun _ => ?_
  · simp only [Bool.and_eq_true] at hc
    exact (hw.arg0 tv hc.1 htv (.inl hc.2)).bind fun _ _ => (works_pure _).bind fun _ _ => ht.bind fun _ _ => works_pure _
  · exact (works_pure _).bind fun _ _ => ht.bind fun _ _ => works_pure _
  · exact (works_pure _).bind fun _ _ => ht.bind fun _ _ => works_pure _

theorem works_boolStr {l r : Node} (hl : Prints l) (hr : Prints r) (el : isEmptyParen (fold l) = false) (er : isEmptyParen (fold r) = false)
    (type : Str) (b : Bool) : Works (boolStr type (render l) (render r) b) := by
  have arg : ∀ {x : Node}, Prints x → isEmptyParen (fold x) = false → Works (if (render x).isBoolc then (render x).nl
      else if (render x).isParen then do
        let y ← (render x).arg0
        return if hasNL y then str!"(\n " ++ indentNL y ++ str!"\n)" else str!"(" ++ y ++ str!")"
      else (render x).t) := by
    intro x hx hne
    refine Works.ite (fun hb => hx.nl (by rwa [isBoolc_render] at hb)) fun _ => Works.ite (fun hp => ?_) fun _ => hx.t
    obtain ⟨tx, ht⟩ := hx.t
    exact (hx.arg0 tx hp ht (.inr hne)).bind fun _ _ => works_pure _
  unfold boolStr
  refine hl.t.bind fun _ _ => hr.t.bind fun _ _ => Works.ite (fun _ => works_pure _) fun _ => ?_
  exact (arg hl el).bind fun _ _ => (arg hr er).bind fun _ _ => works_pure _

theorem works_orderByStr {args : List Node} (hne : args ≠ []) (h : ∀ a ∈ args, Prints a) (hi : ∀ a ∈ args, isOrderItem a = true) (b : Bool) :
    Works (orderByStr (renderList args) b) := by
  match args, hne with
  | [a], _ => exact (h a (by simp)).t.bind fun _ _ => works_pure _
  | a :: a' :: as, _ =>
    have := works_mapR (f := R.s) (ns := a :: a' :: as) fun n hn => (h n hn).s (hi n hn)
    simp only [renderList] at this ⊢
    exact this.bind fun _ _ => Works.ite (fun _ => works_pure _) fun _ => works_pure _

theorem works_groupByStr {args : List Node} (hne : args ≠ []) (h : ∀ a ∈ args, Prints a) (hi : ∀ a ∈ args, level (fold a) ≤ 2) (b : Bool) :
    Works (groupByStr (renderList args) b) := by
  unfold groupByStr
  dsimp only
  match args, hne with
  | [a], _ => exact (h a (by simp)).t.bind fun _ _ => works_pure _
  | a :: a' :: as, _ =>
    have := works_mapR (f := R.s) (ns := a :: a' :: as) fun n hn => (h n hn).str (hi n hn)
    simp only [renderList] at this ⊢
    exact this.bind fun _ _ => works_pure _

theorem works_funcStr {args : List Node} (h : ∀ a ∈ args, Prints a) (name : Str) : Works (funcStr name (renderList args)) := by
  unfold funcStr
  exact (works_mapR fun n hn => (h n hn).t).bind fun _ _ => Works.ite (fun _ => works_pure _) fun _ => works_pure _

theorem works_arrayAggStr {c o : Node} (hc : Prints c) (ho : o.truthy = true → Works (render o).flat) (name : Str) (d i r : Bool) (l : Option Int) :
    Works (arrayAggStr name (render c) d i r (render o) l) := by
  unfold arrayAggStr
  dsimp only
  refine hc.t.bind fun _ _ => Works.ite (fun h => ?_) fun _ => works_pure _
  rw [show (render o).truthy = o.truthy by cases o <;> rfl] at h
  exact (ho h).bind fun _ _ => works_pure _

theorem works_analyticsStr {f o fr : Node} {part : List Node} (hf : Prints f) (hp : ∀ a ∈ part, Prints a) (ho : Prints o) (hfr : Prints fr) :
    Works (analyticsStr (render f) (renderList part) (render o) (render fr)) := by
  unfold analyticsStr
  dsimp only
  have k1 : ∀ s : Str, Works (if (render fr).truthy = true then do
      let x ← (render fr).t
      let s ← pure ((if hasNL s = true then s ++ str!"\n " else s) ++ x)
      pure (s ++ if hasNL s = true then str!"\n)" else str!")")
    else do
      let s ← pure s
      pure (s ++ if hasNL s = true then str!"\n)" else str!")")) := fun s =>
    Works.ite (fun _ => hfr.t.bind fun _ _ => works_pure _) fun _ => works_pure _
  have k2 : ∀ s : Str, Works _ := fun s => Works.ite (b := (render o).truthy) (fun _ => ho.t.bind fun x _ => (works_pure
    (s ++ str!"\n ORDER BY" ++ indentNL x)).bind fun y _ => k1 y) fun _ => (works_pure s).bind fun y _ => k1 y
  refine hf.t.bind fun _ _ => ?_
  match part with
  | [] => exact (works_pure _).bind fun _ _ => k2 _
  | [a] => exact (hp a (by simp)).t.bind fun _ _ => (works_pure _).bind fun _ _ => k2 _
  | a :: a' :: as =>
    have := works_mapR (f := R.t) (ns := a :: a' :: as) fun n hn => (hp n hn).t
    simp only [renderList] at this ⊢
    exact this.bind fun _ _ => (works_pure _).bind fun _ _ => k2 _

theorem works_parenStr {args : List Node} (h : ∀ a ∈ args, Prints a) : Works (parenStr (renderList args)) := by
  unfold parenStr
  refine (works_mapR fun n hn => ?_).bind fun _ _ => works_pure _
  refine Works.ite (fun hs => ((h n hn).sub ?_).bind fun _ _ => works_pure _) fun _ => (h n hn).t
  rwa [isSelect_render] at hs

theorem works_selectAllStr {e : Node} {args : List Node} (he : Prints e) (hne : args ≠ []) (h : ∀ a ∈ args, Prints a) (kw : Str) :
    Works (selectAllStr (render e) kw (renderList args)) := by
  unfold selectAllStr
  refine he.t.bind fun _ _ => ?_
  match args, hne with
  | [a], _ => exact (h a (by simp)).t.bind fun _ _ => works_pure _
  | a :: a' :: as, _ =>
    have := works_mapR (f := R.t) (ns := a :: a' :: as) fun n hn => (h n hn).t
    simp only [renderList] at this ⊢
    exact this.bind fun _ _ => works_pure _

theorem works_caseStr {o e : Node} {ws : List Node} (ho : Prints o) (hw : ∀ a ∈ ws, Prints a) (he : Prints e) :
    Works (caseStr (render o) (renderList ws) (render e)) := by
  have hws := works_mapR (f := R.t) fun n hn => (hw n hn).t
  unfold caseStr
  dsimp only
  refine Works.ite (fun _ => ho.t.bind fun _ _ => (works_pure _).bind fun _ _ => ?_) fun _ => (works_pure _).bind fun _ _ => ?_
  all_goals
    exact hws.bind fun _ _ => Works.ite (fun _ => he.t.bind fun _ _ => works_pure _) fun _ => works_pure _

theorem works_optClause {c : Node} (h : Prints c) (name : Str) : Works (optClause name (render c)) := by
  unfold optClause
  exact Works.ite (fun _ => h.t.bind fun _ _ => works_pure _) fun _ => works_pure _

theorem works_selectBody {es on : List Node} {f w g h o l off : Node} (hes : ∀ a ∈ es, Prints a) (hon : ∀ a ∈ on, Prints a ∧ level (fold a) ≤ 2)
    (hf : f.truthy = true → Works (render f).fromPos) (hw : Prints w) (hg : Prints g) (hh : Prints h) (ho : Prints o) (hl : Prints l)
    (hoff : Prints off) (all d : Bool) :
    Works (selectBody (renderList es) all d (renderList on) (render f) (render w) (render g) (render h) (render o) (render l) (render off)) := by
  have hes' := works_mapR (f := R.t) fun n hn => (hes n hn).t
  have hon' := works_mapR (f := R.s) fun n hn => (hon n hn).1.str (hon n hn).2
  unfold selectBody
  extract_lets k2
  have hk2 : ∀ a, Works (k2 a) := by
    intro a
    show Works _
    unfold k2
    extract_lets k1
    have hk1 : ∀ b, Works (k1 b) := by
      intro b
      unfold k1
      extract_lets k0
      have hk0 : ∀ c, Works (k0 c) := fun c =>
        (works_optClause hw _).bind fun _ _ => (works_optClause hg _).bind fun _ _ => (works_optClause hh _).bind fun _ _ =>
          (works_optClause ho _).bind fun _ _ => (works_optClause hl _).bind fun _ _ => (works_optClause hoff _).bind fun _ _ => works_pure _
      refine Works.ite (fun ht => ?_) fun _ => (works_pure _).bind fun c _ => hk0 c
      rw [show (render f).truthy = f.truthy by cases f <;> rfl] at ht
      exact (hf ht).bind fun _ _ => (works_pure _).bind fun c _ => hk0 c
    clear_value k1
    match es with
    | [] => exact (works_pure _).bind fun _ _ => (works_pure _).bind fun b _ => hk1 b
    | [e] => exact (hes e (by simp)).t.bind fun x _ => (works_pure _).bind fun b _ => hk1 b
    | e :: e' :: as =>
      simp only [renderList] at hes' ⊢
      exact hes'.bind fun _ _ => (works_pure _).bind fun b _ => hk1 b
  clear_value k2
  exact Works.ite (fun _ => (works_pure _).bind fun a _ => hk2 a) fun _ => Works.ite (fun _ => Works.ite (fun _ => (works_pure _).bind fun a _ => hk2 a) fun _ =>
    hon'.bind fun _ _ => (works_pure _).bind fun a _ => hk2 a) fun _ => (works_pure _).bind fun a _ => hk2 a

theorem works_joinStr {l r on using_ : Node} (hl : ∀ lead, Works (joinSide lead (render l))) (hr : ∀ lead, Works (joinSide lead (render r)))
    (ho : Prints on) (hu : Prints using_) (type upper : Str) : Works (joinStr type upper (render l) (render r) (render on) (render using_)) := by
  unfold joinStr
  refine (hr _).bind fun _ _ => (hl _).bind fun _ _ => ?_
  exact Works.ite (fun _ => ho.t.bind fun _ _ => works_pure _) fun _ =>
    Works.ite (fun _ => hu.t.bind fun _ _ => works_pure _) fun _ => works_pure _

/-! ### All trees -/

theorem firmList_iff {ns : List Node} : firmList ns = true ↔ ∀ n ∈ ns, firm n = true := by
  induction ns with
  | nil => simp [firmList]
  | cons n ns ih => simp [firmList, ih]

theorem whole_source {e : Node} (h : isWhole e = true) : isSource e = true := by
  cases e <;> first | rfl | exact absurd h Bool.false_ne_true | exact h

theorem source_body {e : Node} (h : isSource e = true) : isBody e = true := by
  simp [isBody, isFrom, h]

theorem prints_paren {args : List Node} (h : ∀ a ∈ args, Prints a) (hg : isGroup (foldList args) = true → ∃ f, args = [f] ∧
    (isBody (fold f) || isQuery (fold f)) = true) : Prints (.paren args) where
  t := works_parenStr h
  s := fun h => absurd h Bool.false_ne_true
  nl := fun h => absurd h Bool.false_ne_true
  sub := fun h => absurd h Bool.false_ne_true
  flat := fun h => absurd h Bool.false_ne_true
  arg0 := by
    intro x _ hx hn
    cases args with
    | nil =>
      exfalso
      rcases hn with hn | hn
      · obtain rfl : str!"()" = x := Except.ok.inj hx
        exact absurd hn (by decide)
      · exact absurd hn (by decide)
    | cons a as => exact (h a (by simp)).t
  src := by
    intro hb
    obtain ⟨f, rfl, hf⟩ := hg (by simpa [isBody, isFrom, isJoin, isSet, fold, isSource] using hb)
    show Works (do
      let inner ← if (render f).isSelect then (render f).sub else do
        let x ← (render f).t
        pure (' ' :: indentNL x)
      return str!"(\n" ++ inner ++ str!"\n)")
    dsimp only
    exact Works.ite (fun hs => ((h f (by simp)).sub (by rwa [isSelect_render] at hs)).bind fun _ _ => works_pure _) fun _ =>
      (h f (by simp)).t.bind fun _ _ => works_pure _
  peel := by
    intro hb
    obtain ⟨f, rfl, hf⟩ := hg (by simpa [isBody, isFrom, isJoin, isSet, fold, isSource, isQuery, isSubquery] using hb)
    exact ((h f (by simp)).peel hf).map
  side := by
    intro hb lead
    obtain ⟨f, rfl, hf⟩ := hg (by simpa [isBody, isFrom, isJoin, isSet, fold, isSource] using hb)
    exact works_side rfl ((h f (by simp)).peel hf).map lead

theorem prints_alias {e al : Node} {w : Bool} (he : Prints e) (hal : Prints al) (hr : isRaw (fold al) = true → Works (render al).s) :
    Prints (.alias e al w) where
  t := he.t.bind fun _ _ => hal.t.bind fun _ _ => works_pure _
  s := fun h => absurd h Bool.false_ne_true
  nl := fun h => absurd h Bool.false_ne_true
  sub := fun h => absurd h Bool.false_ne_true
  flat := fun h => absurd h Bool.false_ne_true
  arg0 := fun _ h => absurd h Bool.false_ne_true
  src := by
    intro hb
    have hs : isWhole (fold e) = true ∧ isRaw (fold al) = true := by
      simpa [isBody, isFrom, isJoin, isSet, fold, isSource] using hb
    show Works (do
      let x ← (if (render e).isParen then (render e).fromPos else (render e).t)
      if x.isEmpty then aliasStr (render e).t (render al) w else aliasStr (.ok x) (render al) w)
    refine Works.bind (Works.ite (fun _ => he.src (source_body (whole_source hs.1))) fun _ => he.t) fun x _ => Works.ite (fun _ => ?_) fun _ => ?_
    · exact he.t.bind fun _ _ => hal.t.bind fun _ _ => works_pure _
    · exact (works_ok _).bind fun _ _ => hal.t.bind fun _ _ => works_pure _
  peel := fun _ => (show Works (render (.alias e al w)).t from he.t.bind fun _ _ => hal.t.bind fun _ _ => works_pure _).map
  side := by
    intro hb lead
    have hs : isWhole (fold e) = true ∧ isRaw (fold al) = true := by
      simpa [isBody, isFrom, isJoin, isSet, fold, isSource] using hb
    obtain ⟨p, hp⟩ := he.peel (by rw [source_body (whole_source hs.1)]; rfl)
    obtain ⟨a, ha⟩ := hr hs.2
    exact works_side' (show (render (.alias e al w)).aliased = some (.ok p, w, .ok a) by
      show some ((render e).peel, w, (render al).s) = _
      rw [hp, ha]) lead

/-- Objects whose class has a method `transform`, or only `__str__`. -/
macro "plain_prints" h:term : tactic =>
  `(tactic| exact prints_str $h rfl rfl rfl rfl rfl rfl rfl rfl rfl)

theorem prints_step (n : Node) (ih : ∀ m, sizeOf m < sizeOf n → wf (fold m) = true → firm (fold m) = true → Prints m)
    (hw : wf (fold n) = true) (hf : firm (fold n) = true) : Prints n := by
  have list : ∀ ns : List Node, sizeOf ns < sizeOf n → wfList (foldList ns) = true → firmList (foldList ns) = true → ∀ a ∈ ns, Prints a := by
    intro ns hs h1 h2 a ha
    rw [wfList_iff, foldList_eq] at h1
    rw [firmList_iff, foldList_eq] at h2
    exact ih a (by have := List.sizeOf_lt_of_mem ha; omega) (h1 _ (List.mem_map_of_mem ha)) (h2 _ (List.mem_map_of_mem ha))
  cases n with
  | none => plain_prints (works_ok str!"None")
  | raw s => plain_prints (works_ok s)
  | column v => plain_prints (works_ok _)
  | type v => plain_prints (works_ok _)
  | string v q p => plain_prints (works_ok _)
  | int i => plain_prints (works_ok _)
  | float i => plain_prints (works_ok _)
  | null => plain_prints (works_ok _)
  | bool i => plain_prints (works_ok _)
  | frame i j => plain_prints (works_ok _)
  | select es all d on f w g h o l off semi =>
    simp only [fold, wf, firm, Bool.and_eq_true, decide_eq_true_eq] at hw hf
    simp only [Node.select.sizeOf_spec] at ih list
    obtain ⟨⟨⟨⟨⟨⟨⟨⟨⟨⟨⟨⟨⟨⟨⟨⟨⟨⟨⟨⟨-, -⟩, w1⟩, -⟩, -⟩, w2⟩, w3⟩, w4⟩, w5⟩, -⟩, w6⟩, -⟩, w7⟩, -⟩, w8⟩, -⟩, w9⟩, -⟩, w10⟩, -⟩, w11⟩ := hw
    obtain ⟨⟨⟨⟨⟨⟨⟨⟨f1, f2⟩, f3⟩, f4⟩, f5⟩, f6⟩, f7⟩, f8⟩, f9⟩ := hf
    have hb : Works (selectBody (renderList es) all d (renderList on) (render f) (render w) (render g) (render h) (render o) (render l) (render off)) := by
      refine works_selectBody (list es (by omega) w1 f1) (fun a ha => ⟨list on (by omega) w3 f2 a ha, ?_⟩) (fun ht => ?_)
        (ih w (by omega) w6 f4) (ih g (by omega) w7 f5) (ih h (by omega) w8 f6) (ih o (by omega) w9 f7) (ih l (by omega) w10 f8)
        (ih off (by omega) w11 f9) all d
      · rw [levels_le, foldList_eq] at w2
        exact w2 _ (List.mem_map_of_mem ha)
      · refine (ih f (by omega) w5 f3).src ?_
        cases f <;> first | exact absurd ht Bool.false_ne_true | exact w4
    have hsub : Works (render (.select es all d on f w g h o l off semi)).sub := hb.bind fun _ _ => works_pure _
    exact {
      t := hb.bind fun _ _ => works_pure _
      s := fun h => absurd h Bool.false_ne_true
      nl := fun h => absurd h Bool.false_ne_true
      sub := fun _ => hsub
      flat := fun h => absurd h Bool.false_ne_true
      arg0 := fun _ h => absurd h Bool.false_ne_true
      src := fun h => absurd h Bool.false_ne_true
      peel := fun _ => hsub.map
      side := fun h => absurd h Bool.false_ne_true }
  | where_ v =>
    simp only [fold, wf, firm, Bool.and_eq_true, decide_eq_true_eq] at hw hf
    simp only [Node.where_.sizeOf_spec] at ih
    have hv := ih v (by omega) hw.2 hf
    have hb := works_clauseBody hv
    exact {
      t := hb
      s := fun h => absurd h Bool.false_ne_true
      nl := fun h => absurd h Bool.false_ne_true
      sub := fun h => absurd h Bool.false_ne_true
      flat := fun h => absurd h Bool.false_ne_true
      arg0 := fun _ h => absurd h Bool.false_ne_true
      src := fun h => absurd h Bool.false_ne_true
      peel := fun h => absurd h Bool.false_ne_true
      side := fun h => absurd h Bool.false_ne_true }
  | groupBy args rollup each =>
    simp only [fold, wf, firm, Bool.and_eq_true, decide_eq_true_eq, levels_le] at hw hf
    simp only [Node.groupBy.sizeOf_spec] at list
    obtain ⟨⟨w1, w2⟩, w3⟩ := hw
    rw [foldList_eq] at w1 w2
    plain_prints (works_groupByStr (by rintro rfl; exact absurd w1 (by decide)) (list args (by omega) w3 hf)
      (fun a ha => w2 _ (List.mem_map_of_mem ha)) rollup)
  | having v =>
    simp only [fold, wf, firm, Bool.and_eq_true, decide_eq_true_eq] at hw hf
    simp only [Node.having.sizeOf_spec] at ih
    plain_prints (works_clauseBody (ih v (by omega) hw.2 hf))
  | on v =>
    simp only [fold, wf, firm, Bool.and_eq_true, decide_eq_true_eq] at hw hf
    simp only [Node.on.sizeOf_spec] at ih
    plain_prints (works_clauseBody (ih v (by omega) hw.2 hf))
  | using_ v =>
    simp only [fold, wf, firm, Bool.and_eq_true, decide_eq_true_eq] at hw hf
    simp only [Node.using_.sizeOf_spec] at ih
    plain_prints (works_clauseBody (ih v (by omega) hw.2 hf))
  | orderBy args =>
    simp only [fold, wf, firm, Bool.and_eq_true, decide_eq_true_eq, List.all_eq_true] at hw hf
    simp only [Node.orderBy.sizeOf_spec] at list
    obtain ⟨⟨w1, w2⟩, w3⟩ := hw
    rw [foldList_eq] at w1 w2
    have hi : ∀ a ∈ args, isOrderItem a = true := by
      intro a ha
      have := w2 _ (List.mem_map_of_mem ha)
      revert this
      cases a <;> exact id
    have key := works_orderByStr (by rintro rfl; exact absurd w1 (by decide)) (list args (by omega) w3 hf) hi
    exact {
      t := key true
      s := fun h => absurd h Bool.false_ne_true
      nl := fun h => absurd h Bool.false_ne_true
      sub := fun h => absurd h Bool.false_ne_true
      flat := fun _ => key false
      arg0 := fun _ h => absurd h Bool.false_ne_true
      src := fun h => absurd h Bool.false_ne_true
      peel := fun h => absurd h Bool.false_ne_true
      side := fun h => absurd h Bool.false_ne_true }
  | orderItem v asc desc =>
    simp only [fold, wf, firm, Bool.and_eq_true, decide_eq_true_eq] at hw hf
    simp only [Node.orderItem.sizeOf_spec] at ih
    plain_prints (((ih v (by omega) hw.2 hf).str hw.1.1).bind fun _ _ => works_pure _)
  | limit all v =>
    simp only [fold, wf, firm, Bool.and_eq_true, decide_eq_true_eq] at hw hf
    simp only [Node.limit.sizeOf_spec] at ih
    have : Works (if all then .ok str!"ALL" else (render v).s) := by
      refine Works.ite (fun _ => works_ok _) fun ha => (ih v (by omega) hw.2 hf).str ?_
      have := hw.1
      rw [ha] at this
      simpa using this
    plain_prints this
  | offset v =>
    simp only [fold, wf, firm, Bool.and_eq_true, decide_eq_true_eq] at hw hf
    simp only [Node.offset.sizeOf_spec] at ih
    plain_prints ((ih v (by omega) hw.2 hf).str hw.1)
  | withQuery name q =>
    simp only [fold, wf, firm, Bool.and_eq_true, decide_eq_true_eq] at hw hf
    simp only [Node.withQuery.sizeOf_spec] at ih
    plain_prints (((ih q (by omega) hw.2 hf.2).sub hf.1).bind fun _ _ => works_pure _)
  | withStmt qs q =>
    simp only [fold, wf, firm, Bool.and_eq_true, decide_eq_true_eq] at hw hf
    simp only [Node.withStmt.sizeOf_spec] at ih list
    have hb := works_mapR (f := R.t) fun a ha => (list qs (by omega) hw.1.1.2 hf.1 a ha).t
    have hq := (ih q (by omega) hw.2 hf.2).t
    exact {
      t := hb.bind fun _ _ => hq.bind fun _ _ => works_pure _
      s := fun h => absurd h Bool.false_ne_true
      nl := fun h => absurd h Bool.false_ne_true
      sub := fun h => absurd h Bool.false_ne_true
      flat := fun h => absurd h Bool.false_ne_true
      arg0 := fun _ h => absurd h Bool.false_ne_true
      src := fun h => absurd h Bool.false_ne_true
      peel := fun _ => (hb.bind fun _ _ => hq.bind fun _ _ => works_pure _).map
      side := fun h => absurd h Bool.false_ne_true }
  | func f args =>
    simp only [fold, wf, firm, Bool.and_eq_true, decide_eq_true_eq] at hw hf
    simp only [Node.func.sizeOf_spec] at list
    plain_prints (works_funcStr (list args (by omega) hw.2 hf) (E.upper f))
  | cast c t =>
    simp only [fold, wf, firm, Bool.and_eq_true, decide_eq_true_eq] at hw hf
    simp only [Node.cast.sizeOf_spec] at ih
    have ht : firm (fold t) = true := by
      have := hw.1.1.2
      revert this
      cases fold t <;> intro h <;> first | rfl | exact absurd h Bool.false_ne_true
    plain_prints ((ih c (by omega) hw.1.2 hf).t.bind fun _ _ => (ih t (by omega) hw.2 ht).t.bind fun _ _ => works_pure _)
  | count args d =>
    simp only [fold, wf, firm, Bool.and_eq_true, decide_eq_true_eq] at hw hf
    simp only [Node.count.sizeOf_spec] at list
    have hb := works_mapR (f := R.t) fun a ha => (list args (by omega) hw.2 hf a ha).t
    have : Works (countStr (E.upper str!"count") (renderList args) d) := hb.bind fun _ _ => works_pure _
    plain_prints this
  | arrayAgg c d i r o l =>
    simp only [fold, wf, firm, Bool.and_eq_true, decide_eq_true_eq] at hw hf
    simp only [Node.arrayAgg.sizeOf_spec] at ih
    obtain ⟨⟨⟨⟨⟨⟨w0, w1⟩, w2⟩, w3⟩, w4⟩, w5⟩, w6⟩ := hw
    plain_prints (works_arrayAggStr (ih c (by omega) w1 hf.1) (fun ht => (ih o (by omega) w5 hf.2).flat (by
      revert ht w4
      cases o <;> intro ht w4 <;> first | rfl | exact absurd ht Bool.false_ne_true | exact absurd w4 Bool.false_ne_true)) (E.upper str!"array_agg") d i r l)
  | filtered c w =>
    simp only [fold, wf, firm, Bool.and_eq_true, decide_eq_true_eq] at hw hf
    simp only [Node.filtered.sizeOf_spec] at ih
    plain_prints ((ih c (by omega) hw.1.2 hf.1).t.bind fun _ _ => (ih w (by omega) hw.2 hf.2).t.bind fun _ _ => works_pure _)
  | analytics f part o fr =>
    simp only [fold, wf, firm, Bool.and_eq_true, decide_eq_true_eq] at hw hf
    simp only [Node.analytics.sizeOf_spec] at ih list
    obtain ⟨⟨⟨⟨⟨⟨⟨⟨⟨w0, w1⟩, w2⟩, w3⟩, w4⟩, w5⟩, w6⟩, w7⟩, w8⟩, w9⟩ := hw
    obtain ⟨⟨f1, f2⟩, f3⟩ := hf
    have f4 : firm (fold fr) = true := by
      revert w8
      cases fold fr <;> intro h <;> first | rfl | exact absurd h Bool.false_ne_true
    plain_prints (works_analyticsStr (ih f (by omega) w1 f1) (list part (by omega) w3 f2) (ih o (by omega) w6 f3) (ih fr (by omega) w9 f4))
  | chained l r =>
    simp only [fold, wf, firm, Bool.and_eq_true, decide_eq_true_eq] at hw hf
    simp only [Node.chained.sizeOf_spec] at ih
    plain_prints ((ih l (by omega) hw.1.2 hf.1).t.bind fun _ _ => (ih r (by omega) hw.2 hf.2).t.bind fun _ _ => works_pure _)
  | datePart p e =>
    simp only [fold, wf, firm, Bool.and_eq_true, decide_eq_true_eq] at hw hf
    simp only [Node.datePart.sizeOf_spec] at ih
    plain_prints ((ih e (by omega) hw.2 hf).t.bind fun _ _ => works_pure _)
  | paren args =>
    simp only [fold, wf, firm, Bool.and_eq_true, decide_eq_true_eq] at hw hf
    simp only [Node.paren.sizeOf_spec] at list
    refine prints_paren (list args (by omega) hw.2 hf) fun hg => ?_
    match args, hg with
    | [f], hg =>
      refine ⟨f, rfl, ?_⟩
      simp only [foldList, isGroup, Bool.or_eq_true] at hg
      simp only [isBody, isFrom, Bool.or_eq_true]
      tauto
    | [], hg => exact absurd hg Bool.false_ne_true
    | _ :: _ :: _, hg => exact absurd hg Bool.false_ne_true
  | array args =>
    simp only [fold, wf, firm, Bool.and_eq_true, decide_eq_true_eq] at hw hf
    simp only [Node.array.sizeOf_spec] at list
    have hb := works_mapR (f := R.t) fun a ha => (list args (by omega) hw.2 hf a ha).t
    plain_prints (hb.bind fun _ _ => works_pure _)
  | «alias» e al w =>
    simp only [fold, wf, firm, Bool.and_eq_true, decide_eq_true_eq] at hw hf
    simp only [Node.alias.sizeOf_spec] at ih
    refine prints_alias (ih e (by omega) hw.1.2 hf.1) (ih al (by omega) hw.2 hf.2) fun hr => ?_
    cases al <;> first | exact works_ok _ | exact absurd hr Bool.false_ne_true
  | index e is =>
    simp only [fold, wf, firm, Bool.and_eq_true, decide_eq_true_eq] at hw hf
    simp only [Node.index.sizeOf_spec] at ih list
    have hb := works_mapR (f := R.t) fun a ha => (list is (by omega) hw.2 hf.2 a ha).t
    plain_prints ((ih e (by omega) hw.1.2 hf.1).t.bind fun _ _ => hb.bind fun _ _ => works_pure _)
  | arith op l r =>
    simp only [fold, wf, firm, Bool.and_eq_true, decide_eq_true_eq] at hw hf
    simp only [Node.arith.sizeOf_spec] at ih
    obtain ⟨⟨⟨⟨-, w1⟩, w2⟩, w3⟩, w4⟩ := hw
    plain_prints (((ih l (by omega) w3 hf.1).str (by omega)).bind fun _ _ => ((ih r (by omega) w4 hf.2).str (by omega)).bind fun _ _ => works_pure _)
  | bitwise l op r =>
    simp only [fold, wf, firm, Bool.and_eq_true, decide_eq_true_eq] at hw hf
    simp only [Node.bitwise.sizeOf_spec] at ih
    obtain ⟨⟨-, w3⟩, w4⟩ := hw
    plain_prints ((ih l (by omega) w3 hf.1).t.bind fun _ _ => (ih r (by omega) w4 hf.2).t.bind fun _ _ => works_pure _)
  | table v sq =>
    simp only [fold, wf, firm, Bool.and_eq_true, decide_eq_true_eq] at hw hf
    simp only [Node.table.sizeOf_spec] at ih
    plain_prints ((ih v (by omega) hw.1 hf).t.bind fun _ _ => works_pure _)
  | unnest v o oa al =>
    simp only [fold, wf, firm, Bool.and_eq_true, decide_eq_true_eq] at hw hf
    simp only [Node.unnest.sizeOf_spec] at ih
    have : Works (render (.unnest v o oa al)).t :=
      (ih v (by omega) hw.1.2 hf).t.bind fun _ _ => Works.ite (fun _ => works_pure _) fun _ => works_pure _
    plain_prints this
  | join type l r on using_ =>
    simp only [fold, wf, firm, Bool.and_eq_true, decide_eq_true_eq] at hw hf
    simp only [Node.join.sizeOf_spec] at ih
    obtain ⟨⟨⟨⟨⟨w1, w2⟩, w3⟩, w4⟩, w5⟩, w6⟩ := hw
    obtain ⟨⟨⟨f1, f2⟩, f3⟩, f4⟩ := hf
    have hl : isFrom (fold l) = true := by
      revert w1
      cases fold l <;> intro h <;> first | rfl | exact h
    have hr : isFrom (fold r) = true := by
      simp only [Bool.or_eq_true, Bool.and_eq_true] at w6
      rcases w6 with h | h
      · exact plain_from h.1.2
      · exact h.1.1.2
    plain_prints (works_joinStr ((ih l (by omega) w2 f1).side hl) ((ih r (by omega) w3 f2).side hr) (ih on (by omega) w4 f3)
      (ih using_ (by omega) w5 f4) type (E.upper type))
  | combined op l r =>
    simp only [fold, wf, firm, Bool.and_eq_true, decide_eq_true_eq] at hw hf
    simp only [Node.combined.sizeOf_spec] at ih
    plain_prints ((ih l (by omega) hw.1.2 hf.1).t.bind fun _ _ => (ih r (by omega) hw.2 hf.2).t.bind fun _ _ => works_pure _)
  | cond l p r =>
    simp only [fold, wf, firm, Bool.and_eq_true, decide_eq_true_eq] at hw hf
    simp only [Node.cond.sizeOf_spec] at ih
    obtain ⟨⟨⟨-, w1⟩, w2⟩, -⟩ := hw
    plain_prints ((ih l (by omega) w1 hf.1).t.bind fun _ _ => (ih r (by omega) w2 hf.2).t.bind fun _ _ => works_pure _)
  | boolc p l r =>
    simp only [fold, wf, firm, Bool.and_eq_true, Bool.not_eq_true', decide_eq_true_eq] at hw hf
    simp only [Node.boolc.sizeOf_spec] at ih
    obtain ⟨⟨-, w1⟩, w2⟩ := hw
    obtain ⟨⟨⟨e1, e2⟩, f1⟩, f2⟩ := hf
    have key := works_boolStr (ih l (by omega) w1 f1) (ih r (by omega) w2 f2) e1 e2 (E.upper p)
    exact {
      t := key false
      s := fun h => absurd h Bool.false_ne_true
      nl := fun _ => key true
      sub := fun h => absurd h Bool.false_ne_true
      flat := fun h => absurd h Bool.false_ne_true
      arg0 := fun _ h => absurd h Bool.false_ne_true
      src := fun h => absurd h Bool.false_ne_true
      peel := fun h => absurd h Bool.false_ne_true
      side := fun h => absurd h Bool.false_ne_true }
  | neg e =>
    simp only [fold, wf, firm, Bool.and_eq_true, decide_eq_true_eq] at hw hf
    simp only [Node.neg.sizeOf_spec] at ih
    plain_prints ((ih e (by omega) hw.2 hf).t.bind fun _ _ => works_pure _)
  | except_ e args =>
    simp only [fold, wf, firm, Bool.and_eq_true, decide_eq_true_eq] at hw hf
    simp only [Node.except_.sizeOf_spec] at ih list
    obtain ⟨⟨⟨⟨-, w1⟩, -⟩, w2⟩, w3⟩ := hw
    plain_prints (works_selectAllStr (ih e (by omega) w2 hf.1) (by rintro rfl; exact absurd w1 (by decide)) (list args (by omega) w3 hf.2) str!"EXCEPT")
  | replace e args =>
    simp only [fold, wf, firm, Bool.and_eq_true, decide_eq_true_eq] at hw hf
    simp only [Node.replace.sizeOf_spec] at ih list
    obtain ⟨⟨⟨⟨⟨-, w1⟩, -⟩, -⟩, w2⟩, w3⟩ := hw
    plain_prints (works_selectAllStr (ih e (by omega) w2 hf.1) (by rintro rfl; exact absurd w1 (by decide)) (list args (by omega) w3 hf.2) str!"REPLACE")
  | whenThen w t =>
    simp only [fold, wf, firm, Bool.and_eq_true, decide_eq_true_eq] at hw hf
    simp only [Node.whenThen.sizeOf_spec] at ih
    plain_prints (works_whenStr (ih w (by omega) hw.1.2 hf.1) ((ih t (by omega) hw.2 hf.2).str hw.1.1.2))
  | case o ws e =>
    simp only [fold, wf, firm, Bool.and_eq_true, decide_eq_true_eq] at hw hf
    simp only [Node.case.sizeOf_spec] at ih list
    obtain ⟨⟨⟨-, w1⟩, w2⟩, w3⟩ := hw
    plain_prints (works_caseStr (ih o (by omega) w1 hf.1.1) (list ws (by omega) w2 hf.1.2) (ih e (by omega) w3 hf.2))

/-- The printer raises nothing on firm trees of the core grammar. -/
theorem prints (n : Node) (hw : wf (fold n) = true) (hf : firm (fold n) = true) : Prints n :=
  prints_step n (fun m _ h1 h2 => prints m h1 h2) hw hf
termination_by sizeOf n

/-- Tidy trees are firm. -/
theorem tidy_firm (n : Node) : tidy n = true → firm n = true := by
  induction n using Node.rec (motive_2 := fun ns => tidyList ns = true → firmList ns = true) with
  | nil => rfl
  | cons n ns h1 h2 =>
    rename_i h
    simp only [tidyList, firmList, Bool.and_eq_true] at h ⊢
    exact ⟨h1 h.1, h2 h.2⟩
  | boolc p l r hl hr =>
    intro h
    simp only [tidy, firm, Bool.and_eq_true, Bool.not_eq_true'] at h ⊢
    have key : ∀ m : Node, single m = true → isEmptyParen m = false := by
      intro m hm
      cases m <;> first | rfl | skip
      rename_i args
      cases args <;> first | rfl | exact absurd hm (by decide)
    exact ⟨⟨⟨key l h.1.1.1, key r h.1.1.2⟩, hl h.1.2⟩, hr h.2⟩
  | _ =>
    intro h
    first
      | rfl
      | (simp only [tidy, firm, Bool.and_eq_true] at h ⊢
         simp_all)

end

end SqlV.Core
