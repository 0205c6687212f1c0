import Verif.Lemmas.Printable

/-! Which exceptions the printer raises. -/

set_option linter.unusedSectionVars false
set_option linter.unusedSimpArgs false
set_option linter.unusedTactic false

namespace SqlV.Printable

open SqlV.Shown (present)

/-- No other exceptions than these. -/
def Only {α : Type} (A : PyErr → Prop) (x : Except PyErr α) : Prop := ∀ e, x = .error e → A e

section

variable {A : PyErr → Prop}

theorem Only.ok {α : Type} (a : α) : Only A (.ok a : Except PyErr α) := fun _ h => by cases h

theorem Only.pure {α : Type} (a : α) : Only A (pure a : Except PyErr α) := Only.ok a

theorem Only.error {α : Type} {e : PyErr} (h : A e) : Only A (.error e : Except PyErr α) := fun _ h' => by cases h'; exact h

theorem Only.bind {α β : Type} {x : Except PyErr α} {f : α → Except PyErr β} (hx : Only A x) (hf : ∀ a, Only A (f a)) :
    Only A (x >>= f) := by
  cases x with
  | ok a => exact hf a
  | error e => exact fun e' h => hx e' (by cases h; rfl)

theorem Only.map {α β : Type} {x : Except PyErr α} {f : α → β} (hx : Only A x) : Only A (x.map f) := by
  cases x with
  | ok a => exact Only.ok _
  | error e => exact fun e' h => hx e' (by cases h; rfl)

theorem Only.ite {α : Type} {c : Prop} [Decidable c] {x y : Except PyErr α} (hx : c → Only A x) (hy : ¬ c → Only A y) :
    Only A (if c then x else y) := by
  split
  · exact hx ‹_›
  · exact hy ‹_›

/-- Steps, choices and values. -/
macro "only" : tactic => `(tactic| repeat' (first
  | assumption
  | exact Only.pure _
  | exact Only.ok _
  | (refine Only.ite (fun _ => ?_) fun _ => ?_)
  | (refine Only.bind ?_ fun _ => ?_)
  | (refine Only.map ?_)))

/-- The methods of an object; those that only some classes have are asked only of these. -/
structure Errs (A : PyErr → Prop) (x : R) : Prop where
  t : Only A x.t
  s : Only A x.s
  sub : x.isSelect = true → Only A x.sub
  nl : x.isBoolc = true → Only A x.nl
  arg0 : Only A x.arg0
  peel : Only A x.peel
  fromPos : Only A x.fromPos
  aliased : ∀ p w a, x.aliased = some (p, w, a) → Only A p ∧ Only A a

theorem Errs.ofStr {s : RStr} (ha : A .attribute) (h : Only A s) : Errs A (R.ofStr s) where
  t := h
  s := h
  sub := fun h => by cases h
  nl := fun h => by cases h
  arg0 := Only.error ha
  peel := h.map
  fromPos := h
  aliased := fun _ _ _ h => by cases h

theorem Errs.ofTransform {t s : RStr} (ha : A .attribute) (h : Only A t) (h' : Only A s) : Errs A (R.ofTransform t s) where
  t := h
  s := h'
  sub := fun h => by cases h
  nl := fun h => by cases h
  arg0 := Only.error ha
  peel := h.map
  fromPos := h
  aliased := fun _ _ _ h => by cases h

theorem only_mapR {f : R → RStr} {rs : List R} (h : ∀ r ∈ rs, Only A (f r)) : Only A (mapR f rs) := by
  induction rs with
  | nil => exact Only.ok _
  | cons r rs ih =>
    rw [mapR]
    exact (h r (by simp)).bind fun _ => (ih fun x hx => h x (by simp [hx])).bind fun _ => Only.pure _

theorem only_clauseBody {v : R} (h : Errs A v) : Only A (clauseBody v) := by
  have h1 := h.t
  have h2 := h.arg0
  unfold clauseBody
  only

theorem only_when {w t : R} (h : Errs A w) (h' : Errs A t) : Only A (whenStr w t) := by
  have h1 := h.t
  have h2 := h.arg0
  have h3 := h'.s
  unfold whenStr
  dsimp only
  only

theorem only_orderBy {args : List R} (hi : A .index) (h : ∀ a ∈ args, Errs A a) (b : Bool) : Only A (orderByStr args b) := by
  match args with
  | [] => exact Only.error hi
  | [a] => exact (h a (by simp)).t.bind fun _ => Only.pure _
  | a :: a' :: as =>
    exact (only_mapR fun r hr => (h r hr).s).bind fun _ => Only.ite (fun _ => Only.pure _) fun _ => Only.pure _

theorem only_groupBy {args : List R} (hi : A .index) (h : ∀ a ∈ args, Errs A a) (b : Bool) : Only A (groupByStr args b) := by
  unfold groupByStr
  dsimp only
  match args with
  | [] => exact Only.error hi
  | [a] => exact (h a (by simp)).t.bind fun _ => Only.pure _
  | a :: a' :: as => exact (only_mapR fun r hr => (h r hr).s).bind fun _ => Only.pure _

theorem only_func {args : List R} (h : ∀ a ∈ args, Errs A a) (name : Str) : Only A (funcStr name args) := by
  have h1 : Only A (mapR R.t args) := only_mapR fun r hr => (h r hr).t
  unfold funcStr
  only

theorem only_count {args : List R} (h : ∀ a ∈ args, Errs A a) (name : Str) (d : Bool) : Only A (countStr name args d) := by
  have h1 : Only A (mapR R.t args) := only_mapR fun r hr => (h r hr).t
  unfold countStr
  only

theorem only_arrayAgg {c o : R} (h : Errs A c) (ho : o.truthy = true → Only A o.flat) (name : Str) (d i r : Bool) (l : Option Int) :
    Only A (arrayAggStr name c d i r o l) := by
  unfold arrayAggStr
  dsimp only
  exact h.t.bind fun _ => Only.ite (fun hh => (ho hh).bind fun _ => Only.pure _) fun _ => Only.pure _

theorem only_analytics {f o fr : R} {part : List R} (hf : Errs A f) (hp : ∀ a ∈ part, Errs A a) (ho : Errs A o) (hfr : Errs A fr) :
    Only A (analyticsStr f part o fr) := by
  have h1 := hf.t
  have h2 : Only A (mapR R.t part) := only_mapR fun r hr => (hp r hr).t
  have h3 := ho.t
  have h4 := hfr.t
  unfold analyticsStr
  dsimp only
  refine h1.bind fun _ => ?_
  match part with
  | [] => only
  | [p] =>
    have h5 := (hp p (by simp)).t
    only
  | p :: p' :: ps => only

theorem only_selectAll {e : R} {args : List R} (hi : A .index) (he : Errs A e) (h : ∀ a ∈ args, Errs A a) (kw : Str) :
    Only A (selectAllStr e kw args) := by
  unfold selectAllStr
  refine he.t.bind fun _ => ?_
  match args with
  | [] => exact Only.error hi
  | [a] => exact (h a (by simp)).t.bind fun _ => Only.pure _
  | a :: a' :: as => exact (only_mapR fun r hr => (h r hr).t).bind fun _ => Only.pure _

theorem only_case {o e : R} {ws : List R} (ho : Errs A o) (hw : ∀ a ∈ ws, Errs A a) (he : Errs A e) : Only A (caseStr o ws e) := by
  have h1 := ho.t
  have h2 : Only A (mapR R.t ws) := only_mapR fun r hr => (hw r hr).t
  have h3 := he.t
  unfold caseStr
  dsimp only
  only

theorem only_paren {args : List R} (h : ∀ a ∈ args, Errs A a) : Only A (parenStr args) := by
  unfold parenStr
  refine (only_mapR fun r hr => ?_).bind fun _ => Only.pure _
  exact Only.ite (fun hs => ((h r hr).sub hs).bind fun _ => Only.pure _) fun _ => (h r hr).t

theorem only_side {x : R} (h : Errs A x) (lead : Str) : Only A (joinSide lead x) := by
  unfold joinSide
  cases ha : x.aliased with
  | none =>
    dsimp only
    have := h.peel
    only
  | some v =>
    obtain ⟨p, w, a⟩ := v
    dsimp only
    obtain ⟨h1, h2⟩ := h.aliased p w a ha
    exact h1.bind fun _ => (h2.bind fun _ => Only.pure _ : Only A _)

theorem only_join {l r on us : R} (hl : Errs A l) (hr : Errs A r) (ho : Errs A on) (hu : Errs A us) (type upper : Str) :
    Only A (joinStr type upper l r on us) := by
  have h1 := only_side hl []
  have h2 := only_side hr str!" "
  have h3 := ho.t
  have h4 := hu.t
  unfold joinStr
  only

theorem only_bool {l r : R} (hl : Errs A l) (hr : Errs A r) (type : Str) (b : Bool) : Only A (boolStr type l r b) := by
  have arg : ∀ {x : R}, Errs A x → Only A (if x.isBoolc then x.nl
      else if x.isParen then do
        let y ← x.arg0
        return if hasNL y then str!"(\n " ++ indentNL y ++ str!"\n)" else str!"(" ++ y ++ str!")"
      else x.t) := fun hx =>
    Only.ite (fun hb => hx.nl hb) fun _ => Only.ite (fun _ => hx.arg0.bind fun _ => Only.pure _) fun _ => hx.t
  unfold boolStr
  exact hl.t.bind fun _ => hr.t.bind fun _ => Only.ite (fun _ => Only.pure _) fun _ =>
    (arg hl).bind fun _ => (arg hr).bind fun _ => Only.pure _

theorem only_opt {c : R} (h : Errs A c) (name : Str) : Only A (optClause name c) := by
  have := h.t
  unfold optClause
  only

theorem only_select [E : PyEnv] [L : LawfulPyEnv E] {es on : List R} {f w g h o l off : R} (hes : ∀ a ∈ es, Errs A a) (hon : ∀ a ∈ on, Errs A a) (hf : Errs A f)
    (hw : Errs A w) (hg : Errs A g) (hh : Errs A h) (ho : Errs A o) (hl : Errs A l) (hoff : Errs A off) (all d : Bool) :
    Only A (selectBody es all d on f w g h o l off) := by
  rw [Shown.selectBody_eq]
  have h1 : Only A (mapR R.s on) := only_mapR fun r hr => (hon r hr).s
  have h2 : Only A (mapR R.t es) := only_mapR fun r hr => (hes r hr).t
  have h3 := hf.fromPos
  refine Only.bind (by only) fun _ => Only.bind ?_ fun _ => Only.bind (by only) fun _ => ?_
  · rcases es with _ | ⟨e, _ | ⟨e', es⟩⟩
    · only
    · have h4 := (hes e (by simp)).t
      only
    · only
  · exact (only_opt hw _).bind fun _ => (only_opt hg _).bind fun _ => (only_opt hh _).bind fun _ => (only_opt ho _).bind fun _ =>
      (only_opt hl _).bind fun _ => (only_opt hoff _).bind fun _ => Only.pure _

theorem Errs.paren {args : List R} (hi : A .index) (h : ∀ a ∈ args, Errs A a) : Errs A (R.paren args) where
  t := only_paren h
  s := only_paren h
  sub := fun h => by cases h
  nl := fun h => by cases h
  arg0 := by
    cases args with
    | nil => exact Only.error hi
    | cons a as => exact (h a (by simp)).t
  peel := by
    cases args with
    | nil => exact Only.error hi
    | cons a as => exact (h a (by simp)).peel.map
  fromPos := by
    cases args with
    | nil => exact Only.error hi
    | cons a as =>
      show Only A (do
        let inner ← if a.isSelect then a.sub else do
          let x ← a.t
          pure (' ' :: indentNL x)
        return str!"(\n" ++ inner ++ str!"\n)")
      have h1 := (h a (by simp)).t
      dsimp only
      exact Only.ite (fun hs => ((h a (by simp)).sub hs).bind fun _ => Only.pure _) fun _ => by only
  aliased := fun _ _ _ h => by cases h

theorem Errs.alias {e a : R} (ha : A .attribute) (he : Errs A e) (hal : Errs A a) (w : Bool) : Errs A (R.alias e a w) := by
  have h1 := he.t
  have h2 := hal.t
  have ht : ∀ x : RStr, Only A x → Only A (aliasStr x a w) := fun x hx => by
    unfold aliasStr
    only
  exact {
    t := ht _ h1
    s := Only.error ha
    sub := fun h => by cases h
    nl := fun h => by cases h
    arg0 := Only.error ha
    peel := (ht _ h1).map
    fromPos := by
      show Only A (do
        let x ← (if e.isParen then e.fromPos else e.t)
        if x.isEmpty then aliasStr e.t a w else aliasStr (.ok x) a w)
      exact (Only.ite (fun _ => he.fromPos) fun _ => h1).bind fun _ => Only.ite (fun _ => ht _ h1) fun _ => ht _ (Only.ok _)
    aliased := fun _ _ _ h => by
      cases h
      exact ⟨he.peel, hal.s⟩ }

end

section

variable [E : PyEnv] [L : LawfulPyEnv E]

theorem straightList_iff {l : List Node} : straightList l = true ↔ ∀ n ∈ l, straight n = true := by
  induction l with
  | nil => simp [straightList]
  | cons n ns ih => simp [straightList, ih]

theorem errs_step {A : PyErr → Prop} (ha : A .attribute) (hi : A .index) (hr : ∀ n e, pyRepr n = .error e → A e) (n : Node)
    (ih : ∀ m, sizeOf m < sizeOf n → straight m = true → Errs A (render m)) (hs : straight n = true) : Errs A (render n) := by
  have list : ∀ ns : List Node, sizeOf ns < sizeOf n → straightList ns = true → ∀ a ∈ renderList ns, Errs A a := by
    intro ns hn h a hm
    rw [Shown.renderList_eq] at hm
    obtain ⟨m, hmn, rfl⟩ := List.mem_map.1 hm
    exact ih m (by have := List.sizeOf_lt_of_mem hmn; omega) (straightList_iff.1 h m hmn)
  cases n with
  | none => exact ⟨Only.ok _, Only.ok _, fun h => (by cases h), fun h => (by cases h), Only.error ha, Only.ok _, Only.ok _, fun _ _ _ h => (by cases h)⟩
  | select es all d on f w g h o l off semi =>
    simp only [straight, Bool.and_eq_true] at hs
    obtain ⟨⟨⟨⟨⟨⟨⟨⟨s1, s2⟩, s3⟩, s4⟩, s5⟩, s6⟩, s7⟩, s8⟩, s9⟩ := hs
    have hb := only_select (list es (by simp <;> omega) s1) (list on (by simp <;> omega) s2) (ih f (by simp <;> omega) s3)
      (ih w (by simp <;> omega) s4) (ih g (by simp <;> omega) s5) (ih h (by simp <;> omega) s6) (ih o (by simp <;> omega) s7)
      (ih l (by simp <;> omega) s8) (ih off (by simp <;> omega) s9) all d
    rw [render]
    have h1 : Only A (R.select (.select es all d on f w g h o l off semi) (renderList es) all d (renderList on) (render f) (render w)
      (render g) (render h) (render o) (render l) (render off) semi).t := hb.bind fun _ => Only.pure _
    have h2 : Only A (R.select (.select es all d on f w g h o l off semi) (renderList es) all d (renderList on) (render f) (render w)
      (render g) (render h) (render o) (render l) (render off) semi).sub := hb.bind fun _ => Only.pure _
    exact {
      t := h1
      s := hr _
      sub := fun _ => h2
      nl := fun h => by cases h
      arg0 := Only.error ha
      peel := h2.map
      fromPos := h1
      aliased := fun _ _ _ h => by cases h }
  | where_ v =>
    have h := ih v (by simp <;> omega) hs
    exact Errs.ofTransform ha (only_clauseBody h) h.s
  | groupBy args ro ea =>
    have h := only_groupBy hi (list args (by simp <;> omega) hs) ro
    have h' := Errs.ofStr ha h
    rw [render]
    exact { h' with }
  | orderBy args =>
    have h := only_orderBy hi (list args (by simp <;> omega) hs)
    have h' := Errs.ofTransform (s := .error .attribute) ha (h true) (Only.error ha)
    rw [render]
    exact { h' with }
  | boolc t l r =>
    simp only [straight, Bool.and_eq_true] at hs
    have h := only_bool (ih l (by simp <;> omega) hs.1) (ih r (by simp <;> omega) hs.2) (E.upper t)
    have h' := Errs.ofTransform (s := .error .attribute) ha (h false) (Only.error ha)
    rw [render]
    exact { h' with nl := fun _ => h true }
  | paren args => exact Errs.paren hi (list args (by simp <;> omega) hs)
  | «alias» e a w =>
    simp only [straight, Bool.and_eq_true] at hs
    exact Errs.alias ha (ih e (by simp <;> omega) hs.1) (ih a (by simp <;> omega) hs.2) w
  | withStmt qs t =>
    simp only [straight, Bool.and_eq_true] at hs
    have h1 : Only A (mapR R.t (renderList qs)) := only_mapR fun r hr => (list qs (by simp <;> omega) hs.1 r hr).t
    have h2 := (ih t (by simp <;> omega) hs.2).t
    exact Errs.ofTransform ha (by only) (Only.error ha)
  | withQuery name q =>
    simp only [straight, Bool.and_eq_true] at hs
    have h := (ih q (by simp <;> omega) hs.2).sub (by rw [isStatement_eq]; exact hs.1)
    exact Errs.ofStr ha (by only)
  | table v q =>
    have h := (ih v (by simp <;> omega) hs).t
    have h' := Errs.ofStr (s := do
        let x ← (render v).t
        return if q then str!"[" ++ x ++ str!"]" else x) ha (by only)
    rw [render]
    exact { h' with }
  | arrayAgg c d i r o l =>
    simp only [straight, Bool.and_eq_true] at hs
    refine Errs.ofStr ha (only_arrayAgg (ih c (by simp <;> omega) hs.1.1) (fun ht => ?_) _ _ _ _ _)
    rw [truthy_eq] at ht
    rw [ht] at hs
    cases o <;> first | exact absurd hs.2 Bool.false_ne_true | skip
    rename_i args
    exact only_orderBy hi (list args (by simp <;> omega) hs.1.2) false
  | unnest v o w a =>
    have h := (ih v (by simp <;> omega) hs).t
    refine Errs.ofStr ha ?_
    dsimp only
    only
  | limit all v =>
    have h := (ih v (by simp <;> omega) hs).s
    exact Errs.ofStr ha (by only)
  | orderItem v a d =>
    have h := (ih v (by simp <;> omega) hs).s
    exact Errs.ofStr ha (by unfold orderItemStr; only)
  | offset v => exact Errs.ofStr ha (ih v (by simp <;> omega) hs).s
  | having v => exact Errs.ofStr ha (only_clauseBody (ih v (by simp <;> omega) hs))
  | on v => exact Errs.ofStr ha (only_clauseBody (ih v (by simp <;> omega) hs))
  | using_ v => exact Errs.ofStr ha (only_clauseBody (ih v (by simp <;> omega) hs))
  | datePart p v =>
    have h := (ih v (by simp <;> omega) hs).t
    exact Errs.ofStr ha (by only)
  | neg v =>
    have h := (ih v (by simp <;> omega) hs).t
    exact Errs.ofStr ha (by only)
  | func name args => exact Errs.ofStr ha (only_func (list args (by simp <;> omega) hs) _)
  | count args d => exact Errs.ofStr ha (only_count (list args (by simp <;> omega) hs) _ d)
  | array args =>
    have h : Only A (mapR R.t (renderList args)) := only_mapR fun r hr => (list args (by simp <;> omega) hs r hr).t
    exact Errs.ofStr ha (by only)
  | index e is =>
    simp only [straight, Bool.and_eq_true] at hs
    have h1 := (ih e (by simp <;> omega) hs.1).t
    have h : Only A (mapR R.t (renderList is)) := only_mapR fun r hr => (list is (by simp <;> omega) hs.2 r hr).t
    exact Errs.ofStr ha (by only)
  | analytics f part o fr =>
    simp only [straight, Bool.and_eq_true] at hs
    exact Errs.ofStr ha (only_analytics (ih f (by simp <;> omega) hs.1.1.1) (list part (by simp <;> omega) hs.1.1.2)
      (ih o (by simp <;> omega) hs.1.2) (ih fr (by simp <;> omega) hs.2))
  | except_ e args =>
    simp only [straight, Bool.and_eq_true] at hs
    exact Errs.ofStr ha (only_selectAll hi (ih e (by simp <;> omega) hs.1) (list args (by simp <;> omega) hs.2) _)
  | replace e args =>
    simp only [straight, Bool.and_eq_true] at hs
    exact Errs.ofStr ha (only_selectAll hi (ih e (by simp <;> omega) hs.1) (list args (by simp <;> omega) hs.2) _)
  | whenThen w t =>
    simp only [straight, Bool.and_eq_true] at hs
    exact Errs.ofStr ha (only_when (ih w (by simp <;> omega) hs.1) (ih t (by simp <;> omega) hs.2))
  | case o ws e =>
    simp only [straight, Bool.and_eq_true] at hs
    exact Errs.ofStr ha (only_case (ih o (by simp <;> omega) hs.1.1) (list ws (by simp <;> omega) hs.1.2) (ih e (by simp <;> omega) hs.2))
  | join t l r on us =>
    simp only [straight, Bool.and_eq_true] at hs
    exact Errs.ofStr ha (only_join (ih l (by simp <;> omega) hs.1.1.1) (ih r (by simp <;> omega) hs.1.1.2) (ih on (by simp <;> omega) hs.1.2)
      (ih us (by simp <;> omega) hs.2) _ _)
  | arith op l r =>
    simp only [straight, Bool.and_eq_true] at hs
    have h1 := (ih l (by simp <;> omega) hs.1).s
    have h2 := (ih r (by simp <;> omega) hs.2).s
    exact Errs.ofStr ha (by only)
  | cast a b =>
    simp only [straight, Bool.and_eq_true] at hs
    have h1 := (ih a (by simp <;> omega) hs.1).t
    have h2 := (ih b (by simp <;> omega) hs.2).t
    exact Errs.ofStr ha (by only)
  | filtered a b =>
    simp only [straight, Bool.and_eq_true] at hs
    have h1 := (ih a (by simp <;> omega) hs.1).t
    have h2 := (ih b (by simp <;> omega) hs.2).t
    exact Errs.ofStr ha (by only)
  | chained a b =>
    simp only [straight, Bool.and_eq_true] at hs
    have h1 := (ih a (by simp <;> omega) hs.1).t
    have h2 := (ih b (by simp <;> omega) hs.2).t
    exact Errs.ofStr ha (by only)
  | bitwise a op b =>
    simp only [straight, Bool.and_eq_true] at hs
    have h1 := (ih a (by simp <;> omega) hs.1).t
    have h2 := (ih b (by simp <;> omega) hs.2).t
    exact Errs.ofStr ha (by only)
  | combined op a b =>
    simp only [straight, Bool.and_eq_true] at hs
    have h1 := (ih a (by simp <;> omega) hs.1).t
    have h2 := (ih b (by simp <;> omega) hs.2).t
    exact Errs.ofStr ha (by only)
  | cond a op b =>
    simp only [straight, Bool.and_eq_true] at hs
    have h1 := (ih a (by simp <;> omega) hs.1).t
    have h2 := (ih b (by simp <;> omega) hs.2).t
    exact Errs.ofStr ha (by only)
  | raw v => exact Errs.ofStr ha (Only.ok _)
  | column v => exact Errs.ofStr ha (Only.ok _)
  | type v => exact Errs.ofStr ha (Only.ok _)
  | string v q p => exact Errs.ofStr ha (Only.ok _)
  | int i => exact Errs.ofStr ha (Only.ok _)
  | float i => exact Errs.ofStr ha (Only.ok _)
  | null => exact Errs.ofStr ha (Only.ok _)
  | bool i => exact Errs.ofStr ha (Only.ok _)
  | frame i j => exact Errs.ofStr ha (Only.ok _)

/-- The exceptions of the printer. -/
theorem errs {A : PyErr → Prop} (ha : A .attribute) (hi : A .index) (hr : ∀ n e, pyRepr n = .error e → A e) (n : Node)
    (hs : straight n = true) : Errs A (render n) := by
  induction h : sizeOf n using Nat.strongRecOn generalizing n with
  | _ k ih => exact errs_step ha hi hr n (fun m hm hm' => ih _ (h ▸ hm) m hm' rfl) hs

theorem errs_all_step {A : PyErr → Prop} (ha : A .attribute) (hi : A .index) (ht : A .type) (hr : ∀ n e, pyRepr n = .error e → A e) (n : Node)
    (ih : ∀ m, sizeOf m < sizeOf n → Errs A (render m)) : Errs A (render n) := by
  have list : ∀ ns : List Node, sizeOf ns < sizeOf n → ∀ a ∈ renderList ns, Errs A a := by
    intro ns hn a hm
    rw [Shown.renderList_eq] at hm
    obtain ⟨m, hmn, rfl⟩ := List.mem_map.1 hm
    exact ih m (by have := List.sizeOf_lt_of_mem hmn; omega)
  cases n with
  | none => exact ⟨Only.ok _, Only.ok _, fun h => (by cases h), fun h => (by cases h), Only.error ha, Only.ok _, Only.ok _, fun _ _ _ h => (by cases h)⟩
  | select es all d on f w g h o l off semi =>
    have hb := only_select (list es (by simp <;> omega)) (list on (by simp <;> omega)) (ih f (by simp <;> omega))
      (ih w (by simp <;> omega)) (ih g (by simp <;> omega)) (ih h (by simp <;> omega)) (ih o (by simp <;> omega))
      (ih l (by simp <;> omega)) (ih off (by simp <;> omega)) all d
    rw [render]
    have h1 : Only A (R.select (.select es all d on f w g h o l off semi) (renderList es) all d (renderList on) (render f) (render w)
      (render g) (render h) (render o) (render l) (render off) semi).t := hb.bind fun _ => Only.pure _
    have h2 : Only A (R.select (.select es all d on f w g h o l off semi) (renderList es) all d (renderList on) (render f) (render w)
      (render g) (render h) (render o) (render l) (render off) semi).sub := hb.bind fun _ => Only.pure _
    exact {
      t := h1
      s := hr _
      sub := fun _ => h2
      nl := fun h => by cases h
      arg0 := Only.error ha
      peel := h2.map
      fromPos := h1
      aliased := fun _ _ _ h => by cases h }
  | where_ v =>
    have h := ih v (by simp <;> omega)
    exact Errs.ofTransform ha (only_clauseBody h) h.s
  | groupBy args ro ea =>
    have h := only_groupBy hi (list args (by simp <;> omega)) ro
    have h' := Errs.ofStr ha h
    rw [render]
    exact { h' with }
  | orderBy args =>
    have h := only_orderBy hi (list args (by simp <;> omega))
    have h' := Errs.ofTransform (s := .error .attribute) ha (h true) (Only.error ha)
    rw [render]
    exact { h' with }
  | boolc t l r =>
    have h := only_bool (ih l (by simp <;> omega)) (ih r (by simp <;> omega)) (E.upper t)
    have h' := Errs.ofTransform (s := .error .attribute) ha (h false) (Only.error ha)
    rw [render]
    exact { h' with nl := fun _ => h true }
  | paren args => exact Errs.paren hi (list args (by simp <;> omega))
  | «alias» e a w =>
    exact Errs.alias ha (ih e (by simp <;> omega)) (ih a (by simp <;> omega)) w
  | withStmt qs t =>
    have h1 : Only A (mapR R.t (renderList qs)) := only_mapR fun r hr => (list qs (by simp <;> omega) r hr).t
    have h2 := (ih t (by simp <;> omega)).t
    exact Errs.ofTransform ha (by only) (Only.error ha)
  | withQuery name q =>
    have h : Only A (render q).sub := by
      by_cases hq : (render q).isSelect = true
      · exact (ih q (by simp <;> omega)).sub hq
      · rw [isStatement_eq] at hq
        cases q with
        | select => exact absurd rfl hq
        | _ =>
          simp only [render, R.ofStr, R.ofTransform, R.select, R.paren, R.alias]
          first | exact Only.error ht | exact Only.error ha
    exact Errs.ofStr ha (by only)
  | table v q =>
    have h := (ih v (by simp <;> omega)).t
    have h' := Errs.ofStr (s := do
        let x ← (render v).t
        return if q then str!"[" ++ x ++ str!"]" else x) ha (by only)
    rw [render]
    exact { h' with }
  | arrayAgg c d i r o l =>
    refine Errs.ofStr ha (only_arrayAgg (ih c (by simp <;> omega)) (fun _ => ?_) _ _ _ _ _)
    cases o with
    | orderBy args => exact only_orderBy hi (list args (by simp <;> omega)) false
    | _ =>
      simp only [render, R.ofStr, R.ofTransform, R.select, R.paren, R.alias]
      first | exact Only.error ht | exact Only.error ha
  | unnest v o w a =>
    have h := (ih v (by simp <;> omega)).t
    refine Errs.ofStr ha ?_
    dsimp only
    only
  | limit all v =>
    have h := (ih v (by simp <;> omega)).s
    exact Errs.ofStr ha (by only)
  | orderItem v a d =>
    have h := (ih v (by simp <;> omega)).s
    exact Errs.ofStr ha (by unfold orderItemStr; only)
  | offset v => exact Errs.ofStr ha (ih v (by simp <;> omega)).s
  | having v => exact Errs.ofStr ha (only_clauseBody (ih v (by simp <;> omega)))
  | on v => exact Errs.ofStr ha (only_clauseBody (ih v (by simp <;> omega)))
  | using_ v => exact Errs.ofStr ha (only_clauseBody (ih v (by simp <;> omega)))
  | datePart p v =>
    have h := (ih v (by simp <;> omega)).t
    exact Errs.ofStr ha (by only)
  | neg v =>
    have h := (ih v (by simp <;> omega)).t
    exact Errs.ofStr ha (by only)
  | func name args => exact Errs.ofStr ha (only_func (list args (by simp <;> omega)) _)
  | count args d => exact Errs.ofStr ha (only_count (list args (by simp <;> omega)) _ d)
  | array args =>
    have h : Only A (mapR R.t (renderList args)) := only_mapR fun r hr => (list args (by simp <;> omega) r hr).t
    exact Errs.ofStr ha (by only)
  | index e is =>
    have h1 := (ih e (by simp <;> omega)).t
    have h : Only A (mapR R.t (renderList is)) := only_mapR fun r hr => (list is (by simp <;> omega) r hr).t
    exact Errs.ofStr ha (by only)
  | analytics f part o fr =>
    exact Errs.ofStr ha (only_analytics (ih f (by simp <;> omega)) (list part (by simp <;> omega))
      (ih o (by simp <;> omega)) (ih fr (by simp <;> omega)))
  | except_ e args =>
    exact Errs.ofStr ha (only_selectAll hi (ih e (by simp <;> omega)) (list args (by simp <;> omega)) _)
  | replace e args =>
    exact Errs.ofStr ha (only_selectAll hi (ih e (by simp <;> omega)) (list args (by simp <;> omega)) _)
  | whenThen w t =>
    exact Errs.ofStr ha (only_when (ih w (by simp <;> omega)) (ih t (by simp <;> omega)))
  | case o ws e =>
    exact Errs.ofStr ha (only_case (ih o (by simp <;> omega)) (list ws (by simp <;> omega)) (ih e (by simp <;> omega)))
  | join t l r on us =>
    exact Errs.ofStr ha (only_join (ih l (by simp <;> omega)) (ih r (by simp <;> omega)) (ih on (by simp <;> omega))
      (ih us (by simp <;> omega)) _ _)
  | arith op l r =>
    have h1 := (ih l (by simp <;> omega)).s
    have h2 := (ih r (by simp <;> omega)).s
    exact Errs.ofStr ha (by only)
  | cast a b =>
    have h1 := (ih a (by simp <;> omega)).t
    have h2 := (ih b (by simp <;> omega)).t
    exact Errs.ofStr ha (by only)
  | filtered a b =>
    have h1 := (ih a (by simp <;> omega)).t
    have h2 := (ih b (by simp <;> omega)).t
    exact Errs.ofStr ha (by only)
  | chained a b =>
    have h1 := (ih a (by simp <;> omega)).t
    have h2 := (ih b (by simp <;> omega)).t
    exact Errs.ofStr ha (by only)
  | bitwise a op b =>
    have h1 := (ih a (by simp <;> omega)).t
    have h2 := (ih b (by simp <;> omega)).t
    exact Errs.ofStr ha (by only)
  | combined op a b =>
    have h1 := (ih a (by simp <;> omega)).t
    have h2 := (ih b (by simp <;> omega)).t
    exact Errs.ofStr ha (by only)
  | cond a op b =>
    have h1 := (ih a (by simp <;> omega)).t
    have h2 := (ih b (by simp <;> omega)).t
    exact Errs.ofStr ha (by only)
  | raw v => exact Errs.ofStr ha (Only.ok _)
  | column v => exact Errs.ofStr ha (Only.ok _)
  | type v => exact Errs.ofStr ha (Only.ok _)
  | string v q p => exact Errs.ofStr ha (Only.ok _)
  | int i => exact Errs.ofStr ha (Only.ok _)
  | float i => exact Errs.ofStr ha (Only.ok _)
  | null => exact Errs.ofStr ha (Only.ok _)
  | bool i => exact Errs.ofStr ha (Only.ok _)
  | frame i j => exact Errs.ofStr ha (Only.ok _)

/-- The exceptions of the printer, for every tree. -/
theorem errs_all {A : PyErr → Prop} (ha : A .attribute) (hi : A .index) (ht : A .type) (hr : ∀ n e, pyRepr n = .error e → A e)
    (n : Node) : Errs A (render n) := by
  induction h : sizeOf n using Nat.strongRecOn generalizing n with
  | _ k ih => exact errs_all_step ha hi ht hr n fun m hm => ih _ (h ▸ hm) m rfl

end

end SqlV.Printable
