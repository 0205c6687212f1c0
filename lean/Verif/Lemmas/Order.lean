import Verif.Lemmas.Validate

/-! Two interpreters that differ only in the iteration order of sets. -/

namespace SqlV

/-- The same interpreter with another iteration order. -/
@[instance_reducible] def PyEnv.withOrder (E : PyEnv) (o : List Field → List Field) : PyEnv :=
  { E with setOrder := o }

theorem pyRepr_order (E : PyEnv) (o : List Field → List Field) (n : Node) :
    @pyRepr (E.withOrder o) n = @pyRepr E n := by
  induction n using Node.rec (motive_2 := fun ns =>
    @pyReprs (E.withOrder o) ns = @pyReprs E ns) with
  | _ => simp only [pyRepr, pyReprs, *] <;> rfl

theorem render_order (E : PyEnv) (o : List Field → List Field) (n : Node) :
    @render (E.withOrder o) n = @render E n := by
  induction n using Node.rec (motive_2 := fun ns =>
    @renderList (E.withOrder o) ns = @renderList E ns) with
  | _ => simp only [render, renderList, R.select, pyRepr_order, *] <;> rfl

theorem transform_order (E : PyEnv) (o : List Field → List Field) (n : Node) :
    @transform (E.withOrder o) n = @transform E n := by
  simp only [transform, render_order]

theorem formatFields_order (E : PyEnv) (o : List Field → List Field) (a : Node) (fs acc : List Field) :
    @formatFields (E.withOrder o) a fs acc = @formatFields E a fs acc := by
  induction fs generalizing acc with
  | nil => rfl
  | cons f fs ih =>
    simp only [formatFields, transform_order]
    congr 1
    funext x
    exact ih _

/-- The fields one side of a join adds. -/
def sideFields [E : PyEnv] (n : Node) (acc : List Field) : Except PyErr (List Field) :=
  match n with
  | .alias e a _ => do
    let fs ← knownFields e
    prefixFields a fs acc
  | n => do
    let fs ← knownFields n
    return unionFields acc fs

theorem sideFields_other [E : PyEnv] (n : Node) (acc : List Field) (h : ∀ e a w, n = .alias e a w → False) :
    sideFields n acc = (do
      let fs ← knownFields n
      return unionFields acc fs) := by
  cases n <;> first | rfl | exact absurd rfl (fun hh => h _ _ _ hh)

theorem knownFields_join [E : PyEnv] (t : Str) (l r on us : Node) :
    knownFields (.join t l r on us) = (do
      let left ← sideFields l []
      sideFields r left) := by
  by_cases h : ∃ e a w, l = .alias e a w
  · obtain ⟨e, a, w, rfl⟩ := h
    rw [knownFields]
    simp only [sideFields, bind_assoc]
    cases r <;> rfl
  · rw [knownFields]
    · rw [sideFields_other l]
      · simp only [bind_assoc, pure_bind]
        cases r <;> rfl
      · intro e a w h'; exact h ⟨e, a, w, h'⟩
    · intro e a w h'; exact h ⟨e, a, w, h'⟩

/-- `knownFields` for a node and for the nodes the function looks into. -/
theorem knownFields_order' (E : PyEnv) (o : List Field → List Field) (n : Node) :
    @knownFields (E.withOrder o) n = @knownFields E n ∧
      (∀ e a w, n = .alias e a w → @knownFields (E.withOrder o) e = @knownFields E e) ∧
      (∀ a as, n = .paren (a :: as) → @knownFields (E.withOrder o) a = @knownFields E a) := by
  induction n using Node.rec (motive_2 := fun ns =>
      @knownFieldsHead (E.withOrder o) ns = @knownFieldsHead E ns ∧
      ∀ a as, ns = a :: as → @knownFields (E.withOrder o) a = @knownFields E a) with
  | select es all d on f w g h ob l off semi h1 h2 hf =>
    refine ⟨?_, by simp, by simp⟩
    simp only [knownFields]
    congr 1
    funext fields
    cases f <;> try rfl
    rename_i args
    cases args with
    | nil => rfl
    | cons a as =>
      simp only
      rw [hf.2.2 a as rfl]
  | paren args ih =>
    refine ⟨by simp only [knownFields, ih.1], by simp, fun a as h => ?_⟩
    simp only [Node.paren.injEq] at h
    exact ih.2 a as h
  | alias e a w he ha =>
    refine ⟨?_, fun e' a' w' h => ?_, by simp⟩
    · simp only [knownFields, he.1, formatFields_order]
    · simp only [Node.alias.injEq] at h
      rw [← h.1]; exact he.1
  | join t l r on us hl hr _ _ =>
    refine ⟨?_, by simp, by simp⟩
    rw [@knownFields_join (E.withOrder o), @knownFields_join E]
    have side : ∀ n acc, @knownFields (E.withOrder o) n = @knownFields E n →
        (∀ e a w, n = .alias e a w → @knownFields (E.withOrder o) e = @knownFields E e) →
        @sideFields (E.withOrder o) n acc = @sideFields E n acc := by
      intro n acc h1 h2
      cases n <;> simp only [sideFields] <;> first | rw [h1] | rw [h2 _ _ _ rfl]
    rw [side l [] hl.1 hl.2.1]
    congr 1
    funext left
    exact side r left hr.1 hr.2.1
  | nil => exact ⟨rfl, by simp⟩
  | cons a as ha _ =>
    refine ⟨by simp only [knownFieldsHead, ha.1], fun a' as' h => ?_⟩
    simp only [List.cons.injEq] at h
    rw [← h.1]; exact ha.1
  | _ => exact ⟨by simp only [knownFields], by simp, by simp⟩

theorem knownFields_order (E : PyEnv) (o : List Field → List Field) (n : Node) :
    @knownFields (E.withOrder o) n = @knownFields E n := (knownFields_order' E o n).1

/-- Orders that only permute agree on unambiguous sets. -/
theorem resolveType_order (E : PyEnv) (o : List Field → List Field) (n : Node) (S : List Field)
    (h1 : ∀ f, f ∈ E.setOrder S ↔ f ∈ S) (h2 : ∀ f, f ∈ o S ↔ f ∈ S) (hS : Unambiguous S) :
    @resolveType (E.withOrder o) n S = @resolveType E n S := by
  have key : ∀ x : Str, (match (o S).filter (fun f => decide (f.name = x)) with
      | f :: _ => Except.ok f.type
      | [] => returnType n) = (match (E.setOrder S).filter (fun f => decide (f.name = x)) with
      | f :: _ => (Except.ok f.type : Except PyErr (Option PType))
      | [] => returnType n) := by
    intro x
    have hmem : ∀ f, f ∈ (o S).filter (fun f => decide (f.name = x)) ↔
        f ∈ (E.setOrder S).filter (fun f => decide (f.name = x)) := by
      intro f
      simp only [List.mem_filter, h1, h2]
    generalize ha : (o S).filter (fun f => decide (f.name = x)) = as at hmem
    generalize hb : (E.setOrder S).filter (fun f => decide (f.name = x)) = bs at hmem
    cases as with
    | nil =>
      cases bs with
      | nil => rfl
      | cons b bs => exact absurd ((hmem b).2 (by simp)) (by simp)
    | cons a as =>
      cases bs with
      | nil => exact absurd ((hmem a).1 (by simp)) (by simp)
      | cons b bs =>
        have m1 : a ∈ (o S).filter (fun f => decide (f.name = x)) := by rw [ha]; simp
        have m2 : b ∈ (E.setOrder S).filter (fun f => decide (f.name = x)) := by rw [hb]; simp
        simp only [List.mem_filter, h1, h2, decide_eq_true_eq] at m1 m2
        simp only
        rw [hS a m1.1 b m2.1 (m1.2.trans m2.2.symm)]
  have hk : ∀ (n' : Node) (r : Except PyErr (Option PType)), (∀ x : Str,
      (match (o S).filter (fun f => decide (f.name = x)) with
      | f :: _ => Except.ok f.type
      | [] => r) = (match (E.setOrder S).filter (fun f => decide (f.name = x)) with
      | f :: _ => (Except.ok f.type : Except PyErr (Option PType))
      | [] => r)) →
      (if S.isEmpty then r else do
        let name ← @transform (E.withOrder o) n'
        match ((E.withOrder o).setOrder S).filter (fun f => decide (f.name = name)) with
        | f :: _ => return f.type
        | [] => r) = (if S.isEmpty then r else do
        let name ← @transform E n'
        match (E.setOrder S).filter (fun f => decide (f.name = name)) with
        | f :: _ => return f.type
        | [] => r) := by
    intro n' r hr
    rw [transform_order]
    split
    · rfl
    · congr 1
      funext name
      exact hr name
  cases n <;> first
    | rfl
    | exact hk _ _ key

/-- The same answers on a given set. -/
structure SameV (known : List Field) (x y : V) : Prop where
  v : x.v known = y.v known
  between : x.between known = y.between known
  vIn : ∀ s, x.vIn known s = y.vIn known s
  truthy : x.truthy = y.truthy

/-- Both orders are permutations. -/
structure Orders (E : PyEnv) (o : List Field → List Field) : Prop where
  h1 : ∀ S f, f ∈ E.setOrder S ↔ f ∈ S
  h2 : ∀ S f, f ∈ o S ↔ f ∈ S

theorem mustBeBoolean_order {E : PyEnv} {o : List Field → List Field} (ho : Orders E o) (msg : Str)
    (n : Node) {S : List Field} (hS : Unambiguous S) :
    @mustBeBoolean (E.withOrder o) msg n S = @mustBeBoolean E msg n S := by
  simp only [mustBeBoolean, resolveType_order E o n S (ho.h1 S) (ho.h2 S) hS]

theorem validateBool_order {E : PyEnv} {o : List Field → List Field} (ho : Orders E o) (type : Str)
    (l r : Node) {S : List Field} (hS : Unambiguous S) {vl vl' vr vr' : V} (hl : SameV S vl vl')
    (hr : SameV S vr vr') (b : Bool) :
    @validateBool (E.withOrder o) type l r vl vr b S = @validateBool E type l r vl' vr' b S := by
  simp only [validateBool, mustBeBoolean_order ho _ _ hS, hl.v, hr.v]

theorem SameV.refl' (known : List Field) (x : V) : SameV known x x := ⟨rfl, rfl, fun _ => rfl, rfl⟩

theorem SameV.ofV {known : List Field} {f g : List Field → VRes} (h : f known = g known) :
    SameV known (V.of f) (V.of g) := ⟨h, rfl, fun _ => rfl, rfl⟩

/-- The claim of the induction for a node. -/
def SameAt (E : PyEnv) (o : List Field → List Field) (n : Node) : Prop :=
  ∀ known, (∀ S ∈ @scopes E n known, Unambiguous S) →
    SameV known (@vtable (E.withOrder o) n) (@vtable E n)

theorem vtable_order (E : PyEnv) (o : List Field → List Field) (ho : Orders E o) (n : Node) :
    SameAt E o n ∧ (∀ e a w, n = .alias e a w → SameAt E o a) := by
  induction n using Node.rec (motive_2 := fun ns => ∀ known,
      (∀ S ∈ @scopesList E ns known, Unambiguous S) →
      V.concat known (@vtableList (E.withOrder o) ns) = V.concat known (@vtableList E ns) ∧
      (∀ s, V.concatIn known s (@vtableList (E.withOrder o) ns) =
        V.concatIn known s (@vtableList E ns)) ∧
      V.concat known (@vtableAliases (E.withOrder o) ns) =
        V.concat known (@vtableAliases E ns)) with
  | select es all d on f w g h ob l off semi hes hon hf hw hg hh hob hl hoff =>
    refine ⟨fun known hS => ?_, by simp⟩
    simp only [vtable_select]
    apply SameV.ofV
    simp only [knownFields_order]
    cases hk : optFields (@knownFields E f) with
    | error e => rfl
    | ok fs =>
      have e1 : innerFields known fs = unionFields known (@fromFields E f) := by
        unfold fromFields
        generalize @knownFields E f = r at hk
        match r, hk with
        | .ok _, rfl => rfl
        | .error .attribute, rfl => rfl
      simp only [scopes, List.mem_cons, List.mem_append] at hS
      rw [← e1] at hS
      generalize hin : innerFields known fs = inner at hS
      have a1 := (hes inner fun S h => hS S (by simp [h])).1
      have a2 := (hf.1 [] fun S h => hS S (by simp [h])).v
      have a3 := (hw.1 inner fun S h => hS S (by simp [h])).v
      have a4 := (hh.1 inner fun S h => hS S (by simp [h])).v
      have a5 := (hob.1 inner fun S h => hS S (by simp [h])).vIn (some es)
      have a6 := (hl.1 inner fun S h => hS S (by simp [h])).v
      have a7 := (hoff.1 inner fun S h => hS S (by simp [h])).v
      simp only [bind, Except.bind, hin]
      show @clausesV (E.withOrder o) es f w g h ob l off inner =
        @clausesV E es f w g h ob l off inner
      unfold clausesV
      rw [a1, a2, a3, a4, a5, a6, a7]
  | where_ v hv =>
    refine ⟨fun known hS => ?_, by simp⟩
    simp only [scopes, List.mem_cons] at hS
    simp only [vtable]
    apply SameV.ofV
    simp only [(hv.1 known fun S h => hS S (.inr h)).v, mustBeBoolean_order ho _ _ (hS known (.inl rfl))]
  | having v hv =>
    refine ⟨fun known hS => ?_, by simp⟩
    simp only [scopes, List.mem_cons] at hS
    simp only [vtable]
    apply SameV.ofV
    simp only [(hv.1 known fun S h => hS S (.inr h)).v, mustBeBoolean_order ho _ _ (hS known (.inl rfl))]
  | orderBy as has =>
    refine ⟨fun known hS => ?_, by simp⟩
    simp only [scopes, List.mem_cons] at hS
    simp only [vtable]
    exact ⟨rfl, rfl, (has known fun S h => hS S (.inr h)).2.1, rfl⟩
  | orderItem v x y hv =>
    refine ⟨fun known hS => ?_, by simp⟩
    simp only [scopes, List.mem_cons] at hS
    simp only [vtable]
    refine ⟨rfl, rfl, fun s => ?_, rfl⟩
    simp only [validateOrderItem, (hv.1 known fun S h => hS S (.inr h)).v]
  | func f as has =>
    refine ⟨fun known hS => ?_, by simp⟩
    simp only [scopes, List.mem_cons] at hS
    simp only [vtable]
    exact SameV.ofV (has known fun S h => hS S (.inr h)).1
  | cast c t hc ht =>
    refine ⟨fun known hS => ?_, by simp⟩
    simp only [scopes, List.mem_cons, List.mem_append] at hS
    simp only [vtable]
    apply SameV.ofV
    simp only [(hc.1 known fun S h => hS S (by simp [h])).v]
  | count as d has =>
    refine ⟨fun known hS => ?_, by simp⟩
    simp only [scopes, List.mem_cons] at hS
    simp only [vtable]
    exact SameV.ofV (has known fun S h => hS S (.inr h)).1
  | arrayAgg c d i r o' l hc =>
    refine ⟨fun known hS => ?_, by simp⟩
    simp only [scopes, List.mem_cons, List.mem_append] at hS
    simp only [vtable]
    exact SameV.ofV (hc.1 known fun S h => hS S (by simp [h])).v
  | filtered c d hc hd =>
    refine ⟨fun known hS => ?_, by simp⟩
    simp only [scopes, List.mem_cons, List.mem_append] at hS
    simp only [vtable]
    apply SameV.ofV
    simp only [(hc.1 known fun S h => hS S (by simp [h])).v,
      (hd.1 known fun S h => hS S (by simp [h])).v]
  | analytics f p o' w hf hp ho' hw =>
    refine ⟨fun known hS => ?_, by simp⟩
    simp only [scopes, List.mem_cons, List.mem_append] at hS
    simp only [vtable]
    apply SameV.ofV
    simp only [(hf.1 known fun S h => hS S (by simp [h])).v,
      (hp known fun S h => hS S (by simp [h])).1,
      (ho'.1 known fun S h => hS S (by simp [h])).vIn]
  | column v =>
    refine ⟨fun known hS => ?_, by simp⟩
    exact SameV.refl' _ _
  | chained l r =>
    refine ⟨fun known hS => ?_, by simp⟩
    simp only [vtable]
    apply SameV.ofV
    simp only [validateChained, transform_order, render_order]
  | paren as has =>
    refine ⟨fun known hS => ?_, by simp⟩
    simp only [scopes, List.mem_cons] at hS
    simp only [vtable]
    exact SameV.ofV (has known fun S h => hS S (.inr h)).1
  | alias e a w he ha =>
    refine ⟨fun known hS => ?_, fun e' a' w' h => ?_⟩
    · simp only [scopes, List.mem_cons, List.mem_append] at hS
      simp only [vtable]
      exact SameV.ofV (he.1 known fun S h => hS S (by simp [h])).v
    · simp only [Node.alias.injEq] at h
      rw [← h.2.1]; exact ha.1
  | cond l p r hl hr =>
    refine ⟨fun known hS => ?_, by simp⟩
    simp only [scopes, List.mem_cons, List.mem_append] at hS
    simp only [vtable]
    apply SameV.ofV
    simp only [(hl.1 known fun S h => hS S (by simp [h])).v,
      (hr.1 known fun S h => hS S (by simp [h])).v,
      (hr.1 known fun S h => hS S (by simp [h])).between]
    rfl
  | boolc t l r hl hr =>
    refine ⟨fun known hS => ?_, by simp⟩
    simp only [scopes, List.mem_cons, List.mem_append] at hS
    simp only [vtable]
    have b := fun b => validateBool_order ho (E.upper t) l r (hS known (.inl (.inl rfl)))
      (hl.1 known fun S h => hS S (by simp [h])) (hr.1 known fun S h => hS S (by simp [h])) b
    exact ⟨b false, b true, fun _ => rfl, rfl⟩
  | replace e as he has =>
    refine ⟨fun known hS => ?_, by simp⟩
    simp only [scopes, List.mem_cons, List.mem_append] at hS
    simp only [vtable]
    exact SameV.ofV (has known fun S h => hS S (by simp [h])).2.2
  | nil => exact ⟨rfl, fun _ => rfl, rfl⟩
  | cons a as ha has =>
    rename_i known hS
    simp only [scopesList, List.mem_append] at hS
    have h1 := ha.1 known fun S h => hS S (.inl h)
    have h2 := has known fun S h => hS S (.inr h)
    refine ⟨?_, fun s => ?_, ?_⟩
    · simp only [vtableList, V.concat, h1.v, h2.1]
    · simp only [vtableList, V.concatIn, h1.vIn, h2.2.1]
    · by_cases h : ∃ e x w, a = .alias e x w
      · obtain ⟨e, x, w, rfl⟩ := h
        have h3 := (ha.2 e x w rfl) known fun S h => hS S (by simp [scopes, h])
        simp only [vtableAliases, V.concat, h3.v, h2.2.2]
      · cases a <;> first
          | exact absurd ⟨_, _, _, rfl⟩ h
          | (simp only [vtableAliases, V.concat, h2.2.2])
  | _ => exact ⟨fun known _ => SameV.refl' _ _, by simp⟩

end SqlV
