import Verif.Query
import Verif.Spec.Fields

/-! The `validate` methods clause by clause. -/

set_option linter.unusedSectionVars false

namespace SqlV

variable [E : PyEnv]

/-- The fields known inside a query. -/
def innerFields (known : List Field) (ff : Option (List Field)) : List Field :=
  match ff with
  | some fs => unionFields known fs
  | none => known

/-- The clauses of a query, `k` being the fields known inside. -/
def clausesV (es : List Node) (f w g h ob l off : Node) (k : List Field) : VRes := do
  let a ← V.concat k (vtableList es)
  let b ← optV f ((vtable f).v [])
  let c ← optV w ((vtable w).v k)
  let d ← optV g (match g with
    | .groupBy args _ _ => validateGroupBy k es args
    | _ => .error .type)
  let e ← optV h ((vtable h).v k)
  let f ← optV ob ((vtable ob).vIn k (some es))
  let g ← optV l ((vtable l).v k)
  let h ← optV off ((vtable off).v k)
  return a ++ b ++ c ++ d ++ e ++ f ++ g ++ h

theorem vtable_select (es : List Node) (all d : Bool) (on : List Node) (f w g h ob l off : Node)
    (semi : Bool) :
    vtable (.select es all d on f w g h ob l off semi) = V.of fun known =>
      optFields (knownFields f) >>= fun ff =>
        clausesV es f w g h ob l off (innerFields known ff) := by
  rw [vtable]
  rfl

/-- The type check of one operand of AND or OR. -/
def operandV (type : Str) (isBetween : Bool) (n : Node) (k : List Field) : VRes :=
  if isBetween then .ok [] else
    mustBeBoolean (str!"The argument of " ++ type ++ str!" must be type boolean, not type ") n k

theorem validateBool_eq (type : Str) (l r : Node) (vl vr : V) (b : Bool) (k : List Field) :
    validateBool type l r vl vr b k = (do
      let x1 ← vl.v k
      let x2 ← operandV type b l k
      let x3 ← vr.v k
      let x4 ← operandV type b r k
      return x1 ++ x2 ++ x3 ++ x4) := by
  cases b <;> rfl

/-- The right-hand side of a condition. -/
def condRightV (p : Str) (vr : V) (k : List Field) : VRes :=
  if E.lower p = str!"between" then vr.between k else vr.v k

theorem vtable_cond (l : Node) (p : Str) (r : Node) :
    vtable (.cond l p r) = V.of fun known => do
      let a ← (vtable l).v known
      let b ← condRightV p (vtable r) known
      return a ++ b := by
  rw [vtable]
  congr 1
  funext known
  congr 1
  funext a
  unfold condRightV
  split <;> rfl

/-! ### Results -/

theorem bind_ok_iff {α β : Type} {x : Except PyErr α} {f : α → Except PyErr β} {b : β} :
    (x >>= f) = .ok b ↔ ∃ a, x = .ok a ∧ f a = .ok b := by
  cases x with
  | error e => simp [bind, Except.bind]
  | ok a => simp [bind, Except.bind]

theorem pure_ok_iff {α : Type} {a b : α} : (pure a : Except PyErr α) = .ok b ↔ a = b := by
  simp [pure, Except.pure]

/-- Whatever is returned satisfies `Q`. -/
def Post {α : Type} (r : Except PyErr α) (Q : α → Prop) : Prop := ∀ a, r = .ok a → Q a

theorem Post.error {α : Type} {e : PyErr} {Q : α → Prop} : Post (.error e) Q := fun _ h => by cases h

theorem Post.ok {α : Type} {a : α} {Q : α → Prop} (h : Q a) : Post (.ok a) Q :=
  fun _ h' => by cases h'; exact h

theorem Post.pure {α : Type} {a : α} {Q : α → Prop} (h : Q a) : Post (pure a) Q := Post.ok h

theorem Post.bind {α β : Type} {r : Except PyErr α} {f : α → Except PyErr β} {Q : α → Prop}
    {Q' : β → Prop} (h : Post r Q) (h' : ∀ a, Q a → Post (f a) Q') : Post (r >>= f) Q' := by
  intro b hb
  obtain ⟨a, ha, hb⟩ := bind_ok_iff.1 hb
  exact h' a (h a ha) b hb

theorem Post.bind' {α β : Type} {r : Except PyErr α} {f : α → Except PyErr β}
    {Q' : β → Prop} (h' : ∀ a, r = .ok a → Post (f a) Q') : Post (r >>= f) Q' := by
  intro b hb
  obtain ⟨a, ha, hb⟩ := bind_ok_iff.1 hb
  exact h' a ha b hb

/-! ### Fields -/

theorem mem_addField {S : List Field} {f g : Field} : g ∈ addField S f ↔ g ∈ S ∨ g = f := by
  unfold addField
  split
  · constructor
    · exact Or.inl
    · rintro (h | rfl) <;> assumption
  · simp

theorem mem_foldl_addField {T S : List Field} {g : Field} :
    g ∈ T.foldl addField S ↔ g ∈ S ∨ g ∈ T := by
  induction T generalizing S with
  | nil => simp
  | cons f T ih => simp [ih, mem_addField, or_assoc]

theorem mem_unionFields {S T : List Field} {g : Field} :
    g ∈ unionFields S T ↔ g ∈ S ∨ g ∈ T := mem_foldl_addField

theorem hasField_iff {S : List Field} {x : Str} : hasField S x = true ↔ ∃ f ∈ S, f.name = x := by
  simp [hasField]

theorem hasField_inner {known : List Field} {x : Str} (h : hasField known x = true)
    (ff : Option (List Field)) : hasField (innerFields known ff) x = true := by
  unfold innerFields
  rw [hasField_iff] at h ⊢
  obtain ⟨f, hf, hx⟩ := h
  cases ff with
  | none => exact ⟨f, hf, hx⟩
  | some fs => exact ⟨f, mem_unionFields.2 (.inl hf), hx⟩

/-! ### Clauses -/

theorem optV_post {c : Node} {r : VRes} {Q : List Str → Prop} (h0 : Q []) (h : c.truthy = true → Post r Q) :
    Post (optV c r) Q := by
  unfold optV
  split
  · exact h ‹_›
  · exact Post.ok h0

/-- Properties of errors that pass through the clauses of a query. -/
theorem clausesV_post {es : List Node} {f w g h ob l off : Node} {k : List Field}
    {Q : List Str → Prop} (h0 : Q []) (happ : ∀ a b, Q a → Q b → Q (a ++ b))
    (hes : Post (V.concat k (vtableList es)) Q)
    (hf : f.truthy = true → Post ((vtable f).v []) Q)
    (hw : Post ((vtable w).v k) Q)
    (hg : ∀ args r s, g = .groupBy args r s → Post (validateGroupBy k es args) Q)
    (hh : Post ((vtable h).v k) Q)
    (hob : Post ((vtable ob).vIn k (some es)) Q)
    (hl : Post ((vtable l).v k) Q)
    (hoff : Post ((vtable off).v k) Q) :
    Post (clausesV es f w g h ob l off k) Q := by
  unfold clausesV
  refine Post.bind hes fun a ha => ?_
  refine Post.bind (optV_post h0 hf) fun b hb => ?_
  refine Post.bind (optV_post h0 fun _ => hw) fun c hc => ?_
  refine Post.bind (Q := Q) (optV_post h0 fun _ => ?_) fun d hd => ?_
  · cases g <;> first | exact Post.error | exact hg _ _ _ rfl
  refine Post.bind (optV_post h0 fun _ => hh) fun e he => ?_
  refine Post.bind (optV_post h0 fun _ => hob) fun f hf => ?_
  refine Post.bind (optV_post h0 fun _ => hl) fun g hg => ?_
  refine Post.bind (optV_post h0 fun _ => hoff) fun h hh => ?_
  exact Post.pure (happ _ _ (happ _ _ (happ _ _ (happ _ _ (happ _ _ (happ _ _ (happ _ _ ha hb) hc)
    hd) he) hf) hg) hh)

/-- Success of a query without any error. -/
theorem clausesV_nil {es : List Node} {f w g h ob l off : Node} {k : List Field} :
    clausesV es f w g h ob l off k = .ok [] ↔
      V.concat k (vtableList es) = .ok [] ∧ optV f ((vtable f).v []) = .ok [] ∧
      optV w ((vtable w).v k) = .ok [] ∧
      optV g (match g with
        | .groupBy args _ _ => validateGroupBy k es args
        | _ => .error .type) = .ok [] ∧
      optV h ((vtable h).v k) = .ok [] ∧
      optV ob ((vtable ob).vIn k (some es)) = .ok [] ∧
      optV l ((vtable l).v k) = .ok [] ∧ optV off ((vtable off).v k) = .ok [] := by
  unfold clausesV
  simp only [bind_ok_iff, pure_ok_iff, List.append_eq_nil_iff]
  constructor
  · rintro ⟨a, ha, b, hb, c, hc, d, hd, e, he, f, hf, g, hg, h, hh, hx⟩
    obtain ⟨⟨⟨⟨⟨⟨⟨rfl, rfl⟩, rfl⟩, rfl⟩, rfl⟩, rfl⟩, rfl⟩, rfl⟩ := hx
    exact ⟨ha, hb, hc, hd, he, hf, hg, hh⟩
  · rintro ⟨ha, hb, hc, hd, he, hf, hg, hh⟩
    exact ⟨_, ha, _, hb, _, hc, _, hd, _, he, _, hf, _, hg, _, hh, by simp⟩

theorem concat_nil_iff {k : List Field} {vs : List V} :
    V.concat k vs = .ok [] ↔ ∀ x ∈ vs, x.v k = .ok [] := by
  induction vs with
  | nil => simp [V.concat]
  | cons x xs ih =>
    simp only [V.concat, bind_ok_iff, pure_ok_iff, List.append_eq_nil_iff, List.mem_cons,
      forall_eq_or_imp, ← ih]
    constructor
    · rintro ⟨a, ha, b, hb, rfl, rfl⟩; exact ⟨ha, hb⟩
    · rintro ⟨ha, hb⟩; exact ⟨_, ha, _, hb, rfl, rfl⟩

theorem mem_vtableList {es : List Node} {x : V} : x ∈ vtableList es ↔ ∃ e ∈ es, vtable e = x := by
  induction es with
  | nil => simp [vtableList]
  | cons e es ih => simp [vtableList, ih, eq_comm]

theorem concatV_nil_iff {f : Node → VRes} {as : List Node} :
    concatV f as = .ok [] ↔ ∀ a ∈ as, f a = .ok [] := by
  induction as with
  | nil => simp [concatV]
  | cons x xs ih =>
    simp only [concatV, bind_ok_iff, pure_ok_iff, List.append_eq_nil_iff, List.mem_cons,
      forall_eq_or_imp, ← ih]
    constructor
    · rintro ⟨a, ha, b, hb, rfl, rfl⟩; exact ⟨ha, hb⟩
    · rintro ⟨ha, hb⟩; exact ⟨_, ha, _, hb, rfl, rfl⟩

theorem concatV_post {f : Node → VRes} {as : List Node} {Q : List Str → Prop} (h0 : Q [])
    (happ : ∀ a b, Q a → Q b → Q (a ++ b)) (h : ∀ a ∈ as, Post (f a) Q) : Post (concatV f as) Q := by
  induction as with
  | nil => exact Post.ok h0
  | cons a as ih =>
    simp only [concatV]
    refine Post.bind (h a (by simp)) fun x hx => ?_
    refine Post.bind (ih fun a ha => h a (by simp [ha])) fun y hy => ?_
    exact Post.pure (happ _ _ hx hy)

end SqlV
