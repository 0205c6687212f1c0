import Verif.Lemmas.Report
import Verif.Props.Columns
import Verif.Props.Clauses

/-!
# What exactly is answered where a property fails: GROUP BY (C35), sides of joins (C33)
-/

set_option linter.unusedSectionVars false

namespace SqlV

open Core

section

variable [E : PyEnv] [L : LawfulPyEnv E]

/-! ### C35 -/

theorem first_fold (n : Node) : first (fold n) = (first n).map fold := by
  cases hu : unparen n with
  | ok m =>
    have h := unparen_exact n
    rw [hu] at h
    rw [unparen_first n m hu]
    split at h
    · rename_i m' hm'
      rw [hm', Option.map_some, (Except.ok.inj h)]
    · cases h
  | error e =>
    have h := unparen_exact n
    rw [hu] at h
    rw [(unparen_none n).1 ⟨e, hu⟩]
    split at h
    · cases h
    · rename_i h'
      rw [h']
      rfl

theorem groupNotes_fold (k : List Field) (es : List Node) (a : Node) :
    groupNotes k (foldList es) (fold a) = groupNotes k es a := by
  have hp : plainAliases (foldList es) = plainAliases es := by
    rw [plainAliases_eq]
    induction es with
    | nil => rfl
    | cons e es ih =>
      unfold rawAliases plainAliases
      split <;> simp_all [plainAliases]
  have hk : ∀ v, keyNotes k (foldList es) v = keyNotes k es v := fun v => by rw [keyNotes, keyNotes, hp]
  unfold groupNotes
  rw [first_fold]
  cases first a with
  | none => rfl
  | some m =>
    cases m <;> simp only [Option.map_some, fold, hk, length_fold]

/-- C35: a query that is valid without GROUP BY is given exactly the messages about the elements of GROUP BY, whatever
these are; `groupNotes` says that a name is accepted if it is a known column, an alias without AS, or the name of exactly one
column with a qualifier. -/
theorem C35_exact (es : List Node) (all d : Bool) (on : List Node) (f w h ob l off : Node) (semi r s : Bool)
    (args : List Node) (hv : validate (.select es all d on f w .none h ob l off semi) = .ok []) :
    validate (.select es all d on f w (.groupBy args r s) h ob l off semi) =
      gather (args.map (groupNotes (fromFields f) es)) := by
  rw [select_valid_iff] at hv
  obtain ⟨ff, h1, h2⟩ := hv
  have hm : Match (known (.select es all d on f w .none h ob l off semi)) (fromFields f) := by
    constructor
    · intro x
      rw [known, mem_unionFields]
      simp [fromOf]
    · exact nodup_union List.nodup_nil
  have hg : validateGroupBy (known (.select es all d on f w .none h ob l off semi)) es args =
      gather (args.map (groupNotes (fromFields f) es)) := by
    rw [group_says hm, foldList_map]
    congr 1
    exact List.map_congr_left fun a _ => groupNotes_fold _ _ a
  simp only [validate, validateWith, vtable_select, V.of]
  rw [h1, ← hg]
  show clausesV _ _ _ _ _ _ _ _ (innerFields [] ff) = _
  rw [innerFields_known (n := .select es all d on f w .none h ob l off semi) h1]
  generalize known (.select es all d on f w .none h ob l off semi) = k at h2 ⊢
  simp only [clausesV, bind_ok_iff, pure_ok_iff] at h2
  obtain ⟨a, ha, b, hb, c, hc, d', hd, e, he, f', hf, g', hg', h', hh, hn⟩ := h2
  simp only [List.append_eq_nil_iff] at hn
  obtain ⟨⟨⟨⟨⟨⟨⟨rfl, rfl⟩, rfl⟩, rfl⟩, rfl⟩, rfl⟩, rfl⟩, rfl⟩ := hn
  simp only [clausesV, ha, hb, hc, he, hf, hg', hh]
  simp only [optV, Node.truthy, bind, Except.bind, if_true]
  cases validateGroupBy k es args <;> simp [pure, Except.pure]

/-- … so one name in GROUP BY is accepted exactly if it is a known column, the columns are not all known, it is an alias
without AS, or exactly one known column has this name after its qualifier. -/
theorem C35_iff (es : List Node) (all d : Bool) (on : List Node) (f w h ob l off : Node) (semi r s : Bool) (j : Nat)
    (v : Str) (hv : validate (.select es all d on f w .none h ob l off semi) = .ok []) :
    validate (.select es all d on f w (.groupBy [nest j (.column v)] r s) h ob l off semi) = .ok [] ↔
      (∃ e b, .alias e (.raw v) b ∈ es) ∨ (∃ x ∈ fromFields f, x.name = v ∨ x.name = str!"*") ∨
        ∃ x ∈ fromFields f, bare x.name = v ∧ ∀ y ∈ fromFields f, bare y.name = v → y = x := by
  rw [C35_exact _ _ _ _ _ _ _ _ _ _ _ _ _ _ hv]
  have h1 : gather [groupNotes (fromFields f) es (nest j (.column v))] = keyNotes (fromFields f) es v := by
    have : groupNotes (fromFields f) es (nest j (.column v)) = keyNotes (fromFields f) es v := by
      rw [groupNotes, first_nest j _ rfl]
    rw [this]
    cases keyNotes (fromFields f) es v <;> simp [gather]
  have h2 : v ∈ plainAliases es ↔ ∃ e b, .alias e (.raw v) b ∈ es := by
    simp only [plainAliases, List.mem_filterMap]
    constructor
    · rintro ⟨n, hn, hm⟩
      split at hm
      · cases hm
        exact ⟨_, _, hn⟩
      · cases hm
    · rintro ⟨e, b, hm⟩
      exact ⟨_, hm, rfl⟩
  have h3 : found (fromFields f) v = true ↔ (∃ x ∈ fromFields f, x.name = v ∨ x.name = str!"*") ∨
      ∃ x ∈ fromFields f, bare x.name = v ∧ ∀ y ∈ fromFields f, bare y.name = v → y = x := by
    simp only [found, has, Bool.or_eq_true, List.any_eq_true, List.all_eq_true, Bool.and_eq_true, decide_eq_true_eq]
    refine or_congr ⟨?_, ?_⟩ (exists_congr fun x => and_congr_right fun _ => and_congr_right fun _ =>
      forall₂_congr fun y _ => ?_)
    · rintro (⟨x, hx, h⟩ | ⟨x, hx, h⟩)
      · exact ⟨x, hx, .inr h⟩
      · exact ⟨x, hx, .inl h⟩
    · rintro ⟨x, hx, h | h⟩
      · exact .inr ⟨x, hx, h⟩
      · exact .inl ⟨x, hx, h⟩
    · rw [← imp_iff_not_or]
  rw [List.map_cons, List.map_nil, h1, ← h2, ← h3]
  unfold keyNotes
  by_cases hf : found (fromFields f) v = true
  · simp [hf]
  by_cases ha : v ∈ plainAliases es
  · simp [ha]
  simp only [hf, ha, decide_false, Bool.or_self, Bool.false_eq_true, if_false, or_self, iff_false]
  split <;> simp

/-! ### C33 -/

/-- A query with the given select list and FROM clause and otherwise the parts of `n`. -/
def likewise (es : List Node) (f : Node) : Node → Node
  | .select _ all d on _ w g h o l off semi => .select es all d on f w g h o l off semi
  | n => .select es false false [] f n .none .none .none .none .none false

theorem knownFields_other (es : List Node) (f : Node) (all d : Bool) (on : List Node) (w g h o l off : Node) (semi : Bool) :
    knownFields (.select es all d on f w g h o l off semi) =
      knownFields (.select es false false [] f .none .none .none .none .none .none false) := by
  rw [knownFields, knownFields]

theorem knownFields_likewise (es : List Node) (f n m : Node) : knownFields (likewise es f n) = knownFields (likewise es f m) := by
  have h : ∀ n, knownFields (likewise es f n) =
      knownFields (.select es false false [] f .none .none .none .none .none .none false) := fun n => by
    cases n <;> exact knownFields_other es f _ _ _ _ _ _ _ _ _ _
  rw [h n, h m]

/-- C33 fails for the sides of a join as a whole: of a query that is a side of a join only the select list and the FROM clause
are looked at, for the columns that they offer.  Any other clauses may stand there, valid or not. -/
theorem C33_sides_of_joins (es : List Node) (all d : Bool) (dOn : List Node) (w g h ob lim off : Node) (semi : Bool)
    (t : Str) (on us : Node) (es₁ es₂ : List Node) (f₁ f₂ n₁ n₂ m₁ m₂ a₁ a₂ : Node) (b₁ b₂ : Bool) :
    validate (.select es all d dOn (.join t (.alias (.paren [likewise es₁ f₁ n₁]) a₁ b₁)
      (.alias (.paren [likewise es₂ f₂ n₂]) a₂ b₂) on us) w g h ob lim off semi) =
    validate (.select es all d dOn (.join t (.alias (.paren [likewise es₁ f₁ m₁]) a₁ b₁)
      (.alias (.paren [likewise es₂ f₂ m₂]) a₂ b₂) on us) w g h ob lim off semi) := by
  have hk : knownFields (.join t (.alias (.paren [likewise es₁ f₁ n₁]) a₁ b₁) (.alias (.paren [likewise es₂ f₂ n₂]) a₂ b₂) on us) =
      knownFields (.join t (.alias (.paren [likewise es₁ f₁ m₁]) a₁ b₁) (.alias (.paren [likewise es₂ f₂ m₂]) a₂ b₂) on us) := by
    simp only [knownFields, knownFieldsHead, knownFields_likewise es₁ f₁ n₁ m₁, knownFields_likewise es₂ f₂ n₂ m₂]
  simp only [validate, validateWith, vtable_select, V.of, hk, clausesV, optV, Node.truthy]
  simp only [vtable]

end

/-- Non-vacuity of C35: the first statement is valid without GROUP BY, the names of the others are met by the three cases
and by none. -/
example :
    (@SQLQuery.isValid asciiEnv (SQLQuery.new str!"SELECT p.a, 1 y FROM (SELECT a FROM t) p")).1 = .ok true ∧
    (@SQLQuery.isValid asciiEnv (SQLQuery.new str!"SELECT p.a, 1 y FROM (SELECT a FROM t) p GROUP BY y")).1 = .ok true ∧
    (@SQLQuery.isValid asciiEnv (SQLQuery.new str!"SELECT p.a, 1 y FROM (SELECT a FROM t) p GROUP BY (a)")).1 = .ok true ∧
    (@SQLQuery.isValid asciiEnv (SQLQuery.new str!"SELECT p.a, 1 y FROM (SELECT a FROM t) p GROUP BY b")).2.errors =
      [str!"column \"b\" does not exist"] := by
  decide +kernel

/-- Non-vacuity of C33: of the two sub-queries the first is valid, the second is not. -/
example :
    (@SQLQuery.isValid asciiEnv (SQLQuery.new str!"SELECT a FROM t WHERE a LIMIT 1")).1 = .ok true ∧
    (@SQLQuery.isValid asciiEnv (SQLQuery.new str!"SELECT a FROM t WHERE 3 LIMIT -1")).1 = .ok false ∧
    (@SQLQuery.isValid asciiEnv (SQLQuery.new
      str!"SELECT p.a FROM (SELECT a FROM t WHERE a LIMIT 1) p JOIN (SELECT k FROM u) q ON p.a = q.k")).1 = .ok true ∧
    (@SQLQuery.isValid asciiEnv (SQLQuery.new
      str!"SELECT p.a FROM (SELECT a FROM t WHERE 3 LIMIT -1) p JOIN (SELECT k FROM u) q ON p.a = q.k")).1 = .ok true := by
  decide +kernel

end SqlV
