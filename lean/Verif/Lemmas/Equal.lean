import Verif.Equal
import Verif.Spec.Equal

/-! Facts about equality of trees. -/

namespace SqlV

theorem both_true {a b : Except PyErr Bool} : both a b = .ok true ↔ a = .ok true ∧ b = .ok true := by
  unfold both
  split <;> simp_all

theorem unlessNone_true {a b : List Node} {r : Except PyErr Bool} (h : r = .ok true ↔ blurList a = blurList b) :
    unlessNone a b r = .ok true ↔ blurList a = blurList b := by
  unfold unlessNone
  cases a <;> cases b <;> simp [blurList] at h ⊢
  exact h

theorem floatEq_iff {a b : Str} :
    floatEq a b = true ↔ (if a = str!"-0.0" then str!"0.0" else a) = (if b = str!"-0.0" then str!"0.0" else b) := by
  unfold floatEq
  by_cases h1 : a = str!"-0.0" <;> by_cases h2 : b = str!"-0.0"
  · simp [h1, h2]
  · simp only [h1, h2, if_true, if_false]
    simp [eq_comm, h2]
  · simp only [h1, h2, if_true, if_false]
    simp [h1]
  · simp only [h1, h2, if_false]
    simp only [Bool.or_eq_true, decide_eq_true_eq, Bool.and_eq_true, List.mem_cons, h1, h2, List.not_mem_nil, or_false]
    constructor
    · rintro (h | ⟨rfl, rfl⟩)
      · exact h
      · rfl
    · exact .inl

set_option maxHeartbeats 2000000 in
theorem pyEq_blur (a : Node) : ∀ b, pyEq a b = .ok true ↔ blur a = blur b := by
  induction a using Node.rec (motive_2 := fun as => ∀ bs, sameLength as bs (pyEqAll as bs) = .ok true ↔ blurList as = blurList bs) with
  | nil => rename_i bs; cases bs <;> simp [sameLength, pyEqAll, both, blurList]
  | cons a as h1 h2 =>
    rename_i bs
    cases bs with
    | nil => simp [sameLength, both, blurList]
    | cons b bs =>
      have := h2 bs
      simp only [sameLength, both_true, Except.ok.injEq, decide_eq_true_eq] at this
      simp only [sameLength, pyEqAll, both_true, blurList, List.length_cons, Except.ok.injEq, decide_eq_true_eq, Nat.add_right_cancel_iff,
        List.cons.injEq, h1, ← this]
      exact and_left_comm
  | select _ _ _ _ _ _ _ _ _ _ _ _ h0 h3 =>
    intro b
    cases b <;> first
      | exact iff_of_false (fun h => Bool.false_ne_true (Except.ok.inj h)) Node.noConfusion
      | (simp only [pyEq, blur, both_true, Except.ok.injEq, decide_eq_true_eq, unlessNone_true (h3 _), Node.select.injEq, *]
         constructor
         · rintro ⟨h1, h2, h3, h4, h0, h⟩; exact ⟨h0, h1, h2, h3, h4, h⟩
         · rintro ⟨h0, h1, h2, h3, h4, h⟩; exact ⟨h1, h2, h3, h4, h0, h⟩)
  | analytics _ _ _ _ _ h1 =>
    intro b
    cases b <;> first
      | exact iff_of_false (fun h => Bool.false_ne_true (Except.ok.inj h)) Node.noConfusion
      | simp only [pyEq, blur, both_true, unlessNone_true (h1 _), Node.analytics.injEq, *]
  | limit =>
    intro b
    cases b <;> first
      | exact iff_of_false (fun h => Bool.false_ne_true (Except.ok.inj h)) Node.noConfusion
      | (simp only [pyEq, blur, both_true, Except.ok.injEq, decide_eq_true_eq, Node.limit.injEq, *]
         exact And.comm)
  | _ =>
    intro b
    cases b <;> first
      | exact iff_of_false (fun h => Bool.false_ne_true (Except.ok.inj h)) Node.noConfusion
      | (simp only [pyEq, blur]; done)
      | simp [pyEq, blur, both_true, floatEq_iff, *]

theorem unlessNone_comm (a b : List Node) (r : Except PyErr Bool) : unlessNone a b r = unlessNone b a r := by
  cases a <;> cases b <;> rfl

theorem floatEq_comm (a b : Str) : floatEq a b = floatEq b a := by
  simp only [floatEq, eq_comm (a := a), Bool.and_comm (decide (a ∈ _))]

theorem sameLength_comm (a b : List Node) (r : Except PyErr Bool) : sameLength a b r = sameLength b a r := by
  simp only [sameLength, eq_comm (a := a.length)]

theorem eq_sides {α : Type} [DecidableEq α] (a b : α) : decide (a = b) = decide (b = a) := by
  simp only [eq_comm]

set_option maxHeartbeats 2000000 in
theorem pyEq_comm (a : Node) : ∀ b, pyEq a b = pyEq b a := by
  induction a using Node.rec (motive_2 := fun as => ∀ bs, pyEqAll as bs = pyEqAll bs as) with
  | nil => rename_i bs; cases bs <;> rfl
  | cons a as h1 h2 =>
    rename_i bs
    cases bs with
    | nil => rfl
    | cons b bs => simp only [pyEqAll, h1 b, h2 bs]
  | _ =>
    intro b
    cases b <;> first
      | rfl
      | simp only [pyEq, *, unlessNone_comm, sameLength_comm, floatEq_comm, eq_sides]

/-- The comparison raises a `TypeError` or nothing, and nothing where `p` holds. -/
structure Raises (p : Prop) (r : Except PyErr Bool) : Prop where
  /-- The error, if any. -/
  only : ∀ e, r = .error e → e = .type ∧ ¬p

theorem raises_ok {p : Prop} {v : Bool} : Raises p (.ok v) := ⟨nofun⟩

theorem raises_both {p : Prop} {a b : Except PyErr Bool} (h1 : Raises p a) (h2 : Raises p b) : Raises p (both a b) := by
  refine ⟨fun e h => ?_⟩
  unfold both at h
  split at h
  · exact h2.only e h
  · exact h1.only e h

theorem raises_length {p : Prop} {a b : List Node} {r : Except PyErr Bool} (h : Raises p r) : Raises p (sameLength a b r) :=
  raises_both raises_ok h

theorem raises_none {p : Prop} {a b : List Node} {r : Except PyErr Bool} (h : Raises p r) (hp : p → a = [] ∧ b = []) :
    Raises p (unlessNone a b r) := by
  refine ⟨fun e h' => ?_⟩
  unfold unlessNone at h'
  split at h'
  · cases h'
  · rename_i h1
    split at h'
    · refine ⟨(Except.error.inj h').symm, fun h2 => h1 ?_⟩
      obtain ⟨rfl, rfl⟩ := hp h2
      rfl
    · exact h.only e h'

theorem raises_mono {p q : Prop} {r : Except PyErr Bool} (h : Raises p r) (h2 : q → p) : Raises q r :=
  ⟨fun e he => ⟨(h.only e he).1, fun hq => (h.only e he).2 (h2 hq)⟩⟩

theorem raises_at {q : Prop} {a b : Node} (h : ∀ b, Raises (unlisted a = true ∧ unlisted b = true) (pyEq a b))
    (h2 : q → unlisted a = true ∧ unlisted b = true) : Raises q (pyEq a b) :=
  raises_mono (h b) h2

theorem raises_all {q : Prop} {a b : List Node}
    (h : ∀ b, Raises (unlistedList a = true ∧ unlistedList b = true) (pyEqAll a b))
    (h2 : q → unlistedList a = true ∧ unlistedList b = true) : Raises q (pyEqAll a b) :=
  raises_mono (h b) h2

set_option maxHeartbeats 2000000 in
theorem pyEq_raises (a : Node) : ∀ b, Raises (unlisted a = true ∧ unlisted b = true) (pyEq a b) := by
  induction a using Node.rec
    (motive_2 := fun as => ∀ bs, Raises (unlistedList as = true ∧ unlistedList bs = true) (pyEqAll as bs)) with
  | nil => rename_i bs; cases bs <;> exact raises_ok
  | cons a as h1 h2 =>
    rename_i bs
    cases bs with
    | nil => exact raises_ok
    | cons b bs =>
      rw [pyEqAll]
      refine raises_both (raises_mono (h1 b) ?_) (raises_mono (h2 bs) ?_) <;>
        · simp only [unlistedList, Bool.and_eq_true]
          rintro ⟨h1, h2⟩
          simp [h1, h2]
  | _ =>
    intro b
    cases b <;> first
      | exact raises_ok
      | (simp only [unlisted, Bool.and_eq_true, List.isEmpty_iff]
         rw [pyEq]
         repeat' first
           | exact raises_ok
           | apply raises_both
           | apply raises_length
           | apply raises_none
           | refine raises_at (by assumption) ?_
           | refine raises_all (by assumption) ?_
         all_goals (rintro ⟨h1, h2⟩; simp [h1, h2, unlistedList]))

end SqlV
