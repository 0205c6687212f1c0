import Verif.Lemmas.Run

/-! The final state of `handle_inputs`. -/

namespace SqlV

set_option linter.unusedSectionVars false

variable [E : PyEnv]

/-- The counts of a run. -/
def counts (env : FileEnv) (fl : Flags) (c : Path → Str) (srcs : List Path) : Info :=
  Info.sum ((reached env srcs).map (contrib env fl c))

/-- The last lines printed. -/
def summary (fl : Flags) (i : Info) : List Event :=
  (if fl.format || fl.check then [.formatSummary i.changedFiles i.changedSql fl.check] else []) ++
  (if fl.validate then [.validationSummary i.invalidFiles i.invalidSql] else [])

theorem run_facts (env : FileEnv) (fl : Flags) (srcs : List Path) (w : World) :
    (∀ p, (handleInputs env fl srcs w).2.content p =
      newContent env fl w.content (reached env srcs) p) ∧
    (handleInputs env fl srcs w).2.written =
      w.written ++ ((reached env srcs).filter (opensWrite env fl w.content)).map env.abspath ∧
    (handleInputs env fl srcs w).2.opened = w.opened ++ (reached env srcs).map env.abspath ∧
    (handleInputs env fl srcs w).2.out = w.out ++ saidAll env fl w.content [] (items env srcs) ++
      summary fl (counts env fl w.content srcs) ∧
    (handleInputs env fl srcs w).1 =
      if (fl.check && decide ((counts env fl w.content srcs).changedSql > 0)) ||
        (fl.validate && decide ((counts env fl w.content srcs).invalidSql > 0)) then 1 else 0 := by
  obtain ⟨h1, h2, h3, h4, h5⟩ := runItems_eq env fl w.content (items env srcs) [] w (by simp)
  have ha := handleAll_eq env fl srcs {} [] w
  rw [Info.zero_update] at ha
  rcases hr : runItems env fl (items env srcs) [] w with ⟨i, seen, w'⟩
  rw [hr] at h1 h2 h3 h4 h5 ha
  simp only at h1 h2 h3 h4 h5 ha
  have hi : i = counts env fl w.content srcs := h1
  rw [← hi]
  have key : ∀ a : Bool, ∀ w'' : World, (if a then ((1, w'') : Nat × World) else (0, w'')) =
      (if a then 1 else 0, w'') := by intro a w''; cases a <;> rfl
  simp only [handleInputs, ha, key]
  simp only [List.not_mem_nil, if_false] at h2
  refine ⟨?_, ?_, ?_, ?_, trivial⟩
  · intro p
    rw [reached, ← h2 p]
    split <;> split <;> rfl
  · rw [reached, ← h4]
    split <;> split <;> rfl
  · rw [reached, ← h5]
    split <;> split <;> rfl
  · rw [← h3, summary]
    split <;> split <;> simp [World.print]

theorem contrib_of_no_fault {env : FileEnv} (h : NoWriteFault env) (fl : Flags) (c : Path → Str)
    (f : Path) : contrib env fl c f =
      match found env fl c f with
      | .ok r => ⟨if r.changed > 0 then 1 else 0, r.changed, if r.invalid > 0 then 1 else 0, r.invalid⟩
      | .error _ => {} := by
  simp only [contrib]
  cases found env fl c f <;> simp [h (env.abspath f)]

theorem newText_of_no_fault {env : FileEnv} (h : NoWriteFault env) (fl : Flags) (c : Path → Str)
    (f : Path) : newText env fl c f =
      match found env fl c f with
      | .ok r => if r.changed > 0 ∧ fl.format then r.content else c (env.abspath f)
      | .error _ => c (env.abspath f) := by
  simp only [newText]
  cases found env fl c f <;> simp [h (env.abspath f)]

theorem opensWrite_of_no_fault {env : FileEnv} (h : NoWriteFault env) (fl : Flags) (c : Path → Str)
    (f : Path) : opensWrite env fl c f = rewrites env fl c f := by
  simp [opensWrite, h (env.abspath f)]

theorem Info.sum_changedSql (l : List Info) : (Info.sum l).changedSql = (l.map (·.changedSql)).sum := by
  induction l with
  | nil => rfl
  | cons a l ih => simp [Info.update, ih]

theorem Info.sum_invalidSql (l : List Info) : (Info.sum l).invalidSql = (l.map (·.invalidSql)).sum := by
  induction l with
  | nil => rfl
  | cons a l ih => simp [Info.update, ih]

theorem Info.sum_changedFiles (l : List Info) :
    (Info.sum l).changedFiles = (l.map (·.changedFiles)).sum := by
  induction l with
  | nil => rfl
  | cons a l ih => simp [Info.update, ih]

theorem Info.sum_invalidFiles (l : List Info) :
    (Info.sum l).invalidFiles = (l.map (·.invalidFiles)).sum := by
  induction l with
  | nil => rfl
  | cons a l ih => simp [Info.update, ih]

theorem sum_pos_iff (l : List Nat) : 0 < l.sum ↔ ∃ n ∈ l, 0 < n := by
  induction l with
  | nil => simp
  | cons a l ih =>
    simp only [List.sum_cons, List.mem_cons, exists_eq_or_imp]
    rw [← ih]
    omega

theorem reached_nodup (env : FileEnv) (srcs : List Path) :
    ((reached env srcs).map env.abspath).Nodup := firsts_nodup env _ []

end SqlV
