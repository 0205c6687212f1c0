import Verif.Spec.Calls
import Verif.Lemmas.Query

/-!
# Query objects (C36, C55)
-/

namespace SqlV

set_option linter.unusedSectionVars false

section
variable [E : PyEnv]

/-- Every call keeps the cache right. -/
theorem Cached.on {s : Str} {q : SQLQuery} (h : Cached s q) (c : Call) : Cached s (c.on q).2 := by
  cases c with
  | format => exact h.format.2.1
  | isValid => exact h.isValid.1

/-- C55: after any calls, `format` answers like on a fresh object. -/
theorem C55_format_after_any_calls (s : Str) (cs : List Call) :
    (Call.format.on (calls cs (SQLQuery.new s)).2).1 = fresh s .format := by
  have h : ∀ cs q, Cached s q → Cached s (calls cs q).2 := by
    intro cs
    induction cs with
    | nil => intro q h; exact h
    | cons c cs ih => intro q h; exact ih _ (h.on c)
  simp only [fresh, Call.on]
  rw [(h cs _ (.new s)).format.1, (Cached.new s).format.1]

/-- C55: the verdicts of a call sequence, exceptions included, are those of the same sequence without
its `format` calls. -/
theorem C55_verdicts_without_format (s : Str) (cs : List Call) :
    (calls cs (SQLQuery.new s)).1.filter Answer.isVerdict =
      (calls (cs.filter (· = .isValid)) (SQLQuery.new s)).1 := by
  have h : ∀ cs q q', Cached s q → Cached s q' → q.validated = q'.validated → q.errors = q'.errors →
      (calls cs q).1.filter Answer.isVerdict = (calls (cs.filter (· = .isValid)) q').1 := by
    intro cs
    induction cs with
    | nil => intro q q' _ _ _ _; rfl
    | cons c cs ih =>
      intro q q' hq hq' hv he
      cases c with
      | format =>
        obtain ⟨-, h2, h3, h4⟩ := hq.format
        rw [calls, List.filter_cons, if_neg (by simp [Call.on, Answer.isVerdict]), List.filter_cons,
          if_neg (by decide)]
        exact ih _ _ h2 hq' (h3.trans hv) (h4.trans he)
      | isValid =>
        obtain ⟨a1, a2, a3, a4⟩ := hq.isValid
        obtain ⟨b1, b2, b3, b4⟩ := hq'.isValid
        have key : q.isValid.1 = q'.isValid.1 ∧ q.isValid.2.errors = q'.isValid.2.errors := by
          cases hb : q.validated with
          | true =>
            obtain ⟨a5, a6⟩ := a3 hb
            obtain ⟨b5, b6⟩ := b3 (hv ▸ hb)
            rw [a5, a6, b5, b6, he]
            exact ⟨rfl, rfl⟩
          | false =>
            obtain ⟨a5, a6⟩ := a4 hb
            obtain ⟨b5, b6⟩ := b4 (hv ▸ hb)
            rw [a5, a6, b5, b6, he]
            exact ⟨rfl, rfl⟩
        rw [calls, List.filter_cons, if_pos (by simp [Call.on, Answer.isVerdict]), List.filter_cons,
          if_pos (by decide), calls]
        congr 1
        · simp [Call.on, key.1]
        · exact ih _ _ a1 b1 (a2.trans b2.symm) key.2
  exact h cs _ _ (.new s) (.new s) rfl rfl

/-- C36 when the verdict can be computed at all: after any calls, each call answers like on a fresh
object.  Missing for the full statement: texts on which `is_valid` raises, where it is false
(`C36_not_all`). -/
theorem C36_stable_partial (s : Str) (b : Bool) (hb : (SQLQuery.new s).isValid.1 = .ok b)
    (cs : List Call) (c : Call) : (c.on (calls cs (SQLQuery.new s)).2).1 = fresh s c := by
  cases c with
  | format => exact C55_format_after_any_calls s cs
  | isValid =>
    obtain ⟨-, -, -, h0⟩ := (Cached.new s).isValid
    obtain ⟨h0, -⟩ := h0 rfl
    rw [h0] at hb
    simp only [fresh, Call.on, h0]
    generalize hr : validation s (SQLQuery.new s).errors = r at hb
    obtain ⟨r, errs⟩ := r
    cases r with
    | error e => simp [Except.map] at hb
    | ok u =>
      have hinv : ∀ cs q, Cached s q → (q.validated = true → q.errors = errs) →
          (q.validated = false → q.errors = []) →
          Cached s (calls cs q).2 ∧ ((calls cs q).2.validated = true → (calls cs q).2.errors = errs) ∧
          ((calls cs q).2.validated = false → (calls cs q).2.errors = []) := by
        intro cs
        induction cs with
        | nil => intro q h h1 h2; exact ⟨h, h1, h2⟩
        | cons c cs ih =>
          intro q h h1 h2
          cases c with
          | format =>
            obtain ⟨-, g2, g3, g4⟩ := h.format
            exact ih _ g2 (fun hv => g4.trans (h1 (g3.symm.trans hv)))
              (fun hv => g4.trans (h2 (g3.symm.trans hv)))
          | isValid =>
            obtain ⟨a1, a2, a3, a4⟩ := h.isValid
            refine ih _ a1 (fun _ => ?_) (fun hv => ?_)
            · show q.isValid.2.errors = errs
              cases hb : q.validated with
              | true => rw [(a3 hb).2]; exact h1 hb
              | false =>
                have he := h2 hb
                rw [(a4 hb).2, he]
                have : (SQLQuery.new s).errors = [] := rfl
                rw [this] at hr
                rw [hr]
            · have : q.isValid.2.validated = false := hv
              rw [a2] at this
              exact absurd this (by simp)
      obtain ⟨g1, g2, g3⟩ := hinv cs (SQLQuery.new s) (.new s) (by simp [SQLQuery.new])
        (by simp [SQLQuery.new])
      obtain ⟨-, -, a3, a4⟩ := g1.isValid
      cases hv : (calls cs (SQLQuery.new s)).2.validated with
      | true => rw [(a3 hv).1, g2 hv]; rfl
      | false =>
        have he := g3 hv
        rw [(a4 hv).1, he]
        have : (SQLQuery.new s).errors = [] := rfl
        rw [this] at hr
        rw [hr]

/-- The state after any calls: untouched by `is_valid`, or with the errors of one validation. -/
theorem calls_state (s : Str) (cs : List Call) :
    Cached s (calls cs (SQLQuery.new s)).2 ∧
    (Call.isValid ∉ cs → (calls cs (SQLQuery.new s)).2.validated = false ∧ (calls cs (SQLQuery.new s)).2.errors = []) ∧
    (Call.isValid ∈ cs → (calls cs (SQLQuery.new s)).2.validated = true ∧
      (calls cs (SQLQuery.new s)).2.errors = (validation s []).2) := by
  have hinv : ∀ cs q, Cached s q → ∀ before : Bool, q.validated = before →
      q.errors = (if before then (validation s []).2 else []) →
      Cached s (calls cs q).2 ∧ (calls cs q).2.validated = (before || decide (Call.isValid ∈ cs)) ∧
      (calls cs q).2.errors = (if before || decide (Call.isValid ∈ cs) then (validation s []).2 else []) := by
    intro cs
    induction cs with
    | nil => intro q h b h1 h2; exact ⟨h, by simpa [calls] using h1, by simpa [calls] using h2⟩
    | cons c cs ih =>
      intro q h b h1 h2
      cases c with
      | format =>
        obtain ⟨-, g2, g3, g4⟩ := h.format
        have := ih _ g2 b (g3.trans h1) (g4.trans h2)
        simpa [calls, Call.on] using this
      | isValid =>
        obtain ⟨a1, a2, a3, a4⟩ := h.isValid
        have he : q.isValid.2.errors = (validation s []).2 := by
          cases b with
          | true => rw [(a3 h1).2, h2]; rfl
          | false =>
            have h2 : q.errors = [] := h2
            rw [(a4 h1).2, h2]
        have := ih _ a1 true a2 (he.trans rfl)
        simpa [calls, Call.on] using this
  obtain ⟨h1, h2, h3⟩ := hinv cs (SQLQuery.new s) (.new s) false rfl rfl
  refine ⟨h1, fun hc => ?_, fun hc => ?_⟩
  · simp only [hc, decide_false, Bool.or_self, Bool.false_eq_true, if_false] at h2 h3
    exact ⟨h2, h3⟩
  · simp only [hc, decide_true, Bool.or_true, if_true] at h2 h3
    exact ⟨h2, h3⟩

/-- C36 exactly: what `is_valid` answers after any calls.  It answers like on a fresh object unless it has been called
before and raises on a fresh object; then it says that the query is valid. -/
theorem C36_exact (s : Str) (cs : List Call) :
    (Call.isValid.on (calls cs (SQLQuery.new s)).2).1 =
      match (SQLQuery.new s).isValid.1 with
      | .ok b => .verdict (.ok b)
      | .error e => .verdict (if Call.isValid ∈ cs then .ok true else .error e) := by
  obtain ⟨h1, h2, h3⟩ := calls_state s cs
  obtain ⟨-, -, -, h0⟩ := (Cached.new s).isValid
  obtain ⟨h0, -⟩ := h0 rfl
  obtain ⟨-, -, a3, a4⟩ := h1.isValid
  have hnew : (SQLQuery.new s).errors = [] := rfl
  rw [hnew] at h0
  simp only [Call.on]
  by_cases hc : Call.isValid ∈ cs
  · rw [(a3 (h3 hc).1).1, (h3 hc).2, h0]
    cases hv : parseSql s >>= validate with
    | ok errs => simp [validation, hv, Except.map]
    | error e => cases e <;> simp [validation, hv, Except.map, hc]
  · rw [(a4 (h2 hc).1).1, (h2 hc).2, h0]
    cases hv : parseSql s >>= validate with
    | ok errs => simp [validation, hv, Except.map]
    | error e => cases e <;> simp [validation, hv, Except.map, hc]

/-- C36 holds for exactly the texts on which `is_valid` does not raise. -/
theorem C36_iff (s : Str) :
    (∀ (cs : List Call) (c : Call), (c.on (calls cs (SQLQuery.new s)).2).1 = fresh s c) ↔
      ∃ b, (SQLQuery.new s).isValid.1 = .ok b := by
  constructor
  · intro h
    have h1 := h [.isValid] .isValid
    rw [C36_exact] at h1
    cases hv : (SQLQuery.new s).isValid.1 with
    | ok b => exact ⟨b, rfl⟩
    | error e =>
      simp [hv, fresh, Call.on] at h1
  · rintro ⟨b, hb⟩ cs c
    exact C36_stable_partial s b hb cs c

end

/-! ### Concrete cases -/

/-- C36 is false in general: the verdict of `SELECT CAST(a AS int) FROM t` raises at first and is `True`
when asked again. -/
theorem C36_not_all :
    (@fresh asciiEnv str!"SELECT CAST(a AS int) FROM t" .isValid = .verdict (.error .attribute)) ∧
    ((@Call.on asciiEnv .isValid
      (@calls asciiEnv [.isValid] (SQLQuery.new str!"SELECT CAST(a AS int) FROM t")).2).1 =
      .verdict (.ok true)) := by
  decide +kernel

/-- The hypothesis of C36 is met by a valid and by an invalid query. -/
example : (@SQLQuery.isValid asciiEnv (SQLQuery.new str!"SELECT a FROM t WHERE b = 1")).1 = .ok true ∧
    (@SQLQuery.isValid asciiEnv (SQLQuery.new str!"SELECT a")).1 = .ok false := by
  decide +kernel

end SqlV
