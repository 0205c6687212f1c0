import Verif.Query

/-! `SQLQuery` on a fresh object. -/

namespace SqlV

set_option linter.unusedSectionVars false

variable [E : PyEnv]

/-- Verdict and error list computed from the result of parsing. -/
def verdict (r : Except PyErr Node) : Except PyErr Bool × List Str :=
  match r with
  | .ok n =>
    match validate n with
    | .ok errs => (.ok errs.isEmpty, errs)
    | .error (.parsing m) => (.ok false, [m])
    | .error e => (.error e, [])
  | .error (.parsing m) => (.ok false, [m])
  | .error e => (.error e, [])

/-- A fresh object's verdict. -/
theorem isValid_new (s : Str) :
    (SQLQuery.new s).isValid.1 = (verdict (parseSql s)).1 ∧
    (SQLQuery.new s).isValid.2.errors = (verdict (parseSql s)).2 := by
  simp only [SQLQuery.isValid, SQLQuery.new, SQLQuery.doValidate, SQLQuery.query, verdict]
  rcases hp : parseSql s with e | n
  · cases e <;> exact ⟨rfl, rfl⟩
  · simp only [Bool.false_eq_true, if_false]
    rcases hv : validate n with e | errs
    · cases e <;> exact ⟨rfl, rfl⟩
    · exact ⟨rfl, rfl⟩

/-! ### Any object -/

/-- The cache of an object holds the tree of its text. -/
def Cached (s : Str) (q : SQLQuery) : Prop :=
  q.sql = s ∧ ∀ n, q.cached = some n → parseSql s = .ok n

theorem Cached.query {s : Str} {q : SQLQuery} (h : Cached s q) :
    q.query.1 = parseSql s ∧ Cached s q.query.2 ∧ q.query.2.validated = q.validated ∧
      q.query.2.errors = q.errors := by
  obtain ⟨rfl, h2⟩ := h
  simp only [SQLQuery.query]
  split
  · rename_i n hn
    exact ⟨(h2 n hn).symm, ⟨rfl, h2⟩, rfl, rfl⟩
  · rename_i hn
    split
    · rename_i n hp
      exact ⟨hp.symm, ⟨rfl, by rintro m ⟨⟩; exact hp⟩, rfl, rfl⟩
    · rename_i e hp
      exact ⟨hp.symm, ⟨rfl, h2⟩, rfl, rfl⟩

theorem Cached.new (s : Str) : Cached s (SQLQuery.new s) := ⟨rfl, by simp [SQLQuery.new]⟩

/-- What `format` returns. -/
def textOf (s : Str) : Except PyErr Str := parseSql s >>= fun n => transform n

theorem Cached.format {s : Str} {q : SQLQuery} (h : Cached s q) :
    q.format.1 = textOf s ∧ Cached s q.format.2 ∧ q.format.2.validated = q.validated ∧
      q.format.2.errors = q.errors := by
  obtain ⟨h1, h2, h3, h4⟩ := h.query
  simp only [SQLQuery.format, textOf]
  rcases hq : q.query with ⟨r, q'⟩
  rw [hq] at h1 h2 h3 h4
  simp only at h1 h2 h3 h4
  rw [← h1]
  cases r <;> exact ⟨rfl, h2, h3, h4⟩

/-- `_validate` as a function of the parsed text. -/
def validation (s : Str) (errors : List Str) : Except PyErr Unit × List Str :=
  match parseSql s >>= validate with
  | .ok errs => (.ok (), errs)
  | .error (.parsing msg) => (.ok (), errors ++ [msg])
  | .error e => (.error e, errors)

theorem Cached.doValidate {s : Str} {q : SQLQuery} (h : Cached s q) :
    q.doValidate.1 = (validation s q.errors).1 ∧ Cached s q.doValidate.2 ∧
      q.doValidate.2.validated = true ∧ q.doValidate.2.errors = (validation s q.errors).2 := by
  have h' : Cached s { q with validated := true } := h
  obtain ⟨h1, h2, h3, h4⟩ := h'.query
  simp only [SQLQuery.doValidate, validation]
  rcases hq : SQLQuery.query { q with validated := true } with ⟨r, q'⟩
  rw [hq] at h1 h2 h3 h4
  simp only at h1 h2 h3 h4
  rw [← h1]
  cases r with
  | error e =>
    cases e <;> refine ⟨rfl, h2, h3, ?_⟩ <;> simp [bind, Except.bind, h4]
  | ok n =>
    simp only [bind, Except.bind]
    cases hv : validate n with
    | ok errs => exact ⟨rfl, h2, h3, rfl⟩
    | error e => cases e <;> refine ⟨rfl, h2, h3, ?_⟩ <;> simp [h4]

theorem Cached.isValid {s : Str} {q : SQLQuery} (h : Cached s q) :
    Cached s q.isValid.2 ∧ q.isValid.2.validated = true ∧
    (q.validated = true → q.isValid.1 = .ok q.errors.isEmpty ∧ q.isValid.2.errors = q.errors) ∧
    (q.validated = false → q.isValid.1 = (validation s q.errors).1.map
        (fun _ => (validation s q.errors).2.isEmpty) ∧
      q.isValid.2.errors = (validation s q.errors).2) := by
  obtain ⟨h1, h2, h3, h4⟩ := h.doValidate
  simp only [SQLQuery.isValid]
  cases hv : q.validated with
  | true => exact ⟨by simpa using h, by simpa using hv, by simp, by simp⟩
  | false =>
    simp only [Bool.false_eq_true, if_false]
    rcases hq : q.doValidate with ⟨r, q'⟩
    rw [hq] at h1 h2 h3 h4
    simp only at h1 h2 h3 h4
    rw [← h1]
    cases r with
    | error e => exact ⟨h2, h3, by simp, fun _ => ⟨rfl, h4⟩⟩
    | ok u => exact ⟨h2, h3, by simp, fun _ => ⟨by simp [h4, Except.map], h4⟩⟩

end SqlV
