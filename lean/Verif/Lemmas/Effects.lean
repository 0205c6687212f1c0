import Verif.Lemmas.Files
import Verif.Lemmas.Query
import Verif.Spec.PyFile

/-! What `compute_file_content` does to each token. -/

namespace SqlV

set_option linter.unusedSectionVars false

/-- `p in s` -/
theorem Str.contains_iff (s p : Str) : Str.contains s p = true ↔ ∃ x y, s = x ++ p ++ y := by
  induction s with
  | nil =>
    simp only [Str.contains, List.isEmpty_iff]
    constructor
    · rintro rfl; exact ⟨[], [], rfl⟩
    · rintro ⟨x, y, h⟩
      have := congrArg List.length h
      simp at this
      exact List.eq_nil_of_length_eq_zero (by omega)
  | cons c s ih =>
    simp only [Str.contains, Bool.or_eq_true, ih, List.isPrefixOf_iff_prefix]
    constructor
    · rintro (⟨y, h⟩ | ⟨x, y, rfl⟩)
      · exact ⟨[], y, by simp [h]⟩
      · exact ⟨c :: x, y, by simp⟩
    · rintro ⟨x, y, h⟩
      cases x with
      | nil => exact .inl ⟨y, by simpa using h.symm⟩
      | cons d x =>
        simp only [List.cons_append, List.cons.injEq] at h
        exact .inr ⟨x, y, h.2⟩

variable [E : PyEnv]

/-- What one token contributes. -/
structure Effect where
  tok : PyTok
  changed : Bool
  reports : List (Nat × List Str)

/-- The report on a query object. -/
def report (row : Nat) (q : SQLQuery) : Except PyErr (List (Nat × List Str)) :=
  match q.isValid with
  | (.error e, _) => .error e
  | (.ok true, _) => .ok []
  | (.ok false, q) => .ok [(row, q.errors)]

/-- The literal replaced, unless it is the same or must not be. -/
def replaced (t : PyTok) (new : Str) (keep : Bool) : Effect :=
  if new ≠ t.value ∧ !keep then ⟨{ t with value := new }, true, []⟩ else ⟨t, false, []⟩

/-- Replace, and report when asked to. -/
def analysed (t : PyTok) (keep : Bool) (check : Bool) : Except PyErr Effect :=
  match handleSqlString t.value with
  | .error e => .error e
  | .ok (new, q) =>
    match (if check then report t.start.1 q else .ok []) with
    | .error e => .error e
    | .ok rs => .ok { replaced t new keep with reports := rs }

/-- The effect on a token, given the tokens after it. -/
def effect (fmt val : Bool) (fail : Option PyErr) (t : PyTok) (rest : List PyTok) :
    Except PyErr Effect :=
  if isQuery t then
    match rest.find? stopsFollow with
    | some n =>
      let keep := Str.contains n.value noSqlFormat
      let check := val && !Str.contains n.value noSqlValidation
      if n.kind ≠ .comment ∨ (fmt && !keep) ∨ check then analysed t keep check
      else .ok ⟨t, false, []⟩
    | none =>
      match fail with
      | some e => .error e
      | none => if rest = [] then analysed t false true else .ok ⟨t, false, []⟩
  else .ok ⟨t, false, []⟩

/-- The effects on all tokens. -/
def effects (fmt val : Bool) (fail : Option PyErr) : List PyTok → Except PyErr (List Effect)
  | [] => match fail with
    | some e => .error e
    | none => .ok []
  | t :: ts =>
    match effect fmt val fail t ts with
    | .error e => .error e
    | .ok e => match effects fmt val fail ts with
      | .error e => .error e
      | .ok es => .ok (e :: es)

/-- Adding an effect to the variables of `compute_file_content`. -/
def Acc.plus (a : Acc) (e : Effect) : Acc :=
  ⟨a.tokens ++ [e.tok], a.changed + (if e.changed then 1 else 0), a.invalid + e.reports.length,
   a.locations ++ e.reports⟩

theorem check_eq (a : Acc) (row : Nat) (q : SQLQuery) :
    a.check row q = (report row q).map fun rs =>
      { a with invalid := a.invalid + rs.length, locations := a.locations ++ rs } := by
  simp only [Acc.check, report]
  rcases q.isValid with ⟨r, q'⟩
  rcases r with e | b
  · rfl
  · cases b <;> simp [Except.map]

theorem handleQuery_eq (fmt val : Bool) (t n : PyTok) (a : Acc) :
    handleQuery fmt val t n a =
      (if n.kind ≠ .comment ∨ (fmt && !Str.contains n.value noSqlFormat) ∨
          (val && !Str.contains n.value noSqlValidation) then
        analysed t (Str.contains n.value noSqlFormat)
          (val && !Str.contains n.value noSqlValidation)
      else .ok ⟨t, false, []⟩).map a.plus := by
  simp only [handleQuery]
  generalize hF : Str.contains n.value noSqlFormat = F
  generalize (val && !Str.contains n.value noSqlValidation) = V
  by_cases hc : n.kind ≠ .comment ∨ (fmt && !F) = true ∨ V = true
  · rw [if_pos hc, if_pos hc]
    simp only [analysed]
    rcases handleSqlString t.value with e | ⟨new, q⟩
    · rfl
    · simp only [bind, Except.bind]
      cases V with
      | true =>
        simp only [if_true]
        rw [check_eq]
        rcases report t.start.1 q with e | rs
        · rfl
        · simp only [Except.map, replaced]
          by_cases h : new ≠ t.value ∧ (!F) = true
          · simp [h, Acc.plus, Acc.add]
          · rw [if_neg h, if_neg h]; simp [Acc.plus, Acc.add]
      | false =>
        simp only [Bool.false_eq_true, if_false, Except.map, replaced, pure, Except.pure]
        by_cases h : new ≠ t.value ∧ (!F) = true
        · simp [h, Acc.plus, Acc.add]
        · rw [if_neg h, if_neg h]; simp [Acc.plus, Acc.add]
  · rw [if_neg hc, if_neg hc]
    simp [Except.map, Acc.plus, Acc.add, pure, Except.pure]

theorem handleLast_eq (t : PyTok) (a : Acc) :
    handleLast t a = (analysed t false true).map a.plus := by
  simp only [handleLast, analysed]
  rcases handleSqlString t.value with e | ⟨new, q⟩
  · rfl
  · simp only [bind, Except.bind, if_true]
    rw [check_eq]
    rcases report t.start.1 q with e | rs
    · rfl
    · simp only [Except.map, replaced]
      by_cases h : new = t.value
      · subst h
        simp [Acc.plus, Acc.add]
      · simp [h, Acc.plus, Acc.add]

theorem walkStep_eq (fmt val : Bool) (fail : Option PyErr) (t : PyTok) (rest : List PyTok) (a : Acc) :
    walkStep fmt val fail t rest a = (effect fmt val fail t rest).map a.plus := by
  simp only [walkStep, effect]
  cases isQuery t with
  | false => simp [Except.map, Acc.plus, Acc.add]
  | true =>
    simp only [if_true]
    cases rest.find? stopsFollow with
    | some n => exact handleQuery_eq fmt val t n a
    | none =>
      cases fail with
      | some e => rfl
      | none =>
        simp only
        by_cases h : rest = []
        · rw [if_pos h, if_pos h]; exact handleLast_eq t a
        · rw [if_neg h, if_neg h]; simp [Except.map, Acc.plus, Acc.add]

theorem walk_eq (fmt val : Bool) (fail : Option PyErr) (ts : List PyTok) (a : Acc) :
    walk fmt val fail ts a = (effects fmt val fail ts).map fun es => es.foldl Acc.plus a := by
  induction ts generalizing a with
  | nil => cases fail <;> rfl
  | cons t ts ih =>
    rw [walk_cons, walkStep_eq]
    simp only [effects]
    rcases effect fmt val fail t ts with e | e
    · rfl
    · simp only [Except.map, Except.bind]
      rw [ih]
      rcases effects fmt val fail ts with e' | es <;> rfl

theorem foldl_plus (es : List Effect) (a : Acc) :
    es.foldl Acc.plus a =
      ⟨a.tokens ++ es.map (·.tok), a.changed + es.countP (·.changed),
       a.invalid + (es.flatMap (·.reports)).length, a.locations ++ es.flatMap (·.reports)⟩ := by
  induction es generalizing a with
  | nil => simp
  | cons e es ih =>
    rw [List.foldl_cons, ih]
    simp only [Acc.plus, List.map_cons, List.countP_cons, List.flatMap_cons, List.length_append,
      List.append_assoc, List.cons_append, List.nil_append]
    congr 1 <;> omega

/-- The loops collect the effects of all tokens. -/
theorem mainLoop_ok {fmt val : Bool} {limit : Nat} {fail : Option PyErr} {ts : List PyTok} {a : Acc}
    (h : mainLoop fmt val limit fail {} ts = .ok a) :
    ∃ es, effects fmt val fail ts = .ok es ∧ a.tokens = es.map (·.tok) ∧
      a.changed = es.countP (·.changed) ∧ a.invalid = (es.flatMap (·.reports)).length ∧
      a.locations = es.flatMap (·.reports) := by
  rcases (mainLoop_walk fmt val limit fail {} ts).1 with h' | h'
  · rw [h', walk_eq] at h
    rcases he : effects fmt val fail ts with e | es
    · rw [he] at h; simp [Except.map] at h
    · rw [he] at h
      simp only [Except.map, Except.ok.injEq] at h
      rw [foldl_plus] at h
      subst h
      exact ⟨es, rfl, by simp⟩
  · rw [h'] at h; simp at h

/-- … and conversely, as far as the stack reaches. -/
theorem mainLoop_of_effects {fmt val : Bool} {limit : Nat} {fail : Option PyErr} {ts : List PyTok}
    {es : List Effect} (hl : ts.length ≤ limit) (h : effects fmt val fail ts = .ok es) :
    mainLoop fmt val limit fail {} ts = .ok
      ⟨es.map (·.tok), es.countP (·.changed), (es.flatMap (·.reports)).length,
        es.flatMap (·.reports)⟩ := by
  rw [(mainLoop_walk fmt val limit fail {} ts).2 hl, walk_eq, h]
  simp [Except.map, foldl_plus]

/-- The effect at each position. -/
theorem effects_at {fmt val : Bool} {fail : Option PyErr} {ts : List PyTok} {es : List Effect}
    (h : effects fmt val fail ts = .ok es) :
    es.length = ts.length ∧ ∀ pre t rest, ts = pre ++ t :: rest →
      ∃ e, es[pre.length]? = some e ∧ effect fmt val fail t rest = .ok e := by
  induction ts generalizing es with
  | nil =>
    cases fail with
    | some e => simp [effects] at h
    | none =>
      simp [effects] at h
      subst h
      exact ⟨rfl, fun pre t rest h => by simp at h⟩
  | cons t ts ih =>
    simp only [effects] at h
    rcases he : effect fmt val fail t ts with e' | e
    · rw [he] at h; simp at h
    · rw [he] at h
      rcases hes : effects fmt val fail ts with e' | es'
      · rw [hes] at h; simp at h
      · rw [hes] at h
        simp only [Except.ok.injEq] at h
        subst h
        obtain ⟨h1, h2⟩ := ih hes
        refine ⟨by simp [h1], fun pre t' rest h' => ?_⟩
        cases pre with
        | nil =>
          simp only [List.nil_append, List.cons.injEq] at h'
          obtain ⟨rfl, rfl⟩ := h'
          exact ⟨e, by simp, he⟩
        | cons p pre =>
          simp only [List.cons_append, List.cons.injEq] at h'
          obtain ⟨e'', h3, h4⟩ := h2 pre t' rest h'.2
          exact ⟨e'', by simpa using h3, h4⟩

/-! ### Effects of single tokens -/

theorem analysed_ok {t : PyTok} {keep check : Bool} {e : Effect} (h : analysed t keep check = .ok e) :
    ∃ new q, handleSqlString t.value = .ok (new, q) ∧
      e.tok = (if new ≠ t.value ∧ !keep then { t with value := new } else t) ∧
      (e.changed = true ↔ new ≠ t.value ∧ keep = false) ∧
      (check = false → e.reports = []) ∧ (check = true → report t.start.1 q = .ok e.reports) := by
  simp only [analysed] at h
  rcases hs : handleSqlString t.value with e' | ⟨new, q⟩
  · rw [hs] at h; simp at h
  · rw [hs] at h
    simp only at h
    refine ⟨new, q, rfl, ?_⟩
    cases check with
    | false =>
      simp only [Bool.false_eq_true, if_false, Except.ok.injEq] at h
      subst h
      simp only [replaced]
      split <;> simp_all
    | true =>
      simp only [if_true] at h
      rcases hr : report t.start.1 q with e' | rs
      · rw [hr] at h; simp at h
      · rw [hr] at h
        simp only [Except.ok.injEq] at h
        subst h
        simp only [replaced]
        split <;> simp_all

theorem effect_other {t : PyTok} (h : isQuery t = false) (fmt val : Bool) (fail : Option PyErr)
    (rest : List PyTok) : effect fmt val fail t rest = .ok ⟨t, false, []⟩ := by
  simp [effect, h]

/-- Either nothing happens, or a query is analysed. -/
theorem effect_cases {fmt val : Bool} {fail : Option PyErr} {t : PyTok} {rest : List PyTok} {e : Effect}
    (h : effect fmt val fail t rest = .ok e) :
    e = ⟨t, false, []⟩ ∨ ∃ keep check, isQuery t = true ∧ analysed t keep check = .ok e := by
  simp only [effect] at h
  cases hq : isQuery t with
  | false => rw [hq] at h; simp at h; exact .inl h.symm
  | true =>
    rw [hq] at h
    simp only [if_true] at h
    cases hf : rest.find? stopsFollow with
    | some n =>
      rw [hf] at h
      simp only at h
      split at h
      · exact .inr ⟨_, _, rfl, h⟩
      · simp at h; exact .inl h.symm
    | none =>
      rw [hf] at h
      cases fail with
      | some e => simp at h
      | none =>
        simp only at h
        split at h
        · exact .inr ⟨_, _, rfl, h⟩
        · simp at h; exact .inl h.symm

theorem effect_same {fmt val : Bool} {fail : Option PyErr} {t : PyTok} {rest : List PyTok} {e : Effect}
    (h : effect fmt val fail t rest = .ok e) :
    SameButQuery t e.tok ∧ (e.changed = false → e.tok = t) ∧
      (e.changed = true → e.tok.value ≠ t.value) := by
  rcases effect_cases h with rfl | ⟨keep, check, hq, ha⟩
  · exact ⟨⟨rfl, rfl, rfl, .inl rfl⟩, by simp, by simp⟩
  · obtain ⟨new, q, -, h2, h3, -⟩ := analysed_ok ha
    have hq' : t.kind = .string ∧ isSelectString t.value = true := by
      simpa [isQuery] using hq
    rw [h2]
    split
    · rename_i hc
      refine ⟨⟨rfl, rfl, rfl, .inr hq'⟩, fun h => ?_, fun _ => hc.1⟩
      have : e.changed = true := h3.2 ⟨hc.1, by simpa using hc.2⟩
      simp [this] at h
    · rename_i hc
      refine ⟨⟨rfl, rfl, rfl, .inl rfl⟩, fun _ => rfl, fun h => absurd ?_ hc⟩
      have := h3.1 h
      exact ⟨this.1, by simp [this.2]⟩

theorem report_cases {row : Nat} {q : SQLQuery} {rs : List (Nat × List Str)}
    (h : report row q = .ok rs) :
    (q.isValid.1 = .ok true ∧ rs = []) ∨
      (q.isValid.1 = .ok false ∧ rs = [(row, q.isValid.2.errors)]) := by
  rw [report] at h
  generalize q.isValid = v at h ⊢
  obtain ⟨r, q'⟩ := v
  rcases r with e | b
  · simp at h
  · cases b <;> simp at h <;> simp [h]

/-- The query in a literal. -/
def innerSql (s quotes : Str) (pre : Option Str) : Str :=
  sliceInner (s.drop (pre.getD []).length) quotes.length quotes.length

theorem handleSqlString_none {s : Str} (h : findQuotes s = none) :
    handleSqlString s = .error .assertion := by
  unfold handleSqlString; rw [h]

theorem handleSqlString_some {s quotes : Str} {pre : Option Str}
    (h : findQuotes s = some (quotes, pre)) :
    handleSqlString s = (SQLQuery.new (innerSql s quotes pre)).format.1.map fun f =>
      (requote quotes (pre.getD []) f, (SQLQuery.new (innerSql s quotes pre)).format.2) := by
  unfold handleSqlString; rw [h]
  cases pre <;> simp only [innerSql, Option.getD_none, Option.getD_some, List.length_nil,
      List.drop_zero] <;> generalize SQLQuery.format _ = r <;> rcases r with ⟨e | f, q⟩ <;> rfl

/-- The object handed out with the new literal judges like a fresh one. -/
theorem handleSqlString_valid {s new : Str} {q : SQLQuery} (h : handleSqlString s = .ok (new, q)) :
    ∃ quotes pre, findQuotes s = some (quotes, pre) ∧
      q.isValid.1 = (SQLQuery.new (innerSql s quotes pre)).isValid.1 ∧
      q.isValid.2.errors = (SQLQuery.new (innerSql s quotes pre)).isValid.2.errors ∧
      ∃ f, formatSql (innerSql s quotes pre) = .ok f ∧ new = requote quotes (pre.getD []) f := by
  rcases hf : findQuotes s with _ | ⟨quotes, pre⟩
  · rw [handleSqlString_none hf] at h; simp at h
  · rw [handleSqlString_some hf] at h
    refine ⟨quotes, pre, rfl, ?_⟩
    generalize innerSql s quotes pre = sql at h ⊢
    have hc := Cached.new sql
    obtain ⟨c1, c2, c3, c4⟩ := hc.format
    have hv := c2.isValid
    have hv0 := hc.isValid
    have h0 : (SQLQuery.new sql).validated = false := rfl
    generalize SQLQuery.format (SQLQuery.new sql) = fm at h hv c1 c2 c3 c4
    obtain ⟨r, q'⟩ := fm
    rcases r with e | f
    · simp [Except.map] at h
    · simp only [Except.map, Except.ok.injEq, Prod.mk.injEq] at h
      obtain ⟨rfl, rfl⟩ := h
      rw [h0] at c3
      obtain ⟨a1, a2⟩ := hv.2.2.2 c3
      obtain ⟨b1, b2⟩ := hv0.2.2.2 h0
      simp only at c4
      rw [c4] at a1 a2
      exact ⟨a1.trans b1.symm, a2.trans b2.symm, f, c1.symm, rfl⟩

end SqlV
