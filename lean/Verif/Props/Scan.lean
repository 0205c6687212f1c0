import Verif.Lemmas.Scan

/-!
# Scanning for closing parentheses and clause keywords (C56, C57)
-/

namespace SqlV

set_option linter.unusedSectionVars false

open Scan

section
variable [E : PyEnv]

/-- C56: a balanced sequence followed by `)` is collected, the parenthesis is consumed, and what follows
is left in the generator. -/
theorem C56_balanced_collected (body rest : List Str) (fail : Option PyErr) (h : Balanced body) :
    untilClosing none ⟨body ++ str!")" :: rest, fail⟩ = .ok (body, ⟨rest, fail⟩) := by
  simp [untilClosing, scanClosing_close h, afterScan]

/-- C56, the same when the first token has already been taken from the generator. -/
theorem C56_balanced_collected_first (t : Str) (body rest : List Str) (fail : Option PyErr)
    (ht : t ≠ []) (h : Balanced (t :: body)) :
    untilClosing (some t) ⟨body ++ str!")" :: rest, fail⟩ = .ok (t :: body, ⟨rest, fail⟩) := by
  have := scanClosing_close h rest
  rw [List.cons_append] at this
  simp [untilClosing, this, afterScan, ht]

/-- C56, conversely: whatever the tokens, either the result is balanced and was followed by `)`, or
there was no closing parenthesis and everything is taken. -/
theorem C56_collected_is_balanced (l body : List Str) (s' : Stream)
    (h : untilClosing none ⟨l, none⟩ = .ok (body, s')) :
    s'.fail = none ∧
    ((Balanced body ∧ l = body ++ str!")" :: s'.toks) ∨ (body = l ∧ s'.toks = [])) := by
  simp only [untilClosing, afterScan] at h
  have h0 : scanClosing 0 l = scanClosing ((0 : Nat) : Int) l := rfl
  rcases hr : scanClosing 0 l with ⟨b, ok, r⟩
  rw [hr] at h
  cases ok with
  | true =>
    simp only [if_true, Res.ok.injEq, Prod.mk.injEq] at h
    obtain ⟨rfl, rfl⟩ := h
    obtain ⟨h1, h2⟩ := scanClosing_sound l 0 b r (by rw [← h0, hr])
    cases h2 with
    | zero _ h2 => exact ⟨rfl, .inl ⟨h2, h1⟩⟩
  | false =>
    simp only [Bool.false_eq_true, if_false, Res.ok.injEq, Prod.mk.injEq] at h
    obtain ⟨rfl, rfl⟩ := h
    obtain ⟨h1, h2⟩ := scanClosing_none l 0 b r hr
    exact ⟨rfl, .inr ⟨h1, h2⟩⟩

/-- C57: a clause without stop words outside parentheses, brackets and CASE, followed by a stop word,
is returned unchanged together with the stop word; the rest stays in the generator. -/
theorem C57_stops_at_first_outer_keyword [LawfulPyEnv E] (stop : List Str) (keep : List (Str × Str))
    (hs : NoDelims stop) (body rest : List Str) (w : Str) (fail : Option PyErr)
    (h : Clause stop keep body) (hw : lower w ∈ stop)
    (hk : ∀ p, body.getLast? = some p → (lower p, lower w) ∉ keep) :
    untilOneOf stop none keep ⟨body ++ w :: rest, fail⟩ = .ok ((body, some w), ⟨rest, fail⟩) := by
  have h1 : scanOneOf stop keep none (Depth.init none) (body ++ w :: rest) = (body, some w, rest) := by
    have hst : stopsHere stop keep (lastOf none body) Depth.zero w = true := by
      rw [lastOf_eq, Option.or_none]
      cases hl : body.getLast? with
      | none => simp [stopsHere, Depth.zero, hw]
      | some p => simp [stopsHere, Depth.zero, hw, hk p hl]
    rw [show Depth.init none = Depth.zero from rfl, scanOneOf_clause h hs none (w :: rest), scanOneOf,
      if_pos hst]
    simp
  simp [untilOneOf, h1, afterScan]

/-- C57, when the first token has already been taken from the generator; a CASE taken in this way must
be in lower case (`C57_first_token_case`). -/
theorem C57_stops_at_first_outer_keyword_first [LawfulPyEnv E] (stop : List Str)
    (keep : List (Str × Str)) (hs : NoDelims stop) (t : Str) (body rest : List Str) (w : Str)
    (fail : Option PyErr) (h : Clause stop keep (t :: body)) (ht : lower t = str!"case" → t = str!"case")
    (hw : lower w ∈ stop) (hk : ∀ p, (t :: body).getLast? = some p → (lower p, lower w) ∉ keep) :
    untilOneOf stop (some t) keep ⟨body ++ w :: rest, fail⟩ =
      .ok ((t :: body, some w), ⟨rest, fail⟩) := by
  have hstep : Depth.zero.step t = Depth.init (some t) := by
    have hd : ∀ t : Str, isDelim t = false → Depth.zero.step t = Depth.init (some t) := by
      intro t hd
      rw [Depth.step_of_not_delim hd]
      simp only [isDelim, Bool.or_eq_false_iff, decide_eq_false_iff_not] at hd
      obtain ⟨⟨⟨⟨⟨h1, h2⟩, h3⟩, h4⟩, h5⟩, h6⟩ := hd
      have h7 : t ≠ str!"case" := by
        rintro rfl; exact h5 (by rw [lower_ascii (by decide)]; decide)
      simp [Depth.init, h1, h3, h7, Depth.zero]
    generalize hl : t :: body = l at h
    cases h with
    | nil => cases hl
    | tok t' l h' => cases hl; exact hd _ h'
    | kept p t' l h' => cases hl; exact hd _ h'
    | paren a l => cases hl; rfl
    | square a l => cases hl; rfl
    | case c e a l hc =>
      cases hl
      have := ht hc
      subst this
      obtain ⟨c1, c2, c3, c4⟩ := not_bracket hc (by decide)
      rw [step_case hc _ c1 c2 c3 c4]
      rfl
  have hno : stopsHere stop keep none Depth.zero t = false := by
    obtain ⟨hs1, hs2, hs3⟩ := hs
    have : lower t ∉ stop := by
      generalize hl : t :: body = l at h
      cases h with
      | nil => cases hl
      | tok t' l _ hd => cases hl; exact hd
      | kept p t' l _ hd => cases hl; exact hd
      | paren a l => cases hl; rw [lower_bracket (by decide)]; exact hs1
      | square a l => cases hl; rw [lower_bracket (by decide)]; exact hs2
      | case c e a l hc => cases hl; rw [hc]; exact hs3
    simp [stopsHere, this]
  have h1 : scanOneOf stop keep (some t) (Depth.init (some t)) (body ++ w :: rest) =
      (body, some w, rest) := by
    have hst : stopsHere stop keep (lastOf none (t :: body)) Depth.zero w = true := by
      rw [lastOf_eq, Option.or_none]
      cases hl : (t :: body).getLast? with
      | none => simp at hl
      | some p => simp [stopsHere, Depth.zero, hw, hk p hl]
    have h2 := scanOneOf_clause h hs none (w :: rest)
    rw [scanOneOf, if_pos hst, List.cons_append, scanOneOf_cons _ _ _ _ _ _ hno, hstep] at h2
    generalize scanOneOf stop keep (some t) (Depth.init (some t)) (body ++ w :: rest) = r at h2
    obtain ⟨b, o, r⟩ := r
    simpa using h2
  simp [untilOneOf, h1, afterScan]

/-- C57, when the clause is the last one. -/
theorem C57_takes_all_without_keyword [LawfulPyEnv E] (stop : List Str) (keep : List (Str × Str))
    (hs : NoDelims stop) (body : List Str) (h : Clause stop keep body) :
    untilOneOf stop none keep ⟨body, none⟩ = .ok ((body, none), ⟨[], none⟩) := by
  have h1 : scanOneOf stop keep none (Depth.init none) body = (body, none, []) := by
    have := scanOneOf_clause h hs none []
    rw [List.append_nil] at this
    rw [show Depth.init none = Depth.zero from rfl, this]
    simp [scanOneOf]
  simp [untilOneOf, h1, afterScan]

/-- C57, for every token sequence and every kept pair: what is returned is a prefix of the input, the
token after it is a stop word, and everything behind stays in the generator. -/
theorem C57_returns_prefix (stop : List Str) (keep : List (Str × Str)) (l body : List Str)
    (w : Option Str) (s' : Stream)
    (h : untilOneOf stop none keep ⟨l, none⟩ = .ok ((body, w), s')) :
    l = body ++ w.toList ++ s'.toks ∧ (∀ x, w = some x → lower x ∈ stop) ∧
      (w = none → s'.toks = []) := by
  simp only [untilOneOf, afterScan] at h
  have hsound := scanOneOf_sound stop keep l none (Depth.init none)
  rcases hr : scanOneOf stop keep none (Depth.init none) l with ⟨b, o, r⟩
  rw [hr] at h hsound
  cases o with
  | some x =>
    simp only [Option.isSome_some, if_true, Res.ok.injEq, Prod.mk.injEq, Option.toList_none,
      List.nil_append] at h
    obtain ⟨⟨rfl, rfl⟩, rfl⟩ := h
    exact ⟨by simp [hsound.1], by rintro y ⟨⟩; exact hsound.2, by simp⟩
  | none =>
    simp only [Option.isSome_none, Bool.false_eq_true, if_false, Res.ok.injEq, Prod.mk.injEq,
      Option.toList_none, List.nil_append] at h
    obtain ⟨⟨rfl, rfl⟩, rfl⟩ := h
    exact ⟨by simp [hsound.1, hsound.2], by simp, by simp [hsound.2]⟩

end

/-! ### Concrete cases -/

example : Balanced [str!"a", str!"(", str!"b", str!"(", str!")", str!")", str!"c"] :=
  .tok _ _ (by decide) (by decide)
    (.group [str!"b", str!"(", str!")"] _
      (.tok _ _ (by decide) (by decide) (.group [] _ .nil .nil))
      (.tok _ _ (by decide) (by decide) .nil))

/-- The hypotheses of C57 are met by `f(FROM) CASE from End with Offset` before FROM. -/
example : @Clause asciiEnv [str!"from", str!"offset"] [(str!"with", str!"offset")]
      [str!"f", str!"(", str!"FROM", str!")", str!"CASE", str!"from", str!"End", str!"WITH",
       str!"Offset"] ∧ NoDelims [str!"from", str!"offset"] ∧
      @lower asciiEnv str!"From" ∈ [str!"from", str!"offset"] := by
  letI := asciiEnv
  refine ⟨?_, by decide, by decide⟩
  refine .tok _ _ (by decide) (by decide) ?_
  refine .paren [str!"FROM"] _ (.tok _ _ (by decide) .nil) ?_
  refine .case str!"CASE" str!"End" [str!"from"] _ (by decide) (by decide)
    (.tok _ _ (by decide) .nil) ?_
  exact .kept _ _ _ (by decide) (by decide) (by decide) (by decide) .nil

/-- The stop words of the parser meet `NoDelims`. -/
example : NoDelims selectKeywords ∧
    NoDelims [str!"where", str!"group", str!"having", str!"order", str!"limit", str!"offset", str!";"] ∧
    NoDelims [str!"asc", str!"desc"] ∧ NoDelims [str!","] := by decide

/-- A scan started inside a CASE expression whose keyword has already been read relies on the exact
spelling `case`: with `CASE` as first token the scan stops inside the expression. -/
theorem C57_first_token_case :
    (@untilOneOf asciiEnv [str!"from"] (some str!"CASE") []
      ⟨[str!"when", str!"from", str!"end", str!"from"], none⟩) =
      .ok (([str!"CASE", str!"when"], some str!"from"), ⟨[str!"end", str!"from"], none⟩) ∧
    (@untilOneOf asciiEnv [str!"from"] (some str!"case") []
      ⟨[str!"when", str!"from", str!"end", str!"from"], none⟩) =
      .ok (([str!"case", str!"when", str!"from", str!"end"], some str!"from"), ⟨[], none⟩) := by
  decide +kernel

end SqlV
