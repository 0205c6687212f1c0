import Verif.Lemmas.Words

/-!
# Small statements, for every token (C69 to C73)
-/

namespace SqlV

set_option linter.unusedSectionVars false

open Core (Ev lower_self bind_ok bind_err sub_ok next!_cons)

variable [E : PyEnv] [L : LawfulPyEnv E]

/-- C69: what `SELECT w` means, for every token `w` other than ALL and DISTINCT: numbers, TRUE, FALSE, YES, NO and NULL
are values, a quote, NOT, SELECT, `[` and CASE alone raise, `(` is an empty parenthesis and anything else a column. -/
theorem C69_one_token (s w : Str) (hs : lower s = str!"select") (h1 : lower w ≠ str!"all") (h2 : lower w ≠ str!"distinct") :
    parse ⟨[s, w], none⟩ = Words.selectWord w := Words.select_word hs h1 h2

/-- C69: after ALL and DISTINCT there is nothing to select. -/
theorem C69_all_distinct (s w : Str) (hs : lower s = str!"select") :
    (lower w = str!"all" → parse ⟨[s, w], none⟩ = .ok (.select [] true false [] .none .none .none .none .none .none .none false)) ∧
    (lower w = str!"distinct" → parse ⟨[s, w], none⟩ = .err .stopIteration) := by
  constructor
  · intro h
    have hl : Ev fun r => r.exprList false ⟨[], none⟩ = .ok ([], ⟨[], none⟩) := Ev.next0 fun r => rfl
    refine Words.stmt_step hs (hl.mono fun r g => ?_)
    have hh : selectHeadF r ⟨[w], none⟩ = .ok ((true, false, [], none), ⟨[], none⟩) := by
      unfold selectHeadF
      rw [bind_ok (next!_cons _ _ _), if_pos h]
      rfl
    unfold selectF
    rw [bind_ok hh]
    simp only
    rw [bind_ok (show untilOneOf selectKeywords none [] ⟨[], none⟩ = .ok (([], none), ⟨[], none⟩) from rfl)]
    simp only
    rw [bind_ok (sub_ok g)]
    rfl
  · intro h
    refine Words.stmt_step hs (Ev.of fun r => ?_)
    have hh : selectHeadF r ⟨[w], none⟩ = .err .stopIteration := by
      unfold selectHeadF
      rw [bind_ok (next!_cons _ _ _), if_neg (by rw [h]; decide), if_pos h]
      rfl
    unfold selectF
    rw [bind_err hh]
    rfl

/-- C70: what `SELECT a t b` means, for all names `a` and `b` and every ASCII token `t`. -/
theorem C70_select (s a t b : Str) (hs : lower s = str!"select") (ha : Core.ident a = true) (hb : Words.plainName b = true)
    (ht : t.all isAscii = true) : parse ⟨[s, a, t, b], none⟩ = Words.selectInfix a t b :=
  Words.select_infix hs ha hb ht

/-- C70: what `SELECT f(a t b)` means, for all names `f`, `a` and `b` and every ASCII token `t` other than parentheses,
the comma, the semicolon and TIMESTAMP_TRUNC. -/
theorem C70_call (s f a t b : Str) (hs : lower s = str!"select") (hf : Core.ident f = true) (ha : Core.ident a = true)
    (hb : Core.ident b = true) (ht : t.all isAscii = true) (h1 : t ∉ [str!"(", str!")", str!",", str!";"])
    (h2 : lower t ≠ str!"timestamp_trunc") :
    parse ⟨[s, f, str!"(", a, t, b, str!")"], none⟩ = Words.selectCall f a t b :=
  Words.select_call hs hf ha hb ht h1 h2

/-- C70: a token that is no operator, no clause word and no AS becomes an alias, and the name after it is forgotten. -/
theorem C70_forgets (s a t b : Str) (hs : lower s = str!"select") (ha : Core.ident a = true) (ht : Core.ident t = true)
    (hta : t.all isAscii = true) (hb : Words.plainName b = true) (hbit : t ∉ Core.bitOps) (har : t ∉ Core.arithOps) :
    parse ⟨[s, a, t, b], none⟩ = .ok (Words.sel [.alias (.column a) (.raw t) false]) := by
  rw [C70_select s a t b hs ha hb hta]
  have hr : ∀ w, w ∈ Core.reserved → lower t ≠ w := fun w hw => Words.name_reserved ht hw
  have hd : ∀ d : Str, lower d = d → d ∈ Core.reserved → t ≠ d := by
    rintro d h1 h2 rfl
    exact hr _ h2 h1
  have np := (Core.ident_spec ht).1
  have hdot : t ≠ str!"." := by
    rintro rfl
    exact (Core.ident_spec ht).2.2 (by decide)
  have k1 : lower t ∉ Words.compareWords := fun h => hr _ ((show ∀ w ∈ Words.compareWords, w ∈ Core.reserved by decide) _ h) rfl
  have k2 : lower t ∉ Core.connectives := fun h => hr _ ((show ∀ w ∈ Core.connectives, w ∈ Core.reserved by decide) _ h) rfl
  have k3 : lower t ∉ [str!"over", str!"except", str!"replace"] :=
    fun h => hr _ ((show ∀ w ∈ [str!"over", str!"except", str!"replace"], w ∈ Core.reserved by decide) _ h) rfl
  have hm : t ∉ Core.marks := np.quote
  have k4 : t ≠ str!";" := hd _ (lower_self (by decide) (by decide)) (by decide)
  have k5 : t ≠ str!"," := hd _ (lower_self (by decide) (by decide)) (by decide)
  have k6 : t ≠ str!")" := hd _ (lower_self (by decide) (by decide)) (by decide)
  unfold Words.selectInfix Words.clause
  rw [if_neg k4, if_neg (hr _ (by decide)), if_neg (hr _ (by decide)), if_neg (hr _ (by decide)), if_neg (hr _ (by decide)),
    if_neg (hr _ (by decide)), if_neg (hr _ (by decide))]
  simp only
  rw [if_neg (hr _ (by decide)), if_neg k5]
  unfold Words.infix_
  rw [if_neg np.open_, if_neg np.square, if_neg hdot, if_neg k6, if_neg hm, if_neg har, if_neg hbit, if_neg k1, if_neg k2,
    if_neg (fun h => hr _ (by decide) h.1), if_neg (hr _ (by decide)), if_neg (hr _ (by decide)), if_neg k3]

/-- C71: what `SELECT c FROM a t b` means, for all names `a`, `b` and `c` and every ASCII token `t`. -/
theorem C71_from (s c f a t b : Str) (hs : lower s = str!"select") (hf : lower f = str!"from") (hc : Core.ident c = true)
    (ha : Words.plainName a = true) (hb : Words.plainName b = true) (ht : t.all isAscii = true) :
    parse ⟨[s, c, f, a, t, b], none⟩ = Words.fromInfix c a t b :=
  Words.from_infix hs hf hc ha hb ht

/-- C72: below a call with TIMESTAMP_TRUNC among its arguments, the names of types are types and all other names columns. -/
theorem C72_types (s f g x w : Str) (hs : lower s = str!"select") (hf : Core.ident f = true)
    (hg : g.map Char.toLower = str!"timestamp_trunc") (hx : Core.ident x = true) (hw : Core.ident w = true) :
    parse ⟨[s, f, str!"(", g, str!"(", x, str!",", w, str!")", str!")"], none⟩ =
      .ok (Words.sel [.func f [.func g [Words.typed x, Words.typed w]]]) :=
  Words.select_typed hs hf hg hx hw

/-- C73: a literal may have the prefix `r` and no other; after any other name it is an alias. -/
theorem C73_prefix (s w q v : Str) (hs : lower s = str!"select") (hw : Core.ident w = true) (hq : q ∈ Core.marks)
    (hv : Core.content q v = true) (h0 : v ≠ []) : parse ⟨[s, w, q, v, q], none⟩ = .ok (Words.sel [Words.prefixed w v q]) :=
  Words.select_prefixed hs hw hq hv h0

/-! ### The hypotheses are met -/

example : (@lower asciiEnv str!"Select" = str!"select" ∧ @lower asciiEnv str!"Yes" ≠ str!"all" ∧
    @lower asciiEnv str!"Yes" ≠ str!"distinct" ∧ @Words.selectWord asciiEnv str!"Yes" = .ok (Words.sel [.bool true]) ∧
    @Words.selectWord asciiEnv str!"12" = .ok (Words.sel [.int 12]) ∧
    @Words.selectWord asciiEnv str!"CASE" = .err .assertion ∧
    @Words.selectWord asciiEnv str!"b" = .ok (Words.sel [.column str!"b"])) := by decide +kernel

example : (@Core.ident asciiEnv str!"a" = true ∧ @Words.plainName asciiEnv str!"b" = true ∧
    @Words.selectInfix asciiEnv str!"a" str!"Like" str!"b" = .ok (Words.sel [.cond (.column str!"a") str!"Like" (.column str!"b")]) ∧
    @Words.selectInfix asciiEnv str!"a" str!"GROUP" str!"b" = .err (.parsing str!"Missing BY after GROUP") ∧
    @Words.selectInfix asciiEnv str!"a" str!"x" str!"b" = .ok (Words.sel [.alias (.column str!"a") (.raw str!"x") false]) ∧
    @Words.selectInfix asciiEnv str!"year" str!"from" str!"b" =
      .ok (.select [.column str!"year"] false false [] (.table (.column str!"b") false) .none .none .none .none .none .none false) ∧
    @Words.selectCall asciiEnv str!"extract" str!"Year" str!"FROM" str!"b" =
      .ok (Words.sel [.func str!"extract" [.datePart str!"Year" (.column str!"b")]]) ∧
    @Words.selectCall asciiEnv str!"extract" str!"years" str!"FROM" str!"b" =
      .ok (Words.sel [.func str!"extract" [.alias (.column str!"years") (.raw str!"FROM") false]])) := by decide +kernel

example : (@Core.ident asciiEnv str!"x" = true ∧ str!"x" ∉ Core.bitOps ∧ str!"x" ∉ Core.arithOps ∧ str!"x".all isAscii = true) := by
  decide +kernel

example : (@Words.plainName asciiEnv str!"t" = true ∧ @Words.plainName asciiEnv str!"u" = true ∧
    @Words.fromInfix asciiEnv str!"a" str!"t" str!"Cross" str!"u" =
      .ok (.select [.column str!"a"] false false [] (.join str!"CROSS" (.table (.column str!"t") false)
        (.table (.column str!"u") false) .none .none) .none .none .none .none .none .none false) ∧
    @Words.fromInfix asciiEnv str!"a" str!"t" str!"where" str!"u" =
      .ok (.select [.column str!"a"] false false [] (.table (.column str!"t") false) (.where_ (.column str!"u")) .none .none .none
        .none .none false)) := by decide +kernel

example : (str!"Timestamp_Trunc".map Char.toLower = str!"timestamp_trunc" ∧ @Core.ident asciiEnv str!"DAY" = true ∧
    @Words.typed asciiEnv str!"DAY" = .type str!"DAY" ∧ @Words.typed asciiEnv str!"week" = .column str!"week") := by decide +kernel

example : (@Core.content asciiEnv str!"'" str!"a b" = true ∧ str!"'" ∈ Core.marks ∧ @Core.ident asciiEnv str!"R" = true ∧
    @Words.prefixed asciiEnv str!"R" str!"a b" str!"'" = .string str!"a b" str!"'" (some str!"R") ∧
    @Words.prefixed asciiEnv str!"b" str!"a b" str!"'" = .alias (.column str!"b") (.string str!"a b" str!"'" none) false) := by
  decide +kernel

end SqlV
