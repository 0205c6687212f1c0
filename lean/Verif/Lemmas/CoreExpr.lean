import Verif.Lemmas.Ev

/-! Parsing expressions of the core grammar: from atoms to list elements. -/

set_option linter.unusedSectionVars false

namespace SqlV.Core

open Scan

variable [E : PyEnv]

/-! ### The stages of `ExpressionParser.parse` -/

/-- Up to OVER and dots. -/
def baseM (r : Rec) (a : ExprArgs) (main : Str) : P (Node × Option Str) :=
  atomF r a main >>= fun x => overF r x.1 x.2 >>= fun x => r.dotLoop a.untilOneOf x.1 x.2

/-- Up to arithmetic. -/
def opdM (r : Rec) (a : ExprArgs) (main : Str) : P (Node × Option Str) :=
  baseM r a main >>= fun x => arithF r a x.1 x.2 >>= fun x => r.indexLoop x.1 x.2

/-- Up to conditions. -/
def cndM (r : Rec) (a : ExprArgs) (main : Str) : P (Node × Option Str) :=
  opdM r a main >>= fun x => condF r a x.1 x.2

/-- Everything after conditions. -/
def endM (r : Rec) (a : ExprArgs) (x : Node × Option Str) : P (Node × Option Str) :=
  boolF r a x.1 x.2 >>= fun x => exceptF r x.1 x.2 >>= fun x => replaceF r x.1 x.2 >>= fun x =>
    aliasF r a x.1 x.2

theorem operandF_eq (r : Rec) (a : ExprArgs) : operandF r a = mainToken a >>= fun main => opdM r a main := by
  simp only [opdM, baseM, bind_assoc']
  rfl

theorem exprF_right {r : Rec} {a : ExprArgs} (h : (a.isRightHand || a.isChainedColumns) = true) :
    exprF r a = mainToken a >>= fun main => opdM r a main := by
  funext s
  have h1 : exprF r a s = (operandF r a >>= fun x => pure x) s := by
    simp only [exprF, bind_run]
    cases operandF r a s with
    | ok x => simp [h, pure_run]
    | err => rfl
    | diverge => rfl
  rw [h1, operandF_eq, bind_run]
  cases (mainToken a >>= fun main => opdM r a main) s <;> rfl

theorem exprF_full {r : Rec} {a : ExprArgs} (h : (a.isRightHand || a.isChainedColumns) = false) :
    exprF r a = mainToken a >>= fun main => cndM r a main >>= fun x => endM r a x := by
  funext s
  have h1 : exprF r a s = (operandF r a >>= fun x => tailF r a x.1 x.2) s := by
    simp only [exprF, bind_run]
    cases operandF r a s with
    | ok x => simp [h]
    | err => rfl
    | diverge => rfl
  rw [h1, operandF_eq]
  simp only [cndM, bind_assoc', endM]
  rfl

theorem mainToken_none {a : ExprArgs} (h : a.firstToken = none) (t : Str) (ts : List Str) (f : Option PyErr) :
    mainToken a ⟨t :: ts, f⟩ = .ok (t, ⟨ts, f⟩) := by
  unfold mainToken; rw [h]; rfl

theorem mainToken_some {a : ExprArgs} {t : Str} (h : a.firstToken = some t) (ht : t ≠ []) (s : Stream) :
    mainToken a s = .ok (t, s) := by
  unfold mainToken; rw [h]
  have : t.isEmpty = false := by simpa using ht
  simp only [this, Bool.false_eq_true, if_false]
  rfl

/-! ### Statements -/

/-- The stage reads the tokens of the tree and stops at the next token. -/
def Ok (stage : Rec → ExprArgs → Str → P (Node × Option Str)) (good : ExprArgs → Bool)
    (syms words : List Str) (n : Node) : Prop :=
  ∀ main ts, Reads (toks n) (main :: ts) → ∃ n', fold n' = n ∧ ∀ (a : ExprArgs) (rest : List Str)
    (f : Option PyErr), good a = true → (rest = [] → f = none) → Ends syms words rest.head? →
    Ev fun r => stage r a main ⟨ts ++ rest, f⟩ = .ok ((n', rest.head?), ⟨rest.tail, f⟩)

def AtomOk : Node → Prop := Ok atomF (fun a => !a.canBeType) atomSyms atomWords
def BaseOk : Node → Prop := Ok baseM (fun a => !a.canBeType) baseSyms atomWords
def OpdOk : Node → Prop := Ok opdM (fun a => !a.canBeType && !a.isChainedColumns) opdSyms atomWords
def CndOk : Node → Prop := Ok cndM (fun a => !a.canBeType && !a.isChainedColumns) cndSyms cndWords

/-- The end of an expression, for a parser that stops at the words. -/
def ExprEnd (u rest : List Str) (f : Option PyErr) : Prop :=
  (rest = [] ∧ f = none) ∨ ∃ w rest', rest = w :: rest' ∧ lower w ∈ u ∧ lower w ∈ clauseWords

/-- Arguments for whole expressions. -/
def _root_.SqlV.ExprArgs.whole (a : ExprArgs) : Bool :=
  !a.isRightHand && !a.canBeType && !a.isChainedColumns && a.firstToken.isNone

def FullOk (n : Node) : Prop :=
  ∀ ts, Reads (toks n) ts → ∃ n', fold n' = n ∧ ∀ (a : ExprArgs) (rest : List Str) (f : Option PyErr),
    a.whole = true → ExprEnd a.untilOneOf rest f →
    Ev fun r => r.expr a ⟨ts ++ rest, f⟩ = .ok ((n', rest.head?), ⟨rest.tail, f⟩)

def AliasedOk (n : Node) : Prop :=
  ∀ ts, Reads (toks n) ts → ∃ n', fold n' = n ∧
    (∀ s, ident s = true →
      Ev fun r => r.expr {} ⟨ts ++ [s], none⟩ = .ok ((.alias n' (.raw s) false, none), ⟨[], none⟩)) ∧
    (∀ as al ys, lower as = str!"as" → OpdOk al → Reads (toks al) ys → ys ≠ [] → ∃ al', fold al' = al ∧
      Ev fun r => r.expr {} ⟨ts ++ as :: ys, none⟩ = .ok ((.alias n' al' true, none), ⟨[], none⟩))

/-- The next token counts for nothing: after `r'…'` it still is the opening quote. -/
def ItemOk (n : Node) : Prop :=
  ∀ ts, Reads (toks n) ts → ∃ n' t, fold n' = n ∧
    Ev fun r => r.expr {} ⟨ts, none⟩ = .ok ((n', t), ⟨[], none⟩)

/-- A word that is recognised by nothing but what follows. -/
structure NotPrimary (main : Str) : Prop where
  quote : main ∉ quotes
  digits : isDigits main = false
  dotted : isDottedDigits main = false
  word : lower main ∉ trueValues ++ falseValues ++ nullValues ++ [str!"not", str!"case", str!"select"]
  open_ : main ≠ str!"("
  square : main ≠ str!"["

/-- What is read after the name of a function and the parenthesis, up to FILTER. -/
def callM (r : Rec) (a : ExprArgs) (main : Str) : P Node :=
  if lower main = str!"cast" then castF r a
  else if lower main = str!"array_agg" then arrayAggF r a
  else if lower main = str!"count" then countF r else callF r a main

/-- A call without FILTER. -/
def CallOk (n : Node) : Prop :=
  ∀ ts, Reads (toks n) ts → ∃ n' main ts', fold n' = n ∧ ts = main :: str!"(" :: ts' ∧ NotPrimary main ∧
    ∀ (a : ExprArgs) (rest : List Str) (f : Option PyErr), a.canBeType = false → (rest = [] → f = none) →
    Ev fun r => callM r a main ⟨ts' ++ rest, f⟩ = .ok (n', ⟨rest, f⟩)

/-- A call with or without FILTER. -/
def FuncOk : Node → Prop := Ok atomF (fun a => !a.canBeType) [] [str!"filter"]

/-- Whatever the loop over indices makes of the rest. -/
def LoopOk (n : Node) : Prop :=
  ∀ main ts, Reads (toks n) (main :: ts) → ∃ n', fold n' = n ∧ ∀ (a : ExprArgs) (rest : List Str)
    (f : Option PyErr) (res : Res ((Node × Option Str) × Stream)), (!a.canBeType && !a.isChainedColumns) = true →
    (rest = [] → f = none) → Ends loopSyms [str!"over", str!"filter"] rest.head? →
    (Ev fun r => r.indexLoop n' rest.head? ⟨rest.tail, f⟩ = res) → Ev fun r => opdM r a main ⟨ts ++ rest, f⟩ = res

/-- Neither a path nor a call with OVER. -/
def isAtom : Node → Bool
  | .chained .. | .analytics .. => false
  | _ => true

/-- Everything about expressions. -/
structure ExprOk (n : Node) : Prop where
  call : isCall n = true → CallOk n
  func : isFunction n = true → FuncOk n
  loop : indexable n = true → LoopOk n
  atom : level n = 0 → isAtom n = true → AtomOk n
  base : level n = 0 → BaseOk n
  opd : level n ≤ 1 → OpdOk n
  cnd : level n ≤ 2 → CndOk n
  full : level n ≤ 3 → FullOk n
  aliased : level n ≤ 3 → AliasedOk n
  item : level n ≤ 5 → ItemOk n

/-! ### From stage to stage -/

theorem overF_no {r : Rec} {e : Node} {t : Option Str} (h : isWord t str!"over" = false) (s : Stream) :
    overF r e t s = .ok ((e, t), s) := by
  unfold overF; simp only [h, Bool.false_eq_true, if_false]; rfl

theorem dotLoop_no {u : List Str} {e : Node} {t : Option Str} (h : t ≠ some str!".") (s : Stream) :
    Ev fun r => r.dotLoop u e t s = .ok ((e, t), s) :=
  Ev.next0 fun r => by
    show dotLoopF r u e t s = _
    unfold dotLoopF; rw [if_neg h]; rfl

theorem indexLoop_no {e : Node} {t : Option Str} (h : t ≠ some str!"[") (s : Stream) :
    Ev fun r => r.indexLoop e t s = .ok ((e, t), s) :=
  Ev.next0 fun r => by
    show indexLoopF r e t s = _
    unfold indexLoopF; rw [if_neg h]; rfl

theorem arithF_no {r : Rec} {a : ExprArgs} {e : Node} {t : Option Str}
    (h : a.isChainedColumns = true ∨ ∀ x, t = some x → x ∉ arithSymbols) (s : Stream) :
    arithF r a e t s = .ok ((e, t), s) := by
  unfold arithF
  split
  · rename_i x
    rw [if_neg]
    · rfl
    · rintro ⟨h1, h2⟩
      rcases h with h | h
      · rw [h] at h2; cases h2
      · exact h x rfl h1
  · rfl

theorem condF_no {r : Rec} {a : ExprArgs} {e : Node} {t : Option Str} (h : Ends cndSyms cndWords t) (s : Stream) :
    condF r a e t s = .ok ((e, t), s) := by
  unfold condF
  split
  · rfl
  · rename_i x
    obtain ⟨h1, h2⟩ := h x rfl
    rw [if_neg, if_neg, if_neg]
    · rfl
    · intro hm; exact h1 (by simp [cndSyms, hm])
    · intro hm; exact h2 (by simp [cndWords, hm])
    · intro hm; exact h2 (by simp [cndWords, hm])

theorem boolF_no {r : Rec} {a : ExprArgs} {e : Node} {t : Option Str}
    (h : ∀ x, t = some x → lower x ∉ boolPredicates) (s : Stream) :
    boolF r a e t s = .ok ((e, t), s) := by
  unfold boolF
  split
  · rfl
  · rename_i x
    rw [if_neg (h x rfl)]
    rfl

theorem exceptF_no {r : Rec} {e : Node} {t : Option Str} (h : isWord t str!"except" = false) (s : Stream) :
    exceptF r e t s = .ok ((e, t), s) := by
  unfold exceptF; simp only [h, Bool.false_eq_true, if_false]; rfl

theorem replaceF_no {r : Rec} {e : Node} {t : Option Str} (h : isWord t str!"replace" = false) (s : Stream) :
    replaceF r e t s = .ok ((e, t), s) := by
  unfold replaceF; simp only [h, Bool.false_eq_true, if_false]; rfl

theorem aliasF_no {r : Rec} {a : ExprArgs} {e : Node} {t : Option Str}
    (h : ∀ x, t = some x → lower x ∈ a.untilOneOf) (s : Stream) :
    aliasF r a e t s = .ok ((e, t), s) := by
  unfold aliasF
  split
  · rfl
  · rename_i x
    rw [if_neg]
    · rfl
    · rintro ⟨-, -, -, h1, -⟩; exact h1 (h x rfl)

/-- What may follow an expression ends it. -/
theorem ExprEnd.fin {u rest : List Str} {f : Option PyErr} (h : ExprEnd u rest f) : rest = [] → f = none := by
  rintro rfl
  rcases h with ⟨-, h⟩ | ⟨w, rest', h, -⟩
  · exact h
  · cases h

theorem AtomOk.base {n : Node} (h : AtomOk n) : BaseOk n := by
  intro main ts hr
  obtain ⟨n', hn, h⟩ := h main ts hr
  refine ⟨n', hn, fun a rest f ha hf he => ?_⟩
  refine ((h a rest f ha hf (he.mono (by decide) fun _ h => h)).and
    (dotLoop_no (u := a.untilOneOf) (e := n') (t := rest.head?) (he.ne (by decide)) ⟨rest.tail, f⟩)).mono ?_
  rintro r ⟨h1, h2⟩
  unfold baseM
  rw [bind_ok h1, bind_ok (overF_no (he.notWord (by decide)) _)]
  exact h2

/-- In a dotted path. -/
theorem BaseOk.chain {n : Node} (h : BaseOk n) {ts : List Str} (hr : Reads (toks n) ts) (hts : ts ≠ []) :
    ∃ n', fold n' = n ∧ ∀ (u rest : List Str) (f : Option PyErr), (rest = [] → f = none) →
    Ends baseSyms atomWords rest.head? →
    Ev fun r => r.expr { untilOneOf := u, isChainedColumns := true } ⟨ts ++ rest, f⟩ =
      .ok ((n', rest.head?), ⟨rest.tail, f⟩) := by
  cases ts with
  | nil => exact absurd rfl hts
  | cons main ts =>
    obtain ⟨n', hn, h⟩ := h main ts hr
    refine ⟨n', hn, fun u rest f hf he => ?_⟩
    refine Ev.next ((h { untilOneOf := u, isChainedColumns := true } rest f rfl hf he).and
      (indexLoop_no (e := n') (t := rest.head?) (he.ne (by decide)) ⟨rest.tail, f⟩)) ?_
    rintro r ⟨h1, h2⟩
    show exprF r _ _ = _
    rw [exprF_right rfl, List.cons_append, bind_ok (mainToken_none rfl _ _ _)]
    unfold opdM
    rw [bind_ok h1, bind_ok (arithF_no (.inl rfl) _)]
    exact h2

theorem BaseOk.opd {n : Node} (h : BaseOk n) : OpdOk n := by
  intro main ts hr
  obtain ⟨n', hn, h⟩ := h main ts hr
  refine ⟨n', hn, fun a rest f ha hf he => ?_⟩
  simp only [Bool.and_eq_true] at ha
  have he' : Ends baseSyms atomWords rest.head? := he.mono (by decide) fun _ h => h
  refine ((h a rest f ha.1 hf he').and
    (indexLoop_no (e := n') (t := rest.head?) (he.ne (by decide)) ⟨rest.tail, f⟩)).mono ?_
  rintro r ⟨h1, h2⟩
  unfold opdM
  rw [bind_ok h1, bind_ok (arithF_no (.inr fun x hx hm => (he x hx).1 (by simp [opdSyms, hm])) _)]
  exact h2

theorem FuncOk.loop {n : Node} (h : FuncOk n) : LoopOk n := by
  intro main ts hr
  obtain ⟨n', hn, h⟩ := h main ts hr
  refine ⟨n', hn, fun a rest f res ha hf he hl => ?_⟩
  simp only [Bool.and_eq_true] at ha
  refine (((h a rest f ha.1 hf (he.mono (by simp) (by decide))).and
    (dotLoop_no (u := a.untilOneOf) (e := n') (t := rest.head?) (he.ne (by decide)) ⟨rest.tail, f⟩)).and hl).mono ?_
  rintro r ⟨⟨h1, h2⟩, h3⟩
  unfold opdM baseM
  rw [bind_assoc', bind_ok h1, bind_assoc', bind_ok (overF_no (he.notWord (by decide)) _), bind_ok h2,
    bind_ok (arithF_no (.inr fun x hx hm => (he x hx).1 (by simp [loopSyms, hm])) _)]
  exact h3

theorem LoopOk.opd {n : Node} (h : LoopOk n) : OpdOk n := by
  intro main ts hr
  obtain ⟨n', hn, h⟩ := h main ts hr
  exact ⟨n', hn, fun a rest f ha hf he => h a rest f _ ha hf (he.mono (by decide) (by decide))
    (indexLoop_no (he.ne (by decide)) _)⟩

theorem OpdOk.cnd {n : Node} (h : OpdOk n) : CndOk n := by
  intro main ts hr
  obtain ⟨n', hn, h⟩ := h main ts hr
  refine ⟨n', hn, fun a rest f ha hf he => ?_⟩
  refine (h a rest f ha hf (he.mono (by decide) (by decide))).mono fun r h1 => ?_
  unfold cndM
  rw [bind_ok h1]
  exact condF_no he _

/-- As a right-hand side. -/
theorem OpdOk.rhs {n : Node} (h : OpdOk n) {ts : List Str} (hr : Reads (toks n) ts) (hts : ts ≠ []) :
    ∃ n', fold n' = n ∧ ∀ (u rest : List Str) (f : Option PyErr), (rest = [] → f = none) →
    Ends opdSyms atomWords rest.head? →
    Ev fun r => r.expr { isRightHand := true, untilOneOf := u } ⟨ts ++ rest, f⟩ =
      .ok ((n', rest.head?), ⟨rest.tail, f⟩) := by
  cases ts with
  | nil => exact absurd rfl hts
  | cons main ts =>
    obtain ⟨n', hn, h⟩ := h main ts hr
    refine ⟨n', hn, fun u rest f hf he => ?_⟩
    refine Ev.next (h { isRightHand := true, untilOneOf := u } rest f rfl hf he) fun r h1 => ?_
    show exprF r _ _ = _
    rw [exprF_right rfl, List.cons_append, bind_ok (mainToken_none rfl _ _ _)]
    exact h1

/-- As a right-hand side whose first token has been read. -/
theorem OpdOk.rhs_first {n : Node} (h : OpdOk n) {main : Str} {ts : List Str} (hr : Reads (toks n) (main :: ts))
    (hm : main ≠ []) :
    ∃ n', fold n' = n ∧ ∀ (u rest : List Str) (f : Option PyErr), (rest = [] → f = none) →
    Ends opdSyms atomWords rest.head? →
    Ev fun r => r.expr { isRightHand := true, untilOneOf := u, firstToken := some main } ⟨ts ++ rest, f⟩ =
      .ok ((n', rest.head?), ⟨rest.tail, f⟩) := by
  obtain ⟨n', hn, h⟩ := h main ts hr
  refine ⟨n', hn, fun u rest f hf he => ?_⟩
  refine Ev.next (h { isRightHand := true, untilOneOf := u, firstToken := some main } rest f rfl hf he) fun r h1 => ?_
  show exprF r _ _ = _
  rw [exprF_right rfl, bind_ok (mainToken_some rfl hm _)]
  exact h1

section
variable [L : LawfulPyEnv E]

theorem ExprEnd.ends {u rest : List Str} {f : Option PyErr} (h : ExprEnd u rest f) :
    Ends cndSyms allWords rest.head? := by
  rcases h with ⟨rfl, -⟩ | ⟨w, rest', rfl, -, h⟩
  · exact .none
  · exact ends_clause h

/-- After the last operand nothing more is read. -/
theorem endM_no {r : Rec} {a : ExprArgs} {n : Node} {rest : List Str} {f : Option PyErr}
    (h : ExprEnd a.untilOneOf rest f) (s : Stream) : endM r a (n, rest.head?) s = .ok ((n, rest.head?), s) := by
  have he := h.ends
  unfold endM
  rw [bind_ok (boolF_no (fun x hx hm => (he x hx).2 (by simp [allWords, blnWords, hm])) _),
    bind_ok (exceptF_no (he.notWord (by decide)) _), bind_ok (replaceF_no (he.notWord (by decide)) _)]
  refine aliasF_no (fun x hx => ?_) _
  rcases h with ⟨rfl, -⟩ | ⟨w, rest', rfl, h, -⟩
  · cases hx
  · cases hx; exact h

theorem whole_spec {a : ExprArgs} (h : a.whole = true) : (a.isRightHand || a.isChainedColumns) = false ∧
    (!a.canBeType && !a.isChainedColumns) = true ∧ a.firstToken = none := by
  simp only [ExprArgs.whole, Bool.and_eq_true, Bool.not_eq_true', Option.isNone_iff_eq_none] at h
  obtain ⟨⟨⟨h1, h2⟩, h3⟩, h4⟩ := h
  simp [h1, h2, h3, h4]

theorem CndOk.full {n : Node} (h : CndOk n) (hne : ∀ ts, Reads (toks n) ts → ts ≠ []) : FullOk n := by
  intro ts hr
  cases ts with
  | nil => exact absurd rfl (hne _ hr)
  | cons main ts =>
    obtain ⟨n', hn, h⟩ := h main ts hr
    refine ⟨n', hn, fun a rest f ha he => ?_⟩
    obtain ⟨h1, h2, h3⟩ := whole_spec ha
    refine Ev.next (h a rest f h2 he.fin (he.ends.mono (fun _ h => h) (by decide))) fun r h4 => ?_
    show exprF r _ _ = _
    rw [exprF_full h1, List.cons_append, bind_ok (mainToken_none h3 _ _ _), bind_ok h4]
    exact endM_no he _

theorem aliasF_raw {r : Rec} {n : Node} {s : Str} (hs : ident s = true) :
    aliasF r {} n (some s) ⟨[], none⟩ = .ok ((.alias n (.raw s) false, none), ⟨[], none⟩) := by
  obtain ⟨q1, q2, q3, q4, -⟩ := quiet_ident hs
  have h1 : s ≠ str!")" := by rintro rfl; exact absurd q1 (by simp [isDelim])
  have h2 : s ≠ str!";" := by
    rintro rfl
    exact q3 (by rw [lower_self (by decide) (by decide)]; decide)
  have h3 : lower s ≠ str!"as" := fun h => q3 (by rw [h]; decide)
  unfold aliasF
  simp only
  rw [if_pos ⟨h1, fun h => q2 h.1, h2, by simp, by trivial⟩, if_neg h3, if_neg q2]
  rfl

theorem endM_alias {r : Rec} {n : Node} {t : Str} (he : Ends cndSyms allWords (some t)) (s : Stream) :
    endM r {} (n, some t) s = aliasF r {} n (some t) s := by
  unfold endM
  rw [bind_ok (boolF_no (fun x hx hm => (he x hx).2 (by simp [allWords, blnWords, hm])) _),
    bind_ok (exceptF_no (he.notWord (by decide)) _), bind_ok (replaceF_no (he.notWord (by decide)) _)]

theorem as_ends {t : Str} (h : lower t = str!"as") : Ends cndSyms allWords (some t) :=
  ends_lower h (by decide) (by decide) fun _ h => h

theorem secondary_column {r : Rec} {a : ExprArgs} {main : Str} {t : Option Str} (ha : a.canBeType = false)
    (he : Ends atomSyms atomWords t) (hm : main ≠ str!"-") (s : Stream) :
    secondaryF r a main t s = .ok ((.column main, t), s) := by
  unfold secondaryF
  rw [if_neg (he.ne (by decide)), if_neg, if_neg, if_neg (he.ne (by decide))]
  · cases t with
    | none => rfl
    | some tok =>
      simp only [hm, false_and, if_false]
      rw [if_neg]
      · rfl
      · rintro ⟨-, h⟩
        have : ∀ q ∈ quotes, q ∈ atomWords := by decide
        exact (he tok rfl).2 (this _ h)
  · rintro ⟨-, h⟩; rw [ha] at h; cases h
  · rintro ⟨-, h⟩
    rw [he.notWord (by decide)] at h
    cases h

theorem primary_no {r : Rec} {a : ExprArgs} {main : Str} (h : NotPrimary main) (s : Stream) :
    primaryF r a main s = .ok ((none, none), s) := by
  have hw := h.word
  simp only [List.mem_append, List.mem_cons, List.not_mem_nil, or_false, not_or] at hw
  obtain ⟨⟨⟨h1, h2⟩, h3⟩, h4, h5, h6⟩ := hw
  unfold primaryF
  have h12 : lower main ∉ trueValues ++ falseValues := by simp [h1, h2]
  simp only [h.quote, h.digits, h.dotted, h12, h3, h4, h.open_, h.square, h5, h6, Bool.false_eq_true, if_false]
  rfl

theorem ident_spec {s : Str} (h : ident s = true) : NotPrimary s ∧ s ≠ str!"-" ∧ '.' ∉ s := by
  have hq := quiet_ident h
  simp only [ident, Bool.and_eq_true, decide_eq_true_eq, Bool.not_eq_true'] at h
  obtain ⟨⟨⟨⟨⟨h1, h2⟩, h3⟩, h4⟩, -⟩, -⟩ := h
  have hdot : '.' ∉ s := by
    intro hm
    have := List.all_eq_true.1 h2 _ hm
    simp at this
  have hd := hq.1
  simp only [isDelim, Bool.or_eq_false_iff, decide_eq_false_iff_not] at hd
  refine ⟨⟨hq.2.1, h3, ?_, ?_, hd.1.1.1.1.1, hd.1.1.1.2⟩, ?_, hdot⟩
  · unfold isDottedDigits
    rw [List.filter_eq_self.2]
    · exact h3
    · intro c hc
      simp only [decide_eq_true_eq]
      rintro rfl; exact hdot hc
  · intro hm
    have : ∀ w ∈ trueValues ++ falseValues ++ nullValues ++ [str!"not", str!"case", str!"select"], w ∈ reserved := by
      decide
    exact h4 (this _ hm)
  · rintro rfl; exact absurd h2 (by decide)

theorem atom_of_primary {r : Rec} {a : ExprArgs} {main : Str} {e : Node} {s : Stream} {rest : List Str}
    {f : Option PyErr} (h : primaryF r a main s = .ok ((some e, none), ⟨rest, f⟩)) (hf : rest = [] → f = none) :
    atomF r a main s = .ok ((e, rest.head?), ⟨rest.tail, f⟩) := by
  unfold atomF
  rw [bind_ok h]
  simp only
  rw [bind_ok (next?_run hf)]
  rfl

theorem atom_of_primary' {r : Rec} {a : ExprArgs} {main : Str} {e : Node} {s : Stream} {rest : List Str}
    {f : Option PyErr} (h : primaryF r a main s = .ok ((some e, rest.head?), ⟨rest.tail, f⟩))
    (hf : rest = [] → f = none) :
    atomF r a main s = .ok ((e, rest.head?), ⟨rest.tail, f⟩) := by
  unfold atomF
  rw [bind_ok h]
  cases rest with
  | nil => rw [hf rfl]; rfl
  | cons t ts => rfl

theorem atom_of_secondary {r : Rec} {a : ExprArgs} {main : Str} {rest : List Str} {f : Option PyErr}
    (h : NotPrimary main) (hf : rest = [] → f = none) :
    atomF r a main ⟨rest, f⟩ = secondaryF r a main rest.head? ⟨rest.tail, f⟩ := by
  unfold atomF
  rw [bind_ok (primary_no h _)]
  simp only
  rw [bind_ok (next?_run hf)]

theorem atom_column {a : ExprArgs} {s : Str} {rest : List Str} {f : Option PyErr} (h : NotPrimary s)
    (hm : s ≠ str!"-") (ha : a.canBeType = false) (hf : rest = [] → f = none)
    (he : Ends atomSyms atomWords rest.head?) (r : Rec) :
    atomF r a s ⟨rest, f⟩ = .ok ((.column s, rest.head?), ⟨rest.tail, f⟩) := by
  rw [atom_of_secondary h hf]
  exact secondary_column ha he hm _

theorem aliasF_as {al : Node} {as : Str} {ys : List Str} (has : lower as = str!"as") (hc : OpdOk al) (hr : Reads (toks al) ys)
    (hy : ys ≠ []) : ∃ al', fold al' = al ∧ ∀ n : Node,
      Ev fun r => aliasF r {} n (some as) ⟨ys, none⟩ = .ok ((.alias n al' true, none), ⟨[], none⟩) := by
  obtain ⟨al', hn, h⟩ := hc.rhs hr hy
  refine ⟨al', hn, fun n => (h [] [] none (fun _ => rfl) .none).mono fun r h1 => ?_⟩
  have e1 : as ≠ str!")" := by rintro rfl; rw [lower_bracket (by decide)] at has; exact absurd has (by decide)
  have e2 : as ≠ str!";" := by
    rintro rfl; rw [lower_self (by decide) (by decide)] at has; exact absurd has (by decide)
  have e3 : as ∉ quotes := fun hm => by rw [lower_quote hm] at has; subst has; exact absurd hm (by decide)
  unfold aliasF
  simp only
  rw [if_pos ⟨e1, fun h => e3 h.1, e2, by simp, by trivial⟩, if_pos has]
  simp only [List.append_nil] at h1
  rw [bind_ok h1]
  rfl

theorem CndOk.aliased {n : Node} (h : CndOk n) (hne : ∀ ts, Reads (toks n) ts → ts ≠ []) : AliasedOk n := by
  intro ts hr
  cases ts with
  | nil => exact absurd rfl (hne _ hr)
  | cons main ts =>
    obtain ⟨n', hn, h⟩ := h main ts hr
    refine ⟨n', hn, fun s hs => ?_, fun as al ys has hc hy hne => ?_⟩
    · refine Ev.next (h {} [s] none rfl (by simp) ((ident_ends hs).mono (fun _ h => h) (by decide))) fun r h4 => ?_
      show exprF r _ _ = _
      rw [exprF_full rfl, List.cons_append, bind_ok (mainToken_none rfl _ _ _), bind_ok h4]
      exact (endM_alias (ident_ends hs) _).trans (aliasF_raw hs)
    · obtain ⟨al', hal, ha⟩ := aliasF_as has hc hy hne
      refine ⟨al', hal, Ev.next ((h {} (as :: ys) none rfl (by simp) ((as_ends has).mono (fun _ h => h) (by decide))).and
        (ha n')) ?_⟩
      rintro r ⟨h4, h5⟩
      show exprF r _ _ = _
      rw [exprF_full rfl, List.cons_append, bind_ok (mainToken_none rfl _ _ _), bind_ok h4]
      exact (endM_alias (as_ends has) _).trans h5

theorem FullOk.item {n : Node} (h : FullOk n) : ItemOk n := by
  intro ts hr
  obtain ⟨n', hn, h⟩ := h ts hr
  refine ⟨n', none, hn, ?_⟩
  have := h {} [] none rfl (.inl ⟨rfl, rfl⟩)
  rwa [List.append_nil] at this

theorem reads_ne {n : Node} (hw : wf n = true) (hl : level n ≤ 4) (ts : List Str) (hr : Reads (toks n) ts) :
    ts ≠ [] := by
  obtain ⟨t, ts', rfl, -⟩ := first_token hw hl hr
  simp

theorem level_func {n : Node} (h : isFunction n = true) : level n = 0 := by
  cases n <;> simp [isFunction, isCall] at h <;> simp [level, h]

theorem isFunction_call {n : Node} (h : isCall n = true) : isFunction n = true := by
  cases n <;> simp [isCall] at h <;> simp [isFunction, isCall, h]

theorem FuncOk.atom {n : Node} (h : FuncOk n) : AtomOk n := by
  intro main ts hr
  obtain ⟨n', hn, h⟩ := h main ts hr
  exact ⟨n', hn, fun a rest f ha hf he => h a rest f ha hf (he.mono (by simp) (by decide))⟩

theorem ExprOk.ofCnd {n : Node} (hw : wf n = true) (hl : level n = 2) (h : CndOk n) : ExprOk n where
  call h := by have := level_func (isFunction_call h); omega
  func h := by have := level_func h; omega
  loop h := by have := level_base (n := n) (by simp [h]); omega
  atom h := by omega
  base h := by omega
  opd h := by omega
  cnd _ := h
  full _ := h.full (reads_ne hw (by omega))
  aliased _ := h.aliased (reads_ne hw (by omega))
  item _ := (h.full (reads_ne hw (by omega))).item

theorem ExprOk.ofOpd {n : Node} (hw : wf n = true) (hl : level n = 1) (h : OpdOk n)
    (hi : indexable n = true → LoopOk n := by exact fun h => absurd h Bool.false_ne_true) : ExprOk n where
  call h := by have := level_func (isFunction_call h); omega
  func h := by have := level_func h; omega
  loop := hi
  atom h := by omega
  base h := by omega
  opd _ := h
  cnd _ := h.cnd
  full _ := h.cnd.full (reads_ne hw (by omega))
  aliased _ := h.cnd.aliased (reads_ne hw (by omega))
  item _ := (h.cnd.full (reads_ne hw (by omega))).item

theorem ExprOk.ofBase {n : Node} (hw : wf n = true) (hl : level n = 0) (hc : isAtom n = false)
    (h : BaseOk n) : ExprOk n where
  call h := by cases n <;> simp [isAtom] at hc <;> simp [isCall] at h
  func h := by cases n <;> simp [isAtom] at hc <;> simp [isFunction, isCall] at h
  loop h := by cases n <;> simp [isAtom] at hc <;> simp [indexable] at h
  atom _ h := by rw [hc] at h; cases h
  base _ := h
  opd _ := h.opd
  cnd _ := h.opd.cnd
  full _ := h.opd.cnd.full (reads_ne hw (by omega))
  aliased _ := h.opd.cnd.aliased (reads_ne hw (by omega))
  item _ := (h.opd.cnd.full (reads_ne hw (by omega))).item

theorem ExprOk.ofAtom {n : Node} (hw : wf n = true) (hl : level n = 0) (h : AtomOk n)
    (hf : isFunction n = false := by rfl) (hi : indexable n = false := by rfl) : ExprOk n where
  call h := by rw [isFunction_call h] at hf; cases hf
  func h := by rw [h] at hf; cases hf
  loop h := by rw [h] at hi; cases hi
  atom _ _ := h
  base _ := h.base
  opd _ := h.base.opd
  cnd _ := h.base.opd.cnd
  full _ := h.base.opd.cnd.full (reads_ne hw (by omega))
  aliased _ := h.base.opd.cnd.aliased (reads_ne hw (by omega))
  item _ := (h.base.opd.cnd.full (reads_ne hw (by omega))).item

theorem ExprOk.ofFunc {n : Node} (hw : wf n = true) (hl : level n = 0) (h : FuncOk n)
    (hf : isCall n = true → CallOk n) : ExprOk n where
  call := hf
  func _ := h
  loop _ := h.loop
  atom _ _ := h.atom
  base _ := h.atom.base
  opd _ := h.atom.base.opd
  cnd _ := h.atom.base.opd.cnd
  full _ := h.atom.base.opd.cnd.full (reads_ne hw (by omega))
  aliased _ := h.atom.base.opd.cnd.aliased (reads_ne hw (by omega))
  item _ := (h.atom.base.opd.cnd.full (reads_ne hw (by omega))).item

theorem ExprOk.ofFree {n : Node} (hw : wf n = true) (hl : level n = 0) (h : FuncOk n)
    (hf : isFunction n = false := by rfl) : ExprOk n :=
  .ofFunc hw hl h fun h => by rw [isFunction_call h] at hf; cases hf

theorem ExprOk.ofItem {n : Node} (hl : 4 ≤ level n) (h : level n ≤ 5 → ItemOk n) : ExprOk n where
  call h := by have := level_func (isFunction_call h); omega
  func h := by have := level_func h; omega
  loop h := by have := level_base (n := n) (by simp [h]); omega
  atom h := by omega
  base h := by omega
  opd h := by omega
  cnd h := by omega
  full h := by omega
  aliased h := by omega
  item := h

theorem ExprOk.ofFull {n : Node} (hl : level n = 3) (h : FullOk n) (h' : AliasedOk n) : ExprOk n where
  call h := by have := level_func (isFunction_call h); omega
  func h := by have := level_func h; omega
  loop h := by have := level_base (n := n) (by simp [h]); omega
  atom h := by omega
  base h := by omega
  opd h := by omega
  cnd h := by omega
  full _ := h
  aliased _ := h'
  item _ := h.item

end

end SqlV.Core
