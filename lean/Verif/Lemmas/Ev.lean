import Verif.Lemmas.CoreToks
import Verif.Parser

/-! Parsers with enough fuel, on streams that begin with given tokens. -/

set_option linter.unusedSectionVars false

namespace SqlV.Core

open Scan

variable [E : PyEnv]

/-- With enough fuel the property holds. -/
def Ev (p : Rec → Prop) : Prop := ∃ n, ∀ m, n ≤ m → p (parsers m)

theorem Ev.of {p : Rec → Prop} (h : ∀ r, p r) : Ev p := ⟨0, fun _ _ => h _⟩

theorem Ev.mono {p q : Rec → Prop} (h : Ev p) (hpq : ∀ r, p r → q r) : Ev q := by
  obtain ⟨n, h⟩ := h
  exact ⟨n, fun m hm => hpq _ (h m hm)⟩

theorem Ev.and {p q : Rec → Prop} (h : Ev p) (h' : Ev q) : Ev fun r => p r ∧ q r := by
  obtain ⟨n, h⟩ := h
  obtain ⟨n', h'⟩ := h'
  exact ⟨max n n', fun m hm => ⟨h m (by omega), h' m (by omega)⟩⟩

/-- One level deeper. -/
theorem Ev.next {p q : Rec → Prop} (h : Ev p) (hpq : ∀ r, p r → q r.next) : Ev q := by
  obtain ⟨n, h⟩ := h
  refine ⟨n + 1, fun m hm => ?_⟩
  obtain ⟨m, rfl⟩ : ∃ k, m = k + 1 := ⟨m - 1, by omega⟩
  exact hpq _ (h m (by omega))

theorem Ev.next0 {q : Rec → Prop} (h : ∀ r : Rec, q r.next) : Ev q :=
  Ev.next (p := fun _ => True) (Ev.of fun _ => trivial) fun r _ => h r

/-! ### Running parsers -/

theorem bind_run {α β : Type} (p : P α) (k : α → P β) (s : Stream) :
    (p >>= k) s = match p s with
      | .ok (a, s') => k a s'
      | .err e => .err e
      | .diverge => .diverge := rfl

theorem bind_ok {α β : Type} {p : P α} {k : α → P β} {s s' : Stream} {a : α} (h : p s = .ok (a, s')) :
    (p >>= k) s = k a s' := by rw [bind_run, h]

theorem pure_run {α : Type} (a : α) (s : Stream) : (pure a : P α) s = .ok (a, s) := rfl

theorem bind_assoc' {α β γ : Type} (p : P α) (k : α → P β) (l : β → P γ) :
    (p >>= k) >>= l = p >>= fun a => k a >>= l := by
  funext s
  simp only [bind_run]
  cases p s <;> rfl

theorem sub_ok {α : Type} {l : List Str} {p : P α} {a : α} {s s' : Stream} (h : p ⟨l, none⟩ = .ok (a, s')) :
    P.sub l p s = .ok (a, s) := by simp [P.sub, h]

theorem assert_true {s : Stream} {b : Bool} (h : b = true) : P.assert b s = .ok ((), s) := by
  subst h; rfl

theorem next?_run {rest : List Str} {f : Option PyErr} (h : rest = [] → f = none) :
    next? ⟨rest, f⟩ = .ok (rest.head?, ⟨rest.tail, f⟩) := by
  cases rest with
  | nil => rw [h rfl]; rfl
  | cons t ts => rfl

theorem next?_cons (t : Str) (ts : List Str) (f : Option PyErr) :
    next? ⟨t :: ts, f⟩ = .ok (some t, ⟨ts, f⟩) := rfl

theorem next!_cons (t : Str) (ts : List Str) (f : Option PyErr) :
    next! ⟨t :: ts, f⟩ = .ok (t, ⟨ts, f⟩) := rfl

/-! ### What may follow -/

/-- The token is none of the symbols, nor, in lower case, one of the words. -/
def Ends (syms words : List Str) (t : Option Str) : Prop := ∀ x, t = some x → x ∉ syms ∧ lower x ∉ words

theorem Ends.mono {syms words syms' words' : List Str} {t : Option Str} (h : Ends syms words t)
    (hs : ∀ x ∈ syms', x ∈ syms) (hw : ∀ x ∈ words', x ∈ words) : Ends syms' words' t :=
  fun x hx => ⟨fun hm => (h x hx).1 (hs x hm), fun hm => (h x hx).2 (hw _ hm)⟩

theorem Ends.none {syms words : List Str} : Ends syms words none := fun _ h => by cases h

theorem Ends.ne {syms words : List Str} {t : Option Str} (h : Ends syms words t) {w : Str} (hw : w ∈ syms) :
    t ≠ some w := by
  rintro rfl
  exact (h w rfl).1 hw

theorem Ends.notWord {syms words : List Str} {t : Option Str} (h : Ends syms words t) {w : Str} (hw : w ∈ words) :
    isWord t w = false := by
  cases t with
  | none => simp [isWord, lower?]
  | some t =>
    simp only [isWord, lower?, Option.map_some, Option.some.injEq, decide_eq_false_iff_not]
    rintro rfl
    exact (h t rfl).2 hw

theorem isWord_lower {t w : Str} : isWord (some t) w = true ↔ lower t = w := by
  simp [isWord, lower?]

theorem isWord_some {t : Option Str} {w : Str} : isWord t w = true ↔ ∃ x, t = some x ∧ lower x = w := by
  cases t <;> simp [isWord, lower?]

def atomSyms : List Str := [str!"(", str!"[", str!"'", str!"\"", str!"`"]
def atomWords : List Str := [str!"over", str!"filter", str!"from", str!"'", str!"\"", str!"`"]
def baseSyms : List Str := str!"." :: atomSyms
def opdSyms : List Str := baseSyms ++ arithSymbols
/-- Between the indices of an expression. -/
def loopSyms : List Str := str!"." :: arithSymbols
def cndSyms : List Str := opdSyms ++ bitOperators
def cndWords : List Str := atomWords ++ predicates ++ [str!"between"]
def blnWords : List Str := cndWords ++ boolPredicates
def allWords : List Str := blnWords ++ [str!"except", str!"replace"]

/-- Words that begin a clause, or a semicolon. -/
def clauseWords : List Str :=
  [str!"where", str!"group", str!"having", str!"order", str!"limit", str!"offset", str!";"]

section
variable [L : LawfulPyEnv E]

theorem sym_lower : ∀ x ∈ cndSyms, lower x = x := by
  have : ∀ x ∈ cndSyms, x.all isAscii ∧ x.map Char.toLower = x := by decide
  exact fun x hx => lower_self (this x hx).1 (this x hx).2

theorem ends_lower {t w : Str} {syms words : List Str} (h : lower t = w) (h1 : w ∉ syms)
    (h2 : w ∉ words) (h3 : ∀ x ∈ syms, x ∈ cndSyms) : Ends syms words (some t) := by
  rintro x ⟨⟩
  refine ⟨fun hm => h1 ?_, by rw [h]; exact h2⟩
  rw [← h, sym_lower t (h3 t hm)]
  exact hm

theorem ends_clause {t : Str} (h : lower t ∈ clauseWords) : Ends cndSyms allWords (some t) := by
  have key : ∀ w ∈ clauseWords, w ∉ cndSyms ∧ w ∉ allWords := by decide
  exact ends_lower rfl (key _ h).1 (key _ h).2 fun _ h => h

theorem ident_ends {s : Str} (h : ident s = true) : Ends cndSyms allWords (some s) := by
  rintro x ⟨⟩
  simp only [ident, Bool.and_eq_true, decide_eq_true_eq, Bool.not_eq_true'] at h
  obtain ⟨⟨⟨⟨⟨h1, h2⟩, h3⟩, h4⟩, h5⟩, h6⟩ := h
  constructor
  · intro hm
    have key : ∀ x ∈ cndSyms, (x.all (fun c => !Lex.isQuote c && !Lex.isBlank c && !Lex.isPunct c &&
        decide (c ≠ '.') && decide (c ≠ '\\')) = false) ∨ Lex.opens x = true ∨
        x ∈ [str!"&", str!"^", str!"#"] := by decide
    rcases key s hm with h | h | h
    · rw [h2] at h; cases h
    · rw [h5] at h; cases h
    · exact h6 h
  · intro hm
    have : ∀ w ∈ allWords, w ∈ reserved := by decide
    exact h4 (this _ hm)

end

end SqlV.Core
