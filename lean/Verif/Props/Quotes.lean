import Verif.Lemmas.Quotes
import Verif.Props.Tokens

/-!
# The tokens of every text (C81)

`parts 3 s` (in `Verif/Spec/Quotes.lean`) is the text cut at its quotes.
-/

namespace SqlV

set_option linter.unusedSectionVars false

open Lex

section

variable [E : PyEnv]

theorem weave_words (outside : Str → List Part) (q : Char) (hout : ∀ p, p ≠ [] → ∀ x ∈ outside p, ∀ t ∈ x.words, t ≠ [])
    (l : List Str) : ∀ b, ∀ x ∈ weave outside q b l, ∀ t ∈ x.words, t ≠ [] := by
  induction l with
  | nil => intro b x hx; cases hx
  | cons p ps ih =>
    intro b x hx t ht
    rw [weave] at hx
    rcases List.mem_append.1 hx with hx | hx
    · by_cases hp : p = []
      · simp [hp] at hx
      · cases b
        · exact hout p hp x (by simpa [hp] using hx) t ht
        · have : x = .content p := by simpa [hp] using hx
          subst this
          have : t = p := by simpa [Part.words] using ht
          rwa [this]
    · split at hx
      · cases hx
      · rcases List.mem_cons.1 hx with rfl | hx
        · have : t = [q] := by simpa [Part.words] using ht
          simp [this]
        · exact ih _ x hx t ht

theorem parts_words (n : Nat) : ∀ s, ∀ x ∈ parts n s, ∀ t ∈ x.words, t ≠ [] := by
  have code : ∀ s : Str, ∀ x ∈ [Part.code s], ∀ t ∈ x.words, t ≠ [] := by
    intro s x hx t ht
    rw [List.mem_singleton] at hx
    subst hx
    exact (raw_spells s).nonempty t ht
  induction n with
  | zero => exact code
  | succ n ih =>
    intro s
    rw [parts]
    split
    · exact code s
    · exact weave_words _ _ (fun p _ => ih p) _ _

/-- C81: the tokens of every text no part of which is stuck, at every sufficient recursion depth: those of its parts in order, with the
two-character operators put together. -/
theorem C81_tokens (s : Str) (hs : s ≠ []) (h : ∀ x ∈ parts 3 s, x.stuck = false) (depth : Nat) (hd : 21 ≤ depth) :
    toTokensAt depth s = ⟨pairUp ((parts 3 s).flatMap Part.words), none⟩ := by
  rw [toTokensAt, splitTokens_parts 3 depth s hd hs h]
  refine mergeStream_pairUp _ _ (Nat.le_refl _) fun t ht => ?_
  obtain ⟨x, hx, ht⟩ := List.mem_flatMap.1 ht
  exact parts_words 3 s x hx t ht

/-- C81, and C02 for all texts: tokenising raises a `RecursionError` if a part of the text is stuck, and nothing otherwise. -/
theorem C81_raises_iff [L : LawfulPyEnv E] (s : Str) :
    if ∃ x ∈ parts 3 s, x.stuck = true then ∀ depth, (toTokensAt depth s).fail = some .recursion
    else ∀ depth, 21 ≤ depth → (toTokensAt depth s).fail = none := by
  split
  · rename_i h
    intro depth
    rw [toTokensAt, merge_fail _ _ _ (Nat.le_refl _)]
    refine splitTokens_stuck_parts 3 ['\'', '"', '`'] s (Nat.le_refl _) ?_ h depth
    intro k hk hn
    simp [isQuote] at hk hn
    tauto
  · rename_i h
    intro depth hd
    by_cases hs : s = []
    · subst hs
      obtain ⟨n, rfl⟩ : ∃ n, depth = n + 1 := ⟨depth - 1, by omega⟩
      rfl
    · rw [C81_tokens s hs (fun x hx => by
        cases hx' : x.stuck
        · rfl
        · exact absurd ⟨x, hx, hx'⟩ h) depth hd]

/-- Tokens are put together from others, two at a time. -/
theorem pairUp_mem (n : Nat) : ∀ l : List Str, l.length ≤ n → ∀ t ∈ pairUp l, t ∈ l ∨ t ∈ operators := by
  induction n with
  | zero =>
    intro l hl t ht
    have : l = [] := by cases l <;> simp_all
    subst this
    cases ht
  | succ n ih =>
    intro l hl t ht
    match l with
    | [] => cases ht
    | [a] => exact .inl ht
    | a :: b :: rest =>
      simp only [List.length_cons] at hl
      have h1 := ih rest (by omega) t
      have h2 := ih (b :: rest) (by simp; omega) t
      rw [pairUp] at ht
      split at ht
      · split at ht
        · rename_i hop
          rcases List.mem_cons.1 ht with rfl | ht
          · exact .inr hop
          · rcases h1 ht with h | h
            · exact .inl (by simp [h])
            · exact .inr h
        · simp only [List.mem_cons] at ht
          rcases ht with rfl | rfl | ht
          · exact .inl (by simp)
          · exact .inl (by simp)
          · rcases h1 ht with h | h
            · exact .inl (by simp [h])
            · exact .inr h
      · rcases List.mem_cons.1 ht with rfl | ht
        · exact .inl (by simp)
        · rcases h2 ht with h | h
          · exact .inl (List.mem_cons_of_mem _ h)
          · exact .inr h

/-- C81, and C05 for all texts: every token is atomic, a quote, or the content of a literal. -/
theorem C81_kinds (s : Str) (hs : s ≠ []) (h : ∀ x ∈ parts 3 s, x.stuck = false) :
    ∀ t ∈ (toTokens s).toks, Atomic t ∨ (∃ q, isQuote q = true ∧ t = [q] ∧ .mark q ∈ parts 3 s) ∨ .content t ∈ parts 3 s := by
  have marks : ∀ n s q, .mark q ∈ parts n s → isQuote q = true := by
    have hw : ∀ (outside : Str → List Part) (k : Char), isQuote k = true → (∀ p q, .mark q ∈ outside p → isQuote q = true) →
        ∀ (l : List Str) b q, .mark q ∈ weave outside k b l → isQuote q = true := by
      intro outside k hk hout l
      induction l with
      | nil => intro b q hq; cases hq
      | cons p ps ih =>
        intro b q hq
        rw [weave] at hq
        rcases List.mem_append.1 hq with hq | hq
        · split at hq
          · cases hq
          · split at hq
            · simp at hq
            · exact hout p q hq
        · split at hq
          · cases hq
          · rcases List.mem_cons.1 hq with hq | hq
            · cases hq; exact hk
            · exact ih _ q hq
    intro n
    induction n with
    | zero => intro s q hq; simp [parts] at hq
    | succ n ih =>
      intro s q hq
      rw [parts] at hq
      split at hq
      · simp at hq
      · rename_i k hk
        exact hw _ k (by simpa using List.find?_some hk) ih _ _ q hq
  intro t ht
  rw [toTokens, C81_tokens s hs h recursionLimit (by decide)] at ht
  rcases pairUp_mem _ _ (Nat.le_refl _) t ht with ht | ht
  · obtain ⟨x, hx, ht⟩ := List.mem_flatMap.1 ht
    cases x with
    | code c =>
      have hst := h _ hx
      rw [Part.stuck, Bool.or_eq_false_iff] at hst
      exact .inl (go_atomic [] c (by simp) (fun d hd => by simpa using List.any_eq_false.1 hst.1 d hd) t ht)
    | mark q =>
      have : t = [q] := by simpa [Part.words] using ht
      exact .inr (.inl ⟨q, marks 3 s q hx, this, hx⟩)
    | content c =>
      have : t = c := by simpa [Part.words] using ht
      subst this
      exact .inr (.inr hx)
  · exact .inl (.op t ht)

/-! ### Literals with other quotes inside -/

theorem cutAt_run {q : Char} {a : Str} (h : q ∉ a) (s : Str) : ∀ w g, cutAt q w g (a ++ s) = cutAt q (w ++ a) g s := by
  induction a with
  | nil => intro w g; simp
  | cons c cs ih =>
    intro w g
    simp only [List.mem_cons, not_or] at h
    rw [List.cons_append, cutAt, if_neg (Ne.symm h.1), ih h.2]
    simp

/-- The pieces of a text whose literals have the same kind of quote. -/
def samePieces (code : Str) : List (Str × Str) → List Str
  | [] => [code]
  | (content, code') :: rest => code :: content :: samePieces code' rest

/-- Code without quotes, in which nothing is escaped, and contents without the quote that do not end in a backslash. -/
def SameOk (q : Char) (code : Str) (ls : List (Str × Str)) : Prop :=
  (∀ c ∈ code :: ls.map (·.2), (∀ x ∈ c, isQuote x = false) ∧ stuck c = false ∧ endsEsc c = false) ∧
    ∀ l ∈ ls, q ∉ l.1 ∧ endsEsc l.1 = false

theorem cut_same {q : Char} (hq : isQuote q = true) (ls : List (Str × Str)) : ∀ code, SameOk q code ls →
    cutAt q [] false (sameQuotes q code ls) = samePieces code ls := by
  induction ls with
  | nil =>
    intro code h
    obtain ⟨h1, h2, h3⟩ := h.1 code (by simp)
    have hn : q ∉ code := fun hm => by rw [h1 q hm] at hq; cases hq
    have := cutAt_run hn [] [] false
    rw [List.append_nil, List.nil_append] at this
    rw [sameQuotes, this]
    simp [cutAt, h3, samePieces]
  | cons l rest ih =>
    intro code h
    obtain ⟨content, code'⟩ := l
    obtain ⟨h1, h2, h3⟩ := h.1 code (by simp)
    obtain ⟨h4, h5⟩ := h.2 (content, code') (by simp)
    have hn : q ∉ code := fun hm => by rw [h1 q hm] at hq; cases hq
    have ih := ih code' ⟨fun c hc => h.1 c (by simp at hc; simp [hc]), fun l hl => h.2 l (by simp [hl])⟩
    rw [sameQuotes, List.append_assoc, List.cons_append, cutAt_run hn, cutAt, if_pos rfl, List.nil_append, h3]
    rw [Bool.false_and, if_neg (by simp), cutAt_run h4, cutAt, if_pos rfl, List.nil_append, h5]
    rw [Bool.false_and, if_neg (by simp), ih]
    rfl

theorem parts_code (n : Nat) {s : Str} (h : ∀ x ∈ s, isQuote x = false) : parts n s = [.code s] := by
  cases n with
  | zero => rfl
  | succ n =>
    have hf : s.find? isQuote = none := by
      rw [List.find?_eq_none]
      intro c hc hcq
      rw [h c hc] at hcq
      cases hcq
    rw [parts, hf]

theorem weave_same (n : Nat) {q : Char} (ls : List (Str × Str)) : ∀ code, SameOk q code ls →
    (weave (parts n) q false (samePieces code ls)).flatMap Part.words = sameWords q code ls ∧
      ∀ x ∈ weave (parts n) q false (samePieces code ls), x.stuck = false := by
  have hcode : ∀ code : Str, (∀ x ∈ code, isQuote x = false) → stuck code = false →
      (if code = [] then [] else parts n code).flatMap Part.words = raw code ∧
        ∀ x ∈ (if code = [] then [] else parts n code), x.stuck = false := by
    intro code h h'
    by_cases hc : code = []
    · subst hc; simp [raw_nil]
    · rw [if_neg hc, parts_code n h]
      refine ⟨by simp [Part.words], fun x hx => ?_⟩
      rw [List.mem_singleton] at hx
      subst hx
      rw [Part.stuck, h', Bool.or_false]
      exact List.any_eq_false.2 fun c hc => by simp [h c hc]
  induction ls with
  | nil =>
    intro code h
    obtain ⟨h1, h2, h3⟩ := h.1 code (by simp)
    simpa [samePieces, weave, sameWords] using hcode code h1 h2
  | cons l rest ih =>
    intro code h
    obtain ⟨content, code'⟩ := l
    obtain ⟨h1, h2, h3⟩ := h.1 code (by simp)
    obtain ⟨i1, i2⟩ := ih code' ⟨fun c hc => h.1 c (by simp at hc; simp [hc]), fun l hl => h.2 l (by simp [hl])⟩
    obtain ⟨c1, c2⟩ := hcode code h1 h2
    have hp : samePieces code' rest ≠ [] := by cases rest <;> simp [samePieces]
    have htok : (if content = [] then [] else [Part.content content]).flatMap Part.words = tok content := by
      cases content <;> simp [tok, Part.words]
    have hw : weave (parts n) q false (samePieces code ((content, code') :: rest)) =
        (if code = [] then [] else parts n code) ++ .mark q ::
          ((if content = [] then [] else [Part.content content]) ++ .mark q :: weave (parts n) q false (samePieces code' rest)) := by
      simp [samePieces, weave, hp]
    rw [hw]
    refine ⟨?_, ?_⟩
    · simp only [List.flatMap_append, List.flatMap_cons, c1, htok, i1, sameWords, Part.words]
      simp
    · intro x hx
      simp only [List.mem_append, List.mem_cons] at hx
      rcases hx with hx | rfl | hx | rfl | hx
      · exact c2 x hx
      · rfl
      · split at hx
        · cases hx
        · rw [List.mem_singleton] at hx; subst hx; rfl
      · rfl
      · exact i2 x hx

/-- C81, and C04 and C06 for literals with other quotes inside: if all literals of a text have the same kind of quote, then quotes of
the other kinds in them are not special. -/
theorem C81_same_quotes (q : Char) (hq : isQuote q = true) (code : Str) (ls : List (Str × Str)) (h : SameOk q code ls)
    (hs : sameQuotes q code ls ≠ []) (depth : Nat) (hd : 21 ≤ depth) :
    toTokensAt depth (sameQuotes q code ls) = ⟨pairUp (sameWords q code ls), none⟩ := by
  cases ls with
  | nil =>
    obtain ⟨h1, h2, h3⟩ := h.1 code (by simp)
    have hp : parts 3 code = [.code code] := parts_code 3 h1
    have := C81_tokens code hs (by
      rw [hp]
      intro x hx
      rw [List.mem_singleton] at hx
      subst hx
      rw [Part.stuck, h2, Bool.or_false]
      exact List.any_eq_false.2 fun c hc => by simp [h1 c hc]) depth hd
    rw [hp] at this
    simpa [sameQuotes, sameWords, Part.words] using this
  | cons l rest =>
    have hf : (sameQuotes q code (l :: rest)).find? isQuote = some q := by
      obtain ⟨content, code'⟩ := l
      obtain ⟨h1, h2, h3⟩ := h.1 code (by simp)
      rw [sameQuotes, List.append_assoc, List.find?_append, List.find?_eq_none.2 (fun x hx => by simp [h1 x hx])]
      simp [hq]
    have hp : parts 3 (sameQuotes q code (l :: rest)) = weave (parts 2) q false (samePieces code (l :: rest)) := by
      rw [parts, hf, ← cut_same hq _ _ h]
    obtain ⟨w1, w2⟩ := weave_same 2 (l :: rest) code h
    rw [C81_tokens _ hs (by rw [hp]; exact w2) depth hd, hp, w1]

end

/-! ### Concrete cases -/

/-- Non-vacuity of C81: quotes inside literals, and the kind that comes first. -/
example : parts 3 str!"a \"it's\" 'x' b" =
      [.code str!"a ", .mark '"', .content str!"it's", .mark '"', .code str!" ", .mark '\'', .content str!"x", .mark '\'', .code str!" b"] ∧
    (∀ x ∈ parts 3 str!"a \"it's\" 'x' b", x.stuck = false) ∧
    @toTokens asciiEnv str!"a \"it's\" 'x' b" =
      ⟨[str!"a", str!"\"", str!"it's", str!"\"", str!"'", str!"x", str!"'", str!"b"], none⟩ := by
  decide +kernel

/-- The other way round, the literal in double quotes is cut. -/
example : parts 3 str!"'x' \"it's\" a" =
      [.mark '\'', .content str!"x", .mark '\'', .code str!" ", .mark '"', .content str!"it", .mark '\'', .content str!"s\" a"] := by
  decide +kernel

/-- Non-vacuity of `C81_raises_iff`: an escaped quote outside literals, and one that becomes the content of a literal. -/
example : (∃ x ∈ parts 3 str!"a \\'b", x.stuck = true) ∧ (∃ x ∈ parts 3 str!"'a' \"b\" c\\,d", x.stuck = true) ∧
    ¬(∃ x ∈ parts 3 str!"'a' \"b\\'c\" d", x.stuck = true) := by
  decide +kernel

/-- Non-vacuity of `C81_same_quotes`. -/
example : SameOk '"' str!"select " [(str!"it's", str!", "), (str!"`", str!" from t")] ∧
    sameQuotes '"' str!"select " [(str!"it's", str!", "), (str!"`", str!" from t")] = str!"select \"it's\", \"`\" from t" := by
  refine ⟨⟨?_, ?_⟩, rfl⟩ <;> decide

end SqlV
