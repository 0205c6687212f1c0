import Verif.Lemmas.DocLex
import Verif.Props.Quotes

/-! Texts whose literals have the same kind of quote, with any other quotes inside: they are read as the reference lexer reads them. -/

set_option linter.unusedSectionVars false

namespace SqlV.Core

open Lex

section

variable [E : PyEnv]

theorem plainBy_none (m : Lit) (s : Str) : plainBy none m s = Lex.plain m s := by
  induction s generalizing m with
  | nil => cases m <;> rfl
  | cons c s ih =>
    cases m with
    | out => simp [plainBy, Lex.plain, ih]
    | lit q e u => simp [plainBy, Lex.plain, ih]

theorem endsEsc_last (w : Str) (c : Char) : endsEsc (w ++ [c]) = decide (c = '\\') := by
  simp [endsEsc]

theorem cutAt_ne (q : Char) (s : Str) : ∀ (w : Str) (g : Bool), cutAt q w g s ≠ [] := by
  induction s with
  | nil => intro w g; simp [cutAt]
  | cons c s ih =>
    intro w g
    rw [cutAt]
    split
    · split
      · exact ih _ _
      · simp
    · exact ih _ _

/-- Characters of code. -/
def Bland (w : Str) : Prop := ∀ c ∈ w, isQuote c = false ∧ c ≠ '\\'

theorem Bland.esc {w : Str} (h : Bland w) : endsEsc w = false := by
  simp only [endsEsc, decide_eq_false_iff_not]
  intro hl
  exact (h _ (List.mem_of_getLast? hl)).2 rfl

theorem Bland.parts {w : Str} (h : Bland w) (n : Nat) : Lex.parts n w = [.code w] := by
  cases n with
  | zero => rfl
  | succ n =>
    have : w.find? isQuote = none := List.find?_eq_none.2 fun c hc => by simp [(h c hc).1]
    rw [Lex.parts, this]

theorem Bland.stuck {w : Str} (h : Bland w) : (Part.code w).stuck = false := by
  rw [Part.stuck, stuck_of_no_backslash fun hm => (h _ hm).2 rfl, Bool.or_false, List.any_eq_false]
  intro c hc
  simp [(h c hc).1]

/-- Code before a quote. -/
theorem go_bland {q : Char} (hq : isQuote q = true) (w s : Str) : ∀ run, (∀ c ∈ w, isQuote c = false) →
    go (.out run) (w ++ q :: s) = go (.out run) w ++ [q] :: go (.lit q []) s := by
  induction w with
  | nil => intro run _; simp [go, hq]
  | cons c w ih =>
    intro run h
    have hc := h c (by simp)
    have ih := fun run => ih run fun c hc => h c (by simp [hc])
    rw [List.cons_append, go, go]
    simp only [hc, ih]
    split
    · contradiction
    split
    · simp
    split
    · simp
    · rfl

/-- The parts of a text, and their tokens, from outside and from inside a literal. -/
theorem weave_same {q : Char} (hq : isQuote q = true) (n : Nat) (s : Str) :
    (∀ w, Bland w → plainBy (some q) .out s = true →
      (weave (Lex.parts n) q false (cutAt q w false s)).flatMap Part.words = go (.out []) (w ++ s) ∧
      ∀ x ∈ weave (Lex.parts n) q false (cutAt q w false s), x.stuck = false) ∧
    (∀ w g, plainBy (some q) (.lit q (endsEsc w) g) s = true →
      (weave (Lex.parts n) q true (cutAt q w g s)).flatMap Part.words = go (.lit q w) s ∧
      ∀ x ∈ weave (Lex.parts n) q true (cutAt q w g s), x.stuck = false) := by
  have hqb : q ≠ '\\' := by rintro rfl; exact absurd hq (by decide)
  induction s with
  | nil =>
    refine ⟨fun w hw _ => ?_, fun w g h => ?_⟩
    · rw [cutAt, hw.esc, Bool.false_and, if_neg Bool.false_ne_true, List.append_nil, weave, if_pos rfl, List.append_nil]
      split
      · next h => subst h; exact ⟨rfl, by simp⟩
      · rw [if_neg Bool.false_ne_true, hw.parts]
        refine ⟨by simp [Part.words, raw], fun x hx => ?_⟩
        rw [List.mem_singleton] at hx
        rw [hx, hw.stuck]
    · have he : endsEsc w = false := by simpa [plainBy] using h
      rw [cutAt, he, Bool.false_and, if_neg Bool.false_ne_true, weave, if_pos rfl, if_pos rfl, List.append_nil, go]
      cases w with
      | nil => exact ⟨rfl, by simp⟩
      | cons c w => exact ⟨by simp [Part.words, tok], by simp [Part.stuck]⟩
  | cons c s ih =>
    obtain ⟨ih1, ih2⟩ := ih
    refine ⟨fun w hw h => ?_, fun w g h => ?_⟩
    · rw [plainBy] at h
      by_cases hc : isQuote c = true
      · rw [if_pos hc, Bool.and_eq_true] at h
        have hcq : q = c := by simpa using h.1
        subst hcq
        obtain ⟨i1, i2⟩ := ih2 [] false h.2
        rw [cutAt, if_pos rfl, hw.esc, Bool.false_and, if_neg Bool.false_ne_true, weave, if_neg (cutAt_ne _ _ _ _), if_neg Bool.false_ne_true,
          go_bland hq _ _ _ fun c hc => (hw c hc).1]
        split
        · next h => subst h; exact ⟨by simp [Part.words, i1, go, chunk, cutDots, tok], by simpa [Part.stuck] using i2⟩
        · rw [hw.parts]
          refine ⟨by simp [Part.words, raw, i1], fun x hx => ?_⟩
          simp only [List.cons_append, List.nil_append, List.mem_cons, Bool.not_false] at hx
          rcases hx with rfl | rfl | hx
          · exact hw.stuck
          · rfl
          · exact i2 x hx
      · rw [if_neg hc, Bool.and_eq_true, decide_eq_true_eq] at h
        rw [cutAt, if_neg (by rintro rfl; exact hc hq)]
        have := ih1 (w ++ [c]) (fun x hx => by
          rcases List.mem_append.1 hx with hx | hx
          · exact hw x hx
          · rw [List.mem_singleton] at hx; subst hx; exact ⟨by simpa using hc, h.1⟩) h.2
        rwa [List.append_assoc, List.singleton_append] at this
    · rw [plainBy] at h
      by_cases hc : c = q
      · subst hc
        rw [if_pos rfl] at h
        rw [cutAt, if_pos rfl, go]
        cases he : endsEsc w with
        | true =>
          rw [he, if_pos rfl, Bool.and_eq_true, Bool.not_eq_true'] at h
          rw [h.1, if_pos (c := (true && !false) = true) rfl, if_neg (by simp)]
          exact ih2 _ _ (by rw [endsEsc_last, decide_eq_false hqb]; exact h.2)
        | false =>
          rw [he, if_neg Bool.false_ne_true] at h
          obtain ⟨i1, i2⟩ := ih1 [] (by simp [Bland]) h
          rw [Bool.false_and, if_neg Bool.false_ne_true, if_pos ⟨rfl, rfl⟩, weave, if_neg (cutAt_ne _ _ _ _), if_pos rfl]
          cases w with
          | nil => exact ⟨by simp [Part.words, tok, i1], by simpa [Part.stuck] using i2⟩
          | cons d w => exact ⟨by simp [Part.words, tok, i1], by simpa [Part.stuck] using i2⟩
      · rw [if_neg hc, Bool.and_eq_true] at h
        rw [cutAt, if_neg hc, go, if_neg (by simp [hc])]
        exact ih2 _ _ (by rw [endsEsc_last]; exact h.2)

/-- Without clashes there is one way to put operators together. -/
theorem pairUp_operate (n : Nat) : ∀ l : List Str, l.length ≤ n → noClash l = true → pairUp l = operate l := by
  induction n with
  | zero => intro l hl _; cases l with
    | nil => rfl
    | cons => simp at hl
  | succ n ih =>
    intro l hl h
    match l with
    | [] => rfl
    | [_] => rfl
    | a :: b :: rest =>
      rw [noClash, Bool.and_eq_true] at h
      have hr : noClash rest = true := by
        cases rest with
        | nil => rfl
        | cons c rest => have := h.2; rw [noClash, Bool.and_eq_true] at this; exact this.2
      have i1 := ih (b :: rest) (by simp at hl ⊢; omega) h.2
      have i2 := ih rest (by simp at hl ⊢; omega) hr
      rw [pairUp, operate]
      split
      · split
        · rw [i2]
        · next ho hn =>
          have hb : opens b = false := by
            have := h.1
            simpa [ho, hn] using this
          rw [← i1, i2]
          cases rest with
          | nil => rfl
          | cons c rest =>
            rw [pairUp, if_neg (by simp [hb]), ih (c :: rest) (by simp at hl ⊢; omega) hr]
      · next ho =>
        rw [i1, if_neg]
        intro hm
        exact ho (opens_of_append hm)

/-- A text whose literals all have the quotes `q` is read as the reference lexer reads it. -/
theorem tokens_same {q : Char} {s : Str} (hs : s ≠ []) (hq : isQuote q = true) (hp : plainBy (some q) .out s = true)
    (hc : noClash (raw s) = true) (depth : Nat) (hd : 21 ≤ depth) : toTokensAt depth s = ⟨tokens s, none⟩ := by
  have key : (Lex.parts 3 s).flatMap Part.words = raw s ∧ ∀ x ∈ Lex.parts 3 s, x.stuck = false := by
    rw [Lex.parts]
    have hall : ∀ s : Str, plainBy (some q) .out s = true → (s.find? isQuote = none → Bland s) ∧ ∀ p, s.find? isQuote = some p → p = q := by
      intro s
      induction s with
      | nil => intro _; exact ⟨fun _ => by simp [Bland], by simp⟩
      | cons c s ih =>
        intro h
        rw [plainBy] at h
        by_cases hc : isQuote c = true
        · rw [if_pos hc, Bool.and_eq_true] at h
          have hcq : q = c := by simpa using h.1
          simp [hc, hcq]
        · rw [if_neg hc, Bool.and_eq_true, decide_eq_true_eq] at h
          obtain ⟨i1, i2⟩ := ih h.2
          have hc : isQuote c = false := by simpa using hc
          rw [List.find?_cons, hc]
          refine ⟨fun hn x hx => ?_, i2⟩
          rcases List.mem_cons.1 hx with rfl | hx
          · exact ⟨hc, h.1⟩
          · exact i1 hn x hx
    cases hf : s.find? isQuote with
    | none =>
      have hw := (hall s hp).1 hf
      refine ⟨by simp [Part.words], fun x hx => ?_⟩
      rw [List.mem_singleton] at hx
      rw [hx, hw.stuck]
    | some p =>
      rw [(hall s hp).2 p hf]
      exact (weave_same hq 2 s).1 [] (by simp [Bland]) hp
  rw [C81_tokens s hs key.2 depth hd, key.1, pairUp_operate _ _ (Nat.le_refl _) hc, tokens]

end

end SqlV.Core
