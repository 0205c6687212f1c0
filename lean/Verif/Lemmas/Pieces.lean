import Verif.Lemmas.Merge

/-! The lexer on texts cut into words, literals and gaps; atomicity of tokens. -/

namespace SqlV

set_option linter.unusedSectionVars false

open Lex

variable [E : PyEnv]

theorem go_lit_close (q : Char) (c d w : Str) (h : q ∉ c) (he : endsEsc (w ++ c) = false) :
    go (.lit q w) (c ++ q :: d) = tok (w ++ c) ++ [q] :: raw d := by
  induction c generalizing w with
  | nil =>
    have he : endsEsc w = false := by simpa using he
    simp [go, raw, he]
  | cons x xs ih =>
    simp only [List.mem_cons, not_or] at h
    have := ih (w ++ [x]) h.2 (by simpa using he)
    simp [go, Ne.symm h.1, this]

/-- Literal contents allowed in a piece. -/
theorem lit_not_mem {q : Char} {c : Str} (h : (Piece.lit q c).Ok) : q ∉ c := by
  intro hc
  have := h.2.1 q hc
  rw [h.1] at this
  simp at this

theorem go_lit_piece {q : Char} {c : Str} (h : (Piece.lit q c).Ok) (d : Str) :
    go (.lit q []) (c ++ q :: d) = tok c ++ [q] :: raw d := by
  have := go_lit_close q c d [] (lit_not_mem h) (by simpa [endsEsc] using h.2.2)
  simpa using this

theorem go_cons_quote {q : Char} (hq : isQuote q) (run s : Str) :
    go (.out run) (q :: s) = chunk run ++ [q] :: go (.lit q []) s := by
  simp [go, hq]

theorem go_piece_lit {q : Char} {c : Str} (h : (Piece.lit q c).Ok) (run s : Str) :
    go (.out run) ((Piece.lit q c).text ++ s) = chunk run ++ [q] :: (tok c ++ [q] :: raw s) := by
  have := go_lit_piece h s
  simp only [Piece.text, List.cons_append, List.append_assoc, List.nil_append]
  rw [go_cons_quote h.1, this]

theorem go_gap {w : Str} (h : Blank w) (run s : Str) :
    go (.out run) (w ++ s) = if w = [] then go (.out run) s else chunk run ++ raw s := by
  induction w generalizing run with
  | nil => simp
  | cons c cs ih =>
    have hb := h c (by simp)
    have hq := (isBlank_facts hb).1
    have := ih (fun x hx => h x (by simp [hx])) []
    simp only [List.cons_append, go, hq, hb, Bool.false_eq_true, if_false, if_true, this]
    split <;> simp [raw, chunk_nil]

/-- Congruence of the lexer in the rest of the text. -/
theorem go_congr_word {w : Str} (hw : ∀ c ∈ w, isQuote c = false) {s s' : Str}
    (h : ∀ run, go (.out run) s = go (.out run) s') (run : Str) :
    go (.out run) (w ++ s) = go (.out run) (w ++ s') := by
  induction w generalizing run with
  | nil => exact h run
  | cons c cs ih =>
    have ih := ih fun x hx => hw x (by simp [hx])
    simp only [List.cons_append, go, hw c (by simp), Bool.false_eq_true, if_false, ih]

theorem go_sameWords {ps ps' : List Piece} (h : SameWords ps ps') (hok : ∀ p ∈ ps, p.Ok)
    (hok' : ∀ p ∈ ps', p.Ok) {t t' : Str} (ht : Blank t) (ht' : Blank t') (run : Str) :
    go (.out run) (text ps ++ t) = go (.out run) (text ps' ++ t') := by
  induction h generalizing run with
  | nil =>
    have h1 := go_gap ht run []
    have h2 := go_gap ht' run []
    simp only [List.append_nil, raw_nil, go] at h1 h2
    simp only [text, List.flatMap_nil, List.nil_append, h1, h2]
    split <;> split <;> simp
  | same p hs ih =>
    have ih := ih (fun x hx => hok x (by simp [hx])) (fun x hx => hok' x (by simp [hx]))
    have hp := hok p (by simp)
    simp only [text, List.flatMap_cons, List.append_assoc] at ih ⊢
    cases p with
    | word w => exact go_congr_word (fun c hc => (hp c hc).1) ih run
    | lit q c => rw [go_piece_lit hp, go_piece_lit hp, raw, raw, ih]
    | gap w => rw [Piece.text, go_gap hp.2, go_gap hp.2, raw, raw, ih, ih]
  | gap w w' hs ih =>
    have ih := ih (fun x hx => hok x (by simp [hx])) (fun x hx => hok' x (by simp [hx]))
    have hp := hok (.gap w) (by simp)
    have hp' := hok' (.gap w') (by simp)
    simp only [text, List.flatMap_cons, List.append_assoc] at ih ⊢
    rw [Piece.text, Piece.text, go_gap hp.2, go_gap hp'.2, if_neg hp.1, if_neg hp'.1, raw, raw, ih]

theorem plain_gap {w : Str} (h : Blank w) {s : Str} (hs : plain .out s) : plain .out (w ++ s) := by
  induction w with
  | nil => exact hs
  | cons c cs ih =>
    have hb := h c (by simp)
    have hc : c ≠ '\\' := by rintro rfl; simp [isBlank] at hb
    simp [plain, (isBlank_facts hb).1, hc, ih (fun x hx => h x (by simp [hx]))]

theorem plain_lit {q : Char} (hq : isQuote q) (c s : Str) (e u : Bool) (h : ∀ x ∈ c, isQuote x = false)
    (he : c.getLast? ≠ some '\\') (hce : c = [] → e = false) (hs : plain .out s) :
    plain (.lit q e u) (c ++ q :: s) := by
  induction c generalizing e with
  | nil => simp [plain, hce rfl, hs]
  | cons x xs ih =>
    have hx := h x (by simp)
    have hxq : x ≠ q := by rintro rfl; simp [hq] at hx
    simp only [List.cons_append, plain, hxq, if_false, hx, Bool.not_false, Bool.true_and]
    refine ih _ (fun y hy => h y (by simp [hy])) ?_ ?_
    · cases xs with
      | nil => simp
      | cons => simpa [List.getLast?_cons_cons] using he
    · rintro rfl; simpa using he

theorem plain_text {ps : List Piece} (hok : ∀ p ∈ ps, p.Ok) {t : Str} (ht : plain .out t) :
    plain .out (text ps ++ t) := by
  induction ps with
  | nil => simpa [text] using ht
  | cons p ps ih =>
    have ih := ih fun x hx => hok x (by simp [hx])
    have hp := hok p (by simp)
    simp only [text, List.flatMap_cons, List.append_assoc] at ih ⊢
    cases p with
    | word w =>
      simp only [Piece.text]
      replace hp : ∀ c ∈ w, isQuote c = false ∧ isBlank c = false ∧ c ≠ '\\' := hp
      clear hok
      induction w with
      | nil => simpa using ih
      | cons c cs ihw =>
        have hc := hp c (by simp)
        simp [plain, hc.1, hc.2.2, ihw (fun x hx => hp x (by simp [hx]))]
    | lit q c =>
      have := plain_lit hp.1 c _ false false hp.2.1 hp.2.2 (by simp) ih
      simpa [Piece.text, plain, hp.1] using this
    | gap w => exact plain_gap hp.2 ih

/-- Before a literal, a text made of pieces is read on its own. -/
theorem go_text_quote {ps : List Piece} (hok : ∀ p ∈ ps, p.Ok) {q : Char} (hq : isQuote q)
    (run s : Str) :
    go (.out run) (text ps ++ q :: s) = go (.out run) (text ps) ++ [q] :: go (.lit q []) s := by
  induction ps generalizing run with
  | nil => simp [text, go, hq]
  | cons p ps ih =>
    have ih := ih fun x hx => hok x (by simp [hx])
    have hp := hok p (by simp)
    simp only [text, List.flatMap_cons, List.append_assoc] at ih ⊢
    cases p with
    | word w =>
      simp only [Piece.text]
      replace hp : ∀ c ∈ w, isQuote c = false ∧ isBlank c = false ∧ c ≠ '\\' := hp
      clear hok
      induction w generalizing run with
      | nil => simpa using ih run
      | cons c cs ihw =>
        have hc := hp c (by simp)
        have ihw := fun run => ihw run (fun x hx => hp x (by simp [hx]))
        simp only [List.cons_append, go, hc.1, hc.2.1, Bool.false_eq_true, if_false, ihw]
        split <;> simp
    | lit q' c =>
      rw [go_piece_lit hp, go_piece_lit hp, raw, raw, ih]
      simp
    | gap w =>
      rw [Piece.text, go_gap hp.2, go_gap hp.2, if_neg hp.1, if_neg hp.1, raw, raw, ih]
      simp

theorem raw_around_lit {ps ps' : List Piece} (hok : ∀ p ∈ ps, p.Ok) {q : Char} {c : Str}
    (hl : (Piece.lit q c).Ok) :
    raw (text (ps ++ .lit q c :: ps')) =
      raw (text ps) ++ [q] :: (tok c ++ [q] :: raw (text ps')) := by
  have h1 := go_text_quote hok hl.1 [] (c ++ q :: text ps')
  rw [go_lit_piece hl] at h1
  simpa [text, raw, Piece.text] using h1

/-! ### Merging around quotes -/

theorem mergeStream_fail (n : Nat) : ∀ l : List Str, l.length ≤ n → (∀ t ∈ l, t ≠ []) →
    (mergeStream mergeTokens none l).fail = none := by
  induction n with
  | zero =>
    intro l hl _
    have : l = [] := by cases l <;> simp_all
    subst this; rfl
  | succ n ih =>
    intro l hl hne
    match l with
    | [] => rfl
    | [e] => rw [mergeStream_one]
    | e :: m :: rest =>
      simp only [List.length_cons] at hl
      have h1 := ih rest (by omega) (fun t ht => hne t (by simp [ht]))
      have h2 := ih (m :: rest) (by simp; omega) (fun t ht => hne t (by simp [ht]))
      rw [mergeStream_two _ _ _ _ (hne m (by simp))]
      split
      · split <;> simpa [Stream.cons] using h1
      · simpa [Stream.cons] using h2

theorem quote_isolated {q : Char} (hq : isQuote q) :
    opens [q] = false ∧ ∀ e : Str, e ++ [q] ∉ operators := by
  have : q = '\'' ∨ q = '"' ∨ q = '`' := by simp [isQuote] at hq; tauto
  constructor
  · rcases this with rfl | rfl | rfl <;> decide
  · intro e he
    have hm : q ∈ e ++ [q] := by simp
    have : ∀ o ∈ operators, q ∉ o := by
      rcases this with rfl | rfl | rfl <;> decide
    exact this _ he hm

theorem mergeStream_isolate {q : Char} (hq : isQuote q) (n : Nat) : ∀ l r : List Str, l.length ≤ n →
    (∀ t ∈ l, t ≠ []) → (∀ t ∈ r, t ≠ []) →
    mergeStream mergeTokens none (l ++ [q] :: r) =
      ⟨(mergeStream mergeTokens none l).toks ++ [q] :: (mergeStream mergeTokens none r).toks, none⟩ := by
  obtain ⟨h1, h2⟩ := quote_isolated hq
  have hstart : ∀ r : List Str, (∀ t ∈ r, t ≠ []) → mergeStream mergeTokens none ([q] :: r) =
      ⟨[q] :: (mergeStream mergeTokens none r).toks, none⟩ := by
    intro r hr
    cases r with
    | nil => rw [mergeStream_one]; rfl
    | cons m rest =>
      rw [mergeStream_two _ _ _ _ (hr m (by simp)),
        show startsMerge mergeTokens [q] = opens [q] from rfl, h1]
      have := mergeStream_fail _ (m :: rest) (Nat.le_refl _) hr
      simp [Stream.cons, this]
  induction n with
  | zero =>
    intro l r hl _ hr
    have : l = [] := by cases l <;> simp_all
    subst this
    simpa [mergeStream] using hstart r hr
  | succ n ih =>
    intro l r hl hne hr
    match l with
    | [] => simpa [mergeStream] using hstart r hr
    | [e] =>
      rw [List.singleton_append, mergeStream_two _ _ _ _ (by simp), mergeTokens_eq, if_neg (h2 e),
        ← mergeTokens_eq, hstart r hr, mergeStream_one]
      have := mergeStream_fail _ r (Nat.le_refl _) hr
      split <;> simp [Stream.cons, this]
    | e :: m :: rest =>
      simp only [List.length_cons] at hl
      rw [List.cons_append, List.cons_append, mergeStream_two _ _ _ _ (hne m (by simp)),
        mergeStream_two _ _ _ _ (hne m (by simp)), ← List.cons_append,
        ih rest r (by omega) (fun t ht => hne t (by simp [ht])) hr,
        ih (m :: rest) r (by simp; omega) (fun t ht => hne t (by simp [ht])) hr]
      split
      · split <;> simp [Stream.cons]
      · simp [Stream.cons]

/-! ### Atomic tokens -/

theorem cutDots_atomic (w s : Str) (hw : '.' ∉ w) (h : ∀ c ∈ w ++ s, isRun c) :
    ∀ t ∈ cutDots w s, Atomic t := by
  have hword : ∀ w : Str, '.' ∉ w → (∀ c ∈ w, isRun c) → ∀ t ∈ tok w, Atomic t := by
    intro w hd hr t ht
    rw [tok_eq_ne, SqlV.ne] at ht
    split at ht
    · simp at ht
    · rename_i hne
      simp only [List.mem_singleton] at ht
      subst ht
      refine .word _ (by simpa using hne) hd fun c hc => ?_
      have := hr c hc
      simp [isRun] at this
      tauto
  induction s generalizing w with
  | nil => exact hword w hw (by simpa using h)
  | cons c cs ih =>
    rw [cutDots]
    split
    · intro t ht
      simp only [List.mem_append, List.mem_cons] at ht
      rcases ht with ht | rfl | ht
      · exact hword w hw (fun x hx => h x (by simp [hx])) t ht
      · exact .dot
      · exact ih [] (by simp) (fun x hx => h x (by simp at hx; simp [hx])) t ht
    · rename_i hc
      exact ih (w ++ [c]) (by simp [hw, Ne.symm hc]) (fun x hx => h x (by simpa using hx))

theorem chunk_atomic (w : Str) (h : ∀ c ∈ w, isRun c) : ∀ t ∈ chunk w, Atomic t := by
  rw [chunk]
  split
  · rename_i hd
    intro t ht
    simp only [List.mem_singleton] at ht
    subst ht
    refine .number _ hd.1 hd.2 fun c hc => ?_
    have := h c hc
    simp [isRun] at this
    tauto
  · exact cutDots_atomic [] w (by simp) (by simpa using h)

theorem go_atomic (run s : Str) (h : ∀ c ∈ run, isRun c) (hs : ∀ c ∈ s, isQuote c = false) :
    ∀ t ∈ go (.out run) s, Atomic t := by
  induction s generalizing run with
  | nil => exact chunk_atomic run h
  | cons c cs ih =>
    have ih := fun r hr => ih r hr fun x hx => hs x (by simp [hx])
    have hc := hs c (by simp)
    simp only [go, hc, Bool.false_eq_true, if_false]
    split
    · intro t ht
      rcases List.mem_append.1 ht with ht | ht
      · exact chunk_atomic run h t ht
      · exact ih [] (by simp) t ht
    · split
      · rename_i hp
        intro t ht
        simp only [List.mem_append, List.mem_cons] at ht
        rcases ht with ht | rfl | ht
        · exact chunk_atomic run h t ht
        · exact .punct c hp
        · exact ih [] (by simp) t ht
      · rename_i hb hp
        refine ih _ fun x hx => ?_
        simp only [List.mem_append, List.mem_singleton] at hx
        rcases hx with hx | rfl
        · exact h x hx
        · simp only [isRun, hc, hb, hp]; decide

theorem mergeStream_mem (n : Nat) : ∀ l : List Str, l.length ≤ n → (∀ t ∈ l, t ≠ []) →
    ∀ t ∈ (mergeStream mergeTokens none l).toks, t ∈ l ∨ t ∈ operators := by
  induction n with
  | zero =>
    intro l hl _
    have : l = [] := by cases l <;> simp_all
    subst this; simp [mergeStream]
  | succ n ih =>
    intro l hl hne
    match l with
    | [] => simp [mergeStream]
    | [e] => rw [mergeStream_one]; simp
    | e :: m :: rest =>
      simp only [List.length_cons] at hl
      have h1 := ih rest (by omega) (fun t ht => hne t (by simp [ht]))
      have h2 := ih (m :: rest) (by simp; omega) (fun t ht => hne t (by simp [ht]))
      rw [mergeStream_two _ _ _ _ (hne m (by simp))]
      intro t ht
      split at ht
      · split at ht
        · rename_i hop
          simp only [Stream.cons, List.mem_cons] at ht
          rcases ht with rfl | ht
          · exact .inr hop
          · rcases h1 t ht with h | h <;> simp [h]
        · simp only [Stream.cons, List.mem_cons] at ht
          rcases ht with rfl | rfl | ht
          · simp
          · simp
          · rcases h1 t ht with h | h <;> simp [h]
      · simp only [Stream.cons, List.mem_cons] at ht
        rcases ht with rfl | ht
        · simp
        · rcases h2 t ht with h | h
          · left; simp only [List.mem_cons] at h ⊢; tauto
          · simp [h]

end SqlV
