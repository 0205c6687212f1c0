import Verif.Lemmas.Pieces
import Verif.Lemmas.Doc

/-! Reading blocks of lines back: the reference lexer line by line, and operators. -/

set_option linter.unusedSectionVars false

namespace SqlV.Core

open Lex

section

variable [E : PyEnv]

/-! ### Lines -/

/-- A character that ends a word. -/
def isSep (c : Char) : Bool := isQuote c || isBlank c || isPunct c

/-- Nothing, or a text that begins with a separator. -/
def Sep (s : Str) : Prop := ∀ c, s.head? = some c → isSep c = true

/-- Outside literals there is no backslash, and no literal has more than one escaped quote or is cut off after a backslash.  Moreover, no
literal contains a quote of another kind, or, given a kind of quote, this is the kind of all literals. -/
def plainBy (only : Option Char) : Lit → Str → Bool
  | .out, [] => true
  | .out, c :: cs =>
    if isQuote c then (only == none || only == some c) && plainBy only (.lit c false false) cs else c ≠ '\\' && plainBy only .out cs
  | .lit _ esc _, [] => !esc
  | .lit q esc used, c :: cs =>
    if c = q then
      if esc then !used && plainBy only (.lit q false true) cs else plainBy only .out cs
    else (only != none || !isQuote c) && plainBy only (.lit q (c = '\\') used) cs

theorem chain_append {only : Option Char} : ∀ {l m : List Str}, chain only (l ++ m) = true → chain only l = true ∧ chain only m = true
  | [], _, h => ⟨rfl, h⟩
  | [_], [], _ => ⟨rfl, rfl⟩
  | [_], _ :: _, h => by
    rw [List.cons_append, List.nil_append, chain, Bool.and_eq_true] at h
    exact ⟨rfl, h.2⟩
  | a :: b :: l, m, h => by
    rw [List.cons_append, List.cons_append, chain, Bool.and_eq_true] at h
    have := chain_append (l := b :: l) h.2
    exact ⟨by rw [chain, h.1, this.1]; rfl, this.2⟩

/-- The tokens of a line, whatever separator follows. -/
structure Line (s : Str) (l : List Str) : Prop where
  toks : ∀ rest, Sep rest → go (.out []) (s ++ rest) = l ++ go (.out []) rest
  plain : ∀ only, chain only l = true → ∀ rest, plainBy only .out (s ++ rest) = plainBy only .out rest

/-- The tokens of a line, whatever follows. -/
structure Strong (s : Str) (l : List Str) : Prop where
  toks : ∀ rest, go (.out []) (s ++ rest) = l ++ go (.out []) rest
  plain : ∀ only, chain only l = true → ∀ rest, plainBy only .out (s ++ rest) = plainBy only .out rest

theorem Strong.line {s : Str} {l : List Str} (h : Strong s l) : Line s l := ⟨fun rest _ => h.toks rest, h.plain⟩

theorem sep_cons {c : Char} {s : Str} (h : isSep c = true) : Sep (c :: s) := by
  intro d hd
  simp only [List.head?_cons, Option.some.injEq] at hd
  rw [← hd, h]

theorem sep_nil : Sep [] := by intro c h; simp at h

theorem Sep.append {s t : Str} (hs : Sep s) (ht : Sep t) : Sep (s ++ t) := by
  cases s with
  | nil => exact ht
  | cons c s => exact sep_cons (hs c rfl)

theorem Line.append {a b : Str} {l m : List Str} (ha : Line a l) (hb : Line b m) (h : Sep b) : Line (a ++ b) (l ++ m) := by
  refine ⟨fun rest hr => ?_, fun only h rest => ?_⟩
  · rw [List.append_assoc, ha.toks _ (h.append hr), hb.toks _ hr, List.append_assoc]
  · rw [List.append_assoc, ha.plain only (chain_append h).1, hb.plain only (chain_append h).2]

theorem Strong.append {a b : Str} {l m : List Str} (ha : Strong a l) (hb : Line b m) : Line (a ++ b) (l ++ m) := by
  refine ⟨fun rest hr => ?_, fun only h rest => ?_⟩
  · rw [List.append_assoc, ha.toks, hb.toks _ hr, List.append_assoc]
  · rw [List.append_assoc, ha.plain only (chain_append h).1, hb.plain only (chain_append h).2]

theorem Line.strong {a b : Str} {l m : List Str} (ha : Line a l) (hb : Strong b m) (h : Sep b) (hne : b ≠ []) :
    Strong (a ++ b) (l ++ m) := by
  refine ⟨fun rest => ?_, fun only h rest => ?_⟩
  · rw [List.append_assoc, ha.toks _ ?_, hb.toks, List.append_assoc]
    cases b with
    | nil => exact absurd rfl hne
    | cons c b => exact sep_cons (h c rfl)
  · rw [List.append_assoc, ha.plain only (chain_append h).1, hb.plain only (chain_append h).2]

theorem Strong.strong {a b : Str} {l m : List Str} (ha : Strong a l) (hb : Strong b m) : Strong (a ++ b) (l ++ m) := by
  refine ⟨fun rest => ?_, fun only h rest => ?_⟩
  · rw [List.append_assoc, ha.toks, hb.toks, List.append_assoc]
  · rw [List.append_assoc, ha.plain only (chain_append h).1, hb.plain only (chain_append h).2]

theorem strong_nil : Strong [] [] := ⟨fun _ => rfl, fun _ _ _ => rfl⟩

theorem strong_blank : Strong str!" " [] := ⟨fun rest => by simp [go, isQuote, isBlank, chunk_nil], fun only _ rest => by
  simp [plainBy, isQuote]⟩

theorem strong_newline : Strong str!"\n" [] := ⟨fun rest => by simp [go, isQuote, isBlank, chunk_nil], fun only _ rest => by
  simp [plainBy, isQuote]⟩

theorem strong_punct {c : Char} (h : isPunct c = true) : Strong [c] [[c]] := by
  have hf := isPunct_facts h
  refine ⟨fun rest => by simp [go, hf.1, hf.2, h, chunk_nil], fun only _ rest => ?_⟩
  have : c ≠ '\\' := by rintro rfl; exact absurd h (by decide)
  simp [plainBy, hf.1, this]

/-- Continuing a run. -/
theorem go_word (u w rest : Str) (h : ∀ c ∈ w, isSep c = false) : go (.out u) (w ++ rest) = go (.out (u ++ w)) rest := by
  induction w generalizing u with
  | nil => simp
  | cons c w ih =>
    have hc := h c (by simp)
    simp only [isSep, Bool.or_eq_false_iff] at hc
    rw [List.cons_append, go, hc.1.1, hc.1.2, hc.2, if_neg Bool.false_ne_true, if_neg Bool.false_ne_true, if_neg Bool.false_ne_true,
      ih _ fun c hc => h c (by simp [hc]), List.append_assoc]
    rfl

/-- A run ends at a separator. -/
theorem go_sep (u rest : Str) (h : Sep rest) : go (.out u) rest = chunk u ++ go (.out []) rest := by
  cases rest with
  | nil => rw [go, go, chunk_nil, List.append_nil]
  | cons c rest =>
    have hc := h c rfl
    rw [go, go]
    simp only [chunk_nil, List.nil_append]
    split
    · rfl
    split
    · rfl
    split
    · rfl
    · simp_all [isSep]

theorem plain_word (only : Option Char) (w rest : Str) (h : ∀ c ∈ w, isQuote c = false ∧ c ≠ '\\') :
    plainBy only .out (w ++ rest) = plainBy only .out rest := by
  induction w with
  | nil => rfl
  | cons c w ih =>
    have hc := h c (by simp)
    rw [List.cons_append, plainBy, hc.1, if_neg Bool.false_ne_true, ih fun c hc => h c (by simp [hc])]
    simp [hc.2]

/-- A word. -/
theorem line_word {w : Str} (hne : w ≠ []) (h : ∀ c ∈ w, isSep c = false ∧ c ≠ '.' ∧ c ≠ '\\') : Line w [w] := by
  refine ⟨fun rest hr => ?_, fun only _ rest => plain_word only w rest fun c hc => ?_⟩
  · rw [go_word _ _ _ fun c hc => (h c hc).1, List.nil_append, go_sep _ _ hr]
    have hd : '.' ∉ w := fun hm => (h _ hm).2.1 rfl
    rw [chunk, if_neg (fun hh => hd hh.1), cutDots_of_not_mem _ hd]
    cases w with
    | nil => exact absurd rfl hne
    | cons => rfl
  · have := h c hc
    simp only [isSep, Bool.or_eq_false_iff] at this
    exact ⟨this.1.1.1, this.2.2⟩

/-! ### Constant texts -/

/-- The words of a text without quotes and dots; `w` is the word read so far. -/
def textWords (w : Str) : Str → List Str
  | [] => tok w
  | c :: cs => if isBlank c then tok w ++ textWords [] cs else if isPunct c then tok w ++ [c] :: textWords [] cs else textWords (w ++ [c]) cs

theorem tok_chunk {w : Str} (h : '.' ∉ w) : chunk w = tok w := by
  rw [chunk, if_neg (fun hh => h hh.1), cutDots_of_not_mem _ h, tok_eq_ne]

/-- No quotes, dots and backslashes. -/
def simpleText (s : Str) : Bool := s.all fun c => !isQuote c && decide (c ≠ '.') && decide (c ≠ '\\')

theorem simpleText_iff {s : Str} (h : simpleText s = true) : ∀ c ∈ s, isQuote c = false ∧ c ≠ '.' ∧ c ≠ '\\' := by
  intro c hc
  have := List.all_eq_true.1 h c hc
  simpa [Bool.and_assoc, and_assoc] using this

theorem go_words (s w rest : Str) (hs : ∀ c ∈ s, isQuote c = false ∧ c ≠ '.' ∧ c ≠ '\\') (hw : '.' ∉ w) (hr : Sep rest) :
    go (.out w) (s ++ rest) = textWords w s ++ go (.out []) rest := by
  induction s generalizing w with
  | nil => rw [List.nil_append, go_sep _ _ hr, textWords, tok_chunk hw]
  | cons c s ih =>
    have hc := hs c (by simp)
    have hs' : ∀ c ∈ s, isQuote c = false ∧ c ≠ '.' ∧ c ≠ '\\' := fun c hc => hs c (by simp [hc])
    rw [List.cons_append, go, textWords, hc.1, if_neg Bool.false_ne_true]
    split
    · rw [ih [] hs' (by simp), tok_chunk hw, List.append_assoc]
    split
    · rw [ih [] hs' (by simp), tok_chunk hw]; simp
    · refine ih _ hs' ?_
      simp only [List.mem_append, List.mem_singleton, not_or]
      exact ⟨hw, hc.2.1.symm⟩

theorem go_words_strong (s w rest : Str) (hs : ∀ c ∈ s, isQuote c = false ∧ c ≠ '.' ∧ c ≠ '\\') (hw : '.' ∉ w)
    (hl : ∃ c, s.getLast? = some c ∧ isSep c = true) : go (.out w) (s ++ rest) = textWords w s ++ go (.out []) rest := by
  induction s generalizing w with
  | nil => obtain ⟨c, hc, -⟩ := hl; simp at hc
  | cons c s ih =>
    have hc := hs c (by simp)
    have hs' : ∀ c ∈ s, isQuote c = false ∧ c ≠ '.' ∧ c ≠ '\\' := fun c hc => hs c (by simp [hc])
    by_cases hn : s = []
    · subst hn
      obtain ⟨d, hd, hl⟩ := hl
      simp only [List.getLast?_singleton, Option.some.injEq] at hd
      subst hd
      simp only [isSep, hc.1, Bool.false_or, Bool.or_eq_true] at hl
      show go (.out w) (c :: rest) = _
      rw [go, textWords, hc.1, if_neg Bool.false_ne_true]
      split
      · rw [tok_chunk hw]; simp [textWords, tok]
      · rename_i hb
        rw [if_pos (hl.resolve_left hb), if_pos (hl.resolve_left hb), tok_chunk hw]
        simp [textWords, tok]
    · have hl' : ∃ c, s.getLast? = some c ∧ isSep c = true := by
        obtain ⟨d, hd, h⟩ := hl
        refine ⟨d, ?_, h⟩
        rw [← hd]
        cases s with
        | nil => exact absurd rfl hn
        | cons x xs => rw [List.getLast?_cons_cons]
      rw [List.cons_append, go, textWords, hc.1, if_neg Bool.false_ne_true]
      split
      · rw [ih [] hs' (by simp) hl', tok_chunk hw, List.append_assoc]
      split
      · rw [ih [] hs' (by simp) hl', tok_chunk hw]; simp
      · refine ih _ hs' ?_ hl'
        simp only [List.mem_append, List.mem_singleton, not_or]
        exact ⟨hw, hc.2.1.symm⟩

theorem line_simple {s : Str} (h : simpleText s = true) : Line s (textWords [] s) :=
  ⟨fun rest hr => go_words s [] rest (simpleText_iff h) (by simp) hr,
    fun only _ rest => plain_word only s rest fun c hc => ⟨(simpleText_iff h c hc).1, (simpleText_iff h c hc).2.2⟩⟩

/-- The last character is a separator. -/
def endsSep (s : Str) : Bool := (s.getLast?.map isSep).getD false

theorem strong_simple {s : Str} (h : simpleText s = true) (hl : endsSep s = true) : Strong s (textWords [] s) := by
  have hl : ∃ c, s.getLast? = some c ∧ isSep c = true := by
    unfold endsSep at hl
    cases h : s.getLast? with
    | none => rw [h] at hl; cases hl
    | some c => rw [h] at hl; exact ⟨c, rfl, hl⟩
  exact ⟨fun rest => go_words_strong s [] rest (simpleText_iff h) (by simp) hl,
    fun only _ rest => plain_word only s rest fun c hc => ⟨(simpleText_iff h c hc).1, (simpleText_iff h c hc).2.2⟩⟩

/-! ### Operators -/

/-- A token that is not a part of an operator. -/
def soft (x : Str) : Bool := !opens x && decide (x ≠ str!"=")

theorem soft_spec {a x : Str} (ha : a ≠ []) (hx : soft x = true) : a ++ x ∉ operators := by
  simp only [soft, Bool.and_eq_true, Bool.not_eq_true', decide_eq_true_eq] at hx
  intro h
  obtain ⟨c, a, rfl⟩ : ∃ c a', a = c :: a' := by
    cases a with
    | nil => exact absurd rfl ha
    | cons c a => exact ⟨c, a, rfl⟩
  have h2 : x ≠ [] := by
    rintro rfl
    exact absurd hx.1 (by decide)
  have hlen : ∀ o ∈ operators, o.length = 2 := by decide
  have hl := hlen _ h
  simp only [List.cons_append, List.length_cons, List.length_append] at hl
  have hx1 : x.length ≠ 0 := fun h => h2 (List.length_eq_zero_iff.1 h)
  have ha0 : a = [] := List.length_eq_zero_iff.1 (by omega)
  subst ha0
  have key : ∀ o ∈ operators, o.tail = str!"=" ∨ opens o.tail = true := by decide
  rcases key _ h with h | h
  · exact hx.2 h
  · have h' : opens x = true := h
    rw [hx.1] at h'
    cases h'

theorem opens_of_append {a x : Str} (h : a ++ x ∈ operators) : opens a = true := by
  simp only [opens, List.any_eq_true]
  exact ⟨_, h, by simp⟩

/-- The boundary between two sequences. -/
def Bound (l m : List Str) : Prop :=
  ∀ a x, l.getLast? = some a → m.head? = some x → a ++ x ∉ operators ∧ (opens a && opens x) = false

theorem operate_append {l m : List Str} (h : Bound l m) (hp : noClash l = true) : operate (l ++ m) = operate l ++ operate m ∧
    (noClash (l ++ m) = noClash m) := by
  have : ∀ k (l : List Str), l.length ≤ k → Bound l m → noClash l = true → operate (l ++ m) = operate l ++ operate m ∧
      (noClash (l ++ m) = noClash m) := by
    intro k
    induction k with
    | zero =>
      intro l hl _ _
      cases l with
      | nil => exact ⟨rfl, rfl⟩
      | cons => simp at hl
    | succ k ih =>
      intro l hl h hp
      match l with
      | [] => exact ⟨rfl, rfl⟩
      | [a] =>
        cases m with
        | nil => exact ⟨rfl, rfl⟩
        | cons x m =>
          have hb := h a x rfl rfl
          refine ⟨?_, ?_⟩
          · show operate (a :: x :: m) = a :: operate (x :: m)
            rw [operate, if_neg hb.1]
          · show noClash (a :: x :: m) = noClash (x :: m)
            rw [noClash, hb.2]
            rfl
      | a :: b :: l =>
        rw [noClash, Bool.and_eq_true] at hp
        have h1 := ih (b :: l) (by simp at hl ⊢; omega) (by
          intro a' x h1 h2
          exact h a' x (by rw [List.getLast?_cons_cons]; exact h1) h2) hp.2
        refine ⟨?_, ?_⟩
        · show operate (a :: b :: (l ++ m)) = _
          rw [operate, operate]
          split
          · have h2 : noClash l = true := by
              cases l with
              | nil => rfl
              | cons c l => rw [noClash, Bool.and_eq_true] at hp; exact hp.2.2
            have h3 := ih l (by simp at hl ⊢; omega) (by
              intro a' x h1 h2
              refine h a' x ?_ h2
              cases l with
              | nil => simp at h1
              | cons c l => rw [List.getLast?_cons_cons, List.getLast?_cons_cons]; exact h1) h2
            rw [h3.1]; rfl
          · have := h1.1
            rw [List.cons_append] at this
            rw [this]; rfl
        · show noClash (a :: b :: (l ++ m)) = _
          rw [noClash, hp.1, Bool.true_and]
          exact h1.2
  exact this _ l (Nat.le_refl _) h hp

/-- A sequence of tokens that does not interfere with its neighbours, and what becomes of it. -/
structure Fine (l ts : List Str) : Prop where
  ops : operate l = ts
  clash : noClash l = true
  last : ∀ a, l.getLast? = some a → opens a = false
  first : ∀ a, l.head? = some a → soft a = true
  ne : ∀ a ∈ l, a ≠ []

theorem fine_nil : Fine [] [] := ⟨rfl, rfl, by simp, by simp, by simp⟩

theorem Fine.append {l m ts us : List Str} (h : Fine l ts) (h' : Fine m us) : Fine (l ++ m) (ts ++ us) := by
  have hb : Bound l m := by
    intro a x ha hx
    refine ⟨soft_spec (h.ne a (List.mem_of_getLast? ha)) (h'.first x hx), ?_⟩
    rw [h.last a ha]; rfl
  have := operate_append hb h.clash
  refine ⟨by rw [this.1, h.ops, h'.ops], by rw [this.2, h'.clash], fun a ha => ?_, fun a ha => ?_, fun a ha => ?_⟩
  · rw [List.getLast?_append] at ha
    cases hm : m.getLast? with
    | none => rw [hm] at ha; exact h.last a (by simpa using ha)
    | some b => rw [hm] at ha; simp at ha; exact ha ▸ h'.last b hm
  · rw [List.head?_append] at ha
    cases hl : l.head? with
    | none => rw [hl] at ha; exact h'.first a (by simpa using ha)
    | some b => rw [hl] at ha; simp at ha; exact ha ▸ h.first b hl
  · rcases List.mem_append.1 ha with ha | ha
    · exact h.ne a ha
    · exact h'.ne a ha

/-- Operators between two such sequences. -/
theorem Fine.around {l p m ts us vs : List Str} (h : Fine l ts) (h' : Fine m vs) (hm : m ≠ []) (hp : operate p = us)
    (hc : noClash p = true) (hn : ∀ a ∈ p, a ≠ []) (hl : l ≠ []) : Fine (l ++ p ++ m) (ts ++ us ++ vs) := by
  have b1 : Bound l p := by
    intro a x ha hx
    have := h.last a ha
    refine ⟨fun hh => ?_, by rw [this]; rfl⟩
    rw [opens_of_append hh] at this
    cases this
  have h1 := operate_append b1 h.clash
  have b2 : Bound (l ++ p) m := by
    intro a x ha hx
    have hs := h'.first x hx
    refine ⟨soft_spec ?_ hs, ?_⟩
    · have := List.mem_of_getLast? ha
      rcases List.mem_append.1 this with ha | ha
      · exact h.ne a ha
      · exact hn a ha
    · simp only [soft, Bool.and_eq_true, Bool.not_eq_true'] at hs
      rw [hs.1, Bool.and_false]
  have h2 := operate_append b2 (by rw [h1.2, hc])
  refine ⟨by rw [h2.1, h1.1, h.ops, hp, h'.ops], by rw [h2.2, h'.clash], fun a ha => ?_, fun a ha => ?_, fun a ha => ?_⟩
  · rw [List.getLast?_append] at ha
    cases hx : m.getLast? with
    | none => exact absurd (List.getLast?_eq_none_iff.1 hx) hm
    | some b => rw [hx] at ha; simp at ha; exact ha ▸ h'.last b hx
  · rw [List.append_assoc, List.head?_append] at ha
    cases hx : l.head? with
    | none => exact absurd (List.head?_eq_none_iff.1 hx) hl
    | some b => rw [hx] at ha; simp at ha; exact ha ▸ h.first b hx
  · rcases List.mem_append.1 ha with ha | ha
    · rcases List.mem_append.1 ha with ha | ha
      · exact h.ne a ha
      · exact hn a ha
    · exact h'.ne a ha

theorem fine_one {w : Str} (hs : soft w = true) : Fine [w] [w] := by
  have h : opens w = false := by
    simp only [soft, Bool.and_eq_true, Bool.not_eq_true'] at hs
    exact hs.1
  refine ⟨rfl, rfl, fun a ha => ?_, fun a ha => ?_, fun a ha => ?_⟩
  · simp at ha; exact ha ▸ h
  · simp at ha; exact ha ▸ hs
  · simp only [List.mem_singleton] at ha
    rintro rfl
    rw [← ha] at h
    exact absurd h (by decide)

/-! ### Blocks of lines -/

/-- The tokens of the lines. -/
inductive Raws : Doc → List Str → Prop
  | nil : Raws [] []
  | cons {a : Str} {l : List Str} {d : Doc} {m : List Str} : Line a l → Raws d m → Raws (a :: d) (l ++ m)

theorem Raws.one {a : Str} {l : List Str} (h : Line a l) : Raws [a] l := by
  have := Raws.cons h .nil
  rwa [List.append_nil] at this

theorem Raws.append {d e : Doc} {l m : List Str} (h : Raws d l) (h' : Raws e m) : Raws (d ++ e) (l ++ m) := by
  induction h with
  | nil => exact h'
  | cons ha _ ih => rw [List.append_assoc]; exact .cons ha ih

theorem Raws.indent {d : Doc} {l : List Str} (h : Raws d l) : Raws (Doc.indent d) l := by
  induction h with
  | nil => exact .nil
  | cons ha _ ih => exact .cons (strong_blank.append ha) ih

theorem Raws.pre {e : Doc} {k : Str} {l m : List Str} (hk : Strong k l) (h : Raws e m) : Raws ([k] <+> e) (l ++ m) := by
  cases h with
  | nil => exact .cons hk.line .nil
  | cons ha h => rw [← List.append_assoc]; exact .cons (hk.append ha) h

/-- Something after the last line. -/
theorem Raws.beside {d e : Doc} {l m : List Str} (h : Raws d l) (h' : Raws e m) (hs : ∀ a, e.head? = some a → Sep a) :
    Raws (d <+> e) (l ++ m) := by
  induction h with
  | nil => exact h'
  | cons ha hd ih =>
    rename_i a la d ld
    cases hd with
    | nil =>
      rw [List.append_nil]
      cases h' with
      | nil => rw [List.append_nil]; exact .one ha
      | cons hb he => rw [← List.append_assoc]; exact .cons (ha.append hb (hs _ rfl)) he
    | cons hb he =>
      rw [List.append_assoc]
      exact .cons ha ih

theorem Raws.mid {d e : Doc} {k : Str} {l p m : List Str} (h : Raws d l) (hk : Strong k p) (hs : Sep k) (hne : k ≠ [])
    (h' : Raws e m) : Raws (d <+> [k] <+> e) (l ++ p ++ m) := by
  induction h with
  | nil => exact Raws.pre hk h'
  | cons ha hd ih =>
    rename_i a la d ld
    cases hd with
    | nil =>
      rw [List.append_nil]
      exact Raws.pre (ha.strong hk hs hne) h'
    | cons hb he =>
      rw [beside_cons (by simp), beside_cons (beside_ne (by simp)), List.append_assoc, List.append_assoc]
      rw [List.append_assoc] at ih
      exact .cons ha ih

theorem Raws.text {d : Doc} {l : List Str} (h : Raws d l) (hne : d ≠ []) : Line (Doc.text d) l := by
  induction h with
  | nil => exact absurd rfl hne
  | cons ha hd ih =>
    rename_i a la d ld
    cases hd with
    | nil => rw [List.append_nil]; exact ha
    | cons hb he =>
      have := ih (by simp)
      exact ha.append (b := '\n' :: _) (strong_newline.append this) (sep_cons rfl)

end

end SqlV.Core
