import Verif.Spec.Layout

/-! Blocks of lines and their texts. -/

set_option linter.unusedSectionVars false

namespace SqlV.Core

/-- At least one line, and no line contains a newline. -/
def Solid (d : Doc) : Prop := d ≠ [] ∧ ∀ l ∈ d, '\n' ∉ l

/-! ### Texts -/

theorem text_cons {l : Str} {ls : Doc} (h : ls ≠ []) : Doc.text (l :: ls) = l ++ '\n' :: Doc.text ls := by
  cases ls with
  | nil => exact absurd rfl h
  | cons m ms => rfl

theorem text_single (l : Str) : Doc.text [l] = l := rfl

theorem text_append {d e : Doc} (hd : d ≠ []) (he : e ≠ []) :
    Doc.text (d ++ e) = Doc.text d ++ '\n' :: Doc.text e := by
  induction d with
  | nil => exact absurd rfl hd
  | cons l ls ih =>
    by_cases h : ls = []
    · subst h; exact text_cons he
    · rw [List.cons_append, text_cons (by simp [h]), ih h, text_cons h]; simp

theorem beside_cons {l : Str} {ls e : Doc} (h : ls ≠ []) : (l :: ls) <+> e = l :: (ls <+> e) := by
  cases ls with
  | nil => exact absurd rfl h
  | cons m ms => cases e <;> rfl

theorem beside_single {l m : Str} {ms : Doc} : [l] <+> (m :: ms) = (l ++ m) :: ms := rfl

theorem beside_ne {d e : Doc} (hd : d ≠ []) : d <+> e ≠ [] := by
  cases d with
  | nil => exact absurd rfl hd
  | cons l ls =>
    by_cases h : ls = []
    · subst h; cases e <;> simp [Doc.beside]
    · rw [beside_cons h]; simp

theorem text_beside {d e : Doc} (hd : d ≠ []) (he : e ≠ []) : Doc.text (d <+> e) = Doc.text d ++ Doc.text e := by
  induction d with
  | nil => exact absurd rfl hd
  | cons l ls ih =>
    by_cases h : ls = []
    · subst h
      cases e with
      | nil => exact absurd rfl he
      | cons m ms =>
        rw [beside_single]
        by_cases hm : ms = []
        · subst hm; rfl
        · rw [text_cons hm, text_cons hm, text_single]; simp
    · rw [beside_cons h, text_cons (beside_ne h), ih h, text_cons h]; simp

/-! ### Solidity -/

theorem Solid.line {l : Str} (h : '\n' ∉ l) : Solid [l] := ⟨by simp, by simpa using h⟩

theorem Solid.append {d e : Doc} (hd : Solid d) (he : ∀ l ∈ e, '\n' ∉ l) : Solid (d ++ e) :=
  ⟨by simp [hd.1], fun l hl => (List.mem_append.1 hl).elim (hd.2 l) (he l)⟩

theorem Solid.optional {d e : Doc} (hd : Solid d) {b : Bool} (he : b = true → Solid e) :
    Solid (d ++ optional b e) := by
  cases b with
  | false => simpa [Core.optional] using hd
  | true => exact hd.append (he rfl).2

theorem Solid.beside {d e : Doc} (hd : Solid d) (he : Solid e) : Solid (d <+> e) := by
  refine ⟨beside_ne hd.1, ?_⟩
  obtain ⟨hd, hd'⟩ := hd
  induction d with
  | nil => exact absurd rfl hd
  | cons l ls ih =>
    by_cases h : ls = []
    · subst h
      obtain ⟨he, he'⟩ := he
      cases e with
      | nil => exact absurd rfl he
      | cons m ms =>
        intro x hx
        rw [beside_single] at hx
        rcases List.mem_cons.1 hx with rfl | hx
        · simp only [List.mem_append, not_or]
          exact ⟨hd' l (by simp), he' m (by simp)⟩
        · exact he' x (by simp [hx])
    · intro x hx
      rw [beside_cons h] at hx
      rcases List.mem_cons.1 hx with rfl | hx
      · exact hd' x (by simp)
      · exact ih h (fun l hl => hd' l (by simp [hl])) x hx

theorem Solid.indent {d : Doc} (hd : Solid d) : Solid (Doc.indent d) := by
  refine ⟨by simpa [Doc.indent] using hd.1, fun l hl => ?_⟩
  obtain ⟨m, hm, rfl⟩ := List.mem_map.1 hl
  simp only [List.mem_cons, not_or]
  exact ⟨by decide, hd.2 m hm⟩

theorem Solid.above {d e : Doc} (hd : Solid d) (he : Solid e) : Solid (d ++ e) := hd.append he.2

theorem replicate_line {c : Char} (k : Nat) (h : c ≠ '\n') : '\n' ∉ List.replicate k c := by
  intro hm
  exact h (List.eq_of_mem_replicate hm).symm

theorem Solid.boxed {d : Doc} (hd : Solid d) (k : Nat) : Solid (boxed k d) :=
  ((Solid.line (replicate_line k (by decide))).above hd.indent).above (Solid.line (replicate_line k (by decide)))

theorem Solid.wrap {d : Doc} (hd : Solid d) (p : Pos) : Solid (p.wrap d) := by
  unfold Pos.wrap
  split
  · exact hd.boxed _
  · exact hd

theorem solid_commas {ds : List Doc} (h : ∀ d ∈ ds, Solid d) : Solid (commas ds) := by
  induction ds with
  | nil => exact Solid.line (by simp)
  | cons d ds ih =>
    cases ds with
    | nil => exact h d (by simp)
    | cons e es =>
      exact ((h d (by simp)).beside (Solid.line (by decide))).beside (ih fun x hx => h x (by simp [hx]))

theorem solid_stacked {ds : List Doc} (hne : ds ≠ []) (h : ∀ d ∈ ds, Solid d) : Solid (stacked ds) := by
  induction ds with
  | nil => exact absurd rfl hne
  | cons d ds ih =>
    cases ds with
    | nil => exact h d (by simp)
    | cons e es =>
      exact ((h d (by simp)).beside (Solid.line (by decide))).above (ih (by simp) fun x hx => h x (by simp [hx]))

theorem solid_listed {kw : Str} {ds : List Doc} (hk : '\n' ∉ kw) (hne : ds ≠ []) (h : ∀ d ∈ ds, Solid d) :
    Solid (listed kw ds) := by
  match ds, hne with
  | [d], _ => exact (Solid.line (by simp [hk])).beside (h d (by simp))
  | d :: e :: es, hne => exact (Solid.line hk).above (solid_stacked hne h).indent

theorem solid_clause {kw : Str} {b : Bool} {d : Doc} (hk : '\n' ∉ kw) (h : Solid d) : Solid (clause kw b d) := by
  unfold clause
  split
  · exact (Solid.line (by simp [hk])).beside h
  · exact (Solid.line hk).above h.indent

theorem solid_call {name : Str} {ds : List Doc} (hk : '\n' ∉ name) (h : ∀ d ∈ ds, Solid d) :
    Solid (layCall name ds) := by
  unfold layCall
  split
  · rename_i hc
    have hne : ds ≠ [] := by rintro rfl; simp [commas, Doc.width, Doc.text, limitLength] at hc
    exact ((Solid.line (by simp [hk])).above (solid_stacked hne h).indent).above (Solid.line (by decide))
  · exact ((Solid.line (by simp [hk])).beside (solid_commas h)).beside (Solid.line (by decide))

theorem solid_when {w t : Doc} (hw : Solid w) (ht : Solid t) : Solid (layWhen w t) := by
  unfold layWhen
  split
  · exact hw.indent.above ((Solid.line (by decide)).beside ht)
  · exact (hw.indent.beside (Solid.line (by decide))).beside ht

theorem solid_star {e : Doc} {kw : Str} {ds : List Doc} (he : Solid e) (hk : '\n' ∉ kw) (hne : ds ≠ []) (h : ∀ d ∈ ds, Solid d) :
    Solid (layStar e kw ds) := by
  have hh := he.beside (Solid.line (l := str!" " ++ kw ++ str!" (") (by simp [hk]))
  match ds, hne with
  | [d], _ => exact (hh.beside (h d (by simp))).beside (Solid.line (by decide))
  | d :: e :: es, hne =>
    refine (hh.above (solid_stacked (by simp) fun x hx => ?_)).above (Solid.line (by decide))
    obtain ⟨y, hy, rfl⟩ := List.mem_map.1 hx
    exact (Solid.line (by decide)).beside (h y hy)

theorem solid_part {ds : List Doc} (h : ∀ d ∈ ds, Solid d) : ∀ l ∈ layPart ds, '\n' ∉ l := by
  match ds with
  | [] => intro l hl; cases hl
  | [d] => exact ((Solid.line (by decide)).beside (h d (by simp))).2
  | d :: e :: es =>
    refine ((Solid.line (by decide)).above (solid_stacked (by simp) fun x hx => ?_)).2
    obtain ⟨y, hy, rfl⟩ := List.mem_map.1 hx
    exact (Solid.line (by decide)).beside (h y hy)

theorem indent_lines {d : Doc} (h : d = [] ∨ Solid d) : ∀ l ∈ Doc.indent d, '\n' ∉ l := by
  rcases h with rfl | h
  · intro l hl; cases hl
  · exact h.indent.2

theorem beside_nil {d : Doc} : d <+> [] = d := by
  induction d with
  | nil => rfl
  | cons l ls ih =>
    by_cases h : ls = []
    · subst h; rfl
    · rw [beside_cons h, ih]

theorem Solid.beside' {d e : Doc} (hd : Solid d) (he : e = [] ∨ Solid e) : Solid (d <+> e) := by
  rcases he with rfl | he
  · rwa [beside_nil]
  · exact hd.beside he

theorem solid_over {f order frame : Doc} {part : List Doc} (hf : Solid f) (hp : ∀ d ∈ part, Solid d) (ho : order = [] ∨ Solid order)
    (hfr : frame = [] ∨ Solid frame) : Solid (layOver f part order frame) := by
  have hh := hf.beside (Solid.line (l := str!" OVER (") (by decide))
  unfold layOver
  dsimp only
  split
  · exact (hh.beside' hfr).beside (Solid.line (by decide))
  · exact ((hh.append fun l hl => (List.mem_append.1 hl).elim (solid_part hp l) (indent_lines ho l)).append (indent_lines hfr)).above
      (Solid.line (by decide))

/-! ### Texts of solid blocks -/

theorem replace_append (c : Char) (r a b : Str) : Str.replace c r (a ++ b) = Str.replace c r a ++ Str.replace c r b := by
  simp [Str.replace]

theorem replace_self {c : Char} {r s : Str} (h : c ∉ s) : Str.replace c r s = s := by
  induction s with
  | nil => rfl
  | cons x xs ih =>
    simp only [List.mem_cons, not_or] at h
    simp only [Str.replace, List.flatMap_cons] at ih ⊢
    rw [if_neg (Ne.symm h.1), ih h.2]
    rfl

theorem indentNL_append (a b : Str) : indentNL (a ++ b) = indentNL a ++ indentNL b := replace_append _ _ _ _

theorem indentNL_self {s : Str} (h : '\n' ∉ s) : indentNL s = s := replace_self h

theorem indentNL_newline (s : Str) : indentNL ('\n' :: s) = '\n' :: ' ' :: indentNL s := rfl

theorem text_indent {d : Doc} (h : Solid d) : Doc.text (Doc.indent d) = ' ' :: indentNL (Doc.text d) := by
  obtain ⟨h, h'⟩ := h
  induction d with
  | nil => exact absurd rfl h
  | cons l ls ih =>
    have hl := h' l (by simp)
    by_cases hls : ls = []
    · subst hls
      rw [text_single, indentNL_self hl]
      rfl
    · have : Doc.indent ls ≠ [] := by simpa [Doc.indent] using hls
      rw [show Doc.indent (l :: ls) = (' ' :: l) :: Doc.indent ls from rfl, text_cons this,
        ih hls fun m hm => h' m (by simp [hm]), text_cons hls, indentNL_append, indentNL_newline, indentNL_self hl]
      rfl

theorem hasNL_text {d : Doc} (h : Solid d) : hasNL (Doc.text d) = Doc.tall d := by
  obtain ⟨h, h'⟩ := h
  match d, h with
  | [l], _ => simp [Doc.text, hasNL, Doc.tall, h' l (by simp)]
  | l :: m :: ms, _ => simp [Doc.text, hasNL, Doc.tall]

theorem text_commas {ds : List Doc} (h : ∀ d ∈ ds, Solid d) :
    Doc.text (commas ds) = Str.join str!", " (ds.map Doc.text) := by
  induction ds with
  | nil => rfl
  | cons d ds ih =>
    cases ds with
    | nil => rfl
    | cons e es =>
      have ih := ih fun x hx => h x (by simp [hx])
      have hd := h d (by simp)
      rw [show commas (d :: e :: es) = d <+> [str!", "] <+> commas (e :: es) from rfl,
        text_beside (beside_ne hd.1) (solid_commas fun x hx => h x (by simp [hx])).1, text_beside hd.1 (by simp), ih]
      rfl

theorem text_stacked {ds : List Doc} (hne : ds ≠ []) (h : ∀ d ∈ ds, Solid d) :
    Doc.text (stacked ds) = Str.join str!",\n" (ds.map Doc.text) := by
  induction ds with
  | nil => exact absurd rfl hne
  | cons d ds ih =>
    cases ds with
    | nil => rfl
    | cons e es =>
      have ih := ih (by simp) fun x hx => h x (by simp [hx])
      have hd := h d (by simp)
      rw [show stacked (d :: e :: es) = d <+> [str!","] ++ stacked (e :: es) from rfl,
        text_append (beside_ne hd.1) (solid_stacked (by simp) fun x hx => h x (by simp [hx])).1,
        text_beside hd.1 (by simp), ih]
      simp [Str.join, Doc.text]

theorem indentNL_join (xs : List Str) :
    indentNL (Str.join str!",\n" xs) = Str.join str!",\n " (xs.map indentNL) := by
  induction xs with
  | nil => rfl
  | cons x xs ih =>
    cases xs with
    | nil => rfl
    | cons y ys =>
      rw [show Str.join str!",\n" (x :: y :: ys) = x ++ str!",\n" ++ Str.join str!",\n" (y :: ys) from rfl,
        indentNL_append, indentNL_append, ih]
      rfl

theorem text_indent_stacked {ds : List Doc} (hne : ds ≠ []) (h : ∀ d ∈ ds, Solid d) :
    Doc.text (Doc.indent (stacked ds)) = ' ' :: Str.join str!",\n " ((ds.map Doc.text).map indentNL) := by
  rw [text_indent (solid_stacked hne h), text_stacked hne h, indentNL_join]

theorem text_boxed {d : Doc} (h : Solid d) (k : Nat) : Doc.text (boxed k d) =
    List.replicate k '(' ++ str!"\n " ++ indentNL (Doc.text d) ++ str!"\n" ++ List.replicate k ')' := by
  unfold boxed
  rw [text_append (by simp) (by simp), text_append (by simp) h.indent.1, text_indent h, text_single, text_single]
  simp

theorem text_optional {d e : Doc} (hd : d ≠ []) {b : Bool} (he : b = true → e ≠ []) :
    Doc.text (d ++ optional b e) = Doc.text d ++ (if b then '\n' :: Doc.text e else []) := by
  cases b with
  | false => simp [optional]
  | true => simpa [optional] using text_append hd (he rfl)

theorem optional_ne {d e : Doc} (hd : d ≠ []) (b : Bool) : d ++ optional b e ≠ [] := by simp [hd]

end SqlV.Core
