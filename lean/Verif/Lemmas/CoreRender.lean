import Verif.Lemmas.CoreSolid

/-! The printer lays out trees of the core grammar as described in `Spec/Layout.lean`. -/

set_option linter.unusedSectionVars false

namespace SqlV.Core

open Lex

section

variable [E : PyEnv] [L : LawfulPyEnv E]

/-! ### Blocks -/

theorem text_pre {k : Str} {e : Doc} (he : Solid e) : Doc.text ([k] <+> e) = k ++ Doc.text e :=
  text_beside (by simp) he.1

theorem text_post {d : Doc} {k : Str} (hd : Solid d) : Doc.text (d <+> [k]) = Doc.text d ++ k :=
  text_beside hd.1 (by simp)

theorem text_mid {d e : Doc} {k : Str} (hd : Solid d) (he : Solid e) :
    Doc.text (d <+> [k] <+> e) = Doc.text d ++ k ++ Doc.text e := by
  rw [text_beside (beside_ne hd.1) he.1, text_post hd]

theorem text_around {d : Doc} {a b : Str} (hd : Solid d) : Doc.text ([a] <+> d <+> [b]) = a ++ Doc.text d ++ b := by
  rw [text_beside (beside_ne (by simp)) (by simp), text_pre hd]; rfl

theorem tall_clause {d : Doc} {kw : Str} {b : Bool} (hk : '\n' ∉ kw) (hd : Solid d) :
    Doc.tall (clause kw b d) = Doc.tall d := by
  unfold clause
  by_cases hc : (b || !Doc.tall d) = true
  · rw [if_pos hc, ← hasNL_text (Solid.beside (Solid.line (by simp [hk])) hd), text_pre hd, ← hasNL_text hd]
    simp [hasNL, hk]
  · rw [if_neg hc]
    simp only [Bool.or_eq_true, Bool.not_eq_true', not_or, Bool.not_eq_false] at hc
    rw [hc.2]
    have := List.length_pos_iff.2 hd.1
    simp [Doc.tall, Doc.indent]
    omega

theorem text_clause {d : Doc} {kw : Str} {b : Bool} (hd : Solid d) :
    Doc.text (clause kw b d) = kw ++ (if b || !hasNL (Doc.text d) then ' ' :: Doc.text d else str!"\n " ++ indentNL (Doc.text d)) := by
  unfold clause
  rw [hasNL_text hd]
  split
  · rw [text_pre hd]; simp
  · rw [text_append (by simp) hd.indent.1, text_indent hd]; simp [Doc.text]

theorem indentNL2_eq (s : Str) : indentNL2 s = indentNL (indentNL s) := by
  induction s with
  | nil => rfl
  | cons c cs ih =>
    have h1 : indentNL2 (c :: cs) = (if c = '\n' then str!"\n  " else [c]) ++ indentNL2 cs := rfl
    have h2 : indentNL (c :: cs) = (if c = '\n' then str!"\n " else [c]) ++ indentNL cs := rfl
    rw [h1, h2, indentNL_append, ih]
    congr 1
    split
    · rfl
    · rename_i h
      simp [indentNL, Str.replace, h]

theorem hasNL_append (a b : Str) : hasNL (a ++ b) = (hasNL a || hasNL b) := by simp [hasNL]

/-! ### Methods -/

/-- What is printed in front of a clause by the statement around it. -/
def lead : Node → Str
  | .where_ _ => str!"WHERE"
  | .having _ => str!"HAVING"
  | .on _ => str!"ON"
  | .using_ _ => str!"USING"
  | .orderBy _ => str!"ORDER BY"
  | .groupBy _ _ each => str!"GROUP " ++ (if each then str!"EACH " else []) ++ str!"BY"
  | .limit _ _ => str!"LIMIT "
  | .offset _ => str!"OFFSET "
  | .whenThen _ _ => str!" "
  | _ => []

/-- A side of a join with `k` parentheses. -/
def sideText (k : Nat) (p : Peel) : Str :=
  if 0 < k then
    List.replicate k '(' ++ (if p.isSelect then '\n' :: p.text else indentNL ('\n' :: p.text)) ++ str!"\n" ++
      List.replicate k ')'
  else p.text

/-- `transform` gives the text of the layout. -/
def Txt (n : Node) : Prop := (render n).t = .ok (Doc.text (lay (fold n) .plain))

/-- What the methods of an object return. -/
structure Good (n : Node) : Prop where
  txt : fold n ≠ .none → ∃ x, (render n).t = .ok x ∧ Doc.text (lay (fold n) .plain) = lead n ++ x
  nl : n.isBoolc = true → (render n).nl = .ok (Doc.text (lay (fold n) .operand))
  sub : isSubquery (fold n) = true → (render n).sub = .ok (Doc.text (Doc.indent (lay (fold n) .plain)))
  src : isBody (fold n) = true → (render n).fromPos = .ok (Doc.text (lay (fold n) .source))
  peel : (isBody (fold n) || isQuery (fold n)) = true → ∃ p, (render n).peel = .ok p ∧
    ∀ j, (1 ≤ j ∨ (isBody (fold n) = true ∧ n.isAlias = false)) →
      Doc.text (lay (fold n) (.side j)) = sideText (p.count + j) p

theorem Good.txt' {n : Node} (h : Good n) (hn : fold n ≠ .none) (hl : lead n = []) : Txt n := by
  obtain ⟨x, h1, h2⟩ := h.txt hn
  rw [hl, List.nil_append] at h2
  rw [Txt, h1, h2]

theorem foldList_eq (ns : List Node) : foldList ns = ns.map fold := by
  induction ns with
  | nil => rfl
  | cons n ns ih => simp [foldList, ih]

theorem renderList_eq (ns : List Node) : renderList ns = ns.map render := by
  induction ns with
  | nil => rfl
  | cons n ns ih => simp [renderList, ih]

theorem tidyList_iff {ns : List Node} : tidyList ns = true ↔ ∀ n ∈ ns, tidy n = true := by
  induction ns with
  | nil => simp [tidyList]
  | cons n ns ih => simp [tidyList, ih]

theorem select_levels (es : List Node) (all d : Bool) (on : List Node) (f w g h o l off : Node) (semi : Bool) :
    (level (.select es all d on f w g h o l off semi) = 5 ∧ semi = false) ∨
      level (.select es all d on f w g h o l off semi) = 9 := by
  rw [level]
  split
  · rename_i h
    simp only [isSubquery, Bool.and_eq_true, Bool.not_eq_true'] at h
    exact .inl ⟨rfl, h.1⟩
  · exact .inr rfl

theorem s_eq_t {n : Node} (h : level (fold n) ≤ 2) : (render n).s = (render n).t := by
  cases n <;> first
    | rfl
    | (exfalso; revert h; show ¬ (9 ≤ 2); decide)
    | (exfalso; revert h; show ¬ (3 ≤ 2); decide)
    | skip
  · exfalso
    rename_i es all d on f w g h' o l off semi
    rw [fold] at h
    rcases select_levels (foldList es) all d (foldList on) (fold f) (fold w) (fold g) (fold h') (fold o) (fold l) (fold off) semi with h' | h' <;> omega
  · exfalso
    rename_i e al w
    rw [fold] at h
    rcases alias_levels (fold e) (fold al) w with h' | h' <;> omega

theorem isParen_render (n : Node) : (render n).isParen = isParen (fold n) := by cases n <;> rfl
theorem isBoolc_render (n : Node) : (render n).isBoolc = n.isBoolc := by cases n <;> rfl
theorem isSelect_render (n : Node) : (render n).isSelect = (fold n).isSelect := by cases n <;> rfl
theorem truthy_render (n : Node) : (render n).truthy = (fold n).truthy := by cases n <;> rfl
theorem each_render {args : List Node} {rollup each : Bool} : (render (.groupBy args rollup each)).each = each := rfl

theorem lead_level {n : Node} (h : level (fold n) ≤ 5) : lead n = [] := by
  cases n <;> first | rfl | (exfalso; revert h; show ¬ (9 ≤ 5); decide)

theorem lead_from {n : Node} (h : isBody (fold n) = true) : lead n = [] := by
  cases n <;> first | rfl | exact absurd h Bool.false_ne_true

theorem subquery_query {n : Node} (h : isSubquery n = true) : isQuery n = true := by
  cases n <;> first | exact h | exact absurd h Bool.false_ne_true

theorem lead_query {n : Node} (h : isQuery (fold n) = true) : lead n = [] := by
  cases n <;> first | rfl | exact absurd h Bool.false_ne_true

theorem Good.level {n : Node} (h : Good n) {k : Nat} (hl : level (fold n) ≤ k) (hk : k ≤ 5) : Txt n :=
  h.txt' (level_none hl (by omega)) (lead_level (by omega))

theorem Good.str {n : Node} (h : Good n) {k : Nat} (hl : Core.level (fold n) ≤ k) (hk : k ≤ 2) :
    (render n).s = .ok (Doc.text (lay (fold n) .plain)) := by
  rw [s_eq_t (by omega)]
  exact h.level hl (by omega)

/-! ### Lists -/

/-- The texts of the elements. -/
def texts (ns : List Node) : List Str := ((layList (foldList ns)).map (· .plain)).map Doc.text

theorem mapR_ok {f : R → RStr} {ns : List Node} (h : ∀ n ∈ ns, f (render n) = .ok (Doc.text (lay (fold n) .plain))) :
    mapR f (renderList ns) = .ok (texts ns) := by
  induction ns with
  | nil => rfl
  | cons n ns ih =>
    rw [renderList, mapR, h n (by simp)]
    have := ih fun m hm => h m (by simp [hm])
    simp only [bind, Except.bind, this]
    rfl

theorem paren_elements {ns : List Node} (h : ∀ n ∈ ns, Txt n)
    (hsol : ∀ n ∈ ns, Solid (lay (fold n) .plain))
    (hs : ∀ n ∈ ns, (fold n).isSelect = true → (render n).sub = .ok (Doc.text (Doc.indent (lay (fold n) .plain)))) :
    parenStr (renderList ns) =
      .ok (Doc.text ([str!"("] <+> commas (parenDoc (foldList ns) (layList (foldList ns))) <+> [str!")"])) := by
  have hd : ∀ d ∈ parenDoc (foldList ns) (layList (foldList ns)), Solid d := by
    apply solid_parenDoc
    rw [foldList_eq]
    intro m hm
    obtain ⟨n, hn, rfl⟩ := List.mem_map.1 hm
    exact hsol n hn
  have key : mapR (fun a => if a.isSelect then (do
      let x ← a.sub
      return '\n' :: x ++ str!"\n") else a.t) (renderList ns) =
      .ok ((parenDoc (foldList ns) (layList (foldList ns))).map Doc.text) := by
    clear hd
    induction ns with
    | nil => rfl
    | cons n ns ih =>
      have i := ih (fun m hm => h m (by simp [hm])) (fun m hm => hsol m (by simp [hm])) (fun m hm => hs m (by simp [hm]))
      have hn := h n (by simp)
      have hsn := hs n (by simp)
      have hso := hsol n (by simp)
      rw [renderList, mapR, i]
      simp only [foldList, layList, parenDoc, List.map_cons, isSelect_render]
      by_cases hsel : (fold n).isSelect = true
      · rw [if_pos hsel, if_pos hsel, hsn hsel, text_append (by simp) (by simp), text_append (by simp) hso.indent.1]
        simp [bind, Except.bind, pure, Except.pure, Doc.text]
      · rw [if_neg hsel, if_neg hsel, hn]
        rfl
  unfold parenStr
  rw [key, text_around (solid_commas hd), text_commas hd]
  simp [bind, Except.bind, pure, Except.pure]

/-! ### Letters -/

theorem caps_toLower (s : Str) : caps (s.map Char.toLower) = s.map Char.toUpper := by
  simp only [caps, List.map_map]
  exact List.map_congr_left fun c _ => toUpper_toLower c

/-- Names are printed in capitals. -/
theorem upper_caps {s : Str} (h : (s.map Char.toLower).all isAscii = true) : E.upper s = caps (s.map Char.toLower) := by
  rw [L.upper_ascii s (all_ascii_of_lower rfl h), caps_toLower]

theorem fname_ascii {s : Str} (h : fname s = true) : s.all isAscii = true := by
  simp only [fname, Bool.and_eq_true] at h
  exact h.1.2

theorem cname_ascii {s : Str} (h : cname s = true) : s.all isAscii = true := by
  rcases cname_or h with h | h
  · exact fname_ascii h
  · exact (by decide : ∀ w ∈ outerCalls ++ innerCalls, w.all isAscii = true) s h

theorem words_ascii {s : Str} (h : ∀ w ∈ words s, w.all isAscii = true) : s.all isAscii = true := by
  rw [List.all_eq_true]
  induction s with
  | nil => simp
  | cons c s ih =>
    rw [words] at h
    by_cases hc : c = ' '
    · rw [if_pos hc] at h
      subst hc
      have := ih fun w hw => h w (List.mem_cons_of_mem _ hw)
      intro x hx
      rcases List.mem_cons.1 hx with rfl | hx
      · decide
      · exact this x hx
    · rw [if_neg hc] at h
      cases hw : words s with
      | nil => exact absurd hw (words_ne s)
      | cons w ws =>
        rw [hw] at h ih
        simp only [List.mem_cons, forall_eq_or_imp, List.all_cons, Bool.and_eq_true] at h ih ⊢
        exact ⟨h.1.1, ih ⟨h.1.2, h.2⟩⟩

theorem frame_ascii {f : Str} (h : (words f).all frameWord = true) : f.all isAscii = true := by
  refine words_ascii fun w hw => ?_
  have := List.all_eq_true.1 h w hw
  simp only [frameWord, Bool.or_eq_true, decide_eq_true_eq, Bool.and_eq_true] at this
  rcases this with h | h
  · exact (by decide : ∀ w ∈ frameWords, w.all isAscii = true) w h
  · exact (digit_lower h.2).1

/-! ### Operands and conditions -/

theorem lay_same {m : Node} (hl : level m ≤ 3) (hp : isParen m = false) : lay m .block = lay m .plain := by
  cases m <;> first
    | (cases hp; done)
    | (exfalso; revert hl; show ¬ (9 ≤ 3); decide)
    | (simp only [lay, Pos.wrap]; done)
    | (rename Option Str => pre; cases pre <;> simp only [lay, Pos.wrap])
    | skip
  · exfalso
    rename_i e al w
    rcases alias_levels e al w with h' | h' <;> omega
  · rw [lay, lay]; simp [Pos.wrap]

theorem lay_operand {m : Node} (hl : level m ≤ 3) (hp : isParen m = false) (hb : m.isBoolc = false) :
    lay m .operand = lay m .plain := by
  cases m <;> first
    | (cases hp; done)
    | (cases hb; done)
    | (exfalso; revert hl; show ¬ (9 ≤ 3); decide)
    | (simp only [lay, Pos.wrap]; done)
    | (rename Option Str => pre; cases pre <;> simp only [lay, Pos.wrap])
    | skip
  · exfalso
    rename_i e al w
    rcases alias_levels e al w with h' | h' <;> omega

end

end SqlV.Core
