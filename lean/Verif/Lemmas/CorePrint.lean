import Verif.Lemmas.CoreRender

/-! How the printer treats each kind of tree. -/

set_option linter.unusedSectionVars false

namespace SqlV.Core

open Lex

section

variable [E : PyEnv] [L : LawfulPyEnv E]

theorem bindE {α β : Type} {x : Except PyErr α} {a : α} (h : x = .ok a) (f : α → Except PyErr β) :
    (x >>= f) = f a := by rw [h]; rfl

theorem bindE_ok {α β : Type} {a : α} (f : α → Except PyErr β) : ((.ok a : Except PyErr α) >>= f) = f a := rfl

/-- What can be said about elements of parentheses and arguments. -/
structure Elem (n : Node) : Prop where
  txt : Txt n
  solid : ∀ p, Solid (lay (fold n) p)
  sub : (fold n).isSelect = true → (render n).sub = .ok (Doc.text (Doc.indent (lay (fold n) .plain)))

theorem paren_txt {args : List Node} (h : ∀ a ∈ args, Elem a) : Txt (.paren args) := by
  rw [Txt, fold, lay]
  show parenStr (renderList args) = _
  rw [paren_elements (fun a ha => (h a ha).txt) (fun a ha => (h a ha).solid _) (fun a ha => (h a ha).sub)]
  cases hl : layList (foldList args) with
  | nil => rfl
  | cons d ds => rfl

theorem isColumn_tall {m : Node} (h : (match m with | .column _ => true | _ => false) = true) (p : Pos) (hp : p = .plain) :
    Doc.tall (lay m p) = false ∧ m.isSelect = false := by
  subst hp
  cases m <;> first | exact absurd h Bool.false_ne_true | (constructor <;> simp [lay, Pos.wrap, Doc.tall, Node.isSelect])

theorem commas_flat {ds : List Doc} (hd : ∀ d ∈ ds, Solid d) (h : ∀ d ∈ ds, Doc.tall d = false) :
    hasNL (Str.join str!", " (ds.map Doc.text)) = false := by
  induction ds with
  | nil => rfl
  | cons d ds ih =>
    have h1 : hasNL (Doc.text d) = false := by rw [hasNL_text (hd d (by simp))]; exact h d (by simp)
    cases ds with
    | nil => exact h1
    | cons e es =>
      have h2 := ih (fun x hx => hd x (by simp [hx])) (fun x hx => h x (by simp [hx]))
      rw [List.map_cons, show ∀ (l : List Str), l ≠ [] → Str.join str!", " (Doc.text d :: l) = Doc.text d ++ str!", " ++ Str.join str!", " l from
        fun l hl => by cases l with | nil => exact absurd rfl hl | cons _ _ => rfl]
      · rw [hasNL_append, hasNL_append, h1, h2]; rfl
      · simp

/-- The three ways of printing a condition after a keyword. -/
theorem block_cases {v : Node} (hw : wf (fold v) = true) (hl : level (fold v) ≤ 3) (hs : singleOrColumns (fold v) = true)
    (ht : Txt v) (hargs : ∀ args, v = .paren args → ∀ a ∈ args, Elem a) :
    ∃ tv, (render v).t = .ok tv ∧ Solid (lay (fold v) .block) ∧
      ((isParen (fold v) = true ∧ hasNL tv = true ∧ ∃ D, Solid D ∧ (render v).arg0 = .ok (Doc.text D) ∧
          lay (fold v) .block = boxed 1 D) ∨
        (isParen (fold v) = false ∧ hasNL tv = true ∧ Doc.text (lay (fold v) .block) = tv) ∨
        (hasNL tv = false ∧ Doc.text (lay (fold v) .block) = tv)) := by
  have hsol := solid_lay (fold v) hw (level_none hl (by omega))
  refine ⟨_, ht, hsol _, ?_⟩
  cases hp : isParen (fold v) with
  | false =>
    rw [lay_same hl hp]
    cases hn : hasNL (Doc.text (lay (fold v) .plain)) with
    | true => exact .inr (.inl ⟨rfl, rfl, rfl⟩)
    | false => exact .inr (.inr ⟨rfl, rfl⟩)
  | true =>
    cases v <;> first | (cases hp; done) | skip
    rename_i args
    have ha := hargs args rfl
    have hso : ∀ m ∈ foldList args, ∀ p, Solid (lay m p) := by
      rw [foldList_eq]
      intro m hm
      obtain ⟨a, hma, rfl⟩ := List.mem_map.1 hm
      exact (ha a hma).solid
    rw [fold] at hsol hs hl ⊢
    match args, ha, hso, hs with
    | [a], ha, hso, hs =>
      have e1 : lay (.paren (foldList [a])) .plain = [str!"("] <+> commas (parenDoc (foldList [a]) (layList (foldList [a]))) <+> [str!")"] := by
        rw [lay]; rfl
      have e2 : lay (.paren (foldList [a])) .block = if Doc.tall (lay (.paren (foldList [a])) .plain) then boxed 1 (lay (fold a) .plain)
          else lay (.paren (foldList [a])) .plain := by
        rw [e1]
        rw [lay]; rfl
      rw [e2, hasNL_text (hsol .plain)]
      cases hn : Doc.tall (lay (.paren (foldList [a])) .plain) with
      | true => exact .inl ⟨rfl, rfl, _, (ha a (by simp)).solid .plain, (ha a (by simp)).txt, rfl⟩
      | false => exact .inr (.inr ⟨rfl, rfl⟩)
    | [], ha, hso, hs => exact .inr (.inr ⟨by rw [foldList, lay]; rfl, by rw [foldList, lay, lay]; rfl⟩)
    | a :: b :: args, ha, hso, hs =>
      have hcol : ∀ m ∈ foldList (a :: b :: args), (match m with | .column _ => true | _ => false) = true := by
        simp only [singleOrColumns, Bool.or_eq_true, decide_eq_true_eq] at hs
        rcases hs with h | h
        · simp [foldList_eq] at h
        · exact List.all_eq_true.1 h
      generalize hns : foldList (a :: b :: args) = ns at hcol hso hsol
      have e1 : lay (.paren ns) .plain = [str!"("] <+> commas (parenDoc ns (layList ns)) <+> [str!")"] := by
        rw [lay, ← hns]; rfl
      have e2 : lay (.paren ns) .block = lay (.paren ns) .plain := by rw [e1, lay, ← hns]; rfl
      refine .inr (.inr ⟨?_, by rw [e2]⟩)
      have hd := solid_parenDoc fun m hm => hso m hm .plain
      rw [e1, text_around (solid_commas hd), text_commas hd, hasNL_append, hasNL_append, commas_flat hd]
      · rfl
      · clear hns e1 e2 hd hs hsol hl
        induction ns with
        | nil => simp [parenDoc]
        | cons m ms ih =>
          intro d hd
          have hm := isColumn_tall (hcol m (by simp)) _ rfl
          simp only [layList, parenDoc, List.mem_cons] at hd
          rw [if_neg (by rw [hm.2]; decide)] at hd
          rcases hd with rfl | hd
          · exact hm.1
          · exact ih (fun m hm => hcol m (by simp [hm])) (fun m hm => hso m (by simp [hm])) d hd

theorem clause_ok {v : Node} (hw : wf (fold v) = true) (hl : level (fold v) ≤ 3) (hs : singleOrColumns (fold v) = true)
    (ht : Txt v) (hargs : ∀ args, v = .paren args → ∀ a ∈ args, Elem a) (kw : Str) :
    ∃ x, clauseBody (render v) = .ok x ∧ Doc.text (clause kw (isParen (fold v)) (lay (fold v) .block)) = kw ++ x := by
  obtain ⟨tv, htv, hsol, h⟩ := block_cases hw hl hs ht hargs
  unfold clauseBody
  rw [bindE htv, text_clause hsol, isParen_render]
  rcases h with ⟨hp, hn, D, hD, ha, hb⟩ | ⟨hp, hn, hb⟩ | ⟨hn, hb⟩
  · refine ⟨str!" (\n " ++ indentNL (Doc.text D) ++ str!"\n)", ?_, ?_⟩
    · rw [hp, hn, Bool.and_self, if_pos rfl, bindE ha]; rfl
    · rw [hp, Bool.true_or, if_pos rfl, hb, text_boxed hD]; simp
  · refine ⟨str!"\n " ++ indentNL tv, ?_, ?_⟩
    · rw [hp, hn]; rfl
    · rw [hp, hb, hn]; rfl
  · refine ⟨' ' :: tv, ?_, ?_⟩
    · rw [hn, Bool.and_false]; rfl
    · rw [hb, hn, Bool.not_false, Bool.or_true]; rfl

theorem when_ok {w t : Node} (hw : wf (fold w) = true) (hl : level (fold w) ≤ 3) (hs : singleOrColumns (fold w) = true)
    (ht : Txt w) (hargs : ∀ args, w = .paren args → ∀ a ∈ args, Elem a)
    (hth : (render t).s = .ok (Doc.text (lay (fold t) .plain))) (hts : Solid (lay (fold t) .plain)) :
    ∃ x, whenStr (render w) (render t) = .ok x ∧ Doc.text (lay (fold (.whenThen w t)) .plain) = ' ' :: x := by
  obtain ⟨tv, htv, hsol, h⟩ := block_cases hw hl hs ht hargs
  have hcl : Solid (clause str!"WHEN" (isParen (fold w)) (lay (fold w) .block)) := solid_clause (by decide) hsol
  have hidt : Doc.text (Doc.indent (clause str!"WHEN" (isParen (fold w)) (lay (fold w) .block))) = _ := text_indent hcl
  rw [text_clause hsol] at hidt
  rw [fold, lay]
  unfold whenStr layWhen
  rw [bindE htv, isParen_render, tall_clause (by decide) hsol]
  rcases h with ⟨hp, hn, D, hD, ha, hb⟩ | ⟨hp, hn, hb⟩ | ⟨hn, hb⟩
  · have htall : Doc.tall (lay (fold w) .block) = true := by
      rw [hb]
      have := List.length_pos_iff.2 hD.1
      simp [Doc.tall, boxed, Doc.indent]
    rw [if_pos htall, text_append hcl.indent.1 (beside_ne (by simp)), text_pre hts, hidt]
    refine ⟨str!"WHEN" ++ str!" (\n  " ++ indentNL2 (Doc.text D) ++ str!"\n )\n " ++ str!"THEN " ++ Doc.text (lay (fold t) .plain), ?_, ?_⟩
    · rw [hp, hn, Bool.and_self, if_pos rfl, bindE ha]; simp only [pure_bind, hth]; rfl
    · rw [hp, Bool.true_or, if_pos rfl, hb, text_boxed hD, indentNL2_eq]
      simp only [indentNL_append]
      simp [indentNL, Str.replace]
  · have htall : Doc.tall (lay (fold w) .block) = true := by rw [← hasNL_text hsol, hb, hn]
    rw [if_pos htall, text_append hcl.indent.1 (beside_ne (by simp)), text_pre hts, hidt]
    refine ⟨str!"WHEN" ++ str!"\n  " ++ indentNL2 tv ++ str!"\n " ++ str!"THEN " ++ Doc.text (lay (fold t) .plain), ?_, ?_⟩
    · rw [hp, hn]; simp only [Bool.false_and, Bool.false_eq_true, if_false, if_true, pure_bind, hth]; rfl
    · rw [hp, hb, hn, indentNL2_eq]
      simp only [Bool.not_true, Bool.or_self, Bool.false_eq_true, if_false, indentNL_append]
      simp [indentNL, Str.replace]
  · have htall : Doc.tall (lay (fold w) .block) = false := by rw [← hasNL_text hsol, hb, hn]
    rw [htall, if_neg (c := (false = true)) (e := Doc.indent _ <+> _ <+> _) (by decide), text_mid hcl.indent hts, hidt]
    refine ⟨str!"WHEN" ++ str!" " ++ tv ++ str!" " ++ str!"THEN " ++ Doc.text (lay (fold t) .plain), ?_, ?_⟩
    · rw [hn, Bool.and_false]; simp only [Bool.false_eq_true, if_false, pure_bind, hth]; rfl
    · rw [hb, hn, Bool.not_false, Bool.or_true, if_pos rfl]
      have : indentNL tv = tv := indentNL_self (by simpa [hasNL] using hn)
      rw [indentNL_append, show indentNL (' ' :: tv) = ' ' :: indentNL tv from rfl, this]
      simp [indentNL, Str.replace]

/-- An operand of a condition that is broken into lines. -/
theorem operand_ok {v : Node} (hw : wf (fold v) = true) (hl : level (fold v) ≤ 3) (hs : single (fold v) = true)
    (hg : Good v) (hargs : ∀ args, v = .paren args → ∀ a ∈ args, Elem a) :
    (if (render v).isBoolc then (render v).nl
      else if (render v).isParen then do
        let y ← (render v).arg0
        return if hasNL y then str!"(\n " ++ indentNL y ++ str!"\n)" else str!"(" ++ y ++ str!")"
      else (render v).t) = .ok (Doc.text (lay (fold v) .operand)) := by
  rw [isBoolc_render, isParen_render]
  cases hb : v.isBoolc with
  | true => exact hg.nl hb
  | false =>
    rw [if_neg (by decide)]
    cases hp : isParen (fold v) with
    | false =>
      rw [if_neg (by decide), lay_operand hl hp (by cases v <;> first | rfl | cases hb)]
      exact hg.level hl (by omega)
    | true =>
      rw [if_pos rfl]
      cases v <;> first | (cases hp; done) | skip
      rename_i args
      have ha := hargs args rfl
      rw [fold] at hs ⊢
      simp only [single, decide_eq_true_eq, foldList_eq, List.length_map] at hs
      match args, hs with
      | [a], _ =>
        have ha := ha a (by simp)
        rw [bindE (show (render (.paren [a])).arg0 = _ from ha.txt), hasNL_text (ha.solid _)]
        have : lay (.paren (foldList [a])) .operand = if Doc.tall (lay (fold a) .plain) then boxed 1 (lay (fold a) .plain)
            else [str!"("] <+> lay (fold a) .plain <+> [str!")"] := by rw [lay]; rfl
        rw [this]
        split
        · rw [text_boxed (ha.solid _)]; simp [pure, Except.pure]
        · rw [text_around (ha.solid _)]; rfl

/-- AND and OR. -/
theorem boolStr_ok {op : Str} {l r : Node} (hop : (op.map Char.toLower).all isAscii = true)
    (hl : wf (fold l) = true) (hl' : level (fold l) ≤ 3) (hls : single (fold l) = true) (hgl : Good l)
    (hla : ∀ args, l = .paren args → ∀ a ∈ args, Elem a)
    (hr : wf (fold r) = true) (hr' : level (fold r) ≤ 3) (hrs : single (fold r) = true) (hgr : Good r)
    (hra : ∀ args, r = .paren args → ∀ a ∈ args, Elem a) (b : Bool) :
    boolStr (E.upper op) (render l) (render r) b =
      .ok (Doc.text (lay (fold (.boolc op l r)) (if b then .operand else .plain))) := by
  have sl := solid_lay (fold l) hl (level_none hl' (by omega))
  have sr := solid_lay (fold r) hr (level_none hr' (by omega))
  unfold boolStr
  rw [bindE (hgl.level hl' (by omega)), bindE (hgr.level hr' (by omega)), upper_caps hop]
  dsimp only
  rw [operand_ok hl hl' hls hgl hla, operand_ok hr hr' hrs hgr hra, bindE_ok, bindE_ok, fold, lay]
  generalize caps (op.map Char.toLower) = k
  have e1 : Doc.width (lay (fold l) .plain <+> [str!" " ++ k ++ str!" "] <+> lay (fold r) .plain) =
      (Doc.text (lay (fold l) .plain) ++ str!" " ++ k ++ str!" " ++ Doc.text (lay (fold r) .plain)).length := by
    rw [Doc.width, text_mid (sl _) (sr _)]; simp
  rw [e1]
  cases b with
  | true =>
    rw [if_neg (by simp), if_neg (by simp)]
    simp only [if_true, Pos.wrap]
    rw [text_append (sl _).1 (beside_ne (by simp)), text_pre (sr _)]
    simp [pure, Except.pure]
  | false =>
    simp only [Bool.not_false, Bool.and_true, Bool.false_eq_true, if_false, Pos.wrap, ne_eq,
      reduceCtorEq, not_false_eq_true, true_and]
    generalize hlen : List.length (Doc.text (lay (fold l) .plain) ++ str!" " ++ k ++ str!" " ++ Doc.text (lay (fold r) .plain)) = len
    rw [show lineLength = limitLength from rfl]
    by_cases hc : len < limitLength
    · rw [if_pos hc, if_pos (decide_eq_true hc), text_mid (sl _) (sr _)]; simp [pure, Except.pure]
    · rw [if_neg hc, if_neg (by rw [decide_eq_false hc]; decide), text_append (sl _).1 (beside_ne (by simp)), text_pre (sr _)]
      simp [pure, Except.pure]

end

end SqlV.Core
