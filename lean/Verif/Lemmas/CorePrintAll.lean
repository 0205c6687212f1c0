import Verif.Lemmas.CorePrintCalls

/-! The printer on SELECT and WITH, and on the whole core grammar. -/

set_option linter.unusedSectionVars false

namespace SqlV.Core

open Lex

section

variable [E : PyEnv] [L : LawfulPyEnv E]

/-! ### Lists after keywords -/

/-- What follows the keyword. -/
def listTail : List Doc → Str
  | [d] => ' ' :: Doc.text d
  | ds => indentNL ('\n' :: Str.join str!",\n" (ds.map Doc.text))

theorem text_listed {kw : Str} {ds : List Doc} (h : ∀ d ∈ ds, Solid d) (hne : ds ≠ []) :
    Doc.text (listed kw ds) = kw ++ listTail ds := by
  match ds, hne with
  | [d], _ => show Doc.text ([_] <+> d) = _; rw [text_pre (h d (by simp))]; simp [listTail]
  | d :: e :: es, hne =>
    show Doc.text ([kw] ++ Doc.indent (stacked (d :: e :: es))) = _
    rw [text_append (by simp) (solid_stacked hne h).indent.1, text_indent_stacked hne h, listTail, indentNL_newline, indentNL_join]
    rotate_left
    · rintro _ ⟨⟩
    simp [Doc.text]

theorem groupBy_txt {args : List Node} {rollup each : Bool} (hne : args ≠ []) (h : ∀ a ∈ args, Elem a)
    (hs : ∀ a ∈ args, (render a).s = .ok (Doc.text (lay (fold a) .plain))) :
    ∃ x, (render (.groupBy args rollup each)).t = .ok x ∧
      Doc.text (lay (fold (.groupBy args rollup each)) .plain) = lead (.groupBy args rollup each) ++ x := by
  have hd := docs_solid fun a ha => (h a ha).solid .plain
  rw [fold, lay]
  show ∃ x, groupByStr (renderList args) rollup = .ok x ∧ Doc.text (listed _ (docs args)) = _
  rw [text_listed hd (docs_ne hne)]
  unfold groupByStr
  refine ⟨(if rollup then str!" ROLLUP" else []) ++ listTail (docs args), ?_, by simp [lead]⟩
  match args, hne with
  | [a], _ =>
    simp only [renderList]
    rw [bindE (h a (by simp)).txt]
    cases rollup <;> rfl
  | a :: b :: as, _ =>
    have := mapR_ok hs
    simp only [renderList] at this ⊢
    rw [bindE this]
    cases rollup <;> rfl

theorem orderBy_txt {args : List Node} (hne : args ≠ []) (h : ∀ a ∈ args, Elem a)
    (hs : ∀ a ∈ args, (render a).s = .ok (Doc.text (lay (fold a) .plain))) :
    ∃ x, (render (.orderBy args)).t = .ok x ∧ Doc.text (lay (fold (.orderBy args)) .plain) = lead (.orderBy args) ++ x := by
  have hd := docs_solid fun a ha => (h a ha).solid .plain
  rw [fold, lay, if_neg (by decide)]
  show ∃ x, orderByStr (renderList args) true = .ok x ∧ Doc.text (listed _ (docs args)) = _
  rw [text_listed hd (docs_ne hne)]
  unfold orderByStr
  refine ⟨_, ?_, rfl⟩
  match args, hne with
  | [a], _ =>
    simp only [renderList]
    rw [bindE (h a (by simp)).txt]
    rfl
  | a :: b :: as, _ =>
    have := mapR_ok hs
    simp only [renderList] at this ⊢
    rw [bindE this]
    rfl

theorem orderBy_flat {args : List Node} (hne : args ≠ []) (h : ∀ a ∈ args, Elem a)
    (hs : ∀ a ∈ args, (render a).s = .ok (Doc.text (lay (fold a) .plain))) :
    ∃ x, (render (.orderBy args)).flat = .ok x ∧ Doc.text (lay (fold (.orderBy args)) .inline) = str!" ORDER BY" ++ x := by
  have hd := docs_solid fun a ha => (h a ha).solid .plain
  rw [fold, lay, if_pos rfl]
  show ∃ x, orderByStr (renderList args) false = .ok x ∧ Doc.text ([_] <+> commas (docs args)) = _
  rw [text_pre (solid_commas hd), text_commas hd]
  unfold orderByStr
  refine ⟨' ' :: Str.join str!", " ((docs args).map Doc.text), ?_, by simp⟩
  match args, hne with
  | [a], _ =>
    simp only [renderList]
    rw [bindE (h a (by simp)).txt]
    rfl
  | a :: b :: as, _ =>
    have := mapR_ok hs
    simp only [renderList] at this ⊢
    rw [bindE this]
    rfl

/-! ### CASE -/

theorem flatten_text {ws : List Node} (h : ∀ w ∈ ws, ∃ x, (render w).t = .ok x ∧ Doc.text (lay (fold w) .plain) = ' ' :: x)
    (hs : ∀ w ∈ ws, Solid (lay (fold w) .plain)) (hne : ws ≠ []) :
    ∃ xs, mapR R.t (renderList ws) = .ok xs ∧ Doc.text (docs ws).flatten = ' ' :: Str.join str!"\n " xs ∧ (docs ws).flatten ≠ [] := by
  induction ws with
  | nil => exact absurd rfl hne
  | cons w ws ih =>
    obtain ⟨x, h1, h2⟩ := h w (by simp)
    have hw := hs w (by simp)
    have e1 : docs (w :: ws) = lay (fold w) .plain :: docs ws := rfl
    have hfl : (docs (w :: ws)).flatten ≠ [] := by rw [e1]; simp [hw.1]
    by_cases hws : ws = []
    · subst hws
      refine ⟨[x], ?_, ?_, hfl⟩
      · rw [renderList, mapR, bindE h1]; rfl
      · rw [e1, List.flatten_cons]
        simp [docs, foldList, layList, h2, Str.join]
    · obtain ⟨xs, i1, i2, i3⟩ := ih (fun v hv => h v (by simp [hv])) (fun v hv => hs v (by simp [hv])) hws
      have hxs : xs ≠ [] := by
        rintro rfl
        cases ws with
        | nil => exact hws rfl
        | cons v vs =>
          obtain ⟨y, hy, -⟩ := h v (by simp)
          rw [renderList, mapR, bindE hy] at i1
          cases hm : mapR R.t (renderList vs) with
          | error e => rw [hm] at i1; cases i1
          | ok ys => rw [hm] at i1; cases i1
      refine ⟨x :: xs, ?_, ?_, hfl⟩
      · rw [renderList, mapR, bindE h1, bindE i1]; rfl
      · rw [e1, List.flatten_cons, text_append hw.1 i3, h2, i2]
        cases xs with
        | nil => exact absurd rfl hxs
        | cons y ys => simp [Str.join]

theorem case_txt {o : Node} {ws : List Node} {e : Node} (hne : ws ≠ [])
    (ho : fold o = .none ∨ Elem o) (he : fold e = .none ∨ Elem e)
    (hw : ∀ w ∈ ws, ∃ x, (render w).t = .ok x ∧ Doc.text (lay (fold w) .plain) = ' ' :: x)
    (hs : ∀ w ∈ ws, Solid (lay (fold w) .plain)) (hno : Elem o → (fold o).truthy = true) (hne' : Elem e → (fold e).truthy = true) :
    Txt (.case o ws e) := by
  obtain ⟨xs, h1, h2, h3⟩ := flatten_text hw hs hne
  rw [Txt, fold, lay]
  show caseStr (render o) (renderList ws) (render e) = Except.ok (Doc.text (_ ++ (docs ws).flatten ++ _ ++ _))
  have key : ∀ (d : Doc) (s : Str), d ≠ [] → Doc.text d = s → Doc.text (d ++ (docs ws).flatten ++
        optional (fold e).truthy ([str!" ELSE "] <+> lay (fold e) .plain) ++ [str!"END"]) =
      s ++ str!"\n " ++ Str.join str!"\n " xs ++
        (if (fold e).truthy then str!"\n ELSE " ++ Doc.text (lay (fold e) .plain) else []) ++ str!"\nEND" := by
    intro d s hd hs
    have hne1 : d ++ (docs ws).flatten ≠ [] := by simp [hd]
    rw [text_append (optional_ne hne1 _) (by simp), text_optional hne1 (fun _ => beside_ne (by simp)),
      text_append hd h3, h2, hs]
    rcases he with he | he
    · rw [he]
      simp [Node.truthy, Doc.text]
    · rw [hne' he, if_pos rfl, if_pos rfl, text_pre (he.solid _)]
      simp [Doc.text]
  have hoc : (if (fold o).truthy then [str!"CASE "] <+> lay (fold o) .plain else [str!"CASE"]) ≠ [] := by
    split
    · exact beside_ne (by simp)
    · simp
  have hot : Doc.text (if (fold o).truthy then [str!"CASE "] <+> lay (fold o) .plain else [str!"CASE"]) =
      (if (fold o).truthy then str!"CASE" ++ str!" " ++ Doc.text (lay (fold o) .plain) else str!"CASE") := by
    rcases ho with ho | ho
    · rw [ho]; rfl
    · rw [hno ho, if_pos rfl, if_pos rfl, text_pre (ho.solid _)]; simp
  show _ = Except.ok (Doc.text ((if (fold o).truthy then [str!"CASE "] <+> lay (fold o) .plain else [str!"CASE"]) ++ (docs ws).flatten ++
        optional (fold e).truthy ([str!" ELSE "] <+> lay (fold e) .plain) ++ [str!"END"]))
  rw [key _ _ hoc hot]
  unfold caseStr
  simp only [truthy_render, h1]
  have ho' : (fold o).truthy = true → (render o).t = .ok (Doc.text (lay (fold o) .plain)) := by
    intro ht
    rcases ho with ho | ho
    · rw [ho] at ht; cases ht
    · exact ho.txt
  have he' : (fold e).truthy = true → (render e).t = .ok (Doc.text (lay (fold e) .plain)) := by
    intro ht
    rcases he with he | he
    · rw [he] at ht; cases ht
    · exact he.txt
  cases h1 : (fold o).truthy <;> cases h2 : (fold e).truthy <;>
    simp [h1, h2, ho', he', bind, Except.bind, pure, Except.pure]

/-! ### SELECT -/

theorem optClause_ok {c : Node} {name : Str} {s : Str} {d : Doc} (h : fold c = .none ∨ (Good c ∧ Solid (lay (fold c) .plain)))
    (hn : fold c ≠ .none → name = '\n' :: lead c) (hd : d ≠ []) (hs : Doc.text d = s) :
    ∃ x, optClause name (render c) = .ok x ∧ Doc.text (d ++ optional (fold c).truthy (lay (fold c) .plain)) = s ++ x := by
  unfold optClause
  rw [truthy_render]
  cases ht : (fold c).truthy with
  | false =>
    refine ⟨[], rfl, ?_⟩
    simp [optional, hs]
  | true =>
    have hne : fold c ≠ .none := by intro h; rw [h] at ht; cases ht
    rcases h with h | ⟨h, hsol⟩
    · exact absurd h hne
    · obtain ⟨x, h1, h2⟩ := h.txt hne
      refine ⟨name ++ x, ?_, ?_⟩
      · rw [if_pos rfl, bindE h1]; rfl
      · rw [text_optional hd fun _ => hsol.1, if_pos rfl, hs, h2, hn hne]; simp

theorem orNone_group {g : Node} (h : orNone isGroupBy (fold g) = true) :
    fold g ≠ .none → (str!"\nGROUP " ++ (if (render g).each then str!"EACH " else []) ++ str!"BY") = '\n' :: lead g := by
  intro hn
  cases g <;> first
    | exact absurd h Bool.false_ne_true
    | (exfalso; exact hn rfl)
    | rfl

theorem orNone_lead {c : Node} {p : Node → Bool} {s : Str} (h : orNone p (fold c) = true) (hl : ∀ c : Node, p (fold c) = true → lead c = s) :
    fold c ≠ .none → '\n' :: s = '\n' :: lead c := by
  intro hn
  rw [hl c]
  revert h hn
  generalize fold c = m
  intro h hn
  cases m <;> first | exact h | exact absurd rfl hn

theorem where_lead (c : Node) (h : isWhere (fold c) = true) : lead c = str!"WHERE" := by
  cases c <;> first | exact absurd h Bool.false_ne_true | rfl
theorem having_lead (c : Node) (h : isHaving (fold c) = true) : lead c = str!"HAVING" := by
  cases c <;> first | exact absurd h Bool.false_ne_true | rfl
theorem order_lead (c : Node) (h : isOrderBy (fold c) = true) : lead c = str!"ORDER BY" := by
  cases c <;> first | exact absurd h Bool.false_ne_true | rfl
theorem limit_lead (c : Node) (h : isLimit (fold c) = true) : lead c = str!"LIMIT " := by
  cases c <;> first | exact absurd h Bool.false_ne_true | rfl
theorem offset_lead (c : Node) (h : isOffset (fold c) = true) : lead c = str!"OFFSET " := by
  cases c <;> first | exact absurd h Bool.false_ne_true | rfl

/-- A clause that is missing, or is laid out as described. -/
def Part (c : Node) : Prop := fold c = .none ∨ (Good c ∧ Solid (lay (fold c) .plain))

/-- The head of a SELECT. -/
def headDoc (all d : Bool) (on : List Node) : Doc :=
  let head : Doc := [str!"SELECT" ++ (if all then str!" ALL" else []) ++ (if d then str!" DISTINCT" else [])]
  if on.isEmpty then head
  else head <+> [str!" ON ("] <+> commas ((layList on).map (· .plain)) <+> [str!")"]

/-- The head and the list of a SELECT. -/
def listDoc (head : Doc) (es : List Node) : Doc :=
  match layList es with
  | [e] => head <+> [str!" "] <+> e .plain
  | es => head ++ Doc.indent (stacked (es.map (· .plain)))

/-- A SELECT without semicolon. -/
def selectDoc (es : List Node) (all d : Bool) (on : List Node) (f w g h o l off : Node) : Doc :=
  listDoc (headDoc all d on) es ++ optional f.truthy ([str!"FROM "] <+> lay f .source) ++ optional w.truthy (lay w .plain) ++
      optional g.truthy (lay g .plain) ++ optional h.truthy (lay h .plain) ++ optional o.truthy (lay o .plain) ++
      optional l.truthy (lay l .plain) ++ optional off.truthy (lay off .plain)

theorem lay_select {es : List Node} {all d : Bool} {on : List Node} {f w g h o l off : Node} {semi : Bool} {p : Pos} :
    lay (.select es all d on f w g h o l off semi) p =
      p.wrap (if semi then selectDoc es all d on f w g h o l off <+> [str!";"] else selectDoc es all d on f w g h o l off) := by
  rw [lay]; rfl

theorem head_txt {all d : Bool} {on : List Node} (had : (all && d) = false) (hon : on = [] ∨ d = true)
    (h : ∀ a ∈ on, (render a).s = .ok (Doc.text (lay (fold a) .plain))) (hs : ∀ a ∈ on, Solid (lay (fold a) .plain)) :
    (if all then pure str!"SELECT ALL"
      else if d then
        if (renderList on).isEmpty then pure str!"SELECT DISTINCT"
        else do
          let xs ← mapR R.s (renderList on)
          pure (str!"SELECT DISTINCT ON (" ++ Str.join str!", " xs ++ str!")")
      else pure str!"SELECT" : RStr) = .ok (Doc.text (headDoc all d (foldList on))) ∧ Solid (headDoc all d (foldList on)) := by
  have hd := docs_solid hs
  have hl : Solid [str!"SELECT" ++ (if all then str!" ALL" else []) ++ (if d then str!" DISTINCT" else [])] :=
    Solid.line (by cases all <;> cases d <;> decide)
  have he : (foldList on).isEmpty = on.isEmpty := by cases on <;> rfl
  have he' : (renderList on).isEmpty = on.isEmpty := by cases on <;> rfl
  constructor
  · unfold headDoc
    dsimp only
    rw [he, he']
    cases all with
    | true =>
      cases d with
      | true => cases had
      | false =>
        rcases hon with rfl | h
        · rfl
        · cases h
    | false =>
      cases d with
      | true =>
        cases on with
        | nil => rfl
        | cons a as =>
          simp only [Bool.false_eq_true, if_false, if_true, List.isEmpty_cons]
          rw [bindE (mapR_ok h)]
          show _ = Except.ok (Doc.text (_ <+> _ <+> commas (docs (a :: as)) <+> [_]))
          rw [text_post ((Solid.beside (Solid.line (by decide)) (Solid.line (by decide))).beside (solid_commas hd)),
            text_mid (Solid.line (by decide)) (solid_commas hd), text_commas hd]
          rfl
      | false =>
        rcases hon with rfl | h
        · rfl
        · cases h
  · unfold headDoc
    exact hl.ite (((hl.beside (Solid.line (by decide))).beside (solid_commas hd)).beside (Solid.line (by decide)))

theorem list_txt {es : List Node} {head : Doc} (hh : Solid head) (hne : es ≠ []) (h : ∀ a ∈ es, Elem a) :
    ∃ x, (match renderList es with
      | [e] => do
        let x ← e.t
        pure (' ' :: x)
      | es => do
        let xs ← mapR R.t es
        pure (str!"\n " ++ Str.join str!",\n " (xs.map indentNL)) : RStr) = .ok x ∧
      Doc.text (listDoc head (foldList es)) = Doc.text head ++ x ∧ Solid (listDoc head (foldList es)) := by
  have hd := docs_solid fun a ha => (h a ha).solid .plain
  match es, hne with
  | [a], _ =>
    have ha := h a (by simp)
    refine ⟨' ' :: Doc.text (lay (fold a) .plain), ?_, ?_, ?_⟩
    · simp only [renderList]
      rw [bindE ha.txt]; rfl
    · show Doc.text (head <+> [str!" "] <+> lay (fold a) .plain) = _
      rw [text_mid hh (ha.solid _)]; simp
    · exact (hh.beside (Solid.line (by decide))).beside (ha.solid _)
  | a :: b :: as, hne =>
    have hm := mapR_ok (f := R.t) fun n hn => (h n hn).txt
    refine ⟨str!"\n " ++ Str.join str!",\n " ((texts (a :: b :: as)).map indentNL), ?_, ?_, ?_⟩
    · simp only [renderList] at hm ⊢
      rw [bindE hm]; rfl
    · show Doc.text (head ++ Doc.indent (stacked (docs (a :: b :: as)))) = _
      rw [text_append hh.1 (solid_stacked (docs_ne hne) hd).indent.1, text_indent_stacked (docs_ne hne) hd]
      rfl
    · exact hh.above (solid_stacked (docs_ne hne) hd).indent

theorem part_ne {d e : Doc} (h : d ≠ []) (b : Bool) : d ++ optional b e ≠ [] := optional_ne h b

theorem Part.solid {c : Node} (h : Part c) (ht : (fold c).truthy = true) : Solid (lay (fold c) .plain) := by
  rcases h with h | h
  · rw [h] at ht; cases ht
  · exact h.2

theorem ite_bindE {α β : Type} {c : Prop} [Decidable c] (x y : Except PyErr α) (f : α → Except PyErr β) :
    ((if c then x else y) >>= f) = if c then x >>= f else y >>= f := by split <;> rfl

theorem selectBody_eq (es on : List R) (all d : Bool) (f w g h o l off : R) : selectBody es all d on f w g h o l off =
    ((if all then pure str!"SELECT ALL"
      else if d then
        if on.isEmpty then pure str!"SELECT DISTINCT"
        else do
          let xs ← mapR R.s on
          pure (str!"SELECT DISTINCT ON (" ++ Str.join str!", " xs ++ str!")")
      else pure str!"SELECT" : RStr) >>= fun head =>
     ((match es with
      | [e] => do
        let x ← e.t
        pure (' ' :: x)
      | es => do
        let xs ← mapR R.t es
        pure (str!"\n " ++ Str.join str!",\n " (xs.map indentNL)) : RStr) >>= fun es =>
     ((if f.truthy then do
      let x ← f.fromPos
      pure (str!"\nFROM " ++ x)
    else pure [] : RStr) >>= fun f => (do
    let w ← optClause str!"\nWHERE" w
    let g ← optClause (str!"\nGROUP " ++ (if g.each then str!"EACH " else []) ++ str!"BY") g
    let h ← optClause str!"\nHAVING" h
    let o ← optClause str!"\nORDER BY" o
    let l ← optClause str!"\nLIMIT " l
    let off ← optClause str!"\nOFFSET " off
    return head ++ es ++ f ++ w ++ g ++ h ++ o ++ l ++ off)))) := by
  unfold selectBody
  rcases es with _ | ⟨e, _ | ⟨e', es⟩⟩ <;> simp only [ite_bindE, pure_bind, bind_assoc]

theorem select_txt {es : List Node} {all d : Bool} {on : List Node} {f w g h o l off : Node} (hne : es ≠ []) (hes : ∀ a ∈ es, Elem a)
    (had : (all && d) = false) (hon : on = [] ∨ d = true)
    (hons : ∀ a ∈ on, (render a).s = .ok (Doc.text (lay (fold a) .plain))) (honl : ∀ a ∈ on, Solid (lay (fold a) .plain))
    (hf : fold f = .none ∨ ((render f).fromPos = .ok (Doc.text (lay (fold f) .source)) ∧ Solid (lay (fold f) .source)))
    (hw : Part w) (hg : Part g) (hh : Part h) (ho : Part o) (hl : Part l) (hoff : Part off)
    (kw : orNone isWhere (fold w) = true) (kg : orNone isGroupBy (fold g) = true) (kh : orNone isHaving (fold h) = true)
    (ko : orNone isOrderBy (fold o) = true) (kl : orNone isLimit (fold l) = true) (koff : orNone isOffset (fold off) = true) :
    selectBody (renderList es) all d (renderList on) (render f) (render w) (render g) (render h) (render o) (render l) (render off) =
      .ok (Doc.text (selectDoc (foldList es) all d (foldList on) (fold f) (fold w) (fold g) (fold h) (fold o) (fold l) (fold off))) ∧
    Solid (selectDoc (foldList es) all d (foldList on) (fold f) (fold w) (fold g) (fold h) (fold o) (fold l) (fold off)) := by
  obtain ⟨h1, s1⟩ := head_txt had hon hons honl
  obtain ⟨x2, h2, t2, s2⟩ := list_txt s1 hne hes
  have h3 : ∃ x, (if (render f).truthy then do
      let x ← (render f).fromPos
      pure (str!"\nFROM " ++ x)
    else pure [] : RStr) = .ok x ∧ Doc.text (listDoc (headDoc all d (foldList on)) (foldList es) ++
      optional (fold f).truthy ([str!"FROM "] <+> lay (fold f) .source)) =
      Doc.text (headDoc all d (foldList on)) ++ x2 ++ x := by
    rw [truthy_render, text_optional s2.1 fun _ => beside_ne (by simp), t2]
    rcases hf with hf | ⟨hf, hfs⟩
    · rw [hf]; exact ⟨[], rfl, rfl⟩
    · cases ht : (fold f).truthy with
      | false => exact ⟨[], rfl, rfl⟩
      | true =>
        refine ⟨_, by rw [if_pos rfl, bindE hf]; rfl, ?_⟩
        rw [if_pos rfl, text_pre hfs]; simp
  have s3 : Solid (listDoc (headDoc all d (foldList on)) (foldList es) ++
      optional (fold f).truthy ([str!"FROM "] <+> lay (fold f) .source)) := s2.optional fun ht => by
    rcases hf with hf | ⟨-, hf⟩
    · rw [hf] at ht; cases ht
    · exact (Solid.line (by decide)).beside hf
  obtain ⟨x3, h3, t3⟩ := h3
  obtain ⟨x4, h4, t4⟩ := optClause_ok hw (orNone_lead kw where_lead) s3.1 t3
  have s4 := s3.optional hw.solid
  obtain ⟨x5, h5, t5⟩ := optClause_ok hg (orNone_group kg) s4.1 t4
  have s5 := s4.optional hg.solid
  obtain ⟨x6, h6, t6⟩ := optClause_ok hh (orNone_lead kh having_lead) s5.1 t5
  have s6 := s5.optional hh.solid
  obtain ⟨x7, h7, t7⟩ := optClause_ok ho (orNone_lead ko order_lead) s6.1 t6
  have s7 := s6.optional ho.solid
  obtain ⟨x8, h8, t8⟩ := optClause_ok hl (orNone_lead kl limit_lead) s7.1 t7
  have s8 := s7.optional hl.solid
  obtain ⟨x9, h9, t9⟩ := optClause_ok hoff (orNone_lead koff offset_lead) s8.1 t8
  refine ⟨?_, s8.optional hoff.solid⟩
  rw [selectBody_eq, bindE h1, bindE h2, bindE h3, bindE h4, bindE h5, bindE h6, bindE h7, bindE h8, bindE h9]
  unfold selectDoc
  rw [t9]
  rfl

/-! ### All trees -/

/-- The parts of a tree. -/
def SubF (n : Node) : Prop := ∀ m, sizeOf m < sizeOf n → wf (fold m) = true → tidy (fold m) = true → Good m

theorem subquery_isSelect {m : Node} (h : level m ≤ 5 ∨ isQuery m = true ∨ isBody m = true) (hs : m.isSelect = true) :
    isSubquery m = true := by
  cases m <;> first | (cases hs; done) | skip
  rename_i es all d on f w g h' o l off semi
  rcases h with h | h | h
  · rcases select_levels es all d on f w g h' o l off semi with h' | h'
    · simp [isSubquery, h'.2]
    · omega
  · exact h
  · exact absurd h Bool.false_ne_true

theorem Good.elem {n : Node} (h : Good n) (hw : wf (fold n) = true) (hl : Core.level (fold n) ≤ 5) : Elem n where
  txt := h.level hl (by omega)
  solid := solid_lay _ hw (level_none hl (by omega))
  sub hs := h.sub (subquery_isSelect (.inl hl) hs)

theorem Good.elem' {n : Node} (h : Good n) (hw : wf (fold n) = true) (hf : isQuery (fold n) = true ∨ isBody (fold n) = true) : Elem n where
  txt := h.txt' (by rcases hf with hf | hf; exact not_none_of hf rfl; exact not_none_of hf rfl)
    (by rcases hf with hf | hf; exact lead_query hf; exact lead_from hf)
  solid := solid_lay _ hw (by rcases hf with hf | hf; exact not_none_of hf rfl; exact not_none_of hf rfl)
  sub hs := h.sub (subquery_isSelect (.inr hf) hs)

theorem members {n : Node} {args : List Node} (ih : SubF n) (hs : sizeOf args < sizeOf n) (hw : wfList (foldList args) = true)
    (ht : tidyList (foldList args) = true) : ∀ a ∈ args, Good a ∧ wf (fold a) = true := by
  rw [wfList_iff, foldList_eq] at hw
  rw [tidyList_iff, foldList_eq] at ht
  intro a ha
  have hm := List.mem_map_of_mem (f := fold) ha
  exact ⟨ih a (by have := List.sizeOf_lt_of_mem ha; omega) (hw _ hm) (ht _ hm), hw _ hm⟩

theorem levels_fold {args : List Node} {k : Nat} (h : levels (foldList args) ≤ k) : ∀ a ∈ args, level (fold a) ≤ k := by
  intro a ha
  rw [foldList_eq] at h
  exact levels_le.1 h _ (List.mem_map_of_mem ha)

theorem elems {n : Node} {args : List Node} (ih : SubF n) (hs : sizeOf args < sizeOf n) (hw : wfList (foldList args) = true)
    (ht : tidyList (foldList args) = true) (hl : levels (foldList args) ≤ 5) : ∀ a ∈ args, Elem a := fun a ha =>
  let h := members ih hs hw ht a ha
  h.1.elem h.2 (levels_fold hl a ha)

theorem paren_elems {n : Node} {args : List Node} (ih : SubF n) (hs : sizeOf args < sizeOf n) (hw : wf (.paren (foldList args)) = true)
    (ht : tidyList (foldList args) = true) : ∀ a ∈ args, Elem a := by
  simp only [wf, Bool.and_eq_true, Bool.or_eq_true, decide_eq_true_eq] at hw
  obtain ⟨h1 | h1, h2⟩ := hw
  · exact elems ih hs h2 ht h1
  · intro a ha
    obtain ⟨hg, hwa⟩ := members ih hs h2 ht a ha
    refine hg.elem' hwa ?_
    match args, h1 with
    | [b], h1 =>
      obtain rfl : a = b := by simpa using ha
      simp only [foldList, isGroup, Bool.or_eq_true] at h1
      rcases h1 with ((h | h) | h) | h
      · exact .inl h
      · exact .inr (by simp [isBody, isFrom, h])
      · exact .inr (by simp [isBody, isFrom, h])
      · exact .inr (by simp [isBody, h])

/-- The elements, if the tree is a pair of parentheses. -/
theorem inner_elems {n v : Node} (ih : SubF n) (hs : sizeOf v < sizeOf n) (hw : wf (fold v) = true) (ht : tidy (fold v) = true) :
    ∀ args, v = .paren args → ∀ a ∈ args, Elem a := by
  rintro args rfl
  rw [fold] at hw ht
  exact paren_elems ih (by simp only [Node.paren.sizeOf_spec] at hs; omega) hw (by simpa [tidy] using ht)

theorem clause_step {n v : Node} {kw : Str} (ih : SubF n) (hs : sizeOf v < sizeOf n) (hw : wf (fold v) = true)
    (hl : level (fold v) ≤ 3) (ht : (singleOrColumns (fold v) && tidy (fold v)) = true) :
    ∃ x, clauseBody (render v) = .ok x ∧ Doc.text (clause kw (isParen (fold v)) (lay (fold v) .block)) = kw ++ x := by
  simp only [Bool.and_eq_true] at ht
  exact clause_ok hw hl ht.1 ((ih v hs hw ht.2).level hl (by omega)) (inner_elems ih hs hw ht.2) kw

theorem none_of_truthy {n : Node} (h : n.truthy = false) : n = .none := by
  cases n <;> first | rfl | cases h

theorem orNone_or {p : Node → Bool} {m : Node} (h : orNone p m = true) : m = .none ∨ p m = true := by
  cases m <;> first | exact .inl rfl | exact .inr h

theorem lay_none : lay .none .plain = [] := by
  rw [lay] <;> intros <;> contradiction

theorem good_case {o : Node} {ws : List Node} {e : Node} (ih : SubF (.case o ws e)) (hw : wf (fold (.case o ws e)) = true)
    (ht : tidy (fold (.case o ws e)) = true) : Good (.case o ws e) := by
  refine Good.simple rfl rfl rfl fun _ => ⟨_, ?_, rfl⟩
  rw [fold] at hw ht
  simp only [wf, Bool.and_eq_true, Bool.or_eq_true, Bool.not_eq_true', decide_eq_true_eq] at hw
  simp only [tidy, Bool.and_eq_true] at ht
  obtain ⟨⟨⟨⟨⟨⟨⟨h1, h2⟩, h3⟩, h4⟩, h5⟩, h6⟩, h7⟩, h8⟩ := hw
  have hwm := members ih (by simp only [Node.case.sizeOf_spec]; omega) h7 ht.1.2
  have ho := ih o (by simp only [Node.case.sizeOf_spec]; omega) h6 ht.1.1
  have he := ih e (by simp only [Node.case.sizeOf_spec]; omega) h8 ht.2
  have hwhen : ∀ w ∈ ws, fold w ≠ .none ∧ lead w = str!" " := by
    intro w hw
    have : isWhen (fold w) = true := by
      rw [foldList_eq] at h4
      exact List.all_eq_true.1 h4 _ (List.mem_map_of_mem hw)
    exact ⟨not_none_of this rfl, by cases w <;> first | rfl | exact absurd this Bool.false_ne_true⟩
  have hor : ∀ {m : Node}, Good m → wf (fold m) = true → ((fold m).truthy = false ∨ level (fold m) ≤ 3) →
      fold m = .none ∨ Elem m := fun hg hwm h => by
    rcases h with h | h
    · exact .inl (none_of_truthy h)
    · exact .inr (hg.elem hwm (by omega))
  have htr : ∀ {m : Node}, Elem m → (fold m).truthy = true := fun {m} hm => by
    cases ht : (fold m).truthy with
    | true => rfl
    | false =>
      have h := (hm.solid .plain).1
      rw [none_of_truthy ht] at h
      exact absurd lay_none h
  refine case_txt (by rintro rfl; cases h3) (hor ho h6 h1) (hor he h8 h5) (fun w hw => ?_) (fun w hw => ?_) htr htr
  · obtain ⟨x, i1, i2⟩ := (hwm w hw).1.txt (hwhen w hw).1
    exact ⟨x, i1, by rw [i2, (hwhen w hw).2]; rfl⟩
  · exact solid_lay _ (hwm w hw).2 (hwhen w hw).1 _

theorem isLeft_body {n : Node} (h : isLeft n = true) : isBody n = true := by
  cases n <;> first
    | exact absurd h Bool.false_ne_true
    | (simp only [isLeft, isBody, isFrom, isJoin] at h ⊢; simp [h])

theorem good_join {type : Str} {l r on us : Node} (ih : SubF (.join type l r on us)) (hw : wf (fold (.join type l r on us)) = true)
    (ht : tidy (fold (.join type l r on us)) = true) : Good (.join type l r on us) := by
  have hsol := solid_lay _ hw (by rw [fold]; exact Node.noConfusion) .plain
  have hw' := hw
  rw [fold] at hw' ht
  simp only [wf, Bool.and_eq_true, Bool.or_eq_true, decide_eq_true_eq] at hw'
  simp only [tidy, Bool.and_eq_true] at ht
  obtain ⟨⟨⟨⟨⟨h1, h2⟩, h3⟩, h4⟩, h5⟩, h6⟩ := hw'
  obtain ⟨⟨⟨t1, t2⟩, t3⟩, t4⟩ := ht
  have hfl := isLeft_body h1
  have hfr : isBody (fold r) = true := by
    rcases h6 with h | h
    · exact plain_body h.1.2
    · rw [isBody, h.1.1.2]; rfl
  have gl := ih l (by simp only [Node.join.sizeOf_spec]; omega) h2 t1
  have gr := ih r (by simp only [Node.join.sizeOf_spec]; omega) h3 t2
  have al : ∀ m : Node, sizeOf m < sizeOf (Node.join type l r on us) → wf (fold m) = true → tidy (fold m) = true →
      ∀ e al w, m = .alias e al w → Good e ∧ wf (fold e) = true := by
    rintro m hs hwm htm e al w rfl
    rw [fold] at hwm htm
    simp only [wf, Bool.and_eq_true] at hwm
    simp only [tidy, Bool.and_eq_true] at htm
    exact ⟨ih e (by simp only [Node.alias.sizeOf_spec] at hs; omega) hwm.1.2 htm.1, hwm.1.2⟩
  have hon : fold on = .none ∨ ∃ e, on = .on e ∧ Good on ∧ wf (fold on) = true := by
    have : (fold on).truthy = false ∨ isOn (fold on) = true := by
      rcases h6 with ⟨-, (h | h) | h⟩ | h
      · exact .inr h.1
      · exact .inl (by simpa using h.1)
      · exact .inl (by simpa using h.1)
      · exact .inl (by simpa using h.1.2)
    rcases this with h | h
    · exact .inl (none_of_truthy h)
    · have hg := ih on (by simp only [Node.join.sizeOf_spec]; omega) h4 t3
      cases on <;> first | exact absurd h Bool.false_ne_true | exact .inr ⟨_, rfl, hg, h4⟩
  have hus : fold us = .none ∨ ∃ e, us = .using_ e ∧ Good us ∧ wf (fold us) = true := by
    have : (fold us).truthy = false ∨ isUsing (fold us) = true := by
      rcases h6 with ⟨-, (h | h) | h⟩ | h
      · exact .inl (by simpa using h.2)
      · exact .inr h.2
      · exact .inl (by simpa using h.2)
      · exact .inl (by simpa using h.2)
    rcases this with h | h
    · exact .inl (none_of_truthy h)
    · have hg := ih us (by simp only [Node.join.sizeOf_spec]; omega) h5 t4
      cases us <;> first | exact absurd h Bool.false_ne_true | exact .inr ⟨_, rfl, hg, h5⟩
  have hone : fold on = .none ∨ fold us = .none := by
    rcases h6 with ⟨-, (h | h) | h⟩ | h
    · exact .inr (none_of_truthy (by simpa using h.2))
    · exact .inl (none_of_truthy (by simpa using h.1))
    · exact .inl (none_of_truthy (by simpa using h.1))
    · exact .inr (none_of_truthy (by simpa using h.2))
  have htxt : Txt (.join type l r on us) := join_txt (join_upper (h6.imp (·.1.1) (·.1.1.1)))
    (side_ok gl hfl h2 (al l (by simp only [Node.join.sizeOf_spec]; omega) h2 t1) [])
    (side_ok gr hfr h3 (al r (by simp only [Node.join.sizeOf_spec]; omega) h3 t2) str!" ")
    (solid_lay _ h2 (isLeft_none h1) _) (solid_lay _ h3 (not_none_of hfr rfl) _) hon hus hone
  refine Good.source rfl rfl htxt rfl hsol rfl rfl ?_ fun j => ?_
  · rw [fold, lay, lay]; rfl
  · rw [fold, lay, lay]; rfl

theorem good_unnest {v : Node} {o oa : Bool} {al : Option Str} (ih : SubF (.unnest v o oa al))
    (hw : wf (fold (.unnest v o oa al)) = true) (ht : tidy (fold (.unnest v o oa al)) = true) : Good (.unnest v o oa al) := by
  have hsol := solid_lay _ hw (by rw [fold]; exact Node.noConfusion) .plain
  rw [fold] at hw ht
  simp only [wf, Bool.and_eq_true] at hw
  have hv := ih v (by simp only [Node.unnest.sizeOf_spec]; omega) hw.1.2 (by simpa [tidy] using ht)
  have hn : fold v ≠ .none := not_none_of hw.1.1 rfl
  have hl : lead v = [] := by
    have := hw.1.1
    cases v <;> first | rfl | exact absurd this Bool.false_ne_true
  refine Good.source rfl rfl (unnest_txt (hv.txt' hn hl) (solid_lay _ hw.1.2 hn _) fun a ha => ?_) rfl hsol rfl rfl ?_ fun j => ?_
  · subst ha
    simp only [Bool.and_eq_true] at hw
    refine ⟨hw.2.1, ?_⟩
    rintro rfl
    simp [ident] at hw
  · rw [fold, lay, lay]; rfl
  · rw [fold, lay, lay]; rfl

theorem bare_select {m : Node} (h : isBare m = true) : isSubquery m = true := by
  cases m <;> first | exact absurd h Bool.false_ne_true | skip
  simp only [isBare, Bool.and_eq_true] at h
  exact h.2

theorem good_combined {op : Str} {l r : Node} (ih : SubF (.combined op l r)) (hw : wf (fold (.combined op l r)) = true)
    (ht : tidy (fold (.combined op l r)) = true) : Good (.combined op l r) := by
  have hsol := solid_lay _ hw (by rw [fold]; exact Node.noConfusion) .plain
  rw [fold] at hw ht
  simp only [wf, Bool.and_eq_true, Bool.or_eq_true, decide_eq_true_eq] at hw
  simp only [tidy, Bool.and_eq_true] at ht
  obtain ⟨⟨⟨⟨h1, h2⟩, h3⟩, h4⟩, h5⟩ := hw
  have hl := (ih l (by simp only [Node.combined.sizeOf_spec]; omega) h4 ht.1).elem' h4
    (.inr (by rcases h2 with h | h <;> simp [isBody, isFrom, h]))
  have hr := (ih r (by simp only [Node.combined.sizeOf_spec]; omega) h5 ht.2).elem' h5
    (h3.symm.imp (fun h => subquery_query (bare_select h)) fun h => by simp [isBody, h])
  refine Good.source rfl rfl (combined_txt (set_upper h1) hl.txt hr.txt (hl.solid _) (hr.solid _)) rfl hsol rfl rfl ?_ fun j => ?_
  · rw [fold, lay, lay]; rfl
  · rw [fold, lay, lay]; rfl

theorem good_select {es : List Node} {all d : Bool} {on : List Node} {f w g h o l off : Node} {semi : Bool}
    (ih : SubF (.select es all d on f w g h o l off semi)) (hw : wf (fold (.select es all d on f w g h o l off semi)) = true)
    (ht : tidy (fold (.select es all d on f w g h o l off semi)) = true) : Good (.select es all d on f w g h o l off semi) := by
  rw [fold] at hw ht
  simp only [wf, Bool.and_eq_true, decide_eq_true_eq, Bool.not_eq_true', Bool.or_eq_true] at hw
  simp only [tidy, Bool.and_eq_true] at ht
  obtain ⟨⟨⟨⟨⟨⟨⟨⟨⟨⟨⟨⟨⟨⟨⟨⟨⟨⟨⟨⟨h1, h2⟩, h3⟩, h4⟩, h5⟩, h6⟩, h7⟩, kf⟩, hf⟩, kw⟩, hw⟩, kg⟩, hg⟩, kh⟩, hh⟩, ko⟩, ho⟩, kl⟩, hl⟩, koff⟩, hoff⟩ := hw
  obtain ⟨⟨⟨⟨⟨⟨⟨⟨t1, t2⟩, t3⟩, t4⟩, t5⟩, t6⟩, t7⟩, t8⟩, t9⟩ := ht
  have hes := elems ih (by simp only [Node.select.sizeOf_spec]; omega) h3 t1 (Nat.le_trans h2 (by omega))
  have hon := members ih (by simp only [Node.select.sizeOf_spec]; omega) h7 t2
  have hpart : ∀ {c : Node}, sizeOf c < sizeOf (Node.select es all d on f w g h o l off semi) → wf (fold c) = true → tidy (fold c) = true →
      Part c := fun {c} hs hw ht => by
    by_cases hc : fold c = .none
    · exact .inl hc
    · exact .inr ⟨ih c hs hw ht, solid_lay _ hw hc _⟩
  have hne : es ≠ [] := by rintro rfl; cases h1
  have hon' : on = [] ∨ d = true := by
    rcases h5 with h | h
    · cases on with
      | nil => exact .inl rfl
      | cons _ _ => cases h
    · exact .inr h
  have hfrom : fold f = .none ∨ ((render f).fromPos = .ok (Doc.text (lay (fold f) .source)) ∧ Solid (lay (fold f) .source)) := by
    rcases orNone_or kf with h | h
    · exact .inl h
    · exact .inr ⟨(ih f (by simp only [Node.select.sizeOf_spec]; omega) hf t3).src h, solid_lay _ hf (not_none_of h rfl) _⟩
  obtain ⟨hbody, hsol⟩ := select_txt (f := f) hne hes h4 hon'
    (fun a ha => (hon a ha).1.str (levels_fold h6 a ha) (by omega))
    (fun a ha => solid_lay _ (hon a ha).2 (level_none (levels_fold h6 a ha) (by omega)) _) hfrom
    (hpart (c := w) (by simp only [Node.select.sizeOf_spec]; omega) hw t4)
    (hpart (c := g) (by simp only [Node.select.sizeOf_spec]; omega) hg t5)
    (hpart (c := h) (by simp only [Node.select.sizeOf_spec]; omega) hh t6)
    (hpart (c := o) (by simp only [Node.select.sizeOf_spec]; omega) ho t7)
    (hpart (c := l) (by simp only [Node.select.sizeOf_spec]; omega) hl t8)
    (hpart (c := off) (by simp only [Node.select.sizeOf_spec]; omega) hoff t9) kw kg kh ko kl koff
  have hsub : semi = false → (render (.select es all d on f w g h o l off semi)).sub =
      .ok (Doc.text (Doc.indent (lay (fold (.select es all d on f w g h o l off semi)) .plain))) := by
    rintro rfl
    rw [fold, lay_select]
    show (selectBody _ _ _ _ _ _ _ _ _ _ _ >>= fun x => pure (' ' :: indentNL x)) = _
    rw [bindE hbody, if_neg Bool.false_ne_true]
    show _ = Except.ok (Doc.text (Doc.indent (selectDoc _ _ _ _ _ _ _ _ _ _ _)))
    rw [text_indent hsol]
    rfl
  refine ⟨fun _ => ⟨_, ?_, rfl⟩, fun h => (by cases h), fun hs => hsub (by simpa [fold, isSubquery] using hs), fun h => (by cases h), fun hs => ?_⟩
  · show (selectBody _ _ _ _ _ _ _ _ _ _ _ >>= fun x => pure (if semi then x ++ str!";" else x)) = _
    rw [bindE hbody, fold, lay_select]
    cases semi with
    | true =>
      rw [if_pos rfl, if_pos rfl]
      show _ = Except.ok (Doc.text (selectDoc _ _ _ _ _ _ _ _ _ _ _ <+> [str!";"]))
      rw [text_post hsol]; rfl
    | false => rfl
  · have hsemi : semi = false := by
      rw [fold] at hs
      simpa [isBody, isFrom, isJoin, isSource, isSet, isQuery, isSubquery] using hs
    have hsub := hsub hsemi
    refine ⟨⟨0, true, Doc.text (Doc.indent (lay (fold (.select es all d on f w g h o l off semi)) .plain))⟩, ?_, fun j hj => ?_⟩
    · show ((render (.select es all d on f w g h o l off semi)).sub).map _ = _
      rw [hsub]; rfl
    · rcases hj with hj | hj
      · obtain ⟨j, rfl⟩ : ∃ k, j = k + 1 := ⟨j - 1, by omega⟩
        subst hsemi
        rw [fold, lay_select, lay_select, if_neg Bool.false_ne_true]
        show Doc.text (boxed (j + 1) (selectDoc _ _ _ _ _ _ _ _ _ _ _)) = _
        rw [text_boxed hsol, sideText, if_pos (by show 0 < 0 + (j + 1); omega), if_pos rfl]
        show _ = _ ++ '\n' :: Doc.text (Doc.indent (selectDoc _ _ _ _ _ _ _ _ _ _ _)) ++ _ ++ _
        rw [text_indent hsol]
        simp
      · exact absurd hj.1 (by rw [fold]; exact Bool.false_ne_true)

theorem order_elems {n : Node} {args : List Node} (ih : SubF n) (hs : sizeOf args < sizeOf n) (hi : (foldList args).all isOrderItem = true)
    (hw : wfList (foldList args) = true) (ht : tidyList (foldList args) = true) :
    ∀ a ∈ args, Elem a ∧ (render a).s = .ok (Doc.text (lay (fold a) .plain)) := by
  have hm := members ih hs hw ht
  intro a ha
  have hi : isOrderItem (fold a) = true := by
    rw [foldList_eq] at hi
    exact List.all_eq_true.1 hi _ (List.mem_map_of_mem ha)
  have htx : Txt a := by
    refine (hm a ha).1.txt' (not_none_of hi rfl) ?_
    cases a <;> first | rfl | exact absurd hi Bool.false_ne_true
  refine ⟨⟨htx, solid_lay _ (hm a ha).2 (not_none_of hi rfl), fun h => ?_⟩, ?_⟩
  · exfalso
    cases a <;> first | exact absurd hi Bool.false_ne_true | exact absurd h Bool.false_ne_true
  · rw [← htx]
    cases a <;> first | rfl | exact absurd hi Bool.false_ne_true

theorem good_agg {c o : Node} {d ignore respect : Bool} {l : Option Int} (ih : SubF (.arrayAgg c d ignore respect o l))
    (hw : wf (fold (.arrayAgg c d ignore respect o l)) = true) (ht : tidy (fold (.arrayAgg c d ignore respect o l)) = true) :
    Txt (.arrayAgg c d ignore respect o l) := by
  rw [fold] at hw ht
  simp only [wf, Bool.and_eq_true, decide_eq_true_eq, Bool.not_eq_true'] at hw
  obtain ⟨⟨⟨⟨⟨⟨h1, h2⟩, h3⟩, h4⟩, h5⟩, h6⟩, h7⟩ := hw
  simp only [tidy, Bool.and_eq_true] at ht
  subst h4
  have hc := ih c (by simp only [Node.arrayAgg.sizeOf_spec]; omega) h2 ht.1
  refine agg_txt (hc.elem h2 (by omega)) ?_ ?_
  · rintro rfl
    simp at h7
  · rcases orNone_or h5 with h | h
    · exact .inl h
    · have hn : fold o ≠ .none := not_none_of h rfl
      have hso := solid_lay _ h6 hn .inline
      refine .inr ⟨?_, hso, ?_⟩
      · revert h
        generalize fold o = m
        intro h
        cases m <;> first | exact absurd h Bool.false_ne_true | rfl
      · have h6' := h6
        have t2 := ht.2
        cases o <;> first | exact absurd h Bool.false_ne_true | skip
        rename_i args
        rw [fold] at h6' t2
        simp only [wf, Bool.and_eq_true, Bool.not_eq_true'] at h6'
        simp only [tidy] at t2
        have := order_elems ih (by simp only [Node.arrayAgg.sizeOf_spec, Node.orderBy.sizeOf_spec]; omega) h6'.1.2 h6'.2 t2
        exact orderBy_flat (by rintro rfl; exact absurd h6'.1.1 (by decide)) (fun a ha => (this a ha).1) fun a ha => (this a ha).2

theorem good_over {f o fr : Node} {part : List Node} (ih : SubF (.analytics f part o fr))
    (hw : wf (fold (.analytics f part o fr)) = true) (ht : tidy (fold (.analytics f part o fr)) = true) :
    Txt (.analytics f part o fr) := by
  rw [fold] at hw ht
  simp only [wf, Bool.and_eq_true, decide_eq_true_eq] at hw
  obtain ⟨⟨⟨⟨⟨⟨⟨⟨⟨h1, h2⟩, h3⟩, h4⟩, h5⟩, h6⟩, h7⟩, h8⟩, h9⟩, h10⟩ := hw
  simp only [tidy, Bool.and_eq_true] at ht
  have hf := ih f (by simp only [Node.analytics.sizeOf_spec]; omega) h2 ht.1.1
  have ho := ih o (by simp only [Node.analytics.sizeOf_spec]; omega) h7 ht.2
  refine over_txt (hf.elem h2 (Nat.le_trans (level_function h1) (by omega)))
    (elems ih (by simp only [Node.analytics.sizeOf_spec]; omega) h4 ht.1.2 (by omega)) ?_ ?_
  · rcases orNone_or h6 with h | h
    · exact .inl h
    · have hn : fold o ≠ .none := not_none_of h rfl
      refine .inr ⟨?_, solid_lay _ h7 hn .plain, ?_⟩
      · revert h
        generalize fold o = m
        intro h
        cases m <;> first | exact absurd h Bool.false_ne_true | rfl
      · obtain ⟨x, hx, hxt⟩ := ho.txt hn
        exact ⟨x, hx, by rw [hxt, order_lead o h]⟩
  · rcases orNone_or h9 with h | h
    · exact .inl h
    · have hn : fold fr ≠ .none := not_none_of h rfl
      have hs := solid_lay _ h10 hn .plain
      cases fr <;> first | exact absurd h Bool.false_ne_true | skip
      rename_i r f
      refine .inr ⟨rfl, hs, ?_, ?_⟩
      · rw [fold, lay]; rfl
      · rw [fold] at h10
        simp only [wf, Bool.and_eq_true, decide_eq_true_eq] at h10
        exact frame_txt ((by decide : ∀ r ∈ [str!"rows", str!"range"], r.all isAscii = true) _ h10.1) (frame_ascii h10.2)

theorem col_level {m : Node} (h : isCol m = true) : level m = 0 := by
  cases m <;> first | exact absurd h Bool.false_ne_true | rfl

theorem simple_txt {n : Node} (hb : n.isBoolc = false) (hf : isBody (fold n) = false) (hs : isQuery (fold n) = false)
    (hl : lead n = []) (h : Txt n) : Good n := Good.simple hb hf hs fun _ => ⟨_, h, by rw [hl]; rfl⟩

/-- Two parts and something between them. -/
theorem mid_txt {l r : Node} {k : Str} {x y : RStr} (hx : x = .ok (Doc.text (lay (fold l) .plain)))
    (hy : y = .ok (Doc.text (lay (fold r) .plain))) (hl : Solid (lay (fold l) .plain)) (hr : Solid (lay (fold r) .plain)) :
    (x >>= fun x => y >>= fun y => (pure (x ++ k ++ y) : RStr)) =
      .ok (Doc.text (lay (fold l) .plain <+> [k] <+> lay (fold r) .plain)) := by
  rw [bindE hx, bindE hy, text_mid hl hr]; rfl

theorem good_step (n : Node) (ih : SubF n) (hw : wf (fold n) = true) (ht : tidy (fold n) = true) : Good n := by
  cases n with
  | none => exact Good.simple rfl rfl rfl fun h => absurd rfl h
  | raw s => exact simple_txt rfl rfl rfl rfl (by rw [Txt, fold, lay]; rfl)
  | column v =>
    refine simple_txt rfl rfl rfl rfl ?_
    rw [Txt, fold, lay]
    show Except.ok (if v ∈ capitalNames then E.upper v else v) = _
    rw [if_neg]
    · rfl
    · rw [fold] at ht
      simpa only [tidy, decide_eq_true_eq] using ht
  | chained l r =>
    refine simple_txt rfl rfl rfl rfl ?_
    rw [fold] at hw ht
    simp only [wf, Bool.and_eq_true] at hw
    simp only [tidy, Bool.and_eq_true] at ht
    have hl := ih l (by simp only [Node.chained.sizeOf_spec]; omega) hw.1.2 ht.1
    have hr := ih r (by simp only [Node.chained.sizeOf_spec]; omega) hw.2 ht.2
    have ll : level (fold l) ≤ 0 := by
      exact Nat.le_of_eq (level_name hw.1.1.1)
    have lr : level (fold r) ≤ 0 := by
      exact Nat.le_of_eq (level_chain hw.1.1.2)
    rw [Txt, fold, lay]
    exact mid_txt (hl.level ll (by omega)) (hr.level lr (by omega)) (solid_lay _ hw.1.2 (level_none ll (by omega)) _)
      (solid_lay _ hw.2 (level_none lr (by omega)) _)
  | int i => exact simple_txt rfl rfl rfl rfl (by rw [Txt, fold, lay]; rfl)
  | string v q pre =>
    refine simple_txt rfl rfl rfl rfl ?_
    cases pre <;> rw [Txt, fold, lay] <;> rfl
  | float r => exact simple_txt rfl rfl rfl rfl (by rw [Txt, fold, lay]; rfl)
  | null => exact simple_txt rfl rfl rfl rfl (by rw [Txt, fold, lay]; rfl)
  | bool b =>
    refine simple_txt rfl rfl rfl rfl ?_
    rw [Txt, fold, lay]
    show Except.ok (E.upper (if b then str!"True" else str!"False")) = _
    cases b
    · rw [upper_caps (by decide)]; rfl
    · rw [upper_caps (by decide)]; rfl
  | type v =>
    refine simple_txt rfl rfl rfl rfl ?_
    rw [Txt]
    show Except.ok (E.upper v) = _
    rw [fold] at hw
    simp only [wf] at hw
    rw [upper_caps (fname_ascii hw), fold, lay]
    rfl
  | func f args =>
    refine simple_txt rfl rfl rfl rfl ?_
    rw [fold] at hw ht
    simp only [wf, Bool.and_eq_true, decide_eq_true_eq] at hw
    exact func_txt (cname_ascii hw.1.1.1) (elems ih (by simp only [Node.func.sizeOf_spec]; omega) hw.2 (by simpa [tidy] using ht) hw.1.2)
  | count args d =>
    refine simple_txt rfl rfl rfl rfl ?_
    rw [fold] at hw ht
    simp only [wf, Bool.and_eq_true, decide_eq_true_eq] at hw
    exact count_txt (elems ih (by simp only [Node.count.sizeOf_spec]; omega) hw.2 (by simpa [tidy] using ht) hw.1)
  | cast c t =>
    refine simple_txt rfl rfl rfl rfl ?_
    rw [fold] at hw ht
    simp only [wf, Bool.and_eq_true, decide_eq_true_eq] at hw
    have hc := ih c (by simp only [Node.cast.sizeOf_spec]; omega) hw.1.2 (by simpa [tidy] using ht)
    refine cast_txt (hc.elem hw.1.2 (by omega)) ⟨?_, solid_lay _ hw.2 (not_none_of hw.1.1.2 rfl), fun h => ?_⟩
    · have : isTypeName (fold t) = true := hw.1.1.2
      have hwt := hw.2
      cases t <;> first | exact absurd this Bool.false_ne_true | skip
      rename_i v
      rw [fold] at hwt
      simp only [wf] at hwt
      rw [Txt, fold, lay]
      show Except.ok (E.upper v) = _
      rw [upper_caps (fname_ascii hwt)]
      rfl
    · exfalso
      have : isTypeName (fold t) = true := hw.1.1.2
      revert this h
      generalize fold t = m
      intro h this
      cases m <;> first | exact absurd this Bool.false_ne_true | exact absurd h Bool.false_ne_true
  | paren args =>
    have hwl : wfList (foldList args) = true := by
      rw [fold] at hw
      simp only [wf, Bool.and_eq_true] at hw
      exact hw.2
    rw [fold] at hw ht
    simp only [tidy] at ht
    exact paren_good (paren_elems ih (by simp only [Node.paren.sizeOf_spec]; omega) hw ht) fun a ha =>
      (members ih (by simp only [Node.paren.sizeOf_spec]; omega) hwl ht a ha).1
  | array args =>
    refine simple_txt rfl rfl rfl rfl ?_
    rw [fold] at hw ht
    simp only [wf, Bool.and_eq_true, decide_eq_true_eq] at hw
    exact array_txt (elems ih (by simp only [Node.array.sizeOf_spec]; omega) hw.2 (by simpa [tidy] using ht) hw.1)
  | index e is =>
    refine simple_txt rfl rfl rfl rfl ?_
    rw [fold] at hw ht
    simp only [wf, Bool.and_eq_true, decide_eq_true_eq] at hw
    simp only [tidy, Bool.and_eq_true] at ht
    obtain ⟨⟨⟨h1, h2⟩, h3⟩, h4⟩ := hw
    have he := ih e (by simp only [Node.index.sizeOf_spec]; omega) h3 ht.1
    exact index_txt (he.elem h3 (by have := level_base h1; omega)) (elems ih (by simp only [Node.index.sizeOf_spec]; omega) h4 ht.2 h2)
  | arrayAgg c d ignore respect o l => exact simple_txt rfl rfl rfl rfl (good_agg ih hw ht)
  | filtered c w =>
    refine simple_txt rfl rfl rfl rfl ?_
    rw [fold] at hw ht
    simp only [wf, Bool.and_eq_true, decide_eq_true_eq] at hw
    simp only [tidy, Bool.and_eq_true] at ht
    obtain ⟨⟨⟨h1, h2⟩, h3⟩, h4⟩ := hw
    have hc := ih c (by simp only [Node.filtered.sizeOf_spec]; omega) h3 ht.1
    have hw := ih w (by simp only [Node.filtered.sizeOf_spec]; omega) h4 ht.2
    exact filtered_txt (hc.elem h3 (Nat.le_trans (level_call h1) (by omega))) (hw.elem h4 (by omega))
  | analytics f part o fr => exact simple_txt rfl rfl rfl rfl (good_over ih hw ht)
  | frame r f =>
    refine simple_txt rfl rfl rfl rfl ?_
    rw [fold] at hw
    simp only [wf, Bool.and_eq_true, decide_eq_true_eq] at hw
    exact frame_txt ((by decide : ∀ r ∈ [str!"rows", str!"range"], r.all isAscii = true) _ hw.1) (frame_ascii hw.2)
  | datePart part e =>
    refine simple_txt rfl rfl rfl rfl ?_
    rw [fold] at hw ht
    simp only [wf, Bool.and_eq_true, decide_eq_true_eq] at hw
    have he := ih e (by simp only [Node.datePart.sizeOf_spec]; omega) hw.2 (by simpa [tidy] using ht)
    exact datePart_txt ((by decide : ∀ r ∈ dateParts, r.all isAscii = true) _ hw.1.1) (he.elem hw.2 (by omega))
  | except_ e args =>
    refine simple_txt rfl rfl rfl rfl ?_
    rw [fold] at hw ht
    simp only [wf, Bool.and_eq_true, decide_eq_true_eq, Bool.not_eq_true'] at hw
    simp only [tidy, Bool.and_eq_true] at ht
    obtain ⟨⟨⟨⟨h1, h2⟩, h3⟩, h4⟩, h5⟩ := hw
    have he := ih e (by simp only [Node.except_.sizeOf_spec]; omega) h4 ht.1
    rw [Txt, fold, lay]
    exact star_txt _ (by decide) (he.elem h4 (by rw [star_level h1]; omega)) (by rintro rfl; exact absurd h2 (by decide))
      (elems ih (by simp only [Node.except_.sizeOf_spec]; omega) h5 ht.2 (by omega))
  | replace e args =>
    refine simple_txt rfl rfl rfl rfl ?_
    rw [fold] at hw ht
    simp only [wf, Bool.and_eq_true, decide_eq_true_eq, Bool.not_eq_true', Bool.or_eq_true] at hw
    simp only [tidy, Bool.and_eq_true] at ht
    obtain ⟨⟨⟨⟨⟨h1, h2⟩, h3⟩, -⟩, h4⟩, h5⟩ := hw
    have he := ih e (by simp only [Node.replace.sizeOf_spec]; omega) h4 ht.1
    rw [Txt, fold, lay]
    refine star_txt _ (by decide) (he.elem h4 ?_) (by rintro rfl; exact absurd h2 (by decide))
      (elems ih (by simp only [Node.replace.sizeOf_spec]; omega) h5 ht.2 (by omega))
    rcases h1 with h | h
    · rw [star_level h]; omega
    · revert h
      generalize fold e = m
      intro h
      cases m <;> first | exact absurd h Bool.false_ne_true | exact (by decide : 4 ≤ 5)
  | bitwise l op r =>
    refine simple_txt rfl rfl rfl rfl ?_
    rw [fold] at hw ht
    simp only [wf, Bool.and_eq_true, decide_eq_true_eq] at hw
    simp only [tidy, Bool.and_eq_true] at ht
    obtain ⟨⟨⟨⟨h1, h2⟩, h3⟩, h4⟩, h5⟩ := hw
    have hl := ih l (by simp only [Node.bitwise.sizeOf_spec]; omega) h4 ht.1
    have hr := ih r (by simp only [Node.bitwise.sizeOf_spec]; omega) h5 ht.2
    rw [Txt, fold, lay]
    show ((render l).t >>= fun x => (render r).t >>= fun y => (pure (x ++ str!" " ++ op ++ str!" " ++ y) : RStr)) = _
    have e : (fun x : Str => (render r).t >>= fun y => (pure (x ++ str!" " ++ op ++ str!" " ++ y) : RStr)) =
        fun x => (render r).t >>= fun y => (pure (x ++ (str!" " ++ op ++ str!" ") ++ y) : RStr) := by
      funext x
      simp
    rw [e]
    exact mid_txt (hl.level h2 (by omega)) (hr.level h3 (by omega))
      (solid_lay _ h4 (level_none h2 (by omega)) _) (solid_lay _ h5 (level_none h3 (by omega)) _)
  | arith op l r =>
    refine simple_txt rfl rfl rfl rfl ?_
    rw [fold] at hw ht
    simp only [wf, Bool.and_eq_true, decide_eq_true_eq] at hw
    simp only [tidy, Bool.and_eq_true] at ht
    have hl := ih l (by simp only [Node.arith.sizeOf_spec]; omega) hw.1.2 ht.1
    have hr := ih r (by simp only [Node.arith.sizeOf_spec]; omega) hw.2 ht.2
    rw [Txt, fold, lay]
    exact mid_txt (hl.str (Nat.le_of_eq hw.1.1.1.2) (by omega)) (hr.str hw.1.1.2 (by omega))
      (solid_lay _ hw.1.2 (level_none (Nat.le_of_eq hw.1.1.1.2) (by omega)) _) (solid_lay _ hw.2 (level_none hw.1.1.2 (by omega)) _)
  | neg e =>
    refine simple_txt rfl rfl rfl rfl ?_
    rw [fold] at hw ht
    simp only [wf, Bool.and_eq_true, decide_eq_true_eq] at hw
    have he := ih e (by simp only [Node.neg.sizeOf_spec]; omega) hw.2 (by simpa [tidy] using ht)
    rw [Txt, fold, lay]
    show ((render e).t >>= fun x => (pure (str!"NOT" ++ (if (render e).isParen then [] else str!" ") ++ x) : RStr)) = _
    rw [bindE (he.level hw.1 (by omega)), isParen_render]
    show _ = Except.ok (Doc.text ([_] <+> _))
    rw [text_pre (solid_lay _ hw.2 (level_none hw.1 (by omega)) _)]
    cases isParen (fold e) <;> rfl
  | cond l q r =>
    refine simple_txt rfl rfl rfl rfl ?_
    rw [fold] at hw ht
    simp only [wf, Bool.and_eq_true, decide_eq_true_eq] at hw
    simp only [tidy, Bool.and_eq_true] at ht
    obtain ⟨⟨⟨h1, h2⟩, h3⟩, h4⟩ := hw
    have hq : (q.map Char.toLower).all isAscii = true ∧ level (fold r) ≤ 3 := by
      split at h4
      · rename_i h
        refine ⟨by rw [h]; decide, ?_⟩
        revert h4
        generalize fold r = m
        intro h4
        cases m <;> first | exact absurd h4 Bool.false_ne_true | exact Nat.le_refl 3
      · simp only [Bool.and_eq_true, decide_eq_true_eq] at h4
        exact ⟨(by decide : ∀ q ∈ corePreds, q.all isAscii = true) _ h4.1.1, by omega⟩
    have hl := ih l (by simp only [Node.cond.sizeOf_spec]; omega) h2 ht.1
    have hr := ih r (by simp only [Node.cond.sizeOf_spec]; omega) h3 ht.2
    rw [Txt]
    show ((render l).t >>= fun x => (render r).t >>= fun y => (pure (x ++ str!" " ++ E.upper q ++ str!" " ++ y) : RStr)) = _
    have e : (fun x : Str => (render r).t >>= fun y => (pure (x ++ str!" " ++ E.upper q ++ str!" " ++ y) : RStr)) =
        fun x => (render r).t >>= fun y => (pure (x ++ (str!" " ++ E.upper q ++ str!" ") ++ y) : RStr) := by
      funext x
      simp
    rw [e, upper_caps hq.1, fold, lay]
    exact mid_txt (hl.level h1 (by omega)) (hr.level hq.2 (by omega)) (solid_lay _ h2 (level_none h1 (by omega)) _)
      (solid_lay _ h3 (level_none hq.2 (by omega)) _)
  | boolc op l r =>
    rw [fold] at hw ht
    simp only [wf, Bool.and_eq_true, decide_eq_true_eq] at hw
    simp only [tidy, Bool.and_eq_true] at ht
    obtain ⟨⟨⟨⟨h1, h2⟩, h3⟩, h4⟩, h5⟩ := hw
    obtain ⟨⟨⟨t1, t2⟩, t3⟩, t4⟩ := ht
    have key := boolStr_ok (op := op) ((by decide : ∀ q ∈ boolPredicates, q.all isAscii = true) _ h1) h4 (Nat.le_trans h2 (by omega)) t1
      (ih l (by simp only [Node.boolc.sizeOf_spec]; omega) h4 t3) (inner_elems ih (by simp only [Node.boolc.sizeOf_spec]; omega) h4 t3)
      h5 h3 t2 (ih r (by simp only [Node.boolc.sizeOf_spec]; omega) h5 t4) (inner_elems ih (by simp only [Node.boolc.sizeOf_spec]; omega) h5 t4)
    exact ⟨fun _ => ⟨_, key false, rfl⟩, fun _ => key true, fun h => (by cases h), fun h => (by cases h), fun h => (by cases h)⟩
  | whenThen w t =>
    rw [fold] at hw ht
    simp only [wf, Bool.and_eq_true, decide_eq_true_eq] at hw
    simp only [tidy, Bool.and_eq_true] at ht
    refine Good.simple rfl rfl rfl fun _ => ?_
    exact when_ok hw.1.2 hw.1.1.1 ht.1.1 ((ih w (by simp only [Node.whenThen.sizeOf_spec]; omega) hw.1.2 ht.1.2).level hw.1.1.1 (by omega))
      (inner_elems ih (by simp only [Node.whenThen.sizeOf_spec]; omega) hw.1.2 ht.1.2)
      ((ih t (by simp only [Node.whenThen.sizeOf_spec]; omega) hw.2 ht.2).str hw.1.1.2 (by omega))
      (solid_lay _ hw.2 (level_none hw.1.1.2 (by omega)) _)
  | case o ws e => exact good_case ih hw ht
  | «alias» e al w =>
    rw [fold] at hw ht
    simp only [wf, Bool.and_eq_true, Bool.or_eq_true, decide_eq_true_eq] at hw
    have he := ih e (by simp only [Node.alias.sizeOf_spec]; omega) hw.1.2 (by simp only [tidy, Bool.and_eq_true] at ht; exact ht.1)
    have hn : Txt e ∧ fold e ≠ .none := by
      rcases hw.1.1 with h | h
      · exact ⟨he.level h.1 (by omega), level_none h.1 (by omega)⟩
      · rcases h.1 with hw | hu
        · exact ⟨he.txt' (isWhole_none hw) (lead_from (isWhole_from hw)), isWhole_none hw⟩
        · refine ⟨he.txt' (not_none_of hu rfl) ?_, not_none_of hu rfl⟩
          cases e <;> first | rfl | exact absurd hu Bool.false_ne_true
    have hal : Txt al ∧ fold al ≠ .none := by
      have hk : isRaw (fold al) = true ∨ level (fold al) = 0 := by
        rcases hw.1.1 with h | h
        · rcases alias_or h.2 with ⟨_, h, -⟩ | ⟨_, h, -⟩ | ⟨_, _, h, -⟩ <;> rw [h] <;> first | exact .inl rfl | exact .inr rfl
        · exact .inl h.2
      have hg := ih al (by simp only [Node.alias.sizeOf_spec]; omega) hw.2 (by simp only [tidy, Bool.and_eq_true] at ht; exact ht.2)
      rcases hk with h | h
      · refine ⟨?_, not_none_of h rfl⟩
        cases al <;> first | exact absurd h Bool.false_ne_true | (rw [Txt, fold, lay]; rfl)
      · exact ⟨hg.level (k := 0) (Nat.le_of_eq h) (by omega), level_none (k := 0) (Nat.le_of_eq h) (by omega)⟩
    exact alias_good he (solid_lay _ hw.1.2 hn.2) hal.1 (solid_lay _ hw.2 hal.2 _) hn.1
  | table v sq =>
    rw [fold] at hw ht
    obtain ⟨h1, h2, h3⟩ := table_level hw
    have hv := ih v (by simp only [Node.table.sizeOf_spec]; omega) h2 (by simpa [tidy] using ht)
    have htv := hv.level h3 (by omega)
    have hsol := solid_lay _ h2 (level_none h3 (by omega)) .plain
    have e1 : ∀ p, lay (fold (.table v sq)) p = p.wrap (if sq then [str!"["] <+> lay (fold v) .plain <+> [str!"]"] else lay (fold v) .plain) :=
      fun p => by rw [fold, lay]
    refine Good.source rfl rfl ?_ rfl ?_ rfl rfl ?_ fun j => ?_
    · rw [Txt, e1]
      show ((render v).t >>= fun x => (pure (if sq then str!"[" ++ x ++ str!"]" else x) : RStr)) = _
      rw [bindE htv]
      cases sq with
      | false => rfl
      | true => simp only [if_true, Pos.wrap]; rw [text_around hsol]; rfl
    · rw [e1]; exact Solid.ite (((Solid.line (by decide)).beside hsol).beside (Solid.line (by decide))) hsol
    · rw [e1, e1]; rfl
    · rw [e1, e1]; rfl
  | on e =>
    rw [fold] at hw ht
    simp only [wf, Bool.and_eq_true, decide_eq_true_eq] at hw
    simp only [tidy] at ht
    refine Good.simple rfl rfl rfl fun _ => ?_
    rw [fold, lay]
    exact clause_step ih (by simp only [Node.on.sizeOf_spec]; omega) hw.2 hw.1 ht
  | using_ e =>
    rw [fold] at hw ht
    simp only [wf, Bool.and_eq_true, decide_eq_true_eq] at hw
    simp only [tidy] at ht
    refine Good.simple rfl rfl rfl fun _ => ?_
    rw [fold, lay]
    exact clause_step ih (by simp only [Node.using_.sizeOf_spec]; omega) hw.2 (by omega) ht
  | where_ e =>
    rw [fold] at hw ht
    simp only [wf, Bool.and_eq_true, decide_eq_true_eq] at hw
    simp only [tidy] at ht
    refine Good.simple rfl rfl rfl fun _ => ?_
    rw [fold, lay]
    exact clause_step ih (by simp only [Node.where_.sizeOf_spec]; omega) hw.2 hw.1 ht
  | having e =>
    rw [fold] at hw ht
    simp only [wf, Bool.and_eq_true, decide_eq_true_eq] at hw
    simp only [tidy] at ht
    refine Good.simple rfl rfl rfl fun _ => ?_
    rw [fold, lay]
    exact clause_step ih (by simp only [Node.having.sizeOf_spec]; omega) hw.2 hw.1 ht
  | join type l r on us => exact good_join ih hw ht
  | groupBy args rollup each =>
    rw [fold] at hw ht
    simp only [wf, Bool.and_eq_true, decide_eq_true_eq, Bool.not_eq_true'] at hw
    simp only [tidy] at ht
    have hm := members ih (by simp only [Node.groupBy.sizeOf_spec]; omega) hw.2 ht
    refine Good.simple rfl rfl rfl fun _ => groupBy_txt (by rintro rfl; exact absurd hw.1.1 (by decide)) (fun a ha => (hm a ha).1.elem (hm a ha).2
      (Nat.le_trans (levels_fold hw.1.2 a ha) (by omega))) fun a ha => (hm a ha).1.str (levels_fold hw.1.2 a ha) (by omega)
  | orderItem v asc desc =>
    rw [fold] at hw ht
    simp only [wf, Bool.and_eq_true, decide_eq_true_eq] at hw
    simp only [tidy] at ht
    have hv := ih v (by simp only [Node.orderItem.sizeOf_spec]; omega) hw.2 ht
    refine simple_txt rfl rfl rfl rfl ?_
    rw [Txt, fold, lay]
    show orderItemStr (render v) asc desc = _
    unfold orderItemStr
    rw [bindE (hv.str hw.1.1 (by omega)), text_post (solid_lay _ hw.2 (level_none hw.1.1 (by omega)) _)]
    cases asc <;> cases desc <;> simp [pure, Except.pure]
  | orderBy args =>
    rw [fold] at hw ht
    simp only [wf, Bool.and_eq_true, Bool.not_eq_true'] at hw
    simp only [tidy] at ht
    have he := order_elems ih (by simp only [Node.orderBy.sizeOf_spec]; omega) hw.1.2 hw.2 ht
    exact Good.simple rfl rfl rfl fun _ => orderBy_txt (by rintro rfl; exact absurd hw.1.1 (by decide)) (fun a ha => (he a ha).1)
      fun a ha => (he a ha).2
  | limit all v =>
    rw [fold] at hw ht
    simp only [wf, Bool.and_eq_true] at hw
    simp only [tidy] at ht
    refine Good.simple rfl rfl rfl fun _ => ?_
    rw [fold, lay]
    cases all with
    | true => exact ⟨_, rfl, rfl⟩
    | false =>
      simp only [Bool.false_eq_true, if_false, decide_eq_true_eq] at hw
      have hv := ih v (by simp only [Node.limit.sizeOf_spec]; omega) hw.2 ht
      refine ⟨_, hv.str hw.1 (by omega), ?_⟩
      show Doc.text ([_] <+> _) = _
      rw [text_pre (solid_lay _ hw.2 (level_none hw.1 (by omega)) _)]
      rfl
  | offset v =>
    rw [fold] at hw ht
    simp only [wf, Bool.and_eq_true, decide_eq_true_eq] at hw
    simp only [tidy] at ht
    have hv := ih v (by simp only [Node.offset.sizeOf_spec]; omega) hw.2 ht
    refine Good.simple rfl rfl rfl fun _ => ⟨_, hv.str hw.1 (by omega), ?_⟩
    rw [fold, lay, text_pre (solid_lay _ hw.2 (level_none hw.1 (by omega)) _)]
    rfl
  | select es all d on f w g h o l off semi => exact good_select ih hw ht
  | withQuery name q =>
    rw [fold] at hw ht
    simp only [wf, Bool.and_eq_true] at hw
    simp only [tidy, Bool.and_eq_true] at ht
    have hq := ih q (by simp only [Node.withQuery.sizeOf_spec]; omega) hw.2 ht.2
    refine simple_txt rfl rfl rfl rfl ?_
    rw [Txt, fold, lay]
    show ((render q).sub >>= fun x => (pure (name ++ str!" AS (\n" ++ x ++ str!"\n)") : RStr)) = _
    rw [bindE (hq.sub (subquery_isSelect (.inr (.inl hw.1.2)) ht.1)), text_append (by simp) (by simp),
      text_append (by simp) (solid_lay _ hw.2 (not_none_of hw.1.2 rfl) _).indent.1]
    simp [pure, Except.pure, Doc.text]
  | withStmt qs s =>
    rw [fold] at hw ht
    simp only [wf, Bool.and_eq_true, Bool.not_eq_true'] at hw
    simp only [tidy, Bool.and_eq_true] at ht
    have hm := members ih (by simp only [Node.withStmt.sizeOf_spec]; omega) hw.1.1.2 ht.1
    have hs := ih s (by simp only [Node.withStmt.sizeOf_spec]; omega) hw.2 ht.2
    have hi : ∀ a ∈ qs, isWithQuery (fold a) = true := by
      intro a ha
      have := hw.1.1.1.2
      rw [foldList_eq] at this
      exact List.all_eq_true.1 this _ (List.mem_map_of_mem ha)
    have htx : ∀ a ∈ qs, Txt a := fun a ha => by
      have := hi a ha
      refine (hm a ha).1.txt' (not_none_of this rfl) ?_
      cases a <;> first | rfl | exact absurd this Bool.false_ne_true
    have hts : Txt s := by
      have := hw.1.2
      refine hs.txt' (isSelect_ne this) ?_
      cases s <;> first | rfl | exact absurd this Bool.false_ne_true
    have hd := docs_solid fun a ha => solid_lay _ (hm a ha).2 (not_none_of (hi a ha) rfl) .plain
    have hne : qs ≠ [] := by rintro rfl; exact absurd hw.1.1.1.1 (by decide)
    have hsol := solid_lay (fold (.withStmt qs s)) (by rw [fold]; simp only [wf, Bool.and_eq_true, Bool.not_eq_true']; exact hw)
      (by rw [fold]; exact Node.noConfusion) .plain
    refine Good.source rfl rfl ?_ rfl hsol rfl rfl (by rw [fold, lay, lay]; rfl) fun j => by rw [fold, lay, lay]; rfl
    rw [Txt, fold, lay]
    show (mapR R.t (renderList qs) >>= fun qs => (render s).t >>= fun x =>
      (pure (str!"WITH " ++ Str.join str!",\n" qs ++ str!"\n" ++ x) : RStr)) = Except.ok (Doc.text (([_] <+> stacked (docs qs)) ++ _))
    rw [bindE (mapR_ok htx), bindE hts, text_append (beside_ne (by simp)) (solid_lay _ hw.2 (isSelect_ne hw.1.2) _).1,
      text_pre (solid_stacked (docs_ne hne) hd), text_stacked (docs_ne hne) hd]
    simp [pure, Except.pure, texts_docs]
  | unnest v o oa al => exact good_unnest ih hw ht
  | combined op l r => exact good_combined ih hw ht

theorem good (n : Node) (hw : wf (fold n) = true) (ht : tidy (fold n) = true) : Good n := by
  have : ∀ k n, sizeOf n < k → wf (fold n) = true → tidy (fold n) = true → Good n := by
    intro k
    induction k with
    | zero => intro n h; omega
    | succ k ih => exact fun n h hw ht => good_step n (fun m hm hwm htm => ih m (by omega) hwm htm) hw ht
  exact this _ n (Nat.lt_succ_self _) hw ht

/-- Statements are printed as laid out. -/
theorem transform_core {n : Node} (hc : core (fold n) = true) (ht : tidy (fold n) = true) : transform n = .ok (layout (fold n)) := by
  simp only [core, Bool.and_eq_true, Bool.or_eq_true] at hc
  replace hc := hc.1
  refine (good n hc.1 ht).txt' ?_ ?_
  · rcases hc.2 with h | h
    · exact isSelect_ne h
    · rintro he
      rw [he] at h
      exact absurd h Bool.false_ne_true
  · have := hc.2
    cases n <;> first | rfl | (exfalso; rcases this with h | h <;> exact absurd h Bool.false_ne_true)

end

end SqlV.Core
