import Verif.Lemmas.CorePrintFrom

/-! The printer on arrays, windows, ARRAY_AGG and the lists after `*`. -/

set_option linter.unusedSectionVars false

namespace SqlV.Core

open Lex

section

variable [E : PyEnv] [L : LawfulPyEnv E]

theorem array_txt {args : List Node} (h : ∀ a ∈ args, Elem a) : Txt (.array args) := by
  have hd := docs_solid fun a ha => (h a ha).solid .plain
  rw [Txt, fold, lay]
  show (mapR R.t (renderList args) >>= fun xs => (pure (str!"[" ++ Str.join str!", " xs ++ str!"]") : RStr)) =
    Except.ok (Doc.text ([_] <+> commas (docs args) <+> [_]))
  rw [bindE (mapR_ok fun a ha => (h a ha).txt), text_around (solid_commas hd), texts_docs, ← text_commas hd]
  rfl

theorem index_txt {e : Node} {is : List Node} (he : Elem e) (h : ∀ a ∈ is, Elem a) : Txt (.index e is) := by
  have hd := docs_solid fun a ha => (h a ha).solid .plain
  rw [Txt, fold, lay]
  show ((render e).t >>= fun x => mapR R.t (renderList is) >>= fun xs =>
    (pure (x ++ str!"[" ++ Str.join str!", " xs ++ str!"]") : RStr)) =
    Except.ok (Doc.text (lay (fold e) .plain <+> [_] <+> commas (docs is) <+> [_]))
  rw [bindE he.txt, bindE (mapR_ok fun a ha => (h a ha).txt),
    text_post (((he.solid _).beside (Solid.line (by decide))).beside (solid_commas hd)),
    text_mid (he.solid _) (solid_commas hd), texts_docs, ← text_commas hd]
  rfl

theorem filtered_txt {c w : Node} (hc : Elem c) (hw : Elem w) : Txt (.filtered c w) := by
  rw [Txt, fold, lay]
  show ((render c).t >>= fun x => (render w).t >>= fun y =>
    (pure (x ++ str!" FILTER (WHERE " ++ y ++ str!")") : RStr)) =
    Except.ok (Doc.text (lay (fold c) .plain <+> [_] <+> lay (fold w) .plain <+> [_]))
  rw [bindE hc.txt, bindE hw.txt, text_post (((hc.solid _).beside (Solid.line (by decide))).beside (hw.solid _)),
    text_mid (hc.solid _) (hw.solid _)]
  rfl

theorem datePart_txt {part : Str} {e : Node} (hp : (part.map Char.toLower).all isAscii = true) (he : Elem e) : Txt (.datePart part e) := by
  rw [Txt, fold, lay]
  show ((render e).t >>= fun x => (pure (E.upper part ++ str!" FROM " ++ x) : RStr)) = Except.ok (Doc.text ([_] <+> lay (fold e) .plain))
  rw [bindE he.txt, text_pre (he.solid _), upper_caps hp]
  rfl

theorem frame_txt {r f : Str} (hr : (r.map Char.toLower).all isAscii = true) (hf : (f.map Char.toLower).all isAscii = true) :
    Txt (.frame r f) := by
  rw [Txt, fold, lay]
  show Except.ok (E.upper r ++ str!" " ++ E.upper f) = _
  rw [upper_caps hr, upper_caps hf]
  rfl

/-! ### Lists after `*` -/

theorem join_prefix (p sep : Str) {xs : List Str} (h : xs ≠ []) :
    Str.join sep (xs.map (p ++ ·)) = p ++ Str.join (sep ++ p) xs := by
  induction xs with
  | nil => exact absurd rfl h
  | cons x xs ih =>
    cases xs with
    | nil => rfl
    | cons y ys =>
      have := ih (by simp)
      simp only [List.map_cons, Str.join] at this ⊢
      rw [this]
      simp

theorem text_prefixed (p : Str) {ds : List Doc} (hp : '\n' ∉ p) (hne : ds ≠ []) (h : ∀ d ∈ ds, Solid d) :
    Doc.text (stacked (ds.map ([p] <+> ·))) = p ++ Str.join (str!",\n" ++ p) (ds.map Doc.text) := by
  have e : (ds.map ([p] <+> ·)).map Doc.text = (ds.map Doc.text).map (p ++ ·) := by
    rw [List.map_map, List.map_map]
    exact List.map_congr_left fun d hd => text_pre (h d hd)
  rw [text_stacked (by simpa using hne), e, join_prefix p _ (by simpa using hne)]
  intro x hx
  obtain ⟨y, hy, rfl⟩ := List.mem_map.1 hx
  exact (Solid.line hp).beside (h y hy)

theorem prefixed_ne (p : Str) {ds : List Doc} (hp : '\n' ∉ p) (hne : ds ≠ []) (h : ∀ d ∈ ds, Solid d) :
    stacked (ds.map ([p] <+> ·)) ≠ [] := by
  refine (solid_stacked (by simpa using hne) fun x hx => ?_).1
  obtain ⟨y, hy, rfl⟩ := List.mem_map.1 hx
  exact (Solid.line hp).beside (h y hy)

theorem star_txt {e : Node} {args : List Node} (kw : Str) (hk : '\n' ∉ kw) (he : Elem e) (hne : args ≠ []) (h : ∀ a ∈ args, Elem a) :
    selectAllStr (render e) kw (renderList args) = .ok (Doc.text (layStar (lay (fold e) .plain) kw (docs args))) := by
  have hd := docs_solid fun a ha => (h a ha).solid .plain
  have hh := (he.solid .plain).beside (Solid.line (l := str!" " ++ kw ++ str!" (") (by simp [hk]))
  unfold selectAllStr
  rw [bindE he.txt]
  dsimp only
  match args, hne with
  | [a], _ =>
    have ha := h a (by simp)
    show ((render a).t >>= _) = Except.ok (Doc.text (lay (fold e) .plain <+> [_] <+> lay (fold a) .plain <+> [_]))
    rw [bindE ha.txt, text_post (hh.beside (ha.solid _)), text_mid (he.solid _) (ha.solid _)]
    simp [pure, Except.pure]
  | a :: b :: as, hne =>
    have e1 : layStar (lay (fold e) .plain) kw (docs (a :: b :: as)) =
      (lay (fold e) .plain <+> [str!" " ++ kw ++ str!" ("]) ++ stacked ((docs (a :: b :: as)).map ([str!" "] <+> ·)) ++ [str!")"] := rfl
    have hn := prefixed_ne str!" " (by decide) (docs_ne hne) hd
    rw [e1, text_append (List.append_ne_nil_of_right_ne_nil _ hn) (by simp), text_append hh.1 hn, text_prefixed _ (by decide) (docs_ne hne) hd, text_post (he.solid _)]
    have := mapR_ok fun a ha => (h a ha).txt
    simp only [renderList] at this ⊢
    rw [bindE this, texts_docs]
    simp [pure, Except.pure, Doc.text]

/-! ### ARRAY_AGG -/

theorem arrayAggStr_eq {name : Str} {c o : R} {d ignore : Bool} {l : Option Int} (hl : l ≠ some 0) :
    arrayAggStr name c d ignore false o l = c.t >>= fun c => (if o.truthy then o.flat >>= fun x => pure (str!" ORDER BY" ++ x) else pure []) >>= fun o =>
      pure (name ++ str!"(" ++ (if d then str!"DISTINCT " else []) ++ c ++ (if ignore then str!" IGNORE NULLS" else []) ++ o ++
        layLimit l ++ str!")") := by
  unfold arrayAggStr
  cases l with
  | none => by_cases h : o.truthy = true <;> simp [h, layLimit]
  | some i =>
    have : i ≠ 0 := fun h => hl (by rw [h])
    by_cases h : o.truthy = true <;> simp [h, layLimit, this]

theorem agg_txt {c o : Node} {d ignore : Bool} {l : Option Int} (hc : Elem c) (hl : l ≠ some 0)
    (ho : fold o = .none ∨ ((fold o).truthy = true ∧ Solid (lay (fold o) .inline) ∧
      ∃ x, (render o).flat = .ok x ∧ Doc.text (lay (fold o) .inline) = str!" ORDER BY" ++ x)) :
    Txt (.arrayAgg c d ignore false o l) := by
  rw [Txt, fold, lay]
  show arrayAggStr (E.upper str!"array_agg") (render c) d ignore false (render o) l = _
  rw [arrayAggStr_eq hl, bindE hc.txt, truthy_render, upper_caps (by decide)]
  dsimp only [Pos.wrap]
  have h1 : Solid ([str!"ARRAY_AGG(" ++ (if d then str!"DISTINCT " else [])] <+> lay (fold c) .plain) :=
    (Solid.line (by cases d <;> decide)).beside (hc.solid _)
  have h2 := h1.beside (Solid.line (l := if ignore then str!" IGNORE NULLS" else []) (by cases ignore <;> decide))
  rcases ho with ho | ⟨ht, hs, x, hx, hxt⟩
  · rw [ho, show lay .none .inline = [] from rfl, beside_nil, text_post h2, text_post h1, text_pre (hc.solid _)]
    simp only [Node.truthy, Bool.false_eq_true, if_false, pure_bind, List.append_nil]
    cases d <;> cases ignore <;> simp [pure, Except.pure, caps]
  · rw [text_post (h2.beside hs), text_beside h2.1 hs.1, text_post h1, text_pre (hc.solid _), hxt]
    simp only [ht, if_true, hx, bindE_ok, pure_bind]
    cases d <;> cases ignore <;> simp [pure, Except.pure, caps]

/-! ### OVER -/

/-- Further lines of a text. -/
def rest (d : Doc) : Str := d.flatMap fun l => '\n' :: l

theorem rest_append (a b : Doc) : rest (a ++ b) = rest a ++ rest b := by simp [rest]

theorem rest_text {d : Doc} (h : d ≠ []) : rest d = '\n' :: Doc.text d := by
  induction d with
  | nil => exact absurd rfl h
  | cons l ls ih =>
    by_cases hl : ls = []
    · subst hl; simp [rest, Doc.text]
    · have := ih hl
      rw [text_cons hl, ← this]
      simp [rest]

theorem text_rest {a : Doc} (d : Doc) (h : a ≠ []) : Doc.text (a ++ d) = Doc.text a ++ rest d := by
  by_cases hd : d = []
  · subst hd; simp [rest]
  · rw [text_append h hd, rest_text hd]

theorem hasNL_rest (d : Doc) : hasNL (rest d) = !d.isEmpty := by
  cases d with
  | nil => rfl
  | cons l ls => simp [rest, hasNL]

/-- The part of `analyticsStr` about PARTITION BY. -/
def partStr (s : Str) (part : List R) : RStr :=
  match part with
  | [] => pure s
  | [p] => do
    let x ← p.t
    pure (s ++ str!"\n PARTITION BY" ++ str!" " ++ x)
  | ps => do
    let xs ← mapR R.t ps
    pure (s ++ str!"\n PARTITION BY" ++ str!"\n  " ++ Str.join str!",\n  " xs)

/-- The part of `analyticsStr` about ORDER BY. -/
def orderStr (s : Str) (o : R) : RStr :=
  if o.truthy then do
    let x ← o.t
    pure (s ++ str!"\n ORDER BY" ++ indentNL x)
  else pure s

/-- The part of `analyticsStr` about the frame. -/
def frameStr (s : Str) (fr : R) : RStr :=
  if fr.truthy then do
    let x ← fr.t
    pure ((if hasNL s then s ++ str!"\n " else s) ++ x)
  else pure s

theorem analyticsStr_eq (f : R) (part : List R) (o fr : R) : analyticsStr f part o fr =
    f.t >>= fun x => partStr (x ++ str!" OVER (") part >>= fun s => orderStr s o >>= fun s => frameStr s fr >>= fun s =>
      pure (s ++ (if hasNL s then str!"\n)" else str!")")) := by
  unfold analyticsStr partStr orderStr frameStr
  congr 1
  funext x
  dsimp only
  by_cases ho : o.truthy = true <;> by_cases hfr : fr.truthy = true <;> match part with
    | [] => simp [ho, hfr]
    | [_] => simp [ho, hfr]
    | _ :: _ :: _ => simp [ho, hfr]

theorem part_txt {s : Str} {part : List Node} (h : ∀ a ∈ part, Elem a) :
    partStr s (renderList part) = .ok (s ++ rest (layPart (docs part))) := by
  unfold partStr
  have hd := docs_solid fun a ha => (h a ha).solid .plain
  match part with
  | [] => simp [docs, foldList, layList, layPart, rest, renderList]; rfl
  | [a] =>
    have ha := h a (by simp)
    simp only [renderList]
    rw [bindE ha.txt]
    show _ = Except.ok (s ++ rest ([_] <+> lay (fold a) .plain))
    rw [rest_text (beside_ne (by simp)), text_pre (ha.solid _)]
    simp [pure, Except.pure]
  | a :: b :: as =>
    have e1 : layPart (docs (a :: b :: as)) = [str!" PARTITION BY"] ++ stacked ((docs (a :: b :: as)).map ([str!"  "] <+> ·)) := rfl
    rw [e1, rest_append, rest_text (prefixed_ne _ (by decide) (docs_ne (by simp)) hd), text_prefixed _ (by decide) (docs_ne (by simp)) hd]
    have := mapR_ok fun a ha => (h a ha).txt
    simp only [renderList] at this ⊢
    rw [bindE this, texts_docs]
    simp [pure, Except.pure, rest]

theorem over_txt {f o fr : Node} {part : List Node} (hf : Elem f) (hp : ∀ a ∈ part, Elem a)
    (ho : fold o = .none ∨ ((fold o).truthy = true ∧ Solid (lay (fold o) .plain) ∧
      ∃ x, (render o).t = .ok x ∧ Doc.text (lay (fold o) .plain) = str!"ORDER BY" ++ x))
    (hfr : fold fr = .none ∨ ((fold fr).truthy = true ∧ Solid (lay (fold fr) .plain) ∧ Doc.tall (lay (fold fr) .plain) = false ∧ Txt fr)) :
    Txt (.analytics f part o fr) := by
  rw [Txt, fold, lay]
  show analyticsStr (render f) (renderList part) (render o) (render fr) =
    Except.ok (Doc.text (layOver (lay (fold f) .plain) (docs part) (lay (fold o) .plain) (lay (fold fr) .plain)))
  rw [analyticsStr_eq, bindE hf.txt, bindE (part_txt hp)]
  have hh := (hf.solid .plain).beside (Solid.line (l := str!" OVER (") (by decide))
  have eo : orderStr (Doc.text (lay (fold f) .plain) ++ str!" OVER (" ++ rest (layPart (docs part))) (render o) =
      .ok (Doc.text (lay (fold f) .plain <+> [str!" OVER ("]) ++ rest (layPart (docs part) ++ Doc.indent (lay (fold o) .plain))) := by
    rw [text_post (hf.solid _), rest_append, orderStr, truthy_render]
    rcases ho with ho | ⟨ht, hs, x, hx, hxt⟩
    · rw [ho]
      simp [Node.truthy, pure, Except.pure, lay, Doc.indent, rest]
    · rw [if_pos ht, bindE hx, rest_text hs.indent.1, text_indent hs, hxt, indentNL_append]
      simp [pure, Except.pure, indentNL, Str.replace]
  rw [bindE eo]
  have hnl : hasNL (Doc.text (lay (fold f) .plain <+> [str!" OVER ("]) ++ rest (layPart (docs part) ++ Doc.indent (lay (fold o) .plain))) =
      !((layPart (docs part) ++ Doc.indent (lay (fold o) .plain)).isEmpty && !Doc.tall (lay (fold f) .plain)) := by
    rw [hasNL_append, hasNL_rest, text_post (hf.solid _), hasNL_append, hasNL_text (hf.solid _)]
    cases Doc.tall (lay (fold f) .plain) <;> simp [hasNL]
  unfold layOver
  dsimp only
  generalize hr : layPart (docs part) ++ Doc.indent (lay (fold o) .plain) = rows at hnl
  unfold frameStr
  rw [truthy_render]
  cases hc : (rows.isEmpty && !Doc.tall (lay (fold f) .plain)) with
  | true =>
    rw [hc] at hnl
    simp only [Bool.and_eq_true, List.isEmpty_iff] at hc
    rw [hc.1] at hnl ⊢
    simp only [if_true, hnl, Bool.not_true, Bool.false_eq_true, if_false]
    rw [show rest [] = [] from rfl, List.append_nil] at hnl ⊢
    rcases hfr with hfr | ⟨ht, hs, hl, htx⟩
    · rw [hfr, show lay .none .plain = [] from rfl, beside_nil, text_post hh]
      simp only [Node.truthy, Bool.false_eq_true, if_false, pure_bind, hnl, Bool.not_true]
      rfl
    · rw [text_post (hh.beside hs), text_beside hh.1 hs.1, if_pos ht, bindE htx]
      simp only [pure_bind, hasNL_append, hnl, hasNL_text hs, hl, Bool.not_true, Bool.or_self, Bool.false_eq_true, if_false]
      rfl
  | false =>
    rw [hc] at hnl
    simp only [hnl, Bool.not_false, Bool.false_eq_true, if_false, if_true]
    have h1 : (lay (fold f) .plain <+> [str!" OVER ("]) ++ rows ++ Doc.indent (lay (fold fr) .plain) ≠ [] := by
      rw [List.append_assoc]
      exact List.append_ne_nil_of_left_ne_nil hh.1 _
    rw [text_append h1 (by simp), text_rest _ (List.append_ne_nil_of_left_ne_nil hh.1 _), text_rest _ hh.1]
    rcases hfr with hfr | ⟨ht, hs, hl, htx⟩
    · rw [hfr, show lay .none .plain = [] from rfl]
      simp only [Node.truthy, Bool.false_eq_true, if_false, pure_bind, hnl, if_true, Bool.not_false]
      simp [pure, Except.pure, rest, Doc.indent, Doc.text]
    · rw [rest_text hs.indent.1, text_indent hs, indentNL_self (by
        have := hasNL_text hs
        rw [hl] at this
        simpa [hasNL] using this), if_pos ht, bindE htx]
      simp only [pure_bind]
      rw [if_pos (by rw [hasNL_append, hasNL_append, hnl]; rfl)]
      simp [pure, Except.pure, Doc.text]

end

end SqlV.Core
