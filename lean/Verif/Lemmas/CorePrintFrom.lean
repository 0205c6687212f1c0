import Verif.Lemmas.CorePrint

/-! The printer on calls, parentheses and FROM. -/

set_option linter.unusedSectionVars false

namespace SqlV.Core

open Lex

section

variable [E : PyEnv] [L : LawfulPyEnv E]

theorem Good.simple {n : Node} (hb : n.isBoolc = false) (hf : isBody (fold n) = false) (hs : isQuery (fold n) = false)
    (h : fold n ≠ .none → ∃ x, (render n).t = .ok x ∧ Doc.text (lay (fold n) .plain) = lead n ++ x) : Good n where
  txt := h
  nl h := by rw [hb] at h; cases h
  sub h := by rw [subquery_query h] at hs; cases hs
  src h := by rw [hf] at h; cases h
  peel h := by rw [hf, hs] at h; cases h

/-- The documents of several trees. -/
def docs (ns : List Node) : List Doc := (layList (foldList ns)).map (· .plain)

theorem docs_solid {ns : List Node} (h : ∀ n ∈ ns, Solid (lay (fold n) .plain)) : ∀ d ∈ docs ns, Solid d := by
  apply solid_items
  rw [foldList_eq]
  intro m hm
  obtain ⟨a, hma, rfl⟩ := List.mem_map.1 hm
  exact h a hma

theorem docs_ne {ns : List Node} (h : ns ≠ []) : docs ns ≠ [] := by
  cases ns with
  | nil => exact absurd rfl h
  | cons _ _ => simp [docs, foldList, layList]

theorem texts_docs (ns : List Node) : texts ns = (docs ns).map Doc.text := rfl

theorem any_tall {ds : List Doc} (h : ∀ d ∈ ds, Solid d) : (ds.map Doc.text).any hasNL = ds.any Doc.tall := by
  induction ds with
  | nil => rfl
  | cons d ds ih =>
    rw [List.map_cons, List.any_cons, List.any_cons, hasNL_text (h d (by simp)), ih fun x hx => h x (by simp [hx])]

theorem func_txt {f : Str} {args : List Node} (hf : (f.map Char.toLower).all isAscii = true) (h : ∀ a ∈ args, Elem a) :
    Txt (.func f args) := by
  have hd := docs_solid fun a ha => (h a ha).solid .plain
  rw [Txt]
  show funcStr (E.upper f) (renderList args) = .ok (Doc.text (lay (fold (.func f args)) .plain))
  unfold funcStr
  rw [bindE (mapR_ok fun a ha => (h a ha).txt), upper_caps hf, fold, lay, texts_docs, any_tall hd, ← text_commas hd]
  show _ = Except.ok (Doc.text (layCall _ (docs args)))
  unfold layCall
  rw [show (commas (docs args)).width = (Doc.text (commas (docs args))).length from rfl,
    show decide ((Doc.text (commas (docs args))).length > lineLength) = decide (limitLength < (Doc.text (commas (docs args))).length) from rfl]
  split
  · rename_i hc
    have hne : docs args ≠ [] := by
      intro he
      rw [he] at hc
      simp [commas, Doc.text] at hc
    rw [text_append (by simp) (by simp), text_append (by simp) (solid_stacked hne hd).indent.1, text_indent_stacked hne hd]
    simp [pure, Except.pure, Doc.text]
  · rw [text_around (solid_commas hd)]
    rfl

theorem count_txt {d : Bool} {args : List Node} (h : ∀ a ∈ args, Elem a) : Txt (.count args d) := by
  have hd := docs_solid fun a ha => (h a ha).solid .plain
  rw [Txt]
  show countStr (E.upper str!"count") (renderList args) d = .ok (Doc.text (lay (fold (.count args d)) .plain))
  unfold countStr
  rw [bindE (mapR_ok fun a ha => (h a ha).txt), fold, lay, texts_docs, ← text_commas hd, upper_caps (by decide)]
  show _ = Except.ok (Doc.text ([_] <+> commas (docs args) <+> [_]))
  rw [text_around (solid_commas hd)]
  cases d <;> rfl

theorem cast_txt {c t : Node} (hc : Elem c) (ht : Elem t) : Txt (.cast c t) := by
  rw [Txt]
  show (do
      let x ← (render c).t
      let y ← (render t).t
      return E.upper str!"cast" ++ str!"(" ++ x ++ str!" AS " ++ y ++ str!")") = _
  rw [bindE hc.txt, bindE ht.txt, upper_caps (by decide), fold, lay]
  show _ = Except.ok (Doc.text ([_] <+> lay (fold c) .plain <+> [str!" AS "] <+> lay (fold t) .plain <+> [str!")"]))
  have h1 : Solid ([str!"CAST("] <+> lay (fold c) .plain) := (Solid.line (by decide)).beside (hc.solid _)
  rw [text_post ((h1.beside (Solid.line (by decide))).beside (ht.solid _)), text_mid h1 (ht.solid _), text_pre (hc.solid _)]
  rfl

/-! ### FROM -/

theorem text_side {X : Doc} (h : Solid X) (j : Nat) : Doc.text ((Pos.side j).wrap X) = sideText j ⟨0, false, Doc.text X⟩ := by
  cases j with
  | zero => rfl
  | succ j =>
    show Doc.text (boxed (j + 1) X) = _
    rw [text_boxed h, sideText, if_pos (by omega), if_neg Bool.false_ne_true, indentNL_newline]
    simp

theorem joinSide_eq {x : R} {pre : Str} : joinSide pre x = (match x.aliased with
    | some (p, withAs, a) => (do
        let p ← p
        let a ← a
        return pre ++ sideText p.count p ++ (if withAs then str!" AS" else []) ++ str!" " ++ a)
    | none => (do
        let p ← x.peel
        return pre ++ sideText p.count p)) := by
  unfold joinSide
  have key : ∀ p : Peel, (if p.count > 0 then
      pre ++ List.replicate p.count '(' ++ (if p.isSelect = true then '\n' :: p.text else indentNL ('\n' :: p.text)) ++ str!"\n" ++
        List.replicate p.count ')'
    else pre ++ p.text) = pre ++ sideText p.count p := by
    intro p
    unfold sideText
    split <;> simp
  cases hx : x.aliased with
  | none =>
    cases hp : x.peel with
    | error e => rfl
    | ok p =>
      simp only [bindE_ok, pure_bind]
      rw [key]
  | some q =>
    obtain ⟨p, w, a⟩ := q
    cases p with
    | error e => rfl
    | ok p =>
      simp only [bindE_ok, pure_bind]
      rw [key]

theorem isAlias_aliased {n : Node} (h : n.isAlias = false) : (render n).aliased = none := by
  cases n <;> first | rfl | cases h

theorem isWhole_from {m : Node} (h : isWhole m = true) : isBody m = true := by
  cases m <;> first | rfl | exact absurd h Bool.false_ne_true | (simp only [isBody, isFrom, isJoin, isSet, isSource, Bool.false_or, Bool.or_false]; exact h)

theorem isWhole_alias {n : Node} (h : isWhole (fold n) = true) : n.isAlias = false := by
  cases n <;> first | rfl | exact absurd h Bool.false_ne_true

theorem raw_str {al : Node} (h : isRaw (fold al) = true) : (render al).s = .ok (Doc.text (lay (fold al) .plain)) := by
  cases al <;> first | exact absurd h Bool.false_ne_true | (rw [fold, lay]; rfl)

theorem lay_whole {m : Node} (h : isWhole m = true) (hp : isParen m = false) : lay m .source = lay m .plain := by
  cases m <;> first | exact absurd h Bool.false_ne_true | (cases hp; done) | (rw [lay, lay]; rfl)

theorem lay_alias_in {e al : Node} {w : Bool} {p : Pos} (h : p = .source ∨ p = .side 0) :
    lay (.alias e al w) p = lay e p <+> ([if w then str!" AS " else str!" "] <+> lay al .plain) := by
  rw [lay]; exact if_pos h

theorem lay_alias_out {e al : Node} {w : Bool} {p : Pos} (h : ¬ (p = .source ∨ p = .side 0)) :
    lay (.alias e al w) p = p.wrap (lay e .plain <+> ([if w then str!" AS " else str!" "] <+> lay al .plain)) := by
  rw [lay]; exact if_neg h

theorem side_ok {n : Node} (hg : Good n) (hf : isBody (fold n) = true) (hw : wf (fold n) = true)
    (hal : ∀ e al w, n = .alias e al w → Good e ∧ wf (fold e) = true) (pre : Str) :
    joinSide pre (render n) = .ok (pre ++ Doc.text (lay (fold n) (.side 0))) := by
  rw [joinSide_eq]
  cases ha : n.isAlias with
  | false =>
    obtain ⟨p, hp, h⟩ := hg.peel (by rw [hf]; rfl)
    rw [isAlias_aliased ha]
    dsimp only
    rw [bindE hp, h 0 (.inr ⟨hf, ha⟩)]
    rfl
  | true =>
    cases n <;> first | (cases ha; done) | skip
    rename_i e al w
    obtain ⟨he, hwe⟩ := hal e al w rfl
    rw [fold] at hf hw
    have hr : isWhole (fold e) = true ∧ isRaw (fold al) = true := by
      simpa [isBody, isFrom, isJoin, isSet, isSource] using hf
    obtain ⟨p, hp, h⟩ := he.peel (by rw [isWhole_from hr.1]; rfl)
    show (do
        let p ← (render e).peel
        let a ← (render al).s
        return pre ++ sideText p.count p ++ (if w then str!" AS" else []) ++ str!" " ++ a) = _
    have hse := solid_lay _ hwe (isWhole_none hr.1) (.side 0)
    have hsal : Solid (lay (fold al) .plain) := by
      simp only [wf, Bool.and_eq_true] at hw
      exact solid_lay _ hw.2 (not_none_of hr.2 rfl) _
    rw [bindE hp, bindE (raw_str hr.2), fold, lay_alias_in (.inr rfl), text_beside hse.1 (beside_ne (by simp)), text_pre hsal,
      h 0 (.inr ⟨isWhole_from hr.1, isWhole_alias hr.1⟩)]
    cases w <;> simp [pure, Except.pure]

theorem join_upper {type : Str} (h : type ∈ condJoins.map (·.1) ∨ type ∈ crossJoins.map (·.1)) : E.upper type = type := by
  have key : ∀ type ∈ condJoins.map (·.1) ++ crossJoins.map (·.1), type.all isAscii = true ∧ type.map Char.toUpper = type := by
    decide
  have := key type (by simpa using h)
  rw [L.upper_ascii _ this.1, this.2]

theorem join_txt {type : Str} {l r on us : Node} (hty : E.upper type = type) (hl : joinSide [] (render l) = .ok (Doc.text (lay (fold l) (.side 0))))
    (hr : joinSide str!" " (render r) = .ok (' ' :: Doc.text (lay (fold r) (.side 0))))
    (sl : Solid (lay (fold l) (.side 0))) (sr : Solid (lay (fold r) (.side 0)))
    (hon : fold on = .none ∨ ∃ e, on = .on e ∧ Good on ∧ wf (fold on) = true) (hus : fold us = .none ∨ ∃ e, us = .using_ e ∧ Good us ∧ wf (fold us) = true)
    (hone : fold on = .none ∨ fold us = .none) :
    Txt (.join type l r on us) := by
  rw [Txt]
  show joinStr type (E.upper type) (render l) (render r) (render on) (render us) = _
  unfold joinStr
  rw [bindE hr, bindE hl, hty, fold, lay]
  show _ = Except.ok (Doc.text ((if type = str!"," then lay (fold l) (.side 0) <+> [str!", "] <+> lay (fold r) (.side 0)
      else lay (fold l) (.side 0) ++ ([type ++ str!" "] <+> lay (fold r) (.side 0))) ++ optional (fold on).truthy (lay (fold on) .plain) ++
      optional (fold us).truthy (lay (fold us) .plain)))
  have hsides : Doc.text (if type = str!"," then lay (fold l) (.side 0) <+> [str!", "] <+> lay (fold r) (.side 0)
      else lay (fold l) (.side 0) ++ ([type ++ str!" "] <+> lay (fold r) (.side 0))) =
      Doc.text (lay (fold l) (.side 0)) ++ (if type = str!"," then str!"," else '\n' :: type) ++ ' ' :: Doc.text (lay (fold r) (.side 0)) := by
    split
    · rw [text_mid sl sr]; simp
    · rw [text_append sl.1 (beside_ne (by simp)), text_pre sr]; simp
  have hne : (if type = str!"," then lay (fold l) (.side 0) <+> [str!", "] <+> lay (fold r) (.side 0)
      else lay (fold l) (.side 0) ++ ([type ++ str!" "] <+> lay (fold r) (.side 0))) ≠ [] := by
    split
    · exact beside_ne (beside_ne sl.1)
    · simp [sl.1]
  revert hsides hne
  generalize (if type = str!"," then lay (fold l) (.side 0) <+> [str!", "] <+> lay (fold r) (.side 0)
      else lay (fold l) (.side 0) ++ ([type ++ str!" "] <+> lay (fold r) (.side 0))) = sides
  intro hsides hne
  rw [truthy_render, truthy_render]
  rcases hon with hon | ⟨e, rfl, hg, hwe⟩
  · rcases hus with hus | ⟨e, rfl, hg, hwe⟩
    · rw [hon, hus, text_optional (optional_ne hne _) (by intro h; cases h), text_optional hne (by intro h; cases h), hsides]
      simp [Node.truthy, pure, Except.pure]
    · rw [hon]
      have hn : fold (.using_ e) ≠ .none := by rw [fold]; exact Node.noConfusion
      obtain ⟨x, h1, h2⟩ := hg.txt hn
      have hs := solid_lay _ hwe hn .plain
      rw [text_optional (optional_ne hne _) (fun _ => hs.1), text_optional hne (by intro h; cases h), hsides, h2, h1]
      rw [fold]
      simp [Node.truthy, pure, Except.pure, lead, bind, Except.bind]
  · have hus : fold us = .none := by
      rcases hone with h | h
      · rw [fold] at h; cases h
      · exact h
    have hn : fold (.on e) ≠ .none := by rw [fold]; exact Node.noConfusion
    obtain ⟨x, h1, h2⟩ := hg.txt hn
    have hs := solid_lay _ hwe hn .plain
    rw [hus, text_optional (optional_ne hne _) (by intro h; cases h), text_optional hne (fun _ => hs.1), hsides, h2, h1]
    rw [fold]
    simp [Node.truthy, pure, Except.pure, lead, bind, Except.bind]

/-- Tables, joins, UNNEST and set operators. -/
theorem Good.source {n : Node} (hb : n.isBoolc = false) (hs : isSubquery (fold n) = false) (ht : Txt n) (hl : lead n = [])
    (hsol : Solid (lay (fold n) .plain)) (hsrc : (render n).fromPos = (render n).t)
    (hpeel : (render n).peel = (render n).t.map fun x => ⟨0, false, x⟩) (hsrc' : lay (fold n) .source = lay (fold n) .plain)
    (hside : ∀ j, lay (fold n) (.side j) = (Pos.side j).wrap (lay (fold n) .plain)) : Good n where
  txt _ := ⟨_, ht, by rw [hl]; rfl⟩
  nl h := by rw [hb] at h; cases h
  sub h := by rw [hs] at h; cases h
  src _ := by rw [hsrc, hsrc']; exact ht
  peel _ := by
    refine ⟨⟨0, false, Doc.text (lay (fold n) .plain)⟩, ?_, fun j _ => ?_⟩
    · rw [hpeel, ht]; rfl
    · rw [hside, text_side hsol, Nat.zero_add]

theorem set_upper {op : Str} (h : op ∈ setOps.map (·.1)) : E.upper op = op := by
  have key : ∀ op ∈ setOps.map (·.1), op.all isAscii = true ∧ op.map Char.toUpper = op := by decide
  rw [L.upper_ascii _ (key op h).1, (key op h).2]

theorem isTable_render (n : Node) : (render n).isTable = isTable (fold n) := by cases n <;> rfl

theorem unnest_txt {v : Node} {o oa : Bool} {al : Option Str} (ht : Txt v) (hs : Solid (lay (fold v) .plain))
    (ha : ∀ a, al = some a → o = true ∧ a ≠ []) : Txt (.unnest v o oa al) := by
  rw [Txt, fold, lay]
  show ((render v).t >>= fun x => (if o then (pure (x ++ str!" WITH OFFSET" ++
          (if (al.getD []).isEmpty then [] else (if oa then str!" AS" else []) ++ str!" " ++ al.getD [])) : RStr)
      else pure x)) = .ok (Doc.text (lay (fold v) .plain <+> [layOffset o oa al]))
  rw [bindE ht, text_post hs]
  cases al with
  | none => cases o <;> simp [layOffset, pure, Except.pure]
  | some a =>
    obtain ⟨rfl, hn⟩ := ha a rfl
    cases oa <;> simp [layOffset, pure, Except.pure, hn]

theorem combined_txt {op : Str} {l r : Node} (hop : E.upper op = op) (hl : Txt l) (hr : Txt r) (sl : Solid (lay (fold l) .plain))
    (sr : Solid (lay (fold r) .plain)) : Txt (.combined op l r) := by
  rw [Txt, fold, lay]
  show ((render l).t >>= fun x => (render r).t >>= fun y =>
      (pure (x ++ str!"\n" ++ E.upper op ++ (if (render r).isTable then str!" " else str!"\n") ++ y) : RStr)) =
    .ok (Doc.text (lay (fold l) .plain ++ (if isTable (fold r) then [op ++ str!" "] <+> lay (fold r) .plain else [op] ++ lay (fold r) .plain)))
  rw [bindE hl, bindE hr, hop, isTable_render]
  cases isTable (fold r) with
  | true => rw [if_pos rfl, if_pos rfl, text_append sl.1 (beside_ne (by simp)), text_pre sr]; simp [pure, Except.pure]
  | false =>
    rw [if_neg Bool.false_ne_true, if_neg Bool.false_ne_true, text_append sl.1 (by simp), text_append (by simp) sr.1]
    simp [pure, Except.pure, Doc.text]

theorem alias_good {e al : Node} {w : Bool} (he : Good e) (hsol : ∀ p, Solid (lay (fold e) p)) (hal : Txt al) (hsal : Solid (lay (fold al) .plain))
    (hte : Txt e) : Good (.alias e al w) := by
  have htl : Doc.text ([if w then str!" AS " else str!" "] <+> lay (fold al) .plain) =
      (if w then str!" AS " else str!" ") ++ Doc.text (lay (fold al) .plain) := text_pre hsal
  have hsolp : Solid (lay (fold e) .plain <+> ([if w then str!" AS " else str!" "] <+> lay (fold al) .plain)) :=
    (hsol _).beside (Solid.beside (Solid.line (kw_line (by decide) (by decide))) hsal)
  have ht : aliasStr (render e).t (render al) w = .ok (Doc.text (lay (fold (.alias e al w)) .plain)) := by
    unfold aliasStr
    rw [bindE hte, bindE hal, fold, lay_alias_out (by simp)]
    show _ = Except.ok (Doc.text (lay (fold e) .plain <+> _))
    rw [text_beside (hsol _).1 (beside_ne (by simp)), htl]
    simp [pure, Except.pure]
  refine ⟨fun _ => ⟨_, ht, rfl⟩, fun h => (by cases h), fun h => (by cases h), fun hf => ?_, fun _ => ?_⟩
  · have hr : isWhole (fold e) = true ∧ isRaw (fold al) = true := by
      rw [fold] at hf
      simpa [isBody, isFrom, isJoin, isSet, isSource] using hf
    have hsrc : (if (render e).isParen then (render e).fromPos else (render e).t) = .ok (Doc.text (lay (fold e) .source)) := by
      split
      · exact he.src (isWhole_from hr.1)
      · rename_i hp
        rw [hte, lay_whole hr.1 (by rw [isParen_render] at hp; simpa using hp)]
    show (do
      let x ← (if (render e).isParen then (render e).fromPos else (render e).t)
      if x.isEmpty then aliasStr (render e).t (render al) w else aliasStr (.ok x) (render al) w) = _
    rw [bindE hsrc]
    have hgoal : aliasStr (.ok (Doc.text (lay (fold e) .source))) (render al) w = .ok (Doc.text (lay (fold (.alias e al w)) .source)) := by
      unfold aliasStr
      rw [bindE_ok, bindE hal, fold, lay_alias_in (.inl rfl)]
      rw [text_beside (hsol _).1 (beside_ne (by simp)), htl]
      simp [pure, Except.pure]
    split
    · rename_i hem
      cases hp : isParen (fold e) with
      | true =>
        exfalso
        have hh := hr.1
        revert hem hp hh
        have hss := hsol
        revert hss
        generalize fold e = m
        intro hss hem hp hh
        cases m <;> first | (cases hp; done) | skip
        rename_i args
        match args, hh with
        | [f], hh =>
          have e1 : lay (.paren [f]) .source = boxed 1 (lay f .plain) := by rw [lay]; rfl
          rw [e1] at hem
          have hne : lay f .plain ≠ [] ∨ lay f .plain = [] := by
            by_cases h : lay f .plain = []
            · exact .inr h
            · exact .inl h
          unfold boxed at hem
          rw [List.append_assoc, text_append (by simp) (by simp)] at hem
          simp [Doc.text] at hem
      | false =>
        rw [isParen_render, hp, if_neg (by decide)] at hsrc
        rw [hsrc]
        exact hgoal
    · exact hgoal
  · refine ⟨⟨0, false, Doc.text (lay (fold (.alias e al w)) .plain)⟩, ?_, fun j hj => ?_⟩
    · show Except.map _ (aliasStr _ _ _) = _
      rw [ht]; rfl
    · have hj : 1 ≤ j := by
        rcases hj with h | h
        · exact h
        · cases h.2
      have e1 : lay (fold (.alias e al w)) (.side j) = (Pos.side j).wrap (lay (fold (.alias e al w)) .plain) := by
        rw [fold, lay_alias_out (by simp; omega), lay_alias_out (by simp)]
        rfl
      rw [e1, text_side ?_, Nat.zero_add]
      rw [fold, lay_alias_out (by simp)]
      exact hsolp

theorem paren_good {args : List Node} (h : ∀ a ∈ args, Elem a) (hg : ∀ a ∈ args, Good a) : Good (.paren args) := by
  have ht := paren_txt h
  refine ⟨fun _ => ⟨_, ht, rfl⟩, fun h => (by cases h), fun h => (by cases h), fun hf => ?_, fun hf => ?_⟩
  · have hgr : isGroup (foldList args) = true := by
      rw [fold] at hf
      simpa [isBody, isFrom, isJoin, isSet, isSource] using hf
    match args, hgr with
    | [a], hgr =>
      have ha := h a (by simp)
      have e1 : lay (fold (.paren [a])) .source = boxed 1 (lay (fold a) .plain) := by rw [fold, lay]; rfl
      rw [e1, text_boxed (ha.solid _)]
      show (do
        let inner ← if (render a).isSelect then (render a).sub else do
          let x ← (render a).t
          pure (' ' :: indentNL x)
        return str!"(\n" ++ inner ++ str!"\n)") = _
      simp only [isSelect_render]
      split
      · rename_i hs
        rw [bindE (ha.sub hs), text_indent (ha.solid _)]
        simp [pure, Except.pure]
      · rw [bindE ha.txt]
        simp [pure, Except.pure, bind, Except.bind]
  · have hgr : isGroup (foldList args) = true := by
      rw [fold] at hf
      simpa [isBody, isFrom, isJoin, isSet, isSource, isQuery, isSubquery] using hf
    match args, hgr with
    | [a], hgr =>
      have hor : (isBody (fold a) || isQuery (fold a)) = true := by
        simp only [foldList, isGroup, Bool.or_eq_true] at hgr
        simp only [isBody, isFrom, Bool.or_eq_true]
        rcases hgr with ((h | h) | h) | h <;> simp [h]
      obtain ⟨p, hp, hj⟩ := (hg a (by simp)).peel hor
      refine ⟨{ p with count := p.count + 1 }, ?_, fun j _ => ?_⟩
      · show (render a).peel.map _ = _
        rw [hp]; rfl
      · have e1 : lay (fold (.paren [a])) (.side j) = lay (fold a) (.side (j + 1)) := by rw [fold, lay]; rfl
        rw [e1, hj (j + 1) (.inl (by omega)), show p.count + 1 + j = p.count + (j + 1) by omega]
        rfl

end

end SqlV.Core
