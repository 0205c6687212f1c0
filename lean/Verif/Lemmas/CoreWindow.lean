import Verif.Lemmas.CoreSelect

/-! How ARRAY_AGG and OVER are parsed. -/

set_option linter.unusedSectionVars false

namespace SqlV.Core

open Scan

variable [E : PyEnv]

theorem ite_bind' {α β : Type} (c : Prop) [Decidable c] (p q : P α) (k : α → P β) :
    (if c then p else q) >>= k = if c then p >>= k else q >>= k := by
  split <;> rfl

theorem pure_bind' {α β : Type} (a : α) (k : α → P β) : (pure a : P α) >>= k = k a := rfl

/-! ### The parts of ARRAY_AGG -/

/-- IGNORE NULLS. -/
def aggNulls (t : Option Str) : P (Bool × Bool × Option Str) :=
  if isWord t str!"ignore" then do
    let t ← next!
    P.assert (lower t = str!"nulls")
    let t ← next!
    pure (true, false, some t)
  else if isWord t str!"respect" then do
    let t ← next!
    P.assert (lower t = str!"nulls")
    let t ← next!
    pure (false, true, some t)
  else pure (false, false, t)

/-- ORDER BY. -/
def aggOrder (r : Rec) (t : Option Str) : P (Node × Option Str) :=
  if isWord t str!"order" then do
    let t ← next!
    P.assert (lower t = str!"by")
    let (ts, t) ← untilOneOf [str!"limit", str!")"]
    let o ← P.sub ts (orderByF r)
    pure (o, t)
  else pure (Node.none, t)

/-- LIMIT. -/
def aggLimit (t : Option Str) : P (Option Int × Option Str) :=
  if isWord t str!"limit" then do
    let t ← next!
    let i ← toIntP t
    let t ← next!
    pure (some i, some t)
  else pure (none, t)

theorem arrayAggF_eq (r : Rec) (a : ExprArgs) : arrayAggF r a = do
    let t ← next!
    let (ts, u) ← untilOneOf [str!")", str!"ignore", str!"respects", str!"order", str!"limit"]
      (first := if decide (lower t = str!"distinct") then none else some t)
    let (column, _) ← P.sub ts (r.expr { untilOneOf := a.untilOneOf })
    let x ← aggNulls u
    let y ← aggOrder r x.2.2
    let z ← aggLimit y.2
    P.assert (isWord z.2 str!")")
    return .arrayAgg column (decide (lower t = str!"distinct")) x.1 x.2.1 y.1 z.1 := by
  unfold arrayAggF aggNulls aggOrder aggLimit
  simp only [bind_assoc', ite_bind', pure_bind']

section
variable [L : LawfulPyEnv E]

theorem aggNulls_ok {b : Bool} {ts : List Str} (hr : Reads (opt b [.kw str!"ignore", .kw str!"nulls"]) ts)
    {h : Str} (hh : lower h ∉ [str!"ignore", str!"respect"]) (tl : List Str) (f : Option PyErr) :
    aggNulls (ts ++ h :: tl).head? ⟨(ts ++ h :: tl).tail, f⟩ = .ok ((b, false, some h), ⟨tl, f⟩) := by
  unfold aggNulls
  rcases reads_opt hr with ⟨rfl, hr⟩ | ⟨rfl, rfl⟩
  · obtain ⟨i, x, rfl, hi, hr⟩ := reads_cons.1 hr
    obtain ⟨n, x, rfl, hn, hr⟩ := reads_cons.1 hr
    rw [reads_nil] at hr
    subst hr
    rw [List.cons_append, List.head?_cons, List.tail_cons, if_pos (isWord_lower.2 (lower_kw hi (by decide))),
      List.cons_append, List.nil_append, bind_ok (next!_cons _ _ _),
      bind_ok (assert_true (by simp [lower_kw hn (by decide)])), bind_ok (next!_cons _ _ _)]
    rfl
  · have h1 : isWord (some h) str!"ignore" = false := by
      rw [isWord, lower?]; simp only [List.mem_cons, not_or] at hh; simp [hh.1]
    have h2 : isWord (some h) str!"respect" = false := by
      rw [isWord, lower?]; simp only [List.mem_cons, not_or] at hh; simp [hh.2.1]
    simp only [List.nil_append, List.head?_cons, List.tail_cons, h1, h2, Bool.false_eq_true, if_false]
    rfl

/-- The items of ORDER BY. -/
theorem orderList_tame {args : List Node} (hw : wf (.orderBy args) = true) {ts : List Str}
    (hr : Reads (toksList args) ts) : Tame [str!"limit"] [] ts := by
  simp only [wf, Bool.and_eq_true, Bool.not_eq_true', List.all_eq_true] at hw
  obtain ⟨⟨w1, w2⟩, w3⟩ := hw
  refine tame_list (fun n hn x hx => (tame (wfList_iff.1 w3 n hn) hx).mono ?_ (by simp)) (by decide) (by simp) ts hr
  have := w2 n hn
  cases n <;> first | (simp [isOrderItem] at this; done) | (show ∀ w ∈ _, w ∈ orderStops; decide)

/-- ORDER BY, without its keywords. -/
theorem orderItems_ok {args : List Node} (hw : wf (.orderBy args) = true) (h : ∀ n ∈ args, OrderItemOk n)
    {ts : List Str} (hr : Reads (toksList args) ts) :
    ∃ o', fold o' = .orderBy args ∧ Ev fun r => orderByF r ⟨ts, none⟩ = .ok (o', ⟨[], none⟩) := by
  simp only [wf, Bool.and_eq_true, Bool.not_eq_true', List.all_eq_true] at hw
  obtain ⟨⟨w1, w2⟩, w3⟩ := hw
  obtain ⟨args', ha', h⟩ := orderStep_ok (by rintro rfl; simp at w1) w2 (wfList_iff.1 w3) h hr
  refine ⟨.orderBy args', by simp [fold, ha'], h.mono fun r g => ?_⟩
  rw [orderByF_eq, bind_ok g]
  rfl

theorem order_cases {o : Node} (h : orNone isOrderBy o = true) : o = .none ∨ ∃ args, o = .orderBy args := by
  cases o <;> first
    | exact .inl rfl
    | exact .inr ⟨_, rfl⟩
    | exact absurd h Bool.false_ne_true

theorem aggOrder_ok {o : Node} (ho : orNone isOrderBy o = true) (hw : wf o = true)
    (h : ∀ args, o = .orderBy args → ∀ n ∈ args, OrderItemOk n) {ts : List Str} (hr : Reads (toks o) ts) :
    ∃ o', fold o' = o ∧ ∀ h tl f, lower h ∈ [str!"limit", str!")"] →
      Ev fun r => aggOrder r (ts ++ h :: tl).head? ⟨(ts ++ h :: tl).tail, f⟩ = .ok ((o', some h), ⟨tl, f⟩) := by
  rcases order_cases ho with rfl | ⟨args, rfl⟩
  · simp only [toks] at hr
    rw [reads_nil] at hr
    subst hr
    refine ⟨.none, rfl, fun h tl f hh => Ev.of fun r => ?_⟩
    have h1 : isWord (some h) str!"order" = false := by
      rw [isWord, lower?]
      simp only [Option.map_some, Option.some.injEq, decide_eq_false_iff_not]
      intro he; rw [he] at hh; exact absurd hh (by decide)
    unfold aggOrder
    rw [List.nil_append, List.head?_cons, List.tail_cons, if_neg (by simp [h1])]
    rfl
  · simp only [toks] at hr
    obtain ⟨t, ts, rfl, ht, hr⟩ := reads_cons.1 hr
    obtain ⟨b, ts, rfl, hb, hr⟩ := reads_cons.1 hr
    obtain ⟨o', ho', g⟩ := orderItems_ok hw (h args rfl) hr
    refine ⟨o', ho', fun h tl f hh => g.mono fun r g => ?_⟩
    unfold aggOrder
    rw [List.cons_append, List.head?_cons, List.tail_cons, if_pos (isWord_lower.2 (lower_kw ht (by decide))),
      List.cons_append, bind_ok (next!_cons _ _ _), bind_ok (assert_true (by simp [lower_kw hb (by decide)])),
      bind_ok (untilOneOf_stop (orderList_tame hw hr).withClose (by decide) (by decide) [] hh (noKeep_nil _ _) _ _)]
    dsimp only
    rw [bind_ok (sub_ok g)]
    rfl

theorem aggLimit_ok {l : Option Int} (hl : ∀ i, l = some i → 0 < i) {ts : List Str} (hr : Reads (limitToks l) ts)
    (tl : List Str) (f : Option PyErr) :
    aggLimit (ts ++ str!")" :: tl).head? ⟨(ts ++ str!")" :: tl).tail, f⟩ = .ok ((l, some str!")"), ⟨tl, f⟩) := by
  unfold aggLimit
  cases l with
  | none =>
    rw [limitToks, reads_nil] at hr
    subst hr
    have h1 : isWord (some str!")") str!"limit" = false := by
      rw [isWord, lower?, Option.map_some, lower_self (by decide) (by decide)]; rfl
    rw [List.nil_append, List.head?_cons, List.tail_cons, if_neg (by simp [h1])]
    rfl
  | some i =>
    have hi := hl i rfl
    obtain ⟨t, x, rfl, ht, hr⟩ := reads_cons.1 hr
    obtain ⟨n, x, rfl, hn, hr⟩ := reads_cons.1 hr
    rw [reads_nil] at hr
    subst hr
    have e : toIntP n ⟨str!")" :: tl, f⟩ = .ok (i, ⟨str!")" :: tl, f⟩) := by
      unfold toIntP
      rw [value_int hn]
      show Res.ok ((i.natAbs : Int), _) = _
      rw [Int.natAbs_of_nonneg (by omega)]
    rw [List.cons_append, List.head?_cons, List.tail_cons, if_pos (isWord_lower.2 (lower_kw ht (by decide))),
      List.cons_append, List.nil_append, bind_ok (next!_cons _ _ _), bind_ok e, bind_ok (next!_cons _ _ _)]
    rfl

theorem arrayAgg_ok {c o : Node} {d i re : Bool} {l : Option Int} (hw : wf (.arrayAgg c d i re o l) = true)
    (hc : FullOk c) (ho : ∀ args, o = .orderBy args → ∀ n ∈ args, OrderItemOk n) :
    CallOk (.arrayAgg c d i re o l) := by
  intro ts hr
  simp only [wf, Bool.and_eq_true, decide_eq_true_eq, Bool.not_eq_true'] at hw
  obtain ⟨⟨⟨⟨⟨⟨w1, w2⟩, w3⟩, rfl⟩, w4⟩, w5⟩, w6⟩ := hw
  have hpos : ∀ j, l = some j → 0 < j := by
    rintro j rfl
    simp only [Bool.and_eq_true, decide_eq_true_eq] at w6
    exact w6.1
  simp only [toks] at hr
  obtain ⟨main, ts', rfl, ht, hr1⟩ := reads_cons.1 hr
  obtain ⟨x, rfl, hr2⟩ := reads_parens hr1
  obtain ⟨x, tl, rfl, hr3, hlim⟩ := reads_append.1 hr2
  obtain ⟨x, to, rfl, hr4, hord⟩ := reads_append.1 hr3
  obtain ⟨x, ti, rfl, hr5, hign⟩ := reads_append.1 hr4
  obtain ⟨td, tc, rfl, hdis, hcol⟩ := reads_append.1 hr5
  obtain ⟨c', hc', gc⟩ := hc _ hcol
  obtain ⟨o', ho', go⟩ := aggOrder_ok w4 w5 ho hord
  have hnp : NotPrimary main := kw_notPrimary ht (by decide) (by decide) (by decide)
  have hlt := lower_kw ht (by decide)
  have tcol : Tame (str!")" :: str!"]" :: ([str!"ignore", str!"respects"] ++ stopWords)) caseWords tc :=
    ((tame_expr w1 w2 hcol).with (absent_reads (by decide) (oks _ w2) w3 hcol)).withClose
  refine ⟨.arrayAgg c' d i false o' l, main, _, by simp [fold, hc', ho'], rfl, hnp, fun a rest f ha hf => ?_⟩
  -- what follows the column, what follows IGNORE NULLS, what follows ORDER BY
  have s1 : ∃ h t, tl ++ str!")" :: rest = h :: t ∧ lower h ∈ [str!"limit", str!")"] := by
    cases l with
    | none =>
      rw [limitToks, reads_nil] at hlim
      subst hlim
      exact ⟨_, _, rfl, by rw [lower_self (by decide) (by decide)]; decide⟩
    | some j =>
      obtain ⟨t, x, rfl, ht, -⟩ := reads_cons.1 hlim
      exact ⟨t, _, rfl, by rw [lower_kw ht (by decide)]; decide⟩
  obtain ⟨h1, t1, e1, hh1⟩ := s1
  have s2 : ∃ h t, to ++ h1 :: t1 = h :: t ∧ lower h ∈ [str!"order", str!"limit", str!")"] := by
    rcases order_cases w4 with rfl | ⟨args, rfl⟩
    · simp only [toks] at hord
      rw [reads_nil] at hord
      subst hord
      exact ⟨h1, t1, rfl, by simp only [List.mem_cons] at hh1 ⊢; tauto⟩
    · simp only [toks] at hord
      obtain ⟨t, x, rfl, ht, -⟩ := reads_cons.1 hord
      exact ⟨t, _, rfl, by rw [lower_kw ht (by decide)]; decide⟩
  obtain ⟨h2, t2, e2, hh2⟩ := s2
  have s3 : ∃ h t, ti ++ h2 :: t2 = h :: t ∧
      lower h ∈ [str!")", str!"ignore", str!"respects", str!"order", str!"limit"] := by
    rcases reads_opt hign with ⟨rfl, hq⟩ | ⟨rfl, rfl⟩
    · obtain ⟨t, x, rfl, ht, -⟩ := reads_cons.1 hq
      exact ⟨t, _, rfl, by rw [lower_kw ht (by decide)]; decide⟩
    · exact ⟨h2, t2, rfl, by simp only [List.mem_cons] at hh2 ⊢; tauto⟩
  obtain ⟨h3, t3, e3, hh3⟩ := s3
  have hh2' : lower h2 ∉ [str!"ignore", str!"respect"] :=
    (by decide : ∀ w ∈ [str!"order", str!"limit", str!")"], w ∉ [str!"ignore", str!"respect"]) _ hh2
  refine ((gc { untilOneOf := a.untilOneOf } [] none rfl (.inl ⟨rfl, rfl⟩)).and (go h1 t1 f hh1)).mono ?_
  rintro r ⟨g1, g2⟩
  rw [List.append_nil] at g1
  have n1 := aggNulls_ok hign hh2' t2 f
  rw [e3] at n1
  rw [e2] at g2
  have n2 := aggLimit_ok hpos hlim rest f
  rw [e1] at n2
  dsimp only [List.head?_cons, List.tail_cons] at n1 g2 n2
  have fin : (P.sub tc (r.expr { untilOneOf := a.untilOneOf }) >>= fun x =>
      aggNulls (some h3) >>= fun y => aggOrder r y.2.2 >>= fun z => aggLimit z.2 >>= fun u =>
      P.assert (isWord u.2 str!")") >>= fun _ => pure (Node.arrayAgg x.1 d y.1 y.2.1 z.1 u.1)) ⟨t3, f⟩ =
      .ok (Node.arrayAgg c' d i false o' l, ⟨rest, f⟩) := by
    rw [bind_ok (sub_ok g1), bind_ok n1]
    dsimp only
    rw [bind_ok g2]
    dsimp only
    rw [bind_ok n2]
    dsimp only
    rw [bind_ok (assert_true (isWord_lower.2 (lower_self (by decide) (by decide))))]
    rfl
  unfold callM
  rw [hlt]
  show arrayAggF r a _ = _
  rw [arrayAggF_eq]
  have e0 : td ++ tc ++ ti ++ to ++ tl ++ [str!")"] ++ rest = td ++ (tc ++ h3 :: t3) := by
    rw [← e3, ← e2, ← e1]; simp
  rw [e0]
  rcases reads_opt hdis with ⟨rfl, hdis⟩ | ⟨rfl, rfl⟩
  · obtain ⟨m, x, rfl, hm, hx⟩ := reads_cons.1 hdis
    rw [reads_nil] at hx
    subst hx
    have hml := lower_kw hm (by decide)
    rw [List.cons_append, List.nil_append, bind_ok (next!_cons _ _ _)]
    simp only [hml, decide_true, if_true]
    rw [bind_ok (untilOneOf_stop tcol (by decide) (by decide) [] hh3 (noKeep_nil _ _) _ _)]
    exact fin
  · obtain ⟨t, tc, rfl, ht0, htl⟩ := item_first w2 (by omega) hcol
    rw [List.nil_append, List.cons_append, bind_ok (next!_cons _ _ _)]
    have : lower t ≠ str!"distinct" := fun h => htl (by rw [h]; simp)
    simp only [this, decide_false, Bool.false_eq_true, if_false]
    rw [bind_ok (untilOneOf_first_stop tcol (by decide) (by decide) [] hh3 (noKeep_nil _ _) _ _)]
    exact fin

/-! ### The parts of OVER -/

/-- PARTITION BY. -/
def winPart (r : Rec) (t : Option Str) : P (List Node × Option Str) :=
  if isWord t str!"partition" then do
    let t ← next?
    if !isWord t str!"by" then P.raise (.parsing str!"Missing BY after PARTITION")
    else do
      let (ts, t) ← untilOneOf [str!"order", str!"rows", str!"range"]
      let es ← P.sub ts (r.exprList false)
      pure (es, t)
  else pure ([], t)

/-- ORDER BY. -/
def winOrder (r : Rec) (t : Option Str) : P (Node × Option Str) :=
  if isWord t str!"order" then do
    let t ← next?
    if !isWord t str!"by" then P.raise (.parsing str!"Missing BY after ORDER")
    else do
      let (ts, t) ← untilOneOf [str!"rows", str!"range"]
      let o ← P.sub ts (orderByF r)
      pure (o, t)
  else pure (Node.none, t)

/-- ROWS and RANGE. -/
def winFrame (t : Option Str) : P Node :=
  match t with
  | some tok =>
    if lower tok = str!"rows" ∨ lower tok = str!"range" then do
      let (ts, _) ← untilOneOf []
      pure (Node.frame tok (Str.join str!" " ts))
    else pure Node.none
  | none => pure Node.none

theorem overF_eq (r : Rec) (e : Node) (t : Option Str) (h : isWord t str!"over" = true) : overF r e t = do
    let t ← next?
    if t ≠ some str!"(" then P.raise (.parsing str!"expected '('")
    else do
      let ts ← untilClosing
      let x ← P.sub ts (next? >>= fun t => winPart r t >>= fun x => winOrder r x.2 >>= fun y =>
        winFrame y.2 >>= fun z => pure (x.1, y.1, z))
      let t ← next?
      return (.analytics e x.1 x.2.1 x.2.2, t) := by
  unfold overF
  simp only [h, if_true, winPart, winOrder, bind_assoc', ite_bind', pure_bind']
  have e : ∀ (x : List Node) (y : Node) (t : Option Str), ((winFrame t >>= fun z => (pure (x, y, z) : P _)) : P (List Node × Node × Node)) =
      (match t with
      | some tok =>
        if lower tok = str!"rows" ∨ lower tok = str!"range" then do
          let (ts, _) ← untilOneOf []
          pure (x, y, Node.frame tok (Str.join str!" " ts))
        else pure (x, y, Node.none)
      | none => pure (x, y, Node.none)) := by
    intro x y t
    unfold winFrame
    cases t with
    | none => rfl
    | some tok => simp only [ite_bind', bind_assoc', pure_bind']
  simp only [e]
  rfl

theorem words_ne (s : Str) : words s ≠ [] := by
  cases s with
  | nil => simp [words]
  | cons c s =>
    unfold words
    split
    · simp
    · cases words s <;> simp

theorem join_cons {w : Str} {ws : List Str} (h : ws ≠ []) :
    Str.join str!" " (w :: ws) = w ++ ' ' :: Str.join str!" " ws := by
  cases ws with
  | nil => exact absurd rfl h
  | cons v ws => simp [Str.join]

theorem words_join (s : Str) : Str.join str!" " (words s) = s := by
  induction s with
  | nil => rfl
  | cons c s ih =>
    unfold words
    split
    · rename_i hc
      rw [join_cons (words_ne s), ih, hc]
      rfl
    · have := words_ne s
      cases hw : words s with
      | nil => exact absurd hw this
      | cons w ws =>
        rw [hw] at ih
        simp only
        cases ws with
        | nil => simpa [Str.join] using ih
        | cons v ws =>
          rw [join_cons (by simp)] at ih ⊢
          rw [List.cons_append, ih]

theorem reads_kws_lower {ws ts : List Str} (h : Reads (ws.map .kw) ts) : ts.map (·.map Char.toLower) = ws := by
  induction ws generalizing ts with
  | nil => rw [List.map_nil, reads_nil] at h; subst h; rfl
  | cons w ws ih =>
    obtain ⟨t, ts, rfl, ht, h⟩ := reads_cons.1 h
    rw [List.map_cons, ih h, (ht : t.map Char.toLower = w)]

theorem join_lower (ts : List Str) :
    (Str.join str!" " ts).map Char.toLower = Str.join str!" " (ts.map (·.map Char.toLower)) := by
  induction ts with
  | nil => rfl
  | cons t ts ih =>
    cases ts with
    | nil => rfl
    | cons u ts =>
      rw [join_cons (by simp), List.map_append, List.map_cons, ih, List.map_cons (a := t), join_cons (by simp)]
      rfl

theorem winPart_ok {part : List Node} (hw : wfList part = true) (hl : levels part ≤ 4)
    (ha : absent [str!"rows", str!"range"] (toksList part) = true) (h : ∀ n ∈ part, ItemOk n) {ts : List Str}
    (hr : Reads (opt (!part.isEmpty) (.kw str!"partition" :: .kw str!"by" :: toksList part)) ts) :
    ∃ part', foldList part' = part ∧ ∀ R, After [str!"order", str!"rows", str!"range"] R none →
      Ev fun r => winPart r (ts ++ R).head? ⟨(ts ++ R).tail, none⟩ = .ok ((part', R.head?), ⟨R.tail, none⟩) := by
  rcases reads_opt hr with ⟨hp, hr'⟩ | ⟨hp, rfl⟩
  · obtain ⟨t, x, rfl, ht, hr1⟩ := reads_cons.1 hr'
    obtain ⟨b, x, rfl, hb, hr2⟩ := reads_cons.1 hr1
    obtain ⟨part', hp', g⟩ := list_ok hw (by omega) h hr2
    refine ⟨part', hp', fun R hR => g.mono fun r g => ?_⟩
    have tm : Tame ([str!"rows", str!"range"] ++ [str!"order"]) [] x :=
      (tame_items hw hl (base := [str!"order"]) (by decide) (by decide) hr2).with
        (absent_reads (by decide) (oks_list fun n hn => oks n (wfList_iff.1 hw n hn)) ha hr2)
    unfold winPart
    rw [List.cons_append, List.head?_cons, List.tail_cons, if_pos (isWord_lower.2 (lower_kw ht (by decide))),
      List.cons_append, bind_ok (next?_cons _ _ _)]
    have h4 : isWord (some b) str!"by" = true := isWord_lower.2 (lower_kw hb (by decide))
    rw [if_neg (by simp [h4]), bind_ok (hR.scan tm (by decide) (by decide) (fun _ => noKeep_nil _ _) (by decide))]
    dsimp only
    rw [bind_ok (sub_ok g)]
    rfl
  · cases part with
    | cons n ns => simp at hp
    | nil =>
      refine ⟨[], rfl, fun R hR => Ev.of fun r => ?_⟩
      unfold winPart
      rw [List.nil_append, if_neg (by simp [hR.notWord (w := str!"partition") (by decide)])]
      rfl

theorem winOrder_ok {o : Node} (ho : orNone isOrderBy o = true) (hw : wf o = true)
    (ha : absent [str!"rows", str!"range"] (toks o) = true)
    (h : ∀ args, o = .orderBy args → ∀ n ∈ args, OrderItemOk n) {ts : List Str} (hr : Reads (toks o) ts) :
    ∃ o', fold o' = o ∧ ∀ R, After [str!"rows", str!"range"] R none →
      Ev fun r => winOrder r (ts ++ R).head? ⟨(ts ++ R).tail, none⟩ = .ok ((o', R.head?), ⟨R.tail, none⟩) := by
  have hab := absent_reads (by decide) (oks _ hw) ha hr
  rcases order_cases ho with rfl | ⟨args, rfl⟩
  · simp only [toks] at hr
    rw [reads_nil] at hr
    subst hr
    refine ⟨.none, rfl, fun R hR => Ev.of fun r => ?_⟩
    unfold winOrder
    rw [List.nil_append, if_neg (by simp [hR.notWord (w := str!"order") (by decide)])]
    rfl
  · simp only [toks] at hr
    obtain ⟨t, ts, rfl, ht, hr1⟩ := reads_cons.1 hr
    obtain ⟨b, ts, rfl, hb, hr2⟩ := reads_cons.1 hr1
    obtain ⟨o', ho', g⟩ := orderItems_ok hw (h args rfl) hr2
    refine ⟨o', ho', fun R hR => g.mono fun r g => ?_⟩
    have tm : Tame ([str!"rows", str!"range"] ++ [str!"limit"]) [] ts :=
      (orderList_tame hw hr2).with fun t ht => hab t (by simp [ht])
    unfold winOrder
    rw [List.cons_append, List.head?_cons, List.tail_cons, if_pos (isWord_lower.2 (lower_kw ht (by decide))),
      List.cons_append, bind_ok (next?_cons _ _ _)]
    have h4 : isWord (some b) str!"by" = true := isWord_lower.2 (lower_kw hb (by decide))
    rw [if_neg (by simp [h4]), bind_ok (hR.scan tm (by decide) (by decide) (fun _ => noKeep_nil _ _) (by decide))]
    dsimp only
    rw [bind_ok (sub_ok g)]
    rfl

theorem frame_cases {fr : Node} (h : orNone isFrame fr = true) : fr = .none ∨ ∃ r f, fr = .frame r f := by
  cases fr <;> first
    | exact .inl rfl
    | exact .inr ⟨_, _, rfl⟩
    | exact absurd h Bool.false_ne_true

theorem winFrame_ok {fr : Node} (hf : orNone isFrame fr = true) (hw : wf fr = true) {ts : List Str}
    (hr : Reads (toks fr) ts) :
    ∃ fr', fold fr' = fr ∧ winFrame ts.head? ⟨ts.tail, none⟩ = .ok (fr', ⟨[], none⟩) ∧
      After [str!"rows", str!"range"] ts none := by
  rcases frame_cases hf with rfl | ⟨k, f, rfl⟩
  · simp only [toks] at hr
    rw [reads_nil] at hr
    subst hr
    exact ⟨.none, rfl, rfl, .inl ⟨rfl, rfl⟩⟩
  · simp only [wf, Bool.and_eq_true, decide_eq_true_eq] at hw
    simp only [toks] at hr
    obtain ⟨t, ts, rfl, ht, hr1⟩ := reads_cons.1 hr
    have hk : k.all isAscii = true := (by decide : ∀ k ∈ [str!"rows", str!"range"], k.all isAscii = true) _ hw.1
    have hl := lower_kw ht hk
    refine ⟨.frame t (Str.join str!" " ts), ?_, ?_, .inr ⟨t, ts, rfl, by rw [hl]; exact hw.1⟩⟩
    · rw [fold, join_lower, reads_kws_lower hr1, words_join, (ht : t.map Char.toLower = k)]
    · unfold winFrame
      simp only [List.head?_cons, List.tail_cons]
      rw [if_pos (by rw [hl]; simpa using hw.1), bind_ok (untilOneOf_all none ts)]
      rfl

theorem analytics_ok {fn o fr : Node} {part : List Node} (hw : wf (.analytics fn part o fr) = true)
    (hfn : FuncOk fn) (hp : ∀ n ∈ part, ItemOk n)
    (ho : ∀ args, o = .orderBy args → ∀ n ∈ args, OrderItemOk n) : BaseOk (.analytics fn part o fr) := by
  intro main ts hr
  have hw' := hw
  simp only [wf, Bool.and_eq_true, decide_eq_true_eq] at hw'
  obtain ⟨⟨⟨⟨⟨⟨⟨⟨⟨w1, w2⟩, w3⟩, w4⟩, w5⟩, w6⟩, w7⟩, w8⟩, w9⟩, w10⟩ := hw'
  simp only [toks] at hr
  obtain ⟨x, y, rfl, hx, hy⟩ := reads_first hr (reads_ne w2 (by rw [level_func w1]; omega))
  obtain ⟨t, y, rfl, ht, hy1⟩ := reads_cons.1 hy
  obtain ⟨y, rfl, hy2⟩ := reads_parens hy1
  have hall := hy2
  obtain ⟨y, tf, rfl, hy3, hfr⟩ := reads_append.1 hy2
  obtain ⟨tp, to, rfl, hpart, hord⟩ := reads_append.1 hy3
  obtain ⟨fn', hfn', gf⟩ := hfn main x hx
  obtain ⟨fr', hfr', e3, a3⟩ := winFrame_ok w9 w10 hfr
  obtain ⟨o', ho', go⟩ := winOrder_ok w6 w7 w8 ho hord
  obtain ⟨part', hp', gp⟩ := winPart_ok w4 w3 w5 hp hpart
  have a2 : After [str!"order", str!"rows", str!"range"] (to ++ tf) none := by
    refine a3.cons (w := str!"order") ?_
    rcases order_cases w6 with rfl | ⟨args, rfl⟩
    · simp only [toks] at hord
      rw [reads_nil] at hord
      exact .inl hord
    · simp only [toks] at hord
      exact kw_head (by decide) hord
  refine ⟨.analytics fn' part' o' fr', by simp [fold, hfn', hp', ho', hfr'], fun a rest f ha hf he => ?_⟩
  have hlt := lower_kw ht (by decide)
  have e1 := gf a (t :: str!"(" :: (tp ++ to ++ tf ++ [str!")"]) ++ rest) f ha (by simp)
    (by intro z hz; cases hz; exact ⟨by simp, by rw [hlt]; decide⟩)
  refine (((e1.and (gp _ a2)).and (go tf a3)).and (dotLoop_no (u := a.untilOneOf) (e := .analytics fn' part' o' fr')
    (t := rest.head?) (he.ne (by decide)) ⟨rest.tail, f⟩)).mono ?_
  rintro r ⟨⟨⟨g1, g2⟩, g3⟩, g4⟩
  have tm : Tame [] [] (tp ++ to ++ tf) := by
    refine .append (.append ?_ ?_) ?_
    · rcases reads_opt hpart with ⟨-, hq⟩ | ⟨-, rfl⟩
      · obtain ⟨k1, z, rfl, h1, hq1⟩ := reads_cons.1 hq
        obtain ⟨k2, z, rfl, h2, hq2⟩ := reads_cons.1 hq1
        exact .cons (quiet_kw h1 (by decide) (by decide) (by simp) (by simp))
          (.cons (quiet_kw h2 (by decide) (by decide) (by simp) (by simp)) (list_tame w4 hq2))
      · exact .nil _ _
    · exact (tame w7 hord).none
    · exact (tame w10 hfr).none
  have sub : (next? >>= fun t => winPart r t >>= fun x => winOrder r x.2 >>= fun y =>
      winFrame y.2 >>= fun z => pure (x.1, y.1, z)) ⟨tp ++ to ++ tf, none⟩ = .ok ((part', o', fr'), ⟨[], none⟩) := by
    rw [bind_ok (next?_run (by simp)), List.append_assoc, bind_ok g2]
    dsimp only
    rw [bind_ok g3]
    dsimp only
    rw [bind_ok e3]
    rfl
  unfold baseM
  rw [show x ++ t :: str!"(" :: (tp ++ to ++ tf ++ [str!")"]) ++ rest =
    x ++ (t :: str!"(" :: (tp ++ to ++ tf ++ [str!")"]) ++ rest) by simp, bind_ok g1]
  dsimp only [List.head?_cons, List.tail_cons, List.cons_append]
  rw [overF_eq _ _ _ (isWord_lower.2 hlt)]
  have e5 : (do
    let t ← next?
    if t ≠ some str!"(" then P.raise (.parsing str!"expected '('")
    else do
      let ts ← untilClosing
      let x ← P.sub ts (next? >>= fun t => winPart r t >>= fun x => winOrder r x.2 >>= fun y =>
        winFrame y.2 >>= fun z => pure (x.1, y.1, z))
      let t ← next?
      return (.analytics fn' x.1 x.2.1 x.2.2, t) : P (Node × Option Str))
      ⟨str!"(" :: (tp ++ to ++ tf ++ [str!")"] ++ rest), f⟩ =
      .ok ((.analytics fn' part' o' fr', rest.head?), ⟨rest.tail, f⟩) := by
    rw [bind_ok (next?_cons _ _ _), if_neg (by simp), List.append_assoc, List.singleton_append,
      bind_ok (untilClosing_tame tm rest f), bind_ok (sub_ok sub), bind_ok (next?_run hf)]
    rfl
  rw [bind_ok e5]
  exact g4

end

end SqlV.Core
