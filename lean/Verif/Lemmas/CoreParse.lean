import Verif.Lemmas.CoreWindow
import Verif.Props.Parsing

/-! Every statement of the core grammar is parsed. -/

set_option linter.unusedSectionVars false

namespace SqlV.Core

open Scan

section

variable [E : PyEnv] [L : LawfulPyEnv E]

/-- How a tree is parsed, depending on where it stands. -/
structure CoreOk (n : Node) : Prop where
  expr : ExprOk n
  select : n.isSelect = true → SelectOk n
  stmt : isQuery n = true → StmtOk n
  whole : isWhole n = true → WholeOk n
  left : isLeft n = true → SpineOk n
  set : (isSource n || isSet n) = true → SetOk n
  from_ : isBody n = true → FromOk n
  when_ : WhenOk n

/-- Trees that are neither statements nor parts of FROM nor branches of CASE. -/
def isPlain : Node → Bool
  | .select .. | .withStmt .. | .table .. | .paren _ | .alias .. | .join .. | .unnest .. | .combined .. | .whenThen .. => false
  | _ => true

theorem CoreOk.ofExpr {n : Node} (hp : isPlain n = true) (h : ExprOk n) : CoreOk n where
  expr := h
  select hn := by cases n <;> first | exact absurd hn Bool.false_ne_true | exact absurd hp Bool.false_ne_true
  stmt hn := by cases n <;> first | exact absurd hn Bool.false_ne_true | exact absurd hp Bool.false_ne_true
  whole hn := by cases n <;> first | exact absurd hn Bool.false_ne_true | exact absurd hp Bool.false_ne_true
  left hn := by cases n <;> first | exact absurd hn Bool.false_ne_true | exact absurd hp Bool.false_ne_true
  set hn := by cases n <;> first | exact absurd hn Bool.false_ne_true | exact absurd hp Bool.false_ne_true
  from_ hn := by cases n <;> first | exact absurd hn Bool.false_ne_true | exact absurd hp Bool.false_ne_true
  when_ := by cases n <;> first | exact trivial | exact absurd hp Bool.false_ne_true

theorem ExprOk.ofNone {n : Node} (h : level n = 9) : ExprOk n := ExprOk.ofItem (by omega) (by omega)

theorem wfList_mem {ns : List Node} (h : wfList ns = true) : ∀ n ∈ ns, wf n = true := by
  rw [wfList_iff] at h; exact h

theorem wf_item {e : Node} (h : CoreOk e) (hl : level e ≤ 5) : ItemOk e := h.expr.item hl

/-- A part of the tree. -/
def Sub (ih : Node → Prop) (n : Node) : Prop := ∀ m, sizeOf m < sizeOf n → wf m = true → ih m

theorem items_ok {n : Node} {args : List Node} (ih : Sub CoreOk n) (hs : sizeOf args < sizeOf n)
    (hw : wfList args = true) (hl : levels args ≤ 5) : ∀ m ∈ args, ItemOk m := fun m hm =>
  (ih m (by have := List.sizeOf_lt_of_mem hm; omega) (wfList_mem hw m hm)).expr.item (levels_le.1 hl m hm)

theorem isSource_from {n : Node} (h : isSource n = true) : isBody n = true := by simp [isBody, isFrom, h]

/-- Sources. -/
theorem CoreOk.ofSource {n : Node} (hs : isSource n = true → SourceOk n) (he : ExprOk n) (hw : isWhole n = true → WholeOk n)
    (h1 : n.isSelect = false) (h2 : isJoin n = false) (h3 : isSet n = false) (h4 : WhenOk n)
    (hq : isQuery n = true → StmtOk n := by exact fun h => absurd h Bool.false_ne_true) : CoreOk n where
  expr := he
  select h := by rw [h1] at h; cases h
  stmt := hq
  whole := hw
  left h := (hs (by cases n <;> first | exact h | exact absurd h2 Bool.noConfusion)).spine
  set h := (hs (by simpa [h3] using h)).set
  from_ h := (hs (by simpa [isBody, isFrom, h2, h3] using h)).spine.from_
  when_ := h4

theorem coreOk_paren {args : List Node} (ih : Sub CoreOk (.paren args)) (hw : wf (.paren args) = true) :
    CoreOk (.paren args) := by
  have hwl : wfList args = true := by
    have h := hw
    simp only [wf, Bool.and_eq_true] at h
    exact h.2
  have sub : ∀ m ∈ args, CoreOk m := fun m hm =>
    ih m (by have := List.sizeOf_lt_of_mem hm; simp only [Node.paren.sizeOf_spec]; omega) (wfList_mem hwl m hm)
  have hwhole : isGroup args = true → WholeOk (.paren args) := fun hg =>
    group_ok hw hg (fun m hm h => (sub m hm).stmt h)
      (fun m hm h => (sub m hm).from_ h)
  refine .ofSource (fun h => (hwhole h).source) ?_ hwhole rfl rfl rfl trivial
  by_cases hl : levels args ≤ 5
  · exact .ofFree hw (by rw [level, if_pos hl]) (paren_ok hl hwl fun m hm => (sub m hm).expr.item (levels_le.1 hl m hm))
  · exact .ofNone (by rw [level, if_neg hl])

theorem alias_levels (e al : Node) (w : Bool) :
    (level (.alias e al w) = 4 ∧ level e ≤ 3) ∨ level (.alias e al w) = 9 := by
  simp only [level]
  generalize hb : (decide (level e ≤ 3) && isAlias al w) = b
  cases b with
  | true =>
    simp only [Bool.and_eq_true, decide_eq_true_eq] at hb
    exact .inl ⟨rfl, hb.1⟩
  | false => exact .inr rfl

theorem coreOk_alias {e al : Node} {w : Bool} (ih : Sub CoreOk (.alias e al w)) (hw : wf (.alias e al w) = true) :
    CoreOk (.alias e al w) := by
  have h := hw
  simp only [wf, Bool.and_eq_true] at h
  have he := ih e (by simp only [Node.alias.sizeOf_spec]; omega) h.1.2
  have hs : isSource (.alias e al w) = true → SourceOk (.alias e al w) := fun hs => by
    simp only [isSource, Bool.and_eq_true] at hs
    exact sourceAlias_ok hw hs.2 (he.whole hs.1)
  refine .ofSource hs (.ofItem ?_ fun hl => ?_) (fun h => absurd h Bool.false_ne_true) rfl rfl rfl trivial
  · rcases alias_levels e al w with h | h <;> omega
  · rcases alias_levels e al w with h | h
    · refine alias_ok hw (by omega) (he.expr.aliased h.2) fun hx => ?_
      subst hx
      have ha := ih al (by simp only [Node.alias.sizeOf_spec]; omega) (by simp only [wf, Bool.and_eq_true] at hw; exact hw.2)
      refine ha.expr.opd ?_
      rcases alias_or (level_alias (by omega : level (.alias e al true) ≤ 4)).2 with ⟨v, -, hw⟩ | ⟨v, rfl, -⟩ | ⟨v, q, rfl, -⟩
      · cases hw
      · exact Nat.zero_le _
      · exact Nat.zero_le _
    · omega

theorem coreOk_table {v : Node} {sq : Bool} (ih : Sub CoreOk (.table v sq)) (hw : wf (.table v sq) = true) :
    CoreOk (.table v sq) := by
  obtain ⟨-, hv, hl⟩ := table_level hw
  have he := ih v (by simp only [Node.table.sizeOf_spec]; omega) hv
  cases sq with
  | true =>
    have hs := square_ok hw (he.expr.item (by omega))
    exact .ofSource (fun _ => hs.source) (.ofNone rfl) (fun _ => hs) rfl rfl rfl trivial
  | false =>
    have hq : quoted v = true → WholeOk (.table v false) := fun hq =>
      quoted_ok hw hq fun l r h => by
        subst h
        simp only [wf, Bool.and_eq_true] at hv
        refine (ih r (by simp only [Node.table.sizeOf_spec, Node.chained.sizeOf_spec]; omega) hv.2).expr.base ?_
        exact level_chain hv.1.1.2
    have hs : SourceOk (.table v false) := by
      by_cases h : quoted v = true
      · exact (hq h).source
      · exact table_ok hw (by simpa using h) (he.expr.item (by omega))
    exact .ofSource (fun _ => hs) (.ofNone rfl) hq rfl rfl rfl trivial

theorem coreOk_unnest {v : Node} {o oa : Bool} {al : Option Str} (ih : Sub CoreOk (.unnest v o oa al))
    (hw : wf (.unnest v o oa al) = true) : CoreOk (.unnest v o oa al) := by
  refine .ofSource (fun _ => unnest_ok hw fun f args hv => ?_) (.ofNone rfl) (fun h => absurd h Bool.false_ne_true)
    rfl rfl rfl trivial
  simp only [wf, Bool.and_eq_true] at hw
  have h2 := hw.1.2
  rcases hv with rfl | ⟨a, w, rfl⟩
  · simp only [wf, Bool.and_eq_true, decide_eq_true_eq] at h2
    exact ⟨h2.2, h2.1.2, items_ok ih (by simp only [Node.unnest.sizeOf_spec, Node.func.sizeOf_spec]; omega) h2.2 h2.1.2⟩
  · simp only [wf, Bool.and_eq_true, decide_eq_true_eq] at h2
    obtain ⟨⟨-, h2⟩, -⟩ := h2
    exact ⟨h2.2, h2.1.2, items_ok ih
      (by simp only [Node.unnest.sizeOf_spec, Node.alias.sizeOf_spec, Node.func.sizeOf_spec]; omega) h2.2 h2.1.2⟩

theorem coreOk_combined {op : Str} {l r : Node} (ih : Sub CoreOk (.combined op l r))
    (hw : wf (.combined op l r) = true) : CoreOk (.combined op l r) := by
  have h := hw
  simp only [wf, Bool.and_eq_true, Bool.or_eq_true] at h
  obtain ⟨⟨⟨⟨h1, h2⟩, h3⟩, h4⟩, h5⟩ := h
  have hl := (ih l (by simp only [Node.combined.sizeOf_spec]; omega) h4).set (by simpa using h2)
  have hr' := ih r (by simp only [Node.combined.sizeOf_spec]; omega) h5
  have hr : RightOk r := by
    rcases h3 with h | h
    · exact (hr'.from_ (by simp [isBody, h])).right h5 h
    · have hs : r.isSelect = true := by cases r <;> first | rfl | exact absurd h Bool.false_ne_true
      exact (hr'.select hs).right hs
  have hs := combined_ok hw hl hr
  exact ⟨.ofNone rfl, fun h => absurd h Bool.false_ne_true, fun h => absurd h Bool.false_ne_true,
    fun h => absurd h Bool.false_ne_true, fun h => absurd h Bool.false_ne_true, fun _ => hs, fun _ => hs.from_, trivial⟩

theorem coreOk_join {type : Str} {l r on us : Node} (ih : Sub CoreOk (.join type l r on us))
    (hw : wf (.join type l r on us) = true) : CoreOk (.join type l r on us) := by
  have h := hw
  simp only [wf, Bool.and_eq_true, Bool.or_eq_true] at h
  obtain ⟨⟨⟨⟨⟨h1, h2⟩, h3⟩, h4⟩, h5⟩, h6⟩ := h
  have hl := (ih l (by simp only [Node.join.sizeOf_spec]; omega) h2).left h1
  have hr := (ih r (by simp only [Node.join.sizeOf_spec]; omega) h3).from_ (by
    rcases h6 with h | h
    · exact plain_body h.1.2
    · simp [isBody, h.1.1.2])
  have hc : on.truthy = true ∨ us.truthy = true → SpineOk (.join type l r on us) := fun hc =>
    join_cond_ok hw hc hl hr
      (fun e h => by
        subst h
        simp only [wf, Bool.and_eq_true, decide_eq_true_eq] at h4
        exact (ih e (by simp only [Node.join.sizeOf_spec, Node.on.sizeOf_spec]; omega) h4.2).expr.item (by omega))
      (fun e h => by
        subst h
        simp only [wf, Bool.and_eq_true, decide_eq_true_eq] at h5
        exact (ih e (by simp only [Node.join.sizeOf_spec, Node.using_.sizeOf_spec]; omega) h5.2).expr.item (by omega))
  refine ⟨.ofNone rfl, fun h => absurd h Bool.false_ne_true, fun h => absurd h Bool.false_ne_true,
    fun h => absurd h Bool.false_ne_true, fun h => hc (by simpa [isLeft] using h), fun h => absurd h Bool.false_ne_true, fun _ => ?_, trivial⟩
  by_cases h : on.truthy = true ∨ us.truthy = true
  · exact (hc h).from_
  · simp only [not_or, Bool.not_eq_true] at h
    exact join_plain_ok hw h.1 h.2 hl hr

theorem part_ok {n p : Node} (ih : Sub CoreOk n) (hs : sizeOf p < sizeOf n) (hw : wf p = true) : PartOk p := by
  cases p with
  | where_ e | having e =>
    simp only [wf, Bool.and_eq_true, decide_eq_true_eq] at hw
    exact (ih e (by simp at hs; omega) hw.2).expr.full hw.1
  | groupBy args rollup each =>
    simp only [wf, Bool.and_eq_true, decide_eq_true_eq] at hw
    exact items_ok ih (by simp at hs; omega) hw.2 (by omega)
  | orderBy args =>
    simp only [wf, Bool.and_eq_true] at hw
    intro m hm
    have h1 := List.all_eq_true.1 hw.1.2 m hm
    have h2 := wfList_mem hw.2 m hm
    have h3 := List.sizeOf_lt_of_mem hm
    cases m with
    | orderItem v asc desc =>
      simp only [wf, Bool.and_eq_true, decide_eq_true_eq] at h2
      exact (ih v (by simp at hs h3; omega) h2.2).expr.item (by omega)
    | _ => exact absurd h1 Bool.false_ne_true
  | limit all v =>
    simp only [wf, Bool.and_eq_true] at hw
    rintro rfl
    simp only [Bool.false_eq_true, if_false, decide_eq_true_eq] at hw
    exact (ih v (by simp at hs; omega) hw.2).expr.item (by omega)
  | offset v =>
    simp only [wf, Bool.and_eq_true, decide_eq_true_eq] at hw
    exact (ih v (by simp at hs; omega) hw.2).expr.item (by omega)
  | _ => trivial

theorem coreOk_select {es on : List Node} {all d semi : Bool} {f w g h o l off : Node}
    (ih : Sub CoreOk (.select es all d on f w g h o l off semi))
    (hw : wf (.select es all d on f w g h o l off semi) = true) :
    CoreOk (.select es all d on f w g h o l off semi) := by
  have hw' := hw
  simp only [wf, Bool.and_eq_true, decide_eq_true_eq] at hw'
  obtain ⟨⟨⟨⟨⟨⟨⟨⟨⟨⟨⟨⟨⟨⟨⟨⟨⟨⟨⟨⟨w1, w2⟩, w3⟩, w4⟩, w5⟩, w6⟩, w7⟩, w8⟩, w9⟩, w10⟩, w11⟩, w12⟩, w13⟩, w14⟩, w15⟩,
    w16⟩, w17⟩, w18⟩, w19⟩, w20⟩, w21⟩ := hw'
  have hs : SelectOk (.select es all d on f w g h o l off semi) :=
    select_ok hw (items_ok ih (by simp only [Node.select.sizeOf_spec]; omega) w3 (by omega))
      (items_ok ih (by simp only [Node.select.sizeOf_spec]; omega) w7 (by omega))
      (ih f (by simp only [Node.select.sizeOf_spec]; omega) w9).from_
      (part_ok ih (by simp only [Node.select.sizeOf_spec]; omega) w11)
      (part_ok ih (by simp only [Node.select.sizeOf_spec]; omega) w13)
      (part_ok ih (by simp only [Node.select.sizeOf_spec]; omega) w15)
      (part_ok ih (by simp only [Node.select.sizeOf_spec]; omega) w17)
      (part_ok ih (by simp only [Node.select.sizeOf_spec]; omega) w19)
      (part_ok ih (by simp only [Node.select.sizeOf_spec]; omega) w21)
  refine ⟨.ofItem ?_ fun hl => ?_, fun _ => hs, fun _ => hs.stmt rfl, fun h => absurd h Bool.false_ne_true,
    fun h => absurd h Bool.false_ne_true, fun h => absurd h Bool.false_ne_true,
    fun h => absurd h Bool.false_ne_true, trivial⟩
  · rw [level]; split <;> omega
  · refine select_item rfl ?_ hs
    rw [level] at hl ⊢
    split at hl
    · exact if_pos ‹_›
    · omega

theorem coreOk_case {o e : Node} {ws : List Node} (ih : Sub CoreOk (.case o ws e)) (hw : wf (.case o ws e) = true) :
    CoreOk (.case o ws e) := by
  have h := hw
  simp only [wf, Bool.and_eq_true] at h
  have so : sizeOf o < sizeOf (Node.case o ws e) := by simp only [Node.case.sizeOf_spec]; omega
  have se : sizeOf e < sizeOf (Node.case o ws e) := by simp only [Node.case.sizeOf_spec]; omega
  have sw : sizeOf ws < sizeOf (Node.case o ws e) := by simp only [Node.case.sizeOf_spec]; omega
  refine .ofExpr rfl (.ofAtom hw rfl (case_ok hw (fun hl => (ih o so h.1.1.2).expr.item (by omega)) (fun m hm => ?_)
    fun hl => (ih e se h.2).expr.item (by omega)))
  exact (ih m (by have := List.sizeOf_lt_of_mem hm; omega) (wfList_mem h.1.2 m hm)).when_

/-! ### WITH -/

theorem withLoop_ok {qs : List Node} (hq : qs ≠ []) (hs : ∀ name b, .withQuery name b ∈ qs → StmtOk b)
    (hk : qs.all isWithQuery = true) (hw : wfList qs = true) {ts : List Str} (hr : Reads (toksList qs) ts)
    {t : Str} (ht : lower t = str!"select") :
    ∃ qs', foldList qs' = qs ∧ ∀ (rest : List Str) (f : Option PyErr) (acc : List Node),
      Ev fun r => r.withLoop acc ⟨ts ++ t :: rest, f⟩ = .ok (acc ++ qs', ⟨rest, f⟩) := by
  induction qs generalizing ts with
  | nil => exact absurd rfl hq
  | cons q qs ih =>
    simp only [List.all_cons, Bool.and_eq_true] at hk
    simp only [wfList, Bool.and_eq_true] at hw
    obtain ⟨name, b, rfl⟩ : ∃ name b, q = .withQuery name b := by
      cases q with
      | withQuery name b => exact ⟨_, _, rfl⟩
      | _ => exact absurd hk.1 Bool.false_ne_true
    have hb := hw.1
    simp only [wf, Bool.and_eq_true] at hb
    -- one query
    have one : ∀ x, Reads (toks (.withQuery name b)) x → ∃ q', fold q' = .withQuery name b ∧
        ∀ (sep : Str) (rest : List Str) (f : Option PyErr) (acc : List Node), Ev fun r =>
          withLoopF r acc ⟨x ++ sep :: rest, f⟩ = (if lower sep = str!"select" then pure (acc ++ [q'])
            else r.withLoop (acc ++ [q'])) ⟨rest, f⟩ := by
      intro x hx
      simp only [toks] at hx
      replace hx := reads_cons.1 hx
      obtain ⟨nm, x, rfl, hnm, hx⟩ := hx
      replace hx := reads_cons.1 hx
      obtain ⟨as, x, rfl, has, hx⟩ := hx
      replace hx := reads_parens hx
      obtain ⟨z, rfl, hz⟩ := hx
      rw [reads_lit] at hnm
      subst hnm
      obtain ⟨b', hb', s', g⟩ := hs nm b (by simp) z hz
      refine ⟨.withQuery nm b', by simp [fold, hb'], fun sep rest f acc => g.mono fun r g => ?_⟩
      unfold withLoopF
      rw [show nm :: as :: str!"(" :: (z ++ [str!")"]) ++ sep :: rest =
          nm :: as :: str!"(" :: (z ++ str!")" :: sep :: rest) by simp, bind_ok (next!_cons _ _ _),
        bind_ok (next!_cons _ _ _), bind_ok (assert_true (by simp [lower_kw has (by decide)])), 
        bind_ok (next!_cons _ _ _), bind_ok (assert_true (by rw [lower_self (by decide) (by decide)]; rfl)),
        bind_ok (untilClosing_tame (list_tame (args := [b]) (by simp [wfList, hb.2]) (by simpa [toksList] using hz)) _ _), bind_ok (sub_ok g), bind_ok (next!_cons _ _ _)]
    cases qs with
    | nil =>
      obtain ⟨q', hq', h⟩ := one ts (by simpa [toksList] using hr)
      refine ⟨[q'], by simp [foldList, hq'], fun rest f acc => ?_⟩
      refine (h t rest f acc).next fun r h => ?_
      show withLoopF r acc _ = _
      rw [h, if_pos ht]
      rfl
    | cons q2 qs =>
      simp only [toksList] at hr
      replace hr := reads_append.1 hr
      obtain ⟨x, y, rfl, hx, hr⟩ := hr
      replace hr := reads_cons.1 hr
      obtain ⟨c, y, rfl, hc, hy⟩ := hr
      rw [reads_lit] at hc
      subst hc
      obtain ⟨q', hq', h⟩ := one x hx
      obtain ⟨qs', hqs', h2⟩ := ih (by simp) (fun m b hm => hs m b (List.mem_cons_of_mem _ hm)) hk.2 hw.2 hy
      refine ⟨q' :: qs', by simp [foldList, hq', hqs'], fun rest f acc => ?_⟩
      refine ((h str!"," (y ++ t :: rest) f acc).and (h2 rest f (acc ++ [q']))).next fun r h => ?_
      show withLoopF r acc _ = _
      rw [List.append_assoc, List.cons_append, h.1, if_neg (by rw [lower_self (by decide) (by decide)]; decide), h.2]
      simp

theorem withStmt_ok {qs : List Node} {s : Node} (hw : wf (.withStmt qs s) = true)
    (hq : ∀ name b, .withQuery name b ∈ qs → StmtOk b) (hs : SelectOk s) {ts : List Str}
    (hr : Reads (toks (.withStmt qs s)) ts) :
    ∃ n', fold n' = .withStmt qs s ∧ ∀ rest f, (isSubquery s = true → rest = [] ∧ f = none) →
      ∃ s', Ev fun r => r.stmt ⟨ts ++ rest, f⟩ = .ok (n', s') := by
  simp only [wf, Bool.and_eq_true] at hw
  obtain ⟨⟨⟨⟨h1, h2⟩, h3⟩, h4⟩, h5⟩ := hw
  simp only [toks] at hr
  replace hr := reads_cons.1 hr
  obtain ⟨w, ts, rfl, hw, hr⟩ := hr
  replace hr := reads_append.1 hr
  obtain ⟨x, y, rfl, hx, hy⟩ := hr
  obtain ⟨t, y, rfl, ht⟩ := select_reads h4 hy
  obtain ⟨s', hs', h⟩ := hs t y hy
  obtain ⟨qs', hqs', g⟩ := withLoop_ok (by rintro rfl; simp at h1) hq h2 h3 hx ht
  refine ⟨.withStmt qs' s', by simp [fold, hs', hqs'], fun rest f he => ?_⟩
  obtain ⟨z, h⟩ := h rest f he
  refine ⟨z, (h.and (g (y ++ rest) f [])).next fun r h => ?_⟩
  show stmtF r _ = _
  unfold stmtF
  have hwl := lower_kw hw (by decide)
  rw [show w :: (x ++ t :: y) ++ rest = w :: (x ++ t :: (y ++ rest)) by simp, bind_ok (next!_cons _ _ _),
    if_neg (by rw [hwl]; decide), if_pos hwl, bind_ok h.2, bind_ok h.1]
  rfl

theorem withBody_ok {qs : List Node} {s : Node} (ih : Sub CoreOk (.withStmt qs s)) (hw : wfList qs = true) :
    ∀ name b, .withQuery name b ∈ qs → StmtOk b := fun name b hm => by
  have h1 := List.sizeOf_lt_of_mem hm
  have h2 := wfList_mem hw _ hm
  simp only [wf, Bool.and_eq_true] at h2
  exact (ih b (by simp only [Node.withQuery.sizeOf_spec, Node.withStmt.sizeOf_spec] at h1 ⊢; omega) h2.2).stmt h2.1.2

theorem coreOk_with {qs : List Node} {s : Node} (ih : Sub CoreOk (.withStmt qs s)) (hw : wf (.withStmt qs s) = true) :
    CoreOk (.withStmt qs s) := by
  have h := hw
  simp only [wf, Bool.and_eq_true] at h
  refine ⟨.ofNone rfl, fun h => absurd h Bool.false_ne_true, fun _ ts hr => ?_, fun h => absurd h Bool.false_ne_true,
    fun h => absurd h Bool.false_ne_true, fun h => absurd h Bool.false_ne_true, fun h => absurd h Bool.false_ne_true, trivial⟩
  obtain ⟨n', hn', g⟩ := withStmt_ok hw (withBody_ok ih h.1.1.2)
    ((ih s (by simp only [Node.withStmt.sizeOf_spec]; omega) h.2).select h.1.2) hr
  obtain ⟨s', g⟩ := g [] none fun _ => ⟨rfl, rfl⟩
  rw [List.append_nil] at g
  exact ⟨n', hn', s', g⟩

theorem coreOk_step (n : Node) (ih : Sub CoreOk n) (hw : wf n = true) : CoreOk n := by
  cases n with
  | paren args => exact coreOk_paren ih hw
  | «alias» e al w => exact coreOk_alias ih hw
  | table v sq => exact coreOk_table ih hw
  | unnest v o oa al => exact coreOk_unnest ih hw
  | combined op l r => exact coreOk_combined ih hw
  | join type l r on us => exact coreOk_join ih hw
  | select es all d on f w g h o l off semi => exact coreOk_select ih hw
  | case o ws e => exact coreOk_case ih hw
  | withStmt qs s => exact coreOk_with ih hw
  | column v => exact .ofExpr rfl (.ofAtom hw rfl (column_ok hw))
  | null => exact .ofExpr rfl (.ofAtom hw rfl null_ok)
  | bool b => exact .ofExpr rfl (.ofAtom hw rfl bool_ok)
  | string v q pre =>
    cases pre with
    | none => exact .ofExpr rfl (.ofAtom hw rfl (string_ok hw))
    | some p => exact .ofExpr rfl (.ofItem (by simp [level]) fun _ => raw_item hw)
  | float r => exact .ofExpr rfl (.ofAtom hw rfl (float_ok hw))
  | int i => exact .ofExpr rfl (.ofAtom hw rfl int_ok)
  | func f args =>
    have h := hw
    simp only [wf, Bool.and_eq_true, decide_eq_true_eq] at h
    have hc := func_ok hw (items_ok ih (by simp only [Node.func.sizeOf_spec]; omega) h.2 h.1.2)
    by_cases hf : f ∈ innerCalls
    · refine .ofExpr rfl (.ofItem (by rw [level, if_pos hf]; omega) fun _ => (hc.func.atom.base.opd.cnd.full fun ts hr => ?_).item)
      obtain ⟨t, ts', rfl, -⟩ := reads_cons.1 hr
      simp
    · exact .ofExpr rfl (.ofFunc hw (level_outer hf) hc.func fun _ => hc)
  | count args d =>
    have h := hw
    simp only [wf, Bool.and_eq_true, decide_eq_true_eq] at h
    have hc := count_ok hw (items_ok ih (by simp only [Node.count.sizeOf_spec]; omega) h.2 h.1)
    exact .ofExpr rfl (.ofFunc hw rfl hc.func fun _ => hc)
  | cast c t =>
    have h := hw
    simp only [wf, Bool.and_eq_true, decide_eq_true_eq] at h
    have hc := cast_ok hw ((ih c (by simp only [Node.cast.sizeOf_spec]; omega) h.1.2).expr.opd h.1.1.1)
    exact .ofExpr rfl (.ofFunc hw rfl hc.func fun _ => hc)
  | array args =>
    have h := hw
    simp only [wf, Bool.and_eq_true, decide_eq_true_eq] at h
    exact .ofExpr rfl (.ofFree hw rfl (array_ok hw (items_ok ih (by simp only [Node.array.sizeOf_spec]; omega) h.2 h.1)))
  | index e is =>
    have h := hw
    simp only [wf, Bool.and_eq_true, decide_eq_true_eq] at h
    have hi := items_ok ih (by simp only [Node.index.sizeOf_spec]; omega) h.2 h.1.1.2
    cases hc : isCol e with
    | true => exact .ofExpr rfl (.ofFree hw (by simp [level, hc]) (index_ok hw hc hi))
    | false =>
      have hx := h.1.1.1
      rw [hc, Bool.false_or] at hx
      have hl := ((ih e (by simp only [Node.index.sizeOf_spec]; omega) h.1.2).expr.loop hx).index hw hi
      exact .ofExpr rfl (.ofOpd hw (by simp [level, hc]) hl.opd fun _ => hl)
  | arrayAgg c d i re o l =>
    have h := hw
    simp only [wf, Bool.and_eq_true, decide_eq_true_eq] at h
    obtain ⟨⟨⟨⟨⟨⟨h1, h2⟩, -⟩, -⟩, -⟩, h3⟩, -⟩ := h
    have hc := arrayAgg_ok hw ((ih c (by simp only [Node.arrayAgg.sizeOf_spec]; omega) h2).expr.full h1) fun args ha => by
      have := part_ok ih (p := o) (by simp only [Node.arrayAgg.sizeOf_spec]; omega) h3
      subst ha
      exact this
    exact .ofExpr rfl (.ofFunc hw rfl hc.func fun _ => hc)
  | filtered c w =>
    have h := hw
    simp only [wf, Bool.and_eq_true, decide_eq_true_eq] at h
    obtain ⟨⟨⟨h1, h2⟩, h3⟩, h4⟩ := h
    exact .ofExpr rfl (.ofFunc hw rfl (filtered_ok hw ((ih c (by simp only [Node.filtered.sizeOf_spec]; omega) h3).expr.call h1)
      ((ih w (by simp only [Node.filtered.sizeOf_spec]; omega) h4).expr.full h2)) fun h => absurd h Bool.false_ne_true)
  | analytics fn part o fr =>
    have h := hw
    simp only [wf, Bool.and_eq_true, decide_eq_true_eq] at h
    obtain ⟨⟨⟨⟨⟨⟨⟨⟨⟨w1, w2⟩, w3⟩, w4⟩, w5⟩, w6⟩, w7⟩, w8⟩, w9⟩, w10⟩ := h
    refine .ofExpr rfl (.ofBase hw rfl rfl (analytics_ok hw
      ((ih fn (by simp only [Node.analytics.sizeOf_spec]; omega) w2).expr.func w1)
      (items_ok ih (by simp only [Node.analytics.sizeOf_spec]; omega) w4 (by omega)) fun args ha => ?_))
    have := part_ok ih (p := o) (by simp only [Node.analytics.sizeOf_spec]; omega) w7
    subst ha
    exact this
  | bitwise l op r =>
    have h := hw
    simp only [wf, Bool.and_eq_true, decide_eq_true_eq] at h
    exact .ofExpr rfl (.ofCnd hw rfl (bitwise_ok hw
      ((ih l (by simp only [Node.bitwise.sizeOf_spec]; omega) (by tauto)).expr.opd (by tauto))
      ((ih r (by simp only [Node.bitwise.sizeOf_spec]; omega) (by tauto)).expr.opd (by tauto))))
  | datePart part e =>
    have h := hw
    simp only [wf, Bool.and_eq_true, decide_eq_true_eq] at h
    exact .ofExpr rfl (.ofItem (by simp [level]) fun _ => datePart_item hw
      ((ih e (by simp only [Node.datePart.sizeOf_spec]; omega) h.2).expr.full h.1.2))
  | except_ e args =>
    have h := hw
    simp only [wf, Bool.and_eq_true, decide_eq_true_eq] at h
    obtain ⟨⟨⟨⟨h1, h2⟩, h3⟩, h4⟩, h5⟩ := h
    exact .ofExpr rfl (.ofItem (by simp [level]) fun _ => except_ok hw
      ((ih e (by simp only [Node.except_.sizeOf_spec]; omega) h4).expr.cnd (by have := star_level h1; omega))
      (items_ok ih (by simp only [Node.except_.sizeOf_spec]; omega) h5 (by omega)))
  | replace e args =>
    have h := hw
    simp only [wf, Bool.and_eq_true, decide_eq_true_eq] at h
    obtain ⟨⟨⟨⟨h1, h2⟩, h3⟩, h4⟩, h5⟩ := h
    refine .ofExpr rfl (.ofItem (by simp [level]) fun _ => replace_ok hw
      (fun hs => (ih e (by simp only [Node.replace.sizeOf_spec]; omega) h4).expr.cnd (by have := star_level hs; omega))
      (fun b as he => ?_) (items_ok ih (by simp only [Node.replace.sizeOf_spec]; omega) h5 (by omega)))
    subst he
    simp only [wf, Bool.and_eq_true, decide_eq_true_eq] at h4
    obtain ⟨⟨⟨⟨k1, k2⟩, k3⟩, k4⟩, k5⟩ := h4
    exact ⟨(ih b (by simp only [Node.replace.sizeOf_spec, Node.except_.sizeOf_spec]; omega) k4).expr.cnd
      (by have := star_level k1; omega),
      items_ok ih (by simp only [Node.replace.sizeOf_spec, Node.except_.sizeOf_spec]; omega) k5 (by omega)⟩
  | chained l r =>
    have h := hw
    simp only [wf, Bool.and_eq_true] at h
    have hl0 : level l = 0 := level_name h.1.1.1
    have hr0 : level r = 0 := level_chain h.1.1.2
    have hla : isAtom l = true := by
      have := h.1.1.1
      cases l <;> first | rfl | exact absurd this Bool.false_ne_true
    exact .ofExpr rfl (.ofBase hw rfl rfl (chained_ok hw
      ((ih l (by simp only [Node.chained.sizeOf_spec]; omega) h.1.2).expr.atom hl0 hla)
      ((ih r (by simp only [Node.chained.sizeOf_spec]; omega) h.2).expr.base hr0)))
  | arith op l r =>
    have h := hw
    simp only [wf, Bool.and_eq_true, decide_eq_true_eq] at h
    exact .ofExpr rfl (.ofOpd hw rfl (arith_ok hw
      ((ih l (by simp only [Node.arith.sizeOf_spec]; omega) h.1.2).expr.base h.1.1.1.2)
      ((ih r (by simp only [Node.arith.sizeOf_spec]; omega) h.2).expr.opd h.1.1.2)))
  | neg e =>
    have h := hw
    simp only [wf, Bool.and_eq_true, decide_eq_true_eq] at h
    exact .ofExpr rfl (.ofOpd hw rfl (neg_ok hw
      ((ih e (by simp only [Node.neg.sizeOf_spec]; omega) h.2).expr.opd h.1)))
  | cond l p r =>
    have h := hw
    simp only [wf, Bool.and_eq_true, decide_eq_true_eq] at h
    obtain ⟨⟨⟨h1, h2⟩, h3⟩, -⟩ := h
    refine .ofExpr rfl (.ofCnd hw rfl (cond_ok hw
      ((ih l (by simp only [Node.cond.sizeOf_spec]; omega) h2).expr.opd h1)
      ((ih r (by simp only [Node.cond.sizeOf_spec]; omega) h3).expr.opd) ?_))
    rintro q lo hi rfl hlo hhi
    simp only [wf, Bool.and_eq_true] at h3
    exact ⟨(ih lo (by simp only [Node.cond.sizeOf_spec, Node.boolc.sizeOf_spec]; omega) h3.1.2).expr.opd hlo,
      (ih hi (by simp only [Node.cond.sizeOf_spec, Node.boolc.sizeOf_spec]; omega) h3.2).expr.opd hhi⟩
  | boolc p l r =>
    have h := hw
    simp only [wf, Bool.and_eq_true, decide_eq_true_eq] at h
    have hr := (ih r (by simp only [Node.boolc.sizeOf_spec]; omega) h.2).expr
    obtain ⟨a, b⟩ := boolc_ok hw ((ih l (by simp only [Node.boolc.sizeOf_spec]; omega) h.1.2).expr.cnd h.1.1.1.2)
      (hr.full h.1.1.2) (hr.aliased h.1.1.2)
    exact .ofExpr rfl (.ofFull rfl a b)
  | whenThen w t =>
    have h := hw
    simp only [wf, Bool.and_eq_true, decide_eq_true_eq] at h
    exact ⟨.ofNone rfl, fun h => absurd h Bool.false_ne_true, fun h => absurd h Bool.false_ne_true, fun h => absurd h Bool.false_ne_true,
      fun h => absurd h Bool.false_ne_true, fun h => absurd h Bool.false_ne_true, fun h => absurd h Bool.false_ne_true,
      (ih w (by simp only [Node.whenThen.sizeOf_spec]; omega) h.1.2).expr.item (by omega),
      (ih t (by simp only [Node.whenThen.sizeOf_spec]; omega) h.2).expr.item (by omega)⟩
  | _ => exact .ofExpr rfl (.ofNone rfl)

/-- Every tree of the core grammar is parsed where it stands. -/
theorem coreOk (n : Node) (hw : wf n = true) : CoreOk n := by
  have : ∀ k n, sizeOf n < k → wf n = true → CoreOk n := by
    intro k
    induction k with
    | zero => intro n h; omega
    | succ k ih => exact fun n h hw => coreOk_step n (fun m hm hwm => ih m (by omega) hwm) hw
  exact this _ n (Nat.lt_succ_self _) hw

/-! ### Statements -/

theorem ended_subquery {n : Node} (h : isSubquery n = true) : ended n = false := by
  cases n <;> first
    | exact absurd h Bool.false_ne_true
    | (rw [isSubquery] at h; rw [ended]; simpa using h)

theorem stmt_ok {n : Node} (hc : core n = true) {ts : List Str} (hr : Reads (toks n) ts) :
    ∃ n', fold n' = n ∧ ∀ rest f, (ended n = false → rest = [] ∧ f = none) →
      ∃ s', Ev fun r => r.stmt ⟨ts ++ rest, f⟩ = .ok (n', s') := by
  simp only [core, Bool.and_eq_true, Bool.or_eq_true] at hc
  replace hc := hc.1
  obtain ⟨hw, hk⟩ := hc
  by_cases hs : n.isSelect = true
  · obtain ⟨t, ts, rfl, ht⟩ := select_reads hs hr
    obtain ⟨n', hn', h⟩ := (coreOk n hw).select hs t ts hr
    refine ⟨n', hn', fun rest f he => ?_⟩
    obtain ⟨s', h⟩ := h rest f (fun hq => he (ended_subquery hq))
    refine ⟨s', h.next fun r h => ?_⟩
    show stmtF r _ = _
    unfold stmtF
    rw [List.cons_append, bind_ok (next!_cons _ _ _), if_pos ht, h]
  · obtain ⟨qs, s, rfl⟩ : ∃ qs s, n = .withStmt qs s := by
      rcases hk with h | h
      · exact absurd h hs
      · cases n with
        | withStmt qs s => exact ⟨_, _, rfl⟩
        | _ => exact absurd h Bool.false_ne_true
    have h := hw
    simp only [wf, Bool.and_eq_true] at h
    obtain ⟨n', hn', g⟩ := withStmt_ok hw (withBody_ok (s := s) (fun m _ h => coreOk m h) h.1.1.2) ((coreOk s h.2).select h.1.2) hr
    exact ⟨n', hn', fun rest f he => g rest f fun hq => he (ended_subquery (n := s) hq)⟩

theorem parse_of_ev {s s' : Stream} {n : Node} (h : Ev fun r => r.stmt s = .ok (n, s')) : parse s = .ok n := by
  obtain ⟨k, h⟩ := h
  have h1 := h (max k (3 * s.toks.length + 1)) (by omega)
  rw [← (C07_parsing_finishes s (max k (3 * s.toks.length + 1)) (by omega)).2, parseAt, h1]

/-- A statement of the core grammar is parsed; what follows the semicolon does not matter. -/
theorem parse_core {n : Node} (hc : core n = true) {ts : List Str} (hr : Reads (toks n) ts) :
    ∃ n', fold n' = n ∧ ∀ rest f, (ended n = false → rest = [] ∧ f = none) → parse ⟨ts ++ rest, f⟩ = .ok n' := by
  obtain ⟨n', hn', h⟩ := stmt_ok hc hr
  refine ⟨n', hn', fun rest f he => ?_⟩
  obtain ⟨s', h⟩ := h rest f he
  exact parse_of_ev h

/-! ### A clause without BY -/

/-- The tokens after GROUP: not BY, and not EACH BY. -/
def NoGroupBy (R : List Str) (f : Option PyErr) : Prop :=
  (R = [] ∧ f = none) ∨ (∃ t R', R = t :: R' ∧ lower t ≠ str!"by" ∧ lower t ≠ str!"each") ∨
  (∃ e, R = [e] ∧ f = none ∧ lower e = str!"each") ∨
  ∃ e t R', R = e :: t :: R' ∧ lower e = str!"each" ∧ lower t ≠ str!"by"

/-- The tokens after ORDER: not BY. -/
def NoBy (R : List Str) (f : Option PyErr) : Prop :=
  (R = [] ∧ f = none) ∨ ∃ t R', R = t :: R' ∧ lower t ≠ str!"by"

theorem bind_err {α β : Type} {p : P α} {k : α → P β} {s : Stream} {e : PyErr} (h : p s = .err e) :
    (p >>= k) s = .err e := by rw [bind_run, h]

theorem isWord_ne {t w : Str} (h : lower t ≠ w) : isWord (some t) w = false := by
  simp [isWord, lower?, h]

theorem isWord_eq {t w : Str} (h : lower t = w) : isWord (some t) w = true := by
  simp [isWord, lower?, h]

theorem group_missing {g : Str} (hg : lower g = str!"group") {R : List Str} {f : Option PyErr} (h : NoGroupBy R f)
    (r : Rec) : selectGroupF r (some g) ⟨R, f⟩ = .err (.parsing str!"Missing BY after GROUP") := by
  unfold selectGroupF
  rw [if_pos (isWord_eq hg)]
  rcases h with ⟨rfl, rfl⟩ | ⟨t, R', rfl, h1, h2⟩ | ⟨e, rfl, rfl, h1⟩ | ⟨e, t, R', rfl, h1, h2⟩
  · rfl
  · rw [bind_ok (next?_cons _ _ _)]
    dsimp only
    rw [isWord_ne h2]
    simp only [Bool.false_eq_true, if_false, bind_run, pure_run, isWord_ne h1, Bool.not_false, if_true]
    rfl
  · rw [bind_ok (next?_cons _ _ _)]
    dsimp only
    rw [isWord_eq h1]
    rfl
  · rw [bind_ok (next?_cons _ _ _)]
    dsimp only
    rw [isWord_eq h1, if_pos rfl, bind_ok (next?_cons _ _ _), isWord_ne h2]
    rfl

theorem order_missing {g : Str} (hg : lower g = str!"order") {R : List Str} {f : Option PyErr} (h : NoBy R f)
    (r : Rec) : selectOrderF r (some g) ⟨R, f⟩ = .err (.parsing str!"Missing BY after ORDER") := by
  unfold selectOrderF
  rw [if_pos (isWord_eq hg)]
  rcases h with ⟨rfl, rfl⟩ | ⟨t, R', rfl, h1⟩
  · rfl
  · rw [bind_ok (next?_cons _ _ _), isWord_ne h1]
    rfl

/-- A statement whose GROUP clause cannot be read. -/
theorem select_group_fails {es on : List Node} {all d : Bool} {f w : Node}
    (hw : wf (.select es all d on f w .none .none .none .none .none false) = true) {t : Str} {ts : List Str}
    (hr : Reads (toks (.select es all d on f w .none .none .none .none .none false)) (t :: ts)) {R : List Str} {e : Option PyErr}
    (hR : After whrEnd R e) {err : PyErr} (herr : ∀ r, selectGroupF r R.head? ⟨R.tail, e⟩ = .err err) :
    Ev fun r => r.select ⟨ts ++ R, e⟩ = .err err := by
  have hw' := hw
  simp only [wf, Bool.and_eq_true, Bool.or_eq_true, decide_eq_true_eq, Bool.not_eq_true'] at hw
  obtain ⟨⟨⟨⟨⟨⟨⟨⟨⟨⟨⟨⟨⟨⟨⟨⟨⟨⟨⟨⟨w1, w2⟩, w3⟩, w4⟩, w5⟩, w6⟩, w7⟩, w8⟩, w9⟩, w10⟩, w11⟩, w12⟩, w13⟩, w14⟩, w15⟩,
    w16⟩, w17⟩, w18⟩, w19⟩, w20⟩, w21⟩ := hw
  have hne : es ≠ [] := by rintro rfl; simp at w1
  have hon' : on = [] ∨ d = true := by
    rcases w5 with h | h
    · exact .inl (by simpa using h)
    · exact .inr h
  simp only [toks, opt, Bool.false_eq_true, if_false, List.append_nil] at hr
  simp only [← opt.eq_def] at hr
  replace hr := reads_cons.1 hr
  obtain ⟨t', ts', ht', ht, hr⟩ := hr
  obtain ⟨rfl, rfl⟩ := List.cons.inj ht'
  replace hr := reads_append.1 hr
  obtain ⟨ts, xw, rfl, hr, hwh⟩ := hr
  replace hr := reads_append.1 hr
  obtain ⟨ts, xf, rfl, hr, hfr⟩ := hr
  replace hr := reads_append.1 hr
  obtain ⟨xhd, xe, rfl, hhd, he⟩ := hr
  have sub : ∀ m, wf m = true → PartOk m := fun m hm =>
    part_ok (n := .paren [m]) (fun m _ h => coreOk m h) (by simp; omega) hm
  obtain ⟨w', ew, cw⟩ := where_clause w10 w11 (sub _ w11) xw hwh
  obtain ⟨f', ef, cf⟩ := selectFrom_ok w9 w8 (coreOk f w9).from_ hfr
  obtain ⟨on', eon, chd⟩ := head_ok hne w3 w2 w4 hon' (by omega) w7
    (fun m hm => (coreOk m (wfList_mem w7 m hm)).expr.item (by have := levels_le.1 w6 m hm; omega)) hhd he
  obtain ⟨es', ees, ces⟩ := list_ok w3 (by omega)
    (fun m hm => (coreOk m (wfList_mem w3 m hm)).expr.item (by have := levels_le.1 w2 m hm; omega)) he
  have a6 := hR.cons (where_head w10 hwh)
  have a7 : After lstEnd (xf ++ (xw ++ R)) e := by
    refine a6.cons ?_
    rcases reads_opt hfr with ⟨-, hfr⟩ | ⟨-, rfl⟩
    · exact kw_head (by decide) hfr
    · exact .inl rfl
  obtain ⟨first, tl, r1, r2⟩ := chd _ e a7
  refine (((r1.and ces).and (cf _ e a6)).and (cw _ e hR)).next ?_
  rintro r ⟨⟨⟨q1, q2⟩, q3⟩, q4⟩
  show selectF r _ = _
  unfold selectF
  simp only [List.append_assoc] at q1 ⊢
  rw [bind_ok q1]
  dsimp only
  rw [bind_ok r2]
  dsimp only
  rw [bind_ok (sub_ok q2), bind_ok q3]
  dsimp only
  rw [bind_ok q4]
  dsimp only
  rw [bind_err (herr r)]

/-- A statement whose ORDER clause cannot be read. -/
theorem select_order_fails {es on : List Node} {all d : Bool} {f w g h : Node}
    (hw : wf (.select es all d on f w g h .none .none .none false) = true) {t : Str} {ts : List Str}
    (hr : Reads (toks (.select es all d on f w g h .none .none .none false)) (t :: ts)) {R : List Str} {e : Option PyErr}
    (hR : After havEnd R e) {err : PyErr} (herr : ∀ r, selectOrderF r R.head? ⟨R.tail, e⟩ = .err err) :
    Ev fun r => r.select ⟨ts ++ R, e⟩ = .err err := by
  have hw' := hw
  simp only [wf, Bool.and_eq_true, Bool.or_eq_true, decide_eq_true_eq, Bool.not_eq_true'] at hw
  obtain ⟨⟨⟨⟨⟨⟨⟨⟨⟨⟨⟨⟨⟨⟨⟨⟨⟨⟨⟨⟨w1, w2⟩, w3⟩, w4⟩, w5⟩, w6⟩, w7⟩, w8⟩, w9⟩, w10⟩, w11⟩, w12⟩, w13⟩, w14⟩, w15⟩,
    w16⟩, w17⟩, w18⟩, w19⟩, w20⟩, w21⟩ := hw
  have hne : es ≠ [] := by rintro rfl; simp at w1
  have hon' : on = [] ∨ d = true := by
    rcases w5 with h | h
    · exact .inl (by simpa using h)
    · exact .inr h
  simp only [toks, opt, Bool.false_eq_true, if_false, List.append_nil] at hr
  simp only [← opt.eq_def] at hr
  replace hr := reads_cons.1 hr
  obtain ⟨t', ts', ht', ht, hr⟩ := hr
  obtain ⟨rfl, rfl⟩ := List.cons.inj ht'
  replace hr := reads_append.1 hr
  obtain ⟨ts, xh, rfl, hr, hh⟩ := hr
  replace hr := reads_append.1 hr
  obtain ⟨ts, xg, rfl, hr, hg⟩ := hr
  replace hr := reads_append.1 hr
  obtain ⟨ts, xw, rfl, hr, hwh⟩ := hr
  replace hr := reads_append.1 hr
  obtain ⟨ts, xf, rfl, hr, hfr⟩ := hr
  replace hr := reads_append.1 hr
  obtain ⟨xhd, xe, rfl, hhd, he⟩ := hr
  have sub : ∀ m, wf m = true → PartOk m := fun m hm =>
    part_ok (n := .paren [m]) (fun m _ h => coreOk m h) (by simp; omega) hm
  obtain ⟨w', ew, cw⟩ := where_clause w10 w11 (sub _ w11) xw hwh
  obtain ⟨g', eg, cg⟩ := group_clause w12 w13 (sub _ w13) xg hg
  obtain ⟨h', eh, ch⟩ := having_clause w14 w15 (sub _ w15) xh hh
  obtain ⟨f', ef, cf⟩ := selectFrom_ok w9 w8 (coreOk f w9).from_ hfr
  obtain ⟨on', eon, chd⟩ := head_ok hne w3 w2 w4 hon' (by omega) w7
    (fun m hm => (coreOk m (wfList_mem w7 m hm)).expr.item (by have := levels_le.1 w6 m hm; omega)) hhd he
  obtain ⟨es', ees, ces⟩ := list_ok w3 (by omega)
    (fun m hm => (coreOk m (wfList_mem w3 m hm)).expr.item (by have := levels_le.1 w2 m hm; omega)) he
  have a4 := hR.cons (having_head w14 hh)
  have a5 := a4.cons (group_head w12 hg)
  have a6 := a5.cons (where_head w10 hwh)
  have a7 : After lstEnd (xf ++ (xw ++ (xg ++ (xh ++ R)))) e := by
    refine a6.cons ?_
    rcases reads_opt hfr with ⟨-, hfr⟩ | ⟨-, rfl⟩
    · exact kw_head (by decide) hfr
    · exact .inl rfl
  obtain ⟨first, tl, r1, r2⟩ := chd _ e a7
  refine (((((r1.and ces).and (cf _ e a6)).and (cw _ e a5)).and (cg _ e a4)).and (ch _ e hR)).next ?_
  rintro r ⟨⟨⟨⟨⟨q1, q2⟩, q3⟩, q4⟩, q5⟩, q6⟩
  show selectF r _ = _
  unfold selectF
  simp only [List.append_assoc] at q1 ⊢
  rw [bind_ok q1]
  dsimp only
  rw [bind_ok r2]
  dsimp only
  rw [bind_ok (sub_ok q2), bind_ok q3]
  dsimp only
  rw [bind_ok q4]
  dsimp only
  rw [bind_ok q5]
  dsimp only
  rw [bind_ok q6]
  dsimp only
  rw [bind_err (herr r)]

theorem stmt_fails {t : Str} (ht : lower t = str!"select") {ts : List Str} {f : Option PyErr} {err : PyErr}
    (h : Ev fun r => r.select ⟨ts, f⟩ = .err err) : parse ⟨t :: ts, f⟩ = .err err := by
  have h' : Ev fun r => r.stmt ⟨t :: ts, f⟩ = .err err := h.next fun r h => by
    show stmtF r _ = _
    unfold stmtF
    rw [bind_ok (next!_cons _ _ _), if_pos ht, h]
  obtain ⟨k, h'⟩ := h'
  have h1 := h' (max k (3 * (t :: ts).length + 1)) (by omega)
  rw [← (C07_parsing_finishes ⟨t :: ts, f⟩ (max k (3 * (t :: ts).length + 1)) (by
    show 3 * (t :: ts).length < _; omega)).2, parseAt, h1]

end

end SqlV.Core
