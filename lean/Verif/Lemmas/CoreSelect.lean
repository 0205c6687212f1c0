import Verif.Lemmas.CoreFrom

/-! Parsing the clauses of SELECT of the core grammar. -/

set_option linter.unusedSectionVars false

namespace SqlV.Core

open Scan

variable [E : PyEnv]

/-- What follows a clause: nothing, or one of the words. -/
def After (ws R : List Str) (f : Option PyErr) : Prop :=
  (R = [] ∧ f = none) ∨ ∃ w R', R = w :: R' ∧ lower w ∈ ws

def offEnd : List Str := [str!";"]
def limEnd : List Str := str!"offset" :: offEnd
def ordEnd : List Str := str!"limit" :: limEnd
def havEnd : List Str := str!"order" :: ordEnd
def grpEnd : List Str := str!"having" :: havEnd
def whrEnd : List Str := str!"group" :: grpEnd
def frmEnd : List Str := str!"where" :: whrEnd
def lstEnd : List Str := str!"from" :: frmEnd

/-- The clause is read up to the next one. -/
def ClauseOk (F : Rec → Option Str → P (Node × Option Str)) (ws : List Str) (n : Node) : Prop :=
  ∀ ts, Reads (toks n) ts → ∃ n', fold n' = n ∧ ∀ R f, After ws R f →
    Ev fun r => F r (ts ++ R).head? ⟨(ts ++ R).tail, f⟩ = .ok ((n', R.head?), ⟨R.tail, f⟩)

theorem After.notWord {ws R : List Str} {f : Option PyErr} (h : After ws R f) {w : Str} (hw : w ∉ ws) :
    isWord R.head? w = false := by
  rcases h with ⟨rfl, -⟩ | ⟨v, R', rfl, hv⟩
  · rfl
  · simp only [List.head?_cons, isWord, lower?, Option.map_some, Option.some.injEq, decide_eq_false_iff_not]
    rintro rfl
    exact hw hv

theorem After.mono {ws ws' R : List Str} {f : Option PyErr} (h : After ws R f) (hs : ∀ w ∈ ws, w ∈ ws') :
    After ws' R f := by
  rcases h with h | ⟨v, R', h, hv⟩
  · exact .inl h
  · exact .inr ⟨v, R', h, hs _ hv⟩

theorem After.fin {ws R : List Str} {f : Option PyErr} (h : After ws R f) : R = [] → f = none := by
  rintro rfl
  rcases h with ⟨-, h⟩ | ⟨w, R', h, -⟩
  · exact h
  · cases h

theorem After.exprEnd {ws R u : List Str} {f : Option PyErr} (h : After ws R f) (h1 : ∀ w ∈ ws, w ∈ u)
    (h2 : ∀ w ∈ ws, w ∈ clauseWords) : ExprEnd u R f := by
  rcases h with h | ⟨v, R', h, hv⟩
  · exact .inl h
  · exact .inr ⟨v, R', h, h1 _ hv, h2 _ hv⟩

section
variable [L : LawfulPyEnv E]

theorem After.scan {ws R base extra l stop : List Str} {f : Option PyErr} (hR : After ws R f) (h : Tame base extra l)
    (hs : ∀ w ∈ stop, w ∈ base ∨ w ∈ extra) (hq : ∀ w ∈ stop, w ∉ quotes ++ [str!"(", str!"[", str!"case"])
    {keep : List (Str × Str)} (hk : ∀ w, NoKeep keep (lastOf none l) w) (hws : ∀ w ∈ ws, w ∈ stop)
    (hp : Pairs base stop keep := by pairs) :
    untilOneOf stop none keep ⟨l ++ R, f⟩ = .ok ((l, R.head?), ⟨R.tail, f⟩) := by
  rcases hR with ⟨rfl, rfl⟩ | ⟨w, R', rfl, hw⟩
  · rw [List.append_nil]
    exact untilOneOf_end h hs hq keep hp
  · exact untilOneOf_stop h hs hq keep (hws _ hw) (hk w) _ _ hp

theorem After.scan_first {ws R base extra l stop : List Str} {t : Str} {f : Option PyErr} (hR : After ws R f)
    (h : Tame base extra (t :: l))
    (hs : ∀ w ∈ stop, w ∈ base) (hq : ∀ w ∈ stop, w ∉ quotes ++ [str!"(", str!"[", str!"case", str!"end"])
    (hws : ∀ w ∈ ws, w ∈ stop) (hp : Pairs base stop [] := by pairs) :
    untilOneOf stop (some t) [] ⟨l ++ R, f⟩ = .ok ((t :: l, R.head?), ⟨R.tail, f⟩) := by
  rcases hR with ⟨rfl, rfl⟩ | ⟨w, R', rfl, hw⟩
  · rw [List.append_nil]
    exact untilOneOf_first_end h hs hq [] hp
  · exact untilOneOf_first_stop h hs hq [] (hws _ hw) (noKeep_nil _ _) _ _ hp

/-- A clause is empty or begins with its keyword. -/
theorem After.cons {ws R ts : List Str} {f : Option PyErr} (h : After ws R f) {w : Str}
    (ht : ts = [] ∨ ∃ t ts', ts = t :: ts' ∧ lower t = w) : After (w :: ws) (ts ++ R) f := by
  rcases ht with rfl | ⟨t, ts', rfl, ht⟩
  · exact h.mono fun _ h => by simp [h]
  · exact .inr ⟨t, ts' ++ R, rfl, by simp [ht]⟩

theorem kw_head {w : Str} {ks : List Tok} (hw : w.all isAscii = true) {ts : List Str} (h : Reads (.kw w :: ks) ts) :
    ts = [] ∨ ∃ t ts', ts = t :: ts' ∧ lower t = w := by
  replace h := reads_cons.1 h
  obtain ⟨t, ts, rfl, ht, -⟩ := h
  exact .inr ⟨t, ts, rfl, lower_kw ht hw⟩

/-! ### Each clause -/

theorem clause_none {F : Rec → Option Str → P (Node × Option Str)} {ws : List Str} {w : Str} (hw : w ∉ ws)
    (h : ∀ r t s, isWord t w = false → F r t s = .ok ((.none, t), s)) : ClauseOk F ws .none := by
  intro ts hr
  simp only [toks] at hr
  rw [reads_nil] at hr
  subst hr
  exact ⟨.none, rfl, fun R f hR => Ev.of fun r => h r _ _ (hR.notWord hw)⟩

theorem where_none : ClauseOk selectWhereF whrEnd .none :=
  clause_none (w := str!"where") (by decide) fun r t s h => by
    unfold selectWhereF; rw [if_neg (by rw [h]; simp)]; rfl

theorem where_ok {e : Node} (h : FullOk e) : ClauseOk selectWhereF whrEnd (.where_ e) := by
  intro ts hr
  simp only [toks] at hr
  replace hr := reads_cons.1 hr
  obtain ⟨t, ts, rfl, ht, hr⟩ := hr
  obtain ⟨e', he', h⟩ := h ts hr
  have htl := lower_kw ht (by decide)
  refine ⟨.where_ e', by simp [fold, he'], fun R f hR => ?_⟩
  refine (h { canAlias := false, untilOneOf := [str!"group", str!"having", str!"order", str!"limit", str!"offset", str!";"] }
    R f rfl (hR.exprEnd (by decide) (by decide))).mono fun r g => ?_
  unfold selectWhereF
  rw [List.cons_append, List.head?_cons, if_pos (isWord_lower.2 htl)]
  unfold whereF
  rw [List.tail_cons, bind_ok g]
  rfl

theorem having_none : ClauseOk selectHavingF havEnd .none :=
  clause_none (w := str!"having") (by decide) fun r t s h => by
    unfold selectHavingF; rw [if_neg (by rw [h]; simp)]; rfl

theorem having_ok {e : Node} (h : FullOk e) : ClauseOk selectHavingF havEnd (.having e) := by
  intro ts hr
  simp only [toks] at hr
  replace hr := reads_cons.1 hr
  obtain ⟨t, ts, rfl, ht, hr⟩ := hr
  obtain ⟨e', he', h⟩ := h ts hr
  have htl := lower_kw ht (by decide)
  refine ⟨.having e', by simp [fold, he'], fun R f hR => ?_⟩
  refine (h { canAlias := false, untilOneOf := [str!"order", str!"limit", str!"offset", str!";"] }
    R f rfl (hR.exprEnd (by decide) (by decide))).mono fun r g => ?_
  unfold selectHavingF
  rw [List.cons_append, List.head?_cons, if_pos (isWord_lower.2 htl)]
  unfold havingF
  rw [List.tail_cons, bind_ok g]
  rfl

theorem group_none : ClauseOk selectGroupF grpEnd .none :=
  clause_none (w := str!"group") (by decide) fun r t s h => by
    unfold selectGroupF; rw [if_neg (by rw [h]; simp)]; rfl

theorem groupByF_ok {args : List Node} {rollup each : Bool} (hw : wf (.groupBy args rollup each) = true)
    (h : ∀ n ∈ args, ItemOk n) {ts : List Str}
    (hr : Reads (opt rollup [.kw str!"rollup"] ++ toksList args) ts) :
    ∃ n', fold n' = .groupBy args rollup each ∧ Ev fun r => groupByF r each ⟨ts, none⟩ = .ok (n', ⟨[], none⟩) := by
  simp only [wf, Bool.and_eq_true, decide_eq_true_eq, Bool.not_eq_true'] at hw
  obtain ⟨⟨w1, w2⟩, w3⟩ := hw
  have hne : args ≠ [] := by rintro rfl; simp at w1
  replace hr := reads_append.1 hr
  obtain ⟨x, y, rfl, hx, hy⟩ := hr
  obtain ⟨args', ha', h⟩ := list_ok w3 (by omega) h hy
  refine ⟨.groupBy args' rollup each, by simp [fold, ha'], h.mono fun r g => ?_⟩
  unfold groupByF
  rcases reads_opt hx with ⟨rfl, hx⟩ | ⟨rfl, rfl⟩
  · replace hx := reads_cons.1 hx
    obtain ⟨t, x, rfl, ht, hx⟩ := hx
    rw [reads_nil] at hx
    subst hx
    have htl := lower_kw ht (by decide)
    rw [List.singleton_append, bind_ok (next!_cons _ _ _)]
    have : decide (lower t = str!"rollup") = true := by simp [htl]
    simp only [this, if_true]
    rw [bind_ok (untilOneOf_all none y)]
    dsimp only [Option.toList, List.nil_append]
    rw [bind_ok (sub_ok g)]
    rfl
  · obtain ⟨t, y, rfl, -, ht⟩ := list_first hne w3 (by omega) hy
    rw [List.nil_append, bind_ok (next!_cons _ _ _)]
    have : decide (lower t = str!"rollup") = false := by
      simp only [decide_eq_false_iff_not]
      intro he
      exact ht (by rw [he]; simp)
    simp only [this, Bool.false_eq_true, if_false]
    rw [bind_ok (untilOneOf_all (some t) y)]
    dsimp only [Option.toList, List.singleton_append]
    rw [bind_ok (sub_ok g)]
    rfl

/-- A list of elements, as far as it matters for words other than commas. -/
theorem tame_items {args : List Node} (hw : wfList args = true) (hl : levels args ≤ 4) {base : List Str}
    (hb : ∀ w ∈ base, w ∈ listStops) (hc : str!"," ∉ base) {ts : List Str} (hr : Reads (toksList args) ts) :
    Tame base [] ts :=
  tame_list (fun n hn _ hr => (tame (wfList_iff.1 hw n hn) hr).mono
    (fun w hw => avoid_of_item (levels_le.1 hl n hn) w (hb w hw)) (by simp)) hc (by simp) ts hr

theorem group_run {r : Rec} {t : Str} {x : List Str} {by_ : Str} {b R : List Str} {f : Option PyErr} {g : Node} {each : Bool}
    {s' : Stream}
    (ht : lower t = str!"group") (hx : (each = true ∧ ∃ e, x = [e] ∧ lower e = str!"each") ∨ (each = false ∧ x = []))
    (hb : lower by_ = str!"by")
    (h1 : untilOneOf [str!"having", str!"order", str!"limit", str!"offset", str!";"] none [] ⟨b ++ R, f⟩ =
      .ok ((b, R.head?), ⟨R.tail, f⟩))
    (h2 : groupByF r each ⟨b, none⟩ = .ok (g, s')) :
    selectGroupF r (some t) ⟨x ++ by_ :: b ++ R, f⟩ = .ok ((g, R.head?), ⟨R.tail, f⟩) := by
  unfold selectGroupF
  rw [if_pos (isWord_lower.2 ht)]
  rcases hx with ⟨rfl, e, rfl, he⟩ | ⟨rfl, rfl⟩
  · rw [show [e] ++ by_ :: b ++ R = e :: by_ :: (b ++ R) by simp, bind_ok (next?_cons _ _ _)]
    have h3 : isWord (some e) str!"each" = true := isWord_lower.2 he
    have h4 : isWord (some by_) str!"by" = true := isWord_lower.2 hb
    simp only [h3, if_true]
    rw [bind_ok (next?_cons _ _ _)]
    simp only [h4, Bool.not_true, Bool.false_eq_true, if_false]
    rw [bind_ok h1]
    dsimp only
    rw [bind_ok (sub_ok h2)]
    rfl
  · rw [show [] ++ by_ :: b ++ R = by_ :: (b ++ R) by simp, bind_ok (next?_cons _ _ _)]
    have h3 : isWord (some by_) str!"each" = false := by simp [isWord, lower?, hb]
    have h4 : isWord (some by_) str!"by" = true := isWord_lower.2 hb
    simp only [h3, Bool.false_eq_true, if_false]
    rw [bind_ok (pure_run _ _)]
    simp only [h4, Bool.not_true, Bool.false_eq_true, if_false]
    rw [bind_ok h1]
    dsimp only
    rw [bind_ok (sub_ok h2)]
    rfl

theorem groupBy_ok {args : List Node} {rollup each : Bool} (hw : wf (.groupBy args rollup each) = true)
    (h : ∀ n ∈ args, ItemOk n) : ClauseOk selectGroupF grpEnd (.groupBy args rollup each) := by
  intro ts hr
  simp only [toks] at hr
  replace hr := reads_cons.1 hr
  obtain ⟨t, ts, rfl, ht, hr⟩ := hr
  replace hr := reads_append.1 hr
  obtain ⟨x, y, rfl, hx, hy⟩ := hr
  replace hy := reads_cons.1 hy
  obtain ⟨by_, b, rfl, hby, hb⟩ := hy
  obtain ⟨n', hn', h⟩ := groupByF_ok hw h hb
  refine ⟨n', hn', fun R f hR => h.mono fun r g => ?_⟩
  simp only [wf, Bool.and_eq_true, decide_eq_true_eq, Bool.not_eq_true'] at hw
  obtain ⟨⟨w1, w2⟩, w3⟩ := hw
  have tb : Tame (str!"from" :: grpEnd) [] b := by
    replace hb := reads_append.1 hb
    obtain ⟨u, v, rfl, hu, hv⟩ := hb
    refine .append ?_ (tame_items w3 (by omega) (by decide) (by decide) hv)
    rcases reads_opt hu with ⟨rfl, hu⟩ | ⟨rfl, rfl⟩
    · replace hu := reads_cons.1 hu
      obtain ⟨k, u, rfl, hk, hu⟩ := hu
      rw [reads_nil] at hu
      subst hu
      exact .tok _ _ (quiet_kw hk (by decide) (by decide) (by decide) (by simp)) (.nil _ _)
    · exact .nil _ _
  rw [List.cons_append, List.head?_cons, List.tail_cons]
  refine group_run (lower_kw ht (by decide)) ?_ (lower_kw hby (by decide))
    (hR.scan tb (by decide) (by decide) (fun _ => noKeep_nil _ _) (by decide)) g
  rcases reads_opt hx with ⟨rfl, hx⟩ | ⟨rfl, rfl⟩
  · replace hx := reads_cons.1 hx
    obtain ⟨e, x, rfl, he, hx⟩ := hx
    rw [reads_nil] at hx
    subst hx
    exact .inl ⟨rfl, e, rfl, lower_kw he (by decide)⟩
  · exact .inr ⟨rfl, rfl⟩

theorem order_none : ClauseOk selectOrderF ordEnd .none :=
  clause_none (w := str!"order") (by decide) fun r t s h => by
    unfold selectOrderF; rw [if_neg (by rw [h]; simp)]; rfl

theorem limit_none : ClauseOk selectLimitF limEnd .none :=
  clause_none (w := str!"limit") (by decide) fun r t s h => by
    unfold selectLimitF; rw [if_neg (by rw [h]; simp)]; rfl

theorem offset_none : ClauseOk selectOffsetF offEnd .none :=
  clause_none (w := str!"offset") (by decide) fun r t s h => by
    unfold selectOffsetF; rw [if_neg (by rw [h]; simp)]; rfl

/-- The value of ORDER BY … is an expression. -/
def OrderItemOk : Node → Prop
  | .orderItem v _ _ => ItemOk v
  | _ => True

theorem orderItem_ok {n : Node} (hn : isOrderItem n = true) (hw : wf n = true) (h : OrderItemOk n) {ts : List Str}
    (hr : Reads (toks n) ts) :
    ∃ n', fold n' = n ∧ Ev fun r => orderItemF r ⟨ts, none⟩ = .ok (n', ⟨[], none⟩) := by
  cases n with
  | orderItem v asc desc =>
    simp only [wf, Bool.and_eq_true, decide_eq_true_eq, Bool.not_eq_true', Bool.and_eq_false_iff] at hw
    obtain ⟨⟨w1, w2⟩, w3⟩ := hw
    simp only [toks, List.append_assoc] at hr
    replace hr := reads_append.1 hr
    obtain ⟨x, y, rfl, hx, hy⟩ := hr
    obtain ⟨v', _, hv', h⟩ := h x hx
    refine ⟨.orderItem v' asc desc, by simp [fold, hv'], h.mono fun r g => ?_⟩
    have tx := tame_expr (by omega) w3 hx
    have key : ∀ (t : Option Str) (y : List Str), y = t.toList → isWord t str!"asc" = asc →
        (!asc && isWord t str!"desc") = desc → (∀ x, t = some x → lower x ∈ [str!"asc", str!"desc"]) →
        orderItemF r ⟨x ++ y, none⟩ = .ok (.orderItem v' asc desc, ⟨[], none⟩) := by
      rintro t y rfl h1 h2 h3
      have e1 : untilOneOf [str!"asc", str!"desc"] none [] ⟨x ++ t.toList, none⟩ = .ok ((x, t), ⟨[], none⟩) := by
        cases t with
        | none => rw [Option.toList, List.append_nil]; exact untilOneOf_end tx (by decide) (by decide) []
        | some t => exact untilOneOf_stop tx (by decide) (by decide) [] (h3 t rfl) (noKeep_nil _ _) _ _
      unfold orderItemF
      rw [bind_ok e1]
      dsimp only
      rw [bind_ok (sub_ok g)]
      dsimp only
      rw [h1, h2]
      rfl
    replace hy := reads_append.1 hy
    obtain ⟨y, z, rfl, hy, hz⟩ := hy
    rcases reads_opt hy with ⟨rfl, hy⟩ | ⟨rfl, rfl⟩
    · rcases reads_opt hz with ⟨rfl, hz⟩ | ⟨rfl, rfl⟩
      · simp at w2
      · replace hy := reads_cons.1 hy
        obtain ⟨t, y, rfl, ht, hy⟩ := hy
        rw [reads_nil] at hy
        subst hy
        have := lower_kw ht (by decide)
        exact key (some t) _ rfl (isWord_lower.2 this) rfl (by rintro x ⟨⟩; rw [this]; simp)
    · rcases reads_opt hz with ⟨rfl, hz⟩ | ⟨rfl, rfl⟩
      · replace hz := reads_cons.1 hz
        obtain ⟨t, z, rfl, ht, hz⟩ := hz
        rw [reads_nil] at hz
        subst hz
        have := lower_kw ht (by decide)
        exact key (some t) _ rfl (by simp [isWord, lower?, this]) (by simp [isWord, lower?, this])
          (by rintro x ⟨⟩; rw [this]; simp)
      · exact key none _ rfl rfl rfl (by rintro x ⟨⟩)
  | _ => simp [isOrderItem] at hn

/-- One element of ORDER BY and the following ones. -/
def orderStep (r : Rec) : P (List Node) := do
  let (ts, t) ← untilOneOf [str!","]
  let item ← P.sub ts (orderItemF r)
  let rest ← r.orderLoop t
  return item :: rest

theorem orderByF_eq (r : Rec) : orderByF r = orderStep r >>= fun l => pure (.orderBy l) := by
  unfold orderByF orderStep
  simp only [bind_assoc']
  rfl

theorem orderStep_ok {args : List Node} (hne : args ≠ []) (h1 : ∀ n ∈ args, isOrderItem n = true)
    (h2 : ∀ n ∈ args, wf n = true) (h3 : ∀ n ∈ args, OrderItemOk n) {ts : List Str} (hr : Reads (toksList args) ts) :
    ∃ args', foldList args' = args ∧ Ev fun r => orderStep r ⟨ts, none⟩ = .ok (args', ⟨[], none⟩) := by
  induction args generalizing ts with
  | nil => exact absurd rfl hne
  | cons n args ih =>
    have hn := h1 n (by simp)
    have hwn := h2 n (by simp)
    have htm : ∀ {x : List Str}, Reads (toks n) x → Tame [str!","] [] x := by
      intro x hx
      refine (tame hwn hx).mono ?_ (by simp)
      cases n <;> first | (simp [isOrderItem] at hn; done) | (show ∀ w ∈ _, w ∈ orderStops; decide)
    cases args with
    | nil =>
      rw [toksList] at hr
      obtain ⟨n', hn', h⟩ := orderItem_ok hn hwn (h3 n (by simp)) hr
      have e : Ev fun r => r.orderLoop none ⟨[], none⟩ = .ok ([], ⟨[], none⟩) := Ev.next0 fun r => by
        show orderLoopF r none _ = _
        rfl
      refine ⟨[n'], by simp [foldList, hn'], (h.and e).mono ?_⟩
      rintro r ⟨g1, g2⟩
      unfold orderStep
      rw [bind_ok (untilOneOf_end (htm hr) (by simp) (by decide) [])]
      dsimp only
      rw [bind_ok (sub_ok g1), bind_ok g2]
      rfl
    | cons m args =>
      rw [toksList] at hr
      · replace hr := reads_append.1 hr
        obtain ⟨x, y, rfl, hx, hy⟩ := hr
        replace hy := reads_cons.1 hy
        obtain ⟨c, y, rfl, hc, hy⟩ := hy
        rw [reads_lit] at hc
        subst hc
        obtain ⟨n', hn', h⟩ := orderItem_ok hn hwn (h3 n (by simp)) hx
        obtain ⟨args', ha', hi⟩ := ih (by simp) (fun k hk => h1 k (by simp [hk])) (fun k hk => h2 k (by simp [hk]))
          (fun k hk => h3 k (by simp [hk])) hy
        have e : Ev fun r => r.orderLoop (some str!",") ⟨y, none⟩ = .ok (args', ⟨[], none⟩) := hi.next fun r g => by
          show orderLoopF r (some str!",") _ = _
          unfold orderLoopF
          rw [if_pos (by rfl)]
          exact g
        refine ⟨n' :: args', by simp [foldList, hn', ha'], (h.and e).mono ?_⟩
        rintro r ⟨g1, g2⟩
        unfold orderStep
        rw [bind_ok (untilOneOf_stop (htm hx) (by simp) (by decide) [] (w := str!",")
          (by rw [lower_self (by decide) (by decide)]; simp) (noKeep_nil _ _) _ _)]
        dsimp only
        rw [bind_ok (sub_ok g1), bind_ok g2]
        rfl
      · simp

theorem orderBy_ok {args : List Node} (hw : wf (.orderBy args) = true) (h : ∀ n ∈ args, OrderItemOk n) :
    ClauseOk selectOrderF ordEnd (.orderBy args) := by
  intro ts hr
  simp only [toks] at hr
  replace hr := reads_cons.1 hr
  obtain ⟨t, ts, rfl, ht, hr⟩ := hr
  replace hr := reads_cons.1 hr
  obtain ⟨b, ts, rfl, hb, hr⟩ := hr
  simp only [wf, Bool.and_eq_true, Bool.not_eq_true', List.all_eq_true] at hw
  obtain ⟨⟨w1, w2⟩, w3⟩ := hw
  have hwl := wfList_iff.1 w3
  obtain ⟨args', ha', h⟩ := orderStep_ok (by rintro rfl; simp at w1) w2 hwl h hr
  refine ⟨.orderBy args', by simp [fold, ha'], fun R f hR => h.mono fun r g => ?_⟩
  have tb : Tame (str!"from" :: ordEnd) [] ts := by
    refine tame_list (fun n hn x hx => (tame (hwl n hn) hx).mono ?_ (by simp)) (by decide) (by simp) ts hr
    have := w2 n hn
    cases n <;> first | (simp [isOrderItem] at this; done) | (show ∀ w ∈ _, w ∈ orderStops; decide)
  have g' : orderByF r ⟨ts, none⟩ = .ok (.orderBy args', ⟨[], none⟩) := by
    rw [orderByF_eq, bind_ok g]; rfl
  unfold selectOrderF
  rw [List.cons_append, List.head?_cons, List.tail_cons, if_pos (isWord_lower.2 (lower_kw ht (by decide))),
    List.cons_append, bind_ok (next?_cons _ _ _)]
  have h4 : isWord (some b) str!"by" = true := isWord_lower.2 (lower_kw hb (by decide))
  simp only [h4, Bool.not_true, Bool.false_eq_true, if_false]
  rw [bind_ok (hR.scan tb (by decide) (by decide) (fun _ => noKeep_nil _ _) (by decide))]
  dsimp only
  rw [bind_ok (sub_ok g')]
  rfl

theorem limit_ok {all : Bool} {v : Node} (hw : wf (.limit all v) = true) (h : all = false → ItemOk v) :
    ClauseOk selectLimitF limEnd (.limit all v) := by
  intro ts hr
  simp only [toks] at hr
  replace hr := reads_cons.1 hr
  obtain ⟨t, ts, rfl, ht, hr⟩ := hr
  have htl := lower_kw ht (by decide)
  simp only [wf, Bool.and_eq_true] at hw
  obtain ⟨w1, w2⟩ := hw
  cases all with
  | true =>
    simp only [if_true, Bool.not_eq_true'] at w1
    rw [wf_truthy] at w1
    subst w1
    simp only [opt, if_true, toks, List.append_nil] at hr
    replace hr := reads_cons.1 hr
    obtain ⟨k, x, rfl, hk, hx⟩ := hr
    rw [reads_nil] at hx
    subst hx
    have hkl := lower_kw hk (by decide)
    refine ⟨.limit true .none, rfl, fun R f hR => Ev.of fun r => ?_⟩
    have tb : Tame (str!"from" :: limEnd) [] [k] :=
      .tok _ _ (quiet_kw hk (by decide) (by decide) (by decide) (by simp)) (.nil _ _)
    have g : limitF r ⟨[k], none⟩ = .ok (.limit true .none, ⟨[], none⟩) := by
      unfold limitF
      rw [bind_ok (next!_cons _ _ _), if_pos hkl]
      rfl
    unfold selectLimitF
    rw [List.cons_append, List.head?_cons, List.tail_cons, if_pos (isWord_lower.2 htl),
      bind_ok (hR.scan tb (by decide) (by decide) (fun _ => noKeep_nil _ _) (by decide))]
    dsimp only
    rw [bind_ok (sub_ok g)]
    rfl
  | false =>
    simp only [Bool.false_eq_true, if_false, decide_eq_true_eq] at w1
    simp only [opt, Bool.false_eq_true, if_false, List.nil_append] at hr
    obtain ⟨v', _, hv', h⟩ := h rfl ts hr
    refine ⟨.limit false v', by simp [fold, hv'], fun R f hR => h.mono fun r g => ?_⟩
    have tb := tame_expr (by omega) w2 hr
    have g' : limitF r ⟨ts, none⟩ = .ok (.limit false v', ⟨[], none⟩) := by
      obtain ⟨u, ts, rfl, -, hu⟩ := first_token w2 (by omega) hr
      unfold limitF
      rw [bind_ok (next!_cons _ _ _), if_neg, bind_ok (untilOneOf_all (some u) ts)]
      · dsimp only [Option.toList, List.singleton_append]
        rw [bind_ok (sub_ok g)]
        rfl
      · intro he; exact hu (by rw [he]; decide)
    unfold selectLimitF
    rw [List.cons_append, List.head?_cons, List.tail_cons, if_pos (isWord_lower.2 htl),
      bind_ok (hR.scan tb (by decide) (by decide) (fun _ => noKeep_nil _ _) (by decide))]
    dsimp only
    rw [bind_ok (sub_ok g')]
    rfl

theorem offset_ok {v : Node} (hw : wf (.offset v) = true) (h : ItemOk v) :
    ClauseOk selectOffsetF offEnd (.offset v) := by
  intro ts hr
  simp only [toks] at hr
  replace hr := reads_cons.1 hr
  obtain ⟨t, ts, rfl, ht, hr⟩ := hr
  have htl := lower_kw ht (by decide)
  simp only [wf, Bool.and_eq_true, decide_eq_true_eq] at hw
  obtain ⟨w1, w2⟩ := hw
  obtain ⟨v', _, hv', h⟩ := h ts hr
  refine ⟨.offset v', by simp [fold, hv'], fun R f hR => h.mono fun r g => ?_⟩
  have tb := tame_expr (by omega) w2 hr
  have g' : offsetF r ⟨ts, none⟩ = .ok (.offset v', ⟨[], none⟩) := by
    unfold offsetF
    rw [bind_ok g]
    rfl
  unfold selectOffsetF
  rw [List.cons_append, List.head?_cons, List.tail_cons, if_pos (isWord_lower.2 htl),
    bind_ok (hR.scan tb (by decide) (by decide) (fun _ => noKeep_nil _ _) (by decide))]
  dsimp only
  rw [bind_ok (sub_ok g')]
  rfl

theorem from_tame {f : Node} (hw : wf f = true) (hf : isBody f = true) {ts : List Str} (hr : Reads (toks f) ts) :
    Tame fromStops [] ts := by
  refine (tame hw hr).mono (fun w hm => ?_) (by simp)
  simp only [isBody, Bool.or_eq_true] at hf
  rcases hf with hf | hf
  · exact from_avoid hf w (from_sub w hm)
  · cases f <;> first | exact hm | exact absurd hf Bool.false_ne_true

theorem selectFrom_ok {f : Node} (hw : wf f = true) (hf : orNone isBody f = true) (h : isBody f = true → FromOk f)
    {ts : List Str} (hr : Reads (opt f.truthy (.kw str!"from" :: toks f)) ts) :
    ∃ f', fold f' = f ∧ ∀ R e, After frmEnd R e →
      Ev fun r => selectFromF r (ts ++ R).head? ⟨(ts ++ R).tail, e⟩ = .ok ((f', R.head?), ⟨R.tail, e⟩) := by
  rcases reads_opt hr with ⟨ht, hr⟩ | ⟨ht, rfl⟩
  · replace hr := reads_cons.1 hr
    obtain ⟨t, ts, rfl, hk, hr⟩ := hr
    have hf' : isBody f = true := by
      cases f <;> first | (simp [Node.truthy] at ht; done) | exact hf
    obtain ⟨f', hf'', s', h⟩ := h hf' ts hr
    refine ⟨f', hf'', fun R e hR => h.mono fun r g => ?_⟩
    have tb := from_tame hw hf' hr
    have hk' : ∀ w, NoKeep [(str!"with", str!"offset")] (lastOf none ts) w := by
      intro w l hl hm
      rcases tb.last (w := str!"with") (by decide) (by decide) hl with ⟨-, h⟩ | h
      · cases h
      · simp only [List.mem_singleton, Prod.mk.injEq] at hm
        exact h hm.1
    unfold selectFromF
    rw [List.cons_append, List.head?_cons, List.tail_cons, if_pos (isWord_lower.2 (lower_kw hk (by decide))),
      bind_ok (hR.scan tb (by decide) (by decide) hk' (by decide))]
    dsimp only
    rw [bind_ok (sub_ok g)]
    rfl
  · rw [wf_truthy] at ht
    subst ht
    refine ⟨.none, rfl, fun R e hR => Ev.of fun r => ?_⟩
    unfold selectFromF
    rw [List.nil_append, if_neg (by rw [hR.notWord (by decide)]; simp)]
    rfl

/-! ### The select list -/

theorem items_first {ns : List Node} (hne : ns ≠ []) (hw : wfList ns = true) (hl : levels ns ≤ 5) {ts : List Str}
    (hr : Reads (toksList ns) ts) : ∃ t ts', ts = t :: ts' ∧ t ≠ [] ∧
      lower t ≠ str!"distinct" ∧ lower t ≠ str!"all" ∧ lower t ≠ str!"on" := by
  obtain ⟨t, ts', h, h1, h2⟩ := list_first hne hw hl hr
  simp only [List.mem_cons, List.not_mem_nil, or_false, not_or] at h2
  exact ⟨t, ts', h, h1, h2.1, h2.2.1, h2.2.2.2⟩

theorem head_ok {es on : List Node} {all d : Bool} (h1 : es ≠ []) (h2 : wfList es = true) (h3 : levels es ≤ 4)
    (h4 : (all && d) = false) (h5 : on = [] ∨ d = true) (h6 : levels on ≤ 5) (h7 : wfList on = true)
    (hon : ∀ n ∈ on, ItemOk n) {x y : List Str}
    (hx : Reads (opt all [.kw str!"all"] ++ opt d [.kw str!"distinct"] ++
      opt (!on.isEmpty) (.kw str!"on" :: .lit str!"(" :: (toksList on ++ [.lit str!")"]))) x)
    (hy : Reads (toksList es) y) :
    ∃ on', foldList on' = on ∧ ∀ R f, After lstEnd R f → ∃ first l, 
      (Ev fun r => selectHeadF r ⟨x ++ y ++ R, f⟩ = .ok ((all, d, on', first), ⟨l, f⟩)) ∧
      untilOneOf selectKeywords first [] ⟨l, f⟩ = .ok ((y, R.head?), ⟨R.tail, f⟩) := by
  have ty : Tame selectKeywords [] y := tame_items h2 h3 (by decide) (by decide) hy
  have scan : ∀ {R f}, After lstEnd R f → untilOneOf selectKeywords none [] ⟨y ++ R, f⟩ =
      .ok ((y, R.head?), ⟨R.tail, f⟩) := fun hR =>
    hR.scan ty (by simp) (by decide) (fun _ => noKeep_nil _ _) (by decide)
  obtain ⟨t, y', rfl, ht0, t1, t2, t3⟩ := items_first h1 h2 (by omega) hy
  have scan' : ∀ {R f}, After lstEnd R f → untilOneOf selectKeywords (some t) [] ⟨y' ++ R, f⟩ =
      .ok ((t :: y', R.head?), ⟨R.tail, f⟩) := fun hR =>
    hR.scan_first ty (fun _ h => h) (by decide) (by decide)
  rw [List.append_assoc] at hx
  replace hx := reads_append.1 hx
  obtain ⟨x1, x, rfl, hx1, hx⟩ := hx
  replace hx := reads_append.1 hx
  obtain ⟨x2, x3, rfl, hx2, hx3⟩ := hx
  rcases reads_opt hx1 with ⟨rfl, hx1⟩ | ⟨rfl, rfl⟩
  · -- ALL
    have hd : d = false := by simpa using h4
    subst hd
    have hon0 : on = [] := by simpa using h5
    subst hon0
    simp only [opt, Bool.false_eq_true, if_false, List.isEmpty_nil, Bool.not_true] at hx2 hx3
    rw [reads_nil] at hx2 hx3
    subst hx2 hx3
    replace hx1 := reads_cons.1 hx1
    obtain ⟨k, x1, rfl, hk, hx1⟩ := hx1
    rw [reads_nil] at hx1
    subst hx1
    refine ⟨[], rfl, fun R f hR => ⟨none, t :: y' ++ R, Ev.of fun r => ?_, scan hR⟩⟩
    unfold selectHeadF
    rw [show [k] ++ ([] ++ []) ++ t :: y' ++ R = k :: (t :: y' ++ R) by simp, bind_ok (next!_cons _ _ _),
      if_pos (lower_kw hk (by decide))]
    rfl
  · rcases reads_opt hx2 with ⟨rfl, hx2⟩ | ⟨rfl, rfl⟩
    · replace hx2 := reads_cons.1 hx2
      obtain ⟨k, x2, rfl, hk, hx2⟩ := hx2
      rw [reads_nil] at hx2
      subst hx2
      have hkl := lower_kw hk (by decide)
      rcases reads_opt hx3 with ⟨-, hx3⟩ | ⟨h8, rfl⟩
      · -- DISTINCT ON (…)
        replace hx3 := reads_cons.1 hx3
        obtain ⟨o, x3, rfl, ho, hx3⟩ := hx3
        replace hx3 := reads_parens hx3
        obtain ⟨z, rfl, hz⟩ := hx3
        obtain ⟨on', hon', h⟩ := list_ok h7 h6 hon hz
        refine ⟨on', hon', fun R f hR => ⟨none, t :: y' ++ R, h.mono fun r g => ?_, scan hR⟩⟩
        unfold selectHeadF
        rw [show [] ++ ([k] ++ o :: str!"(" :: (z ++ [str!")"])) ++ t :: y' ++ R =
            k :: o :: str!"(" :: (z ++ str!")" :: (t :: y' ++ R)) by simp, bind_ok (next!_cons _ _ _),
          if_neg (by rw [hkl]; decide), if_pos hkl, bind_ok (next!_cons _ _ _),
          if_pos (lower_kw ho (by decide)), bind_ok (next!_cons _ _ _),
          bind_ok (untilClosing_tame (list_tame h7 hz) _ _), bind_ok (sub_ok g)]
        rfl
      · -- DISTINCT
        have hon0 : on = [] := by simpa using h8
        subst hon0
        refine ⟨[], rfl, fun R f hR => ⟨some t, y' ++ R, Ev.of fun r => ?_, scan' hR⟩⟩
        unfold selectHeadF
        rw [show [] ++ ([k] ++ []) ++ t :: y' ++ R = k :: t :: (y' ++ R) by simp, bind_ok (next!_cons _ _ _),
          if_neg (by rw [hkl]; decide), if_pos hkl, bind_ok (next!_cons _ _ _), if_neg t3]
        rfl
    · have hon0 : on = [] := by simpa using h5
      subst hon0
      simp only [opt, Bool.false_eq_true, if_false, List.isEmpty_nil, Bool.not_true] at hx3
      rw [reads_nil] at hx3
      subst hx3
      refine ⟨[], rfl, fun R f hR => ⟨some t, y' ++ R, Ev.of fun r => ?_, scan' hR⟩⟩
      unfold selectHeadF
      rw [show [] ++ ([] ++ []) ++ t :: y' ++ R = t :: (y' ++ R) by simp, bind_ok (next!_cons _ _ _),
        if_neg t2, if_neg t1]
      rfl

/-! ### The statement -/

/-- The parts of a clause. -/
def PartOk : Node → Prop
  | .where_ e | .having e => FullOk e
  | .groupBy args _ _ => ∀ n ∈ args, ItemOk n
  | .orderBy args => ∀ n ∈ args, OrderItemOk n
  | .limit all v => all = false → ItemOk v
  | .offset v => ItemOk v
  | _ => True

theorem clause_head {n : Node} {w : Str} (p : Node → Bool) (hn : orNone p n = true) (hw : w.all isAscii = true)
    (hp : ∀ m, p m = true → ∃ ks, toks m = .kw w :: ks) {ts : List Str} (h : Reads (toks n) ts) :
    ts = [] ∨ ∃ t ts', ts = t :: ts' ∧ lower t = w := by
  by_cases hm : n = .none
  · subst hm
    simp only [toks] at h
    rw [reads_nil] at h
    exact .inl h
  · have : p n = true := by
      cases n <;> first | (exact absurd rfl hm) | exact hn
    obtain ⟨ks, hk⟩ := hp n this
    rw [hk] at h
    exact kw_head hw h

theorem where_clause {n : Node} (hn : orNone isWhere n = true) (hw : wf n = true) (pw : PartOk n) :
    ClauseOk selectWhereF whrEnd n := by
  cases n <;> first
    | exact where_none
    | exact where_ok pw
    | exact absurd hn (by decide)
    | exact absurd hn Bool.false_ne_true

theorem where_head {n : Node} (hn : orNone isWhere n = true) {ts : List Str} (h : Reads (toks n) ts) :
    ts = [] ∨ ∃ t ts', ts = t :: ts' ∧ lower t = str!"where" :=
  clause_head isWhere hn (by decide)
    (fun m hm => by cases m <;> first | exact ⟨_, by rw [toks]⟩ | exact absurd hm Bool.false_ne_true) h

theorem group_clause {n : Node} (hn : orNone isGroupBy n = true) (hw : wf n = true) (pw : PartOk n) :
    ClauseOk selectGroupF grpEnd n := by
  cases n <;> first
    | exact group_none
    | exact groupBy_ok hw pw
    | exact absurd hn (by decide)
    | exact absurd hn Bool.false_ne_true

theorem group_head {n : Node} (hn : orNone isGroupBy n = true) {ts : List Str} (h : Reads (toks n) ts) :
    ts = [] ∨ ∃ t ts', ts = t :: ts' ∧ lower t = str!"group" :=
  clause_head isGroupBy hn (by decide)
    (fun m hm => by cases m <;> first | exact ⟨_, by rw [toks]⟩ | exact absurd hm Bool.false_ne_true) h

theorem having_clause {n : Node} (hn : orNone isHaving n = true) (hw : wf n = true) (pw : PartOk n) :
    ClauseOk selectHavingF havEnd n := by
  cases n <;> first
    | exact having_none
    | exact having_ok pw
    | exact absurd hn (by decide)
    | exact absurd hn Bool.false_ne_true

theorem having_head {n : Node} (hn : orNone isHaving n = true) {ts : List Str} (h : Reads (toks n) ts) :
    ts = [] ∨ ∃ t ts', ts = t :: ts' ∧ lower t = str!"having" :=
  clause_head isHaving hn (by decide)
    (fun m hm => by cases m <;> first | exact ⟨_, by rw [toks]⟩ | exact absurd hm Bool.false_ne_true) h

theorem order_clause {n : Node} (hn : orNone isOrderBy n = true) (hw : wf n = true) (pw : PartOk n) :
    ClauseOk selectOrderF ordEnd n := by
  cases n <;> first
    | exact order_none
    | exact orderBy_ok hw pw
    | exact absurd hn (by decide)
    | exact absurd hn Bool.false_ne_true

theorem order_head {n : Node} (hn : orNone isOrderBy n = true) {ts : List Str} (h : Reads (toks n) ts) :
    ts = [] ∨ ∃ t ts', ts = t :: ts' ∧ lower t = str!"order" :=
  clause_head isOrderBy hn (by decide)
    (fun m hm => by cases m <;> first | exact ⟨_, by rw [toks]⟩ | exact absurd hm Bool.false_ne_true) h

theorem limit_clause {n : Node} (hn : orNone isLimit n = true) (hw : wf n = true) (pw : PartOk n) :
    ClauseOk selectLimitF limEnd n := by
  cases n <;> first
    | exact limit_none
    | exact limit_ok hw pw
    | exact absurd hn (by decide)
    | exact absurd hn Bool.false_ne_true

theorem limit_head {n : Node} (hn : orNone isLimit n = true) {ts : List Str} (h : Reads (toks n) ts) :
    ts = [] ∨ ∃ t ts', ts = t :: ts' ∧ lower t = str!"limit" :=
  clause_head isLimit hn (by decide)
    (fun m hm => by cases m <;> first | exact ⟨_, by rw [toks]⟩ | exact absurd hm Bool.false_ne_true) h

theorem offset_clause {n : Node} (hn : orNone isOffset n = true) (hw : wf n = true) (pw : PartOk n) :
    ClauseOk selectOffsetF offEnd n := by
  cases n <;> first
    | exact offset_none
    | exact offset_ok hw pw
    | exact absurd hn (by decide)
    | exact absurd hn Bool.false_ne_true

theorem offset_head {n : Node} (hn : orNone isOffset n = true) {ts : List Str} (h : Reads (toks n) ts) :
    ts = [] ∨ ∃ t ts', ts = t :: ts' ∧ lower t = str!"offset" :=
  clause_head isOffset hn (by decide)
    (fun m hm => by cases m <;> first | exact ⟨_, by rw [toks]⟩ | exact absurd hm Bool.false_ne_true) h

theorem select_ok {es on : List Node} {all d semi : Bool} {f w g h o l off : Node}
    (hw : wf (.select es all d on f w g h o l off semi) = true)
    (hes : ∀ n ∈ es, ItemOk n) (hon : ∀ n ∈ on, ItemOk n) (hf : isBody f = true → FromOk f) (pw : PartOk w)
    (pg : PartOk g) (ph : PartOk h) (po : PartOk o) (pl : PartOk l) (poff : PartOk off) :
    SelectOk (.select es all d on f w g h o l off semi) := by
  intro t ts hr
  simp only [wf, Bool.and_eq_true, Bool.or_eq_true, decide_eq_true_eq, Bool.not_eq_true'] at hw
  obtain ⟨⟨⟨⟨⟨⟨⟨⟨⟨⟨⟨⟨⟨⟨⟨⟨⟨⟨⟨⟨w1, w2⟩, w3⟩, w4⟩, w5⟩, w6⟩, w7⟩, w8⟩, w9⟩, w10⟩, w11⟩, w12⟩, w13⟩, w14⟩, w15⟩,
    w16⟩, w17⟩, w18⟩, w19⟩, w20⟩, w21⟩ := hw
  have hne : es ≠ [] := by rintro rfl; simp at w1
  have hon' : on = [] ∨ d = true := by
    rcases w5 with h | h
    · exact .inl (by simpa using h)
    · exact .inr h
  simp only [toks] at hr
  replace hr := reads_cons.1 hr
  obtain ⟨t', ts', ht', ht, hr⟩ := hr
  obtain ⟨rfl, rfl⟩ := List.cons.inj ht'
  replace hr := reads_append.1 hr
  obtain ⟨ts, xs, rfl, hr, hs⟩ := hr
  replace hr := reads_append.1 hr
  obtain ⟨ts, xoff, rfl, hr, hoff⟩ := hr
  replace hr := reads_append.1 hr
  obtain ⟨ts, xl, rfl, hr, hl⟩ := hr
  replace hr := reads_append.1 hr
  obtain ⟨ts, xo, rfl, hr, ho⟩ := hr
  replace hr := reads_append.1 hr
  obtain ⟨ts, xh, rfl, hr, hh⟩ := hr
  replace hr := reads_append.1 hr
  obtain ⟨ts, xg, rfl, hr, hg⟩ := hr
  replace hr := reads_append.1 hr
  obtain ⟨ts, xw, rfl, hr, hwh⟩ := hr
  replace hr := reads_append.1 hr
  obtain ⟨ts, xf, rfl, hr, hfr⟩ := hr
  replace hr := reads_append.1 hr
  obtain ⟨xhd, xe, rfl, hhd, he⟩ := hr
  -- the clauses
  obtain ⟨w', ew, cw⟩ := where_clause w10 w11 pw xw hwh
  obtain ⟨g', eg, cg⟩ := group_clause w12 w13 pg xg hg
  obtain ⟨h', eh, ch⟩ := having_clause w14 w15 ph xh hh
  obtain ⟨o', eo, co⟩ := order_clause w16 w17 po xo ho
  obtain ⟨l', el, cl⟩ := limit_clause w18 w19 pl xl hl
  obtain ⟨off', eoff, coff⟩ := offset_clause w20 w21 poff xoff hoff
  obtain ⟨f', ef, cf⟩ := selectFrom_ok w9 w8 hf hfr
  obtain ⟨on', eon, chd⟩ := head_ok hne w3 w2 w4 hon' (by omega) w7 hon hhd he
  obtain ⟨es', ees, ces⟩ := list_ok w3 (by omega) hes he
  refine ⟨.select es' all d on' f' w' g' h' o' l' off' semi,
    by simp [fold, ees, eon, ef, ew, eg, eh, eo, el, eoff], fun rest e hend => ?_⟩
  -- what follows each clause
  have a0 : After offEnd (xs ++ rest) e ∧ decide ((xs ++ rest).head? = some str!";") = semi := by
    rcases reads_opt hs with ⟨rfl, hs⟩ | ⟨rfl, rfl⟩
    · replace hs := reads_cons.1 hs
      obtain ⟨k, xs, rfl, hk, hs⟩ := hs
      rw [reads_nil] at hs
      rw [reads_lit] at hk
      subst hs hk
      exact ⟨.inr ⟨_, rest, rfl, by rw [lower_self (by decide) (by decide)]; decide⟩, rfl⟩
    · obtain ⟨rfl, rfl⟩ := hend rfl
      exact ⟨.inl ⟨rfl, rfl⟩, rfl⟩
  obtain ⟨a0, hsemi⟩ := a0
  have a1 := a0.cons (offset_head w20 hoff)
  have a2 := a1.cons (limit_head w18 hl)
  have a3 := a2.cons (order_head w16 ho)
  have a4 := a3.cons (having_head w14 hh)
  have a5 := a4.cons (group_head w12 hg)
  have a6 := a5.cons (where_head w10 hwh)
  have a7 : After lstEnd (xf ++ (xw ++ (xg ++ (xh ++ (xo ++ (xl ++ (xoff ++ (xs ++ rest)))))))) e := by
    refine a6.cons ?_
    rcases reads_opt hfr with ⟨-, hfr⟩ | ⟨-, rfl⟩
    · exact kw_head (by decide) hfr
    · exact .inl rfl
  obtain ⟨first, tl, r1, r2⟩ := chd _ e a7
  refine ⟨⟨(xs ++ rest).tail, e⟩, ((((((((r1.and ces).and (cf _ e a6)).and (cw _ e a5)).and (cg _ e a4)).and
    (ch _ e a3)).and (co _ e a2)).and (cl _ e a1)).and (coff _ e a0)).next ?_⟩
  rintro r ⟨⟨⟨⟨⟨⟨⟨⟨q1, q2⟩, q3⟩, q4⟩, q5⟩, q6⟩, q7⟩, q8⟩, q9⟩
  show selectF r _ = _
  unfold selectF
  simp only [List.append_assoc] at q1 ⊢
  rw [bind_ok q1]
  dsimp only
  rw [bind_ok r2]
  dsimp only
  rw [bind_ok (sub_ok q2), bind_ok q3]
  dsimp only
  rw [bind_ok q4]
  dsimp only
  rw [bind_ok q5]
  dsimp only
  rw [bind_ok q6]
  dsimp only
  rw [bind_ok q7]
  dsimp only
  rw [bind_ok q8]
  dsimp only
  rw [bind_ok q9]
  dsimp only
  rw [hsemi]
  rfl

end

end SqlV.Core
