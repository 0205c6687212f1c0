import Verif.Lemmas.CoreCase

/-! Parsing FROM of the core grammar. -/

set_option linter.unusedSectionVars false

namespace SqlV.Core

open Scan

variable [E : PyEnv]

/-- Nothing follows, or one of the words. -/
def EndIn (ws rest : List Str) : Prop := rest = [] ∨ ∃ w rest', rest = w :: rest' ∧ lower w ∈ ws

/-- What follows a source in FROM: nothing, or the keyword of a join or of a set operator. -/
abbrev FromEnd (rest : List Str) : Prop := EndIn (joinValues ++ setOperators) rest

/-- What follows the condition of a join: nothing, or the keyword of a join. -/
abbrev JoinEnd (rest : List Str) : Prop := EndIn joinValues rest

/-- What follows the right side of a set operator: nothing, or a set operator. -/
abbrev SetEnd (rest : List Str) : Prop := EndIn setOperators rest

/-- The alias after the first operand. -/
def fromAliasF (e : Node) (t : Option Str) : P (Node × Option Str) :=
  match t with
  | some tok => if !inWords t joinValues && !inWords t setOperators then fromAlias e tok else pure (e, t)
  | none => pure (e, t)

theorem fromF_eq (r : Rec) : fromF r = fromHeadF r >>= fun x => fromAliasF x.1 x.2 >>= fun x =>
    r.setLoop x.1 x.2 >>= fun x => r.joinLoop x.1 x.2 := by
  unfold fromF
  congr 1
  funext ⟨e, t⟩
  unfold fromAliasF
  cases t with
  | none => rfl
  | some tok =>
    dsimp only
    split <;> rfl

/-- Operands to which an alias can be given. -/
def WholeOk (n : Node) : Prop :=
  ∀ ts, Reads (toks n) ts → ∃ n', fold n' = n ∧ ∀ rest, Ends baseSyms atomWords rest.head? →
    Ev fun r => fromHeadF r ⟨ts ++ rest, none⟩ = .ok ((n', rest.head?), ⟨rest.tail, none⟩)

/-- Operands with their alias. -/
def SourceOk (n : Node) : Prop :=
  ∀ ts, Reads (toks n) ts → ∃ n', fold n' = n ∧ ∀ rest, FromEnd rest →
    Ev fun r => (fromHeadF r >>= fun x => fromAliasF x.1 x.2) ⟨ts ++ rest, none⟩ =
      .ok ((n', rest.head?), ⟨rest.tail, none⟩)

/-- Left sides of joins. -/
def SpineOk (n : Node) : Prop :=
  ∀ ts, Reads (toks n) ts → ∃ n', fold n' = n ∧ ∀ rest res, JoinEnd rest →
    Ev (fun r => r.joinLoop n' rest.head? ⟨rest.tail, none⟩ = res) → Ev fun r => r.from_ ⟨ts ++ rest, none⟩ = res

/-- Left sides of set operators. -/
def SetOk (n : Node) : Prop :=
  ∀ ts, Reads (toks n) ts → ∃ n', fold n' = n ∧ ∀ rest x s res, SetEnd rest →
    (Ev fun r => r.setLoop n' rest.head? ⟨rest.tail, none⟩ = .ok (x, s)) → (Ev fun r => r.joinLoop x.1 x.2 s = res) →
      Ev fun r => r.from_ ⟨ts ++ rest, none⟩ = res

/-- Right sides of set operators. -/
def RightOk (n : Node) : Prop :=
  ∀ ts, Reads (toks n) ts → ∃ n', fold n' = n ∧ ∃ t ts', ts = t :: ts' ∧ lower t ∉ setOperators ∧
    Ev fun r => ∀ s, (if lower t = str!"select" then P.sub ts' r.select else P.sub (t :: ts') r.from_) s = .ok (n', s)

/-- Everything after FROM. -/
def FromOk (n : Node) : Prop :=
  ∀ ts, Reads (toks n) ts → ∃ n', fold n' = n ∧ ∃ s', Ev fun r => r.from_ ⟨ts, none⟩ = .ok (n', s')

variable [L : LawfulPyEnv E]

theorem JoinEnd.from_ {rest : List Str} (h : JoinEnd rest) : FromEnd rest := by
  rcases h with rfl | ⟨w, rest', rfl, h⟩
  · exact .inl rfl
  · exact .inr ⟨w, rest', rfl, by simp [h]⟩

theorem SetEnd.from_ {rest : List Str} (h : SetEnd rest) : FromEnd rest := by
  rcases h with rfl | ⟨w, rest', rfl, h⟩
  · exact .inl rfl
  · exact .inr ⟨w, rest', rfl, by simp [h]⟩

theorem FromEnd.ends {rest : List Str} (h : FromEnd rest) : Ends cndSyms atomWords rest.head? := by
  rcases h with rfl | ⟨w, rest', rfl, h⟩
  · exact .none
  · have key : ∀ w ∈ joinValues ++ setOperators, w ∉ cndSyms ∧ w ∉ atomWords := by decide
    exact ends_lower rfl (key _ h).1 (key _ h).2 fun _ h => h

theorem fromAliasF_no {e : Node} {rest : List Str} (h : FromEnd rest) (s : Stream) :
    fromAliasF e rest.head? s = .ok ((e, rest.head?), s) := by
  rcases h with rfl | ⟨w, rest', rfl, h⟩
  · rfl
  · unfold fromAliasF
    refine (congrFun (if_neg ?_) _).trans rfl
    rcases List.mem_append.1 h with h | h <;> simp [inWords, h]

theorem setLoop_no {e : Node} {rest : List Str} (h : JoinEnd rest) (s : Stream) :
    Ev fun r => r.setLoop e rest.head? s = .ok ((e, rest.head?), s) :=
  Ev.next0 fun r => by
    show setLoopF r e rest.head? s = _
    unfold setLoopF
    rw [if_neg]
    · rfl
    · rcases h with rfl | ⟨w, rest', rfl, h⟩
      · simp [inWords]
      · have key : ∀ w ∈ joinValues, w ∉ setOperators := by decide
        simp [inWords, key _ h]

theorem WholeOk.source {n : Node} (h : WholeOk n) : SourceOk n := by
  intro ts hr
  obtain ⟨n', hn, h⟩ := h ts hr
  refine ⟨n', hn, fun rest hj => (h rest (hj.ends.mono (by decide) fun _ h => h)).mono fun r h => ?_⟩
  rw [bind_ok h]
  exact fromAliasF_no hj _

theorem SourceOk.spine {n : Node} (h : SourceOk n) : SpineOk n := by
  intro ts hr
  obtain ⟨n', hn, h⟩ := h ts hr
  refine ⟨n', hn, fun rest res hj hl => ?_⟩
  refine (((h rest hj.from_).and (setLoop_no (e := n') hj ⟨rest.tail, none⟩)).and hl).next ?_
  rintro r ⟨⟨g1, g2⟩, g3⟩
  show fromF r _ = _
  rw [fromF_eq, ← bind_assoc', bind_ok g1, bind_ok g2]
  exact g3

theorem SourceOk.set {n : Node} (h : SourceOk n) : SetOk n := by
  intro ts hr
  obtain ⟨n', hn, h⟩ := h ts hr
  refine ⟨n', hn, fun rest x s res hj hl hl' => (((h rest hj.from_).and hl).and hl').next ?_⟩
  rintro r ⟨⟨g1, g2⟩, g3⟩
  show fromF r _ = _
  rw [fromF_eq, ← bind_assoc', bind_ok g1, bind_ok g2]
  exact g3

theorem joinLoop_end (e : Node) (s : Stream) : Ev fun r => r.joinLoop e none s = .ok (e, s) :=
  Ev.next0 fun r => by
    show joinLoopF r e none s = _
    unfold joinLoopF
    rfl

theorem SpineOk.from_ {n : Node} (h : SpineOk n) : FromOk n := by
  intro ts hr
  obtain ⟨n', hn, h⟩ := h ts hr
  have := h [] _ (.inl rfl) (joinLoop_end n' ⟨[], none⟩)
  rw [List.append_nil] at this
  exact ⟨n', hn, _, this⟩

theorem SetOk.from_ {n : Node} (h : SetOk n) : FromOk n := by
  intro ts hr
  obtain ⟨n', hn, h⟩ := h ts hr
  have := h [] _ _ _ (.inl rfl) (setLoop_no (e := n') (.inl rfl : JoinEnd []) ⟨[], none⟩) (joinLoop_end n' ⟨[], none⟩)
  rw [List.append_nil] at this
  exact ⟨n', hn, _, this⟩

/-! ### Operands -/

theorem path_level {v : Node} (h : isPath v = true) : level v = 0 := by
  cases v <;> first | rfl | (rename Option Str => pre; cases pre <;> simp [isPath, level] at h ⊢) | simp [isPath] at h

theorem table_level {v : Node} {sq : Bool} (hw : wf (.table v sq) = true) :
    (sq = true → isPath v = true) ∧ wf v = true ∧ level v ≤ 4 := by
  simp only [wf, Bool.and_eq_true, Bool.or_eq_true] at hw
  obtain ⟨h2, h3⟩ := hw
  refine ⟨?_, h2, ?_⟩
  · rintro rfl
    rcases h3 with h3 | h3
    · exact h3
    · cases v <;> simp at h3
  rcases h3 with h3 | h3
  · rw [path_level h3]; omega
  · cases v with
    | «alias» p al w =>
      simp only [Bool.and_eq_true, Bool.not_eq_true'] at h3
      have : level (.alias p al w) = 4 := by
        rw [level]
        exact if_pos (by rw [path_level h3.1.1.2, h3.2]; rfl)
      omega
    | _ => simp at h3

theorem table_avoid {v : Node} {sq : Bool} (hw : wf (.table v sq) = true) : ∀ w ∈ itemStops, w ∈ (avoid v).1 := by
  intro w hm
  simp only [wf, Bool.and_eq_true, Bool.or_eq_true] at hw
  obtain ⟨h2, h3⟩ := hw
  cases v <;> first
    | exact hm
    | exact item_sub w hm
    | simp [isPath] at h3

/-- The first token of a name that does not begin with a quote. -/
theorem path_first {v : Node} (hw : wf v = true) (hp : isPath v = true) (hq : quoted v = false) {t : Str} {ts : List Str}
    (hr : Reads (toks v) (t :: ts)) : t ∉ str!"(" :: str!"[" :: quotes ∧ lower t ≠ str!"unnest" := by
  have hid : ∀ s, (ident s || decide (s = str!"*")) = true → lower s ≠ str!"unnest" →
      s ∉ str!"(" :: str!"[" :: quotes ∧ lower s ≠ str!"unnest" := by
    intro s hs hu
    simp only [Bool.or_eq_true, decide_eq_true_eq] at hs
    rcases hs with hs | rfl
    · obtain ⟨np, -⟩ := ident_spec hs
      exact ⟨by simp [np.open_, np.square, np.quote], hu⟩
    · exact ⟨by decide, hu⟩
  cases v with
  | column s =>
    simp only [toks] at hr
    have := hr.1
    rw [reads_lit] at this
    subst this
    simp only [isPath, Bool.and_eq_true, decide_eq_true_eq] at hp
    exact hid _ (by simpa only [wf] using hw) hp.2
  | chained l r =>
    simp only [wf, Bool.and_eq_true] at hw
    cases l with
    | column s =>
      simp only [toks, List.singleton_append] at hr
      have := hr.1
      rw [reads_lit] at this
      subst this
      exact hid _ (by simpa only [wf] using hw.1.2) (by simpa [isPath, unnestName] using hp)
    | index e is =>
      have h1 := hw.1.2
      have h0 := hw.1.1.1
      simp only [isName] at h0
      simp only [wf, Bool.and_eq_true] at h1
      cases e with
      | column s =>
        simp only [toks, List.singleton_append] at hr
        have := hr.1
        rw [reads_lit] at this
        subst this
        exact hid _ (by simpa only [wf] using h1.1.2) (by simpa [isPath, unnestName] using hp)
      | _ => exact absurd h0 Bool.false_ne_true
    | string => simp [quoted, Node.isString] at hq
    | _ => simp [isName] at hw
  | string => simp [quoted] at hq
  | _ => simp [isPath] at hp

theorem table_first {v : Node} {sq : Bool} (hw : wf (.table v sq) = true) (hq : quoted v = false) {t : Str} {ts : List Str}
    (hr : Reads (toks v) (t :: ts)) : t ∉ str!"(" :: str!"[" :: quotes ∧ lower t ≠ str!"unnest" := by
  simp only [wf, Bool.and_eq_true, Bool.or_eq_true] at hw
  obtain ⟨h2, h3⟩ := hw
  rcases h3 with h3 | h3
  · exact path_first h2 h3 hq hr
  · cases v with
    | «alias» p al w =>
      simp only [Bool.and_eq_true, Bool.not_eq_true'] at h3
      simp only [wf, Bool.and_eq_true] at h2
      simp only [toks, List.append_assoc] at hr
      replace hr := reads_first hr (reads_ne h2.1.2 (by rw [path_level h3.1.1.2]; omega))
      obtain ⟨x, y, rfl, hx, -⟩ := hr
      exact path_first h2.1.2 h3.1.1.2 h3.1.2 hx
    | _ => simp at h3

theorem table_ok {v : Node} (hw : wf (.table v false) = true) (hq : quoted v = false) (h : ItemOk v) :
    SourceOk (.table v false) := by
  intro ts hr
  obtain ⟨-, hwv, hl⟩ := table_level hw
  simp only [toks, Bool.false_eq_true, if_false] at hr
  obtain ⟨v', _, hv', h⟩ := h ts hr
  obtain ⟨t, ts, rfl, ht0, -⟩ := first_token hwv hl hr
  obtain ⟨f1, f2⟩ := table_first hw hq hr
  simp only [List.mem_cons, not_or] at f1
  obtain ⟨f1, f3, f4⟩ := f1
  have htm : Tame (joinValues ++ setOperators) [] (t :: ts) :=
    (tame hwv hr).mono (fun w hw' => table_avoid hw w
      ((by decide : ∀ w ∈ joinValues ++ setOperators, w ∈ itemStops) w hw')) (by simp)
  refine ⟨.table v' false, by simp [fold, hv'], fun rest hj => h.mono fun r g => ?_⟩
  have e1 : untilOneOf (joinValues ++ setOperators) (some t) [] ⟨ts ++ rest, none⟩ =
      .ok ((t :: ts, rest.head?), ⟨rest.tail, none⟩) := by
    rcases hj with rfl | ⟨w, rest', rfl, hw⟩
    · rw [List.append_nil]
      exact untilOneOf_first_end htm (fun _ h => h) (by decide) []
    · exact untilOneOf_first_stop htm (fun _ h => h) (by decide) [] hw (noKeep_nil _ _) _ _
  have e2 : fromHeadF r ⟨t :: ts ++ rest, none⟩ = .ok ((.table v' false, rest.head?), ⟨rest.tail, none⟩) := by
    unfold fromHeadF
    rw [List.cons_append, bind_ok (next!_cons _ _ _), if_neg f1, if_neg f4, if_neg f3, if_neg f2, bind_ok e1]
    dsimp only
    rw [bind_ok (sub_ok g)]
    rfl
  rw [bind_ok e2]
  exact fromAliasF_no hj _

theorem square_ok {v : Node} (hw : wf (.table v true) = true) (h : ItemOk v) : WholeOk (.table v true) := by
  intro ts hr
  obtain ⟨-, hwv, hl⟩ := table_level hw
  simp only [toks, if_true] at hr
  replace hr := reads_squares hr
  obtain ⟨x, rfl, hr⟩ := hr
  obtain ⟨v', _, hv', h⟩ := h x hr
  refine ⟨.table v' true, by simp [fold, hv'], fun rest he => h.mono fun r g => ?_⟩
  unfold fromHeadF
  rw [List.cons_append, bind_ok (next!_cons _ _ _), if_neg (by decide), if_neg (by decide), if_pos rfl,
    List.append_assoc, List.singleton_append, bind_ok (untilSquare (tame hwv hr) _ none)]
  dsimp only
  rw [bind_ok (sub_ok g), bind_ok (assert_true (by simp)), bind_ok (next?_run fun _ => rfl)]
  rfl

theorem quoted_ok {v : Node} (hw : wf (.table v false) = true) (hq : quoted v = true)
    (h : ∀ l r, v = .chained l r → BaseOk r) : WholeOk (.table v false) := by
  intro ts hr
  obtain ⟨-, hwv, hl⟩ := table_level hw
  simp only [toks, Bool.false_eq_true, if_false] at hr
  obtain ⟨t, ts, rfl, ht0, -⟩ := first_token hwv hl hr
  have hopen : ∀ t ∈ quotes, t ≠ str!"(" := by decide
  cases v with
  | string v q pre =>
    obtain rfl : pre = none := by
      cases pre with
      | none => rfl
      | some p => simp [wf, isPath] at hw
    simp only [wf, Bool.and_eq_true, decide_eq_true_eq] at hwv
    have h1 := hwv.1.2
    obtain ⟨rfl, hs⟩ := string_run h1 hwv.2 none hr
    refine ⟨.table (.string v q none) false, rfl, fun rest he => ?_⟩
    refine (dotLoop_no (u := []) (e := .string v q none) (t := rest.head?) (he.ne (by decide)) ⟨rest.tail, none⟩).mono
      fun r g => ?_
    unfold fromHeadF
    rw [List.cons_append, bind_ok (next!_cons _ _ _), if_neg (hopen _ h1), if_pos (show q ∈ quotes from h1), bind_ok (hs _ _),
      bind_ok (next?_run (fun _ => rfl)), bind_ok g]
    rfl
  | chained l rr =>
    simp only [wf, Bool.and_eq_true] at hwv
    obtain ⟨⟨⟨w1, w2⟩, w3⟩, w4⟩ := hwv
    cases l with
    | string v q pre =>
      obtain rfl : pre = none := by
        cases pre with
        | none => rfl
        | some p => simp [isName] at w1
      rw [toks] at hr
      replace hr := reads_first hr (reads_ne w3 (by simp [level]))
      obtain ⟨x, y, rfl, hx, hy⟩ := hr
      replace hy := reads_cons.1 hy
      obtain ⟨d, y, rfl, hd, hy⟩ := hy
      rw [reads_lit] at hd
      subst hd
      simp only [wf, Bool.and_eq_true, decide_eq_true_eq] at w3
      have h1 := w3.1.2
      obtain ⟨rfl, hs⟩ := string_run h1 w3.2 none hx
      have hr0 : level rr ≤ 4 := by have := level_chain w2; omega
      obtain ⟨r', hr', hb⟩ := (h _ _ rfl).chain hy (reads_ne w4 hr0 y hy)
      refine ⟨.table (.chained (.string v q none) r') false, by simp [fold, hr'], fun rest he => ?_⟩
      refine ((hb [] rest none (fun _ => rfl) he).and (dotLoop_no (u := []) (e := .chained (.string v q none) r')
        (t := rest.head?) (he.ne (by decide)) ⟨rest.tail, none⟩)).next
        (q := fun r => r.dotLoop [] (.string v q none) (some str!".") ⟨y ++ rest, none⟩ =
          .ok ((.chained (.string v q none) r', rest.head?), ⟨rest.tail, none⟩)) ?_ |>.mono fun r g => ?_
      · rintro r ⟨g1, g2⟩
        show dotLoopF r [] _ (some str!".") _ = _
        unfold dotLoopF
        rw [if_pos rfl, bind_ok g1]
        exact g2
      · unfold fromHeadF
        rw [List.cons_append, bind_ok (next!_cons _ _ _), if_neg (hopen _ h1), if_pos (show q ∈ quotes from h1), List.append_assoc,
          bind_ok (hs _ _), List.cons_append, bind_ok (next?_cons _ _ _), bind_ok g]
        rfl
    | _ => simp [quoted, Node.isString] at hq
  | _ => simp [quoted] at hq

theorem unnest_first {v : Node} (h : isUnnest v = true) {ts : List Str} (hr : Reads (toks v) ts) :
    ∃ k ts', ts = k :: ts' ∧ lower k = str!"unnest" := by
  have key : ∀ {v : Node}, isUnnestCall v = true → ∀ {ts}, Reads (toks v) ts →
      ∃ k ts', ts = k :: ts' ∧ lower k = str!"unnest" := by
    intro v h ts hr
    cases v with
    | func f args =>
      simp only [isUnnestCall, decide_eq_true_eq] at h
      subst h
      simp only [toks] at hr
      replace hr := reads_cons.1 hr
      obtain ⟨k, x, rfl, hk, -⟩ := hr
      exact ⟨k, x, rfl, lower_kw hk (by decide)⟩
    | _ => exact absurd h Bool.false_ne_true
  cases v with
  | func f args => exact key (v := .func f args) h hr
  | «alias» e al w =>
    simp only [isUnnest, Bool.and_eq_true] at h
    simp only [toks, List.append_assoc] at hr
    obtain ⟨x, y, rfl, hx, -⟩ := reads_append.1 hr
    obtain ⟨k, x, rfl, hk⟩ := key h.1 hx
    exact ⟨k, x ++ y, rfl, hk⟩
  | _ => exact absurd h Bool.false_ne_true

/-- The first token of FROM. -/
theorem from_first (n : Node) : wf n = true → isBody n = true → ∀ ts, Reads (toks n) ts →
    ∃ t ts', ts = t :: ts' ∧ t ≠ [] ∧ lower t ∉ joinValues ++ setOperators ++ [str!"select", str!"with"] := by
  have hb : ∀ w ∈ joinValues ++ setOperators ++ [str!"select", str!"with"], w ∈ headBad := by decide
  induction n using Node.rec (motive_2 := fun _ => True) with
  | table v sq _ =>
    intro hw _ ts hr
    obtain ⟨-, h1, h2⟩ := table_level hw
    cases sq with
    | false =>
      obtain ⟨t, ts', rfl, h3, h4⟩ := first_token h1 h2 hr
      exact ⟨t, ts', rfl, h3, fun h => h4 (hb _ h)⟩
    | true =>
      simp only [toks, if_true] at hr
      obtain ⟨x, rfl, -⟩ := reads_squares hr
      exact ⟨_, _, rfl, by decide, by rw [lower_self (by decide) (by decide)]; decide⟩
  | paren args _ =>
    intro _ _ ts hr
    simp only [toks] at hr
    obtain ⟨x, rfl, -⟩ := reads_parens hr
    exact ⟨_, _, rfl, by decide, by rw [lower_self (by decide) (by decide)]; decide⟩
  | «alias» e al w he _ =>
    intro hw hf ts hr
    simp only [isBody, isSet, isFrom, isJoin, isSource, Bool.false_or, Bool.or_false, Bool.and_eq_true] at hf
    simp only [wf, Bool.and_eq_true] at hw
    simp only [toks, List.append_assoc] at hr
    replace hr := reads_append.1 hr
    obtain ⟨x, y, rfl, hx, -⟩ := hr
    have : isBody e = true := by
      cases e <;> simp [isWhole] at hf <;> simp [isBody, isFrom, isSource, hf]
    obtain ⟨t, ts', rfl, h⟩ := he hw.1.2 this x hx
    exact ⟨t, ts' ++ y, rfl, h⟩
  | join ty l r on us hl _ _ _ =>
    intro hw hf ts hr
    simp only [wf, Bool.and_eq_true] at hw
    simp only [toks, List.append_assoc] at hr
    replace hr := reads_append.1 hr
    obtain ⟨x, y, rfl, hx, -⟩ := hr
    have h1 := hw.1.1.1.1.1
    have : isBody l = true := by
      cases l <;> simp [isLeft, isSource] at h1 <;> simp [isBody, isFrom, isSource, isJoin, h1]
    obtain ⟨t, ts', rfl, h⟩ := hl hw.1.1.1.1.2 this x hx
    exact ⟨t, ts' ++ y, rfl, h⟩
  | unnest v o oa al _ =>
    intro hw _ ts hr
    simp only [wf, Bool.and_eq_true] at hw
    have h1 := hw.1.1
    simp only [toks] at hr
    obtain ⟨x, y, rfl, hx, -⟩ := reads_append.1 hr
    obtain ⟨k, x, rfl, hk⟩ := unnest_first h1 hx
    refine ⟨k, x ++ y, rfl, ?_, ?_⟩
    · rintro rfl
      rw [lower_self (by decide) (by decide)] at hk
      exact absurd hk (by decide)
    · rw [hk]; decide
  | combined op l r hl _ =>
    intro hw hf ts hr
    simp only [wf, Bool.and_eq_true, Bool.or_eq_true] at hw
    simp only [toks, List.append_assoc] at hr
    replace hr := reads_append.1 hr
    obtain ⟨x, y, rfl, hx, -⟩ := hr
    have : isBody l = true := by
      rcases hw.1.1.1.2 with h | h <;> simp [isBody, isFrom, h]
    obtain ⟨t, ts', rfl, h⟩ := hl hw.1.2 this x hx
    exact ⟨t, ts' ++ y, rfl, h⟩
  | nil => trivial
  | cons => trivial
  | _ => intro _ hf; simp [isBody, isSet, isFrom, isJoin, isSource] at hf

theorem stmt_select {n : Node} (hs : n.isSelect = true) (h : SelectOk n) {ts : List Str} (hr : Reads (toks n) ts)
    {rest : List Str} {f : Option PyErr} (hf : isSubquery n = true → rest = [] ∧ f = none) :
    ∃ n', fold n' = n ∧ ∃ s', Ev fun r => r.stmt ⟨ts ++ rest, f⟩ = .ok (n', s') := by
  obtain ⟨t, ts, rfl, ht⟩ := select_reads hs hr
  obtain ⟨n', hn', h⟩ := h t ts hr
  obtain ⟨s', h⟩ := h rest f hf
  refine ⟨n', hn', s', h.next fun r g => ?_⟩
  show stmtF r _ = _
  unfold stmtF
  rw [List.cons_append, bind_ok (next!_cons _ _ _), if_pos ht]
  exact g

/-- What has to be read by the parser of statements. -/
def StmtOk (n : Node) : Prop :=
  ∀ ts, Reads (toks n) ts → ∃ n', fold n' = n ∧ ∃ s', Ev fun r => r.stmt ⟨ts, none⟩ = .ok (n', s')

theorem SelectOk.stmt {n : Node} (hs : n.isSelect = true) (h : SelectOk n) : StmtOk n := by
  intro ts hr
  obtain ⟨n', hn', s', h⟩ := stmt_select hs h hr (rest := []) (f := none) fun _ => ⟨rfl, rfl⟩
  rw [List.append_nil] at h
  exact ⟨n', hn', s', h⟩

theorem group_ok {args : List Node} (hw : wf (.paren args) = true) (hg : isGroup args = true)
    (h1 : ∀ n ∈ args, isQuery n = true → StmtOk n) (h2 : ∀ n ∈ args, isBody n = true → FromOk n) :
    WholeOk (.paren args) := by
  intro ts hr
  have hwl : wfList args = true := by
    simp only [wf, Bool.and_eq_true] at hw
    exact hw.2
  have hone : ∃ n, args = [n] ∧ (isQuery n = true ∨ isBody n = true) := by
    match args, hg with
    | [n], hg =>
      simp only [isGroup, Bool.or_eq_true] at hg
      refine ⟨n, rfl, ?_⟩
      simp only [isBody, isFrom, Bool.or_eq_true]
      tauto
  obtain ⟨n, rfl, hn⟩ := hone
  have hwn := wfList_iff.1 hwl n (by simp)
  simp only [toks] at hr
  replace hr := reads_parens hr
  obtain ⟨x, rfl, hr⟩ := hr
  have htm := list_tame hwl hr
  rw [toksList] at hr
  have key : ∃ n', fold n' = n ∧ ∀ s, Ev fun r => P.orElseParsing (P.sub x r.stmt) (P.sub x r.from_) s = .ok (n', s) := by
    rcases hn with hn | hn
    · obtain ⟨n', hn', s', h⟩ := h1 n (by simp) hn x hr
      refine ⟨n', hn', fun s => h.mono fun r g => ?_⟩
      unfold P.orElseParsing
      rw [sub_ok g]
    · obtain ⟨n', hn', s', h⟩ := h2 n (by simp) hn x hr
      obtain ⟨t, x, rfl, -, ht⟩ := from_first n hwn hn x hr
      have e : Ev fun r => r.stmt ⟨t :: x, none⟩ = .err (.parsing []) := Ev.next0 fun r => by
        show stmtF r _ = _
        unfold stmtF
        rw [bind_ok (next!_cons _ _ _), if_neg, if_neg]
        · rfl
        · intro h; exact ht (by rw [h]; decide)
        · intro h; exact ht (by rw [h]; decide)
      refine ⟨n', hn', fun s => (h.and e).mono ?_⟩
      rintro r ⟨g1, g2⟩
      unfold P.orElseParsing
      have : P.sub (t :: x) r.stmt s = .err (.parsing []) := by simp [P.sub, g2]
      rw [this]
      exact sub_ok g1
  obtain ⟨n', hn', h⟩ := key
  refine ⟨.paren [n'], by simp [fold, foldList, hn'], fun rest he => (h ⟨rest, none⟩).mono fun r g => ?_⟩
  have e1 : untilClosing none ⟨x ++ [str!")"] ++ rest, none⟩ = .ok (x, ⟨rest, none⟩) := by
    rw [List.append_assoc]
    exact untilClosing_tame htm rest none
  unfold fromHeadF
  rw [List.cons_append, bind_ok (next!_cons _ _ _), if_pos rfl, bind_ok e1, bind_ok g, bind_ok (next?_run fun _ => rfl)]
  rfl

theorem ident_words {s : Str} (h : ident s = true) : lower s ∉ joinValues ++ setOperators ++ [str!"as"] ∧ s ∉ quotes := by
  obtain ⟨-, q2, q3, -⟩ := quiet_ident h
  exact ⟨fun hm => q3 ((by decide : ∀ w ∈ joinValues ++ setOperators ++ [str!"as"], w ∈ stopWords) _ hm), q2⟩

theorem sourceAlias_ok {e al : Node} {w : Bool} (hw : wf (.alias e al w) = true)
    (hr : isRaw al = true) (h : WholeOk e) : SourceOk (.alias e al w) := by
  intro ts hts
  simp only [wf, Bool.and_eq_true] at hw
  obtain ⟨⟨-, w1⟩, w2⟩ := hw
  simp only [toks, List.append_assoc] at hts
  replace hts := reads_append.1 hts
  obtain ⟨x, y, rfl, hx, hy⟩ := hts
  replace hy := reads_append.1 hy
  obtain ⟨y, z, rfl, hy, hz⟩ := hy
  cases al with
  | raw s =>
    simp only [wf] at w2
    simp only [toks] at hz
    replace hz := reads_cons.1 hz
    obtain ⟨t, z, rfl, ht, hz⟩ := hz
    rw [reads_lit] at ht
    rw [reads_nil] at hz
    subst ht hz
    obtain ⟨e', he', h⟩ := h x hx
    obtain ⟨i1, i2⟩ := ident_words w2
    simp only [List.mem_append, List.mem_cons, List.not_mem_nil, or_false, not_or] at i1
    refine ⟨.alias e' (.raw t) w, by simp [fold, he'], fun rest hj => ?_⟩
    rcases reads_opt hy with ⟨rfl, hy⟩ | ⟨rfl, rfl⟩
    · replace hy := reads_cons.1 hy
      obtain ⟨as, y, rfl, has, hy⟩ := hy
      rw [reads_nil] at hy
      subst hy
      have hasl := lower_kw has (by decide)
      refine (h (as :: t :: rest) ((as_ends hasl).mono (by decide) (by decide))).mono fun r g => ?_
      rw [show x ++ ([as] ++ [t]) ++ rest = x ++ as :: t :: rest by simp, bind_ok g]
      unfold fromAliasF
      refine (congrFun (if_pos ?_) _).trans ?_
      · rw [List.head?_cons]; simp only [inWords, hasl]; decide
      · unfold fromAlias
        have : decide (lower as = str!"as") = true := by simp [hasl]
        simp only [this, if_true]
        rw [List.tail_cons, bind_ok (next!_cons _ _ _), if_neg i2, bind_ok (pure_run _ _),
          bind_ok (next?_run fun _ => rfl)]
        rfl
    · refine (h (t :: rest) ((ident_ends w2).mono (by decide) (by decide))).mono fun r g => ?_
      rw [show x ++ ([] ++ [t]) ++ rest = x ++ t :: rest by simp, bind_ok g]
      unfold fromAliasF
      refine (congrFun (if_pos ?_) _).trans ?_
      · rw [List.head?_cons]; simp [inWords, i1]
      · unfold fromAlias
        have : decide (lower t = str!"as") = false := by simp [i1]
        simp only [this, Bool.false_eq_true, if_false]
        rw [List.tail_cons, bind_ok (pure_run _ _), if_neg i2, bind_ok (pure_run _ _),
          bind_ok (next?_run fun _ => rfl)]
        rfl
  | _ => simp [isRaw] at hr

/-! ### UNNEST -/

/-- lexer.py 336-350 -/
def unnestAliasF (e : Node) (t : Option Str) : P (Node × Option Str) :=
  match t with
  | some tok =>
    if !inWords t joinValues && !inWords t setOperators && !isWord t str!"with" then fromAlias e tok
    else pure (e, t)
  | none => pure (e, t)

/-- lexer.py 352-380 -/
def unnestOffsetF (e : Node) (t : Option Str) : P (Node × Option Str) :=
  if isWord t str!"with" then do
    let t ← next!
    P.assert (lower t = str!"offset")
    let t ← next?
    match t with
    | some tok =>
      if !inWords t joinValues && !inWords t setOperators then do
        if lower tok = str!"as" then do
          let a ← next!
          let t ← next?
          return (.unnest e true true (some a), t)
        else do
          let t ← next?
          return (.unnest e true false (some tok), t)
      else return (.unnest e true false none, t)
    | none => return (.unnest e true false none, t)
  else return (.unnest e false false none, t)

theorem unnestF_eq (r : Rec) : unnestF r = next! >>= fun t => P.assert (t = str!"(") >>= fun _ =>
    untilClosing >>= fun ts => P.sub ts (r.exprList false) >>= fun args => next? >>= fun t =>
    unnestAliasF (.func str!"unnest" args) t >>= fun x => unnestOffsetF x.1 x.2 := by
  have hb : ∀ {α β : Type} (p : P α) {k k' : α → P β}, (∀ a, k a = k' a) → (p >>= k) = (p >>= k') := by
    intro α β p k k' h
    rw [funext h]
  unfold unnestF
  refine hb _ fun t => hb _ fun _ => hb _ fun ts => hb _ fun args => hb _ fun t => ?_
  unfold unnestAliasF
  cases t with
  | none => rfl
  | some tok =>
    dsimp only
    split <;> rfl

theorem unnestAliasF_no {e : Node} {rest : List Str} (h : EndIn (joinValues ++ setOperators ++ [str!"with"]) rest)
    (s : Stream) : unnestAliasF e rest.head? s = .ok ((e, rest.head?), s) := by
  rcases h with rfl | ⟨w, rest', rfl, h⟩
  · rfl
  · unfold unnestAliasF
    refine (congrFun (if_neg ?_) _).trans rfl
    simp only [List.mem_append, List.mem_cons, List.not_mem_nil, or_false] at h
    rcases h with (h | h) | h <;> simp [inWords, isWord, lower?, h]

theorem unnestAliasF_yes {e : Node} {s : Str} (hs : ident s = true) {w : Bool} {y : List Str}
    (hy : Reads (opt w [.kw str!"as"]) y) (rest : List Str) :
    unnestAliasF e (y ++ s :: rest).head? ⟨(y ++ s :: rest).tail, none⟩ =
      .ok ((.alias e (.raw s) w, rest.head?), ⟨rest.tail, none⟩) := by
  obtain ⟨i1, i2⟩ := ident_words hs
  have i3 : lower s ≠ str!"with" := by
    obtain ⟨-, -, q3, -⟩ := quiet_ident hs
    intro he
    exact q3 (by rw [he]; decide)
  simp only [List.mem_append, List.mem_cons, List.not_mem_nil, or_false, not_or] at i1
  unfold unnestAliasF
  rcases reads_opt hy with ⟨rfl, hy⟩ | ⟨rfl, rfl⟩
  · replace hy := reads_cons.1 hy
    obtain ⟨as, y, rfl, has, hy⟩ := hy
    rw [reads_nil] at hy
    subst hy
    have hasl := lower_kw has (by decide)
    refine (congrFun (if_pos ?_) _).trans ?_
    · rw [List.cons_append, List.head?_cons]; simp only [inWords, isWord, lower?, hasl, Option.map_some]; decide
    · unfold fromAlias
      have : decide (lower as = str!"as") = true := by simp [hasl]
      simp only [this, if_true]
      rw [List.cons_append, List.tail_cons, List.nil_append, bind_ok (next!_cons _ _ _), if_neg i2, bind_ok (pure_run _ _),
        bind_ok (next?_run fun _ => rfl)]
      rfl
  · refine (congrFun (if_pos ?_) _).trans ?_
    · rw [List.nil_append, List.head?_cons]; simp [inWords, isWord, lower?, i1, i3]
    · unfold fromAlias
      have : decide (lower s = str!"as") = false := by simp [i1]
      simp only [this, Bool.false_eq_true, if_false]
      rw [List.nil_append, List.tail_cons, bind_ok (pure_run _ _), if_neg i2, bind_ok (pure_run _ _),
        bind_ok (next?_run fun _ => rfl)]
      rfl

theorem unnestOffsetF_run {e : Node} {o oa : Bool} {al : Option Str}
    (hal : (match al with
      | none => !oa
      | some a => o && ident a) = true) {z : List Str}
    (hz : Reads (opt o (.kw str!"with" :: .kw str!"offset" :: offsetToks oa al)) z) {rest : List Str} (hj : FromEnd rest) :
    unnestOffsetF e (z ++ rest).head? ⟨(z ++ rest).tail, none⟩ =
      .ok ((.unnest e o oa al, rest.head?), ⟨rest.tail, none⟩) := by
  unfold unnestOffsetF
  rcases reads_opt hz with ⟨rfl, hy⟩ | ⟨rfl, rfl⟩
  · clear hz
    replace hy := reads_cons.1 hy
    obtain ⟨p, y, rfl, hp, hy⟩ := hy
    replace hy := reads_cons.1 hy
    obtain ⟨t, y, rfl, ht, hy⟩ := hy
    have hpl := lower_kw hp (by decide)
    have htl := lower_kw ht (by decide)
    rw [List.cons_append, List.head?_cons, List.tail_cons, if_pos (isWord_lower.2 hpl), List.cons_append,
      bind_ok (next!_cons _ _ _), bind_ok (assert_true (by simp [htl])), bind_ok (next?_run fun _ => rfl)]
    cases al with
    | none =>
      rw [offsetToks, reads_nil] at hy
      subst hy
      have : oa = false := by simpa using hal
      subst this
      rw [List.nil_append]
      rcases hj with rfl | ⟨w, rest', rfl, h⟩
      · rfl
      · refine (congrFun (if_neg ?_) _).trans rfl
        rcases List.mem_append.1 h with h | h <;> simp [inWords, h]
    | some a =>
      simp only [Bool.true_and] at hal
      obtain ⟨i1, -⟩ := ident_words hal
      simp only [List.mem_append, List.mem_cons, List.not_mem_nil, or_false, not_or] at i1
      replace hy := reads_append.1 hy
      obtain ⟨x, y, rfl, hx, hy⟩ := hy
      replace hy := reads_cons.1 hy
      obtain ⟨u, y, rfl, rfl, hy⟩ := hy
      rw [reads_nil] at hy; subst hy
      rcases reads_opt hx with ⟨rfl, hx⟩ | ⟨rfl, rfl⟩
      · replace hx := reads_cons.1 hx
        obtain ⟨as, x, rfl, has, hx⟩ := hx
        rw [reads_nil] at hx
        subst hx
        have hasl := lower_kw has (by decide)
        refine (congrFun (if_pos ?_) _).trans ?_
        · rw [List.cons_append, List.cons_append, List.head?_cons]; simp only [inWords, hasl]; decide
        · rw [if_pos hasl]
          simp only [List.cons_append, List.nil_append, List.tail_cons]
          rw [bind_ok (next!_cons _ _ _), bind_ok (next?_run fun _ => rfl)]
          rfl
      · refine (congrFun (if_pos ?_) _).trans ?_
        · rw [List.nil_append, List.singleton_append, List.head?_cons]; simp [inWords, i1]
        · rw [if_neg i1.2]
          simp only [List.cons_append, List.nil_append, List.tail_cons]
          rw [bind_ok (next?_run fun _ => rfl)]
          rfl
  · have h1 : oa = false ∧ al = none := by
      cases al with
      | none => exact ⟨by simpa using hal, rfl⟩
      | some a => simp at hal
    obtain ⟨rfl, rfl⟩ := h1
    rw [List.nil_append, if_neg]
    · rfl
    · rcases hj with rfl | ⟨w, rest', rfl, h⟩
      · simp [isWord, lower?]
      · intro he
        rw [List.head?_cons, isWord_lower] at he
        rw [he] at h
        exact absurd h (by decide)

/-- A call of UNNEST, its alias, and WITH OFFSET. -/
theorem unnest_ok {v : Node} {o oa : Bool} {al : Option Str} (hw : wf (.unnest v o oa al) = true)
    (h : ∀ f args, (v = .func f args ∨ ∃ a w, v = .alias (.func f args) a w) →
      wfList args = true ∧ levels args ≤ 5 ∧ ∀ m ∈ args, ItemOk m) : SourceOk (.unnest v o oa al) := by
  intro ts hr
  simp only [wf, Bool.and_eq_true] at hw
  obtain ⟨⟨h1, h2⟩, h3⟩ := hw
  simp only [toks] at hr
  replace hr := reads_append.1 hr
  obtain ⟨x, z, rfl, hx, hz⟩ := hr
  -- the call
  have hend : ∀ {rest}, FromEnd rest → EndIn (joinValues ++ setOperators ++ [str!"with"]) (z ++ rest) := by
    intro rest hj
    rcases reads_opt hz with ⟨-, hz⟩ | ⟨-, rfl⟩
    · obtain ⟨p, y, rfl, hp, -⟩ := reads_cons.1 hz
      exact .inr ⟨p, _, rfl, by rw [lower_kw hp (by decide)]; decide⟩
    · rcases hj with rfl | ⟨w, rest', rfl, h⟩
      · exact .inl rfl
      · exact .inr ⟨w, rest', rfl, by simp only [List.mem_append] at h ⊢; exact .inl h⟩
  obtain ⟨v', hv', k, x1, y, args', rfl, hk, htm, hargs, hal⟩ : ∃ v', fold v' = v ∧ ∃ k x1 y args',
      x = k :: str!"(" :: (x1 ++ str!")" :: y) ∧ lower k = str!"unnest" ∧ Tame [] [] x1 ∧
      (Ev fun r => r.exprList false ⟨x1, none⟩ = .ok (args', ⟨[], none⟩)) ∧
      ∀ rest, FromEnd rest → unnestAliasF (.func str!"unnest" args') (y ++ (z ++ rest)).head?
        ⟨(y ++ (z ++ rest)).tail, none⟩ = .ok ((v', (z ++ rest).head?), ⟨(z ++ rest).tail, none⟩) := by
    have key : ∀ args x, (wfList args = true ∧ levels args ≤ 5 ∧ ∀ m ∈ args, ItemOk m) →
        Reads (toks (.func str!"unnest" args)) x → ∃ k x1 args', x = k :: str!"(" :: (x1 ++ [str!")"]) ∧
          lower k = str!"unnest" ∧ Tame [] [] x1 ∧ foldList args' = args ∧
          (Ev fun r => r.exprList false ⟨x1, none⟩ = .ok (args', ⟨[], none⟩)) := by
      rintro args x ⟨a1, a2, a3⟩ hx
      simp only [toks] at hx
      replace hx := reads_cons.1 hx
      obtain ⟨k, x, rfl, hk, hx⟩ := hx
      replace hx := reads_parens hx
      obtain ⟨x1, rfl, hx⟩ := hx
      obtain ⟨args', b1, b2⟩ := list_ok a1 a2 a3 hx
      exact ⟨k, x1, args', rfl, lower_kw hk (by decide), list_tame a1 hx, b1, b2⟩
    cases v with
    | func f args =>
      have hf : f = str!"unnest" := by simpa [isUnnest, isUnnestCall] using h1
      subst hf
      obtain ⟨k, x1, args', rfl, b1, b2, b3, b4⟩ := key args x (h _ args (.inl rfl)) hx
      refine ⟨.func str!"unnest" args', by rw [fold, b3]; rfl, k, x1, [], args', rfl, b1, b2, b4, fun rest hj => ?_⟩
      rw [List.nil_append]
      exact unnestAliasF_no (hend hj) _
    | «alias» e a w =>
      simp only [isUnnest, Bool.and_eq_true] at h1
      obtain ⟨h1, h4⟩ := h1
      cases e with
      | func f args =>
        have hf : f = str!"unnest" := by simpa [isUnnestCall] using h1
        subst hf
        cases a with
        | raw s =>
          simp only [wf, Bool.and_eq_true] at h2
          simp only [toks, List.append_assoc] at hx
          replace hx := reads_append.1 hx
          obtain ⟨x, y, rfl, hx, hy⟩ := hx
          obtain ⟨k, x1, args', rfl, b1, b2, b3, b4⟩ := key args x (h _ args (.inr ⟨_, _, rfl⟩)) (by
            simpa only [toks] using hx)
          replace hy := reads_append.1 hy
          obtain ⟨y, y2, rfl, hy, hy2⟩ := hy
          replace hy2 := reads_cons.1 hy2
          obtain ⟨u, y2, rfl, hu, hy2⟩ := hy2
          rw [reads_lit] at hu
          rw [reads_nil] at hy2
          subst hu hy2
          refine ⟨.alias (.func str!"unnest" args') (.raw u) w, by simp only [fold, b3]; rfl, k, x1, y ++ [u], args', by simp,
            b1, b2, b4, fun rest hj => ?_⟩
          rw [List.append_assoc, List.singleton_append]
          exact unnestAliasF_yes h2.2 hy _
        | _ => exact absurd h4 Bool.false_ne_true
      | _ => exact absurd h1 Bool.false_ne_true
    | _ => exact absurd h1 Bool.false_ne_true
  refine ⟨.unnest v' o oa al, by simp [fold, hv'], fun rest hj => hargs.mono fun r g => ?_⟩
  have hkq : k ≠ str!"(" ∧ k ≠ str!"[" ∧ k ∉ quotes := by
    have hq : ∀ w ∈ str!"(" :: str!"[" :: quotes, lower w ≠ str!"unnest" := by
      intro w hw
      have := (by decide : ∀ w ∈ str!"(" :: str!"[" :: quotes, w.all isAscii = true ∧ w.map Char.toLower = w ∧ w ≠ str!"unnest") w hw
      rw [lower_self this.1 this.2.1]
      exact this.2.2
    refine ⟨?_, ?_, fun hm => hq k (by simp [hm]) hk⟩ <;> (rintro rfl; exact hq _ (by simp) hk)
  have e2 : fromHeadF r ⟨k :: str!"(" :: (x1 ++ str!")" :: y) ++ z ++ rest, none⟩ =
      .ok ((.unnest v' o oa al, rest.head?), ⟨rest.tail, none⟩) := by
    unfold fromHeadF
    rw [show k :: str!"(" :: (x1 ++ str!")" :: y) ++ z ++ rest = k :: str!"(" :: (x1 ++ str!")" :: (y ++ (z ++ rest))) by simp,
      bind_ok (next!_cons _ _ _), if_neg hkq.1, if_neg hkq.2.2, if_neg hkq.2.1, if_pos hk, unnestF_eq,
      bind_ok (next!_cons _ _ _), bind_ok (assert_true (by simp)), bind_ok (untilClosing_tame htm _ none),
      bind_ok (sub_ok g), bind_ok (next?_run fun _ => rfl), bind_ok (hal rest hj)]
    exact unnestOffsetF_run h3 hz hj
  rw [bind_ok e2]
  exact fromAliasF_no hj _

/-! ### Joins -/

theorem toUpper_toLower (c : Char) : c.toLower.toUpper = c.toUpper := by
  by_cases h : c.val ≥ 'A'.val ∧ c.val ≤ 'Z'.val
  · have h1 : 65 ≤ c.val.toNat := UInt32.le_iff_toNat_le.1 h.1
    have h2 : c.val.toNat ≤ 90 := UInt32.le_iff_toNat_le.1 h.2
    have h3 : ¬ (c.val ≥ 'a'.val ∧ c.val ≤ 'z'.val) := by
      rintro ⟨h3, -⟩
      have : 97 ≤ c.val.toNat := UInt32.le_iff_toNat_le.1 h3
      omega
    have e1 : (c.val + ('a'.val - 'A'.val)).toNat = c.val.toNat + 32 := by
      rw [UInt32.toNat_add]
      have : ('a'.val - 'A'.val).toNat = 32 := by decide
      rw [this]
      omega
    have h4 : c.toLower.val = c.val + ('a'.val - 'A'.val) := by
      unfold Char.toLower
      rw [dif_pos h]
    have h5 : c.toUpper = c := by
      unfold Char.toUpper
      rw [dif_neg h3]
    rw [h5]
    apply Char.ext
    have h6 : c.toLower.val ≥ 'a'.val ∧ c.toLower.val ≤ 'z'.val := by
      rw [h4]
      constructor
      · apply UInt32.le_iff_toNat_le.2
        rw [e1]
        show 97 ≤ _
        omega
      · apply UInt32.le_iff_toNat_le.2
        rw [e1]
        show _ ≤ 122
        omega
    have h7 : c.toLower.toUpper.val = c.toLower.val + ('A'.val - 'a'.val) := by
      conv => lhs; unfold Char.toUpper
      rw [dif_pos h6]
    rw [h7, h4, UInt32.add_assoc]
    have : ('a'.val - 'A'.val) + ('A'.val - 'a'.val) = 0 := by decide
    rw [this, UInt32.add_zero]
  · have : c.toLower = c := by
      unfold Char.toLower
      rw [dif_neg h]
    rw [this]

theorem upper_words {ws ops : List Str} (hw : ∀ w ∈ ws, w.all isAscii = true) (h : Reads (ws.map .kw) ops) :
    E.upper (Str.join str!" " ops) = Str.join str!" " (ws.map fun w => w.map Char.toUpper) := by
  have hmap : ∀ ops : List Str, (Str.join str!" " ops).map Char.toUpper =
      Str.join str!" " (ops.map fun t => t.map Char.toUpper) := by
    intro ops
    induction ops with
    | nil => rfl
    | cons t ops ih =>
      cases ops with
      | nil => rfl
      | cons u ops =>
        simp only [Str.join, List.map_append, List.map_cons] at ih ⊢
        rw [ih]
        rfl
  have hall : ∀ ops : List Str, (∀ t ∈ ops, t.all isAscii = true) → (Str.join str!" " ops).all isAscii = true := by
    intro ops
    induction ops with
    | nil => intro _; rfl
    | cons t ops ih =>
      intro h
      cases ops with
      | nil => exact h t (by simp)
      | cons u ops =>
        simp only [Str.join, List.all_append, Bool.and_eq_true]
        exact ⟨⟨h t (by simp), by decide⟩, ih fun v hv => h v (by simp [hv])⟩
  have hr : ∀ (ws ops : List Str), (∀ w ∈ ws, w.all isAscii = true) → Reads (ws.map .kw) ops →
      (∀ t ∈ ops, t.all isAscii = true) ∧
      (ops.map fun t => t.map Char.toUpper) = ws.map fun w => w.map Char.toUpper := by
    intro ws
    induction ws with
    | nil => intro ops _ h; rw [List.map_nil, reads_nil] at h; subst h; simp
    | cons w ws ih =>
      intro ops hw h
      rw [List.map_cons] at h
      replace h := reads_cons.1 h
      obtain ⟨t, ops, rfl, ht, h⟩ := h
      obtain ⟨i1, i2⟩ := ih ops (fun v hv => hw v (by simp [hv])) h
      rw [reads_kw] at ht
      have hta := all_ascii_of_lower ht (hw w (by simp))
      refine ⟨by simpa using ⟨by simpa using hta, by simpa using i1⟩, ?_⟩
      rw [List.map_cons, List.map_cons, i2, ← ht, List.map_map]
      congr 1
      exact List.map_congr_left fun c _ => (toUpper_toLower c).symm
  obtain ⟨h1, h2⟩ := hr ws ops hw h
  rw [L.upper_ascii _ (hall ops h1), hmap, h2]

theorem kws_mem {ws ops kinds : List Str} (hw : ∀ w ∈ ws, w.all isAscii = true) (hj : ∀ w ∈ ws, w ∈ kinds)
    (h : Reads (ws.map .kw) ops) : ∀ t ∈ ops, lower t ∈ kinds := by
  induction ws generalizing ops with
  | nil => rw [List.map_nil, reads_nil] at h; subst h; simp
  | cons w ws ih =>
    rw [List.map_cons] at h
    replace h := reads_cons.1 h
    obtain ⟨t, ops, rfl, ht, h⟩ := h
    intro u hu
    rcases List.mem_cons.1 hu with rfl | hu
    · rw [lower_kw ht (hw w (by simp))]; exact hj w (by simp)
    · exact ih (fun v hv => hw v (by simp [hv])) (fun v hv => hj v (by simp [hv])) h u hu

theorem kws_ne {ws ops : List Str} (hn : ws ≠ []) (hr : Reads (ws.map .kw) ops) : ∃ t ts, ops = t :: ts := by
  cases ws with
  | nil => exact absurd rfl hn
  | cons w ws =>
    rw [List.map_cons] at hr
    replace hr := reads_cons.1 hr
    obtain ⟨t, ops, rfl, -, -⟩ := hr
    exact ⟨t, ops, rfl⟩

/-- The keywords of a join. -/
theorem join_words {type : Str} (h : type ∈ (condJoins ++ crossJoins).map (·.1)) {ops : List Str}
    (hr : Reads (joinToks type) ops) : E.upper (Str.join str!" " ops) = type ∧
    (∀ t ∈ ops, lower t ∈ joinValues) ∧ ∃ t ts, ops = t :: ts := by
  have key : ∀ type ∈ (condJoins ++ crossJoins).map (·.1), ∃ ws, joinToks type = ws.map .kw ∧
      (∀ w ∈ ws, w.all isAscii = true) ∧ (∀ w ∈ ws, w ∈ joinValues) ∧ ws ≠ [] ∧
      Str.join str!" " (ws.map fun w => w.map Char.toUpper) = type := by
    intro type h
    refine ⟨((condJoins ++ crossJoins).lookup type).getD [], rfl, ?_⟩
    revert type
    decide
  obtain ⟨ws, h1, h2, h3, h4, h5⟩ := key type h
  rw [h1] at hr
  refine ⟨by rw [upper_words h2 hr, h5], ?_, ?_⟩
  · exact kws_mem h2 h3 hr
  · exact kws_ne h4 hr

/-- The keywords of a set operator. -/
theorem set_words {op : Str} (h : op ∈ setOps.map (·.1)) {ops : List Str}
    (hr : Reads (setToks op) ops) : E.upper (Str.join str!" " ops) = op ∧
    (∀ t ∈ ops, lower t ∈ setOperators) ∧ ∃ t ts, ops = t :: ts := by
  have key : ∀ op ∈ setOps.map (·.1), ∃ ws, setToks op = ws.map .kw ∧
      (∀ w ∈ ws, w.all isAscii = true) ∧ (∀ w ∈ ws, w ∈ setOperators) ∧ ws ≠ [] ∧
      Str.join str!" " (ws.map fun w => w.map Char.toUpper) = op := by
    intro op h
    refine ⟨(setOps.lookup op).getD [], rfl, ?_⟩
    revert op
    decide
  obtain ⟨ws, h1, h2, h3, h4, h5⟩ := key op h
  rw [h1] at hr
  exact ⟨by rw [upper_words h2 hr, h5], kws_mem h2 h3 hr, kws_ne h4 hr⟩

theorem untilNotIn_run {kept l : List Str} (hl : ∀ t ∈ l, lower t ∈ kept) {w : Str} (hw : lower w ∉ kept)
    (first : Option Str) (rest : List Str) (f : Option PyErr) :
    untilNotIn kept first ⟨l ++ w :: rest, f⟩ = .ok ((first.toList ++ l, some w), ⟨rest, f⟩) := by
  have : scanNotIn kept (l ++ w :: rest) = (l, some w, rest) := by
    induction l with
    | nil => simp [scanNotIn, hw]
    | cons t l ih =>
      rw [List.cons_append, scanNotIn, if_pos (hl t (by simp)), ih fun u hu => hl u (by simp [hu])]
  unfold untilNotIn
  simp only [this]
  rfl

theorem joinLoopF_run {r : Rec} {left right on us : Node} {t t2 ou t3 : Option Str} {ops ts zs : List Str}
    {s s1 s2 s3 s' : Stream}
    (h1 : inWords t joinValues = true) (h2 : untilNotIn joinValues t s = .ok ((ops, t2), s1))
    (h3 : joinTokens (E.upper (Str.join str!" " ops)) t2 s1 = .ok ((ts, ou), s2))
    (h4 : r.from_ ⟨ts, none⟩ = .ok (right, s')) (h5 : untilOneOf joinValues none [] s2 = .ok ((zs, t3), s3))
    (h6 : (isWord ou str!"on" = true ∧ us = .none ∧ ∃ e x s', on = .on e ∧ r.expr {} ⟨zs, none⟩ = .ok ((e, x), s')) ∨
      (isWord ou str!"on" = false ∧ isWord ou str!"using" = true ∧ on = .none ∧
        ∃ e x s', us = .using_ e ∧ r.expr {} ⟨zs, none⟩ = .ok ((e, x), s')) ∨
      (isWord ou str!"on" = false ∧ isWord ou str!"using" = false ∧ on = .none ∧ us = .none))
    (h7 : t3 = none ∨ inWords t3 joinValues = true) :
    joinLoopF r left t s = r.joinLoop (.join (E.upper (Str.join str!" " ops)) left right on us) t3 s3 := by
  unfold joinLoopF
  rw [if_pos h1, bind_ok h2]
  dsimp only
  rw [bind_ok h3]
  dsimp only
  rw [bind_ok (sub_ok h4), bind_ok h5]
  dsimp only
  have fin : ∀ e : Node, (match t3 with
      | some tok => if !inWords t3 joinValues then fromAlias e tok >>= fun x => r.joinLoop x.1 x.2
          else r.joinLoop e t3
      | none => r.joinLoop e t3) s3 = r.joinLoop e t3 s3 := by
    intro e
    rcases h7 with rfl | h7
    · rfl
    · cases t3 with
      | none => rfl
      | some x => exact congrFun (if_neg (by simp [h7])) _
  rcases h6 with ⟨g1, rfl, e, x, s', rfl, g2⟩ | ⟨g1, g2, rfl, e, x, s', rfl, g3⟩ | ⟨g1, g2, rfl, rfl⟩
  · rw [if_pos g1, bind_ok (sub_ok g2)]
    exact fin _
  · rw [if_neg (by simp [g1]), if_pos g2, bind_ok (sub_ok g3)]
    exact fin _
  · rw [if_neg (by simp [g1]), if_neg (by simp [g2])]
    exact fin _

theorem source_avoid' {n : Node} (h : isSource n = true) : ∀ w ∈ sourceStops, w ∈ (avoid n).1 := by
  intro w hw
  cases n <;> first
    | exact hw
    | exact source_sub w hw
    | exact source_sub' w hw
    | exact absurd h Bool.false_ne_true

/-- Nothing in sources joined without conditions can be taken for ON or USING. -/
theorem plain_tame {n : Node} (hw : wf n = true) (hp : plainFrom n = true) {ts : List Str} (hr : Reads (toks n) ts) :
    Tame [str!"on", str!"using"] [] ts := by
  induction n using Node.rec (motive_2 := fun _ => True) generalizing ts with
  | join type l r on us hl hr' hon hus =>
    simp only [plainFrom, Bool.and_eq_true, Bool.not_eq_true'] at hp
    obtain ⟨⟨⟨p1, p2⟩, p3⟩, p4⟩ := hp
    rw [wf_truthy] at p3 p4
    subst p3 p4
    simp only [wf, Bool.and_eq_true, Bool.or_eq_true, decide_eq_true_eq] at hw
    obtain ⟨⟨⟨⟨⟨h1, h2⟩, h3⟩, -⟩, -⟩, h6⟩ := hw
    simp only [toks, List.append_nil, List.append_assoc] at hr
    replace hr := reads_append.1 hr
    obtain ⟨x, y, rfl, hx, hy⟩ := hr
    replace hy := reads_append.1 hy
    obtain ⟨j, y, rfl, hj, hy⟩ := hy
    refine Tame.append ((tame h2 hx).mono (fun w hw => source_avoid' p1 w ?_) (by simp)) (Tame.append ?_ (hr' h3 p2 hy))
    · revert w; decide
    · have key : ∀ ty ∈ (condJoins ++ crossJoins).map (·.1), ∀ w ∈ (((condJoins ++ crossJoins).lookup ty).getD []),
          w.all isAscii ∧ plainWord w ∧ w ∉ [str!"on", str!"using"] ∧ w ∉ ([] : List Str) := by decide
      exact reads_kws (key type (by rw [List.map_append, List.mem_append]; exact h6.imp (·.1.1) (·.1.1.1))) hj
  | nil => trivial
  | cons => trivial
  | _ => exact (tame hw hr).mono (fun w hw => source_avoid' hp w (by revert w; decide)) (by simp)

theorem join_type_cond {type : Str} (h : type ∈ condJoins.map (·.1)) :
    type ∈ (condJoins ++ crossJoins).map (·.1) ∧ ¬ (type = str!"CROSS JOIN" ∨ type = str!",") := by
  revert type; decide

theorem join_type_cross {type : Str} (h : type ∈ crossJoins.map (·.1)) :
    type ∈ (condJoins ++ crossJoins).map (·.1) ∧ (type = str!"CROSS JOIN" ∨ type = str!",") := by
  revert type; decide

theorem join_expr {e : Node} (hl : level e ≤ 3) (hw : wf e = true) {z : List Str} (hz : Reads (toks e) z)
    {rest : List Str} (hj : JoinEnd rest) :
    untilOneOf joinValues none [] ⟨z ++ rest, none⟩ = .ok ((z, rest.head?), ⟨rest.tail, none⟩) := by
  have tz := tame_expr hl hw hz
  rcases hj with rfl | ⟨w, rest', rfl, hw⟩
  · rw [List.append_nil]
    exact untilOneOf_end tz (by decide) (by decide) []
  · exact untilOneOf_stop tz (by decide) (by decide) [] hw (noKeep_nil _ _) _ _

/-- A join with a condition. -/
theorem join_cond_ok {type : Str} {l r on us : Node} (hw : wf (.join type l r on us) = true)
    (hc : on.truthy = true ∨ us.truthy = true) (hl : SpineOk l) (hr : FromOk r)
    (hon : ∀ e, on = .on e → ItemOk e) (hus : ∀ e, us = .using_ e → ItemOk e) :
    SpineOk (.join type l r on us) := by
  intro ts hts
  simp only [wf, Bool.and_eq_true, Bool.or_eq_true, decide_eq_true_eq, Bool.not_eq_true'] at hw
  obtain ⟨⟨⟨⟨⟨w1, w2⟩, w3⟩, w4⟩, w5⟩, w6⟩ := hw
  obtain ⟨⟨hty, hsrc⟩, hou⟩ : (type ∈ condJoins.map (·.1) ∧ plainFrom r = true) ∧
      (isOn on = true ∧ us.truthy = false ∨ on.truthy = false ∧ isUsing us = true) := by
    rcases w6 with ⟨h, h' | h'⟩ | h
    · exact ⟨h, h'⟩
    · exfalso
      rcases hc with hc | hc
      · rw [h'.1] at hc; cases hc
      · rw [h'.2] at hc; cases hc
    · exfalso
      rcases hc with hc | hc
      · rw [h.1.2] at hc; cases hc
      · rw [h.2] at hc; cases hc
  obtain ⟨hty1, hty2⟩ := join_type_cond hty
  simp only [toks, List.append_assoc] at hts
  replace hts := reads_append.1 hts
  obtain ⟨x, ts, rfl, hx, hts⟩ := hts
  replace hts := reads_append.1 hts
  obtain ⟨j, ts, rfl, hj, hts⟩ := hts
  replace hts := reads_append.1 hts
  obtain ⟨y, z, rfl, hy, hz⟩ := hts
  obtain ⟨hup, hjw, j0, js, rfl⟩ := join_words hty1 hj
  obtain ⟨l', hl', hl⟩ := hl x hx
  obtain ⟨r', hr', sr, hr⟩ := hr y hy
  have hrf : isFrom r = true := plain_from hsrc
  obtain ⟨y0, y, rfl, hy0, hyb⟩ := from_first r w3 (by simp [isBody, hrf]) y hy
  have hyj : lower y0 ∉ joinValues := fun hm => hyb (by simp [hm])
  have ty : Tame [str!"on", str!"using"] [] (y0 :: y) := plain_tame w3 hsrc hy
  -- the condition
  obtain ⟨k, z, e, rfl, hk, hze, hle, hwe, hkind⟩ : ∃ k z' e, z = k :: z' ∧ lower k ∈ [str!"on", str!"using"] ∧
      Reads (toks e) z' ∧ level e ≤ 3 ∧ wf e = true ∧
      ((lower k = str!"on" ∧ on = .on e ∧ us = .none) ∨ (lower k = str!"using" ∧ on = .none ∧ us = .using_ e)) := by
    rcases hou with ⟨h1, h2⟩ | ⟨h1, h2⟩
    · rw [wf_truthy] at h2
      subst h2
      cases on with
      | on e =>
        simp only [toks, List.append_nil] at hz
        replace hz := reads_cons.1 hz
        obtain ⟨k, z, rfl, hk, hz⟩ := hz
        have hkl := lower_kw hk (by decide)
        simp only [wf, Bool.and_eq_true, decide_eq_true_eq] at w4
        exact ⟨k, z, e, rfl, by rw [hkl]; decide, hz, w4.1, w4.2, .inl ⟨hkl, rfl, rfl⟩⟩
      | _ => simp [isOn] at h1
    · rw [wf_truthy] at h1
      subst h1
      cases us with
      | using_ e =>
        simp only [toks, List.nil_append] at hz
        replace hz := reads_cons.1 hz
        obtain ⟨k, z, rfl, hk, hz⟩ := hz
        have hkl := lower_kw hk (by decide)
        simp only [wf, Bool.and_eq_true, decide_eq_true_eq] at w5
        exact ⟨k, z, e, rfl, by rw [hkl]; decide, hz, by omega, w5.2, .inr ⟨hkl, rfl, rfl⟩⟩
      | _ => simp [isUsing] at h2
  obtain ⟨e', te, he', hie⟩ : ∃ e' te, fold e' = e ∧ Ev fun r => r.expr {} ⟨z, none⟩ = .ok ((e', te), ⟨[], none⟩) := by
    rcases hkind with ⟨-, rfl, -⟩ | ⟨-, -, rfl⟩
    · exact hon e rfl z hze
    · exact hus e rfl z hze
  obtain ⟨on', us', hon', hus', hform⟩ : ∃ on' us', fold on' = on ∧ fold us' = us ∧
      ((lower k = str!"on" ∧ on' = .on e' ∧ us' = .none) ∨ (lower k = str!"using" ∧ on' = .none ∧ us' = .using_ e')) := by
    rcases hkind with ⟨h, rfl, rfl⟩ | ⟨h, rfl, rfl⟩
    · exact ⟨.on e', .none, by simp [fold, he'], rfl, .inl ⟨h, rfl, rfl⟩⟩
    · exact ⟨.none, .using_ e', rfl, by simp [fold, he'], .inr ⟨h, rfl, rfl⟩⟩
  refine ⟨.join type l' r' on' us', by simp [fold, hl', hr', hon', hus'], fun rest res hje hres => ?_⟩
  have hh := hl (j0 :: js ++ (y0 :: y ++ k :: z) ++ rest) res (.inr ⟨j0, _, rfl, hjw j0 (by simp)⟩)
  rw [show x ++ (j0 :: js ++ (y0 :: y ++ k :: z) ++ rest) = x ++ (j0 :: js ++ (y0 :: y ++ k :: z)) ++ rest by simp] at hh
  refine hh (((hr.and hie).and hres).next ?_)
  rintro rr ⟨⟨g1, g2⟩, g3⟩
  show joinLoopF rr l' (some j0) ⟨js ++ (y0 :: y ++ k :: z) ++ rest, none⟩ = res
  have e1 : untilNotIn joinValues (some j0) ⟨js ++ (y0 :: y ++ k :: z) ++ rest, none⟩ =
      .ok ((j0 :: js, some y0), ⟨y ++ k :: (z ++ rest), none⟩) := by
    rw [show js ++ (y0 :: y ++ k :: z) ++ rest = js ++ y0 :: (y ++ k :: (z ++ rest)) by simp]
    exact untilNotIn_run (fun t ht => hjw t (by simp [ht])) hyj _ _ _
  have e2 : joinTokens (E.upper (Str.join str!" " (j0 :: js))) (some y0) ⟨y ++ k :: (z ++ rest), none⟩ =
      .ok ((y0 :: y, some k), ⟨z ++ rest, none⟩) := by
    unfold joinTokens
    rw [hup, if_neg hty2]
    exact untilOneOf_first_stop ty (by decide) (by decide) [] hk (noKeep_nil _ _) _ _
  rw [joinLoopF_run (by simp [inWords, hjw j0]) e1 e2 g1 (join_expr hle hwe hze hje)
    (on := on') (us := us') ?_ ?_, hup]
  · exact g3
  · rcases hform with ⟨h, rfl, rfl⟩ | ⟨h, rfl, rfl⟩
    · exact .inl ⟨isWord_lower.2 h, rfl, e', _, _, rfl, g2⟩
    · exact .inr (.inl ⟨by simp [isWord, lower?, h], isWord_lower.2 h, rfl, e', _, _, rfl, g2⟩)
  · rcases hje with rfl | ⟨w, rest', rfl, hw⟩
    · exact .inl rfl
    · exact .inr (by simp [inWords, hw])

/-- A join without a condition: everything that follows is its right side. -/
theorem join_plain_ok {type : Str} {l r on us : Node} (hw : wf (.join type l r on us) = true)
    (hc1 : on.truthy = false) (hc2 : us.truthy = false) (hl : SpineOk l) (hr : FromOk r) :
    FromOk (.join type l r on us) := by
  intro ts hts
  rw [wf_truthy] at hc1 hc2
  subst hc1 hc2
  simp only [wf, Bool.and_eq_true, Bool.or_eq_true, decide_eq_true_eq, Bool.not_eq_true', isOn, isUsing,
    Bool.false_eq_true, false_and, and_false, or_false, false_or] at hw
  obtain ⟨⟨⟨⟨⟨w1, w2⟩, w3⟩, w4⟩, w5⟩, w6⟩ := hw
  have hty1 : type ∈ (condJoins ++ crossJoins).map (·.1) := by
    rcases w6 with h | h
    · exact (join_type_cond h.1.1).1
    · exact (join_type_cross h.1.1.1).1
  have hrf : isFrom r = true := by
    rcases w6 with h | h
    · exact plain_from h.1.2
    · exact h.1.1.2
  simp only [toks, List.append_assoc, List.append_nil] at hts
  replace hts := reads_append.1 hts
  obtain ⟨x, ts, rfl, hx, hts⟩ := hts
  replace hts := reads_append.1 hts
  obtain ⟨j, y, rfl, hj, hy⟩ := hts
  obtain ⟨hup, hjw, j0, js, rfl⟩ := join_words hty1 hj
  obtain ⟨l', hl', hl⟩ := hl x hx
  obtain ⟨r', hr', sr, hr⟩ := hr y hy
  obtain ⟨y0, y, rfl, hy0, hyb⟩ := from_first r w3 (by simp [isBody, hrf]) y hy
  have hyj : lower y0 ∉ joinValues := fun hm => hyb (by simp [hm])
  refine ⟨.join type l' r' .none .none, by simp [fold, hl', hr'], ⟨[], none⟩, ?_⟩
  refine hl (j0 :: js ++ y0 :: y) _ (.inr ⟨j0, _, rfl, hjw j0 (by simp)⟩) ?_
  refine (hr.and (joinLoop_end (.join type l' r' .none .none) ⟨[], none⟩)).next ?_
  rintro rr ⟨g1, g2⟩
  show joinLoopF rr l' (some j0) ⟨js ++ y0 :: y, none⟩ = _
  have e1 : untilNotIn joinValues (some j0) ⟨js ++ y0 :: y, none⟩ = .ok ((j0 :: js, some y0), ⟨y, none⟩) :=
    untilNotIn_run (fun t ht => hjw t (by simp [ht])) hyj _ _ _
  have e2 : joinTokens (E.upper (Str.join str!" " (j0 :: js))) (some y0) ⟨y, none⟩ =
      .ok ((y0 :: y, none), ⟨[], none⟩) := by
    unfold joinTokens
    rw [hup]
    rcases w6 with h | h
    · rw [if_neg (join_type_cond h.1.1).2]
      exact untilOneOf_first_end (plain_tame w3 h.1.2 hy) (by decide) (by decide) []
    · rw [if_pos (join_type_cross h.1.1.1).2]
      rfl
  rw [joinLoopF_run (by simp [inWords, hjw j0]) e1 e2 g1
    (show untilOneOf joinValues none [] ⟨[], none⟩ = .ok (([], none), ⟨[], none⟩) from rfl)
    (on := .none) (us := .none) (.inr (.inr ⟨rfl, rfl, rfl, rfl⟩)) (.inl rfl), hup]
  exact g2

/-! ### Set operators -/

theorem FromOk.right {n : Node} (hw : wf n = true) (hf : isFrom n = true) (h : FromOk n) : RightOk n := by
  intro ts hr
  obtain ⟨n', hn', s', g⟩ := h ts hr
  obtain ⟨t, ts, rfl, -, ht⟩ := from_first n hw (by simp [isBody, hf]) ts hr
  refine ⟨n', hn', t, ts, rfl, fun hm => ht (by simp [hm]), g.mono fun r g s => ?_⟩
  rw [if_neg (fun he => ht (by simp [he]))]
  exact sub_ok g

theorem SelectOk.right {n : Node} (hs : n.isSelect = true) (h : SelectOk n) : RightOk n := by
  intro ts hr
  obtain ⟨t, ts, rfl, ht⟩ := select_reads hs hr
  obtain ⟨n', hn', h⟩ := h t ts hr
  obtain ⟨s', g⟩ := h [] none fun _ => ⟨rfl, rfl⟩
  rw [List.append_nil] at g
  refine ⟨n', hn', t, ts, rfl, by rw [ht]; decide, g.mono fun r g s => ?_⟩
  rw [if_pos ht]
  exact sub_ok g

/-- UNION, INTERSECT or EXCEPT: everything up to the next set operator is its right side. -/
theorem combined_ok {op : Str} {l r : Node} (hw : wf (.combined op l r) = true) (hl : SetOk l) (hr : RightOk r) :
    SetOk (.combined op l r) := by
  intro ts hts
  simp only [wf, Bool.and_eq_true, Bool.or_eq_true, decide_eq_true_eq] at hw
  obtain ⟨⟨⟨⟨w1, w2⟩, w3⟩, w4⟩, w5⟩ := hw
  simp only [toks, List.append_assoc] at hts
  replace hts := reads_append.1 hts
  obtain ⟨x, ts, rfl, hx, hts⟩ := hts
  replace hts := reads_append.1 hts
  obtain ⟨j, y, rfl, hj, hy⟩ := hts
  obtain ⟨hup, hjw, j0, js, rfl⟩ := set_words w1 hj
  obtain ⟨l', hl', hl⟩ := hl x hx
  have ty : Tame joinStops [] y := (tame w5 hy).mono (by
    rcases w3 with h | h
    · exact from_avoid h
    · exact bare_avoid h) (by simp)
  obtain ⟨r', hr', y0, y, rfl, hy0, hr⟩ := hr y hy
  refine ⟨.combined op l' r', by simp [fold, hl', hr'], fun rest q s res hje hset hjoin => ?_⟩
  have hh := hl (j0 :: js ++ y0 :: y ++ rest) q s res (.inr ⟨j0, _, rfl, hjw j0 (by simp)⟩)
  rw [show x ++ (j0 :: js ++ y0 :: y ++ rest) = x ++ (j0 :: js ++ y0 :: y) ++ rest by simp] at hh
  refine hh ((hr.and hset).next ?_) hjoin
  rintro rr ⟨g, g2⟩
  show setLoopF rr l' (some j0) ⟨js ++ y0 :: y ++ rest, none⟩ = _
  have e1 : untilNotIn setOperators (some j0) ⟨js ++ y0 :: y ++ rest, none⟩ =
      .ok ((j0 :: js, some y0), ⟨y ++ rest, none⟩) := by
    rw [show js ++ y0 :: y ++ rest = js ++ y0 :: (y ++ rest) by simp]
    exact untilNotIn_run (fun t ht => hjw t (by simp [ht])) hy0 _ _ _
  have e2 : untilOneOf setOperators (some y0) [] ⟨y ++ rest, none⟩ =
      .ok ((y0 :: y, rest.head?), ⟨rest.tail, none⟩) := by
    rcases hje with rfl | ⟨w, rest', rfl, h⟩
    · rw [List.append_nil]
      exact untilOneOf_first_end ty (by decide) (by decide) []
    · exact untilOneOf_first_stop ty (by decide) (by decide) [] h (noKeep_nil _ _) _ _
  have fin : ∀ (e : Node) (s : Stream), (match rest.head? with
      | some tok => if !inWords rest.head? setOperators then fromAlias e tok >>= fun x => rr.setLoop x.1 x.2
          else rr.setLoop e rest.head?
      | none => rr.setLoop e rest.head?) s = rr.setLoop e rest.head? s := by
    intro e s
    rcases hje with rfl | ⟨w, rest', rfl, h⟩
    · rfl
    · exact congrFun (if_neg (by simp [inWords, h])) _
  unfold setLoopF
  rw [if_pos (by simp [inWords, hjw j0]), bind_ok e1]
  dsimp only
  rw [bind_ok e2]
  dsimp only
  have g1 := g ⟨rest.tail, none⟩
  split
  · rename_i hsel
    rw [if_pos hsel] at g1
    rw [bind_ok g1, hup]
    exact (fin _ _).trans g2
  · rename_i hsel
    rw [if_neg hsel] at g1
    rw [bind_ok g1, hup]
    exact (fin _ _).trans g2

end SqlV.Core
