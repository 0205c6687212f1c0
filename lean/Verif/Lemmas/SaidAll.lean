import Verif.Lemmas.Said

/-!
# The parser reads nothing into the tokens: every parser
-/

namespace SqlV.Said

open Core (lower_self)

set_option linter.unusedSectionVars false

variable [E : PyEnv] [L : LawfulPyEnv E]

theorem Fits.la_toList (t : Option Str) : Fits (Said.lit (la t)) t.toList := ⟨_, rfl, la_sub t⟩

theorem Fits.la_some (t : Str) : Fits (Said.lit (la (some t))) [t] := ⟨_, rfl, la_sub (some t)⟩

theorem Fits.plain_la (t : Str) : Fits (plain t) (la (some t)) := by
  unfold plain
  simp only [la]
  split
  · exact Fits.skip
  · exact Fits.tok

theorem Fits.plain_self (t : Str) : Fits (plain t) [t] := (Fits.plain_la t).mono (la_sub (some t))

theorem lit_nil : lit [] = skip := rfl

theorem la_none : la none = [] := rfl

/-- Finds the words of a tree among the words in hand. -/
syntax "fit_core" : tactic

macro_rules
  | `(tactic| fit_core) => `(tactic| first
    | assumption
    | exact Fits.skip
    | exact Fits.tok
    | exact Fits.lit
    | exact Fits.la_toList _
    | exact Fits.la_some _
    | exact Fits.plain_la _
    | exact Fits.plain_self _
    | (refine Fits.one ?_; first | assumption | rfl | (simp_all; done))
    | (refine Fits.skip_left ?_; fit_core)
    | (refine Fits.cat ?_ ?_ <;> fit_core)
    | (refine Fits.right ?_; fit_core)
    | (refine Fits.left ?_; fit_core))

/-- The same, after writing out what the tree says. -/
macro "fit" : tactic =>
  `(tactic| ((try simp only [said, saidSeq, saidMore, saidList, held, cat_assoc, skip_cat, cat_skip, la_none, lit_nil, flag, optional,
      List.append_assoc, List.nil_append, List.append_nil, Option.toList_none, Option.toList_some, if_true, if_false,
      Bool.false_eq_true, reduceIte]) <;> fit_core))

namespace Ord

variable {pre : List Str} {β : Type} {c : β → Lang} {r : Rec}

theorem call {α : Type} {q : List Str} {p : P α} {f : α → P β} {b : α → Lang} (hp : Ord q p b)
    (hf : ∀ a w, b a w → Ord (pre ++ w) (f a) c) : Ord (pre ++ q) (p >>= f) c := by
  refine thread (b := fun a => lit pre ⋆ b a) ?_ ?_
  · intro s a s' e
    obtain ⟨w, hw, hl⟩ := hp s a s' e
    refine ⟨pre ++ w, ⟨pre, w, rfl, hw, rfl⟩, ?_⟩
    rw [List.append_assoc, List.append_assoc]
    exact (List.Sublist.refl _).append hl
  · rintro a _ ⟨_, w, rfl, hw, rfl⟩
    exact hf a w hw

theorem bind_pure {α : Type} {a : α} {f : α → P β} (h : Ord pre (f a) c) : Ord pre ((Pure.pure a : P α) >>= f) c := h

theorem ite {q : Prop} [Decidable q] {p p' : P β} (h : q → Ord pre p c) (h' : ¬ q → Ord pre p' c) :
    Ord pre (if q then p else p') c := by
  split
  · exact h ‹_›
  · exact h' ‹_›

theorem assoc {α γ : Type} {p : P α} {g : α → P γ} {f : γ → P β} (h : Ord pre (p >>= fun x => g x >>= f) c) :
    Ord pre ((p >>= g) >>= f) c := by
  have : ((p >>= g) >>= f) = (p >>= fun x => g x >>= f) := by
    funext s
    change P.bind (P.bind p g) f s = P.bind p (fun x => P.bind (g x) f) s
    unfold P.bind
    cases p s <;> rfl
  rw [this]
  exact h

theorem expr (hg : Faithful r) {a : ExprArgs} (ha : a.firstToken = none) {f : Node × Option Str → P β}
    (h : ∀ e t w, Fits (said e) w → Ord (pre ++ (w ++ la t)) (f (e, t)) c) : Ord pre (r.expr a >>= f) c := by
  have := hg.expr a
  rw [ha] at this
  refine read this ?_
  rintro ⟨e, t⟩ _ ⟨w, _, hw, rfl, rfl⟩
  exact h e t w (.of hw)

theorem expr_first (hg : Faithful r) {a : ExprArgs} {x : Str} (ha : a.firstToken = some x) {f : Node × Option Str → P β}
    (h : ∀ e t w, Fits (said e) w → Ord (pre ++ (w ++ la t)) (f (e, t)) c) : Ord (pre ++ [x]) (r.expr a >>= f) c := by
  have := hg.expr a
  rw [ha] at this
  refine call this ?_
  rintro ⟨e, t⟩ _ ⟨w, _, hw, rfl, rfl⟩
  exact h e t w (.of hw)

theorem subExpr (hg : Faithful r) {ts : List Str} {a : ExprArgs} (ha : a.firstToken = none) {f : Node × Option Str → P β}
    (h : ∀ e t, Fits (said e) ts → Ord pre (f (e, t)) c) : Ord pre (P.sub ts (r.expr a) >>= f) c := by
  have := hg.expr a
  rw [ha] at this
  refine sub this ?_
  rintro ⟨e, t⟩ hf
  obtain ⟨x, y, hx, _, hl⟩ := hf.split
  exact h e t (hx.mono ((List.sublist_append_left _ _).trans hl))

theorem subList (hg : Faithful r) {ts : List Str} {b : Bool} {f : List Node → P β}
    (h : ∀ es, Fits (saidList es) ts → Ord pre (f es) c) : Ord pre (P.sub ts (r.exprList b) >>= f) c :=
  sub (hg.exprList b) h

theorem subFrom (hg : Faithful r) {ts : List Str} {f : Node → P β}
    (h : ∀ e, Fits (said e) ts → Ord pre (f e) c) : Ord pre (P.sub ts r.from_ >>= f) c :=
  sub hg.from_ h

theorem subStmt (hg : Faithful r) {ts : List Str} {f : Node → P β}
    (h : ∀ e, Fits (said e) ts → Ord pre (f e) c) : Ord pre (P.sub ts r.stmt >>= f) c :=
  sub hg.stmt h

theorem subWith {α : Type} {ts q : List Str} {p : P α} {b : α → Lang} (hp : Ord q p b) {f : α → P β}
    (h : ∀ a, Fits (b a) (q ++ ts) → Ord pre (f a) c) : Ord pre (P.sub ts p >>= f) c := by
  intro s x s' e
  change P.bind (P.sub ts p) f s = _ at e
  unfold P.bind P.sub at e
  cases hps : p ⟨ts, none⟩ with
  | ok y =>
    obtain ⟨a, s1⟩ := y
    rw [hps] at e
    obtain ⟨w, hw, hl⟩ := hp _ _ _ hps
    exact h a ⟨w, hw, (List.sublist_append_left _ _).trans hl⟩ _ _ _ e
  | err _ => rw [hps] at e; cases e
  | diverge => rw [hps] at e; cases e

theorem orderLoop (hg : Faithful r) {t : Option Str} (ht : ∀ x, t = some x → lower x = str!",") {f : List Node → P β}
    (h : ∀ es w, Fits (saidMore es) w → Ord (pre ++ w) (f es) c) : Ord (pre ++ t.toList) (r.orderLoop t >>= f) c :=
  call (hg.orderLoop t ht) fun a w hw => h a w (.of hw)

theorem stringParser {q : Str} {p : Option Str} {f : Node → P β} (hq : lower q ∈ [str!"'", str!"\"", str!"`"])
    (h : ∀ v w, Fits (literal v q p) (p.toList ++ w) → Ord (pre ++ w) (f (.string v q p)) c) :
    Ord pre (stringParser q p >>= f) c := by
  refine read (b := fun n ws => ∃ v, n = .string v q p ∧ Fits (literal v q p) (p.toList ++ ws)) ?_ ?_
  · have hp : Fits (optional p) p.toList := by
      cases p with
      | none => exact Fits.skip
      | some x => exact Fits.tok
    have hc : Fits (one fun w => w = q ∧ lower w ∈ [str!"'", str!"\"", str!"`"]) [q] := Fits.one ⟨rfl, hq⟩
    unfold SqlV.stringParser
    have key : Ord [] (SqlV.stringParser q p) fun n ws => ∃ v, n = .string v q p ∧ Fits (literal v q p) (p.toList ++ ws) := by
      unfold SqlV.stringParser
      refine next? ?_
      rintro (_ | x)
      · refine next! ?_
        intro t
        exact raise
      · dsimp only
        split
        · rename_i hx
          subst hx
          refine Ord.pure ⟨_, ⟨_, rfl, ?_⟩, .refl _⟩
          unfold literal
          rw [if_pos rfl, skip_cat]
          exact hp.cat hc
        · refine next! ?_
          intro t
          split
          · exact raise
          · rename_i hx
            simp only [ne_eq, Decidable.not_not] at hx
            subst hx
            refine Ord.pure ⟨_, ⟨_, rfl, ?_⟩, .refl _⟩
            unfold literal
            refine hp.cat ?_
            split
            · rw [skip_cat]; exact hc.right
            · exact (Fits.right Fits.tok).cat hc
    exact key
  · rintro _ w ⟨v, rfl, hv⟩
    exact h v w hv

end Ord

/-- One step through a parser, with the facts about the recursive parsers in `hg`. -/
macro "ord_step" hg:ident : tactic =>
  `(tactic| first
    | with_reducible exact Ord.raise
    | ((with_reducible refine Ord.pure ?_); fit; done)
    | (with_reducible refine Ord.bind_pure ?_; try dsimp only)
    | (with_reducible refine Ord.next! fun _ => ?_; try dsimp only)
    | (with_reducible refine Ord.next? fun _ => ?_; try dsimp only)
    | (with_reducible refine Ord.untilClosing fun _ => ?_; try dsimp only)
    | (with_reducible refine Ord.untilOneOf fun _ _ _ => ?_; try dsimp only)
    | (with_reducible refine Ord.untilOneOf_first fun _ _ _ _ => ?_; try dsimp only)
    | (with_reducible refine Ord.drain fun _ => ?_; try dsimp only)
    | (with_reducible refine Ord.toIntP fun _ _ => ?_; try dsimp only)
    | (with_reducible refine Ord.floatStrP fun _ _ => ?_; try dsimp only)
    | (with_reducible refine Ord.assert fun _ => ?_; try dsimp only)
    | (with_reducible refine Ord.subExpr $hg (by rfl) fun _ _ _ => ?_; try dsimp only)
    | (with_reducible refine Ord.subList $hg fun _ _ => ?_; try dsimp only)
    | (with_reducible refine Ord.subFrom $hg fun _ _ => ?_; try dsimp only)
    | (with_reducible refine Ord.subStmt $hg fun _ _ => ?_; try dsimp only)
    | (with_reducible refine Ord.expr $hg (by rfl) fun _ _ _ _ => ?_; try dsimp only))

/-- Steps through a parser. -/
macro "ord_auto" hg:ident : tactic => `(tactic| repeat' ord_step $hg)

section

variable {r : Rec} (hg : Faithful r)
include hg

theorem ord_stmtF : Ord [] (stmtF r) said := by
  unfold stmtF
  ord_step hg
  rename_i t
  split
  · rename_i h
    exact hg.select t h
  · split
    · rename_i h
      refine Ord.read (hg.withLoop [] [] Fits.skip) ?_
      rintro qs _ ⟨w, _, hw, ⟨k, hk, rfl⟩, rfl⟩
      have hw := Fits.of hw
      rw [← List.append_assoc]
      refine Ord.call (hg.select k hk) ?_
      intro n v hv
      have hv := Fits.of hv
      ord_auto hg
    · exact Ord.raise

omit hg in
theorem saidSeq_snoc (l : List Node) (n : Node) : saidSeq (l ++ [n]) = saidSeq l ⋆ said n := by
  induction l with
  | nil => simp only [List.nil_append, saidSeq, cat_skip, skip_cat]
  | cons m l ih => simp only [List.cons_append, saidSeq, ih, cat_assoc]

theorem ord_withLoopF (acc : List Node) (pre : List Str) (h : Fits (saidSeq acc) pre) :
    Ord pre (withLoopF r acc) fun qs => saidSeq qs ⋆ word str!"select" := by
  unfold withLoopF
  ord_auto hg
  simp only [decide_eq_true_eq] at *
  split
  · refine Ord.pure ?_
    rw [saidSeq_snoc]
    fit
  · refine hg.withLoop _ _ ?_
    rw [saidSeq_snoc]
    fit

theorem ord_orderItemF : Ord [] (orderItemF r) said := by
  unfold orderItemF
  ord_step hg
  rename_i ts t ht
  ord_step hg
  rename_i e _ he
  refine Ord.pure ?_
  cases h1 : isWord t str!"asc" with
  | true =>
    obtain ⟨x, rfl, hx⟩ := isWord_some h1
    simp only [Bool.not_true, Bool.false_and]
    fit
  | false =>
    cases h2 : isWord t str!"desc" with
    | true =>
      obtain ⟨x, rfl, hx⟩ := isWord_some h2
      simp only [Bool.not_false, Bool.true_and]
      fit
    | false =>
      simp only [Bool.not_false, Bool.true_and]
      fit

theorem ord_orderLoopF (t : Option Str) (ht : ∀ x, t = some x → lower x = str!",") :
    Ord t.toList (orderLoopF r t) saidMore := by
  unfold orderLoopF
  split
  · rename_i h
    obtain ⟨x, rfl⟩ := truthy_some h
    have hx := ht x rfl
    ord_step hg
    rename_i ts t ht
    refine Ord.sub (ord_orderItemF hg) fun item hi => ?_
    rw [← List.append_assoc]
    refine Ord.orderLoop hg (by simpa using ht) fun es w hw => ?_
    ord_auto hg
  · exact Ord.pure Fits.skip

/-- An ORDER BY clause without its two keywords. -/
def ordered (n : Node) : Lang := fun ws => ∃ args, n = .orderBy args ∧ saidList args ws

omit hg in
theorem Fits.ordered {n : Node} {l : List Str} {a b : Str} (ha : lower a = str!"order") (hb : lower b = str!"by")
    (h : Fits (ordered n) l) : Fits (said n) ([a] ++ ([b] ++ l)) := by
  obtain ⟨ws, ⟨args, rfl, hw⟩, hl⟩ := h
  have : Fits (saidList args) l := ⟨ws, hw, hl⟩
  fit

theorem ord_orderByF : Ord [] (orderByF r) ordered := by
  unfold orderByF
  ord_step hg
  rename_i ts t ht
  refine Ord.sub (ord_orderItemF hg) fun item hi => ?_
  rw [← List.append_assoc]
  refine Ord.orderLoop hg (by simpa using ht) fun es w hw => ?_
  refine Ord.pure ?_
  have : Fits (saidList (item :: es)) ([] ++ ts ++ w) := by fit
  obtain ⟨ws, h1, h2⟩ := this
  exact ⟨ws, ⟨_, rfl, h1⟩, h2⟩

theorem ord_whereF (k : Str) (hk : lower k = str!"where") : Ord [k] (whereF r) held := by
  unfold whereF
  ord_auto hg

theorem ord_havingF (k : Str) (hk : lower k = str!"having") : Ord [k] (havingF r) held := by
  unfold havingF
  ord_auto hg

/-- A GROUP BY clause without its keywords. -/
def grouped (each : Bool) (n : Node) : Lang := fun ws =>
  ∃ args rollup, n = .groupBy args rollup each ∧ (flag rollup str!"rollup" ⋆ saidList args) ws

theorem ord_groupByF (each : Bool) : Ord [] (groupByF r each) (grouped each) := by
  unfold groupByF
  ord_step hg
  rename_i t
  have key : ∀ (l : List Str) (es : List Node) (b : Bool), Fits (flag b str!"rollup" ⋆ saidList es) l →
      Ord l (pure (.groupBy es b each)) (grouped each) := by
    rintro l es b ⟨ws, h1, h2⟩
    exact Ord.pure ⟨ws, ⟨es, b, rfl, h1⟩, h2⟩
  by_cases ht : lower t = str!"rollup"
  · simp only [ht, decide_true, if_true]
    ord_step hg
    ord_step hg
    refine key _ _ _ ?_
    fit
  · simp only [ht, decide_false, Bool.false_eq_true, if_false]
    ord_step hg
    ord_step hg
    refine key _ _ _ ?_
    fit

theorem ord_limitF (k : Str) (hk : lower k = str!"limit") : Ord [k] (limitF r) said := by
  unfold limitF
  ord_step hg
  split
  · ord_auto hg
  · ord_auto hg

theorem ord_offsetF (k : Str) (hk : lower k = str!"offset") : Ord [k] (offsetF r) said := by
  unfold offsetF
  ord_auto hg

/-- What is read before the select list. -/
def head (x : Bool × Bool × List Node × Option Str) : Lang :=
  flag x.1 str!"all" ⋆ flag x.2.1 str!"distinct" ⋆
    (if x.2.2.1 = [] then skip else word str!"on" ⋆ saidList x.2.2.1) ⋆ lit x.2.2.2.toList

theorem ord_selectHeadF : Ord [] (selectHeadF r) head := by
  unfold selectHeadF
  ord_step hg
  split
  · refine Ord.pure ?_
    simp only [head]
    fit
  · split
    · ord_step hg
      split
      · ord_step hg
        ord_step hg
        ord_step hg
        refine Ord.pure ?_
        simp only [head]
        split <;> fit
      · refine Ord.pure ?_
        simp only [head]
        fit
    · refine Ord.pure ?_
      simp only [head]
      fit

/-- A clause, and the token after it. -/
def fromHeld (x : Node × Option Str) : Lang := headed str!"from" x.1 (said x.1) ⋆ lit (la x.2)

omit hg in
theorem Fits.headed_none {k : Str} {a : Lang} {l : List Str} : Fits (headed k .none a) l :=
  ⟨[], .inl ⟨rfl, rfl⟩, List.nil_sublist _⟩

omit hg in
theorem Fits.headed {k w : Str} {n : Node} {a : Lang} {l : List Str} (hw : lower w = k) (h : Fits a l) :
    Fits (headed k n a) ([w] ++ l) := .orr (.cat (.one hw) h)

theorem ord_selectFromF (t : Option Str) : Ord (la t) (selectFromF r t) fromHeld := by
  unfold selectFromF
  split
  · rename_i h
    obtain ⟨x, rfl, hx⟩ := isWord_some h
    rw [la_word hx]
    ord_step hg
    ord_step hg
    rename_i h
    refine Ord.pure ?_
    unfold fromHeld
    rw [← List.append_assoc]
    exact (Fits.headed hx h).cat (Fits.la_toList _)
  · refine Ord.pure ?_
    unfold fromHeld
    exact .cat (l := []) .headed_none .lit

theorem ord_selectWhereF (t : Option Str) : Ord (la t) (selectWhereF r t) held := by
  unfold selectWhereF
  split
  · rename_i h
    obtain ⟨x, rfl, hx⟩ := isWord_some h
    rw [la_word hx]
    exact ord_whereF hg x hx
  · ord_auto hg

theorem ord_selectHavingF (t : Option Str) : Ord (la t) (selectHavingF r t) held := by
  unfold selectHavingF
  split
  · rename_i h
    obtain ⟨x, rfl, hx⟩ := isWord_some h
    rw [la_word hx]
    exact ord_havingF hg x hx
  · ord_auto hg

theorem ord_selectGroupF (t : Option Str) : Ord (la t) (selectGroupF r t) held := by
  unfold selectGroupF
  split
  · rename_i h
    obtain ⟨x, rfl, hx⟩ := isWord_some h
    rw [la_word hx]
    have key : ∀ (each : Bool) (t : Option Str) (pre : List Str),
        (∀ y args b l, lower y = str!"by" → t = some y → Fits (flag b str!"rollup" ⋆ saidList args) l →
          Fits (said (.groupBy args b each)) (pre ++ l)) →
        Ord pre (if (!isWord t str!"by") = true then P.raise (.parsing str!"Missing BY after GROUP")
          else do
            let (ts, t) ← untilOneOf [str!"having", str!"order", str!"limit", str!"offset", str!";"]
            let g ← P.sub ts (groupByF r each)
            return (g, t)) held := by
      intro each t pre hk
      split
      · exact Ord.raise
      · rename_i hb
        simp only [Bool.not_eq_true', Bool.not_eq_false] at hb
        obtain ⟨y, rfl, hy⟩ := isWord_some hb
        ord_step hg
        refine Ord.sub (ord_groupByF hg each) ?_
        rintro n ⟨ws, ⟨args, b, rfl, h1⟩, h2⟩
        refine Ord.pure ?_
        unfold held
        rw [← List.append_assoc]
        exact (hk y args b _ hy rfl ⟨ws, h1, h2⟩).cat (Fits.la_toList _)
    ord_step hg
    rename_i t
    cases h : isWord t str!"each" with
    | true =>
      obtain ⟨z, rfl, hz⟩ := isWord_some h
      simp only [if_true]
      ord_step hg
      refine key _ _ _ ?_
      rintro y args b l hy rfl hf
      fit
    | false =>
      simp only [Bool.false_eq_true, if_false]
      refine key _ _ _ ?_
      rintro y args b l hy rfl hf
      fit
  · ord_auto hg

theorem ord_selectOrderF (t : Option Str) : Ord (la t) (selectOrderF r t) held := by
  unfold selectOrderF
  split
  · rename_i h
    obtain ⟨x, rfl, hx⟩ := isWord_some h
    rw [la_word hx]
    ord_step hg
    split
    · exact Ord.raise
    · rename_i hb
      simp only [Bool.not_eq_true', Bool.not_eq_false] at hb
      obtain ⟨y, rfl, hy⟩ := isWord_some hb
      ord_step hg
      refine Ord.sub (ord_orderByF hg) fun n hn => ?_
      have := Fits.ordered hx hy hn
      refine Ord.pure ?_
      unfold held
      rw [← List.append_assoc]
      refine Fits.cat ?_ (Fits.la_toList _)
      simpa using this
  · ord_auto hg

theorem ord_selectLimitF (t : Option Str) : Ord (la t) (selectLimitF r t) held := by
  unfold selectLimitF
  split
  · rename_i h
    obtain ⟨x, rfl, hx⟩ := isWord_some h
    rw [la_word hx]
    ord_step hg
    refine Ord.subWith (ord_limitF hg x hx) fun n hn => ?_
    refine Ord.pure ?_
    unfold held
    rw [← List.append_assoc]
    exact hn.cat (Fits.la_toList _)
  · ord_auto hg

theorem ord_selectOffsetF (t : Option Str) : Ord (la t) (selectOffsetF r t) held := by
  unfold selectOffsetF
  split
  · rename_i h
    obtain ⟨x, rfl, hx⟩ := isWord_some h
    rw [la_word hx]
    ord_step hg
    refine Ord.subWith (ord_offsetF hg x hx) fun n hn => ?_
    refine Ord.pure ?_
    unfold held
    rw [← List.append_assoc]
    exact hn.cat (Fits.la_toList _)
  · ord_auto hg

omit hg in
theorem Ord.held {pre : List Str} {β : Type} {c : β → Lang} {p : P (Node × Option Str)} {f : Node × Option Str → P β}
    {t : Option Str} (hp : Ord (la t) p held)
    (h : ∀ n t' w, Fits (said n) w → Ord (pre ++ w ++ la t') (f (n, t')) c) : Ord (pre ++ la t) (p >>= f) c := by
  refine Ord.call hp ?_
  rintro ⟨n, t'⟩ _ ⟨w, _, hw, rfl, rfl⟩
  rw [← List.append_assoc]
  exact h n t' w (.of hw)

theorem ord_selectF (k : Str) (hk : lower k = str!"select") : Ord [k] (selectF r) said := by
  unfold selectF
  refine Ord.read (ord_selectHeadF hg) ?_
  rintro ⟨all, distinct, on, first⟩ _ ⟨w1, _, h1, ⟨w2, _, h2, ⟨w3, _, h3, rfl, rfl⟩, rfl⟩, rfl⟩
  dsimp only
  have h1 : Fits (flag all str!"all") w1 := .of h1
  have h2 : Fits (flag distinct str!"distinct") w2 := .of h2
  have h3 : Fits (if on = [] then skip else word str!"on" ⋆ saidList on) w3 := .of h3
  have key : ∀ (ts : List Str) (t : Option Str), Ord ([k] ++ w1 ++ w2 ++ w3 ++ ts ++ la t) (do
      let exprs ← P.sub ts (r.exprList false)
      let (f, t) ← selectFromF r t
      let (w, t) ← selectWhereF r t
      let (g, t) ← selectGroupF r t
      let (h, t) ← selectHavingF r t
      let (o, t) ← selectOrderF r t
      let (l, t) ← selectLimitF r t
      let (off, t) ← selectOffsetF r t
      return .select exprs all distinct on f w g h o l off (decide (t = some str!";"))) said := by
    intro ts t
    ord_step hg
    rename_i es hes
    refine Ord.call (ord_selectFromF hg t) ?_
    rintro ⟨f, t⟩ _ ⟨wf, _, hf, rfl, rfl⟩
    have hf := Fits.of hf
    rw [← List.append_assoc]
    dsimp only at *
    refine Ord.held (ord_selectWhereF hg t) fun w t ww hw => ?_
    refine Ord.held (ord_selectGroupF hg t) fun g t wg hgr => ?_
    refine Ord.held (ord_selectHavingF hg t) fun h t wh hh => ?_
    refine Ord.held (ord_selectOrderF hg t) fun o t wo ho => ?_
    refine Ord.held (ord_selectLimitF hg t) fun l t wl hl => ?_
    refine Ord.held (ord_selectOffsetF hg t) fun off t wof hoff => ?_
    refine Ord.pure ?_
    have hsemi : Fits (if decide (t = some str!";") = true then tok str!";" else skip) (la t) := by
      by_cases ht : t = some str!";"
      · subst ht
        rw [if_pos (by simp), la_word (lower_self (by decide) (by decide))]
        exact .tok
      · rw [if_neg (by simpa using ht)]
        exact .skip
    simp only [said]
    have hk' : Fits (word str!"select") [k] := .one hk
    simp only [List.append_assoc]
    exact hk'.cat (h1.cat (h2.cat (h3.cat (hes.cat (hf.cat (hw.cat (hgr.cat (hh.cat (ho.cat (hl.cat (hoff.cat hsemi)))))))))))
  cases first with
  | none =>
    ord_step hg
    rename_i ts t ht
    refine (key ts t).weaken ?_
    simp only [List.append_assoc, Option.toList_none, List.nil_append]
    exact ((((((la_sub t).append_left _).append_left _).append_left _).append_left _).append_left _)
  | some x =>
    simp only [Option.toList_some]
    rw [← List.append_assoc, ← List.append_assoc, ← List.append_assoc]
    ord_step hg
    rename_i ts t ht _
    refine (key ts t).weaken ?_
    simp only [List.append_assoc]
    exact ((((((la_sub t).append_left _).append_left _).append_left _).append_left _).append_left _)

omit hg in
theorem quotes_lower {q : Str} (h : q ∈ quotes) : lower q ∈ [str!"'", str!"\"", str!"`"] := by
  simp only [quotes, List.mem_cons, List.not_mem_nil, or_false] at h
  rcases h with rfl | rfl | rfl <;> rw [lower_self (by decide) (by decide)] <;> decide

omit hg in
theorem ord_fromAlias (e : Node) (t : Str) (pre : List Str) (h : Fits (held (e, some t)) pre) :
    Ord pre (fromAlias e t) held := by
  obtain ⟨we, wt, he, ⟨_, rfl, ht⟩, hl⟩ := h.split
  refine Ord.weaken ?_ (((List.Sublist.refl we).append ht).trans hl)
  clear ht hl h
  have h1 : ∀ (b : Bool) (a : Node) (w wa : List Str), Fits (flag b str!"as") w → Fits (said a) wa →
      Ord (we ++ (w ++ wa)) (next? >>= fun x => pure (Node.alias e a b, x)) held := by
    intro b a w wa hw ha
    refine Ord.next? fun x => Ord.pure ?_
    simp only [held, said]
    exact .cat (.cat he (.cat hw ha)) (.la_toList _)
  unfold fromAlias
  have h2 : ∀ (b : Bool) (a : Str) (w wa : List Str), Fits (flag b str!"as") w → Fits (plain a) wa →
      Ord (we ++ (w ++ wa)) (if a ∈ quotes then do
          let alias ← stringParser a
          let t' ← next?
          pure (Node.alias e alias b, t')
        else do
          let alias ← pure (Node.raw a)
          let t' ← next?
          pure (Node.alias e alias b, t')) held := by
    intro b a w wa hw ha
    split
    · rename_i hq
      refine Ord.stringParser (quotes_lower hq) fun v w' hv => ?_
      refine (h1 b _ w w' hw (by simpa only [said, Option.toList_none, List.nil_append] using hv)).weaken ?_
      simp only [List.append_assoc]
      exact ((List.Sublist.refl _).append ((List.Sublist.refl _).append (List.sublist_append_right _ _)))
    · exact h1 b _ w wa hw (by simpa only [said] using ha)
  dsimp only
  split
  · rename_i h
    simp only [decide_eq_true_eq] at h
    refine Ord.next! fun a => ?_
    simp only [h, decide_true, List.append_assoc]
    rw [la_word h]
    exact h2 true a [t] [a] (by simp only [flag, if_true]; exact .one h) (.plain_self _)
  · rename_i h
    simp only [decide_eq_true_eq] at h
    simp only [h, decide_false]
    exact h2 false t [] _ (by simp only [flag, Bool.false_eq_true, if_false]; exact .skip) (.plain_la _)

theorem ord_unnestF (k : Str) (hk : lower k = str!"unnest") : Ord [k] (unnestF r) held := by
  unfold unnestF
  ord_step hg
  ord_step hg
  rename_i hp
  simp only [decide_eq_true_eq] at hp
  subst hp
  ord_step hg
  ord_step hg
  rename_i ts args hargs
  have he : Fits (said (.func str!"unnest" args)) ([k] ++ ([str!"("] ++ ts)) := by
    simp only [said]
    exact .cat (.one (.inr ⟨trivial, hk⟩)) (.cat .tok hargs)
  have key : ∀ (e : Node) (t : Option Str) (w : List Str), Fits (said e) w →
      Ord (w ++ la t) (if isWord t str!"with" then do
        let t ← next!
        P.assert (lower t = str!"offset")
        let t ← next?
        match t with
        | some tok =>
          if !inWords t joinValues && !inWords t setOperators then do
            if lower tok = str!"as" then do
              let a ← next!
              let t ← next?
              return (.unnest e true true (some a), t)
            else do
              let t ← next?
              return (.unnest e true false (some tok), t)
          else return (.unnest e true false none, t)
        | none => return (.unnest e true false none, t)
      else return (.unnest e false false none, t)) held := by
    intro e t w he
    split
    · rename_i h
      obtain ⟨x, rfl, hx⟩ := isWord_some h
      rw [la_word hx]
      ord_step hg
      ord_step hg
      rename_i ho
      simp only [decide_eq_true_eq] at ho
      ord_step hg
      rename_i t
      cases t with
      | none => dsimp only; ord_auto hg
      | some y =>
        dsimp only
        split
        · split
          · ord_auto hg
          · ord_auto hg
        · ord_auto hg
    · ord_auto hg
  ord_step hg
  rename_i t
  cases t with
  | none =>
    refine (key _ none _ he).weaken ?_
    simp only [la, List.append_assoc]
    exact .refl _
  | some x =>
    dsimp only
    split
    · refine Ord.thread (ord_fromAlias _ _ _ (Fits.mono (.cat he (.la_some x)) ?_)) ?_
      · simp only [List.append_assoc, Option.toList_some]; exact .refl _
      · rintro ⟨e, t⟩ _ ⟨w, _, hw, rfl, rfl⟩
        exact key e t w (.of hw)
    · refine (key _ (some x) _ he).weaken ?_
      simp only [List.append_assoc]
      exact ((la_sub (some x)).append_left _).append_left _ |>.append_left _

theorem ord_fromHeadF : Ord [] (fromHeadF r) held := by
  unfold fromHeadF
  ord_step hg
  rename_i t
  split
  · rename_i ht
    subst ht
    ord_step hg
    rename_i ts
    have : Ord ts (P.orElseParsing (P.sub ts r.stmt) (P.sub ts r.from_)) said :=
      .orElse (.sub' hg.stmt (.refl _)) (.sub' hg.from_ (.refl _))
    refine Ord.call this fun n w hw => ?_
    have hw := Fits.of hw
    ord_auto hg
  · split
    · rename_i hq
      refine Ord.stringParser (quotes_lower hq) fun v w hv => ?_
      ord_step hg
      rename_i t'
      refine Ord.thread (hg.dotLoop _ _ t' _ ?_) ?_
      · simp only [held, said]
        exact .cat (.right (by simpa only [Option.toList_none, List.nil_append] using hv)) (.la_toList _)
      · rintro ⟨e, t⟩ _ ⟨w, _, hw, rfl, rfl⟩
        have hw := Fits.of hw
        dsimp only
        ord_auto hg
    · split
      · rename_i ht
        subst ht
        ord_step hg
        ord_step hg
        ord_step hg
        rename_i h
        simp only [decide_eq_true_eq] at h
        subst h
        ord_auto hg
      · split
        · rename_i h
          exact ord_unnestF hg t h
        · ord_auto hg

theorem ord_fromF : Ord [] (fromF r) said := by
  unfold fromF
  refine Ord.thread (ord_fromHeadF hg) ?_
  rintro ⟨e, t⟩ w hw
  have key : ∀ (x : Node × Option Str) (w : List Str), held x w → Ord w (do
      let (e, t) ← r.setLoop x.1 x.2
      r.joinLoop e t) said := by
    rintro ⟨e, t⟩ w hw
    refine Ord.thread (hg.setLoop e t w (.of hw)) ?_
    rintro ⟨e, t⟩ w hw
    exact hg.joinLoop e t w (.of hw)
  cases t with
  | none => exact key (e, none) w hw
  | some x =>
    dsimp only
    split
    · exact Ord.thread (ord_fromAlias _ _ _ (.of hw)) key
    · exact key (e, some x) w hw

omit hg in
theorem inWords_mem {t : Option Str} {ws : List Str} (h : inWords t ws = true) : ∃ x, t = some x ∧ lower x ∈ ws := by
  obtain ⟨x, rfl⟩ := inWords_some h
  exact ⟨x, rfl, by simpa [inWords] using h⟩

theorem ord_setLoopF (left : Node) (t : Option Str) (pre : List Str) (h : Fits (held (left, t)) pre) :
    Ord pre (setLoopF r left t) held := by
  unfold setLoopF
  split
  · rename_i ht
    obtain ⟨x, rfl, hx⟩ := inWords_mem ht
    obtain ⟨we, wt, he, ⟨_, rfl, hwt⟩, hl⟩ := h.split
    refine Ord.weaken ?_ (((List.Sublist.refl we).append hwt).trans hl)
    clear h hl hwt
    dsimp only
    rw [la, if_neg (by intro h'; simp only [setOperators, List.mem_cons, List.not_mem_nil, or_false] at hx h'
                       rcases hx with hx | hx | hx | hx <;> rw [hx] at h' <;> revert h' <;> decide)]
    refine Ord.untilNotIn_first hx fun ops t hops hmem => ?_
    have hs : Fits (spaced [str!"union", str!"intersect", str!"except", str!"all"] (E.upper (Str.join str!" " ops))) ops :=
      .of ⟨hops, hmem, rfl⟩
    dsimp only
    have key : ∀ (ts : List Str) (t : Option Str), Ord (we ++ ops ++ ts ++ la t) (match ts with
        | [] => P.raise .index
        | t0 :: trest => do
          let right ← if lower t0 = str!"select" then P.sub trest r.select else P.sub ts r.from_
          let e := Node.combined (E.upper (Str.join str!" " ops)) left right
          let (e, t) ← match t with
            | some tok => if !inWords t setOperators then fromAlias e tok else pure (e, t)
            | none => pure (e, t)
          r.setLoop e t) held := by
      intro ts t
      cases ts with
      | nil => exact Ord.raise
      | cons t0 trest =>
        dsimp only
        have fin : ∀ (right : Node), Fits (said right) (t0 :: trest) →
            Ord (we ++ ops ++ (t0 :: trest) ++ la t) (do
              let (e, t) ← match t with
                | some tok =>
                  if !inWords t setOperators then
                    fromAlias (Node.combined (E.upper (Str.join str!" " ops)) left right) tok
                  else pure (Node.combined (E.upper (Str.join str!" " ops)) left right, t)
                | none => pure (Node.combined (E.upper (Str.join str!" " ops)) left right, t)
              r.setLoop e t) held := by
          intro right hr
          have hc : Fits (held (Node.combined (E.upper (Str.join str!" " ops)) left right, t))
              (we ++ ops ++ (t0 :: trest) ++ la t) := by
            simp only [held, said]
            refine .cat ?_ .lit
            rw [List.append_assoc]
            exact .cat he (.cat hs hr)
          cases t with
          | none => exact hg.setLoop _ _ _ hc
          | some y =>
            dsimp only
            split
            · refine Ord.thread (ord_fromAlias _ _ _ hc) ?_
              rintro ⟨e, t⟩ w hw
              exact hg.setLoop e t w (.of hw)
            · exact hg.setLoop _ _ _ hc
        split
        · rename_i hsel
          exact Ord.subWith (hg.select t0 hsel) fun n hn => fin n hn
        · exact Ord.subFrom hg fun n hn => fin n hn
    cases t with
    | none =>
      ord_step hg
      rename_i ts t ht
      refine (key ts t).weaken ?_
      simp only [List.append_assoc, Option.toList_none, List.nil_append]
      exact (((la_sub t).append_left _).append_left _).append_left _
    | some y =>
      simp only [Option.toList_some]
      rw [← List.append_assoc]
      ord_step hg
      rename_i ts t ht _
      refine (key ts t).weaken ?_
      simp only [List.append_assoc]
      exact (((la_sub t).append_left _).append_left _).append_left _
  · exact Ord.pure h

omit hg in
theorem ord_joinTokens {type : Str} {t : Option Str} {pre : List Str} {β : Type} {c : β → Lang}
    {f : List Str × Option Str → P β} (h : ∀ ts o, Ord (pre ++ (ts ++ o.toList)) (f (ts, o)) c) :
    Ord (pre ++ t.toList) (joinTokens type t >>= f) c := by
  unfold joinTokens
  split
  · refine Ord.assoc (Ord.drain fun ts => ?_)
    refine Ord.bind_pure ?_
    refine (h _ none).weaken ?_
    simp only [Option.toList_none, List.append_nil, List.append_assoc]
    refine (List.Sublist.refl _).append ((List.Sublist.refl _).append ?_)
    split
    · exact List.nil_sublist _
    · exact .refl _
  · cases t with
    | none =>
      simp only [Option.toList_none, List.append_nil]
      exact Ord.untilOneOf fun ts o _ => h ts o
    | some x => exact Ord.untilOneOf_first fun ts o _ _ => h ts o

theorem ord_joinLoopF (left : Node) (t : Option Str) (pre : List Str) (h : Fits (held (left, t)) pre) :
    Ord pre (joinLoopF r left t) said := by
  unfold joinLoopF
  split
  · rename_i ht
    obtain ⟨x, rfl, hx⟩ := inWords_mem ht
    obtain ⟨we, wt, he, ⟨_, rfl, hwt⟩, hl⟩ := h.split
    refine Ord.weaken ?_ (((List.Sublist.refl we).append hwt).trans hl)
    clear h hl hwt
    dsimp only
    rw [la, if_neg (by intro h'; simp only [joinValues, List.mem_cons, List.not_mem_nil, or_false] at hx h'
                       rcases hx with hx | hx | hx | hx | hx | hx | hx | hx | hx <;> rw [hx] at h' <;> revert h' <;> decide)]
    refine Ord.untilNotIn_first hx fun ops t hops hmem => ?_
    have hs : Fits (spaced joinWords (E.upper (Str.join str!" " ops))) ops := .of ⟨hops, hmem, rfl⟩
    dsimp only
    rw [← List.append_assoc]
    refine ord_joinTokens fun ts o => ?_
    dsimp only
    ord_step hg
    rename_i right hr
    ord_step hg
    rename_i ts' t' _
    have fin : ∀ (on using_ : Node) (l : List Str), Fits (said on ⋆ said using_) l →
        Ord (we ++ (ops ++ (ts ++ (l ++ la t')))) (do
          let (e, t) ← match t' with
            | some tok =>
              if !inWords t' joinValues then
                fromAlias (Node.join (E.upper (Str.join str!" " ops)) left right on using_) tok
              else pure (Node.join (E.upper (Str.join str!" " ops)) left right on using_, t')
            | none => pure (Node.join (E.upper (Str.join str!" " ops)) left right on using_, t')
          r.joinLoop e t) said := by
      intro on using_ l hlo
      have hc : Fits (held (Node.join (E.upper (Str.join str!" " ops)) left right on using_, t'))
          (we ++ (ops ++ (ts ++ (l ++ la t')))) := by
        simp only [held, said, cat_assoc]
        have := Fits.cat he (.cat hs (.cat hr (.cat hlo (.lit (l := la t')))))
        rwa [cat_assoc] at this
      cases t' with
      | none => exact hg.joinLoop _ _ _ hc
      | some y =>
        dsimp only
        split
        · refine Ord.thread (ord_fromAlias _ _ _ hc) ?_
          rintro ⟨e, t⟩ w hw
          exact hg.joinLoop e t w (.of hw)
        · exact hg.joinLoop _ _ _ hc
    split
    · rename_i ho
      obtain ⟨y, rfl, hy⟩ := isWord_some ho
      ord_step hg
      refine (fin _ .none ([y] ++ ts') (by fit)).weaken ?_
      simp only [List.append_assoc, Option.toList_some]
      exact (((((la_sub t').append_left _).append_left _).append_left _).append_left _).append_left _
    · split
      · rename_i ho
        obtain ⟨y, rfl, hy⟩ := isWord_some ho
        ord_step hg
        refine (fin .none _ ([y] ++ ts') (by fit)).weaken ?_
        simp only [List.append_assoc, Option.toList_some]
        exact (((((la_sub t').append_left _).append_left _).append_left _).append_left _).append_left _
      · refine (fin .none .none [] (by fit)).weaken ?_
        simp only [List.append_assoc, List.nil_append]
        refine ((List.Sublist.trans ?_ (List.sublist_append_right _ _)).append_left _).append_left _ |>.append_left _
        exact (la_sub t').trans (List.sublist_append_right _ _)
  · refine Ord.pure ?_
    obtain ⟨x, y, hx, _, hl⟩ := h.split
    exact hx.mono ((List.sublist_append_left _ _).trans hl)

/-- The groups, each with a comma before it. -/
def moreC : List (List Str) → List Str
  | [] => []
  | g :: gs => [str!","] ++ (g ++ moreC gs)

/-- The groups with commas between them. -/
def joinC : List (List Str) → List Str
  | [] => []
  | g :: gs => g ++ moreC gs

omit hg in
theorem moreC_sub (gs : List (List Str)) : (moreC gs).Sublist ([str!","] ++ joinC gs) := by
  cases gs with
  | nil => exact List.nil_sublist _
  | cons g gs => exact .refl _

omit hg in
theorem splitGroups_sub : ∀ (ts : List Str) (d : ListState) (acc : List Str),
    (joinC (splitGroups d acc ts)).Sublist (acc ++ ts)
  | [], d, acc => by simp [splitGroups, joinC]
  | [t], d, acc => by simp [splitGroups, joinC, moreC]
  | t :: n :: rest, d, acc => by
    unfold splitGroups
    dsimp only
    split
    · rename_i h
      obtain ⟨rfl, _⟩ := h
      simp only [joinC, List.append_assoc]
      refine (List.Sublist.refl _).append ?_
      refine ((moreC_sub _).trans ?_).append_left [t]
      exact (splitGroups_sub rest _ []).append_left _
    · have := splitGroups_sub (n :: rest) (d.step t) (acc ++ [t])
      simpa using this

/-- Each expression is said by its group. -/
inductive Each : List Node → List (List Str) → Prop where
  | nil : Each [] []
  | cons {e : Node} {g : List Str} {es : List Node} {gs : List (List Str)} : Fits (said e) g → Each es gs →
    Each (e :: es) (g :: gs)

omit hg in
theorem Fits.more {es : List Node} {gs : List (List Str)} (h : Each es gs) :
    Fits (saidMore es) (moreC gs) := by
  induction h with
  | nil => exact .skip
  | cons h _ ih =>
    simp only [saidMore, moreC]
    exact .cat (.one (lower_self (by decide) (by decide))) (.cat h ih)

omit hg in
theorem Fits.list {es : List Node} {gs : List (List Str)} (h : Each es gs) :
    Fits (saidList es) (joinC gs) := by
  cases h with
  | nil => exact .skip
  | cons h ht => exact .cat h (.more ht)

theorem ord_parseGroups (b : Bool) : ∀ gs : List (List Str),
    Ord [] (parseGroups r b gs) fun es ws => Each es gs ∧ ws = []
  | [] => by
    unfold parseGroups
    exact Ord.pure ⟨[], ⟨.nil, rfl⟩, .refl _⟩
  | g :: gs => by
    unfold parseGroups
    refine Ord.subExpr hg rfl fun e _ he => ?_
    refine Ord.thread (ord_parseGroups b gs) ?_
    rintro es _ ⟨h, rfl⟩
    exact Ord.pure ⟨[], ⟨.cons he h, rfl⟩, .refl _⟩

theorem ord_exprListF (b : Bool) : Ord [] (exprListF r b) saidList := by
  unfold exprListF
  refine Ord.drain fun ts => ?_
  intro s es s' e
  obtain ⟨w, ⟨h, rfl⟩, hl⟩ := ord_parseGroups hg b _ s es s' e
  obtain ⟨ws, hw, hws⟩ := (Fits.list h).mono (splitGroups_sub ts ⟨0, 0, false⟩ [])
  exact ⟨ws, hw, hws.append hl⟩

theorem ord_caseF (k : Str) (hk : lower k = str!"case") : Ord [k] (caseF r) said := by
  unfold caseF
  ord_step hg
  rename_i t
  have key : ∀ (operand : Node) (t : Option Str) (w : List Str), Fits (said operand) w →
      Ord ([k] ++ (w ++ t.toList)) (do
        let (whens, els) ← r.caseLoop t [] .none
        return Node.case operand whens els) said := by
    intro operand t w hw
    rw [← List.append_assoc]
    refine Ord.call (hg.caseLoop t [] .none t.toList (.inl rfl) ?_) ?_
    · simp only [saidSeq, skip_cat]
      exact .cat (l := []) .headed_none .lit
    · rintro ⟨whens, els⟩ v hv
      have hv := Fits.of hv
      refine Ord.pure ?_
      simp only [said]
      rw [List.append_assoc]
      exact .cat (.one hk) (.cat hw hv)
  split
  · exact key .none (some t) [] .skip
  · ord_step hg
    ord_step hg
    rename_i he
    exact key _ _ _ he

omit hg in
theorem Ord.untilWord {k : Str} {pre : List Str} {β : Type} {c : β → Lang} {f : List Str × Option Str → P β}
    (h : ∀ ts x, lower x = k → Ord (pre ++ (ts ++ [x])) (f (ts, some x)) c)
    (hn : ∀ ts y, f (ts, none) ⟨[], none⟩ ≠ .ok y) : Ord pre (SqlV.untilOneOf [k] >>= f) c := by
  intro s a s' e
  change P.bind (SqlV.untilOneOf [k]) f s = _ at e
  unfold P.bind at e
  cases hu : SqlV.untilOneOf [k] none [] s with
  | err _ => rw [hu] at e; cases e
  | diverge => rw [hu] at e; cases e
  | ok y =>
    obtain ⟨⟨ts, o⟩, s1⟩ := y
    cases o with
    | some x =>
      have hord : Ord pre (SqlV.untilOneOf [k] >>= fun y => if y = (ts, some x) then f y else P.raise .value) c := by
        refine Ord.untilOneOf fun ts' o' ho => ?_
        split
        · rename_i heq
          cases heq
          exact h ts x (by simpa using ho x rfl)
        · exact Ord.raise
      refine hord s a s' ?_
      change P.bind (SqlV.untilOneOf [k]) _ s = _
      unfold P.bind
      rw [hu] at e ⊢
      simpa using e
    | none =>
      exfalso
      rw [hu] at e
      have : s1 = ⟨[], none⟩ := by
        unfold SqlV.untilOneOf at hu
        have hs := scanOneOf_sound [k] [] s.toks none (Depth.init none)
        obtain ⟨h1, h2⟩ := Ord.afterScan hu
        simp only [Prod.mk.injEq] at h1
        unfold SqlV.afterScan at hu
        revert hs
        rcases hsc : scanOneOf [k] [] none (Depth.init none) s.toks with ⟨b, w, rest⟩
        rw [hsc] at h1 h2 hu
        obtain ⟨_, rfl⟩ := h1
        rintro ⟨_, rfl⟩
        rcases s with ⟨ts, _ | er⟩ <;> cases hu
        rfl
      subst this
      exact hn ts _ e

theorem ord_caseLoopF (t : Option Str) (whens : List Node) (els : Node) (pre : List Str) (ho : els = .none ∨ t = none)
    (h : Fits (saidSeq whens ⋆ headed str!"else" els (said els) ⋆ lit t.toList) pre) :
    Ord pre (caseLoopF r t whens els) fun x => saidSeq x.1 ⋆ headed str!"else" x.2 (said x.2) := by
  obtain ⟨w1, w', h1, h', hl'⟩ := h.split
  obtain ⟨w2, w3, h2, ⟨_, rfl, h3⟩, hl⟩ := h'.split
  have hl := (((h3.append_left w2).trans hl).append_left w1).trans hl'
  refine Ord.weaken ?_ hl
  clear h h' hl' hl h3
  unfold caseLoopF
  split
  · rename_i htr
    obtain ⟨x, rfl⟩ := truthy_some htr
    have ho : els = .none := ho.resolve_right (by simp)
    subst ho
    simp only [Option.toList_some]
    split
    · rename_i hw
      obtain ⟨y, hy, hy'⟩ := isWord_some hw
      cases hy
      refine Ord.untilWord ?_ ?_
      · intro ts y hy
        dsimp only
        ord_step hg
        rename_i w _ hw
        ord_step hg
        rename_i ts' t' _
        ord_step hg
        rename_i th _ hth
        refine hg.caseLoop _ _ _ _ (.inl rfl) ?_
        rw [saidSeq_snoc, cat_assoc]
        have hs : Fits (said (.whenThen w th)) ([x] ++ (ts ++ ([y] ++ ts'))) := by
          simp only [said]
          exact .cat (.one hy') (.cat hw (.cat (.one hy) hth))
        have hn : Fits (headed str!"else" .none (said .none) ⋆ lit t'.toList) t'.toList := .cat (l := []) .headed_none .lit
        refine Fits.mono (.cat h1 (.cat hs hn)) ?_
        simp only [List.append_assoc]
        exact (List.sublist_append_right _ _).append_left _
      · intro ts y e
        dsimp only at e
        change P.bind _ _ _ = _ at e
        unfold P.bind P.sub at e
        cases hx : r.expr {} ⟨ts, none⟩ with
        | err _ => rw [hx] at e; cases e
        | diverge => rw [hx] at e; cases e
        | ok z =>
          rw [hx] at e
          dsimp only at e
          change P.bind _ _ _ = _ at e
          unfold P.bind at e
          simp only [untilOneOf, scanOneOf, afterScan, Option.isSome_none, Bool.false_eq_true, if_false, Option.toList_none,
            List.nil_append] at e
          change P.bind _ _ _ = _ at e
          unfold P.bind at e
          cases hx : r.expr {} ⟨[], none⟩ with
          | err _ => simp only [hx] at e; cases e
          | diverge => simp only [hx] at e; cases e
          | ok z => exact hg.exprNil {} rfl none z hx
    · split
      · rename_i hw
        obtain ⟨y, hy, hy'⟩ := isWord_some hw
        cases hy
        ord_step hg
        rename_i ts t' hs
        ord_step hg
        rename_i e _ he
        have ht' : t' = none := by
          cases t' with
          | none => rfl
          | some z => exact absurd (hs z rfl) (by simp)
        subst ht'
        refine hg.caseLoop _ _ _ _ (.inr rfl) ?_
        refine Fits.mono (.cat h1 (.cat (.headed hy' he) .lit)) ?_
        simp only [List.append_assoc]
        exact (List.sublist_append_right _ _).append_left _
      · refine hg.caseLoop _ _ _ _ (.inl rfl) ?_
        exact .cat h1 (.cat h2 .lit)
  · exact Ord.pure (.cat h1 (.left h2))

/-- What `primaryF` returns: an expression and the token after it, or nothing. -/
def primary (main : Str) (x : Option Node × Option Str) : Lang := fun ws =>
  (∃ e, x.1 = some e ∧ held (e, x.2) ws) ∨ (x = (none, none) ∧ ws = [main])

omit hg in
theorem Fits.primary {main : Str} {e : Node} {t : Option Str} {l : List Str} (h : Fits (Said.held (e, t)) l) :
    Fits (primary main (some e, t)) l := by
  obtain ⟨ws, hw, hl⟩ := h
  exact ⟨ws, .inl ⟨e, rfl, hw⟩, hl⟩

theorem ord_primaryF (a : ExprArgs) (main : Str) : Ord [main] (primaryF r a main) (primary main) := by
  unfold primaryF
  refine Ord.ite (fun hq => ?_) (fun _ => ?_)
  · refine Ord.stringParser (quotes_lower hq) fun v w hv => ?_
    refine Ord.pure (.primary ?_)
    simp only [held, said, la_none, lit_nil, cat_skip]
    exact .right (by simpa only [Option.toList_none, List.nil_append] using hv)
  refine Ord.ite (fun hd => ?_) (fun _ => ?_)
  · ord_step hg
    rename_i i hi
    refine Ord.pure (.primary ?_)
    simp only [held, said, la_none, lit_nil, cat_skip]
    exact .orl (.one ⟨hd, hi⟩)
  refine Ord.ite (fun hd => ?_) (fun _ => ?_)
  · ord_step hg
    rename_i i hi
    refine Ord.pure (.primary ?_)
    simp only [held, said, la_none, lit_nil, cat_skip]
    exact .orl (.one ⟨hd, hi⟩)
  refine Ord.ite (fun hb => ?_) (fun _ => ?_)
  · refine Ord.pure (.primary ?_)
    simp only [held, said, la_none, lit_nil, cat_skip]
    refine .one ?_
    by_cases ht : lower main ∈ trueValues
    · rw [if_pos (by simpa using ht)]
      exact ht
    · rw [if_neg (by simpa using ht)]
      exact (List.mem_append.1 hb).resolve_left ht
  refine Ord.ite (fun hn => ?_) (fun _ => ?_)
  · refine Ord.pure (.primary ?_)
    simp only [held, said, la_none, lit_nil, cat_skip]
    exact .one (by simpa [nullValues] using hn)
  refine Ord.ite (fun _ => ?_) (fun _ => ?_)
  · ord_step hg
    refine Ord.pure (.primary ?_)
    fit
  refine Ord.ite (fun h => ?_) (fun _ => ?_)
  · subst h
    ord_step hg
    ord_step hg
    refine Ord.pure (.primary ?_)
    fit
  refine Ord.ite (fun h => ?_) (fun _ => ?_)
  · subst h
    ord_step hg
    ord_step hg
    rename_i ht
    simp only [decide_eq_true_eq] at ht
    subst ht
    ord_step hg
    ord_step hg
    refine Ord.pure (.primary ?_)
    fit
  refine Ord.ite (fun h => ?_) (fun _ => ?_)
  · ord_step hg
    rename_i ts t _
    ord_step hg
    ord_step hg
    rename_i t'
    refine Ord.subWith (ord_caseF hg main h) fun n hn => ?_
    refine Ord.pure (.primary ?_)
    unfold held
    refine Fits.mono (.cat hn (.la_toList t')) ?_
    simp only [List.append_assoc]
    exact ((List.sublist_append_right _ _).append_left _).append_left _
  refine Ord.ite (fun h => ?_) (fun _ => ?_)
  · ord_step hg
    rename_i ts t _
    ord_step hg
    rename_i t'
    refine Ord.subWith (hg.select main h) fun n hn => ?_
    refine Ord.pure (.primary ?_)
    unfold held
    refine Fits.mono (.cat hn (.la_toList t')) ?_
    simp only [List.append_assoc]
    exact ((List.sublist_append_right _ _).append_left _).append_left _
  · exact Ord.pure ⟨_, .inr ⟨rfl, rfl⟩, .refl _⟩

theorem ord_castF (a : ExprArgs) (k : Str) (hk : lower k = str!"cast") : Ord ([k] ++ [str!"("]) (castF r a) said := by
  unfold castF
  ord_step hg
  ord_step hg
  ord_step hg
  rename_i ht
  obtain ⟨x, rfl, hx⟩ := isWord_some ht
  ord_auto hg

theorem ord_countF (k : Str) (hk : lower k = str!"count") : Ord ([k] ++ [str!"("]) (countF r) said := by
  unfold countF
  ord_step hg
  rename_i t
  by_cases h : lower t = str!"distinct"
  · simp only [h, decide_true, if_true]
    ord_auto hg
  · simp only [h, decide_false, Bool.false_eq_true, if_false]
    refine Ord.untilClosing_first fun ts => ?_
    ord_auto hg

theorem ord_callF (a : ExprArgs) (name : Str) : Ord ([name] ++ [str!"("]) (callF r a name) said := by
  unfold callF
  ord_step hg
  ord_step hg
  refine Ord.pure ?_
  rename_i hargs
  simp only [said]
  rw [List.append_assoc]
  exact .cat (.one (.inl rfl)) (.cat .tok hargs)

theorem ord_arrayAggF (a : ExprArgs) (k : Str) (hk : lower k = str!"array_agg") :
    Ord ([k] ++ [str!"("]) (arrayAggF r a) said := by
  unfold arrayAggF
  ord_step hg
  rename_i t
  have fin : ∀ (distinct : Bool) (column : Node) (ignore respect : Bool) (order : Node) (limit : Option Int) (t : Option Str)
      (w1 w2 w3 w4 w5 w6 : List Str), Fits (flag distinct str!"distinct") w1 → Fits (said column) w2 →
      Fits (if ignore then word str!"ignore" ⋆ word str!"nulls" else skip) w3 →
      Fits (if respect then word str!"respect" ⋆ word str!"nulls" else skip) w4 → Fits (said order) w5 →
      Fits (limited limit) w6 →
      Ord ([k] ++ ([str!"("] ++ (w1 ++ (w2 ++ (w3 ++ (w4 ++ (w5 ++ (w6 ++ t.toList)))))))) (do
        P.assert (isWord t str!")")
        return Node.arrayAgg column distinct ignore respect order limit) said := by
    intro distinct column ignore respect order limit t w1 w2 w3 w4 w5 w6 h1 h2 h3 h4 h5 h6
    refine Ord.assert fun _ => Ord.pure ?_
    simp only [said]
    exact .cat (.one hk) (.cat .tok (.cat h1 (.cat h2 (.cat h3 (.cat h4 (.cat h5 (.left h6)))))))
  have lim : ∀ (distinct : Bool) (column : Node) (ignore respect : Bool) (order : Node) (t : Option Str)
      (w1 w2 w3 w4 w5 : List Str), Fits (flag distinct str!"distinct") w1 → Fits (said column) w2 →
      Fits (if ignore then word str!"ignore" ⋆ word str!"nulls" else skip) w3 →
      Fits (if respect then word str!"respect" ⋆ word str!"nulls" else skip) w4 → Fits (said order) w5 →
      Ord ([k] ++ ([str!"("] ++ (w1 ++ (w2 ++ (w3 ++ (w4 ++ (w5 ++ t.toList))))))) (do
        let (limit, t) ←
          if isWord t str!"limit" then do
            let t ← next!
            let i ← toIntP t
            let t ← next!
            pure (some i, some t)
          else pure (none, t)
        P.assert (isWord t str!")")
        return Node.arrayAgg column distinct ignore respect order limit) said := by
    intro distinct column ignore respect order t w1 w2 w3 w4 w5 h1 h2 h3 h4 h5
    split
    · rename_i h
      obtain ⟨x, rfl, hx⟩ := isWord_some h
      ord_step hg
      rename_i y
      ord_step hg
      rename_i i hi
      ord_step hg
      rename_i z
      refine (fin distinct column ignore respect order (some i) (some z) w1 w2 w3 w4 w5 ([x] ++ [y]) h1 h2 h3 h4 h5
        (.cat (.one hx) (.one hi))).weaken ?_
      simp only [List.append_assoc, Option.toList_some]
      exact .refl _
    · exact fin distinct column ignore respect order none t w1 w2 w3 w4 w5 [] h1 h2 h3 h4 h5 .skip
  have ord : ∀ (distinct : Bool) (column : Node) (ignore respect : Bool) (t : Option Str)
      (w1 w2 w3 w4 : List Str), Fits (flag distinct str!"distinct") w1 → Fits (said column) w2 →
      Fits (if ignore then word str!"ignore" ⋆ word str!"nulls" else skip) w3 →
      Fits (if respect then word str!"respect" ⋆ word str!"nulls" else skip) w4 →
      Ord ([k] ++ ([str!"("] ++ (w1 ++ (w2 ++ (w3 ++ (w4 ++ t.toList)))))) (do
        let (order, t) ←
          if isWord t str!"order" then do
            let t ← next!
            P.assert (lower t = str!"by")
            let (ts, t) ← untilOneOf [str!"limit", str!")"]
            let o ← P.sub ts (orderByF r)
            pure (o, t)
          else pure (Node.none, t)
        let (limit, t) ←
          if isWord t str!"limit" then do
            let t ← next!
            let i ← toIntP t
            let t ← next!
            pure (some i, some t)
          else pure (none, t)
        P.assert (isWord t str!")")
        return Node.arrayAgg column distinct ignore respect order limit) said := by
    intro distinct column ignore respect t w1 w2 w3 w4 h1 h2 h3 h4
    split
    · rename_i h
      obtain ⟨x, rfl, hx⟩ := isWord_some h
      ord_step hg
      rename_i y
      ord_step hg
      rename_i hy
      simp only [decide_eq_true_eq] at hy
      ord_step hg
      rename_i ts t' _
      refine Ord.sub (ord_orderByF hg) fun n hn => ?_
      refine (lim distinct column ignore respect n t' w1 w2 w3 w4 _ h1 h2 h3 h4 (Fits.ordered hx hy hn)).weaken ?_
      simp only [List.append_assoc, Option.toList_some]
      exact .refl _
    · exact lim distinct column ignore respect .none t w1 w2 w3 w4 [] h1 h2 h3 h4 .skip
  have nul : ∀ (distinct : Bool) (ts : List Str) (t : Option Str)
      (w1 : List Str), Fits (flag distinct str!"distinct") w1 →
      Ord ([k] ++ ([str!"("] ++ (w1 ++ (ts ++ t.toList)))) (do
        let (column, _) ← P.sub ts (r.expr { untilOneOf := a.untilOneOf })
        let (ignore, respect, t) ←
          if isWord t str!"ignore" then do
            let t ← next!
            P.assert (lower t = str!"nulls")
            let t ← next!
            pure (true, false, some t)
          else if isWord t str!"respect" then do
            let t ← next!
            P.assert (lower t = str!"nulls")
            let t ← next!
            pure (false, true, some t)
          else pure (false, false, t)
        let (order, t) ←
          if isWord t str!"order" then do
            let t ← next!
            P.assert (lower t = str!"by")
            let (ts, t) ← untilOneOf [str!"limit", str!")"]
            let o ← P.sub ts (orderByF r)
            pure (o, t)
          else pure (Node.none, t)
        let (limit, t) ←
          if isWord t str!"limit" then do
            let t ← next!
            let i ← toIntP t
            let t ← next!
            pure (some i, some t)
          else pure (none, t)
        P.assert (isWord t str!")")
        return Node.arrayAgg column distinct ignore respect order limit) said := by
    intro distinct ts t w1 h1
    ord_step hg
    rename_i column _ hc
    split
    · rename_i h
      obtain ⟨x, rfl, hx⟩ := isWord_some h
      ord_step hg
      rename_i y
      ord_step hg
      rename_i hy
      simp only [decide_eq_true_eq] at hy
      ord_step hg
      rename_i z
      refine (ord distinct column true false (some z) w1 ts ([x] ++ [y]) [] h1 hc
        (by rw [if_pos rfl]; exact .cat (.one hx) (.one hy)) .skip).weaken ?_
      simp only [List.append_assoc, Option.toList_some, List.nil_append]
      exact .refl _
    · split
      · rename_i h
        obtain ⟨x, rfl, hx⟩ := isWord_some h
        ord_step hg
        rename_i y
        ord_step hg
        rename_i hy
        simp only [decide_eq_true_eq] at hy
        ord_step hg
        rename_i z
        refine (ord distinct column false true (some z) w1 ts [] ([x] ++ [y]) h1 hc .skip
          (by rw [if_pos rfl]; exact .cat (.one hx) (.one hy))).weaken ?_
        simp only [List.append_assoc, Option.toList_some, List.nil_append]
        exact .refl _
      · exact ord distinct column false false t w1 ts [] [] h1 hc .skip .skip
  by_cases h : lower t = str!"distinct"
  · simp only [h, decide_true, if_true]
    ord_step hg
    refine (nul true _ _ [t] (by simp only [flag, if_true]; exact .one h)).weaken ?_
    simp only [List.append_assoc]
    exact .refl _
  · simp only [h, decide_false, Bool.false_eq_true, if_false]
    ord_step hg
    refine (nul false _ _ [] .skip).weaken ?_
    simp only [List.append_assoc, List.nil_append]
    exact .refl _

theorem ord_functionF (a : ExprArgs) (main : Str) : Ord ([main] ++ [str!"("]) (functionF r a main) held := by
  unfold functionF
  have key : ∀ (e : Node) (w : List Str), said e w → Ord w (do
      let t ← next?
      if truthy? t && isWord t str!"filter" then do
        let t ← next!
        P.assert (t = str!"(")
        let ts ← untilClosing
        match ts with
        | [] => P.raise .index
        | w :: ws => do
          P.assert (lower w = str!"where")
          let (c, _) ← P.sub ws (r.expr { canAlias := false })
          let t ← next?
          return (.filtered e c, t)
      else return (e, t)) held := by
    intro e w he
    have he := Fits.of he
    ord_step hg
    rename_i t
    split
    · rename_i h
      simp only [Bool.and_eq_true] at h
      obtain ⟨x, rfl, hx⟩ := isWord_some h.2
      ord_step hg
      ord_step hg
      rename_i hp
      simp only [decide_eq_true_eq] at hp
      subst hp
      ord_step hg
      rename_i ts
      cases ts with
      | nil => exact Ord.raise
      | cons y ys =>
        dsimp only
        ord_step hg
        rename_i hy
        simp only [decide_eq_true_eq] at hy
        ord_step hg
        rename_i c _ hc
        ord_step hg
        rename_i t'
        refine Ord.pure ?_
        simp only [held, said]
        refine Fits.mono (.cat (.cat he (.cat (.one hx) (.cat .tok (.cat (.one hy) hc)))) (.la_toList t')) ?_
        simp only [List.append_assoc, Option.toList_some, List.cons_append, List.nil_append]
        exact .refl _
    · ord_auto hg
  split
  · rename_i h
    exact Ord.thread (ord_castF hg a main h) key
  split
  · rename_i h
    exact Ord.thread (ord_arrayAggF hg a main h) key
  split
  · rename_i h
    exact Ord.thread (ord_countF hg main h) key
  · exact Ord.thread (ord_callF hg a main) key

theorem ord_secondaryF (a : ExprArgs) (main : Str) (t : Option Str) :
    Ord ([main] ++ t.toList) (secondaryF r a main t) held := by
  unfold secondaryF
  refine Ord.ite (fun h => ?_) (fun _ => ?_)
  · subst h
    exact ord_functionF hg a main
  refine Ord.ite (fun h => ?_) (fun _ => ?_)
  · obtain ⟨h1, h2⟩ := h
    obtain ⟨x, rfl, hx⟩ := isWord_some h2
    refine Ord.expr hg rfl fun e t w he => ?_
    refine Ord.pure ?_
    simp only [held, said]
    refine Fits.mono (.cat (.cat (.one ⟨rfl, h1⟩) (.cat (.one hx) he)) .lit) ?_
    simp only [List.append_assoc, Option.toList_some]
    exact .refl _
  refine Ord.ite (fun h => ?_) (fun _ => ?_)
  · exact Ord.pure (.cat .tok (.la_toList _))
  refine Ord.ite (fun h => ?_) (fun _ => ?_)
  · subst h
    ord_auto hg
  cases t with
  | none => dsimp only; ord_auto hg
  | some x =>
    dsimp only
    refine Ord.ite (fun h => ?_) (fun _ => ?_)
    · obtain ⟨rfl, h2⟩ := h
      ord_step hg
      rename_i i hi
      ord_step hg
      refine Ord.pure ?_
      simp only [held, said]
      refine .cat (.orr (.cat .tok (.one ⟨h2, by simpa using hi⟩))) (.la_toList _)
    refine Ord.ite (fun h => ?_) (fun _ => ?_)
    · obtain ⟨rfl, h2⟩ := h
      ord_step hg
      rename_i i hi
      ord_step hg
      refine Ord.pure ?_
      simp only [held, said]
      refine .cat (.orr (.cat .tok (.one ⟨h2, i, hi, rfl⟩))) (.la_toList _)
    refine Ord.ite (fun h => ?_) (fun _ => ?_)
    · refine Ord.stringParser h.2 fun v w hv => ?_
      refine Ord.pure ?_
      have : la (some x) = [] := by
        simp only [la]
        exact if_pos h.2
      simp only [held, this, lit_nil, cat_skip, said]
      refine hv.mono ?_
      simp only [List.append_assoc, Option.toList_some]
      exact (List.sublist_append_right _ _).append_left _
    · ord_auto hg

/-- What stands in the parentheses after OVER. -/
def window (x : List Node × Node × Node) : Lang :=
  (if x.1 = [] then skip else word str!"partition" ⋆ word str!"by" ⋆ saidList x.1) ⋆ said x.2.1 ⋆ said x.2.2

theorem ord_overF (e : Node) (t : Option Str) (pre : List Str) (h : Fits (held (e, t)) pre) :
    Ord pre (overF r e t) held := by
  unfold overF
  refine Ord.ite (fun ht => ?_) (fun _ => Ord.pure h)
  obtain ⟨x, rfl, hx⟩ := isWord_some ht
  obtain ⟨we, wt, he, ⟨_, rfl, hwt⟩, hl⟩ := h.split
  refine Ord.weaken ?_ (((List.Sublist.refl we).append hwt).trans hl)
  clear h hl hwt
  dsimp only at he ⊢
  rw [la_word hx]
  ord_step hg
  refine Ord.ite (fun _ => Ord.raise) (fun hp => ?_)
  rename_i t
  have hp : t = some str!"(" := by simpa using hp
  subst hp
  ord_step hg
  rename_i ts
  have frm : ∀ (part : List Node) (order : Node) (t : Option Str) (w1 w2 : List Str),
      Fits (if part = [] then skip else word str!"partition" ⋆ word str!"by" ⋆ saidList part) w1 → Fits (said order) w2 →
      Ord (w1 ++ (w2 ++ t.toList)) (do
        let frame ← match t with
          | some tok =>
            if lower tok = str!"rows" ∨ lower tok = str!"range" then do
              let (ts, _) ← untilOneOf []
              pure (Node.frame tok (Str.join str!" " ts))
            else pure Node.none
          | none => pure Node.none
        pure (part, order, frame)) window := by
    intro part order t w1 w2 h1 h2
    cases t with
    | none => exact Ord.pure (.cat h1 (.cat h2 .skip))
    | some y =>
      dsimp only
      refine Ord.ite (fun hy => ?_) (fun _ => Ord.pure (.cat h1 (.cat h2 .skip)))
      refine Ord.untilOneOf fun ts t _ => ?_
      dsimp only
      refine Ord.bind_pure (Ord.pure ?_)
      unfold window
      simp only [said]
      have hf : Fits ((one fun w => w = y ∧ lower w ∈ [str!"rows", str!"range"]) ⋆
          fun ws => Str.join str!" " ts = Str.join str!" " ws) ([y] ++ ts) :=
        .cat (.one ⟨rfl, by simpa using hy⟩) (.of rfl)
      refine Fits.mono (.cat h1 (.cat h2 hf)) ?_
      simp only [List.append_assoc, Option.toList_some]
      rw [← List.append_assoc, ← List.append_assoc, ← List.append_assoc, ← List.append_assoc, ← List.append_assoc]
      exact List.sublist_append_left _ _
  have ord : ∀ (part : List Node) (t : Option Str) (w1 : List Str),
      Fits (if part = [] then skip else word str!"partition" ⋆ word str!"by" ⋆ saidList part) w1 →
      Ord (w1 ++ t.toList) (do
        let (order, t) ←
          if isWord t str!"order" then do
            let t ← next?
            if !isWord t str!"by" then P.raise (.parsing str!"Missing BY after ORDER")
            else do
              let (ts, t) ← untilOneOf [str!"rows", str!"range"]
              let o ← P.sub ts (orderByF r)
              pure (o, t)
          else pure (Node.none, t)
        let frame ← match t with
          | some tok =>
            if lower tok = str!"rows" ∨ lower tok = str!"range" then do
              let (ts, _) ← untilOneOf []
              pure (Node.frame tok (Str.join str!" " ts))
            else pure Node.none
          | none => pure Node.none
        pure (part, order, frame)) window := by
    intro part t w1 h1
    split
    · rename_i h
      obtain ⟨y, rfl, hy⟩ := isWord_some h
      ord_step hg
      rename_i t
      split
      · exact Ord.raise
      · rename_i hb
        simp only [Bool.not_eq_true', Bool.not_eq_false] at hb
        obtain ⟨z, rfl, hz⟩ := isWord_some hb
        ord_step hg
        rename_i ts t' _
        refine Ord.sub (ord_orderByF hg) fun n hn => ?_
        refine (frm part n t' w1 _ h1 (Fits.ordered hy hz hn)).weaken ?_
        simp only [List.append_assoc, Option.toList_some]
        exact .refl _
    · exact frm part .none t w1 [] h1 .skip
  have inner : Ord [] (do
        let t ← next?
        let (part, t) ←
          if isWord t str!"partition" then do
            let t ← next?
            if !isWord t str!"by" then P.raise (.parsing str!"Missing BY after PARTITION")
            else do
              let (ts, t) ← untilOneOf [str!"order", str!"rows", str!"range"]
              let es ← P.sub ts (r.exprList false)
              pure (es, t)
          else pure ([], t)
        let (order, t) ←
          if isWord t str!"order" then do
            let t ← next?
            if !isWord t str!"by" then P.raise (.parsing str!"Missing BY after ORDER")
            else do
              let (ts, t) ← untilOneOf [str!"rows", str!"range"]
              let o ← P.sub ts (orderByF r)
              pure (o, t)
          else pure (Node.none, t)
        let frame ← match t with
          | some tok =>
            if lower tok = str!"rows" ∨ lower tok = str!"range" then do
              let (ts, _) ← untilOneOf []
              pure (Node.frame tok (Str.join str!" " ts))
            else pure Node.none
          | none => pure Node.none
        pure (part, order, frame)) window := by
    ord_step hg
    rename_i t
    split
    · rename_i h
      obtain ⟨y, rfl, hy⟩ := isWord_some h
      ord_step hg
      rename_i t
      split
      · exact Ord.raise
      · rename_i hb
        simp only [Bool.not_eq_true', Bool.not_eq_false] at hb
        obtain ⟨z, rfl, hz⟩ := isWord_some hb
        ord_step hg
        rename_i ts t' _
        ord_step hg
        rename_i es hes
        refine (ord es t' ([y] ++ ([z] ++ ts)) ?_).weaken ?_
        · split
          · exact .skip
          · exact .cat (.one hy) (.cat (.one hz) hes)
        · simp only [List.append_assoc, Option.toList_some, List.nil_append]
          exact .refl _
    · exact ord [] t [] (by rw [if_pos rfl]; exact .skip)
  refine Ord.sub inner ?_
  rintro ⟨part, order, frame⟩ hw
  dsimp only
  refine Ord.next? fun t => Ord.pure ?_
  simp only [held, said]
  refine Fits.mono (.cat (.cat he (.cat (.one hx) (.cat .tok hw))) (.la_toList t)) ?_
  simp only [List.append_assoc, Option.toList_some]
  exact .refl _

omit hg in
theorem la_mem {t : Str} {ks : List Str} (h : lower t ∈ ks) (hk : ∀ k ∈ ks, k ∉ [str!"'", str!"\"", str!"`"] := by decide) :
    la (some t) = [t] := by
  simp only [la]
  rw [if_neg (hk _ h)]

theorem ord_dotLoopF (u : List Str) (e : Node) (t : Option Str) (pre : List Str) (h : Fits (held (e, t)) pre) :
    Ord pre (dotLoopF r u e t) held := by
  unfold dotLoopF
  refine Ord.ite (fun ht => ?_) (fun _ => Ord.pure h)
  subst ht
  obtain ⟨we, wt, he, ⟨_, rfl, hwt⟩, hl⟩ := h.split
  refine Ord.weaken ?_ (((List.Sublist.refl we).append hwt).trans hl)
  clear h hl hwt
  dsimp only at he ⊢
  rw [la_word (lower_self (by decide) (by decide))]
  ord_step hg
  refine hg.dotLoop _ _ _ _ ?_
  fit

theorem ord_arithF (a : ExprArgs) (e : Node) (t : Option Str) (pre : List Str) (h : Fits (held (e, t)) pre) :
    Ord pre (arithF r a e t) held := by
  unfold arithF
  cases t with
  | none => exact Ord.pure h
  | some x =>
    dsimp only
    refine Ord.ite (fun ht => ?_) (fun _ => Ord.pure h)
    obtain ⟨we, wt, he, ⟨_, rfl, hwt⟩, hl⟩ := h.split
    refine Ord.weaken ?_ (((List.Sublist.refl we).append hwt).trans hl)
    clear h hl hwt
    dsimp only at he ⊢
    have hx : x ∈ [str!"+", str!"-", str!"*", str!"/"] := ht.1
    rw [la_mem (ks := [str!"+", str!"-", str!"*", str!"/"]) (by
      have hx' := hx
      simp only [List.mem_cons, List.not_mem_nil, or_false] at hx'
      rcases hx' with rfl | rfl | rfl | rfl <;> rw [lower_self (by decide) (by decide)] <;> decide)]
    refine Ord.expr hg rfl fun right t w hr => Ord.pure ?_
    simp only [held, said]
    refine Fits.mono (.cat (.cat he (.cat (.one ⟨rfl, hx⟩) hr)) .lit) ?_
    simp only [List.append_assoc]
    exact .refl _

theorem ord_indexLoopF (e : Node) (t : Option Str) (pre : List Str) (h : Fits (held (e, t)) pre) :
    Ord pre (indexLoopF r e t) held := by
  unfold indexLoopF
  refine Ord.ite (fun ht => ?_) (fun _ => Ord.pure h)
  subst ht
  obtain ⟨we, wt, he, ⟨_, rfl, hwt⟩, hl⟩ := h.split
  refine Ord.weaken ?_ (((List.Sublist.refl we).append hwt).trans hl)
  clear h hl hwt
  dsimp only at he ⊢
  rw [la_word (lower_self (by decide) (by decide))]
  ord_step hg
  ord_step hg
  ord_step hg
  refine hg.indexLoop _ _ _ ?_
  fit

theorem ord_condF (a : ExprArgs) (e : Node) (t : Option Str) (pre : List Str) (h : Fits (held (e, t)) pre) :
    Ord pre (condF r a e t) held := by
  unfold condF
  cases t with
  | none => exact Ord.pure h
  | some x =>
    obtain ⟨we, wt, he, ⟨_, rfl, hwt⟩, hl⟩ := h.split
    refine Ord.weaken ?_ (((List.Sublist.refl we).append hwt).trans hl)
    clear h hl hwt
    dsimp only at he ⊢
    refine Ord.ite (fun hx => ?_) (fun _ => ?_)
    · rw [la_mem hx]
      have key : ∀ (symbol : Str) (w : List Str) (first : Option Str), Fits (comparison symbol) w →
          Ord (we ++ w ++ first.toList) (do
            let (right, t) ← r.expr { isRightHand := true, untilOneOf := a.untilOneOf, firstToken := first }
            return (Node.cond e symbol right, t)) held := by
        intro symbol w first hs
        have fin : ∀ (right : Node) (t : Option Str) (w' : List Str), Fits (said right) w' →
            Ord (we ++ w ++ (w' ++ la t)) (pure (Node.cond e symbol right, t)) held := by
          intro right t w' hr
          refine Ord.pure ?_
          simp only [held, said]
          refine Fits.mono (.cat (.cat he (.cat hs hr)) .lit) ?_
          simp only [List.append_assoc]
          exact .refl _
        cases first with
        | none =>
          simp only [Option.toList_none, List.append_nil]
          exact Ord.expr hg rfl fun right t w' hr => fin right t w' hr
        | some y => exact Ord.expr_first hg rfl fun right t w' hr => fin right t w' hr
      have hself : Fits (comparison x) [x] := .orl (.one ⟨rfl, by
        revert hx
        generalize lower x = y
        intro hy
        simp only [predicates, List.mem_cons, List.not_mem_nil, or_false] at hy
        rcases hy with rfl | rfl | rfl | rfl | rfl | rfl | rfl | rfl | rfl | rfl | rfl | rfl <;> decide⟩)
      refine Ord.ite (fun h1 => ?_) (fun _ => ?_)
      · refine Ord.next! fun n => ?_
        refine Ord.ite (fun h2 => ?_) (fun _ => ?_)
        · have := key str!"is not" ([x] ++ [n]) none
            (.orr (.orl (.mono ⟨_, ⟨rfl, [x], [n], ⟨x, h1, rfl⟩, ⟨n, h2, rfl⟩, rfl⟩, .refl _⟩ (.refl _))))
          refine Ord.weaken this ?_
          simp only [Option.toList_none, List.append_nil, List.append_assoc]
          exact .refl _
        · exact key x [x] (some n) hself
      refine Ord.ite (fun h1 => ?_) (fun _ => ?_)
      · refine Ord.next! fun n => ?_
        refine Ord.ite (fun h2 => ?_) (fun _ => ?_)
        · have := key str!"not in" ([x] ++ [n]) none
            (.orr (.orr (.mono ⟨_, ⟨rfl, [x], [n], ⟨x, h1, rfl⟩, ⟨n, h2, rfl⟩, rfl⟩, .refl _⟩ (.refl _))))
          refine Ord.weaken this ?_
          simp only [Option.toList_none, List.append_nil, List.append_assoc]
          exact .refl _
        · exact key x [x] (some n) hself
      · refine Ord.weaken (key x [x] none hself) ?_
        simp only [Option.toList_none, List.append_nil]
        exact .refl _
    refine Ord.ite (fun hx => ?_) (fun _ => ?_)
    · rw [la_word hx]
      ord_step hg
      rename_i lo t w hlo
      refine Ord.ite (fun _ => Ord.raise) (fun hb => ?_)
      simp only [Bool.not_eq_true', Bool.not_eq_false] at hb
      obtain ⟨y, rfl, hy⟩ := isWord_some hb
      rw [la_word hy]
      ord_step hg
      rename_i hi t w' hhi
      refine Ord.pure ?_
      simp only [held, said]
      have hc : Fits (comparison x) [x] := .orl (.one ⟨rfl, by rw [hx]; decide⟩)
      refine Fits.mono (.cat (.cat he (.cat hc (.cat hlo (.cat (.one ⟨.inr ⟨trivial, hy⟩, by rw [hy]; decide⟩) hhi)))) .lit) ?_
      simp only [List.append_assoc]
      exact .refl _
    refine Ord.ite (fun hx => ?_) (fun _ => Ord.pure (.cat he .lit))
    have hx' : x ∈ [str!"&", str!"|", str!"^", str!"||", str!"<<", str!">>", str!"#"] := hx
    rw [la_mem (ks := [str!"&", str!"|", str!"^", str!"||", str!"<<", str!">>", str!"#"]) (by
      simp only [List.mem_cons, List.not_mem_nil, or_false] at hx'
      rcases hx' with rfl | rfl | rfl | rfl | rfl | rfl | rfl <;> rw [lower_self (by decide) (by decide)] <;> decide)]
    refine Ord.expr hg rfl fun right t w hr => Ord.pure ?_
    simp only [held, said]
    refine Fits.mono (.cat (.cat he (.cat (.one ⟨rfl, hx'⟩) hr)) .lit) ?_
    simp only [List.append_assoc]
    exact .refl _

theorem ord_boolF (a : ExprArgs) (e : Node) (t : Option Str) (pre : List Str) (h : Fits (held (e, t)) pre) :
    Ord pre (boolF r a e t) held := by
  unfold boolF
  cases t with
  | none => exact Ord.pure h
  | some x =>
    dsimp only
    refine Ord.ite (fun hx => ?_) (fun _ => Ord.pure h)
    obtain ⟨we, wt, he, ⟨_, rfl, hwt⟩, hl⟩ := h.split
    refine Ord.weaken ?_ (((List.Sublist.refl we).append hwt).trans hl)
    clear h hl hwt
    dsimp only at he ⊢
    rw [la_mem hx]
    ord_step hg
    rename_i right t w hr
    have hw : Fits (one fun w => (w = x ∨ x = str!"and" ∧ lower w = x) ∧ lower w ∈ [str!"and", str!"or"]) [x] :=
      .one ⟨.inl rfl, hx⟩
    split
    · rename_i e' al withAs
      simp only [said] at hr
      obtain ⟨w1, w2, h1, h2, hl⟩ := hr.split
      refine Ord.pure ?_
      simp only [held, said]
      refine Fits.mono (.cat (.cat (.cat he (.cat hw h1)) h2) .lit) ?_
      simp only [List.append_assoc]
      refine (List.Sublist.append_left ?_ _).append_left _
      rw [← List.append_assoc]
      exact hl.append (.refl _)
    · refine Ord.pure ?_
      simp only [held, said]
      refine Fits.mono (.cat (.cat he (.cat hw hr)) .lit) ?_
      simp only [List.append_assoc]
      exact .refl _

theorem ord_starArgsF (k : Str) : Ord [k] (starArgsF r) fun args => tok k ⋆ tok str!"(" ⋆ saidList args := by
  unfold starArgsF
  ord_step hg
  rename_i t
  refine Ord.ite (fun _ => Ord.raise) (fun hp => ?_)
  have hp : t = some str!"(" := by simpa using hp
  subst hp
  ord_step hg
  rename_i ts
  intro s a s' e
  have := Ord.subList (pre := [k] ++ (some str!"(").toList ++ ts) hg (ts := ts) (b := false) (f := pure)
    (c := fun args => tok k ⋆ tok str!"(" ⋆ saidList args) (fun es hes => Ord.pure (by
      simp only [Option.toList_some, List.append_assoc]
      exact .cat .tok (.cat .tok hes)))
  refine this s a s' ?_
  change P.bind _ _ s = _
  unfold P.bind
  rw [e]
  rfl

theorem ord_exceptF (e : Node) (t : Option Str) (pre : List Str) (h : Fits (held (e, t)) pre) :
    Ord pre (exceptF r e t) held := by
  unfold exceptF
  refine Ord.ite (fun ht => ?_) (fun _ => Ord.pure h)
  obtain ⟨x, rfl, hx⟩ := isWord_some ht
  obtain ⟨we, wt, he, ⟨_, rfl, hwt⟩, hl⟩ := h.split
  refine Ord.weaken ?_ (((List.Sublist.refl we).append hwt).trans hl)
  clear h hl hwt
  dsimp only at he ⊢
  rw [la_word hx]
  refine Ord.call (ord_starArgsF hg x) ?_
  rintro args _ ⟨_, w, ⟨_, rfl, rfl⟩, hw, rfl⟩
  have hw := Fits.of hw
  refine Ord.next? fun t => Ord.pure ?_
  simp only [held, said]
  refine Fits.mono (.cat (.cat he (.cat (.one hx) hw)) (.la_toList t)) ?_
  simp only [List.append_assoc]
  exact .refl _

theorem ord_replaceF (e : Node) (t : Option Str) (pre : List Str) (h : Fits (held (e, t)) pre) :
    Ord pre (replaceF r e t) held := by
  unfold replaceF
  refine Ord.ite (fun ht => ?_) (fun _ => Ord.pure h)
  obtain ⟨x, rfl, hx⟩ := isWord_some ht
  obtain ⟨we, wt, he, ⟨_, rfl, hwt⟩, hl⟩ := h.split
  refine Ord.weaken ?_ (((List.Sublist.refl we).append hwt).trans hl)
  clear h hl hwt
  dsimp only at he ⊢
  rw [la_word hx]
  refine Ord.call (ord_starArgsF hg x) ?_
  rintro args _ ⟨_, w, ⟨_, rfl, rfl⟩, hw, rfl⟩
  have hw := Fits.of hw
  refine Ord.assert fun _ => Ord.next? fun t => Ord.pure ?_
  simp only [held, said]
  refine Fits.mono (.cat (.cat he (.cat (.one hx) hw)) (.la_toList t)) ?_
  simp only [List.append_assoc]
  exact .refl _

theorem ord_aliasF (a : ExprArgs) (e : Node) (t : Option Str) (pre : List Str) (h : Fits (held (e, t)) pre) :
    Ord pre (aliasF r a e t) held := by
  unfold aliasF
  cases t with
  | none => exact Ord.pure h
  | some x =>
    dsimp only
    refine Ord.ite (fun _ => ?_) (fun _ => Ord.pure h)
    obtain ⟨we, wt, he, ⟨_, rfl, hwt⟩, hl⟩ := h.split
    refine Ord.weaken ?_ (((List.Sublist.refl we).append hwt).trans hl)
    clear h hl hwt
    dsimp only at he ⊢
    refine Ord.ite (fun hx => ?_) (fun _ => ?_)
    · rw [la_word hx]
      ord_step hg
      ord_step hg
      ord_auto hg
    refine Ord.ite (fun hq => ?_) (fun _ => ?_)
    · refine Ord.stringParser (quotes_lower hq) fun v w hv => ?_
      refine Ord.next? fun t => Ord.pure ?_
      simp only [Option.toList_none, List.nil_append] at hv
      simp only [held, said, flag, Bool.false_eq_true, if_false, skip_cat]
      exact .cat (.cat (.left he) hv) (.la_toList t)
    · ord_auto hg

theorem ord_tailF (a : ExprArgs) (e : Node) (t : Option Str) (pre : List Str) (h : Fits (held (e, t)) pre) :
    Ord pre (tailF r a e t) held := by
  unfold tailF
  refine Ord.thread (ord_condF hg a e t pre h) ?_
  rintro ⟨e, t⟩ w hw
  refine Ord.thread (ord_boolF hg a e t w (.of hw)) ?_
  rintro ⟨e, t⟩ w hw
  refine Ord.thread (ord_exceptF hg e t w (.of hw)) ?_
  rintro ⟨e, t⟩ w hw
  refine Ord.thread (ord_replaceF hg e t w (.of hw)) ?_
  rintro ⟨e, t⟩ w hw
  exact ord_aliasF hg a e t w (.of hw)

theorem ord_atomF (a : ExprArgs) (main : Str) : Ord [main] (atomF r a main) held := by
  unfold atomF
  refine Ord.thread (ord_primaryF hg a main) ?_
  rintro ⟨e?, t⟩ w (⟨e, he, hw⟩ | ⟨he, rfl⟩)
  · dsimp only at he
    subst he
    have hw := Fits.of hw
    cases t with
    | none =>
      dsimp only
      refine Ord.next? fun t => Ord.pure ?_
      simp only [held, la_none, lit_nil, cat_skip] at hw ⊢
      exact .cat hw (.la_toList t)
    | some x => exact Ord.pure hw
  · cases he
    dsimp only
    exact Ord.next? fun t => ord_secondaryF hg a main t

theorem ord_operandF (a : ExprArgs) : Ord a.firstToken.toList (operandF r a) held := by
  unfold operandF
  have key : ∀ main : Str, Ord [main] (do
      let (e, t) ← atomF r a main
      let (e, t) ← overF r e t
      let (e, t) ← r.dotLoop a.untilOneOf e t
      let (e, t) ← arithF r a e t
      r.indexLoop e t) held := by
    intro main
    refine Ord.thread (ord_atomF hg a main) ?_
    rintro ⟨e, t⟩ w hw
    refine Ord.thread (ord_overF hg e t w (.of hw)) ?_
    rintro ⟨e, t⟩ w hw
    refine Ord.thread (hg.dotLoop _ e t w (.of hw)) ?_
    rintro ⟨e, t⟩ w hw
    refine Ord.thread (ord_arithF hg a e t w (.of hw)) ?_
    rintro ⟨e, t⟩ w hw
    exact hg.indexLoop e t w (.of hw)
  unfold mainToken
  cases a.firstToken with
  | none => exact Ord.next! fun t => key t
  | some x =>
    dsimp only
    split
    · refine Ord.weaken (pre' := []) (Ord.next! fun t => key t) (List.nil_sublist _)
    · exact key x

theorem ord_exprF (a : ExprArgs) : Ord a.firstToken.toList (exprF r a) held := by
  unfold exprF
  refine Ord.thread (ord_operandF hg a) ?_
  rintro ⟨e, t⟩ w hw
  dsimp only
  split
  · exact Ord.pure (.of hw)
  · exact ord_tailF hg a e t w (.of hw)

omit hg in
theorem exprF_nil (a : ExprArgs) (ha : a.firstToken = none) (f : Option PyErr) (x : (Node × Option Str) × Stream) :
    exprF r a ⟨[], f⟩ ≠ .ok x := by
  unfold exprF operandF mainToken
  rw [ha]
  change P.bind (P.bind next! _) _ _ ≠ _
  unfold P.bind
  cases f <;> simp [next!]

theorem Faithful.next : Faithful r.next where
  stmt := ord_stmtF hg
  select := ord_selectF hg
  from_ := ord_fromF hg
  expr := ord_exprF hg
  exprNil := exprF_nil
  exprList := ord_exprListF hg
  orderLoop := ord_orderLoopF hg
  caseLoop := ord_caseLoopF hg
  withLoop := ord_withLoopF hg
  setLoop := ord_setLoopF hg
  joinLoop := ord_joinLoopF hg
  dotLoop := ord_dotLoopF hg
  indexLoop := ord_indexLoopF hg

end

theorem faithful : ∀ n, Faithful (parsers n)
  | 0 => by
    constructor <;> intros <;> (try (intro s a s' e; cases e))
    intro e; cases e
  | n + 1 => (faithful n).next

/-- Whatever the parser returns was said by the tokens, in order. -/
theorem parse_said {s : Stream} {n : Node} (h : parse s = .ok n) : Fits (said n) s.toks := by
  unfold parse parseAt at h
  cases hp : (parsers (parseFuel s)).stmt s with
  | err _ => rw [hp] at h; cases h
  | diverge => rw [hp] at h; cases h
  | ok x =>
    obtain ⟨m, s'⟩ := x
    rw [hp] at h
    cases h
    obtain ⟨w, hw, hl⟩ := (faithful _).stmt s _ s' hp
    exact ⟨w, hw, (List.sublist_append_left _ _).trans hl⟩

end SqlV.Said
