import Verif.Spec.Built
import Verif.Lemmas.Said

/-!
# What each parser builds and what it raises
-/

namespace SqlV.Built

set_option linter.unusedSectionVars false

/-- The results satisfy `Q`, the exceptions are those of `raised` or that of the generator. -/
def Sat {α : Type} (p : P α) (Q : α → Prop) : Prop :=
  ∀ s : Stream, (∀ a s', p s = .ok (a, s') → Q a ∧ s'.fail = s.fail) ∧
    ∀ e, p s = .err e → raised e = true ∨ s.fail = some e

namespace Sat

variable {α β γ : Type} {p : P α} {Q R : α → Prop} {f : α → P β} {S : β → Prop}

theorem mono (h : Sat p Q) (hq : ∀ a, Q a → R a) : Sat p R := fun s =>
  ⟨fun a s' e => ⟨hq a ((h s).1 a s' e).1, ((h s).1 a s' e).2⟩, (h s).2⟩

theorem pure {a : α} (h : Q a) : Sat (Pure.pure a : P α) Q := by
  intro s
  refine ⟨fun b s' e => ?_, fun e h => by cases h⟩
  cases e
  exact ⟨h, rfl⟩

theorem bind (hp : Sat p Q) (hf : ∀ a, Q a → Sat (f a) S) : Sat (p >>= f) S := by
  intro s
  refine ⟨fun b s' e => ?_, fun x e => ?_⟩
  all_goals
    change P.bind p f s = _ at e
    unfold P.bind at e
    cases hps : p s with
    | ok y =>
      obtain ⟨a, s1⟩ := y
      rw [hps] at e
      obtain ⟨hq, hs⟩ := (hp s).1 a s1 hps
      first
        | exact ⟨((hf a hq s1).1 _ _ e).1, ((hf a hq s1).1 _ _ e).2.trans hs⟩
        | exact ((hf a hq s1).2 _ e).imp id fun h => hs ▸ h
    | err y =>
      rw [hps] at e
      cases e
      try exact (hp s).2 _ hps
    | diverge => rw [hps] at e; cases e

theorem bind_pure {a : α} (h : Sat (f a) S) : Sat ((Pure.pure a : P α) >>= f) S := h

theorem assoc {g : α → P γ} {f : γ → P β} (h : Sat (p >>= fun x => g x >>= f) S) : Sat ((p >>= g) >>= f) S := by
  have : ((p >>= g) >>= f) = (p >>= fun x => g x >>= f) := by
    funext s
    change P.bind (P.bind p g) f s = P.bind p (fun x => P.bind (g x) f) s
    unfold P.bind
    cases p s <;> rfl
  rw [this]
  exact h

theorem ite {c : Prop} [Decidable c] {p p' : P α} (h : c → Sat p Q) (h' : ¬ c → Sat p' Q) :
    Sat (if c then p else p') Q := by
  split
  · exact h ‹_›
  · exact h' ‹_›

theorem ite_bind {c : Prop} [Decidable c] {p p' : P α} (h : c → Sat (p >>= f) S) (h' : ¬ c → Sat (p' >>= f) S) :
    Sat ((if c then p else p') >>= f) S := by
  split
  · exact h ‹_›
  · exact h' ‹_›

theorem raise {e : PyErr} (h : raised e = true) : Sat (P.raise e : P α) Q := fun _ =>
  ⟨fun _ _ h => (by cases h), fun x e' => (by cases e'; exact .inl h)⟩

theorem raise_bind {e : PyErr} (h : raised e = true) : Sat ((P.raise e : P α) >>= f) S := fun _ =>
  ⟨fun _ _ h => (by cases h), fun x e' => (by cases e'; exact .inl h)⟩

theorem assert {b : Bool} {f : Unit → P β} (h : b = true → Sat (f ()) S) : Sat (P.assert b >>= f) S := by
  unfold P.assert
  cases b
  · exact raise_bind rfl
  · exact h rfl

theorem sub (ts : List Str) (hp : Sat p Q) : Sat (P.sub ts p) Q := by
  intro s
  refine ⟨fun b s' e => ?_, fun x e => ?_⟩
  all_goals
    unfold P.sub at e
    cases hps : p ⟨ts, none⟩ with
    | ok y =>
      obtain ⟨a, s1⟩ := y
      rw [hps] at e
      cases e
      try exact ⟨((hp _).1 _ _ hps).1, rfl⟩
    | err y =>
      rw [hps] at e
      cases e
      try exact .inl (((hp _).2 _ hps).resolve_right (by intro h; cases h))
    | diverge => rw [hps] at e; cases e

theorem orElse {p' : P α} (hp : Sat p Q) (hp' : Sat p' Q) : Sat (P.orElseParsing p p') Q := by
  intro s
  refine ⟨fun b s' e => ?_, fun x e => ?_⟩
  all_goals
    unfold P.orElseParsing at e
    split at e
    · first
        | exact (hp' s).1 _ _ e
        | exact (hp' s).2 _ e
    · first
        | exact (hp s).1 _ _ e
        | exact (hp s).2 _ e

/-- Nothing is said of the result. -/
abbrev Any (p : P α) : Prop := Sat p fun _ => True

theorem any (hp : Any p) (hf : ∀ a, Sat (f a) S) : Sat (p >>= f) S := bind hp fun a _ => hf a

theorem next? : Any next? := by
  rintro ⟨ts, o⟩
  refine ⟨fun a s' e => ?_, fun x e => ?_⟩
  all_goals
    unfold SqlV.next? at e
    cases ts <;> cases o <;> cases e
    all_goals first
      | exact ⟨trivial, rfl⟩
      | exact .inr rfl

theorem next! : Any next! := by
  rintro ⟨ts, o⟩
  refine ⟨fun a s' e => ?_, fun x e => ?_⟩
  all_goals
    unfold SqlV.next! at e
    cases ts <;> cases o <;> cases e
    all_goals first
      | exact ⟨trivial, rfl⟩
      | exact .inr rfl
      | exact .inl rfl

theorem afterScan_ok {b : Bool} {rest : List Str} {x a : α} {s s' : Stream} (e : afterScan b rest x s = .ok (a, s')) :
    s'.fail = s.fail := by
  obtain ⟨ts, o⟩ := s
  unfold afterScan at e
  cases b <;> cases o <;> cases e <;> rfl

theorem afterScan_err {b : Bool} {rest : List Str} {x : α} {s : Stream} {y : PyErr} (e : afterScan b rest x s = .err y) :
    s.fail = some y := by
  obtain ⟨ts, o⟩ := s
  unfold afterScan at e
  cases b <;> cases o <;> cases e <;> rfl

theorem drain : Any drain := by
  rintro ⟨ts, o⟩
  refine ⟨fun a s' e => ?_, fun x e => ?_⟩
  all_goals
    unfold SqlV.drain at e
    cases o <;> cases e
    all_goals first
      | exact ⟨trivial, rfl⟩
      | exact .inr rfl

variable [E : PyEnv]

theorem untilClosing {first : Option Str} : Any (untilClosing first) := fun _ =>
  ⟨fun _ _ e => ⟨trivial, afterScan_ok e⟩, fun _ e => .inr (afterScan_err e)⟩

theorem untilOneOf {stop : List Str} {first : Option Str} {keep : List (Str × Str)} : Any (untilOneOf stop first keep) := fun _ =>
  ⟨fun _ _ e => ⟨trivial, afterScan_ok e⟩, fun _ e => .inr (afterScan_err e)⟩

theorem untilNotIn {kept : List Str} {first : Option Str} : Any (untilNotIn kept first) := fun _ =>
  ⟨fun _ _ e => ⟨trivial, afterScan_ok e⟩, fun _ e => .inr (afterScan_err e)⟩

theorem toIntP {s : Str} : Any (toIntP s) := by
  unfold SqlV.toIntP
  split
  · exact pure trivial
  · exact raise rfl

theorem floatStrP {s : Str} : Any (floatStrP s) := by
  unfold SqlV.floatStrP
  split
  · exact pure trivial
  · exact raise rfl

end Sat

/-- One step that says nothing of the result. -/
macro "sat1" : tactic => `(tactic| first
  | with_reducible refine Sat.any Sat.next? fun _ => ?_
  | with_reducible refine Sat.any Sat.next! fun _ => ?_
  | with_reducible refine Sat.any Sat.untilClosing fun _ => ?_
  | (with_reducible refine Sat.any Sat.untilOneOf ?_); rintro ⟨_, _⟩
  | (with_reducible refine Sat.any Sat.untilNotIn ?_); rintro ⟨_, _⟩
  | with_reducible refine Sat.any Sat.toIntP fun _ => ?_
  | with_reducible refine Sat.any Sat.floatStrP fun _ => ?_
  | with_reducible refine Sat.any Sat.drain fun _ => ?_
  | with_reducible refine Sat.assert fun _ => ?_
  | with_reducible refine Sat.bind_pure ?_
  | with_reducible refine Sat.assoc ?_
  | with_reducible refine Sat.ite_bind (fun _ => ?_) (fun _ => ?_)
  | with_reducible refine Sat.ite (fun _ => ?_) (fun _ => ?_)
  | (with_reducible refine Sat.raise ?_); decide
  | (with_reducible refine Sat.raise_bind ?_); decide)

macro "sats" : tactic => `(tactic| repeat' sat1)

variable [E : PyEnv] [L : LawfulPyEnv E]

theorem takes_mono {k m j : Nat} (h : k ≤ m) (hk : (Slot.ex k).takes j = true) : (Slot.ex m).takes j = true := by
  simp only [Slot.takes, decide_eq_true_eq] at hk ⊢
  omega

theorem built_mono {n : Node} {k m : Nat} (h : k ≤ m) : built (.ex k) n = true → built (.ex m) n = true := by
  induction hn : sizeOf n using Nat.strongRecOn generalizing n with
  | _ z ih =>
    subst hn
    cases n
    case index e args =>
      simp only [built, Bool.and_eq_true, Bool.or_eq_true]
      rintro ⟨⟨h0, h1⟩, h2⟩
      refine ⟨⟨takes_mono h h0, ?_⟩, h2⟩
      rcases h1 with h1 | ⟨h1, h3⟩
      · exact .inl h1
      · exact .inr ⟨takes_mono h h1, ih _ (by simp <;> omega) rfl h3⟩
    case string v q pre =>
      cases pre <;> simp only [built, Bool.and_eq_true, Bool.or_eq_true, decide_eq_true_eq, reduceCtorEq, or_false]
      · exact fun h' => ⟨h'.1, takes_mono h h'.2⟩
      · exact fun h' => ⟨h'.1, takes_mono h h'.2.1, h'.2.2⟩
    all_goals
      simp only [built, Slot.source, Slot.takes, Bool.and_eq_true, Bool.or_eq_true, decide_eq_true_eq, reduceCtorEq, false_and, or_false,
        Bool.false_eq_true, imp_self, decide_false, Bool.or_self, and_imp]
      try grind

theorem isQuery_built {n : Node} {s : Slot} (h : built .stmt n = true ∧ isQuery n = true)
    (hs : s.takes 0 = true ∨ s = .stmt ∨ s = .inner ∨ s = .right) : built s n = true := by
  obtain ⟨h, hq⟩ := h
  cases n <;> simp only [isQuery, Bool.false_eq_true] at hq
  simp only [built, Bool.and_eq_true, Bool.or_eq_true, decide_eq_true_eq] at h ⊢
  grind

theorem from_built {n : Node} {s : Slot} (h : built .from_ n = true) (hs : s.source = true) : built s n = true := by
  cases n <;> simp only [built, Slot.source, Slot.takes, Bool.and_eq_true, Bool.or_eq_true, decide_eq_true_eq, reduceCtorEq, false_and,
    or_false, false_or, Bool.false_eq_true, decide_false, Bool.or_self] at h hs ⊢
  case string v q pre => cases pre <;> simp_all
  all_goals grind

theorem stmt_built {n : Node} (h : built .stmt n = true) : built .inner n = true := by
  cases n <;> simp only [built, Slot.source, Slot.takes, Bool.and_eq_true, Bool.or_eq_true, decide_eq_true_eq, reduceCtorEq, false_and,
    or_false, false_or, Bool.false_eq_true, decide_false, Bool.or_self] at h ⊢
  case string v q pre => cases pre <;> simp_all
  all_goals grind

theorem builtList_append (s : Slot) (l l' : List Node) : builtList s (l ++ l') = (builtList s l && builtList s l') := by
  induction l with
  | nil => simp [builtList]
  | cons n ns ih => simp [builtList, ih, Bool.and_assoc]

/-- The level of the result of an expression parser. -/
def level (a : ExprArgs) : Nat := if a.isChainedColumns then 1 else if a.isRightHand then 2 else 4

theorem level_le (a : ExprArgs) : level a ≤ 4 := by
  unfold level
  split
  · omega
  · split <;> omega

/-- What is to be shown of a record of parsers. -/
structure Good (r : Rec) : Prop where
  stmt : Sat r.stmt fun n => built .stmt n = true
  select : Sat r.select fun n => built .stmt n = true ∧ isQuery n = true
  from_ : Sat r.from_ fun n => built .from_ n = true
  expr (a) : Sat (r.expr a) fun x => built (.ex (level a)) x.1 = true
  exprList (b) : Sat (r.exprList b) fun l => builtList (.ex 4) l = true
  orderLoop (t) : Sat (r.orderLoop t) fun l => builtList .item l = true
  caseLoop (t whens els) (hw : builtList .branch whens = true) (he : (absent els || built (.ex 4) els) = true) :
    Sat (r.caseLoop t whens els) fun x => builtList .branch x.1 = true ∧ (absent x.2 || built (.ex 4) x.2) = true
  withLoop (acc) (h : builtList .query acc = true) :
    Sat (r.withLoop acc) fun l => builtList .query l = true ∧ l.isEmpty = false
  setLoop (e t) (h : built .from_ e = true) : Sat (r.setLoop e t) fun x => built .from_ x.1 = true
  joinLoop (e t) (h : built .from_ e = true) : Sat (r.joinLoop e t) fun n => built .from_ n = true
  dotLoop (u e t) (h : built (.ex 1) e = true) : Sat (r.dotLoop u e t) fun x => built (.ex 1) x.1 = true
  indexLoop (e t k) (hk : 1 ≤ k) (h : built (.ex k) e = true) : Sat (r.indexLoop e t) fun x => built (.ex k) x.1 = true

theorem good_bot : Good Rec.bot := by
  constructor <;> intros <;> intro s <;> exact ⟨fun _ _ h => (by cases h), fun _ h => (by cases h)⟩

/-- Any expression. -/
theorem Good.any_expr {r : Rec} (hg : Good r) (a : ExprArgs) : Sat (r.expr a) fun x => built (.ex 4) x.1 = true :=
  (hg.expr a).mono fun _ h => built_mono (level_le a) h

/-- A right-hand side. -/
theorem Good.operand {r : Rec} (hg : Good r) (a : ExprArgs) (h : a.isRightHand = true) :
    Sat (r.expr a) fun x => built (.ex 2) x.1 = true :=
  (hg.expr a).mono fun _ hx => built_mono (by unfold level; rw [h]; split <;> simp) hx

theorem sat_string {q : Str} {pre : Option Str} (hq : lower q ∈ quotes) (hp : ∀ p, pre = some p → lower p = str!"r") :
    Sat (stringParser q pre) fun n => built (.ex 0) n = true ∧ (pre = none → built .name n = true) := by
  unfold stringParser
  have key : ∀ c, built (.ex 0) (.string c q pre) = true ∧ (pre = none → built .name (.string c q pre) = true) := by
    intro c
    cases pre with
    | none => exact ⟨by simp [built, Slot.takes]; exact List.mem_cons.1 hq |>.imp id (by simp), fun _ => by
        simp [built, Slot.takes]; exact List.mem_cons.1 hq |>.imp id (by simp)⟩
    | some p =>
      have := hp p rfl
      refine ⟨?_, fun h => by cases h⟩
      simp [built, Slot.takes, this]
      exact List.mem_cons.1 hq |>.imp id (by simp)
  sats
  split
  · sats
    · exact Sat.pure (key _)
    · exact Sat.pure (key _)
  · sats

theorem lower_quote {q : Str} (h : q ∈ quotes) : lower q ∈ quotes := by
  simp only [quotes, List.mem_cons, List.not_mem_nil, or_false] at h ⊢
  rcases h with rfl | rfl | rfl <;> rw [Core.lower_self (by decide) (by decide)] <;> simp

theorem sat_quoted {q : Str} (h : q ∈ quotes) :
    Sat (stringParser q) fun n => built (.ex 0) n = true ∧ built .name n = true :=
  (sat_string (lower_quote h) (by intro p h; cases h)).mono fun _ h => ⟨h.1, h.2 rfl⟩

/-- An alias without more ado. -/
theorem sat_fromAlias {s : Slot} {e : Node} (t : Str) (h : ∀ a w, built .name a = true → built s (.alias e a w) = true) :
    Sat (fromAlias e t) fun x => built s x.1 = true := by
  unfold fromAlias
  sats
  · refine Sat.bind (sat_quoted ‹_›) ?_
    rintro a ⟨_, ha⟩
    sats
    exact Sat.pure (h _ _ ha)
  · exact Sat.pure (h _ _ rfl)
  · refine Sat.bind (sat_quoted ‹_›) ?_
    rintro a ⟨_, ha⟩
    sats
    exact Sat.pure (h _ _ ha)
  · exact Sat.pure (h _ _ rfl)

theorem from_alias {e a : Node} {w : Bool} (h : built .from_ e = true) (he : isAlias e = false) (ha : built .name a = true) :
    built .from_ (.alias e a w) = true := by
  simp [built, Slot.source, h, he, ha]

variable {r : Rec} (hg : Good r)

include hg

theorem sat_stmtF : Sat (stmtF r) fun n => built .stmt n = true := by
  unfold stmtF
  sats
  · exact hg.select.mono fun _ h => h.1
  · refine Sat.bind (hg.withLoop [] rfl) ?_
    rintro qs ⟨hq, hn⟩
    refine Sat.bind hg.select ?_
    rintro q ⟨h, hs⟩
    refine Sat.pure ?_
    simp [built, hq, hn, h, hs]
  
theorem sat_withLoopF (acc : List Node) (h : builtList .query acc = true) :
    Sat (withLoopF r acc) fun l => builtList .query l = true ∧ l.isEmpty = false := by
  unfold withLoopF
  sats
  refine Sat.bind (.sub _ hg.stmt) ?_
  intro q hq
  have : ∀ name, builtList .query (acc ++ [.withQuery name q]) = true := fun name => by
    simp [builtList_append, h, builtList, built, hq]
  sats
  · refine Sat.pure ⟨this _, by simp⟩
  · exact hg.withLoop _ (this _)

theorem sat_orderItemF : Sat (orderItemF r) fun n => built .item n = true := by
  unfold orderItemF
  sats
  refine Sat.bind (.sub _ (hg.any_expr _)) ?_
  rintro ⟨e, t⟩ he
  refine Sat.pure ?_
  simp only at he
  simp only [built, he]
  cases isWord _ _ <;> simp

theorem sat_orderLoopF (t : Option Str) : Sat (orderLoopF r t) fun l => builtList .item l = true := by
  unfold orderLoopF
  sats
  · refine Sat.bind (.sub _ (sat_orderItemF hg)) ?_
    intro i hi
    refine Sat.bind (hg.orderLoop _) ?_
    intro l hl
    refine Sat.pure ?_
    simp [builtList, hi, hl]
  · exact Sat.pure rfl

theorem sat_orderByF : Sat (orderByF r) fun n => built .order n = true := by
  unfold orderByF
  sats
  refine Sat.bind (.sub _ (sat_orderItemF hg)) ?_
  intro i hi
  refine Sat.bind (hg.orderLoop _) ?_
  intro l hl
  refine Sat.pure ?_
  simp [built, builtList, hi, hl]

theorem sat_groupByF (each : Bool) : Sat (groupByF r each) fun n => built .group n = true := by
  unfold groupByF
  sats
  refine Sat.bind (.sub _ (hg.exprList _)) ?_
  intro l hl
  refine Sat.pure ?_
  simp [built, hl]

theorem sat_limitF : Sat (limitF r) fun n => built .limit n = true := by
  unfold limitF
  sats
  · exact Sat.pure rfl
  · refine Sat.bind (.sub _ (hg.any_expr _)) ?_
    rintro ⟨e, t⟩ he
    refine Sat.pure ?_
    simpa [built] using he

theorem sat_offsetF : Sat (offsetF r) fun n => built .offset n = true := by
  unfold offsetF
  refine Sat.bind (hg.any_expr _) ?_
  rintro ⟨e, t⟩ he
  refine Sat.pure ?_
  simpa [built] using he

theorem sat_selectHeadF : Sat (selectHeadF r) fun x => builtList (.ex 4) x.2.2.1 = true := by
  unfold selectHeadF
  sats
  · exact Sat.pure rfl
  · refine Sat.bind (.sub _ (hg.exprList _)) ?_
    intro l hl
    exact Sat.pure hl
  · exact Sat.pure rfl
  · exact Sat.pure rfl

theorem sat_selectFromF (t : Option Str) : Sat (selectFromF r t) fun x => (absent x.1 || built .from_ x.1) = true := by
  unfold selectFromF
  sats
  · refine Sat.bind (.sub _ hg.from_) ?_
    intro l hl
    exact Sat.pure (by simp [hl])
  · exact Sat.pure rfl

theorem sat_selectWhereF (t : Option Str) : Sat (selectWhereF r t) fun x => (absent x.1 || built .where_ x.1) = true := by
  unfold selectWhereF
  sats
  · unfold whereF
    refine Sat.bind (hg.any_expr _) ?_
    rintro ⟨e, t⟩ he
    exact Sat.pure (by simpa [built, absent] using he)
  · exact Sat.pure rfl

theorem sat_selectGroupF (t : Option Str) : Sat (selectGroupF r t) fun x => (absent x.1 || built .group x.1) = true := by
  unfold selectGroupF
  sats
  · refine Sat.bind (.sub _ (sat_groupByF hg _)) ?_
    intro l hl
    exact Sat.pure (by simp [hl])
  · refine Sat.bind (.sub _ (sat_groupByF hg _)) ?_
    intro l hl
    exact Sat.pure (by simp [hl])
  · exact Sat.pure rfl

theorem sat_selectHavingF (t : Option Str) : Sat (selectHavingF r t) fun x => (absent x.1 || built .having x.1) = true := by
  unfold selectHavingF
  sats
  · unfold havingF
    refine Sat.bind (hg.any_expr _) ?_
    rintro ⟨e, t⟩ he
    exact Sat.pure (by simpa [built, absent] using he)
  · exact Sat.pure rfl

theorem sat_selectOrderF (t : Option Str) : Sat (selectOrderF r t) fun x => (absent x.1 || built .order x.1) = true := by
  unfold selectOrderF
  sats
  · refine Sat.bind (.sub _ (sat_orderByF hg)) ?_
    intro l hl
    exact Sat.pure (by simp [hl])
  · exact Sat.pure rfl

theorem sat_selectLimitF (t : Option Str) : Sat (selectLimitF r t) fun x => (absent x.1 || built .limit x.1) = true := by
  unfold selectLimitF
  sats
  · refine Sat.bind (.sub _ (sat_limitF hg)) ?_
    intro l hl
    exact Sat.pure (by simp [hl])
  · exact Sat.pure rfl

theorem sat_selectOffsetF (t : Option Str) : Sat (selectOffsetF r t) fun x => (absent x.1 || built .offset x.1) = true := by
  unfold selectOffsetF
  sats
  · refine Sat.bind (.sub _ (sat_offsetF hg)) ?_
    intro l hl
    exact Sat.pure (by simp [hl])
  · exact Sat.pure rfl

theorem sat_selectF : Sat (selectF r) fun n => built .stmt n = true ∧ isQuery n = true := by
  unfold selectF
  refine Sat.bind (sat_selectHeadF hg) ?_
  rintro ⟨all, distinct, on, first⟩ hon
  sats
  refine Sat.bind (.sub _ (hg.exprList _)) ?_
  intro es hes
  refine Sat.bind (sat_selectFromF hg _) ?_
  rintro ⟨f, t⟩ hf
  refine Sat.bind (sat_selectWhereF hg _) ?_
  rintro ⟨w, t⟩ hw
  refine Sat.bind (sat_selectGroupF hg _) ?_
  rintro ⟨g, t⟩ hgr
  refine Sat.bind (sat_selectHavingF hg _) ?_
  rintro ⟨h, t⟩ hh
  refine Sat.bind (sat_selectOrderF hg _) ?_
  rintro ⟨o, t⟩ ho
  refine Sat.bind (sat_selectLimitF hg _) ?_
  rintro ⟨l, t⟩ hl
  refine Sat.bind (sat_selectOffsetF hg _) ?_
  rintro ⟨off, t⟩ hoff
  refine Sat.pure ⟨?_, rfl⟩
  simp only at hon hf hw hgr hh ho hl hoff
  simp only [built, hon, hes, hf, hw, hgr, hh, ho, hl, hoff]
  simp

theorem sat_unnestF : Sat (unnestF r) fun x => built .from_ x.1 = true ∧ isAlias x.1 = false := by
  unfold unnestF
  sats
  refine Sat.bind (.sub _ (hg.exprList _)) ?_
  intro args hargs
  have hcall : built .call (.func str!"unnest" args) = true := by simp [built, hargs]
  sats
  have rest : ∀ x : Node × Option Str, built .call x.1 = true → Sat (do
      let (e, t) := x
      if isWord t str!"with" then do
        let t ← next!
        P.assert (lower t = str!"offset")
        let t ← next?
        match t with
        | some tok =>
          if !inWords t joinValues && !inWords t setOperators then do
            if lower tok = str!"as" then do
              let a ← next!
              let t ← next?
              return (.unnest e true true (some a), t)
            else do
              let t ← next?
              return (.unnest e true false (some tok), t)
          else return (.unnest e true false none, t)
        | none => return (.unnest e true false none, t)
      else return (.unnest e false false none, t)) fun x => built .from_ x.1 = true ∧ isAlias x.1 = false := by
    rintro ⟨e, t⟩ he
    simp only at he
    sats
    · split
      · sats
        all_goals exact Sat.pure ⟨by simp [built, Slot.source, he], rfl⟩
      · exact Sat.pure ⟨by simp [built, Slot.source, he], rfl⟩
    · exact Sat.pure ⟨by simp [built, Slot.source, he], rfl⟩
  rename_i t
  cases t with
  | none => exact Sat.bind (Sat.pure hcall) rest
  | some tok =>
    refine Sat.ite (fun _ => ?_) (fun _ => ?_)
    · refine Sat.bind (sat_fromAlias _ ?_) rest
      intro a w ha
      simp [built, hargs, ha, isAlias]
    · exact Sat.bind (Sat.pure hcall) rest

theorem sat_fromHeadF : Sat (fromHeadF r) fun x => built .from_ x.1 = true ∧ isAlias x.1 = false := by
  unfold fromHeadF
  sats
  · refine Sat.bind (Q := fun n => built .inner n = true) (.orElse ((Sat.sub _ hg.stmt).mono fun _ h => stmt_built h)
      ((Sat.sub _ hg.from_).mono fun _ h => from_built h rfl)) ?_
    intro n hn
    sats
    exact Sat.pure ⟨by simp [built, builtList, Slot.source, hn], rfl⟩
  · refine Sat.bind (sat_quoted ‹_›) ?_
    rintro n ⟨hn, _⟩
    sats
    refine Sat.bind (hg.dotLoop _ _ _ (built_mono (by omega) hn)) ?_
    rintro ⟨e, t⟩ he
    exact Sat.pure ⟨by simpa [built, Slot.source] using built_mono (m := 4) (by omega) he, rfl⟩
  · refine Sat.bind (.sub _ (hg.any_expr _)) ?_
    rintro ⟨e, t⟩ he
    sats
    exact Sat.pure ⟨by simpa [built, Slot.source] using he, rfl⟩
  · exact sat_unnestF hg
  · refine Sat.bind (.sub _ (hg.any_expr _)) ?_
    rintro ⟨e, t⟩ he
    exact Sat.pure ⟨by simpa [built, Slot.source] using he, rfl⟩

theorem sat_fromF : Sat (fromF r) fun n => built .from_ n = true := by
  unfold fromF
  refine Sat.bind (sat_fromHeadF hg) ?_
  rintro ⟨e, t⟩ ⟨he, hn⟩
  have rest : ∀ x : Node × Option Str, built .from_ x.1 = true → Sat (do
      let (e, t) := x
      let (e, t) ← r.setLoop e t
      r.joinLoop e t) fun n => built .from_ n = true := by
    rintro ⟨e, t⟩ he
    refine Sat.bind (hg.setLoop _ _ he) ?_
    rintro ⟨e, t⟩ he
    exact hg.joinLoop _ _ he
  cases t with
  | none => exact Sat.bind (Sat.pure he) rest
  | some tok =>
    refine Sat.ite (fun _ => ?_) (fun _ => ?_)
    · exact Sat.bind (sat_fromAlias _ fun a w ha => from_alias he hn ha) rest
    · exact Sat.bind (Sat.pure he) rest

theorem sat_setLoopF (e : Node) (t : Option Str) (h : built .from_ e = true) :
    Sat (setLoopF r e t) fun x => built .from_ x.1 = true := by
  unfold setLoopF
  refine Sat.ite (fun _ => ?_) (fun _ => ?_)
  · refine Sat.any Sat.untilNotIn ?_
    rintro ⟨ops, t⟩
    refine Sat.any Sat.untilOneOf ?_
    rintro ⟨ts, t⟩
    have rest : ∀ n, built .right n = true → Sat (do
        let e := Node.combined (E.upper (Str.join str!" " ops)) e n
        let (e, t) ← match t with
          | some tok => if !inWords t setOperators then fromAlias e tok else pure (e, t)
          | none => pure (e, t)
        r.setLoop e t) fun x => built .from_ x.1 = true := by
      intro n hn
      have hc : ∀ op, built .from_ (.combined op e n) = true := fun op => by simp [built, Slot.source, h, hn]
      have last : ∀ x : Node × Option Str, built .from_ x.1 = true →
          Sat (match x with | (e, t) => r.setLoop e t) fun x => built .from_ x.1 = true := by
        rintro ⟨e, t⟩ he
        exact hg.setLoop _ _ he
      cases t with
      | none => exact Sat.bind (Sat.pure (hc _)) last
      | some tok =>
        refine Sat.ite (fun _ => ?_) (fun _ => ?_)
        · exact Sat.bind (sat_fromAlias _ fun a w ha => from_alias (hc _) rfl ha) last
        · exact Sat.bind (Sat.pure (hc _)) last
    cases ts with
    | nil => exact Sat.raise rfl
    | cons t0 trest =>
      refine Sat.ite (fun _ => ?_) (fun _ => ?_)
      · exact Sat.bind ((Sat.sub _ hg.select).mono fun _ h => isQuery_built h (by simp)) rest
      · exact Sat.bind ((Sat.sub _ hg.from_).mono fun _ h => from_built h rfl) rest
  · exact Sat.pure h

omit hg in
theorem sat_joinTokens (type : Str) (t : Option Str) : Sat.Any (joinTokens type t) := by
  unfold joinTokens
  sats
  · exact Sat.pure trivial
  · exact Sat.untilOneOf

theorem sat_joinLoopF (e : Node) (t : Option Str) (h : built .from_ e = true) :
    Sat (joinLoopF r e t) fun n => built .from_ n = true := by
  unfold joinLoopF
  refine Sat.ite (fun _ => ?_) (fun _ => ?_)
  · refine Sat.any Sat.untilNotIn ?_
    rintro ⟨ops, t⟩
    refine Sat.any (sat_joinTokens _ _) ?_
    rintro ⟨ts, u⟩
    refine Sat.bind (.sub _ hg.from_) ?_
    intro right hr
    refine Sat.any Sat.untilOneOf ?_
    rintro ⟨ts, t⟩
    have last : ∀ x : Node × Option Str, built .from_ x.1 = true →
        Sat (match x with | (e, t) => r.joinLoop e t) fun n => built .from_ n = true := by
      rintro ⟨e, t⟩ he
      exact hg.joinLoop _ _ he
    have rest : ∀ x : Node × Node, ((absent x.1 || built .on x.1) = true ∧ (absent x.2 || built .using_ x.2) = true ∧
        (absent x.1 || absent x.2) = true) → Sat (do
          let (on, using_) := x
          let e := Node.join (E.upper (Str.join str!" " ops)) e right on using_
          let (e, t) ← match t with
            | some tok => if !inWords t joinValues then fromAlias e tok else pure (e, t)
            | none => pure (e, t)
          r.joinLoop e t) fun n => built .from_ n = true := by
      rintro ⟨on, us⟩ ⟨h1, h2, h3⟩
      have hj : ∀ ty, built .from_ (.join ty e right on us) = true := fun ty => by
        simp only at h1 h2 h3
        simp only [built, h, hr, h1, h2, h3]
        rfl
      cases t with
      | none => exact Sat.bind (Sat.pure (hj _)) last
      | some tok =>
        refine Sat.ite (fun _ => ?_) (fun _ => ?_)
        · exact Sat.bind (sat_fromAlias _ fun a w ha => from_alias (hj _) rfl ha) last
        · exact Sat.bind (Sat.pure (hj _)) last
    refine Sat.ite (fun _ => ?_) (fun _ => ?_)
    · refine Sat.bind (.sub _ (hg.any_expr _)) ?_
      rintro ⟨c, _⟩ hc
      exact Sat.bind (Sat.pure ⟨by simpa [built, absent] using hc, rfl, rfl⟩) rest
    · refine Sat.ite (fun _ => ?_) (fun _ => ?_)
      · refine Sat.bind (.sub _ (hg.any_expr _)) ?_
        rintro ⟨c, _⟩ hc
        exact Sat.bind (Sat.pure ⟨rfl, by simpa [built, absent] using hc, rfl⟩) rest
      · exact Sat.bind (Sat.pure ⟨rfl, rfl, rfl⟩) rest
  · exact Sat.pure h

theorem sat_parseGroups (b : Bool) (gs : List (List Str)) :
    Sat (parseGroups r b gs) fun l => builtList (.ex 4) l = true := by
  induction gs with
  | nil => exact Sat.pure rfl
  | cons g gs ih =>
    unfold parseGroups
    refine Sat.bind (.sub _ (hg.any_expr _)) ?_
    rintro ⟨e, t⟩ he
    refine Sat.bind ih ?_
    intro es hes
    exact Sat.pure (by simp only at he; simp [builtList, he, hes])

theorem sat_exprListF (b : Bool) : Sat (exprListF r b) fun l => builtList (.ex 4) l = true := by
  unfold exprListF
  sats
  exact sat_parseGroups hg _ _

theorem sat_caseF : Sat (caseF r) fun n => built (.ex 0) n = true := by
  unfold caseF
  sats
  all_goals
    try
      refine Sat.bind (.sub _ (hg.any_expr _)) ?_
      rintro ⟨o, _⟩ ho
    sats
    refine Sat.bind (hg.caseLoop _ _ _ rfl rfl) ?_
    rintro ⟨ws, els⟩ ⟨hw, he⟩
    simp only at hw he
    refine Sat.pure ?_
    simp only [built, hw, he]
  · rfl
  · simp only at ho
    simp [ho, Slot.takes]

theorem sat_caseLoopF (t : Option Str) (whens : List Node) (els : Node) (hw : builtList .branch whens = true)
    (he : (absent els || built (.ex 4) els) = true) :
    Sat (caseLoopF r t whens els) fun x => builtList .branch x.1 = true ∧ (absent x.2 || built (.ex 4) x.2) = true := by
  unfold caseLoopF
  sats
  · refine Sat.bind (.sub _ (hg.any_expr _)) ?_
    rintro ⟨a, _⟩ ha
    sats
    refine Sat.bind (.sub _ (hg.any_expr _)) ?_
    rintro ⟨b, _⟩ hb
    simp only at ha hb
    exact hg.caseLoop _ _ _ (by simp [builtList_append, builtList, built, hw, ha, hb]) he
  · refine Sat.bind (.sub _ (hg.any_expr _)) ?_
    rintro ⟨a, _⟩ ha
    simp only at ha
    exact hg.caseLoop _ _ _ hw (by simp [ha])
  · exact hg.caseLoop _ _ _ hw he
  · exact Sat.pure ⟨hw, he⟩

theorem sat_primaryF (a : ExprArgs) (main : Str) :
    Sat (primaryF r a main) fun x => ∀ n, x.1 = some n → built (.ex 0) n = true := by
  have some_ : ∀ {m : Node} {o : Option Str}, built (.ex 0) m = true →
      ∀ n, ((some m, o) : Option Node × Option Str).1 = some n → built (.ex 0) n = true := by
    intro m o h n e
    cases e
    exact h
  unfold primaryF
  sats
  · refine Sat.bind (sat_quoted ‹_›) ?_
    rintro n ⟨hn, _⟩
    exact Sat.pure (some_ hn)
  · exact Sat.pure (some_ rfl)
  · exact Sat.pure (some_ rfl)
  · exact Sat.pure (some_ rfl)
  · exact Sat.pure (some_ rfl)
  · refine Sat.bind (hg.operand _ rfl) ?_
    rintro ⟨e, t⟩ he
    exact Sat.pure (some_ (by simpa [built, Slot.takes] using he))
  · refine Sat.bind (.sub _ (hg.exprList _)) ?_
    intro l hl
    exact Sat.pure (some_ (by simp [built, Slot.takes, hl]))
  · refine Sat.bind (.sub _ (hg.exprList _)) ?_
    intro l hl
    sats
    exact Sat.pure (some_ (by simp [built, Slot.takes, hl]))
  · refine Sat.bind (.sub _ (sat_caseF hg)) ?_
    intro n hn
    exact Sat.pure (some_ hn)
  · refine Sat.bind (.sub _ hg.select) ?_
    intro n hn
    exact Sat.pure (some_ (isQuery_built hn (.inl rfl)))
  · exact Sat.pure (by intro n e; cases e)

theorem sat_castF (a : ExprArgs) : Sat (castF r a) fun n => built (.ex 0) n = true ∧ isCall n = true := by
  unfold castF
  sats
  refine Sat.bind (.sub _ (hg.operand _ rfl)) ?_
  rintro ⟨e, t⟩ he
  sats
  exact Sat.pure ⟨by simpa [built, Slot.takes] using he, rfl⟩

theorem sat_arrayAggF (a : ExprArgs) : Sat (arrayAggF r a) fun n => built (.ex 0) n = true ∧ isCall n = true := by
  have key : ∀ {e o : Node} {d i j l}, built (.ex 4) e = true → (i && j) = false → (absent o || built .order o) = true →
      built (.ex 0) (.arrayAgg e d i j o l) = true ∧ isCall (.arrayAgg e d i j o l) = true := by
    intro e o d i j l he hij ho
    exact ⟨by simp only [built, he, hij, ho]; rfl, rfl⟩
  unfold arrayAggF
  sats
  refine Sat.bind (.sub _ (hg.any_expr _)) ?_
  rintro ⟨e, t⟩ he
  simp only at he
  sats
  all_goals
    try
      refine Sat.bind (.sub _ (sat_orderByF hg)) ?_
      intro o ho
      sats
  all_goals
    refine Sat.pure (key he rfl ?_)
    first
      | rfl
      | simp [ho]

theorem sat_countF : Sat (countF r) fun n => built (.ex 0) n = true ∧ isCall n = true := by
  unfold countF
  sats
  refine Sat.bind (.sub _ (hg.exprList _)) ?_
  intro l hl
  exact Sat.pure ⟨by simp [built, Slot.takes, hl], rfl⟩

theorem sat_callF (a : ExprArgs) (name : Str) : Sat (callF r a name) fun n => built (.ex 0) n = true ∧ isCall n = true := by
  unfold callF
  sats
  refine Sat.bind (.sub _ (hg.exprList _)) ?_
  intro l hl
  exact Sat.pure ⟨by simp [built, Slot.takes, hl], rfl⟩

theorem sat_functionF (a : ExprArgs) (main : Str) : Sat (functionF r a main) fun x => built (.ex 0) x.1 = true := by
  have rest : ∀ e, (built (.ex 0) e = true ∧ isCall e = true) → Sat (do
      let t ← next?
      if truthy? t && isWord t str!"filter" then do
        let t ← next!
        P.assert (t = str!"(")
        let ts ← untilClosing
        match ts with
        | [] => P.raise .index
        | w :: ws => do
          P.assert (lower w = str!"where")
          let (c, _) ← P.sub ws (r.expr { canAlias := false })
          let t ← next?
          return (.filtered e c, t)
      else return (e, t)) fun x => built (.ex 0) x.1 = true := by
    rintro e ⟨he, hc⟩
    sats
    · split
      · exact Sat.raise rfl
      · sats
        refine Sat.bind (.sub _ (hg.any_expr _)) ?_
        rintro ⟨c, _⟩ h
        simp only at h
        sats
        exact Sat.pure (by simp [built, Slot.takes, he, hc, h])
    · exact Sat.pure he
  unfold functionF
  refine Sat.ite (fun _ => ?_) (fun _ => Sat.ite (fun _ => ?_) (fun _ => Sat.ite (fun _ => ?_) (fun _ => ?_)))
  · exact Sat.bind (sat_castF hg a) rest
  · exact Sat.bind (sat_arrayAggF hg a) rest
  · exact Sat.bind (sat_countF hg) rest
  · exact Sat.bind (sat_callF hg a main) rest

theorem sat_secondaryF (a : ExprArgs) (main : Str) (t : Option Str) :
    Sat (secondaryF r a main t) fun x => built (.ex 0) x.1 = true := by
  unfold secondaryF
  sats
  · exact sat_functionF hg a main
  · rename_i h
    refine Sat.bind (hg.any_expr _) ?_
    rintro ⟨e, t⟩ he
    refine Sat.pure ?_
    simp only at he
    have : lower main ∈ parts := h.1
    simp [built, Slot.takes, he, this]
  · rename_i h
    refine Sat.pure ?_
    have : lower main ∈ types := h.1
    simp [built, Slot.takes, this]
  · refine Sat.bind (.sub _ (hg.exprList _)) ?_
    intro l hl
    sats
    exact Sat.pure (by simp [built, Slot.takes, isColumn, hl])
  · split
    · sats
      · exact Sat.pure rfl
      · exact Sat.pure rfl
      · rename_i h
        refine Sat.bind (sat_string h.2 fun p hp => ?_) ?_
        · cases hp
          simpa [stringPrefixes] using h.1
        · rintro n ⟨hn, _⟩
          exact Sat.pure hn
      · exact Sat.pure rfl
    · exact Sat.pure rfl

theorem sat_overF (e : Node) (t : Option Str) (he : built (.ex 0) e = true) :
    Sat (overF r e t) fun x => built (.ex 1) x.1 = true := by
  have key : ∀ ts, Sat (P.sub ts do
        let t ← next?
        let (part, t) ←
          if isWord t str!"partition" then do
            let t ← next?
            if !isWord t str!"by" then P.raise (.parsing str!"Missing BY after PARTITION")
            else do
              let (ts, t) ← untilOneOf [str!"order", str!"rows", str!"range"]
              let es ← P.sub ts (r.exprList false)
              pure (es, t)
          else pure ([], t)
        let (order, t) ←
          if isWord t str!"order" then do
            let t ← next?
            if !isWord t str!"by" then P.raise (.parsing str!"Missing BY after ORDER")
            else do
              let (ts, t) ← untilOneOf [str!"rows", str!"range"]
              let o ← P.sub ts (orderByF r)
              pure (o, t)
          else pure (Node.none, t)
        let frame ← match t with
          | some tok =>
            if lower tok = str!"rows" ∨ lower tok = str!"range" then do
              let (ts, _) ← untilOneOf []
              pure (Node.frame tok (Str.join str!" " ts))
            else pure Node.none
          | none => pure Node.none
        pure (part, order, frame)) fun x => builtList (.ex 4) x.1 = true ∧ (absent x.2.1 || built .order x.2.1) = true ∧
          (absent x.2.2 || built .frame x.2.2) = true := by
    intro ts
    refine Sat.sub _ ?_
    sats
    all_goals
      try
        refine Sat.bind (.sub _ (hg.exprList _)) ?_
        intro l hl
        sats
    all_goals
      try
        refine Sat.bind (.sub _ (sat_orderByF hg)) ?_
        intro o ho
        sats
    all_goals
      dsimp only
      split
      · sats
        all_goals
          refine Sat.pure ⟨?_, ?_, ?_⟩
          · first
              | rfl
              | exact hl
          · first
              | rfl
              | simp [ho]
          · first
              | rfl
              | simp_all [built]
      · refine Sat.pure ⟨?_, ?_, ?_⟩
        · first
            | rfl
            | exact hl
        · first
            | rfl
            | simp [ho]
        · rfl
  unfold overF
  sats
  · refine Sat.bind (key _) ?_
    rintro ⟨part, o, f⟩ ⟨h1, h2, h3⟩
    sats
    simp only at h1 h2 h3
    exact Sat.pure (by simp only [built, he, h1, h2, h3]; rfl)
  · exact Sat.pure (built_mono (by omega) he)

theorem sat_dotLoopF (u : List Str) (e : Node) (t : Option Str) (he : built (.ex 1) e = true) :
    Sat (dotLoopF r u e t) fun x => built (.ex 1) x.1 = true := by
  unfold dotLoopF
  sats
  · refine Sat.bind (hg.expr _) ?_
    rintro ⟨b, t⟩ hb
    have hb : built (.ex 1) b = true := hb
    exact hg.dotLoop _ _ _ (by simp [built, he, Slot.takes, hb])
  · exact Sat.pure he

theorem sat_arithF (a : ExprArgs) (e : Node) (t : Option Str) (he : built (.ex 1) e = true) :
    Sat (arithF r a e t) fun x => built (.ex (if a.isChainedColumns then 1 else 2)) x.1 = true := by
  have hp : built (.ex (if a.isChainedColumns then 1 else 2)) e = true := built_mono (by split <;> omega) he
  unfold arithF
  split
  · sats
    · rename_i h
      refine Sat.bind (hg.operand _ rfl) ?_
      rintro ⟨b, t⟩ hb
      refine Sat.pure ?_
      have hc : a.isChainedColumns = false := by simpa using h.2
      have hs := h.1
      simp only [arithSymbols] at hs
      simp only at hb
      rw [hc]
      simp only [built, he, hb, hs]
      rfl
    · exact Sat.pure hp
  · exact Sat.pure hp

theorem sat_indexLoopF (e : Node) (t : Option Str) (k : Nat) (hk : 1 ≤ k) (he : built (.ex k) e = true) :
    Sat (indexLoopF r e t) fun x => built (.ex k) x.1 = true := by
  unfold indexLoopF
  sats
  · refine Sat.bind (.sub _ (hg.exprList _)) ?_
    intro l hl
    sats
    exact hg.indexLoop _ _ _ hk (by simp [built, Slot.takes, hk, he, hl])
  · exact Sat.pure he

omit hg in
theorem comparison {t : Str} (h : lower t ∈ predicates) : lower t ∈ comparisons := by
  have : ∀ w ∈ predicates, w ∈ comparisons := by decide
  exact this _ h

theorem sat_condF (a : ExprArgs) (e : Node) (t : Option Str) (he : built (.ex 2) e = true) :
    Sat (condF r a e t) fun x => built (.ex 3) x.1 = true := by
  have hp : built (.ex 3) e = true := built_mono (by omega) he
  unfold condF
  split
  · exact Sat.pure hp
  · rename_i tok
    have rest : ∀ x : Str × Option Str, lower x.1 ∈ comparisons → Sat (do
        let (symbol, first) := x
        let (right, t) ← r.expr { isRightHand := true, untilOneOf := a.untilOneOf, firstToken := first }
        return (.cond e symbol right, t)) fun x => built (.ex 3) x.1 = true := by
      rintro ⟨symbol, first⟩ hs
      refine Sat.bind (hg.operand _ rfl) ?_
      rintro ⟨b, t⟩ hb
      simp only at hb hs
      exact Sat.pure (by simp [built, Slot.takes, he, hb, hs])
    refine Sat.ite (fun h => ?_) (fun h => ?_)
    · have hc := comparison h
      refine Sat.ite (fun _ => ?_) (fun _ => ?_)
      · sat1
        refine Sat.ite (fun _ => ?_) (fun _ => ?_)
        · exact Sat.bind_pure (rest (_, _) (by rw [Core.lower_self (by decide) (by decide)]; decide))
        · exact Sat.bind_pure (rest (_, _) hc)
      · refine Sat.ite (fun _ => ?_) (fun _ => ?_)
        · sat1
          refine Sat.ite (fun _ => ?_) (fun _ => ?_)
          · exact Sat.bind_pure (rest (_, _) (by rw [Core.lower_self (by decide) (by decide)]; decide))
          · exact Sat.bind_pure (rest (_, _) hc)
        · exact Sat.bind_pure (rest (_, _) hc)
    · refine Sat.ite (fun hb => ?_) (fun _ => ?_)
      · refine Sat.bind (hg.operand _ rfl) ?_
        rintro ⟨lo, t⟩ hlo
        sats
        refine Sat.bind (hg.operand _ rfl) ?_
        rintro ⟨hi, t⟩ hhi
        simp only at hlo hhi
        exact Sat.pure (by simp [built, Slot.takes, he, hlo, hhi, hb])
      · refine Sat.ite (fun hb => ?_) (fun _ => ?_)
        · refine Sat.bind (hg.operand _ rfl) ?_
          rintro ⟨b, t⟩ hb'
          simp only at hb'
          simp only [bitOperators] at hb
          exact Sat.pure (by simp only [built, he, hb', hb]; rfl)
        · exact Sat.pure hp

theorem sat_boolF (a : ExprArgs) (e : Node) (t : Option Str) (he : built (.ex 3) e = true) :
    Sat (boolF r a e t) fun x => built (.ex 4) x.1 = true := by
  have hp : built (.ex 4) e = true := built_mono (by omega) he
  unfold boolF
  split
  · exact Sat.pure hp
  · sats
    · rename_i h
      simp only [boolPredicates] at h
      refine Sat.bind (hg.any_expr _) ?_
      rintro ⟨b, t⟩ hb
      simp only at hb
      dsimp only
      split
      · refine Sat.pure ?_
        simp only [built, Slot.source, Slot.takes, Bool.and_eq_true, Bool.or_eq_true, decide_eq_true_eq, reduceCtorEq, false_and,
          or_false, Bool.false_eq_true, decide_false, Bool.or_self] at hb ⊢
        exact ⟨⟨hb.1.1, ⟨⟨⟨by omega, h⟩, he⟩, hb.1.2⟩⟩, hb.2⟩
      · refine Sat.pure ?_
        simp only [built, hb, he, h, decide_true]
        rfl
    · exact Sat.pure hp

theorem sat_starArgsF : Sat (starArgsF r) fun l => builtList (.ex 4) l = true := by
  unfold starArgsF
  sats
  exact Sat.sub _ (hg.exprList _)

theorem sat_exceptF (e : Node) (t : Option Str) (he : built (.ex 4) e = true) :
    Sat (exceptF r e t) fun x => built (.ex 4) x.1 = true := by
  unfold exceptF
  sats
  · refine Sat.bind (sat_starArgsF hg) ?_
    intro l hl
    sats
    exact Sat.pure (by simp [built, Slot.takes, he, hl])
  · exact Sat.pure he

omit hg in
theorem isAsAlias_eq : isAsAlias = namedAs := by
  funext n
  cases n <;> rfl

theorem sat_replaceF (e : Node) (t : Option Str) (he : built (.ex 4) e = true) :
    Sat (replaceF r e t) fun x => built (.ex 4) x.1 = true := by
  unfold replaceF
  sats
  · refine Sat.bind (sat_starArgsF hg) ?_
    intro l hl
    sats
    rename_i h _
    rw [isAsAlias_eq] at h
    exact Sat.pure (by simp only [built, Slot.takes, he, hl, h]; rfl)
  · exact Sat.pure he

theorem sat_aliasF (a : ExprArgs) (e : Node) (t : Option Str) (he : built (.ex 4) e = true) :
    Sat (aliasF r a e t) fun x => built (.ex 4) x.1 = true := by
  unfold aliasF
  split
  · exact Sat.pure he
  · sats
    · refine Sat.bind (hg.operand _ rfl) ?_
      rintro ⟨b, _⟩ hb
      simp only at hb
      sats
      exact Sat.pure (by simp [built, Slot.takes, he, hb])
    · refine Sat.bind (sat_quoted ‹_›) ?_
      rintro b ⟨_, hb⟩
      sats
      exact Sat.pure (by simp [built, Slot.takes, he, hb])
    · exact Sat.pure (by simp [built, Slot.takes, he])
    · exact Sat.pure he

theorem sat_tailF (a : ExprArgs) (e : Node) (t : Option Str) (he : built (.ex 2) e = true) :
    Sat (tailF r a e t) fun x => built (.ex 4) x.1 = true := by
  unfold tailF
  refine Sat.bind (sat_condF hg a e t he) ?_
  rintro ⟨e, t⟩ he
  refine Sat.bind (sat_boolF hg a e t he) ?_
  rintro ⟨e, t⟩ he
  refine Sat.bind (sat_exceptF hg e t he) ?_
  rintro ⟨e, t⟩ he
  refine Sat.bind (sat_replaceF hg e t he) ?_
  rintro ⟨e, t⟩ he
  exact sat_aliasF hg a e t he

omit hg in
theorem sat_mainToken (a : ExprArgs) : Sat.Any (mainToken a) := by
  unfold mainToken
  split
  · sats
    · exact Sat.next!
    · exact Sat.pure trivial
  · exact Sat.next!

theorem sat_atomF (a : ExprArgs) (main : Str) : Sat (atomF r a main) fun x => built (.ex 0) x.1 = true := by
  have rest : ∀ (e : Option Node), (∀ n, e = some n → built (.ex 0) n = true) → ∀ t : Option Str, Sat (match e with
      | some e => pure (e, t)
      | none => secondaryF r a main t : P (Node × Option Str)) fun x => built (.ex 0) x.1 = true := by
    intro e he t
    cases e with
    | none => exact sat_secondaryF hg a main t
    | some n => exact Sat.pure (he n rfl)
  unfold atomF
  refine Sat.bind (sat_primaryF hg a main) ?_
  rintro ⟨e, t⟩ he
  cases t with
  | none => exact Sat.any Sat.next? (rest e he)
  | some tok => exact Sat.bind_pure (rest e he _)

theorem sat_operandF (a : ExprArgs) :
    Sat (operandF r a) fun x => built (.ex (if a.isChainedColumns then 1 else 2)) x.1 = true := by
  unfold operandF
  refine Sat.any (sat_mainToken a) ?_
  intro main
  refine Sat.bind (sat_atomF hg a main) ?_
  rintro ⟨e, t⟩ he
  refine Sat.bind (sat_overF hg e t he) ?_
  rintro ⟨e, t⟩ he
  refine Sat.bind (hg.dotLoop _ e t he) ?_
  rintro ⟨e, t⟩ he
  refine Sat.bind (sat_arithF hg a e t he) ?_
  rintro ⟨e, t⟩ he
  exact hg.indexLoop e t _ (by split <;> omega) he

theorem sat_exprF (a : ExprArgs) : Sat (exprF r a) fun x => built (.ex (level a)) x.1 = true := by
  unfold exprF
  refine Sat.bind (sat_operandF hg a) ?_
  rintro ⟨e, t⟩ he
  refine Sat.ite (fun h => ?_) (fun h => ?_)
  · refine Sat.pure ?_
    unfold level
    cases hc : a.isChainedColumns
    · rw [hc] at he h
      simp only [Bool.or_false] at h
      simpa [h] using he
    · rw [hc] at he
      simpa using he
  · simp only [Bool.or_eq_true, not_or, Bool.not_eq_true] at h
    unfold level
    rw [h.1, h.2]
    exact sat_tailF hg a e t (by simpa [h.2] using he)

theorem good_next : Good r.next where
  stmt := sat_stmtF hg
  select := sat_selectF hg
  from_ := sat_fromF hg
  expr := sat_exprF hg
  exprList := sat_exprListF hg
  orderLoop := sat_orderLoopF hg
  caseLoop := sat_caseLoopF hg
  withLoop := sat_withLoopF hg
  setLoop := sat_setLoopF hg
  joinLoop := sat_joinLoopF hg
  dotLoop := sat_dotLoopF hg
  indexLoop := sat_indexLoopF hg

omit hg in
theorem good_parsers (n : Nat) : Good (parsers n) := by
  induction n with
  | zero => exact good_bot
  | succ n ih => exact good_next ih

omit hg in
theorem parse_built {s : Stream} {n : Node} (h : parse s = .ok n) : built .stmt n = true := by
  unfold parse parseAt at h
  split at h
  · rename_i e s' hp
    cases h
    exact ((good_parsers _).stmt _).1 _ _ hp |>.1
  · cases h
  · cases h

omit hg in
theorem parse_raised {s : Stream} {e : PyErr} (h : parse s = .err e) : raised e = true ∨ s.fail = some e := by
  unfold parse parseAt at h
  split at h
  · cases h
  · rename_i x hp
    cases h
    exact ((good_parsers _).stmt _).2 _ hp
  · cases h

end SqlV.Built
