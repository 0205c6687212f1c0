import Verif.Query

/-!
# Parsing terminates

`parsers n` is monotone in `n`, and `n` above three times the number of tokens suffices.
-/

set_option linter.unusedSectionVars false

namespace SqlV

/-! ### A program logic: no divergence, and a condition on normal results -/

/-- The run does not diverge and, if it returns, the result satisfies `Q`. -/
def Term (p : P α) (s : Stream) (Q : α → Stream → Prop) : Prop :=
  match p s with
  | .ok (a, s) => Q a s
  | .err _ => True
  | .diverge => False

theorem Term.bind {p : P α} {f : α → P β} {s : Stream} {Q : β → Stream → Prop} (R : α → Stream → Prop)
    (hp : Term p s R) (hf : ∀ a s', R a s' → Term (f a) s' Q) : Term (p >>= f) s Q := by
  show Term (P.bind p f) s Q
  unfold Term at hp
  unfold Term P.bind
  cases h : p s with
  | ok x =>
    obtain ⟨a, s'⟩ := x
    rw [h] at hp
    exact hf a s' hp
  | err e => trivial
  | diverge => rw [h] at hp; exact hp.elim

theorem Term.pure {a : α} {s : Stream} {Q : α → Stream → Prop} (h : Q a s) :
    Term (Pure.pure a : P α) s Q := h

theorem Term.bind_pure {a : α} {f : α → P β} {s : Stream} {Q : β → Stream → Prop}
    (h : Term (f a) s Q) : Term ((Pure.pure a : P α) >>= f) s Q := h

theorem Term.ite {c : Prop} [Decidable c] {p q : P α} {s : Stream} {Q : α → Stream → Prop}
    (hp : c → Term p s Q) (hq : ¬ c → Term q s Q) : Term (if c then p else q) s Q := by
  split
  · exact hp ‹_›
  · exact hq ‹_›

theorem Term.raise {e : PyErr} {s : Stream} {Q : α → Stream → Prop} : Term (P.raise e : P α) s Q :=
  trivial

theorem Term.mono {p : P α} {s : Stream} {Q R : α → Stream → Prop} (h : Term p s Q)
    (hQ : ∀ a s, Q a s → R a s) : Term p s R := by
  unfold Term at *
  split <;> simp_all

theorem Term.sub {l : List Str} {p : P α} {s : Stream} {R : α → Stream → Prop}
    (h : Term p ⟨l, none⟩ R) : Term (P.sub l p) s fun _ s' => s' = s := by
  unfold Term at h
  unfold Term P.sub
  cases hr : p ⟨l, none⟩ with
  | ok x => rfl
  | err e => trivial
  | diverge => rw [hr] at h; exact h.elim

theorem Term.assert {c : Bool} {s : Stream} : Term (P.assert c) s fun _ s' => s' = s := by
  unfold P.assert
  split
  · exact Term.pure rfl
  · trivial

theorem Term.orElse {p q : P α} {s : Stream} {Q : α → Stream → Prop} (hp : Term p s Q)
    (hq : Term q s Q) : Term (P.orElseParsing p q) s Q := by
  unfold Term P.orElseParsing at *
  cases h : p s with
  | ok x => rw [h] at hp; exact hp
  | diverge => rw [h] at hp; exact hp
  | err e => cases e <;> first | exact hq | trivial

/-- Number of tokens held back in `next_token`. -/
def held : Option Str → Nat
  | none => 0
  | some _ => 1

@[simp] theorem held_none : held none = 0 := rfl
@[simp] theorem held_some (t : Str) : held (some t) = 1 := rfl

theorem held_le (t : Option Str) : held t ≤ 1 := by cases t <;> simp

/-- Tokens still to come. -/
def Stream.size (s : Stream) : Nat := s.toks.length

theorem term_next? (s : Stream) : Term next? s fun t s' => s'.size + held t = s.size := by
  rcases s with ⟨_ | ⟨t, ts⟩, _ | e⟩ <;> simp [next?, Term, Stream.size]

theorem term_next! (s : Stream) : Term next! s fun _ s' => s'.size + 1 = s.size := by
  rcases s with ⟨_ | ⟨t, ts⟩, _ | e⟩ <;> simp [next!, Term, Stream.size]

variable [E : PyEnv]

theorem term_afterScan {a : α} {stopped : Bool} {rest : List Str} {s : Stream}
    {Q : α → Stream → Prop} (h : ∀ f, (stopped = true ∨ s.fail = none) → Q a ⟨rest, f⟩) :
    Term (afterScan stopped rest a) s Q := by
  unfold Term afterScan
  cases stopped with
  | true => exact h _ (.inl rfl)
  | false =>
    rcases s with ⟨ts, _ | e⟩
    · exact h _ (.inr rfl)
    · trivial

theorem scanClosing_length (l : List Str) : ∀ c : Int,
    (scanClosing c l).1.length + (scanClosing c l).2.2.length ≤ l.length := by
  induction l with
  | nil => intro c; simp [scanClosing]
  | cons t ts ih =>
    intro c
    unfold scanClosing
    split
    · simp
    · dsimp only
      generalize (if t = str!"(" then c + 1 else if t = str!")" then c - 1 else c) = c'
      have := ih c'
      simp only [List.length_cons]
      omega

theorem term_untilClosing (first : Option Str) (s : Stream) :
    Term (untilClosing first) s fun ts s' => ts.length + s'.size ≤ s.size + held first := by
  unfold untilClosing
  refine term_afterScan fun f _ => ?_
  cases first with
  | none => exact scanClosing_length _ _
  | some x =>
    dsimp only [held, Stream.size]
    split
    · have := scanClosing_length s.toks 0
      omega
    · exact scanClosing_length _ _

theorem scanOneOf_length (stop : List Str) (keep : List (Str × Str)) (l : List Str) :
    ∀ last d, (scanOneOf stop keep last d l).1.length + held (scanOneOf stop keep last d l).2.1 +
      (scanOneOf stop keep last d l).2.2.length = l.length ∧
      ∀ t, (scanOneOf stop keep last d l).2.1 = some t → lower t ∈ stop := by
  induction l with
  | nil => intro last d; simp [scanOneOf]
  | cons t ts ih =>
    intro last d
    unfold scanOneOf
    split
    · rename_i h
      refine ⟨by simp; omega, ?_⟩
      rintro _ ⟨⟩
      simp only [stopsHere, Bool.and_eq_true, decide_eq_true_eq] at h
      exact h.1.1.1.1
    · have := ih (some t) (d.step t)
      refine ⟨?_, this.2⟩
      have := this.1
      simp only [List.length_cons]
      omega

theorem term_untilOneOf (stop : List Str) (first : Option Str) (keep : List (Str × Str)) (s : Stream) :
    Term (untilOneOf stop first keep) s fun r s' =>
      r.1.length + held r.2 + s'.size = s.size + held first ∧ held first ≤ r.1.length ∧
        ∀ t, r.2 = some t → lower t ∈ stop := by
  unfold untilOneOf
  refine term_afterScan fun f _ => ?_
  have := scanOneOf_length stop keep s.toks first (Depth.init first)
  refine ⟨?_, by cases first <;> simp, this.2⟩
  have := this.1
  simp only [Stream.size, List.length_append]
  cases first <;> simp <;> omega

theorem scanNotIn_length (kept : List Str) (l : List Str) :
    (scanNotIn kept l).1.length + held (scanNotIn kept l).2.1 + (scanNotIn kept l).2.2.length =
      l.length := by
  induction l with
  | nil => simp [scanNotIn]
  | cons t ts ih =>
    unfold scanNotIn
    split
    · dsimp only
      simp only [List.length_cons]
      omega
    · simp; omega

theorem term_untilNotIn (kept : List Str) (first : Option Str) (s : Stream) :
    Term (untilNotIn kept first) s fun r s' =>
      r.1.length + held r.2 + s'.size = s.size + held first ∧ held first ≤ r.1.length := by
  unfold untilNotIn
  refine term_afterScan fun f _ => ?_
  have := scanNotIn_length kept s.toks
  refine ⟨?_, by cases first <;> simp⟩
  simp only [Stream.size, List.length_append]
  cases first <;> simp <;> omega

theorem term_drain (s : Stream) : Term drain s fun ts s' => ts.length + s'.size = s.size := by
  unfold Term drain
  cases s.fail <;> simp [Stream.size]

theorem term_stringParser (q : Str) (pre : Option Str) (s : Stream) :
    Term (stringParser q pre) s fun _ s' => s'.size + 1 ≤ s.size := by
  unfold stringParser
  refine Term.bind _ (term_next? s) ?_
  rintro t s1 h1
  cases t with
  | none =>
    refine Term.bind _ (term_next! s1) ?_
    rintro _ _ _; exact Term.raise
  | some c =>
    simp only [held_some] at h1
    dsimp only
    split
    · exact Term.pure (by omega)
    · refine Term.bind _ (term_next! s1) ?_
      rintro e s2 h2
      split
      · exact Term.raise
      · exact Term.pure (by omega)

theorem term_toIntP (x : Str) (s : Stream) : Term (toIntP x) s fun _ s' => s' = s := by
  unfold toIntP
  split
  · exact Term.pure rfl
  · exact Term.raise

theorem term_floatStrP (x : Str) (s : Stream) : Term (floatStrP x) s fun _ s' => s' = s := by
  unfold floatStrP
  split
  · exact Term.pure rfl
  · exact Term.raise

/-- The recursive parsers do what is needed on inputs of measure below `B`. -/
structure Good (r : Rec) (B : Nat) : Prop where
  stmt : ∀ s, 3 * s.size < B → Term r.stmt s fun _ s' => s'.size ≤ s.size
  select : ∀ s, 3 * s.size + 2 < B → Term r.select s fun _ s' => s'.size ≤ s.size
  from_ : ∀ s, 3 * s.size + 1 < B → Term r.from_ s fun _ s' => s'.size ≤ s.size
  expr : ∀ a s, 3 * (s.size + held a.firstToken) < B →
    Term (r.expr a) s fun x s' => s'.size + held x.2 + 1 ≤ s.size + held a.firstToken
  exprList : ∀ b s, 3 * s.size + 1 < B → Term (r.exprList b) s fun _ s' => s'.size ≤ s.size
  orderLoop : ∀ t s, 3 * (s.size + held t) < B →
    Term (r.orderLoop t) s fun _ s' => s'.size ≤ s.size
  caseLoop : ∀ t ws e s, 3 * (s.size + held t) < B →
    (∀ w, t = some w → lower w = str!"when" ∨ lower w = str!"else") →
    Term (r.caseLoop t ws e) s fun _ s' => s'.size ≤ s.size
  withLoop : ∀ acc s, 3 * s.size < B → Term (r.withLoop acc) s fun _ s' => s'.size + 1 ≤ s.size
  setLoop : ∀ e t s, 3 * (s.size + held t) < B →
    Term (r.setLoop e t) s fun x s' => s'.size + held x.2 ≤ s.size + held t
  joinLoop : ∀ e t s, 3 * (s.size + held t) < B → Term (r.joinLoop e t) s fun _ s' => s'.size ≤ s.size
  dotLoop : ∀ u e t s, 3 * (s.size + held t) < B →
    Term (r.dotLoop u e t) s fun x s' => s'.size + held x.2 ≤ s.size + held t
  indexLoop : ∀ e t s, 3 * (s.size + held t) < B →
    Term (r.indexLoop e t) s fun x s' => s'.size + held x.2 ≤ s.size + held t

theorem isWord_some {t : Option Str} {w : Str} (h : isWord t w = true) : ∃ x, t = some x ∧ lower x = w := by
  cases t with
  | none => simp [isWord, lower?] at h
  | some x => exact ⟨x, rfl, by simpa [isWord, lower?] using h⟩

theorem inWords_some {t : Option Str} {w : List Str} (h : inWords t w = true) : ∃ x, t = some x := by
  cases t with
  | none => simp [inWords] at h
  | some x => exact ⟨x, rfl⟩

theorem truthy_some {t : Option Str} (h : truthy? t = true) : ∃ x, t = some x := by
  cases t with
  | none => simp [truthy?] at h
  | some x => exact ⟨x, rfl⟩

theorem term_fromAlias (e : Node) (t : Str) (s : Stream) :
    Term (fromAlias e t) s fun x s' => s'.size + held x.2 ≤ s.size := by
  unfold fromAlias
  have h1 : ∀ (s1 : Stream) (n : Node), s1.size ≤ s.size →
      Term (next? >>= fun x => pure (Node.alias e n (decide (lower t = str!"as")), x)) s1
        fun x s' => s'.size + held x.2 ≤ s.size := by
    intro s1 n h
    refine Term.bind _ (term_next? _) ?_
    intro x s' hx
    refine Term.pure ?_
    dsimp only
    omega
  have h2 : ∀ (s1 : Stream) (a : Str), s1.size ≤ s.size →
      Term (if a ∈ quotes then do
          let alias ← stringParser a
          let t' ← next?
          pure (Node.alias e alias (decide (lower t = str!"as")), t')
        else do
          let alias ← pure (Node.raw a)
          let t' ← next?
          pure (Node.alias e alias (decide (lower t = str!"as")), t')) s1
        fun x s' => s'.size + held x.2 ≤ s.size := by
    intro s1 a h
    split
    · refine Term.bind _ (term_stringParser _ _ _) ?_
      intro n s2 h'
      exact h1 _ _ (by omega)
    · exact h1 _ _ h
  dsimp only
  split
  · refine Term.bind _ (term_next! _) ?_
    intro a s1 h
    exact h2 _ _ (by omega)
  · exact h2 _ _ (Nat.le_refl _)

theorem splitGroups_length : ∀ (ts : List Str) (d : ListState) (acc : List Str),
    ∀ g ∈ splitGroups d acc ts, g.length ≤ acc.length + ts.length
  | [], d, acc => by intro g hg; simp [splitGroups] at hg
  | [t], d, acc => by
    intro g hg
    simp only [splitGroups, List.mem_singleton] at hg
    simp [hg]
  | t :: n :: rest, d, acc => by
    intro g hg
    unfold splitGroups at hg
    dsimp only at hg
    split at hg
    · rcases List.mem_cons.1 hg with rfl | hg
      · simp
      · have := splitGroups_length rest _ _ g hg
        simp only [List.length_nil, List.length_cons] at *
        omega
    · have := splitGroups_length (n :: rest) _ _ g hg
      simp only [List.length_append, List.length_nil, List.length_cons] at *
      omega

/-- Arithmetic side conditions. -/
macro "size_tac" : tactic =>
  `(tactic| ((try simp only [held_none, held_some, Stream.size, List.length_cons, List.length_nil,
      List.length_append, Option.toList] at *) <;> omega))

/-- One step through a parser, with the facts about the recursive parsers in `hg`. -/
macro "term_step" hg:ident : tactic =>
  `(tactic| first
    | with_reducible exact Term.raise
    | (with_reducible refine Term.pure ?_; size_tac)
    | (with_reducible refine Term.bind_pure ?_; try dsimp only)
    | (with_reducible refine Term.bind _ (term_next! _) ?_; rintro _ _ _; try dsimp only)
    | (with_reducible refine Term.bind _ (term_next? _) ?_; rintro _ _ _; try dsimp only)
    | (with_reducible refine Term.bind _ (term_untilClosing _ _) ?_; rintro _ _ _; try dsimp only)
    | (with_reducible refine Term.bind _ (term_untilOneOf _ _ _ _) ?_; rintro ⟨_, _⟩ _ ⟨_, _, _⟩; try dsimp only at *)
    | (with_reducible refine Term.bind _ (term_untilNotIn _ _ _) ?_; rintro ⟨_, _⟩ _ ⟨_, _⟩; try dsimp only at *)
    | (with_reducible refine Term.bind _ (term_drain _) ?_; rintro _ _ _; try dsimp only)
    | (with_reducible refine Term.bind _ (term_stringParser _ _ _) ?_; rintro _ _ _; try dsimp only)
    | (with_reducible refine Term.bind _ (term_fromAlias _ _ _) ?_; rintro ⟨_, _⟩ _ _; try dsimp only at *)
    | (with_reducible refine Term.bind _ (term_toIntP _ _) ?_; intro _ _ h; subst h; try dsimp only)
    | (with_reducible refine Term.bind _ (term_floatStrP _ _) ?_; intro _ _ h; subst h; try dsimp only)
    | (with_reducible refine Term.bind _ Term.assert ?_; intro _ _ h; subst h; try dsimp only)
    | (with_reducible refine Term.bind _ (Term.sub (($hg).expr _ _ (by size_tac))) ?_; rintro ⟨_, _⟩ _ h; subst h; try dsimp only)
    | (with_reducible refine Term.bind _ (Term.sub (($hg).exprList _ _ (by size_tac))) ?_; intro _ _ h; subst h; try dsimp only)
    | (with_reducible refine Term.bind _ (Term.sub (($hg).select _ (by size_tac))) ?_; intro _ _ h; subst h; try dsimp only)
    | (with_reducible refine Term.bind _ (Term.sub (($hg).from_ _ (by size_tac))) ?_; intro _ _ h; subst h; try dsimp only)
    | (with_reducible refine Term.bind _ (Term.sub (($hg).stmt _ (by size_tac))) ?_; intro _ _ h; subst h; try dsimp only)
    | (with_reducible refine Term.bind _ (($hg).expr _ _ (by size_tac)) ?_; rintro ⟨_, _⟩ _ _; try dsimp only at *)
    | (with_reducible refine Term.bind _ (($hg).select _ (by size_tac)) ?_; rintro _ _ _; try dsimp only at *)
    | (with_reducible refine Term.bind _ (($hg).withLoop _ _ (by size_tac)) ?_; rintro _ _ _; try dsimp only at *)
    | (with_reducible refine Term.bind _ (($hg).orderLoop _ _ (by size_tac)) ?_; rintro _ _ _; try dsimp only at *)
    | (with_reducible refine Term.bind _ (($hg).setLoop _ _ _ (by size_tac)) ?_; rintro ⟨_, _⟩ _ _; try dsimp only at *)
    | (with_reducible refine Term.bind _ (($hg).dotLoop _ _ _ _ (by size_tac)) ?_; rintro ⟨_, _⟩ _ _; try dsimp only at *)
    | (with_reducible refine Term.mono (($hg).select _ (by size_tac)) ?_; intros; size_tac)
    | (with_reducible refine Term.mono (($hg).withLoop _ _ (by size_tac)) ?_; intros; size_tac)
    | (with_reducible refine Term.mono (($hg).setLoop _ _ _ (by size_tac)) ?_; intros; size_tac)
    | (with_reducible refine Term.mono (($hg).joinLoop _ _ _ (by size_tac)) ?_; intros; size_tac)
    | (with_reducible refine Term.mono (($hg).dotLoop _ _ _ _ (by size_tac)) ?_; intros; size_tac)
    | (with_reducible refine Term.mono (($hg).indexLoop _ _ _ (by size_tac)) ?_; intros; size_tac)
    | split)

/-- Steps through a parser. -/
macro "term_auto" hg:ident : tactic => `(tactic| repeat' term_step $hg)

section

variable {r : Rec} {B : Nat} (hg : Good r B)
include hg

theorem term_stmtF (s : Stream) (h : 3 * s.size < B + 1) :
    Term (stmtF r) s fun _ s' => s'.size ≤ s.size := by
  unfold stmtF
  term_auto hg

theorem term_withLoopF (acc : List Node) (s : Stream) (h : 3 * s.size < B + 1) :
    Term (withLoopF r acc) s fun _ s' => s'.size + 1 ≤ s.size := by
  unfold withLoopF
  term_auto hg


theorem term_orderItemF (s : Stream) (h : 3 * s.size < B) :
    Term (orderItemF r) s fun _ s' => s'.size ≤ s.size := by
  unfold orderItemF
  term_auto hg

theorem term_orderLoopF (t : Option Str) (s : Stream) (h : 3 * (s.size + held t) < B + 1) :
    Term (orderLoopF r t) s fun _ s' => s'.size ≤ s.size := by
  unfold orderLoopF
  cases t with
  | none => exact Term.pure (Nat.le_refl _)
  | some t =>
    split
    · term_step hg
      refine Term.bind _ (Term.sub (term_orderItemF hg _ (by size_tac))) ?_
      rintro _ _ rfl
      term_auto hg
    · exact Term.pure (Nat.le_refl _)

theorem term_orderByF (s : Stream) (h : 3 * s.size < B) :
    Term (orderByF r) s fun _ s' => s'.size ≤ s.size := by
  unfold orderByF
  term_step hg
  refine Term.bind _ (Term.sub (term_orderItemF hg _ (by size_tac))) ?_
  rintro _ _ rfl
  term_auto hg

theorem term_whereF (s : Stream) (h : 3 * s.size < B) :
    Term (whereF r) s fun x s' => s'.size + held x.2 ≤ s.size := by
  unfold whereF
  term_auto hg

theorem term_havingF (s : Stream) (h : 3 * s.size < B) :
    Term (havingF r) s fun x s' => s'.size + held x.2 ≤ s.size := by
  unfold havingF
  term_auto hg

theorem term_groupByF (each : Bool) (s : Stream) (h : 3 * s.size + 1 < B) :
    Term (groupByF r each) s fun _ s' => s'.size ≤ s.size := by
  unfold groupByF
  term_step hg
  refine Term.bind _ (term_untilOneOf _ _ _ _) ?_
  rintro ⟨ts, t⟩ s1 ⟨h1, -, -⟩
  dsimp only at h1
  have := held_le (if decide (lower ‹Str› = str!"rollup") = true then none else some ‹Str›)
  term_auto hg

theorem term_limitF (s : Stream) (h : 3 * s.size < B) :
    Term (limitF r) s fun _ s' => s'.size ≤ s.size := by
  unfold limitF
  term_auto hg

theorem term_offsetF (s : Stream) (h : 3 * s.size < B) :
    Term (offsetF r) s fun _ s' => s'.size ≤ s.size := by
  unfold offsetF
  term_auto hg

theorem term_selectHeadF (s : Stream) (h : 3 * s.size + 2 < B + 1) :
    Term (selectHeadF r) s fun x s' => s'.size + held x.2.2.2 ≤ s.size := by
  unfold selectHeadF
  term_auto hg

theorem term_selectFromF (t : Option Str) (s : Stream) (h : 3 * (s.size + held t) < B + 1) :
    Term (selectFromF r t) s fun x s' => s'.size + held x.2 ≤ s.size + held t := by
  unfold selectFromF
  split
  · obtain ⟨x, rfl, -⟩ := isWord_some ‹_›
    term_auto hg
  · exact Term.pure (Nat.le_refl _)

theorem term_selectWhereF (t : Option Str) (s : Stream) (h : 3 * (s.size + held t) < B + 1) :
    Term (selectWhereF r t) s fun x s' => s'.size + held x.2 ≤ s.size + held t := by
  unfold selectWhereF
  split
  · obtain ⟨x, rfl, -⟩ := isWord_some ‹_›
    refine Term.mono (term_whereF hg _ (by size_tac)) ?_
    intros; size_tac
  · exact Term.pure (Nat.le_refl _)

theorem term_selectHavingF (t : Option Str) (s : Stream) (h : 3 * (s.size + held t) < B + 1) :
    Term (selectHavingF r t) s fun x s' => s'.size + held x.2 ≤ s.size + held t := by
  unfold selectHavingF
  split
  · obtain ⟨x, rfl, -⟩ := isWord_some ‹_›
    refine Term.mono (term_havingF hg _ (by size_tac)) ?_
    intros; size_tac
  · exact Term.pure (Nat.le_refl _)

theorem term_selectGroupF (t : Option Str) (s : Stream) (h : 3 * (s.size + held t) < B + 1) :
    Term (selectGroupF r t) s fun x s' => s'.size + held x.2 ≤ s.size + held t := by
  unfold selectGroupF
  split
  · obtain ⟨x, rfl, -⟩ := isWord_some ‹_›
    term_step hg
    split
    all_goals
      term_step hg
      split
      · exact Term.raise
      · term_step hg
        refine Term.bind _ (Term.sub (term_groupByF hg _ _ (by size_tac))) ?_
        rintro _ _ rfl
        term_auto hg
  · exact Term.pure (Nat.le_refl _)

theorem term_selectOrderF (t : Option Str) (s : Stream) (h : 3 * (s.size + held t) < B + 1) :
    Term (selectOrderF r t) s fun x s' => s'.size + held x.2 ≤ s.size + held t := by
  unfold selectOrderF
  split
  · obtain ⟨x, rfl, -⟩ := isWord_some ‹_›
    term_step hg
    split
    · exact Term.raise
    · term_step hg
      refine Term.bind _ (Term.sub (term_orderByF hg _ (by size_tac))) ?_
      rintro _ _ rfl
      term_auto hg
  · exact Term.pure (Nat.le_refl _)

theorem term_selectLimitF (t : Option Str) (s : Stream) (h : 3 * (s.size + held t) < B + 1) :
    Term (selectLimitF r t) s fun x s' => s'.size + held x.2 ≤ s.size + held t := by
  unfold selectLimitF
  split
  · obtain ⟨x, rfl, -⟩ := isWord_some ‹_›
    term_step hg
    refine Term.bind _ (Term.sub (term_limitF hg _ (by size_tac))) ?_
    rintro _ _ rfl
    term_auto hg
  · exact Term.pure (Nat.le_refl _)

theorem term_selectOffsetF (t : Option Str) (s : Stream) (h : 3 * (s.size + held t) < B + 1) :
    Term (selectOffsetF r t) s fun x s' => s'.size + held x.2 ≤ s.size + held t := by
  unfold selectOffsetF
  split
  · obtain ⟨x, rfl, -⟩ := isWord_some ‹_›
    term_step hg
    refine Term.bind _ (Term.sub (term_offsetF hg _ (by size_tac))) ?_
    rintro _ _ rfl
    term_auto hg
  · exact Term.pure (Nat.le_refl _)

theorem term_selectF (s : Stream) (h : 3 * s.size + 2 < B + 1) :
    Term (selectF r) s fun _ s' => s'.size ≤ s.size := by
  unfold selectF
  refine Term.bind _ (term_selectHeadF hg s h) ?_
  rintro ⟨all, d, on, first⟩ s1 h1
  dsimp only at *
  term_step hg
  term_step hg
  refine Term.bind _ (term_selectFromF hg _ _ (by size_tac)) ?_
  rintro ⟨f, t⟩ _ _
  dsimp only at *
  refine Term.bind _ (term_selectWhereF hg _ _ (by size_tac)) ?_
  rintro ⟨f, t⟩ _ _
  dsimp only at *
  refine Term.bind _ (term_selectGroupF hg _ _ (by size_tac)) ?_
  rintro ⟨f, t⟩ _ _
  dsimp only at *
  refine Term.bind _ (term_selectHavingF hg _ _ (by size_tac)) ?_
  rintro ⟨f, t⟩ _ _
  dsimp only at *
  refine Term.bind _ (term_selectOrderF hg _ _ (by size_tac)) ?_
  rintro ⟨f, t⟩ _ _
  dsimp only at *
  refine Term.bind _ (term_selectLimitF hg _ _ (by size_tac)) ?_
  rintro ⟨f, t⟩ _ _
  dsimp only at *
  refine Term.bind _ (term_selectOffsetF hg _ _ (by size_tac)) ?_
  rintro ⟨f, t⟩ _ _
  dsimp only at *
  exact Term.pure (by size_tac)

theorem term_unnestF (s : Stream) (h : 3 * s.size < B) :
    Term (unnestF r) s fun x s' => s'.size + held x.2 ≤ s.size := by
  unfold unnestF
  term_auto hg

theorem term_fromHeadF (s : Stream) (h : 3 * s.size + 1 < B + 1) :
    Term (fromHeadF r) s fun x s' => s'.size + held x.2 + 1 ≤ s.size := by
  unfold fromHeadF
  term_step hg
  split
  · term_step hg
    refine Term.bind _ (Term.orElse (Term.sub (hg.stmt _ (by size_tac)))
      (Term.sub (hg.from_ _ (by size_tac)))) ?_
    rintro _ _ rfl
    term_auto hg
  split
  · term_auto hg
  split
  · term_auto hg
  split
  · refine Term.mono (term_unnestF hg _ (by size_tac)) ?_
    intros; size_tac
  · term_auto hg

theorem term_fromF (s : Stream) (h : 3 * s.size + 1 < B + 1) :
    Term (fromF r) s fun _ s' => s'.size ≤ s.size := by
  unfold fromF
  refine Term.bind _ (term_fromHeadF hg s h) ?_
  rintro ⟨e, t⟩ s1 h1
  dsimp only at *
  term_auto hg

theorem term_setLoopF (e : Node) (t : Option Str) (s : Stream) (h : 3 * (s.size + held t) < B + 1) :
    Term (setLoopF r e t) s fun x s' => s'.size + held x.2 ≤ s.size + held t := by
  unfold setLoopF
  split
  · obtain ⟨x, rfl⟩ := inWords_some ‹_›
    term_auto hg
  · exact Term.pure (Nat.le_refl _)

theorem term_joinTokens (type : Str) (t : Option Str) (s : Stream) :
    Term (joinTokens type t) s fun x s' => x.1.length + held x.2 + s'.size ≤ s.size + held t := by
  unfold joinTokens
  split
  · refine Term.bind _ (term_drain _) ?_
    intro ts s1 h
    refine Term.pure ?_
    cases t <;> simp <;> omega
  · refine Term.mono (term_untilOneOf _ _ _ _) ?_
    rintro ⟨a, b⟩ s1 ⟨h, -, -⟩
    dsimp only at *
    omega

theorem term_joinLoopF (e : Node) (t : Option Str) (s : Stream) (h : 3 * (s.size + held t) < B + 1) :
    Term (joinLoopF r e t) s fun _ s' => s'.size ≤ s.size := by
  unfold joinLoopF
  split
  · obtain ⟨x, rfl⟩ := inWords_some ‹_›
    term_step hg
    refine Term.bind _ (term_joinTokens hg _ _ _) ?_
    rintro ⟨ts, o⟩ s2 h2
    dsimp only at *
    term_auto hg
  · exact Term.pure (Nat.le_refl _)

theorem term_exprListF (b : Bool) (s : Stream) (h : 3 * s.size + 1 < B + 1) :
    Term (exprListF r b) s fun _ s' => s'.size ≤ s.size := by
  unfold exprListF
  term_step hg
  have : ∀ gs : List (List Str), (∀ g ∈ gs, 3 * g.length < B) → ∀ s : Stream,
      Term (parseGroups r b gs) s fun x s' => s' = s := by
    intro gs
    induction gs with
    | nil => intro _ s; exact Term.pure rfl
    | cons g gs ih =>
      intro hgs s
      unfold parseGroups
      refine Term.bind _ (Term.sub (hg.expr _ _ ?_)) ?_
      · have := hgs g (by simp)
        simpa [Stream.size] using this
      rintro ⟨e, t⟩ _ rfl
      refine Term.bind _ (ih (fun g hg => hgs g (by simp [hg])) _) ?_
      rintro es _ rfl
      exact Term.pure rfl
  refine Term.mono (this _ ?_ _) ?_
  · intro g hg'
    have := splitGroups_length _ _ _ g hg'
    size_tac
  · rintro _ _ rfl
    size_tac

theorem term_caseF (s : Stream) (h : 3 * s.size < B) :
    Term (caseF r) s fun _ s' => s'.size ≤ s.size := by
  unfold caseF
  term_step hg
  split
  · term_step hg
    refine Term.bind _ (hg.caseLoop _ _ _ _ (by size_tac) ?_) ?_
    · rintro w ⟨⟩
      exact .inl ‹_›
    · rintro ⟨ws, e⟩ s1 h1
      exact Term.pure (by size_tac)
  · refine Term.bind _ (term_untilOneOf _ _ _ _) ?_
    rintro ⟨ts, t⟩ s1 ⟨h1, h2, h3⟩
    dsimp only at *
    term_step hg
    term_step hg
    refine Term.bind _ (hg.caseLoop _ _ _ _ (by size_tac) ?_) ?_
    · rintro w hw
      exact .inl (by simpa using h3 w hw)
    · rintro ⟨ws, e⟩ s1 h1
      exact Term.pure (by size_tac)

theorem term_caseLoopF (t : Option Str) (ws : List Node) (e : Node) (s : Stream)
    (h : 3 * (s.size + held t) < B + 1)
    (hw : ∀ w, t = some w → lower w = str!"when" ∨ lower w = str!"else") :
    Term (caseLoopF r t ws e) s fun _ s' => s'.size ≤ s.size := by
  unfold caseLoopF
  split
  · obtain ⟨x, rfl⟩ := truthy_some ‹_›
    split
    · term_step hg
      term_step hg
      refine Term.bind _ (term_untilOneOf _ _ _ _) ?_
      rintro ⟨ts, t⟩ s1 ⟨h1, h2, h3⟩
      dsimp only at *
      term_step hg
      refine Term.mono (hg.caseLoop _ _ _ _ (by size_tac) ?_) ?_
      · intro w hw
        simpa using h3 w hw
      · intros; size_tac
    · split
      · refine Term.bind _ (term_untilOneOf _ _ _ _) ?_
        rintro ⟨ts, t⟩ s1 ⟨h1, h2, h3⟩
        dsimp only at *
        term_step hg
        refine Term.mono (hg.caseLoop _ _ _ _ (by size_tac) ?_) ?_
        · intro w hw
          simpa using h3 w hw
        · intros; size_tac
      · rename_i h1 h2
        rcases hw x rfl with hw | hw <;> simp [isWord, lower?, hw] at h1 h2
  · exact Term.pure (Nat.le_refl _)

theorem term_castF (a : ExprArgs) (s : Stream) (h : 3 * s.size < B) :
    Term (castF r a) s fun _ s' => s'.size ≤ s.size := by
  unfold castF
  term_auto hg

theorem term_arrayAggF (a : ExprArgs) (s : Stream) (h : 3 * s.size < B) :
    Term (arrayAggF r a) s fun _ s' => s'.size ≤ s.size := by
  unfold arrayAggF
  term_step hg
  have := held_le (if decide (lower ‹Str› = str!"distinct") = true then none else some ‹Str›)
  have hl : ∀ (c : Node) (x y z : Bool) (o : Node) (t : Option Str) (s1 : Stream), s1.size ≤ s.size →
      Term (do
        let (limit, t) ←
          if isWord t str!"limit" then do
            let t ← next!
            let i ← toIntP t
            let t ← next!
            pure (some i, some t)
          else pure (none, t)
        P.assert (isWord t str!")")
        return Node.arrayAgg c x y z o limit) s1 fun _ s' => s'.size ≤ s.size := by
    intro c x y z o t s1 h1
    term_auto hg
  have ho : ∀ (c : Node) (x y z : Bool) (t : Option Str) (s1 : Stream), s1.size + 1 ≤ s.size →
      Term (do
        let (order, t) ←
          if isWord t str!"order" then do
            let t ← next!
            P.assert (lower t = str!"by")
            let (ts, t) ← untilOneOf [str!"limit", str!")"]
            let o ← P.sub ts (orderByF r)
            pure (o, t)
          else pure (Node.none, t)
        let (limit, t) ←
          if isWord t str!"limit" then do
            let t ← next!
            let i ← toIntP t
            let t ← next!
            pure (some i, some t)
          else pure (none, t)
        P.assert (isWord t str!")")
        return Node.arrayAgg c x y z order limit) s1 fun _ s' => s'.size ≤ s.size := by
    intro c x y z t s1 h1
    dsimp only
    split
    · term_step hg
      term_step hg
      term_step hg
      refine Term.bind _ (Term.sub (term_orderByF hg _ (by size_tac))) ?_
      rintro _ _ rfl
      exact hl _ _ _ _ _ _ _ (by size_tac)
    · exact hl _ _ _ _ _ _ _ (by size_tac)
  term_step hg
  term_step hg
  split
  · term_step hg
    term_step hg
    term_step hg
    exact ho _ _ _ _ _ _ (by size_tac)
  · split
    · term_step hg
      term_step hg
      term_step hg
      exact ho _ _ _ _ _ _ (by size_tac)
    · exact ho _ _ _ _ _ _ (by size_tac)

theorem term_countF (s : Stream) (h : 3 * s.size + 1 < B) :
    Term (countF r) s fun _ s' => s'.size ≤ s.size := by
  unfold countF
  term_step hg
  have := held_le (if decide (lower ‹Str› = str!"distinct") = true then none else some ‹Str›)
  term_auto hg

theorem term_callF (a : ExprArgs) (n : Str) (s : Stream) (h : 3 * s.size + 1 < B) :
    Term (callF r a n) s fun _ s' => s'.size ≤ s.size := by
  unfold callF
  term_auto hg

theorem term_functionF (a : ExprArgs) (m : Str) (s : Stream) (h : 3 * s.size + 1 < B) :
    Term (functionF r a m) s fun x s' => s'.size + held x.2 ≤ s.size := by
  unfold functionF
  have hk : ∀ (e : Node) (s1 : Stream), s1.size ≤ s.size → Term (do
      let t ← next?
      if truthy? t && isWord t str!"filter" then do
        let t ← next!
        P.assert (t = str!"(")
        let ts ← untilClosing
        match ts with
        | [] => P.raise .index
        | w :: ws => do
          P.assert (lower w = str!"where")
          let (c, _) ← P.sub ws (r.expr { canAlias := false })
          let t ← next?
          return (Node.filtered e c, t)
      else return (e, t)) s1 fun x s' => s'.size + held x.2 ≤ s.size := by
    intro e s1 h1
    term_auto hg
  dsimp only
  split
  · refine Term.bind _ (term_castF hg _ _ (by omega)) ?_
    intro e s1 h1
    exact hk _ _ h1
  split
  · refine Term.bind _ (term_arrayAggF hg _ _ (by omega)) ?_
    intro e s1 h1
    exact hk _ _ h1
  split
  · refine Term.bind _ (term_countF hg _ h) ?_
    intro e s1 h1
    exact hk _ _ h1
  · refine Term.bind _ (term_callF hg _ _ _ h) ?_
    intro e s1 h1
    exact hk _ _ h1

theorem term_primaryF (a : ExprArgs) (m : Str) (s : Stream) (h : 3 * s.size + 2 < B) :
    Term (primaryF r a m) s fun x s' => s'.size + held x.2 ≤ s.size := by
  unfold primaryF
  refine Term.ite (fun _ => ?_) (fun _ => ?_)
  · term_auto hg
  refine Term.ite (fun _ => ?_) (fun _ => ?_)
  · term_auto hg
  refine Term.ite (fun _ => ?_) (fun _ => ?_)
  · term_auto hg
  refine Term.ite (fun _ => ?_) (fun _ => ?_)
  · term_auto hg
  refine Term.ite (fun _ => ?_) (fun _ => ?_)
  · term_auto hg
  refine Term.ite (fun _ => ?_) (fun _ => ?_)
  · term_auto hg
  refine Term.ite (fun _ => ?_) (fun _ => ?_)
  · term_auto hg
  refine Term.ite (fun _ => ?_) (fun _ => ?_)
  · term_auto hg
  refine Term.ite (fun _ => ?_) (fun _ => ?_)
  · term_step hg
    term_step hg
    term_step hg
    refine Term.bind _ (Term.sub (term_caseF hg _ (by size_tac))) ?_
    rintro _ _ rfl
    exact Term.pure (by size_tac)
  refine Term.ite (fun _ => ?_) (fun _ => ?_)
  · term_auto hg
  · term_auto hg

theorem term_secondaryF (a : ExprArgs) (m : Str) (t : Option Str) (s : Stream)
    (h : 3 * (s.size + held t) < B) :
    Term (secondaryF r a m t) s fun x s' => s'.size + held x.2 ≤ s.size + held t := by
  unfold secondaryF
  split
  · subst_vars
    refine Term.mono (term_functionF hg _ _ _ (by size_tac)) ?_
    intros; size_tac
  split
  · obtain ⟨x, rfl, -⟩ := isWord_some (And.right ‹_›)
    term_auto hg
  split
  · term_auto hg
  split
  · subst_vars
    term_auto hg
  · term_auto hg

theorem term_overF (e : Node) (t : Option Str) (s : Stream) (h : 3 * (s.size + held t) < B) :
    Term (overF r e t) s fun x s' => s'.size + held x.2 ≤ s.size + held t := by
  unfold overF
  split
  · obtain ⟨x, rfl, -⟩ := isWord_some ‹_›
    term_step hg
    split
    · exact Term.raise
    · term_step hg
      refine Term.bind _ (Term.sub (R := fun _ _ => True) ?_) ?_
      · have hf : ∀ (p : List Node) (o : Node) (t : Option Str) (s1 : Stream), Term (do
            let frame ← match t with
              | some tok =>
                if lower tok = str!"rows" ∨ lower tok = str!"range" then do
                  let (ts, _) ← untilOneOf []
                  pure (Node.frame tok (Str.join str!" " ts))
                else pure Node.none
              | none => pure Node.none
            pure (p, o, frame)) s1 fun _ _ => True := by
          intro p o t s1
          dsimp only
          split
          · split
            · term_step hg
              exact Term.pure trivial
            · exact Term.pure trivial
          · exact Term.pure trivial
        have ho : ∀ (p : List Node) (t : Option Str) (s1 : Stream), 3 * (s1.size + held t) < B → Term (do
            let (order, t) ←
              if isWord t str!"order" then do
                let t ← next?
                if !isWord t str!"by" then P.raise (.parsing str!"Missing BY after ORDER")
                else do
                  let (ts, t) ← untilOneOf [str!"rows", str!"range"]
                  let o ← P.sub ts (orderByF r)
                  pure (o, t)
              else pure (Node.none, t)
            let frame ← match t with
              | some tok =>
                if lower tok = str!"rows" ∨ lower tok = str!"range" then do
                  let (ts, _) ← untilOneOf []
                  pure (Node.frame tok (Str.join str!" " ts))
                else pure Node.none
              | none => pure Node.none
            pure (p, order, frame)) s1 fun _ _ => True := by
          intro p t s1 h1
          dsimp only
          split
          · term_step hg
            split
            · exact Term.raise
            · term_step hg
              refine Term.bind _ (Term.sub (term_orderByF hg _ (by size_tac))) ?_
              rintro _ _ rfl
              exact hf _ _ _ _
          · exact hf _ _ _ _
        term_step hg
        split
        · term_step hg
          split
          · exact Term.raise
          · term_step hg
            term_step hg
            exact ho _ _ _ (by size_tac)
        · exact ho _ _ _ (by size_tac)
      · rintro ⟨p, o, f⟩ _ rfl
        term_auto hg
  · exact Term.pure (Nat.le_refl _)

theorem term_dotLoopF (u : List Str) (e : Node) (t : Option Str) (s : Stream)
    (h : 3 * (s.size + held t) < B + 1) :
    Term (dotLoopF r u e t) s fun x s' => s'.size + held x.2 ≤ s.size + held t := by
  unfold dotLoopF
  split
  · subst_vars
    term_auto hg
  · exact Term.pure (Nat.le_refl _)

theorem term_arithF (a : ExprArgs) (e : Node) (t : Option Str) (s : Stream)
    (h : 3 * (s.size + held t) < B + 1) :
    Term (arithF r a e t) s fun x s' => s'.size + held x.2 ≤ s.size + held t := by
  unfold arithF
  term_auto hg

theorem term_indexLoopF (e : Node) (t : Option Str) (s : Stream)
    (h : 3 * (s.size + held t) < B + 1) :
    Term (indexLoopF r e t) s fun x s' => s'.size + held x.2 ≤ s.size + held t := by
  unfold indexLoopF
  split
  · subst_vars
    term_auto hg
  · exact Term.pure (Nat.le_refl _)

theorem term_condF (a : ExprArgs) (e : Node) (t : Option Str) (s : Stream)
    (h : 3 * (s.size + held t) < B + 1) :
    Term (condF r a e t) s fun x s' => s'.size + held x.2 ≤ s.size + held t := by
  unfold condF
  term_auto hg

theorem term_boolF (a : ExprArgs) (e : Node) (t : Option Str) (s : Stream)
    (h : 3 * (s.size + held t) < B + 1) :
    Term (boolF r a e t) s fun x s' => s'.size + held x.2 ≤ s.size + held t := by
  unfold boolF
  term_auto hg

theorem term_starArgsF (s : Stream) (h : 3 * s.size + 1 < B) :
    Term (starArgsF r) s fun _ s' => s'.size ≤ s.size := by
  unfold starArgsF
  term_step hg
  split
  · exact Term.raise
  · term_step hg
    refine Term.mono (Term.sub (hg.exprList _ _ (by size_tac))) ?_
    rintro _ _ rfl
    size_tac

theorem term_exceptF (e : Node) (t : Option Str) (s : Stream) (h : 3 * (s.size + held t) < B) :
    Term (exceptF r e t) s fun x s' => s'.size + held x.2 ≤ s.size + held t := by
  unfold exceptF
  split
  · obtain ⟨x, rfl, -⟩ := isWord_some ‹_›
    refine Term.bind _ (term_starArgsF hg _ (by size_tac)) ?_
    intro _ _ _
    term_auto hg
  · exact Term.pure (Nat.le_refl _)

theorem term_replaceF (e : Node) (t : Option Str) (s : Stream) (h : 3 * (s.size + held t) < B) :
    Term (replaceF r e t) s fun x s' => s'.size + held x.2 ≤ s.size + held t := by
  unfold replaceF
  split
  · obtain ⟨x, rfl, -⟩ := isWord_some ‹_›
    refine Term.bind _ (term_starArgsF hg _ (by size_tac)) ?_
    intro _ _ _
    term_auto hg
  · exact Term.pure (Nat.le_refl _)

theorem term_aliasF (a : ExprArgs) (e : Node) (t : Option Str) (s : Stream)
    (h : 3 * (s.size + held t) < B) :
    Term (aliasF r a e t) s fun x s' => s'.size + held x.2 ≤ s.size + held t := by
  unfold aliasF
  term_auto hg

theorem term_tailF (a : ExprArgs) (e : Node) (t : Option Str) (s : Stream)
    (h : 3 * (s.size + held t) < B) :
    Term (tailF r a e t) s fun x s' => s'.size + held x.2 ≤ s.size + held t := by
  unfold tailF
  refine Term.bind _ (term_condF hg _ _ _ _ (by size_tac)) ?_
  rintro ⟨e, t⟩ s1 h1
  dsimp only at *
  refine Term.bind _ (term_boolF hg _ _ _ _ (by size_tac)) ?_
  rintro ⟨e, t⟩ s1 h1
  dsimp only at *
  refine Term.bind _ (term_exceptF hg _ _ _ (by size_tac)) ?_
  rintro ⟨e, t⟩ s1 h1
  dsimp only at *
  refine Term.bind _ (term_replaceF hg _ _ _ (by size_tac)) ?_
  rintro ⟨e, t⟩ s1 h1
  dsimp only at *
  refine Term.mono (term_aliasF hg _ _ _ _ (by size_tac)) ?_
  intros; size_tac

theorem term_mainToken (a : ExprArgs) (s : Stream) :
    Term (mainToken a) s fun _ s' => s'.size + 1 ≤ s.size + held a.firstToken := by
  unfold mainToken
  cases a.firstToken with
  | none => exact Term.mono (term_next! s) (by intros; size_tac)
  | some f =>
    dsimp only
    split
    · exact Term.mono (term_next! s) (by intros; size_tac)
    · exact Term.pure (Nat.le_refl _)

theorem term_atomF (a : ExprArgs) (m : Str) (s : Stream) (h : 3 * s.size + 2 < B) :
    Term (atomF r a m) s fun x s' => s'.size + held x.2 ≤ s.size := by
  unfold atomF
  refine Term.bind _ (term_primaryF hg a m s h) ?_
  rintro ⟨e?, t⟩ s1 h1
  dsimp only at *
  have hs : ∀ (t : Option Str) (s2 : Stream), s2.size + held t ≤ s.size → Term (do
      match e? with
        | some e => pure (e, t)
        | none => secondaryF r a m t) s2 fun x s' => s'.size + held x.2 ≤ s.size := by
    intro t s2 h2
    cases e? with
    | some e => exact Term.pure h2
    | none =>
      refine Term.mono (term_secondaryF hg _ _ _ _ (by size_tac)) ?_
      intros; size_tac
  cases t with
  | none =>
    refine Term.bind _ (term_next? _) ?_
    intro t s2 h2
    exact hs _ _ (by size_tac)
  | some t => exact hs _ _ (by size_tac)

theorem term_operandF (a : ExprArgs) (s : Stream) (h : 3 * (s.size + held a.firstToken) < B + 1) :
    Term (operandF r a) s fun x s' => s'.size + held x.2 + 1 ≤ s.size + held a.firstToken := by
  unfold operandF
  refine Term.bind _ (term_mainToken hg a s) ?_
  intro m s1 h1
  refine Term.bind _ (term_atomF hg a m s1 (by omega)) ?_
  rintro ⟨e, t⟩ s2 h2
  dsimp only at *
  refine Term.bind _ (term_overF hg _ _ _ (by size_tac)) ?_
  rintro ⟨e, t⟩ s4 h4
  dsimp only at *
  refine Term.bind _ (hg.dotLoop _ _ _ _ (by size_tac)) ?_
  rintro ⟨e, t⟩ s5 h5
  dsimp only at *
  refine Term.bind _ (term_arithF hg _ _ _ _ (by size_tac)) ?_
  rintro ⟨e, t⟩ s6 h6
  dsimp only at *
  refine Term.mono (hg.indexLoop _ _ _ (by size_tac)) ?_
  intros; size_tac

theorem term_exprF (a : ExprArgs) (s : Stream) (h : 3 * (s.size + held a.firstToken) < B + 1) :
    Term (exprF r a) s fun x s' => s'.size + held x.2 + 1 ≤ s.size + held a.firstToken := by
  unfold exprF
  refine Term.bind _ (term_operandF hg a s h) ?_
  rintro ⟨e, t⟩ s1 h1
  dsimp only at *
  split
  · exact Term.pure h1
  · refine Term.mono (term_tailF hg _ _ _ _ (by size_tac)) ?_
    intros; size_tac

theorem Good.next : Good r.next (B + 1) where
  stmt := term_stmtF hg
  select := term_selectF hg
  from_ := term_fromF hg
  expr := term_exprF hg
  exprList := term_exprListF hg
  orderLoop := term_orderLoopF hg
  caseLoop := term_caseLoopF hg
  withLoop := term_withLoopF hg
  setLoop := term_setLoopF hg
  joinLoop := term_joinLoopF hg
  dotLoop := term_dotLoopF hg
  indexLoop := term_indexLoopF hg

end

theorem good_parsers (n : Nat) : Good (parsers n) n := by
  induction n with
  | zero => constructor <;> intros <;> omega
  | succ n ih => exact ih.next

end SqlV
