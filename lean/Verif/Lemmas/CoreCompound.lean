import Verif.Lemmas.CoreAtom

/-! Parsing paths, arithmetic, conditions, CASE expressions and aliases of the core grammar. -/

set_option linter.unusedSectionVars false

namespace SqlV.Core

open Scan

variable [E : PyEnv] [L : LawfulPyEnv E]

theorem reads_first {a b : List Tok} {main : Str} {ts : List Str} (h : Reads (a ++ b) (main :: ts))
    (ha : ∀ x, Reads a x → x ≠ []) : ∃ x y, ts = x ++ y ∧ Reads a (main :: x) ∧ Reads b y := by
  replace h := reads_append.1 h
  obtain ⟨x, y, hxy, hx, hy⟩ := h
  cases x with
  | nil => exact absurd rfl (ha _ hx)
  | cons t x =>
    obtain ⟨rfl, rfl⟩ := List.cons.inj hxy
    exact ⟨x, y, rfl, hx, hy⟩

theorem chained_ok {l r : Node} (hw : wf (.chained l r) = true) (hl : AtomOk l) (hr : BaseOk r) :
    BaseOk (.chained l r) := by
  intro main ts h
  simp only [wf, Bool.and_eq_true] at hw
  obtain ⟨⟨⟨h1, h2⟩, h3⟩, h4⟩ := hw
  have hl0 : level l ≤ 4 := by have := level_name h1; omega
  have hr0 : level r ≤ 4 := by have := level_chain h2; omega
  simp only [toks] at h
  replace h := reads_first h (reads_ne h3 hl0)
  obtain ⟨x, y, rfl, hx, hy⟩ := h
  replace hy := reads_cons.1 hy
  obtain ⟨t, y, rfl, ht, hy⟩ := hy
  rw [reads_lit] at ht
  subst ht
  obtain ⟨l', hl', hl⟩ := hl main x hx
  obtain ⟨r', hr', hr⟩ := hr.chain hy (reads_ne h4 hr0 y hy)
  refine ⟨.chained l' r', by simp [fold, hl', hr'], fun a rest f ha hf he => ?_⟩
  have e1 := hl a (str!"." :: (y ++ rest)) f ha (by simp)
    (ends_lower (lower_self (by decide) (by decide)) (by decide) (by decide) (by decide))
  have e2 := (((hr a.untilOneOf rest f hf he).and
    (dotLoop_no (u := a.untilOneOf) (e := .chained l' r') (t := rest.head?) (he.ne (by decide)) ⟨rest.tail, f⟩)).next
    (q := fun r => r.dotLoop a.untilOneOf l' (some str!".") ⟨y ++ rest, f⟩ =
      .ok ((.chained l' r', rest.head?), ⟨rest.tail, f⟩)) (by
      rintro r ⟨g1, g2⟩
      show dotLoopF r a.untilOneOf l' (some str!".") ⟨y ++ rest, f⟩ = _
      unfold dotLoopF
      rw [if_pos rfl, bind_ok g1]
      exact g2))
  refine (e1.and e2).mono ?_
  rintro r ⟨g1, g2⟩
  unfold baseM
  rw [show x ++ str!"." :: y ++ rest = x ++ str!"." :: (y ++ rest) by simp, bind_ok g1]
  dsimp only [List.head?_cons, List.tail_cons]
  rw [bind_ok (overF_no (by rw [isWord, lower?]; simp [lower_self (w := str!".") (by decide) (by decide)]) _)]
  exact g2

theorem arith_ok {op : Str} {l r : Node} (hw : wf (.arith op l r) = true) (hl : BaseOk l) (hr : OpdOk r) :
    OpdOk (.arith op l r) := by
  intro main ts h
  simp only [wf, Bool.and_eq_true, decide_eq_true_eq] at hw
  obtain ⟨⟨⟨⟨h1, h2⟩, h3⟩, h4⟩, h5⟩ := hw
  simp only [toks] at h
  replace h := reads_first h (reads_ne h4 (by omega))
  obtain ⟨x, y, rfl, hx, hy⟩ := h
  replace hy := reads_cons.1 hy
  obtain ⟨t, y, rfl, ht, hy⟩ := hy
  rw [reads_lit] at ht
  subst ht
  obtain ⟨l', hl', hl⟩ := hl main x hx
  obtain ⟨r', hr', hr⟩ := hr.rhs hy (reads_ne h5 (by omega) y hy)
  refine ⟨.arith t l' r', by simp [fold, hl', hr'], fun a rest f ha hf he => ?_⟩
  simp only [Bool.and_eq_true] at ha
  have key : ∀ t ∈ arithSymbols, t ∉ baseSyms ∧ t ∉ atomWords ∧ t.all isAscii ∧ t.map Char.toLower = t := by decide
  obtain ⟨k1, k2, k3, k4⟩ := key t h1
  have e1 := hl a (t :: (y ++ rest)) f ha.1 (by simp) (ends_lower (lower_self k3 k4) k1 k2 (by decide))
  refine ((e1.and (hr a.untilOneOf rest f hf he)).and
    (indexLoop_no (e := .arith t l' r') (t := rest.head?) (he.ne (by decide)) ⟨rest.tail, f⟩)).mono ?_
  rintro r ⟨⟨g1, g2⟩, g3⟩
  unfold opdM
  rw [show x ++ t :: y ++ rest = x ++ t :: (y ++ rest) by simp, bind_ok g1]
  dsimp only [List.head?_cons, List.tail_cons]
  have : arithF r a l' (some t) ⟨y ++ rest, f⟩ = .ok ((.arith t l' r', rest.head?), ⟨rest.tail, f⟩) := by
    unfold arithF
    simp only
    rw [if_pos ⟨h1, ha.2⟩, bind_ok g2]
    rfl
  rw [bind_ok this]
  exact g3

theorem neg_ok {e : Node} (hw : wf (.neg e) = true) (h : OpdOk e) : OpdOk (.neg e) := by
  intro main ts hr
  simp only [wf, Bool.and_eq_true, decide_eq_true_eq] at hw
  obtain ⟨h1, h2⟩ := hw
  simp only [toks] at hr
  replace hr := reads_cons.1 hr
  obtain ⟨m, ts', h', ht, hr⟩ := hr
  obtain ⟨rfl, rfl⟩ := List.cons.inj h'
  obtain ⟨e', he', h⟩ := h.rhs hr (reads_ne h2 (by omega) ts hr)
  refine ⟨.neg e', by simp [fold, he'], fun a rest f ha hf he => ?_⟩
  refine (((h a.untilOneOf rest f hf he).and
    (indexLoop_no (e := .neg e') (t := rest.head?) (he.ne (by decide)) ⟨rest.tail, f⟩)).and
    (dotLoop_no (u := a.untilOneOf) (e := .neg e') (t := rest.head?) (he.ne (by decide)) ⟨rest.tail, f⟩)).mono ?_
  rintro r ⟨⟨g1, g2⟩, g3⟩
  have hl := lower_kw ht (by decide)
  obtain ⟨n1, n2⟩ := kw_notNumber ht (by decide) (by decide)
  have hq : main ∉ quotes := fun hm => by
    rw [lower_quote hm] at hl; subst hl; exact absurd hm (by decide)
  have hp : primaryF r a main ⟨ts ++ rest, f⟩ = .ok ((some (.neg e'), rest.head?), ⟨rest.tail, f⟩) := by
    unfold primaryF
    rw [if_neg hq, n1, n2, hl, if_neg (by simp), if_neg (by simp),
      if_neg (show ¬ str!"not" ∈ trueValues ++ falseValues by decide),
      if_neg (show ¬ str!"not" ∈ nullValues by decide), if_pos rfl, bind_ok g1]
    rfl
  unfold opdM baseM
  rw [bind_assoc', bind_ok (atom_of_primary' hp hf)]
  dsimp only
  rw [bind_assoc', bind_ok (overF_no (he.notWord (by decide)) _), bind_ok g3,
    bind_ok (arithF_no (.inr fun x hx hm => (he x hx).1 (by simp [opdSyms, hm])) _)]
  exact g2

/-! ### Conditions -/

/-- The predicate after its first word. -/
def predF (tok : Str) : P (Str × Option Str) :=
  if lower tok = str!"is" then do
    let n ← next!
    if lower n = str!"not" then pure (str!"is not", none) else pure (tok, some n)
  else if lower tok = str!"not" then do
    let n ← next!
    if lower n = str!"in" then pure (str!"not in", none) else pure (tok, some n)
  else pure (tok, none)

theorem condF_pred {r : Rec} {a : ExprArgs} {e : Node} {tok : Str} (h : lower tok ∈ predicates) {s s' : Stream}
    {x : Str × Option Str} (hp : predF tok s = .ok (x, s')) {right : Node} {t : Option Str} {s'' : Stream}
    (hr : r.expr { isRightHand := true, untilOneOf := a.untilOneOf, firstToken := x.2 } s' = .ok ((right, t), s'')) :
    condF r a e (some tok) s = .ok ((.cond e x.1 right, t), s'') := by
  unfold condF
  simp only
  rw [if_pos h]
  unfold predF at hp
  split at hp
  · rename_i h1
    rw [if_pos h1]
    rw [bind_run] at hp ⊢
    cases hn : next! s with
    | err e => rw [hn] at hp; cases hp
    | diverge => rw [hn] at hp; cases hp
    | ok y =>
      rw [hn] at hp
      obtain ⟨n, sn⟩ := y
      simp only at hp ⊢
      split at hp
      · rename_i h2
        rw [if_pos h2]
        cases hp
        rw [bind_ok (pure_run _ _)]
        exact (bind_ok hr).trans rfl
      · rename_i h2
        rw [if_neg h2]
        cases hp
        rw [bind_ok (pure_run _ _)]
        exact (bind_ok hr).trans rfl
  · rename_i h1
    rw [if_neg h1]
    split at hp
    · rename_i h1
      rw [if_pos h1]
      rw [bind_run] at hp ⊢
      cases hn : next! s with
      | err e => rw [hn] at hp; cases hp
      | diverge => rw [hn] at hp; cases hp
      | ok y =>
        rw [hn] at hp
        obtain ⟨n, sn⟩ := y
        simp only at hp ⊢
        split at hp
        · rename_i h2
          rw [if_pos h2]
          cases hp
          rw [bind_ok (pure_run _ _)]
          exact (bind_ok hr).trans rfl
        · rename_i h2
          rw [if_neg h2]
          cases hp
          rw [bind_ok (pure_run _ _)]
          exact (bind_ok hr).trans rfl
    · rename_i h2
      rw [if_neg h2]
      cases hp
      rw [bind_ok (pure_run _ _)]
      exact (bind_ok hr).trans rfl

theorem predF_simple {tok : Str} (h1 : lower tok ≠ str!"is") (h2 : lower tok ≠ str!"not") (s : Stream) :
    predF tok s = .ok ((tok, none), s) := by
  unfold predF; rw [if_neg h1, if_neg h2]; rfl

theorem predF_is {tok n : Str} (h1 : lower tok = str!"is") (h2 : lower n ≠ str!"not") (ts : List Str) (f : Option PyErr) :
    predF tok ⟨n :: ts, f⟩ = .ok ((tok, some n), ⟨ts, f⟩) := by
  unfold predF; rw [if_pos h1, bind_ok (next!_cons _ _ _), if_neg h2]; rfl

theorem predF_isNot {tok n : Str} (h1 : lower tok = str!"is") (h2 : lower n = str!"not") (ts : List Str)
    (f : Option PyErr) : predF tok ⟨n :: ts, f⟩ = .ok ((str!"is not", none), ⟨ts, f⟩) := by
  unfold predF; rw [if_pos h1, bind_ok (next!_cons _ _ _), if_pos h2]; rfl

theorem predF_notIn {tok n : Str} (h1 : lower tok = str!"not") (h2 : lower n = str!"in") (ts : List Str)
    (f : Option PyErr) : predF tok ⟨n :: ts, f⟩ = .ok ((str!"not in", none), ⟨ts, f⟩) := by
  unfold predF
  rw [if_neg (by rw [h1]; decide), if_pos h1, bind_ok (next!_cons _ _ _), if_pos h2]; rfl

/-- A condition, given what the part after the left operand is read as. -/
theorem cond_build {l c : Node} (hl : OpdOk l) {main : Str} {x y : List Str} (hx : Reads (toks l) (main :: x))
    {p : Str} {y' : List Str} (hy : y = p :: y') (hp : Ends opdSyms atomWords (some p))
    (h : ∀ l', fold l' = l → ∃ c', fold c' = c ∧ ∀ (a : ExprArgs) (rest : List Str) (f : Option PyErr),
      (!a.canBeType && !a.isChainedColumns) = true → (rest = [] → f = none) → Ends cndSyms cndWords rest.head? →
      Ev fun r => condF r a l' (some p) ⟨y' ++ rest, f⟩ = .ok ((c', rest.head?), ⟨rest.tail, f⟩)) :
    ∃ c', fold c' = c ∧ ∀ (a : ExprArgs) (rest : List Str) (f : Option PyErr),
      (!a.canBeType && !a.isChainedColumns) = true → (rest = [] → f = none) → Ends cndSyms cndWords rest.head? →
      Ev fun r => cndM r a main ⟨x ++ y ++ rest, f⟩ = .ok ((c', rest.head?), ⟨rest.tail, f⟩) := by
  subst hy
  obtain ⟨l', hl', hl⟩ := hl main x hx
  obtain ⟨c', hc', h⟩ := h l' hl'
  refine ⟨c', hc', fun a rest f ha hf he => ?_⟩
  refine ((hl a (p :: (y' ++ rest)) f ha (by simp) hp).and (h a rest f ha hf he)).mono ?_
  rintro r ⟨g1, g2⟩
  unfold cndM
  rw [show x ++ p :: y' ++ rest = x ++ p :: (y' ++ rest) by simp, bind_ok g1]
  exact g2

theorem cond_ok {l r : Node} {p : Str} (hw : wf (.cond l p r) = true) (hl : OpdOk l) (hr : level r ≤ 1 → OpdOk r)
    (hrange : ∀ q lo hi, r = .boolc q lo hi → level lo ≤ 1 → level hi ≤ 1 → OpdOk lo ∧ OpdOk hi) :
    CndOk (.cond l p r) := by
  intro main ts h
  simp only [wf, Bool.and_eq_true, decide_eq_true_eq] at hw
  obtain ⟨⟨⟨h1, h2⟩, h3⟩, h4⟩ := hw
  simp only [toks, List.append_assoc] at h
  replace h := reads_first h (reads_ne h2 (by omega))
  obtain ⟨x, y, rfl, hx, hy⟩ := h
  have hmono : ∀ {t}, Ends cndSyms cndWords t → Ends opdSyms atomWords t := fun h => h.mono (by decide) (by decide)
  by_cases hb : p = str!"between"
  · subst hb
    rw [if_pos rfl] at h4
    cases r with
    | boolc q lo hi =>
      simp only [isRange, Bool.and_eq_true, decide_eq_true_eq] at h4
      obtain ⟨⟨rfl, g1⟩, g2⟩ := h4
      obtain ⟨olo, ohi⟩ := hrange _ _ _ rfl g1 g2
      simp only [wf, Bool.and_eq_true, decide_eq_true_eq] at h3
      simp only [toks, predToks, reduceCtorEq, List.cons.injEq, Char.reduceEq, if_false, false_and, List.cons_append,
        List.nil_append] at hy
      replace hy := reads_cons.1 hy
      obtain ⟨pt, y, rfl, hpt, hy⟩ := hy
      replace hy := reads_append.1 hy
      obtain ⟨u, v, rfl, hu, hv⟩ := hy
      replace hv := reads_cons.1 hv
      obtain ⟨an, v, rfl, han, hv⟩ := hv
      have hpl := lower_kw hpt (by decide)
      have hal := lower_kw han (by decide)
      refine cond_build hl hx rfl (ends_lower hpl (by decide) (by decide) (by decide)) fun l' hl' => ?_
      obtain ⟨lo', hlo', elo⟩ := olo.rhs hu (reads_ne h3.1.2 (by omega) u hu)
      obtain ⟨hi', hhi', ehi⟩ := ohi.rhs hv (reads_ne h3.2 (by omega) v hv)
      refine ⟨.cond l' pt (.boolc str!"and" lo' hi'), ?_, fun a rest f ha hf he => ?_⟩
      · rw [reads_kw] at hpt
        simp only [fold, hl', hpt, hlo', hhi']
        rfl
      have e1 := elo a.untilOneOf (an :: (v ++ rest)) f (by simp) (ends_lower hal (by decide) (by decide) (by decide))
      have e2 := ehi a.untilOneOf rest f hf (hmono he)
      refine (e1.and e2).mono ?_
      rintro r ⟨g1, g2⟩
      unfold condF
      simp only
      rw [if_neg (by rw [hpl]; decide), if_pos hpl,
        show u ++ an :: v ++ rest = u ++ an :: (v ++ rest) by simp, bind_ok g1]
      have hnw : ¬ (!isWord (an :: (v ++ rest)).head? str!"and") = true := by
        rw [List.head?_cons, isWord_lower.2 hal]; simp
      refine (congrFun (if_neg hnw) _).trans ?_
      rw [List.tail_cons, bind_ok g2]
      rfl
    | _ => simp [isRange] at h4
  · rw [if_neg hb] at h4
    simp only [Bool.and_eq_true, decide_eq_true_eq, Bool.not_eq_true', Bool.and_eq_false_iff,
      decide_eq_false_iff_not] at h4
    obtain ⟨⟨hp, g1⟩, g2⟩ := h4
    have or_ := hr g1
    have build : ∀ {pt : Str} {y' : List Str}, lower pt ∈ predicates → 
        (∀ l', fold l' = l → ∃ c', fold c' = .cond l p r ∧ ∀ (a : ExprArgs) (rest : List Str) (f : Option PyErr),
          (rest = [] → f = none) → Ends opdSyms atomWords rest.head? →
          Ev fun rc => condF rc a l' (some pt) ⟨y' ++ rest, f⟩ = .ok ((c', rest.head?), ⟨rest.tail, f⟩)) →
        ∃ c', fold c' = .cond l p r ∧ ∀ (a : ExprArgs) (rest : List Str) (f : Option PyErr),
          (!a.canBeType && !a.isChainedColumns) = true → (rest = [] → f = none) → Ends cndSyms cndWords rest.head? →
          Ev fun rc => cndM rc a main ⟨x ++ pt :: y' ++ rest, f⟩ = .ok ((c', rest.head?), ⟨rest.tail, f⟩) := by
      intro pt y' hpl hc
      have key : ∀ w ∈ predicates, w ∉ opdSyms ∧ w ∉ atomWords := by decide
      refine cond_build hl hx rfl (ends_lower rfl (key _ hpl).1 (key _ hpl).2 (by decide)) fun l' hl' => ?_
      obtain ⟨c', hc', h⟩ := hc l' hl'
      exact ⟨c', hc', fun a rest f _ hf he => h a rest f hf (hmono he)⟩
    by_cases p1 : p = str!"is not"
    · subst p1
      simp only [predToks, if_true, List.cons_append, List.nil_append] at hy
      replace hy := reads_cons.1 hy
      obtain ⟨pt, y, rfl, hpt, hy⟩ := hy
      replace hy := reads_cons.1 hy
      obtain ⟨nt, y, rfl, hnt, hy⟩ := hy
      have hpl := lower_kw hpt (by decide)
      have hnl := lower_kw hnt (by decide)
      refine build (by rw [hpl]; decide) fun l' hl' => ?_
      obtain ⟨r', hr', er⟩ := or_.rhs hy (reads_ne h3 (by omega) y hy)
      refine ⟨.cond l' str!"is not" r', by simp only [fold, hl', hr']; rfl, fun a rest f hf he => ?_⟩
      exact (er a.untilOneOf rest f hf he).mono fun rc g =>
        condF_pred (by rw [hpl]; decide) (predF_isNot hpl hnl _ _) g
    by_cases p2 : p = str!"not in"
    · subst p2
      rw [show predToks str!"not in" = [.kw str!"not", .kw str!"in"] from rfl] at hy
      replace hy := reads_cons.1 hy
      obtain ⟨pt, y, rfl, hpt, hy⟩ := hy
      replace hy := reads_cons.1 hy
      obtain ⟨nt, y, rfl, hnt, hy⟩ := hy
      have hpl := lower_kw hpt (by decide)
      have hnl := lower_kw hnt (by decide)
      refine build (by rw [hpl]; decide) fun l' hl' => ?_
      obtain ⟨r', hr', er⟩ := or_.rhs hy (reads_ne h3 (by omega) y hy)
      refine ⟨.cond l' str!"not in" r', by simp only [fold, hl', hr']; rfl, fun a rest f hf he => ?_⟩
      exact (er a.untilOneOf rest f hf he).mono fun rc g =>
        condF_pred (by rw [hpl]; decide) (predF_notIn hpl hnl _ _) g
    simp only [predToks, p1, p2, if_false, List.cons_append, List.nil_append] at hy
    replace hy := reads_cons.1 hy
    obtain ⟨pt, y, rfl, hpt, hy⟩ := hy
    have key : ∀ p ∈ corePreds, p ≠ str!"is not" → p ≠ str!"not in" →
        p.all isAscii ∧ p ∈ predicates ∧ p ≠ str!"not" := by decide
    obtain ⟨k1, k2, k3⟩ := key p hp p1 p2
    have hpl := lower_kw hpt k1
    refine build (by rw [hpl]; exact k2) fun l' hl' => ?_
    by_cases p3 : p = str!"is"
    · subst p3
      obtain ⟨m, y, rfl, hm0, -, hm⟩ := first_token_not h3 g1 (by simpa using g2) hy
      obtain ⟨r', hr', er⟩ := or_.rhs_first hy hm0
      refine ⟨.cond l' pt r', by rw [reads_kw] at hpt; simp only [fold, hl', hr', hpt], fun a rest f hf he => ?_⟩
      exact (er a.untilOneOf rest f hf he).mono fun rc g =>
        condF_pred (by rw [hpl]; decide) (predF_is hpl hm _ _) g
    · obtain ⟨r', hr', er⟩ := or_.rhs hy (reads_ne h3 (by omega) y hy)
      refine ⟨.cond l' pt r', by rw [reads_kw] at hpt; simp only [fold, hl', hr', hpt], fun a rest f hf he => ?_⟩
      exact (er a.untilOneOf rest f hf he).mono fun rc g =>
        condF_pred (by rw [hpl]; exact k2) (predF_simple (by rw [hpl]; exact p3) (by rw [hpl]; exact k3) _) g

theorem bitwise_ok {op : Str} {l r : Node} (hw : wf (.bitwise l op r) = true) (hl : OpdOk l) (hr : OpdOk r) :
    CndOk (.bitwise l op r) := by
  intro main ts h
  simp only [wf, Bool.and_eq_true, decide_eq_true_eq] at hw
  obtain ⟨⟨⟨⟨h1, h2⟩, h3⟩, h4⟩, h5⟩ := hw
  replace h1 : op ∈ bitOperators := h1
  simp only [toks] at h
  replace h := reads_first h (reads_ne h4 (by omega))
  obtain ⟨x, y, rfl, hx, hy⟩ := h
  replace hy := reads_cons.1 hy
  obtain ⟨t, y, rfl, ht, hy⟩ := hy
  rw [reads_lit] at ht
  subst ht
  have key : ∀ t ∈ bitOperators, t ∉ opdSyms ∧ t ∉ atomWords ∧ t.all isAscii ∧ t.map Char.toLower = t ∧
    t ∉ predicates ∧ t ≠ str!"between" := by decide
  obtain ⟨k1, k2, k3, k4, k5, k6⟩ := key t h1
  have hls := lower_self k3 k4
  refine cond_build hl hx rfl (ends_lower hls k1 k2 (by decide)) fun l' hl' => ?_
  obtain ⟨r', hr', er⟩ := hr.rhs hy (reads_ne h5 (by omega) y hy)
  refine ⟨.bitwise l' t r', by simp [fold, hl', hr'], fun a rest f _ hf he => ?_⟩
  refine (er a.untilOneOf rest f hf (he.mono (by decide) (by decide))).mono fun rc g => ?_
  unfold condF
  simp only
  rw [hls, if_neg k5, if_neg k6, if_pos h1, bind_ok g]
  rfl

/-! ### AND and OR -/

theorem not_alias {n n' : Node} (h : fold n' = n) (hl : level n ≤ 3) : ∀ e al w, n' ≠ .alias e al w := by
  rintro e al w rfl
  subst h
  simp only [fold] at hl
  by_cases hc : (decide (level (fold e) ≤ 3) && isAlias (fold al) w) = true
  · have : level (.alias (fold e) (fold al) w) = 4 := by rw [level]; exact if_pos hc
    omega
  · have : level (.alias (fold e) (fold al) w) = 9 := by rw [level]; exact if_neg hc
    omega

theorem boolF_join {r : Rec} {a : ExprArgs} {e right : Node} {tok : Str} {t : Option Str} {s s' : Stream}
    (h : lower tok ∈ boolPredicates) (hr : r.expr { untilOneOf := a.untilOneOf } s = .ok ((right, t), s'))
    (ha : ∀ e al w, right ≠ .alias e al w) :
    boolF r a e (some tok) s = .ok ((.boolc tok e right, t), s') := by
  unfold boolF
  simp only
  rw [if_pos h, bind_ok hr]
  dsimp only
  split
  · rename_i e al w
    exact absurd rfl (ha e al w)
  · rfl

theorem boolF_alias {r : Rec} {a : ExprArgs} {e right al : Node} {w : Bool} {tok : Str} {t : Option Str} {s s' : Stream}
    (h : lower tok ∈ boolPredicates)
    (hr : r.expr { untilOneOf := a.untilOneOf } s = .ok ((.alias right al w, t), s')) :
    boolF r a e (some tok) s = .ok ((.alias (.boolc tok e right) al w, t), s') := by
  unfold boolF
  simp only
  rw [if_pos h, bind_ok hr]
  rfl

theorem end_tail {r : Rec} {a : ExprArgs} {n : Node} {rest : List Str} {f : Option PyErr}
    (h : ExprEnd a.untilOneOf rest f) (s : Stream) :
    (exceptF r n rest.head? >>= fun x => replaceF r x.1 x.2 >>= fun x => aliasF r a x.1 x.2) s =
      .ok ((n, rest.head?), s) := by
  have he := h.ends
  rw [bind_ok (exceptF_no (he.notWord (by decide)) _), bind_ok (replaceF_no (he.notWord (by decide)) _)]
  refine aliasF_no (fun x hx => ?_) _
  rcases h with ⟨rfl, -⟩ | ⟨w, rest', rfl, h, -⟩
  · cases hx
  · cases hx; exact h

theorem boolc_ok {p : Str} {l r : Node} (hw : wf (.boolc p l r) = true) (hl : CndOk l) (hr : FullOk r)
    (hr' : AliasedOk r) : FullOk (.boolc p l r) ∧ AliasedOk (.boolc p l r) := by
  simp only [wf, Bool.and_eq_true, decide_eq_true_eq] at hw
  obtain ⟨⟨⟨⟨h1, h2⟩, h3⟩, h4⟩, h5⟩ := hw
  have key : ∀ w ∈ boolPredicates, w.all isAscii ∧ w ∉ cndSyms ∧ w ∉ cndWords := by decide
  obtain ⟨k1, k2, k3⟩ := key p h1
  have split : ∀ ts, Reads (toks (.boolc p l r)) ts → ∃ main x tok y, ts = main :: x ++ tok :: y ∧
      Reads (toks l) (main :: x) ∧ (Tok.kw p).reads tok ∧ Reads (toks r) y := by
    intro ts h
    simp only [toks] at h
    replace h := reads_append.1 h
    obtain ⟨x, y, rfl, hx, hy⟩ := h
    obtain ⟨main, x, rfl, -⟩ := first_token h4 (by omega) hx
    replace hy := reads_cons.1 hy
    obtain ⟨t, y, rfl, ht, hy⟩ := hy
    exact ⟨main, x, t, y, rfl, hx, ht, hy⟩
  constructor
  · intro ts h
    obtain ⟨main, x, tok, y, rfl, hx, ht, hy⟩ := split ts h
    have htl := lower_kw ht k1
    obtain ⟨l', hl', el⟩ := hl main x hx
    obtain ⟨r', hr', er⟩ := hr y hy
    refine ⟨.boolc tok l' r', by rw [reads_kw] at ht; simp only [fold, hl', hr', ht], fun a rest f ha he => ?_⟩
    obtain ⟨w1, w2, w3⟩ := whole_spec ha
    have e1 := el a (tok :: (y ++ rest)) f w2 (by simp) (ends_lower htl k2 k3 fun _ h => h)
    refine (e1.and (er { untilOneOf := a.untilOneOf } rest f rfl he)).next ?_
    rintro rc ⟨g1, g2⟩
    show exprF rc _ _ = _
    rw [exprF_full w1, show main :: x ++ tok :: y ++ rest = main :: (x ++ tok :: (y ++ rest)) by simp,
      bind_ok (mainToken_none w3 _ _ _), bind_ok g1]
    unfold endM
    dsimp only [List.head?_cons, List.tail_cons]
    rw [bind_ok (boolF_join (by rw [htl]; exact h1) g2 (not_alias hr' h3))]
    exact end_tail he _
  · intro ts h
    obtain ⟨main, x, tok, y, rfl, hx, ht, hy⟩ := split ts h
    have htl := lower_kw ht k1
    obtain ⟨l', hl', el⟩ := hl main x hx
    obtain ⟨r', hr', er1, er2⟩ := hr' y hy
    refine ⟨.boolc tok l' r', by rw [reads_kw] at ht; simp only [fold, hl', hr', ht], fun s hs => ?_,
      fun as al ys has hc hys hne => ?_⟩
    · have e1 := el {} (tok :: (y ++ [s])) none rfl (by simp) (ends_lower htl k2 k3 fun _ h => h)
      refine (e1.and (er1 s hs)).next ?_
      rintro rc ⟨g1, g2⟩
      show exprF rc _ _ = _
      rw [exprF_full rfl, show main :: x ++ tok :: y ++ [s] = main :: (x ++ tok :: (y ++ [s])) by simp,
        bind_ok (mainToken_none rfl _ _ _), bind_ok g1]
      unfold endM
      dsimp only [List.head?_cons, List.tail_cons]
      rw [bind_ok (boolF_alias (by rw [htl]; exact h1) g2)]
      exact end_tail (rest := []) (f := none) (.inl ⟨rfl, rfl⟩) _
    · have e1 := el {} (tok :: (y ++ as :: ys)) none rfl (by simp) (ends_lower htl k2 k3 fun _ h => h)
      obtain ⟨al', hal, e2⟩ := er2 as al ys has hc hys hne
      refine ⟨al', hal, (e1.and e2).next ?_⟩
      rintro rc ⟨g1, g2⟩
      show exprF rc _ _ = _
      rw [exprF_full rfl, show main :: x ++ tok :: y ++ as :: ys = main :: (x ++ tok :: (y ++ as :: ys)) by simp,
        bind_ok (mainToken_none rfl _ _ _), bind_ok g1]
      unfold endM
      dsimp only [List.head?_cons, List.tail_cons]
      rw [bind_ok (boolF_alias (by rw [htl]; exact h1) g2)]
      exact end_tail (rest := []) (f := none) (.inl ⟨rfl, rfl⟩) _

/-! ### Aliases and sub-queries -/

theorem alias_ok {e al : Node} {w : Bool} (hw : wf (.alias e al w) = true) (hl : level (.alias e al w) ≤ 4)
    (h : AliasedOk e) (ha : w = true → OpdOk al) : ItemOk (.alias e al w) := by
  intro ts hr
  obtain ⟨h1, h2⟩ := level_alias hl
  simp only [wf, Bool.and_eq_true] at hw
  obtain ⟨⟨-, h3⟩, h4⟩ := hw
  simp only [toks, List.append_assoc] at hr
  replace hr := reads_append.1 hr
  obtain ⟨x, y, rfl, hx, hy⟩ := hr
  obtain ⟨e', he', e1, e2⟩ := h x hx
  cases w with
  | false =>
    cases al with
    | raw s =>
      simp only [toks, opt, Bool.false_eq_true, if_false, List.nil_append] at hy
      replace hy := reads_cons.1 hy
      obtain ⟨t, y, rfl, ht, hy⟩ := hy
      rw [reads_lit] at ht
      rw [reads_nil] at hy
      subst ht hy
      exact ⟨.alias e' (.raw t) false, none, by simp [fold, he'], e1 t h4⟩
    | _ => exact absurd h2 Bool.false_ne_true
  | true =>
    simp only [opt, if_true, List.cons_append, List.nil_append] at hy
    replace hy := reads_cons.1 hy
    obtain ⟨as, y, rfl, has, hy⟩ := hy
    have hl : level al ≤ 4 := by
      rcases alias_or h2 with ⟨v, rfl, hw⟩ | ⟨v, rfl, -⟩ | ⟨v, q, rfl, -⟩
      · cases hw
      · exact Nat.zero_le _
      · exact Nat.zero_le _
    obtain ⟨al', hal, e3⟩ := e2 as al y (lower_kw has (by decide)) (ha rfl) hy (reads_ne h4 hl y hy)
    exact ⟨.alias e' al' true, none, by simp [fold, he', hal], e3⟩

theorem endM_nil {r : Rec} {n : Node} (s : Stream) : endM r {} (n, none) s = .ok ((n, none), s) :=
  endM_no (rest := []) (f := none) (.inl ⟨rfl, rfl⟩) s

theorem select_item {n : Node} (hs : n.isSelect = true) (hl : level n = 5) (h : SelectOk n) : ItemOk n := by
  intro ts hr
  have h0 : n.isSelect = true ∧ isSubquery n = true ∧ commaFree 0 (toks n) = true := by
    rcases level_five hl with h | ⟨part, e, rfl⟩ | ⟨f, args, rfl, -⟩
    · exact h
    · cases hs
    · cases hs
  obtain ⟨h1, h2, -⟩ := h0
  obtain ⟨t, ts, rfl, ht⟩ := select_reads h1 hr
  obtain ⟨n', hn', h⟩ := h t ts hr
  obtain ⟨s', h⟩ := h [] none fun _ => ⟨rfl, rfl⟩
  rw [List.append_nil] at h
  refine ⟨n', none, hn', ?_⟩
  refine (((h.and (indexLoop_no (e := n') (t := none) (by simp) ⟨[], none⟩)).and
    (dotLoop_no (u := []) (e := n') (t := none) (by simp) ⟨[], none⟩))).next ?_
  rintro r ⟨⟨g1, g2⟩, g3⟩
  have hd : isDigits t = false ∧ isDottedDigits t = false := by
    have : n.isSelect = true := h1
    cases n <;> simp [Node.isSelect] at this
    simp only [toks] at hr
    replace hr := reads_cons.1 hr
    obtain ⟨t, ts', e, ht, -⟩ := hr
    obtain ⟨rfl, rfl⟩ := List.cons.inj e
    exact kw_notNumber ht (by decide) (by decide)
  have hq : t ∉ quotes := fun hm => by
    rw [lower_quote hm] at ht; subst ht; exact absurd hm (by decide)
  have ho : t ≠ str!"(" := by
    rintro rfl; rw [lower_self (by decide) (by decide)] at ht; exact absurd ht (by decide)
  have hs : t ≠ str!"[" := by
    rintro rfl; rw [lower_self (by decide) (by decide)] at ht; exact absurd ht (by decide)
  have hp : primaryF r {} t ⟨ts, none⟩ = .ok ((some n', none), ⟨[], none⟩) := by
    unfold primaryF
    rw [if_neg hq, hd.1, hd.2, ht, if_neg (by simp), if_neg (by simp),
      if_neg (show ¬ str!"select" ∈ trueValues ++ falseValues by decide),
      if_neg (show ¬ str!"select" ∈ nullValues by decide), if_neg (by decide), if_neg ho, if_neg hs,
      if_neg (by decide), if_pos rfl, bind_ok (untilOneOf_all none ts)]
    dsimp only [Option.toList, List.nil_append]
    rw [bind_ok (next?_run (rest := []) fun _ => rfl), bind_ok (sub_ok g1)]
    rfl
  show exprF r _ _ = _
  rw [exprF_full rfl, bind_ok (mainToken_none rfl _ _ _)]
  have hc : cndM r {} t ⟨ts, none⟩ = .ok ((n', none), ⟨[], none⟩) := by
    unfold cndM opdM baseM
    simp only [bind_assoc']
    rw [bind_ok (atom_of_primary hp fun _ => rfl)]
    dsimp only [List.head?_nil, List.tail_nil]
    rw [bind_ok (overF_no (by rfl) _), bind_ok g3, bind_ok (arithF_no (.inr fun x hx => by cases hx) _), bind_ok g2]
    exact condF_no .none _
  rw [bind_ok hc]
  exact endM_nil _

/-! ### Parts of dates -/

theorem datePart_item {part : Str} {e : Node} (hw : wf (.datePart part e) = true) (h : FullOk e) :
    ItemOk (.datePart part e) := by
  intro ts hr
  simp only [wf, Bool.and_eq_true, decide_eq_true_eq] at hw
  obtain ⟨⟨h1, h2⟩, h3⟩ := hw
  simp only [toks] at hr
  replace hr := reads_cons.1 hr
  obtain ⟨m, ts, rfl, hm, hr⟩ := hr
  replace hr := reads_cons.1 hr
  obtain ⟨t, ts, rfl, ht, hr⟩ := hr
  have key : ∀ p ∈ dateParts, p.all isAscii = true ∧ wordy p = true ∧ p ∉ trueValues ++ falseValues ++ nullValues ++
    [str!"not", str!"case", str!"select"] ++ quotes ++ [str!"(", str!"["] := by decide
  obtain ⟨k1, k2, k3⟩ := key part h1
  have np := kw_notPrimary hm k1 k2 k3
  have hml := lower_kw hm k1
  have htl := lower_kw ht (by decide)
  obtain ⟨e', he', h⟩ := h ts hr
  have h := h {} [] none rfl (.inl ⟨rfl, rfl⟩)
  rw [List.append_nil] at h
  refine ⟨.datePart m e', none, by rw [reads_kw] at hm; simp [fold, he', hm], ?_⟩
  refine (((h.and (indexLoop_no (e := .datePart m e') (t := none) (by simp) ⟨[], none⟩)).and
    (dotLoop_no (u := []) (e := .datePart m e') (t := none) (by simp) ⟨[], none⟩))).next ?_
  rintro r ⟨⟨g1, g2⟩, g3⟩
  have ha : atomF r {} m ⟨t :: ts, none⟩ = .ok ((.datePart m e', none), ⟨[], none⟩) := by
    rw [atom_of_secondary np (by simp)]
    show secondaryF r {} m (some t) ⟨ts, none⟩ = _
    unfold secondaryF
    have ho : t ≠ str!"(" := by
      rintro rfl; rw [lower_self (by decide) (by decide)] at htl; exact absurd htl (by decide)
    rw [if_neg (by simpa using ho), if_pos ⟨by rw [hml]; exact h1, isWord_lower.2 htl⟩, bind_ok g1]
    rfl
  show exprF r _ _ = _
  rw [exprF_full rfl, bind_ok (mainToken_none rfl _ _ _)]
  have hc : cndM r {} m ⟨t :: ts, none⟩ = .ok ((.datePart m e', none), ⟨[], none⟩) := by
    unfold cndM opdM baseM
    simp only [bind_assoc']
    rw [bind_ok ha]
    dsimp only
    rw [bind_ok (overF_no (by rfl) _), bind_ok g3, bind_ok (arithF_no (.inr fun x hx => by cases hx) _), bind_ok g2]
    exact condF_no .none _
  rw [bind_ok hc]
  exact endM_nil _

/-! ### EXCEPT and REPLACE -/

/-- The list of EXCEPT or REPLACE. -/
theorem starArgs_ok {args : List Node} (hw : wfList args = true) (hl : levels args ≤ 4) (h : ∀ n ∈ args, ItemOk n)
    {ts : List Str} (hr : Reads (.lit str!"(" :: (toksList args ++ [.lit str!")"])) ts) :
    ∃ args', foldList args' = args ∧ ∀ rest f,
      Ev fun r => starArgsF r ⟨ts ++ rest, f⟩ = .ok (args', ⟨rest, f⟩) := by
  replace hr := reads_parens hr
  obtain ⟨x, rfl, hr⟩ := hr
  obtain ⟨args', hf', he'⟩ := list_ok hw (by omega) h hr
  refine ⟨args', hf', fun rest f => he'.mono fun r g => ?_⟩
  unfold starArgsF
  rw [List.cons_append, bind_ok (next?_cons _ _ _)]
  simp only [ne_eq, not_true, if_false]
  rw [List.append_assoc, List.singleton_append, bind_ok (untilClosing_tame (list_tame hw hr) _ f)]
  exact sub_ok g

theorem isAsAlias_fold {n : Node} (h : isNamed (fold n) = true) : isAsAlias n = true := by
  cases n <;> first
    | exact h
    | (simp only [fold, isNamed, Bool.and_eq_true] at h; exact h.1)

theorem named_all {ns : List Node} (h : (foldList ns).all isNamed = true) : ns.all isAsAlias = true := by
  induction ns with
  | nil => rfl
  | cons n ns ih =>
    simp only [foldList, List.all_cons, Bool.and_eq_true] at h ⊢
    exact ⟨isAsAlias_fold h.1, ih h.2⟩

theorem star_level {e : Node} (h : isStar e = true) : level e = 0 := by
  cases e <;> simp [isStar] at h <;> simp [level]

theorem except_ends {t : Str} {w : Str} (h : lower t = w) (hw : w = str!"except" ∨ w = str!"replace") :
    Ends cndSyms cndWords (some t) ∧ lower t ∉ boolPredicates := by
  rcases hw with rfl | rfl
  · exact ⟨ends_lower h (by decide) (by decide) fun _ h => h, by rw [h]; decide⟩
  · exact ⟨ends_lower h (by decide) (by decide) fun _ h => h, by rw [h]; decide⟩

theorem except_ok {e : Node} {args : List Node} (hw : wf (.except_ e args) = true) (he : CndOk e)
    (h : ∀ n ∈ args, ItemOk n) : ItemOk (.except_ e args) := by
  intro ts hr
  simp only [wf, Bool.and_eq_true, decide_eq_true_eq] at hw
  obtain ⟨⟨⟨⟨h1, h2⟩, h3⟩, h4⟩, h5⟩ := hw
  have hl := star_level h1
  simp only [toks] at hr
  replace hr := reads_append.1 hr
  obtain ⟨x, y, rfl, hx, hy⟩ := hr
  obtain ⟨main, x, rfl, -⟩ := first_token h4 (by omega) hx
  replace hy := reads_cons.1 hy
  obtain ⟨t, y, rfl, ht, hy⟩ := hy
  have htl := lower_kw ht (by decide)
  obtain ⟨en1, en2⟩ := except_ends htl (.inl rfl)
  obtain ⟨e', he', ee⟩ := he main x hx
  obtain ⟨args', ha', ea⟩ := starArgs_ok h5 h3 h hy
  refine ⟨.except_ e' args', none, by simp [fold, he', ha'], ?_⟩
  refine ((ee {} (t :: y) none rfl (by simp) en1).and (ea [] none)).next ?_
  rintro r ⟨g1, g2⟩
  rw [List.append_nil] at g2
  show exprF r _ _ = _
  rw [exprF_full rfl, List.cons_append, bind_ok (mainToken_none rfl _ _ _), bind_ok g1]
  unfold endM
  dsimp only [List.head?_cons, List.tail_cons]
  rw [bind_ok (boolF_no (fun z hz hm => by cases hz; exact en2 hm) _)]
  have : exceptF r e' (some t) ⟨y, none⟩ = .ok ((.except_ e' args', none), ⟨[], none⟩) := by
    unfold exceptF
    rw [if_pos (isWord_lower.2 htl), bind_ok g2]
    rfl
  rw [bind_ok this]
  dsimp only
  rw [bind_ok (replaceF_no (by rfl) _)]
  exact aliasF_no (fun z hz => by cases hz) _

theorem replaceF_ok {r : Rec} {e' : Node} {args' : List Node} {t : Str} {y : List Str} (htl : lower t = str!"replace")
    (hn : args'.all isAsAlias = true) (g : starArgsF r ⟨y, none⟩ = .ok (args', ⟨[], none⟩)) :
    (replaceF r e' (some t) >>= fun x => aliasF r {} x.1 x.2) ⟨y, none⟩ =
      .ok ((.replace e' args', none), ⟨[], none⟩) := by
  have : replaceF r e' (some t) ⟨y, none⟩ = .ok ((.replace e' args', none), ⟨[], none⟩) := by
    unfold replaceF
    rw [if_pos (isWord_lower.2 htl), bind_ok g, bind_ok (assert_true hn)]
    rfl
  rw [bind_ok this]
  exact aliasF_no (fun z hz => by cases hz) _

theorem replace_ok {e : Node} {args : List Node} (hw : wf (.replace e args) = true)
    (he : isStar e = true → CndOk e)
    (hx : ∀ b as, e = .except_ b as → CndOk b ∧ ∀ n ∈ as, ItemOk n)
    (h : ∀ n ∈ args, ItemOk n) : ItemOk (.replace e args) := by
  intro ts hr
  simp only [wf, Bool.and_eq_true, decide_eq_true_eq, Bool.or_eq_true] at hw
  obtain ⟨⟨⟨⟨⟨h1, h2⟩, h3⟩, h6⟩, h4⟩, h5⟩ := hw
  simp only [toks] at hr
  replace hr := reads_append.1 hr
  obtain ⟨x, y, rfl, hx', hy⟩ := hr
  replace hy := reads_cons.1 hy
  obtain ⟨t, y, rfl, ht, hy⟩ := hy
  have htl := lower_kw ht (by decide)
  obtain ⟨args', ha', ea⟩ := starArgs_ok h5 h3 h hy
  have hn : args'.all isAsAlias = true := named_all (by rw [ha']; exact h6)
  have ea := ea [] none
  rw [List.append_nil] at ea
  by_cases hs : isStar e = true
  · have hl := star_level hs
    obtain ⟨main, x, rfl, -⟩ := first_token h4 (by omega) hx'
    obtain ⟨en1, en2⟩ := except_ends htl (.inr rfl)
    obtain ⟨e', he', ee⟩ := he hs main x hx'
    refine ⟨.replace e' args', none, by simp [fold, he', ha'], ?_⟩
    refine ((ee {} (t :: y) none rfl (by simp) en1).and ea).next ?_
    rintro r ⟨g1, g2⟩
    show exprF r _ _ = _
    rw [exprF_full rfl, List.cons_append, bind_ok (mainToken_none rfl _ _ _), bind_ok g1]
    unfold endM
    dsimp only [List.head?_cons, List.tail_cons]
    rw [bind_ok (boolF_no (fun z hz hm => by cases hz; exact en2 hm) _),
      bind_ok (exceptF_no (by simp [isWord, lower?, htl]) _)]
    exact replaceF_ok htl hn g2
  · cases e with
    | except_ b as =>
      obtain ⟨hb, has⟩ := hx b as rfl
      simp only [wf, Bool.and_eq_true, decide_eq_true_eq] at h4
      obtain ⟨⟨⟨⟨b1, b2⟩, b3⟩, b4⟩, b5⟩ := h4
      have hl := star_level b1
      simp only [toks] at hx'
      replace hx' := reads_append.1 hx'
      obtain ⟨u, v, rfl, hu, hv⟩ := hx'
      obtain ⟨main, u, rfl, -⟩ := first_token b4 (by omega) hu
      replace hv := reads_cons.1 hv
      obtain ⟨s, v, rfl, hs', hv⟩ := hv
      have hsl := lower_kw hs' (by decide)
      obtain ⟨en1, en2⟩ := except_ends hsl (.inl rfl)
      obtain ⟨b', hb', eb⟩ := hb main u hu
      obtain ⟨as', has', eas⟩ := starArgs_ok b5 b3 has hv
      refine ⟨.replace (.except_ b' as') args', none, by simp [fold, hb', has', ha'], ?_⟩
      refine (((eb {} (s :: (v ++ t :: y)) none rfl (by simp) en1).and (eas (t :: y) none)).and ea).next ?_
      rintro r ⟨⟨g1, g2⟩, g3⟩
      show exprF r _ _ = _
      rw [exprF_full rfl, show main :: u ++ s :: v ++ t :: y = main :: (u ++ s :: (v ++ t :: y)) by simp,
        bind_ok (mainToken_none rfl _ _ _), bind_ok g1]
      unfold endM
      dsimp only [List.head?_cons, List.tail_cons]
      rw [bind_ok (boolF_no (fun z hz hm => by cases hz; exact en2 hm) _)]
      have : exceptF r b' (some s) ⟨v ++ t :: y, none⟩ = .ok ((.except_ b' as', some t), ⟨y, none⟩) := by
        unfold exceptF
        rw [if_pos (isWord_lower.2 hsl), bind_ok g2]
        rfl
      rw [bind_ok this]
      exact replaceF_ok htl hn g3
    | _ => simp [isExcept, hs] at h1

end SqlV.Core
