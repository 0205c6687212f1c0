import Verif.Spec.PyFile

/-! `tokenize.untokenize` as gaps between tokens. -/

namespace SqlV

/-- The gaps in front of the visible tokens. -/
def gapsFrom (u : UState) : List PyTok → Except PyErr (List Str)
  | [] => .ok []
  | t :: ts =>
    if t.kind = .endmarker then .ok []
    else match untokStep u t with
      | .error e => .error e
      | .ok (ws, _, u) => match gapsFrom u ts with
        | .error e => .error e
        | .ok gs => .ok (ws :: gs)

theorem addWhitespace_bind {α : Type} (row col : Nat) (start : Nat × Nat) (f : Str → α) :
    (addWhitespace row col start).bind (fun ws => .ok (f ws)) = (addWhitespace row col start).map f := by
  rcases addWhitespace row col start with e | ws <;> rfl

theorem untokStep_printed {u u' : UState} {t : PyTok} {ws : Str} {b : Bool}
    (hne : t.kind ≠ .endmarker) (h : untokStep u t = .ok (ws, b, u')) : b = t.printed := by
  have key : ∀ (r : Except PyErr Str) (f : Str → Str) (v : UState),
      (r >>= fun ws => Except.ok (f ws, true, v)) = .ok (ws, b, u') → b = true := by
    intro r f v h
    rcases r with e | x
    · simp [bind, Except.bind] at h
    · simp only [bind, Except.bind, Except.ok.injEq, Prod.mk.injEq] at h
      exact h.2.1.symm
  simp only [untokStep, PyTok.printed] at h ⊢
  cases hk : t.kind <;> rw [hk] at h <;> simp only at h ⊢
  · exact absurd hk hne
  all_goals first
    | (simp at h; rw [← h.2.1])
    | (exact key _ id _ h)
    | skip
  case dedent =>
    cases hu : u.indents with
    | nil => rw [hu] at h; simp at h
    | cons i is => rw [hu] at h; simp at h; rw [← h.2.1]
  all_goals
    split at h
    · split at h
      · exact key _ (fun ws => _ ++ ws) _ h
      · exact key _ id _ h
    · exact key _ id _ h

theorem untokenizeFrom_eq (u : UState) (ts : List PyTok) :
    untokenizeFrom u ts = (gapsFrom u ts).map fun gs => weave gs (visible ts) := by
  induction ts generalizing u with
  | nil => rfl
  | cons t ts ih =>
    rw [untokenizeFrom, gapsFrom]
    by_cases hk : t.kind = .endmarker
    · simp [hk, Except.map, weave]
    · rw [if_neg hk, if_neg hk]
      rcases hs : untokStep u t with e | ⟨ws, b, u'⟩
      · rfl
      · simp only [bind, Except.bind]
        rw [ih]
        rcases gapsFrom u' ts with e | gs
        · rfl
        · have hv : visible (t :: ts) = t :: visible ts := by simp [visible, hk]
          rw [hv]
          simp only [Except.map, weave, PyTok.text, pure, Except.pure]
          rw [untokStep_printed hk hs]

theorem untokStep_congr (u : UState) (t t' : PyTok) (hk : t'.kind = t.kind) (h1 : t'.start = t.start)
    (h2 : t'.stop = t.stop) (hv : t.kind = .indent → t'.value = t.value) :
    untokStep u t' = untokStep u t := by
  simp only [untokStep, hk, h1, h2]
  cases h : t.kind <;> simp only
  rw [hv h]

theorem gapsFrom_congr [E : PyEnv] {ts ts' : List PyTok} (h : List.Forall₂ SameButQuery ts ts')
    (u : UState) : gapsFrom u ts' = gapsFrom u ts := by
  induction h generalizing u with
  | nil => rfl
  | @cons a b as bs hab _ ih =>
    rw [gapsFrom, gapsFrom, hab.kind]
    have hs : untokStep u b = untokStep u a :=
      untokStep_congr u a b hab.kind hab.start hab.stop (fun hi => by
        rcases hab.value with h | h
        · exact h
        · rw [hi] at h; exact absurd h.1 (by simp))
    rw [hs]
    split
    · rfl
    · rcases untokStep u a with e | ⟨ws, pr, u'⟩
      · rfl
      · simp only [ih]

/-! ### Reading back -/

theorem advance_append (p : Nat × Nat) (a b : Str) : advance p (a ++ b) = advance (advance p a) b := by
  simp [advance, List.foldl_append]

theorem advance_spaces (p : Nat × Nat) (m : Nat) : advance p (List.replicate m ' ') = (p.1, p.2 + m) := by
  induction m generalizing p with
  | zero => rfl
  | succ m ih =>
    have h : advance p (' ' :: List.replicate m ' ') = advance (p.1, p.2 + 1) (List.replicate m ' ') := by
      simp [advance]
    rw [List.replicate_succ, h, ih]
    show (p.1, p.2 + 1 + m) = _
    congr 1; omega

theorem advance_continuations (p : Nat × Nat) (n : Nat) :
    advance p (List.replicate n str!"\\\n").flatten = (p.1 + n, if n = 0 then p.2 else 0) := by
  induction n generalizing p with
  | zero => rfl
  | succ n ih =>
    rw [List.replicate_succ, List.flatten_cons, advance_append, ih]
    have h : advance p str!"\\\n" = (p.1 + 1, 0) := by
      simp [advance]
    rw [h]
    simp only [Nat.add_one_ne_zero, if_false]
    ext
    · show p.1 + 1 + n = p.1 + (n + 1); omega
    · show (if n = 0 then 0 else 0) = 0; split <;> rfl

theorem advance_blanks (p : Nat × Nat) (n m : Nat) :
    advance p (blanks n m) = (p.1 + n, (if n = 0 then p.2 else 0) + m) := by
  rw [blanks, advance_append, advance_continuations, advance_spaces]

theorem addWhitespace_blanks (p : Nat × Nat) (n m : Nat) :
    addWhitespace p.1 p.2 (advance p (blanks n m)) = .ok (blanks n m) := by
  rw [advance_blanks, addWhitespace]
  have h : ¬ ((p.1 + n, (if n = 0 then p.2 else 0) + m).1 < p.1 ∨
      ((p.1 + n, (if n = 0 then p.2 else 0) + m).1 = p.1 ∧
        (p.1 + n, (if n = 0 then p.2 else 0) + m).2 < p.2)) := by
    simp only [not_or, not_and]
    refine ⟨by omega, fun h => ?_⟩
    have : n = 0 := by omega
    simp [this]
  rw [if_neg h]
  simp only [Nat.add_sub_cancel_left, blanks]

theorem weave_step {ts : List PyTok} {k : TokKind} {ks : List TokKind} {g : Str} {gs gs' : List Str}
    (hk : k ≠ .endmarker) (hts : ts.map PyTok.kind = k :: ks)
    (h : ∀ ts' : List PyTok, ts'.map PyTok.kind = ks → weave gs (visible ts') = weave gs' ts') :
    weave (g :: gs) (visible ts) = weave (g :: gs') ts := by
  cases ts with
  | nil => simp at hts
  | cons t ts =>
    simp only [List.map_cons, List.cons.injEq] at hts
    have hv : visible (t :: ts) = t :: visible ts := by simp [visible, hts.1, hk]
    rw [hv, weave, weave, h ts hts.2]

/-- Gaps of a text that `Reads`. -/
theorem gapsFrom_reads {p : Nat × Nat} {is : List Str} {b : Bool} {pieces : List (Str × PyTok)}
    (h : Reads p is b pieces) (u : UState) (hu : u = ⟨p.1, p.2, is, b⟩) :
    ∃ gs, gapsFrom u (pieces.map Prod.snd) = .ok gs ∧
      ∀ ts : List PyTok, ts.map PyTok.kind = pieces.map (fun q => q.2.kind) →
        weave gs (visible ts) = weave (pieces.map Prod.fst) ts := by
  induction h generalizing u with
  | nil p is b => exact ⟨[], rfl, fun ts _ => by simp [weave]⟩
  | endm p is b t hk => 
    refine ⟨[], by simp [gapsFrom, hk], fun ts hts => ?_⟩
    cases ts with
    | nil => simp at hts
    | cons t' ts =>
      simp only [List.map_cons, List.map_nil, List.cons.injEq, List.map_eq_nil_iff] at hts
      obtain ⟨h1, rfl⟩ := hts
      simp [weave, PyTok.text, PyTok.printed, h1, hk]
  | indent p is b t r hk hr ih =>
    obtain ⟨gs, h1, h2⟩ := ih { u with indents := t.value :: u.indents } (by subst hu; rfl)
    refine ⟨[] :: gs, ?_, fun ts hts => weave_step (by simp [hk]) hts h2⟩
    simp [gapsFrom, hk, untokStep, h1]
  | dedent p i is b t r hk hr ih =>
    obtain ⟨gs, h1, h2⟩ := ih { u with indents := is, row := t.stop.1, col := t.stop.2 }
      (by subst hu; rfl)
    refine ⟨[] :: gs, ?_, fun ts hts => weave_step (by simp [hk]) hts h2⟩
    simp only [List.map_cons, gapsFrom, untokStep, hk]
    subst hu
    simp only at h1 ⊢
    rw [if_neg (by simp), h1]
  | eol p is b n m t r hk hv hs hst hr ih =>
    obtain ⟨gs, h1, h2⟩ := ih { u with row := t.stop.1 + 1, col := 0, startline := true }
      (by subst hu; rw [hst])
    have hw : addWhitespace u.row u.col t.start = .ok (blanks n m) := by
      subst hu; rw [hs]; exact addWhitespace_blanks p n m
    refine ⟨blanks n m :: gs, ?_, fun ts hts => weave_step ?_ hts h2⟩
    · rcases hk with hk | hk
      all_goals
        simp only [List.map_cons, gapsFrom, untokStep, hk, hw]
        rw [if_neg (by simp)]
        simp only [bind, Except.bind]
        rw [h1]
    · rcases hk with hk | hk <;> simp [hk]
  | first p i is m t r hp hn1 hn2 hs hst hr ih =>
    obtain ⟨gs, h1, h2⟩ := ih { u with row := t.stop.1, col := t.stop.2, startline := false }
      (by subst hu; rfl)
    have hw : addWhitespace u.row i.length t.start = .ok (List.replicate m ' ') := by
      have := addWhitespace_blanks (p.1, i.length) 0 m
      rw [advance_blanks] at this
      subst hu
      rw [hs]
      simpa [blanks] using this
    have hge : t.start.2 ≥ i.length := by rw [hs]; simp
    refine ⟨(i ++ List.replicate m ' ') :: gs, ?_, fun ts hts => weave_step ?_ hts h2⟩
    · subst hu
      simp only at hw h1
      simp only [List.map_cons, gapsFrom, untokStep]
      cases hk : t.kind <;> simp_all [PyTok.printed, bind, Except.bind]
    · intro hk
      have hk : t.kind = .endmarker := hk
      simp [PyTok.printed, hk] at hp
  | other p is b n m t r hp hn1 hn2 hs hb hst hr ih =>
    obtain ⟨gs, h1, h2⟩ := ih
      { u with row := t.stop.1, col := t.stop.2, startline := b && is.isEmpty }
      (by subst hu; rfl)
    have hw : addWhitespace u.row u.col t.start = .ok (blanks n m) := by
      subst hu; rw [hs]; exact addWhitespace_blanks p n m
    have hstep : untokStep u t = .ok (blanks n m, true,
        { u with row := t.stop.1, col := t.stop.2, startline := b && is.isEmpty }) := by
      subst hu
      simp only at hw
      simp only [untokStep]
      cases b with
      | false => cases hk : t.kind <;> simp_all [PyTok.printed, bind, Except.bind]
      | true =>
        cases is with
        | nil => cases hk : t.kind <;> simp_all [PyTok.printed, bind, Except.bind]
        | cons i is =>
          have := hb rfl i is rfl
          have hlt : ¬ (t.start.2 ≥ i.length) := by omega
          cases hk : t.kind <;>
            simp only [hk, PyTok.printed, ne_eq, reduceCtorEq, not_true_eq_false, not_false_eq_true,
              hlt, if_false, hw, bind, Except.bind, Bool.true_and, List.isEmpty_cons] at hp hn1 hn2 ⊢
    have hk : t.kind ≠ .endmarker := by
      intro hk; simp [PyTok.printed, hk] at hp
    refine ⟨blanks n m :: gs, ?_, fun ts hts => weave_step ?_ hts h2⟩
    · simp only [List.map_cons, gapsFrom, hstep, if_neg hk, h1]
    · exact hk

/-- Positions relative to another one. -/
theorem advance_span_from (p q : Nat × Nat) (g : Str) :
    advance (p.1 + q.1, if q.1 = 0 then p.2 + q.2 else q.2) g =
      (p.1 + (advance q g).1, if (advance q g).1 = 0 then p.2 + (advance q g).2 else (advance q g).2) := by
  induction g generalizing q with
  | nil => rfl
  | cons c g ih =>
    have step : ∀ r : Nat × Nat, advance r (c :: g) = advance (if c = '\n' then (r.1 + 1, 0) else (r.1, r.2 + 1)) g :=
      fun r => rfl
    rw [step, step]
    by_cases hc : c = '\n'
    · rw [if_pos hc, if_pos hc, ← ih]
      simp [Nat.add_assoc]
    · rw [if_neg hc, if_neg hc, ← ih]
      by_cases hq : q.1 = 0 <;> simp [hq, Nat.add_assoc]

theorem advance_span (p : Nat × Nat) (g : Str) :
    advance p g = (p.1 + (span g).1, if (span g).1 = 0 then p.2 + (span g).2 else (span g).2) := by
  have := advance_span_from p (0, 0) g
  rw [← show p = (p.1 + (0, 0).1, if (0, 0).1 = 0 then p.2 + (0, 0).2 else (0, 0).2) from rfl] at this
  exact this

theorem advance_respaced (p : Nat × Nat) (g : Str) : advance p (respaced g) = advance p g := by
  rw [respaced, advance_blanks, advance_span p g]
  by_cases h : (span g).1 = 0 <;> simp [h]

theorem span_blanks (n m : Nat) : span (blanks n m) = (n, m) := by
  rw [span, advance_blanks]
  simp

theorem respaced_blanks (n m : Nat) : respaced (blanks n m) = blanks n m := by
  rw [respaced, span_blanks]

theorem span_line {g : Str} (h : '\n' ∉ g) : span g = (0, g.length) := by
  have : ∀ (q : Nat × Nat), advance q g = (q.1, q.2 + g.length) := by
    induction g with
    | nil => intro q; rfl
    | cons c g ih =>
      intro q
      simp only [List.mem_cons, not_or] at h
      have step : advance q (c :: g) = advance (if c = '\n' then (q.1 + 1, 0) else (q.1, q.2 + 1)) g := rfl
      rw [step, if_neg (fun hc => h.1 hc.symm), ih h.2]
      simp only [List.length_cons, Prod.mk.injEq, true_and]
      omega
  simpa [span] using this (0, 0)

/-- What is printed has the same lines and columns. -/
theorem span_respaced (g : Str) : span (respaced g) = span g := advance_respaced (0, 0) g

theorem span_reindented {i g : Str} (hi : '\n' ∉ i) (hl : i.length ≤ (span g).2) : span (reindented i g) = span g := by
  rw [reindented, span, advance_append]
  have : advance (0, 0) i = (0, i.length) := span_line hi
  rw [this]
  split
  · rename_i h
    rw [advance_spaces]
    ext
    · exact h.symm
    · show i.length + ((span g).2 - i.length) = (span g).2
      omega
  · rename_i h
    rw [advance_respaced, advance_span]
    simp [h]

theorem respaced_congr {g h : Str} (e : span g = span h) : respaced g = respaced h := by
  rw [respaced, respaced, e]

theorem respaced_respaced (g : Str) : respaced (respaced g) = respaced g := respaced_congr (span_respaced g)

theorem reindented_congr {i g h : Str} (e : span g = span h) : reindented i g = reindented i h := by
  rw [reindented, reindented, e, respaced_congr e]

/-- Gaps of a text that `Stands`. -/
theorem gapsFrom_stands {p : Nat × Nat} {is : List Str} {b : Bool} {pieces : List (Str × PyTok)} {printed : List Str}
    (h : Stands p is b pieces printed) (u : UState) (hu : u = ⟨p.1, p.2, is, b⟩) :
    ∃ gs, gapsFrom u (pieces.map Prod.snd) = .ok gs ∧
      ∀ ts : List PyTok, ts.map PyTok.kind = pieces.map (fun q => q.2.kind) →
        weave gs (visible ts) = weave printed ts := by
  induction h generalizing u with
  | nil p is b => exact ⟨[], rfl, fun ts _ => by simp [weave]⟩
  | endm p is b t hk => 
    refine ⟨[], by simp [gapsFrom, hk], fun ts hts => ?_⟩
    cases ts with
    | nil => simp at hts
    | cons t' ts =>
      simp only [List.map_cons, List.map_nil, List.cons.injEq, List.map_eq_nil_iff] at hts
      obtain ⟨h1, rfl⟩ := hts
      simp [weave, PyTok.text, PyTok.printed, h1, hk]
  | indent p is b t r gs' hk hr ih =>
    obtain ⟨gs, h1, h2⟩ := ih { u with indents := t.value :: u.indents } (by subst hu; rfl)
    refine ⟨[] :: gs, ?_, fun ts hts => weave_step (by simp [hk]) hts h2⟩
    simp [gapsFrom, hk, untokStep, h1]
  | dedent p i is b t r gs' hk hr ih =>
    obtain ⟨gs, h1, h2⟩ := ih { u with indents := is, row := t.stop.1, col := t.stop.2 }
      (by subst hu; rfl)
    refine ⟨[] :: gs, ?_, fun ts hts => weave_step (by simp [hk]) hts h2⟩
    simp only [List.map_cons, gapsFrom, untokStep, hk]
    subst hu
    simp only at h1 ⊢
    rw [if_neg (by simp), h1]
  | eol p is b g t r gs' hk hs hst hr ih =>
    obtain ⟨gs, h1, h2⟩ := ih { u with row := t.stop.1 + 1, col := 0, startline := true }
      (by subst hu; rw [hst])
    have hw : addWhitespace u.row u.col t.start = .ok (respaced g) := by
      subst hu; rw [hs, ← advance_respaced]; exact addWhitespace_blanks p _ _
    refine ⟨respaced g :: gs, ?_, fun ts hts => weave_step ?_ hts h2⟩
    · rcases hk with hk | hk
      all_goals
        simp only [List.map_cons, gapsFrom, untokStep, hk, hw]
        rw [if_neg (by simp)]
        simp only [bind, Except.bind]
        rw [h1]
    · rcases hk with hk | hk <;> simp [hk]
  | first p i is g t r gs' hp hn1 hn2 hs hge hst hr ih =>
    obtain ⟨gs, h1, h2⟩ := ih { u with row := t.stop.1, col := t.stop.2, startline := false }
      (by subst hu; rfl)
    have hs' : t.start = (p.1 + (span g).1, (span g).2) := by
      rw [hs, advance_span]
      simp
    have hw : addWhitespace u.row i.length t.start =
        .ok (if (span g).1 = 0 then List.replicate ((span g).2 - i.length) ' ' else respaced g) := by
      subst hu
      by_cases h0 : (span g).1 = 0
      · have := addWhitespace_blanks (p.1, i.length) 0 ((span g).2 - i.length)
        rw [advance_blanks] at this
        rw [hs'] at hge ⊢
        simp only at hge
        rw [if_pos h0, h0]
        simpa [blanks, Nat.add_sub_cancel' hge] using this
      · have := addWhitespace_blanks (p.1, i.length) (span g).1 (span g).2
        rw [advance_blanks] at this
        rw [hs', if_neg h0, respaced]
        simpa [h0] using this
    have hge : t.start.2 ≥ i.length := hge
    refine ⟨reindented i g :: gs, ?_, fun ts hts => weave_step ?_ hts h2⟩
    · subst hu
      simp only at hw h1
      simp only [List.map_cons, gapsFrom, untokStep]
      cases hk : t.kind <;> simp_all [PyTok.printed, bind, Except.bind, reindented]
    · intro hk
      have hk : t.kind = .endmarker := hk
      simp [PyTok.printed, hk] at hp
  | other p is b g t r gs' hp hn1 hn2 hs hb hst hr ih =>
    obtain ⟨gs, h1, h2⟩ := ih
      { u with row := t.stop.1, col := t.stop.2, startline := b && is.isEmpty }
      (by subst hu; rfl)
    have hw : addWhitespace u.row u.col t.start = .ok (respaced g) := by
      subst hu; rw [hs, ← advance_respaced]; exact addWhitespace_blanks p _ _
    have hstep : untokStep u t = .ok (respaced g, true,
        { u with row := t.stop.1, col := t.stop.2, startline := b && is.isEmpty }) := by
      subst hu
      simp only at hw
      simp only [untokStep]
      cases b with
      | false => cases hk : t.kind <;> simp_all [PyTok.printed, bind, Except.bind]
      | true =>
        cases is with
        | nil => cases hk : t.kind <;> simp_all [PyTok.printed, bind, Except.bind]
        | cons i is =>
          have := hb rfl i is rfl
          have hlt : ¬ (t.start.2 ≥ i.length) := by omega
          cases hk : t.kind <;>
            simp only [hk, PyTok.printed, ne_eq, reduceCtorEq, not_true_eq_false, not_false_eq_true,
              hlt, if_false, hw, bind, Except.bind, Bool.true_and, List.isEmpty_cons] at hp hn1 hn2 ⊢
    have hk : t.kind ≠ .endmarker := by
      intro hk; simp [PyTok.printed, hk] at hp
    refine ⟨respaced g :: gs, ?_, fun ts hts => weave_step ?_ hts h2⟩
    · simp only [List.map_cons, gapsFrom, hstep, if_neg hk, h1]
    · exact hk

end SqlV
