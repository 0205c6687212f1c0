import Verif.Lemmas.CoreLexAll

/-! The last token and the last character of a statement. -/

set_option linter.unusedSectionVars false

namespace SqlV.Core

open Lex

section

variable [E : PyEnv] [L : LawfulPyEnv E]

/-- The last token is not a semicolon. -/
def LastOk (ks : List Tok) : Prop := ∀ k, ks.getLast? = some k → k.canon ≠ str!";"

theorem last_nil : LastOk [] := by intro k hk; simp at hk

theorem LastOk.append {a b : List Tok} (ha : LastOk a) (hb : LastOk b) : LastOk (a ++ b) := by
  intro k hk
  rw [List.getLast?_append] at hk
  cases h : b.getLast? with
  | none => rw [h] at hk; exact ha k (by simpa using hk)
  | some x => rw [h] at hk; simp at hk; exact hk ▸ hb x h

theorem LastOk.after {a b : List Tok} (hb : LastOk b) (hne : b ≠ []) : LastOk (a ++ b) := by
  intro k hk
  rw [List.getLast?_append] at hk
  cases h : b.getLast? with
  | none => exact absurd (List.getLast?_eq_none_iff.1 h) hne
  | some x => rw [h] at hk; simp at hk; exact hk ▸ hb x h

theorem last_one {k : Tok} (h : k.canon ≠ str!";") : LastOk [k] := by
  intro k' hk
  simp at hk
  exact hk ▸ h

theorem LastOk.cons {k : Tok} {ks : List Tok} (h : k.canon ≠ str!";") (hs : LastOk ks) : LastOk (k :: ks) := (last_one h).append hs

theorem LastOk.opt {b : Bool} {ks : List Tok} (h : LastOk ks) : LastOk (Core.opt b ks) := by
  cases b with
  | true => exact h
  | false => exact last_nil

theorem last_list {ns : List Node} (h : ∀ n ∈ ns, LastOk (toks n)) : LastOk (toksList ns) := by
  match ns, h with
  | [], _ => exact last_nil
  | [n], h => exact h n (by simp)
  | n :: m :: ns, h =>
    rw [toksList]
    exact (h n (by simp)).append (LastOk.cons (by decide) (last_list fun x hx => h x (by simp [hx])))
    simp

theorem last_seq {ns : List Node} (h : ∀ n ∈ ns, LastOk (toks n)) : LastOk (toksSeq ns) := by
  induction ns with
  | nil => exact last_nil
  | cons n ns ih => exact (h n (by simp)).append (ih fun x hx => h x (by simp [hx]))

theorem ident_semi {s : Str} (h : ident s = true) : s ≠ str!";" := by
  rintro rfl
  exact absurd ((ident_chars h).2.1 ';' (by simp)).1 (by decide)

theorem caps_semi {s : Str} (h : fname s = true) : caps s ≠ str!";" := by
  simp only [fname, Bool.and_eq_true, decide_eq_true_eq] at h
  intro hc
  have := caps_back h.1.2 h.2
  rw [hc] at this
  exact ident_semi h.1.1 this.symm

theorem ended_level {n : Node} (h : level n ≤ 4) : ended n = false := by
  cases n <;> first | rfl | skip
  · exact absurd h (by rw [level]; split <;> omega)
  · exact absurd h (by show ¬ (9 ≤ 4); omega)

theorem ended_of {p : Node → Bool} {n : Node} (h : p n = true) (h1 : ∀ es all d on f w g h o l off semi,
    p (.select es all d on f w g h o l off semi) = false) (h2 : ∀ qs s, p (.withStmt qs s) = false) : ended n = false := by
  cases n <;> first | rfl | skip
  · rw [h1] at h; cases h
  · rw [h2] at h; cases h

theorem ended_orNone {p : Node → Bool} {n : Node} (h : orNone p n = true) (h1 : ∀ es all d on f w g h o l off semi,
    p (.select es all d on f w g h o l off semi) = false) (h2 : ∀ qs s, p (.withStmt qs s) = false) : ended n = false := by
  cases n <;> first | rfl | skip
  · have h : p _ = true := h
    rw [h1] at h; cases h
  · have h : p _ = true := h
    rw [h2] at h; cases h

theorem last_joinToks {type : Str} (h : type ∈ condJoins.map (·.1) ∨ type ∈ crossJoins.map (·.1)) : LastOk (joinToks type) := by
  have key : ∀ t ∈ condJoins.map (·.1) ++ crossJoins.map (·.1), ∀ k ∈ joinToks t, k.canon ≠ str!";" := by decide
  intro k hk
  exact key type (List.mem_append.2 h) k (List.mem_of_getLast? hk)

theorem ended_falsy {n : Node} (h : n.truthy = false) : ended n = false := by
  cases n <;> first | rfl | cases h

theorem raw_last {al : Node} (h : isRaw al = true) : ended al = false ∧ toks al ≠ [] := by
  cases al <;> first
    | exact absurd h Bool.false_ne_true
    | exact ⟨rfl, by simp [toks]⟩

theorem alias_last {al : Node} {w : Bool} (h : isAlias al w = true) : ended al = false ∧ toks al ≠ [] := by
  rcases alias_or h with ⟨_, rfl, -⟩ | ⟨_, rfl, -⟩ | ⟨_, _, rfl, -⟩ <;> exact ⟨rfl, by simp [toks]⟩

theorem frame_semi {w : Str} (h : frameWord w = true) : caps w ≠ str!";" := by
  simp only [frameWord, Bool.or_eq_true, decide_eq_true_eq, Bool.and_eq_true, Bool.not_eq_true'] at h
  rcases h with h | h
  · exact (by decide : ∀ w ∈ frameWords, caps w ≠ str!";") w h
  · rw [digit_caps h.2]
    rintro rfl
    exact absurd h.2 (by decide)

theorem last_toks (n : Node) : wf n = true → ended n = false → LastOk (toks n) := by
  have close : ∀ {a : List Tok}, LastOk (a ++ [.lit str!")"]) := (last_one (by decide)).after (by simp)
  induction n using Node.rec (motive_2 := fun ns => ∀ n ∈ ns, wf n = true → ended n = false → LastOk (toks n)) with
  | nil => rename_i h _ _; cases h
  | cons n ns h1 h2 =>
    rename_i m hm hw he
    rcases List.mem_cons.1 hm with rfl | hm
    · exact h1 hw he
    · exact h2 m hm hw he
  | none => intro _ _; exact last_nil
  | raw s => intro h _; exact last_one (ident_semi h)
  | column s =>
    intro h _
    simp only [wf, Bool.or_eq_true, decide_eq_true_eq] at h
    rcases h with h | rfl
    · exact last_one (ident_semi h)
    · exact last_one (by decide)
  | chained l r hl hr =>
    intro h _
    simp only [wf, Bool.and_eq_true] at h
    refine LastOk.append (hl h.1.2 (ended_of h.1.1.1 (fun _ _ _ _ _ _ _ _ _ _ _ _ => rfl) fun _ _ => rfl)) (LastOk.cons (by decide) (hr h.2 ?_))
    exact ended_of h.1.1.2 (fun _ _ _ _ _ _ _ _ _ _ _ _ => rfl) fun _ _ => rfl
  | int i =>
    intro _ _
    refine LastOk.after (last_one ?_) (by simp)
    intro h
    have := ofNat_digits i.natAbs ';' (by
      show ';' ∈ Tok.canon (.num i.natAbs)
      rw [h]; simp)
    exact absurd this (by decide)
  | string v q pre =>
    intro h _
    simp only [wf, Bool.and_eq_true, decide_eq_true_eq] at h
    have hq : q ≠ str!";" := (by decide : ∀ q ∈ quotes, q ≠ str!";") q h.1.2
    cases pre with
    | none => rw [toks]; exact LastOk.after (last_one hq) (by simp)
    | some p => rw [toks]; exact LastOk.after (last_one hq) (by simp)
  | float r =>
    intro h _
    have key : ∀ s, isDecimal s = true → s ≠ str!";" := by
      rintro s h rfl
      exact absurd h (by decide)
    rcases float_cases h with ⟨h, -, ht⟩ | ⟨s, rfl, h, -, ht⟩ <;> rw [ht]
    · exact last_one (key _ h)
    · exact LastOk.after (a := [.lit str!"-"]) (last_one (key _ h)) (by simp)
  | null => intro _ _; exact last_one (by decide)
  | bool b => intro _ _; cases b <;> exact last_one (by decide)
  | type v => intro h _; exact last_one (caps_semi h)
  | func f args ih => intro _ _; rw [toks, ← List.cons_append, ← List.cons_append]; exact close
  | count args d ih => intro _ _; rw [toks, ← List.cons_append, ← List.cons_append]; exact close
  | cast c t hc ht => intro _ _; rw [toks, ← List.cons_append, ← List.cons_append]; exact close
  | paren args ih => intro _ _; rw [toks, ← List.cons_append]; exact close
  | array args ih => intro _ _; rw [toks, ← List.cons_append]; exact LastOk.after (last_one (by decide)) (by simp)
  | index e is he ih => intro _ _; rw [toks, ← List.cons_append, ← List.append_assoc]; exact LastOk.after (last_one (by decide)) (by simp)
  | arrayAgg c d i r o l hc ho => intro _ _; rw [toks, ← List.cons_append, ← List.cons_append]; exact close
  | filtered c w hc hw => intro _ _; rw [toks, ← List.cons_append, ← List.cons_append, ← List.append_assoc]; exact close
  | frame r f =>
    intro h _
    simp only [wf, Bool.and_eq_true, decide_eq_true_eq] at h
    refine LastOk.cons ((by decide : ∀ r ∈ [str!"rows", str!"range"], caps r ≠ str!";") r h.1) fun k hk => ?_
    obtain ⟨w, hw, rfl⟩ := List.mem_map.1 (List.mem_of_getLast? hk)
    exact frame_semi (List.all_eq_true.1 h.2 w hw)
  | analytics f part o fr hf hp ho hfr => intro _ _; rw [toks, ← List.cons_append, ← List.cons_append, ← List.append_assoc]; exact close
  | datePart part e ih =>
    intro h _
    simp only [wf, Bool.and_eq_true, decide_eq_true_eq] at h
    exact LastOk.cons ((by decide : ∀ q ∈ dateParts, caps q ≠ str!";") part h.1.1) (LastOk.cons (by decide) (ih h.2 (ended_level (by omega))))
  | except_ e args he ih => intro _ _; rw [toks, ← List.cons_append, ← List.cons_append, ← List.append_assoc]; exact close
  | replace e args he ih => intro _ _; rw [toks, ← List.cons_append, ← List.cons_append, ← List.append_assoc]; exact close
  | bitwise l op r hl hr =>
    intro h _
    simp only [wf, Bool.and_eq_true, decide_eq_true_eq] at h
    exact LastOk.append (hl h.1.2 (ended_level (by omega)))
      (LastOk.cons ((by decide : ∀ q ∈ bitOperators, q ≠ str!";") op h.1.1.1.1) (hr h.2 (ended_level (by omega))))
  | arith op l r hl hr =>
    intro h _
    simp only [wf, Bool.and_eq_true, decide_eq_true_eq] at h
    exact LastOk.append (hl h.1.2 (ended_level (by omega)))
      (LastOk.cons ((by decide : ∀ q ∈ arithSymbols, q ≠ str!";") op h.1.1.1.1) (hr h.2 (ended_level (by omega))))
  | neg e ih =>
    intro h _
    simp only [wf, Bool.and_eq_true, decide_eq_true_eq] at h
    exact LastOk.cons (by decide) (ih h.2 (ended_level (by omega)))
  | cond l p r hl hr =>
    intro h _
    simp only [wf, Bool.and_eq_true, decide_eq_true_eq] at h
    obtain ⟨⟨⟨h1, h2⟩, h3⟩, h4⟩ := h
    have hr' : ended r = false := by
      split at h4
      · exact ended_of h4 (fun _ _ _ _ _ _ _ _ _ _ _ _ => rfl) fun _ _ => rfl
      · simp only [Bool.and_eq_true, decide_eq_true_eq] at h4
        exact ended_level (by omega)
    have hne : toks r ≠ [] := by
      refine toks_ne h3 ?_
      split at h4
      · cases r <;> first | exact absurd h4 Bool.false_ne_true | exact (by decide : 3 ≤ 4)
      · simp only [Bool.and_eq_true, decide_eq_true_eq] at h4
        omega
    exact LastOk.after (hr h3 hr') hne
  | boolc p l r hl hr =>
    intro h _
    simp only [wf, Bool.and_eq_true, decide_eq_true_eq] at h
    obtain ⟨⟨⟨⟨h1, h2⟩, h3⟩, h4⟩, h5⟩ := h
    rw [toks, List.append_cons]
    exact LastOk.after (hr h5 (ended_level (by omega))) (toks_ne h5 (by omega))
  | whenThen w t hw ht =>
    intro h _
    simp only [wf, Bool.and_eq_true, decide_eq_true_eq] at h
    refine LastOk.after (LastOk.cons (by decide) (ht h.2 (ended_level (by omega)))) (by simp)
  | case o ws e ho hws he =>
    intro _ _
    rw [toks, ← List.cons_append]
    exact LastOk.after (last_one (by decide)) (by simp)
  | «alias» e al w he hal =>
    intro h _
    simp only [wf, Bool.and_eq_true, Bool.or_eq_true, decide_eq_true_eq] at h
    have : ended al = false ∧ toks al ≠ [] := by
      rcases h.1.1 with h | h
      · exact alias_last h.2
      · exact raw_last h.2
    exact LastOk.after (hal h.2 this.1) this.2
  | table v sq ih =>
    intro h _
    obtain ⟨-, h1, h2⟩ := table_level h
    cases sq with
    | false => exact ih h1 (ended_level h2)
    | true => exact (last_one (by decide)).after (a := .lit str!"[" :: toks v) (by simp)
  | on e ih =>
    intro h _
    simp only [wf, Bool.and_eq_true, decide_eq_true_eq] at h
    exact LastOk.cons (by decide) (ih h.2 (ended_level (by omega)))
  | using_ e ih =>
    intro h _
    simp only [wf, Bool.and_eq_true, decide_eq_true_eq] at h
    exact LastOk.cons (by decide) (ih h.2 (ended_level (by omega)))
  | where_ e ih =>
    intro h _
    simp only [wf, Bool.and_eq_true, decide_eq_true_eq] at h
    exact LastOk.cons (by decide) (ih h.2 (ended_level (by omega)))
  | having e ih =>
    intro h _
    simp only [wf, Bool.and_eq_true, decide_eq_true_eq] at h
    exact LastOk.cons (by decide) (ih h.2 (ended_level (by omega)))
  | join type l r on us hl hr hon hus =>
    intro h _
    simp only [wf, Bool.and_eq_true, Bool.or_eq_true, decide_eq_true_eq, Bool.not_eq_true'] at h
    obtain ⟨⟨⟨⟨⟨h1, h2⟩, h3⟩, h4⟩, h5⟩, h6⟩ := h
    have e1 : ended l = false := ended_of h1 (fun _ _ _ _ _ _ _ _ _ _ _ _ => rfl) fun _ _ => rfl
    have e2 : ended r = false := by
      rcases h6 with h | h
      · exact ended_of h.1.2 (fun _ _ _ _ _ _ _ _ _ _ _ _ => rfl) fun _ _ => rfl
      · exact ended_of h.1.1.2 (fun _ _ _ _ _ _ _ _ _ _ _ _ => rfl) fun _ _ => rfl
    have e3 : ended on = false := by
      rcases h6 with ⟨-, (h | h) | h⟩ | h
      · exact ended_of h.1 (fun _ _ _ _ _ _ _ _ _ _ _ _ => rfl) fun _ _ => rfl
      · exact ended_falsy h.1
      · exact ended_falsy h.1
      · exact ended_falsy h.1.2
    have e4 : ended us = false := by
      rcases h6 with ⟨-, (h | h) | h⟩ | h
      · exact ended_falsy h.2
      · exact ended_of h.2 (fun _ _ _ _ _ _ _ _ _ _ _ _ => rfl) fun _ _ => rfl
      · exact ended_falsy h.2
      · exact ended_falsy h.2
    exact ((((hl h2 e1).append (last_joinToks (h6.imp (·.1.1) (·.1.1.1)))).append (hr h3 e2)).append (hon h4 e3)).append (hus h5 e4)
  | groupBy args rollup each ih =>
    intro h _
    simp only [wf, Bool.and_eq_true, decide_eq_true_eq] at h
    exact LastOk.cons (by decide) (LastOk.append (LastOk.opt (last_one (by decide))) (LastOk.cons (by decide)
      (LastOk.append (LastOk.opt (last_one (by decide))) (last_list fun n hn => ih n hn (wfList_mem h.2 n hn)
        (ended_level (Nat.le_trans (levels_le.1 h.1.2 n hn) (by omega)))))))
  | orderItem v asc desc ih =>
    intro h _
    simp only [wf, Bool.and_eq_true, decide_eq_true_eq] at h
    exact ((ih h.2 (ended_level (by omega))).append (LastOk.opt (last_one (by decide)))).append (LastOk.opt (last_one (by decide)))
  | orderBy args ih =>
    intro h _
    simp only [wf, Bool.and_eq_true] at h
    exact LastOk.cons (by decide) (LastOk.cons (by decide) (last_list fun n hn => ih n hn (wfList_mem h.2 n hn)
      (ended_of (List.all_eq_true.1 h.1.2 n hn) (fun _ _ _ _ _ _ _ _ _ _ _ _ => rfl) fun _ _ => rfl)))
  | limit all v ih =>
    intro h _
    simp only [wf, Bool.and_eq_true] at h
    refine LastOk.cons (by decide) (LastOk.append (LastOk.opt (last_one (by decide))) (ih h.2 ?_))
    cases all with
    | true =>
      refine ended_falsy ?_
      simpa using h.1
    | false => exact ended_level (by have := h.1; simp at this; omega)
  | offset v ih =>
    intro h _
    simp only [wf, Bool.and_eq_true, decide_eq_true_eq] at h
    exact LastOk.cons (by decide) (ih h.2 (ended_level (by omega)))
  | select es all d on f w g h o l off semi ies ion ief iw ig ih io il ioff =>
    intro hw he
    obtain rfl : semi = false := he
    simp only [wf, Bool.and_eq_true, decide_eq_true_eq] at hw
    obtain ⟨⟨⟨⟨⟨⟨⟨⟨⟨⟨⟨⟨⟨⟨⟨⟨⟨⟨⟨⟨-, l1⟩, w1⟩, -⟩, -⟩, l2⟩, w2⟩, n3⟩, w3⟩, n4⟩, w4⟩, n5⟩, w5⟩, n6⟩, w6⟩, n7⟩, w7⟩, n8⟩, w8⟩, n9⟩, w9⟩ := hw
    have m1 : LastOk (toksList es) := last_list fun n hn => ies n hn (wfList_mem w1 n hn) (ended_level (levels_le.1 l1 n hn))
    have c3 := ief w3 (ended_orNone n3 (fun _ _ _ _ _ _ _ _ _ _ _ _ => rfl) fun _ _ => rfl)
    have c4 := iw w4 (ended_orNone n4 (fun _ _ _ _ _ _ _ _ _ _ _ _ => rfl) fun _ _ => rfl)
    have c5 := ig w5 (ended_orNone n5 (fun _ _ _ _ _ _ _ _ _ _ _ _ => rfl) fun _ _ => rfl)
    have c6 := ih w6 (ended_orNone n6 (fun _ _ _ _ _ _ _ _ _ _ _ _ => rfl) fun _ _ => rfl)
    have c7 := io w7 (ended_orNone n7 (fun _ _ _ _ _ _ _ _ _ _ _ _ => rfl) fun _ _ => rfl)
    have c8 := il w8 (ended_orNone n8 (fun _ _ _ _ _ _ _ _ _ _ _ _ => rfl) fun _ _ => rfl)
    have c9 := ioff w9 (ended_orNone n9 (fun _ _ _ _ _ _ _ _ _ _ _ _ => rfl) fun _ _ => rfl)
    have c2 : LastOk (Tok.kw str!"on" :: .lit str!"(" :: (toksList on ++ [.lit str!")"])) := by
      rw [← List.cons_append, ← List.cons_append]; exact close
    exact LastOk.cons (by decide) (((((((((((((LastOk.opt (last_one (by decide))).append (LastOk.opt (last_one (by decide)))).append
      c2.opt).append m1).append (LastOk.opt (LastOk.cons (by decide) c3))).append c4).append c5).append c6).append c7).append c8).append c9).append
      last_nil))
  | withQuery name q ih => intro _ _; rw [toks, ← List.cons_append, ← List.cons_append, ← List.cons_append]; exact close
  | withStmt qs s ihq ihs =>
    intro h he
    simp only [wf, Bool.and_eq_true] at h
    refine LastOk.cons (by decide) (LastOk.after (ihs h.2 he) ?_)
    cases s <;> first | exact absurd h.1.2 Bool.false_ne_true | simp [toks]
  | unnest v o oa al ih =>
    intro h _
    simp only [wf, Bool.and_eq_true] at h
    refine LastOk.append (ih h.1.2 (ended_of h.1.1 (fun _ _ _ _ _ _ _ _ _ _ _ _ => rfl) fun _ _ => rfl))
      (LastOk.opt (LastOk.cons (by decide) (LastOk.cons (by decide) ?_)))
    cases al with
    | none => exact last_nil
    | some a =>
      simp only [Bool.and_eq_true] at h
      exact LastOk.append (LastOk.opt (last_one (by decide))) (last_one (ident_semi h.2.2))
  | combined op l r hl hr =>
    intro h _
    simp only [wf, Bool.and_eq_true, Bool.or_eq_true, decide_eq_true_eq] at h
    obtain ⟨⟨⟨⟨h1, h2⟩, h3⟩, h4⟩, h5⟩ := h
    have e1 : ended l = false := h2.elim (ended_of · (fun _ _ _ _ _ _ _ _ _ _ _ _ => rfl) fun _ _ => rfl)
      (ended_of · (fun _ _ _ _ _ _ _ _ _ _ _ _ => rfl) fun _ _ => rfl)
    have e2 : ended r = false := by
      rcases h3 with h | h
      · exact ended_of h (fun _ _ _ _ _ _ _ _ _ _ _ _ => rfl) fun _ _ => rfl
      · cases r <;> first | rfl | exact absurd h Bool.false_ne_true | skip
        simp only [isBare, Bool.and_eq_true, Bool.not_eq_true'] at h
        exact h.2
    have e3 : LastOk (setToks op) := fun k hk =>
      (by decide : ∀ t ∈ setOps.map (·.1), ∀ k ∈ setToks t, k.canon ≠ str!";") op h1 k (List.mem_of_getLast? hk)
    exact ((hl h4 e1).append e3).append (hr h5 e2)

/-! ### The last character -/

/-- Outside literals, or in a literal opened by a quote. -/
def Mode.Ok : Mode → Prop
  | .out _ => True
  | .lit q _ => isQuote q = true

/-- Where the lexer is after a text. -/
theorem go_after (s : Str) : ∀ m : Mode, Mode.Ok m → ∃ X m', Mode.Ok m' ∧ ∀ rest, go m (s ++ rest) = X ++ go m' rest := by
  induction s with
  | nil => exact fun m hm => ⟨[], m, hm, fun _ => rfl⟩
  | cons c s ih =>
    intro m hm
    cases m with
    | out u =>
      by_cases h1 : isQuote c = true
      · obtain ⟨X, m', ok, h⟩ := ih (.lit c []) h1
        refine ⟨chunk u ++ [c] :: X, m', ok, fun rest => ?_⟩
        rw [List.cons_append, go, if_pos h1, h]; simp
      by_cases h2 : isBlank c = true
      · obtain ⟨X, m', ok, h⟩ := ih (.out []) trivial
        refine ⟨chunk u ++ X, m', ok, fun rest => ?_⟩
        rw [List.cons_append, go, if_neg h1, if_pos h2, h]; simp
      by_cases h3 : isPunct c = true
      · obtain ⟨X, m', ok, h⟩ := ih (.out []) trivial
        refine ⟨chunk u ++ [c] :: X, m', ok, fun rest => ?_⟩
        rw [List.cons_append, go, if_neg h1, if_neg h2, if_pos h3, h]; simp
      · obtain ⟨X, m', ok, h⟩ := ih (.out (u ++ [c])) trivial
        exact ⟨X, m', ok, fun rest => by rw [List.cons_append, go, if_neg h1, if_neg h2, if_neg h3, h]⟩
    | lit q v =>
      by_cases h1 : c = q ∧ (!endsEsc v) = true
      · obtain ⟨X, m', ok, h⟩ := ih (.out []) trivial
        refine ⟨tok v ++ [q] :: X, m', ok, fun rest => ?_⟩
        rw [List.cons_append, go, if_pos h1, h]; simp
      · obtain ⟨X, m', ok, h⟩ := ih (.lit q (v ++ [c])) hm
        exact ⟨X, m', ok, fun rest => by rw [List.cons_append, go, if_neg h1, h]⟩

/-- A line that ends in a semicolon has it as its last token. -/
theorem Line.last_semi {s : Str} {l : List Str} (h : Line (s ++ str!";") l) : l.getLast? = some str!";" := by
  obtain ⟨X, m, ok, hm⟩ := go_after s (.out []) trivial
  have h0 := h.toks [] sep_nil
  have h1 := h.toks str!"," (sep_cons (by decide))
  rw [List.append_assoc, hm] at h0 h1
  have hc : go (.out []) str!"," = [str!","] := by simp [go, isQuote, isBlank, isPunct, chunk_nil]
  have hn : go (.out []) [] = [] := chunk_nil
  rw [hc] at h1
  rw [hn] at h0
  cases m with
  | out u =>
    have : go (.out u) str!";" = chunk u ++ [str!";"] := by simp [go, isQuote, isBlank, isPunct, chunk_nil]
    rw [List.append_nil, List.append_nil, this] at h0
    rw [← h0, ← List.append_assoc]
    simp
  | lit q v =>
    exfalso
    have ok : isQuote q = true := ok
    have n1 : ¬ (';' = q ∧ (!endsEsc v) = true) := by
      rintro ⟨rfl, -⟩
      exact absurd ok (by decide)
    have n2 : ¬ (',' = q ∧ (!endsEsc (v ++ [';'])) = true) := by
      rintro ⟨rfl, -⟩
      exact absurd ok (by decide)
    have t : ∀ (a : Str) (c : Char), (tok (a ++ [c])).length = 1 := by
      intro a c
      cases a <;> rfl
    have e0 := congrArg List.length h0
    have e1 := congrArg List.length h1
    simp only [List.append_nil, go, if_neg n1, List.length_append, t] at e0
    simp only [List.singleton_append, go, if_neg n1, if_neg n2, List.length_append, t, List.length_singleton] at e1
    omega

theorem operate_last {l : List Str} (h : l.getLast? = some str!";") : (operate l).getLast? = some str!";" := by
  have : ∀ k (l : List Str), l.length ≤ k → l.getLast? = some str!";" → (operate l).getLast? = some str!";" := by
    intro k
    induction k with
    | zero =>
      intro l hl h
      cases l with
      | nil => simp at h
      | cons => simp at hl
    | succ k ih =>
      intro l hl h
      match l with
      | [] => simp at h
      | [a] => exact h
      | a :: b :: l =>
        rw [List.getLast?_cons_cons] at h
        rw [operate]
        split
        · rename_i ho
          cases l with
          | nil =>
            simp only [List.getLast?_singleton, Option.some.injEq] at h
            subst h
            have key : ∀ o ∈ operators, ';' ∉ o := by decide
            exact absurd (by simp) (key _ ho)
          | cons c l =>
            rw [List.getLast?_cons_cons] at h
            have := ih (c :: l) (by simp at hl ⊢; omega) h
            rw [List.getLast?_cons, this]
            rfl
        · have := ih (b :: l) (by simp at hl ⊢; omega) h
          rw [List.getLast?_cons, this]
          rfl
  exact this _ l (Nat.le_refl _) h

theorem toks_ne_core {n : Node} (hc : core n = true) : toks n ≠ [] := by
  simp only [core, Bool.and_eq_true] at hc
  replace hc := hc.1
  cases n <;> first | exact absurd hc.2 Bool.false_ne_true | simp [toks]

/-- The last character is a semicolon if the statement has one. -/
theorem layout_ended {n : Node} (hc : core n = true) (he : ended n = true) : ∃ s, layout n = s ++ str!";" := by
  have hw : wf n = true := by
    simp only [core, Bool.and_eq_true] at hc
    replace hc := hc.1
    exact hc.1
  have key : ∀ n : Node, wf n = true → n.isSelect = true → ended n = true → ∃ s, Doc.text (lay n .plain) = s ++ str!";" := by
    intro n hw hs he
    cases n <;> first | exact absurd hs Bool.false_ne_true | skip
    rename_i es all d on f w g h o l off semi
    obtain rfl : semi = true := he
    have hsolid : Solid (lay (.select es all d on f w g h o l off false) .plain) :=
      solid_lay (.select es all d on f w g h o l off false) (by rw [← hw]; simp only [wf]) (by simp) .plain
    refine ⟨Doc.text (lay (.select es all d on f w g h o l off false) .plain), ?_⟩
    have : lay (.select es all d on f w g h o l off true) .plain = lay (.select es all d on f w g h o l off false) .plain <+> [str!";"] := by
      rw [lay, lay]; rfl
    rw [this, text_beside hsolid.1 (by simp)]
    rfl
  cases n <;> first | exact absurd he Bool.false_ne_true | skip
  · exact key _ hw rfl he
  · rename_i qs s
    simp only [wf, Bool.and_eq_true] at hw
    obtain ⟨t, ht⟩ := key s hw.2 hw.1.2 he
    have hs : Solid (lay s .plain) := solid_lay s hw.2 (isSelect_ne hw.1.2) .plain
    rw [layout, lay]
    change ∃ s_1, Doc.text (_ ++ lay s .plain) = _
    rw [text_append (beside_ne (by simp)) hs.1, ht]
    exact ⟨([str!"WITH "] <+> stacked ((layList qs).map (· .plain))).text ++ '\n' :: t, by simp⟩

/-- The last character is a semicolon exactly if the statement has one. -/
theorem layout_last {n : Node} (hc : core n = true) : (∃ s, layout n = s ++ str!";") ↔ ended n = true := by
  refine ⟨?_, layout_ended hc⟩
  rintro ⟨s, hs⟩
  have hw : wf n = true := by
    simp only [core, Bool.and_eq_true] at hc
    replace hc := hc.1
    exact hc.1
  obtain ⟨l, ts, h1, h2, h3⟩ := (lx n hw).plain
  have hd : lay n .plain ≠ [] := by
    intro h
    rw [h] at h1
    cases h1
    exact h2.ne_nil h3 (toks_ne_core hc) rfl
  have ht := h1.text hd
  rw [show Doc.text (lay n .plain) = s ++ str!";" from hs] at ht
  have := operate_last ht.last_semi
  rw [h2.ops, h3.2, List.getLast?_map] at this
  cases he : ended n with
  | true => rfl
  | false =>
    exfalso
    cases hk : (toks n).getLast? with
    | none => rw [hk] at this; simp at this
    | some k =>
      rw [hk] at this
      simp only [Option.map_some, Option.some.injEq] at this
      exact last_toks n hw he k hk this

end

end SqlV.Core
