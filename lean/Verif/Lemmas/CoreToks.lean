import Verif.Lemmas.CoreTame

/-! Single tokens of the trees of the core grammar. -/

set_option linter.unusedSectionVars false

namespace SqlV.Core

open Scan Lex

/-- A keyword. -/
def okKw : Tok → Bool
  | .kw w => !w.isEmpty && w.all isAscii
  | _ => false

variable [E : PyEnv]

/-- No token is empty, CASE and TIMESTAMP_TRUNC are keywords. -/
def okTok : Tok → Bool
  | .kw w => !w.isEmpty && w.all isAscii
  | .lit s => !s.isEmpty && decide (lower s ∉ [str!"timestamp_trunc", str!"case"])
  | .num _ => true

section
variable [L : LawfulPyEnv E]

theorem okTok_reads {k : Tok} {t : Str} (h : okTok k = true) (hr : k.reads t) :
    t ≠ [] := by
  cases k with
  | kw w =>
    simp only [okTok, Bool.and_eq_true, Bool.not_eq_true'] at h
    rintro rfl
    rw [reads_kw, List.map_nil] at hr
    subst hr
    simp at h
  | lit s =>
    rw [reads_lit] at hr
    subst hr
    simp only [okTok, Bool.and_eq_true, Bool.not_eq_true', decide_eq_true_eq] at h
    rintro rfl
    simp at h
  | num n => exact hr.1

/-- The token CASE is the keyword. -/
theorem okTok_case {k : Tok} {t : Str} (h : okTok k = true) (hr : k.reads t) (hc : lower t = str!"case") :
    k = .kw str!"case" := by
  cases k with
  | kw w =>
    simp only [okTok, Bool.and_eq_true, Bool.not_eq_true'] at h
    rw [lower_kw hr h.2] at hc
    rw [hc]
  | lit s =>
    rw [reads_lit] at hr
    subst hr
    simp only [okTok, Bool.and_eq_true, Bool.not_eq_true', decide_eq_true_eq] at h
    exact absurd (by simp [hc]) h.2
  | num n =>
    obtain ⟨h1, h2, -, -⟩ := hr
    obtain ⟨ha, hl⟩ := digit_lower h2
    rw [lower_self ha hl] at hc
    subst hc
    exact absurd h2 (by decide)

theorem okTok_kw {k : Tok} (h : okKw k = true) : okTok k = true := by
  cases k <;> first | exact h | simp [okKw] at h

theorem okTok_ident {s : Str} (h : ident s = true) : okTok (.lit s) = true := by
  simp only [ident, Bool.and_eq_true, decide_eq_true_eq, Bool.not_eq_true'] at h
  obtain ⟨⟨⟨⟨⟨h1, h2⟩, h3⟩, h4⟩, -⟩, -⟩ := h
  simp only [okTok, Bool.and_eq_true, Bool.not_eq_true', decide_eq_true_eq]
  refine ⟨h1, fun he => h4 ?_⟩
  have : ∀ w ∈ [str!"timestamp_trunc", str!"case"], w ∈ reserved := by decide
  exact this _ he

theorem okTok_fname {s : Str} (h : fname s = true) : okTok (.kw s) = true := by
  simp only [fname, Bool.and_eq_true, decide_eq_true_eq] at h
  obtain ⟨⟨h1, h2⟩, h3⟩ := h
  have := okTok_ident h1
  simp only [okTok, Bool.and_eq_true, Bool.not_eq_true', decide_eq_true_eq] at this ⊢
  rw [lower_self h2 h3] at this
  exact ⟨this.1, h2⟩

theorem cname_or {s : Str} (h : cname s = true) : fname s = true ∨ s ∈ outerCalls ++ innerCalls := by
  simpa only [cname, Bool.or_eq_true, decide_eq_true_eq] using h

theorem okTok_cname {s : Str} (h : cname s = true) : okTok (.kw s) = true := by
  rcases cname_or h with h | h
  · exact okTok_fname h
  · exact okTok_kw ((by decide : ∀ w ∈ outerCalls ++ innerCalls, okKw (.kw w) = true) s h)

theorem okTok_lit {s : Str} (h : (!s.isEmpty && s.all isAscii && decide (s.map Char.toLower = s) &&
    decide (s ∉ [str!"timestamp_trunc", str!"case"])) = true) : okTok (.lit s) = true := by
  simp only [Bool.and_eq_true, Bool.not_eq_true', decide_eq_true_eq] at h
  obtain ⟨⟨⟨h1, h2⟩, h3⟩, h4⟩ := h
  simp only [okTok, Bool.and_eq_true, Bool.not_eq_true', decide_eq_true_eq]
  exact ⟨h1, by rw [lower_self h2 h3]; exact h4⟩

/-- Every token satisfies `okTok`. -/
abbrev Oks (l : List Tok) : Prop := ∀ k ∈ l, okTok k = true

theorem oks_nil : Oks [] := by simp [Oks]
theorem oks_cons {k : Tok} {l : List Tok} (h1 : okTok k = true) (h2 : Oks l) : Oks (k :: l) := by
  intro m hm
  rcases List.mem_cons.1 hm with rfl | hm
  · exact h1
  · exact h2 m hm
theorem oks_append {a b : List Tok} (h1 : Oks a) (h2 : Oks b) : Oks (a ++ b) := by
  intro m hm
  rcases List.mem_append.1 hm with hm | hm
  · exact h1 m hm
  · exact h2 m hm
theorem oks_opt {b : Bool} {l : List Tok} (h : Oks l) : Oks (opt b l) := by
  unfold opt; split
  · exact h
  · exact oks_nil
theorem oks_list {ns : List Node} (h : ∀ n ∈ ns, Oks (toks n)) : Oks (toksList ns) := by
  induction ns with
  | nil => exact oks_nil
  | cons n ns ih =>
    cases ns with
    | nil => exact h n (by simp)
    | cons m ns =>
      rw [toksList]
      · exact oks_append (h n (by simp)) (oks_cons (okTok_lit (by decide)) (ih fun k hk => h k (by simp [hk])))
      · simp
theorem oks_seq {ns : List Node} (h : ∀ n ∈ ns, Oks (toks n)) : Oks (toksSeq ns) := by
  induction ns with
  | nil => exact oks_nil
  | cons n ns ih => exact oks_append (h n (by simp)) (ih fun k hk => h k (by simp [hk]))

theorem oks_parens {l : List Tok} (h : Oks l) : Oks (.lit str!"(" :: (l ++ [.lit str!")"])) :=
  oks_cons (okTok_lit (by decide)) (oks_append h (oks_cons (okTok_lit (by decide)) oks_nil))

theorem oks_squares {l : List Tok} (h : Oks l) : Oks (.lit str!"[" :: (l ++ [.lit str!"]"])) :=
  oks_cons (okTok_lit (by decide)) (oks_append h (oks_cons (okTok_lit (by decide)) oks_nil))

theorem oks_limit (l : Option Int) : Oks (limitToks l) := by
  cases l with
  | none => exact oks_nil
  | some i => exact oks_cons (okTok_kw (by decide)) (oks_cons rfl oks_nil)

theorem oks_frame {ws : List Str} (h : ws.all frameWord = true) : Oks (ws.map .kw) := by
  intro k hk
  obtain ⟨w, hw, rfl⟩ := List.mem_map.1 hk
  have h1 := List.all_eq_true.1 h w hw
  have h2 := (frameWord_plain h1).1
  simp only [frameWord, Bool.or_eq_true, decide_eq_true_eq, Bool.and_eq_true] at h1
  rcases h1 with h1 | ⟨h1, -⟩
  · exact okTok_kw ((by decide : ∀ w ∈ frameWords, okKw (.kw w) = true) w h1)
  · simp only [okTok, Bool.and_eq_true]
    exact ⟨h1, h2⟩

theorem oks (n : Node) : wf n = true → Oks (toks n) := by
  have kw : ∀ {w : Str}, okTok (.kw w) = true → Oks [.kw w] := fun h => oks_cons h oks_nil
  induction n using Node.rec (motive_2 := fun ns => ∀ n ∈ ns, wf n = true → Oks (toks n)) with
  | nil => rename_i h _; cases h
  | cons n ns h1 h2 =>
    rename_i m hm hw
    rcases List.mem_cons.1 hm with rfl | hm
    · exact h1 hw
    · exact h2 m hm hw
  | none => intro _; exact oks_nil
  | raw s => intro h; exact oks_cons (okTok_ident h) oks_nil
  | column s =>
    intro h
    simp only [wf, Bool.or_eq_true, decide_eq_true_eq] at h
    rcases h with h | rfl
    · exact oks_cons (okTok_ident h) oks_nil
    · exact oks_cons (okTok_lit (by decide)) oks_nil
  | chained l r hl hr =>
    intro h
    simp only [wf, Bool.and_eq_true] at h
    exact oks_append (hl h.1.2) (oks_cons (okTok_lit (by decide)) (hr h.2))
  | int i => intro _; exact oks_append (oks_opt (oks_cons (okTok_lit (by decide)) oks_nil)) (oks_cons rfl oks_nil)
  | string v q pre =>
    intro h
    simp only [wf, Bool.and_eq_true, decide_eq_true_eq] at h
    have hq : okTok (.lit q) = true := by
      have : ∀ q ∈ quotes, (!q.isEmpty && q.all isAscii && decide (q.map Char.toLower = q) &&
        decide (q ∉ [str!"timestamp_trunc", str!"case"])) = true := by decide
      exact okTok_lit (this q h.1.2)
    have key : Oks (.lit q :: (if v = [] then [] else [.lit v]) ++ [.lit q]) := ?_
    · cases pre with
      | none => exact key
      | some p => 
        have h0 := h.1.1
        simp only [decide_eq_true_eq] at h0
        refine oks_cons ?_ key
        simp only [okTok, prefix_lower h0, Bool.and_eq_true, Bool.not_eq_true', decide_eq_true_eq]
        refine ⟨?_, by decide⟩
        cases p with
        | nil => exact absurd h0 (by decide)
        | cons => rfl
    refine oks_append (oks_cons hq ?_) (oks_cons hq oks_nil)
    split
    · exact oks_nil
    · rename_i hv
      refine oks_cons ?_ oks_nil
      have h2 := h.2
      simp only [content, Bool.and_eq_true, decide_eq_true_eq] at h2
      simp only [okTok, Bool.and_eq_true, Bool.not_eq_true', decide_eq_true_eq]
      refine ⟨by simpa using hv, fun he => ?_⟩
      simp only [List.mem_cons, List.not_mem_nil, or_false] at he
      rcases he with he | he
      · exact h2.2 (by simp [he])
      · have := h2.1.2
        simp [Scan.isDelim, he] at this
  | float r =>
    intro h
    have key : ∀ s, isDecimal s = true → Oks [.lit s] := fun s h => by
      refine oks_cons ?_ oks_nil
      obtain ⟨h1, -, h2, -⟩ := decimal_lower h
      simp only [okTok, h2, Bool.and_eq_true, Bool.not_eq_true', decide_eq_true_eq]
      exact ⟨by simpa using h1, decimal_not h (by decide)⟩
    rcases float_cases h with ⟨h, -, ht⟩ | ⟨s, rfl, h, -, ht⟩ <;> rw [ht]
    · exact key _ h
    · exact oks_cons (okTok_lit (by decide)) (key _ h)
  | null => intro _; exact kw (okTok_kw (by decide))
  | bool b => intro _; cases b <;> exact kw (okTok_kw (by decide))
  | type v => intro h; exact kw (okTok_fname h)
  | func f args ih =>
    intro h
    simp only [wf, Bool.and_eq_true] at h
    exact oks_cons (okTok_cname h.1.1.1) (oks_parens (oks_list fun n hn => ih n hn (wfList_iff.1 h.2 n hn)))
  | count args d ih =>
    intro h
    simp only [wf, Bool.and_eq_true] at h
    exact oks_cons (okTok_kw (by decide)) (oks_parens (oks_append (oks_opt (kw (okTok_kw (by decide))))
      (oks_list fun n hn => ih n hn (wfList_iff.1 h.2 n hn))))
  | cast c t hc ht =>
    intro h
    simp only [wf, Bool.and_eq_true] at h
    exact oks_cons (okTok_kw (by decide)) (oks_parens (oks_append (hc h.1.2) (oks_cons (okTok_kw (by decide)) (ht h.2))))
  | paren args ih =>
    intro h
    simp only [wf, Bool.and_eq_true] at h
    exact oks_parens (oks_list fun n hn => ih n hn (wfList_iff.1 h.2 n hn))
  | array args ih =>
    intro h
    simp only [wf, Bool.and_eq_true] at h
    exact oks_squares (oks_list fun n hn => ih n hn (wfList_iff.1 h.2 n hn))
  | index e is he ih =>
    intro h
    simp only [wf, Bool.and_eq_true] at h
    exact oks_append (he h.1.2) (oks_squares (oks_list fun n hn => ih n hn (wfList_iff.1 h.2 n hn)))
  | arrayAgg c d ig resp o l hc ho =>
    intro h
    simp only [wf, Bool.and_eq_true] at h
    obtain ⟨⟨⟨⟨⟨⟨-, h1⟩, -⟩, -⟩, -⟩, h2⟩, -⟩ := h
    exact oks_cons (okTok_kw (by decide)) (oks_parens (oks_append (oks_append (oks_append (oks_append
      (oks_opt (kw (okTok_kw (by decide)))) (hc h1))
      (oks_opt (oks_cons (okTok_kw (by decide)) (kw (okTok_kw (by decide)))))) (ho h2)) (oks_limit l)))
  | filtered c w hc hw =>
    intro h
    simp only [wf, Bool.and_eq_true] at h
    exact oks_append (hc h.1.2) (oks_cons (okTok_kw (by decide)) (oks_parens
      (oks_cons (okTok_kw (by decide)) (hw h.2))))
  | frame r f =>
    intro h
    simp only [wf, Bool.and_eq_true, decide_eq_true_eq] at h
    exact oks_cons (okTok_kw ((by decide : ∀ r ∈ [str!"rows", str!"range"], okKw (.kw r) = true) r h.1))
      (oks_frame h.2)
  | analytics f part o fr hf hp ho hfr =>
    intro h
    simp only [wf, Bool.and_eq_true] at h
    obtain ⟨⟨⟨⟨⟨⟨⟨⟨⟨-, h2⟩, -⟩, h3⟩, -⟩, -⟩, h4⟩, -⟩, -⟩, h5⟩ := h
    exact oks_append (hf h2) (oks_cons (okTok_kw (by decide)) (oks_parens (oks_append (oks_append
      (oks_opt (oks_cons (okTok_kw (by decide)) (oks_cons (okTok_kw (by decide))
        (oks_list fun n hn => hp n hn (wfList_iff.1 h3 n hn))))) (ho h4)) (hfr h5))))
  | datePart part e he =>
    intro h
    simp only [wf, Bool.and_eq_true, decide_eq_true_eq] at h
    exact oks_cons (okTok_kw ((by decide : ∀ r ∈ dateParts, okKw (.kw r) = true) _ h.1.1))
      (oks_cons (okTok_kw (by decide)) (he h.2))
  | except_ e args he ih =>
    intro h
    simp only [wf, Bool.and_eq_true] at h
    exact oks_append (he h.1.2) (oks_cons (okTok_kw (by decide)) (oks_parens
      (oks_list fun n hn => ih n hn (wfList_iff.1 h.2 n hn))))
  | replace e args he ih =>
    intro h
    simp only [wf, Bool.and_eq_true] at h
    exact oks_append (he h.1.2) (oks_cons (okTok_kw (by decide)) (oks_parens
      (oks_list fun n hn => ih n hn (wfList_iff.1 h.2 n hn))))
  | bitwise l op r hl hr =>
    intro h
    simp only [wf, Bool.and_eq_true, decide_eq_true_eq] at h
    obtain ⟨⟨⟨⟨h1, -⟩, -⟩, h4⟩, h5⟩ := h
    have : ∀ q ∈ bitOperators, (!q.isEmpty && q.all isAscii && decide (q.map Char.toLower = q) &&
        decide (q ∉ [str!"timestamp_trunc", str!"case"])) = true := by decide
    exact oks_append (hl h4) (oks_cons (okTok_lit (this _ h1)) (hr h5))
  | arith op l r hl hr =>
    intro h
    simp only [wf, Bool.and_eq_true, decide_eq_true_eq] at h
    obtain ⟨⟨⟨⟨h1, -⟩, -⟩, h4⟩, h5⟩ := h
    have : ∀ q ∈ arithSymbols, (!q.isEmpty && q.all isAscii && decide (q.map Char.toLower = q) &&
        decide (q ∉ [str!"timestamp_trunc", str!"case"])) = true := by decide
    exact oks_append (hl h4) (oks_cons (okTok_lit (this _ h1)) (hr h5))
  | neg e ih =>
    intro h
    simp only [wf, Bool.and_eq_true] at h
    exact oks_cons (okTok_kw (by decide)) (ih h.2)
  | cond l p r hl hr =>
    intro h
    simp only [wf, Bool.and_eq_true, decide_eq_true_eq] at h
    obtain ⟨⟨⟨-, h2⟩, h3⟩, h4⟩ := h
    have hp : p ∈ str!"between" :: corePreds := by
      split at h4
      · subst p; simp
      · simp only [Bool.and_eq_true, decide_eq_true_eq] at h4
        simp [h4.1.1]
    have : ∀ p ∈ str!"between" :: corePreds, ∀ k ∈ predToks p, okKw k = true := by decide
    exact oks_append (oks_append (hl h2) fun k hk => okTok_kw (this p hp k hk)) (hr h3)
  | boolc p l r hl hr =>
    intro h
    simp only [wf, Bool.and_eq_true, decide_eq_true_eq] at h
    obtain ⟨⟨⟨⟨h1, -⟩, -⟩, h4⟩, h5⟩ := h
    have : ∀ p ∈ boolPredicates, okKw (.kw p) = true := by decide
    exact oks_append (hl h4) (oks_cons (okTok_kw (this p h1)) (hr h5))
  | whenThen w t hw ht =>
    intro h
    simp only [wf, Bool.and_eq_true] at h
    exact oks_cons (okTok_kw (by decide)) (oks_append (hw h.1.2) (oks_cons (okTok_kw (by decide)) (ht h.2)))
  | case o ws e ho hws he =>
    intro h
    simp only [wf, Bool.and_eq_true] at h
    exact oks_cons (okTok_kw (by decide)) (oks_append (oks_append (oks_append (ho h.1.1.2)
      (oks_seq fun n hn => hws n hn (wfList_iff.1 h.1.2 n hn)))
      (oks_opt (oks_cons (okTok_kw (by decide)) (he h.2)))) (kw (okTok_kw (by decide))))
  | «alias» e al withAs he ha =>
    intro h
    simp only [wf, Bool.and_eq_true] at h
    exact oks_append (oks_append (he h.1.2) (oks_opt (kw (okTok_kw (by decide))))) (ha h.2)
  | table v sq ih =>
    intro h
    simp only [wf, Bool.and_eq_true] at h
    simp only [toks]
    split
    · exact oks_squares (ih h.1)
    · exact ih h.1
  | on e ih =>
    intro h
    simp only [wf, Bool.and_eq_true] at h
    exact oks_cons (okTok_kw (by decide)) (ih h.2)
  | using_ e ih =>
    intro h
    simp only [wf, Bool.and_eq_true] at h
    exact oks_cons (okTok_kw (by decide)) (ih h.2)
  | join type l r on using_ hl hr hon hus =>
    intro h
    simp only [wf, Bool.and_eq_true] at h
    obtain ⟨⟨⟨⟨⟨-, h2⟩, h3⟩, h4⟩, h5⟩, h6⟩ := h
    have hj : Oks (joinToks type) := by
      have key : ∀ p ∈ condJoins ++ crossJoins, ∀ k ∈ p.2.map Tok.kw, okKw k = true := by decide
      unfold joinToks
      cases hlk : (condJoins ++ crossJoins).lookup type with
      | none => exact oks_nil
      | some ws =>
        obtain ⟨a, b, hab, -⟩ := List.lookup_eq_some_iff.1 hlk
        exact fun k hk => okTok_kw (key (type, ws) (by rw [hab]; simp) k hk)
    exact oks_append (oks_append (oks_append (oks_append (hl h2) hj) (hr h3)) (hon h4)) (hus h5)
  | where_ e ih =>
    intro h
    simp only [wf, Bool.and_eq_true] at h
    exact oks_cons (okTok_kw (by decide)) (ih h.2)
  | having e ih =>
    intro h
    simp only [wf, Bool.and_eq_true] at h
    exact oks_cons (okTok_kw (by decide)) (ih h.2)
  | offset e ih =>
    intro h
    simp only [wf, Bool.and_eq_true] at h
    exact oks_cons (okTok_kw (by decide)) (ih h.2)
  | limit all e ih =>
    intro h
    simp only [wf, Bool.and_eq_true] at h
    exact oks_cons (okTok_kw (by decide)) (oks_append (oks_opt (kw (okTok_kw (by decide)))) (ih h.2))
  | groupBy args rollup each ih =>
    intro h
    simp only [wf, Bool.and_eq_true] at h
    exact oks_cons (okTok_kw (by decide)) (oks_append (oks_opt (kw (okTok_kw (by decide)))) (oks_cons (okTok_kw (by decide))
      (oks_append (oks_opt (kw (okTok_kw (by decide)))) (oks_list fun n hn => ih n hn (wfList_iff.1 h.2 n hn)))))
  | orderBy args ih =>
    intro h
    simp only [wf, Bool.and_eq_true] at h
    exact oks_cons (okTok_kw (by decide)) (oks_cons (okTok_kw (by decide)) (oks_list fun n hn => ih n hn (wfList_iff.1 h.2 n hn)))
  | orderItem v asc desc ih =>
    intro h
    simp only [wf, Bool.and_eq_true] at h
    exact oks_append (oks_append (ih h.2) (oks_opt (kw (okTok_kw (by decide))))) (oks_opt (kw (okTok_kw (by decide))))
  | select es all d on f w g h o l off semi ies ion ief iw ig ih io il ioff =>
    intro hw
    simp only [wf, Bool.and_eq_true] at hw
    obtain ⟨⟨⟨⟨⟨⟨⟨⟨⟨⟨⟨⟨⟨⟨⟨⟨⟨⟨⟨⟨-, -⟩, w1⟩, -⟩, -⟩, -⟩, w2⟩, -⟩, w3⟩, -⟩, w4⟩, -⟩, w5⟩, -⟩, w6⟩, -⟩, w7⟩, -⟩, w8⟩, -⟩, w9⟩ := hw
    exact oks_cons (okTok_kw (by decide)) (oks_append (oks_append (oks_append (oks_append (oks_append (oks_append
      (oks_append (oks_append (oks_append (oks_append (oks_append (oks_opt (kw (okTok_kw (by decide))))
      (oks_opt (kw (okTok_kw (by decide))))) (oks_opt (oks_cons (okTok_kw (by decide)) (oks_parens
      (oks_list fun n hn => ion n hn (wfList_iff.1 w2 n hn))))))
      (oks_list fun n hn => ies n hn (wfList_iff.1 w1 n hn)))
      (oks_opt (oks_cons (okTok_kw (by decide)) (ief w3)))) (iw w4)) (ig w5)) (ih w6)) (io w7)) (il w8)) (ioff w9))
      (oks_opt (oks_cons (okTok_lit (by decide)) oks_nil)))
  | withQuery name q ih =>
    intro h
    simp only [wf, Bool.and_eq_true] at h
    exact oks_cons (okTok_ident h.1.1) (oks_cons (okTok_kw (by decide)) (oks_parens (ih h.2)))
  | withStmt qs s ihq ihs =>
    intro h
    simp only [wf, Bool.and_eq_true] at h
    exact oks_cons (okTok_kw (by decide)) (oks_append (oks_list fun n hn => ihq n hn (wfList_iff.1 h.1.1.2 n hn)) (ihs h.2))
  | unnest v o oa al ih =>
    intro h
    simp only [wf, Bool.and_eq_true] at h
    refine oks_append (ih h.1.2) (oks_opt (oks_cons (okTok_kw (by decide)) (oks_cons (okTok_kw (by decide)) ?_)))
    cases al with
    | none => exact oks_nil
    | some a =>
      have h3 := h.2
      simp only [Bool.and_eq_true] at h3
      exact oks_append (oks_opt (kw (okTok_kw (by decide)))) (oks_cons (okTok_ident h3.2) oks_nil)
  | combined op l r hl hr =>
    intro h
    simp only [wf, Bool.and_eq_true] at h
    have hj : Oks (setToks op) := by
      have key : ∀ p ∈ setOps, ∀ k ∈ p.2.map Tok.kw, okKw k = true := by decide
      unfold setToks
      cases hlk : setOps.lookup op with
      | none => exact oks_nil
      | some ws =>
        obtain ⟨a, b, hab, -⟩ := List.lookup_eq_some_iff.1 hlk
        exact fun k hk => okTok_kw (key (op, ws) (by rw [hab]; simp) k hk)
    exact oks_append (oks_append (hl h.1.2) hj) (hr h.2)

theorem oks_reads {ks : List Tok} {ts : List Str} (h : Oks ks) (hr : Reads ks ts) :
    ∀ t ∈ ts, t ≠ [] := by
  induction ks generalizing ts with
  | nil => rw [reads_nil] at hr; subst hr; simp
  | cons k ks ih =>
    rw [reads_cons] at hr
    obtain ⟨t, ts, rfl, h1, h2⟩ := hr
    intro u hu
    rcases List.mem_cons.1 hu with rfl | hu
    · exact okTok_reads (h k (by simp)) h1
    · exact ih (fun m hm => h m (by simp [hm])) h2 u hu

/-- The words do not occur. -/
theorem absent_reads {ws : List Str} (hws : (ws.all fun w => !w.all Char.isDigit) = true) {ks : List Tok}
    (ho : Oks ks) (h : absent ws ks = true) {ts : List Str} (hr : Reads ks ts) : ∀ t ∈ ts, lower t ∉ ws := by
  induction ks generalizing ts with
  | nil => rw [reads_nil] at hr; subst hr; simp
  | cons k ks ih =>
    obtain ⟨t, ts, rfl, ht, hr⟩ := reads_cons.1 hr
    simp only [absent, List.all_cons, Bool.and_eq_true] at h
    have hi := ih (fun k hk => ho k (by simp [hk])) h.2 hr
    intro u hu
    rcases List.mem_cons.1 hu with rfl | hu
    · have hk := ho k (by simp)
      cases k with
      | kw w =>
        simp only [okTok, Bool.and_eq_true] at hk
        rw [lower_kw ht hk.2]
        exact of_decide_eq_true h.1
      | lit s =>
        rw [reads_lit] at ht
        subst ht
        exact of_decide_eq_true h.1
      | num i =>
        obtain ⟨h1, h2, -, -⟩ := ht
        obtain ⟨d1, d2⟩ := digit_lower h2
        rw [lower_self d1 d2]
        intro hm
        have := List.all_eq_true.1 hws _ hm
        rw [h2] at this
        cases this
    · exact hi u hu

/-! ### The first token -/

/-- Words with which no expression begins. -/
def headBad : List Str :=
  stopWords ++ caseWords ++ [str!"select", str!"distinct", str!"rollup", str!"by"]

/-- What the first token of an expression is. -/
def HeadOk (n : Node) (ks : List Tok) : Prop :=
  ∃ k ks', ks = k :: ks' ∧ (∀ t, k.reads t → lower t ∉ headBad) ∧
    (isNeg n = false → ∀ t, k.reads t → lower t ≠ str!"not")

theorem ident_head {s : Str} (h : ident s = true) : lower s ∉ headBad ∧ lower s ≠ str!"not" := by
  simp only [ident, Bool.and_eq_true, decide_eq_true_eq, Bool.not_eq_true'] at h
  obtain ⟨⟨⟨⟨⟨h1, h2⟩, h3⟩, h4⟩, -⟩, -⟩ := h
  refine ⟨fun hm => h4 ?_, fun he => h4 (by rw [he]; decide)⟩
  have : ∀ w ∈ headBad, w ∈ reserved := by decide
  exact this _ hm

theorem lower_lit {s t : Str} (h : (Tok.lit s).reads t) (h1 : s.all isAscii) (h2 : s.map Char.toLower = s) :
    lower t = s := by
  rw [reads_lit] at h; subst h; exact lower_self h1 h2

theorem head_kw {n : Node} {w : Str} {ks : List Tok} (h : w.all isAscii) (h1 : w ∉ headBad) (h2 : w ≠ str!"not") :
    HeadOk n (.kw w :: ks) :=
  ⟨_, _, rfl, fun t ht => by rw [lower_kw ht h]; exact h1, fun _ t ht => by rw [lower_kw ht h]; exact h2⟩

theorem head_lit {n : Node} {w : Str} {ks : List Tok} (h : w.all isAscii) (h' : w.map Char.toLower = w)
    (h1 : w ∉ headBad) (h2 : w ≠ str!"not") : HeadOk n (.lit w :: ks) :=
  ⟨_, _, rfl, fun t ht => by rw [lower_lit ht h h']; exact h1, fun _ t ht => by rw [lower_lit ht h h']; exact h2⟩

theorem HeadOk.append {n m : Node} {a b : List Tok} (h : HeadOk n a) (hn : isNeg m = false → isNeg n = false) :
    HeadOk m (a ++ b) := by
  obtain ⟨k, ks, rfl, h1, h2⟩ := h
  exact ⟨k, ks ++ b, rfl, h1, fun hm => h2 (hn hm)⟩

theorem fname_spec {s : Str} (h : fname s = true) : s.all isAscii ∧ s ∉ headBad ∧ s ≠ str!"not" := by
  simp only [fname, Bool.and_eq_true, decide_eq_true_eq] at h
  obtain ⟨⟨h1, h2⟩, h3⟩ := h
  obtain ⟨h4, h5⟩ := ident_head h1
  rw [lower_self h2 h3] at h4 h5
  exact ⟨h2, h4, h5⟩

theorem cname_spec {s : Str} (h : cname s = true) (hs : s ∉ innerCalls) : s.all isAscii ∧ s ∉ headBad ∧ s ≠ str!"not" := by
  rcases cname_or h with h | h
  · exact fname_spec h
  · rcases List.mem_append.1 h with h | h
    · exact (by decide : ∀ w ∈ outerCalls, w.all isAscii ∧ w ∉ headBad ∧ w ≠ str!"not") s h
    · exact absurd h hs

theorem head_prefix {n : Node} {p : Str} {ks : List Tok} (h : p ∈ [str!"r", str!"R"]) : HeadOk n (.lit p :: ks) :=
  ⟨_, _, rfl, fun t ht => by rw [reads_lit] at ht; rw [ht, prefix_lower h]; decide,
    fun _ t ht => by rw [reads_lit] at ht; rw [ht, prefix_lower h]; decide⟩

theorem isNeg_of_level {n : Node} (h : level n = 0) : isNeg n = false := by
  cases n <;> first | rfl | simp [level] at h

theorem head_expr (n : Node) : wf n = true → level n ≤ 1 → HeadOk n (toks n) := by
  induction n using Node.rec (motive_2 := fun _ => True) with
  | column s =>
    intro h _
    simp only [wf, Bool.or_eq_true, decide_eq_true_eq] at h
    rcases h with h | rfl
    · exact ⟨_, _, rfl, fun t ht => by rw [reads_lit] at ht; rw [ht]; exact (ident_head h).1,
        fun _ t ht => by rw [reads_lit] at ht; rw [ht]; exact (ident_head h).2⟩
    · exact head_lit (by decide) (by decide) (by decide) (by decide)
  | string v q pre =>
    intro h _
    simp only [wf, Bool.and_eq_true, decide_eq_true_eq] at h
    have key : ∀ q ∈ quotes, q.all isAscii ∧ q.map Char.toLower = q ∧ q ∉ headBad ∧ q ≠ str!"not" := by decide
    obtain ⟨a, b, c, d⟩ := key q h.1.2
    cases pre with
    | none => exact head_lit a b c d
    | some p =>
      have h0 := h.1.1
      simp only [decide_eq_true_eq] at h0
      exact head_prefix h0
  | float r =>
    intro h _
    rcases float_cases h with ⟨h, -, ht⟩ | ⟨s, rfl, h, -, ht⟩ <;> rw [ht]
    · obtain ⟨-, -, h2, -⟩ := decimal_lower h
      refine ⟨_, _, rfl, fun t ht => ?_, fun _ t ht => ?_⟩ <;> rw [reads_lit] at ht <;> rw [ht, h2]
      · exact decimal_not h (by decide)
      · exact fun he => decimal_not h (ws := [str!"not"]) (by decide) (by simp [he])
    · exact head_lit (by decide) (by decide) (by decide) (by decide)
  | chained l r hl hr =>
    intro h _
    simp only [wf, Bool.and_eq_true] at h
    have hn := level_name h.1.1.1
    exact (hl h.1.2 (by omega)).append (fun _ => isNeg_of_level hn)
  | int i =>
    intro _ _
    by_cases hi : i < 0
    · simp only [toks, opt, hi, decide_true, if_true]
      exact head_lit (by decide) (by decide) (by decide) (by decide)
    · simp only [toks, opt, hi, decide_false, Bool.false_eq_true, if_false, List.nil_append]
      have key : ∀ t, (Tok.num i.natAbs).reads t → ∀ w : Str, w.all Char.isDigit = false → lower t ≠ w := by
        intro t ht w hw he
        obtain ⟨h1, h2, -, -⟩ := ht
        obtain ⟨ha, hl⟩ := digit_lower h2
        rw [lower_self ha hl] at he
        rw [he, hw] at h2
        cases h2
      refine ⟨_, _, rfl, fun t ht hm => ?_, fun _ t ht => key t ht _ (by decide)⟩
      have : ∀ w ∈ headBad, w.all Char.isDigit = false := by decide
      exact key t ht _ (this _ hm) rfl
  | null => intro _ _; exact head_kw (by decide) (by decide) (by decide)
  | bool b => intro _ _; cases b <;> exact head_kw (by decide) (by decide) (by decide)
  | func f args ih =>
    intro h hl
    simp only [wf, Bool.and_eq_true] at h
    obtain ⟨a, b, c⟩ := cname_spec h.1.1.1 (inner_of_level (Nat.le_trans hl (by omega)))
    exact head_kw a b c
  | count args d ih => intro _ _; exact head_kw (by decide) (by decide) (by decide)
  | cast c t hc ht => intro _ _; exact head_kw (by decide) (by decide) (by decide)
  | arrayAgg c d ig resp o l hc ho => intro _ _; exact head_kw (by decide) (by decide) (by decide)
  | paren args ih => intro _ _; exact head_lit (by decide) (by decide) (by decide) (by decide)
  | array args ih => intro _ _; exact head_lit (by decide) (by decide) (by decide) (by decide)
  | index e is he ih =>
    intro h _
    simp only [wf, Bool.and_eq_true] at h
    have hn := h.1.1.1
    exact (he h.1.2 (level_base hn)).append (fun _ => by cases e <;> first | rfl | simp [isCol, indexable] at hn)
  | filtered c w hc hw =>
    intro h _
    simp only [wf, Bool.and_eq_true] at h
    have hn := h.1.1.1
    refine (hc h.1.2 ?_).append (fun _ => ?_) <;> cases c <;> simp [isCall] at hn <;> simp [level, isNeg, hn]
  | analytics f part o fr hf hp ho hfr =>
    intro h _
    simp only [wf, Bool.and_eq_true] at h
    obtain ⟨⟨⟨⟨⟨⟨⟨⟨⟨h1, h2⟩, -⟩, -⟩, -⟩, -⟩, -⟩, -⟩, -⟩, -⟩ := h
    refine (hf h2 ?_).append (fun _ => ?_) <;> cases f <;> simp [isFunction, isCall] at h1 <;> simp [level, isNeg, h1]
  | case o ws e ho hws he => intro _ _; exact head_kw (by decide) (by decide) (by decide)
  | arith op l r hl hr =>
    intro h _
    simp only [wf, Bool.and_eq_true, decide_eq_true_eq] at h
    obtain ⟨⟨⟨⟨-, h2⟩, -⟩, h4⟩, -⟩ := h
    exact (hl h4 (by omega)).append fun _ => isNeg_of_level h2
  | neg e ih =>
    intro _ _
    refine ⟨_, _, rfl, fun t ht => ?_, fun h => by simp [isNeg] at h⟩
    rw [lower_kw ht (by decide)]
    decide
  | nil | cons => trivial
  | «alias» e al w => intro _ h; unfold level at h; (repeat' split at h) <;> omega
  | select => intro _ h; unfold level at h; (repeat' split at h) <;> omega
  | _ => intro _ h; simp [level] at h

theorem level_alias {e al : Node} {withAs : Bool} (h : level (.alias e al withAs) ≤ 4) :
    level e ≤ 3 ∧ isAlias al withAs = true := by
  by_cases hc : (decide (level e ≤ 3) && isAlias al withAs) = true
  · simpa only [Bool.and_eq_true, decide_eq_true_eq] using hc
  · have : level (.alias e al withAs) = 9 := by rw [level]; exact if_neg hc
    omega

theorem head_item (n : Node) : wf n = true → level n ≤ 4 → ∃ m, HeadOk m (toks n) := by
  induction n using Node.rec (motive_2 := fun _ => True) with
  | cond l p r hl hr =>
    intro h _
    simp only [wf, Bool.and_eq_true, decide_eq_true_eq] at h
    obtain ⟨⟨⟨h1, h2⟩, -⟩, -⟩ := h
    obtain ⟨m, hm⟩ := hl h2 (by omega)
    exact ⟨m, (hm.append id).append id⟩
  | bitwise l op r hl hr =>
    intro h _
    simp only [wf, Bool.and_eq_true, decide_eq_true_eq] at h
    obtain ⟨⟨⟨⟨-, h2⟩, -⟩, h4⟩, -⟩ := h
    obtain ⟨m, hm⟩ := hl h4 (by omega)
    exact ⟨m, hm.append id⟩
  | except_ e args he _ =>
    intro h _
    simp only [wf, Bool.and_eq_true] at h
    have := level_star h.1.1.1.1
    obtain ⟨m, hm⟩ := he h.1.2 (by omega)
    exact ⟨m, hm.append id⟩
  | replace e args he _ =>
    intro h _
    simp only [wf, Bool.and_eq_true, Bool.or_eq_true] at h
    have : level e ≤ 4 := by
      rcases h.1.1.1.1.1 with h | h
      · have := level_star h; omega
      · cases e <;> simp [isExcept] at h; simp [level]
    obtain ⟨m, hm⟩ := he h.1.2 (by omega)
    exact ⟨m, hm.append id⟩
  | boolc p l r hl hr =>
    intro h _
    simp only [wf, Bool.and_eq_true, decide_eq_true_eq] at h
    obtain ⟨⟨⟨⟨-, h2⟩, -⟩, h4⟩, -⟩ := h
    obtain ⟨m, hm⟩ := hl h4 (by omega)
    exact ⟨m, hm.append id⟩
  | «alias» e al withAs he _ =>
    intro h h'
    simp only [wf, Bool.and_eq_true] at h
    have hl := (level_alias h').1
    obtain ⟨m, hm⟩ := he h.1.2 (by omega)
    exact ⟨m, (hm.append id).append id⟩
  | nil | cons => trivial
  | select => intro _ h; unfold level at h; (repeat' split at h) <;> omega
  | paren args =>
    intro h h'
    have : level (.paren args) ≤ 1 := by unfold level at h' ⊢; split at h' <;> simp_all
    exact ⟨_, head_expr _ h this⟩
  | index e is => intro h _; exact ⟨_, head_expr _ h (by simp only [level]; split <;> omega)⟩
  | func f args => intro h h'; exact ⟨_, head_expr _ h (by rw [level_outer (inner_of_level h')]; omega)⟩
  | string v q pre =>
    intro h h'
    cases pre with
    | none => exact ⟨_, head_expr _ h (by simp [level])⟩
    | some p =>
      simp only [wf, Bool.and_eq_true, decide_eq_true_eq] at h
      exact ⟨.null, head_prefix h.1.1⟩
  | _ =>
    intro h h'
    first
      | (exfalso; simp [level] at h'; done)
      | exact ⟨_, head_expr _ h (by simp [level])⟩

/-- The first token of an expression. -/
theorem first_token {n : Node} (hw : wf n = true) (hl : level n ≤ 4) {ts : List Str} (hr : Reads (toks n) ts) :
    ∃ t ts', ts = t :: ts' ∧ t ≠ [] ∧ lower t ∉ headBad := by
  obtain ⟨m, k, ks, hk, h1, -⟩ := head_item n hw hl
  have ho := oks_reads (oks n hw) hr
  rw [hk, reads_cons] at hr
  obtain ⟨t, ts', rfl, ht, -⟩ := hr
  exact ⟨t, ts', rfl, ho t (by simp), h1 t ht⟩

theorem first_token_not {n : Node} (hw : wf n = true) (hl : level n ≤ 1) (hn : isNeg n = false) {ts : List Str}
    (hr : Reads (toks n) ts) : ∃ t ts', ts = t :: ts' ∧ t ≠ [] ∧ lower t ∉ headBad ∧ lower t ≠ str!"not" := by
  obtain ⟨k, ks, hk, h1, h2⟩ := head_expr n hw hl
  have ho := oks_reads (oks n hw) hr
  rw [hk, reads_cons] at hr
  obtain ⟨t, ts', rfl, ht, -⟩ := hr
  exact ⟨t, ts', rfl, ho t (by simp), h1 t ht, h2 hn t ht⟩

end

end SqlV.Core
