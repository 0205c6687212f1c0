import Verif.Lemmas.Merge

/-! Texts without quotes on which `split_tokens` calls itself for ever. -/

namespace SqlV

set_option linter.unusedSectionVars false

open Lex

variable [E : PyEnv]

/-- Nothing is raised, or a `RecursionError`. -/
def Deep (r : Stream) : Prop := r.fail = none ∨ r.fail = some .recursion

theorem deep_ok (l : List Str) : Deep ⟨l, none⟩ := .inl rfl

theorem deep_append {a b : Stream} (ha : Deep a) (hb : Deep b) : Deep (Stream.append a b) := by
  unfold Stream.append
  split
  · exact ha
  · exact hb

theorem deep_each {rec : Str → Stream} (h : ∀ e, Deep (rec e)) (l : List Str) : Deep (splitEach rec l) := by
  induction l with
  | nil => exact deep_ok []
  | cons e es ih => exact deep_append (h e) ih

theorem deep_string {rec : Str → Stream} (h : ∀ e, Deep (rec e)) (q : Char) (l : List Str) : ∀ b, Deep (splitOnString rec q b l) := by
  induction l with
  | nil => intro b; exact deep_ok []
  | cons e es ih =>
    intro b
    rw [splitOnString]
    split
    · exact deep_append (deep_ok _) (ih _)
    · split
      · exact deep_append (deep_ok _) (ih _)
      · exact deep_append (h e) (ih _)

/-- `split_tokens` raises nothing but a `RecursionError`, on any text. -/
theorem splitTokens_deep (n : Nat) : ∀ s, Deep (splitTokens n s) := by
  induction n with
  | zero => intro s; exact .inr rfl
  | succ n ih =>
    intro s
    rw [splitTokens]
    split
    · exact deep_string ih _ _ _
    · split
      · exact deep_each ih _
      · split
        · rw [splitOnKept]
          split
          · exact deep_ok _
          · exact deep_each ih _
        · exact deep_ok _

theorem append_fail {a b : Stream} (ha : Deep a) (h : a.fail = some .recursion ∨ b.fail = some .recursion) :
    (Stream.append a b).fail = some .recursion := by
  unfold Stream.append
  split
  · rename_i e he
    rcases ha with ha | ha
    · rw [ha] at he; cases he
    · exact ha
  · rename_i he
    rcases h with h | h
    · rw [h] at he; cases he
    · exact h

theorem each_fail {rec : Str → Stream} (h : ∀ e, Deep (rec e)) {l : List Str} {e : Str} (he : e ∈ l)
    (hf : (rec e).fail = some .recursion) : (splitEach rec l).fail = some .recursion := by
  induction l with
  | nil => cases he
  | cons x xs ih =>
    refine append_fail (h x) ?_
    rcases List.mem_cons.1 he with rfl | he
    · exact .inl hf
    · exact .inr (ih he)

theorem Lex.cutEsc_mark (e : Bool) (w : Str) (h : cutEsc e w = true) : ∃ c ∈ w, isMark c = true := by
  induction w generalizing e with
  | nil => cases h
  | cons x xs ih =>
    rw [cutEsc, Bool.or_eq_true, Bool.and_eq_true] at h
    rcases h with h | h
    · exact ⟨x, by simp, h.2⟩
    · obtain ⟨c, h1, h2⟩ := ih _ h
      exact ⟨c, by simp [h1], h2⟩

theorem Lex.stuck_mark {w : Str} (hb : ∀ c ∈ w, isBlank c = false) (h : stuck w = true) :
    (∃ c ∈ w, isMark c = true) ∧ ¬free w := by
  rw [stuck, stuckFrom_word _ _ _ hb, Bool.or_eq_true, Bool.and_eq_true, Bool.false_or] at h
  refine ⟨?_, ?_⟩
  · rcases h with h | h
    · exact cutEsc_mark _ _ h
    · simpa using h.1
  · rintro ⟨h1, h2⟩
    rw [h1, lastEsc_iff, h2] at h
    rcases h with h | h
    · cases h
    · cases h.2

theorem Lex.stuck_of_cutEsc {w : Str} (hb : ∀ c ∈ w, isBlank c = false) (h : cutEsc false w = true) : stuck w = true := by
  rw [stuck, stuckFrom_word _ _ _ hb, h, Bool.true_or]

/-- One of the words is stuck. -/
theorem stuck_word {w : Char} (hw : isBlank w) (n : Nat) : ∀ s : Str, s.length ≤ n → stuck s = true →
    ∃ e ∈ (Str.splitOn w s).filter (fun e => !e.isEmpty), stuck e = true ∧ ∀ c ∈ e, c ∈ s := by
  have last : ∀ s : Str, w ∉ s → stuck s = true →
      ∃ e ∈ (Str.splitOn w s).filter (fun e => !e.isEmpty), stuck e = true ∧ ∀ c ∈ e, c ∈ s := by
    intro s hws h
    rw [Str.splitOn_of_not_mem hws]
    have hs : s ≠ [] := by rintro rfl; cases h
    exact ⟨s, by simp [hs], h, fun _ h => h⟩
  induction n with
  | zero =>
    intro s hl h
    have : s = [] := by cases s <;> simp_all
    subst this
    cases h
  | succ n ih =>
    intro s hl h
    by_cases hws : w ∈ s
    · obtain ⟨a, b, rfl, ha⟩ := exists_append_cons hws
      rw [stuck, stuckFrom_blank _ _ _ _ hw, Bool.or_eq_true] at h
      rw [Str.splitOn_append_cons ha]
      rcases h with h | h
      · have hs : a ≠ [] := by rintro rfl; cases h
        exact ⟨a, by simp [hs], h, fun c hc => by simp [hc]⟩
      · obtain ⟨e, h1, h2, h3⟩ := ih b (by simp at hl; omega) h
        refine ⟨e, ?_, h2, fun c hc => by simp [h3 c hc]⟩
        rw [List.filter_cons]
        split
        · exact List.mem_cons_of_mem _ h1
        · exact h1
    · exact last s hws h

/-- One of the pieces of a word is stuck. -/
theorem stuck_piece {k : Char} (hk : isMark k) (hkb : isBlank k = false) (n : Nat) : ∀ s : Str, s.length ≤ n → (∀ c ∈ s, isBlank c = false) →
    ¬free s → ∃ e ∈ splitWithSep s k, stuck e = true ∧ ∀ c ∈ e, c = k ∨ c ∈ s := by
  have esc : ∀ a b : Str, a.getLast? = some '\\' → (∀ c ∈ a ++ [k] ++ b, isBlank c = false) → stuck (a ++ [k] ++ b) = true := by
    intro a b ha hb
    refine stuck_of_cutEsc hb ?_
    rw [List.append_assoc, cutEsc_append, lastEsc_iff, show endsEsc a = true by simp [endsEsc, ha]]
    simp [cutEsc, hk]
  have last : ∀ s : Str, k ∉ s → (∀ c ∈ s, isBlank c = false) → ¬free s →
      ∃ e ∈ splitWithSep s k, stuck e = true ∧ ∀ c ∈ e, c = k ∨ c ∈ s := by
    intro s hks hb hf
    by_cases he : s.getLast? = some '\\'
    · refine ⟨s ++ [k], ?_, ?_, fun c hc => by simp at hc; exact hc.symm⟩
      · simp [splitWithSep, splitWithEscaping, Str.splitOn_of_not_mem hks, glueEscaped, he, yieldWithSep]
      · have := esc s [] he fun c hc => by
          simp only [List.append_nil, List.mem_append, List.mem_singleton] at hc
          rcases hc with hc | rfl
          · exact hb c hc
          · exact hkb
        simpa using this
    · refine ⟨s, ?_, stuck_of_cutEsc hb ?_, fun c hc => .inr hc⟩
      · have hs : s ≠ [] := by rintro rfl; exact hf ⟨rfl, rfl⟩
        rw [splitWithSep_none hks he]
        simp [ne, hs]
      · by_contra hc
        exact hf ⟨by simpa using hc, by simpa [endsEsc] using he⟩
  induction n with
  | zero =>
    intro s hl _ h
    have : s = [] := by cases s <;> simp_all
    subst this
    exact absurd ⟨rfl, rfl⟩ h
  | succ n ih =>
    intro s hl hb hf
    by_cases hks : k ∈ s
    · obtain ⟨a, b, rfl, ha⟩ := exists_append_cons hks
      by_cases he : a.getLast? = some '\\'
      · by_cases hkb2 : k ∈ b
        · obtain ⟨b, d, rfl, hb2⟩ := exists_append_cons hkb2
          rw [splitWithSep_escaped ha he hb2]
          refine ⟨_, by simp, esc a b he fun c hc => hb c ?_, fun c hc => ?_⟩
          · simp at hc ⊢; tauto
          · simp at hc ⊢; tauto
        · rw [splitWithSep_escaped_end ha he hkb2]
          refine ⟨_, by simp, esc a b he fun c hc => hb c ?_, fun c hc => ?_⟩
          · simpa using hc
          · simp at hc ⊢; tauto
      · rw [splitWithSep_cons ha he]
        by_cases hca : cutEsc false a = true
        · have hs : a ≠ [] := by rintro rfl; cases hca
          exact ⟨a, by simp [ne, hs], stuck_of_cutEsc (fun c hc => hb c (by simp [hc])) hca, fun c hc => by simp [hc]⟩
        · have hfb : ¬free b := by
            refine fun hfb => hf ⟨?_, ?_⟩
            · rw [cutEsc_append, lastEsc_iff, show endsEsc a = false by simpa [endsEsc] using he]
              simpa [cutEsc, isMark_ne hk, hfb.1] using hca
            · rw [← lastEsc_iff, lastEsc_append, lastEsc, decide_eq_false (isMark_ne hk), lastEsc_iff, hfb.2]
          obtain ⟨e, h1, h2, h3⟩ := ih b (by simp at hl; omega) (fun c hc => hb c (by simp [hc])) hfb
          exact ⟨e, by simp [h1], h2, fun c hc => by rcases h3 c hc with h | h <;> simp [h]⟩
    · exact last s hks hb hf

theorem isMark_iff {k : Char} : k ∈ keptSplitTokens ↔ isMark k = true := by
  simp [keptSplitTokens, isMark, isPunct]
  tauto

theorem isMark_facts {k : Char} (h : isMark k) : isQuote k = false ∧ isBlank k = false := by
  rw [isMark, Bool.or_eq_true] at h
  rcases h with h | h
  · exact isPunct_facts h
  · rw [of_decide_eq_true h]; decide

/-- `merge_stream` raises what its argument raises. -/
theorem merge_fail (f : Option PyErr) (n : Nat) : ∀ l : List Str, l.length ≤ n → (mergeStream mergeTokens f l).fail = f := by
  induction n with
  | zero => intro l hl; cases l <;> simp_all [mergeStream]
  | succ n ih =>
    intro l hl
    match l with
    | [] => rfl
    | [a] =>
      simp only [mergeStream]
      split
      · cases f <;> rfl
      · rfl
    | a :: b :: rest =>
      have h1 := ih rest (by simp at hl; omega)
      have h2 := ih (b :: rest) (by simp at hl ⊢; omega)
      rw [mergeStream]
      simp only [mergeCount]
      split
      · split
        · exact h1
        · by_cases h : a ++ b ∈ mergeTokens <;> simp [h, h1]
      · exact h2

variable [L : LawfulPyEnv E]

/-- On a stuck text no recursion depth is enough. -/
theorem splitTokens_stuck (n : Nat) : ∀ s : Str, (∀ c ∈ s, isQuote c = false) → stuck s = true →
    (splitTokens n s).fail = some .recursion := by
  induction n with
  | zero => intro s _ _; rfl
  | succ n ih =>
    intro s hq hs
    rw [splitTokens]
    split
    · rename_i q hfind
      obtain ⟨a, b, hab, h, -⟩ := firstQuote hfind
      rw [hq q (by simp [hab])] at h
      cases h
    · split
      · rename_i w hw
        have hwb := (blank_iff w).1 (List.mem_of_find?_eq_some hw)
        obtain ⟨e, h1, h2, h3⟩ := stuck_word hwb s.length s (Nat.le_refl _) hs
        exact each_fail (splitTokens_deep n) h1 (ih e (fun c hc => hq c (h3 c hc)) h2)
      · rename_i hw
        have hnb : ∀ c ∈ s, isBlank c = false := by
          intro c hc
          by_contra hcb
          have := List.find?_eq_none.1 hw c ((blank_iff c).2 (by simpa using hcb))
          simp [hc] at this
        have hback : '\\' ∈ s := by
          by_contra h
          rw [stuck_of_no_backslash h] at hs
          cases hs
        obtain ⟨⟨m, hm, hmk⟩, hf⟩ := stuck_mark hnb hs
        split
        · rename_i k hkf
          have hkm := isMark_iff.1 (List.mem_of_find?_eq_some hkf)
          have hks : k ∈ s := by have := List.find?_some hkf; simp at this; exact this.1
          obtain ⟨e, h1, h2, h3⟩ := stuck_piece hkm (isMark_facts hkm).2 s.length s (Nat.le_refl _) hnb hf
          rw [splitOnKept, if_neg]
          · refine each_fail (splitTokens_deep n) h1 (ih e (fun c hc => ?_) h2)
            rcases h3 c hc with rfl | h
            · exact (isMark_facts hkm).1
            · exact hq c h
          · rintro ⟨-, -, h⟩
            simp only [isDottedDigits, isDigits, Bool.and_eq_true, List.all_eq_true] at h
            have := h.2 '\\' (by simp [hback])
            rw [L.isDigit_ascii _ (by decide)] at this
            cases this
        · rename_i hkf
          have := List.find?_eq_none.1 hkf m (isMark_iff.2 hmk)
          simp only [hm, true_and, decide_not, Bool.not_eq_true', decide_eq_false_iff_not, not_not] at this
          rw [this, List.mem_singleton] at hback
          rw [← hback] at hmk
          cases hmk

end SqlV
