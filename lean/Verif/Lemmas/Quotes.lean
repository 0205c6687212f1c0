import Verif.Spec.Quotes
import Verif.Lemmas.Stuck

/-! The tokeniser on all texts. -/

namespace SqlV

set_option linter.unusedSectionVars false

open Lex

section

variable [E : PyEnv]

/-! ### Cutting at a quote -/

theorem cutAt_ne_nil (q : Char) (s : Str) : ∀ w g, cutAt q w g s ≠ [] := by
  induction s with
  | nil => intro w g; simp [cutAt]
  | cons c cs ih =>
    intro w g
    rw [cutAt]
    split
    · split
      · exact ih _ _
      · simp
    · exact ih _ _

/-- What `split_with_escaping` makes of a piece of which `w` has been read, followed by the pieces `l`. -/
def glueFrom (q : Char) (w : Str) (glued : Bool) : List Str → List Str
  | [] => []
  | v :: l => if glued then (w ++ v) :: glueEscaped q l else glueEscaped q ((w ++ v) :: l)

theorem cutAt_eq {q : Char} (s : Str) : ∀ w g, cutAt q w g s = glueFrom q w g (Str.splitOn q s) := by
  induction s with
  | nil =>
    intro w g
    cases g <;> simp [cutAt, Str.splitOn, glueFrom, glueEscaped, endsEsc]
    split <;> rfl
  | cons c cs ih =>
    intro w g
    obtain ⟨v, l, hl⟩ := List.exists_cons_of_ne_nil (Str.splitOn_ne_nil q cs)
    rw [cutAt, Str.splitOn]
    by_cases hc : c = q
    · rw [if_pos hc, if_pos hc, ih, ih, hl]
      cases g
      · by_cases he : endsEsc w
        · have : w.getLast? = some '\\' := by simpa [endsEsc] using he
          simp [he, glueFrom, glueEscaped, this]
        · have : w.getLast? ≠ some '\\' := by simpa [endsEsc] using he
          simp [he, glueFrom, glueEscaped, this]
      · simp [glueFrom]
    · rw [if_neg hc, if_neg hc, ih, hl]
      simp [glueFrom]

theorem splitWithSep_cutAt {q : Char} (s : Str) :
    splitWithSep s q = yieldWithSep q (cutAt q [] false s) := by
  rw [cutAt_eq, splitWithSep, splitWithEscaping]
  obtain ⟨v, l, hl⟩ := List.exists_cons_of_ne_nil (Str.splitOn_ne_nil q s)
  rw [hl]
  simp [glueFrom]

/-! ### Pieces have at most one quote, which is escaped -/

/-- Every `k` comes after a backslash; `prev` tells whether the previous character is one. -/
def escd (k : Char) : (prev : Bool) → Str → Bool
  | _, [] => true
  | prev, c :: cs => (c ≠ k || prev) && escd k (c = '\\') cs

theorem escd_append (k : Char) (prev : Bool) (a b : Str) :
    escd k prev (a ++ b) = (escd k prev a && escd k (if a = [] then prev else endsEsc a) b) := by
  induction a generalizing prev with
  | nil => simp [escd]
  | cons x xs ih =>
    rw [List.cons_append, escd, ih, escd]
    cases xs with
    | nil => simp [endsEsc, Bool.and_assoc]
    | cons y ys => simp [endsEsc, Bool.and_assoc]

/-- At most one `k`, which is escaped. -/
def Lone (k : Char) (s : Str) : Prop := s.count k ≤ 1 ∧ escd k false s = true

theorem escd_of_not_mem {k : Char} {s : Str} (h : k ∉ s) : ∀ prev, escd k prev s = true := by
  induction s with
  | nil => intro; rfl
  | cons c cs ih =>
    intro prev
    simp only [List.mem_cons, not_or] at h
    simp [escd, Ne.symm h.1, ih h.2]

theorem lone_of_not_mem {k : Char} {s : Str} (h : k ∉ s) : Lone k s :=
  ⟨by rw [List.count_eq_zero.2 h]; omega, escd_of_not_mem h _⟩

theorem lone_snoc {q : Char} {w : Str} (h : q ∉ w) (he : endsEsc w = true) : Lone q (w ++ [q]) := by
  refine ⟨by rw [List.count_append, List.count_eq_zero.2 h]; simp, ?_⟩
  have : w ≠ [] := by rintro rfl; cases he
  rw [escd_append, escd_of_not_mem h]
  simp [escd, this, he]

/-- The pieces have at most one quote each. -/
theorem lone_cut (q : Char) (s : Str) : ∀ (w : Str) (g : Bool), (if g then Lone q w else q ∉ w) →
    ∀ p ∈ cutAt q w g s, Lone q p := by
  induction s with
  | nil =>
    intro w g h p hp
    rw [cutAt, List.mem_singleton] at hp
    subst hp
    cases g
    · have h : q ∉ w := by simpa using h
      by_cases he : endsEsc w
      · simpa [he] using lone_snoc h he
      · simpa [he] using lone_of_not_mem h
    · simpa using h
  | cons c cs ih =>
    intro w g h p hp
    rw [cutAt] at hp
    split at hp
    · split at hp
      · rename_i hg
        simp only [Bool.and_eq_true, Bool.not_eq_true'] at hg
        rw [hg.2] at h
        exact ih _ true (by simpa using lone_snoc (by simpa using h) hg.1) p hp
      · rcases List.mem_cons.1 hp with rfl | hp
        · cases g
          · exact lone_of_not_mem (by simpa using h)
          · simpa using h
        · exact ih [] false (by simp) p hp
    · rename_i hc
      refine ih _ g ?_ p hp
      cases g
      · have h : q ∉ w := by simpa using h
        simp [h, Ne.symm hc]
      · have h : Lone q w := by simpa using h
        refine ⟨by rw [List.count_append, List.count_singleton]; simp [hc]; exact h.1, ?_⟩
        rw [escd_append, h.2]
        simp [escd, hc]

/-- Cutting at another quote does not separate a quote from its backslash. -/
theorem lone_keep (q k : Char) (hq : q ≠ '\\') (hk : k ≠ q) (s : Str) : ∀ (w : Str) (g : Bool), Lone k (w ++ s) →
    ∀ p ∈ cutAt q w g s, Lone k p := by
  have hone : ∀ w : Str, Lone k w → Lone k (w ++ [q]) := by
    intro w h
    refine ⟨by rw [List.count_append, List.count_singleton]; simp [Ne.symm hk]; exact h.1, ?_⟩
    rw [escd_append, h.2]
    simp [escd, Ne.symm hk]
  induction s with
  | nil =>
    intro w g h p hp
    rw [List.append_nil] at h
    rw [cutAt, List.mem_singleton] at hp
    subst hp
    split
    · exact hone w h
    · exact h
  | cons c cs ih =>
    intro w g h p hp
    rw [cutAt] at hp
    split at hp
    · rename_i hc
      subst hc
      split at hp
      · exact ih _ true (by simpa using h) p hp
      · obtain ⟨h1, h2⟩ := h
        rw [escd_append, Bool.and_eq_true, escd, Bool.and_eq_true] at h2
        rw [List.count_append, List.count_cons] at h1
        rcases List.mem_cons.1 hp with rfl | hp
        · exact ⟨by omega, h2.1⟩
        · refine ih [] false ⟨?_, ?_⟩ p hp
          · rw [List.nil_append]; omega
          · simpa [hq] using h2.2.2
    · exact ih _ g (by simpa using h) p hp

/-- A text with a single quote, which is escaped, is not cut. -/
theorem cut_lone (q : Char) (s : Str) : ∀ (w : Str), q ∉ w → q ∈ s → s.count q ≤ 1 → escd q (endsEsc w) s = true →
    cutAt q w false s = [w ++ s] := by
  have hglued : ∀ s : Str, q ∉ s → ∀ w, cutAt q w true s = [w ++ s] := by
    intro s
    induction s with
    | nil => intro _ w; simp [cutAt]
    | cons c cs ih =>
      intro h w
      simp only [List.mem_cons, not_or] at h
      rw [cutAt, if_neg (Ne.symm h.1), ih h.2]
      simp
  induction s with
  | nil => intro w _ h; cases h
  | cons c cs ih =>
    intro w hw hs hc he
    rw [escd, Bool.and_eq_true] at he
    rw [cutAt]
    by_cases hcq : c = q
    · subst hcq
      have hcs : c ∉ cs := by
        rw [List.count_cons_self] at hc
        exact List.count_eq_zero.1 (by omega)
      have hew : endsEsc w = true := by simpa using he.1
      rw [if_pos rfl, hew, Bool.not_false, Bool.and_self, if_pos rfl, hglued cs hcs]
      simp
    · have hs' : q ∈ cs := by
        rcases List.mem_cons.1 hs with h | h
        · exact absurd h.symm hcq
        · exact h
      rw [if_neg hcq, ih (w ++ [c]) (by simp [hw, Ne.symm hcq]) hs' (by rw [List.count_cons] at hc; omega)
        (by rw [endsEsc_snoc]; simpa using he.2)]
      simp

theorem lone_cutAt {q : Char} {s : Str} (h : Lone q s) (hs : q ∈ s) : cutAt q [] false s = [s] := by
  simpa using cut_lone q s [] (by simp) hs h.1 h.2

theorem lone_ne {q : Char} {p : Str} (h : Lone q p) : p ≠ [q] := by
  rintro rfl
  have := h.2
  simp [escd] at this

/-! ### The parts -/

/-- The parts of the pieces. -/
theorem weave_ok {rec : Str → Stream} {outside : Str → List Part} {q : Char} (l : List Str) (hl : ∀ p ∈ l, p ≠ [q]) :
    ∀ b, (∀ x ∈ weave outside q b l, x.stuck = false) →
    (∀ p ∈ l, p ≠ [] → (∀ x ∈ outside p, x.stuck = false) → rec p = ⟨(outside p).flatMap Part.words, none⟩) →
    splitOnString rec q b (yieldWithSep q l) = ⟨(weave outside q b l).flatMap Part.words, none⟩ := by
  induction l with
  | nil => intro b _ _; rfl
  | cons p ps ih =>
    intro b hx hrec
    have ih := ih (fun p hp => hl p (by simp [hp])) (!b)
    have hp := hl p (by simp)
    have piece : ∀ l, (∀ x ∈ (if p = [] then [] else if b then [Part.content p] else outside p), x.stuck = false) →
        splitOnString rec q b (ne p ++ l) =
        Stream.append ⟨(if p = [] then [] else if b then [Part.content p] else outside p).flatMap Part.words, none⟩
          (splitOnString rec q b l) := by
      intro l hx
      by_cases hpe : p = []
      · subst hpe; simp [ne, Stream.append]
      · have hne : ne p = [p] := by simp [ne, hpe]
        cases b
        · have := hrec p (by simp) hpe (by simpa [hpe] using hx)
          simp [hne, hpe, splitOnString, hp, this]
        · simp [hne, hpe, splitOnString, hp, Part.words]
    rw [weave] at hx ⊢
    cases ps with
    | nil =>
      have := piece [] (fun x hm => hx x (by simp [hm]))
      rw [List.append_nil] at this
      rw [show yieldWithSep q [p] = ne p from rfl, this]
      simp [splitOnString, Stream.append]
    | cons r rs =>
      have h2 : ∀ x ∈ weave outside q (!b) (r :: rs), x.stuck = false :=
        fun x hm => hx x (by simp [hm])
      have := ih h2 fun p hp => hrec p (by simp [hp])
      rw [yieldWithSep_cons q p (by simp), piece _ (fun x hm => hx x (by simp [hm])), splitOnString_sep, this]
      simp [Part.words, Stream.append]

theorem first_quote {s : Str} (h : ∃ c ∈ s, isQuote c = true) :
    ∃ q, (sortedByKey (Str.indexOr s) stringSplitTokens).find? (· ∈ s) = some q ∧ s.find? isQuote = some q ∧ isQuote q = true := by
  cases hf : (sortedByKey (Str.indexOr s) stringSplitTokens).find? (· ∈ s) with
  | none =>
    obtain ⟨c, hc, hq⟩ := h
    rw [noQuote hf c hc] at hq
    cases hq
  | some q =>
    obtain ⟨a, b, rfl, hq, ha⟩ := firstQuote hf
    refine ⟨q, rfl, ?_, hq⟩
    rw [List.find?_append, List.find?_eq_none.2 (fun x hx => by simp [ha x hx])]
    simp [hq]

theorem kinds_bare {s : Str} (h : ∀ c ∈ s, isQuote c = false) : kinds s ≤ 17 := by
  have hs : ∀ c ∈ stringSplitTokens, c ∉ s := by
    intro c hc hm
    have := h c hm
    simp [stringSplitTokens] at hc
    rcases hc with rfl | rfl | rfl <;> cases this
  rw [kinds, allSeps, List.append_assoc, List.filter_append]
  have : stringSplitTokens.filter (fun c => decide (c ∈ s)) = [] := by
    rw [List.filter_eq_nil_iff]
    intro c hc
    simpa using hs c hc
  rw [this, List.nil_append]
  exact List.length_filter_le _ _

/-- A text of which no part is stuck. -/
theorem splitTokens_parts (n : Nat) : ∀ (d : Nat) (s : Str), 18 + n ≤ d → s ≠ [] → (∀ x ∈ parts n s, x.stuck = false) →
    splitTokens d s = ⟨(parts n s).flatMap Part.words, none⟩ := by
  have bare : ∀ (d : Nat) (s : Str), 18 ≤ d → s ≠ [] → (Part.code s).stuck = false →
      splitTokens d s = ⟨[Part.code s].flatMap Part.words, none⟩ := by
    intro d s hd hs h
    rw [Part.stuck, Bool.or_eq_false_iff] at h
    have hq : ∀ c ∈ s, isQuote c = false := by
      intro c hc
      simpa using List.any_eq_false.1 h.1 c hc
    rw [splitTokens_bare d s (by have := kinds_bare hq; omega) hs hq h.2]
    simp [Part.words]
  induction n with
  | zero =>
    intro d s hd hs h
    exact bare d s hd hs (h _ (by simp [parts]))
  | succ n ih =>
    intro d s hd hs h
    by_cases hq : ∃ c ∈ s, isQuote c = true
    · obtain ⟨q, h1, h2, h3⟩ := first_quote hq
      obtain ⟨d, rfl⟩ : ∃ e, d = e + 1 := ⟨d - 1, by omega⟩
      have hqb := not_backslash_of_quote h3
      rw [parts, h2] at h ⊢
      simp only at h ⊢
      rw [splitTokens, h1]
      simp only
      rw [splitWithSep_cutAt]
      exact weave_ok _ (fun p hp => lone_ne (lone_cut q s [] false (by simp) p hp)) false h
        fun p _ hpe hx => ih d p (by omega) hpe hx
    · have hf : s.find? isQuote = none := by
        rw [List.find?_eq_none]
        intro c hc hcq
        exact hq ⟨c, hc, hcq⟩
      rw [parts, hf] at h ⊢
      exact bare d s (by omega) hs (h _ (by simp))

/-! ### Stuck parts -/

theorem string_fail {rec : Str → Stream} (hd : ∀ e, Deep (rec e)) {outside : Str → List Part} {q : Char} (l : List Str)
    (hl : ∀ p ∈ l, p ≠ [q]) : ∀ b, (∃ x ∈ weave outside q b l, x.stuck = true) →
    (∀ p ∈ l, (∃ x ∈ outside p, x.stuck = true) → (rec p).fail = some .recursion) →
    (splitOnString rec q b (yieldWithSep q l)).fail = some .recursion := by
  induction l with
  | nil => rintro b ⟨x, hx, _⟩; cases hx
  | cons p ps ih =>
    intro b hx hrec
    have ih := fun h => ih (fun p hp => hl p (by simp [hp])) (!b) h fun p hp => hrec p (by simp [hp])
    have hp := hl p (by simp)
    have piece : ∀ l, ((∃ x ∈ (if p = [] then [] else if b then [Part.content p] else outside p), x.stuck = true) ∨
        (splitOnString rec q b l).fail = some .recursion) →
        (splitOnString rec q b (ne p ++ l)).fail = some .recursion := by
      intro l h
      by_cases hpe : p = []
      · subst hpe
        rcases h with ⟨x, hx, _⟩ | h
        · simp at hx
        · simpa [ne] using h
      · have hne : ne p = [p] := by simp [ne, hpe]
        cases b
        · rw [hne, List.cons_append, List.nil_append, splitOnString, if_neg hp]
          refine append_fail (hd p) ?_
          rcases h with h | h
          · exact .inl (hrec p (by simp) (by simpa [hpe] using h))
          · exact .inr h
        · rw [hne, List.cons_append, List.nil_append, splitOnString, if_neg hp]
          refine append_fail (deep_ok _) (.inr ?_)
          rcases h with ⟨x, hx, hs⟩ | h
          · simp only [hpe, if_false, if_true, List.mem_singleton] at hx
            subst hx
            cases hs
          · exact h
    rw [weave] at hx
    cases ps with
    | nil =>
      have := piece [] (.inl (by simpa using hx))
      rwa [List.append_nil] at this
    | cons r rs =>
      rw [yieldWithSep_cons q p (by simp)]
      refine piece _ ?_
      obtain ⟨x, hx, hs⟩ := hx
      rcases List.mem_append.1 hx with hx | hx
      · exact .inl ⟨x, hx, hs⟩
      · right
        rw [splitOnString_sep]
        refine append_fail (deep_ok _) (.inr (ih ⟨x, ?_, hs⟩))
        simp only [List.cons_ne_nil, if_false] at hx
        rcases List.mem_cons.1 hx with rfl | hx
        · cases hs
        · exact hx

/-- The kinds of quotes that are not yet known to be single and escaped. -/
def LooseKinds (s : Str) (K : List Char) : Prop := ∀ k, isQuote k = true → k ∉ K → Lone k s

theorem splitTokens_loop {s : Str} (h : ∀ k, isQuote k = true → Lone k s) (hq : ∃ c ∈ s, isQuote c = true) :
    ∀ d, (splitTokens d s).fail = some .recursion := by
  intro d
  induction d with
  | zero => rfl
  | succ d ih =>
    obtain ⟨q, h1, h2, h3⟩ := first_quote hq
    have hqs : q ∈ s := List.mem_of_find?_eq_some h2
    have hse : s ≠ [] := by rintro rfl; cases hqs
    rw [splitTokens, h1]
    simp only
    rw [splitWithSep_cutAt, lone_cutAt (h q h3) hqs]
    have : yieldWithSep q [s] = [s] := by simp [yieldWithSep, hse]
    rw [this, splitOnString, if_neg (lone_ne (h q h3))]
    exact append_fail (splitTokens_deep _ _) (.inl ih)

/-- A text of which some part is stuck. -/
theorem splitTokens_stuck_parts [L : LawfulPyEnv E] (n : Nat) : ∀ (K : List Char) (s : Str), K.length ≤ n → LooseKinds s K →
    (∃ x ∈ parts n s, x.stuck = true) → ∀ d, (splitTokens d s).fail = some .recursion := by
  have bare : ∀ s : Str, (Part.code s).stuck = true → (∀ c ∈ s, isQuote c = false) →
      ∀ d, (splitTokens d s).fail = some .recursion := by
    intro s h hq d
    rw [Part.stuck, Bool.or_eq_true] at h
    rcases h with h | h
    · obtain ⟨c, hc, hcq⟩ := List.any_eq_true.1 h
      rw [hq c hc] at hcq
      cases hcq
    · exact splitTokens_stuck d s hq h
  induction n with
  | zero =>
    intro K s hK hl hx d
    have hK : K = [] := List.length_eq_zero_iff.1 (by omega)
    subst hK
    obtain ⟨x, hx, hs⟩ := hx
    rw [parts, List.mem_singleton] at hx
    subst hx
    by_cases hq : ∃ c ∈ s, isQuote c = true
    · exact splitTokens_loop (fun k hk => hl k hk (by simp)) hq d
    · exact bare s hs (fun c hc => by
        cases h : isQuote c
        · rfl
        · exact absurd ⟨c, hc, h⟩ hq) d
  | succ n ih =>
    intro K s hK hl hx d
    by_cases hq : ∃ c ∈ s, isQuote c = true
    · obtain ⟨q, h1, h2, h3⟩ := first_quote hq
      have hqb := not_backslash_of_quote h3
      have hqs : q ∈ s := List.mem_of_find?_eq_some h2
      rw [parts, h2] at hx
      simp only at hx
      have sub : ∀ p ∈ cutAt q [] false s, LooseKinds p (K.erase q) := by
        intro p hp k hk hkK
        by_cases hkq : k = q
        · subst hkq
          exact lone_cut k s [] false (by simp) p hp
        · exact lone_keep q k hqb hkq s [] false
            (by simpa using hl k hk fun h => hkK ((List.mem_erase_of_ne hkq).2 h)) p hp
      by_cases hqK : q ∈ K
      · cases d with
        | zero => rfl
        | succ d =>
          rw [splitTokens, h1]
          simp only
          rw [splitWithSep_cutAt]
          refine string_fail (splitTokens_deep d) _ (fun p hp => lone_ne (lone_cut q s [] false (by simp) p hp)) false hx
            fun p hp hx => ih (K.erase q) p (by rw [List.length_erase_of_mem hqK]; omega) (sub p hp) hx d
      · have hloop : ∀ d, (splitTokens d s).fail = some .recursion := by
          intro d
          induction d with
          | zero => rfl
          | succ d ihd =>
            have hse : s ≠ [] := by rintro rfl; cases hqs
            rw [splitTokens, h1]
            simp only
            rw [splitWithSep_cutAt, lone_cutAt (hl q h3 hqK) hqs]
            have : yieldWithSep q [s] = [s] := by simp [yieldWithSep, hse]
            rw [this, splitOnString, if_neg (lone_ne (hl q h3 hqK))]
            exact append_fail (splitTokens_deep _ _) (.inl ihd)
        exact hloop d
    · have hf : s.find? isQuote = none := by
        rw [List.find?_eq_none]
        intro c hc hcq
        exact hq ⟨c, hc, hcq⟩
      rw [parts, hf] at hx
      obtain ⟨x, hx, hs⟩ := hx
      simp only [List.mem_singleton] at hx
      subst hx
      exact bare s hs (fun c hc => by
        cases h : isQuote c
        · rfl
        · exact absurd ⟨c, hc, h⟩ hq) d

/-! ### Merging -/

theorem mergeStream_pairUp (n : Nat) : ∀ l : List Str, l.length ≤ n → (∀ t ∈ l, t ≠ []) →
    mergeStream mergeTokens none l = ⟨pairUp l, none⟩ := by
  induction n with
  | zero =>
    intro l hl _
    have : l = [] := by cases l <;> simp_all
    subst this; rfl
  | succ n ih =>
    intro l hl hne
    match l with
    | [] => rfl
    | [e] => rw [mergeStream_one]; rfl
    | e :: m :: rest =>
      simp only [List.length_cons] at hl
      rw [mergeStream_two none e m rest (hne m (by simp)), ih rest (by omega) (fun t ht => hne t (by simp [ht])),
        ih (m :: rest) (by simp; omega) (fun t ht => hne t (by simp at ht; simp [ht])), pairUp]
      have : startsMerge mergeTokens e = opens e := rfl
      rw [this, ← mergeTokens_eq]
      split
      · split <;> rfl
      · rfl

end

end SqlV
