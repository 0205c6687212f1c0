import Verif.Lemmas.Reads

/-! Token sequences in which everything is nested and stop words do not occur outside parentheses. -/

set_option linter.unusedSectionVars false

namespace SqlV.Core

open Scan

variable [E : PyEnv]

/-- A token that is neither a delimiter nor a quote nor one of the words. -/
def Quiet (base extra : List Str) (t : Str) : Prop :=
  isDelim t = false ∧ t ∉ quotes ∧ lower t ∉ base ∧ lower t ∉ extra ∧ lower t ∉ [str!")", str!"]"]

/-- Parentheses, brackets and CASE are nested, literals are closed, and the words do not occur outside
parentheses and brackets; `extra` may occur in CASE expressions.  Where FROM may occur, so may the pair WITH OFFSET. -/
inductive Tame : List Str → List Str → List Str → Prop
  | nil (base extra : List Str) : Tame base extra []
  | tok {base extra : List Str} (t : Str) (l : List Str) : Quiet base extra t → Tame base extra l →
      Tame base extra (t :: l)
  | str {base extra : List Str} (q : Str) (c l : List Str) : q ∈ quotes → (∀ t ∈ c, Quiet base extra t) →
      Tame base extra l → Tame base extra (q :: c ++ q :: l)
  | paren {base extra : List Str} (a l : List Str) : Tame [] [] a → Tame base extra l →
      Tame base extra (str!"(" :: a ++ str!")" :: l)
  | square {base extra : List Str} (a l : List Str) : Tame [] [] a → Tame base extra l →
      Tame base extra (str!"[" :: a ++ str!"]" :: l)
  | case {base extra : List Str} (c e : Str) (a l : List Str) : lower c = str!"case" →
      lower e = str!"end" → Tame base [] a → Tame base extra l → Tame base extra (c :: a ++ e :: l)
  | pair {base extra : List Str} (p t : Str) (l : List Str) : str!"from" ∉ base → lower p = str!"with" →
      lower t = str!"offset" → Tame base extra l → Tame base extra (p :: t :: l)

/-- The pair WITH OFFSET does not stop a scan. -/
def Pairs (base stop : List Str) (keep : List (Str × Str)) : Prop :=
  str!"from" ∈ base ∨ str!"with" ∉ stop ∧ (str!"offset" ∉ stop ∨ (str!"with", str!"offset") ∈ keep)

/-- Proves `Pairs` for the words that are looked for. -/
macro "pairs" : tactic => `(tactic| first
  | exact Or.inr ⟨by decide, Or.inl (by decide)⟩
  | exact Or.inl (by decide)
  | exact Or.inl (by simp)
  | exact Or.inr ⟨by decide, Or.inr (by decide)⟩)

theorem Tame.append {base extra a b : List Str} (ha : Tame base extra a) (hb : Tame base extra b) :
    Tame base extra (a ++ b) := by
  induction ha with
  | nil => exact hb
  | tok t l h _ ih => exact .tok t _ h (ih hb)
  | str q c l hq hc _ ih => rw [List.append_assoc, List.cons_append]; exact .str q c _ hq hc (ih hb)
  | paren a l h _ _ ih => rw [List.append_assoc, List.cons_append]; exact .paren a _ h (ih hb)
  | square a l h _ _ ih => rw [List.append_assoc, List.cons_append]; exact .square a _ h (ih hb)
  | case c e a l hc he h _ _ ih =>
    rw [List.append_assoc, List.cons_append]; exact .case c e a _ hc he h (ih hb)
  | pair p t l h hp ht _ ih => exact .pair p t _ h hp ht (ih hb)

theorem Quiet.mono {base extra base' extra' : List Str} {t : Str} (h : Quiet base extra t)
    (hb : ∀ w ∈ base', w ∈ base ∨ w ∈ extra) (he : ∀ w ∈ extra', w ∈ base ∨ w ∈ extra) :
    Quiet base' extra' t := by
  obtain ⟨h1, h2, h3, h4, h5⟩ := h
  refine ⟨h1, h2, fun h => ?_, fun h => ?_, h5⟩
  · rcases hb _ h with h | h
    · exact h3 h
    · exact h4 h
  · rcases he _ h with h | h
    · exact h3 h
    · exact h4 h

theorem Tame.mono {base extra l : List Str} (h : Tame base extra l) : ∀ {base' extra' : List Str},
    (∀ w ∈ base', w ∈ base) → (∀ w ∈ extra', w ∈ base ∨ w ∈ extra) → Tame base' extra' l := by
  induction h with
  | nil => intros; exact .nil _ _
  | tok t l h _ ih =>
    intro b e hb he
    exact .tok t _ (h.mono (fun w hw => .inl (hb w hw)) he) (ih hb he)
  | str q c l hq hc _ ih =>
    intro b e hb he
    exact .str q c _ hq (fun t ht => (hc t ht).mono (fun w hw => .inl (hb w hw)) he) (ih hb he)
  | paren a l h _ _ ih => intro b e hb he; exact .paren a _ h (ih hb he)
  | square a l h _ _ ih => intro b e hb he; exact .square a _ h (ih hb he)
  | case c e a l hc he h _ ih' ih =>
    intro b x hb hx
    exact .case c e a _ hc he (ih' hb (by simp)) (ih hb hx)
  | pair p t l h hp ht _ ih =>
    intro b x hb hx
    exact .pair p t _ (fun h' => h (hb _ h')) hp ht (ih hb hx)

theorem Tame.none {base extra l : List Str} (h : Tame base extra l) : Tame [] [] l :=
  h.mono (by simp) (by simp)

section
variable [L : LawfulPyEnv E]

theorem lower_quote {q : Str} (h : q ∈ quotes) : lower q = q := by
  simp only [quotes, List.mem_cons, List.not_mem_nil, or_false] at h
  rcases h with rfl | rfl | rfl <;> (rw [lower_ascii (by decide)]; decide)

theorem quote_not_delim {q : Str} (h : q ∈ quotes) : isDelim q = false := by
  unfold isDelim
  rw [lower_quote h]
  simp only [quotes, List.mem_cons, List.not_mem_nil, or_false] at h
  rcases h with rfl | rfl | rfl <;> decide

/-- The words WITH and OFFSET. -/
theorem quiet_pair {t w : Str} (h : lower t = w) (hw : w = str!"with" ∨ w = str!"offset") : Quiet [] [] t := by
  obtain ⟨b1, b2, b3, b4⟩ := not_bracket h (by rcases hw with rfl | rfl <;> decide)
  refine ⟨?_, fun hm => ?_, by simp, by simp, ?_⟩
  · rcases hw with rfl | rfl <;> simp [isDelim, b1, b2, b3, b4, h]
  · have := (lower_quote hm).symm.trans h
    subst this
    rcases hw with rfl | rfl <;> exact absurd hm (by decide)
  · rcases hw with rfl | rfl <;> simp [h]

theorem Nested.append {a b : List Str} (ha : Nested a) (hb : Nested b) : Nested (a ++ b) := by
  induction ha with
  | nil => exact hb
  | tok t l h _ ih => exact .tok t _ h ih
  | paren a l h _ _ ih => rw [List.append_assoc, List.cons_append]; exact .paren a _ h ih
  | square a l h _ _ ih => rw [List.append_assoc, List.cons_append]; exact .square a _ h ih
  | case c e a l hc he h _ _ ih => rw [List.append_assoc, List.cons_append]; exact .case c e a _ hc he h ih

theorem nested_of_quiet {base extra c : List Str} (h : ∀ t ∈ c, Quiet base extra t) : Nested c := by
  induction c with
  | nil => exact .nil
  | cons t c ih => exact .tok t c (h t (by simp)).1 (ih fun u hu => h u (by simp [hu]))

theorem Tame.nested {base extra l : List Str} (h : Tame base extra l) : Nested l := by
  induction h with
  | nil => exact .nil
  | tok t l h _ ih => exact .tok t _ h.1 ih
  | str q c l hq hc _ ih =>
    exact .tok q _ (quote_not_delim hq) (Nested.append (nested_of_quiet hc) (.tok q _ (quote_not_delim hq) ih))
  | paren a l _ _ iha ihl => exact .paren a l iha ihl
  | square a l _ _ iha ihl => exact .square a l iha ihl
  | case c e a l hc he _ _ iha ihl => exact .case c e a l hc he iha ihl
  | pair p t l _ hp ht _ ih => exact .tok p _ (quiet_pair hp (.inl rfl)).1 (.tok t _ (quiet_pair ht (.inr rfl)).1 ih)

theorem Tame.balanced {base extra l : List Str} (h : Tame base extra l) : Balanced l := by
  have key : ∀ l, Nested l → Balanced l := by
    intro l h
    induction h with
    | nil => exact .nil
    | tok t l ht _ ih =>
      simp only [isDelim, Bool.or_eq_false_iff, decide_eq_false_iff_not] at ht
      exact .tok t l ht.1.1.1.1.1 ht.1.1.1.1.2 ih
    | paren a l _ _ iha ihl => exact .group a l iha ihl
    | square a l _ _ iha ihl =>
      exact .tok _ _ (by decide) (by decide) (Balanced.append iha (.tok _ _ (by decide) (by decide) ihl))
    | case c e a l hc he _ _ iha ihl =>
      obtain ⟨c1, c2, -, -⟩ := not_bracket hc (by decide)
      obtain ⟨e1, e2, -, -⟩ := not_bracket he (by decide)
      exact .tok _ _ c1 c2 (Balanced.append iha (.tok _ _ e1 e2 ihl))
  exact key l h.nested

theorem clause_append {stop : List Str} {keep : List (Str × Str)} {a b : List Str}
    (ha : Clause stop keep a) (hb : Clause stop keep b) : Clause stop keep (a ++ b) := by
  induction ha with
  | nil => exact hb
  | tok t l h h' _ ih => exact .tok t _ h h' ih
  | kept p t l h1 h2 h3 h4 _ ih => exact .kept p t _ h1 h2 h3 h4 ih
  | paren a l h _ ih => rw [List.append_assoc, List.cons_append]; exact .paren a _ h ih
  | square a l h _ ih => rw [List.append_assoc, List.cons_append]; exact .square a _ h ih
  | case c e a l hc he h _ ih => rw [List.append_assoc, List.cons_append]; exact .case c e a _ hc he h ih

/-- Scans for the words find none. -/
theorem Tame.clause {base extra l : List Str} (h : Tame base extra l) {stop : List Str}
    (hs : ∀ w ∈ stop, w ∈ base ∨ w ∈ extra) (hq : ∀ q ∈ quotes, q ∉ stop)
    (keep : List (Str × Str)) (hp : Pairs base stop keep) : Clause stop keep l := by
  have hquiet : ∀ {base extra : List Str} {t : Str}, Quiet base extra t →
      (∀ w ∈ stop, w ∈ base ∨ w ∈ extra) → lower t ∉ stop := by
    intro base extra t h hs hm
    rcases hs _ hm with h' | h'
    · exact h.2.2.1 h'
    · exact h.2.2.2.1 h'
  have hlist : ∀ {base extra c : List Str}, (∀ t ∈ c, Quiet base extra t) →
      (∀ w ∈ stop, w ∈ base ∨ w ∈ extra) → Clause stop keep c := by
    intro base extra c h hs
    induction c with
    | nil => exact .nil
    | cons t c ih =>
      exact .tok t c (h t (by simp)).1 (hquiet (h t (by simp)) hs) (ih fun u hu => h u (by simp [hu]))
  have hq' : ∀ q ∈ quotes, lower q ∉ stop := fun q h => by rw [lower_quote h]; exact hq q h
  induction h with
  | nil => exact .nil
  | tok t l h _ ih => exact .tok t _ h.1 (hquiet h hs) (ih hs hp)
  | str q c l h hc _ ih =>
    exact .tok q _ (quote_not_delim h) (hq' q h)
      (clause_append (hlist hc hs) (.tok q _ (quote_not_delim h) (hq' q h) (ih hs hp)))
  | paren a l h _ _ ih => exact .paren a l h.nested (ih hs hp)
  | square a l h _ _ ih => exact .square a l h.nested (ih hs hp)
  | case c e a l hc he h _ _ ih => exact .case c e a l hc he h.nested (ih hs hp)
  | pair p t l h h1 h2 _ ih =>
    have d1 := (quiet_pair h1 (.inl rfl)).1
    have d2 := (quiet_pair h2 (.inr rfl)).1
    rcases hp with h3 | ⟨h3, h4 | h4⟩
    · exact absurd h3 h
    · exact .tok p _ d1 (h1 ▸ h3) (.tok t _ d2 (h2 ▸ h4) (ih hs (.inr ⟨h3, .inl h4⟩)))
    · exact .kept p t _ d1 (h1 ▸ h3) d2 (by rw [h1, h2]; exact h4) (ih hs (.inr ⟨h3, .inr h4⟩))

/-- Inside parentheses or brackets. -/
def Inside (d : Depth) : Prop := 0 < d.paren ∨ 0 < d.square

/-- The same, whatever the counter of CASE expressions is, for words that do not occur in them. -/
theorem scanOneOf_tame {base extra l : List Str} (h : Tame base extra l) {stop : List Str}
    (hs : ∀ w ∈ stop, w ∈ base) (hq : ∀ w ∈ stop, w ∉ quotes ++ [str!"(", str!"[", str!"case", str!"end"])
    (keep : List (Str × Str)) (hp : Pairs base stop keep) :
    ∀ (last : Option Str) (d : Depth) (rest : List Str), d.paren = 0 → d.square = 0 → 
    scanOneOf stop keep last d (l ++ rest) =
      (l ++ (scanOneOf stop keep (lastOf last l) d rest).1,
        (scanOneOf stop keep (lastOf last l) d rest).2) := by
  have hno : ∀ (last : Option Str) (d : Depth) (t : Str), lower t ∉ stop →
      stopsHere stop keep last d t = false := by
    intro last d t ht; simp [stopsHere, ht]
  have hcont : ∀ {base extra c : List Str}, (∀ t ∈ c, Quiet base extra t) → (∀ w ∈ stop, w ∈ base) →
      ∀ (last : Option Str) (d : Depth) (rest : List Str),
      scanOneOf stop keep last d (c ++ rest) =
      (c ++ (scanOneOf stop keep (lastOf last c) d rest).1,
        (scanOneOf stop keep (lastOf last c) d rest).2) := by
    intro base extra c h hs
    induction c with
    | nil => intros; rfl
    | cons t c ih =>
      intro last d rest
      have ht := h t (by simp)
      rw [List.cons_append, scanOneOf_cons _ _ _ _ _ _ (hno _ _ _ fun hm => ht.2.2.1 (hs _ hm)),
        Depth.step_of_not_delim ht.1, ih fun u hu => h u (by simp [hu])]
      rfl
  have hst : ∀ (last : Option Str) (d : Depth) (t : Str), Inside d →
      stopsHere stop keep last d t = false := by
    intro last d t hd
    rcases hd with hd | hd
    · have : decide (d.paren ≤ 0) = false := by simpa using hd
      simp [stopsHere, this]
    · have : decide (d.square ≤ 0) = false := by simpa using hd
      simp [stopsHere, this]
  -- inside parentheses and brackets nothing stops the scan
  have hin : ∀ {a : List Str}, Nested a → ∀ (last : Option Str) (d : Depth) (rest : List Str),
      Inside d →
      scanOneOf stop keep last d (a ++ rest) =
      (a ++ (scanOneOf stop keep (lastOf last a) d rest).1,
        (scanOneOf stop keep (lastOf last a) d rest).2) := by
    intro a ha
    have hg : ∀ (o c : Str) (a l : List Str) (up down : Depth → Depth),
        (∀ d, d.step o = up d) → (∀ d, d.step c = down d) → (∀ d, down (up d) = d) →
        (∀ d : Depth, Inside d → Inside (up d)) →
        (∀ (last : Option Str) (d : Depth) (rest : List Str), Inside d →
          scanOneOf stop keep last d (a ++ rest) =
          (a ++ (scanOneOf stop keep (lastOf last a) d rest).1,
            (scanOneOf stop keep (lastOf last a) d rest).2)) →
        (∀ (last : Option Str) (d : Depth) (rest : List Str), Inside d →
          scanOneOf stop keep last d (l ++ rest) =
          (l ++ (scanOneOf stop keep (lastOf last l) d rest).1,
            (scanOneOf stop keep (lastOf last l) d rest).2)) →
        ∀ (last : Option Str) (d : Depth) (rest : List Str), Inside d →
          scanOneOf stop keep last d ((o :: a ++ c :: l) ++ rest) =
          ((o :: a ++ c :: l) ++ (scanOneOf stop keep (lastOf last (o :: a ++ c :: l)) d rest).1,
            (scanOneOf stop keep (lastOf last (o :: a ++ c :: l)) d rest).2) := by
      intro o c a l up down ho hc hud hup iha ihl last d rest hd
      simp only [List.cons_append, List.append_assoc, lastOf, lastOf_append]
      rw [scanOneOf_cons _ _ _ _ _ _ (hst _ _ _ hd), ho, iha _ _ _ (hup d hd),
        scanOneOf_cons _ _ _ _ _ _ (hst _ _ _ (hup d hd)), hc, hud, ihl _ _ _ hd]
    induction ha with
    | nil => intros; rfl
    | tok t l ht _ ih =>
      intro last d rest hd
      rw [List.cons_append, scanOneOf_cons _ _ _ _ _ _ (hst _ _ _ hd), Depth.step_of_not_delim ht, ih _ _ _ hd]
      rfl
    | paren a l _ _ iha ihl =>
      refine hg _ _ a l (fun d => { d with paren := d.paren + 1 })
        (fun d => { d with paren := d.paren - 1 }) (fun d => rfl) (fun d => rfl) ?_ ?_ iha ihl
      · intro d; cases d; simp
      · intro d h; simp only [Inside] at h ⊢; omega
    | square a l _ _ iha ihl =>
      refine hg _ _ a l (fun d => { d with square := d.square + 1 })
        (fun d => { d with square := d.square - 1 }) (fun d => rfl) (fun d => rfl) ?_ ?_ iha ihl
      · intro d; cases d; simp
      · intro d h; simp only [Inside] at h ⊢; omega
    | case c e a l hc he _ _ iha ihl =>
      obtain ⟨c1, c2, c3, c4⟩ := not_bracket hc (by decide)
      obtain ⟨e1, e2, e3, e4⟩ := not_bracket he (by decide)
      refine hg c e a l (fun d => { d with caseE := d.caseE + 1 })
        (fun d => { d with caseE := d.caseE - 1 })
        (fun d => step_case hc d c1 c2 c3 c4) (fun d => step_end he d e1 e2 e3 e4) ?_ ?_ iha ihl
      · intro d; cases d; simp
      · intro d h; exact h
  induction h with
  | nil => intros; rfl
  | tok t l h _ ih =>
    intro last d rest h1 h2
    rw [List.cons_append, scanOneOf_cons _ _ _ _ _ _ (hno _ _ _ fun hm => h.2.2.1 (hs _ hm)),
      Depth.step_of_not_delim h.1, ih hs hp _ _ _ h1 h2]
    rfl
  | str q c l h hc _ ih =>
    intro last d rest h1 h2
    have hql : lower q ∉ stop := by
      rw [lower_quote h]; exact fun hm => hq _ hm (by simp [h])
    simp only [List.cons_append, List.append_assoc, lastOf, lastOf_append]
    rw [scanOneOf_cons _ _ _ _ _ _ (hno _ _ _ hql), Depth.step_of_not_delim (quote_not_delim h),
      hcont hc hs, scanOneOf_cons _ _ _ _ _ _ (hno _ _ _ hql),
      Depth.step_of_not_delim (quote_not_delim h), ih hs hp _ _ _ h1 h2]
  | paren a l h _ _ ih =>
    intro last d rest h1 h2
    have hpl : lower str!"(" ∉ stop := by
      rw [lower_bracket (by decide)]; exact fun hm => hq _ hm (by simp)
    have hd : Inside (d.step str!"(") := .inl (by simp [Depth.step, h1])
    have hd2 : (d.step str!"(").step str!")" = d := by
      cases d; simp [Depth.step]
    simp only [List.cons_append, List.append_assoc, lastOf, lastOf_append]
    rw [scanOneOf_cons _ _ _ _ _ _ (hno _ _ _ hpl), hin h.nested _ _ _ hd,
      scanOneOf_cons _ _ _ _ _ _ (hst _ _ _ hd), hd2, ih hs hp _ _ _ h1 h2]
  | square a l h _ _ ih =>
    intro last d rest h1 h2
    have hpl : lower str!"[" ∉ stop := by
      rw [lower_bracket (by decide)]; exact fun hm => hq _ hm (by simp)
    have hd : Inside (d.step str!"[") := .inr (by simp [Depth.step, h2])
    have hd2 : (d.step str!"[").step str!"]" = d := by
      cases d; simp [Depth.step]
    simp only [List.cons_append, List.append_assoc, lastOf, lastOf_append]
    rw [scanOneOf_cons _ _ _ _ _ _ (hno _ _ _ hpl), hin h.nested _ _ _ hd,
      scanOneOf_cons _ _ _ _ _ _ (hst _ _ _ hd), hd2, ih hs hp _ _ _ h1 h2]
  | case c e a l hc he h _ ih' ih =>
    intro last d rest h1 h2
    obtain ⟨c1, c2, c3, c4⟩ := not_bracket hc (by decide)
    obtain ⟨e1, e2, e3, e4⟩ := not_bracket he (by decide)
    have hcs : lower c ∉ stop := by rw [hc]; exact fun hm => hq _ hm (by simp)
    have hes : lower e ∉ stop := by rw [he]; exact fun hm => hq _ hm (by simp)
    have hd : ({ d with caseE := d.caseE + 1 } : Depth).step e = d := by
      rw [step_end he _ e1 e2 e3 e4]; cases d; simp
    simp only [List.cons_append, List.append_assoc, lastOf, lastOf_append]
    rw [scanOneOf_cons _ _ _ _ _ _ (hno _ _ _ hcs), step_case hc _ c1 c2 c3 c4,
      ih' hs hp _ ⟨d.paren, d.square, d.caseE + 1⟩ _ h1 h2,
      scanOneOf_cons _ _ _ _ _ _ (hno _ _ _ hes), hd, ih hs hp _ _ _ h1 h2]
  | pair p t l h g1 g2 _ ih =>
    intro last d rest h1 h2
    have e1 : stopsHere stop keep last d p = false := by
      rcases hp with h3 | ⟨h3, -⟩
      · exact absurd h3 h
      · exact hno _ _ _ (g1 ▸ h3)
    have e2 : stopsHere stop keep (some p) d t = false := by
      rcases hp with h3 | ⟨-, h4 | h4⟩
      · exact absurd h3 h
      · exact hno _ _ _ (g2 ▸ h4)
      · simp [stopsHere, g1, g2, h4]
    rw [List.cons_append, List.cons_append, scanOneOf_cons _ _ _ _ _ _ e1,
      Depth.step_of_not_delim (quiet_pair g1 (.inl rfl)).1, scanOneOf_cons _ _ _ _ _ _ e2,
      Depth.step_of_not_delim (quiet_pair g2 (.inr rfl)).1, ih hs hp _ _ _ h1 h2]
    rfl

/-- With a first token the counters do not start at zero, and CASE only counts in lower case. -/
theorem scanOneOf_tame_first {base extra l : List Str} {t : Str} (h : Tame base extra (t :: l)) {stop : List Str}
    (hs : ∀ w ∈ stop, w ∈ base) (hq : ∀ w ∈ stop, w ∉ quotes ++ [str!"(", str!"[", str!"case", str!"end"])
    (keep : List (Str × Str)) (hp : Pairs base stop keep) (rest : List Str) : ∃ c : Int, c ≤ 0 ∧
    scanOneOf stop keep (some t) (Depth.init (some t)) (l ++ rest) =
      (l ++ (scanOneOf stop keep (lastOf (some t) l) ⟨0, 0, c⟩ rest).1,
        (scanOneOf stop keep (lastOf (some t) l) ⟨0, 0, c⟩ rest).2) := by
  obtain ⟨c, hc, hst⟩ : ∃ c : Int, c ≤ 0 ∧ (⟨0, 0, c⟩ : Depth).step t = Depth.init (some t) := by
    by_cases hb : t ∈ [str!"(", str!")", str!"[", str!"]"]
    · refine ⟨0, Int.le_refl _, ?_⟩
      have : t ≠ str!")" ∧ t ≠ str!"]" := by
        constructor
        · rintro rfl
          cases h with
          | tok _ _ h => exact absurd h.1 (by simp [isDelim])
          | str _ _ _ h => exact absurd h (by decide)
          | case _ _ _ _ h => rw [lower_bracket (by decide)] at h; exact absurd h (by decide)
          | pair _ _ _ _ h => rw [lower_bracket (by decide)] at h; exact absurd h (by decide)
        · rintro rfl
          cases h with
          | tok _ _ h => exact absurd h.1 (by simp [isDelim])
          | str _ _ _ h => exact absurd h (by decide)
          | case _ _ _ _ h => rw [lower_bracket (by decide)] at h; exact absurd h (by decide)
          | pair _ _ _ _ h => rw [lower_bracket (by decide)] at h; exact absurd h (by decide)
      simp only [List.mem_cons, List.not_mem_nil, or_false] at hb
      rcases hb with rfl | rfl | rfl | rfl
      · rfl
      · exact absurd rfl this.1
      · rfl
      · exact absurd rfl this.2
    · simp only [List.mem_cons, List.not_mem_nil, or_false, not_or] at hb
      obtain ⟨b1, b2, b3, b4⟩ := hb
      by_cases hl : lower t = str!"case"
      · by_cases he : t = str!"case"
        · subst he
          exact ⟨0, Int.le_refl _, by simp [Depth.step, Depth.init, hl]⟩
        · exact ⟨-1, by decide, by simp [Depth.step, Depth.init, b1, b2, b3, b4, hl, he]⟩
      · have he : t ≠ str!"case" := by
          rintro rfl
          exact hl (lower_self (by decide) (by decide))
        by_cases hend : lower t = str!"end"
        · exfalso
          cases h with
          | tok _ _ h => exact absurd h.1 (by simp [isDelim, hend])
          | str _ _ _ h => rw [lower_quote h] at hend; rw [hend] at h; exact absurd h (by decide)
          | paren => exact b1 rfl
          | square => exact b3 rfl
          | case _ _ _ _ h => rw [h] at hend; exact absurd hend (by decide)
          | pair _ _ _ _ h => rw [h] at hend; exact absurd hend (by decide)
        · exact ⟨0, Int.le_refl _, by simp [Depth.step, Depth.init, b1, b2, b3, b4, hl, he, hend]⟩
  refine ⟨c, hc, ?_⟩
  have key := scanOneOf_tame h hs hq keep hp none ⟨0, 0, c⟩ rest rfl rfl
  by_cases hn : stopsHere stop keep none ⟨0, 0, c⟩ t = true
  · rw [List.cons_append, scanOneOf, if_pos hn] at key
    simp at key
  · rw [List.cons_append, scanOneOf_cons _ _ _ _ _ _ (by simpa using hn), hst] at key
    simp only [List.cons_append, Prod.mk.injEq, List.cons.injEq, true_and, lastOf] at key
    exact Prod.ext key.1 key.2

/-! ### The scanning functions -/

/-- The last token of a sequence, if it is followed by a kept word, would matter. -/
def NoKeep (keep : List (Str × Str)) (last : Option Str) (w : Str) : Prop :=
  ∀ l, last = some l → (lower l, lower w) ∉ keep

theorem stopsHere_true {stop : List Str} {keep : List (Str × Str)} {last : Option Str} {c : Int} {w : Str}
    (hw : lower w ∈ stop) (hc : c ≤ 0) (hk : NoKeep keep last w) :
    stopsHere stop keep last ⟨0, 0, c⟩ w = true := by
  unfold stopsHere
  cases last with
  | none => simp [hw, hc]
  | some l => simp [hw, hc, hk l rfl]

theorem untilOneOf_stop {base extra l : List Str} (h : Tame base extra l) {stop : List Str}
    (hs : ∀ w ∈ stop, w ∈ base ∨ w ∈ extra) (hq : ∀ w ∈ stop, w ∉ quotes ++ [str!"(", str!"[", str!"case"])
    (keep : List (Str × Str)) {w : Str} (hw : lower w ∈ stop) (hk : NoKeep keep (lastOf none l) w)
    (rest : List Str) (f : Option PyErr) (hp : Pairs base stop keep := by pairs) :
    untilOneOf stop none keep ⟨l ++ w :: rest, f⟩ = .ok ((l, some w), ⟨rest, f⟩) := by
  have h1 := scanOneOf_clause (h.clause hs (fun q hq' hm => hq q hm (by simp [hq'])) keep hp)
    ⟨fun hm => hq _ hm (by simp), fun hm => hq _ hm (by simp), fun hm => hq _ hm (by simp)⟩ none (w :: rest)
  have h2 : scanOneOf stop keep (lastOf none l) Depth.zero (w :: rest) = ([], some w, rest) := by
    unfold Depth.zero
    rw [scanOneOf, if_pos (stopsHere_true hw (Int.le_refl 0) hk)]
  rw [h2] at h1
  unfold untilOneOf
  have h3 : Depth.init none = Depth.zero := rfl
  simp only [h3, h1, Option.toList, List.nil_append, List.append_nil]
  rfl

theorem untilOneOf_end {base extra l : List Str} (h : Tame base extra l) {stop : List Str}
    (hs : ∀ w ∈ stop, w ∈ base ∨ w ∈ extra) (hq : ∀ w ∈ stop, w ∉ quotes ++ [str!"(", str!"[", str!"case"])
    (keep : List (Str × Str)) (hp : Pairs base stop keep := by pairs) :
    untilOneOf stop none keep ⟨l, none⟩ = .ok ((l, none), ⟨[], none⟩) := by
  have h1 := scanOneOf_clause (h.clause hs (fun q hq' hm => hq q hm (by simp [hq'])) keep hp)
    ⟨fun hm => hq _ hm (by simp), fun hm => hq _ hm (by simp), fun hm => hq _ hm (by simp)⟩ none []
  rw [List.append_nil] at h1
  unfold untilOneOf
  have h3 : Depth.init none = Depth.zero := rfl
  simp only [h3, h1, Option.toList, List.nil_append, scanOneOf, List.append_nil]
  rfl

theorem untilOneOf_first_stop {base extra l : List Str} {t : Str} (h : Tame base extra (t :: l)) {stop : List Str}
    (hs : ∀ w ∈ stop, w ∈ base) (hq : ∀ w ∈ stop, w ∉ quotes ++ [str!"(", str!"[", str!"case", str!"end"])
    (keep : List (Str × Str)) {w : Str} (hw : lower w ∈ stop) (hk : NoKeep keep (lastOf (some t) l) w)
    (rest : List Str) (f : Option PyErr) (hp : Pairs base stop keep := by pairs) :
    untilOneOf stop (some t) keep ⟨l ++ w :: rest, f⟩ = .ok ((t :: l, some w), ⟨rest, f⟩) := by
  obtain ⟨c, hc, h1⟩ := scanOneOf_tame_first h hs hq keep hp (w :: rest)
  have h2 : scanOneOf stop keep (lastOf (some t) l) ⟨0, 0, c⟩ (w :: rest) = ([], some w, rest) := by
    rw [scanOneOf, if_pos (stopsHere_true hw hc hk)]
  rw [h2] at h1
  unfold untilOneOf
  simp only [h1, Option.toList, List.append_nil]
  rfl

theorem untilOneOf_first_end {base extra l : List Str} {t : Str} (h : Tame base extra (t :: l)) {stop : List Str}
    (hs : ∀ w ∈ stop, w ∈ base) (hq : ∀ w ∈ stop, w ∉ quotes ++ [str!"(", str!"[", str!"case", str!"end"])
    (keep : List (Str × Str)) (hp : Pairs base stop keep := by pairs) :
    untilOneOf stop (some t) keep ⟨l, none⟩ = .ok ((t :: l, none), ⟨[], none⟩) := by
  obtain ⟨c, hc, h1⟩ := scanOneOf_tame_first h hs hq keep hp []
  rw [List.append_nil] at h1
  unfold untilOneOf
  simp only [h1, Option.toList, scanOneOf, List.append_nil]
  rfl

/-- Without stop words everything is read. -/
theorem untilOneOf_all (first : Option Str) (l : List Str) :
    untilOneOf [] first [] ⟨l, none⟩ = .ok ((first.toList ++ l, none), ⟨[], none⟩) := by
  have h : ∀ (l : List Str) (last : Option Str) (d : Depth), scanOneOf [] [] last d l = (l, none, []) := by
    intro l
    induction l with
    | nil => intros; rfl
    | cons t l ih => intro last d; rw [scanOneOf_cons _ _ _ _ _ _ (by simp [stopsHere]), ih]
  unfold untilOneOf
  simp only [h]
  rfl

theorem untilClosing_tame {base extra l : List Str} (h : Tame base extra l) (rest : List Str)
    (f : Option PyErr) :
    untilClosing none ⟨l ++ str!")" :: rest, f⟩ = .ok (l, ⟨rest, f⟩) := by
  unfold untilClosing
  simp only [scanClosing_close h.balanced rest]
  rfl

theorem untilClosing_tame_first {base extra l : List Str} {t : Str} (h : Tame base extra (t :: l)) (ht : t ≠ [])
    (rest : List Str) (f : Option PyErr) :
    untilClosing (some t) ⟨l ++ str!")" :: rest, f⟩ = .ok (t :: l, ⟨rest, f⟩) := by
  unfold untilClosing
  have h1 : t.isEmpty = false := by simpa using ht
  have h2 := scanClosing_close h.balanced rest
  rw [List.cons_append] at h2
  simp only [h1, Bool.false_eq_true, if_false, h2]
  rfl

theorem untilClosing_empty_first (rest : List Str) (f : Option PyErr) :
    untilClosing (some str!")") ⟨rest, f⟩ = .ok ([], ⟨rest, f⟩) := by
  unfold untilClosing
  simp [scanClosing, afterScan]

/-- END never stands outside CASE expressions. -/
theorem Tame.withEnd {base extra l : List Str} (h : Tame base extra l) : Tame (str!"end" :: base) extra l := by
  have hq : ∀ {base extra : List Str} {t : Str}, Quiet base extra t → Quiet (str!"end" :: base) extra t := by
    intro base extra t h
    refine ⟨h.1, h.2.1, ?_, h.2.2.2⟩
    have h1 := h.1
    simp only [isDelim, Bool.or_eq_false_iff, decide_eq_false_iff_not] at h1
    simp only [List.mem_cons, not_or]
    exact ⟨h1.2, h.2.2.1⟩
  induction h with
  | nil => exact .nil _ _
  | tok t l h _ ih => exact .tok t _ (hq h) ih
  | str q c l h hc _ ih => exact .str q c l h (fun t ht => hq (hc t ht)) ih
  | paren a l h _ _ ih => exact .paren a l h ih
  | square a l h _ _ ih => exact .square a l h ih
  | case c e a l hc he _ _ ih1 ih2 => exact .case c e a l hc he ih1 ih2
  | pair p t l h hp ht _ ih => exact .pair p t l (by simpa using h) hp ht ih

/-- Words that are not among the tokens may be added. -/
theorem Tame.with {base extra l ws : List Str} (h : Tame base extra l) (hw : ∀ t ∈ l, lower t ∉ ws)
    (hf : str!"from" ∉ ws := by decide) :
    Tame (ws ++ base) extra l := by
  have hq : ∀ {base extra : List Str} {t : Str}, Quiet base extra t → lower t ∉ ws → Quiet (ws ++ base) extra t := by
    intro base extra t h h'
    refine ⟨h.1, h.2.1, ?_, h.2.2.2⟩
    rw [List.mem_append, not_or]
    exact ⟨h', h.2.2.1⟩
  induction h with
  | nil => exact .nil _ _
  | tok t l h _ ih => exact .tok t _ (hq h (hw t (by simp))) (ih fun u hu => hw u (by simp [hu]))
  | str q c l h hc _ ih =>
    exact .str q c l h (fun t ht => hq (hc t ht) (hw t (by simp [ht]))) (ih fun u hu => hw u (by simp [hu]))
  | paren a l h _ _ ih => exact .paren a l h (ih fun u hu => hw u (by simp [hu]))
  | square a l h _ _ ih => exact .square a l h (ih fun u hu => hw u (by simp [hu]))
  | case c e a l hc he _ _ ih1 ih2 =>
    exact .case c e a l hc he (ih1 fun u hu => hw u (by simp [hu])) (ih2 fun u hu => hw u (by simp [hu]))
  | pair p t l h hp ht _ ih =>
    exact .pair p t l (by rw [List.mem_append, not_or]; exact ⟨hf, h⟩) hp ht (ih fun u hu => hw u (by simp [hu]))

/-- Closing brackets never stand outside. -/
theorem Tame.withClose {base extra l : List Str} (h : Tame base extra l) :
    Tame (str!")" :: str!"]" :: base) extra l := by
  have hq : ∀ {base extra : List Str} {t : Str}, Quiet base extra t →
      Quiet (str!")" :: str!"]" :: base) extra t := by
    intro base extra t h
    refine ⟨h.1, h.2.1, ?_, h.2.2.2⟩
    have h1 := h.2.2.2.2
    simp only [List.mem_cons, List.not_mem_nil, or_false, not_or] at h1 ⊢
    exact ⟨h1.1, h1.2, h.2.2.1⟩
  induction h with
  | nil => exact .nil _ _
  | tok t l h _ ih => exact .tok t _ (hq h) ih
  | str q c l h hc _ ih => exact .str q c l h (fun t ht => hq (hc t ht)) ih
  | paren a l h _ _ ih => exact .paren a l h ih
  | square a l h _ _ ih => exact .square a l h ih
  | case c e a l hc he _ _ ih1 ih2 => exact .case c e a l hc he ih1 ih2
  | pair p t l h hp ht _ ih => exact .pair p t l (by simpa using h) hp ht ih

/-- A first token is counted as any other, unless it is CASE. -/
theorem step_init {base extra l : List Str} {t : Str} (h : Tame base extra (t :: l)) (hc : lower t ≠ str!"case") :
    Depth.zero.step t = Depth.init (some t) := by
  have he : t ≠ str!"case" := by
    rintro rfl
    exact hc (lower_self (by decide) (by decide))
  by_cases hb : t ∈ [str!"(", str!")", str!"[", str!"]"]
  · simp only [List.mem_cons, List.not_mem_nil, or_false] at hb
    rcases hb with rfl | rfl | rfl | rfl
    · rfl
    · exfalso
      cases h with
      | tok _ _ h => exact absurd h.1 (by simp [isDelim])
      | str _ _ _ h => exact absurd h (by decide)
      | case _ _ _ _ h => exact hc h
      | pair _ _ _ _ h => rw [lower_bracket (by decide)] at h; exact absurd h (by decide)
    · rfl
    · exfalso
      cases h with
      | tok _ _ h => exact absurd h.1 (by simp [isDelim])
      | str _ _ _ h => exact absurd h (by decide)
      | case _ _ _ _ h => exact hc h
      | pair _ _ _ _ h => rw [lower_bracket (by decide)] at h; exact absurd h (by decide)
  · simp only [List.mem_cons, List.not_mem_nil, or_false, not_or] at hb
    obtain ⟨b1, b2, b3, b4⟩ := hb
    have hend : lower t ≠ str!"end" := by
      intro hend
      cases h with
      | tok _ _ h => exact absurd h.1 (by simp [isDelim, hend])
      | str _ _ _ h => rw [lower_quote h] at hend; rw [hend] at h; exact absurd h (by decide)
      | paren => exact b1 rfl
      | square => exact b3 rfl
      | case _ _ _ _ h => exact hc h
      | pair _ _ _ _ h => rw [h] at hend; exact absurd hend (by decide)
    simp [Depth.zero, Depth.step, Depth.init, b1, b2, b3, b4, hc, he, hend]

/-- Unless the first token is CASE, the words may occur in CASE expressions. -/
theorem untilOneOf_first_stop' {base extra l : List Str} {t : Str} (h : Tame base extra (t :: l))
    (hc : lower t ≠ str!"case") {stop : List Str} (hs : ∀ w ∈ stop, w ∈ base ∨ w ∈ extra)
    (hq : ∀ w ∈ stop, w ∉ quotes ++ [str!"(", str!"[", str!"case"])
    (keep : List (Str × Str)) {w : Str} (hw : lower w ∈ stop) (hk : NoKeep keep (lastOf (some t) l) w)
    (rest : List Str) (f : Option PyErr) (hp : Pairs base stop keep := by pairs) :
    untilOneOf stop (some t) keep ⟨l ++ w :: rest, f⟩ = .ok ((t :: l, some w), ⟨rest, f⟩) := by
  have h1 := scanOneOf_clause (h.clause hs (fun q hq' hm => hq q hm (by simp [hq'])) keep hp)
    ⟨fun hm => hq _ hm (by simp), fun hm => hq _ hm (by simp), fun hm => hq _ hm (by simp)⟩ none (w :: rest)
  have h2 : scanOneOf stop keep (lastOf none (t :: l)) Depth.zero (w :: rest) = ([], some w, rest) := by
    show scanOneOf stop keep (lastOf (some t) l) ⟨0, 0, 0⟩ (w :: rest) = _
    rw [scanOneOf, if_pos (stopsHere_true hw (Int.le_refl 0) hk)]
  rw [h2] at h1
  by_cases hn : stopsHere stop keep none Depth.zero t = true
  · rw [List.cons_append, scanOneOf, if_pos hn] at h1
    simp at h1
  · rw [List.cons_append, scanOneOf_cons _ _ _ _ _ _ (by simpa using hn), step_init h hc] at h1
    unfold untilOneOf
    simp only [List.append_nil, Prod.mk.injEq, List.cons.injEq, true_and] at h1
    obtain ⟨e1, e2⟩ := h1
    simp only [e1, e2]
    rfl

/-- The last token is none of the words. -/
theorem Tame.last {base extra l : List Str} (h : Tame base extra l) {w : Str} (hw : w ∈ base)
    (h' : w ∉ quotes ++ [str!")", str!"]", str!"end", str!"offset"]) : ∀ {last : Option Str} {t : Str}, lastOf last l = some t →
    (l = [] ∧ last = some t) ∨ lower t ≠ w := by
  have hq : ∀ q ∈ quotes, lower q ≠ w := fun q hq he => by
    rw [lower_quote hq] at he; subst he; exact h' (by simp [hq])
  have key : ∀ {last : Option Str} {a l : List Str} {u t : Str}, lower u ≠ w →
      (∀ {last : Option Str} {t : Str}, lastOf last l = some t → (l = [] ∧ last = some t) ∨ lower t ≠ w) →
      lastOf last (a ++ u :: l) = some t → lower t ≠ w := by
    intro last a l u t hu ih h
    rw [lastOf_append] at h
    rcases ih h with ⟨-, h⟩ | h
    · cases h; exact hu
    · exact h
  induction h with
  | nil => intro last t h; exact .inl ⟨rfl, h⟩
  | tok u l h _ ih =>
    intro last t ht
    exact .inr (key (a := []) (last := last) (fun he => h.2.2.1 (by rw [he]; exact hw)) (ih hw) ht)
  | str q c l h _ _ ih =>
    intro last t ht
    exact .inr (key (a := q :: c) (hq q h) (ih hw) ht)
  | paren a l _ _ _ ih =>
    intro last t ht
    refine .inr (key (a := str!"(" :: a) (u := str!")") ?_ (ih hw) ht)
    rw [lower_self (by decide) (by decide)]
    rintro rfl
    exact h' (by simp)
  | square a l _ _ _ ih =>
    intro last t ht
    refine .inr (key (a := str!"[" :: a) (u := str!"]") ?_ (ih hw) ht)
    rw [lower_self (by decide) (by decide)]
    rintro rfl
    exact h' (by simp)
  | case c e a l hc he _ _ _ ih =>
    intro last t ht
    refine .inr (key (a := c :: a) (u := e) ?_ (ih hw) ht)
    rw [he]
    rintro rfl
    exact h' (by simp)
  | pair p u l h hp hu _ ih =>
    intro last t ht
    refine .inr (key (a := [p]) (u := u) ?_ (ih hw) ht)
    rw [hu]
    rintro rfl
    exact h' (by simp)

/-! ### Splitting at commas -/

/-- The state outside everything. -/
def _root_.SqlV.ListState.zero : ListState := ⟨0, 0, false⟩

/-- Running over a sequence. -/
def _root_.SqlV.ListState.run (d : ListState) (l : List Str) : ListState := l.foldl ListState.step d

/-- In no state before the end is a comma a separator. -/
def NoSplit (d : ListState) : List Str → Prop
  | [] => True
  | t :: l => ¬ (t = str!"," ∧ d.paren = 0 ∧ d.square = 0 ∧ d.inString = false) ∧ NoSplit (d.step t) l

theorem noSplit_append {d : ListState} {a b : List Str} :
    NoSplit d (a ++ b) ↔ NoSplit d a ∧ NoSplit (d.run a) b := by
  induction a generalizing d with
  | nil => simp [NoSplit, ListState.run]
  | cons t a ih => simp [NoSplit, ListState.run, ih, and_assoc]

theorem run_append (d : ListState) (a b : List Str) : d.run (a ++ b) = (d.run a).run b :=
  List.foldl_append

theorem splitGroups_one (d : ListState) (acc : List Str) (l : List Str) (hl : l ≠ []) (h : NoSplit d l) :
    splitGroups d acc l = [acc ++ l] := by
  induction l generalizing d acc with
  | nil => exact absurd rfl hl
  | cons t l ih =>
    cases l with
    | nil => rfl
    | cons n l =>
      rw [splitGroups, if_neg h.2.1, ih _ _ (by simp) h.2]
      simp

theorem splitGroups_cons (d : ListState) (acc : List Str) (l : List Str) (hl : l ≠ []) (h : NoSplit d l)
    (hz : d.run l = ListState.zero) (rest : List Str) :
    splitGroups d acc (l ++ str!"," :: rest) = (acc ++ l) :: splitGroups ListState.zero [] rest := by
  induction l generalizing d acc with
  | nil => exact absurd rfl hl
  | cons t l ih =>
    cases l with
    | nil =>
      have hz : d.step t = ListState.zero := hz
      simp only [List.cons_append, List.nil_append]
      rw [splitGroups, hz, if_pos ⟨rfl, rfl, rfl, rfl⟩]
    | cons n l =>
      simp only [List.cons_append]
      rw [splitGroups, if_neg h.2.1]
      have := ih (d.step t) (acc ++ [t]) (by simp) h.2 hz
      rw [List.cons_append] at this
      rw [this]
      simp

theorem step_quiet {base extra : List Str} {t : Str} (h : Quiet base extra t) (d : ListState) : d.step t = d := by
  obtain ⟨h1, h2, -, -, -⟩ := h
  simp only [isDelim, Bool.or_eq_false_iff, decide_eq_false_iff_not] at h1
  simp [ListState.step, h1, h2]

theorem step_word {t w : Str} (h : lower t = w) (hw : w ∉ [str!"(", str!")", str!"[", str!"]"])
    (hq : w ∉ quotes) (d : ListState) : d.step t = d := by
  obtain ⟨b1, b2, b3, b4⟩ := not_bracket h hw
  have : t ∉ quotes := fun hm => by rw [lower_quote hm] at h; exact hq (h ▸ hm)
  simp [ListState.step, b1, b2, b3, b4, this]

/-- A quote inside parentheses; outside, `ListState.step` flips `inString`. -/
theorem step_quote {q : Str} (h : q ∈ quotes) (d : ListState) : d.step q = { d with inString := !d.inString } := by
  simp only [quotes, List.mem_cons, List.not_mem_nil, or_false] at h
  rcases h with rfl | rfl | rfl <;> rfl

theorem run_quiet {base extra c : List Str} (h : ∀ t ∈ c, Quiet base extra t) (d : ListState) : d.run c = d := by
  induction c with
  | nil => rfl
  | cons t c ih =>
    rw [show d.run (t :: c) = (d.step t).run c from rfl, step_quiet (h t (by simp)),
      ih fun u hu => h u (by simp [hu])]

theorem Tame.run {base extra l : List Str} (h : Tame base extra l) : ∀ d : ListState, d.run l = d := by
  induction h with
  | nil => intro d; rfl
  | tok t l h _ ih => intro d; rw [show d.run (t :: l) = (d.step t).run l from rfl, step_quiet h, ih]
  | str q c l hq hc _ ih =>
    intro d
    rw [run_append, show d.run (q :: c) = (d.step q).run c from rfl, run_quiet hc,
      show ∀ d : ListState, d.run (q :: l) = (d.step q).run l from fun _ => rfl, ih, step_quote hq, step_quote hq]
    cases d; simp
  | paren a l _ _ iha ihl =>
    intro d
    rw [run_append, show d.run (str!"(" :: a) = (d.step str!"(").run a from rfl, iha,
      show ∀ d : ListState, d.run (str!")" :: l) = (d.step str!")").run l from fun _ => rfl, ihl]
    cases d; simp [ListState.step]
  | square a l _ _ iha ihl =>
    intro d
    rw [run_append, show d.run (str!"[" :: a) = (d.step str!"[").run a from rfl, iha,
      show ∀ d : ListState, d.run (str!"]" :: l) = (d.step str!"]").run l from fun _ => rfl, ihl]
    cases d; simp [ListState.step]
  | case c e a l hc he _ _ iha ihl =>
    intro d
    rw [run_append, show d.run (c :: a) = (d.step c).run a from rfl, iha,
      show ∀ d : ListState, d.run (e :: l) = (d.step e).run l from fun _ => rfl, ihl,
      step_word hc (by decide) (by decide), step_word he (by decide) (by decide)]
  | pair p t l _ hp ht _ ih =>
    intro d
    rw [show d.run (p :: t :: l) = ((d.step p).step t).run l from rfl, step_quiet (quiet_pair hp (.inl rfl)),
      step_quiet (quiet_pair ht (.inr rfl)), ih]

/-- Inside parentheses or a literal no comma separates. -/
theorem noSplit_inside {base extra l : List Str} (h : Tame base extra l) : ∀ d : ListState, 0 < d.paren ∧ 0 ≤ d.square ∨ 0 ≤ d.paren ∧ 0 < d.square → NoSplit d l := by
  have hc : ∀ (t : Str) (d : ListState), 0 < d.paren ∧ 0 ≤ d.square ∨ 0 ≤ d.paren ∧ 0 < d.square →
      ¬ (t = str!"," ∧ d.paren = 0 ∧ d.square = 0 ∧ d.inString = false) := by
    intro t d hd h; omega
  have hquiet : ∀ {base extra c : List Str} (d : ListState), (∀ t ∈ c, Quiet base extra t) →
      0 < d.paren ∧ 0 ≤ d.square ∨ 0 ≤ d.paren ∧ 0 < d.square → NoSplit d c := by
    intro base extra c d h hd
    induction c with
    | nil => trivial
    | cons t c ih => exact ⟨hc _ _ hd, by rw [step_quiet (h t (by simp))]; exact ih fun u hu => h u (by simp [hu])⟩
  induction h with
  | nil => intros; trivial
  | tok t l h _ ih => intro d hd; exact ⟨hc _ _ hd, by rw [step_quiet h]; exact ih _ hd⟩
  | str q c l hq hc' _ ih =>
    intro d hd
    refine noSplit_append.2 ⟨⟨hc _ _ hd, hquiet _ hc' ?_⟩, hc _ _ ?_, ih _ ?_⟩
    · rw [step_quote hq]; exact hd
    · rw [show d.run (q :: c) = (d.step q).run c from rfl, run_quiet hc', step_quote hq]; exact hd
    · rw [show d.run (q :: c) = (d.step q).run c from rfl, run_quiet hc', step_quote hq, step_quote hq]; exact hd
  | paren a l ha _ iha ihl =>
    intro d hd
    have h1 : 0 < (d.step str!"(").paren ∧ 0 ≤ (d.step str!"(").square ∨
        0 ≤ (d.step str!"(").paren ∧ 0 < (d.step str!"(").square := by simp [ListState.step]; omega
    refine noSplit_append.2 ⟨⟨hc _ _ hd, iha _ h1⟩, ?_, ?_⟩
    · rw [show d.run (str!"(" :: a) = (d.step str!"(").run a from rfl, ha.run]; exact hc _ _ h1
    · rw [show d.run (str!"(" :: a) = (d.step str!"(").run a from rfl, ha.run]
      exact ihl _ (by simp [ListState.step]; omega)
  | square a l ha _ iha ihl =>
    intro d hd
    have h1 : 0 < (d.step str!"[").paren ∧ 0 ≤ (d.step str!"[").square ∨
        0 ≤ (d.step str!"[").paren ∧ 0 < (d.step str!"[").square := by simp [ListState.step]; omega
    refine noSplit_append.2 ⟨⟨hc _ _ hd, iha _ h1⟩, ?_, ?_⟩
    · rw [show d.run (str!"[" :: a) = (d.step str!"[").run a from rfl, ha.run]; exact hc _ _ h1
    · rw [show d.run (str!"[" :: a) = (d.step str!"[").run a from rfl, ha.run]
      exact ihl _ (by simp [ListState.step]; omega)
  | case c e a l hc' he ha _ iha ihl =>
    intro d hd
    refine noSplit_append.2 ⟨⟨hc _ _ hd, ?_⟩, ?_, ?_⟩
    · rw [step_word hc' (by decide) (by decide)]; exact iha _ hd
    · rw [show d.run (c :: a) = (d.step c).run a from rfl, step_word hc' (by decide) (by decide), ha.run]
      exact hc _ _ hd
    · rw [show d.run (c :: a) = (d.step c).run a from rfl, step_word hc' (by decide) (by decide), ha.run,
        step_word he (by decide) (by decide)]
      exact ihl _ hd
  | pair p t l _ hp ht _ ih =>
    intro d hd
    refine ⟨hc _ _ hd, ?_⟩
    rw [step_quiet (quiet_pair hp (.inl rfl))]
    refine ⟨hc _ _ hd, ?_⟩
    rw [step_quiet (quiet_pair ht (.inr rfl))]
    exact ih _ hd

/-- A sequence without commas outside parentheses is one group. -/
theorem Tame.noSplit {base extra l : List Str} (h : Tame base extra l) (hb : str!"," ∈ base) :
    ∀ d : ListState, 0 ≤ d.paren ∧ 0 ≤ d.square → NoSplit d l := by
  have hlc : lower str!"," = str!"," := lower_self (by decide) (by decide)
  have hc : ∀ {base extra : List Str} {t : Str} (d : ListState), Quiet base extra t → str!"," ∈ base →
      ¬ (t = str!"," ∧ d.paren = 0 ∧ d.square = 0 ∧ d.inString = false) := by
    rintro base extra t d h hb ⟨rfl, -⟩
    exact h.2.2.1 (by rw [hlc]; exact hb)
  have hw : ∀ {t w : Str} (d : ListState), lower t = w → w ≠ str!"," →
      ¬ (t = str!"," ∧ d.paren = 0 ∧ d.square = 0 ∧ d.inString = false) := by
    rintro t w d h hne ⟨rfl, -⟩
    exact hne (h.symm.trans hlc)
  have hquiet : ∀ {base extra c : List Str} (d : ListState), (∀ t ∈ c, Quiet base extra t) → str!"," ∈ base →
      NoSplit d c := by
    intro base extra c d h hb
    induction c with
    | nil => trivial
    | cons t c ih =>
      exact ⟨hc _ (h t (by simp)) hb, by rw [step_quiet (h t (by simp))]; exact ih fun u hu => h u (by simp [hu])⟩
  have hq : ∀ {q : Str} (d : ListState), q ∈ quotes →
      ¬ (q = str!"," ∧ d.paren = 0 ∧ d.square = 0 ∧ d.inString = false) := by
    rintro q d h ⟨rfl, -⟩
    exact absurd h (by decide)
  induction h with
  | nil => intros; trivial
  | tok t l h _ ih => intro d hd; exact ⟨hc _ h hb, by rw [step_quiet h]; exact ih hb _ hd⟩
  | str q c l hq' hc' _ ih =>
    intro d hd
    refine noSplit_append.2 ⟨⟨hq _ hq', hquiet _ hc' hb⟩, hq _ hq', ih hb _ ?_⟩
    rw [show d.run (q :: c) = (d.step q).run c from rfl, run_quiet hc', step_quote hq', step_quote hq']; exact hd
  | paren a l ha _ iha ihl =>
    intro d hd
    have h1 : 0 < (d.step str!"(").paren ∧ 0 ≤ (d.step str!"(").square ∨
        0 ≤ (d.step str!"(").paren ∧ 0 < (d.step str!"(").square := by simp [ListState.step]; omega
    refine noSplit_append.2 ⟨⟨hw _ (lower_bracket (by decide)) (by decide), noSplit_inside ha _ h1⟩,
      hw _ (lower_bracket (by decide)) (by decide), ihl hb _ ?_⟩
    rw [show d.run (str!"(" :: a) = (d.step str!"(").run a from rfl, ha.run]
    simpa [ListState.step] using hd
  | square a l ha _ iha ihl =>
    intro d hd
    have h1 : 0 < (d.step str!"[").paren ∧ 0 ≤ (d.step str!"[").square ∨
        0 ≤ (d.step str!"[").paren ∧ 0 < (d.step str!"[").square := by simp [ListState.step]; omega
    refine noSplit_append.2 ⟨⟨hw _ (lower_bracket (by decide)) (by decide), noSplit_inside ha _ h1⟩,
      hw _ (lower_bracket (by decide)) (by decide), ihl hb _ ?_⟩
    rw [show d.run (str!"[" :: a) = (d.step str!"[").run a from rfl, ha.run]
    simpa [ListState.step] using hd
  | case c e a l hc' he ha _ iha ihl =>
    intro d hd
    refine noSplit_append.2 ⟨⟨hw _ hc' (by decide), iha hb _ ?_⟩, hw _ he (by decide), ihl hb _ ?_⟩
    · rw [step_word hc' (by decide) (by decide)]; exact hd
    · rw [show d.run (c :: a) = (d.step c).run a from rfl, step_word hc' (by decide) (by decide), ha.run,
        step_word he (by decide) (by decide)]
      exact hd
  | pair p t l _ hp ht _ ih =>
    intro d hd
    refine ⟨hw _ hp (by decide), ?_⟩
    rw [step_quiet (quiet_pair hp (.inl rfl))]
    refine ⟨hw _ ht (by decide), ?_⟩
    rw [step_quiet (quiet_pair ht (.inr rfl))]
    exact ih hb _ hd

end

end SqlV.Core
