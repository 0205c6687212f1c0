import Verif.Parser
import Verif.Spec.Scan

/-! The scanning loops on balanced token sequences. -/

namespace SqlV

set_option linter.unusedSectionVars false

open Scan

variable [E : PyEnv]

/-! ### Closing parenthesis -/

theorem scanClosing_cons (c : Int) (t : Str) (ts : List Str) (h : ¬ (t = str!")" ∧ c = 0)) :
    scanClosing c (t :: ts) =
      (t :: (scanClosing (if t = str!"(" then c + 1 else if t = str!")" then c - 1 else c) ts).1,
       (scanClosing (if t = str!"(" then c + 1 else if t = str!")" then c - 1 else c) ts).2) := by
  rw [scanClosing, if_neg h]

/-- A balanced sequence is passed over. -/
theorem scanClosing_balanced {l : List Str} (h : Balanced l) : ∀ (c : Int) (rest : List Str), 0 ≤ c →
    scanClosing c (l ++ rest) = (l ++ (scanClosing c rest).1, (scanClosing c rest).2) := by
  induction h with
  | nil => intro c rest _; simp
  | tok t l h1 h2 _ ih =>
    intro c rest hc
    rw [List.cons_append, scanClosing_cons _ _ _ (by simp [h2]), if_neg h1, if_neg h2, ih c rest hc]
    simp
  | group a l _ _ iha ihl =>
    intro c rest hc
    have h3 : ¬ (str!")" = str!")" ∧ c + 1 = 0) := by omega
    simp only [List.cons_append, List.append_assoc]
    rw [scanClosing_cons _ _ _ (by simp), if_pos rfl, iha (c + 1) _ (by omega),
      scanClosing_cons _ _ _ h3, if_neg (by decide), if_pos rfl,
      show c + 1 - 1 = c by omega, ihl c rest hc]

theorem scanClosing_close {l : List Str} (h : Balanced l) (rest : List Str) :
    scanClosing 0 (l ++ str!")" :: rest) = (l, true, rest) := by
  rw [scanClosing_balanced h 0 _ (by omega), scanClosing, if_pos ⟨rfl, rfl⟩]
  simp

/-- What is collected until the parenthesis that closes `c` open ones. -/
inductive Closes : Nat → List Str → Prop
  | zero (l : List Str) : Balanced l → Closes 0 l
  | succ (n : Nat) (l r : List Str) : Balanced l → Closes n r → Closes (n + 1) (l ++ str!")" :: r)

theorem Balanced.append {a b : List Str} (ha : Balanced a) (hb : Balanced b) : Balanced (a ++ b) := by
  induction ha with
  | nil => exact hb
  | tok t l h1 h2 _ ih => exact .tok t _ h1 h2 ih
  | group a l ha _ _ ih =>
    have := Balanced.group a (l ++ b) ha ih
    simpa using this

theorem Closes.cons_tok {n : Nat} {l : List Str} {t : Str} (h1 : t ≠ str!"(") (h2 : t ≠ str!")")
    (h : Closes n l) : Closes n (t :: l) := by
  cases h with
  | zero l hl => exact .zero _ (.tok t l h1 h2 hl)
  | succ n l r hl hr => exact .succ n (t :: l) r (.tok t l h1 h2 hl) hr

theorem scanClosing_sound (l : List Str) : ∀ (n : Nat) (body rest : List Str),
    scanClosing n l = (body, true, rest) → l = body ++ str!")" :: rest ∧ Closes n body := by
  induction l with
  | nil => intro n body rest h; simp [scanClosing] at h
  | cons t ts ih =>
    intro n body rest h
    by_cases ht : t = str!")" ∧ (n : Int) = 0
    · rw [scanClosing, if_pos ht] at h
      simp only [Prod.mk.injEq, true_and] at h
      obtain ⟨rfl, rfl⟩ := h
      have hn : n = 0 := by omega
      subst hn
      exact ⟨by simp [ht.1], .zero _ .nil⟩
    · rw [scanClosing_cons _ _ _ ht] at h
      by_cases h1 : t = str!"("
      · subst h1
        rw [if_pos rfl] at h
        have ih' := ih (n + 1)
        rw [show ((n + 1 : Nat) : Int) = (n : Int) + 1 by omega] at ih'
        generalize scanClosing ((n : Int) + 1) ts = r at h ih'
        obtain ⟨b, k, r⟩ := r
        simp only [Prod.mk.injEq] at h
        obtain ⟨rfl, rfl, rfl⟩ := h
        obtain ⟨h3, h4⟩ := ih' b r rfl
        refine ⟨by rw [h3]; rfl, ?_⟩
        cases h4 with
        | succ n l r hl hr =>
          cases hr with
          | zero r hr => exact .zero _ (.group l r hl hr)
          | succ n r r' hr hr' =>
            have := Closes.succ n (str!"(" :: l ++ str!")" :: r) r' (.group l r hl hr) hr'
            simpa using this
      · rw [if_neg h1] at h
        by_cases h3 : t = str!")"
        · subst h3
          rw [if_pos rfl] at h
          have hn : n ≠ 0 := by
            rintro rfl; exact ht ⟨rfl, rfl⟩
          obtain ⟨m, rfl⟩ : ∃ m, n = m + 1 := ⟨n - 1, by omega⟩
          rw [show ((m + 1 : Nat) : Int) - 1 = (m : Int) by omega] at h
          have ih' := ih m
          generalize scanClosing (m : Int) ts = r at h ih'
          obtain ⟨b, k, r⟩ := r
          simp only [Prod.mk.injEq] at h
          obtain ⟨rfl, rfl, rfl⟩ := h
          obtain ⟨h4, h5⟩ := ih' b r rfl
          exact ⟨by rw [h4]; rfl, .succ m [] _ .nil h5⟩
        · rw [if_neg h3] at h
          have ih' := ih n
          generalize scanClosing (n : Int) ts = r at h ih'
          obtain ⟨b, k, r⟩ := r
          simp only [Prod.mk.injEq] at h
          obtain ⟨rfl, rfl, rfl⟩ := h
          obtain ⟨h4, h5⟩ := ih' b r rfl
          exact ⟨by rw [h4]; rfl, h5.cons_tok h1 h3⟩

theorem scanClosing_none (l : List Str) : ∀ (c : Int) (body rest : List Str),
    scanClosing c l = (body, false, rest) → body = l ∧ rest = [] := by
  induction l with
  | nil => intro c body rest h; simp [scanClosing] at h; simp [h]
  | cons t ts ih =>
    intro c body rest h
    by_cases ht : t = str!")" ∧ c = 0
    · rw [scanClosing, if_pos ht] at h; simp at h
    · rw [scanClosing_cons _ _ _ ht] at h
      have ih' := ih (if t = str!"(" then c + 1 else if t = str!")" then c - 1 else c)
      generalize scanClosing _ ts = r at h ih'
      obtain ⟨b, k, r⟩ := r
      simp only [Prod.mk.injEq] at h
      obtain ⟨rfl, rfl, rfl⟩ := h
      obtain ⟨h3, h4⟩ := ih' b r rfl
      exact ⟨by rw [h3], h4⟩

/-- The last token, given the one before. -/
def lastOf (last : Option Str) : List Str → Option Str
  | [] => last
  | t :: ts => lastOf (some t) ts

theorem lastOf_append (last : Option Str) (a b : List Str) :
    lastOf last (a ++ b) = lastOf (lastOf last a) b := by
  induction a generalizing last with
  | nil => rfl
  | cons t a ih => simp [lastOf, ih]

theorem lastOf_eq (last : Option Str) (l : List Str) : lastOf last l = l.getLast?.or last := by
  induction l generalizing last with
  | nil => simp [lastOf]
  | cons t ts ih =>
    rw [lastOf, ih]
    cases ts with
    | nil => simp
    | cons u us =>
      rw [List.getLast?_cons_cons]
      cases h : (u :: us).getLast? with
      | none => simp at h
      | some x => simp

/-! ### Stop words -/

theorem scanOneOf_cons (stop : List Str) (keep : List (Str × Str)) (last : Option Str) (d : Depth)
    (t : Str) (ts : List Str) (h : stopsHere stop keep last d t = false) :
    scanOneOf stop keep last d (t :: ts) =
      (t :: (scanOneOf stop keep (some t) (d.step t) ts).1,
       (scanOneOf stop keep (some t) (d.step t) ts).2) := by
  rw [scanOneOf, if_neg (by simp [h])]

theorem Depth.step_of_not_delim {t : Str} (h : isDelim t = false) (d : Depth) : d.step t = d := by
  simp only [isDelim, Bool.or_eq_false_iff, decide_eq_false_iff_not] at h
  obtain ⟨⟨⟨⟨⟨h1, h2⟩, h3⟩, h4⟩, h5⟩, h6⟩ := h
  simp [Depth.step, h1, h2, h3, h4, h5, h6]

/-- Inside something. -/
def Depth.inside (d : Depth) : Prop :=
  0 ≤ d.paren ∧ 0 ≤ d.square ∧ 0 ≤ d.caseE ∧ (0 < d.paren ∨ 0 < d.square ∨ 0 < d.caseE)

theorem stopsHere_inside {d : Depth} (h : d.inside) (stop : List Str) (keep : List (Str × Str))
    (last : Option Str) (t : Str) : stopsHere stop keep last d t = false := by
  obtain ⟨-, -, -, h⟩ := h
  simp only [stopsHere]
  rcases h with h | h | h
  · have : decide (d.paren ≤ 0) = false := by simpa using h
    simp [this]
  · have : decide (d.square ≤ 0) = false := by simpa using h
    simp [this]
  · have : decide (d.caseE ≤ 0) = false := by simpa using h
    simp [this]

/-- Lowering does not turn a keyword into a bracket; needed because `PyEnv.lower` is arbitrary. -/
theorem step_case {c : Str} (hc : lower c = str!"case") (d : Depth)
    (h1 : c ≠ str!"(") (h2 : c ≠ str!")") (h3 : c ≠ str!"[") (h4 : c ≠ str!"]") :
    d.step c = { d with caseE := d.caseE + 1 } := by
  simp [Depth.step, h1, h2, h3, h4, hc]

theorem step_end {c : Str} (hc : lower c = str!"end") (d : Depth)
    (h1 : c ≠ str!"(") (h2 : c ≠ str!")") (h3 : c ≠ str!"[") (h4 : c ≠ str!"]") :
    d.step c = { d with caseE := d.caseE - 1 } := by
  simp [Depth.step, h1, h2, h3, h4, hc]

theorem lower_ascii [LawfulPyEnv E] {s : Str} (h : s.all isAscii) : lower s = s.map Char.toLower := by
  rw [lower]
  split
  · simp_all
  · exact LawfulPyEnv.lower_ascii s h

/-- Under a lawful interpreter brackets are not keywords. -/
theorem not_bracket [LawfulPyEnv E] {c w : Str} (h : lower c = w)
    (hw : w ∉ [str!"(", str!")", str!"[", str!"]"]) :
    c ≠ str!"(" ∧ c ≠ str!")" ∧ c ≠ str!"[" ∧ c ≠ str!"]" := by
  simp only [List.mem_cons, List.not_mem_nil, or_false, not_or] at hw
  refine ⟨?_, ?_, ?_, ?_⟩ <;>
  · rintro rfl
    rw [lower_ascii (by decide)] at h
    revert hw
    rw [← h]
    decide

section
variable [L : LawfulPyEnv E]

/-- A nested sequence inside something is passed over. -/
theorem scanOneOf_nested {l : List Str} (h : Nested l) (stop : List Str) (keep : List (Str × Str)) :
    ∀ (last : Option Str) (d : Depth) (rest : List Str), d.inside →
    scanOneOf stop keep last d (l ++ rest) =
      (l ++ (scanOneOf stop keep (lastOf last l) d rest).1,
        (scanOneOf stop keep (lastOf last l) d rest).2) := by
  have hgroup : ∀ (o c : Str) (a l : List Str) (up down : Depth → Depth),
      (∀ d, d.step o = up d) → (∀ d, d.step c = down d) → (∀ d, down (up d) = d) →
      (∀ d, d.inside → (up d).inside) →
      (∀ (last : Option Str) (d : Depth) (rest : List Str), d.inside →
        scanOneOf stop keep last d (a ++ rest) =
        (a ++ (scanOneOf stop keep (lastOf last a) d rest).1,
          (scanOneOf stop keep (lastOf last a) d rest).2)) →
      (∀ (last : Option Str) (d : Depth) (rest : List Str), d.inside →
        scanOneOf stop keep last d (l ++ rest) =
        (l ++ (scanOneOf stop keep (lastOf last l) d rest).1,
          (scanOneOf stop keep (lastOf last l) d rest).2)) →
      ∀ (last : Option Str) (d : Depth) (rest : List Str), d.inside →
        scanOneOf stop keep last d ((o :: a ++ c :: l) ++ rest) =
        ((o :: a ++ c :: l) ++ (scanOneOf stop keep (lastOf last (o :: a ++ c :: l)) d rest).1,
          (scanOneOf stop keep (lastOf last (o :: a ++ c :: l)) d rest).2) := by
    intro o c a l up down ho hc hud hin iha ihl last d rest hd
    simp only [List.cons_append, List.append_assoc, lastOf, lastOf_append]
    rw [scanOneOf_cons _ _ _ _ _ _ (stopsHere_inside hd _ _ _ _), ho, iha _ _ _ (hin d hd),
      scanOneOf_cons _ _ _ _ _ _ (stopsHere_inside (hin d hd) _ _ _ _), hc, hud, ihl _ _ _ hd]
  induction h with
  | nil => intro last d rest _; rfl
  | tok t l ht _ ih =>
    intro last d rest hd
    rw [List.cons_append, scanOneOf_cons _ _ _ _ _ _ (stopsHere_inside hd _ _ _ _),
      Depth.step_of_not_delim ht, ih _ _ _ hd]
    rfl
  | paren a l _ _ iha ihl =>
    refine hgroup _ _ a l (fun d => { d with paren := d.paren + 1 })
      (fun d => { d with paren := d.paren - 1 }) (fun d => rfl) (fun d => rfl) ?_ ?_ iha ihl
    · intro d; cases d; simp
    · rintro d ⟨h1, h2, h3, h4⟩; exact ⟨by simp only; omega, h2, h3, .inl (by simp only; omega)⟩
  | square a l _ _ iha ihl =>
    refine hgroup _ _ a l (fun d => { d with square := d.square + 1 })
      (fun d => { d with square := d.square - 1 }) (fun d => rfl) (fun d => rfl) ?_ ?_ iha ihl
    · intro d; cases d; simp
    · rintro d ⟨h1, h2, h3, h4⟩
      exact ⟨h1, by simp only; omega, h3, .inr (.inl (by simp only; omega))⟩
  | case c e a l hc he _ _ iha ihl =>
    obtain ⟨c1, c2, c3, c4⟩ := not_bracket hc (by decide)
    obtain ⟨e1, e2, e3, e4⟩ := not_bracket he (by decide)
    refine hgroup c e a l (fun d => { d with caseE := d.caseE + 1 })
      (fun d => { d with caseE := d.caseE - 1 })
      (fun d => step_case hc d c1 c2 c3 c4) (fun d => step_end he d e1 e2 e3 e4) ?_ ?_ iha ihl
    · intro d; cases d; simp
    · rintro d ⟨h1, h2, h3, h4⟩
      exact ⟨h1, h2, by simp only; omega, .inr (.inr (by simp only; omega))⟩

/-- Outside everything. -/
def Depth.zero : Depth := ⟨0, 0, 0⟩

theorem lower_bracket {b : Str} (h : b ∈ [str!"(", str!")", str!"[", str!"]"]) : lower b = b := by
  simp only [List.mem_cons, List.not_mem_nil, or_false] at h
  rcases h with rfl | rfl | rfl | rfl <;> (rw [lower_ascii (by decide)]; decide)

theorem scanOneOf_clause {stop : List Str} {keep : List (Str × Str)} {l : List Str}
    (h : Clause stop keep l) (hs : NoDelims stop) :
    ∀ (last : Option Str) (rest : List Str),
    scanOneOf stop keep last Depth.zero (l ++ rest) =
      (l ++ (scanOneOf stop keep (lastOf last l) Depth.zero rest).1,
       (scanOneOf stop keep (lastOf last l) Depth.zero rest).2) := by
  have hno : ∀ (last : Option Str) (t : Str), lower t ∉ stop →
      stopsHere stop keep last Depth.zero t = false := by
    intro last t ht; simp [stopsHere, ht]
  have hgroup : ∀ (o c : Str) (a l : List Str) (d1 : Depth),
      lower o ∉ stop → Depth.zero.step o = d1 → d1.inside → d1.step c = Depth.zero → Nested a →
      (∀ (last : Option Str) (rest : List Str),
        scanOneOf stop keep last Depth.zero (l ++ rest) =
        (l ++ (scanOneOf stop keep (lastOf last l) Depth.zero rest).1,
         (scanOneOf stop keep (lastOf last l) Depth.zero rest).2)) →
      ∀ (last : Option Str) (rest : List Str),
        scanOneOf stop keep last Depth.zero ((o :: a ++ c :: l) ++ rest) =
        ((o :: a ++ c :: l) ++
          (scanOneOf stop keep (lastOf last (o :: a ++ c :: l)) Depth.zero rest).1,
         (scanOneOf stop keep (lastOf last (o :: a ++ c :: l)) Depth.zero rest).2) := by
    intro o c a l d1 ho ho' hd1 hc ha ihl last rest
    simp only [List.cons_append, List.append_assoc, lastOf, lastOf_append]
    rw [scanOneOf_cons _ _ _ _ _ _ (hno _ _ ho), ho', scanOneOf_nested ha stop keep _ _ _ hd1,
      scanOneOf_cons _ _ _ _ _ _ (stopsHere_inside hd1 _ _ _ _), hc, ihl]
  obtain ⟨hs1, hs2, hs3⟩ := hs
  induction h with
  | nil => intro last rest; rfl
  | tok t l ht hstop _ ih =>
    intro last rest
    rw [List.cons_append, scanOneOf_cons _ _ _ _ _ _ (hno _ _ hstop), Depth.step_of_not_delim ht, ih]
    rfl
  | kept p t l hp hstop ht hk _ ih =>
    intro last rest
    have hk' : stopsHere stop keep (some p) Depth.zero t = false := by simp [stopsHere, hk]
    rw [List.cons_append, scanOneOf_cons _ _ _ _ _ _ (hno _ _ hstop), Depth.step_of_not_delim hp,
      List.cons_append, scanOneOf_cons _ _ _ _ _ _ hk', Depth.step_of_not_delim ht, ih]
    rfl
  | paren a l ha _ ihl =>
    refine hgroup _ _ a l ⟨1, 0, 0⟩ ?_ rfl ?_ rfl ha ihl
    · rw [lower_bracket (by decide)]; exact hs1
    · simp [Depth.inside]
  | square a l ha _ ihl =>
    refine hgroup _ _ a l ⟨0, 1, 0⟩ ?_ rfl ?_ rfl ha ihl
    · rw [lower_bracket (by decide)]; exact hs2
    · simp [Depth.inside]
  | case c e a l hc he ha _ ihl =>
    obtain ⟨c1, c2, c3, c4⟩ := not_bracket hc (by decide)
    obtain ⟨e1, e2, e3, e4⟩ := not_bracket he (by decide)
    refine hgroup c e a l ⟨0, 0, 1⟩ ?_ ?_ ?_ ?_ ha ihl
    · rw [hc]; exact hs3
    · rw [step_case hc _ c1 c2 c3 c4]; rfl
    · simp [Depth.inside]
    · rw [step_end he _ e1 e2 e3 e4]; rfl

end

/-- Whatever the input, the scan returns a prefix, and stops only at a stop word. -/
theorem scanOneOf_sound (stop : List Str) (keep : List (Str × Str)) (l : List Str) :
    ∀ (last : Option Str) (d : Depth),
    match scanOneOf stop keep last d l with
    | (body, some w, rest) => l = body ++ w :: rest ∧ lower w ∈ stop
    | (body, none, rest) => body = l ∧ rest = [] := by
  induction l with
  | nil => intro last d; simp [scanOneOf]
  | cons t ts ih =>
    intro last d
    cases h : stopsHere stop keep last d t with
    | true =>
      rw [scanOneOf, if_pos h]
      simp only [stopsHere, Bool.and_eq_true, decide_eq_true_eq] at h
      exact ⟨rfl, h.1.1.1.1⟩
    | false =>
      rw [scanOneOf_cons _ _ _ _ _ _ h]
      have := ih (some t) (d.step t)
      revert this
      rcases scanOneOf stop keep (some t) (d.step t) ts with ⟨b, w, r⟩
      cases w with
      | none => simp
      | some w => simp

end SqlV
