import Verif.Lemmas.Effects
import Verif.Spec.PyFile

/-! Prefix and quotes of Python string literals. -/

namespace SqlV

set_option linter.unusedSectionVars false

/-- Opening or closing quotes: `k` times the character `c`. -/
def quoteOf (c : Char) (k : Nat) : Str := List.replicate k c

theorem possibleQuotes_eq :
    possibleQuotes = [quoteOf '"' 3, quoteOf '\'' 3, quoteOf '"' 1, quoteOf '\'' 1] := rfl

theorem lower_letter {x c : Char} (hc : c ∈ ['r', 'u', 'b', 'f']) (h : x.toLower = c) : x = c ∨ x = c.toUpper := by
  unfold Char.toLower at h
  split at h
  · rename_i hx
    right
    have hv : x.val.toNat + 32 = c.val.toNat := by
      have h1 := congrArg (fun y : Char => y.val.toNat) h
      have h2 := hx.1
      have h3 := hx.2
      rw [← h1]
      show _ = (x.val + 32).toNat
      rw [UInt32.toNat_add]
      have : x.val.toNat ≤ 90 := h3
      show _ = (x.val.toNat + 32) % 4294967296
      omega
    have hx' : x.val.toNat = c.toUpper.val.toNat := by
      simp only [List.mem_cons, List.not_mem_nil, or_false] at hc
      rcases hc with rfl | rfl | rfl | rfl <;>
        first
        | (have : ('r' : Char).val.toNat = 114 := rfl
           rw [this] at hv; show _ = 82; omega)
        | (have : ('u' : Char).val.toNat = 117 := rfl
           rw [this] at hv; show _ = 85; omega)
        | (have : ('b' : Char).val.toNat = 98 := rfl
           rw [this] at hv; show _ = 66; omega)
        | (have : ('f' : Char).val.toNat = 102 := rfl
           rw [this] at hv; show _ = 70; omega)
    exact Char.ext (UInt32.toNat_inj.1 hx')
  · exact .inl h

/-- The prefixes of literals are those in the table. -/
theorem literalPrefix_iff (p : Str) : literalPrefix p ↔ p = [] ∨ p ∈ pyStringPrefixes := by
  constructor
  · intro h
    unfold literalPrefix at h
    match p, h with
    | [], _ => exact .inl rfl
    | [x], h =>
      right
      simp only [List.map_cons, List.map_nil, List.mem_cons, List.cons.injEq, and_true, reduceCtorEq, and_false, List.not_mem_nil, or_false,
        false_or] at h
      rcases h with h | h | h | h <;> rcases lower_letter (by simp) h with rfl | rfl <;> decide
    | [x, y], h =>
      right
      simp only [List.map_cons, List.map_nil, List.mem_cons, List.cons.injEq, and_true, reduceCtorEq, and_false, List.not_mem_nil, or_false,
        false_or] at h
      rcases h with h | h | h | h | h <;> obtain ⟨h1, h2⟩ := h <;> rcases lower_letter (by simp) h1 with rfl | rfl <;>
        rcases lower_letter (by simp) h2 with rfl | rfl <;> decide
    | x :: y :: z :: r, h => simp at h
  · rintro (rfl | h)
    · decide
    · revert p
      decide

/-- Prefixes are letters. -/
theorem prefix_letters {p : Str} (h : p ∈ pyStringPrefixes) :
    p ≠ [] ∧ ∀ x ∈ p, x ≠ '"' ∧ x ≠ '\'' := by
  revert p; decide

theorem startsWith_iff (s p : Str) : Str.startsWith s p = true ↔ ∃ r, s = p ++ r := by
  simp only [Str.startsWith, List.isPrefixOf_iff_prefix]
  constructor
  · rintro ⟨r, h⟩; exact ⟨r, h.symm⟩
  · rintro ⟨r, h⟩; exact ⟨r, h.symm⟩

theorem endsWith_append (s p : Str) : Str.endsWith (s ++ p) p = true := by
  simp only [Str.endsWith, List.isSuffixOf_iff_suffix]
  exact ⟨s, rfl⟩

theorem startsWith_false {s p : Str} (h : ∀ r, s ≠ p ++ r) : Str.startsWith s p = false := by
  rw [Bool.eq_false_iff]; intro h'
  obtain ⟨r, hr⟩ := (startsWith_iff s p).1 h'
  exact h r hr

/-- Text starting with the quotes `k * c` of a literal starts with the quotes `k' * c'` only if the
character is the same and, for three quotes, the literal has three. -/
theorem starts_quote {c c' : Char} {k k' : Nat} {body : Str} (hk : k = 1 ∨ k = 3)
    (hk' : k' = 1 ∨ k' = 3) (hb : k = 1 → body.head? ≠ some c)
    (h : Str.startsWith (quoteOf c k ++ body ++ quoteOf c k) (quoteOf c' k') = true) :
    c' = c ∧ k' ≤ k := by
  obtain ⟨r, hr⟩ := (startsWith_iff _ _).1 h
  rcases hk with rfl | rfl <;> rcases hk' with rfl | rfl
  · simp [quoteOf] at hr; exact ⟨hr.1.symm, Nat.le_refl _⟩
  · exfalso
    simp only [quoteOf, List.replicate_succ, List.replicate_zero, List.cons_append, List.nil_append,
      List.cons.injEq] at hr
    obtain ⟨rfl, hr⟩ := hr
    cases body with
    | nil => simp at hr
    | cons b body =>
      simp only [List.cons_append, List.cons.injEq] at hr
      exact hb rfl (by simp [hr.1])
  · simp [quoteOf, List.replicate_succ] at hr; exact ⟨hr.1.symm, by omega⟩
  · simp [quoteOf, List.replicate_succ] at hr; exact ⟨hr.1.symm, Nat.le_refl _⟩

theorem starts_own (c : Char) (k : Nat) (body : Str) :
    Str.startsWith (quoteOf c k ++ body ++ quoteOf c k) (quoteOf c k) = true :=
  (startsWith_iff _ _).2 ⟨body ++ quoteOf c k, by simp⟩

/-- The first of the possible quotes that opens the literal. -/
theorem find_quotes {α : Type} {c : Char} {k : Nat} (hc : c = '"' ∨ c = '\'') (hk : k = 1 ∨ k = 3)
    (f : Str → Option α) (x : α) (hself : f (quoteOf c k) = some x)
    (hother : ∀ c' k', (k' = 1 ∨ k' = 3) → f (quoteOf c' k') ≠ none → c' = c ∧ k' ≤ k) :
    possibleQuotes.findSome? f = some x := by
  have hn : ∀ c' k', (k' = 1 ∨ k' = 3) → ¬ (c' = c ∧ k' ≤ k) → f (quoteOf c' k') = none := by
    intro c' k' h1 h2
    cases hf : f (quoteOf c' k') with
    | none => rfl
    | some y => exact absurd (hother c' k' h1 (by simp [hf])) h2
  rw [possibleQuotes_eq]
  rcases hc with rfl | rfl <;> rcases hk with rfl | rfl
  · simp [hn '"' 3 (.inr rfl) (by simp), hn '\'' 3 (.inr rfl) (by simp), hself]
  · simp [hself]
  · simp [hn '"' 3 (.inr rfl) (by simp), hn '\'' 3 (.inr rfl) (by simp),
      hn '"' 1 (.inl rfl) (by simp), hself]
  · simp [hn '"' 3 (.inr rfl) (by simp), hself]

theorem find?_eq_findSome? {α : Type} (l : List α) (p : α → Bool) :
    l.find? p = l.findSome? fun x => if p x then some x else none := by
  induction l with
  | nil => rfl
  | cons a l ih =>
    rw [List.find?_cons, List.findSome?_cons]
    cases p a <;> simp [ih]

theorem findQuotes_plain {c : Char} {k : Nat} (hc : c = '"' ∨ c = '\'') (hk : k = 1 ∨ k = 3)
    (body : Str) (hb : k = 1 → body.head? ≠ some c) :
    findQuotes (quoteOf c k ++ body ++ quoteOf c k) = some (quoteOf c k, none) := by
  have : possibleQuotes.find? (fun q => Str.startsWith (quoteOf c k ++ body ++ quoteOf c k) q &&
      Str.endsWith (quoteOf c k ++ body ++ quoteOf c k) q) = some (quoteOf c k) := by
    rw [find?_eq_findSome?]
    refine find_quotes hc hk _ _ ?_ ?_
    · rw [starts_own, endsWith_append]; rfl
    · intro c' k' h1 h2
      refine starts_quote hk h1 hb ?_
      cases hs : Str.startsWith (quoteOf c k ++ body ++ quoteOf c k) (quoteOf c' k') with
      | true => rfl
      | false => rw [hs] at h2; simp at h2
  simp only [findQuotes, this]

/-- Two prefixes in front of quotes are the same. -/
theorem prefix_unique {p p' : Str} {c c' : Char} {k' : Nat} {x r : Str}
    (hc : c = '"' ∨ c = '\'') (hc' : c' = '"' ∨ c' = '\'') (hk' : k' ≠ 0)
    (hp : ∀ x ∈ p, x ≠ '"' ∧ x ≠ '\'') (hp' : ∀ x ∈ p', x ≠ '"' ∧ x ≠ '\'')
    (h : p ++ c :: x = p' ++ quoteOf c' k' ++ r) : p' = p ∧ c :: x = quoteOf c' k' ++ r := by
  induction p generalizing p' with
  | nil =>
    cases p' with
    | nil => exact ⟨rfl, by simpa using h⟩
    | cons y p' =>
      simp only [List.nil_append, List.cons_append, List.cons.injEq] at h
      have := hp' y (by simp)
      rw [← h.1] at this
      rcases hc with rfl | rfl <;> simp at this
  | cons y p ih =>
    cases p' with
    | nil =>
      obtain ⟨k', rfl⟩ := Nat.exists_eq_succ_of_ne_zero hk'
      simp only [quoteOf, List.replicate_succ, List.nil_append, List.cons_append,
        List.cons.injEq] at h
      have := hp y (by simp)
      rw [h.1] at this
      rcases hc' with rfl | rfl <;> simp at this
    | cons y' p' =>
      simp only [List.cons_append, List.cons.injEq] at h
      obtain ⟨h1, h2⟩ := ih (p' := p') (fun x hx => hp x (by simp [hx])) (fun x hx => hp' x (by simp [hx]))
        (by simpa using h.2)
      exact ⟨by rw [h1, h.1], h2⟩

theorem findQuotes_prefix {p : Str} (hp : p ∈ pyStringPrefixes) {c : Char} {k : Nat}
    (hc : c = '"' ∨ c = '\'') (hk : k = 1 ∨ k = 3)
    (body : Str) (hb : k = 1 → body.head? ≠ some c) :
    findQuotes (p ++ (quoteOf c k ++ body ++ quoteOf c k)) = some (quoteOf c k, some p) := by
  obtain ⟨hne, hlet⟩ := prefix_letters hp
  obtain ⟨k0, hk0⟩ : ∃ k0, k = k0 + 1 := by rcases hk with rfl | rfl; exacts [⟨0, rfl⟩, ⟨2, rfl⟩]
  have hcons : quoteOf c k ++ body ++ quoteOf c k = c :: (quoteOf c k0 ++ body ++ quoteOf c k) := by
    rw [hk0]; simp [quoteOf, List.replicate_succ]
  have h1 : possibleQuotes.find? (fun q =>
      Str.startsWith (p ++ (quoteOf c k ++ body ++ quoteOf c k)) q &&
      Str.endsWith (p ++ (quoteOf c k ++ body ++ quoteOf c k)) q) = none := by
    rw [List.find?_eq_none]
    intro q hq
    have : Str.startsWith (p ++ (quoteOf c k ++ body ++ quoteOf c k)) q = false := by
      apply startsWith_false
      intro r hr
      cases p with
      | nil => exact hne rfl
      | cons y p =>
        have := hlet y (by simp)
        simp only [possibleQuotes, List.mem_cons, List.not_mem_nil, or_false] at hq
        rcases hq with rfl | rfl | rfl | rfl <;> simp at hr <;> simp [hr.1] at this
    rw [this]; simp
  have hown : ∀ q : Str, (∃ p' ∈ pyStringPrefixes,
      (Str.startsWith (p ++ (quoteOf c k ++ body ++ quoteOf c k)) (p' ++ q) &&
        Str.endsWith (p ++ (quoteOf c k ++ body ++ quoteOf c k)) q) = true) →
      ∀ c' k', (k' = 1 ∨ k' = 3) → (c' = '"' ∨ c' = '\'') → q = quoteOf c' k' → c' = c ∧ k' ≤ k := by
    rintro q ⟨p', hp', hs⟩ c' k' hk' hc' rfl
    rw [Bool.and_eq_true] at hs
    obtain ⟨r, hr⟩ := (startsWith_iff _ _).1 hs.1
    rw [hcons] at hr
    obtain ⟨h2, h3⟩ := prefix_unique hc hc' (by omega) hlet (prefix_letters hp').2 hr
    refine starts_quote hk hk' hb ?_
    rw [startsWith_iff, hcons]
    exact ⟨r, h3⟩
  have h2 : (possibleQuotes.findSome? fun q =>
      (pyStringPrefixes.find? fun p' =>
        Str.startsWith (p ++ (quoteOf c k ++ body ++ quoteOf c k)) (p' ++ q) &&
        Str.endsWith (p ++ (quoteOf c k ++ body ++ quoteOf c k)) q).map
        fun p' => (q, some p')) = some (quoteOf c k, some p) := by
    have hself : (pyStringPrefixes.find? fun p' =>
        Str.startsWith (p ++ (quoteOf c k ++ body ++ quoteOf c k)) (p' ++ quoteOf c k) &&
        Str.endsWith (p ++ (quoteOf c k ++ body ++ quoteOf c k)) (quoteOf c k)) = some p := by
      cases hf : pyStringPrefixes.find? _ with
      | none =>
        exfalso
        have := List.find?_eq_none.1 hf p hp
        apply this
        rw [Bool.and_eq_true]
        refine ⟨(startsWith_iff _ _).2 ⟨body ++ quoteOf c k, by simp⟩, ?_⟩
        have := endsWith_append (p ++ (quoteOf c k ++ body)) (quoteOf c k)
        simpa using this
      | some p' =>
        have hp' := List.mem_of_find?_eq_some hf
        have hs := List.find?_some hf
        rw [Bool.and_eq_true] at hs
        obtain ⟨r, hr⟩ := (startsWith_iff _ _).1 hs.1
        rw [hcons] at hr
        rw [(prefix_unique hc hc (by omega) hlet (prefix_letters hp').2 hr).1]
    have aux : ∀ c' k', (k' = 1 ∨ k' = 3) → (c' = '"' ∨ c' = '\'') →
        ((pyStringPrefixes.find? fun p' =>
        Str.startsWith (p ++ (quoteOf c k ++ body ++ quoteOf c k)) (p' ++ quoteOf c' k') &&
        Str.endsWith (p ++ (quoteOf c k ++ body ++ quoteOf c k)) (quoteOf c' k')).map
        fun p' => (quoteOf c' k', some p')) ≠ none → c' = c ∧ k' ≤ k := by
      intro c' k' hk' hc' hne
      cases hf : pyStringPrefixes.find? fun p' =>
        Str.startsWith (p ++ (quoteOf c k ++ body ++ quoteOf c k)) (p' ++ quoteOf c' k') &&
        Str.endsWith (p ++ (quoteOf c k ++ body ++ quoteOf c k)) (quoteOf c' k') with
      | none => rw [hf] at hne; simp at hne
      | some p' =>
        exact hown _ ⟨p', List.mem_of_find?_eq_some hf, by simpa using List.find?_some hf⟩ c' k' hk' hc' rfl
    have hn : ∀ c' k', (k' = 1 ∨ k' = 3) → (c' = '"' ∨ c' = '\'') → ¬ (c' = c ∧ k' ≤ k) →
        ((pyStringPrefixes.find? fun p' =>
        Str.startsWith (p ++ (quoteOf c k ++ body ++ quoteOf c k)) (p' ++ quoteOf c' k') &&
        Str.endsWith (p ++ (quoteOf c k ++ body ++ quoteOf c k)) (quoteOf c' k')).map
        fun p' => (quoteOf c' k', some p')) = none := by
      intro c' k' a1 a2 a3
      cases hh : Option.map _ _ with
      | none => rfl
      | some z => exact absurd (aux c' k' a1 a2 (by rw [hh]; simp)) a3
    rw [possibleQuotes_eq]
    simp only [List.findSome?_cons, List.findSome?_nil]
    rcases hc with rfl | rfl <;> rcases hk with rfl | rfl
    · rw [hn '"' 3 (.inr rfl) (.inl rfl) (by simp), hn '\'' 3 (.inr rfl) (.inr rfl) (by simp), hself]
      rfl
    · rw [hself]; rfl
    · rw [hn '"' 3 (.inr rfl) (.inl rfl) (by simp), hn '\'' 3 (.inr rfl) (.inr rfl) (by simp),
        hn '"' 1 (.inl rfl) (.inl rfl) (by simp), hself]
      rfl
    · rw [hn '"' 3 (.inr rfl) (.inl rfl) (by simp), hself]; rfl
  simp only [findQuotes, h1]
  exact h2

theorem innerSql_eq (p : Str) (c : Char) (k : Nat) (body : Str) (pre : Option Str)
    (hpre : pre.getD [] = p) :
    innerSql (p ++ (quoteOf c k ++ body ++ quoteOf c k)) (quoteOf c k) pre = body := by
  rw [innerSql, hpre, List.drop_left, sliceInner]
  have : (quoteOf c k ++ body ++ quoteOf c k).length - (quoteOf c k).length =
      (quoteOf c k ++ body).length := by
    simp [quoteOf]; omega
  rw [this, List.take_left, List.drop_left]

theorem requote_eq (p : Str) {c : Char} {k : Nat} (hc : c = '"' ∨ c = '\'') (hk : k = 1 ∨ k = 3)
    (f : Str) :
    requote (quoteOf c k) p f =
      if '\n' ∈ f then p ++ quoteOf c 3 ++ str!"\n" ++ f ++ str!"\n" ++ quoteOf c 3
      else p ++ quoteOf c k ++ f ++ quoteOf c k := by
  have hn : hasNL f = decide ('\n' ∈ f) := rfl
  rcases hc with rfl | rfl <;> rcases hk with rfl | rfl <;> by_cases h : '\n' ∈ f <;>
    simp [requote, hn, h, quoteOf, List.replicate_succ]

end SqlV
