import Verif.Spec.Core
import Verif.Lemmas.Scan

/-! Token sequences of trees. -/

set_option linter.unusedSectionVars false

namespace SqlV.Core

open Scan

variable [E : PyEnv]

theorem reads_nil {ts : List Str} : Reads [] ts ↔ ts = [] := by
  cases ts <;> simp [Reads]

theorem reads_cons {k : Tok} {ks : List Tok} {ts : List Str} :
    Reads (k :: ks) ts ↔ ∃ t ts', ts = t :: ts' ∧ k.reads t ∧ Reads ks ts' := by
  cases ts with
  | nil => simp [Reads]
  | cons t ts =>
    constructor
    · rintro ⟨h1, h2⟩; exact ⟨t, ts, rfl, h1, h2⟩
    · rintro ⟨t', ts', h, h1, h2⟩; cases h; exact ⟨h1, h2⟩

theorem reads_append {a b : List Tok} {ts : List Str} :
    Reads (a ++ b) ts ↔ ∃ x y, ts = x ++ y ∧ Reads a x ∧ Reads b y := by
  induction a generalizing ts with
  | nil =>
    constructor
    · intro h; exact ⟨[], ts, rfl, trivial, h⟩
    · rintro ⟨x, y, rfl, h1, h2⟩; rw [reads_nil.1 h1]; exact h2
  | cons k ks ih =>
    rw [List.cons_append, reads_cons]
    constructor
    · rintro ⟨t, ts', rfl, h1, h2⟩
      obtain ⟨x, y, rfl, h3, h4⟩ := ih.1 h2
      exact ⟨t :: x, y, rfl, ⟨h1, h3⟩, h4⟩
    · rintro ⟨x, y, rfl, h1, h2⟩
      obtain ⟨t, x', rfl, h3, h4⟩ := reads_cons.1 h1
      exact ⟨t, x' ++ y, rfl, h3, ih.2 ⟨x', y, rfl, h4, h2⟩⟩

theorem reads_lit {s t : Str} : (Tok.lit s).reads t ↔ t = s := Iff.rfl

theorem reads_kw {w t : Str} : (Tok.kw w).reads t ↔ t.map Char.toLower = w := Iff.rfl

theorem ascii_toLower (c : Char) : isAscii c.toLower = isAscii c := by
  unfold isAscii Char.toLower
  split
  · rename_i h
    have h1 : c.val.toNat ≤ 90 := UInt32.le_iff_toNat_le.1 h.2
    have h2 : (c.val + ('a'.val - 'A'.val)).toNat < 128 := by
      rw [UInt32.toNat_add]
      have : ('a'.val - 'A'.val).toNat = 32 := by decide
      omega
    have h3 : c.toNat < 128 := by
      have : c.toNat = c.val.toNat := rfl
      omega
    rw [decide_eq_true h3]
    exact decide_eq_true h2
  · rfl

theorem all_ascii_of_lower {t w : Str} (h : t.map Char.toLower = w) (hw : w.all isAscii) : t.all isAscii := by
  subst h
  simpa [List.all_map, ascii_toLower, Function.comp_def] using hw

variable [L : LawfulPyEnv E]

/-- A token that may stand for a keyword is that keyword, whatever its case. -/
theorem lower_kw {w t : Str} (h : (Tok.kw w).reads t) (hw : w.all isAscii) : lower t = w := by
  rw [lower_ascii (all_ascii_of_lower h hw)]
  exact h

theorem lower_self {w : Str} (h : w.all isAscii) (h' : w.map Char.toLower = w) : lower w = w := by
  rw [lower_ascii h, h']

end SqlV.Core
