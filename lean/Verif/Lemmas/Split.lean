import Verif.Tokeniser

/-! Facts about `str.split` and the splitting helpers of the tokeniser. -/

namespace SqlV

namespace Str

theorem splitOn_ne_nil (c : Char) (s : Str) : splitOn c s ≠ [] := by
  cases s with
  | nil => simp [splitOn]
  | cons x xs =>
    simp only [splitOn]
    split
    · simp
    · split <;> simp

theorem splitOn_of_not_mem {c : Char} {s : Str} (h : c ∉ s) : splitOn c s = [s] := by
  induction s with
  | nil => rfl
  | cons x xs ih =>
    simp only [List.mem_cons, not_or] at h
    simp [splitOn, ih h.2, Ne.symm h.1]

/-- Splitting at the first occurrence. -/
theorem splitOn_append_cons {c : Char} {a : Str} (h : c ∉ a) (b : Str) :
    splitOn c (a ++ c :: b) = a :: splitOn c b := by
  induction a with
  | nil => simp [splitOn]
  | cons x xs ih =>
    simp only [List.mem_cons, not_or] at h
    simp [splitOn, ih h.2, Ne.symm h.1]

theorem not_mem_of_mem_splitOn {c : Char} {s w : Str} (h : w ∈ splitOn c s) : c ∉ w := by
  induction s generalizing w with
  | nil => simp [splitOn] at h; simp [h]
  | cons x xs ih =>
    simp only [splitOn] at h
    split at h
    · rcases List.mem_cons.1 h with rfl | h
      · simp
      · exact ih h
    · rename_i hx
      split at h
      · rename_i heq; exact absurd heq (splitOn_ne_nil c xs)
      · rename_i v vs heq
        rcases List.mem_cons.1 h with rfl | h
        · have := ih (w := v) (by simp [heq])
          simp [this, Ne.symm hx]
        · exact ih (by simp [heq, h])

/-- A character of a piece is a character of the text. -/
theorem mem_of_mem_splitOn {c d : Char} {s w : Str} (h : w ∈ splitOn c s) (hd : d ∈ w) : d ∈ s := by
  induction s generalizing w with
  | nil => simp [splitOn] at h; simp [h] at hd
  | cons x xs ih =>
    simp only [splitOn] at h
    split at h
    · rcases List.mem_cons.1 h with rfl | h
      · simp at hd
      · exact List.mem_cons_of_mem _ (ih h hd)
    · split at h
      · rename_i heq; exact absurd heq (splitOn_ne_nil c xs)
      · rename_i v vs heq
        rcases List.mem_cons.1 h with rfl | h
        · rcases List.mem_cons.1 hd with rfl | hd
          · simp
          · exact List.mem_cons_of_mem _ (ih (w := v) (by simp [heq]) hd)
        · exact List.mem_cons_of_mem _ (ih (by simp [heq, h]) hd)

end Str

theorem glueEscaped_of_no_backslash (sep : Char) (l : List Str) (h : ∀ w ∈ l, '\\' ∉ w) :
    glueEscaped sep l = l := by
  induction l with
  | nil => rfl
  | cons v l ih =>
    have hv : v.getLast? ≠ some '\\' := by
      intro hc
      exact h v (by simp) (List.mem_of_getLast? hc)
    cases l with
    | nil => simp [glueEscaped, hv]
    | cons n rest =>
      have := ih (fun w hw => h w (List.mem_cons_of_mem _ hw))
      simp [glueEscaped, hv, this]

theorem splitWithEscaping_eq {s : Str} (h : '\\' ∉ s) (sep : Char) :
    splitWithEscaping s sep = Str.splitOn sep s :=
  glueEscaped_of_no_backslash sep _ fun _ hw hc => h (Str.mem_of_mem_splitOn hw hc)

/-- `[x]` or nothing when `x` is empty. -/
def ne (x : Str) : List Str := if x.isEmpty then [] else [x]

theorem yieldWithSep_cons (sep : Char) (w : Str) {ws : List Str} (h : ws ≠ []) :
    yieldWithSep sep (w :: ws) = ne w ++ [sep] :: yieldWithSep sep ws := by
  cases ws with
  | nil => exact absurd rfl h
  | cons v vs => rfl

theorem splitWithSep_of_not_mem {c : Char} {s : Str} (hb : '\\' ∉ s) (h : c ∉ s) :
    splitWithSep s c = ne s := by
  simp [splitWithSep, splitWithEscaping_eq hb, Str.splitOn_of_not_mem h, yieldWithSep, ne]

theorem splitWithSep_append_cons {c : Char} {a b : Str} (h : c ∉ a) (hb : '\\' ∉ a ++ c :: b) :
    splitWithSep (a ++ c :: b) c = ne a ++ [c] :: splitWithSep b c := by
  have hb' : '\\' ∉ b := fun hc => hb (by simp [hc])
  rw [splitWithSep, splitWithEscaping_eq hb, Str.splitOn_append_cons h,
    yieldWithSep_cons _ _ (Str.splitOn_ne_nil _ _), splitWithSep, splitWithEscaping_eq hb']

theorem glueEscaped_ne_nil (sep : Char) {l : List Str} (h : l ≠ []) : glueEscaped sep l ≠ [] := by
  match l with
  | [] => exact absurd rfl h
  | [v] => simp only [glueEscaped]; split <;> simp
  | v :: n :: rest => simp only [glueEscaped]; split <;> simp

/-- A separator that is not escaped. -/
theorem splitWithSep_cons {c : Char} {a b : Str} (h : c ∉ a) (ha : a.getLast? ≠ some '\\') :
    splitWithSep (a ++ c :: b) c = ne a ++ [c] :: splitWithSep b c := by
  rw [splitWithSep, splitWithEscaping, Str.splitOn_append_cons h]
  obtain ⟨n, rest, hn⟩ := List.exists_cons_of_ne_nil (Str.splitOn_ne_nil c b)
  rw [hn, glueEscaped, if_neg ha, ← hn,
    yieldWithSep_cons _ _ (glueEscaped_ne_nil _ (Str.splitOn_ne_nil c b))]
  rfl

theorem splitWithSep_none {c : Char} {a : Str} (h : c ∉ a) (ha : a.getLast? ≠ some '\\') :
    splitWithSep a c = ne a := by
  simp [splitWithSep, splitWithEscaping, Str.splitOn_of_not_mem h, glueEscaped, ha, yieldWithSep, ne]

/-- A separator that is escaped, followed by one that is not looked at. -/
theorem splitWithSep_escaped {c : Char} {a b d : Str} (h : c ∉ a) (ha : a.getLast? = some '\\')
    (hb : c ∉ b) : splitWithSep (a ++ c :: (b ++ c :: d)) c =
      (a ++ [c] ++ b) :: [c] :: splitWithSep d c := by
  rw [splitWithSep, splitWithEscaping, Str.splitOn_append_cons h, Str.splitOn_append_cons hb,
    glueEscaped, if_pos ha, yieldWithSep_cons _ _ (glueEscaped_ne_nil _ (Str.splitOn_ne_nil c d))]
  simp [ne, splitWithSep, splitWithEscaping]

theorem splitWithSep_escaped_end {c : Char} {a b : Str} (h : c ∉ a) (ha : a.getLast? = some '\\')
    (hb : c ∉ b) : splitWithSep (a ++ c :: b) c = [a ++ [c] ++ b] := by
  simp [splitWithSep, splitWithEscaping, Str.splitOn_append_cons h, Str.splitOn_of_not_mem hb,
    glueEscaped, if_pos ha, yieldWithSep]

@[simp] theorem Stream.append_ok (a b : List Str) (e : Option PyErr) :
    Stream.append ⟨a, none⟩ ⟨b, e⟩ = ⟨a ++ b, e⟩ := rfl

/-- Decomposition of a text at the first occurrence of a character. -/
theorem exists_append_cons {c : Char} {s : Str} (h : c ∈ s) : ∃ a b, s = a ++ c :: b ∧ c ∉ a := by
  induction s with
  | nil => simp at h
  | cons x xs ih =>
    by_cases hx : x = c
    · exact ⟨[], xs, by simp [hx]⟩
    · rcases List.mem_cons.1 h with rfl | h
      · exact absurd rfl hx
      · obtain ⟨a, b, rfl, ha⟩ := ih h
        exact ⟨x :: a, b, by simp, by simp [ha, Ne.symm hx]⟩

end SqlV
