import Verif.Props.Runs
import Verif.Lemmas.CoreLexAll

/-!
# The lines that a run prints (C62)
-/

set_option linter.unusedSectionVars false

namespace SqlV

open Core

/-- A number and what follows it can be told apart. -/
theorem number_split {m n : Nat} {c d : Char} {x y : Str} (hc : c.isDigit = false) (hd : d.isDigit = false)
    (h : Str.ofNat m ++ c :: x = Str.ofNat n ++ d :: y) : m = n ∧ c :: x = d :: y := by
  have key : ∀ (k : Nat) (c : Char) (x : Str), c.isDigit = false → (Str.ofNat k ++ c :: x).takeWhile Char.isDigit = Str.ofNat k := by
    intro k c x hc
    rw [List.takeWhile_append_of_pos (ofNat_digits (E := asciiEnv) k), List.takeWhile_cons, if_neg (by simp [hc]), List.append_nil]
  have hm : Str.ofNat m = Str.ofNat n := by rw [← key m c x hc, h, key n d y hd]
  refine ⟨?_, ?_⟩
  · rw [← value_ofNat (E := asciiEnv) m, hm, value_ofNat (E := asciiEnv)]
  · rw [hm] at h
    exact List.append_cancel_left h

theorem number_head (n : Nat) (x : Str) : ∃ c y, Str.ofNat n ++ x = c :: y ∧ c.isDigit = true := by
  cases h : Str.ofNat n with
  | nil => exact absurd h Nat.toDigits_ne_nil
  | cons c y => exact ⟨c, y ++ x, rfl, ofNat_digits (E := asciiEnv) n c (by rw [h]; simp)⟩

/-- The line about formatting, in parts. -/
theorem format_text (s : PyErr → Str) (f q : Nat) (c : Bool) : Event.text s (.formatSummary f q c) =
    if q > 0 then Str.ofNat f ++ ' ' :: (str!"file" ++ (if f > 1 then str!"s" else []) ++ str!" " ++
      (if c then str!"would be reformatted" else str!"reformatted") ++ str!" (" ++
      (Str.ofNat q ++ ' ' :: str!"changed SQL queries)."))
    else 'N' :: (str!"o file " ++ (if c then str!"would be reformatted" else str!"reformatted") ++ str!".") := by
  simp only [Event.text]
  split <;> simp

/-- The line about validation, in parts. -/
theorem validation_text (s : PyErr → Str) (f q : Nat) : Event.text s (.validationSummary f q) =
    if q > 0 then Str.ofNat f ++ ' ' :: (str!"file" ++ (if f > 1 then str!"s" else []) ++ str!" detected with invalid SQL (" ++
      (Str.ofNat q ++ ' ' :: (str!"invalid SQL quer" ++ (if q > 1 then str!"ies" else str!"y") ++ str!").")))
    else 'N' :: str!"o invalid queries found." := by
  simp only [Event.text]
  split <;> simp

theorem number_not_N (n : Nat) (x y : Str) : Str.ofNat n ++ x ≠ 'N' :: y := by
  obtain ⟨c, z, h, hd⟩ := number_head n x
  rw [h]
  intro he
  injection he with h1
  subst h1
  exact absurd hd (by decide)

/-- C62: the line about formatting tells the mode and the number of queries, and that of files if there are any. -/
theorem C62_format_summary_faithful (s : PyErr → Str) (f f' q q' : Nat) (c c' : Bool)
    (h : Event.text s (.formatSummary f q c) = Event.text s (.formatSummary f' q' c')) :
    c = c' ∧ q = q' ∧ (0 < q → f = f') := by
  rw [format_text, format_text] at h
  by_cases hq : q > 0 <;> by_cases hq' : q' > 0
  · rw [if_pos hq, if_pos hq'] at h
    obtain ⟨rfl, h⟩ := number_split (by decide) (by decide) h
    simp only [List.append_assoc, List.cons_append, List.nil_append, List.cons.injEq, true_and, List.append_cancel_left_eq] at h
    cases c <;> cases c' <;> simp at h ⊢
    all_goals exact (by rw [← value_ofNat (E := asciiEnv) q, h, value_ofNat (E := asciiEnv)])
  · rw [if_pos hq, if_neg hq'] at h
    exact absurd h (number_not_N _ _ _)
  · rw [if_neg hq, if_pos hq'] at h
    exact absurd h.symm (number_not_N _ _ _)
  · rw [if_neg hq, if_neg hq'] at h
    refine ⟨?_, by omega, fun h => absurd h hq⟩
    cases c <;> cases c' <;> simp at h ⊢

/-- C62: the line about validation tells the number of queries, and that of files if there are any. -/
theorem C62_validation_summary_faithful (s : PyErr → Str) (f f' q q' : Nat)
    (h : Event.text s (.validationSummary f q) = Event.text s (.validationSummary f' q')) :
    q = q' ∧ (0 < q → f = f') := by
  rw [validation_text, validation_text] at h
  by_cases hq : q > 0 <;> by_cases hq' : q' > 0
  · rw [if_pos hq, if_pos hq'] at h
    obtain ⟨rfl, h⟩ := number_split (by decide) (by decide) h
    simp only [List.append_assoc, List.cons_append, List.nil_append, List.cons.injEq, true_and, List.append_cancel_left_eq] at h
    exact ⟨(number_split (by decide) (by decide) h).1, fun _ => rfl⟩
  · rw [if_pos hq, if_neg hq'] at h
    exact absurd h (number_not_N _ _ _)
  · rw [if_neg hq, if_pos hq'] at h
    exact absurd h.symm (number_not_N _ _ _)
  · exact ⟨by omega, fun h => absurd h hq⟩

/-- C62: the lines about single files, queries and inputs, word for word. -/
theorem C62_file_lines (s : PyErr → Str) (f : Path) (n : Nat) (errors : List Str) (e : PyErr) :
    Event.text s (.reformatted f n) = str!"reformatted " ++ f ++ str!" (" ++ Str.ofNat n ++ str!" changed SQL)" ∧
    Event.text s (.wouldReformat f n) = str!"would reformat " ++ f ++ str!" (" ++ Str.ofNat n ++ str!" changed SQL)" ∧
    Event.text s (.invalidIn f n) = str!"invalid queries in " ++ f ++ str!" (" ++ Str.ofNat n ++ str!" invalid SQL)" ∧
    Event.text s (.location n errors) = str!"L" ++ Str.ofNat n ++ str!" - " ++ (errors.intersperse str!", ").flatten ∧
    Event.text s (.couldNotAnalyse f) = str!"could not analyse " ++ f ∧
    Event.text s (.errorAnalysing f e) = str!"error analysing " ++ f ++ str!" (" ++ s e ++ str!")" ∧
    Event.text s (.invalidInput f) = str!"Error: Invalid input" := by
  refine ⟨rfl, rfl, rfl, ?_, rfl, rfl, rfl⟩
  have hj : ∀ l : List Str, Str.join str!", " l = (l.intersperse str!", ").flatten := by
    intro l
    induction l with
    | nil => rfl
    | cons a l ih =>
      cases l with
      | nil => simp [Str.join]
      | cons b l => rw [Str.join, ih] <;> simp
  rw [Event.text, hj]

/-- A number can be told from the end. -/
theorem number_tail {m n : Nat} {x y : Str} (h : x ++ '(' :: Str.ofNat m = y ++ '(' :: Str.ofNat n) : m = n ∧ x = y := by
  have h' := congrArg List.reverse h
  simp only [List.reverse_append, List.reverse_cons, List.append_assoc, List.singleton_append] at h'
  have key : ∀ (k : Nat) (z : Str), ((Str.ofNat k).reverse ++ '(' :: z).takeWhile Char.isDigit = (Str.ofNat k).reverse := by
    intro k z
    rw [List.takeWhile_append_of_pos (fun c hc => ofNat_digits (E := asciiEnv) k c (List.mem_reverse.1 hc)), List.takeWhile_cons,
      if_neg (by decide), List.append_nil]
  have hm : (Str.ofNat m).reverse = (Str.ofNat n).reverse := by rw [← key m x.reverse, h', key n y.reverse]
  rw [hm] at h'
  have hx := List.append_cancel_left h'
  rw [List.reverse_inj] at hm
  refine ⟨by rw [← value_ofNat (E := asciiEnv) m, hm, value_ofNat (E := asciiEnv)], ?_⟩
  simpa using hx

/-- C62: the lines about single files tell the file and the number of queries, whatever the file is called. -/
theorem C62_file_lines_faithful (s : PyErr → Str) (f f' : Path) (n n' : Nat) :
    (Event.text s (.reformatted f n) = Event.text s (.reformatted f' n') → f = f' ∧ n = n') ∧
    (Event.text s (.wouldReformat f n) = Event.text s (.wouldReformat f' n') → f = f' ∧ n = n') ∧
    (Event.text s (.invalidIn f n) = Event.text s (.invalidIn f' n') → f = f' ∧ n = n') := by
  have key : ∀ (a b : Str), a ++ f ++ str!" (" ++ Str.ofNat n ++ b = a ++ f' ++ str!" (" ++ Str.ofNat n' ++ b →
      f = f' ∧ n = n' := by
    intro a b h
    have h := List.append_cancel_right h
    have e : ∀ (g : Path) (k : Nat), a ++ g ++ str!" (" ++ Str.ofNat k = (a ++ g ++ str!" ") ++ '(' :: Str.ofNat k := by simp
    rw [e, e] at h
    obtain ⟨h1, h2⟩ := number_tail h
    exact ⟨List.append_cancel_left (List.append_cancel_right h2), h1⟩
  exact ⟨key _ _, key _ _, key _ _⟩

section

variable [E : PyEnv]

/-- What a run prints. -/
def lines (s : PyErr → Str) (w : World) : List Str := w.out.map (Event.text s)

/-- C62: `--check-format` alone ends with status 0 exactly if its last line says that no file would be reformatted. -/
theorem C62_check_last_line (s : PyErr → Str) (env : FileEnv) (srcs : List Path) (w : World) :
    (handleInputs env ⟨false, true, false, false⟩ srcs w).1 = 0 ↔
      (lines s (handleInputs env ⟨false, true, false, false⟩ srcs w).2).getLast? = some str!"No file would be reformatted." := by
  obtain ⟨-, -, -, h4, h5⟩ := run_facts env ⟨false, true, false, false⟩ srcs w
  rw [h5, lines, h4]
  simp only [summary, Bool.false_or, if_true, if_false, List.append_nil, Bool.true_and, Bool.false_and, Bool.or_false,
    decide_eq_true_eq, List.map_append, List.map_cons, List.map_nil, Bool.false_eq_true]
  rw [List.getLast?_append, List.getLast?_singleton, Option.some_or, Option.some.injEq, format_text]
  split
  · simp only [Nat.one_ne_zero, false_iff]
    exact number_not_N _ _ _
  · simp

/-- C62: `--validate` alone ends with status 0 exactly if its last line says that no invalid query was found. -/
theorem C62_validate_last_line (s : PyErr → Str) (env : FileEnv) (srcs : List Path) (w : World) :
    (handleInputs env ⟨false, false, true, false⟩ srcs w).1 = 0 ↔
      (lines s (handleInputs env ⟨false, false, true, false⟩ srcs w).2).getLast? = some str!"No invalid queries found." := by
  obtain ⟨-, -, -, h4, h5⟩ := run_facts env ⟨false, false, true, false⟩ srcs w
  rw [h5, lines, h4]
  simp only [summary, Bool.false_or, if_true, if_false, List.nil_append, Bool.true_and, Bool.false_and, Bool.or_false,
    decide_eq_true_eq, List.map_append, List.map_cons, List.map_nil, Bool.false_eq_true]
  rw [List.getLast?_append, List.getLast?_singleton, Option.some_or, Option.some.injEq, validation_text]
  split
  · simp only [Nat.one_ne_zero, false_iff]
    exact number_not_N _ _ _
  · simp

end

/-- The lines of two runs. -/
example :
    lines (fun _ => []) (@handleInputs asciiEnv demoEnv ⟨false, true, true, false⟩ [str!"d"] demoWorld).2 =
      [str!"would reformat d/a.py (1 changed SQL)", str!"invalid queries in d/c.py (1 invalid SQL)",
       str!"1 file would be reformatted (1 changed SQL queries).", str!"1 file detected with invalid SQL (1 invalid SQL query)."] ∧
    lines (fun _ => []) (@handleInputs asciiEnv demoEnv ⟨false, true, false, false⟩ [str!"d/c.py"] demoWorld).2 =
      [str!"No file would be reformatted."] := by
  decide +kernel

end SqlV
