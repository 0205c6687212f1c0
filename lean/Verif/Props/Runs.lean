import Verif.Lemmas.RunFacts

/-!
# Runs of the command line tool (C42-C47, C49-C52, C54)
-/

namespace SqlV

set_option linter.unusedSectionVars false

section
variable [E : PyEnv]

/-- C42: without `--format` nothing is written, whatever the inputs, flags and contents. -/
theorem C42_no_write_without_format (env : FileEnv) (fl : Flags) (srcs : List Path) (w : World)
    (h : fl.format = false) :
    (handleInputs env fl srcs w).2.content = w.content ∧
    (handleInputs env fl srcs w).2.written = w.written := by
  obtain ⟨h1, h2, -⟩ := run_facts env fl srcs w
  have hr : ∀ f, rewrites env fl w.content f = false := by
    intro f; simp only [rewrites]; split <;> simp [h]
  constructor
  · funext p
    rw [h1 p, newContent]
    cases hf : (reached env srcs).find? fun f => decide (env.abspath f = p) with
    | none => rfl
    | some f =>
      have hp : env.abspath f = p := by simpa using List.find?_some hf
      simp only [newText]
      cases found env fl w.content f <;> simp [h, hp]
  · rw [h2]
    simp [opensWrite, hr]

/-- Writing is not an issue without `--format` or if the file can be written. -/
theorem handled_eq_found {env : FileEnv} {fl : Flags} {f : Path} (h : fl.format = false ∨ env.writeFault (env.abspath f) = none)
    (c : Path → Str) : handled env fl c f = found env fl c f := by
  simp only [handled]
  cases found env fl c f with
  | error e => rfl
  | ok r => rcases h with h | h <;> simp [h]

/-- C43: with `--format`, a reached file with a changed query holds the computed content afterwards, and
is among the written files, provided that this file can be written. -/
theorem C43_changed_files_written (env : FileEnv) (fl : Flags) (srcs : List Path) (w : World)
    (hf : fl.format = true) (f : Path) (hr : f ∈ reached env srcs) (hw : env.writeFault (env.abspath f) = none) (r : Found)
    (hfound : found env fl w.content f = .ok r) (hc : r.changed > 0) :
    (handleInputs env fl srcs w).2.content (env.abspath f) = r.content ∧
    env.abspath f ∈ (handleInputs env fl srcs w).2.written := by
  obtain ⟨h1, h2, -⟩ := run_facts env fl srcs w
  constructor
  · rw [h1, newContent_mem env fl _ _ f hr (reached_nodup env srcs), newText, hfound]
    simp [hc, hf, hw]
  · rw [h2]
    refine List.mem_append_right _ (List.mem_map.2 ⟨f, List.mem_filter.2 ⟨hr, ?_⟩, rfl⟩)
    rw [opensWrite, rewrites, hfound]
    simp [hc, hf, hw]

/-- C43, conversely: a path keeps its content and is not written unless it belongs to a reached file
with a changed query. -/
theorem C43_other_files_untouched (env : FileEnv) (fl : Flags) (srcs : List Path) (w : World) (p : Path)
    (h : ∀ f ∈ reached env srcs, env.abspath f = p →
      ∀ r, found env fl w.content f = .ok r → r.changed = 0) :
    (handleInputs env fl srcs w).2.content p = w.content p ∧
    (p ∉ w.written → p ∉ (handleInputs env fl srcs w).2.written) := by
  obtain ⟨h1, h2, -⟩ := run_facts env fl srcs w
  constructor
  · rw [h1, newContent]
    cases hf : (reached env srcs).find? fun f => decide (env.abspath f = p) with
    | none => rfl
    | some f =>
      have hp : env.abspath f = p := by simpa using List.find?_some hf
      have := h f (List.mem_of_find?_eq_some hf) hp
      simp only [newText]
      cases hfo : found env fl w.content f with
      | error e => simp [hp]
      | ok r => simp [hp, this r hfo]
  · intro hp
    rw [h2]
    intro hmem
    rcases List.mem_append.1 hmem with hm | hm
    · exact hp hm
    · obtain ⟨f, hf, he⟩ := List.mem_map.1 hm
      obtain ⟨hf, ho⟩ := List.mem_filter.1 hf
      have := h f hf he
      simp only [opensWrite, rewrites] at ho
      cases hfo : found env fl w.content f with
      | error e => simp [hfo] at ho
      | ok r => simp [hfo, this r hfo] at ho

/-- C44: the absolute paths opened are the distinct absolute paths of the files among the inputs, each
exactly once, in order of first appearance. -/
theorem C44_each_file_once (env : FileEnv) (fl : Flags) (srcs : List Path) (w : World)
    (hw : w.opened = []) :
    (handleInputs env fl srcs w).2.opened.Nodup ∧
    ∀ p, p ∈ (handleInputs env fl srcs w).2.opened ↔
      ∃ f, Item.file f ∈ items env srcs ∧ env.abspath f = p := by
  obtain ⟨-, -, h3, -⟩ := run_facts env fl srcs w
  rw [h3, hw, List.nil_append]
  refine ⟨reached_nodup env srcs, fun p => ?_⟩
  rw [reached, mem_firsts]
  simp

/-- C44: naming inputs again changes nothing: contents, counts and exit status are those of the run
without the repetition. -/
theorem C44_repeated_inputs (env : FileEnv) (fl : Flags) (srcs again : List Path) (w : World)
    (h : ∀ s ∈ again, s ∈ srcs) :
    (handleInputs env fl (srcs ++ again) w).1 = (handleInputs env fl srcs w).1 ∧
    (handleInputs env fl (srcs ++ again) w).2.content = (handleInputs env fl srcs w).2.content ∧
    (handleInputs env fl (srcs ++ again) w).2.written = (handleInputs env fl srcs w).2.written ∧
    (handleInputs env fl (srcs ++ again) w).2.opened = (handleInputs env fl srcs w).2.opened := by
  have hsub : ∀ f, Item.file f ∈ items env again → Item.file f ∈ items env srcs := by
    intro f hf
    simp only [items, List.mem_flatMap] at hf ⊢
    obtain ⟨s, hs, hf⟩ := hf
    exact ⟨s, h s hs, hf⟩
  have hgen : ∀ (a b : List Item) (seen : List Path),
      (∀ f, Item.file f ∈ b → Item.file f ∈ a ∨ env.abspath f ∈ seen) →
      firsts env seen (a ++ b) = firsts env seen a := by
    intro a
    induction a with
    | nil =>
      intro b
      induction b with
      | nil => intro seen _; rfl
      | cons i b ih =>
        intro seen hb
        cases i with
        | missing s => exact ih seen fun f hf => hb f (by simp [hf])
        | file g =>
          have hg : env.abspath g ∈ seen := by
            rcases hb g (by simp) with h | h
            · simp at h
            · exact h
          simp only [List.nil_append, firsts, hg, if_true]
          exact ih seen fun f hf => hb f (by simp [hf])
    | cons i a ih =>
      intro b seen hb
      cases i with
      | missing s =>
        simp only [List.cons_append, firsts]
        exact ih b seen fun f hf => by simpa using hb f hf
      | file g =>
        simp only [List.cons_append, firsts]
        split
        · rename_i hg
          refine ih b seen fun f hf => ?_
          rcases hb f hf with h | h
          · rcases List.mem_cons.1 h with h | h
            · cases h; exact .inr hg
            · exact .inl h
          · exact .inr h
        · congr 1
          refine ih b _ fun f hf => ?_
          rcases hb f hf with h | h
          · rcases List.mem_cons.1 h with h | h
            · cases h; exact .inr (by simp)
            · exact .inl h
          · exact .inr (by simp [h])
  have hreach : reached env (srcs ++ again) = reached env srcs := by
    have : items env (srcs ++ again) = items env srcs ++ items env again := by simp [items]
    rw [reached, this]
    exact hgen _ _ [] fun f hf => .inl (hsub f hf)
  obtain ⟨a1, a2, a3, -, a5⟩ := run_facts env fl (srcs ++ again) w
  obtain ⟨b1, b2, b3, -, b5⟩ := run_facts env fl srcs w
  rw [counts, hreach] at a5
  rw [counts] at b5
  refine ⟨a5.trans b5.symm, ?_, ?_, ?_⟩
  · funext p; rw [a1, b1, hreach]
  · rw [a2, b2, hreach]
  · rw [a3, b3, hreach]

/-- The number a file contributes; files whose analysis raises contribute nothing. -/
def number (r : Except PyErr Found) (g : Found → Nat) : Nat :=
  match r with
  | .ok r => g r
  | .error _ => 0

theorem counts_eq (env : FileEnv) (fl : Flags) (c : Path → Str)
    (srcs : List Path) :
    counts env fl c srcs =
      ⟨((reached env srcs).map fun f => number (handled env fl c f) fun r => min r.changed 1).sum,
       ((reached env srcs).map fun f => number (handled env fl c f) (·.changed)).sum,
       ((reached env srcs).map fun f => number (handled env fl c f) fun r => min r.invalid 1).sum,
       ((reached env srcs).map fun f => number (handled env fl c f) (·.invalid)).sum⟩ := by
  have hm : ∀ n : Nat, (if n > 0 then 1 else 0) = min n 1 := by intro n; split <;> omega
  have h : ∀ f, contrib env fl c f =
      ⟨number (handled env fl c f) fun r => min r.changed 1, number (handled env fl c f) (·.changed),
       number (handled env fl c f) fun r => min r.invalid 1, number (handled env fl c f) (·.invalid)⟩ := by
    intro f
    simp only [contrib, handled]
    cases found env fl c f with
    | error e => rfl
    | ok r =>
      simp only [and_assoc]
      split
      · rfl
      · simp only [number, hm]
  rw [counts]
  generalize reached env srcs = l
  induction l with
  | nil => rfl
  | cons f l ih => simp only [List.map_cons, Info.sum_cons, ih, h, Info.update, List.sum_cons]

/-- C45: the exit status is 0 or 1, and it is 1 exactly when `--check-format` finds a file with a query
to change or `--validate` finds a file with an invalid query; files on which an exception is raised do not count. -/
theorem C45_exit_status (env : FileEnv) (fl : Flags) (srcs : List Path) (w : World) :
    ((handleInputs env fl srcs w).1 = 0 ∨ (handleInputs env fl srcs w).1 = 1) ∧
    ((handleInputs env fl srcs w).1 = 1 ↔
      (fl.check = true ∧ ∃ f ∈ reached env srcs, ∃ r, handled env fl w.content f = .ok r ∧ 0 < r.changed) ∨
      (fl.validate = true ∧
        ∃ f ∈ reached env srcs, ∃ r, handled env fl w.content f = .ok r ∧ 0 < r.invalid)) := by
  obtain ⟨-, -, -, -, h5⟩ := run_facts env fl srcs w
  rw [h5, counts_eq]
  have hpos : ∀ g : Found → Nat,
      0 < ((reached env srcs).map fun f => number (handled env fl w.content f) g).sum ↔
        ∃ f ∈ reached env srcs, ∃ r, handled env fl w.content f = .ok r ∧ 0 < g r := by
    intro g
    rw [sum_pos_iff]
    constructor
    · rintro ⟨n, hm, hn⟩
      obtain ⟨f, hf, rfl⟩ := List.mem_map.1 hm
      cases hfo : handled env fl w.content f with
      | error e => simp [hfo, number] at hn
      | ok r => rw [hfo] at hn; exact ⟨f, hf, r, hfo, hn⟩
    · rintro ⟨f, hf, r, hfo, hn⟩
      exact ⟨_, List.mem_map.2 ⟨f, hf, rfl⟩, by rw [hfo]; exact hn⟩
  rw [← hpos (·.changed), ← hpos (·.invalid)]
  constructor
  · split <;> simp
  · rw [← Bool.decide_eq_true (b := fl.check), ← Bool.decide_eq_true (b := fl.validate),
      ← Bool.decide_and, ← Bool.decide_and, ← Bool.decide_or]
    simp only [decide_eq_true_eq, gt_iff_lt]
    split
    · rename_i h; simpa using h
    · rename_i h; simpa using h

/-- C45 in terms of what the files hold, for a run that does not write or whose writes do not fail. -/
theorem C45_exit_status_found (env : FileEnv) (fl : Flags) (srcs : List Path) (w : World)
    (hw : fl.format = false ∨ NoWriteFault env) :
    (handleInputs env fl srcs w).1 = 1 ↔
      (fl.check = true ∧ ∃ f ∈ reached env srcs, ∃ r, found env fl w.content f = .ok r ∧ 0 < r.changed) ∨
      (fl.validate = true ∧
        ∃ f ∈ reached env srcs, ∃ r, found env fl w.content f = .ok r ∧ 0 < r.invalid) := by
  have h : ∀ f, handled env fl w.content f = found env fl w.content f := fun f =>
    handled_eq_found (hw.imp_right fun h => h _) _
  rw [(C45_exit_status env fl srcs w).2]
  simp only [h]

/-- What is printed about a file that is reached is part of the output. -/
theorem said_printed (env : FileEnv) (fl : Flags) (srcs : List Path) (w : World) (f : Path) (hf : f ∈ reached env srcs) :
    ∃ before after, (handleInputs env fl srcs w).2.out = before ++ said env fl w.content f ++ after := by
  obtain ⟨-, -, -, h4, -⟩ := run_facts env fl srcs w
  have hall : ∀ (is : List Item) (seen : List Path), f ∈ firsts env seen is →
      ∃ before after, saidAll env fl w.content seen is =
        before ++ said env fl w.content f ++ after := by
    intro is
    induction is with
    | nil => intro seen h; simp [firsts] at h
    | cons i is ih =>
      intro seen h
      cases i with
      | missing s =>
        obtain ⟨b, a, h'⟩ := ih seen h
        exact ⟨.invalidInput s :: b, a, by simp [saidAll, h']⟩
      | file g =>
        simp only [firsts] at h
        simp only [saidAll]
        split
        · rename_i hg
          rw [if_pos hg] at h
          exact ih seen h
        · rename_i hg
          rw [if_neg hg] at h
          rcases List.mem_cons.1 h with rfl | h
          · exact ⟨[], saidAll env fl w.content (env.abspath f :: seen) is,
              by simp⟩
          · obtain ⟨b, a, h'⟩ := ih _ h
            exact ⟨said env fl w.content g ++ b, a, by simp [h']⟩
  obtain ⟨b, a, hba⟩ := hall _ [] hf
  rw [h4, hba]
  exact ⟨w.out ++ b, a ++ summary fl (counts env fl w.content srcs), by simp⟩

/-- Different files have different absolute paths. -/
theorem abspath_inj (env : FileEnv) : ∀ (l : List Path), (l.map env.abspath).Nodup → ∀ a ∈ l, ∀ b ∈ l,
    env.abspath a = env.abspath b → a = b := by
  intro l
  induction l with
  | nil => simp
  | cons x l ih =>
    intro hnd a ha b hb hab
    simp only [List.map_cons, List.nodup_cons] at hnd
    rcases List.mem_cons.1 ha with h1 | h1 <;> rcases List.mem_cons.1 hb with h2 | h2
    · rw [h1, h2]
    · exact absurd (List.mem_map.2 ⟨b, h2, by rw [← hab, h1]⟩) hnd.1
    · exact absurd (List.mem_map.2 ⟨a, h1, by rw [hab, h2]⟩) hnd.1
    · exact ih hnd.2 a h1 b h2 hab

/-- C46: a file on which an exception is raised keeps its content, is not written, and is reported; except that a write
may fail after the file has been truncated (C51). -/
theorem C46_failing_file_unchanged (env : FileEnv) (fl : Flags) (srcs : List Path) (w : World)
    (f : Path) (hf : f ∈ reached env srcs) (e : PyErr) (he : handled env fl w.content f = .error e)
    (hw : env.writeFault (env.abspath f) ≠ some .onWrite) :
    (handleInputs env fl srcs w).2.content (env.abspath f) = w.content (env.abspath f) ∧
    (env.abspath f ∉ w.written → env.abspath f ∉ (handleInputs env fl srcs w).2.written) ∧
    (if e = .recursion then Event.couldNotAnalyse f else Event.errorAnalysing f e) ∈ (handleInputs env fl srcs w).2.out := by
  have hinj := abspath_inj env
  have hsaid : said env fl w.content f = [if e = .recursion then Event.couldNotAnalyse f else Event.errorAnalysing f e] ∧
      newText env fl w.content f = w.content (env.abspath f) ∧ opensWrite env fl w.content f = false := by
    rw [handled] at he
    cases hfo : found env fl w.content f with
    | error e' =>
      rw [hfo] at he
      cases he
      simp [said, newText, opensWrite, rewrites, hfo]
    | ok r =>
      rw [hfo] at he
      simp only at he
      split at he
      · rename_i hch
        cases he
        cases hwf : env.writeFault (env.abspath f) with
        | none => exact absurd hwf hch.2.2
        | some k =>
          cases k with
          | onWrite => exact absurd hwf hw
          | onOpen => simp [said, newText, opensWrite, rewrites, hfo, hwf, hch.1, hch.2.1]
      · cases he
  obtain ⟨h1, h2, -⟩ := run_facts env fl srcs w
  refine ⟨?_, fun hn => ?_, ?_⟩
  · rw [h1, newContent_mem env fl _ _ f hf (reached_nodup env srcs), hsaid.2.1]
  · rw [h2, List.mem_append, not_or]
    refine ⟨hn, fun hm => ?_⟩
    obtain ⟨g, hg, hgf⟩ := List.mem_map.1 hm
    rw [List.mem_filter] at hg
    rw [hinj _ (reached_nodup env srcs) g hg.1 f hf hgf, hsaid.2.2] at hg
    cases hg.2
  · obtain ⟨b, a, hba⟩ := said_printed env fl srcs w f hf
    rw [hba, hsaid.1]
    simp

/-- The environment in which the files of a set cannot be read. -/
def FileEnv.break (env : FileEnv) (bad : Path → Option PyErr) : FileEnv :=
  { env with readFault := fun p => (bad p).or (env.readFault p) }

theorem found_break (env : FileEnv) (bad : Path → Option PyErr) (fl : Flags) (c : Path → Str) (f : Path) :
    found (env.break bad) fl c f =
      match bad (env.abspath f) with
      | some e => .error e
      | none => found env fl c f := by
  simp only [found, FileEnv.break]
  cases bad (env.abspath f) <;> rfl

theorem reached_break (env : FileEnv) (bad : Path → Option PyErr) (srcs : List Path) :
    reached (env.break bad) srcs = reached env srcs := by
  have : ∀ (is : List Item) (seen : List Path),
      firsts (env.break bad) seen is = firsts env seen is := by
    intro is
    induction is with
    | nil => intro seen; rfl
    | cons i is ih =>
      intro seen
      cases i with
      | missing s => exact ih seen
      | file f =>
        simp only [firsts, ih]
        rfl
  exact this _ _

/-- C46: let any set of files become unreadable.  The others end up with the same content as before,
the unreadable ones are unchanged, and the counts are the sums over the others. -/
theorem C46_others_unaffected (env : FileEnv) (bad : Path → Option PyErr) (fl : Flags)
    (srcs : List Path) (w : World) :
    (∀ p, bad p = none → (handleInputs (env.break bad) fl srcs w).2.content p =
      (handleInputs env fl srcs w).2.content p) ∧
    (∀ p, bad p ≠ none → (handleInputs (env.break bad) fl srcs w).2.content p = w.content p) ∧
    counts (env.break bad) fl w.content srcs = Info.sum
      (((reached env srcs).filter fun f => bad (env.abspath f) = none).map (contrib env fl w.content)) := by
  obtain ⟨a1, -⟩ := run_facts (env.break bad) fl srcs w
  obtain ⟨b1, -⟩ := run_facts env fl srcs w
  refine ⟨fun p hp => ?_, fun p hp => ?_, ?_⟩
  · rw [a1, b1, reached_break, newContent, newContent]
    show (match (reached env srcs).find? fun f => decide (env.abspath f = p) with
      | some f => newText (env.break bad) fl w.content f
      | none => w.content p) = _
    cases hf : (reached env srcs).find? fun f => decide (env.abspath f = p) with
    | none => rfl
    | some f =>
      have he : env.abspath f = p := by simpa using List.find?_some hf
      simp only
      simp only [newText, found_break, he, hp]
      have he' : (env.break bad).abspath f = p := he
      rw [he']
      rfl
  · rw [a1, reached_break, newContent]
    show (match (reached env srcs).find? fun f => decide (env.abspath f = p) with
      | some f => newText (env.break bad) fl w.content f
      | none => w.content p) = _
    cases hf : (reached env srcs).find? fun f => decide (env.abspath f = p) with
    | none => rfl
    | some f =>
      have he : env.abspath f = p := by simpa using List.find?_some hf
      obtain ⟨e, hb⟩ := Option.ne_none_iff_exists'.1 hp
      simp only [newText, found_break, he, hb]
      show w.content (env.abspath f) = _
      rw [he]
  · rw [counts, reached_break]
    generalize reached env srcs = l
    induction l with
    | nil => rfl
    | cons f l ih =>
      simp only [List.map_cons, Info.sum_cons, ih, List.filter_cons]
      have hco : contrib (env.break bad) fl w.content f =
          match bad (env.abspath f) with
          | some _ => {}
          | none => contrib env fl w.content f := by
        simp only [contrib, found_break]
        cases bad (env.abspath f) <;> rfl
      rw [hco]
      cases hb : bad (env.abspath f) with
      | none => simp
      | some e => simp

/-- C47: the summaries report the sums over the distinct files reached: the number of files with a
changed (invalid) query and the number of such queries.  Files on which an exception is raised count as 0. -/
theorem C47_counts_are_sums (env : FileEnv) (fl : Flags) (srcs : List Path) (w : World) :
    ∃ before, (handleInputs env fl srcs w).2.out = before ++
      (if fl.format || fl.check then
        [.formatSummary
          ((reached env srcs).map fun f => number (handled env fl w.content f) fun r => min r.changed 1).sum
          ((reached env srcs).map fun f => number (handled env fl w.content f) (·.changed)).sum fl.check]
       else []) ++
      (if fl.validate then
        [.validationSummary
          ((reached env srcs).map fun f => number (handled env fl w.content f) fun r => min r.invalid 1).sum
          ((reached env srcs).map fun f => number (handled env fl w.content f) (·.invalid)).sum]
       else []) := by
  obtain ⟨-, -, -, h4, -⟩ := run_facts env fl srcs w
  refine ⟨w.out ++ saidAll env fl w.content [] (items env srcs), ?_⟩
  rw [h4, counts_eq, summary]
  simp

/-- Events about files to change. -/
def Event.changedFile : Event → Option (Path × Nat)
  | .reformatted f n => some (f, n)
  | .wouldReformat f n => some (f, n)
  | _ => none

/-- C49: `--check-format` and `--format` report the same files and numbers of queries in the same
order, and `--format` writes exactly these files; files that cannot be written are missing from the report of
`--format`, and those that cannot be opened for writing are not written. -/
theorem C49_check_agrees_with_format (env : FileEnv) (validate verbose : Bool) (srcs : List Path)
    (w : World) (hout : w.out = []) (hwr : w.written = []) :
    (handleInputs env ⟨true, false, validate, verbose⟩ srcs w).2.out.filterMap Event.changedFile =
      ((handleInputs env ⟨false, true, validate, verbose⟩ srcs w).2.out.filterMap Event.changedFile).filter
        (fun e => decide (env.writeFault (env.abspath e.1) = none)) ∧
    (handleInputs env ⟨true, false, validate, verbose⟩ srcs w).2.written =
      (((handleInputs env ⟨false, true, validate, verbose⟩ srcs w).2.out.filterMap Event.changedFile).map
        fun e => env.abspath e.1).filter fun p => decide (env.writeFault p ≠ some .onOpen) := by
  obtain ⟨-, -, -, a4, -⟩ := run_facts env ⟨false, true, validate, verbose⟩ srcs w
  obtain ⟨-, b2, -, b4, -⟩ := run_facts env ⟨true, false, validate, verbose⟩ srcs w
  have hfound : ∀ f, found env ⟨false, true, validate, verbose⟩ w.content f =
      found env ⟨true, false, validate, verbose⟩ w.content f := fun f => rfl
  have hinv : ∀ (fl : Flags) f r, (invalidSaid fl f r).filterMap Event.changedFile = [] := by
    intro fl f r
    simp only [invalidSaid]
    split
    · split <;> simp [Event.changedFile, List.filterMap_cons]
    · rfl
  have hsum : ∀ (fl : Flags) i, (summary fl i).filterMap Event.changedFile = [] := by
    intro fl i
    simp only [summary]
    split <;> split <;> rfl
  have hsaid : ∀ f, (said env ⟨true, false, validate, verbose⟩ w.content f).filterMap Event.changedFile =
      ((said env ⟨false, true, validate, verbose⟩ w.content f).filterMap Event.changedFile).filter
        (fun e => decide (env.writeFault (env.abspath e.1) = none)) ∧
      ((said env ⟨false, true, validate, verbose⟩ w.content f).filterMap Event.changedFile).map
        (fun e => env.abspath e.1) =
      if rewrites env ⟨true, false, validate, verbose⟩ w.content f then [env.abspath f] else [] := by
    intro f
    cases hfo : found env ⟨true, false, validate, verbose⟩ w.content f with
    | error e =>
      simp only [said, hfound, rewrites, hfo]
      constructor <;> (by_cases hr : e = .recursion <;> simp [hr, Event.changedFile, List.filterMap_cons])
    | ok r =>
      simp only [said, hfound, rewrites, hfo]
      by_cases hr : r.changed > 0
      · cases hwf : env.writeFault (env.abspath f) <;> simp [hr, Event.changedFile, hinv, hwf]
      · simp [hr, hinv]
  have hall : ∀ (is : List Item) (seen : List Path),
      (saidAll env ⟨true, false, validate, verbose⟩ w.content seen is).filterMap Event.changedFile =
      ((saidAll env ⟨false, true, validate, verbose⟩ w.content seen is).filterMap Event.changedFile).filter
        (fun e => decide (env.writeFault (env.abspath e.1) = none)) ∧
      ((saidAll env ⟨false, true, validate, verbose⟩ w.content seen is).filterMap
        Event.changedFile).map (fun e => env.abspath e.1) =
      ((firsts env seen is).filter
        (rewrites env ⟨true, false, validate, verbose⟩ w.content)).map env.abspath := by
    intro is
    induction is with
    | nil => intro seen; exact ⟨rfl, rfl⟩
    | cons i is ih =>
      intro seen
      cases i with
      | missing s => exact ih seen
      | file f =>
        simp only [saidAll, firsts]
        split
        · exact ih seen
        · obtain ⟨h1, h2⟩ := ih (env.abspath f :: seen)
          obtain ⟨h3, h4⟩ := hsaid f
          rw [List.filterMap_append, List.filterMap_append, h1, h3]
          refine ⟨by rw [List.filter_append], ?_⟩
          rw [List.map_append, h2, h4, List.filter_cons]
          split <;> simp
  obtain ⟨h1, h2⟩ := hall (items env srcs) []
  rw [a4, b4, b2, hout, hwr]
  simp only [List.nil_append, List.filterMap_append, hsum, List.append_nil]
  refine ⟨h1, ?_⟩
  rw [h2, List.filter_map, List.filter_filter, reached]
  congr 1
  refine List.filter_congr fun f _ => ?_
  rw [opensWrite, Bool.and_comm]
  rfl

/-- C50: when all inputs are directories, every path opened or written is that of a file below one of
them whose name ends in `.py`. -/
theorem C50_only_python_files (env : FileEnv) (fl : Flags) (srcs : List Path) (w : World)
    (hd : ∀ s ∈ srcs, env.isdir s = true) (ho : w.opened = []) (hwr : w.written = []) :
    ∀ p, p ∈ (handleInputs env fl srcs w).2.opened ∨ p ∈ (handleInputs env fl srcs w).2.written ∨
        (handleInputs env fl srcs w).2.content p ≠ w.content p →
      ∃ s ∈ srcs, ∃ d ∈ env.walk s, ∃ name ∈ d.2,
        (∃ stem, name = stem ++ str!".py") ∧ env.abspath (env.join d.1 name) = p := by
  obtain ⟨h1, h2, h3, -⟩ := run_facts env fl srcs w
  have key : ∀ f ∈ reached env srcs, ∃ s ∈ srcs, ∃ d ∈ env.walk s, ∃ name ∈ d.2,
        (∃ stem, name = stem ++ str!".py") ∧
          env.abspath (env.join d.1 name) = env.abspath f := by
    intro f hf
    have := (mem_firsts env (items env srcs) [] (env.abspath f)).1 (List.mem_map.2 ⟨f, hf, rfl⟩)
    obtain ⟨-, g, hg, hgf⟩ := this
    simp only [items, List.mem_flatMap] at hg
    obtain ⟨s, hs, hg⟩ := hg
    rw [hd s hs] at hg
    simp only [if_true, List.mem_map, Item.file.injEq, exists_eq_right, pyFiles, List.mem_flatMap,
      List.mem_filter] at hg
    obtain ⟨d, hdw, name, ⟨hn, hpy⟩, rfl⟩ := hg
    obtain ⟨stem, hstem⟩ := List.isSuffixOf_iff_suffix.1 hpy
    exact ⟨s, hs, d, hdw, name, hn, ⟨stem, hstem.symm⟩, hgf⟩
  intro p hp
  rw [h2, h3, ho, hwr, List.nil_append, List.nil_append] at hp
  rcases hp with hp | hp | hp
  · obtain ⟨f, hf, rfl⟩ := List.mem_map.1 hp
    exact key f hf
  · obtain ⟨f, hf, rfl⟩ := List.mem_map.1 hp
    exact key f (List.mem_filter.1 hf).1
  · rw [h1] at hp
    by_cases hm : p ∈ (reached env srcs).map env.abspath
    · obtain ⟨f, hf, rfl⟩ := List.mem_map.1 hm
      exact key f hf
    · exact absurd (newContent_notMem env fl _ _ p hm) hp

/-- C51 when no write is interrupted: after any run, hence after any initial part of the inputs has
been handled, each file holds its old content or the computed one.  Missing for the full statement: a
stop between truncating and writing, for which it is false (`C51_not_all`). -/
theorem C51_old_or_new_partial (env : FileEnv) (fl : Flags) (srcs : List Path) (w : World)
    (hw : ∀ p, env.writeFault p ≠ some .onWrite) (p : Path) :
    (handleInputs env fl srcs w).2.content p = w.content p ∨
    ∃ f ∈ reached env srcs, env.abspath f = p ∧
      ∃ r, found env fl w.content f = .ok r ∧ (handleInputs env fl srcs w).2.content p = r.content := by
  obtain ⟨h1, -⟩ := run_facts env fl srcs w
  rw [h1, newContent]
  cases hf : (reached env srcs).find? fun f => decide (env.abspath f = p) with
  | none => exact .inl rfl
  | some f =>
    have he : env.abspath f = p := by simpa using List.find?_some hf
    simp only [newText]
    cases hfo : found env fl w.content f with
    | error e => exact .inl (by simp [he])
    | ok r =>
      simp only
      by_cases hc : r.changed > 0 ∧ fl.format = true
      · simp only [hc, and_self, if_true]
        cases hwf : env.writeFault (env.abspath f) with
        | none => exact .inr ⟨f, List.mem_of_find?_eq_some hf, he, r, hfo, rfl⟩
        | some k =>
          cases k with
          | onOpen => exact .inl (by simp [he])
          | onWrite => exact absurd hwf (hw _)
      · simp only [hc, if_false]
        exact .inl (by simp [he])

/-- C51 exactly: after any run each file holds its old content, the computed one, or nothing at all; and nothing only if
writing it stopped after it had been truncated, and then nothing always. -/
theorem C51_old_new_or_empty (env : FileEnv) (fl : Flags) (srcs : List Path) (w : World) (p : Path) :
    ((∀ f ∈ reached env srcs, env.abspath f = p → ∀ r, found env fl w.content f = .ok r → r.changed > 0 → fl.format = false) ∧
      (handleInputs env fl srcs w).2.content p = w.content p) ∨
    ∃ f ∈ reached env srcs, env.abspath f = p ∧ fl.format = true ∧
      ∃ r, found env fl w.content f = .ok r ∧ r.changed > 0 ∧
        (handleInputs env fl srcs w).2.content p = (match env.writeFault p with
          | none => r.content
          | some .onOpen => w.content p
          | some .onWrite => []) := by
  obtain ⟨h1, -⟩ := run_facts env fl srcs w
  rw [h1, newContent]
  cases hf : (reached env srcs).find? fun f => decide (env.abspath f = p) with
  | none =>
    refine .inl ⟨fun f hm he => ?_, rfl⟩
    have := List.find?_eq_none.1 hf f hm
    simp [he] at this
  | some f =>
    have he : env.abspath f = p := by simpa using List.find?_some hf
    have hinj : ∀ g ∈ reached env srcs, env.abspath g = p → g = f := fun g hg hp =>
      abspath_inj env _ (reached_nodup env srcs) _ hg _ (List.mem_of_find?_eq_some hf) (hp.trans he.symm)
    simp only [newText]
    cases hfo : found env fl w.content f with
    | error e =>
      refine .inl ⟨fun g hg hp r hr => ?_, by simp [he]⟩
      rw [hinj g hg hp, hfo] at hr
      cases hr
    | ok r =>
      simp only
      by_cases hc : r.changed > 0 ∧ fl.format = true
      · refine .inr ⟨f, List.mem_of_find?_eq_some hf, he, hc.2, r, hfo, hc.1, ?_⟩
        simp only [hc, and_self, if_true, he]
        cases env.writeFault p with
        | none => rfl
        | some k => cases k <;> rfl
      · refine .inl ⟨fun g hg hp r' hr' hch => ?_, by simp only [hc, if_false, he]⟩
        rw [hinj g hg hp, hfo] at hr'
        cases hr'
        simpa [hch] using hc

/-- C52: a run without inputs, without any flag, or with two flags of one group is refused with status
2 and without any effect; every other run is handed to `handle_inputs`. -/
theorem C52_gating (env : FileEnv) (fl : Flags) (srcs : List Path) (w : World) :
    ((srcs = [] ∨ (fl.format = false ∧ fl.check = false ∧ fl.validate = false ∧ fl.verbose = false) ∨
        (fl.format = true ∧ fl.check = true) ∨ (fl.validate = true ∧ fl.verbose = true)) →
      mainProg env fl srcs w = (2, w)) ∧
    (¬ (srcs = [] ∨ (fl.format = false ∧ fl.check = false ∧ fl.validate = false ∧ fl.verbose = false) ∨
        (fl.format = true ∧ fl.check = true) ∨ (fl.validate = true ∧ fl.verbose = true)) →
      mainProg env fl srcs w = handleInputs env fl srcs w) := by
  obtain ⟨a, b, c, d⟩ := fl
  cases srcs with
  | nil => simp [mainProg]
  | cons s ss => cases a <;> cases b <;> cases c <;> cases d <;> simp [mainProg]

/-- C54: `--verbose-validate` computes the same result for each file as `--validate`. -/
theorem C54_same_queries (env : FileEnv) (format check : Bool) (c : Path → Str) (f : Path) :
    found env ⟨format, check, false, true⟩ c f = found env ⟨format, check, true, false⟩ c f := rfl

/-- C54: `--verbose-validate` prints, for each reached file with invalid queries, their number and the
line and errors of each; its exit status is 0 unless `--check-format` is given as well. -/
theorem C54_locations_printed (env : FileEnv) (format check : Bool) (srcs : List Path) (w : World)
    (f : Path) (hf : f ∈ reached env srcs) (r : Found)
    (hr : handled env ⟨format, check, false, true⟩ w.content f = .ok r) (hi : 0 < r.invalid) :
    (∃ before after, (handleInputs env ⟨format, check, false, true⟩ srcs w).2.out =
      before ++ (Event.invalidIn f r.invalid :: r.locations.map fun l => Event.location l.1 l.2) ++
        after) ∧
    (check = false → (handleInputs env ⟨format, check, false, true⟩ srcs w).1 = 0) := by
  obtain ⟨-, -, -, h4, h5⟩ := run_facts env ⟨format, check, false, true⟩ srcs w
  refine ⟨?_, fun hc => by rw [h5, hc]; simp⟩
  have hsaid : ∃ before, said env ⟨format, check, false, true⟩ w.content f = before ++
      (Event.invalidIn f r.invalid :: r.locations.map fun l => Event.location l.1 l.2) := by
    have hinv : invalidSaid ⟨format, check, false, true⟩ f r =
        Event.invalidIn f r.invalid :: r.locations.map fun l => Event.location l.1 l.2 := by
      simp [invalidSaid, hi]
    rw [handled] at hr
    cases hfo : found env ⟨format, check, false, true⟩ w.content f with
    | error e => rw [hfo] at hr; cases hr
    | ok r' =>
    rw [hfo] at hr
    simp only at hr
    split at hr
    · cases hr
    rename_i hnf
    cases hr
    simp only [said, hfo, hinv]
    split
    · rename_i hch
      have : env.writeFault (env.abspath f) = none := by
        cases hwf : env.writeFault (env.abspath f) with
        | none => rfl
        | some k => exact absurd ⟨hch.1, hch.2, by simp [hwf]⟩ hnf
      rw [this]
      exact ⟨[_], rfl⟩
    · split
      · exact ⟨[_], rfl⟩
      · exact ⟨[], rfl⟩
  obtain ⟨b, a, hba⟩ := said_printed env ⟨format, check, false, true⟩ srcs w f hf
  obtain ⟨b', hb'⟩ := hsaid
  rw [hba, hb']
  exact ⟨b ++ b', a, by simp⟩

end

/-! ### Concrete cases -/

/-- A file system with `d/a.py`, `d/b.txt` and `d/c.py`; every file is tokenised as one string literal
with the text of the file, and an end marker. -/
def demoEnv : FileEnv where
  abspath p := p
  isdir p := decide (p = str!"d")
  isfile p := decide (p ≠ str!"d")
  walk _ := [(str!"d", [str!"a.py", str!"b.txt", str!"c.py"])]
  join d n := d ++ str!"/" ++ n
  readFault _ := none
  writeFault _ := none
  tokenize s := ⟨[⟨.string, s, (1, 0), (1, s.length)⟩, ⟨.endmarker, [], (2, 0), (2, 0)⟩], none⟩
  limit := 100

/-- Contents: `d/a.py` holds a query to reformat, the others an invalid query. -/
def demoWorld : World where
  content p := if p = str!"d/a.py" then str!"'select a from t'" else str!"'SELECT a'"

example : NoWriteFault demoEnv := fun _ => rfl

example : reached demoEnv [str!"d", str!"d/c.py", str!"d"] = [str!"d/a.py", str!"d/c.py"] := by
  decide +kernel

/-- `--format` on the directory and a file in it: one file rewritten. -/
example :
    let w' := (@handleInputs asciiEnv demoEnv ⟨true, false, false, false⟩ [str!"d", str!"d/c.py"]
      demoWorld).2
    w'.content str!"d/a.py" = str!"'''\nSELECT a\nFROM t\n'''" ∧
    w'.content str!"d/c.py" = str!"'SELECT a'" ∧
    w'.written = [str!"d/a.py"] ∧ w'.opened = [str!"d/a.py", str!"d/c.py"] := by
  decide +kernel

/-- `--validate`: status 1. -/
example : (@handleInputs asciiEnv demoEnv ⟨false, false, true, false⟩ [str!"d"] demoWorld).1 = 1 := by
  decide +kernel

/-- `--verbose-validate`: status 0, the line and the error are printed. -/
example : (@handleInputs asciiEnv demoEnv ⟨false, false, false, true⟩ [str!"d/c.py"] demoWorld).1 = 0 ∧
    Event.location 1 [str!"The column a was not found"] ∈
      (@handleInputs asciiEnv demoEnv ⟨false, false, false, true⟩ [str!"d/c.py"] demoWorld).2.out := by
  decide +kernel

/-- Non-vacuity of C46: `d/a.py` cannot be written; it is unchanged and reported, and `d/c.py` is still handled. -/
example :
    let env := { demoEnv with writeFault := fun p => if p = str!"d/a.py" then some .onOpen else none }
    let w' := (@handleInputs asciiEnv env ⟨true, false, true, false⟩ [str!"d"] demoWorld).2
    (@handled asciiEnv env ⟨true, false, true, false⟩ demoWorld.content str!"d/a.py") = .error .io ∧
    w'.content str!"d/a.py" = str!"'select a from t'" ∧ w'.written = [] ∧
    w'.out = [.errorAnalysing str!"d/a.py" .io, .invalidIn str!"d/c.py" 1, .formatSummary 0 0 false, .validationSummary 1 1] := by
  decide +kernel

/-- C51 is false: when the process stops between truncating and writing, the file is empty. -/
theorem C51_not_all : ∃ (env : FileEnv) (w : World) (p : Path),
    (@handleInputs asciiEnv env ⟨true, false, false, false⟩ [p] w).2.content p = [] ∧
    w.content p ≠ [] ∧
    ∃ r, @found asciiEnv env ⟨true, false, false, false⟩ w.content p = .ok r ∧ r.content ≠ [] :=
  ⟨{ demoEnv with writeFault := fun _ => some .onWrite }, demoWorld, str!"d/a.py",
    by decide +kernel, by decide +kernel, ⟨1, str!"'''\nSELECT a\nFROM t\n'''", 0, []⟩,
    by decide +kernel, by decide⟩

/-- C45, C47: with `--format --validate`, the invalid query of a file that cannot be written is not counted: the status
is 0, although the same run with a file that can be written has status 1. -/
theorem C45_unwritable_not_counted : ∃ (env : FileEnv) (w : World) (p : Path),
    (@handleInputs asciiEnv { env with writeFault := fun _ => some .onOpen } ⟨true, false, true, false⟩ [p] w).1 = 0 ∧
    (@handleInputs asciiEnv env ⟨true, false, true, false⟩ [p] w).1 = 1 :=
  ⟨demoEnv, ⟨fun _ => str!"'select a'", [], [], []⟩, str!"d/a.py", by decide +kernel, by decide +kernel⟩

end SqlV
