import Verif.Spec.Run

/-! A run as a function of the distinct files it reaches. -/

namespace SqlV

set_option linter.unusedSectionVars false

variable [E : PyEnv]

/-! ### Counts -/

theorem Info.update_assoc (a b c : Info) : (a.update b).update c = a.update (b.update c) := by
  simp [Info.update, Nat.add_assoc]

@[simp] theorem Info.update_zero (a : Info) : a.update {} = a := by simp [Info.update]

@[simp] theorem Info.zero_update (a : Info) : Info.update {} a = a := by simp [Info.update]

/-- Sum of a list of counts. -/
def Info.sum (l : List Info) : Info := l.foldr Info.update {}

@[simp] theorem Info.sum_nil : Info.sum [] = {} := rfl
@[simp] theorem Info.sum_cons (a : Info) (l : List Info) : Info.sum (a :: l) = a.update (Info.sum l) :=
  rfl

theorem Info.sum_append (a b : List Info) : Info.sum (a ++ b) = (Info.sum a).update (Info.sum b) := by
  induction a with
  | nil => simp
  | cons x a ih => simp [ih, Info.update_assoc]

/-! ### Runs over items -/

/-- One item. -/
def runItem (env : FileEnv) (fl : Flags) (i : Item) (seen : List Path) (w : World) :
    Info × List Path × World :=
  match i with
  | .file f => tryFile env fl f seen w
  | .missing s => ({}, seen, w.print (.invalidInput s))

/-- Items one after the other. -/
def runItems (env : FileEnv) (fl : Flags) : List Item → List Path → World → Info × List Path × World
  | [], seen, w => ({}, seen, w)
  | i :: is, seen, w =>
    let r := runItem env fl i seen w
    let r' := runItems env fl is r.2.1 r.2.2
    (r.1.update r'.1, r'.2)

theorem runItems_append (env : FileEnv) (fl : Flags) (a b : List Item) (seen : List Path) (w : World) :
    runItems env fl (a ++ b) seen w =
      (((runItems env fl a seen w).1.update
          (runItems env fl b (runItems env fl a seen w).2.1 (runItems env fl a seen w).2.2).1),
        (runItems env fl b (runItems env fl a seen w).2.1 (runItems env fl a seen w).2.2).2) := by
  induction a generalizing seen w with
  | nil => simp [runItems]
  | cons i a ih => simp only [List.cons_append, runItems, ih, Info.update_assoc]

theorem tryFiles_eq (env : FileEnv) (fl : Flags) (fs : List Path) (info : Info) (seen : List Path)
    (w : World) : tryFiles env fl fs info seen w =
      (info.update (runItems env fl (fs.map .file) seen w).1,
        (runItems env fl (fs.map .file) seen w).2) := by
  induction fs generalizing info seen w with
  | nil => simp [tryFiles, runItems]
  | cons f fs ih =>
    rw [tryFiles]
    simp only [List.map_cons, runItems, runItem, ih, Info.update_assoc]

theorem dirFiles_eq (env : FileEnv) (d : Path) : dirFiles env d = pyFiles env d := rfl

theorem handleOne_eq (env : FileEnv) (fl : Flags) (src : Path) (seen : List Path) (w : World) :
    handleOne env fl src seen w = runItems env fl (items env [src]) seen w := by
  simp only [handleOne, items, List.flatMap_cons, List.flatMap_nil, List.append_nil]
  split
  · rw [tryFiles_eq, dirFiles_eq]; simp
  · split
    · simp [runItems, runItem]
    · simp [runItems, runItem]

theorem handleAll_eq (env : FileEnv) (fl : Flags) (srcs : List Path) (info : Info) (seen : List Path)
    (w : World) : handleAll env fl srcs info seen w =
      (info.update (runItems env fl (items env srcs) seen w).1,
        (runItems env fl (items env srcs) seen w).2) := by
  induction srcs generalizing info seen w with
  | nil => simp [handleAll, items, runItems]
  | cons s ss ih =>
    have : items env (s :: ss) = items env [s] ++ items env ss := by simp [items]
    rw [handleAll, this, runItems_append, handleOne_eq]
    simp only [ih, Info.update_assoc]

/-! ### One file -/

/-- Whether `--format` puts new text into a file. -/
def rewrites (env : FileEnv) (fl : Flags) (c : Path → Str) (f : Path) : Bool :=
  match found env fl c f with
  | .ok r => decide (r.changed > 0) && fl.format
  | .error _ => false

/-- Whether the file is opened for writing with success. -/
def opensWrite (env : FileEnv) (fl : Flags) (c : Path → Str) (f : Path) : Bool :=
  rewrites env fl c f && decide (env.writeFault (env.abspath f) ≠ some .onOpen)

/-- What a file holds after it has been handled. -/
def newText (env : FileEnv) (fl : Flags) (c : Path → Str) (f : Path) : Str :=
  match found env fl c f with
  | .ok r =>
    if r.changed > 0 ∧ fl.format then
      match env.writeFault (env.abspath f) with
      | none => r.content
      | some .onOpen => c (env.abspath f)
      | some .onWrite => []
    else c (env.abspath f)
  | .error _ => c (env.abspath f)

/-- What a file adds to the counts. -/
def contrib (env : FileEnv) (fl : Flags) (c : Path → Str) (f : Path) : Info :=
  match found env fl c f with
  | .ok r =>
    if (r.changed > 0 ∧ fl.format) ∧ env.writeFault (env.abspath f) ≠ none then {}
    else ⟨if r.changed > 0 then 1 else 0, r.changed, if r.invalid > 0 then 1 else 0, r.invalid⟩
  | .error _ => {}

/-- What is printed about the invalid queries of a file. -/
def invalidSaid (fl : Flags) (f : Path) (r : Found) : List Event :=
  if r.invalid > 0 ∧ (fl.validate || fl.verbose) then
    .invalidIn f r.invalid ::
      (if fl.verbose then r.locations.map fun l => .location l.1 l.2 else [])
  else []

/-- What is printed about a file. -/
def said (env : FileEnv) (fl : Flags) (c : Path → Str) (f : Path) : List Event :=
  match found env fl c f with
  | .ok r =>
    if r.changed > 0 ∧ fl.format then
      match env.writeFault (env.abspath f) with
      | none => .reformatted f r.changed :: invalidSaid fl f r
      | some _ => [.errorAnalysing f .io]
    else if r.changed > 0 ∧ fl.check then .wouldReformat f r.changed :: invalidSaid fl f r
    else invalidSaid fl f r
  | .error e => [if e = .recursion then .couldNotAnalyse f else .errorAnalysing f e]

theorem readAndCompute_eq (env : FileEnv) (fl : Flags) (f : Path) (w : World) :
    found env fl w.content f =
      (readAndCompute env fl f w).map fun r => ⟨r.1, r.2.1, r.2.2.1, r.2.2.2⟩ := by
  simp only [found, readAndCompute]
  cases env.readFault (env.abspath f) <;> rfl

theorem found_congr (env : FileEnv) (fl : Flags) (f : Path) {c c' : Path → Str}
    (h : c (env.abspath f) = c' (env.abspath f)) : found env fl c f = found env fl c' f := by
  simp only [found, h]

theorem reportInvalid_eq (fl : Flags) (f : Path) (ch : Nat) (ct : Str) (n : Nat)
    (locs : List (Nat × List Str)) (w : World) : reportInvalid fl f n locs w =
      { w with out := w.out ++ invalidSaid fl f ⟨ch, ct, n, locs⟩ } := by
  simp only [reportInvalid, invalidSaid]
  split
  · simp only [World.print]
    split <;> simp
  · simp

/-- A file not seen before. -/
theorem tryFile_eq (env : FileEnv) (fl : Flags) (f : Path) (seen : List Path) (w : World)
    (c : Path → Str) (hs : env.abspath f ∉ seen) (hc : w.content (env.abspath f) = c (env.abspath f)) :
    tryFile env fl f seen w =
      (contrib env fl c f, env.abspath f :: seen,
        { content := fun p => if p = env.abspath f then newText env fl c f else w.content p
          out := w.out ++ said env fl c f
          written := w.written ++ (if opensWrite env fl c f then [env.abspath f] else [])
          opened := w.opened ++ [env.abspath f] }) := by
  have hself : (fun p => if p = env.abspath f then c (env.abspath f) else w.content p) = w.content := by
    funext p; split
    · rename_i h; rw [h, hc]
    · rfl
  have hf := readAndCompute_eq env fl f { w with opened := w.opened ++ [env.abspath f] }
  rw [found_congr env fl f (c' := c) hc] at hf
  rcases hR : readAndCompute env fl f { w with opened := w.opened ++ [env.abspath f] } with
    e | ⟨ch, ct, inv, locs⟩
  · rw [hR] at hf
    simp only [Except.map] at hf
    simp only [tryFile, analyseFile, hs, if_false, contrib, newText, said, opensWrite, rewrites, hR, hf,
      reportError, World.print, hself]
    simp
  · rw [hR] at hf
    simp only [Except.map] at hf
    simp only [tryFile, analyseFile, hs, if_false, contrib, newText, said, opensWrite, rewrites, hR, hf]
    by_cases hch : ch > 0
    · simp only [hch, if_true, true_and, decide_true, Bool.true_and]
      cases hfl : fl.format with
      | true =>
        simp only [if_true, writeFile]
        cases hwf : env.writeFault (env.abspath f) with
        | none =>
          simp only [World.set, World.print, reportInvalid_eq fl f ch ct inv locs]
          simp
        | some k =>
          cases k with
          | onOpen =>
            simp only [reportError, World.print, hself]
            simp
          | onWrite =>
            simp only [reportError, World.print, World.set]
            simp
      | false =>
        cases hck : fl.check with
        | true =>
          simp only [World.print, reportInvalid_eq fl f ch ct inv locs]
          simp [hself]
        | false =>
          simp only [reportInvalid_eq fl f ch ct inv locs]
          simp [hself]
    · simp only [hch, if_false, false_and, decide_false, Bool.false_and,
        reportInvalid_eq fl f ch ct inv locs, hself]
      simp

theorem tryFile_seen (env : FileEnv) (fl : Flags) (f : Path) (seen : List Path) (w : World)
    (hs : env.abspath f ∈ seen) : tryFile env fl f seen w = ({}, seen, w) := by
  simp [tryFile, analyseFile, hs]

/-! ### Whole runs -/

/-- What is printed, in order. -/
def saidAll (env : FileEnv) (fl : Flags) (c : Path → Str) (seen : List Path) : List Item → List Event
  | [] => []
  | .missing s :: is => .invalidInput s :: saidAll env fl c seen is
  | .file f :: is =>
    if env.abspath f ∈ seen then saidAll env fl c seen is
    else said env fl c f ++ saidAll env fl c (env.abspath f :: seen) is

/-- The content after the files of a list. -/
def newContent (env : FileEnv) (fl : Flags) (c : Path → Str) (fs : List Path) (p : Path) : Str :=
  match fs.find? fun f => decide (env.abspath f = p) with
  | some f => newText env fl c f
  | none => c p

theorem firsts_not_seen (env : FileEnv) (is : List Item) : ∀ (seen : List Path) (f : Path),
    f ∈ firsts env seen is → env.abspath f ∉ seen := by
  induction is with
  | nil => intro seen f h; simp [firsts] at h
  | cons i is ih =>
    intro seen f h
    cases i with
    | missing s => exact ih seen f h
    | file g =>
      simp only [firsts] at h
      split at h
      · exact ih seen f h
      · rename_i hg
        rcases List.mem_cons.1 h with rfl | h
        · exact hg
        · have := ih _ f h
          simp at this
          exact this.2

theorem firsts_nodup (env : FileEnv) (is : List Item) : ∀ seen : List Path,
    ((firsts env seen is).map env.abspath).Nodup := by
  induction is with
  | nil => intro seen; simp [firsts]
  | cons i is ih =>
    intro seen
    cases i with
    | missing s => exact ih seen
    | file g =>
      simp only [firsts]
      split
      · exact ih seen
      · simp only [List.map_cons, List.nodup_cons]
        refine ⟨?_, ih _⟩
        intro hmem
        obtain ⟨f, hf, he⟩ := List.mem_map.1 hmem
        have := firsts_not_seen env is _ f hf
        simp [he] at this

/-- Every file of the inputs is reached, under some name. -/
theorem mem_firsts (env : FileEnv) (is : List Item) : ∀ (seen : List Path) (p : Path),
    p ∈ (firsts env seen is).map env.abspath ↔
      p ∉ seen ∧ ∃ f, Item.file f ∈ is ∧ env.abspath f = p := by
  induction is with
  | nil => intro seen p; simp [firsts]
  | cons i is ih =>
    intro seen p
    cases i with
    | missing s =>
      simp only [firsts, ih, List.mem_cons, reduceCtorEq, false_or]
    | file g =>
      simp only [firsts]
      split
      · rename_i hg
        rw [ih]
        constructor
        · rintro ⟨h1, f, h2, h3⟩; exact ⟨h1, f, by simp [h2], h3⟩
        · rintro ⟨h1, f, h2, h3⟩
          refine ⟨h1, f, ?_, h3⟩
          rcases List.mem_cons.1 h2 with h2 | h2
          · cases h2; rw [h3] at hg; exact absurd hg h1
          · exact h2
      · rename_i hg
        rw [List.map_cons, List.mem_cons, ih]
        constructor
        · rintro (rfl | ⟨h1, f, h2, h3⟩)
          · exact ⟨hg, g, by simp, rfl⟩
          · simp only [List.mem_cons, not_or] at h1
            exact ⟨h1.2, f, by simp [h2], h3⟩
        · rintro ⟨h1, f, h2, h3⟩
          by_cases hp : p = env.abspath g
          · exact .inl hp
          · right
            refine ⟨by simp [hp, h1], f, ?_, h3⟩
            rcases List.mem_cons.1 h2 with h2 | h2
            · cases h2; exact absurd h3.symm hp
            · exact h2

theorem newContent_notMem (env : FileEnv) (fl : Flags) (c : Path → Str) (fs : List Path) (p : Path)
    (h : p ∉ fs.map env.abspath) : newContent env fl c fs p = c p := by
  have : fs.find? (fun f => decide (env.abspath f = p)) = none := by
    rw [List.find?_eq_none]
    intro f hf
    simp only [decide_eq_true_eq]
    intro he
    exact h (List.mem_map.2 ⟨f, hf, he⟩)
  simp [newContent, this]

theorem newContent_mem (env : FileEnv) (fl : Flags) (c : Path → Str) (fs : List Path) (f : Path)
    (h : f ∈ fs) (hn : (fs.map env.abspath).Nodup) :
    newContent env fl c fs (env.abspath f) = newText env fl c f := by
  induction fs with
  | nil => simp at h
  | cons g fs ih =>
    simp only [List.map_cons, List.nodup_cons] at hn
    by_cases hg : env.abspath g = env.abspath f
    · rcases List.mem_cons.1 h with rfl | h
      · simp [newContent]
      · exact absurd (List.mem_map.2 ⟨f, h, hg.symm⟩) hn.1
    · rcases List.mem_cons.1 h with rfl | h
      · exact absurd rfl hg
      · have := ih h hn.2
        simp only [newContent, List.find?_cons, hg, decide_false] at this ⊢
        exact this

/-- A run on contents that may have changed only in files already seen. -/
theorem runItems_eq (env : FileEnv) (fl : Flags) (c : Path → Str) (is : List Item) :
    ∀ (seen : List Path) (w : World), (∀ p, p ∉ seen → w.content p = c p) →
    (runItems env fl is seen w).1 = Info.sum ((firsts env seen is).map (contrib env fl c)) ∧
    (∀ p, (runItems env fl is seen w).2.2.content p =
      if p ∈ seen then w.content p else newContent env fl c (firsts env seen is) p) ∧
    (runItems env fl is seen w).2.2.out = w.out ++ saidAll env fl c seen is ∧
    (runItems env fl is seen w).2.2.written =
      w.written ++ ((firsts env seen is).filter (opensWrite env fl c)).map env.abspath ∧
    (runItems env fl is seen w).2.2.opened = w.opened ++ (firsts env seen is).map env.abspath := by
  induction is with
  | nil =>
    intro seen w hw
    refine ⟨rfl, ?_, by simp [runItems, saidAll], by simp [runItems, firsts], by simp [runItems, firsts]⟩
    intro p
    simp only [runItems, firsts, newContent, List.find?_nil]
    split
    · rfl
    · rename_i h; exact hw p h
  | cons i is ih =>
    intro seen w hw
    cases i with
    | missing s =>
      obtain ⟨h1, h2, h3, h4, h5⟩ := ih seen (w.print (.invalidInput s)) hw
      simp only [runItems, runItem, firsts, Info.zero_update]
      refine ⟨h1, h2, ?_, h4, h5⟩
      rw [h3]; simp [World.print, saidAll]
    | file f =>
      by_cases hs : env.abspath f ∈ seen
      · obtain ⟨h1, h2, h3, h4, h5⟩ := ih seen w hw
        simp only [runItems, runItem, tryFile_seen env fl f seen w hs, firsts, hs, if_true,
          Info.zero_update, saidAll]
        exact ⟨h1, h2, h3, h4, h5⟩
      · have ht := tryFile_eq env fl f seen w c hs (hw _ hs)
        simp only [runItems, runItem, ht, firsts, hs, if_false, saidAll]
        have hi := ih (env.abspath f :: seen)
          { content := fun p => if p = env.abspath f then newText env fl c f else w.content p
            out := w.out ++ said env fl c f
            written := w.written ++ (if opensWrite env fl c f then [env.abspath f] else [])
            opened := w.opened ++ [env.abspath f] }
          (by
            intro p hp
            simp only [List.mem_cons, not_or] at hp
            simp only [hp.1, if_false]
            exact hw p hp.2)
        obtain ⟨h1, h2, h3, h4, h5⟩ := hi
        refine ⟨by rw [h1]; simp, ?_, by rw [h3]; simp, ?_, by rw [h5]; simp⟩
        · intro p
          rw [h2 p]
          by_cases hp : p = env.abspath f
          · subst hp
            simp [hs, newContent]
          · simp only [List.mem_cons, hp, false_or, if_false]
            split
            · rfl
            · simp only [newContent, List.find?_cons, Ne.symm hp, decide_false]
        · rw [h4, List.filter_cons]
          split <;> simp

end SqlV
