import Verif.Props.PyFiles
import Verif.Props.Runs
import Verif.Props.CommandLine

/-!
# What a run changes (C84)
-/

set_option linter.unusedSectionVars false

namespace SqlV

open Args Cmd

section
variable [E : PyEnv]

theorem toks_ne {ts ts' : List PyTok} (h : 0 < (ts.zip ts').countP fun p => p.1 ≠ p.2) : ts ≠ ts' := by
  rintro rfl
  rw [List.countP_pos_iff] at h
  obtain ⟨q, hq, hne⟩ := h
  rw [List.zip_eq_zipWith, List.zipWith_self, List.mem_map] at hq
  obtain ⟨t, -, rfl⟩ := hq
  simp at hne

theorem effects_fail {fmt val : Bool} {fail : Option PyErr} {ts : List PyTok} {es : List Effect}
    (h : effects fmt val fail ts = .ok es) : fail = none := by
  induction ts generalizing es with
  | nil => cases fail <;> simp_all [effects]
  | cons t ts ih =>
    rw [effects] at h
    split at h
    · cases h
    · split at h
      · cases h
      · rename_i es' he
        exact ih he

variable {digit : Char → Bool}

/-- What is computed for a file that changes. -/
theorem touched_content (hd : Digits digit) (env : FileEnv) (argv : List Str) (w : World) (p : Path)
    (h : (mainArgs env digit argv w).2.content p ≠ w.content p) :
    ∃ fl srcs f, Accepts digit argv fl srcs ∧ fl.format = true ∧ f ∈ reached env srcs ∧ env.abspath f = p ∧
      ∃ fmt val n content inv locs,
        computeContent env.limit (env.tokenize (w.content p)) fmt val = .ok (n, content, inv, locs) ∧ 0 < n ∧
        ((env.writeFault p = none ∧ (mainArgs env digit argv w).2.content p = content) ∨
         (env.writeFault p = some .onWrite ∧ (mainArgs env digit argv w).2.content p = [])) := by
  obtain ⟨fl, srcs, ha, hm⟩ : ∃ fl srcs, Accepts digit argv fl srcs ∧ mainArgs env digit argv w = handleInputs env fl srcs w := by
    cases hp : parseArgs digit argv with
    | args fl srcs =>
      have hm : mainArgs env digit argv w = mainProg env fl srcs w := by rw [mainArgs, hp]
      refine ⟨fl, srcs, (C82_accepts_iff hd argv fl srcs).1 hp, ?_⟩
      rw [hm]
      by_contra hne
      by_cases hg : srcs = [] ∨ (fl.format = false ∧ fl.check = false ∧ fl.validate = false ∧ fl.verbose = false) ∨
        (fl.format = true ∧ fl.check = true) ∨ (fl.validate = true ∧ fl.verbose = true)
      · rw [hm, (C52_gating env fl srcs w).1 hg] at h
        exact h rfl
      · exact hne ((C52_gating env fl srcs w).2 hg)
    | _ =>
      rw [mainArgs, hp] at h
      exact absurd rfl h
  rw [hm] at h ⊢
  rcases C51_old_new_or_empty env fl srcs w p with ⟨-, h1⟩ | ⟨f, hf, hp, hfl, r, hr, hc, h1⟩
  · exact absurd h1 h
  · refine ⟨fl, srcs, f, ha, hfl, hf, hp, ?_⟩
    rw [h1] at h ⊢
    rw [found, hp] at hr
    cases hrf : env.readFault p with
    | some e => rw [hrf] at hr; cases hr
    | none =>
      rw [hrf] at hr
      simp only at hr
      cases hcc : computeContent env.limit (env.tokenize (w.content p)) (fl.format || fl.check) (fl.validate || fl.verbose) with
      | error e => rw [hcc] at hr; cases hr
      | ok q =>
        obtain ⟨n, content, inv, locs⟩ := q
        rw [hcc] at hr
        simp only [Except.map, Except.ok.injEq] at hr
        subst hr
        simp only at hc h ⊢
        refine ⟨_, _, n, content, inv, locs, hcc, hc, ?_⟩
        cases hwf : env.writeFault p with
        | none => exact .inl ⟨rfl, rfl⟩
        | some k =>
          rw [hwf] at h
          cases k with
          | onOpen => exact absurd rfl h
          | onWrite => exact .inr ⟨rfl, rfl⟩

/-- A file changes only if the command line is accepted and says `--format`, the file is an input or below one, and its tokens hold
a query that changes.  Then it is written from its tokens, of which only queries differ, with the same text between them as
`untokenize` puts between the old ones, unless writing it stopped after it had been truncated. -/
theorem C84_touched (hd : Digits digit) (env : FileEnv) (argv : List Str) (w : World) (p : Path)
    (h : (mainArgs env digit argv w).2.content p ≠ w.content p) :
    ∃ fl srcs f, Accepts digit argv fl srcs ∧ fl.format = true ∧ f ∈ reached env srcs ∧ env.abspath f = p ∧
      ∃ toks' gaps, List.Forall₂ SameButQuery (env.tokenize (w.content p)).toks toks' ∧
        (env.tokenize (w.content p)).toks ≠ toks' ∧ (env.tokenize (w.content p)).fail = none ∧
        untokenize (env.tokenize (w.content p)).toks = .ok (weave gaps (visible (env.tokenize (w.content p)).toks)) ∧
        ((env.writeFault p = none ∧ (mainArgs env digit argv w).2.content p = weave gaps (visible toks')) ∨
         (env.writeFault p = some .onWrite ∧ (mainArgs env digit argv w).2.content p = [])) := by
  obtain ⟨fl, srcs, f, ha, hf, hr, hp, fmt, val, n, content, inv, locs, hc, hn, hw⟩ := touched_content hd env argv w p h
  obtain ⟨toks', gaps, g1, g2, g3, g4⟩ := C37_only_queries_change _ _ _ _ _ _ _ _ hc
  obtain ⟨es, he, -⟩ := computeContent_ok hc
  exact ⟨fl, srcs, f, ha, hf, hr, hp, toks', gaps, g1, toks_ne (by rw [← g2]; exact hn), effects_fail he, g4, by rw [← g3]; exact hw⟩

/-- The same for the text of the file: after any command line a file whose tokens stand anyhow in its text holds this text or
one with the same tokens but for queries, where blanks and line continuations, with the same lines and columns, stand
between the tokens. -/
theorem C84_text (hd : Digits digit) (env : FileEnv) (argv : List Str) (w : World) (p : Path)
    (hw : env.writeFault p ≠ some .onWrite) (pieces : List (Str × PyTok)) (printed : List Str)
    (ht : (env.tokenize (w.content p)).toks = pieces.map Prod.snd) (hs : Stands (1, 0) [] false pieces printed) :
    (mainArgs env digit argv w).2.content p = w.content p ∨
    ∃ toks', List.Forall₂ SameButQuery (pieces.map Prod.snd) toks' ∧ pieces.map Prod.snd ≠ toks' ∧
      (mainArgs env digit argv w).2.content p = weave printed toks' := by
  by_cases h : (mainArgs env digit argv w).2.content p = w.content p
  · exact .inl h
  · obtain ⟨fl, srcs, f, -, -, -, -, fmt, val, n, content, inv, locs, hc, hn, h4⟩ := touched_content hd env argv w p h
    rcases h4 with ⟨-, h4⟩ | ⟨h4, -⟩
    · obtain ⟨gs, g1, g2⟩ := gapsFrom_stands hs {} rfl
      cases hts : env.tokenize (w.content p) with
      | mk ts fail =>
        rw [hts] at hc ht
        simp only at ht
        subst ht
        obtain ⟨toks', c1, c2, c3, -⟩ := content_of_gaps g1 g2 hc
        exact .inr ⟨toks', c1, toks_ne (by rw [← c2]; exact hn), h4.trans c3⟩
    · exact absurd h4 hw

/-- If only blanks, line continuations and the indentation of blocks stand between the tokens, then only queries are replaced in the
text. -/
theorem C84_text_kept (hd : Digits digit) (env : FileEnv) (argv : List Str) (w : World) (p : Path)
    (hw : env.writeFault p ≠ some .onWrite) (pieces : List (Str × PyTok))
    (hp : w.content p = weave (pieces.map Prod.fst) (pieces.map Prod.snd))
    (ht : (env.tokenize (w.content p)).toks = pieces.map Prod.snd) (hs : Reads (1, 0) [] false pieces) :
    ∃ toks', List.Forall₂ SameButQuery (pieces.map Prod.snd) toks' ∧
      (mainArgs env digit argv w).2.content p = weave (pieces.map Prod.fst) toks' := by
  by_cases h : (mainArgs env digit argv w).2.content p = w.content p
  · refine ⟨pieces.map Prod.snd, ?_, h.trans hp⟩
    rw [List.forall₂_same]
    exact fun t _ => ⟨rfl, rfl, rfl, .inl rfl⟩
  · obtain ⟨fl, srcs, f, -, -, -, -, fmt, val, n, content, inv, locs, hc, hn, h4⟩ := touched_content hd env argv w p h
    rcases h4 with ⟨-, h4⟩ | ⟨h4, -⟩
    · obtain ⟨gs, g1, g2⟩ := gapsFrom_reads hs {} rfl
      cases hts : env.tokenize (w.content p) with
      | mk ts fail =>
        rw [hts] at hc ht
        simp only at ht
        subst ht
        obtain ⟨toks', c1, c2, c3, -⟩ := content_of_gaps g1 g2 hc
        exact ⟨toks', c1, h4.trans c3⟩
    · exact absurd h4 hw

end

/-! ## Examples -/

/-- `q\t= 'select  a' # b`, the tokens and the text between them. -/
def touchedPieces : List (Str × PyTok) :=
  [([], ⟨.other 1, str!"q", (1, 0), (1, 1)⟩), (str!"\t", ⟨.other 54, str!"=", (1, 2), (1, 3)⟩),
   (str!" ", ⟨.string, str!"'select  a'", (1, 4), (1, 15)⟩), (str!" ", ⟨.comment, str!"# b", (1, 16), (1, 19)⟩),
   ([], ⟨.endmarker, [], (1, 19), (1, 19)⟩)]

/-- A file system whose Python files all hold this text. -/
def touchedEnv : FileEnv := { demoEnv with tokenize := fun _ => ⟨touchedPieces.map Prod.snd, none⟩ }

def touchedWorld : World where
  content _ := weave (touchedPieces.map Prod.fst) (touchedPieces.map Prod.snd)

example : touchedWorld.content str!"d/a.py" = str!"q\t= 'select  a' # b" := by decide

/-- The hypotheses of `C84_text`, and the second of its cases: the tab is lost. -/
example : Stands (1, 0) [] false touchedPieces [[], str!" ", str!" ", str!" ", []] ∧
    (@mainArgs asciiEnv touchedEnv Char.isDigit [str!"--form", str!"d"] touchedWorld).2.content str!"d/a.py" =
      str!"q = 'SELECT a' # b" ∧
    (@mainArgs asciiEnv touchedEnv Char.isDigit [str!"--form", str!"d"] touchedWorld).2.content str!"d/b.txt" =
      str!"q\t= 'select  a' # b" ∧
    (@mainArgs asciiEnv touchedEnv Char.isDigit [str!"--check", str!"d"] touchedWorld).2.content str!"d/a.py" =
      str!"q\t= 'select  a' # b" := by
  refine ⟨?_, by decide +kernel⟩
  refine .other _ _ _ _ _ _ _ rfl (by decide) (by decide) (by decide) (by simp) (by decide) ?_
  refine .other _ _ _ _ _ _ _ rfl (by decide) (by decide) (by decide) (by simp) (by decide) ?_
  refine .other _ _ _ _ _ _ _ rfl (by decide) (by decide) (by decide) (by simp) (by decide) ?_
  refine .other _ _ _ _ _ _ _ rfl (by decide) (by decide) (by decide) (by simp) (by decide) ?_
  exact .endm _ _ _ _ rfl

/-- The hypotheses of `C84_text_kept`, for `q =  'select  a'`. -/
example :
    let pieces : List (Str × PyTok) := [([], ⟨.other 1, str!"q", (1, 0), (1, 1)⟩), (blanks 0 1, ⟨.other 54, str!"=", (1, 2), (1, 3)⟩),
      (blanks 0 2, ⟨.string, str!"'select  a'", (1, 5), (1, 16)⟩), ([], ⟨.endmarker, [], (1, 16), (1, 16)⟩)]
    let env : FileEnv := { demoEnv with tokenize := fun _ => ⟨pieces.map Prod.snd, none⟩ }
    let w : World := { content := fun _ => str!"q =  'select  a'" }
    str!"q =  'select  a'" = weave (pieces.map Prod.fst) (pieces.map Prod.snd) ∧ Reads (1, 0) [] false pieces ∧
    (@mainArgs asciiEnv env Char.isDigit [str!"--format", str!"d/a.py"] w).2.content str!"d/a.py" = str!"q =  'SELECT a'" := by
  refine ⟨by decide, ?_, by decide +kernel⟩
  refine .other _ _ _ 0 0 _ _ rfl (by decide) (by decide) (by decide) (by simp) (by decide) ?_
  refine .other _ _ _ _ _ _ _ rfl (by decide) (by decide) (by decide) (by simp) (by decide) ?_
  refine .other _ _ _ _ _ _ _ rfl (by decide) (by decide) (by decide) (by simp) (by decide) ?_
  exact .endm _ _ _ _ rfl

end SqlV
