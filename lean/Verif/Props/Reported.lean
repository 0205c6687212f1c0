import Verif.Props.Formatted
import Verif.Props.Report

/-!
# Runs, from the command line to the printed lines (C86)
-/

set_option linter.unusedSectionVars false

namespace SqlV

open Core Args Cmd

section
variable [E : PyEnv] [L : LawfulPyEnv E]

/-- The literal holds a tidy statement of the core grammar, about which `ms` is to be said. -/
def Deserves (v : Str) (ms : List Str) : Prop :=
  ∃ n, core n = true ∧ tidy n = true ∧ unmixed [] n = true ∧ Holds v n ∧ Core.report [] none n = .ok ms

/-- The lines and messages about the queries of a file, except those whose next comment or string says `nosqlvalidation`. -/
inductive Told : List PyTok → List (Nat × List Str) → Prop
  | nil : Told [] []
  /-- no query -/
  | same (t : PyTok) (r : List PyTok) (l : List (Nat × List Str)) : ¬ Query t → Told r l → Told (t :: r) l
  /-- a query that must not be validated -/
  | kept (t n : PyTok) (mid post : List PyTok) (l : List (Nat × List Str)) : Query t → (∀ x ∈ mid, passive x) → ¬ passive n →
      (∃ x y, n.value = x ++ str!"nosqlvalidation" ++ y) → Told (mid ++ n :: post) l → Told (t :: (mid ++ n :: post)) l
  /-- any other query -/
  | told (t n : PyTok) (ms : List Str) (mid post : List PyTok) (l : List (Nat × List Str)) : Query t → (∀ x ∈ mid, passive x) →
      ¬ passive n → (∀ x y, n.value ≠ x ++ str!"nosqlvalidation" ++ y) → Deserves t.value ms → Told (mid ++ n :: post) l →
      Told (t :: (mid ++ n :: post)) ((if ms = [] then [] else [(t.start.1, ms)]) ++ l)

/-- What analysing a literal gives. -/
theorem deserves_report {v : Str} {ms : List Str} (h : Deserves v ms) (row : Nat) :
    ∃ new q, handleSqlString v = .ok (new, q) ∧ report row q = .ok (if ms = [] then [] else [(row, ms)]) := by
  obtain ⟨n, hc, ht, hu, ⟨p, c, k, body, ts, hp, hcq, hk, hb, rfl, hs, hr⟩, hm⟩ := h
  obtain ⟨q, h1, h2, h3⟩ := (C41_prefix_and_quotes p hp c hcq k hk body hb).1 _ (C11_layout n hc ht body ts hs hr)
  obtain ⟨m1, m2⟩ := C67_messages n hc ht hu body ts hs hr ms hm
  refine ⟨_, q, h1, ?_⟩
  rw [m1] at h2
  rw [m2] at h3
  rw [report]
  revert h2 h3
  cases q.isValid with
  | mk r q' =>
    intro h2 h3
    simp only at h2 h3
    subst h2 h3
    cases he : q'.errors <;> simp [he]

theorem effect_told {fmt val : Bool} {t : PyTok} {rest : List PyTok}
    (hend : ∀ x, (t :: rest).getLast? = some x → x.kind = .endmarker) (h : Query t → ∃ ms, Deserves t.value ms) :
    ∃ e, effect fmt val none t rest = .ok e ∧
      ∀ l, val = true → Told rest l → Told (t :: rest) (e.reports ++ l) := by
  cases hq : isQuery t with
  | false =>
    exact ⟨_, effect_other hq fmt val none rest, fun l _ hl => .same _ _ _ (by rw [← query_iff, hq]; simp) hl⟩
  | true =>
    have hQ := (query_iff t).1 hq
    cases rest with
    | nil =>
      have := hend t rfl
      rw [hQ.1] at this
      cases this
    | cons a l =>
      obtain ⟨n, hn⟩ := find_of_end (rest := a :: l) (by
        rw [List.getLast?_cons_cons] at hend
        cases hl : (a :: l).getLast? with
        | none => simp at hl
        | some x => exact ⟨x, rfl, hend x hl⟩)
      obtain ⟨mid, post, hs, hm, hp⟩ := split_stop hn
      obtain ⟨ms, hms⟩ := h hQ
      obtain ⟨new, q, h1, h2⟩ := deserves_report hms t.start.1
      rw [effect, if_pos hq, hn]
      rw [hs]
      simp only
      cases hk : Str.contains n.value noSqlValidation with
      | true =>
        have hkeep := (Str.contains_iff _ _).1 hk
        have htok : ∃ e, (if n.kind ≠ .comment ∨ (fmt && !Str.contains n.value noSqlFormat) = true ∨ (val && !true) = true
            then analysed t (Str.contains n.value noSqlFormat) (val && !true) else .ok ⟨t, false, []⟩) = .ok e ∧ e.reports = [] := by
          split
          · rw [analysed, h1]
            simp
          · exact ⟨_, rfl, rfl⟩
        obtain ⟨e, he, hr⟩ := htok
        refine ⟨e, he, fun l' _ hl' => ?_⟩
        rw [hr]
        exact .kept t n mid post l' hQ hm hp hkeep hl'
      | false =>
        cases val with
        | false =>
          have : ∃ e, (if n.kind ≠ .comment ∨ (fmt && !Str.contains n.value noSqlFormat) = true ∨ (false && !false) = true
            then analysed t (Str.contains n.value noSqlFormat) (false && !false) else .ok ⟨t, false, []⟩) = .ok e := by
            split
            · rw [analysed, h1]
              exact ⟨_, rfl⟩
            · exact ⟨_, rfl⟩
          obtain ⟨e, he⟩ := this
          exact ⟨e, he, fun l' hv => by cases hv⟩
        | true =>
          rw [if_pos (by simp), analysed, h1]
          simp only [Bool.not_false, Bool.and_self, if_true, h2]
          exact ⟨_, rfl, fun l' _ hl' => .told t n ms mid post l' hQ hm hp (no_marker.1 hk) hms hl'⟩

theorem effects_told {fmt val : Bool} {toks : List PyTok}
    (hend : ∀ x, toks.getLast? = some x → x.kind = .endmarker)
    (h : ∀ t ∈ toks, Query t → ∃ ms, Deserves t.value ms) :
    ∃ es, effects fmt val none toks = .ok es ∧ (val = true → Told toks (es.flatMap (·.reports))) := by
  induction toks with
  | nil => exact ⟨[], rfl, fun _ => .nil⟩
  | cons t ts ih =>
    obtain ⟨e, h1, h2⟩ := effect_told (fmt := fmt) (val := val) hend (h t (by simp))
    obtain ⟨es, h3, h4⟩ := ih (by
      intro x hx
      cases ts with
      | nil => cases hx
      | cons a l => exact hend x (by rw [List.getLast?_cons_cons]; exact hx)) fun x hx => h x (List.mem_cons_of_mem _ hx)
    refine ⟨e :: es, by rw [effects, h1, h3], fun hv => ?_⟩
    rw [List.flatMap_cons]
    exact h2 _ hv (h4 hv)

/-- A file that can be read, split into tokens and printed again, and written, if need be; with queries about which something is to be
said, if only that nothing is wrong. -/
structure Plain (env : FileEnv) (c : Path → Str) (f : Path) : Prop where
  readable : Readable env c f
  writable : env.writeFault (env.abspath f) = none
  queries : ∀ t ∈ (env.tokenize (c (env.abspath f))).toks, Query t → ∃ ms, Deserves t.value ms

/-- How many tokens differ. -/
def differ (ts ts' : List PyTok) : Nat := (ts.zip ts').countP fun p => p.1 ≠ p.2

theorem found_plain {env : FileEnv} {fl : Flags} {c : Path → Str} {f : Path} (hp : Plain env c f) :
    ∃ r toks' l, found env fl c f = .ok r ∧
      Tidied (env.tokenize (c (env.abspath f))).toks toks' ∧ Told (env.tokenize (c (env.abspath f))).toks l ∧
      ((fl.format || fl.check) = true → r.changed = differ (env.tokenize (c (env.abspath f))).toks toks') ∧
      ((fl.validate || fl.verbose) = true → r.invalid = l.length ∧ r.locations = l) := by
  obtain ⟨hr, hw, hq⟩ := hp
  have hend : ∀ x, (env.tokenize (c (env.abspath f))).toks.getLast? = some x → x.kind = .endmarker := by
    obtain ⟨e, h1, h2⟩ := hr.ends
    intro x hx
    rw [h1] at hx
    cases hx
    exact h2
  have hcore : ∀ t ∈ (env.tokenize (c (env.abspath f))).toks, Query t → ∃ n, core n = true ∧ tidy n = true ∧ Holds t.value n := by
    intro t h1 h2
    obtain ⟨ms, n, a1, a2, a3, a4, a5⟩ := hq t h1 h2
    exact ⟨n, a1, a2, a4⟩
  obtain ⟨es, hes, htold⟩ := effects_told (fmt := fl.format || fl.check) (val := fl.validate || fl.verbose) hend hq
  obtain ⟨es1, hes1, htold1⟩ := effects_told (fmt := true) (val := true) hend hq
  obtain ⟨text, htext⟩ := hr.prints
  have hun : ∃ text', untokenize (es.map (·.tok)) = .ok text' := by
    rw [untokenize, untokenizeFrom_eq] at htext
    rw [untokenize, untokenizeFrom_eq, gapsFrom_congr (forall₂_of_effects hes).1]
    cases hg : gapsFrom {} (env.tokenize (c (env.abspath f))).toks with
    | error e => rw [hg] at htext; cases htext
    | ok gs => exact ⟨_, rfl⟩
  obtain ⟨text', hun⟩ := hun
  have hfound : found env fl c f =
      .ok ⟨es.countP (·.changed), text', (es.flatMap (·.reports)).length, es.flatMap (·.reports)⟩ := by
    rw [found, hr.read]
    simp only [computeContent, hr.whole]
    rw [mainLoop_of_effects hr.short hes]
    simp only [bind, Except.bind, hun]
    rfl
  have h1 : ∃ toks', Tidied (env.tokenize (c (env.abspath f))).toks toks' ∧
      ((fl.format || fl.check) = true → es.countP (·.changed) = differ (env.tokenize (c (env.abspath f))).toks toks') := by
    cases hf : fl.format || fl.check with
    | true =>
      rw [hf] at hes
      exact ⟨_, effects_tidied hend hcore hes, fun _ => (forall₂_of_effects hes).2⟩
    | false => exact ⟨_, effects_tidied hend hcore hes1, fun h => by cases h⟩
  have h2 : ∃ l, Told (env.tokenize (c (env.abspath f))).toks l ∧
      ((fl.validate || fl.verbose) = true → es.flatMap (·.reports) = l) := by
    cases hf : fl.validate || fl.verbose with
    | true => exact ⟨_, htold hf, fun _ => rfl⟩
    | false => exact ⟨_, htold1 rfl, fun h => by cases h⟩
  obtain ⟨toks', a1, a2⟩ := h1
  obtain ⟨l, b1, b2⟩ := h2
  exact ⟨_, toks', l, hfound, a1, b1, a2, fun h => by rw [← b2 h]; exact ⟨rfl, rfl⟩⟩

/-- The lines about the inputs in their order: each file once, where it is reached first, and each input that does not exist. -/
def linesFrom (env : FileEnv) (about : Path → List Event) (seen : List Path) : List Item → List Event
  | [] => []
  | .missing s :: is => .invalidInput s :: linesFrom env about seen is
  | .file f :: is =>
    if env.abspath f ∈ seen then linesFrom env about seen is
    else about f ++ linesFrom env about (env.abspath f :: seen) is

/-- The lines about a file in which `n` queries change, with `l` to be said about the others. -/
def aboutFile (fl : Flags) (f : Path) (n : Nat) (l : List (Nat × List Str)) : List Event :=
  (if n = 0 then [] else if fl.format then [.reformatted f n] else if fl.check then [.wouldReformat f n] else []) ++
  (if l = [] then [] else
    if fl.verbose then .invalidIn f l.length :: l.map fun x => .location x.1 x.2
    else if fl.validate then [.invalidIn f l.length] else [])

theorem saidAll_lines (env : FileEnv) (fl : Flags) (c : Path → Str) (about : Path → List Event) (is : List Item) :
    ∀ seen, (∀ f ∈ firsts env seen is, said env fl c f = about f) → saidAll env fl c seen is = linesFrom env about seen is := by
  induction is with
  | nil => intro _ _; rfl
  | cons i is ih =>
    intro seen h
    cases i with
    | missing s => rw [saidAll, linesFrom, ih seen h]
    | file f =>
      rw [saidAll, linesFrom]
      rw [firsts] at h
      split
      · rename_i hs
        rw [if_pos hs] at h
        exact ih seen h
      · rename_i hs
        rw [if_neg hs] at h
        rw [h f (by simp), ih _ fun g hg => h g (List.mem_cons_of_mem _ hg)]

variable {digit : Char → Bool}

/-- C86: everything that a run over such files prints, and its status. -/
theorem C86_run (hd : Digits digit) (env : FileEnv) (argv : List Str) (w : World) (fl : Flags) (srcs : List Str)
    (ha : Accepts digit argv fl srcs) (hne : fl ≠ ⟨false, false, false, false⟩)
    (hp : ∀ f ∈ reached env srcs, Plain env w.content f) :
    ∃ (new : Path → List PyTok) (told : Path → List (Nat × List Str)),
      let n f := differ (env.tokenize (w.content (env.abspath f))).toks (new f)
      (∀ f ∈ reached env srcs, Tidied (env.tokenize (w.content (env.abspath f))).toks (new f) ∧
        Told (env.tokenize (w.content (env.abspath f))).toks (told f)) ∧
      (mainArgs env digit argv w).2.out = w.out ++ linesFrom env (fun f => aboutFile fl f (n f) (told f)) [] (items env srcs) ++
        (if fl.format || fl.check then
          [.formatSummary ((reached env srcs).countP fun f => n f ≠ 0) ((reached env srcs).map n).sum fl.check] else []) ++
        (if fl.validate then
          [.validationSummary ((reached env srcs).countP fun f => told f ≠ [])
            ((reached env srcs).map fun f => (told f).length).sum] else []) ∧
      (mainArgs env digit argv w).1 =
        if (fl.check = true ∧ ∃ f ∈ reached env srcs, n f ≠ 0) ∨ (fl.validate = true ∧ ∃ f ∈ reached env srcs, told f ≠ [])
        then 1 else 0 := by
  have hm : mainArgs env digit argv w = handleInputs env fl srcs w := (C82_main hd env argv w).2.1 fl srcs ha hne
  rw [hm]
  have hall : ∀ f, ∃ r toks' l, f ∈ reached env srcs → found env fl w.content f = .ok r ∧
      Tidied (env.tokenize (w.content (env.abspath f))).toks toks' ∧ Told (env.tokenize (w.content (env.abspath f))).toks l ∧
      ((fl.format || fl.check) = true → r.changed = differ (env.tokenize (w.content (env.abspath f))).toks toks') ∧
      ((fl.validate || fl.verbose) = true → r.invalid = l.length ∧ r.locations = l) := by
    intro f
    by_cases hf : f ∈ reached env srcs
    · obtain ⟨r, toks', l, h⟩ := found_plain (fl := fl) (hp f hf)
      exact ⟨r, toks', l, fun _ => h⟩
    · exact ⟨⟨0, [], 0, []⟩, [], [], fun h => absurd h hf⟩
  choose r new told hr using hall
  obtain ⟨-, -, -, h4, h5⟩ := run_facts env fl srcs w
  have hcount : counts env fl w.content srcs =
      ⟨((reached env srcs).map fun f => min (r f).changed 1).sum, ((reached env srcs).map fun f => (r f).changed).sum,
       ((reached env srcs).map fun f => min (r f).invalid 1).sum, ((reached env srcs).map fun f => (r f).invalid).sum⟩ := by
    rw [counts_eq]
    have : ∀ g : Found → Nat, ((reached env srcs).map fun f => number (handled env fl w.content f) g) =
        (reached env srcs).map fun f => g (r f) := by
      intro g
      refine List.map_congr_left fun f hf => ?_
      rw [handled_eq_found (.inr (hp f hf).writable), (hr f hf).1]
      rfl
    rw [this, this, this, this]
  have hsum : ∀ g : Path → Nat, ∀ l : List Path, (l.map fun f => min (g f) 1).sum = l.countP fun f => g f ≠ 0 := by
    intro g l
    induction l with
    | nil => rfl
    | cons f l ih =>
      rw [List.map_cons, List.sum_cons, List.countP_cons, ih]
      by_cases h : g f = 0
      · simp [h]
      · rw [if_pos (by simp [h])]
        omega
  have hpos : ∀ g : Path → Nat, ∀ l : List Path, 0 < (l.map g).sum ↔ ∃ f ∈ l, g f ≠ 0 := by
    intro g l
    induction l with
    | nil => simp
    | cons f l ih =>
      simp only [List.map_cons, List.sum_cons, List.mem_cons, exists_eq_or_imp, ← ih]
      omega
  have hchanged : (fl.format || fl.check) = true → ((reached env srcs).map fun f => (r f).changed) =
      (reached env srcs).map fun f => differ (env.tokenize (w.content (env.abspath f))).toks (new f) := fun h =>
    List.map_congr_left fun f hf => (hr f hf).2.2.2.1 h
  have hinvalid : (fl.validate || fl.verbose) = true → ((reached env srcs).map fun f => (r f).invalid) =
      (reached env srcs).map fun f => (told f).length := fun h =>
    List.map_congr_left fun f hf => ((hr f hf).2.2.2.2 h).1
  have hmin : ∀ g g' : Path → Nat, (reached env srcs).map g = (reached env srcs).map g' →
      ((reached env srcs).map fun f => min (g f) 1) = (reached env srcs).map fun f => min (g' f) 1 := by
    intro g g' h
    have := congrArg (List.map fun n => min n 1) h
    simpa [Function.comp_def] using this
  have hnil : ∀ f, (decide ((told f).length ≠ 0)) = decide (told f ≠ []) := by
    intro f
    cases told f <;> simp
  refine ⟨new, told, fun f hf => ⟨(hr f hf).2.1, (hr f hf).2.2.1⟩, ?_, ?_⟩
  · rw [h4, hcount, summary, ← List.append_assoc]
    congr 1
    · congr 1
      · congr 1
        refine saidAll_lines env fl w.content _ _ _ fun f hf => ?_
        obtain ⟨a1, -, -, a4, a5⟩ := hr f hf
        have hw := (hp f hf).writable
        rw [said, a1, aboutFile]
        simp only [hw, invalidSaid]
        obtain ⟨fo, ch, va, ve⟩ := fl
        generalize told f = l at a5 ⊢
        generalize differ (env.tokenize (w.content (env.abspath f))).toks (new f) = n at a4 ⊢
        generalize r f = x at a4 a5 ⊢
        clear hr hp hsum hpos hmin hnil hchanged hinvalid hcount h4 h5 hm ha hne a1
        cases fo <;> cases ch <;> cases va <;> cases ve <;>
          simp only [Bool.or_true, Bool.or_false, Bool.false_eq_true, forall_const, false_implies] at a4 a5 <;>
          simp [a4, a5] <;> by_cases hn : n = 0 <;> cases l <;> simp [hn, Nat.pos_iff_ne_zero]
      · cases hf : fl.format || fl.check with
        | false => rfl
        | true =>
          simp only [if_true]
          rw [hmin _ _ (hchanged hf), hsum, hchanged hf]
    · cases hf : fl.validate with
      | false => rfl
      | true =>
        have hv : (fl.validate || fl.verbose) = true := by rw [hf]; rfl
        simp only [if_true]
        rw [hmin _ _ (hinvalid hv), hsum, hinvalid hv]
        simp only [hnil]
  · rw [h5, hcount]
    congr 1
    simp only [Bool.or_eq_true, Bool.and_eq_true, decide_eq_true_eq, eq_iff_iff]
    refine or_congr (and_congr_right fun h => ?_) (and_congr_right fun h => ?_)
    · rw [hchanged (by rw [h]; simp)]
      exact hpos _ _
    · rw [hinvalid (by rw [h]; simp)]
      refine (hpos _ _).trans ?_
      simp

end

/-! ## Examples -/

/-- The hypotheses of `C86_run`, for the directory `d` with two Python files: the query in the second one is rejected. -/
example : (∀ f ∈ reached demoEnv [str!"d"], @Plain asciiEnv demoEnv demoWorld.content f) ∧
    Accepts Char.isDigit [str!"--check", str!"d", str!"--verb"] ⟨false, true, false, true⟩ [str!"d"] ∧
    (@mainArgs asciiEnv demoEnv Char.isDigit [str!"--check", str!"d", str!"--verb"] demoWorld).2.out =
      [.wouldReformat str!"d/a.py" 1, .invalidIn str!"d/c.py" 1, .location 1 [str!"The column a was not found"],
        .formatSummary 1 1 true] ∧
    (@mainArgs asciiEnv demoEnv Char.isDigit [str!"--check", str!"d", str!"--verb"] demoWorld).1 = 1 := by
  have hre : reached demoEnv [str!"d"] = [str!"d/a.py", str!"d/c.py"] := by decide +kernel
  refine ⟨fun f hf => @Plain.mk asciiEnv _ _ _ ⟨rfl, rfl, ⟨_, rfl, rfl⟩, show 2 ≤ 100 by decide, ⟨_, rfl⟩⟩ rfl ?_,
    ⟨[str!"--check"], [str!"d"], [str!"--verb"], [.check, .verbose], by decide, by decide, by decide, by decide, by decide,
      .inl ⟨by decide, by decide⟩⟩, by decide +kernel, by decide +kernel⟩
  have key : ∀ (v : Str) (ms : List Str), @Deserves asciiEnv v ms →
      ∀ t ∈ [(⟨.string, v, (1, 0), (1, v.length)⟩ : PyTok), ⟨.endmarker, [], (2, 0), (2, 0)⟩], @Query asciiEnv t →
        ∃ ms, @Deserves asciiEnv t.value ms := by
    intro v ms h t ht hq
    rcases List.mem_cons.1 ht with rfl | ht
    · exact ⟨ms, h⟩
    · rw [List.mem_singleton.1 ht] at hq
      exact absurd hq.1 (by decide)
  rw [hre] at hf
  rcases List.mem_cons.1 hf with rfl | hf
  · exact key str!"'select a from t'" []
      ⟨.select [.column str!"a"] false false [] (.table (.column str!"t") false) .none .none .none .none .none .none false,
        by decide +kernel, by decide +kernel, by decide +kernel,
        ⟨[], '\'', 1, str!"select a from t", _, by decide, by decide, by decide, by decide, by decide, rfl, by decide +kernel⟩,
        by decide +kernel⟩
  · rw [List.mem_singleton.1 hf]
    exact key str!"'SELECT a'" [str!"The column a was not found"]
      ⟨.select [.column str!"a"] false false [] .none .none .none .none .none .none .none false,
        by decide +kernel, by decide +kernel, by decide +kernel,
        ⟨[], '\'', 1, str!"SELECT a", _, by decide, by decide, by decide, by decide, by decide, rfl, by decide +kernel⟩,
        by decide +kernel⟩

end SqlV
