import Verif.Props.Literals
import Verif.Props.Touched

/-!
# Formatting files, from the command line to the text (C85)
-/

set_option linter.unusedSectionVars false

namespace SqlV

open Core Args Cmd

section
variable [E : PyEnv] [L : LawfulPyEnv E]

/-- The literal `v` holds a tidy statement of the core grammar, and `v'` holds its layout, with the same letters before the same kind of
quotes: as many of them if it is a single line, else three, on lines of its own. -/
def Relaid (v v' : Str) : Prop :=
  ∃ (n : Node) (p : Str) (c : Char) (k : Nat) (body : Str) (ts : List Str), core n = true ∧ tidy n = true ∧ literalPrefix p ∧
    (c = '"' ∨ c = '\'') ∧ (k = 1 ∨ k = 3) ∧ (k = 1 → body.head? ≠ some c) ∧
    v = p ++ List.replicate k c ++ body ++ List.replicate k c ∧ toTokens body = ⟨ts, none⟩ ∧ Core.Reads (toks n) ts ∧
    v' = if '\n' ∈ layout n then p ++ List.replicate 3 c ++ ['\n'] ++ layout n ++ ['\n'] ++ List.replicate 3 c
      else p ++ List.replicate k c ++ layout n ++ List.replicate k c

/-- The tokens of a file after formatting: every query is laid out, unless the next comment or string says `nosqlformat`. -/
inductive Tidied : List PyTok → List PyTok → Prop
  | nil : Tidied [] []
  /-- no query -/
  | same (t : PyTok) (r r' : List PyTok) : ¬ Query t → Tidied r r' → Tidied (t :: r) (t :: r')
  /-- a query that must not be formatted -/
  | kept (t n : PyTok) (mid post r' : List PyTok) : Query t → (∀ x ∈ mid, passive x) → ¬ passive n →
      (∃ x y, n.value = x ++ str!"nosqlformat" ++ y) → Tidied (mid ++ n :: post) r' → Tidied (t :: (mid ++ n :: post)) (t :: r')
  /-- any other query -/
  | laid (t n : PyTok) (v : Str) (mid post r' : List PyTok) : Query t → (∀ x ∈ mid, passive x) → ¬ passive n →
      (∀ x y, n.value ≠ x ++ str!"nosqlformat" ++ y) → Relaid t.value v → Tidied (mid ++ n :: post) r' →
      Tidied (t :: (mid ++ n :: post)) ({ t with value := v } :: r')

theorem relaid_of_holds {v : Str} {n : Node} (hc : core n = true) (ht : tidy n = true) (h : Holds v n) :
    ∃ new q, handleSqlString v = .ok (new, q) ∧ Relaid v new := by
  obtain ⟨p, c, k, body, ts, hp, hcq, hk, hb, rfl, hs, hr⟩ := h
  obtain ⟨q, h1, -⟩ := (C41_prefix_and_quotes p hp c hcq k hk body hb).1 _ (C11_layout n hc ht body ts hs hr)
  exact ⟨_, q, h1, n, p, c, k, body, ts, hc, ht, hp, hcq, hk, hb, rfl, hs, hr, rfl⟩

theorem split_stop {rest : List PyTok} {n : PyTok} (h : rest.find? stopsFollow = some n) :
    ∃ mid post, rest = mid ++ n :: post ∧ (∀ x ∈ mid, passive x) ∧ ¬ passive n := by
  have hp : ∀ t, passive t ↔ stopsFollow t = false := by
    intro t
    simp only [passive, stopsFollow, Bool.or_eq_false_iff, decide_eq_false_iff_not]
    exact ⟨fun h => ⟨⟨h.2.2, h.1⟩, h.2.1⟩, fun h => ⟨h.1.2, h.2, h.1.1⟩⟩
  rw [List.find?_eq_some_iff_append] at h
  obtain ⟨h2, mid, post, rfl, h3⟩ := h
  exact ⟨mid, post, rfl, fun t ht => (hp t).2 (by simpa using h3 t ht), by rw [hp, h2]; simp⟩

theorem effect_tidied {val : Bool} {t : PyTok} {rest r' : List PyTok} {e : Effect}
    (hend : ∀ x, (t :: rest).getLast? = some x → x.kind = .endmarker)
    (h : Query t → ∃ n, core n = true ∧ tidy n = true ∧ Holds t.value n)
    (he : effect true val none t rest = .ok e) (hr : Tidied rest r') : Tidied (t :: rest) (e.tok :: r') := by
  cases hq : isQuery t with
  | false =>
    rw [effect_other hq] at he
    cases he
    exact .same _ _ _ (by rw [← query_iff, hq]; simp) hr
  | true =>
    have hQ := (query_iff t).1 hq
    cases rest with
    | nil =>
      have := hend t rfl
      rw [hQ.1] at this
      cases this
    | cons a l =>
      obtain ⟨n, hn⟩ := find_of_end (rest := a :: l) (by
        rw [List.getLast?_cons_cons] at hend
        cases hl : (a :: l).getLast? with
        | none => simp at hl
        | some x => exact ⟨x, rfl, hend x hl⟩)
      obtain ⟨mid, post, hs, hm, hp⟩ := split_stop hn
      rw [effect, if_pos hq, hn] at he
      rw [hs] at hr ⊢
      simp only at he
      obtain ⟨m, hc, ht, hh⟩ := h hQ
      obtain ⟨new, q, h1, h2⟩ := relaid_of_holds hc ht hh
      cases hk : Str.contains n.value noSqlFormat with
      | true =>
        have hkeep := (Str.contains_iff _ _).1 hk
        have htok : e.tok = t := by
          split at he
          · rw [analysed, h1] at he
            simp only at he
            split at he
            · cases he
            · simp only [Except.ok.injEq] at he
              subst he
              simp [replaced, hk]
          · cases he
            rfl
        rw [htok]
        exact .kept t n mid post r' hQ hm hp hkeep hr
      | false =>
        rw [hk, if_pos (by simp), analysed, h1] at he
        simp only at he
        have htok : e.tok = { t with value := new } := by
          split at he
          · cases he
          · simp only [Except.ok.injEq] at he
            subst he
            by_cases hv : new = t.value
            · subst hv; simp [replaced]
            · simp [replaced, hv]
        rw [htok]
        exact .laid t n new mid post r' hQ hm hp (no_marker.1 hk) h2 hr

theorem effects_tidied {val : Bool} {toks : List PyTok} {es : List Effect}
    (hend : ∀ x, toks.getLast? = some x → x.kind = .endmarker)
    (h : ∀ t ∈ toks, Query t → ∃ n, core n = true ∧ tidy n = true ∧ Holds t.value n)
    (hes : effects true val none toks = .ok es) : Tidied toks (es.map (·.tok)) := by
  induction toks generalizing es with
  | nil => cases hes; exact .nil
  | cons t ts ih =>
    rw [effects] at hes
    cases he : effect true val none t ts with
    | error e => rw [he] at hes; cases hes
    | ok e =>
      rw [he] at hes
      simp only at hes
      cases hs : effects true val none ts with
      | error e => rw [hs] at hes; cases hes
      | ok es' =>
        rw [hs] at hes
        simp only [Except.ok.injEq] at hes
        subst hes
        refine effect_tidied hend (h t (by simp)) he (ih ?_ (fun x hx => h x (List.mem_cons_of_mem _ hx)) hs)
        intro x hx
        cases ts with
        | nil => cases hx
        | cons a l => exact hend x (by rw [List.getLast?_cons_cons]; exact hx)

theorem same_of_unchanged {a b : List PyTok} (hab : List.Forall₂ SameButQuery a b)
    (hn : ((a.zip b).countP fun p => p.1 ≠ p.2) = 0) : b = a := by
  induction hab with
  | nil => rfl
  | @cons x y xs ys h _ ih =>
    simp only [List.zip_cons_cons, List.countP_cons] at hn
    by_cases hxy : x = y
    · rw [← hxy, ih (by omega)]
    · simp [hxy] at hn

variable {digit : Char → Bool}

/-- C85: after a command line that says `--format`, each file that it reaches and that can be read and written, whose queries are tidy
statements of the core grammar, holds its tokens with every query laid out and blanks and line continuations between them, or,
if this changes no token, its old text. -/
theorem C85_formatted (hd : Digits digit) (env : FileEnv) (argv : List Str) (w : World) (fl : Flags) (srcs : List Str)
    (ha : Accepts digit argv fl srcs) (hf : fl.format = true) (f : Path) (hr : f ∈ reached env srcs)
    (hread : env.readFault (env.abspath f) = none) (hwrite : env.writeFault (env.abspath f) = none)
    (pieces : List (Str × PyTok)) (printed : List Str)
    (ht : env.tokenize (w.content (env.abspath f)) = ⟨pieces.map Prod.snd, none⟩) (hs : Stands (1, 0) [] false pieces printed)
    (hend : ∃ q, pieces.getLast? = some q ∧ q.2.kind = .endmarker) (hl : pieces.length ≤ env.limit)
    (hq : ∀ t ∈ pieces.map Prod.snd, Query t → ∃ n, core n = true ∧ tidy n = true ∧
      ((fl.validate || fl.verbose) = true → calm true n = true) ∧ Holds t.value n) :
    ∃ toks', Tidied (pieces.map Prod.snd) toks' ∧
      (mainArgs env digit argv w).2.content (env.abspath f) =
        if toks' = pieces.map Prod.snd then w.content (env.abspath f) else weave printed toks' := by
  have hm : mainArgs env digit argv w = handleInputs env fl srcs w :=
    (C82_main hd env argv w).2.1 fl srcs ha (by rintro rfl; cases hf)
  rw [hm]
  have hend' : ∃ e, (pieces.map Prod.snd).getLast? = some e ∧ e.kind = .endmarker := by
    obtain ⟨q, h1, h2⟩ := hend
    exact ⟨q.2, by rw [List.getLast?_map, h1]; rfl, h2⟩
  obtain ⟨es, hes⟩ := effects_core (fmt := true) (val := fl.validate || fl.verbose) hend' fun t h1 h2 =>
    let ⟨n, a1, a2, a3, a4⟩ := hq t h1 h2
    ⟨n, a1, tidy_firm n a2, a3, a4⟩
  obtain ⟨f1, f2⟩ := forall₂_of_effects hes
  obtain ⟨gs, g1, g2⟩ := gapsFrom_stands hs {} rfl
  have hun : ∃ content, untokenize (es.map (·.tok)) = .ok content := by
    rw [untokenize, untokenizeFrom_eq, gapsFrom_congr f1, g1]
    exact ⟨_, rfl⟩
  obtain ⟨content, hun⟩ := hun
  have hcc : computeContent env.limit ⟨pieces.map Prod.snd, none⟩ true (fl.validate || fl.verbose) =
      .ok (es.countP (·.changed), content, (es.flatMap (·.reports)).length, es.flatMap (·.reports)) := by
    simp only [computeContent]
    rw [mainLoop_of_effects (by simpa using hl) hes]
    simp only [bind, Except.bind, hun]
    rfl
  have hcontent : content = weave printed (es.map (·.tok)) := by
    rw [untokenize, untokenizeFrom_eq, gapsFrom_congr f1, g1] at hun
    simp only [Except.map, Except.ok.injEq] at hun
    rw [← hun]
    refine g2 _ ?_
    have hk : ∀ (a b : List PyTok), List.Forall₂ SameButQuery a b → b.map PyTok.kind = a.map PyTok.kind := by
      intro a b hab
      induction hab with
      | nil => rfl
      | cons h _ ih => simp [h.kind, ih]
    rw [hk _ _ f1]
    simp [Function.comp_def]
  have hfound : found env fl w.content f =
      .ok ⟨es.countP (·.changed), content, (es.flatMap (·.reports)).length, es.flatMap (·.reports)⟩ := by
    rw [found, hread, ht]
    simp only [hf, Bool.true_or, hcc, Except.map]
  refine ⟨es.map (·.tok), effects_tidied ?_ (fun t h1 h2 => ?_) hes, ?_⟩
  · obtain ⟨e, h1, h2⟩ := hend'
    intro x hx
    rw [h1] at hx
    cases hx
    exact h2
  · obtain ⟨n, a1, a2, -, a4⟩ := hq t h1 h2
    exact ⟨n, a1, a2, a4⟩
  · by_cases hz : es.countP (·.changed) = 0
    · rw [if_pos (same_of_unchanged f1 (by rw [← f2, hz]))]
      refine (C43_other_files_untouched env fl srcs w _ fun g hg hp r hr' => ?_).1
      have : g = f := abspath_inj env _ (reached_nodup env srcs) _ hg _ hr hp
      subst this
      rw [hfound] at hr'
      cases hr'
      exact hz
    · rw [if_neg (fun h => toks_ne (by rw [← f2]; exact Nat.pos_of_ne_zero hz) h.symm), ← hcontent]
      exact (C43_changed_files_written env fl srcs w hf f hr hwrite _ hfound (Nat.pos_of_ne_zero hz)).1

end

/-! ## Examples -/

/-- The hypotheses of `C85_formatted`, for the file `q\t= 'select  a' # b` (its result is in `Props/Touched`), with `--format --validate`. -/
example : ∃ fl srcs f, Accepts Char.isDigit [str!"--form", str!"d", str!"--vali"] fl srcs ∧ fl.format = true ∧ f ∈ reached touchedEnv srcs ∧
    touchedEnv.readFault (touchedEnv.abspath f) = none ∧ touchedEnv.writeFault (touchedEnv.abspath f) = none ∧
    touchedEnv.tokenize (touchedWorld.content (touchedEnv.abspath f)) = ⟨touchedPieces.map Prod.snd, none⟩ ∧
    (∃ q, touchedPieces.getLast? = some q ∧ q.2.kind = .endmarker) ∧ touchedPieces.length ≤ touchedEnv.limit ∧
    ∀ t ∈ touchedPieces.map Prod.snd, @Query asciiEnv t → ∃ n, @core asciiEnv n = true ∧ tidy n = true ∧
      ((fl.validate || fl.verbose) = true → calm true n = true) ∧ @Holds asciiEnv t.value n := by
  refine ⟨⟨true, false, true, false⟩, [str!"d"], str!"d/a.py",
    ⟨[str!"--form"], [str!"d"], [str!"--vali"], [.format, .validate], by decide, by decide, by decide, by decide, by decide,
      .inl ⟨by decide, by decide⟩⟩, rfl, by decide +kernel, rfl, rfl, rfl, ⟨_, rfl, rfl⟩, by decide, fun t ht hq => ?_⟩
  have ht' : t = ⟨.string, str!"'select  a'", (1, 4), (1, 15)⟩ := by
    simp only [touchedPieces, List.map_cons, List.map_nil, List.mem_cons, List.not_mem_nil, or_false] at ht
    have := hq.1
    rcases ht with rfl | rfl | rfl | rfl | rfl <;> first | rfl | cases this
  subst ht'
  exact ⟨.select [.column str!"a"] false false [] .none .none .none .none .none .none .none false, by decide +kernel, by decide +kernel,
    fun _ => by decide +kernel,
    ⟨[], '\'', 1, str!"select  a", _, by decide, by decide, by decide, by decide, by decide, rfl, by decide +kernel⟩⟩

/-- A literal over several lines, before and after. -/
example : @Relaid asciiEnv str!"f\"select a\nfrom t\"" str!"f\"\"\"\nSELECT a\nFROM t\n\"\"\"" :=
  ⟨.select [.column str!"a"] false false [] (.table (.column str!"t") false) .none .none .none .none .none .none false,
    str!"f", '"', 1, str!"select a\nfrom t", _, by decide +kernel, by decide +kernel, by decide, by decide, by decide, by decide,
    by decide, rfl, by decide +kernel, by decide +kernel⟩

end SqlV
