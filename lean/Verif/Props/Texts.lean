import Verif.Lemmas.CoreValid
import Verif.Props.RoundTrip
import Verif.Props.Verdict

/-!
# Spelling and verdict (C58, C59), names printed in capitals (C60), sources without columns (C61)
-/

set_option linter.unusedSectionVars false

namespace SqlV

open Core

section

variable [E : PyEnv] [L : LawfulPyEnv E]

theorem parse_fold {n : Node} (hc : core n = true) {sql : Str} {ts : List Str} (hs : toTokens sql = ⟨ts, none⟩)
    (hr : Reads (toks n) ts) : ∃ n', parseSql sql = .ok n' ∧ fold n' = n ∧ validate n' = validate n ∧ transform n' = transform n := by
  obtain ⟨n', h, rfl⟩ := C10_parser_inverts_grammar_text n hc sql ts hs hr
  exact ⟨n', h, rfl, (validate_fold (core_wf hc)).symm, transform_fold (core_wf hc)⟩

/-- The verdict on a text is the verdict on the statement it spells. -/
theorem verdict_core {n : Node} (hc : core n = true) {sql : Str} {ts : List Str} (hs : toTokens sql = ⟨ts, none⟩)
    (hr : Reads (toks n) ts) : verdict (parseSql sql) = verdict (.ok n) := by
  obtain ⟨n', h, -, hv, -⟩ := parse_fold hc hs hr
  rw [h, verdict, verdict, hv]

/-! ### C58 -/

/-- C58: two texts with the same statement of the core grammar, whatever the letter case of keywords, operators and
function names and whatever leading zeros of numbers, get the same answer and the same errors from `is_valid`. -/
theorem C58_verdict_of_spellings (n : Node) (hc : core n = true) (sql sql' : Str) (ts ts' : List Str)
    (hs : toTokens sql = ⟨ts, none⟩) (hs' : toTokens sql' = ⟨ts', none⟩) (hr : Reads (toks n) ts) (hr' : Reads (toks n) ts') :
    (SQLQuery.new sql).isValid.1 = (SQLQuery.new sql').isValid.1 ∧
    (SQLQuery.new sql).isValid.2.errors = (SQLQuery.new sql').isValid.2.errors := by
  rw [(isValid_new sql).1, (isValid_new sql).2, (isValid_new sql').1, (isValid_new sql').2,
    verdict_core hc hs hr, verdict_core hc hs' hr']
  exact ⟨rfl, rfl⟩

/-! ### C59 -/

/-- C59: formatting a statement of the core grammar does not change the answer or the errors of `is_valid`.  What is
missing from the full statement: texts outside the core grammar and statements that are not `tidy`; it is false for
some of them, see `C59_not_all`. -/
theorem C59_formatting_keeps_verdict_partial (n : Node) (hc : core n = true) (ht : tidy n = true) (sql : Str) (ts : List Str)
    (hs : toTokens sql = ⟨ts, none⟩) (hr : Reads (toks n) ts) :
    ∃ out, formatSql sql = .ok out ∧ (SQLQuery.new out).isValid.1 = (SQLQuery.new sql).isValid.1 ∧
      (SQLQuery.new out).isValid.2.errors = (SQLQuery.new sql).isValid.2.errors := by
  obtain ⟨h1, h2⟩ := tokens_layout (core_wf hc) (toks_ne_core hc) (core_oneKind hc)
  exact ⟨_, C11_layout n hc ht sql ts hs hr, C58_verdict_of_spellings n hc _ _ _ _ h2 hs h1 hr⟩

/-! ### C60 -/

/-- The names that are printed in capitals. -/
def shouted : List Str :=
  [str!"_table_suffix", str!"_partitiondate", str!"nfc", str!"nfkc", str!"nfd", str!"nfkd", str!"monday",
   str!"tuesday", str!"wednesday", str!"thursday", str!"friday", str!"saturday", str!"sunday"]

/-- C60: a column is printed as it was written, unless its name is one of thirteen words in lower case: these are
printed in capitals. -/
theorem C60_column_names (x : Str) (hx : ident x = true) :
    formatSql (str!"SELECT " ++ x) = .ok (str!"SELECT " ++ if x ∈ shouted then x.map Char.toUpper else x) := by
  have hk : ∀ s, chain none [s, x] = true := by
    intro s
    rw [chain, follows_quiet (fun c hc => ?_), Bool.true_and]
    · rfl
    · have := ((ident_chars hx).2.1 c hc).1
      simp only [isSep, Bool.or_eq_false_iff] at this
      exact this.1.1
  have hs : toTokens (str!"SELECT " ++ x) = ⟨[str!"SELECT", x], none⟩ :=
    line_tokens (l := [str!"SELECT"] ++ [x]) ((strong_simple (by decide) (by decide)).append (line_ident hx))
      ((fine_of (by decide)).append (fine_one (ident_chars hx).2.2.1)) (by simp) ⟨none, by simp, hk _⟩
  have hc : core (.select [.column x] false false [] .none .none .none .none .none .none .none false) = true := by
    simp [core, wf, wfList, level, levels, orNone, Node.isSelect, hx, oneKind, toks, toksList, Tok.word, opt, Node.truthy, hk]
  obtain ⟨n', h, -, -, h'⟩ := parse_fold hc hs ⟨rfl, rfl, trivial⟩
  rw [formatSql, h]
  show transform n' = _
  rw [h']
  show Except.ok (str!"SELECT" ++ (' ' :: if x ∈ columnKeywords then E.upper x else x) ++ [] ++ [] ++ [] ++ [] ++ [] ++ [] ++ []) = _
  simp only [List.append_nil]
  show Except.ok (str!"SELECT " ++ if x ∈ shouted then E.upper x else x) = _
  by_cases hm : x ∈ shouted
  · have : E.upper x = x.map Char.toUpper := L.upper_ascii x (by
      have : ∀ x ∈ shouted, x.all isAscii = true := by decide
      exact this x hm)
    rw [if_pos hm, if_pos hm, this]
  · rw [if_neg hm, if_neg hm]

/-! ### C61 -/

/-- Sources whose columns are not known to the validation: none at all, UNNEST, set operations, and joins with them. -/
def opaque_ : Node → Bool
  | .none => true
  | .unnest .. => true
  | .combined .. => true
  | .alias e _ _ => opaque_ e
  | .join _ l r _ _ => opaque_ l || opaque_ r
  | _ => false

theorem opaque_fields (n : Node) (h : opaque_ n = true) (fs : List Field) :
    knownFields n ≠ .ok fs ∧ ∀ acc, sideFields n acc ≠ .ok fs := by
  induction n using Node.rec (motive_2 := fun _ => True) generalizing fs with
  | «alias» e a w ihe =>
    rw [opaque_] at h
    refine ⟨fun hk => ?_, fun acc hk => ?_⟩
    · rw [knownFields] at hk
      obtain ⟨gs, hg, -⟩ := bind_ok_iff.1 hk
      exact (ihe h gs).1 hg
    · rw [sideFields] at hk
      obtain ⟨gs, hg, -⟩ := bind_ok_iff.1 hk
      exact (ihe h gs).1 hg
  | join t l r on us ihl ihr =>
    have key : ∀ fs, knownFields (.join t l r on us) ≠ .ok fs := by
      intro fs hk
      rw [knownFields_join] at hk
      obtain ⟨gs, hg, hk⟩ := bind_ok_iff.1 hk
      rw [opaque_, Bool.or_eq_true] at h
      rcases h with h | h
      · exact (ihl h gs).2 _ hg
      · exact (ihr h fs).2 _ hk
    refine ⟨key fs, fun acc hk => ?_⟩
    rw [sideFields_other _ _ (by simp)] at hk
    obtain ⟨gs, hg, -⟩ := bind_ok_iff.1 hk
    exact key gs hg
  | none => exact ⟨by simp [knownFields], fun acc hk => by cases hk⟩
  | unnest => exact ⟨by simp [knownFields], fun acc hk => by cases hk⟩
  | combined => exact ⟨by simp [knownFields], fun acc hk => by cases hk⟩
  | nil => trivial
  | cons => trivial
  | _ => exact absurd h Bool.false_ne_true

theorem concat_mem {k : List Field} {vs : List V} {errs : List Str} (h : V.concat k vs = .ok errs) {x : V} (hx : x ∈ vs) :
    ∃ a, x.v k = .ok a ∧ ∀ m ∈ a, m ∈ errs := by
  induction vs generalizing errs with
  | nil => cases hx
  | cons y ys ih =>
    simp only [V.concat, bind_ok_iff, pure_ok_iff] at h
    obtain ⟨a, ha, b, hb, rfl⟩ := h
    rcases List.mem_cons.1 hx with rfl | hx
    · exact ⟨a, ha, fun m hm => List.mem_append_left _ hm⟩
    · obtain ⟨c, hc, hm⟩ := ih hb hx
      exact ⟨c, hc, fun m h => List.mem_append_right _ (hm m h)⟩

/-- C61 for trees. -/
theorem opaque_rejected (es on : List Node) (all d semi : Bool) (f w g h o l off : Node) (hf : opaque_ f = true)
    (x : Str) (hx : x ≠ str!"*") (hm : Node.column x ∈ es ∨ ∃ a b, Node.alias (.column x) a b ∈ es) (errs : List Str)
    (hv : validate (.select es all d on f w g h o l off semi) = .ok errs) :
    str!"The column " ++ x ++ str!" was not found" ∈ errs := by
  rw [validate, validateWith, vtable_select] at hv
  simp only [V.of, bind_ok_iff] at hv
  obtain ⟨ff, hff, hv⟩ := hv
  obtain rfl : ff = none := by
    rw [optFields.eq_def] at hff
    split at hff
    · rename_i fs hk
      exact absurd hk (opaque_fields f hf fs).1
    · cases hff; rfl
    · cases hff
  unfold clausesV at hv
  obtain ⟨a, ha, hv⟩ := bind_ok_iff.1 hv
  have hcol : validateColumn [] x = .ok [str!"The column " ++ x ++ str!" was not found"] := by
    simp [validateColumn, hasField, fieldsWithoutAlias, hx]
  have hin : str!"The column " ++ x ++ str!" was not found" ∈ a := by
    rcases hm with hm | ⟨al, b, hm⟩
    · obtain ⟨c, hc, h⟩ := concat_mem ha (mem_vtableList.2 ⟨_, hm, rfl⟩)
      rw [vtable] at hc
      have hc : validateColumn [] x = .ok c := hc
      rw [hcol] at hc
      cases hc
      exact h _ (by simp)
    · obtain ⟨c, hc, h⟩ := concat_mem ha (mem_vtableList.2 ⟨_, hm, rfl⟩)
      rw [vtable, vtable] at hc
      have hc : validateColumn [] x = .ok c := hc
      rw [hcol] at hc
      cases hc
      exact h _ (by simp)
  simp only [bind_ok_iff, pure_ok_iff] at hv
  obtain ⟨_, _, _, _, _, _, _, _, _, _, _, _, _, _, rfl⟩ := hv
  simp only [List.mem_append]
  tauto

/-- C61: a column that is selected from UNNEST, a set operation, a join with one of them or without FROM is never found.
If `is_valid` answers at all, it answers no. -/
theorem C61_unknown_columns (es on : List Node) (all d semi : Bool) (f w g h o l off : Node)
    (hc : core (.select es all d on f w g h o l off semi) = true) (sql : Str) (ts : List Str) (hs : toTokens sql = ⟨ts, none⟩)
    (hr : Reads (toks (.select es all d on f w g h o l off semi)) ts) (hf : opaque_ f = true)
    (x : Str) (hx : x ≠ str!"*") (hm : Node.column x ∈ es ∨ ∃ a b, Node.alias (.column x) a b ∈ es) (b : Bool)
    (hv : (SQLQuery.new sql).isValid.1 = .ok b) :
    b = false ∧ str!"The column " ++ x ++ str!" was not found" ∈ (SQLQuery.new sql).isValid.2.errors := by
  rw [(isValid_new sql).2]
  rw [(isValid_new sql).1] at hv
  rw [verdict_core hc hs hr] at hv ⊢
  rw [verdict] at hv ⊢
  cases hval : validate (.select es all d on f w g h o l off semi) with
  | ok errs =>
    have := opaque_rejected es on all d semi f w g h o l off hf x hx hm errs hval
    rw [hval] at hv
    have hb : errs.isEmpty = b := by injection hv
    refine ⟨?_, this⟩
    rw [← hb]
    cases errs with
    | nil => cases this
    | cons => rfl
  | error e =>
    have he := C77_exceptions _ e hval
    rw [hval] at hv
    rcases he with rfl | rfl | rfl <;> cases hv

/-- C61 for every text that is read, in the core grammar or not. -/
theorem C61_any_text (sql : Str) (es on : List Node) (all d semi : Bool) (f w g h o l off : Node)
    (hp : parseSql sql = .ok (.select es all d on f w g h o l off semi)) (hf : opaque_ f = true)
    (x : Str) (hx : x ≠ str!"*") (hm : Node.column x ∈ es ∨ ∃ a b, Node.alias (.column x) a b ∈ es) (b : Bool)
    (hv : (SQLQuery.new sql).isValid.1 = .ok b) :
    b = false ∧ str!"The column " ++ x ++ str!" was not found" ∈ (SQLQuery.new sql).isValid.2.errors := by
  rw [(isValid_new sql).2]
  rw [(isValid_new sql).1] at hv
  rw [verdict.eq_def, hp] at hv ⊢
  cases hval : validate (.select es all d on f w g h o l off semi) with
  | ok errs =>
    have := opaque_rejected es on all d semi f w g h o l off hf x hx hm errs hval
    simp only [hval] at hv
    have hb : errs.isEmpty = b := by injection hv
    refine ⟨?_, by simpa only [hval] using this⟩
    rw [← hb]
    cases errs with
    | nil => cases this
    | cons => rfl
  | error e =>
    have he := C77_exceptions _ e hval
    simp only [hval] at hv
    rcases he with rfl | rfl | rfl <;> cases hv

end

/-! ### Concrete cases -/

/-- Non-vacuity of C58 and C59: two spellings of `demo`, and the formatted text. -/
example : @core asciiEnv demo = true ∧ tidy demo = true ∧ (@toTokens asciiEnv demoSql).fail = none ∧
    Reads (toks demo) (@toTokens asciiEnv demoSql).toks ∧
    Reads (toks demo) (@toTokens asciiEnv (layout demo)).toks ∧ demoSql ≠ layout demo ∧
    (@SQLQuery.isValid asciiEnv (SQLQuery.new demoSql)).1 = .ok true ∧
    (@SQLQuery.isValid asciiEnv (SQLQuery.new (layout demo))).1 = .ok true := by
  decide +kernel

/-- Non-vacuity of C58 and C59 with errors. -/
example : (@SQLQuery.isValid asciiEnv (SQLQuery.new str!"Select x from (select y FROM t) LIMIT 007")).2.errors =
      [str!"The column x was not found"] ∧
    @formatSql asciiEnv str!"Select x from (select y FROM t) LIMIT 007" = .ok str!"SELECT x\nFROM (\n SELECT y\n FROM t\n)\nLIMIT 7" ∧
    (@SQLQuery.isValid asciiEnv (SQLQuery.new str!"SELECT x\nFROM (\n SELECT y\n FROM t\n)\nLIMIT 7")).2.errors =
      [str!"The column x was not found"] := by
  decide +kernel

/-- C59 is false: formatting capitalises one of two names and turns a rejected query into an accepted one. -/
theorem C59_not_all :
    (@SQLQuery.isValid asciiEnv (SQLQuery.new str!"SELECT NFC FROM (SELECT nfc FROM t)")).1 = .ok false ∧
      @formatSql asciiEnv str!"SELECT NFC FROM (SELECT nfc FROM t)" = .ok str!"SELECT NFC\nFROM (\n SELECT NFC\n FROM t\n)" ∧
      (@SQLQuery.isValid asciiEnv (SQLQuery.new str!"SELECT NFC\nFROM (\n SELECT NFC\n FROM t\n)")).1 = .ok true := by
  decide +kernel

/-- Non-vacuity of C60, for a name of each kind. -/
example : @ident asciiEnv str!"monday" = true ∧ @formatSql asciiEnv str!"SELECT monday" = .ok str!"SELECT MONDAY" ∧
    @ident asciiEnv str!"Monday" = true ∧ @formatSql asciiEnv str!"SELECT Monday" = .ok str!"SELECT Monday" ∧
    @ident asciiEnv str!"march" = true ∧ @formatSql asciiEnv str!"SELECT march" = .ok str!"SELECT march" := by
  decide +kernel

/-- Non-vacuity of C61 for a text outside the core grammar. -/
example : @parseSql asciiEnv str!"select x, LEFT(y, 2) from unnest(b)" =
      .ok (.select [.column str!"x", .func str!"LEFT" [.column str!"y", .int 2]] false false []
        (.unnest (.func str!"unnest" [.column str!"b"]) false false none) .none .none .none .none .none .none false) ∧
    opaque_ (.unnest (.func str!"unnest" [.column str!"b"]) false false none) = true ∧
    (@SQLQuery.isValid asciiEnv (SQLQuery.new str!"select x, LEFT(y, 2) from unnest(b)")).1 = .ok false ∧
    @core asciiEnv (.select [.column str!"x", .func str!"left" [.column str!"y", .int 2]] false false []
        (.unnest (.func str!"unnest" [.column str!"b"]) false false none) .none .none .none .none .none .none false) = false := by
  decide +kernel

/-- Non-vacuity of C61: `demo4` selects `x` from a set operation. -/
example : @core asciiEnv demo4 = true ∧ Reads (toks demo4) (@toTokens asciiEnv demo4Sql).toks ∧
    (match demo4 with
      | .select es _ _ _ f _ _ _ _ _ _ _ => opaque_ f && decide (es = [.column str!"x"])
      | _ => false) = true ∧
    (@SQLQuery.isValid asciiEnv (SQLQuery.new demo4Sql)).1 = .ok false ∧
    (@SQLQuery.isValid asciiEnv (SQLQuery.new str!"select x from unnest([1]) as x")).2.errors =
      [str!"The column x was not found"] := by
  decide +kernel

end SqlV
