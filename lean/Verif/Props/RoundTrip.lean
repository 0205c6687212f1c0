import Verif.Lemmas.CoreLast
import Verif.Lemmas.CoreLits
import Verif.Props.Layout

/-!
# Formatted text read again (C12, C13, C15, C17, C19)

`canon` (in `Verif/Spec/Layout.lean`) is how a token is written in formatted text: keywords, operators and names of
functions and types in capitals, numbers without leading zeros, everything else as it was.
-/

set_option linter.unusedSectionVars false

namespace SqlV

open Core

/-- A token and what it may become: the same, in capitals, or another spelling of the same number. -/
def sameTok (t u : Str) : Prop :=
  u = t ∨ u = t.map Char.toUpper ∨ (t.all Char.isDigit ∧ u.all Char.isDigit ∧ value t = value u)

/-- Token by token. -/
def sameToks : List Str → List Str → Prop
  | [], [] => True
  | t :: ts, u :: us => sameTok t u ∧ sameToks ts us
  | _, _ => False

section

variable [E : PyEnv] [L : LawfulPyEnv E]

theorem core_wf {n : Node} (hc : core n = true) : wf n = true := by
  simp only [core, Bool.and_eq_true] at hc
  replace hc := hc.1
  exact hc.1

theorem core_oneKind {n : Node} (hc : core n = true) : oneKind (toks n) = true := by
  simp only [core, Bool.and_eq_true] at hc
  exact hc.2

/-- However the tokens are written, the canonical way has the same tokens. -/
theorem same_canon : ∀ {ks : List Tok} {ts : List Str}, Reads ks ts → Reads ks (ks.map Tok.canon) → sameToks ts (ks.map Tok.canon)
  | [], [], _, _ => trivial
  | k :: ks, t :: ts, h, h' => by
    refine ⟨?_, same_canon h.2 h'.2⟩
    cases k with
    | kw w =>
      refine .inr (.inl ?_)
      have : t.map Char.toLower = w := h.1
      subst this
      show caps (t.map Char.toLower) = _
      rw [caps, List.map_map]
      exact List.map_congr_left fun c _ => toUpper_toLower c
    | lit s => exact .inl (Eq.symm h.1)
    | num n => exact .inr (.inr ⟨h.1.2.1, h'.1.2.1, by rw [h.1.2.2.2, h'.1.2.2.2]⟩)
  | [], _ :: _, h, _ => h.elim
  | _ :: _, [], h, _ => h.elim

/-! ### C12 -/

/-- C12: formatting a statement of the core grammar succeeds, and the tokens of the result are those of the input, in
the same order and number, with keywords, operators and names of functions in capitals and numbers without leading
zeros. -/
theorem C12_tokens_preserved (n : Node) (hc : core n = true) (ht : tidy n = true) (sql : Str) (ts : List Str)
    (hs : toTokens sql = ⟨ts, none⟩) (hr : Reads (toks n) ts) :
    ∃ out, formatSql sql = .ok out ∧ toTokens out = ⟨(toks n).map Tok.canon, none⟩ ∧ sameToks ts ((toks n).map Tok.canon) := by
  obtain ⟨h1, h2⟩ := tokens_layout (core_wf hc) (toks_ne_core hc) (core_oneKind hc)
  exact ⟨_, C11_layout n hc ht sql ts hs hr, h2, same_canon hr h1⟩

/-! ### C13 -/

/-- C13: formatting a formatted statement of the core grammar changes nothing. -/
theorem C13_idempotent (n : Node) (hc : core n = true) (ht : tidy n = true) (sql : Str) (ts : List Str)
    (hs : toTokens sql = ⟨ts, none⟩) (hr : Reads (toks n) ts) (out : Str) (h : formatSql sql = .ok out) :
    formatSql out = .ok out := by
  obtain ⟨h1, h2⟩ := tokens_layout (core_wf hc) (toks_ne_core hc) (core_oneKind hc)
  rw [C11_layout n hc ht sql ts hs hr] at h
  cases h
  exact C11_layout n hc ht _ _ h2 h1

/-- C13, for trees: the layout of a statement of the core grammar is formatted already. -/
theorem C13_layout_fixed (n : Node) (hc : core n = true) (ht : tidy n = true) : formatSql (layout n) = .ok (layout n) :=
  let ⟨h1, h2⟩ := tokens_layout (core_wf hc) (toks_ne_core hc) (core_oneKind hc)
  C11_layout n hc ht _ _ h2 h1

/-! ### C15 -/

/-- C15: the formatted text ends in a semicolon exactly if the statement does. -/
theorem C15_semicolon_kept (n : Node) (hc : core n = true) (ht : tidy n = true) (sql : Str) (ts : List Str)
    (hs : toTokens sql = ⟨ts, none⟩) (hr : Reads (toks n) ts) (out : Str) (h : formatSql sql = .ok out) :
    out.getLast? = some ';' ↔ ended n = true := by
  rw [C11_layout n hc ht sql ts hs hr] at h
  cases h
  rw [← layout_last hc]
  constructor
  · intro h
    obtain ⟨s, hs⟩ := List.getLast?_eq_some_iff.1 h
    exact ⟨s, hs⟩
  · rintro ⟨s, h⟩
    rw [h]
    simp

/-! ### C17 -/

/-- C17: each literal of a statement of the core grammar appears in the formatted text, with its quotes and on one
line.  What is missing from the full statement: `content` (in `Verif/Spec/Core.lean`) leaves out contents with line breaks
(for which the statement is false, see `C17_not_all`), more than one escaped quote (for which it is false, see `C17_quotes`), and
some keywords; and `oneKind` leaves out statements with two kinds of literals, one of which contains a quote of another kind (for
which it is false too). -/
theorem C17_literals_kept_partial (n : Node) (hc : core n = true) (ht : tidy n = true) (sql : Str) (ts : List Str)
    (hs : toTokens sql = ⟨ts, none⟩) (hr : Reads (toks n) ts) :
    ∃ out, formatSql sql = .ok out ∧ ∀ x ∈ literals n, x <:+: out ∧ ∃ l, x <:+: l ∧ '\n' ∉ l ∧ l <:+: out := by
  refine ⟨_, C11_layout n hc ht sql ts hs hr, fun x hx => ?_⟩
  obtain ⟨l, hl, h⟩ := lits n x hx .plain
  refine ⟨has_text ⟨l, hl, h⟩, l, h, ?_, has_text ⟨l, hl, List.infix_refl _⟩⟩
  exact (solid_lay n (core_wf hc) (by rintro rfl; exact toks_ne_core hc rfl) .plain).2 l hl

/-- C17, in place: if three consecutive tokens are a literal, so are the tokens of the formatted text in that place. -/
theorem C17_literals_in_place_partial (n : Node) (hc : core n = true) (ht : tidy n = true) (sql : Str) (ts : List Str)
    (hs : toTokens sql = ⟨ts, none⟩) (hr : Reads (toks n) ts) (q v : Str) (a b : List Tok)
    (hv : toks n = a ++ .lit q :: .lit v :: .lit q :: b) :
    (∃ x y, ts = x ++ q :: v :: q :: y ∧ x.length = a.length) ∧
    ∃ out x y, formatSql sql = .ok out ∧ toTokens out = ⟨x ++ q :: v :: q :: y, none⟩ ∧ x.length = a.length := by
  obtain ⟨h1, h2⟩ := tokens_layout (core_wf hc) (toks_ne_core hc) (core_oneKind hc)
  have len : ∀ {ks : List Tok} {us : List Str}, Reads ks us → us.length = ks.length := by
    intro ks
    induction ks with
    | nil => intro us h; rw [reads_nil] at h; subst h; rfl
    | cons k ks ih =>
      intro us h
      rw [reads_cons] at h
      obtain ⟨t, us, rfl, -, h⟩ := h
      simp [ih h]
  refine ⟨?_, layout n, a.map Tok.canon, b.map Tok.canon, C11_layout n hc ht sql ts hs hr, ?_, by simp⟩
  · rw [hv, reads_append] at hr
    obtain ⟨x, y, rfl, hx, hy⟩ := hr
    rw [reads_cons] at hy
    obtain ⟨t1, y, rfl, h3, hy⟩ := hy
    rw [reads_cons] at hy
    obtain ⟨t2, y, rfl, h4, hy⟩ := hy
    rw [reads_cons] at hy
    obtain ⟨t3, y, rfl, h5, hy⟩ := hy
    obtain rfl : t1 = q := h3
    obtain rfl : t2 = v := h4
    obtain rfl : t3 = t1 := h5
    exact ⟨x, y, rfl, len hx⟩
  · rw [h2, hv]
    simp [Tok.canon]

/-! ### C19 -/

theorem value_lt (d : Str) (h : ∀ c ∈ d, c.isDigit = true) (a : Nat) :
    d.foldl (fun a c => 10 * a + (c.toNat - '0'.toNat)) a < (a + 1) * 10 ^ d.length := by
  induction d generalizing a with
  | nil => simp
  | cons c d ih =>
    have hc : c.toNat - '0'.toNat ≤ 9 := by
      have := h c (by simp)
      simp only [Char.isDigit, Bool.and_eq_true, decide_eq_true_eq] at this
      have h2 : c.val.toNat ≤ 57 := UInt32.le_iff_toNat_le.1 this.2
      show c.val.toNat - 48 ≤ 9
      omega
    have h1 := ih (fun x hx => h x (by simp [hx])) (10 * a + (c.toNat - '0'.toNat))
    refine Nat.lt_of_lt_of_le h1 ?_
    rw [List.length_cons, Nat.pow_succ, Nat.mul_comm (10 ^ d.length), ← Nat.mul_assoc]
    exact Nat.mul_le_mul_right _ (by omega)

/-- Canonical digits are not longer than any other spelling of the number. -/
theorem ofNat_value_length (d : Str) (hne : d ≠ []) (h : ∀ c ∈ d, c.isDigit = true) : (Str.ofNat (value d)).length ≤ d.length := by
  rw [Str.ofNat, Nat.length_toDigits_le_iff (by decide) (List.length_pos_iff.2 hne)]
  have := value_lt d h 0
  rwa [Nat.zero_add, Nat.one_mul] at this

/-- Canonical digits have no leading zero. -/
theorem ofNat_zero (n : Nat) : (Str.ofNat n).head? = some '0' → n = 0 := by
  induction n using Nat.strongRecOn with
  | _ n ih =>
    rw [Str.ofNat, Nat.toDigits_eq_if (by decide)]
    split
    · intro h
      simpa using h
    · intro h
      have h0 := ih (n / 10) (Nat.div_lt_self (by omega) (by decide)) (by
        rw [Str.ofNat]
        cases hd : Nat.toDigits 10 (n / 10) with
        | nil => exact absurd hd Nat.toDigits_ne_nil
        | cons c cs => rw [hd] at h; exact h)
      omega

/-- C19: an integer literal of any magnitude that Python converts (4300 digits) is printed with the same value and
without leading zeros. -/
theorem C19_integers_keep_value (d : Str) (hne : d ≠ []) (hd : ∀ c ∈ d, c.isDigit = true) (hl : d.length ≤ 4300) :
    ∃ u, formatSql (str!"SELECT " ++ d) = .ok (str!"SELECT " ++ u) ∧ u ≠ [] ∧ (∀ c ∈ u, c.isDigit = true) ∧ value u = value d ∧
      (u.head? = some '0' → u = str!"0") := by
  refine ⟨Str.ofNat (value d), ?_, Nat.toDigits_ne_nil, ofNat_digits _, value_ofNat _, fun h => by rw [ofNat_zero _ h]; rfl⟩
  have hk : chain none [str!"SELECT", d] = true := by
    rw [chain, follows_quiet (fun c hc => ?_), Bool.true_and]
    · rfl
    · have := (digit_chars (hd c hc)).1
      simp only [isSep, Bool.or_eq_false_iff] at this
      exact this.1.1
  have hs : toTokens (str!"SELECT " ++ d) = ⟨[str!"SELECT", d], none⟩ :=
    line_tokens (l := [str!"SELECT"] ++ [d]) ((strong_simple (by decide) (by decide)).append (line_word hne fun c hc => digit_chars (hd c hc)))
      ((fine_of (by decide)).append (fine_one (soft_digits hne hd))) (by simp) ⟨none, by simp, hk⟩
  have hc : core (.select [.int (value d)] false false [] .none .none .none .none .none .none .none false) = true := by
    have h0 : ¬((value d : Int) < 0) := by omega
    have : decide ((Str.ofNat (value d)).length ≤ 4300) = true := decide_eq_true (Nat.le_trans (ofNat_value_length d hne hd) hl)
    simp [core, wf, wfList, level, levels, orNone, Node.isSelect, this, h0, oneKind, toks, toksList, Tok.word, opt, Node.truthy, chain, follows, Lex.isQuote]
  have := C11_layout _ hc (by simp [tidy, tidyList]) _ _ hs ⟨rfl, ⟨hne, List.all_eq_true.2 hd, hl, by simp⟩, trivial⟩
  exact this

/-- C19, for whole statements: where the input has a number, the formatted text has the same number. -/
theorem C19_integers_in_place (n : Node) (hc : core n = true) (ht : tidy n = true) (sql : Str) (ts : List Str)
    (hs : toTokens sql = ⟨ts, none⟩) (hr : Reads (toks n) ts) (i : Nat) (m : Nat) (hm : (toks n)[i]? = some (.num m)) :
    ∃ out us t u, formatSql sql = .ok out ∧ toTokens out = ⟨us, none⟩ ∧ ts[i]? = some t ∧ us[i]? = some u ∧ value t = value u ∧
      (u.head? = some '0' → u = str!"0") := by
  obtain ⟨h1, h2⟩ := tokens_layout (core_wf hc) (toks_ne_core hc) (core_oneKind hc)
  have at_ : ∀ {ks : List Tok} {us : List Str} {i : Nat}, Reads ks us → ks[i]? = some (.num m) → ∃ t, us[i]? = some t ∧ value t = m := by
    intro ks
    induction ks with
    | nil => intro us i _ h; simp at h
    | cons k ks ih =>
      intro us' i h hk
      rw [reads_cons] at h
      obtain ⟨t, us, rfl, h, h'⟩ := h
      cases i with
      | zero =>
        obtain rfl : k = .num m := by simpa using hk
        exact ⟨t, rfl, h.2.2.2⟩
      | succ i => exact ih (us := us) (i := i) h' (by simpa using hk)
  obtain ⟨t, h3, h4⟩ := at_ hr hm
  refine ⟨layout n, _, t, Str.ofNat m, C11_layout n hc ht sql ts hs hr, h2, h3, by simp [hm, Tok.canon], by rw [h4, value_ofNat],
    fun h => by rw [ofNat_zero _ h]; rfl⟩

end

/-! ### Concrete cases -/

/-- Non-vacuity: `demo` of `Verif/Props/Core.lean` has a literal and a number, and ends in a semicolon. -/
example : @core asciiEnv demo = true ∧ tidy demo = true ∧ (@toTokens asciiEnv demoSql).fail = none ∧
    Reads (toks demo) (@toTokens asciiEnv demoSql).toks ∧ ended demo = true ∧ literals demo = [str!"'it'"] ∧
    (toks demo).contains (.num 10) = true := by
  decide +kernel

/-- C13 is false in general: a line break in a literal is moved at every formatting. -/
theorem C13_not_all : @formatSql asciiEnv str!"SELECT a, 'x\ny'" = .ok str!"SELECT\n a,\n 'x\n y'" ∧
    @formatSql asciiEnv str!"SELECT\n a,\n 'x\n y'" = .ok str!"SELECT\n a,\n 'x\n  y'" := by
  decide +kernel

/-- C17 is false for contents with line breaks: the content is indented. -/
theorem C17_not_all : ∃ out, @formatSql asciiEnv str!"SELECT a, 'x\ny'" = .ok out ∧ ¬ str!"x\ny" <:+: out :=
  ⟨_, C13_not_all.1, by decide +kernel⟩

/-- C17 is false for contents with two escaped quotes, and `format_sql` raises on some with quotes of another kind. -/
theorem C17_quotes : @formatSql asciiEnv str!"SELECT 'a\\'b\\'c' FROM t" = .ok str!"SELECT 'a\\'b\\' c" ∧
    @formatSql asciiEnv str!"SELECT 'a', \"it's\" FROM t" = .error .value := by
  decide +kernel

/-- Literals with backslashes. -/
example : tidy demo9 = true ∧ literals demo9 = [str!"'it\\'s'", str!"'\\d+\\.\\d'", str!"\"a\\\\b\\t\""] ∧
    @formatSql asciiEnv demo9Sql =
      .ok str!"SELECT\n a,\n 'it\\'s'\nFROM t\nWHERE REGEXP_CONTAINS(b, r'\\d+\\.\\d') AND b <> \"a\\\\b\\t\"" := by
  decide +kernel

/-- Calls of functions whose names are keywords. -/
example : tidy demo11 = true ∧
    @formatSql asciiEnv demo11Sql = .ok (str!"SELECT\n a[OFFSET(0)],\n F(LEFT(b, 2)),\n REPLACE(c, 'x', 'y')\nFROM t\n" ++
      str!"WHERE TIMESTAMP_TRUNC(d, day) > e") := by
  decide +kernel

/-- Literals of one kind with other quotes inside. -/
example : tidy demo10 = true ∧ literals demo10 = [str!"'say \"hi\"'", str!"'5\" by `x'"] ∧
    @formatSql asciiEnv demo10Sql = .ok str!"SELECT\n a,\n 'say \"hi\"'\nFROM t\nWHERE b <> '5\" by `x'" := by
  decide +kernel

/-- C19 at work. -/
example : @formatSql asciiEnv str!"SELECT 000120" = .ok str!"SELECT 120" ∧ @formatSql asciiEnv str!"SELECT 000" = .ok str!"SELECT 0" := by
  decide +kernel

end SqlV
