import Verif.Lemmas.DocLex
import Verif.Lemmas.CoreSolid

/-! Reading the layout of a tree back: its tokens are a way to write the tree. -/

set_option linter.unusedSectionVars false

namespace SqlV.Core

open Lex

section

variable [E : PyEnv] [L : LawfulPyEnv E]

/-! ### Spelling -/

/-- The sequence is written `ts`, with keywords in capitals and numbers without leading zeros. -/
def Writes (ks : List Tok) (ts : List Str) : Prop := Reads ks ts ∧ ts = ks.map Tok.canon

instance (ks : List Tok) (ts : List Str) : Decidable (Writes ks ts) := inferInstanceAs (Decidable (_ ∧ _))

/-- The lines are a way to write the tokens. -/
def Lexes (d : Doc) (ks : List Tok) : Prop := ∃ l ts, Raws d l ∧ Fine l ts ∧ Writes ks ts

/-- A text that ends in a separator and is a way to write the tokens. -/
def Const (k : Str) (ks : List Tok) : Prop := ∃ l ts, Strong k l ∧ Fine l ts ∧ Writes ks ts

theorem Writes.append {a b : List Tok} {x y : List Str} (h : Writes a x) (h' : Writes b y) : Writes (a ++ b) (x ++ y) :=
  ⟨reads_append.2 ⟨x, y, rfl, h.1, h'.1⟩, by rw [h.2, h'.2, List.map_append]⟩

theorem writes_nil : Writes [] [] := ⟨trivial, rfl⟩

theorem writes_lit (s : Str) : Writes [.lit s] [s] := ⟨⟨rfl, trivial⟩, rfl⟩

theorem lexes_nil : Lexes [] [] := ⟨[], [], .nil, fine_nil, writes_nil⟩

theorem lexes_blank : Lexes [[]] [] := ⟨[], [], .one strong_nil.line, fine_nil, writes_nil⟩

theorem Lexes.append {d e : Doc} {ks ks' : List Tok} (h : Lexes d ks) (h' : Lexes e ks') : Lexes (d ++ e) (ks ++ ks') := by
  obtain ⟨l, ts, h1, h2, h3⟩ := h
  obtain ⟨l', ts', h1', h2', h3'⟩ := h'
  exact ⟨_, _, h1.append h1', h2.append h2', h3.append h3'⟩

theorem Lexes.indent {d : Doc} {ks : List Tok} (h : Lexes d ks) : Lexes (Doc.indent d) ks := by
  obtain ⟨l, ts, h1, h2, h3⟩ := h
  exact ⟨_, _, h1.indent, h2, h3⟩

theorem Const.lexes {k : Str} {ks : List Tok} (h : Const k ks) : Lexes [k] ks := by
  obtain ⟨l, ts, h1, h2, h3⟩ := h
  exact ⟨_, _, .one h1.line, h2, h3⟩

theorem Lexes.pre {e : Doc} {k : Str} {ks ks' : List Tok} (hk : Const k ks) (h : Lexes e ks') : Lexes ([k] <+> e) (ks ++ ks') := by
  obtain ⟨l, ts, h1, h2, h3⟩ := hk
  obtain ⟨l', ts', h1', h2', h3'⟩ := h
  exact ⟨_, _, .pre h1 h1', h2.append h2', h3.append h3'⟩

/-- The first character is a separator. -/
def startsSep (s : Str) : Bool := (s.head?.map isSep).getD false

theorem startsSep_spec {s : Str} (h : startsSep s = true) : Sep s ∧ s ≠ [] := by
  cases s with
  | nil => cases h
  | cons c s => exact ⟨sep_cons h, by simp⟩

theorem Lexes.beside {d e : Doc} {ks ks' : List Tok} (h : Lexes d ks) (h' : Lexes e ks') (hs : ∀ a, e.head? = some a → Sep a) :
    Lexes (d <+> e) (ks ++ ks') := by
  obtain ⟨l, ts, h1, h2, h3⟩ := h
  obtain ⟨l', ts', h1', h2', h3'⟩ := h'
  exact ⟨_, _, h1.beside h1' hs, h2.append h2', h3.append h3'⟩

theorem Lexes.post {d : Doc} {k : Str} {ks ks' : List Tok} (h : Lexes d ks) (hk : Lexes [k] ks') (hs : startsSep k = true) :
    Lexes (d <+> [k]) (ks ++ ks') :=
  h.beside hk fun a ha => by simp at ha; exact ha ▸ (startsSep_spec hs).1

theorem Lexes.mid {d e : Doc} {k : Str} {ks kk ks' : List Tok} (h : Lexes d ks) (hk : Const k kk) (hs : startsSep k = true)
    (h' : Lexes e ks') : Lexes (d <+> [k] <+> e) (ks ++ kk ++ ks') := by
  obtain ⟨l, ts, h1, h2, h3⟩ := h
  obtain ⟨m, us, g1, g2, g3⟩ := hk
  obtain ⟨l', ts', h1', h2', h3'⟩ := h'
  exact ⟨_, _, h1.mid g1 (startsSep_spec hs).1 (startsSep_spec hs).2 h1', (h2.append g2).append h2', (h3.append g3).append h3'⟩

theorem Fine.ne_nil {l ts : List Str} {ks : List Tok} (h : Fine l ts) (hr : Writes ks ts) (hk : ks ≠ []) : l ≠ [] := by
  rintro rfl
  have : ts = [] := h.ops.symm
  subst this
  cases ks with
  | nil => exact hk rfl
  | cons => exact hr.1

/-- Constant operators between two operands. -/
def opOk (k : Str) (kk : List Tok) : Bool :=
  simpleText k && endsSep k && startsSep k && noClash (textWords [] k) && (textWords [] k).all (fun a => !a.isEmpty) &&
    decide (Writes kk (operate (textWords [] k)))

theorem Lexes.op {d e : Doc} {k : Str} {ks kk ks' : List Tok} (h : Lexes d ks) (hk : opOk k kk = true) (h' : Lexes e ks')
    (hn : ks ≠ []) (hn' : ks' ≠ []) : Lexes (d <+> [k] <+> e) (ks ++ kk ++ ks') := by
  obtain ⟨l, ts, h1, h2, h3⟩ := h
  obtain ⟨l', ts', h1', h2', h3'⟩ := h'
  simp only [opOk, Bool.and_eq_true, decide_eq_true_eq] at hk
  obtain ⟨⟨⟨⟨⟨k1, k2⟩, k3⟩, k4⟩, k5⟩, k6⟩ := hk
  refine ⟨_, _, h1.mid (strong_simple k1 k2) (startsSep_spec k3).1 (startsSep_spec k3).2 h1',
    h2.around h2' (h2'.ne_nil h3' hn') rfl k4 (fun a ha => ?_) (h2.ne_nil h3 hn), (h3.append k6).append h3'⟩
  have := List.all_eq_true.1 k5 a ha
  rintro rfl
  cases this

/-- The check of `Fine`. -/
def fineOk (l : List Str) : Bool :=
  noClash l && (l.getLast?.map fun a => !opens a).getD true && (l.head?.map soft).getD true && l.all (fun a => !a.isEmpty)

theorem fine_of {l : List Str} (h : fineOk l = true) : Fine l (operate l) := by
  simp only [fineOk, Bool.and_eq_true] at h
  obtain ⟨⟨⟨h1, h2⟩, h3⟩, h4⟩ := h
  refine ⟨rfl, h1, fun a ha => ?_, fun a ha => ?_, fun a ha => ?_⟩
  · rw [ha] at h2
    simpa using h2
  · rw [ha] at h3
    simpa using h3
  · have := List.all_eq_true.1 h4 a ha
    rintro rfl
    cases this

/-- The check of constant texts. -/
def lineOk (k : Str) (ks : List Tok) : Bool :=
  simpleText k && fineOk (textWords [] k) && decide (Writes ks (operate (textWords [] k)))

theorem lexes_line {k : Str} {ks : List Tok} (h : lineOk k ks = true) : Lexes [k] ks := by
  simp only [lineOk, Bool.and_eq_true, decide_eq_true_eq] at h
  exact ⟨_, _, .one (line_simple h.1.1), fine_of h.1.2, h.2⟩

/-- The check of constant texts that end in a separator. -/
def constOk (k : Str) (ks : List Tok) : Bool := lineOk k ks && endsSep k

theorem const {k : Str} {ks : List Tok} (h : constOk k ks = true) : Const k ks := by
  simp only [constOk, lineOk, Bool.and_eq_true, decide_eq_true_eq] at h
  exact ⟨_, _, strong_simple h.1.1.1 h.2, fine_of h.1.1.2, h.1.2⟩

/-- A word and a separator. -/
theorem Lexes.const {w k : Str} {ks kk : List Tok} {l ts : List Str} (h : Line w l) (hf : Fine l ts) (hr : Writes ks ts)
    (hk : Const k kk) (hs : startsSep k = true) : Const (w ++ k) (ks ++ kk) := by
  obtain ⟨m, us, g1, g2, g3⟩ := hk
  exact ⟨_, _, h.strong g1 (startsSep_spec hs).1 (startsSep_spec hs).2, hf.append g2, hr.append g3⟩

/-! ### Words -/

theorem ident_chars {s : Str} (h : ident s = true) : s ≠ [] ∧ (∀ c ∈ s, isSep c = false ∧ c ≠ '.' ∧ c ≠ '\\') ∧ soft s = true ∧
    isDigits s = false := by
  simp only [ident, Bool.and_eq_true, Bool.not_eq_true', decide_eq_true_eq] at h
  obtain ⟨⟨⟨⟨⟨h1, h2⟩, h3⟩, h4⟩, h6⟩, h7⟩ := h
  have hc : ∀ c ∈ s, isSep c = false ∧ c ≠ '.' ∧ c ≠ '\\' := by
    intro c hc
    have := List.all_eq_true.1 h2 c hc
    simp only [Bool.and_eq_true, Bool.not_eq_true', decide_eq_true_eq] at this
    obtain ⟨⟨⟨⟨a, b⟩, d⟩, e⟩, f⟩ := this
    exact ⟨by rw [isSep, a, b, d]; rfl, e, f⟩
  refine ⟨?_, hc, ?_, h3⟩
  · rintro rfl
    cases h1
  · rw [soft, h6, Bool.not_false, Bool.true_and, decide_eq_true_eq]
    rintro rfl
    exact absurd (hc '=' (by simp)).1 (by decide)

theorem line_ident {s : Str} (h : ident s = true) : Line s [s] := line_word (ident_chars h).1 (ident_chars h).2.1

theorem lexes_ident {s : Str} (h : ident s = true) : Lexes [s] [.lit s] :=
  ⟨_, _, .one (line_ident h), fine_one (ident_chars h).2.2.1, writes_lit s⟩

/-- What holds for the 128 characters of ASCII. -/
theorem ascii_all {P : Char → Bool} (h : (List.range 128).all (fun n => P (Char.ofNat n)) = true) {c : Char}
    (hc : isAscii c = true) : P c = true := by
  have hn : c.toNat < 128 := by simpa [isAscii] using hc
  have := List.all_eq_true.1 h c.toNat (List.mem_range.2 hn)
  rwa [Char.ofNat_toNat] at this

theorem ascii_upper {c : Char} (hc : isAscii c = true) : c.toUpper.toLower = c.toLower ∧
    ((isSep c = false ∧ c ≠ '.' ∧ c ≠ '\\') → (isSep c.toUpper = false ∧ c.toUpper ≠ '.' ∧ c.toUpper ≠ '\\')) := by
  have := ascii_all (P := fun c => decide (c.toUpper.toLower = c.toLower ∧
    ((isSep c = false ∧ c ≠ '.' ∧ c ≠ '\\') → (isSep c.toUpper = false ∧ c.toUpper ≠ '.' ∧ c.toUpper ≠ '\\'))))
    (by decide +kernel) hc
  simpa only [decide_eq_true_eq] using this

theorem caps_back {s : Str} (h : s.all isAscii = true) (hl : s.map Char.toLower = s) : (caps s).map Char.toLower = s := by
  rw [caps, List.map_map]
  conv => rhs; rw [← hl]
  exact List.map_congr_left fun c hc => (ascii_upper (List.all_eq_true.1 h c hc)).1

theorem fname_caps {s : Str} (h : fname s = true) : Line (caps s) [caps s] ∧ Fine [caps s] [caps s] ∧ Writes [.kw s] [caps s] := by
  simp only [fname, Bool.and_eq_true, decide_eq_true_eq] at h
  obtain ⟨⟨h1, h2⟩, h3⟩ := h
  obtain ⟨i1, i2, i3, -⟩ := ident_chars h1
  have hb := caps_back h2 h3
  refine ⟨line_word (by rw [caps]; simpa using i1) fun c hc => ?_, fine_one ?_, ⟨hb, trivial⟩, rfl⟩
  · obtain ⟨d, hd, rfl⟩ := List.mem_map.1 hc
    exact (ascii_upper (List.all_eq_true.1 h2 d hd)).2 (i2 d hd)
  · cases hsoft : soft (caps s) with
    | true => rfl
    | false =>
      exfalso
      have key : ∀ x : Str, soft x = false → soft (x.map Char.toLower) = false := by
        intro x hx
        have : x ∈ (str!"=" :: operators.flatMap fun o => [o.take 0, o.take 1, o.take 2]) := by
          simp only [soft, Bool.and_eq_false_iff, Bool.not_eq_false', decide_eq_false_iff_not, Classical.not_not] at hx
          rcases hx with hx | hx
          · simp only [opens, List.any_eq_true] at hx
            obtain ⟨o, ho, hx⟩ := hx
            refine List.mem_cons_of_mem _ (List.mem_flatMap.2 ⟨o, ho, ?_⟩)
            have hp := List.isPrefixOf_iff_prefix.1 hx
            have hlen : ∀ o ∈ operators, o.length = 2 := by decide
            have h1 := hp.length_le
            rw [hlen o ho] at h1
            rw [List.prefix_iff_eq_take.1 hp]
            generalize x.length = k at *
            match k, h1 with
            | 0, _ => simp
            | 1, _ => simp
            | 2, _ => simp
          · rw [hx]; simp
        exact (by decide : ∀ x ∈ (str!"=" :: operators.flatMap fun o => [o.take 0, o.take 1, o.take 2]),
          soft (x.map Char.toLower) = false) x this
      have := key _ hsoft
      rw [hb, i3] at this
      cases this

theorem lexes_caps {s : Str} (h : fname s = true) : Lexes [caps s] [.kw s] :=
  let ⟨h1, h2, h3⟩ := fname_caps h
  ⟨_, _, .one h1, h2, h3⟩

theorem const_call {s : Str} (h : cname s = true) : Const (caps s ++ str!"(") [.kw s, .lit str!"("] := by
  rcases cname_or h with h | h
  rotate_left
  · exact const ((by decide : ∀ w ∈ outerCalls ++ innerCalls, constOk (caps w ++ str!"(") [.kw w, .lit str!"("] = true) s h)
  obtain ⟨h1, h2, h3⟩ := fname_caps h
  exact Lexes.const h1 h2 h3 (const (by decide : constOk str!"(" [.lit str!"("] = true)) (by decide)

/-! ### Numbers -/

theorem value_ofNat (n : Nat) : value (Str.ofNat n) = n := Nat.ofDigitChars_ten_toDigits

theorem digit_chars {c : Char} (h : c.isDigit = true) : isSep c = false ∧ c ≠ '.' ∧ c ≠ '\\' := by
  have ha : isAscii c = true := by
    simp only [Char.isDigit, Bool.and_eq_true, decide_eq_true_eq] at h
    have h2 : c.val.toNat ≤ 57 := UInt32.le_iff_toNat_le.1 h.2
    simp only [isAscii, decide_eq_true_eq]
    show c.val.toNat < 128
    omega
  have := ascii_all (P := fun c => !c.isDigit || decide (isSep c = false ∧ c ≠ '.' ∧ c ≠ '\\')) (by decide +kernel) ha
  rw [h] at this
  simpa only [Bool.not_true, Bool.false_or, decide_eq_true_eq] using this

theorem soft_digit {c : Char} {s : Str} (hc : c.isDigit = true) : soft (c :: s) = true := by
  cases hs : soft (c :: s) with
  | true => rfl
  | false =>
    exfalso
    simp only [soft, Bool.and_eq_false_iff, Bool.not_eq_false', decide_eq_false_iff_not, Classical.not_not] at hs
    rcases hs with hs | hs
    · simp only [opens, List.any_eq_true] at hs
      obtain ⟨o, ho, hs⟩ := hs
      have key : ∀ o ∈ operators, ∀ d ∈ o.head?, d.isDigit = false := by decide
      obtain ⟨r, hr⟩ := List.isPrefixOf_iff_prefix.1 hs
      have := key o ho c (by rw [← hr]; simp)
      rw [hc] at this
      cases this
    · cases hs
      exact absurd hc (by decide)

theorem soft_digits {s : Str} (hne : s ≠ []) (h : ∀ c ∈ s, c.isDigit = true) : soft s = true := by
  cases s with
  | nil => exact absurd rfl hne
  | cons c s => exact soft_digit (h c (by simp))

theorem lexes_nat {n : Nat} (h : (Str.ofNat n).length ≤ 4300) : Line (Str.ofNat n) [Str.ofNat n] ∧
    Fine [Str.ofNat n] [Str.ofNat n] ∧ Writes [.num n] [Str.ofNat n] := by
  have hne : Str.ofNat n ≠ [] := Nat.toDigits_ne_nil
  refine ⟨line_word hne fun c hc => digit_chars (ofNat_digits n c hc), fine_one (soft_digits hne (ofNat_digits n)),
    ⟨⟨hne, List.all_eq_true.2 (ofNat_digits n), h, value_ofNat n⟩, trivial⟩, rfl⟩

theorem lexes_int {i : Int} (h : (Str.ofNat i.natAbs).length ≤ 4300) : Lexes [Str.ofInt i] (toks (.int i)) := by
  obtain ⟨h1, h2, h3⟩ := lexes_nat h
  cases i with
  | ofNat n => exact ⟨_, _, .one h1, h2, h3⟩
  | negSucc n =>
    have hm : Const str!"-" [.lit str!"-"] := const (by decide)
    rw [toks, decide_eq_true (Int.negSucc_lt_zero n)]
    exact Lexes.pre hm (⟨_, _, .one h1, h2, h3⟩ : Lexes [Str.ofNat (n + 1)] [.num (n + 1)])

/-! ### Literals -/

theorem content_not_quote {q : Str} {c : Char} (hc : isQuote c = true) : ¬content q [c] = true := by
  intro h
  have hl : lower [c] = [c] := by
    simp only [isQuote, Bool.or_eq_true, decide_eq_true_eq] at hc
    rcases hc with (rfl | rfl) | rfl <;> exact lower_self (by decide) (by decide)
  simp only [content, Bool.and_eq_true, decide_eq_true_eq, hl] at h
  apply h.2
  simp only [isQuote, Bool.or_eq_true, decide_eq_true_eq] at hc
  rcases hc with (rfl | rfl) | rfl <;> decide

theorem content_inside {v q : Str} (hv : content q v = true) : inside q false false v = true := by
  simp only [content, Bool.and_eq_true] at hv
  exact hv.1.1.2

theorem quote_char {q : Str} (h : q ∈ quotes) : ∃ c, q = [c] ∧ isQuote c = true := by
  have : ∀ q ∈ quotes, (match q with | [c] => isQuote c | _ => false) = true := by decide
  have := this q h
  match q, this with
  | [c], h => exact ⟨c, rfl, h⟩

theorem go_inside {c : Char} (hc : isQuote c = true) (v d : Str) : ∀ (w : Str) (u : Bool), inside [c] (endsEsc w) u v = true →
    go (.lit c w) (v ++ c :: d) = tok (w ++ v) ++ [c] :: raw d := by
  induction v with
  | nil =>
    intro w u h
    have he : endsEsc w = false := by simpa [inside] using h
    simp [go, raw, he]
  | cons x xs ih =>
    intro w u h
    rw [inside] at h
    rw [List.cons_append, go]
    by_cases hx : x = c
    · subst hx
      rw [if_pos rfl, Bool.and_eq_true, Bool.and_eq_true] at h
      rw [if_neg (by simp [h.1.1])]
      have key : inside [x] (endsEsc (w ++ [x])) true xs = true := by
        rw [endsEsc_snoc, decide_eq_false (not_backslash_of_quote hc)]
        exact h.2
      rw [ih _ _ key]
      simp
    · rw [if_neg (by simpa using hx)] at h
      rw [if_neg (by simp [hx]), ih (w ++ [x]) u (by rw [endsEsc_snoc]; exact h)]
      simp

/-- A literal after a run. -/
theorem go_literal {q : Char} {v : Str} (hq : isQuote q = true) (h : content [q] v = true) (u rest : Str) :
    go (.out u) (([q] ++ v ++ [q]) ++ rest) = chunk u ++ ([[q]] ++ tok v ++ [[q]]) ++ go (.out []) rest := by
  rw [show ([q] ++ v ++ [q]) ++ rest = q :: (v ++ q :: rest) by simp, go_cons_quote hq,
    go_inside hq v rest [] false (content_inside h)]
  simp [raw]

theorem plain_literal {c : Char} {only : Option Char} (v rest : Str) (hf : only = none → ∀ x ∈ v, x = c ∨ isQuote x = false) :
    ∀ (e u : Bool), inside [c] e u v = true → plainBy only (.lit c e u) (v ++ c :: rest) = plainBy only .out rest := by
  induction v with
  | nil =>
    intro e u h
    have he : e = false := by simpa [inside] using h
    rw [List.nil_append, plainBy, if_pos rfl, he, if_neg Bool.false_ne_true]
  | cons x xs ih =>
    intro e u h
    rw [inside] at h
    rw [List.cons_append, plainBy]
    have ih := ih fun h y hy => hf h y (by simp [hy])
    by_cases hx : x = c
    · subst hx
      rw [if_pos rfl, Bool.and_eq_true, Bool.and_eq_true] at h
      rw [if_pos rfl, if_pos h.1.1, h.1.2, ih _ _ h.2]
      rfl
    · rw [if_neg (by simpa using hx)] at h
      have hb : (only != none || !isQuote x) = true := by
        cases only with
        | some => rfl
        | none => simp [((hf rfl x (by simp)).resolve_left hx)]
      rw [if_neg hx, hb, ih _ _ h, Bool.true_and]

theorem plain_quoted {q : Char} {v : Str} (hq : isQuote q = true) (h : content [q] v = true) (only : Option Char)
    (hf : chain only ([[q]] ++ tok v ++ [[q]]) = true) (rest : Str) :
    plainBy only .out (([q] ++ v ++ [q]) ++ rest) = plainBy only .out rest := by
  have key : (only = none ∨ only = some q) ∧ (v ≠ [] → follows only [q] v = true) := by
    have hlast : ∀ a, follows only a [q] = true → only = none ∨ only = some q := by
      intro a ha
      cases only with
      | none => exact .inl rfl
      | some c => right; simpa [follows, hq, eq_comm] using ha
    cases v with
    | nil =>
      simp only [tok, List.append_nil, List.cons_append, List.nil_append, chain, Bool.and_eq_true] at hf
      exact ⟨hlast _ hf.1, fun h => absurd rfl h⟩
    | cons c v =>
      simp only [tok, List.cons_append, List.nil_append, chain, Bool.and_eq_true] at hf
      exact ⟨hlast _ hf.2.1, fun _ => hf.1⟩
  have hq' : (only == none || only == some q) = true := by
    rcases key.1 with rfl | rfl <;> simp
  rw [show ([q] ++ v ++ [q]) ++ rest = q :: (v ++ q :: rest) by simp, plainBy, if_pos hq, hq', Bool.true_and,
    plain_literal v rest (fun h0 x hx => ?_) _ _ (content_inside h)]
  subst h0
  have hf := key.2 (by rintro rfl; simp at hx)
  rw [follows, List.all_eq_true] at hf
  have hx' := hf x hx
  cases hc : isQuote x with
  | false => exact .inr rfl
  | true =>
    left
    simp only [hc, Bool.not_true, Bool.false_or, Bool.or_eq_true, decide_eq_true_eq] at hx'
    rcases hx' with hl | he
    · match v, hl, hx, h with
      | [c], _, hx, h =>
        rw [List.mem_singleton] at hx
        subst hx
        exact absurd h (content_not_quote hc)
    · injection he with he
      exact he.symm

theorem quote_bound {c : Char} (h : isQuote c = true) (a : Str) : a ++ [c] ∉ operators ∧ [c] ++ a ∉ operators ∧ opens [c] = false := by
  have key : ∀ o ∈ operators, ∀ d ∈ o, isQuote d = false := by decide
  refine ⟨fun hm => ?_, fun hm => ?_, ?_⟩
  · have := key _ hm c (by simp)
    rw [h] at this; cases this
  · have := key _ hm c (by simp)
    rw [h] at this; cases this
  · cases ho : opens [c] with
    | false => rfl
    | true =>
      simp only [opens, List.any_eq_true] at ho
      obtain ⟨o, hm, hp⟩ := ho
      obtain ⟨r, hr⟩ := List.isPrefixOf_iff_prefix.1 hp
      have := key _ hm c (by rw [← hr]; simp)
      rw [h] at this; cases this

theorem fine_literal {c : Char} (h : isQuote c = true) (v : Str) : Fine ([[c]] ++ tok v ++ [[c]]) ([[c]] ++ tok v ++ [[c]]) := by
  have hs : soft [c] = true := by
    rw [soft, (quote_bound h []).2.2, Bool.not_false, Bool.true_and, decide_eq_true_eq]
    rintro h'
    cases h'
    exact absurd h (by decide)
  have hf := fine_one hs
  cases v with
  | nil => exact hf.append hf
  | cons x xs =>
    exact hf.around hf (by simp) rfl rfl (by simp [tok]) (by simp)

theorem reads_literal {c : Char} (v : Str) : Writes (toks (.string v [c] none)) ([[c]] ++ tok v ++ [[c]]) := by
  cases v with
  | nil => exact ⟨⟨rfl, rfl, trivial⟩, rfl⟩
  | cons x xs => exact ⟨⟨rfl, rfl, rfl, trivial⟩, rfl⟩

/-! ### Dotted paths -/

theorem cutDots_split (u v : Str) (h : u = [] ∨ u.getLast? = some '.') : cutDots [] (u ++ v) = cutDots [] u ++ cutDots [] v := by
  have : ∀ (u w : Str), u.getLast? = some '.' → cutDots w (u ++ v) = cutDots w u ++ cutDots [] v := by
    intro u
    induction u with
    | nil => intro w h; simp at h
    | cons c u ih =>
      intro w h
      by_cases hu : u = []
      · subst hu
        simp only [List.getLast?_singleton, Option.some.injEq] at h
        subst h
        simp [cutDots, tok]
      · have h' : u.getLast? = some '.' := by
          rw [← h]
          cases u with
          | nil => exact absurd rfl hu
          | cons x xs => rw [List.getLast?_cons_cons]
        rw [List.cons_append, cutDots, cutDots]
        split
        · rw [ih _ h']; simp
        · exact ih _ h'
  rcases h with rfl | h
  · simp [cutDots, tok]
  · exact this u [] h

theorem chunk_word {u v w : Str} (h : isDigits v = false) (hne : v ≠ []) (hd : '.' ∉ v) : chunk (u ++ v ++ w) = cutDots [] (u ++ v ++ w) := by
  rw [chunk, if_neg]
  rintro ⟨-, hh⟩
  rw [isDottedDigits, isDigits, Bool.and_eq_true] at hh
  have : isDigits v = true := by
    rw [isDigits, Bool.and_eq_true]
    refine ⟨by cases v with | nil => exact absurd rfl hne | cons => rfl, List.all_eq_true.2 fun c hc => ?_⟩
    refine List.all_eq_true.1 hh.2 c (List.mem_filter.2 ⟨by simp [hc], ?_⟩)
    rw [decide_eq_true_eq]
    rintro rfl
    exact hd hc
  rw [h] at this
  cases this

/-- A run in front of a part of a path. -/
def Dotted (u : Str) : Prop := (u = [] ∨ u.getLast? = some '.') ∧ chunk u = cutDots [] u

theorem dotted_nil : Dotted [] := ⟨.inl rfl, by rw [chunk_nil]; rfl⟩

theorem dotted_dot : Dotted str!"." := ⟨.inr rfl, by
  rw [chunk, if_neg]
  rintro ⟨-, h⟩
  exact absurd h (by simp [isDottedDigits, isDigits])⟩

theorem ident_dot {v : Str} (h : ident v = true) : '.' ∉ v := fun hm => ((ident_chars h).2.1 _ hm).2.1 rfl

theorem ident_cut {v : Str} (h : ident v = true) : cutDots [] v = [v] := by
  rw [cutDots_of_not_mem _ (ident_dot h)]
  cases v with
  | nil => exact absurd rfl (ident_chars h).1
  | cons => rfl

theorem fine_dot : Fine [str!"."] [str!"."] := fine_one (by decide)

/-- A run of names and dots in front of a part of a path. -/
structure Run (u : Str) (ks : List Tok) : Prop where
  dotted : Dotted u
  chars : ∀ c ∈ u, isSep c = false ∧ c ≠ '\\'
  fine : Fine (cutDots [] u) (cutDots [] u)
  writes : Writes ks (cutDots [] u)

theorem run_nil : Run [] [] := ⟨dotted_nil, by simp, fine_nil, writes_nil⟩

theorem run_dot : Run str!"." [.lit str!"."] := ⟨dotted_dot, by decide, fine_dot, writes_lit _⟩

theorem Run.word {u v : Str} {ks : List Tok} (h : Run u ks) (hv : ident v = true) : Run (u ++ v ++ str!".") (ks ++ [.lit v, .lit str!"."]) := by
  obtain ⟨i1, i2, i3, i4⟩ := ident_chars hv
  have e : cutDots [] (u ++ v ++ str!".") = cutDots [] u ++ ([v] ++ [str!"."]) := by
    rw [List.append_assoc u, cutDots_split _ _ h.dotted.1, cutDots_dot _ _ (ident_dot hv)]
    cases v with
    | nil => exact absurd rfl i1
    | cons => rfl
  refine ⟨⟨.inr (by simp), chunk_word i4 i1 (ident_dot hv)⟩, fun c hc => ?_, ?_, ?_⟩
  · rcases List.mem_append.1 hc with hc | hc
    · rcases List.mem_append.1 hc with hc | hc
      · exact h.chars c hc
      · exact ⟨(i2 c hc).1, (i2 c hc).2.2⟩
    · simp only [List.mem_singleton] at hc
      subst hc
      decide
  · rw [e]
    exact h.fine.append ((fine_one i3).append fine_dot)
  · rw [e]
    exact h.writes.append ((writes_lit v).append (writes_lit _))

theorem Run.go {u : Str} {ks : List Tok} (h : Run u ks) (s : Str) : Lex.go (.out []) (u ++ s) = Lex.go (.out u) s := by
  rw [go_word _ _ _ fun c hc => (h.chars c hc).1, List.nil_append]

theorem Run.plain {u : Str} {ks : List Tok} (h : Run u ks) (only : Option Char) (s : Str) : plainBy only .out (u ++ s) = plainBy only .out s :=
  plain_word only u s fun c hc => by
    have := h.chars c hc
    simp only [isSep, Bool.or_eq_false_iff] at this
    exact ⟨this.1.1.1, this.2⟩

/-- A run and a name. -/
theorem run_name {u v : Str} {ks : List Tok} (h : Run u ks) (hv : ident v = true) :
    Line (u ++ v) (cutDots [] u ++ [v]) ∧ Fine (cutDots [] u ++ [v]) (cutDots [] u ++ [v]) ∧ Writes (ks ++ [.lit v]) (cutDots [] u ++ [v]) := by
  obtain ⟨i1, i2, i3, i4⟩ := ident_chars hv
  refine ⟨⟨fun rest hr => ?_, fun only hf rest => ?_⟩, h.fine.append (fine_one i3), h.writes.append (writes_lit v)⟩
  · have hc := chunk_word (u := u) (w := []) i4 i1 (ident_dot hv)
    rw [List.append_nil] at hc
    rw [List.append_assoc, h.go, go_word _ _ _ fun c hc => (i2 c hc).1, go_sep _ _ hr, hc, cutDots_split _ _ h.dotted.1, ident_cut hv]
  · rw [List.append_assoc, h.plain, (line_ident hv).plain only rfl]

/-- A run and `*`. -/
theorem run_star {u : Str} {ks : List Tok} (h : Run u ks) : Const (u ++ str!"*") (ks ++ [.lit str!"*"]) := by
  refine ⟨cutDots [] u ++ [str!"*"], _, ⟨fun rest => ?_, fun only hf rest => ?_⟩, h.fine.append (fine_one (by decide)), h.writes.append (writes_lit _)⟩
  · rw [List.append_assoc, h.go, List.singleton_append, Lex.go]
    simp [isQuote, isBlank, isPunct, h.dotted.2]
  · rw [List.append_assoc, h.plain, (strong_punct (by decide)).plain only rfl]

/-- A run and a literal. -/
theorem run_literal {u v q : Str} {ks : List Tok} (h : Run u ks) (hw : wf (.string v q none) = true) :
    Const (u ++ (q ++ v ++ q)) (ks ++ toks (.string v q none)) := by
  simp only [wf, Bool.and_eq_true, decide_eq_true_eq] at hw
  obtain ⟨c, rfl, hc⟩ := quote_char hw.1.2
  refine ⟨cutDots [] u ++ ([[c]] ++ tok v ++ [[c]]), _, ⟨fun rest => ?_, fun only hf rest => ?_⟩, h.fine.append (fine_literal hc v),
    h.writes.append (reads_literal v)⟩
  · rw [List.append_assoc, h.go, go_literal hc hw.2, h.dotted.2]
  · rw [List.append_assoc, h.plain, plain_quoted hc hw.2 only (chain_append hf).2]

/-- A literal with a prefix. -/
theorem lexes_raw {v q p : Str} (hw : wf (.string v q (some p)) = true) :
    Lexes [p ++ q ++ v ++ q] (toks (.string v q (some p))) := by
  simp only [wf, Bool.and_eq_true, decide_eq_true_eq] at hw
  obtain ⟨c, rfl, hc⟩ := quote_char hw.1.2
  have key : ∀ p ∈ [str!"r", str!"R"], p ≠ [] ∧ (∀ x ∈ p, isSep x = false ∧ x ≠ '.' ∧ x ≠ '\\') ∧ soft p = true := by decide
  obtain ⟨p1, p2, p3⟩ := key p hw.1.1
  have hd : '.' ∉ p := fun hm => (p2 _ hm).2.1 rfl
  have hch : chunk p = [p] := by
    rw [tok_chunk hd]
    cases p with
    | nil => exact absurd rfl p1
    | cons => rfl
  refine Const.lexes ⟨[p] ++ ([[c]] ++ tok v ++ [[c]]), _, ⟨fun rest => ?_, fun only hf rest => ?_⟩, (fine_one p3).append (fine_literal hc v),
    (writes_lit p).append (reads_literal v)⟩
  · rw [show p ++ [c] ++ v ++ [c] ++ rest = p ++ (([c] ++ v ++ [c]) ++ rest) by simp, go_word _ _ _ fun c hc => (p2 c hc).1,
      List.nil_append, go_literal hc hw.2, hch]
  · rw [show p ++ [c] ++ v ++ [c] ++ rest = p ++ (([c] ++ v ++ [c]) ++ rest) by simp,
      (line_word p1 p2).plain only rfl, plain_quoted hc hw.2 only (chain_append hf).2]

/-- A number with a dot. -/
theorem lexes_decimal {s : Str} (h : isDecimal s = true) : Lexes [s] [.lit s] := by
  obtain ⟨h1, -, -, h2⟩ := decimal_lower h
  have hc : ∀ c ∈ s, isSep c = false ∧ c ≠ '\\' := by
    intro c hm
    rcases h2 c hm with h | rfl
    · exact ⟨(digit_chars h).1, (digit_chars h).2.2⟩
    · decide
  obtain ⟨-, hdd⟩ := decimal_digits h
  have hdot : '.' ∈ s := by
    simp only [isDecimal, Bool.and_eq_true, decide_eq_true_eq] at h
    exact List.count_pos_iff.1 (by omega)
  refine ⟨_, _, .one (l := [s]) ⟨fun rest hr => ?_, fun only _ rest => plain_word only s rest fun c hm => ?_⟩, fine_one ?_, writes_lit s⟩
  · rw [go_word _ _ _ fun c hm => (hc c hm).1, List.nil_append, go_sep _ _ hr, chunk, if_pos ⟨hdot, hdd⟩]
  · have := hc c hm
    simp only [isSep, Bool.or_eq_false_iff] at this
    exact ⟨this.1.1.1, this.2⟩
  · simp only [isDecimal, Bool.and_eq_true, decide_eq_true_eq] at h
    cases s with
    | nil => exact absurd rfl h1
    | cons c s =>
      have : c.isDigit = true := by
        rcases h2 c (by simp) with h' | rfl
        · exact h'
        · exact absurd rfl h.1.2
      exact soft_digit this

theorem line_beside {a b : Str} {d : Doc} : [a] <+> ([b] <+> d) = [a ++ b] <+> d := by
  cases d with
  | nil => rfl
  | cons x xs => simp [beside_single]

theorem beside_assoc {a b c : Doc} (hb : b ≠ []) : (a <+> b) <+> c = a <+> (b <+> c) := by
  induction a with
  | nil => cases b <;> rfl
  | cons x xs ih =>
    by_cases hx : xs = []
    · subst hx
      cases b with
      | nil => exact absurd rfl hb
      | cons y ys =>
        rw [beside_single]
        by_cases hy : ys = []
        · subst hy
          rw [line_beside]
        · rw [beside_cons hy, beside_cons hy, beside_single]
    · rw [beside_cons hx, beside_cons (beside_ne hx), beside_cons hx, ih]

/-- A path after any run. -/
def ChainLex (m : Node) : Prop := ∀ u ks, Run u ks → Lexes ([u] <+> lay m .plain) (ks ++ toks m)

theorem chain_column {v : Str} (hw : wf (.column v) = true) : ChainLex (.column v) := by
  intro u ks h
  simp only [wf, Bool.or_eq_true, decide_eq_true_eq] at hw
  rcases hw with hv | rfl
  · obtain ⟨h1, h2, h3⟩ := run_name h hv
    exact ⟨_, _, .one h1, h2, h3⟩
  · exact (run_star h).lexes

theorem chain_string {v q : Str} (hw : wf (.string v q none) = true) : ChainLex (.string v q none) :=
  fun _ _ h => (run_literal h hw).lexes

/-- An index; `x` stands for the elements. -/
theorem chain_index {u v : Str} {ks kx : List Tok} {x : Doc} (h : Run u ks) (hv : ident v = true) (hx : Lexes x kx) :
    Lexes ([u ++ v ++ str!"["] <+> x) (ks ++ .lit v :: .lit str!"[" :: kx) := by
  obtain ⟨h1, h2, h3⟩ := run_name h hv
  have := Lexes.pre (Lexes.const h1 h2 h3 (const (by decide : constOk str!"[" [.lit str!"["] = true)) (by decide)) hx
  rwa [show ks ++ .lit v :: .lit str!"[" :: kx = ks ++ [.lit v] ++ [.lit str!"["] ++ kx by simp]

end

end SqlV.Core
