import Verif.Lemmas.CoreExpr

/-! Parsing the atoms of the core grammar. -/

set_option linter.unusedSectionVars false

namespace SqlV.Core

open Scan

variable [E : PyEnv]

theorem toLower_punct {c d : Char} (h : c.toLower = d) (hd : d.val.toNat < 65) : c = d := by
  unfold Char.toLower at h
  split at h
  · rename_i hc
    exfalso
    have h2 : c.val.toNat ≤ 90 := UInt32.le_iff_toNat_le.1 hc.2
    have h3 : 65 ≤ c.val.toNat := UInt32.le_iff_toNat_le.1 hc.1
    rw [← h] at hd
    have : (c.val + ('a'.val - 'A'.val)).toNat = c.val.toNat + 32 := by
      rw [UInt32.toNat_add]
      have : ('a'.val - 'A'.val).toNat = 32 := by decide
      rw [this]
      omega
    have e : (c.val + ('a'.val - 'A'.val)).toNat < 65 := hd
    omega
  · exact h

/-- A token that is a single punctuation mark, whatever it stands for. -/
theorem word_punct {k : Tok} {t : Str} {d : Char} (h : k.reads t) (hd : d.val.toNat < 48) :
    t = [d] ↔ k.word = [d] := by
  cases k with
  | kw w =>
    rw [reads_kw] at h
    subst h
    constructor
    · rintro rfl
      simp only [Tok.word, List.map_cons, List.map_nil]
      congr 1
      unfold Char.toLower
      split
      · rename_i hc
        have h3 : 65 ≤ d.val.toNat := UInt32.le_iff_toNat_le.1 hc.1
        omega
      · rfl
    · intro h
      simp only [Tok.word] at h
      match t, h with
      | [c], h =>
        simp only [List.map_cons, List.map_nil, List.cons.injEq, and_true] at h
        rw [toLower_punct h (by omega)]
  | lit s => rw [reads_lit] at h; subst h; rfl
  | num n =>
    obtain ⟨h1, h2, -⟩ := h
    constructor
    · rintro rfl
      simp only [List.all_cons, List.all_nil, Bool.and_true, Char.isDigit, Bool.and_eq_true,
        decide_eq_true_eq] at h2
      have h3 : 48 ≤ d.val.toNat := UInt32.le_iff_toNat_le.1 h2.1
      omega
    · intro h
      simp only [Tok.word, List.cons.injEq, and_true] at h
      rw [← h] at hd
      exact absurd hd (by decide)

theorem step_paren (d : ListState) (t : Str) : (d.step t).paren =
    if t = str!"(" then d.paren + 1 else if t = str!")" then d.paren - 1 else d.paren := by
  unfold ListState.step
  repeat' split
  all_goals rfl

theorem noSplit_of_commaFree {ks : List Tok} {ts : List Str} (hr : Reads ks ts) {d : ListState}
    (h : commaFree d.paren ks = true) : NoSplit d ts := by
  induction ks generalizing ts d with
  | nil => rw [reads_nil] at hr; subst hr; trivial
  | cons k ks ih =>
    obtain ⟨t, ts', rfl, h1, h2⟩ := reads_cons.1 hr
    simp only [commaFree, Bool.and_eq_true, Bool.not_eq_true', Bool.and_eq_false_iff, decide_eq_false_iff_not] at h
    refine ⟨?_, ih h2 ?_⟩
    · rintro ⟨ht, hp, -⟩
      rcases h.1 with h | h
      · exact h hp
      · exact h ((word_punct h1 (d := ',') (by decide)).1 ht)
    · have e1 := word_punct h1 (d := '(') (by decide)
      have e2 := word_punct h1 (d := ')') (by decide)
      rw [step_paren]
      simp only [e1, e2]
      exact h.2

theorem fold_alias_iff {n : Node} : (∃ e al w, fold n = .alias e al w) ↔ ∃ e al w, n = .alias e al w := by
  constructor
  · rintro ⟨e, al, w, h⟩
    cases n <;> simp [fold] at h
    exact ⟨_, _, _, rfl⟩
  · rintro ⟨e, al, w, rfl⟩
    exact ⟨_, _, _, rfl⟩

/-- What has to be read by the parser of SELECT, which is called after the keyword. -/
def SelectOk (n : Node) : Prop :=
  ∀ t ts, Reads (toks n) (t :: ts) → ∃ n', fold n' = n ∧ ∀ rest f, (isSubquery n = true → rest = [] ∧ f = none) →
    ∃ s', Ev fun r => r.select ⟨ts ++ rest, f⟩ = .ok (n', s')

section
variable [L : LawfulPyEnv E]

theorem level_five {n : Node} (h : level n = 5) :
    (n.isSelect = true ∧ isSubquery n = true ∧ commaFree 0 (toks n) = true) ∨ (∃ part e, n = .datePart part e) ∨
      ∃ f args, n = .func f args ∧ f ∈ innerCalls := by
  cases n <;> first
    | exact .inr (.inl ⟨_, _, rfl⟩)
    | (refine .inr (.inr ⟨_, _, rfl, ?_⟩); simp only [level] at h; split at h <;> first | assumption | omega)
    | (simp [level] at h; done)
    | (exfalso; simp only [level] at h; split at h <;> omega)
    | (exfalso; rename Option Str => pre; cases pre <;> simp [level] at h)
    | skip
  case select =>
    rw [level.eq_def] at h
    simp only at h
    split at h
    · rename_i h1
      rw [Bool.and_eq_true] at h1
      exact .inl ⟨rfl, h1.1, h1.2⟩
    · omega

theorem select_reads {n : Node} (h : n.isSelect = true) {ts : List Str} (hr : Reads (toks n) ts) :
    ∃ t ts', ts = t :: ts' ∧ lower t = str!"select" := by
  cases n <;> simp [Node.isSelect] at h
  simp only [toks] at hr
  obtain ⟨t, ts', rfl, h1, -⟩ := reads_cons.1 hr
  exact ⟨t, ts', rfl, lower_kw h1 (by decide)⟩

/-- An element of a list is found between commas. -/
theorem item_split {n : Node} (hw : wf n = true) (hl : level n ≤ 5) {ts : List Str} (hr : Reads (toks n) ts) :
    ts ≠ [] ∧ NoSplit .zero ts ∧ ListState.run .zero ts = .zero := by
  have ht := tame hw hr
  refine ⟨?_, ?_, ht.run _⟩
  · rcases Nat.lt_or_ge (level n) 5 with h | h
    · exact reads_ne hw (by omega) ts hr
    · rcases level_five (n := n) (by omega) with h | ⟨part, e, rfl⟩ | ⟨f, args, rfl, -⟩
      · obtain ⟨t, ts', rfl, -⟩ := select_reads h.1 hr
        simp
      · obtain ⟨t, ts', rfl, -⟩ := reads_cons.1 hr
        simp
      · obtain ⟨t, ts', rfl, -⟩ := reads_cons.1 hr
        simp
  · rcases Nat.lt_or_ge (level n) 5 with h | h
    · exact ht.noSplit (avoid_of_item (by omega) _ (by decide)) _ (by decide)
    · rcases level_five (n := n) (by omega) with h | ⟨part, e, rfl⟩ | ⟨f, args, rfl, hf⟩
      · exact noSplit_of_commaFree hr h.2.2
      · exact ht.noSplit (show str!"," ∈ stopWords.erase str!"from" by decide) _ (by decide)
      · exact ht.noSplit (by rw [avoid, if_pos hf]; simp) _ (by decide)

theorem groups_ok {args : List Node} (hw : ∀ n ∈ args, wf n = true) (hl : ∀ n ∈ args, level n ≤ 5)
    (h : ∀ n ∈ args, ItemOk n) {ts : List Str} (hr : Reads (toksList args) ts) :
    ∃ args', foldList args' = args ∧
      Ev fun r => parseGroups r false (splitGroups .zero [] ts) ⟨[], none⟩ = .ok (args', ⟨[], none⟩) := by
  induction args generalizing ts with
  | nil => rw [toksList, reads_nil] at hr; subst hr; exact ⟨[], rfl, Ev.of fun r => rfl⟩
  | cons n args ih =>
    have hn := hw n (by simp)
    cases args with
    | nil =>
      rw [toksList] at hr
      obtain ⟨h1, h2, -⟩ := item_split hn (hl n (by simp)) hr
      obtain ⟨n', _, hn', he⟩ := h n (by simp) ts hr
      refine ⟨[n'], by simp [foldList, hn'], he.mono fun r he => ?_⟩
      rw [splitGroups_one _ _ _ h1 h2]
      simp only [parseGroups, List.nil_append]
      rw [bind_ok (sub_ok he)]
      rfl
    | cons m args =>
      rw [toksList] at hr
      · replace hr := reads_append.1 hr
        obtain ⟨x, y, rfl, hx, hy⟩ := hr
        replace hy := reads_cons.1 hy
        obtain ⟨c, y, rfl, hc, hy⟩ := hy
        rw [reads_lit] at hc
        subst hc
        obtain ⟨h1, h2, h3⟩ := item_split hn (hl n (by simp)) hx
        obtain ⟨n', _, hn', he⟩ := h n (by simp) x hx
        obtain ⟨args', ha, hi⟩ := ih (fun k hk => hw k (by simp [hk])) (fun k hk => hl k (by simp [hk]))
          (fun k hk => h k (by simp [hk])) hy
        refine ⟨n' :: args', by simp [foldList, hn', ha], (he.and hi).mono ?_⟩
        rintro r ⟨he, hi⟩
        rw [splitGroups_cons _ _ _ h1 h2 h3]
        simp only [parseGroups, List.nil_append]
        rw [bind_ok (sub_ok he), bind_ok hi]
        rfl
      · simp

theorem list_ok {args : List Node} (hw : wfList args = true) (hl : levels args ≤ 5)
    (h : ∀ n ∈ args, ItemOk n) {ts : List Str} (hr : Reads (toksList args) ts) :
    ∃ args', foldList args' = args ∧
      Ev fun r => r.exprList false ⟨ts, none⟩ = .ok (args', ⟨[], none⟩) := by
  obtain ⟨args', h1, h2⟩ := groups_ok (wfList_iff.1 hw) (levels_le.1 hl) h hr
  refine ⟨args', h1, h2.next fun r h => ?_⟩
  show exprListF r false _ = _
  unfold exprListF
  rw [bind_ok (show drain ⟨ts, none⟩ = .ok (ts, ⟨[], none⟩) from rfl)]
  exact h

theorem list_tame {args : List Node} (hw : wfList args = true) {ts : List Str} (hr : Reads (toksList args) ts) :
    Tame [] [] ts :=
  tame_list (fun n hn ts hr => (tame (wfList_iff.1 hw n hn) hr).none) (by simp) (by simp) ts hr

/-! ### Words that begin no atom -/

theorem notDigit {c : Char} (h : isAscii c = true) (hd : c.isDigit = false) : E.isDigit c = false := by
  rw [L.isDigit_ascii c h, hd]

theorem isDigits_num {t : Str} (h1 : t ≠ []) (h2 : t.all Char.isDigit = true) : isDigits t = true := by
  unfold isDigits
  obtain ⟨ha, -⟩ := digit_lower h2
  simp only [Bool.and_eq_true, Bool.not_eq_true', List.isEmpty_eq_false_iff]
  refine ⟨h1, ?_⟩
  rw [List.all_eq_true] at *
  intro c hc
  rw [L.isDigit_ascii c (ha c hc)]
  exact h2 c hc

/-- The first character shows that a token is not a number. -/
theorem notNumber {c : Char} {s : Str} (h : E.isDigit c = false) (hc : c ≠ '.') :
    isDigits (c :: s) = false ∧ isDottedDigits (c :: s) = false := by
  constructor
  · simp [isDigits, h]
  · simp [isDottedDigits, hc, isDigits, h]

/-- The word begins with neither a digit nor a dot. -/
def wordy : Str → Bool
  | [] => false
  | c :: _ => !c.isDigit && decide (c ≠ '.')

theorem kw_notNumber {w t : Str} (ht : (Tok.kw w).reads t) (ha : w.all isAscii)
    (hc : wordy w = true) :
    isDigits t = false ∧ isDottedDigits t = false := by
  rw [reads_kw] at ht
  have hta := all_ascii_of_lower ht ha
  cases t with
  | nil => subst ht; cases hc
  | cons c t =>
    subst ht
    simp only [List.map_cons, wordy, Bool.and_eq_true, Bool.not_eq_true', decide_eq_true_eq] at hc
    simp only [List.all_cons, Bool.and_eq_true] at hta
    refine notNumber (notDigit hta.1 ?_) ?_
    · cases h : c.isDigit with
      | false => rfl
      | true =>
        have : c.toLower = c := by
          have := (digit_lower (s := [c]) (by simp [h])).2
          simpa using this
        rw [this, h] at hc; exact absurd hc.1 (by simp)
    · rintro rfl; exact absurd hc.2 (by decide)

theorem kw_notPrimary {w t : Str} (ht : (Tok.kw w).reads t) (ha : w.all isAscii)
    (hc : wordy w = true)
    (hw : w ∉ trueValues ++ falseValues ++ nullValues ++ [str!"not", str!"case", str!"select"] ++ quotes ++
      [str!"(", str!"["]) : NotPrimary t := by
  have hl := lower_kw ht ha
  obtain ⟨h1, h2⟩ := kw_notNumber ht ha hc
  simp only [List.mem_append, not_or] at hw
  obtain ⟨⟨⟨⟨⟨hw1, hw2⟩, hw3⟩, hw4⟩, hw5⟩, hw6⟩ := hw
  refine ⟨fun hm => hw5 ?_, h1, h2, ?_, ?_, ?_⟩
  · rw [← hl, lower_quote hm]; exact hm
  · rw [hl]; simp only [List.mem_append, not_or]; exact ⟨⟨⟨hw1, hw2⟩, hw3⟩, hw4⟩
  · rintro rfl
    rw [lower_self (by decide) (by decide)] at hl
    exact hw6 (by rw [← hl]; decide)
  · rintro rfl
    rw [lower_self (by decide) (by decide)] at hl
    exact hw6 (by rw [← hl]; decide)

/-! ### Atoms -/

theorem column_ok {v : Str} (hw : wf (.column v) = true) : AtomOk (.column v) := by
  intro main ts hr
  replace hr := reads_cons.1 hr
  obtain ⟨t, ts', h, ht, hts⟩ := hr
  obtain ⟨rfl, rfl⟩ := List.cons.inj h
  rw [reads_nil] at hts
  rw [reads_lit] at ht
  subst hts ht
  refine ⟨.column main, rfl, fun a rest f ha hf he => Ev.of fun r => ?_⟩
  simp only [wf, Bool.or_eq_true, decide_eq_true_eq] at hw
  rcases hw with hs | rfl
  · obtain ⟨h1, h2, -⟩ := ident_spec hs
    exact atom_column h1 h2 (by simpa using ha) hf he r
  · have h1 : NotPrimary (str!"*") := kw_notPrimary (w := str!"*") (by decide) (by decide) (by decide) (by decide)
    exact atom_column h1 (by decide) (by simpa using ha) hf he r

theorem string_run {v q : Str} (hq : q ∈ quotes) (hv : content q v = true) (pre : Option Str) {main : Str}
    {ts : List Str} (hr : Reads (toks (.string v q none)) (main :: ts)) : q = main ∧
    ∀ rest f, stringParser main pre ⟨ts ++ rest, f⟩ = .ok (.string v main pre, ⟨rest, f⟩) := by
  simp only [toks, List.cons_append] at hr
  replace hr := reads_cons.1 hr
  obtain ⟨t, ts', h, ht, hts⟩ := hr
  obtain ⟨rfl, rfl⟩ := List.cons.inj h
  rw [reads_lit] at ht
  subst ht
  refine ⟨rfl, fun rest f => ?_⟩
  by_cases hv' : v = []
  · subst hv'
    simp only [if_true, List.nil_append] at hts
    replace hts := reads_cons.1 hts
    obtain ⟨c, ts', rfl, hc, hts⟩ := hts
    rw [reads_lit] at hc
    rw [reads_nil] at hts
    subst hc hts
    unfold stringParser
    rw [List.singleton_append, bind_ok (next?_cons _ _ _)]
    simp only [if_true]
    rfl
  · rw [if_neg hv', List.singleton_append] at hts
    replace hts := reads_cons.1 hts
    obtain ⟨c, ts', rfl, hc, hts⟩ := hts
    replace hts := reads_cons.1 hts
    obtain ⟨d, ts', rfl, hd, hts⟩ := hts
    rw [reads_lit] at hc hd
    rw [reads_nil] at hts
    subst hc hd hts
    have hne : c ≠ d := by
      rintro rfl
      exact (quiet_content hv).2.1 hq
    unfold stringParser
    rw [show ([c, d] ++ rest) = c :: d :: rest from rfl, bind_ok (next?_cons _ _ _)]
    simp only [hne, if_false]
    rw [bind_ok (next!_cons _ _ _)]
    simp only [ne_eq, not_true, if_false]
    rfl

theorem string_ok {v q : Str} (hw : wf (.string v q none) = true) : AtomOk (.string v q none) := by
  intro main ts hr
  simp only [wf, Bool.and_eq_true, decide_eq_true_eq] at hw
  obtain ⟨rfl, h⟩ := string_run hw.1.2 hw.2 none hr
  refine ⟨.string v q none, rfl, fun a rest f ha hf he => Ev.of fun r => ?_⟩
  refine atom_of_primary ?_ hf
  unfold primaryF
  rw [if_pos (show q ∈ quotes from hw.1.2), bind_ok (h rest f)]
  rfl

/-- After a string with a prefix nothing is read, but the next token still is the opening quote. -/
theorem raw_item {v q p : Str} (hw : wf (.string v q (some p)) = true) : ItemOk (.string v q (some p)) := by
  intro ts hr
  simp only [wf, Bool.and_eq_true, decide_eq_true_eq] at hw
  obtain ⟨⟨hp, hq⟩, hv⟩ := hw
  replace hq : q ∈ quotes := hq
  simp only [toks] at hr
  replace hr := reads_cons.1 hr
  obtain ⟨m, ts, rfl, hm, hr⟩ := hr
  rw [reads_lit] at hm
  subst hm
  cases ts with
  | nil => simp [Reads] at hr
  | cons q' ts =>
  obtain ⟨rfl, h⟩ := string_run (v := v) (q := q) hq hv (some m) (main := q') (ts := ts) hr
  have hmr : (Tok.kw str!"r").reads m := by
    rw [reads_kw]
    simp only [List.mem_cons, List.not_mem_nil, or_false] at hp
    rcases hp with rfl | rfl <;> decide
  have hnp : NotPrimary m := kw_notPrimary hmr (by decide) (by decide) (by decide)
  have hml := prefix_lower hp
  have hql := lower_quote hq
  have hend : Ends (str!"." :: str!"(" :: str!"[" :: arithSymbols ++ bitOperators) 
      (str!"over" :: str!"filter" :: str!"from" :: predicates ++ [str!"between"] ++ boolPredicates ++
      [str!"except", str!"replace"]) (some q) := by
    rintro x ⟨⟩
    rw [hql]
    have key : ∀ q ∈ quotes, q ∉ str!"." :: str!"(" :: str!"[" :: arithSymbols ++ bitOperators ∧
      q ∉ (str!"over" :: str!"filter" :: str!"from" :: predicates ++ [str!"between"] ++ boolPredicates ++
      [str!"except", str!"replace"]) := by decide
    exact key q hq
  refine ⟨.string v q (some m), some q, rfl, Ev.next ((dotLoop_no (u := []) (e := .string v q (some m))
    (t := some q) (hend.ne (by decide)) ⟨[], none⟩).and (indexLoop_no (e := .string v q (some m))
    (t := some q) (hend.ne (by decide)) ⟨[], none⟩)) ?_⟩
  rintro r ⟨h1, h2⟩
  show exprF r _ _ = _
  rw [exprF_full rfl, bind_ok (mainToken_none rfl _ _ _)]
  have ha : atomF r {} m ⟨q :: ts, none⟩ = .ok ((.string v q (some m), some q), ⟨[], none⟩) := by
    rw [atom_of_secondary hnp (by simp)]
    show secondaryF r {} m (some q) ⟨ts, none⟩ = _
    unfold secondaryF
    have hd : str!"r" ∉ dateParts := by decide
    have ht : str!"r" ∉ typeValues := by decide
    rw [if_neg (hend.ne (by decide)), hml, if_neg (fun h => hd h.1), if_neg (fun h => ht h.1),
      if_neg (hend.ne (by decide))]
    have hm' : m ≠ str!"-" := by rintro rfl; exact absurd hp (by decide)
    have hs : str!"r" ∈ stringPrefixes := by decide
    simp only [hm', false_and, if_false, hql, hs, hq, and_self, if_true]
    have := h [] none
    rw [List.append_nil] at this
    rw [bind_ok this]
    rfl
  unfold cndM opdM baseM
  rw [bind_assoc', bind_assoc', bind_assoc', bind_ok ha, bind_assoc', bind_ok (overF_no (hend.notWord (by decide)) _), 
    bind_ok h1, bind_assoc', bind_ok (arithF_no (.inr fun x hx hm => (hend x hx).1 (by simp [hm])) _), bind_ok h2]
  have hc : condF r {} (.string v q (some m)) (some q) ⟨[], none⟩ = .ok ((.string v q (some m), some q), ⟨[], none⟩) := by
    obtain ⟨e1, e2⟩ := hend q rfl
    unfold condF
    dsimp only
    rw [if_neg, if_neg, if_neg]
    · rfl
    · intro hm; exact e1 (by simp [hm])
    · intro hm; exact e2 (by simp [hm])
    · intro hm; exact e2 (by simp [hm])
  rw [bind_ok hc]
  unfold endM
  rw [bind_ok (boolF_no (fun x hx hm => (hend x hx).2 (by simp [hm])) _),
    bind_ok (exceptF_no (hend.notWord (by decide)) _), bind_ok (replaceF_no (hend.notWord (by decide)) _)]
  unfold aliasF
  dsimp only
  rw [if_neg fun h => h.2.1 ⟨hq, rfl⟩]
  rfl

theorem decimal_digits {s : Str} (h : isDecimal s = true) : isDigits s = false ∧ isDottedDigits s = true := by
  obtain ⟨-, -, -, hc⟩ := decimal_lower h
  simp only [isDecimal, Bool.and_eq_true, decide_eq_true_eq] at h
  obtain ⟨⟨⟨-, h2⟩, h3⟩, -⟩ := h
  constructor
  · have hm : '.' ∈ s := List.count_pos_iff.1 (by omega)
    simp only [isDigits, Bool.and_eq_false_iff]
    right
    rw [List.all_eq_false]
    exact ⟨'.', hm, by rw [notDigit (by decide) (by decide)]; simp⟩
  · unfold isDottedDigits
    refine isDigits_num ?_ ?_
    · cases s with
      | nil => simp at h2
      | cons c s =>
        have : c ≠ '.' := by rintro rfl; exact h3 rfl
        simp [this]
    · rw [List.all_eq_true]
      intro c hm
      simp only [List.mem_filter, decide_eq_true_eq] at hm
      exact (hc c hm.1).resolve_right hm.2

theorem float_ok {x : Str} (hw : wf (.float x) = true) : AtomOk (.float x) := by
  intro main ts hr
  rcases float_cases hw with ⟨hd, hs, ht⟩ | ⟨s, rfl, hd, hs, ht⟩ <;> rw [ht] at hr
  · replace hr := reads_cons.1 hr
    obtain ⟨t, ts', h, ht, hts⟩ := hr
    obtain ⟨rfl, rfl⟩ := List.cons.inj h
    rw [reads_nil] at hts
    rw [reads_lit] at ht
    subst hts ht
    obtain ⟨h1, h2⟩ := decimal_digits hd
    refine ⟨.float main, rfl, fun a rest f ha hf he => Ev.of fun r => atom_of_primary ?_ hf⟩
    unfold primaryF
    rw [if_neg (decimal_not hd (by decide)), h1, if_neg (by simp), if_pos h2]
    have : floatStrP main = fun s => .ok (main, s) := by
      unfold floatStrP; rw [hs]; rfl
    rw [bind_ok (congrFun this _)]
    rfl
  · replace hr := reads_cons.1 hr
    obtain ⟨t, ts', h, ht, hts⟩ := hr
    obtain ⟨rfl, rfl⟩ := List.cons.inj h
    rw [reads_lit] at ht
    subst ht
    replace hts := reads_cons.1 hts
    obtain ⟨t, ts', rfl, ht, hts⟩ := hts
    rw [reads_nil] at hts
    rw [reads_lit] at ht
    subst hts ht
    obtain ⟨h1, h2⟩ := decimal_digits hd
    refine ⟨.float ('-' :: t), rfl, fun a rest f ha hf he => Ev.of fun r => ?_⟩
    have hnp : NotPrimary (str!"-") := kw_notPrimary (w := str!"-") (by decide) (by decide) (by decide) (by decide)
    rw [atom_of_secondary hnp (by simp)]
    show secondaryF r a _ (some t) ⟨rest, f⟩ = _
    have e1 : t ≠ str!"(" := by rintro rfl; exact absurd hd (by decide)
    have e2 : t ≠ str!"[" := by rintro rfl; exact absurd hd (by decide)
    unfold secondaryF
    have hl : lower str!"-" = str!"-" := lower_self (by decide) (by decide)
    have hd1 : ¬ (str!"-" ∈ dateParts) := by decide
    have hd2 : ¬ (str!"-" ∈ typeValues) := by decide
    rw [if_neg (by simpa using e1), hl, if_neg (fun h => hd1 h.1), if_neg (fun h => hd2 h.1),
      if_neg (by simpa using e2)]
    simp only [h1, h2, and_self, if_true, and_false, Bool.false_eq_true, if_false]
    have : floatStrP t = fun s => .ok (t, s) := by
      unfold floatStrP; rw [hs]; rfl
    rw [bind_ok (congrFun this _), bind_ok (next?_run hf)]
    rfl

theorem value_int {t : Str} {n : Nat} (h : (Tok.num n).reads t) : E.toInt t = some (n : Int) := by
  obtain ⟨h1, h2, h3, h4⟩ := h
  rw [L.toInt_digits t h1 h2 h3, ← h4]
  rfl

theorem int_ok {i : Int} : AtomOk (.int i) := by
  intro main ts hr
  simp only [toks] at hr
  replace hr := reads_append.1 hr
  obtain ⟨x, y, h, hx, hy⟩ := hr
  replace hy := reads_cons.1 hy
  obtain ⟨t, y, rfl, ht, hy⟩ := hy
  rw [reads_nil] at hy
  subst hy
  have htI := value_int ht
  have htP : toIntP t = fun s => .ok ((i.natAbs : Int), s) := by
    unfold toIntP; rw [htI]; rfl
  have htd : isDigits t = true := isDigits_num ht.1 ht.2.1
  have htq : t ∉ quotes := (quiet_num ht).2.1
  rcases reads_opt hx with ⟨hb, hx⟩ | ⟨hb, rfl⟩
  · replace hx := reads_cons.1 hx
    obtain ⟨m, x, rfl, hm, hx⟩ := hx
    rw [reads_nil] at hx
    rw [reads_lit] at hm
    subst hx hm
    obtain ⟨rfl, rfl⟩ := List.cons.inj h
    refine ⟨.int i, rfl, fun a rest f ha hf he => Ev.of fun r => ?_⟩
    have hnp : NotPrimary (str!"-") := kw_notPrimary (w := str!"-") (by decide) (by decide) (by decide) (by decide)
    rw [atom_of_secondary hnp (by simp)]
    show secondaryF r a _ (some t) ⟨rest, f⟩ = _
    have e1 : t ≠ str!"(" := by rintro rfl; exact absurd (quiet_num ht).1 (by simp [isDelim])
    have e2 : t ≠ str!"[" := by rintro rfl; exact absurd (quiet_num ht).1 (by simp [isDelim])
    unfold secondaryF
    have hl : lower str!"-" = str!"-" := lower_self (by decide) (by decide)
    have hd1 : ¬ (str!"-" ∈ dateParts) := by decide
    have hd2 : ¬ (str!"-" ∈ typeValues) := by decide
    rw [if_neg (by simpa using e1), hl, if_neg (fun h => hd1 h.1), if_neg (fun h => hd2 h.1),
      if_neg (by simpa using e2)]
    simp only [htd, and_self, if_true]
    rw [bind_ok (congrFun htP _), bind_ok (next?_run hf)]
    simp only [decide_eq_true_eq] at hb
    rw [show -(i.natAbs : Int) = i by omega]
    rfl
  · obtain ⟨rfl, rfl⟩ := List.cons.inj h
    refine ⟨.int i, rfl, fun a rest f ha hf he => Ev.of fun r => ?_⟩
    refine atom_of_primary ?_ hf
    unfold primaryF
    rw [if_neg htq, if_pos htd, bind_ok (congrFun htP _)]
    simp only [decide_eq_false_iff_not] at hb
    rw [show (i.natAbs : Int) = i by omega]
    rfl

theorem null_ok : AtomOk .null := by
  intro main ts hr
  simp only [toks] at hr
  replace hr := reads_cons.1 hr
  obtain ⟨t, ts', h, ht, hts⟩ := hr
  obtain ⟨rfl, rfl⟩ := List.cons.inj h
  rw [reads_nil] at hts
  subst hts
  refine ⟨.null, rfl, fun a rest f ha hf he => Ev.of fun r => atom_of_primary ?_ hf⟩
  have hl := lower_kw ht (by decide)
  obtain ⟨h1, h2⟩ := kw_notNumber ht (by decide) (by decide)
  have hq : main ∉ quotes := fun hm => by
    rw [lower_quote hm] at hl; subst hl; exact absurd hm (by decide)
  unfold primaryF
  rw [if_neg hq, h1, h2, hl]
  rfl

theorem bool_ok {b : Bool} : AtomOk (.bool b) := by
  intro main ts hr
  simp only [toks] at hr
  replace hr := reads_cons.1 hr
  obtain ⟨t, ts', h, ht, hts⟩ := hr
  obtain ⟨rfl, rfl⟩ := List.cons.inj h
  rw [reads_nil] at hts
  subst hts
  refine ⟨.bool b, rfl, fun a rest f ha hf he => Ev.of fun r => atom_of_primary ?_ hf⟩
  have hl := lower_kw ht (by cases b <;> decide)
  obtain ⟨h1, h2⟩ := kw_notNumber ht (by cases b <;> decide) (by cases b <;> decide)
  have hq : main ∉ quotes := fun hm => by
    rw [lower_quote hm] at hl; subst hl; revert hm; cases b <;> decide
  unfold primaryF
  rw [if_neg hq, h1, h2, hl]
  cases b <;> rfl

theorem reads_parens {ks : List Tok} {ts : List Str} (h : Reads (.lit str!"(" :: (ks ++ [.lit str!")"])) ts) :
    ∃ x, ts = str!"(" :: (x ++ [str!")"]) ∧ Reads ks x := by
  replace h := reads_cons.1 h
  obtain ⟨t, ts', rfl, h1, h2⟩ := h
  rw [reads_lit] at h1
  subst h1
  replace h2 := reads_append.1 h2
  obtain ⟨x, y, rfl, hx, hy⟩ := h2
  replace hy := reads_cons.1 hy
  obtain ⟨t, y, rfl, ht, hy⟩ := hy
  rw [reads_lit] at ht
  rw [reads_nil] at hy
  subst ht hy
  exact ⟨x, rfl, hx⟩

theorem paren_ok {args : List Node} (hl : levels args ≤ 5) (hw : wfList args = true)
    (h : ∀ n ∈ args, ItemOk n) : FuncOk (.paren args) := by
  intro main ts hr
  simp only [toks] at hr
  replace hr := reads_parens hr
  obtain ⟨x, hx, hr⟩ := hr
  obtain ⟨rfl, rfl⟩ := List.cons.inj hx
  obtain ⟨args', hf', he'⟩ := list_ok hw hl h hr
  refine ⟨.paren args', by simp [fold, hf'], fun a rest f ha hf he => he'.mono fun r h1 => ?_⟩
  refine atom_of_primary ?_ hf
  have hlo : lower str!"(" = str!"(" := lower_self (by decide) (by decide)
  obtain ⟨n1, n2⟩ := kw_notNumber (w := str!"(") (t := str!"(") (by decide) (by decide) (by decide)
  unfold primaryF
  rw [n1, n2, hlo, if_neg (show ¬ str!"(" ∈ quotes by decide), if_neg (by simp), if_neg (by simp),
    if_neg (show ¬ str!"(" ∈ trueValues ++ falseValues by decide), if_neg (show ¬ str!"(" ∈ nullValues by decide),
    if_neg (by decide), if_pos rfl]
  have : untilClosing none ⟨x ++ [str!")"] ++ rest, f⟩ = .ok (x, ⟨rest, f⟩) := by
    rw [List.append_assoc]
    exact untilClosing_tame (list_tame hw hr) rest f
  show (untilClosing >>= fun ts => P.sub ts (r.exprList false) >>= fun args => pure (some (Node.paren args), none)) _ = _
  rw [bind_ok this, bind_ok (sub_ok h1)]
  rfl

theorem reads_squares {ks : List Tok} {ts : List Str} (h : Reads (.lit str!"[" :: (ks ++ [.lit str!"]"])) ts) :
    ∃ x, ts = str!"[" :: (x ++ [str!"]"]) ∧ Reads ks x := by
  replace h := reads_cons.1 h
  obtain ⟨t, ts', rfl, h1, h2⟩ := h
  rw [reads_lit] at h1
  subst h1
  replace h2 := reads_append.1 h2
  obtain ⟨x, y, rfl, hx, hy⟩ := h2
  replace hy := reads_cons.1 hy
  obtain ⟨t, y, rfl, ht, hy⟩ := hy
  rw [reads_lit] at ht
  rw [reads_nil] at hy
  subst ht hy
  exact ⟨x, rfl, hx⟩

/-- Up to the closing bracket. -/
theorem untilSquare {base extra l : List Str} (h : Tame base extra l) (rest : List Str) (f : Option PyErr) :
    untilOneOf [str!"]"] none [] ⟨l ++ str!"]" :: rest, f⟩ = .ok ((l, some str!"]"), ⟨rest, f⟩) :=
  untilOneOf_stop h.withClose (by simp) (by decide) []
    (by rw [lower_self (by decide) (by decide)]; simp) (fun _ _ => by simp) rest f

theorem array_ok {args : List Node} (hw : wf (.array args) = true) (h : ∀ n ∈ args, ItemOk n) :
    FuncOk (.array args) := by
  intro main ts hr
  simp only [wf, Bool.and_eq_true, decide_eq_true_eq] at hw
  obtain ⟨hl, hw⟩ := hw
  simp only [toks] at hr
  replace hr := reads_squares hr
  obtain ⟨x, hx, hr⟩ := hr
  obtain ⟨rfl, rfl⟩ := List.cons.inj hx
  obtain ⟨args', hf', he'⟩ := list_ok hw hl h hr
  refine ⟨.array args', by simp [fold, hf'], fun a rest f ha hf he => he'.mono fun r h1 => ?_⟩
  refine atom_of_primary' ?_ hf
  have hlo : lower str!"[" = str!"[" := lower_self (by decide) (by decide)
  obtain ⟨n1, n2⟩ := kw_notNumber (w := str!"[") (t := str!"[") (by decide) (by decide) (by decide)
  unfold primaryF
  rw [n1, n2, hlo, if_neg (show ¬ str!"[" ∈ quotes by decide), if_neg (by simp), if_neg (by simp),
    if_neg (show ¬ str!"[" ∈ trueValues ++ falseValues by decide), if_neg (show ¬ str!"[" ∈ nullValues by decide),
    if_neg (by decide), if_neg (by decide), if_pos rfl]
  rw [List.append_assoc]
  have := untilSquare (list_tame hw hr) rest f
  refine (bind_ok this).trans ?_
  dsimp only
  rw [bind_ok (assert_true (by simp)), bind_ok (sub_ok h1), bind_ok (next?_run hf)]
  rfl

/-- One more index. -/
theorem LoopOk.index {e : Node} {is : List Node} (hw : wf (.index e is) = true) (he : LoopOk e)
    (h : ∀ n ∈ is, ItemOk n) : LoopOk (.index e is) := by
  intro main ts hr
  simp only [wf, Bool.and_eq_true, decide_eq_true_eq] at hw
  obtain ⟨⟨⟨hb, hl⟩, hwe⟩, hw⟩ := hw
  simp only [toks] at hr
  replace hr := reads_append.1 hr
  obtain ⟨y, z, hyz, hy, hr⟩ := hr
  replace hr := reads_squares hr
  obtain ⟨x, rfl, hr⟩ := hr
  obtain ⟨is', hf', he'⟩ := list_ok hw hl h hr
  cases y with
  | nil =>
    have := level_base (n := e) (by simpa using hb)
    exact absurd rfl (reads_ne hwe (by omega) _ hy)
  | cons m y =>
  obtain ⟨rfl, rfl⟩ := List.cons.inj hyz
  obtain ⟨e', hfe, he⟩ := he _ _ hy
  refine ⟨.index e' is', by simp [fold, hfe, hf'], fun a rest f res ha hf hend hloop => ?_⟩
  have hb : Ends loopSyms [str!"over", str!"filter"] (some str!"[") := by
    rintro x ⟨⟩
    exact ⟨by decide, by rw [lower_self (by decide) (by decide)]; decide⟩
  have := he a (str!"[" :: (x ++ str!"]" :: rest)) f res ha (by simp) hb (Ev.next (he'.and hloop) ?_)
  · simpa using this
  rintro r ⟨h1, h2⟩
  show indexLoopF r e' (some str!"[") ⟨x ++ str!"]" :: rest, f⟩ = _
  unfold indexLoopF
  rw [if_pos rfl]
  refine (bind_ok (untilSquare (list_tame hw hr) rest f)).trans ?_
  dsimp only
  rw [bind_ok (sub_ok h1), bind_ok (next?_run hf)]
  exact h2

theorem index_ok {e : Node} {is : List Node} (hw : wf (.index e is) = true) (hc : isCol e = true)
    (h : ∀ n ∈ is, ItemOk n) : FuncOk (.index e is) := by
  intro main ts hr
  simp only [wf, Bool.and_eq_true, decide_eq_true_eq] at hw
  obtain ⟨⟨⟨-, hl⟩, hwe⟩, hw⟩ := hw
  cases e with
  | column v =>
    simp only [isCol, decide_eq_true_eq] at hc
    simp only [wf, hc, decide_false, Bool.or_false] at hwe
    simp only [toks] at hr
    replace hr := reads_cons.1 hr
    obtain ⟨t, ts', h', ht, hr⟩ := hr
    obtain ⟨rfl, rfl⟩ := List.cons.inj h'
    rw [reads_lit] at ht
    subst ht
    replace hr := reads_squares hr
    obtain ⟨x, rfl, hr⟩ := hr
    obtain ⟨is', hf', he'⟩ := list_ok hw hl h hr
    obtain ⟨np, -, -⟩ := ident_spec hwe
    refine ⟨.index (.column main) is', by simp [fold, hf'], fun a rest f ha hf he => he'.mono fun r h1 => ?_⟩
    rw [atom_of_secondary np (by simp)]
    show secondaryF r a main (some str!"[") ⟨x ++ [str!"]"] ++ rest, f⟩ = _
    unfold secondaryF
    rw [if_neg (by decide), if_neg, if_neg, if_pos rfl, List.append_assoc]
    · refine (bind_ok (untilSquare (list_tame hw hr) rest f)).trans ?_
      dsimp only
      rw [bind_ok (sub_ok h1), bind_ok (next?_run hf)]
      rfl
    · rintro ⟨-, h⟩
      simp [h] at ha
    · rintro ⟨-, h⟩
      have := isWord_lower.1 h
      rw [lower_self (by decide) (by decide)] at this
      exact absurd this (by decide)
  | _ => exact absurd hc Bool.false_ne_true

/-- What follows a call. -/
def filterF (r : Rec) (e : Node) : P (Node × Option Str) := do
  let t ← next?
  if truthy? t && isWord t str!"filter" then do
    let t ← next!
    P.assert (t = str!"(")
    let ts ← untilClosing
    match ts with
    | [] => P.raise .index
    | w :: ws => do
      P.assert (lower w = str!"where")
      let (c, _) ← P.sub ws (r.expr { canAlias := false })
      let t ← next?
      return (.filtered e c, t)
  else return (e, t)

theorem functionF_eq (r : Rec) (a : ExprArgs) (main : Str) : functionF r a main = callM r a main >>= filterF r := by
  unfold functionF callM
  split
  · rfl
  · split
    · rfl
    · split <;> rfl

theorem atom_call {r : Rec} {a : ExprArgs} {main : Str} (hm : NotPrimary main) {ts : List Str} {f : Option PyErr} :
    atomF r a main ⟨str!"(" :: ts, f⟩ = (callM r a main >>= filterF r) ⟨ts, f⟩ := by
  rw [atom_of_secondary hm (by simp)]
  show secondaryF r a main (some str!"(") ⟨ts, f⟩ = _
  unfold secondaryF
  rw [if_pos rfl, functionF_eq]

/-- A call without FILTER. -/
theorem CallOk.func {n : Node} (h : CallOk n) : FuncOk n := by
  intro main ts hr
  obtain ⟨n', m, ts', hn', e, hm, h⟩ := h _ hr
  obtain ⟨rfl, rfl⟩ := List.cons.inj e
  refine ⟨n', hn', fun a rest f ha hf he => (h a rest f (by simpa using ha) hf).mono fun r g => ?_⟩
  rw [List.cons_append, atom_call hm, bind_ok g]
  unfold filterF
  rw [bind_ok (next?_run hf)]
  have : isWord rest.head? str!"filter" = false := he.notWord (by decide)
  simp only [this, Bool.and_false, Bool.false_eq_true, if_false]
  rfl

/-- A call with FILTER. -/
theorem filtered_ok {c w : Node} (hw : wf (.filtered c w) = true) (hc : CallOk c) (h : FullOk w) :
    FuncOk (.filtered c w) := by
  intro main ts hr
  simp only [wf, Bool.and_eq_true, decide_eq_true_eq] at hw
  obtain ⟨⟨⟨w1, w2⟩, w3⟩, w4⟩ := hw
  simp only [toks] at hr
  replace hr := reads_append.1 hr
  obtain ⟨x, y, hxy, hx, hy⟩ := hr
  replace hy := reads_cons.1 hy
  obtain ⟨t, y, rfl, ht, hy⟩ := hy
  replace hy := reads_parens hy
  obtain ⟨y, rfl, hy⟩ := hy
  replace hy := reads_cons.1 hy
  obtain ⟨wh, y, rfl, hwh, hy⟩ := hy
  obtain ⟨c', m, ts', hc', rfl, hm, hc⟩ := hc _ hx
  obtain ⟨rfl, rfl⟩ := List.cons.inj hxy
  obtain ⟨w', hw', h⟩ := h _ hy
  have htl := lower_kw ht (by decide)
  have hwl := lower_kw hwh (by decide)
  refine ⟨.filtered c' w', by simp [fold, hc', hw'], fun a rest f ha hf he => ?_⟩
  refine ((hc a (t :: str!"(" :: (wh :: y ++ [str!")"]) ++ rest) f (by simpa using ha) (by simp)).and
    (h { canAlias := false } [] none rfl (.inl ⟨rfl, rfl⟩))).mono ?_
  rintro r ⟨g1, g2⟩
  rw [List.append_nil] at g2
  have e0 : (str!"(" :: ts').append (t :: str!"(" :: (wh :: y ++ [str!")"])) ++ rest =
    str!"(" :: (ts' ++ (t :: str!"(" :: (wh :: y ++ [str!")"]) ++ rest)) := by
    show (str!"(" :: ts') ++ (t :: str!"(" :: (wh :: y ++ [str!")"])) ++ rest = _
    simp
  rw [e0, atom_call hm, bind_ok g1]
  unfold filterF
  have e1 : isWord (some t) str!"filter" = true := isWord_lower.2 htl
  have e2 : truthy? (some t) = true := by
    cases t with
    | nil => exact absurd htl (by simp [lower])
    | cons => rfl
  rw [List.cons_append, bind_ok (next?_cons _ _ _)]
  simp only [e1, e2, Bool.and_self, if_true]
  rw [List.cons_append, bind_ok (next!_cons _ _ _), bind_ok (assert_true (by simp))]
  have tw : Tame [] [] (wh :: y) :=
    .tok _ _ (quiet_kw hwh (by decide) (by decide) (by simp) (by simp)) (tame w4 hy).none
  rw [show wh :: y ++ [str!")"] ++ rest = wh :: y ++ str!")" :: rest by simp, bind_ok (untilClosing_tame tw rest f)]
  simp only
  rw [bind_ok (assert_true (by simp [hwl])), bind_ok (sub_ok g2)]
  dsimp only
  rw [bind_ok (next?_run hf)]
  rfl

/-- The name of a function is read as such. -/
theorem cname_main {fn main : Str} (hfn : cname fn = true) (ht : (Tok.kw fn).reads main) :
    NotPrimary main ∧ ∀ w ∈ [str!"cast", str!"array_agg", str!"count"], lower main ≠ w := by
  rcases cname_or hfn with hfn | hin
  rotate_left
  · obtain ⟨k1, k2, k3, k4⟩ := (by decide : ∀ w ∈ outerCalls ++ innerCalls, w.all isAscii ∧ wordy w ∧
      w ∉ trueValues ++ falseValues ++ nullValues ++ [str!"not", str!"case", str!"select"] ++ quotes ++ [str!"(", str!"["] ∧
      w ∉ [str!"cast", str!"array_agg", str!"count"]) fn hin
    refine ⟨kw_notPrimary ht k1 k2 k3, fun w hw he => k4 ?_⟩
    rw [lower_kw ht k1] at he
    rw [he]; exact hw
  simp only [fname, Bool.and_eq_true, decide_eq_true_eq] at hfn
  obtain ⟨⟨hid, hasc⟩, hlow⟩ := hfn
  have hlt := lower_kw ht hasc
  have hls := lower_self hasc hlow
  obtain ⟨np, -, hdot⟩ := ident_spec hid
  have hres : lower fn ∉ reserved := by
    simp only [ident, Bool.and_eq_true, decide_eq_true_eq] at hid
    exact hid.1.1.2
  rw [hls] at hres
  have hnp : NotPrimary main := by
    have hta := all_ascii_of_lower ht hasc
    have hdig : ∀ s : Str, s.all isAscii = true → isDigits s = true → isDigits (s.map Char.toLower) = true := by
      intro s ha hd
      have : s.all Char.isDigit = true := by
        simp only [isDigits, Bool.and_eq_true] at hd
        rw [List.all_eq_true] at *
        intro c hc
        rw [← L.isDigit_ascii c (ha c hc)]
        exact hd.2 c hc
      rw [(digit_lower this).2]; exact hd
    have hd1 : isDigits main = false := by
      cases hd : isDigits main with
      | false => rfl
      | true =>
        have := hdig main hta hd
        rw [reads_kw.1 ht, np.digits] at this
        cases this
    have hdot' : '.' ∉ main := by
      intro hm
      apply hdot
      rw [← reads_kw.1 ht]
      exact List.mem_map.2 ⟨'.', hm, by decide⟩
    refine ⟨?_, hd1, ?_, ?_, ?_, ?_⟩
    · intro hm
      rw [lower_quote hm] at hlt
      rw [← hlt] at hres
      have : ∀ q ∈ quotes, q ∈ reserved := by decide
      exact hres (this _ hm)
    · unfold isDottedDigits
      rw [List.filter_eq_self.2]
      · exact hd1
      · intro c hc
        simp only [decide_eq_true_eq]
        rintro rfl; exact hdot' hc
    · rw [hlt, ← hls]; exact np.word
    · rintro rfl
      rw [lower_self (by decide) (by decide)] at hlt
      subst hlt
      exact np.open_ rfl
    · rintro rfl
      rw [lower_self (by decide) (by decide)] at hlt
      subst hlt
      exact np.square rfl
  have hne : ∀ w ∈ [str!"cast", str!"array_agg", str!"count"], lower main ≠ w := by
    intro w hw' he
    rw [hlt] at he
    subst he
    have : ∀ w ∈ [str!"cast", str!"array_agg", str!"count"], w ∈ reserved := by decide
    exact hres (this _ hw')
  exact ⟨hnp, hne⟩

theorem func_ok {fn : Str} {args : List Node} (hw : wf (.func fn args) = true) (h : ∀ n ∈ args, ItemOk n) :
    CallOk (.func fn args) := by
  intro ts hr
  simp only [wf, Bool.and_eq_true, decide_eq_true_eq] at hw
  obtain ⟨⟨⟨hfn, habs⟩, hl⟩, hw⟩ := hw
  simp only [toks] at hr
  replace hr := reads_cons.1 hr
  obtain ⟨main, ts', rfl, ht, hr⟩ := hr
  replace hr := reads_parens hr
  obtain ⟨x, rfl, hr⟩ := hr
  obtain ⟨args', hf', he'⟩ := list_ok hw hl h hr
  obtain ⟨hnp, hne⟩ := cname_main hfn ht
  refine ⟨.func main args', main, _, by rw [reads_kw] at ht; simp [fold, hf', ht], rfl, hnp,
    fun a rest f ha hf => he'.mono fun r h1 => ?_⟩
  · unfold callM
    rw [if_neg (hne _ (by simp)), if_neg (hne _ (by simp)), if_neg (hne _ (by simp))]
    have : untilClosing none ⟨x ++ [str!")"] ++ rest, f⟩ = .ok (x, ⟨rest, f⟩) := by
      rw [List.append_assoc]
      exact untilClosing_tame (list_tame hw hr) rest f
    unfold callF
    rw [bind_ok this]
    have hcb : (a.canBeType || x.any fun t => decide (lower t = str!"timestamp_trunc")) = false := by
      simp only [Bool.or_eq_false_iff, List.any_eq_false, decide_eq_true_eq]
      refine ⟨ha, fun t ht => ?_⟩
      simpa using absent_reads (by decide) (oks_list fun n hn => oks n (wfList_iff.1 hw n hn)) habs hr t ht
    simp only [hcb]
    rw [bind_ok (sub_ok h1)]
    rfl

theorem item_first {n : Node} (hw : wf n = true) (hl : level n ≤ 5) {ts : List Str} (hr : Reads (toks n) ts) :
    ∃ t ts', ts = t :: ts' ∧ t ≠ [] ∧ lower t ∉ [str!"distinct", str!"all", str!"rollup", str!"on"] := by
  rcases Nat.lt_or_ge (level n) 5 with h | h
  · obtain ⟨t, ts', rfl, h1, h2⟩ := first_token hw (by omega) hr
    refine ⟨t, ts', rfl, h1, fun hm => h2 ?_⟩
    have : ∀ w ∈ [str!"distinct", str!"all", str!"rollup", str!"on"], w ∈ headBad := by decide
    exact this _ hm
  · rcases level_five (n := n) (by omega) with h | ⟨part, e, rfl⟩ | ⟨g, args, rfl, hg⟩
    · obtain ⟨t, ts', rfl, h1⟩ := select_reads h.1 hr
      refine ⟨t, ts', rfl, ?_, by rw [h1]; decide⟩
      rintro rfl
      exact absurd h1 (by simp [lower])
    · obtain ⟨t, ts', rfl, h1, -⟩ := reads_cons.1 hr
      simp only [wf, Bool.and_eq_true, decide_eq_true_eq] at hw
      have key : ∀ p ∈ dateParts, p.all isAscii = true ∧ p ≠ [] ∧
        p ∉ [str!"distinct", str!"all", str!"rollup", str!"on"] := by decide
      obtain ⟨k1, k2, k3⟩ := key part hw.1.1
      have hl := lower_kw h1 k1
      refine ⟨t, ts', rfl, ?_, by rw [hl]; exact k3⟩
      rintro rfl
      exact k2 (by rw [← hl]; simp [lower])
    · obtain ⟨t, ts', rfl, h1, -⟩ := reads_cons.1 hr
      have key : ∀ p ∈ innerCalls, p.all isAscii = true ∧ p ≠ [] ∧
        p ∉ [str!"distinct", str!"all", str!"rollup", str!"on"] := by decide
      obtain ⟨k1, k2, k3⟩ := key g hg
      have hl := lower_kw h1 k1
      refine ⟨t, ts', rfl, ?_, by rw [hl]; exact k3⟩
      rintro rfl
      exact k2 (by rw [← hl]; simp [lower])

theorem list_first {ns : List Node} (hne : ns ≠ []) (hw : wfList ns = true) (hl : levels ns ≤ 5) {ts : List Str}
    (hr : Reads (toksList ns) ts) :
    ∃ t ts', ts = t :: ts' ∧ t ≠ [] ∧ lower t ∉ [str!"distinct", str!"all", str!"rollup", str!"on"] := by
  cases ns with
  | nil => exact absurd rfl hne
  | cons n ns =>
    have hn := wfList_iff.1 hw n (by simp)
    have hl' := levels_le.1 hl n (by simp)
    cases ns with
    | nil => rw [toksList] at hr; exact item_first hn hl' hr
    | cons m ns =>
      rw [toksList] at hr
      · replace hr := reads_append.1 hr
        obtain ⟨x, y, rfl, hx, hy⟩ := hr
        obtain ⟨t, ts', rfl, h1, h2⟩ := item_first hn hl' hx
        exact ⟨t, ts' ++ y, rfl, h1, h2⟩
      · simp

theorem count_ok {args : List Node} {d : Bool} (hw : wf (.count args d) = true) (h : ∀ n ∈ args, ItemOk n) :
    CallOk (.count args d) := by
  intro ts hr
  simp only [wf, Bool.and_eq_true, decide_eq_true_eq] at hw
  obtain ⟨hl, hw⟩ := hw
  simp only [toks] at hr
  replace hr := reads_cons.1 hr
  obtain ⟨main, ts', rfl, ht, hr⟩ := hr
  replace hr := reads_parens hr
  obtain ⟨x, rfl, hr⟩ := hr
  replace hr := reads_append.1 hr
  obtain ⟨y, z, rfl, hy, hr⟩ := hr
  obtain ⟨args', hf', he'⟩ := list_ok hw hl h hr
  have hnp : NotPrimary main := kw_notPrimary ht (by decide) (by decide) (by decide)
  have hlt := lower_kw ht (by decide)
  refine ⟨.count args' d, main, _, by simp [fold, hf'], rfl, hnp, fun a rest f ha hf => he'.mono fun r h1 => ?_⟩
  · unfold callM
    rw [hlt]
    show countF r _ = _
    unfold countF
    have htz := list_tame hw hr
    rcases reads_opt hy with ⟨rfl, hy⟩ | ⟨rfl, rfl⟩
    · replace hy := reads_cons.1 hy
      obtain ⟨m, y, rfl, hm, hy⟩ := hy
      rw [reads_nil] at hy
      subst hy
      have hml := lower_kw hm (by decide)
      rw [show [m] ++ z ++ [str!")"] ++ rest = m :: (z ++ str!")" :: rest) by simp, bind_ok (next!_cons _ _ _)]
      simp only [hml, decide_true, if_true]
      rw [bind_ok (untilClosing_tame htz rest f), bind_ok (sub_ok h1)]
      rfl
    · by_cases hne : args = []
      · subst hne
        rw [toksList, reads_nil] at hr
        subst hr
        rw [show [] ++ [] ++ [str!")"] ++ rest = str!")" :: rest by simp, bind_ok (next!_cons _ _ _)]
        have : lower str!")" = str!")" := lower_self (by decide) (by decide)
        rw [this]
        rw [bind_ok (show untilClosing (if (decide (str!")" = str!"distinct")) = true then none else some str!")") _ = _
          from untilClosing_empty_first rest f), bind_ok (sub_ok h1)]
        rfl
      · obtain ⟨t, z, rfl, ht0, htl⟩ := list_first hne hw hl hr
        rw [show [] ++ t :: z ++ [str!")"] ++ rest = t :: (z ++ str!")" :: rest) by simp, bind_ok (next!_cons _ _ _)]
        have : lower t ≠ str!"distinct" := fun h => htl (by rw [h]; simp)
        simp only [this, decide_false, Bool.false_eq_true, if_false]
        rw [bind_ok (untilClosing_tame_first htz ht0 rest f), bind_ok (sub_ok h1)]
        rfl

theorem cast_ok {c t : Node} (hw : wf (.cast c t) = true) (h : OpdOk c) : CallOk (.cast c t) := by
  intro ts hr
  simp only [wf, Bool.and_eq_true, decide_eq_true_eq] at hw
  obtain ⟨⟨⟨hl, hty⟩, hwc⟩, hwt⟩ := hw
  simp only [toks] at hr
  replace hr := reads_cons.1 hr
  obtain ⟨main, ts', rfl, ht, hr⟩ := hr
  rw [show ∀ a b c : List Tok, a ++ Tok.kw str!"as" :: b ++ c = (a ++ Tok.kw str!"as" :: b) ++ c from fun _ _ _ => rfl] at hr
  replace hr := reads_parens hr
  obtain ⟨x, rfl, hr⟩ := hr
  cases t with
  | type v =>
    replace hr := reads_append.1 hr
    obtain ⟨x, y, rfl, hx, hy⟩ := hr
    simp only [toks] at hy
    replace hy := reads_cons.1 hy
    obtain ⟨as, y, rfl, has, hy⟩ := hy
    replace hy := reads_cons.1 hy
    obtain ⟨ty, y, rfl, hty', hy⟩ := hy
    rw [reads_nil] at hy
    subst hy
    have hasl := lower_kw has (by decide)
    obtain ⟨c', hc', h1⟩ := h.rhs hx (reads_ne hwc (by omega) x hx)
    have hnp : NotPrimary main := kw_notPrimary ht (by decide) (by decide) (by decide)
    have hlt := lower_kw ht (by decide)
    refine ⟨.cast c' (.type ty), main, _, by rw [reads_kw] at hty'; simp [fold, hc', hty'], rfl, hnp,
      fun a rest f ha hf => ?_⟩
    refine (h1 a.untilOneOf [] none (fun _ => rfl) .none).mono fun r h1 => ?_
    rw [List.append_nil] at h1
    · unfold callM
      rw [hlt]
      show castF r a _ = _
      unfold castF
      have htz := tame_expr (by omega) hwc hx
      have hsc : untilOneOf [str!"as"] none [] ⟨x ++ [as, ty] ++ [str!")"] ++ rest, f⟩ =
          .ok ((x, some as), ⟨ty :: str!")" :: rest, f⟩) := by
        rw [show x ++ [as, ty] ++ [str!")"] ++ rest = x ++ as :: (ty :: str!")" :: rest) by simp]
        exact untilOneOf_stop htz (by decide) (by decide) [] (by rw [hasl]; decide) (fun _ _ => by simp) _ _
      rw [bind_ok hsc]
      dsimp only
      rw [bind_ok (sub_ok h1)]
      dsimp only
      rw [bind_ok (assert_true (isWord_lower.2 hasl)), bind_ok (next!_cons _ _ _),
        bind_ok (next!_cons _ _ _)]
      have : lower str!")" = str!")" := lower_self (by decide) (by decide)
      rw [bind_ok (assert_true (by simp [this]))]
      rfl
  | _ => simp [isTypeName] at hty

end

end SqlV.Core
