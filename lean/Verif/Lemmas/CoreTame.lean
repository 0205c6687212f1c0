import Verif.Lemmas.Tame
import Mathlib.Tactic.Tauto

/-! The tokens of the trees of the core grammar are tame. -/

set_option linter.unusedSectionVars false

namespace SqlV.Core

open Scan Lex

variable [E : PyEnv]

/-- Stop words except AS. -/
def itemStops : List Str := stopWords.erase str!"as"

/-- Stop words except AS and EXCEPT. -/
def listStops : List Str := itemStops.erase str!"except"

/-- Stop words except AS and FROM. -/
def sourceStops : List Str := itemStops.erase str!"from"

/-- Words that end FROM, and WITH. -/
def fromStops : List Str :=
  [str!"with", str!"where", str!"group", str!"having", str!"order", str!"limit", str!"offset", str!";"]

/-- These and set operators. -/
def joinStops : List Str := fromStops ++ setOperators

/-- Stop words except ASC and DESC. -/
def orderStops : List Str := (stopWords.erase str!"asc").erase str!"desc"

/-- Words that do not occur in a tree outside parentheses; the second list: except in CASE expressions. -/
def avoid : Node → List Str × List Str
  | .none | .raw _ | .column _ | .chained .. | .int _ | .float _ | .string .. | .null | .bool _ | .type _
  | .count .. | .cast .. | .arrayAgg .. | .filtered .. | .analytics .. | .paren _ | .array _ | .index .. | .case ..
  | .arith .. | .bitwise .. | .neg _ | .cond .. | .boolc .. =>
    (stopWords, caseWords)
  | .func f _ => if f ∈ innerCalls then ([str!","], caseWords) else (stopWords, caseWords)
  | .except_ .. | .replace .. => (listStops, caseWords)
  | .datePart .. => (stopWords.erase str!"from", caseWords)
  | .whenThen .. => (stopWords, [])
  | .alias .. | .table .. => (itemStops, caseWords)
  | .unnest .. => (sourceStops, caseWords)
  | .on _ | .using_ _ | .join .. => (joinStops, [])
  | .combined .. => (fromStops, [])
  | .orderItem .. => (orderStops, caseWords)
  | .select es all d on f w g h o l off semi =>
    if isBare (.select es all d on f w g h o l off semi) then (joinStops, []) else ([], [])
  | _ => ([], [])

theorem alias_or {al : Node} {w : Bool} (h : isAlias al w = true) :
    (∃ v, al = .raw v ∧ w = false) ∨ (∃ v, al = .column v ∧ v ≠ str!"*" ∧ w = true) ∨ ∃ v q, al = .string v q none ∧ w = true := by
  cases w with
  | false => cases al with
    | raw v => exact .inl ⟨v, rfl, rfl⟩
    | _ => exact absurd h Bool.false_ne_true
  | true =>
    cases al with
    | column v => exact .inr (.inl ⟨v, rfl, by simpa [isAlias, isCol, isLit] using h, rfl⟩)
    | string v q pre => cases pre with
      | none => exact .inr (.inr ⟨v, q, rfl, rfl⟩)
      | some p => exact absurd h Bool.false_ne_true
    | _ => exact absurd h Bool.false_ne_true

theorem inner_of_level {f : Str} {args : List Node} (h : level (.func f args) ≤ 4) : f ∉ innerCalls := by
  intro hf
  rw [level, if_pos hf] at h
  omega

theorem level_outer {f : Str} {args : List Node} (h : f ∉ innerCalls) : level (.func f args) = 0 := by
  rw [level, if_neg h]

theorem avoid_of_level {n : Node} (h : level n ≤ 3) : avoid n = (stopWords, caseWords) := by
  cases n <;> first
    | exact if_neg (inner_of_level (Nat.le_trans h (by omega)))
    | rfl
    | (simp only [level] at h; omega)
    | (unfold level at h; (repeat' split at h) <;> omega)

theorem avoid_of_item {n : Node} (h : level n ≤ 4) (w : Str) (hw : w ∈ listStops) : w ∈ (avoid n).1 := by
  have hi : w ∈ itemStops := List.mem_of_mem_erase hw
  have hs : w ∈ stopWords := List.mem_of_mem_erase hi
  cases n <;> first
    | (rw [avoid, if_neg (inner_of_level h)]; exact hs)
    | exact hs
    | exact hi
    | exact hw
    | (simp only [level] at h; omega)
    | (unfold level at h; (repeat' split at h) <;> omega)

theorem avoid_of_plain {n : Node} (h : level n ≤ 4) (hi : isItem n = true) (w : Str) (hw : w ∈ itemStops) :
    w ∈ (avoid n).1 := by
  have hs : w ∈ stopWords := List.mem_of_mem_erase hw
  cases n <;> first
    | (rw [avoid, if_neg (inner_of_level h)]; exact hs)
    | exact hs
    | exact hw
    | exact absurd hi Bool.false_ne_true
    | (simp only [level] at h; omega)
    | (unfold level at h; (repeat' split at h) <;> omega)

theorem level_name {n : Node} (h : isName n = true) : level n = 0 := by
  cases n with
  | column => simp [level]
  | string v q pre => cases pre <;> simp [isName] at h; simp [level]
  | index e is => simp only [isName] at h; simp [level, h]
  | _ => simp [isName] at h

theorem level_chain {n : Node} (h : isChain n = true) : level n = 0 := by
  cases n with
  | column | chained => simp [level]
  | string v q pre => cases pre <;> simp [isChain] at h; simp [level]
  | index e is => simp only [isChain] at h; simp [level, h]
  | _ => simp [isChain] at h

/-- What an index belongs to. -/
theorem level_base {n : Node} (h : (isCol n || indexable n) = true) : level n ≤ 1 := by
  cases n with
  | index e is => simp only [level]; split <;> omega
  | paren args => simp only [isCol, Bool.false_or, indexable, decide_eq_true_eq] at h; simp [level, h]
  | func f args =>
    rw [level_outer (by simpa [isCol, indexable] using h)]
    omega
  | column | count | cast | arrayAgg | filtered | array => simp [level]
  | _ => simp [isCol, indexable] at h

theorem item_sub : ∀ w ∈ itemStops, w ∈ stopWords := by decide
theorem list_sub : ∀ w ∈ listStops, w ∈ itemStops := by decide
theorem list_sub' : ∀ w ∈ listStops, w ∈ stopWords := by decide
theorem order_sub : ∀ w ∈ orderStops, w ∈ stopWords := by decide
theorem source_sub : ∀ w ∈ sourceStops, w ∈ itemStops := by decide
theorem source_sub' : ∀ w ∈ sourceStops, w ∈ stopWords := by decide
theorem join_sub : ∀ w ∈ joinStops, w ∈ sourceStops := by decide
theorem join_sub' : ∀ w ∈ joinStops, w ∈ stopWords := by decide
theorem from_sub : ∀ w ∈ fromStops, w ∈ joinStops := by decide

section
variable [L : LawfulPyEnv E]

/-! ### Single tokens -/

/-- Nothing to count. -/
def plainWord (w : Str) : Bool :=
  decide (w ∉ [str!"(", str!")", str!"[", str!"]", str!"case", str!"end"] ++ quotes)

theorem quiet_of_lower {base extra : List Str} {t w : Str} (h : lower t = w) (hp : plainWord w = true)
    (hb : w ∉ base) (he : w ∉ extra) : Quiet base extra t := by
  simp only [plainWord, decide_eq_true_eq, List.mem_append, not_or] at hp
  obtain ⟨hp, hq⟩ := hp
  obtain ⟨b1, b2, b3, b4⟩ := not_bracket h (fun hm => hp (by
    simp only [List.mem_cons, List.not_mem_nil, or_false] at hm ⊢; tauto))
  simp only [List.mem_cons, List.not_mem_nil, or_false, not_or] at hp
  refine ⟨?_, fun hm => hq (h ▸ (lower_quote hm).symm ▸ hm), h ▸ hb, h ▸ he,
    by simp [h, hp.2.1, hp.2.2.2.1]⟩
  simp [isDelim, b1, b2, b3, b4, h, hp.2.2.2.2.1, hp.2.2.2.2.2]

theorem quiet_kw {base extra : List Str} {t w : Str} (h : (Tok.kw w).reads t) (ha : w.all isAscii)
    (hp : plainWord w = true) (hb : w ∉ base) (he : w ∉ extra) : Quiet base extra t :=
  quiet_of_lower (lower_kw h ha) hp hb he

theorem quiet_ident {s : Str} (h : ident s = true) : Quiet stopWords caseWords s := by
  simp only [ident, Bool.and_eq_true, decide_eq_true_eq, Bool.not_eq_true'] at h
  obtain ⟨⟨⟨⟨⟨h1, h2⟩, h3⟩, h4⟩, -⟩, -⟩ := h
  have hr : ∀ w ∈ stopWords ++ caseWords ++ [str!"case", str!"end", str!")", str!"]"], lower s ≠ w := by
    intro w hw he
    refine h4 (he ▸ ?_)
    simp only [reserved, List.mem_append, List.mem_cons, List.not_mem_nil, or_false] at hw ⊢
    tauto
  have hc : ∀ c, isQuote c ∨ isPunct c → s ≠ [c] := by
    rintro c hc rfl
    simp only [List.all_cons, List.all_nil, Bool.and_true, Bool.and_eq_true, Bool.not_eq_true',
      decide_eq_true_eq] at h2
    rcases hc with hc | hc
    · rw [h2.1.1.1.1] at hc; cases hc
    · rw [h2.1.1.2] at hc; cases hc
  refine ⟨?_, ?_, fun hm => hr _ (by simp [hm]) rfl, fun hm => hr _ (by simp [hm]) rfl,
    fun hm => hr (lower s) (by
      simp only [List.mem_append, List.mem_cons, List.not_mem_nil, or_false] at hm ⊢; tauto) rfl⟩
  · simp only [isDelim, Bool.or_eq_false_iff, decide_eq_false_iff_not]
    refine ⟨⟨⟨⟨⟨?_, ?_⟩, ?_⟩, ?_⟩, hr _ (by simp)⟩, hr _ (by simp)⟩ <;> exact hc _ (.inr (by decide))
  · simp only [quotes, List.mem_cons, List.not_mem_nil, or_false, not_or]
    exact ⟨hc _ (.inl (by decide)), hc _ (.inl (by decide)), hc _ (.inl (by decide))⟩

theorem digit_lower {s : Str} (h : s.all Char.isDigit) : s.all isAscii ∧ s.map Char.toLower = s := by
  have hc : ∀ c : Char, c.isDigit = true → isAscii c = true ∧ c.toLower = c := by
    intro c h
    have hv : c.val.toNat ≤ 57 := by
      simp only [Char.isDigit, Bool.and_eq_true, decide_eq_true_eq] at h
      exact UInt32.le_iff_toNat_le.1 h.2
    constructor
    · simp only [isAscii, decide_eq_true_eq]
      have : c.toNat = c.val.toNat := rfl
      omega
    · unfold Char.toLower
      split
      · rename_i h'
        have : 65 ≤ c.val.toNat := UInt32.le_iff_toNat_le.1 h'.1
        omega
      · rfl
  constructor
  · simp only [List.all_eq_true] at h ⊢
    exact fun c hc' => (hc c (h c hc')).1
  · conv => rhs; rw [← List.map_id s]
    simp only [List.all_eq_true] at h
    exact List.map_congr_left fun c hc' => (hc c (h c hc')).2


/-- Only digits and dots. -/
theorem decimal_lower {s : Str} (h : isDecimal s = true) : s ≠ [] ∧ s.all isAscii = true ∧ lower s = s ∧
    ∀ c ∈ s, c.isDigit = true ∨ c = '.' := by
  simp only [isDecimal, Bool.and_eq_true, decide_eq_true_eq] at h
  obtain ⟨⟨⟨h1, h2⟩, -⟩, -⟩ := h
  have hc : ∀ c ∈ s, c.isDigit = true ∨ c = '.' := fun c hc => by simpa using List.all_eq_true.1 h1 c hc
  have ha : ∀ c ∈ s, isAscii c = true ∧ c.toLower = c := by
    intro c hm
    rcases hc c hm with h | rfl
    · have := digit_lower (s := [c]) (by simp [h])
      simpa using this
    · decide
  have hall : s.all isAscii = true := List.all_eq_true.2 fun c hm => (ha c hm).1
  refine ⟨?_, hall, lower_self hall ?_, hc⟩
  · rintro rfl; simp at h2
  · exact (List.map_congr_left fun c hm => (ha c hm).2).trans (List.map_id _)

/-- A decimal number is no word. -/
theorem decimal_not {s : Str} (h : isDecimal s = true) {ws : List Str}
    (hw : ws.all (fun w => w.isEmpty || w.any fun c => !c.isDigit && decide (c ≠ '.')) = true) : s ∉ ws := by
  intro hm
  obtain ⟨h1, -, -, h2⟩ := decimal_lower h
  have := List.all_eq_true.1 hw s hm
  simp only [Bool.or_eq_true, List.isEmpty_iff, List.any_eq_true, Bool.and_eq_true, Bool.not_eq_true',
    decide_eq_true_eq] at this
  rcases this with rfl | ⟨c, hc, h3, h4⟩
  · exact h1 rfl
  · rcases h2 c hc with h | h
    · rw [h] at h3; cases h3
    · exact h4 h

/-- A float is written with or without a sign. -/
theorem float_cases {r : Str} (h : wf (.float r) = true) :
    (isDecimal r = true ∧ E.floatStr r = some r ∧ toks (.float r) = [.lit r]) ∨
      ∃ s, r = '-' :: s ∧ isDecimal s = true ∧ E.floatStr s = some s ∧ toks (.float r) = [.lit str!"-", .lit s] := by
  simp only [wf, Bool.and_eq_true, decide_eq_true_eq] at h
  by_cases hr : r.head? = some '-'
  · match r, hr with
    | _ :: s, rfl => exact .inr ⟨s, rfl, h.1, h.2, rfl⟩
  · have hu : unsigned r = r := by
      unfold unsigned
      split
      · exact absurd rfl hr
      · rfl
    rw [hu] at h
    refine .inl ⟨h.1, h.2, ?_⟩
    rw [toks, hu, decide_eq_false hr]
    rfl

theorem quiet_decimal {s : Str} (h : isDecimal s = true) : Quiet stopWords caseWords s := by
  obtain ⟨-, -, hl, -⟩ := decimal_lower h
  refine quiet_of_lower hl ?_ (decimal_not h (by decide)) (decimal_not h (by decide))
  simp only [plainWord, decide_eq_true_eq]
  exact decimal_not h (by decide)

theorem prefix_lower {p : Str} (h : p ∈ [str!"r", str!"R"]) : lower p = str!"r" := by
  simp only [List.mem_cons, List.not_mem_nil, or_false] at h
  rcases h with rfl | rfl <;> (rw [lower_ascii (by decide)]; decide)

theorem quiet_prefix {p : Str} (h : p ∈ [str!"r", str!"R"]) : Quiet stopWords caseWords p :=
  quiet_of_lower (prefix_lower h) (by decide) (by decide) (by decide)

theorem quiet_fname {s t : Str} (h : fname s = true) (ht : (Tok.kw s).reads t) : Quiet stopWords caseWords t := by
  simp only [fname, Bool.and_eq_true, decide_eq_true_eq] at h
  obtain ⟨⟨h1, h2⟩, h3⟩ := h
  have hs : lower s = s := lower_self h2 h3
  have hl : lower t = s := lower_kw ht h2
  obtain ⟨q1, q2, q3, q4, -⟩ := quiet_ident h1
  refine quiet_of_lower hl ?_ (hs ▸ q3) (hs ▸ q4)
  simp only [isDelim, Bool.or_eq_false_iff, decide_eq_false_iff_not, hs] at q1
  simp only [plainWord, decide_eq_true_eq, List.mem_append, List.mem_cons, List.not_mem_nil, or_false, not_or]
  tauto

theorem quiet_num {t : Str} {n : Nat} (h : (Tok.num n).reads t) : Quiet stopWords caseWords t := by
  obtain ⟨h1, h2, -, -⟩ := h
  obtain ⟨ha, hl⟩ := digit_lower h2
  have hs : lower t = t := lower_self ha hl
  have hd : ∀ w : Str, (w.all Char.isDigit = false) → t ≠ w := by
    rintro w hw rfl; rw [h2] at hw; cases hw
  have hw : ∀ ws : List Str, (ws.all fun w => !w.all Char.isDigit) = true → t ∉ ws := by
    intro ws hws hm
    rw [List.all_eq_true] at hws
    exact hd t (by simpa using hws t hm) rfl
  refine quiet_of_lower hs ?_ (hw _ (by decide)) (hw _ (by decide))
  simp only [plainWord, decide_eq_true_eq]
  exact hw _ (by decide)

theorem quiet_content {q s : Str} (h : content q s = true) : Quiet stopWords caseWords s := by
  simp only [content, Bool.and_eq_true, decide_eq_true_eq, Bool.not_eq_true'] at h
  obtain ⟨⟨h1, h2⟩, h3⟩ := h
  refine ⟨h2, ?_, fun hm => h3 (by simp [hm]), fun hm => h3 (by simp [hm]), fun hm => h3 (by
    simp only [List.mem_append, List.mem_cons, List.not_mem_nil, or_false] at hm ⊢; tauto)⟩
  simp only [quotes, List.mem_cons, List.not_mem_nil, or_false, not_or]
  refine ⟨?_, ?_, ?_⟩ <;> (rintro rfl; exact h3 (by rw [lower_self (by decide) (by decide)]; decide))

theorem Tame.one {base extra : List Str} {t : Str} (h : Quiet base extra t) : Tame base extra [t] :=
  .tok t [] h (.nil _ _)

theorem Tame.cons {base extra l : List Str} {t : Str} (h : Quiet base extra t) (hl : Tame base extra l) :
    Tame base extra (t :: l) := .tok t l h hl

/-! ### Sequences -/

theorem source_avoid {n : Node} (hn : isSource n = true) (w : Str) (hw : w ∈ joinStops) : w ∈ (avoid n).1 := by
  cases n <;> first
    | exact join_sub w hw
    | exact source_sub _ (join_sub w hw)
    | exact join_sub' w hw
    | exact absurd hn Bool.false_ne_true

theorem left_avoid {n : Node} (hn : isLeft n = true) (w : Str) (hw : w ∈ joinStops) : w ∈ (avoid n).1 := by
  cases n <;> first | exact hw | exact source_avoid hn w hw

theorem from_avoid {n : Node} (hn : isFrom n = true) (w : Str) (hw : w ∈ joinStops) : w ∈ (avoid n).1 := by
  simp only [isFrom, Bool.or_eq_true] at hn
  rcases hn with hn | hn
  · cases n <;> first | exact hw | exact absurd hn Bool.false_ne_true
  · exact source_avoid hn w hw

theorem plain_from {n : Node} (h : plainFrom n = true) : isFrom n = true := by
  cases n <;> first | rfl | (rw [isFrom, show isSource _ = true from h, Bool.or_true])

theorem plain_body {n : Node} (h : plainFrom n = true) : isBody n = true := by rw [isBody, plain_from h, Bool.true_or]

theorem bare_avoid {n : Node} (hn : isBare n = true) (w : Str) (hw : w ∈ joinStops) : w ∈ (avoid n).1 := by
  cases n <;> first
    | exact absurd hn Bool.false_ne_true
    | (simp only [avoid, if_pos hn]; exact hw)

/-- What is to be shown for a tree. -/
def TameOk (n : Node) : Prop :=
  wf n = true → ∀ ts, Reads (toks n) ts → Tame (avoid n).1 (avoid n).2 ts

theorem reads_kws {ws : List Str} {base extra : List Str}
    (h : ∀ w ∈ ws, w.all isAscii ∧ plainWord w ∧ w ∉ base ∧ w ∉ extra) {ts : List Str}
    (hr : Reads (ws.map .kw) ts) : Tame base extra ts := by
  induction ws generalizing ts with
  | nil => rw [List.map_nil, reads_nil] at hr; subst hr; exact .nil _ _
  | cons w ws ih =>
    rw [List.map_cons, reads_cons] at hr
    obtain ⟨t, ts', rfl, h1, h2⟩ := hr
    obtain ⟨a, b, c, d⟩ := h w (by simp)
    exact .tok _ _ (quiet_kw h1 a b c d) (ih (fun w hw => h w (by simp [hw])) h2)

theorem reads_opt {b : Bool} {l : List Tok} {ts : List Str} (h : Reads (opt b l) ts) :
    (b = true ∧ Reads l ts) ∨ (b = false ∧ ts = []) := by
  cases b
  · exact .inr ⟨rfl, reads_nil.1 h⟩
  · exact .inl ⟨rfl, h⟩

/-- A list with commas. -/
theorem tame_list {base extra : List Str} {ns : List Node}
    (h : ∀ n ∈ ns, ∀ ts, Reads (toks n) ts → Tame base extra ts) (hb : str!"," ∉ base) (he : str!"," ∉ extra) :
    ∀ ts, Reads (toksList ns) ts → Tame base extra ts := by
  have hc : Quiet base extra str!"," :=
    quiet_of_lower (lower_self (by decide) (by decide)) (by decide) hb he
  induction ns with
  | nil => intro ts hr; rw [toksList, reads_nil] at hr; subst hr; exact .nil _ _
  | cons n ns ih =>
    intro ts hr
    cases ns with
    | nil => exact h n (by simp) ts hr
    | cons m ns =>
      rw [toksList, reads_append] at hr
      · obtain ⟨x, y, rfl, hx, hy⟩ := hr
        obtain ⟨c, y', rfl, rfl, hy'⟩ := reads_cons.1 hy
        exact (h n (by simp) x hx).append (.tok _ _ hc (ih (fun k hk => h k (by simp [hk])) y' hy'))
      · simp

theorem tame_seq {base extra : List Str} {ns : List Node}
    (h : ∀ n ∈ ns, ∀ ts, Reads (toks n) ts → Tame base extra ts) :
    ∀ ts, Reads (toksSeq ns) ts → Tame base extra ts := by
  induction ns with
  | nil => intro ts hr; rw [toksSeq, reads_nil] at hr; subst hr; exact .nil _ _
  | cons n ns ih =>
    intro ts hr
    rw [toksSeq, reads_append] at hr
    obtain ⟨x, y, rfl, hx, hy⟩ := hr
    exact (h n (by simp) x hx).append (ih (fun k hk => h k (by simp [hk])) y hy)

/-- Something in parentheses. -/
theorem tame_parens {base extra : List Str} {ks : List Tok} (h : ∀ ts, Reads ks ts → Tame [] [] ts)
    {ts : List Str} (hr : Reads (.lit str!"(" :: (ks ++ [.lit str!")"])) ts) : Tame base extra ts := by
  obtain ⟨o, x, rfl, rfl, hx⟩ := reads_cons.1 hr
  obtain ⟨a, b, rfl, ha, hb⟩ := reads_append.1 hx
  obtain ⟨c, y, rfl, rfl, hy⟩ := reads_cons.1 hb
  rw [reads_nil] at hy
  subst hy
  exact .paren a [] (h a ha) (.nil _ _)

/-- Something in brackets. -/
theorem tame_squares {base extra : List Str} {ks : List Tok} (h : ∀ ts, Reads ks ts → Tame [] [] ts)
    {ts : List Str} (hr : Reads (.lit str!"[" :: (ks ++ [.lit str!"]"])) ts) : Tame base extra ts := by
  obtain ⟨o, x, rfl, rfl, hx⟩ := reads_cons.1 hr
  obtain ⟨a, b, rfl, ha, hb⟩ := reads_append.1 hx
  obtain ⟨c, y, rfl, rfl, hy⟩ := reads_cons.1 hb
  rw [reads_nil] at hy
  subst hy
  exact .square a [] (h a ha) (.nil _ _)

theorem wfList_iff {ns : List Node} : wfList ns = true ↔ ∀ n ∈ ns, wf n = true := by
  induction ns with
  | nil => simp [wfList]
  | cons n ns ih => simp [wfList, ih]

theorem TameOk.none {n : Node} (h : TameOk n) (hw : wf n = true) {ts : List Str} (hr : Reads (toks n) ts) :
    Tame [] [] ts := (h hw ts hr).none

theorem TameOk.expr {n : Node} (h : TameOk n) (hl : level n ≤ 3) (hw : wf n = true) {ts : List Str}
    (hr : Reads (toks n) ts) : Tame stopWords caseWords ts := by
  have := h hw ts hr
  rwa [avoid_of_level hl] at this

theorem tame_preds {p : Str} (hp : p ∈ str!"between" :: corePreds) {ts : List Str} (hr : Reads (predToks p) ts) :
    Tame stopWords caseWords ts := by
  have key : ∀ ws : List Str, predToks p = ws.map .kw →
      (∀ w ∈ ws, w.all isAscii ∧ plainWord w ∧ w ∉ stopWords ∧ w ∉ caseWords) → Tame stopWords caseWords ts := by
    intro ws h1 h2
    rw [h1] at hr
    exact reads_kws h2 hr
  simp only [corePreds, List.mem_cons, List.not_mem_nil, or_false] at hp
  rcases hp with rfl | rfl | rfl | rfl | rfl | rfl | rfl | rfl | rfl | rfl | rfl | rfl | rfl | rfl
  all_goals first
    | exact key [_] rfl (by decide)
    | exact key [str!"is", str!"not"] rfl (by decide)
    | exact key [str!"not", str!"in"] rfl (by decide)

theorem tame_case {o e : Node} {ws : List Node} (ho : TameOk o) (hws : ∀ n ∈ ws, TameOk n) (he : TameOk e) :
    TameOk (.case o ws e) := by
  intro hw ts hr
  simp only [wf, Bool.and_eq_true, decide_eq_true_eq, Bool.or_eq_true, Bool.not_eq_true'] at hw
  obtain ⟨⟨⟨⟨⟨⟨⟨h1, -⟩, -⟩, h3⟩, h4⟩, h5⟩, h6⟩, h7⟩ := hw
  simp only [toks] at hr
  obtain ⟨c, x, rfl, hc, hx⟩ := reads_cons.1 hr
  obtain ⟨a, b, rfl, ha, hb⟩ := reads_append.1 hx
  obtain ⟨a, a3, rfl, ha, ha3⟩ := reads_append.1 ha
  obtain ⟨a1, a2, rfl, ha1, ha2⟩ := reads_append.1 ha
  obtain ⟨d, y, rfl, hd, hy⟩ := reads_cons.1 hb
  rw [reads_nil] at hy
  subst hy
  refine .case c d _ [] (lower_kw hc (by decide)) (lower_kw hd (by decide)) ?_ (.nil _ _)
  have hempty : ∀ {n : Node}, n.truthy = false → toks n = [] := by
    intro n h; cases n <;> first | rfl | simp [Node.truthy] at h
  have t1 : Tame stopWords [] a1 := by
    rcases h1 with h | h
    · rw [hempty h, reads_nil] at ha1; subst ha1; exact .nil _ _
    · exact (ho.expr h h5 ha1).mono (fun _ h => h) (by simp)
  have t2 : Tame stopWords [] a2 := by
    refine tame_seq ?_ a2 ha2
    intro n hn ts hr
    have hwn := List.all_eq_true.1 h3 n hn
    have := hws n hn (wfList_iff.1 h6 n hn) ts hr
    cases n <;> simp [isWhen] at hwn
    exact this
  have t3 : Tame stopWords [] a3 := by
    rcases reads_opt ha3 with ⟨ht, hr⟩ | ⟨-, rfl⟩
    · obtain ⟨k, z, rfl, hk, hz⟩ := reads_cons.1 hr
      have : level e ≤ 3 := by rcases h4 with h | h; · rw [h] at ht; cases ht
                               · exact h
      exact .tok _ _ (quiet_kw hk (by decide) (by decide) (by decide) (by simp))
        ((he.expr this h7 hz).mono (fun _ h => h) (by simp))
    · exact .nil _ _
  exact (t1.append t2).append t3

theorem level_call {n : Node} (h : isCall n = true) : level n ≤ 3 := by
  cases n <;> simp [isCall] at h <;> simp [level, h]

theorem level_function {n : Node} (h : isFunction n = true) : level n ≤ 3 := by
  cases n <;> simp [isFunction, isCall] at h <;> simp [level, h]

theorem level_star {n : Node} (h : isStar n = true) : level n ≤ 3 := by
  cases n <;> simp [isStar] at h <;> simp [level]

theorem tame_limit {l : Option Int} {ts : List Str} (hr : Reads (limitToks l) ts) : Tame [] [] ts := by
  cases l with
  | none => rw [limitToks, reads_nil] at hr; subst hr; exact .nil _ _
  | some i =>
    obtain ⟨t, y, rfl, ht, hy⟩ := reads_cons.1 hr
    obtain ⟨u, z, rfl, hu, hz⟩ := reads_cons.1 hy
    rw [reads_nil] at hz
    subst hz
    exact .cons (quiet_kw ht (by decide) (by decide) (by simp) (by simp))
      (.one ((quiet_num hu).mono (by simp) (by simp)))

theorem frameWord_plain {w : Str} (h : frameWord w = true) : w.all isAscii ∧ plainWord w := by
  simp only [frameWord, Bool.or_eq_true, decide_eq_true_eq, Bool.and_eq_true] at h
  rcases h with h | ⟨-, h⟩
  · exact (by decide : ∀ w ∈ frameWords, w.all isAscii ∧ plainWord w) w h
  · refine ⟨(digit_lower h).1, ?_⟩
    simp only [plainWord, decide_eq_true_eq]
    intro hm
    have key : ∀ u ∈ [str!"(", str!")", str!"[", str!"]", str!"case", str!"end"] ++ quotes,
        u.all Char.isDigit = false := by decide
    rw [key w hm] at h
    cases h

theorem tame_frame {ws ts : List Str} (h : ws.all frameWord = true) (hr : Reads (ws.map .kw) ts) :
    Tame [] [] ts :=
  reads_kws (fun w hw => ⟨(frameWord_plain (List.all_eq_true.1 h w hw)).1,
    (frameWord_plain (List.all_eq_true.1 h w hw)).2, by simp, by simp⟩) hr

theorem empty_toks {n : Node} (h : n.truthy = false) : toks n = [] := by
  cases n <;> first | rfl | simp [Node.truthy] at h

theorem bare_cases {es on : List Node} {all d semi : Bool} {f w g h o l off : Node}
    (hb : isBare (.select es all d on f w g h o l off semi) = true) :
    all = false ∧ on = [] ∧ (∀ e ∈ es, isItem e = true) ∧ orNone isFrom f = true ∧ w.truthy = false ∧
      g.truthy = false ∧ h.truthy = false ∧ o.truthy = false ∧ l.truthy = false ∧ off.truthy = false ∧
      semi = false := by
  simp only [isBare, Bool.and_eq_true, Bool.not_eq_true', List.isEmpty_iff, List.all_eq_true] at hb
  tauto

theorem levels_le {ns : List Node} {k : Nat} : levels ns ≤ k ↔ ∀ n ∈ ns, level n ≤ k := by
  induction ns with
  | nil => simp [levels]
  | cons n ns ih => rw [levels, Nat.max_le, ih]; simp

/-- A query that has only SELECT and FROM. -/
theorem tame_bare {es on : List Node} {all d semi : Bool} {f w g h o l off : Node}
    (hb : isBare (.select es all d on f w g h o l off semi) = true)
    (hw : wf (.select es all d on f w g h o l off semi) = true) (ies : ∀ e ∈ es, TameOk e) (ief : TameOk f)
    {ts : List Str} (hr : Reads (toks (.select es all d on f w g h o l off semi)) ts) :
    Tame joinStops [] ts := by
  obtain ⟨rfl, rfl, b1, b2, b3, b4, b5, b6, b7, b8, rfl⟩ := bare_cases hb
  simp only [wf, Bool.and_eq_true, decide_eq_true_eq] at hw
  obtain ⟨⟨⟨⟨⟨⟨⟨⟨⟨⟨⟨⟨⟨⟨⟨⟨⟨⟨⟨⟨-, hl⟩, w1⟩, -⟩, -⟩, -⟩, w2⟩, -⟩, w3⟩, -⟩, w4⟩, -⟩, w5⟩, -⟩, w6⟩, -⟩, w7⟩, -⟩, w8⟩, -⟩, w9⟩ := hw
  simp only [toks, empty_toks b3, empty_toks b4, empty_toks b5, empty_toks b6, empty_toks b7, empty_toks b8,
    List.isEmpty_nil, Bool.not_true, opt, Bool.false_eq_true, if_false, List.append_nil, List.nil_append] at hr
  replace hr := reads_cons.1 hr
  obtain ⟨t, x, rfl, ht, hx⟩ := hr
  replace hx := reads_append.1 hx
  obtain ⟨x, x3, rfl, hx, hx3⟩ := hx
  replace hx := reads_append.1 hx
  obtain ⟨x1, x2, rfl, hx1, hx2⟩ := hx
  refine .cons (quiet_kw ht (by decide) (by decide) (by decide) (by simp)) ((Tame.append ?_ ?_).append ?_)
  · split at hx1
    · exact reads_kws (ws := [str!"distinct"]) (by decide) hx1
    · rw [reads_nil] at hx1; subst hx1; exact .nil _ _
  · exact tame_list (fun n hn ts hr => (ies n hn (wfList_iff.1 w1 n hn) ts hr).mono
      (fun w hw => avoid_of_plain (levels_le.1 hl n hn) (b1 n hn) w (source_sub _ (join_sub w hw))) (by simp))
      (by decide) (by simp) _ hx2
  · split at hx3
    · rename_i hf
      replace hx3 := reads_cons.1 hx3
      obtain ⟨t, y, rfl, ht, hy⟩ := hx3
      refine .cons (quiet_kw ht (by decide) (by decide) (by decide) (by simp)) ?_
      refine (ief w3 y hy).mono (from_avoid ?_) (by simp)
      cases f <;> first | exact b2 | simp [Node.truthy] at hf
    · rw [reads_nil] at hx3; subst hx3; exact .nil _ _

theorem tame_all (n : Node) : TameOk n := by
  induction n using Node.rec (motive_2 := fun ns => ∀ n ∈ ns, TameOk n) with
  | nil => rename_i h; cases h
  | cons n ns h1 h2 =>
    rename_i m hm
    rcases List.mem_cons.1 hm with rfl | hm
    · exact h1
    · exact h2 m hm
  | none => intro _ ts hr; rw [reads_nil.1 hr]; exact .nil _ _
  | raw s =>
    intro hw ts hr
    replace hr := reads_cons.1 hr
    obtain ⟨t, x, rfl, rfl, hx⟩ := hr
    rw [reads_nil] at hx; subst hx
    exact .one (quiet_ident hw)
  | column s =>
    intro hw ts hr
    replace hr := reads_cons.1 hr
    obtain ⟨t, x, rfl, rfl, hx⟩ := hr
    rw [reads_nil] at hx; subst hx
    simp only [wf, Bool.or_eq_true, decide_eq_true_eq] at hw
    rcases hw with hw | rfl
    · exact .one (quiet_ident hw)
    · exact .one (quiet_of_lower (lower_self (by decide) (by decide)) (by decide) (by decide) (by decide))
  | chained l r hl hr' =>
    intro hw ts hr
    show Tame stopWords caseWords ts
    simp only [wf, Bool.and_eq_true] at hw
    obtain ⟨⟨⟨h1, h2⟩, h3⟩, h4⟩ := hw
    replace hr := reads_append.1 hr
    obtain ⟨x, y, rfl, hx, hy⟩ := hr
    replace hy := reads_cons.1 hy
    obtain ⟨t, y, rfl, rfl, hy⟩ := hy
    refine (hl.expr ?_ h3 hx).append (.cons ?_ (hr'.expr ?_ h4 hy))
    · exact Nat.le_trans (Nat.le_of_eq (level_name h1)) (by omega)
    · exact quiet_of_lower (lower_self (by decide) (by decide)) (by decide) (by decide) (by decide)
    · exact Nat.le_trans (Nat.le_of_eq (level_chain h2)) (by omega)
  | int i =>
    intro hw ts hr
    show Tame stopWords caseWords ts
    replace hr := reads_append.1 hr
    obtain ⟨x, y, rfl, hx, hy⟩ := hr
    replace hy := reads_cons.1 hy
    obtain ⟨t, y, rfl, ht, hy⟩ := hy
    rw [reads_nil] at hy; subst hy
    refine Tame.append ?_ (.one (quiet_num ht))
    rcases reads_opt hx with ⟨-, hx⟩ | ⟨-, rfl⟩
    · replace hx := reads_cons.1 hx
      obtain ⟨t, y, rfl, rfl, hy⟩ := hx
      rw [reads_nil] at hy; subst hy
      exact .one (quiet_of_lower (lower_self (by decide) (by decide)) (by decide) (by decide) (by decide))
    · exact .nil _ _
  | string v q pre =>
    intro hw ts hr
    show Tame stopWords caseWords ts
    simp only [wf, Bool.and_eq_true, decide_eq_true_eq] at hw
    obtain ⟨⟨h0, h1⟩, h2⟩ := hw
    have key : ∀ ts, Reads (.lit q :: ((if v = [] then [] else [.lit v]) ++ [.lit q])) ts → Tame stopWords caseWords ts := by
      intro ts hr
      replace hr := reads_cons.1 hr
      obtain ⟨t, y, rfl, rfl, hy⟩ := hr
      replace hy := reads_append.1 hy
      obtain ⟨x, y, rfl, hx, hy⟩ := hy
      replace hy := reads_cons.1 hy
      obtain ⟨u, y, rfl, rfl, hy⟩ := hy
      rw [reads_nil] at hy; subst hy
      refine .str _ x [] h1 ?_ (.nil _ _)
      split at hx
      · rw [reads_nil] at hx; subst hx; simp
      · replace hx := reads_cons.1 hx
        obtain ⟨t, y, rfl, rfl, hy⟩ := hx
        rw [reads_nil] at hy; subst hy
        simpa using quiet_content h2
    cases pre with
    | none => exact key ts hr
    | some p =>
      simp only [decide_eq_true_eq] at h0
      replace hr := reads_cons.1 hr
      obtain ⟨t, y, rfl, rfl, hy⟩ := hr
      exact .cons (quiet_prefix h0) (key _ hy)
  | float r =>
    intro hw ts hr
    show Tame stopWords caseWords ts
    rcases float_cases hw with ⟨h, -, ht⟩ | ⟨s, rfl, h, -, ht⟩ <;> rw [ht] at hr
    · replace hr := reads_cons.1 hr
      obtain ⟨t, y, rfl, rfl, hy⟩ := hr
      rw [reads_nil] at hy; subst hy
      exact .one (quiet_decimal h)
    · replace hr := reads_cons.1 hr
      obtain ⟨t, y, rfl, rfl, hy⟩ := hr
      replace hy := reads_cons.1 hy
      obtain ⟨t, y, rfl, rfl, hy⟩ := hy
      rw [reads_nil] at hy; subst hy
      exact .cons (quiet_of_lower (lower_self (by decide) (by decide)) (by decide) (by decide) (by decide)) (.one (quiet_decimal h))
  | null =>
    intro hw ts hr
    exact reads_kws (ws := [str!"null"]) (by decide) hr
  | bool b =>
    intro hw ts hr
    cases b
    · exact reads_kws (ws := [str!"false"]) (by decide) hr
    · exact reads_kws (ws := [str!"true"]) (by decide) hr
  | type v =>
    intro hw ts hr
    replace hr := reads_cons.1 hr
    obtain ⟨t, y, rfl, ht, hy⟩ := hr
    rw [reads_nil] at hy; subst hy
    exact .one (quiet_fname hw ht)
  | func f args ih =>
    intro hw ts hr
    simp only [wf, Bool.and_eq_true] at hw
    replace hr := reads_cons.1 hr
    obtain ⟨t, y, rfl, ht, hy⟩ := hr
    have hp := fun {a b} => tame_parens (base := a) (extra := b)
      (tame_list (fun n hn ts hr => (ih n hn).none (wfList_iff.1 hw.2 n hn) hr) (by simp) (by simp)) hy
    rw [avoid]
    split
    · rename_i hf
      obtain ⟨k1, k2, k3, k4⟩ := (by decide : ∀ w ∈ innerCalls, w.all isAscii ∧ plainWord w ∧ w ∉ [str!","] ∧ w ∉ caseWords) f hf
      exact .cons (quiet_kw ht k1 k2 k3 k4) hp
    · rename_i hf
      have hn := hw.1.1.1
      simp only [cname, Bool.or_eq_true, decide_eq_true_eq, List.mem_append, hf, or_false] at hn
      rcases hn with hn | hn
      · exact .cons (quiet_fname hn ht) hp
      · obtain ⟨k1, k2, k3, k4⟩ := (by decide : ∀ w ∈ outerCalls, w.all isAscii ∧ plainWord w ∧ w ∉ stopWords ∧ w ∉ caseWords) f hn
        exact .cons (quiet_kw ht k1 k2 k3 k4) hp
  | count args d ih =>
    intro hw ts hr
    show Tame stopWords caseWords ts
    simp only [wf, Bool.and_eq_true] at hw
    replace hr := reads_cons.1 hr
    obtain ⟨t, y, rfl, ht, hy⟩ := hr
    refine .cons (quiet_kw ht (by decide) (by decide) (by decide) (by decide)) (tame_parens ?_ hy)
    intro ts hr
    replace hr := reads_append.1 hr
    obtain ⟨x, y, rfl, hx, hy⟩ := hr
    refine Tame.append ?_
      (tame_list (fun n hn ts hr => (ih n hn).none (wfList_iff.1 hw.2 n hn) hr) (by simp) (by simp) y hy)
    rcases reads_opt hx with ⟨-, hx⟩ | ⟨-, rfl⟩
    · exact reads_kws (ws := [str!"distinct"]) (by decide) hx
    · exact .nil _ _
  | cast c t hc ht =>
    intro hw ts hr
    show Tame stopWords caseWords ts
    simp only [wf, Bool.and_eq_true] at hw
    replace hr := reads_cons.1 hr
    obtain ⟨u, y, rfl, hu, hy⟩ := hr
    refine .cons (quiet_kw hu (by decide) (by decide) (by decide) (by decide)) (tame_parens ?_ hy)
    intro ts hr
    replace hr := reads_append.1 hr
    obtain ⟨x, y, rfl, hx, hy⟩ := hr
    replace hy := reads_cons.1 hy
    obtain ⟨u, y, rfl, hu, hy⟩ := hy
    exact (hc.none hw.1.2 hx).append (.cons (quiet_kw hu (by decide) (by decide) (by simp) (by simp))
      (ht.none hw.2 hy))
  | paren args ih =>
    intro hw ts hr
    simp only [wf, Bool.and_eq_true] at hw
    exact tame_parens (tame_list (fun n hn ts hr => (ih n hn).none (wfList_iff.1 hw.2 n hn) hr) (by simp) (by simp)) hr
  | array args ih =>
    intro hw ts hr
    simp only [wf, Bool.and_eq_true] at hw
    exact tame_squares (tame_list (fun n hn ts hr => (ih n hn).none (wfList_iff.1 hw.2 n hn) hr) (by simp) (by simp)) hr
  | index e is he ih =>
    intro hw ts hr
    show Tame stopWords caseWords ts
    simp only [wf, Bool.and_eq_true] at hw
    obtain ⟨⟨⟨h1, h2⟩, h3⟩, h4⟩ := hw
    replace hr := reads_append.1 hr
    obtain ⟨x, y, rfl, hx, hy⟩ := hr
    refine (he.expr ?_ h3 hx).append
      (tame_squares (tame_list (fun n hn ts hr => (ih n hn).none (wfList_iff.1 h4 n hn) hr) (by simp) (by simp)) hy)
    exact Nat.le_trans (level_base h1) (by omega)
  | arrayAgg c d ig resp o l hc ho =>
    intro hw ts hr
    show Tame stopWords caseWords ts
    simp only [wf, Bool.and_eq_true, decide_eq_true_eq] at hw
    obtain ⟨⟨⟨⟨⟨⟨-, h1⟩, -⟩, -⟩, -⟩, h2⟩, -⟩ := hw
    replace hr := reads_cons.1 hr
    obtain ⟨t, y, rfl, ht, hy⟩ := hr
    refine .cons (quiet_kw ht (by decide) (by decide) (by decide) (by decide)) (tame_parens ?_ hy)
    intro ts hr
    obtain ⟨x, x5, rfl, hx, hx5⟩ := reads_append.1 hr
    obtain ⟨x, x4, rfl, hx, hx4⟩ := reads_append.1 hx
    obtain ⟨x, x3, rfl, hx, hx3⟩ := reads_append.1 hx
    obtain ⟨x1, x2, rfl, hx1, hx2⟩ := reads_append.1 hx
    refine (((Tame.append ?_ (hc.none h1 hx2)).append ?_).append (ho.none h2 hx4)).append ?_
    · rcases reads_opt hx1 with ⟨-, hx⟩ | ⟨-, rfl⟩
      · exact reads_kws (ws := [str!"distinct"]) (by decide) hx
      · exact .nil _ _
    · rcases reads_opt hx3 with ⟨-, hx⟩ | ⟨-, rfl⟩
      · exact reads_kws (ws := [str!"ignore", str!"nulls"]) (by decide) hx
      · exact .nil _ _
    · exact tame_limit hx5
  | filtered c w hc hw' =>
    intro hw ts hr
    show Tame stopWords caseWords ts
    simp only [wf, Bool.and_eq_true] at hw
    obtain ⟨⟨⟨h1, h2⟩, h3⟩, h4⟩ := hw
    replace hr := reads_append.1 hr
    obtain ⟨x, y, rfl, hx, hy⟩ := hr
    replace hy := reads_cons.1 hy
    obtain ⟨t, y, rfl, ht, hy⟩ := hy
    refine (hc.expr (level_call h1) h3 hx).append
      (.cons (quiet_kw ht (by decide) (by decide) (by decide) (by decide)) (tame_parens ?_ hy))
    intro ts hr
    replace hr := reads_cons.1 hr
    obtain ⟨t, y, rfl, ht, hy⟩ := hr
    exact .cons (quiet_kw ht (by decide) (by decide) (by simp) (by simp)) (hw'.none h4 hy)
  | frame r f =>
    intro hw ts hr
    show Tame [] [] ts
    simp only [wf, Bool.and_eq_true, decide_eq_true_eq] at hw
    replace hr := reads_cons.1 hr
    obtain ⟨t, y, rfl, ht, hy⟩ := hr
    have key : ∀ r ∈ [str!"rows", str!"range"], r.all isAscii ∧ plainWord r := by decide
    exact .cons (quiet_kw ht (key r hw.1).1 (key r hw.1).2 (by simp) (by simp)) (tame_frame hw.2 hy)
  | analytics f part o fr hf hp ho hfr =>
    intro hw ts hr
    show Tame stopWords caseWords ts
    simp only [wf, Bool.and_eq_true] at hw
    obtain ⟨⟨⟨⟨⟨⟨⟨⟨⟨h1, h2⟩, -⟩, h3⟩, -⟩, -⟩, h4⟩, -⟩, -⟩, h5⟩ := hw
    replace hr := reads_append.1 hr
    obtain ⟨x, y, rfl, hx, hy⟩ := hr
    replace hy := reads_cons.1 hy
    obtain ⟨t, y, rfl, ht, hy⟩ := hy
    refine (hf.expr (level_function h1) h2 hx).append
      (.cons (quiet_kw ht (by decide) (by decide) (by decide) (by decide)) (tame_parens ?_ hy))
    intro ts hr
    obtain ⟨x, x3, rfl, hx, hx3⟩ := reads_append.1 hr
    obtain ⟨x1, x2, rfl, hx1, hx2⟩ := reads_append.1 hx
    refine (Tame.append ?_ (ho.none h4 hx2)).append (hfr.none h5 hx3)
    rcases reads_opt hx1 with ⟨-, hx⟩ | ⟨-, rfl⟩
    · replace hx := reads_cons.1 hx
      obtain ⟨t, y, rfl, ht, hx⟩ := hx
      replace hx := reads_cons.1 hx
      obtain ⟨u, y, rfl, hu, hx⟩ := hx
      exact .cons (quiet_kw ht (by decide) (by decide) (by simp) (by simp))
        (.cons (quiet_kw hu (by decide) (by decide) (by simp) (by simp))
          (tame_list (fun n hn ts hr => (hp n hn).none (wfList_iff.1 h3 n hn) hr) (by simp) (by simp) _ hx))
    · exact .nil _ _
  | datePart part e he =>
    intro hw ts hr
    show Tame (stopWords.erase str!"from") caseWords ts
    simp only [wf, Bool.and_eq_true, decide_eq_true_eq] at hw
    obtain ⟨⟨h1, h2⟩, h3⟩ := hw
    replace hr := reads_cons.1 hr
    obtain ⟨t, y, rfl, ht, hy⟩ := hr
    replace hy := reads_cons.1 hy
    obtain ⟨u, y, rfl, hu, hy⟩ := hy
    have key : ∀ p ∈ dateParts, p.all isAscii ∧ plainWord p ∧ p ∉ stopWords.erase str!"from" ∧ p ∉ caseWords := by
      decide
    obtain ⟨k1, k2, k3, k4⟩ := key _ h1
    exact .cons (quiet_kw ht k1 k2 k3 k4) (.cons (quiet_kw hu (by decide) (by decide) (by decide) (by decide))
      ((he.expr h2 h3 hy).mono (fun _ h => List.mem_of_mem_erase h) (fun _ h => .inr h)))
  | except_ e args he ih =>
    intro hw ts hr
    show Tame listStops caseWords ts
    simp only [wf, Bool.and_eq_true] at hw
    obtain ⟨⟨⟨⟨h1, -⟩, -⟩, h2⟩, h3⟩ := hw
    replace hr := reads_append.1 hr
    obtain ⟨x, y, rfl, hx, hy⟩ := hr
    replace hy := reads_cons.1 hy
    obtain ⟨t, y, rfl, ht, hy⟩ := hy
    refine ((he.expr (level_star h1) h2 hx).mono list_sub' (fun _ h => .inr h)).append
      (.cons (quiet_kw ht (by decide) (by decide) (by decide) (by decide)) (tame_parens
      (tame_list (fun n hn ts hr => (ih n hn).none (wfList_iff.1 h3 n hn) hr) (by simp) (by simp)) hy))
  | replace e args he ih =>
    intro hw ts hr
    show Tame listStops caseWords ts
    simp only [wf, Bool.and_eq_true] at hw
    obtain ⟨⟨⟨⟨⟨h1, -⟩, -⟩, -⟩, h2⟩, h3⟩ := hw
    replace hr := reads_append.1 hr
    obtain ⟨x, y, rfl, hx, hy⟩ := hr
    replace hy := reads_cons.1 hy
    obtain ⟨t, y, rfl, ht, hy⟩ := hy
    refine Tame.append ?_
      (.cons (quiet_kw ht (by decide) (by decide) (by decide) (by decide)) (tame_parens
      (tame_list (fun n hn ts hr => (ih n hn).none (wfList_iff.1 h3 n hn) hr) (by simp) (by simp)) hy))
    rcases Bool.or_eq_true_iff.1 h1 with h1 | h1
    · exact (he.expr (level_star h1) h2 hx).mono list_sub' (fun _ h => .inr h)
    · cases e <;> simp [isExcept] at h1
      exact he h2 _ hx
  | bitwise l op r hl hr' =>
    intro hw ts hr
    show Tame stopWords caseWords ts
    simp only [wf, Bool.and_eq_true, decide_eq_true_eq] at hw
    obtain ⟨⟨⟨⟨h1, h2⟩, h3⟩, h4⟩, h5⟩ := hw
    replace hr := reads_append.1 hr
    obtain ⟨x, y, rfl, hx, hy⟩ := hr
    replace hy := reads_cons.1 hy
    obtain ⟨t, y, rfl, rfl, hy⟩ := hy
    refine (hl.expr (by omega) h4 hx).append (.cons ?_ (hr'.expr (by omega) h5 hy))
    have key : ∀ op ∈ bitOperators, op.all isAscii ∧ op.map Char.toLower = op ∧ plainWord op ∧
      op ∉ stopWords ∧ op ∉ caseWords := by decide
    have h6 := key _ h1
    exact quiet_of_lower (lower_self h6.1 h6.2.1) h6.2.2.1 h6.2.2.2.1 h6.2.2.2.2
  | arith op l r hl hr' =>
    intro hw ts hr
    show Tame stopWords caseWords ts
    simp only [wf, Bool.and_eq_true, decide_eq_true_eq] at hw
    obtain ⟨⟨⟨⟨h1, h2⟩, h3⟩, h4⟩, h5⟩ := hw
    replace hr := reads_append.1 hr
    obtain ⟨x, y, rfl, hx, hy⟩ := hr
    replace hy := reads_cons.1 hy
    obtain ⟨t, y, rfl, rfl, hy⟩ := hy
    refine (hl.expr (by omega) h4 hx).append (.cons ?_ (hr'.expr (by omega) h5 hy))
    have key : ∀ op ∈ arithSymbols, op.all isAscii ∧ op.map Char.toLower = op ∧ plainWord op ∧
      op ∉ stopWords ∧ op ∉ caseWords := by decide
    have h6 := key _ h1
    exact quiet_of_lower (lower_self h6.1 h6.2.1) h6.2.2.1 h6.2.2.2.1 h6.2.2.2.2
  | neg e ih =>
    intro hw ts hr
    show Tame stopWords caseWords ts
    simp only [wf, Bool.and_eq_true, decide_eq_true_eq] at hw
    replace hr := reads_cons.1 hr
    obtain ⟨t, y, rfl, ht, hy⟩ := hr
    exact .cons (quiet_kw ht (by decide) (by decide) (by decide) (by decide)) (ih.expr (by omega) hw.2 hy)
  | cond l p r hl hr' =>
    intro hw ts hr
    show Tame stopWords caseWords ts
    simp only [wf, Bool.and_eq_true, decide_eq_true_eq] at hw
    obtain ⟨⟨⟨h1, h2⟩, h3⟩, h4⟩ := hw
    replace hr := reads_append.1 hr
    obtain ⟨x, y, rfl, hx, hy⟩ := hr
    replace hx := reads_append.1 hx
    obtain ⟨x, z, rfl, hx, hz⟩ := hx
    split at h4
    · subst p
      refine ((hl.expr (by omega) h2 hx).append (tame_preds (by simp) hz)).append (hr'.expr ?_ h3 hy)
      cases r <;> simp [isRange] at h4
      simp [level]
    · simp only [Bool.and_eq_true, decide_eq_true_eq] at h4
      exact ((hl.expr (by omega) h2 hx).append (tame_preds (by simp [h4.1.1]) hz)).append
        (hr'.expr (by omega) h3 hy)
  | boolc p l r hl hr' =>
    intro hw ts hr
    show Tame stopWords caseWords ts
    simp only [wf, Bool.and_eq_true, decide_eq_true_eq] at hw
    obtain ⟨⟨⟨⟨h1, h2⟩, h3⟩, h4⟩, h5⟩ := hw
    replace hr := reads_append.1 hr
    obtain ⟨x, y, rfl, hx, hy⟩ := hr
    replace hy := reads_cons.1 hy
    obtain ⟨t, y, rfl, ht, hy⟩ := hy
    refine (hl.expr (by omega) h4 hx).append (.cons ?_ (hr'.expr (by omega) h5 hy))
    have key : ∀ p ∈ boolPredicates, p.all isAscii ∧ plainWord p ∧ p ∉ stopWords ∧ p ∉ caseWords := by decide
    have h6 := key _ h1
    exact quiet_kw ht h6.1 h6.2.1 h6.2.2.1 h6.2.2.2
  | whenThen w t hw' ht' =>
    intro hw ts hr
    show Tame stopWords [] ts
    simp only [wf, Bool.and_eq_true, decide_eq_true_eq] at hw
    obtain ⟨⟨⟨h1, h2⟩, h3⟩, h4⟩ := hw
    simp only [toks, List.cons_append] at hr
    replace hr := reads_cons.1 hr
    obtain ⟨k, y, rfl, hk, hy⟩ := hr
    replace hy := reads_append.1 hy
    obtain ⟨x, y, rfl, hx, hy⟩ := hy
    replace hy := reads_cons.1 hy
    obtain ⟨u, y, rfl, hu, hy⟩ := hy
    refine .cons (quiet_kw hk (by decide) (by decide) (by decide) (by simp)) (Tame.append ?_
      (.cons (quiet_kw hu (by decide) (by decide) (by decide) (by simp)) ?_))
    · exact (hw'.expr h1 h3 hx).mono (fun _ h => h) (by simp)
    · exact (ht'.expr (by omega) h4 hy).mono (fun _ h => h) (by simp)
  | case o ws e ho hws he => exact tame_case ho hws he
  | «alias» e al withAs he ha =>
    intro hw ts hr
    show Tame itemStops caseWords ts
    simp only [wf, Bool.and_eq_true] at hw
    obtain ⟨⟨h1, h2⟩, h3⟩ := hw
    replace hr := reads_append.1 hr
    obtain ⟨x, y, rfl, hx, hy⟩ := hr
    replace hx := reads_append.1 hx
    obtain ⟨x, z, rfl, hx, hz⟩ := hx
    have te : Tame itemStops caseWords x := by
      have := he h2 x hx
      simp only [Bool.or_eq_true, Bool.and_eq_true, decide_eq_true_eq] at h1
      rcases h1 with ⟨hl, -⟩ | ⟨hw | hw, -⟩
      · exact (he.expr hl h2 hx).mono item_sub (fun _ h => .inr h)
      · cases e <;> simp [isWhole] at hw
        · exact this.mono item_sub (fun _ h => .inr h)
        · exact this
      · cases e <;> simp [isUnnestCall] at hw
        subst hw
        rw [avoid, if_neg (by decide)] at this
        exact this.mono item_sub (fun _ h => .inr h)
    have tz : Tame itemStops caseWords z := by
      rcases reads_opt hz with ⟨-, hz⟩ | ⟨-, rfl⟩
      · exact reads_kws (ws := [str!"as"]) (by decide) hz
      · exact .nil _ _
    refine (te.append tz).append ?_
    have ty := ha h3 y hy
    have : (∃ v, al = .raw v) ∨ (∃ v, al = .column v) ∨ ∃ v q, al = .string v q none := by
      simp only [Bool.or_eq_true, Bool.and_eq_true, decide_eq_true_eq] at h1
      rcases h1 with ⟨-, h⟩ | ⟨-, h⟩
      · exact (alias_or h).imp (fun ⟨v, h, _⟩ => ⟨v, h⟩) (.imp (fun ⟨v, h, _⟩ => ⟨v, h⟩) fun ⟨v, q, h, _⟩ => ⟨v, q, h⟩)
      · cases al <;> simp [isRaw] at h ⊢
    rcases this with ⟨v, rfl⟩ | ⟨v, rfl⟩ | ⟨v, q, rfl⟩ <;> exact ty.mono item_sub (fun _ h => .inr h)
  | table v sq ih =>
    intro hw ts hr
    show Tame itemStops caseWords ts
    simp only [wf, Bool.and_eq_true] at hw
    obtain ⟨h1, h2⟩ := hw
    simp only [toks] at hr
    split at hr
    · exact tame_squares (fun ts hr => ih.none h1 hr) hr
    · have := ih h1 ts hr
      cases v <;> simp [isPath] at h2 <;> first
        | exact this
        | exact this.mono item_sub (fun _ h => .inr h)
  | on e ih =>
    intro hw ts hr
    show Tame joinStops [] ts
    simp only [wf, Bool.and_eq_true, decide_eq_true_eq] at hw
    replace hr := reads_cons.1 hr
    obtain ⟨t, y, rfl, ht, hy⟩ := hr
    exact .cons (quiet_kw ht (by decide) (by decide) (by decide) (by simp))
      ((ih.expr hw.1 hw.2 hy).mono join_sub' (by simp))
  | using_ e ih =>
    intro hw ts hr
    show Tame joinStops [] ts
    simp only [wf, Bool.and_eq_true, decide_eq_true_eq] at hw
    replace hr := reads_cons.1 hr
    obtain ⟨t, y, rfl, ht, hy⟩ := hr
    exact .cons (quiet_kw ht (by decide) (by decide) (by decide) (by simp))
      ((ih.expr (by omega) hw.2 hy).mono join_sub' (by simp))
  | join type l r on using_ hl hr' hon hus =>
    intro hw ts hr
    show Tame joinStops [] ts
    simp only [wf, Bool.and_eq_true, Bool.or_eq_true, decide_eq_true_eq, Bool.not_eq_true'] at hw
    obtain ⟨⟨⟨⟨⟨h1, h2⟩, h3⟩, h4⟩, h5⟩, h6⟩ := hw
    replace hr := reads_append.1 hr
    obtain ⟨x, x5, rfl, hx, hx5⟩ := hr
    replace hx := reads_append.1 hx
    obtain ⟨x, x4, rfl, hx, hx4⟩ := hx
    replace hx := reads_append.1 hx
    obtain ⟨x, x3, rfl, hx, hx3⟩ := hx
    replace hx := reads_append.1 hx
    obtain ⟨x1, x2, rfl, hx1, hx2⟩ := hx
    have hempty : ∀ {n : Node}, n.truthy = false → toks n = [] := by
      intro n h; cases n <;> first | rfl | simp [Node.truthy] at h
    have hcond : ∀ {n : Node}, n.truthy = false ∨ isOn n = true ∨ isUsing n = true → wf n = true → TameOk n →
        ∀ ts, Reads (toks n) ts → Tame joinStops [] ts := by
      intro n h hw ht ts hr
      rcases h with h | h | h
      · rw [hempty h, reads_nil] at hr; subst hr; exact .nil _ _
      · cases n <;> simp [isOn] at h; exact ht hw ts hr
      · cases n <;> simp [isUsing] at h; exact ht hw ts hr
    have hj : type ∈ (condJoins ++ crossJoins).map (·.1) := by
      rw [List.map_append, List.mem_append]; tauto
    have tj : Tame joinStops [] x2 := by
      have key : ∀ ty ∈ (condJoins ++ crossJoins).map (·.1), ∀ w ∈ (((condJoins ++ crossJoins).lookup ty).getD []),
          w.all isAscii ∧ plainWord w ∧ w ∉ joinStops ∧ w ∉ ([] : List Str) := by decide
      exact reads_kws (key type hj) hx2
    have tr : Tame joinStops [] x3 := by
      rcases h6 with ⟨⟨-, h⟩, -⟩ | ⟨⟨⟨-, h⟩, -⟩, -⟩
      · exact (hr' h3 _ hx3).mono (from_avoid (plain_from h)) (by simp)
      · exact (hr' h3 _ hx3).mono (from_avoid h) (by simp)
    refine ((((hl h2 _ hx1).mono (left_avoid h1) (by simp)).append tj).append tr).append ?_ |>.append ?_
    · exact hcond (by tauto) h4 hon _ hx4
    · exact hcond (by tauto) h5 hus _ hx5
  | unnest v o oa al ih =>
    intro hw ts hr
    show Tame sourceStops caseWords ts
    simp only [wf, Bool.and_eq_true] at hw
    obtain ⟨⟨h1, h2⟩, h3⟩ := hw
    replace hr := reads_append.1 hr
    obtain ⟨x, y, rfl, hx, hy⟩ := hr
    refine Tame.append ?_ ?_
    · have := ih h2 x hx
      cases v <;> simp [isUnnest, isUnnestCall] at h1
      · subst h1
        rw [avoid, if_neg (by decide)] at this
        exact this.mono source_sub' (fun _ h => .inr h)
      · exact this.mono source_sub (fun _ h => .inr h)
    · rcases reads_opt hy with ⟨ho, hz⟩ | ⟨-, rfl⟩
      · clear hy
        replace hy := reads_cons.1 hz
        clear hz
        obtain ⟨p, y, rfl, hp, hy⟩ := hy
        replace hy := reads_cons.1 hy
        obtain ⟨t, y, rfl, ht, hy⟩ := hy
        refine .pair p t y (by decide) (lower_kw hp (by decide)) (lower_kw ht (by decide)) ?_
        cases al with
        | none => rw [offsetToks, reads_nil] at hy; subst hy; exact .nil _ _
        | some a =>
          simp only [Bool.and_eq_true] at h3
          replace hy := reads_append.1 hy
          obtain ⟨z, y, rfl, hz, hy⟩ := hy
          replace hy := reads_cons.1 hy
          obtain ⟨u, y, rfl, rfl, hy⟩ := hy
          rw [reads_nil] at hy; subst hy
          refine Tame.append ?_ (.one ((quiet_ident h3.2).mono (fun w h => .inl (source_sub' w h)) (fun _ h => .inr h)))
          rcases reads_opt hz with ⟨-, hz⟩ | ⟨-, rfl⟩
          · exact reads_kws (ws := [str!"as"]) (by decide) hz
          · exact .nil _ _
      · exact .nil _ _
  | combined op l r hl hr' =>
    intro hw ts hr
    show Tame fromStops [] ts
    simp only [wf, Bool.and_eq_true, Bool.or_eq_true, decide_eq_true_eq] at hw
    obtain ⟨⟨⟨⟨h1, h2⟩, h3⟩, h4⟩, h5⟩ := hw
    replace hr := reads_append.1 hr
    obtain ⟨x, x3, rfl, hx, hx3⟩ := hr
    replace hx := reads_append.1 hx
    obtain ⟨x1, x2, rfl, hx1, hx2⟩ := hx
    have key : ∀ op ∈ setOps.map (·.1), ∀ w ∈ ((setOps.lookup op).getD []),
        w.all isAscii ∧ plainWord w ∧ w ∉ fromStops ∧ w ∉ ([] : List Str) := by decide
    refine Tame.append (Tame.append ?_ (reads_kws (key op h1) hx2)) ?_
    · refine (hl h4 _ hx1).mono (fun w hw => ?_) (by simp)
      rcases h2 with h2 | h2
      · exact source_avoid h2 w (from_sub w hw)
      · cases l <;> simp [isSet] at h2; exact hw
    · refine (hr' h5 _ hx3).mono (fun w hw => ?_) (by simp)
      rcases h3 with h3 | h3
      · exact from_avoid h3 w (from_sub w hw)
      · exact bare_avoid h3 w (from_sub w hw)
  | where_ e ih =>
    intro hw ts hr
    show Tame [] [] ts
    simp only [wf, Bool.and_eq_true, decide_eq_true_eq] at hw
    replace hr := reads_cons.1 hr
    obtain ⟨t, y, rfl, ht, hy⟩ := hr
    exact .cons (quiet_kw ht (by decide) (by decide) (by simp) (by simp)) (ih.none hw.2 hy)
  | having e ih =>
    intro hw ts hr
    show Tame [] [] ts
    simp only [wf, Bool.and_eq_true, decide_eq_true_eq] at hw
    replace hr := reads_cons.1 hr
    obtain ⟨t, y, rfl, ht, hy⟩ := hr
    exact .cons (quiet_kw ht (by decide) (by decide) (by simp) (by simp)) (ih.none hw.2 hy)
  | offset e ih =>
    intro hw ts hr
    show Tame [] [] ts
    simp only [wf, Bool.and_eq_true, decide_eq_true_eq] at hw
    replace hr := reads_cons.1 hr
    obtain ⟨t, y, rfl, ht, hy⟩ := hr
    exact .cons (quiet_kw ht (by decide) (by decide) (by simp) (by simp)) (ih.none hw.2 hy)
  | limit all e ih =>
    intro hw ts hr
    show Tame [] [] ts
    simp only [wf, Bool.and_eq_true] at hw
    replace hr := reads_cons.1 hr
    obtain ⟨t, y, rfl, ht, hy⟩ := hr
    replace hy := reads_append.1 hy
    obtain ⟨x, y, rfl, hx, hy⟩ := hy
    refine .cons (quiet_kw ht (by decide) (by decide) (by simp) (by simp))
      (Tame.append ?_ (ih.none hw.2 hy))
    rcases reads_opt hx with ⟨-, hx⟩ | ⟨-, rfl⟩
    · exact reads_kws (ws := [str!"all"]) (by decide) hx
    · exact .nil _ _
  | groupBy args rollup each ih =>
    intro hw ts hr
    show Tame [] [] ts
    simp only [wf, Bool.and_eq_true, decide_eq_true_eq] at hw
    replace hr := reads_cons.1 hr
    obtain ⟨t, y, rfl, ht, hy⟩ := hr
    replace hy := reads_append.1 hy
    obtain ⟨x, y, rfl, hx, hy⟩ := hy
    replace hy := reads_cons.1 hy
    obtain ⟨u, y, rfl, hu, hy⟩ := hy
    replace hy := reads_append.1 hy
    obtain ⟨z, y, rfl, hz, hy⟩ := hy
    refine .cons (quiet_kw ht (by decide) (by decide) (by simp) (by simp)) (Tame.append ?_
      (.cons (quiet_kw hu (by decide) (by decide) (by simp) (by simp)) (Tame.append ?_ ?_)))
    · rcases reads_opt hx with ⟨-, hx⟩ | ⟨-, rfl⟩
      · exact reads_kws (ws := [str!"each"]) (by decide) hx
      · exact .nil _ _
    · rcases reads_opt hz with ⟨-, hz⟩ | ⟨-, rfl⟩
      · exact reads_kws (ws := [str!"rollup"]) (by decide) hz
      · exact .nil _ _
    · exact tame_list (fun n hn ts hr => (ih n hn).none (wfList_iff.1 hw.2 n hn) hr) (by simp) (by simp) y hy
  | orderBy args ih =>
    intro hw ts hr
    show Tame [] [] ts
    simp only [wf, Bool.and_eq_true] at hw
    replace hr := reads_cons.1 hr
    obtain ⟨t, y, rfl, ht, hy⟩ := hr
    replace hy := reads_cons.1 hy
    obtain ⟨u, y, rfl, hu, hy⟩ := hy
    refine .cons (quiet_kw ht (by decide) (by decide) (by simp) (by simp)) 
      (.cons (quiet_kw hu (by decide) (by decide) (by simp) (by simp)) ?_)
    exact tame_list (fun n hn ts hr => (ih n hn).none (wfList_iff.1 hw.2 n hn) hr) (by simp) (by simp) y hy
  | orderItem v asc desc ih =>
    intro hw ts hr
    show Tame orderStops caseWords ts
    simp only [wf, Bool.and_eq_true, decide_eq_true_eq] at hw
    replace hr := reads_append.1 hr
    obtain ⟨x, z, rfl, hx, hz⟩ := hr
    replace hx := reads_append.1 hx
    obtain ⟨x, y, rfl, hx, hy⟩ := hx
    refine (Tame.append ((ih.expr (by omega) hw.2 hx).mono order_sub (fun _ h => .inr h)) ?_).append ?_
    · rcases reads_opt hy with ⟨-, hy⟩ | ⟨-, rfl⟩
      · exact reads_kws (ws := [str!"asc"]) (by decide) hy
      · exact .nil _ _
    · rcases reads_opt hz with ⟨-, hz⟩ | ⟨-, rfl⟩
      · exact reads_kws (ws := [str!"desc"]) (by decide) hz
      · exact .nil _ _
  | select es all d on f w g h o l off semi ies ion ief iw ig ih io il ioff =>
    intro hw ts hr
    by_cases hb : isBare (.select es all d on f w g h o l off semi) = true
    · simp only [avoid, if_pos hb]
      exact tame_bare hb hw ies ief hr
    rw [show avoid (.select es all d on f w g h o l off semi) = ([], []) from by simp [avoid, hb]]
    show Tame [] [] ts
    simp only [wf, Bool.and_eq_true, decide_eq_true_eq] at hw
    obtain ⟨⟨⟨⟨⟨⟨⟨⟨⟨⟨⟨⟨⟨⟨⟨⟨⟨⟨⟨⟨-, -⟩, w1⟩, -⟩, -⟩, -⟩, w2⟩, -⟩, w3⟩, -⟩, w4⟩, -⟩, w5⟩, -⟩, w6⟩, -⟩, w7⟩, -⟩, w8⟩, -⟩, w9⟩ := hw
    replace hr := reads_cons.1 hr
    obtain ⟨t, x, rfl, ht, hx⟩ := hr
    replace hx := reads_append.1 hx
    obtain ⟨x, x12, rfl, hx, hx12⟩ := hx
    replace hx := reads_append.1 hx
    obtain ⟨x, x11, rfl, hx, hx11⟩ := hx
    replace hx := reads_append.1 hx
    obtain ⟨x, x10, rfl, hx, hx10⟩ := hx
    replace hx := reads_append.1 hx
    obtain ⟨x, x9, rfl, hx, hx9⟩ := hx
    replace hx := reads_append.1 hx
    obtain ⟨x, x8, rfl, hx, hx8⟩ := hx
    replace hx := reads_append.1 hx
    obtain ⟨x, x7, rfl, hx, hx7⟩ := hx
    replace hx := reads_append.1 hx
    obtain ⟨x, x6, rfl, hx, hx6⟩ := hx
    replace hx := reads_append.1 hx
    obtain ⟨x, x5, rfl, hx, hx5⟩ := hx
    replace hx := reads_append.1 hx
    obtain ⟨x, x4, rfl, hx, hx4⟩ := hx
    replace hx := reads_append.1 hx
    obtain ⟨x, x3, rfl, hx, hx3⟩ := hx
    replace hx := reads_append.1 hx
    obtain ⟨x1, x2, rfl, hx1, hx2⟩ := hx
    refine .cons (quiet_kw ht (by decide) (by decide) (by simp) (by simp)) ?_
    have t12 : Tame [] [] x12 := by
      rcases reads_opt hx12 with ⟨-, hx⟩ | ⟨-, rfl⟩
      · replace hx := reads_cons.1 hx
        obtain ⟨t, y, rfl, rfl, hy⟩ := hx
        rw [reads_nil] at hy; subst hy
        exact .one (quiet_of_lower (lower_self (by decide) (by decide)) (by decide) (by simp) (by simp))
      · exact .nil _ _
    have t5 : Tame [] [] x5 := by
      rcases reads_opt hx5 with ⟨-, hx⟩ | ⟨-, rfl⟩
      · replace hx := reads_cons.1 hx
        obtain ⟨t, y, rfl, ht, hy⟩ := hx
        exact .cons (quiet_kw ht (by decide) (by decide) (by simp) (by simp)) (ief.none w3 hy)
      · exact .nil _ _
    have t1 : Tame [] [] x1 := by
      rcases reads_opt hx1 with ⟨-, hx⟩ | ⟨-, rfl⟩
      · exact reads_kws (ws := [str!"all"]) (by decide) hx
      · exact .nil _ _
    have t2 : Tame [] [] x2 := by
      rcases reads_opt hx2 with ⟨-, hx⟩ | ⟨-, rfl⟩
      · exact reads_kws (ws := [str!"distinct"]) (by decide) hx
      · exact .nil _ _
    have t3 : Tame [] [] x3 := by
      rcases reads_opt hx3 with ⟨-, hx⟩ | ⟨-, rfl⟩
      · replace hx := reads_cons.1 hx
        obtain ⟨t, y, rfl, ht, hy⟩ := hx
        exact .cons (quiet_kw ht (by decide) (by decide) (by simp) (by simp)) (tame_parens
          (tame_list (fun n hn ts hr => (ion n hn).none (wfList_iff.1 w2 n hn) hr) (by simp) (by simp)) hy)
      · exact .nil _ _
    have t4 : Tame [] [] x4 :=
      tame_list (fun n hn ts hr => (ies n hn).none (wfList_iff.1 w1 n hn) hr) (by simp) (by simp) _ hx4
    exact (((((((((((t1.append t2).append t3).append t4).append t5).append (iw.none w4 hx6)).append
      (ig.none w5 hx7)).append (ih.none w6 hx8)).append (io.none w7 hx9)).append (il.none w8 hx10)).append
      (ioff.none w9 hx11)).append t12)
  | withQuery name q ih =>
    intro hw ts hr
    show Tame [] [] ts
    simp only [wf, Bool.and_eq_true] at hw
    replace hr := reads_cons.1 hr
    obtain ⟨t, x, rfl, rfl, hx⟩ := hr
    replace hx := reads_cons.1 hx
    obtain ⟨u, x, rfl, hu, hx⟩ := hx
    exact .cons ((quiet_ident hw.1.1).mono (by simp) (by simp))
      (.cons (quiet_kw hu (by decide) (by decide) (by simp) (by simp))
        (tame_parens (fun ts hr => ih.none hw.2 hr) hx))
  | withStmt qs s ihq ihs =>
    intro hw ts hr
    show Tame [] [] ts
    simp only [wf, Bool.and_eq_true] at hw
    replace hr := reads_cons.1 hr
    obtain ⟨t, x, rfl, ht, hx⟩ := hr
    replace hx := reads_append.1 hx
    obtain ⟨x, y, rfl, hx, hy⟩ := hx
    refine .cons (quiet_kw ht (by decide) (by decide) (by simp) (by simp)) (Tame.append ?_ (ihs.none hw.2 hy))
    exact tame_list (fun n hn ts hr => (ihq n hn).none (wfList_iff.1 hw.1.1.2 n hn) hr) (by simp) (by simp) x hx

/-- The tokens of a tree of the core grammar are tame. -/
theorem tame {n : Node} (hw : wf n = true) {ts : List Str} (hr : Reads (toks n) ts) :
    Tame (avoid n).1 (avoid n).2 ts := tame_all n hw ts hr

theorem tame_expr {n : Node} (hl : level n ≤ 3) (hw : wf n = true) {ts : List Str} (hr : Reads (toks n) ts) :
    Tame stopWords caseWords ts := (tame_all n).expr hl hw hr

end

end SqlV.Core
