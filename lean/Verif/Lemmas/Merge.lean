import Verif.Lemmas.Tokenise
import Verif.Spec.Spell

/-! Merging of two-character operators; tokens spell the text. -/

namespace SqlV

set_option linter.unusedSectionVars false

open Lex

variable [E : PyEnv]

/-! ### `merge_stream` -/

theorem mergeTokens_eq : mergeTokens = operators := rfl

theorem mergeCount (e n : Str) :
    (mergeTokens.filter fun g => Str.startsWith g e && decide (e ++ n = g)).length =
      if e ++ n ∈ mergeTokens then 1 else 0 := by
  have h : (mergeTokens.filter fun g => Str.startsWith g e && decide (e ++ n = g)) =
      mergeTokens.filter fun g => decide (e ++ n = g) := by
    congr 1
    funext g
    by_cases hg : e ++ n = g
    · simp [← hg, Str.startsWith]
    · simp [hg]
  rw [h]
  generalize e ++ n = x
  by_cases hx : x ∈ mergeTokens
  · rw [if_pos hx]
    simp only [mergeTokens, List.mem_cons, List.not_mem_nil, or_false] at hx
    rcases hx with rfl|rfl|rfl|rfl|rfl|rfl|rfl <;> decide
  · rw [if_neg hx]
    simp only [List.length_eq_zero_iff, List.filter_eq_nil_iff, decide_eq_true_eq]
    rintro g hg rfl
    exact hx hg

/-- A token prepended to a generator. -/
def Stream.cons (t : Str) (s : Stream) : Stream := ⟨t :: s.toks, s.fail⟩

theorem mergeStream_two (f : Option PyErr) (e n : Str) (rest : List Str) (hn : n ≠ []) :
    mergeStream mergeTokens f (e :: n :: rest) =
      if startsMerge mergeTokens e then
        if e ++ n ∈ mergeTokens then Stream.cons (e ++ n) (mergeStream mergeTokens f rest)
        else Stream.cons e (Stream.cons n (mergeStream mergeTokens f rest))
      else Stream.cons e (mergeStream mergeTokens f (n :: rest)) := by
  rw [mergeStream]
  simp only [mergeCount]
  have : n.isEmpty = false := by cases n <;> simp_all
  simp only [this, Bool.false_eq_true, if_false]
  split
  · split <;> simp [Stream.cons]
  · rfl

theorem startsMerge_of_append {e n : Str} (h : e ++ n ∈ mergeTokens) : startsMerge mergeTokens e := by
  simp only [startsMerge, List.any_eq_true]
  exact ⟨_, h, by simp [Str.startsWith]⟩

theorem mergeStream_one (e : Str) : mergeStream mergeTokens none [e] = ⟨[e], none⟩ := by
  simp [mergeStream]

/-! ### Tokens spell the text -/

/-- Like `Spells`, without operators. -/
inductive RawSpells : Str → List Str → Prop
  | done (w : Str) : Blank w → RawSpells w []
  | tok (w t s : Str) (l : List Str) : Blank w → t ≠ [] → RawSpells s l →
      RawSpells (w ++ t ++ s) (t :: l)

theorem Blank.append {a b : Str} (ha : Blank a) (hb : Blank b) : Blank (a ++ b) := by
  intro c hc
  rcases List.mem_append.1 hc with h | h
  · exact ha c h
  · exact hb c h

theorem RawSpells.blank {w s : Str} {l : List Str} (hw : Blank w) (h : RawSpells s l) :
    RawSpells (w ++ s) l := by
  cases h with
  | done _ h => exact .done _ (Blank.append hw h)
  | tok w' t s l hw' ht h =>
    have := RawSpells.tok (w ++ w') t s l (Blank.append hw hw') ht h
    simpa using this

theorem RawSpells.append {s s' : Str} {l l' : List Str} (h : RawSpells s l) (h' : RawSpells s' l') :
    RawSpells (s ++ s') (l ++ l') := by
  induction h with
  | done w hw => exact h'.blank hw
  | tok w t s l hw ht _ ih =>
    have := RawSpells.tok w t (s ++ s') (l ++ l') hw ht ih
    simpa using this

theorem RawSpells.nil : RawSpells [] [] := .done _ (by intro c hc; simp at hc)

theorem RawSpells.single {t : Str} (ht : t ≠ []) : RawSpells t [t] := by
  have := RawSpells.tok [] t [] [] (by intro c hc; simp at hc) ht .nil
  simpa using this

theorem RawSpells.ne {t : Str} : RawSpells t (ne t) := by
  cases t with
  | nil => exact .nil
  | cons => exact .single (by simp)

theorem RawSpells.nonempty {s : Str} {l : List Str} (h : RawSpells s l) : ∀ t ∈ l, t ≠ [] := by
  induction h with
  | done => simp
  | tok w t s l _ ht _ ih =>
    intro x hx
    rcases List.mem_cons.1 hx with rfl | hx
    · exact ht
    · exact ih x hx

theorem cutDots_spells (w s : Str) : RawSpells (w ++ s) (cutDots w s) := by
  induction s generalizing w with
  | nil => simpa [cutDots, tok_eq_ne] using RawSpells.ne
  | cons c cs ih =>
    rw [cutDots]
    split
    · rename_i h
      subst h
      have := (RawSpells.ne (t := w)).append ((RawSpells.single (t := str!".") (by simp)).append (ih []))
      simpa [tok_eq_ne] using this
    · simpa using ih (w ++ [c])

theorem chunk_spells (w : Str) : RawSpells w (chunk w) := by
  rw [chunk]
  split
  · rename_i h
    exact .single (by rintro rfl; simp at h)
  · exact cutDots_spells [] w

/-- What the lexer has read but not yet emitted. -/
def Lex.Mode.pending : Mode → Str
  | .out run => run
  | .lit _ c => c

theorem go_spells (m : Mode) (s : Str) : RawSpells (m.pending ++ s) (go m s) := by
  induction s generalizing m with
  | nil =>
    cases m with
    | out run => simpa [Mode.pending, go] using chunk_spells run
    | lit q c => simpa [Mode.pending, go, tok_eq_ne] using RawSpells.ne
  | cons c cs ih =>
    have hc := RawSpells.single (t := [c]) (by simp)
    cases m with
    | out run =>
      rw [go]
      split
      · simpa [Mode.pending] using (chunk_spells run).append (hc.append (ih (.lit c [])))
      · split
        · rename_i hb
          have := (chunk_spells run).append
            ((ih (.out [])).blank (w := [c]) (by intro x hx; simp at hx; subst hx; exact hb))
          simpa [Mode.pending] using this
        · split
          · simpa [Mode.pending] using (chunk_spells run).append (hc.append (ih (.out [])))
          · simpa [Mode.pending] using ih (.out (run ++ [c]))
    | lit q w =>
      rw [go]
      split
      · rename_i h
        obtain ⟨rfl, -⟩ := h
        have := (RawSpells.ne (t := w)).append (hc.append (ih (.out [])))
        simpa [Mode.pending, tok_eq_ne] using this
      · simpa [Mode.pending] using ih (.lit q (w ++ [c]))

theorem raw_spells (s : Str) : RawSpells s (raw s) := go_spells (.out []) s

theorem RawSpells.cons_inv {s t : Str} {l : List Str} (h : RawSpells s (t :: l)) :
    ∃ w s', s = w ++ t ++ s' ∧ Blank w ∧ t ≠ [] ∧ RawSpells s' l := by
  cases h with
  | tok w t s' l hw ht h => exact ⟨w, s', rfl, hw, ht, h⟩

theorem mergeStream_spells (n : Nat) : ∀ (l : List Str) (s : Str), l.length ≤ n → RawSpells s l →
    ∃ toks, mergeStream mergeTokens none l = ⟨toks, none⟩ ∧ Spells s toks := by
  induction n with
  | zero =>
    intro l s hl h
    have : l = [] := by cases l <;> simp_all
    subst this
    cases h with
    | done _ hw => exact ⟨[], rfl, .done _ hw⟩
  | succ n ih =>
    intro l s hl h
    match l, h with
    | [], .done _ hw => exact ⟨[], rfl, .done _ hw⟩
    | [e], h =>
      obtain ⟨w, s', rfl, hw, ht, h'⟩ := h.cons_inv
      cases h' with
      | done _ hw' => exact ⟨[e], mergeStream_one e, .tok _ _ _ _ hw ht (.done _ hw')⟩
    | e :: m :: rest, h =>
      obtain ⟨w, s', rfl, hw, he, h'⟩ := h.cons_inv
      obtain ⟨u, s'', rfl, hu, hm, h''⟩ := h'.cons_inv
      rw [mergeStream_two _ _ _ _ hm]
      simp only [List.length_cons] at hl
      split
      · obtain ⟨toks, h1, h2⟩ := ih rest s'' (by omega) h''
        split
        · rename_i hop
          refine ⟨(e ++ m) :: toks, by simp [h1, Stream.cons], ?_⟩
          have := Spells.op w e u m s'' toks hw hu he hm hop h2
          simpa using this
        · refine ⟨e :: m :: toks, by simp [h1, Stream.cons], ?_⟩
          exact .tok _ _ _ _ hw he (.tok _ _ _ _ hu hm h2)
      · obtain ⟨toks, h1, h2⟩ := ih (m :: rest) _ (by simp; omega) h'
        exact ⟨e :: toks, by simp [h1, Stream.cons], .tok _ _ _ _ hw he h2⟩

/-! ### Splitting of texts with arbitrary quotes, without backslashes -/

/-- What the pieces of `split_with_sep` look like. -/
theorem splitWithSep_pieces (c : Char) (n : Nat) : ∀ s : Str, s.length ≤ n → '\\' ∉ s →
    (splitWithSep s c).flatten = s ∧
    ∀ e ∈ splitWithSep s c, e ≠ [] ∧ (∀ d ∈ e, d ∈ s) ∧ (e = [c] ∨ c ∉ e) := by
  have hne : ∀ a : Str, (ne a).flatten = a ∧ ∀ e ∈ ne a, e = a ∧ e ≠ [] := by
    intro a; cases a <;> simp [SqlV.ne]
  induction n with
  | zero =>
    intro s hl hb
    have : s = [] := by cases s <;> simp_all
    subst this
    rw [splitWithSep_of_not_mem hb (by simp)]
    simp [SqlV.ne]
  | succ n ih =>
    intro s hl hb
    by_cases hc : c ∈ s
    · obtain ⟨a, b, rfl, hca⟩ := exists_append_cons hc
      obtain ⟨h1, h2⟩ := ih b (by simp at hl; omega) (by simp at hb; tauto)
      rw [splitWithSep_append_cons hca hb]
      refine ⟨by simp [(hne a).1, h1], ?_⟩
      intro e he
      simp only [List.mem_append, List.mem_cons] at he
      rcases he with he | rfl | he
      · obtain ⟨rfl, h⟩ := (hne a).2 e he
        exact ⟨h, by simp_all, .inr hca⟩
      · exact ⟨by simp, by simp, .inl rfl⟩
      · obtain ⟨h3, h4, h5⟩ := h2 e he
        exact ⟨h3, fun d hd => by simp [h4 d hd], h5⟩
    · rw [splitWithSep_of_not_mem hb hc]
      refine ⟨(hne s).1, fun e he => ?_⟩
      obtain ⟨rfl, h⟩ := (hne s).2 e he
      exact ⟨h, by simp, .inr hc⟩

/-- The tokens of a generator that ends normally spell the text. -/
def SpelledBy (r : Stream) (s : Str) : Prop := ∃ l, r = ⟨l, none⟩ ∧ RawSpells s l

theorem splitEach_spells (rec : Str → Stream) (l : List Str) (h : ∀ e ∈ l, SpelledBy (rec e) e) :
    SpelledBy (splitEach rec l) l.flatten := by
  induction l with
  | nil => exact ⟨[], rfl, .nil⟩
  | cons e es ih =>
    obtain ⟨l1, h1, h2⟩ := h e (by simp)
    obtain ⟨l2, h3, h4⟩ := ih fun x hx => h x (by simp [hx])
    exact ⟨l1 ++ l2, by simp [splitEach, h1, h3], by simpa using h2.append h4⟩

theorem splitOnString_spells (rec : Str → Stream) (q : Char) (l : List Str) (b : Bool)
    (h : ∀ e ∈ l, e ≠ [] ∧ (e = [q] ∨ SpelledBy (rec e) e)) :
    SpelledBy (splitOnString rec q b l) l.flatten := by
  induction l generalizing b with
  | nil => exact ⟨[], rfl, .nil⟩
  | cons e es ih =>
    have ih := fun b => ih b fun x hx => h x (by simp [hx])
    obtain ⟨he, h1⟩ := h e (by simp)
    have hself : ∀ b, SpelledBy (Stream.append ⟨[e], none⟩ (splitOnString rec q b es))
        (e :: es).flatten := by
      intro b
      obtain ⟨l2, h3, h4⟩ := ih b
      exact ⟨e :: l2, by simp [h3], by simpa using (RawSpells.single he).append h4⟩
    rw [splitOnString]
    split
    · exact hself _
    · split
      · exact hself _
      · rename_i hne _
        obtain ⟨l1, h2, h3⟩ := h1.resolve_left hne
        obtain ⟨l2, h4, h5⟩ := ih b
        exact ⟨l1 ++ l2, by simp [h2, h4], by simpa using h3.append h5⟩

theorem splitOnWhitespace_spells (rec : Str → Stream) (w : Char) (hw : isBlank w) (n : Nat) :
    ∀ s : Str, s.length ≤ n →
    (∀ e, e ≠ [] → (∀ d ∈ e, d ∈ s) → w ∉ e → SpelledBy (rec e) e) →
    SpelledBy (splitEach rec ((Str.splitOn w s).filter fun e => !e.isEmpty)) s := by
  have hsplit : ∀ (a : Str) (l : List Str) (s : Str), (a ≠ [] → SpelledBy (rec a) a) →
      SpelledBy (splitEach rec (l.filter fun e => !e.isEmpty)) s →
      SpelledBy (splitEach rec ((a :: l).filter fun e => !e.isEmpty)) (a ++ s) := by
    intro a l s h1 h2
    cases a with
    | nil => simpa using h2
    | cons x xs =>
      obtain ⟨l1, h3, h4⟩ := h1 (by simp)
      obtain ⟨l2, h5, h6⟩ := h2
      exact ⟨l1 ++ l2, by simp [splitEach, h3, h5], h4.append h6⟩
  induction n with
  | zero =>
    intro s hl _
    have : s = [] := by cases s <;> simp_all
    subst this
    exact ⟨[], by simp [Str.splitOn, splitEach], .nil⟩
  | succ n ih =>
    intro s hl h
    by_cases hc : w ∈ s
    · obtain ⟨a, b, rfl, hca⟩ := exists_append_cons hc
      rw [Str.splitOn_append_cons hca]
      refine hsplit a _ (w :: b) (fun ha => h a ha (by simp_all) hca) ?_
      obtain ⟨l, h1, h2⟩ := ih b (by simp at hl; omega)
        (fun e he hd => h e he fun d hd' => by simp [hd d hd'])
      exact ⟨l, h1, h2.blank (w := [w]) (by intro c hc; simp at hc; subst hc; exact hw)⟩
    · rw [Str.splitOn_of_not_mem hc]
      have := hsplit s [] [] (fun hs => h s hs (fun _ h => h) hc) ⟨[], by simp [splitEach], .nil⟩
      simpa using this

theorem splitTokens_spells (n : Nat) : ∀ s : Str, kinds s < n → s ≠ [] → '\\' ∉ s →
    SpelledBy (splitTokens n s) s := by
  induction n with
  | zero => intro s h; omega
  | succ n ih =>
    intro s hk hs hb
    have hrec : ∀ c ∈ allSeps, c ∈ s → ∀ e, e ≠ [] → (∀ d ∈ e, d ∈ s) → c ∉ e →
        SpelledBy (splitTokens n e) e := by
      intro c hc hcs e he hsub hce
      have := kinds_lt hsub hc hcs hce
      exact ih e (by omega) he (fun h => hb (hsub _ h))
    have hpos : ∀ c ∈ allSeps, c ∈ s → 0 < n := by
      intro c hc hcs
      have := kinds_lt (s := s) (e := []) (by simp) hc hcs (by simp)
      omega
    rw [splitTokens]
    split
    · rename_i q hfind
      obtain ⟨a, b, hab, hq, -⟩ := firstQuote hfind
      have hqs : q ∈ s := by simp [hab]
      have hqm : q ∈ allSeps := by
        simp [isQuote] at hq; simp [allSeps, stringSplitTokens]; tauto
      obtain ⟨h1, h2⟩ := splitWithSep_pieces q s.length s (Nat.le_refl _) hb
      have := splitOnString_spells (splitTokens n) q (splitWithSep s q) false (fun e he => by
        obtain ⟨h3, h4, h5⟩ := h2 e he
        exact ⟨h3, h5.imp id fun h6 => hrec q hqm hqs e h3 h4 h6⟩)
      rwa [h1] at this
    · split
      · rename_i w hw
        have hws : w ∈ s := by simpa using List.find?_some hw
        have hwm : w ∈ whitespaceSplitTokens := List.mem_of_find?_eq_some hw
        exact splitOnWhitespace_spells _ w ((blank_iff w).1 hwm) s.length s (Nat.le_refl _)
          (fun e he hd hwe => hrec w (by simp [allSeps, hwm]) hws e he hd hwe)
      · split
        · rename_i k hkf
          have hk2 : k ∈ s ∧ s ≠ [k] := by simpa using List.find?_some hkf
          have hkm : k ∈ keptSplitTokens := List.mem_of_find?_eq_some hkf
          have hka : k ∈ allSeps := by simp [allSeps, hkm]
          have hn := hpos k hka hk2.1
          have hself : splitTokens n [k] = ⟨[[k]], none⟩ := by
            obtain ⟨m, rfl⟩ : ∃ m, n = m + 1 := ⟨n - 1, by omega⟩
            exact splitTokens_self m hkm
          rw [splitOnKept]
          split
          · exact ⟨[s], rfl, .single hs⟩
          · obtain ⟨h1, h2⟩ := splitWithSep_pieces k s.length s (Nat.le_refl _) hb
            have := splitEach_spells (splitTokens n) (splitWithSep s k) (fun e he => by
              obtain ⟨h3, h4, h5⟩ := h2 e he
              rcases h5 with rfl | h5
              · exact ⟨_, hself, .single (by simp)⟩
              · exact hrec k hka hk2.1 e h3 h4 h5)
            rwa [h1] at this
        · exact ⟨[s], rfl, .single hs⟩

/-- The ways to know that the text is split without trouble. -/
theorem split_spells {s : Str} (hs : s ≠ []) (h : '\\' ∉ s ∨ plain .out s ∨ bare s) (n : Nat) (hn : 20 < n) :
    ∃ l, splitTokens n s = ⟨l, none⟩ ∧ RawSpells s l := by
  have hk := kinds_le s
  rcases h with h | h | h
  · exact splitTokens_spells n s (by omega) hs h
  · exact ⟨raw s, splitTokens_eq n s (by omega) hs h, raw_spells s⟩
  · exact ⟨raw s, splitTokens_bare n s (by omega) hs h.1 h.2, raw_spells s⟩

theorem toTokens_spells {s : Str} (hs : s ≠ []) (h : '\\' ∉ s ∨ plain .out s ∨ bare s) (n : Nat) (hn : 20 < n) :
    ∃ toks, toTokensAt n s = ⟨toks, none⟩ ∧ Spells s toks := by
  obtain ⟨l, h1, h2⟩ := split_spells hs h n hn
  obtain ⟨toks, h3, h4⟩ := mergeStream_spells l.length l s (Nat.le_refl _) h2
  exact ⟨toks, by simp [toTokensAt, h1, h3], h4⟩

/-! ### Agreement of merging with the reference -/

theorem operate_cons_of_not_opens {a : Str} (h : opens a = false) (l : List Str) :
    operate (a :: l) = a :: operate l := by
  cases l with
  | nil => rfl
  | cons b rest =>
    rw [operate, if_neg]
    intro hop
    have := startsMerge_of_append hop
    rw [show startsMerge mergeTokens a = opens a from rfl, h] at this
    simp at this

theorem mergeStream_eq_operate (n : Nat) : ∀ l : List Str, l.length ≤ n → (∀ t ∈ l, t ≠ []) →
    noClash l → mergeStream mergeTokens none l = ⟨operate l, none⟩ := by
  induction n with
  | zero =>
    intro l hl _ _
    have : l = [] := by cases l <;> simp_all
    subst this; rfl
  | succ n ih =>
    intro l hl hne hc
    match l with
    | [] => rfl
    | [e] => exact mergeStream_one e
    | e :: m :: rest =>
      rw [mergeStream_two _ _ _ _ (hne m (by simp)), show startsMerge mergeTokens e = opens e from rfl,
        mergeTokens_eq]
      simp only [noClash, Bool.and_eq_true, Bool.or_eq_true, Bool.not_eq_true', decide_eq_true_eq]
        at hc
      simp only [List.length_cons] at hl
      have hrest : noClash rest := by
        cases rest with
        | nil => rfl
        | cons x xs => simp only [noClash, Bool.and_eq_true] at hc; exact hc.2.2
      have h1 := ih rest (by omega) (fun t ht => hne t (by simp [ht])) hrest
      have h2 := ih (m :: rest) (by simp; omega) (fun t ht => hne t (by simp [ht])) hc.2
      rw [mergeTokens_eq] at h1 h2
      by_cases ho : opens e
      · rw [if_pos ho]
        by_cases hop : e ++ m ∈ operators
        · rw [if_pos hop, operate, if_pos hop, h1]; rfl
        · rw [if_neg hop, operate, if_neg hop, h1]
          have hm : opens m = false := by
            rcases hc.1 with h | h
            · simpa [ho] using h
            · exact absurd h hop
          rw [operate_cons_of_not_opens hm]; rfl
      · rw [if_neg ho, operate_cons_of_not_opens (by simpa using ho), h2]; rfl

theorem toTokens_eq_tokens {s : Str} (hs : s ≠ []) (hp : plain .out s) (hc : noClash (raw s))
    (n : Nat) (hn : 20 < n) : toTokensAt n s = ⟨tokens s, none⟩ := by
  have hk := kinds_le s
  simp only [toTokensAt, splitTokens_eq n s (by omega) hs hp]
  exact mergeStream_eq_operate _ _ (Nat.le_refl _) (raw_spells s).nonempty hc

theorem toTokens_bare {s : Str} (hs : s ≠ []) (hp : bare s) (hc : noClash (raw s))
    (n : Nat) (hn : 20 < n) : toTokensAt n s = ⟨tokens s, none⟩ := by
  have hk := kinds_le s
  simp only [toTokensAt, splitTokens_bare n s (by omega) hs hp.1 hp.2]
  exact mergeStream_eq_operate _ _ (Nat.le_refl _) (raw_spells s).nonempty hc

end SqlV
