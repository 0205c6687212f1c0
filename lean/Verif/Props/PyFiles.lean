import Verif.Lemmas.Effects
import Verif.Lemmas.Untok
import Verif.Lemmas.Literal
import Verif.Props.Runs

/-!
# Python files (C37-C41, C48, C53)
-/

namespace SqlV

set_option linter.unusedSectionVars false

section
variable [E : PyEnv]

/-! ### C37 -/

theorem forall₂_of_effects {fmt val : Bool} {fail : Option PyErr} {ts : List PyTok} {es : List Effect}
    (h : effects fmt val fail ts = .ok es) :
    List.Forall₂ SameButQuery ts (es.map (·.tok)) ∧
      es.countP (·.changed) = (ts.zip (es.map (·.tok))).countP fun p => p.1 ≠ p.2 := by
  induction ts generalizing es with
  | nil =>
    cases fail with
    | some e => simp [effects] at h
    | none => simp [effects] at h; subst h; exact ⟨.nil, rfl⟩
  | cons t ts ih =>
    simp only [effects] at h
    rcases he : effect fmt val fail t ts with e' | e
    · rw [he] at h; simp at h
    · rw [he] at h
      rcases hes : effects fmt val fail ts with e' | es'
      · rw [hes] at h; simp at h
      · rw [hes] at h
        simp only [Except.ok.injEq] at h
        subst h
        obtain ⟨h1, h2⟩ := ih hes
        obtain ⟨h3, h4, h5⟩ := effect_same he
        refine ⟨.cons h3 h1, ?_⟩
        simp only [List.map_cons, List.zip_cons_cons, List.countP_cons, h2]
        congr 1
        cases hc : e.changed with
        | false => simp [h4 hc]
        | true =>
          have : t ≠ e.tok := fun hh => h5 hc (by rw [← hh])
          simp [this]

theorem computeContent_ok {limit : Nat} {ts : TokStream} {fmt val : Bool}
    {n inv : Nat} {content : Str} {locs : List (Nat × List Str)}
    (h : computeContent limit ts fmt val = .ok (n, content, inv, locs)) :
    ∃ es, effects fmt val ts.fail ts.toks = .ok es ∧ n = es.countP (·.changed) ∧
      inv = (es.flatMap (·.reports)).length ∧ locs = es.flatMap (·.reports) ∧
      untokenize (es.map (·.tok)) = .ok content := by
  simp only [computeContent] at h
  rcases hm : mainLoop fmt val limit ts.fail {} ts.toks with e | a
  · rw [hm] at h; simp [bind, Except.bind] at h
  · rw [hm] at h
    simp only [bind, Except.bind] at h
    obtain ⟨es, h1, h2, h3, h4, h5⟩ := mainLoop_ok hm
    rcases hu : untokenize a.tokens with e | c
    · rw [hu] at h; simp at h
    · rw [hu] at h
      simp only [pure, Except.pure, Except.ok.injEq, Prod.mk.injEq] at h
      obtain ⟨rfl, rfl, rfl, rfl⟩ := h
      exact ⟨es, h1, h3, h4, h5, by rw [← h2]; exact hu⟩

/-- C37, on tokens: the new content is printed from a token list that agrees with the original one in
length, kinds, positions and, except for string tokens holding queries, texts; the text put between
tokens is the one `untokenize` puts between the original tokens; and the number of changed queries is
the number of tokens that differ. -/
theorem C37_only_queries_change (limit : Nat) (ts : TokStream) (fmt val : Bool)
    (n inv : Nat) (content : Str) (locs : List (Nat × List Str))
    (h : computeContent limit ts fmt val = .ok (n, content, inv, locs)) :
    ∃ toks' gaps, List.Forall₂ SameButQuery ts.toks toks' ∧
      n = ((ts.toks.zip toks').countP fun p => p.1 ≠ p.2) ∧
      content = weave gaps (visible toks') ∧
      untokenize ts.toks = .ok (weave gaps (visible ts.toks)) := by
  obtain ⟨es, h1, h2, -, -, h5⟩ := computeContent_ok h
  obtain ⟨f1, f2⟩ := forall₂_of_effects h1
  rw [untokenize, untokenizeFrom_eq, gapsFrom_congr f1] at h5
  rcases hg : gapsFrom {} ts.toks with e | gs
  · rw [hg] at h5; simp [Except.map] at h5
  · rw [hg] at h5
    simp only [Except.map, Except.ok.injEq] at h5
    refine ⟨_, gs, f1, by rw [h2, f2], h5.symm, ?_⟩
    rw [untokenize, untokenizeFrom_eq, hg]; rfl

/-- The new content, where the text put between the tokens is known. -/
theorem content_of_gaps {limit : Nat} {fail : Option PyErr} {pieces : List (Str × PyTok)} {fmt val : Bool} {gs printed : List Str}
    (g1 : gapsFrom {} (pieces.map Prod.snd) = .ok gs)
    (g2 : ∀ ts : List PyTok, ts.map PyTok.kind = pieces.map (fun q => q.2.kind) → weave gs (visible ts) = weave printed ts)
    {n inv : Nat} {content : Str} {locs : List (Nat × List Str)}
    (h : computeContent limit ⟨pieces.map Prod.snd, fail⟩ fmt val = .ok (n, content, inv, locs)) :
    ∃ toks', List.Forall₂ SameButQuery (pieces.map Prod.snd) toks' ∧
      n = (((pieces.map Prod.snd).zip toks').countP fun p => p.1 ≠ p.2) ∧ content = weave printed toks' ∧
      (n = 0 → content = weave printed (pieces.map Prod.snd)) := by
  obtain ⟨es, h1, h2, -, -, h5⟩ := computeContent_ok h
  obtain ⟨f1, f2⟩ := forall₂_of_effects h1
  have hk : ∀ (a b : List PyTok), List.Forall₂ SameButQuery a b → b.map PyTok.kind = a.map PyTok.kind := by
    intro a b hab
    induction hab with
    | nil => rfl
    | cons h _ ih => simp [h.kind, ih]
  rw [untokenize, untokenizeFrom_eq, gapsFrom_congr f1, g1] at h5
  simp only [Except.map, Except.ok.injEq] at h5
  have hc : content = weave printed (es.map (·.tok)) := by
    rw [← h5]
    exact g2 _ (by rw [hk _ _ f1]; simp [Function.comp_def])
  refine ⟨_, f1, by rw [h2, f2], hc, fun hn => ?_⟩
  rw [hc]
  congr 1
  rw [h2, f2] at hn
  have hz : ∀ (a b : List PyTok), List.Forall₂ SameButQuery a b →
      ((a.zip b).countP fun p => p.1 ≠ p.2) = 0 → b = a := by
    intro a b hab
    induction hab with
    | nil => intro _; rfl
    | @cons x y xs ys h _ ih =>
      intro hn
      simp only [List.zip_cons_cons, List.countP_cons] at hn
      by_cases hxy : x = y
      · rw [← hxy, ih (by omega)]
      · simp [hxy] at hn
  exact hz _ _ f1 hn

/-- C37, on texts, for files whose tokens are separated by blanks, line continuations and block
indentation only: the new content is the old text with only the strings holding queries replaced.
(Missing: other white space between tokens, see `C37_tab_counterexample`.) -/
theorem C37_text_between_tokens_partial (limit : Nat) (pieces : List (Str × PyTok)) (fmt val : Bool)
    (hr : Reads (1, 0) [] false pieces) (n inv : Nat) (content : Str) (locs : List (Nat × List Str))
    (h : computeContent limit ⟨pieces.map Prod.snd, none⟩ fmt val = .ok (n, content, inv, locs)) :
    ∃ toks', List.Forall₂ SameButQuery (pieces.map Prod.snd) toks' ∧
      content = weave (pieces.map Prod.fst) toks' ∧
      (n = 0 → content = weave (pieces.map Prod.fst) (pieces.map Prod.snd)) := by
  obtain ⟨gs, g1, g2⟩ := gapsFrom_reads hr {} rfl
  obtain ⟨toks', c1, -, c2⟩ := content_of_gaps g1 g2 h
  exact ⟨toks', c1, c2⟩

/-- C37, on texts, for any text between the tokens: the texts `printed` are put in its place.  They do not depend on the queries. -/
theorem C37_gaps_exact (limit : Nat) (pieces : List (Str × PyTok)) (printed : List Str) (fmt val : Bool)
    (hr : Stands (1, 0) [] false pieces printed) (n inv : Nat) (content : Str) (locs : List (Nat × List Str))
    (h : computeContent limit ⟨pieces.map Prod.snd, none⟩ fmt val = .ok (n, content, inv, locs)) :
    ∃ toks', List.Forall₂ SameButQuery (pieces.map Prod.snd) toks' ∧
      content = weave printed toks' ∧
      (n = 0 → content = weave printed (pieces.map Prod.snd)) := by
  obtain ⟨gs, g1, g2⟩ := gapsFrom_stands hr {} rfl
  obtain ⟨toks', c1, -, c2⟩ := content_of_gaps g1 g2 h
  exact ⟨toks', c1, c2⟩

/-- Each text that is printed between tokens has as many lines as the one it replaces, and is as long on its last line. -/
theorem C37_gaps_places {p : Nat × Nat} {is : List Str} {b : Bool} {pieces : List (Str × PyTok)} {printed : List Str}
    (hr : Stands p is b pieces printed) (hi : ∀ i ∈ is, '\n' ∉ i)
    (hv : ∀ q ∈ pieces, q.2.kind = .indent → '\n' ∉ q.2.value) : printed.map span = pieces.map fun q => span q.1 := by
  induction hr with
  | nil => rfl
  | endm => rfl
  | indent p is b t r gs hk _ ih =>
    have := ih (by
      intro i h
      rcases List.mem_cons.1 h with rfl | h
      · exact hv _ List.mem_cons_self hk
      · exact hi i h) fun q h => hv q (List.mem_cons_of_mem _ h)
    simp [this]
  | dedent p i is b t r gs hk _ ih =>
    have := ih (fun j h => hi j (List.mem_cons_of_mem _ h)) fun q h => hv q (List.mem_cons_of_mem _ h)
    simp [this]
  | eol p is b g t r gs _ _ _ _ ih =>
    have := ih hi fun q h => hv q (List.mem_cons_of_mem _ h)
    simp [this, span_respaced]
  | first p i is g t r gs _ _ _ hs hl _ _ ih =>
    have := ih hi fun q h => hv q (List.mem_cons_of_mem _ h)
    have hl' : i.length ≤ (span g).2 := by
      rw [hs, advance_span] at hl
      simpa using hl
    simp [this, span_reindented (hi i List.mem_cons_self) hl']
  | other p is b g t r gs _ _ _ _ _ _ _ ih =>
    have := ih hi fun q h => hv q (List.mem_cons_of_mem _ h)
    simp [this, span_respaced]

/-- The tokens stand in the new text, with unchanged queries, where they stood in the old one, and printing them again changes nothing. -/
theorem C37_gaps_stable {p : Nat × Nat} {is : List Str} {b : Bool} {pieces : List (Str × PyTok)} {printed : List Str}
    (hr : Stands p is b pieces printed) (hi : ∀ i ∈ is, '\n' ∉ i)
    (hv : ∀ q ∈ pieces, q.2.kind = .indent → '\n' ∉ q.2.value) :
    Stands p is b (printed.zip (pieces.map Prod.snd)) printed := by
  induction hr with
  | nil => exact .nil _ _ _
  | endm p is b t hk => exact .endm _ _ _ _ hk
  | indent p is b t r gs hk _ ih =>
    exact .indent _ _ _ _ _ _ hk <| ih (by
      intro i h
      rcases List.mem_cons.1 h with rfl | h
      · exact hv _ List.mem_cons_self hk
      · exact hi i h) fun q h => hv q (List.mem_cons_of_mem _ h)
  | dedent p i is b t r gs hk _ ih =>
    exact .dedent _ _ _ _ _ _ _ hk <| ih (fun j h => hi j (List.mem_cons_of_mem _ h)) fun q h => hv q (List.mem_cons_of_mem _ h)
  | eol p is b g t r gs hk hs ht _ ih =>
    have := Stands.eol p is b (respaced g) t _ _ hk (by rw [advance_respaced]; exact hs) ht
      (ih hi fun q h => hv q (List.mem_cons_of_mem _ h))
    rwa [respaced_respaced] at this
  | first p i is g t r gs hp h1 h2 hs hl ht _ ih =>
    have hl' : i.length ≤ (span g).2 := by
      rw [hs, advance_span] at hl
      simpa using hl
    have hsp := span_reindented (hi i List.mem_cons_self) hl'
    have := Stands.first p i is (reindented i g) t _ _ hp h1 h2 (by rw [advance_span, hsp, ← advance_span]; exact hs) hl ht
      (ih hi fun q h => hv q (List.mem_cons_of_mem _ h))
    rwa [reindented_congr hsp] at this
  | other p is b g t r gs hp h1 h2 hs hb ht _ ih =>
    have := Stands.other p is b (respaced g) t _ _ hp h1 h2 (by rw [advance_respaced]; exact hs) hb ht
      (ih hi fun q h => hv q (List.mem_cons_of_mem _ h))
    rwa [respaced_respaced] at this

/-- Where the text between tokens is blanks and line continuations, it stays. -/
theorem C37_blanks_stay (n m : Nat) : respaced (blanks n m) = blanks n m := respaced_blanks n m

/-- Re-printing the untouched tokens of such a file gives its text. -/
theorem C37_round_trip (pieces : List (Str × PyTok)) (hr : Reads (1, 0) [] false pieces) :
    untokenize (pieces.map Prod.snd) = .ok (weave (pieces.map Prod.fst) (pieces.map Prod.snd)) := by
  obtain ⟨gs, g1, g2⟩ := gapsFrom_reads hr {} rfl
  rw [untokenize, untokenizeFrom_eq, g1]
  simp only [Except.map]
  rw [g2 _ (by simp [Function.comp_def])]

/-! ### C38, C39 -/

theorem find_stop {mid post : List PyTok} {c : PyTok} (hm : ∀ t ∈ mid, stopsFollow t = false)
    (hc : c.kind = .comment) : (mid ++ c :: post).find? stopsFollow = some c := by
  rw [find_mid hm, List.find?_cons]
  simp [stopsFollow, hc]

/-- Neither a comment, nor a string, nor the end of the file. -/
def passive (t : PyTok) : Prop := t.kind ≠ .comment ∧ t.kind ≠ .string ∧ t.kind ≠ .endmarker

theorem passive.stops {t : PyTok} (h : passive t) : stopsFollow t = false := by
  simp [stopsFollow, h.1, h.2.1, h.2.2]

/-- C38: a string whose next comment contains `nosqlformat`, with no other string in between, is printed
as it was. -/
theorem C38_nosqlformat (fmt val : Bool) (limit : Nat) (fail : Option PyErr)
    (pre mid post : List PyTok) (s c : PyTok) (hm : ∀ t ∈ mid, passive t) (hc : c.kind = .comment)
    (x y : Str) (hmark : c.value = x ++ str!"nosqlformat" ++ y) (a : Acc)
    (h : mainLoop fmt val limit fail {} (pre ++ s :: (mid ++ c :: post)) = .ok a) :
    a.tokens[pre.length]? = some s := by
  obtain ⟨es, h1, h2, -⟩ := mainLoop_ok h
  obtain ⟨e, he, heff⟩ := (effects_at h1).2 pre s _ rfl
  rw [h2, List.getElem?_map, he]
  have hcon : Str.contains c.value noSqlFormat = true := by
    rw [hmark, Str.contains_iff]; exact ⟨x, y, rfl⟩
  cases hq : isQuery s with
  | false => rw [effect_other hq] at heff; simp at heff; simp [← heff]
  | true =>
    simp only [effect, hq, if_true, find_stop (fun t ht => (hm t ht).stops) hc, hcon] at heff
    split at heff
    · obtain ⟨new, q, -, h4, -⟩ := analysed_ok heff
      simp [h4]
    · simp at heff; simp [← heff]

/-- C39: the reports of a file are those of its tokens, one after the other; a string whose next comment
contains `nosqlvalidation`, with no other string in between, has none. -/
theorem C39_nosqlvalidation (fmt val : Bool) (limit : Nat) (fail : Option PyErr)
    (pre mid post : List PyTok) (s c : PyTok) (hm : ∀ t ∈ mid, passive t) (hc : c.kind = .comment)
    (x y : Str) (hmark : c.value = x ++ str!"nosqlvalidation" ++ y) (a : Acc)
    (h : mainLoop fmt val limit fail {} (pre ++ s :: (mid ++ c :: post)) = .ok a) :
    ∃ reports : List (List (Nat × List Str)),
      reports.length = (pre ++ s :: (mid ++ c :: post)).length ∧
      a.locations = reports.flatten ∧ a.invalid = reports.flatten.length ∧
      reports[pre.length]? = some [] ∧
      ∀ (i : Nat) (rs : List (Nat × List Str)), reports[i]? = some rs → rs.length ≤ 1 ∧
        ∀ r ∈ rs, ∃ t : PyTok, (pre ++ s :: (mid ++ c :: post))[i]? = some t ∧ r.1 = t.start.1 ∧
          t.kind = .string ∧ isSelectString t.value = true := by
  obtain ⟨es, h1, -, -, h4, h5⟩ := mainLoop_ok h
  obtain ⟨hl, hat⟩ := effects_at h1
  obtain ⟨e, he, heff⟩ := hat pre s _ rfl
  have hcon : Str.contains c.value noSqlValidation = true := by
    rw [hmark, Str.contains_iff]; exact ⟨x, y, rfl⟩
  refine ⟨es.map (·.reports), by simp [hl], by rw [h5, List.flatMap_def], by
    rw [h4, List.flatMap_def], ?_, ?_⟩
  · rw [List.getElem?_map, he]
    cases hq : isQuery s with
    | false => rw [effect_other hq] at heff; simp at heff; simp [← heff]
    | true =>
      simp only [effect, hq, if_true, find_stop (fun t ht => (hm t ht).stops) hc, hcon] at heff
      split at heff
      · obtain ⟨new, q, -, -, -, h6, -⟩ := analysed_ok heff
        simp [h6]
      · simp at heff; simp [← heff]
  · intro i rs hi
    rw [List.getElem?_map] at hi
    generalize (pre ++ s :: (mid ++ c :: post)) = ts at *
    cases hei : es[i]? with
    | none => rw [hei] at hi; simp at hi
    | some e' =>
      rw [hei] at hi
      simp only [Option.map_some, Option.some.injEq] at hi
      subst hi
      have hlt : i < ts.length := by
        rw [← hl]; exact (List.getElem?_eq_some_iff.1 hei).1
      have hsplit : ts = ts.take i ++ ts[i] :: ts.drop (i + 1) := by
        rw [List.getElem_cons_drop, List.take_append_drop]
      obtain ⟨e'', h7, h8⟩ := hat _ _ _ hsplit
      have hlen : (ts.take i).length = i := by simp; omega
      rw [hlen, hei] at h7
      obtain rfl := Option.some.inj h7
      rcases effect_cases h8 with rfl | ⟨keep, check, hq, ha⟩
      · simp
      · obtain ⟨new, q, -, -, -, h9, h10⟩ := analysed_ok ha
        have hq' : ts[i].kind = .string ∧ isSelectString ts[i].value = true := by
          simpa [isQuery] using hq
        cases check with
        | false => simp [h9 rfl]
        | true =>
          rcases report_cases (h10 rfl) with ⟨-, h11⟩ | ⟨-, h11⟩
          · simp [h11]
          · rw [h11]
            refine ⟨by simp, fun r hr => ⟨ts[i], by simp [hlt], ?_, hq'⟩⟩
            simp at hr; rw [hr]

/-! ### C40 -/

theorem takeWhile_eq_iff {α : Type} (p : α → Bool) (l w : List α) :
    l.takeWhile p = w ↔ (∀ x ∈ w, p x = true) ∧
      ∃ rest, l = w ++ rest ∧ (rest = [] ∨ ∃ c r, rest = c :: r ∧ p c = false) := by
  induction l generalizing w with
  | nil =>
    simp only [List.takeWhile_nil]
    constructor
    · rintro rfl; exact ⟨by simp, [], rfl, .inl rfl⟩
    · rintro ⟨-, rest, h, -⟩
      cases w <;> simp_all
  | cons a l ih =>
    cases hp : p a with
    | false =>
      rw [List.takeWhile_cons_of_neg (by simp [hp])]
      constructor
      · rintro rfl; exact ⟨by simp, a :: l, rfl, .inr ⟨a, l, rfl, hp⟩⟩
      · rintro ⟨h1, rest, h, -⟩
        cases w with
        | nil => rfl
        | cons b w =>
          simp only [List.cons_append, List.cons.injEq] at h
          have := h1 b (by simp)
          rw [← h.1, hp] at this; simp at this
    | true =>
      rw [List.takeWhile_cons_of_pos hp]
      cases w with
      | nil =>
        simp only [List.nil_append, reduceCtorEq, false_iff]
        rintro ⟨-, rest, rfl, h | ⟨c, r, h, hc⟩⟩
        · simp at h
        · simp only [List.cons.injEq] at h; rw [← h.1, hp] at hc; simp at hc
      | cons b w =>
        simp only [List.cons.injEq, ih, List.cons_append, List.mem_cons, forall_eq_or_imp]
        constructor
        · rintro ⟨rfl, h1, rest, rfl, h2⟩; exact ⟨⟨hp, h1⟩, rest, ⟨rfl, rfl⟩, h2⟩
        · rintro ⟨⟨-, h1⟩, rest, ⟨rfl, rfl⟩, h2⟩; exact ⟨rfl, h1, rest, rfl, h2⟩

theorem of_mem_takeWhile {α : Type} {p : α → Bool} {l : List α} {x : α} (h : x ∈ l.takeWhile p) :
    p x = true := by
  induction l with
  | nil => simp at h
  | cons a l ih =>
    rw [List.takeWhile_cons] at h
    split at h
    · rcases List.mem_cons.1 h with rfl | h
      · assumption
      · exact ih h
    · simp at h

/-- C40: a string is taken for a query exactly when, lower-cased and after any number of blanks, line
feeds, quotes, back-quotes and prefix letters, it starts with the word `select`, and this word is
followed by nothing, a blank or a line break. -/
theorem C40_select_strings (s : Str) :
    isSelectString s = true ↔
      ∃ front rest, E.lower s = front ++ str!"select" ++ rest ∧
        (∀ c ∈ front, c ∈ [' ', '\n', '\'', '"', '`', 'u', 'f', 'b', 'r']) ∧
        (rest = [] ∨ ∃ c r, rest = c :: r ∧ (c = ' ' ∨ isLineBreak c = true)) := by
  have hset : ∀ c : Char, decide (c ∈ str!" \n'\"`ufbr") = true ↔
      c ∈ [' ', '\n', '\'', '"', '`', 'u', 'f', 'b', 'r'] := by
    intro c
    rw [decide_eq_true_iff]
  simp only [isSelectString]
  generalize E.lower s = l
  have hcl : ∀ m : Str, ((m.takeWhile fun c => !isLineBreak c).takeWhile (· ≠ ' ')) =
      m.takeWhile fun c => !isLineBreak c && decide (c ≠ ' ') := by
    intro m
    induction m with
    | nil => rfl
    | cons c m ih =>
      cases h1 : isLineBreak c <;> cases h2 : decide (c ≠ ' ') <;> simp_all [List.takeWhile_cons]
  rw [hcl]
  have hsel : ∀ c ∈ str!"select", (!isLineBreak c && decide (c ≠ ' ')) = true := by decide
  constructor
  · intro h
    split at h
    · simp at h
    · simp only [decide_eq_true_eq] at h
      obtain ⟨-, rest, h1, h2⟩ := (takeWhile_eq_iff _ _ _).1 h
      refine ⟨l.takeWhile (· ∈ str!" \n'\"`ufbr"), rest, ?_, ?_, ?_⟩
      · rw [List.append_assoc, ← h1, List.takeWhile_append_dropWhile]
      · intro c hc
        simpa using of_mem_takeWhile hc
      · rcases h2 with h2 | ⟨c, r, h2, h3⟩
        · exact .inl h2
        · refine .inr ⟨c, r, h2, ?_⟩
          simp only [Bool.and_eq_false_iff, Bool.not_eq_false', decide_eq_false_iff_not,
            ne_eq, not_not] at h3
          exact h3.symm
  · rintro ⟨front, rest, rfl, h1, h2⟩
    have hd : (front ++ str!"select" ++ rest).dropWhile (· ∈ str!" \n'\"`ufbr") =
        str!"select" ++ rest := by
      rw [List.append_assoc, List.dropWhile_append_of_pos (fun c hc => (hset c).2 (h1 c hc))]
      rfl
    rw [hd, if_neg (by simp)]
    simp only [decide_eq_true_eq]
    refine (takeWhile_eq_iff _ _ _).2 ⟨hsel, rest, rfl, ?_⟩
    rcases h2 with h2 | ⟨c, r, h2, h3⟩
    · exact .inl h2
    · refine .inr ⟨c, r, h2, ?_⟩
      simp only [Bool.and_eq_false_iff, Bool.not_eq_false', decide_eq_false_iff_not, ne_eq, not_not]
      exact h3.symm

/-- C40: any other token is printed as it was and not reported. -/
theorem C40_others_ignored (fmt val : Bool) (limit : Nat) (fail : Option PyErr)
    (ts : List PyTok) (a : Acc) (h : mainLoop fmt val limit fail {} ts = .ok a) :
    a.tokens.length = ts.length ∧
    ∃ reports : List (List (Nat × List Str)), reports.length = ts.length ∧
      a.locations = reports.flatten ∧
      ∀ (i : Nat) (t : PyTok), ts[i]? = some t → ¬ (t.kind = .string ∧ isSelectString t.value = true) →
        a.tokens[i]? = some t ∧ reports[i]? = some [] := by
  obtain ⟨es, h1, h2, -, -, h5⟩ := mainLoop_ok h
  obtain ⟨hl, hat⟩ := effects_at h1
  refine ⟨by simp [h2, hl], es.map (·.reports), by simp [hl], by rw [h5, List.flatMap_def], ?_⟩
  intro i t hi hn
  have hlt : i < ts.length := (List.getElem?_eq_some_iff.1 hi).1
  have hti : ts[i] = t := (List.getElem?_eq_some_iff.1 hi).2
  have hsplit : ts = ts.take i ++ t :: ts.drop (i + 1) := by
    rw [← hti, List.getElem_cons_drop, List.take_append_drop]
  obtain ⟨e, h7, h8⟩ := hat _ _ _ hsplit
  have hlen : (ts.take i).length = i := by simp; omega
  rw [hlen] at h7
  have hq : isQuery t = false := by
    rw [Bool.eq_false_iff]; intro hq; exact hn (by simpa [isQuery] using hq)
  rw [effect_other hq] at h8
  simp only [Except.ok.injEq] at h8
  rw [h2, List.getElem?_map, List.getElem?_map, h7]
  simp [← h8]


/-! ### C41 -/

/-- C41: a literal with prefix `p` and `k` quotes `c` is rewritten to one with the same prefix and quote
character; the quotes are tripled, and the text put on lines of its own, exactly when the formatted text
spans several lines.  (The body of a literal with single quotes does not begin with that quote.) -/
theorem C41_prefix_and_quotes (p : Str) (hp : literalPrefix p) (c : Char)
    (hc : c = '"' ∨ c = '\'') (k : Nat) (hk : k = 1 ∨ k = 3) (body : Str)
    (hb : k = 1 → body.head? ≠ some c) :
    (∀ f, formatSql body = .ok f → ∃ q,
      handleSqlString (p ++ List.replicate k c ++ body ++ List.replicate k c) =
        .ok (if '\n' ∈ f then
            p ++ List.replicate 3 c ++ ['\n'] ++ f ++ ['\n'] ++ List.replicate 3 c
          else p ++ List.replicate k c ++ f ++ List.replicate k c, q) ∧
        q.isValid.1 = (SQLQuery.new body).isValid.1 ∧
        q.isValid.2.errors = (SQLQuery.new body).isValid.2.errors) ∧
    (∀ e, formatSql body = .error e →
      handleSqlString (p ++ List.replicate k c ++ body ++ List.replicate k c) = .error e) := by
  have hs : p ++ List.replicate k c ++ body ++ List.replicate k c =
      p ++ (quoteOf c k ++ body ++ quoteOf c k) := by simp [quoteOf]
  rw [hs]
  obtain ⟨pre, hpre, hfind⟩ : ∃ pre : Option Str, pre.getD [] = p ∧
      findQuotes (p ++ (quoteOf c k ++ body ++ quoteOf c k)) = some (quoteOf c k, pre) := by
    rcases (literalPrefix_iff p).1 hp with rfl | hp
    · exact ⟨none, rfl, findQuotes_plain hc hk body hb⟩
    · exact ⟨some p, rfl, findQuotes_prefix hp hc hk body hb⟩
  have hin := innerSql_eq p c k body pre hpre
  have hh := handleSqlString_some hfind
  rw [hin, hpre] at hh
  have hfm : (SQLQuery.new body).format.1 = formatSql body := (Cached.new body).format.1
  rw [hfm] at hh
  constructor
  · intro f hf
    rw [hf] at hh
    simp only [Except.map] at hh
    refine ⟨_, by rw [hh, requote_eq p hc hk]; rfl, ?_⟩
    obtain ⟨quotes, pre', h1, h2, h3, -⟩ := handleSqlString_valid hh
    rw [hfind] at h1
    simp only [Option.some.injEq, Prod.mk.injEq] at h1
    obtain ⟨rfl, rfl⟩ := h1
    rw [hin] at h2 h3
    exact ⟨h2, h3⟩
  · intro e he
    rw [hh, he]; rfl

/-! ### C48 -/

/-- Same kind and text. -/
def SameText (a b : PyTok) : Prop := b.kind = a.kind ∧ b.value = a.value

/-- Formatting a literal twice is like formatting it once, and does not make it say `nosqlformat` no
longer. -/
def Settled (v : Str) : Prop :=
  ∀ new q, handleSqlString v = .ok (new, q) →
    (∀ new' q', handleSqlString new = .ok (new', q') → new' = new) ∧
    (Str.contains v noSqlFormat = true → Str.contains new noSqlFormat = true)

theorem effects_cons {fmt val : Bool} {fail : Option PyErr} {t : PyTok} {ts : List PyTok}
    {es : List Effect} (h : effects fmt val fail (t :: ts) = .ok es) :
    ∃ e es', es = e :: es' ∧ effect fmt val fail t ts = .ok e ∧ effects fmt val fail ts = .ok es' := by
  simp only [effects] at h
  rcases he : effect fmt val fail t ts with e' | e
  · rw [he] at h; simp at h
  · rw [he] at h
    rcases hes : effects fmt val fail ts with e' | es'
    · rw [hes] at h; simp at h
    · rw [hes] at h
      simp only [Except.ok.injEq] at h
      exact ⟨e, es', h.symm, rfl, rfl⟩

/-- A token's text after processing. -/
theorem effect_text {fmt val : Bool} {fail : Option PyErr} {t : PyTok} {ts : List PyTok} {e : Effect}
    (h : effect fmt val fail t ts = .ok e) (hs : isQuery t = true → Settled t.value) :
    e.tok.kind = t.kind ∧
      (Str.contains t.value noSqlFormat = true → Str.contains e.tok.value noSqlFormat = true) := by
  rcases effect_cases h with rfl | ⟨keep, check, hq, ha⟩
  · exact ⟨rfl, id⟩
  · obtain ⟨new, q, h1, h2, -⟩ := analysed_ok ha
    rw [h2]
    split
    · exact ⟨rfl, (hs hq new q h1).2⟩
    · exact ⟨rfl, id⟩

theorem find_after {val : Bool} {fail : Option PyErr} {ts ts2 : List PyTok} {es : List Effect}
    (h : effects true val fail ts = .ok es) (h2 : List.Forall₂ SameText (es.map (·.tok)) ts2)
    (hs : ∀ t ∈ ts, isQuery t = true → Settled t.value) :
    (ts.find? stopsFollow = none ∧ ts2.find? stopsFollow = none) ∨
      ∃ n n2, ts.find? stopsFollow = some n ∧ ts2.find? stopsFollow = some n2 ∧ n2.kind = n.kind ∧
        (Str.contains n.value noSqlFormat = true → Str.contains n2.value noSqlFormat = true) := by
  induction ts generalizing ts2 es with
  | nil =>
    cases fail with
    | some e => simp [effects] at h
    | none =>
      simp [effects] at h; subst h
      cases h2
      exact .inl ⟨rfl, rfl⟩
  | cons t ts ih =>
    obtain ⟨e, es', rfl, he, hes⟩ := effects_cons h
    rw [List.map_cons] at h2
    rcases h2 with _ | @⟨_, t2, _, ts2, h3, h4⟩
    obtain ⟨k1, k2⟩ := effect_text he (hs t (by simp))
    have hst : stopsFollow t2 = stopsFollow t := by
      simp only [stopsFollow, h3.1, k1]
    rw [List.find?_cons, List.find?_cons, hst]
    cases hb : stopsFollow t with
    | true => exact .inr ⟨t, t2, rfl, rfl, h3.1.trans k1, fun hc => by rw [h3.2]; exact k2 hc⟩
    | false => exact ih hes h4 (fun x hx => hs x (by simp [hx]))

theorem settled_unchanged {val val' : Bool} {fail fail' : Option PyErr} {ts ts2 : List PyTok}
    {es es2 : List Effect} (h : effects true val fail ts = .ok es)
    (h2 : List.Forall₂ SameText (es.map (·.tok)) ts2)
    (hs : ∀ t ∈ ts, isQuery t = true → Settled t.value)
    (h3 : effects true val' fail' ts2 = .ok es2) : ∀ e ∈ es2, e.changed = false := by
  induction ts generalizing ts2 es es2 with
  | nil =>
    cases fail with
    | some e => simp [effects] at h
    | none =>
      simp [effects] at h; subst h
      cases h2
      cases fail' with
      | some e => simp [effects] at h3
      | none => simp [effects] at h3; subst h3; simp
  | cons t ts ih =>
    obtain ⟨e, es', rfl, he, hes⟩ := effects_cons h
    rw [List.map_cons] at h2
    rcases h2 with _ | @⟨_, t2, _, ts2, hst, hrest⟩
    obtain ⟨e2, es2', rfl, he2, hes2⟩ := effects_cons h3
    have hs' : ∀ x ∈ ts, isQuery x = true → Settled x.value := fun x hx => hs x (by simp [hx])
    intro x hx
    rcases List.mem_cons.1 hx with hx | hx
    · subst hx
      cases hc : x.changed with
      | false => rfl
      | true =>
        exfalso
        -- what a literal analysed in the first run looks like
        have key : ∀ keep check check', analysed t keep check = .ok e → keep = false →
            isQuery t = true → analysed t2 false check' = .ok x → False := by
          intro keep check check' ha hk hq ha2
          subst hk
          obtain ⟨new, q, a1, a2, -⟩ := analysed_ok ha
          obtain ⟨new2, q2, b1, -, b3, -⟩ := analysed_ok ha2
          have hv : t2.value = new := by
            rw [hst.2, a2]
            by_cases hn : new = t.value
            · simp [hn]
            · simp [hn]
          rw [hv] at b1 b3
          exact (b3.1 hc).1 ((hs t (by simp) hq new q a1).1 new2 q2 b1)
        cases hq : isQuery t with
        | false =>
          rw [effect_other hq] at he
          simp only [Except.ok.injEq] at he
          have : isQuery t2 = false := by
            rw [← hq, isQuery, isQuery, hst.1, hst.2, ← he]
          rw [effect_other this] at he2
          simp only [Except.ok.injEq] at he2
          rw [← he2] at hc
          simp at hc
        | true =>
          rcases find_after hes hrest hs' with ⟨f1, f2⟩ | ⟨n, n2, f1, f2, fk, fc⟩
          · -- no comment, string or end marker follows
            simp only [effect, hq, if_true, f1] at he
            cases hq2 : isQuery t2 with
            | false =>
              rw [effect_other hq2] at he2
              simp only [Except.ok.injEq] at he2
              rw [← he2] at hc; simp at hc
            | true =>
              simp only [effect, hq2, if_true, f2] at he2
              cases fail with
              | some _ => simp at he
              | none =>
                cases fail' with
                | some _ => simp at he2
                | none =>
                  have hnil : ts2 = [] ↔ ts = [] := by
                    have := hrest.length_eq
                    have l2 := (effects_at hes).1
                    rw [List.length_map, l2] at this
                    rw [← List.length_eq_zero_iff, ← List.length_eq_zero_iff, this]
                  simp only at he he2
                  by_cases hn : ts = []
                  · rw [if_pos hn] at he
                    rw [if_pos (hnil.2 hn)] at he2
                    exact key _ _ _ he rfl hq he2
                  · rw [if_neg (fun h => hn (hnil.1 h))] at he2
                    simp only [Except.ok.injEq] at he2
                    rw [← he2] at hc; simp at hc
          · cases hq2 : isQuery t2 with
            | false =>
              rw [effect_other hq2] at he2
              simp only [Except.ok.injEq] at he2
              rw [← he2] at hc; simp at hc
            | true =>
              simp only [effect, hq2, if_true, f2] at he2
              split at he2
              · cases hk2 : Str.contains n2.value noSqlFormat with
                | true =>
                  rw [hk2] at he2
                  obtain ⟨_, _, -, -, b3, -⟩ := analysed_ok he2
                  simpa using (b3.1 hc).2
                | false =>
                  rw [hk2] at he2
                  have hk : Str.contains n.value noSqlFormat = false := by
                    cases hk : Str.contains n.value noSqlFormat with
                    | false => rfl
                    | true => rw [fc hk] at hk2; simp at hk2
                  simp only [effect, hq, if_true, f1, hk, Bool.not_false, Bool.and_true, true_or,
                    or_true] at he
                  exact key _ _ _ he rfl hq he2
              · simp only [Except.ok.injEq] at he2
                rw [← he2] at hc; simp at hc
    · exact ih hes hrest hs' hes2 x hx

theorem found_ok {env : FileEnv} {fl : Flags} {c : Path → Str} {f : Path} {r : Found}
    (h : found env fl c f = .ok r) :
    env.readFault (env.abspath f) = none ∧
    computeContent env.limit (env.tokenize (c (env.abspath f))) (fl.format || fl.check)
      (fl.validate || fl.verbose) = .ok (r.changed, r.content, r.invalid, r.locations) := by
  simp only [found] at h
  cases hr : env.readFault (env.abspath f) with
  | some e => rw [hr] at h; simp at h
  | none =>
    rw [hr] at h
    refine ⟨rfl, ?_⟩
    simp only at h
    rcases hcc : computeContent env.limit (env.tokenize (c (env.abspath f))) (fl.format || fl.check)
      (fl.validate || fl.verbose) with e | ⟨a, b, d, e⟩
    · rw [hcc] at h; simp [Except.map] at h
    · rw [hcc] at h
      simp only [Except.map, Except.ok.injEq] at h
      subst h; rfl

theorem inj_of_nodup_map {α β : Type} {g : α → β} {l : List α} (h : (l.map g).Nodup) {a b : α}
    (ha : a ∈ l) (hb : b ∈ l) (hab : g a = g b) : a = b := by
  induction l with
  | nil => simp at ha
  | cons x l ih =>
    simp only [List.map_cons, List.nodup_cons] at h
    rcases List.mem_cons.1 ha with h1 | h1 <;> rcases List.mem_cons.1 hb with h2 | h2
    · rw [h1, h2]
    · exact absurd (List.mem_map.2 ⟨b, h2, by rw [← hab, h1]⟩) h.1
    · exact absurd (List.mem_map.2 ⟨a, h1, by rw [hab, h2]⟩) h.1
    · exact ih h.2 h1 h2

/-- C48, where the formatter settles: if every literal taken for a query in a rewritten file is settled,
and reading a rewritten file back gives the tokens it was printed from, then `--check-format` after
`--format` ends with status 0.  (Missing: literals on which formatting is not idempotent, see
`C48_not_all`.) -/
theorem C48_check_after_format_partial (env : FileEnv) (srcs : List Path) (w : World)
    (hw : NoWriteFault env)
    (hset : ∀ f ∈ reached env srcs, ∀ t ∈ (env.tokenize (w.content (env.abspath f))).toks,
      t.kind = .string → isSelectString t.value = true → Settled t.value)
    (hread : ∀ f ∈ reached env srcs, ∀ a content,
      mainLoop true false env.limit (env.tokenize (w.content (env.abspath f))).fail {}
        (env.tokenize (w.content (env.abspath f))).toks = .ok a →
      untokenize a.tokens = .ok content → a.changed > 0 →
      List.Forall₂ SameText a.tokens (env.tokenize content).toks) :
    (handleInputs env ⟨false, true, false, false⟩ srcs
      (handleInputs env ⟨true, false, false, false⟩ srcs w).2).1 = 0 := by
  generalize hw' : (handleInputs env ⟨true, false, false, false⟩ srcs w).2 = w'
  obtain ⟨hst, hiff⟩ := C45_exit_status env ⟨false, true, false, false⟩ srcs w'
  rcases hst with h | h
  · exact h
  · exfalso
    rcases hiff.1 h with ⟨-, f, hf, r, hr, hpos⟩ | ⟨hv, -⟩
    swap
    · simp at hv
    rw [handled_eq_found (.inl rfl)] at hr
    obtain ⟨hrd, hcc⟩ := found_ok hr
    obtain ⟨es2, e1, e2, -⟩ := computeContent_ok hcc
    simp only [Bool.false_or, Bool.or_false] at e1
    rcases h1 : found env ⟨true, false, false, false⟩ w.content f with e | r1
    · -- nothing written in the first run
      have hc : w'.content (env.abspath f) = w.content (env.abspath f) := by
        rw [← hw']
        refine (C43_other_files_untouched env _ srcs w _ ?_).1
        intro g hg hgf r' hr'
        have : g = f := by
          exact inj_of_nodup_map (reached_nodup env srcs) hg hf hgf
        rw [this, h1] at hr'; simp at hr'
      have : found env ⟨false, true, false, false⟩ w'.content f =
          found env ⟨true, false, false, false⟩ w.content f := by
        simp only [found, hc]; rfl
      rw [hr, h1] at this; simp at this
    · by_cases hch : r1.changed > 0
      · have hc := (C43_changed_files_written env ⟨true, false, false, false⟩ srcs w rfl f hf (hw _) r1 h1
          hch).1
        rw [hw'] at hc
        obtain ⟨-, hcc1⟩ := found_ok h1
        simp only [Bool.or_false] at hcc1
        rcases hm : mainLoop true false env.limit (env.tokenize (w.content (env.abspath f))).fail {}
            (env.tokenize (w.content (env.abspath f))).toks with e | a
        · simp [computeContent, hm, bind, Except.bind] at hcc1
        · obtain ⟨es, m1, m2, m3, -⟩ := mainLoop_ok hm
          simp only [computeContent, hm, bind, Except.bind] at hcc1
          rcases hu : untokenize a.tokens with e | content
          · rw [hu] at hcc1; simp at hcc1
          · rw [hu] at hcc1
            simp only [pure, Except.pure, Except.ok.injEq, Prod.mk.injEq] at hcc1
            have hsame := hread f hf a content hm hu (by rw [hcc1.1]; exact hch)
            rw [hcc1.2.1, ← hc, m2] at hsame
            have hall := settled_unchanged m1 hsame
              (fun t ht hq => by
                have hq' : t.kind = .string ∧ isSelectString t.value = true := by
                  simpa [isQuery] using hq
                exact hset f hf t ht hq'.1 hq'.2) e1
            rw [e2, List.countP_pos_iff] at hpos
            obtain ⟨x, hx, hx'⟩ := hpos
            rw [hall x hx] at hx'; simp at hx'
      · have hc : w'.content (env.abspath f) = w.content (env.abspath f) := by
          rw [← hw']
          refine (C43_other_files_untouched env _ srcs w _ ?_).1
          intro g hg hgf r' hr'
          have : g = f := inj_of_nodup_map (reached_nodup env srcs) hg hf hgf
          rw [this, h1] at hr'
          simp only [Except.ok.injEq] at hr'
          rw [← hr']; omega
        have : found env ⟨false, true, false, false⟩ w'.content f =
            found env ⟨true, false, false, false⟩ w.content f := by
          simp only [found, hc]; rfl
        rw [hr, h1] at this
        simp only [Except.ok.injEq] at this
        rw [this] at hpos; omega

/-! ### C53 -/

/-- C53, where the analysis of the file raises nothing: a file with a query that is invalid on its own,
and not followed by a comment with the marker, makes `--validate` end with status 1.
(Missing: files on which the formatter raises, see `C53_unparsable_not_flagged`.) -/
theorem C53_invalid_query_flagged_partial (env : FileEnv) (fl : Flags) (srcs : List Path) (w : World)
    (hv : fl.validate = true) (f : Path) (hf : f ∈ reached env srcs) (r : Found)
    (hr : handled env fl w.content f = .ok r)
    (pre mid post : List PyTok) (s n : PyTok)
    (htoks : (env.tokenize (w.content (env.abspath f))).toks = pre ++ s :: (mid ++ n :: post))
    (hm : ∀ t ∈ mid, passive t) (hn : ¬ passive n)
    (hmark : ∀ x y, n.value ≠ x ++ str!"nosqlvalidation" ++ y)
    (hs : s.kind = .string) (hsel : isSelectString s.value = true)
    (p : Str) (hp : literalPrefix p) (c : Char) (hc : c = '"' ∨ c = '\'') (k : Nat)
    (hk : k = 1 ∨ k = 3) (body : Str) (hb : k = 1 → body.head? ≠ some c)
    (hlit : s.value = p ++ List.replicate k c ++ body ++ List.replicate k c)
    (hbad : (SQLQuery.new body).isValid.1 = .ok false) :
    (handleInputs env fl srcs w).1 = 1 := by
  rw [(C45_exit_status env fl srcs w).2]
  refine .inr ⟨hv, f, hf, r, hr, ?_⟩
  replace hr : found env fl w.content f = .ok r := by
    rw [handled] at hr
    cases hfo : found env fl w.content f with
    | error e => rw [hfo] at hr; cases hr
    | ok r' =>
      rw [hfo] at hr
      simp only at hr
      split at hr
      · cases hr
      · exact hr
  obtain ⟨-, hcc⟩ := found_ok hr
  obtain ⟨es, e1, -, e3, -⟩ := computeContent_ok hcc
  rw [htoks, hv] at e1
  obtain ⟨e, he, heff⟩ := (effects_at e1).2 pre s _ rfl
  have hq : isQuery s = true := by simp [isQuery, hs, hsel]
  have hstop : stopsFollow n = true := by
    simp only [passive, not_and_or, not_not] at hn
    simp only [stopsFollow, Bool.or_eq_true, decide_eq_true_eq]
    rcases hn with h | h | h
    · exact .inl (.inr h)
    · exact .inr h
    · exact .inl (.inl h)
  have hfind : (mid ++ n :: post).find? stopsFollow = some n := by
    rw [find_mid (fun t ht => (hm t ht).stops), List.find?_cons, hstop]
  have hno : Str.contains n.value noSqlValidation = false := by
    rw [Bool.eq_false_iff]
    intro h
    obtain ⟨x, y, hxy⟩ := (Str.contains_iff _ _).1 h
    exact hmark x y hxy
  simp only [effect, hq, if_true, hfind, hno, Bool.true_or, Bool.not_false, Bool.and_true,
    or_true] at heff
  obtain ⟨new, q, h1, -, -, -, h2⟩ := analysed_ok heff
  have h2 := h2 rfl
  have hqv : q.isValid.1 = .ok false := by
    rw [hlit] at h1
    obtain ⟨c1, c2⟩ := C41_prefix_and_quotes p hp c hc k hk body hb
    rcases hfm : formatSql body with e' | fm
    · rw [c2 e' hfm] at h1; simp at h1
    · obtain ⟨q', d1, d2, -⟩ := c1 fm hfm
      rw [d1] at h1
      simp only [Except.ok.injEq, Prod.mk.injEq] at h1
      rw [← h1.2, d2, hbad]
  rw [e3, List.length_pos_iff]
  intro hnil
  have hmem : e ∈ es := List.mem_of_getElem? he
  have := List.flatMap_eq_nil_iff.1 hnil e hmem
  rcases report_cases h2 with ⟨h3, -⟩ | ⟨-, h4⟩
  · rw [hqv] at h3; simp at h3
  · rw [this] at h4; simp at h4

end

/-! ### Examples and counterexamples -/

/-- `if x:\n  y = 'select  a'  # z\n` as gaps and tokens. -/
def demoSource : List (Str × PyTok) :=
  [([], ⟨.other 1, str!"if", (1, 0), (1, 2)⟩), (str!" ", ⟨.other 1, str!"x", (1, 3), (1, 4)⟩),
   ([], ⟨.other 54, str!":", (1, 4), (1, 5)⟩), ([], ⟨.newline, str!"\n", (1, 5), (1, 6)⟩),
   ([], ⟨.indent, str!"  ", (2, 0), (2, 2)⟩), (str!"  ", ⟨.other 1, str!"y", (2, 2), (2, 3)⟩),
   (str!" ", ⟨.other 54, str!"=", (2, 4), (2, 5)⟩),
   (str!" ", ⟨.string, str!"'select  a'", (2, 6), (2, 17)⟩),
   (str!"  ", ⟨.comment, str!"# z", (2, 19), (2, 22)⟩), ([], ⟨.newline, str!"\n", (2, 22), (2, 23)⟩),
   ([], ⟨.dedent, [], (3, 0), (3, 0)⟩), ([], ⟨.endmarker, [], (3, 0), (3, 0)⟩)]

/-- The text is the one intended. -/
example : weave (demoSource.map Prod.fst) (demoSource.map Prod.snd) =
    str!"if x:\n  y = 'select  a'  # z\n" := by decide

/-- `C37_text_between_tokens_partial` applies to it. -/
theorem demoSource_reads : Reads (1, 0) [] false demoSource := by
  refine .other _ _ _ 0 0 _ _ rfl (by decide) (by decide) rfl (by simp) rfl ?_
  refine .other _ _ _ 0 1 _ _ rfl (by decide) (by decide) rfl (by simp) rfl ?_
  refine .other _ _ _ 0 0 _ _ rfl (by decide) (by decide) rfl (by simp) rfl ?_
  refine .eol _ _ _ 0 0 _ _ (.inl rfl) (.inl rfl) rfl rfl ?_
  refine .indent _ _ _ _ _ rfl ?_
  refine .first _ _ _ 0 _ _ rfl (by decide) (by decide) rfl rfl ?_
  refine .other _ _ _ 0 1 _ _ rfl (by decide) (by decide) rfl (by simp) rfl ?_
  refine .other _ _ _ 0 1 _ _ rfl (by decide) (by decide) rfl (by simp) rfl ?_
  refine .other _ _ _ 0 2 _ _ rfl (by decide) (by decide) rfl (by simp) rfl ?_
  refine .eol _ _ _ 0 0 _ _ (.inl rfl) (.inl rfl) rfl rfl ?_
  refine .dedent _ _ _ _ _ _ rfl ?_
  exact .endm _ _ _ _ rfl

/-- Only the literal is replaced. -/
example :
    let r := @computeContent asciiEnv 10 ⟨demoSource.map Prod.snd, none⟩ true true
    r.map (fun r => (r.1, r.2.1, r.2.2.1)) = .ok (1, str!"if x:\n  y = 'SELECT a'  # z\n", 1) ∧
    r.map (fun r => r.2.2.2) = .ok [(2, [str!"The column a was not found"])] := by decide +kernel

/-- C37 is false for other white space: in `q =\t'select  a'` the tab becomes a blank. -/
theorem C37_tab_counterexample : ∃ (src : Str) (toks : List PyTok),
    (∀ t ∈ toks, (src.drop t.start.2).take (t.stop.2 - t.start.2) = t.value) ∧
    src = str!"q =\t'select  a'" ∧
    (@computeContent asciiEnv 10 ⟨toks, none⟩ true false).map (fun r => r.2.1) =
      .ok str!"q = 'SELECT a'" :=
  ⟨str!"q =\t'select  a'",
   [⟨.other 1, str!"q", (1, 0), (1, 1)⟩, ⟨.other 54, str!"=", (1, 2), (1, 3)⟩,
    ⟨.string, str!"'select  a'", (1, 4), (1, 15)⟩, ⟨.endmarker, [], (1, 15), (1, 15)⟩],
   by decide, rfl, by decide +kernel⟩

/-- A tab, and blanks before a line continuation: what `C37_gaps_exact` says of `q\t=  \⏎ 'select  a'`. -/
example :
    let pieces : List (Str × PyTok) := [([], ⟨.other 1, str!"q", (1, 0), (1, 1)⟩), (str!"\t", ⟨.other 54, str!"=", (1, 2), (1, 3)⟩),
      (str!"  \\\n ", ⟨.string, str!"'select  a'", (2, 1), (2, 12)⟩), ([], ⟨.endmarker, [], (2, 12), (2, 12)⟩)]
    Stands (1, 0) [] false pieces [[], str!" ", str!"\\\n ", []] ∧
    (@computeContent asciiEnv 10 ⟨pieces.map Prod.snd, none⟩ true false).map (fun r => r.2.1) = .ok str!"q =\\\n 'SELECT a'" := by
  refine ⟨?_, by decide +kernel⟩
  refine .other _ _ _ _ _ _ _ rfl (by decide) (by decide) (by decide) (by simp) (by decide) ?_
  refine .other _ _ _ _ _ _ _ rfl (by decide) (by decide) (by decide) (by simp) (by decide) ?_
  refine .other _ _ _ _ _ _ _ rfl (by decide) (by decide) (by decide) (by simp) (by decide) ?_
  exact .endm _ _ _ _ rfl

/-- In a block indented by a tab, a comment behind two tabs: the second one becomes a blank. -/
example :
    let pieces : List (Str × PyTok) := [([], ⟨.other 1, str!"x", (1, 0), (1, 1)⟩), ([], ⟨.newline, str!"\n", (1, 1), (1, 2)⟩),
      ([], ⟨.indent, str!"\t", (2, 0), (2, 1)⟩), (str!"\t\t", ⟨.comment, str!"# c", (2, 2), (2, 5)⟩), ([], ⟨.nl, str!"\n", (2, 5), (2, 6)⟩)]
    Stands (1, 0) [] false pieces [[], [], [], str!"\t ", []] ∧
    (@computeContent asciiEnv 10 ⟨pieces.map Prod.snd, none⟩ true false).map (fun r => r.2.1) = .ok str!"x\n\t # c\n" := by
  refine ⟨?_, by decide +kernel⟩
  refine .other _ _ _ _ _ _ _ rfl (by decide) (by decide) (by decide) (by simp) (by decide) ?_
  refine .eol _ _ _ _ _ _ _ (by decide) (by decide) (by decide) ?_
  refine .indent _ _ _ _ _ _ rfl ?_
  refine .first _ _ _ _ _ _ _ rfl (by decide) (by decide) (by decide) (by decide) (by decide) ?_
  exact .eol _ _ _ _ _ _ _ (by decide) (by decide) (by decide) (.nil _ _ _)

/-- C38 and C39: the markers at work.  Without them the literal is changed and reported. -/
example :
    let toks (c : Str) : List PyTok := [⟨.string, str!"'select  a'", (1, 0), (1, 11)⟩,
      ⟨.other 54, str!")", (1, 11), (1, 12)⟩, ⟨.comment, c, (1, 12), (1, 20)⟩,
      ⟨.endmarker, [], (2, 0), (2, 0)⟩]
    let run c := (@mainLoop asciiEnv true true 9 none {} (toks c)).map
      fun a => ((a.tokens.map (·.value)).head?, a.changed, a.invalid)
    run str!"# x" = .ok (some str!"'SELECT a'", 1, 1) ∧
    run str!"# nosqlformat" = .ok (some str!"'select  a'", 0, 1) ∧
    run str!"# nosqlvalidation" = .ok (some str!"'SELECT a'", 1, 0) ∧
    run str!"# nosqlformat nosqlvalidation" = .ok (some str!"'select  a'", 0, 0) := by
  decide +kernel

/-- C40: queries and other strings. -/
example :
    let is := @isSelectString asciiEnv
    is str!"f\"\"\" \n Select\n a" = true ∧ is str!"'select'" = false ∧ is str!"'select 1'" = true ∧
    is str!"'selected x'" = false ∧ is str!"'select\ta'" = false ∧ is str!"'a select b'" = false ∧
    is str!"''" = false := by
  decide +kernel

/-- C41: tripled quotes, prefix kept. -/
example :
    let h s := (@handleSqlString asciiEnv s).map (·.1)
    h str!"Rb'select a from t'" = .ok str!"Rb'''\nSELECT a\nFROM t\n'''" ∧
    h str!"\"select  1\"" = .ok str!"\"SELECT 1\"" ∧
    h str!"'''select  1'''" = .ok str!"'''SELECT 1'''" ∧
    h str!"'select a from t group'" = .error (.parsing str!"Missing BY after GROUP") := by
  decide +kernel

/-- C48: a settled literal. -/
example : @Settled asciiEnv str!"'select a from t'" := by
  intro new q h
  have h1 : (@handleSqlString asciiEnv str!"'select a from t'").map (·.1) =
      .ok str!"'''\nSELECT a\nFROM t\n'''" := by decide +kernel
  rw [h] at h1
  simp only [Except.map, Except.ok.injEq] at h1
  subst h1
  refine ⟨fun new' q' h' => ?_, fun hc => ?_⟩
  · have h2 : (@handleSqlString asciiEnv str!"'''\nSELECT a\nFROM t\n'''").map (·.1) =
        .ok str!"'''\nSELECT a\nFROM t\n'''" := by decide +kernel
    rw [h'] at h2
    simpa only [Except.map, Except.ok.injEq] using h2
  · exact absurd hc (by decide)

/-- C48 is false in general: a line break in a string literal of the query gets indented again and again,
so that `--check-format` complains right after `--format`. -/
theorem C48_not_all : ∃ (env : FileEnv) (w : World) (p : Path), NoWriteFault env ∧
    (@handleInputs asciiEnv env ⟨false, true, false, false⟩ [p]
      (@handleInputs asciiEnv env ⟨true, false, false, false⟩ [p] w).2).1 = 1 :=
  ⟨demoEnv, ⟨fun _ => str!"\"\"\"select 'x\ny', b from t\"\"\"", [], [], []⟩, str!"f", fun _ => rfl,
    by decide +kernel⟩

/-- C53 is false for queries that cannot be parsed: `is_valid` answers `False`, but `--validate` ends
with status 0. -/
theorem C53_unparsable_not_flagged : ∃ (env : FileEnv) (w : World) (p : Path) (sql : Str),
    w.content p = str!"'" ++ sql ++ str!"'" ∧
    (@SQLQuery.isValid asciiEnv (SQLQuery.new sql)).1 = .ok false ∧
    (@handleInputs asciiEnv env ⟨false, false, true, false⟩ [p] w).1 = 0 :=
  ⟨demoEnv, ⟨fun _ => str!"'SELECT a FROM t GROUP a'", [], [], []⟩, str!"f",
    str!"SELECT a FROM t GROUP a", rfl, by decide +kernel, by decide +kernel⟩

end SqlV
