import Mathlib.Tactic.Tauto
import Mathlib.Tactic.ByContra
import Verif.Lemmas.Split
import Verif.Spec.Lex

/-! `split_tokens` computes the raw tokens of the reference lexer. -/

namespace SqlV

set_option linter.unusedSectionVars false

open Lex

variable [E : PyEnv]

/-! ### The reference lexer on concatenations -/

theorem Lex.tok_eq_ne (w : Str) : tok w = ne w := by cases w <;> rfl

theorem Lex.chunk_nil : chunk [] = [] := by simp [chunk, cutDots, tok]

theorem Lex.cutDots_append (w a : Str) (h : '.' ∉ a) (b : Str) :
    cutDots w (a ++ b) = cutDots (w ++ a) b := by
  induction a generalizing w with
  | nil => simp
  | cons x xs ih =>
    simp only [List.mem_cons, not_or] at h
    rw [List.cons_append, cutDots, if_neg (Ne.symm h.1), ih _ h.2]
    simp

theorem Lex.cutDots_of_not_mem (a : Str) (h : '.' ∉ a) : cutDots [] a = ne a := by
  have := cutDots_append [] a h []
  simp only [List.append_nil, List.nil_append] at this
  rw [this, cutDots, tok_eq_ne]

theorem Lex.cutDots_dot (a b : Str) (h : '.' ∉ a) :
    cutDots [] (a ++ '.' :: b) = ne a ++ str!"." :: cutDots [] b := by
  rw [cutDots_append _ _ h, List.nil_append, cutDots, if_pos rfl, tok_eq_ne]

/-- `c` is none of the characters the lexer treats specially, except perhaps the dot. -/
def Lex.isRun (c : Char) : Bool := !isQuote c && !isBlank c && !isPunct c

theorem Lex.go_run (run a : Str) (h : ∀ c ∈ a, isRun c) (b : Str) :
    go (.out run) (a ++ b) = go (.out (run ++ a)) b := by
  induction a generalizing run with
  | nil => simp
  | cons x xs ih =>
    have hx : isRun x := h x (by simp)
    simp only [isRun, Bool.and_eq_true, Bool.not_eq_true'] at hx
    rw [List.cons_append, go]
    simp only [hx.1.1, hx.1.2, hx.2, Bool.false_eq_true, if_false]
    rw [ih _ (fun c hc => h c (by simp [hc]))]
    simp

theorem Lex.raw_run (a : Str) (h : ∀ c ∈ a, isRun c) : raw a = chunk a := by
  have := go_run [] a h []
  simpa [raw, go] using this

theorem Lex.isPunct_facts {c : Char} (h : isPunct c) : isQuote c = false ∧ isBlank c = false := by
  simp only [isPunct, Bool.or_eq_true, decide_eq_true_eq] at h
  rcases h with ((((((((((((rfl|rfl)|rfl)|rfl)|rfl)|rfl)|rfl)|rfl)|rfl)|rfl)|rfl)|rfl)|rfl) <;> decide

theorem Lex.isBlank_facts {c : Char} (h : isBlank c) : isQuote c = false ∧ isPunct c = false := by
  simp only [isBlank, Bool.or_eq_true, decide_eq_true_eq] at h
  rcases h with ((rfl|rfl)|rfl) <;> decide

theorem Lex.go_punct (run a b : Str) (h : ∀ c ∈ a, isQuote c = false) {k : Char} (hk : isPunct k) :
    go (.out run) (a ++ k :: b) = go (.out run) a ++ [k] :: go (.out []) b := by
  induction a generalizing run with
  | nil =>
    obtain ⟨h1, h2⟩ := isPunct_facts hk
    simp [go, hk, h1, h2]
  | cons x xs ih =>
    have hx := h x (by simp)
    have ih := fun r => ih r (fun c hc => h c (by simp [hc]))
    simp only [List.cons_append, go, hx, Bool.false_eq_true, if_false, ih]
    split
    · simp
    · split <;> simp

theorem Lex.go_blank (run a b : Str) (h : ∀ c ∈ a, isQuote c = false) {k : Char} (hk : isBlank k) :
    go (.out run) (a ++ k :: b) = go (.out run) a ++ go (.out []) b := by
  induction a generalizing run with
  | nil =>
    obtain ⟨h1, _⟩ := isBlank_facts hk
    simp [go, hk, h1]
  | cons x xs ih =>
    have hx := h x (by simp)
    have ih := fun r => ih r (fun c hc => h c (by simp [hc]))
    simp only [List.cons_append, go, hx, Bool.false_eq_true, if_false, ih]
    split
    · simp
    · split <;> simp

theorem Lex.raw_punct (a b : Str) (h : ∀ c ∈ a, isQuote c = false) {k : Char} (hk : isPunct k) :
    raw (a ++ k :: b) = raw a ++ [k] :: raw b := go_punct [] a b h hk

theorem Lex.raw_blank (a b : Str) (h : ∀ c ∈ a, isQuote c = false) {k : Char} (hk : isBlank k) :
    raw (a ++ k :: b) = raw a ++ raw b := go_blank [] a b h hk

theorem Lex.raw_nil : raw [] = [] := chunk_nil

theorem Lex.raw_ne (a : Str) : (ne a).flatMap raw = raw a := by
  cases a with
  | nil => simp [ne, raw_nil]
  | cons => simp [ne]

/-- How a literal ends, seen from inside it with `w` already read. -/
inductive Lex.LitEnd (q : Char) (w b : Str) : Prop
  | closed (c d : Str) (hb : b = c ++ q :: d) (hc : q ∉ c) (he : endsEsc (w ++ c) = false)
      (hd : plain .out d) (hg : go (.lit q w) b = tok (w ++ c) ++ [q] :: raw d)
  | opened (hc : q ∉ b) (he : endsEsc (w ++ b) = false) (hg : go (.lit q w) b = tok (w ++ b))

theorem Lex.endsEsc_snoc (w : Str) (c : Char) : endsEsc (w ++ [c]) = decide (c = '\\') := by
  simp [endsEsc]

theorem Lex.litEnd_used {q : Char} (hq : isQuote q) (b w : Str)
    (hp : plain (.lit q (endsEsc w) true) b) : LitEnd q w b := by
  induction b generalizing w with
  | nil => exact .opened (by simp) (by simpa [plain] using hp) (by simp [go])
  | cons x xs ih =>
    by_cases hx : x = q
    · subst hx
      cases he : endsEsc w with
      | true => simp [plain, he] at hp
      | false =>
        refine .closed [] xs rfl (by simp) (by simpa using he) (by simpa [plain, he] using hp) ?_
        simp [go, he, raw]
    · simp only [plain, hx, if_false, Bool.and_eq_true] at hp
      have hp2 := hp.2
      rw [← endsEsc_snoc w x] at hp2
      have hg : go (.lit q w) (x :: xs) = go (.lit q (w ++ [x])) xs := by simp [go, hx]
      rcases ih _ hp2 with ⟨c, d, hb, hc, he, hd, hgo⟩ | ⟨hc, he, hgo⟩
      · exact .closed (x :: c) d (by simp [hb]) (by simp [hc, Ne.symm hx]) (by simpa using he) hd
          (by rw [hg, hgo]; simp)
      · exact .opened (by simp [hc, Ne.symm hx]) (by simpa using he) (by rw [hg, hgo]; simp)

/-- The literal that starts after an opening quote: it ends without an escaped quote, or it has one. -/
inductive Lex.LitSplit (q : Char) (w b : Str) : Prop
  | simple (h : LitEnd q w b)
  | escaped (c b' : Str) (hb : b = c ++ q :: b') (hc : q ∉ c) (he : endsEsc (w ++ c))
      (h : LitEnd q (w ++ c ++ [q]) b') (hg : go (.lit q w) b = go (.lit q (w ++ c ++ [q])) b')

theorem Lex.litSplit {q : Char} (hq : isQuote q) (b w : Str)
    (hp : plain (.lit q (endsEsc w) false) b) : LitSplit q w b := by
  induction b generalizing w with
  | nil => exact .simple (.opened (by simp) (by simpa [plain] using hp) (by simp [go]))
  | cons x xs ih =>
    by_cases hx : x = q
    · subst hx
      cases he : endsEsc w with
      | true =>
        have hne : endsEsc (w ++ [x]) = false := by
          rw [endsEsc_snoc]; simp; rintro rfl; simp [isQuote] at hq
        refine .escaped [] xs rfl (by simp) (by simpa using he) ?_ (by simp [go, he])
        have := litEnd_used hq xs (w ++ [x]) (by rw [hne]; simpa [plain, he] using hp)
        simpa using this
      | false =>
        refine .simple (.closed [] xs rfl (by simp) (by simpa using he)
          (by simpa [plain, he] using hp) ?_)
        simp [go, he, raw]
    · simp only [plain, hx, if_false, Bool.and_eq_true] at hp
      have hp2 := hp.2
      rw [← endsEsc_snoc w x] at hp2
      have hg : go (.lit q w) (x :: xs) = go (.lit q (w ++ [x])) xs := by simp [go, hx]
      rcases ih _ hp2 with ⟨⟨c, d, hb, hc, he, hd, hgo⟩ | ⟨hc, he, hgo⟩⟩ | ⟨c, b', hb, hc, he, h, hgo⟩
      · exact .simple (.closed (x :: c) d (by simp [hb]) (by simp [hc, Ne.symm hx])
          (by simpa using he) hd (by rw [hg, hgo]; simp))
      · exact .simple (.opened (by simp [hc, Ne.symm hx]) (by simpa using he)
          (by rw [hg, hgo]; simp))
      · exact .escaped (x :: c) b' (by simp [hb]) (by simp [hc, Ne.symm hx]) (by simpa using he)
          (by simpa using h) (by rw [hg, hgo]; simp)

/-- The states of the lexer and of `plain` agree. -/
def Lex.Agree : Mode → Lit → Prop
  | .out _, .out => True
  | .lit q w, .lit q' esc _ => q = q' ∧ esc = endsEsc w ∧ isQuote q
  | _, _ => False

theorem Lex.not_backslash_of_quote {c : Char} (h : isQuote c) : c ≠ '\\' := by
  rintro rfl; simp [isQuote] at h

/-- A quote `q` that does not occur before is met outside literals. -/
theorem Lex.go_before_quote {q : Char} (hq : isQuote q) (m : Mode) (l : Lit) (x y : Str)
    (hx : q ∉ x) (ha : Agree m l) (hm : ∀ w, m ≠ .lit q w) (hp : plain l (x ++ q :: y)) :
    go m (x ++ q :: y) = go m x ++ [q] :: go (.lit q []) y ∧
      plain l x ∧ plain (.lit q false false) y ∧
      (x = [] → l = .out) ∧ x.getLast? ≠ some '\\' := by
  induction x generalizing m l with
  | nil =>
    cases m with
    | out run =>
      cases l with
      | out => simpa [go, hq, plain] using hp
      | lit r e u => simp [Agree] at ha
    | lit r c =>
      cases l with
      | out => simp [Agree] at ha
      | lit r e u =>
        obtain ⟨rfl, rfl, hr⟩ := ha
        have : q ≠ r := fun h => hm c (by simp [h])
        simp [plain, hq, this] at hp
  | cons z zs ih =>
    simp only [List.mem_cons, not_or] at hx
    have hlast : ∀ l', (zs = [] → l' = Lit.out) → (z = '\\' → l' ≠ .out) →
        zs.getLast? ≠ some '\\' → (z :: zs).getLast? ≠ some '\\' := by
      intro l' h1 h2 h3
      cases zs with
      | nil => simp; intro hz; exact h2 hz (h1 rfl)
      | cons => simpa [List.getLast?_cons_cons] using h3
    cases m with
    | out run =>
      cases l with
      | lit r e u => simp [Agree] at ha
      | out =>
        simp only [List.cons_append, plain] at hp ⊢
        cases hz : isQuote z with
        | true =>
          simp only [hz, if_true] at hp
          obtain ⟨h1, h2, h3, h5, h6⟩ := ih (.lit z []) (.lit z false false) hx.2
            (by simp [Agree, endsEsc, hz]) (by intro w h; simp at h; exact hx.1 h.1.symm) hp
          simp only [go, hz, if_true, h1]
          exact ⟨by simp, h2, h3, by simp,
            hlast _ h5 (fun h => absurd h (not_backslash_of_quote hz)) h6⟩
        | false =>
          simp only [hz, Bool.false_eq_true, if_false, Bool.and_eq_true, decide_eq_true_eq] at hp
          obtain ⟨h1, h2, h3, h5, h6⟩ := ih (.out []) .out hx.2 trivial (by simp) hp.2
          obtain ⟨h1', -⟩ := ih (.out (run ++ [z])) .out hx.2 trivial (by simp) hp.2
          simp only [go, hz, Bool.false_eq_true, if_false, h1, h1']
          refine ⟨?_, by simp [hp.1, h2], h3, by simp, hlast _ h5 (fun h => absurd h hp.1) h6⟩
          split
          · simp
          · split <;> simp
    | lit r c =>
      cases l with
      | out => simp [Agree] at ha
      | lit r e u =>
        obtain ⟨rfl, rfl, hrq⟩ := ha
        have hr : q ≠ r := fun h => hm c (by simp [h])
        simp only [List.cons_append, plain] at hp ⊢
        by_cases hz : z = r
        · subst hz
          have hzb := not_backslash_of_quote hrq
          simp only [if_true] at hp
          cases he : endsEsc c with
          | true =>
            simp only [he, if_true, Bool.and_eq_true] at hp
            have hne : endsEsc (c ++ [z]) = false := by rw [endsEsc_snoc]; simpa using hzb
            obtain ⟨h1, h2, h3, h5, h6⟩ := ih (.lit z (c ++ [z])) (.lit z false true) hx.2
              (by simp [Agree, hne, hrq]) (by intro w h; simp at h; exact hx.1 h.1.symm) hp.2
            refine ⟨?_, by simp [h2, hp.1], h3, by simp, hlast _ h5 (fun h => absurd h hzb) h6⟩
            simp [go, he, h1]
          | false =>
            simp only [he, Bool.false_eq_true, if_false] at hp
            obtain ⟨h1, h2, h3, h5, h6⟩ := ih (.out []) .out hx.2 trivial (by simp) hp
            refine ⟨?_, by simp [h2], h3, by simp, hlast _ h5 (fun h => absurd h hzb) h6⟩
            simp [go, he, h1]
        · simp only [hz, if_false, Bool.and_eq_true] at hp
          have hp2 := hp.2
          rw [← endsEsc_snoc c z] at hp2
          obtain ⟨h1, h2, h3, h5, h6⟩ := ih (.lit r (c ++ [z])) (.lit r (endsEsc (c ++ [z])) u) hx.2
            (by simp [Agree, hrq]) (by intro w h; simp at h; exact hr h.1.symm) hp2
          refine ⟨by simp [go, hz, h1], ?_, h3, by simp, hlast _ h5 (by simp) h6⟩
          rw [endsEsc_snoc] at h2
          simp [hz, h2, hp.1]

/-! ### The measure: kinds of separators -/

/-- All separators. -/
def allSeps : List Char := stringSplitTokens ++ whitespaceSplitTokens ++ keptSplitTokens

/-- How many kinds of separators a text contains. -/
def kinds (s : Str) : Nat := (allSeps.filter (· ∈ s)).length

theorem filter_length_le {α : Type} (l : List α) (p q : α → Bool) (h : ∀ x ∈ l, p x → q x) :
    (l.filter p).length ≤ (l.filter q).length := by
  induction l with
  | nil => simp
  | cons x xs ih =>
    have ih := ih fun y hy => h y (by simp [hy])
    have hx := h x (by simp)
    by_cases hp : p x
    · simp [hp, hx hp, ih]
    · by_cases hq : q x <;> simp [hp, hq] <;> omega

theorem filter_length_lt {α : Type} (l : List α) (p q : α → Bool) (h : ∀ x ∈ l, p x → q x)
    {c : α} (hc : c ∈ l) (hq : q c) (hp : ¬ p c) :
    (l.filter p).length < (l.filter q).length := by
  induction l with
  | nil => simp at hc
  | cons x xs ih =>
    have hle := filter_length_le xs p q fun y hy => h y (by simp [hy])
    have hx := h x (by simp)
    rcases List.mem_cons.1 hc with rfl | hc
    · simp [hp, hq]; omega
    · have ih := ih (fun y hy => h y (by simp [hy])) hc
      by_cases hp' : p x
      · simp [hp', hx hp', ih]
      · by_cases hq' : q x <;> simp [hp', hq'] <;> omega

theorem kinds_lt {s e : Str} (hsub : ∀ d ∈ e, d ∈ s) {c : Char} (hc : c ∈ allSeps) (hs : c ∈ s)
    (he : c ∉ e) : kinds e < kinds s :=
  filter_length_lt _ _ _ (fun x _ hx => by simp at hx ⊢; exact hsub x hx) hc (by simpa using hs)
    (by simpa using he)

theorem kinds_le (s : Str) : kinds s ≤ 20 := by
  have := List.length_filter_le (fun c => decide (c ∈ s)) allSeps
  simpa [kinds, allSeps, stringSplitTokens, whitespaceSplitTokens, keptSplitTokens] using this

/-! ### The order in which quotes are tried -/

theorem insertByKey_perm (key : Char → Nat) (c : Char) (l : List Char) :
    (insertByKey key c l).Perm (c :: l) := by
  induction l with
  | nil => exact .refl _
  | cons d ds ih =>
    simp only [insertByKey]
    split
    · exact .refl _
    · exact (ih.cons d).trans (.swap c d ds)

theorem insertByKey_sorted (key : Char → Nat) (c : Char) (l : List Char)
    (h : l.Pairwise (key · ≤ key ·)) : (insertByKey key c l).Pairwise (key · ≤ key ·) := by
  induction l with
  | nil => simp [insertByKey]
  | cons d ds ih =>
    simp only [insertByKey]
    have hd := List.pairwise_cons.1 h
    split
    · refine List.pairwise_cons.2 ⟨fun x hx => ?_, h⟩
      rcases List.mem_cons.1 hx with rfl | hx
      · omega
      · have := hd.1 x hx; omega
    · refine List.pairwise_cons.2 ⟨fun x hx => ?_, ih hd.2⟩
      rcases List.mem_cons.1 ((insertByKey_perm key c ds).mem_iff.1 hx) with rfl | hx
      · omega
      · exact hd.1 x hx

theorem sortedByKey_spec (key : Char → Nat) (l : List Char) :
    (sortedByKey key l).Perm l ∧ (sortedByKey key l).Pairwise (key · ≤ key ·) := by
  have : ∀ (l acc : List Char), acc.Pairwise (key · ≤ key ·) →
      (l.foldl (fun acc c => insertByKey key c acc) acc).Perm (l ++ acc) ∧
      (l.foldl (fun acc c => insertByKey key c acc) acc).Pairwise (key · ≤ key ·) := by
    intro l
    induction l with
    | nil => intro acc h; exact ⟨.refl _, h⟩
    | cons c cs ih =>
      intro acc h
      obtain ⟨h1, h2⟩ := ih _ (insertByKey_sorted key c acc h)
      refine ⟨h1.trans ?_, h2⟩
      exact ((insertByKey_perm key c acc).append_left cs).trans List.perm_middle
  simpa [sortedByKey] using this l [] (by simp)

/-- The first quote that is tried is the first one in the text. -/
theorem firstQuote {value : Str} {q : Char}
    (h : (sortedByKey (Str.indexOr value) stringSplitTokens).find? (· ∈ value) = some q) :
    ∃ a b, value = a ++ q :: b ∧ isQuote q ∧ ∀ c ∈ a, isQuote c = false := by
  obtain ⟨hperm, hsort⟩ := sortedByKey_spec (Str.indexOr value) stringSplitTokens
  obtain ⟨hqv, l1, l2, hl, hl1⟩ := List.find?_eq_some_iff_append.1 h
  have hqv : q ∈ value := by simpa using hqv
  have hqm : q ∈ stringSplitTokens := hperm.mem_iff.1 (by simp [hl])
  have hqq : isQuote q := by
    simp [stringSplitTokens] at hqm; rcases hqm with rfl|rfl|rfl <;> decide
  obtain ⟨a, b, hab, hqa⟩ := exists_append_cons hqv
  refine ⟨a, b, hab, hqq, fun c hc => ?_⟩
  by_contra hcq
  have hcm : c ∈ stringSplitTokens := by
    simp [isQuote] at hcq; simp [stringSplitTokens]; tauto
  have hcs : c ∈ sortedByKey (Str.indexOr value) stringSplitTokens := hperm.mem_iff.2 hcm
  have hcv : c ∈ value := by simp [hab, hc]
  have hkey : Str.indexOr value q ≤ Str.indexOr value c := by
    rw [hl] at hcs hsort
    rcases List.mem_append.1 hcs with h1 | h1
    · have := hl1 c h1; simp [hcv] at this
    · rcases List.mem_cons.1 h1 with rfl | h1
      · exact Nat.le_refl _
      · exact (List.pairwise_cons.1 (List.pairwise_append.1 hsort).2.1).1 c h1
  have h1 : Str.indexOr value q = a.length := by
    simp [Str.indexOr, hqv]; rw [hab, List.idxOf_append, if_neg hqa]; simp
  have h2 : Str.indexOr value c < a.length := by
    simp [Str.indexOr, hcv]; rw [hab, List.idxOf_append, if_pos hc]
    exact List.idxOf_lt_length_iff.2 hc
  omega

theorem noQuote {value : Str}
    (h : (sortedByKey (Str.indexOr value) stringSplitTokens).find? (· ∈ value) = none) :
    ∀ c ∈ value, isQuote c = false := by
  intro c hc
  by_contra hcq
  have hcm : c ∈ stringSplitTokens := by
    simp [isQuote] at hcq; simp [stringSplitTokens]; tauto
  have := (sortedByKey_spec (Str.indexOr value) stringSplitTokens).1.mem_iff.2 hcm
  have := List.find?_eq_none.1 h c this
  simp [hc] at this

/-! ### Splitting -/

/-- `rec` agrees with the reference lexer on non-empty plain texts over the characters of `s` that
avoid `c`. -/
def RecOk (rec : Str → Stream) (s : Str) (c : Char) : Prop :=
  ∀ e, e ≠ [] → (∀ d ∈ e, d ∈ s) → c ∉ e → plain .out e → rec e = ⟨raw e, none⟩

theorem plain_of_no_quote {s : Str} (h : ∀ c ∈ s, isQuote c = false) (hb : '\\' ∉ s) :
    plain .out s := by
  induction s with
  | nil => rfl
  | cons x xs ih =>
    simp only [List.mem_cons, not_or] at hb
    simp only [plain, h x (by simp), Bool.false_eq_true, if_false]
    simp [Ne.symm hb.1, ih (fun c hc => h c (by simp [hc])) hb.2]

theorem no_backslash_of_plain {s : Str} (h : ∀ c ∈ s, isQuote c = false) (hp : plain .out s) :
    '\\' ∉ s := by
  induction s with
  | nil => simp
  | cons x xs ih =>
    simp only [plain, h x (by simp), Bool.false_eq_true, if_false, Bool.and_eq_true,
      decide_eq_true_eq] at hp
    simp [Ne.symm hp.1, ih (fun c hc => h c (by simp [hc])) hp.2]

theorem plain_getLast {s : Str} (hp : plain .out s) : s.getLast? ≠ some '\\' := by
  have : ∀ (l : Lit) (s : Str), (∀ q e u, l = .lit q e u → isQuote q) → plain l s →
      (s = [] → l = .out ∨ ∃ q u, l = .lit q false u) ∧ s.getLast? ≠ some '\\' := by
    intro l s
    induction s generalizing l with
    | nil =>
      intro _ hp
      refine ⟨fun _ => ?_, by simp⟩
      cases l with
      | out => simp
      | lit q e u => simp [plain] at hp; simp [hp]
    | cons z zs ih =>
      intro hlq hp
      refine ⟨by simp, ?_⟩
      have key : ∀ l', (∀ q e u, l' = .lit q e u → isQuote q) → plain l' zs → (z = '\\' → l' ≠ .out ∧ ∀ q u, l' ≠ .lit q false u) →
          (z :: zs).getLast? ≠ some '\\' := by
        intro l' hlq' hl hz
        obtain ⟨h1, h2⟩ := ih l' hlq' hl
        cases zs with
        | nil =>
          simp
          intro h
          obtain ⟨h3, h4⟩ := hz h
          rcases h1 rfl with h5 | ⟨q, u, h5⟩
          · exact h3 h5
          · exact h4 q u h5
        | cons => simpa [List.getLast?_cons_cons] using h2
      cases l with
      | out =>
        simp only [plain] at hp
        split at hp
        · rename_i hq
          exact key _ (by intro q e u h; simp at h; rw [← h.1]; exact hq) hp
            (fun h => absurd h (not_backslash_of_quote hq))
        · simp only [Bool.and_eq_true, decide_eq_true_eq] at hp
          exact key _ (by simp) hp.2 (fun h => absurd h hp.1)
      | lit q e u =>
        have hq := hlq q e u rfl
        simp only [plain] at hp
        split at hp
        · rename_i hz
          have hb : z ≠ '\\' := by rw [hz]; exact not_backslash_of_quote hq
          split at hp
          · simp only [Bool.and_eq_true] at hp
            exact key _ (by intro q e u h; simp at h; rw [← h.1]; exact hq) hp.2
              (fun h => absurd h hb)
          · exact key _ (by simp) hp (fun h => absurd h hb)
        · simp only [Bool.and_eq_true] at hp
          refine key _ (by intro q e u h; simp at h; rw [← h.1]; exact hq) hp.2 (fun h => ?_)
          subst h
          simp
  exact (this _ _ (by simp) hp).2

/-! ### Backslashes outside literals -/

/-- A character at which words are cut stands behind a backslash. -/
def Lex.cutEsc (esc : Bool) : Str → Bool
  | [] => false
  | c :: cs => (esc && isMark c) || cutEsc (c = '\\') cs

/-- The last character, or the one before the text, is a backslash. -/
def Lex.lastEsc (esc : Bool) : Str → Bool
  | [] => esc
  | c :: cs => lastEsc (c = '\\') cs

theorem Lex.isMark_ne {c : Char} (h : isMark c) : c ≠ '\\' := by rintro rfl; cases h

theorem Lex.lastEsc_iff (s : Str) : lastEsc false s = endsEsc s := by
  have : ∀ (s : Str) (c : Char), lastEsc (c = '\\') s = endsEsc (c :: s) := by
    intro s
    induction s with
    | nil => intro c; simp [lastEsc, endsEsc]
    | cons x xs ih => intro c; rw [lastEsc, ih x]; simp [endsEsc]
  cases s with
  | nil => rfl
  | cons c cs => exact this cs c

theorem Lex.cutEsc_append (e : Bool) (a b : Str) : cutEsc e (a ++ b) = (cutEsc e a || cutEsc (lastEsc e a) b) := by
  induction a generalizing e with
  | nil => rfl
  | cons x xs ih => simp only [List.cons_append, cutEsc, lastEsc, ih, Bool.or_assoc]

theorem Lex.lastEsc_append (e : Bool) (a b : Str) : lastEsc e (a ++ b) = lastEsc (lastEsc e a) b := by
  induction a generalizing e with
  | nil => rfl
  | cons x xs ih => simp only [List.cons_append, lastEsc, ih]

theorem Lex.stuckFrom_word (m e : Bool) (w : Str) (h : ∀ c ∈ w, isBlank c = false) :
    stuckFrom m e w = (cutEsc e w || ((m || w.any isMark) && lastEsc e w)) := by
  induction w generalizing m e with
  | nil => simp [stuckFrom, cutEsc, lastEsc]
  | cons x xs ih =>
    rw [stuckFrom, h x (by simp), cutEsc, lastEsc, if_neg Bool.false_ne_true]
    cases hx : isMark x with
    | true =>
      rw [if_pos rfl, ih _ _ fun c hc => h c (by simp [hc])]
      simp [isMark_ne hx, hx, Bool.or_assoc]
    | false =>
      rw [if_neg Bool.false_ne_true, ih _ _ fun c hc => h c (by simp [hc])]
      simp [hx]

theorem Lex.stuckFrom_blank (m e : Bool) (a b : Str) {w : Char} (hw : isBlank w) :
    stuckFrom m e (a ++ w :: b) = (stuckFrom m e a || stuck b) := by
  induction a generalizing m e with
  | nil => simp [stuckFrom, hw, stuck]
  | cons x xs ih =>
    simp only [List.cons_append, stuckFrom, ih]
    split
    · rw [Bool.or_assoc]
    · split
      · rw [Bool.or_assoc]
      · rfl

/-- Nothing in the text is escaped that would be cut. -/
def Lex.free (s : Str) : Prop := cutEsc false s = false ∧ endsEsc s = false

theorem Lex.free_of_word {s : Str} (hb : ∀ c ∈ s, isBlank c = false) (hs : stuck s = false) {k : Char} (hk : isMark k) (hks : k ∈ s) :
    free s := by
  rw [stuck, stuckFrom_word _ _ _ hb, List.any_eq_true.2 ⟨k, hks, hk⟩, lastEsc_iff] at hs
  simpa [free] using hs

theorem Lex.free_stuck {s : Str} (hb : ∀ c ∈ s, isBlank c = false) (h : free s) : stuck s = false := by
  rw [stuck, stuckFrom_word _ _ _ hb, lastEsc_iff, h.1, h.2]
  simp

theorem Lex.free_cut {a b : Str} {k : Char} (hk : isMark k) (h : free (a ++ k :: b)) : free a ∧ free b := by
  obtain ⟨h1, h2⟩ := h
  rw [cutEsc_append, cutEsc, hk] at h1
  rw [← lastEsc_iff, lastEsc_append, lastEsc, decide_eq_false (isMark_ne hk)] at h2
  rw [decide_eq_false (isMark_ne hk)] at h1
  simp only [Bool.or_eq_false_iff, Bool.and_true] at h1
  rw [lastEsc_iff] at h1 h2
  exact ⟨⟨h1.1, h1.2.1⟩, h1.2.2, h2⟩

theorem Lex.stuck_of_no_backslash {s : Str} (h : '\\' ∉ s) : stuck s = false := by
  have : ∀ (m : Bool) (s : Str), '\\' ∉ s → stuckFrom m false s = false := by
    intro m s
    induction s generalizing m with
    | nil => simp [stuckFrom]
    | cons x xs ih =>
      intro h
      simp only [List.mem_cons, not_or] at h
      rw [stuckFrom]
      simp only [Bool.and_false, Bool.false_or, ih _ h.2, decide_eq_false (Ne.symm h.1)]
      simp
  exact this false s h

theorem Lex.getLast_of_free {s : Str} (h : free s) : s.getLast? ≠ some '\\' := by
  simpa [endsEsc] using h.2

/-- `rec` agrees with the reference lexer on non-empty texts without quotes over the characters of `s` that avoid `c`. -/
def RecBare (rec : Str → Stream) (s : Str) (c : Char) : Prop :=
  ∀ e, e ≠ [] → (∀ d ∈ e, d ∈ s) → c ∉ e → stuck e = false → rec e = ⟨raw e, none⟩

theorem splitEach_kept (rec : Str → Stream) (k : Char) (hk : isPunct k) (s0 : Str)
    (hrec : RecBare rec s0 k) (hself : rec [k] = ⟨[[k]], none⟩) (n : Nat) :
    ∀ s : Str, s.length ≤ n → (∀ d ∈ s, d ∈ s0) → free s → (∀ c ∈ s, isQuote c = false ∧ isBlank c = false) →
      splitEach rec (splitWithSep s k) = ⟨raw s, none⟩ := by
  induction n with
  | zero =>
    intro s hl _ hb _
    have : s = [] := by cases s <;> simp_all
    subst this
    rw [splitWithSep_none (by simp) (by simp)]
    simp [ne, splitEach, raw_nil]
  | succ n ih =>
    intro s hl hsub hb hq
    have hne : ∀ a : Str, (∀ d ∈ a, d ∈ s) → k ∉ a → free a → ∀ l, splitEach rec (ne a ++ l) =
        Stream.append ⟨raw a, none⟩ (splitEach rec l) := by
      intro a ha hka hfa l
      cases a with
      | nil => simp [ne, raw_nil, Stream.append]
      | cons x xs =>
        have := hrec (x :: xs) (by simp) (fun d hd => hsub d (ha d hd)) hka
          (free_stuck (fun c hc => (hq c (ha c hc)).2) hfa)
        simp [ne, splitEach, this]
    by_cases hks : k ∈ s
    · obtain ⟨a, b, rfl, hka⟩ := exists_append_cons hks
      obtain ⟨hfa, hfb⟩ := free_cut (by simp [isMark, hk]) hb
      rw [splitWithSep_cons hka (getLast_of_free hfa), hne a (by simp_all) hka hfa, splitEach, hself,
        ih b (by simp at hl; omega) (fun d hd => hsub d (by simp [hd])) hfb
          (fun c hc => hq c (by simp [hc])),
        raw_punct _ _ (fun c hc => (hq c (by simp [hc])).1) hk]
      simp
    · rw [splitWithSep_none hks (getLast_of_free hb)]
      have := hne s (fun _ h => h) hks hb []
      simpa [splitEach] using this

theorem splitEach_dot (rec : Str → Stream) (s0 : Str)
    (hrec : RecBare rec s0 '.') (hself : rec str!"." = ⟨[str!"."], none⟩) (n : Nat) :
    ∀ s : Str, s.length ≤ n → (∀ d ∈ s, d ∈ s0) → free s → (∀ c ∈ s, isRun c) →
      splitEach rec (splitWithSep s '.') = ⟨cutDots [] s, none⟩ := by
  induction n with
  | zero =>
    intro s hl _ hb _
    have : s = [] := by cases s <;> simp_all
    subst this
    rw [splitWithSep_none (by simp) (by simp)]
    simp [ne, splitEach, cutDots, tok]
  | succ n ih =>
    intro s hl hsub hb hq
    have hne : ∀ a : Str, (∀ d ∈ a, d ∈ s) → '.' ∉ a → free a → ∀ l, splitEach rec (ne a ++ l) =
        Stream.append ⟨ne a, none⟩ (splitEach rec l) := by
      intro a ha hka hfa l
      cases a with
      | nil => simp [ne, Stream.append]
      | cons x xs =>
        have h1 := hrec (x :: xs) (by simp) (fun d hd => hsub d (ha d hd)) hka
          (free_stuck (fun c hc => by
            have := hq c (ha c hc); simp [isRun] at this; exact this.1.2) hfa)
        have h2 : raw (x :: xs) = ne (x :: xs) := by
          rw [raw_run _ (fun c hc => hq c (ha c hc)), chunk, if_neg (fun h => hka h.1),
            cutDots_of_not_mem _ hka]
        rw [h2] at h1
        simp [ne, splitEach] at h1 ⊢
        simp [h1]
    by_cases hks : '.' ∈ s
    · obtain ⟨a, b, rfl, hka⟩ := exists_append_cons hks
      obtain ⟨hfa, hfb⟩ := free_cut (by decide) hb
      rw [splitWithSep_cons hka (getLast_of_free hfa), hne a (by simp_all) hka hfa, splitEach, hself,
        ih b (by simp at hl; omega) (fun d hd => hsub d (by simp [hd])) hfb
          (fun c hc => hq c (by simp [hc])), cutDots_dot _ _ hka]
      simp
    · rw [splitWithSep_none hks (getLast_of_free hb), cutDots_of_not_mem _ hks]
      have := hne s (fun _ h => h) hks hb []
      simpa [splitEach] using this

theorem splitEach_blank (rec : Str → Stream) (w : Char) (hw : isBlank w) (s0 : Str)
    (hrec : RecBare rec s0 w) (n : Nat) :
    ∀ s : Str, s.length ≤ n → (∀ d ∈ s, d ∈ s0) → stuck s = false → (∀ c ∈ s, isQuote c = false) →
      splitEach rec ((Str.splitOn w s).filter (fun e => !e.isEmpty)) = ⟨raw s, none⟩ := by
  induction n with
  | zero =>
    intro s hl _ _ _
    have : s = [] := by cases s <;> simp_all
    subst this
    simp [Str.splitOn, splitEach, raw_nil]
  | succ n ih =>
    intro s hl hsub hb hq
    have hne : ∀ a : Str, (∀ d ∈ a, d ∈ s) → w ∉ a → stuck a = false → ∀ l,
        splitEach rec ((a :: l).filter (fun e => !e.isEmpty)) =
        Stream.append ⟨raw a, none⟩ (splitEach rec (l.filter (fun e => !e.isEmpty))) := by
      intro a ha hka hfa l
      cases a with
      | nil => simp [raw_nil, Stream.append]
      | cons x xs =>
        have := hrec (x :: xs) (by simp) (fun d hd => hsub d (ha d hd)) hka
          hfa
        simp [splitEach, this]
    by_cases hks : w ∈ s
    · obtain ⟨a, b, rfl, hka⟩ := exists_append_cons hks
      rw [stuck, stuckFrom_blank _ _ _ _ hw, Bool.or_eq_false_iff] at hb
      rw [Str.splitOn_append_cons hka, hne a (by simp_all) hka hb.1,
        ih b (by simp at hl; omega) (fun d hd => hsub d (by simp [hd]))
          hb.2 (fun c hc => hq c (by simp [hc])),
        raw_blank _ _ (fun c hc => hq c (by simp [hc])) hw]
      simp
    · rw [Str.splitOn_of_not_mem hks]
      have := hne s (fun _ h => h) hks hb []
      simpa [splitEach] using this

theorem splitOnString_ne (rec : Str → Stream) (q : Char) (s0 : Str) (hrec : RecOk rec s0 q)
    (a : Str) (ha : ∀ d ∈ a, d ∈ s0) (hqa : q ∉ a) (hp : plain .out a) (l : List Str) :
    splitOnString rec q false (ne a ++ l) =
      Stream.append ⟨raw a, none⟩ (splitOnString rec q false l) := by
  cases a with
  | nil => simp [ne, raw_nil, Stream.append]
  | cons x xs =>
    have h1 := hrec (x :: xs) (by simp) ha hqa hp
    have h2 : (x :: xs) ≠ [q] := by rintro h; rw [h] at hqa; simp at hqa
    simp [ne, splitOnString, h1, h2]

theorem splitOnString_in_ne (rec : Str → Stream) (q : Char) (a : Str) (hqa : a ≠ [q])
    (l : List Str) : splitOnString rec q true (ne a ++ l) =
      Stream.append ⟨ne a, none⟩ (splitOnString rec q true l) := by
  cases a with
  | nil => simp [ne, Stream.append]
  | cons x xs => simp [ne, splitOnString, hqa]

theorem splitOnString_sep (rec : Str → Stream) (q : Char) (b : Bool) (l : List Str) :
    splitOnString rec q b ([q] :: l) = Stream.append ⟨[[q]], none⟩ (splitOnString rec q (!b) l) := by
  simp [splitOnString]

/-- The rest of a literal, from the piece of text `v` that is its content. -/
theorem splitOnString_lit (rec : Str → Stream) (q : Char) (v d : Str) (hv : v ≠ [q])
    (hd : splitOnString rec q false (splitWithSep d q) = ⟨raw d, none⟩) :
    splitOnString rec q true (ne v ++ [q] :: splitWithSep d q) = ⟨tok v ++ [q] :: raw d, none⟩ := by
  rw [splitOnString_in_ne rec q v hv, splitOnString_sep, Bool.not_true, hd, tok_eq_ne]
  simp

theorem splitOnString_spec (rec : Str → Stream) (q : Char) (hq : isQuote q) (s0 : Str)
    (hrec : RecOk rec s0 q) (n : Nat) :
    ∀ s : Str, s.length ≤ n → (∀ d ∈ s, d ∈ s0) → plain .out s →
      splitOnString rec q false (splitWithSep s q) = ⟨raw s, none⟩ := by
  induction n with
  | zero =>
    intro s hl _ _
    have : s = [] := by cases s <;> simp_all
    subst this
    rw [splitWithSep_none (by simp) (by simp)]
    simp [ne, splitOnString, raw_nil]
  | succ n ih =>
    intro s hl hsub hp
    by_cases hqs : q ∈ s
    · obtain ⟨a, b, rfl, hqa⟩ := exists_append_cons hqs
      obtain ⟨h1, h2, h3, -, h4⟩ := go_before_quote hq (.out []) .out a b hqa trivial (by simp) hp
      rw [splitWithSep_cons hqa h4,
        splitOnString_ne rec q s0 hrec a (fun d hd => hsub d (by simp [hd])) hqa h2,
        splitOnString_sep]
      rw [show raw (a ++ q :: b) = raw a ++ [q] :: go (.lit q []) b from h1, Bool.not_false]
      have hneq : ∀ v : Str, q ∉ v → v ≠ [q] := by rintro v h rfl; simp at h
      have key : splitOnString rec q true (splitWithSep b q) = ⟨go (.lit q []) b, none⟩ := by
        rcases litSplit hq b [] h3 with ⟨⟨c, d, hb, hc, he, hd, hg⟩ | ⟨hc, he, hg⟩⟩ |
          ⟨c, b', hb, hc, he, h, hg'⟩
        · have hc' : c.getLast? ≠ some '\\' := by simpa [endsEsc] using he
          rw [hg, List.nil_append, hb, splitWithSep_cons hc hc']
          refine splitOnString_lit rec q c d (hneq c hc) (ih d ?_ ?_ hd)
          · rw [hb] at hl; simp at hl; omega
          · intro x hx; exact hsub x (by simp [hb, hx])
        · have hc' : b.getLast? ≠ some '\\' := by simpa [endsEsc] using he
          rw [hg, List.nil_append, splitWithSep_none hc hc']
          have := splitOnString_in_ne rec q b (hneq b hc) []
          rw [List.append_nil] at this
          rw [this, tok_eq_ne]
          simp [splitOnString]
        · have hc' : c.getLast? = some '\\' := by simpa [endsEsc] using he
          have hcn : c ≠ [] := by rintro rfl; simp at hc'
          rw [hg']
          rcases h with ⟨c2, d, hb2, hc2, he2, hd, hg⟩ | ⟨hc2, he2, hg⟩
          · rw [hg, hb, hb2, splitWithSep_escaped hc hc' hc2]
            have hv : c ++ [q] ++ c2 ≠ [q] := by
              intro h; cases c with
              | nil => exact hcn rfl
              | cons x xs => simp at h
            have := splitOnString_lit rec q (c ++ [q] ++ c2) d hv (ih d ?_ ?_ hd)
            · have hne : ne (c ++ [q] ++ c2) = [c ++ [q] ++ c2] := by
                simp [ne]
              rw [hne] at this
              simpa using this
            · rw [hb, hb2] at hl; simp at hl; omega
            · intro x hx; exact hsub x (by simp [hb, hb2, hx])
          · rw [hg, hb, splitWithSep_escaped_end hc hc' hc2]
            have hv : c ++ q :: b' ≠ [q] := by
              intro h; cases c with
              | nil => exact hcn rfl
              | cons x xs => simp at h
            simp [splitOnString, hv, tok_eq_ne, ne]
      rw [key]
      simp
    · rw [splitWithSep_none hqs (plain_getLast hp)]
      have := splitOnString_ne rec q s0 hrec s hsub hqs hp []
      simpa [splitOnString] using this

theorem isPunct_of_kept {k : Char} (h : k ∈ keptSplitTokens) (hd : k ≠ '.') : isPunct k := by
  simp [keptSplitTokens] at h
  rcases h with h|h|h|h|h|h|h|h|h|h|h|h|h|h <;> simp [isPunct, h]
  exact absurd h hd

theorem kept_of_isPunct {k : Char} (h : isPunct k) : k ∈ keptSplitTokens := by
  simp [isPunct] at h
  simp [keptSplitTokens]
  tauto

theorem blank_iff (k : Char) : k ∈ whitespaceSplitTokens ↔ isBlank k := by
  simp [whitespaceSplitTokens, isBlank, or_assoc]

/-- A text consisting of a single punctuation character. -/
theorem splitTokens_self (n : Nat) {k : Char} (h : k ∈ keptSplitTokens) :
    splitTokens (n + 1) [k] = ⟨[[k]], none⟩ := by
  simp [keptSplitTokens] at h
  rcases h with rfl|rfl|rfl|rfl|rfl|rfl|rfl|rfl|rfl|rfl|rfl|rfl|rfl|rfl <;> rfl

theorem raw_self {k : Char} (h : k ∈ keptSplitTokens) : raw [k] = [[k]] := by
  by_cases hd : k = '.'
  · subst hd; simp [raw, go, isQuote, isBlank, isPunct, chunk, isDottedDigits, isDigits, cutDots, tok]
  · have := raw_punct [] [] (by simp) (isPunct_of_kept h hd)
    simpa [raw_nil] using this

theorem append_cons_unique {k : Char} {a c : Str} {b d : Str} (ha : k ∉ a) (hc : k ∉ c)
    (h : a ++ k :: b = c ++ k :: d) : a = c ∧ b = d := by
  induction a generalizing c with
  | nil =>
    cases c with
    | nil => simpa using h
    | cons y ys => simp at h hc; exact absurd h.1 hc.1
  | cons x xs ih =>
    simp only [List.mem_cons, not_or] at ha
    cases c with
    | nil => simp at h; exact absurd h.1.symm ha.1
    | cons y ys =>
      simp only [List.mem_cons, not_or] at hc
      simp only [List.cons_append, List.cons.injEq] at h
      obtain ⟨h1, h2⟩ := ih ha.2 hc.2 h.2
      exact ⟨by rw [h.1, h1], h2⟩

/-- `split_tokens` agrees with the reference lexer on texts without quotes in which nothing is escaped that would be cut. -/
theorem splitTokens_bare (n : Nat) : ∀ s : Str, kinds s < n → s ≠ [] → (∀ c ∈ s, isQuote c = false) →
    stuck s = false → splitTokens n s = ⟨raw s, none⟩ := by
  induction n with
  | zero => intro s h; omega
  | succ n ih =>
    intro s hk hs hnq hb
    have hrec : ∀ c ∈ allSeps, c ∈ s → RecBare (splitTokens n) s c := by
      intro c hc hcs e he hsub hce hpe
      have := kinds_lt hsub hc hcs hce
      exact ih e (by omega) he (fun d hd => hnq d (hsub d hd)) hpe
    have hpos : ∀ c ∈ allSeps, c ∈ s → 0 < n := by
      intro c hc hcs
      have := kinds_lt (s := s) (e := []) (by simp) hc hcs (by simp)
      omega
    rw [splitTokens]
    split
    · rename_i q hfind
      obtain ⟨a, b, hab, hq, -⟩ := firstQuote hfind
      rw [hnq q (by simp [hab])] at hq
      cases hq
    · rename_i hfind
      split
      · rename_i w hw
        have hws : w ∈ s := by simpa using List.find?_some hw
        have hwm : w ∈ whitespaceSplitTokens := List.mem_of_find?_eq_some hw
        exact splitEach_blank _ w ((blank_iff w).1 hwm) s
          (hrec w (by simp [allSeps, hwm]) hws) s.length s (Nat.le_refl _) (fun _ h => h) hb hnq
      · rename_i hw
        have hnb : ∀ c ∈ s, isBlank c = false := by
          intro c hc
          by_contra hcb
          have := List.find?_eq_none.1 hw c ((blank_iff c).2 (by simpa using hcb))
          simp [hc] at this
        split
        · rename_i k hkf
          have hk2 : k ∈ s ∧ s ≠ [k] := by simpa using List.find?_some hkf
          have hkm : k ∈ keptSplitTokens := List.mem_of_find?_eq_some hkf
          have hka : k ∈ allSeps := by simp [allSeps, hkm]
          have hn := hpos k hka hk2.1
          have hself : splitTokens n [k] = ⟨[[k]], none⟩ := by
            obtain ⟨m, rfl⟩ : ∃ m, n = m + 1 := ⟨n - 1, by omega⟩
            exact splitTokens_self m hkm
          by_cases hd : k = '.'
          · subst hd
            have hrun : ∀ c ∈ s, isRun c := by
              intro c hc
              simp only [isRun, hnq c hc, hnb c hc, Bool.not_false, Bool.true_and,
                Bool.not_eq_true']
              by_contra hcp
              have hcp : isPunct c := by simpa using hcp
              obtain ⟨-, l1, l2, hl, hl1⟩ := List.find?_eq_some_iff_append.1 hkf
              have hcd : c ≠ '.' := by rintro rfl; simp [isPunct] at hcp
              have hc1 : c ∈ l1 := by
                have h14 : keptSplitTokens = [',', ';', '(', ')', '[', ']', '+', '-', '*', '/', '=',
                  '<', '>'] ++ '.' :: [] := rfl
                have hck := kept_of_isPunct hcp
                have hu : l1 = [',', ';', '(', ')', '[', ']', '+', '-', '*', '/', '=', '<', '>'] := by
                  rw [hl] at h14
                  have h3 : '.' ∉ l1 := by
                    intro h
                    have := hl1 _ h
                    simp [hk2] at this
                  exact (append_cons_unique h3 (by decide) h14).1
                rw [hu]
                rw [h14] at hck
                simpa [hcd] using hck
              have := hl1 c hc1
              simp only [hc, true_and, decide_not, Bool.not_not, decide_eq_true_eq] at this
              have hmem := hk2.1
              rw [this] at hmem
              simp at hmem
              exact hcd hmem.symm
            rw [raw_run _ hrun, splitOnKept, chunk]
            by_cases hdd : isDottedDigits s
            · simp [hk2.1, hdd]
            · simp only [hk2.1, hdd, Bool.false_eq_true, and_false, if_false]
              exact splitEach_dot _ s (hrec _ hka hk2.1) hself s.length s (Nat.le_refl _)
                (fun _ h => h) (free_of_word hnb hb (by decide) hk2.1) hrun
          · simp only [splitOnKept, hd, false_and, if_false]
            exact splitEach_kept _ k (isPunct_of_kept hkm hd) s (hrec _ hka hk2.1) hself s.length s
              (Nat.le_refl _) (fun _ h => h) (free_of_word hnb hb (by simp [isMark, isPunct_of_kept hkm hd]) hk2.1)
              fun c hc => ⟨hnq c hc, hnb c hc⟩
        · rename_i hkf
          have hnone : ∀ c ∈ keptSplitTokens, c ∈ s → s = [c] := by
            intro c hc hcs
            have := List.find?_eq_none.1 hkf c hc
            simpa [hcs] using this
          by_cases hex : ∃ c ∈ keptSplitTokens, c ∈ s
          · obtain ⟨c, hc, hcs⟩ := hex
            rw [hnone c hc hcs, raw_self hc]
          · have hrun : ∀ c ∈ s, isRun c := by
              intro c hc
              simp only [isRun, hnq c hc, hnb c hc, Bool.not_false, Bool.true_and,
                Bool.not_eq_true']
              by_contra hcp
              exact hex ⟨c, kept_of_isPunct (by simpa using hcp), hc⟩
            have hdot : '.' ∉ s := fun h => hex ⟨'.', by decide, h⟩
            rw [raw_run _ hrun, chunk, if_neg (fun h => hdot h.1), cutDots_of_not_mem _ hdot]
            simp [ne, hs]

/-- `split_tokens` agrees with the reference lexer. -/
theorem splitTokens_eq (n : Nat) : ∀ s : Str, kinds s < n → s ≠ [] →
    plain .out s → splitTokens n s = ⟨raw s, none⟩ := by
  induction n with
  | zero => intro s h; omega
  | succ n ih =>
    intro s hk hs hp
    by_cases hnq : ∀ c ∈ s, isQuote c = false
    · exact splitTokens_bare (n + 1) s hk hs hnq (stuck_of_no_backslash (no_backslash_of_plain hnq hp))
    have hrec : ∀ c ∈ allSeps, c ∈ s → RecOk (splitTokens n) s c := by
      intro c hc hcs e he hsub hce hpe
      have := kinds_lt hsub hc hcs hce
      exact ih e (by omega) he hpe
    rw [splitTokens]
    split
    · rename_i q hfind
      obtain ⟨a, b, hab, hq, -⟩ := firstQuote hfind
      have hqs : q ∈ s := by simp [hab]
      have hqm : q ∈ allSeps := by
        simp [isQuote] at hq; simp [allSeps, stringSplitTokens]; tauto
      exact splitOnString_spec _ q hq s (hrec q hqm hqs) s.length s (Nat.le_refl _) (fun _ h => h) hp
    · rename_i hfind
      exact absurd (noQuote hfind) hnq

end SqlV
