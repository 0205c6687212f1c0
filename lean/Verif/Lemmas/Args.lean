import Verif.Args
import Verif.Spec.CommandLine
import Verif.Lemmas.Split
import Mathlib.Data.List.TakeWhile
import Mathlib.Tactic.ByContra

/-!
# Words of the command line
-/

namespace SqlV.Args

open Cmd

/-- What `\d` does not match -/
structure Digits (digit : Char → Bool) : Prop where
  dot : digit '.' = false
  newline : digit '\n' = false
  dash : digit '-' = false

/-- The action of a flag -/
def act : Says → Action
  | .help => .help
  | .version => .version
  | .flag .check => .check
  | .flag .format => .format
  | .flag .validate => .validate
  | .flag .verbose => .verbose
  | _ => .help

/-- What the model makes of a word -/
inductive Agrees (s : Str) : Says → Option Cls → Prop where
  | file : Agrees s .file (some .arg)
  | unclear : Agrees s .unclear none
  | wrong {o} (h : optionSteps s o = none) : Agrees s .wrong (some (.opt o))
  | unknown {o} (h : optionSteps s o = some ([], some s)) : Agrees s .unknown (some (.opt o))
  | flag {o f} (h : optionSteps s o = some ([act (.flag f)], none)) : Agrees s (.flag f) (some (.opt o))
  | version {o} (h : optionSteps s o = some ([.version], none)) : Agrees s .version (some (.opt o))
  | help {o as e} (h : optionSteps s o = some (.help :: as, e)) : Agrees s .help (some (.opt o))

theorem partition_long (p : Str) : partition ('-' :: '-' :: p) =
    if '=' ∈ p then ('-' :: '-' :: p.takeWhile (· ≠ '='), ['='], (p.dropWhile (· ≠ '=')).tail) else ('-' :: '-' :: p, [], []) := by
  have hd : ('-' :: '-' :: p).dropWhile (· ≠ '=') = p.dropWhile (· ≠ '=') := by simp [List.dropWhile]
  have ht : ('-' :: '-' :: p).takeWhile (· ≠ '=') = '-' :: '-' :: p.takeWhile (· ≠ '=') := by simp [List.takeWhile]
  unfold partition
  rw [hd, ht]
  split
  · rename_i h
    rw [if_neg]
    intro hm
    have := List.dropWhile_eq_nil_iff.1 h '=' hm
    simp at this
  · rename_i c rest h
    rw [if_pos]
    · rw [h]; rfl
    · by_contra hn
      have : p.dropWhile (· ≠ '=') = [] := List.dropWhile_eq_nil_iff.2 fun x hx => by
        simp; rintro rfl; exact hn hx
      rw [this] at h
      cases h

theorem lookup_long (p : Str) : optionActions.lookup ('-' :: '-' :: p) = (names.lookup p).map act := by
  simp only [optionActions, names, List.lookup]
  repeat' split
  all_goals first
    | rfl
    | (rename_i h1 h2; simp_all)

theorem name_mem {p : Str} {k : Says} (h : names.lookup p = some k) : (p, k) ∈ names := by
  have key : ∀ l : List (Str × Says), l.lookup p = some k → (p, k) ∈ l := by
    intro l
    induction l with
    | nil => intro h; cases h
    | cons a l ih =>
      intro h
      obtain ⟨a, b⟩ := a
      rw [List.lookup_cons] at h
      split at h
      · rename_i hb
        have : p = a := by simpa using hb
        cases h
        simp [this]
      · exact List.mem_cons_of_mem _ (ih h)
  exact key _ h

/-- Among the names, none begins another one. -/
theorem filter_name {p : Str} {k : Says} (h : names.lookup p = some k) :
    names.filter (fun n => p.isPrefixOf n.1) = [(p, k)] := by
  have := name_mem h
  simp only [names, List.mem_cons, Prod.mk.injEq, List.not_mem_nil, or_false] at this
  rcases this with ⟨rfl, rfl⟩ | ⟨rfl, rfl⟩ | ⟨rfl, rfl⟩ | ⟨rfl, rfl⟩ | ⟨rfl, rfl⟩ | ⟨rfl, rfl⟩ <;> decide

theorem tuples_long (p : Str) : optionTuples ('-' :: '-' :: p) =
    (names.filter fun n => (p.takeWhile (· ≠ '=')).isPrefixOf n.1).map fun n =>
      ⟨some (act n.2), '-' :: '-' :: n.1, if '=' ∈ p then some ['='] else none,
        if '=' ∈ p then some (p.dropWhile (· ≠ '=')).tail else none⟩ := by
  have htake : '=' ∉ p → p.takeWhile (· ≠ '=') = p := fun h => by
    rw [List.takeWhile_eq_self_iff]
    intro x hx
    simp
    rintro rfl
    exact h hx
  have hacts : optionActions = (str!"-h", .help) :: names.map fun n => ('-' :: '-' :: n.1, act n.2) := rfl
  have key : ∀ (P : Str × Says → Bool) (g : Str × Says → Opt) (l : List (Str × Says)),
      l.filterMap (fun n => if P n = true then some (g n) else none) = (l.filter P).map g := by
    intro P g l
    induction l with
    | nil => rfl
    | cons a l ih => by_cases h : P a = true <;> simp [h, ih]
  unfold optionTuples
  simp only [partition_long, hacts]
  rw [← key, List.filterMap_cons, List.filterMap_map]
  by_cases h : '=' ∈ p
  · simp only [h, if_true]
    rw [if_neg (by simp [Str.startsWith])]
    congr 1
  · simp only [h, if_false, htake h]
    rw [if_neg (by simp [Str.startsWith])]
    congr 1

theorem agrees_long {digit : Char → Bool} (hd : Digits digit) (p : Str) :
    Agrees ('-' :: '-' :: p) (long p) (parseOptional digit ('-' :: '-' :: p)) := by
  have htake : '=' ∉ p → p.takeWhile (· ≠ '=') = p := fun h => by
    rw [List.takeWhile_eq_self_iff]
    intro x hx
    simp
    rintro rfl
    exact h hx
  cases hl : names.lookup p with
  | some k =>
    have := name_mem hl
    simp only [names, List.mem_cons, Prod.mk.injEq, List.not_mem_nil, or_false] at this
    rcases this with ⟨rfl, rfl⟩ | ⟨rfl, rfl⟩ | ⟨rfl, rfl⟩ | ⟨rfl, rfl⟩ | ⟨rfl, rfl⟩ | ⟨rfl, rfl⟩
    · exact Agrees.help rfl
    · exact Agrees.version rfl
    · exact Agrees.flag (f := .check) rfl
    · exact Agrees.flag (f := .format) rfl
    · exact Agrees.flag (f := .validate) rfl
    · exact Agrees.flag (f := .verbose) rfl
  | none =>
    have hneg : negativeMatch digit ('-' :: '-' :: p) = false := by
      have : ∀ q, negative digit ('-' :: '-' :: q) = false := fun q => by
        simp [negative, hd.dash, List.dropWhile, fraction]
      unfold negativeMatch
      rw [this, Bool.false_or]
      cases p with
      | nil => simp
      | cons a p => simp only [List.dropLast_cons_cons, this, Bool.and_false]
    unfold parseOptional
    simp only [lookup_long, hl, Option.map_none, partition_long, tuples_long, hneg]
    rw [if_neg (by simp), if_neg (by simp)]
    by_cases he : '=' ∈ p
    · simp only [he, if_true]
      rw [if_pos (by simp), lookup_long]
      cases hs : names.lookup (p.takeWhile (· ≠ '=')) with
      | some k =>
        simp only [Option.map_some]
        have : long p = .wrong := by
          unfold long
          rw [filter_name hs]
          simp [he]
        rw [this]
        exact .wrong rfl
      | none =>
        simp only [Option.map_none]
        unfold long
        generalize hf : names.filter (fun n => (p.takeWhile (· ≠ '=')).isPrefixOf n.1) = L
        rcases L with _ | ⟨n, _ | ⟨m, l⟩⟩
        · simp only [List.map_nil]
          by_cases hb : ' ' ∈ p
          · simp [hb]
            exact .file
          · simp [hb]
            exact .unknown rfl
        · simp only [List.map_cons, List.map_nil, he, if_true]
          exact .wrong rfl
        · exact .unclear
    · simp only [he, if_false]
      rw [if_neg (by simp)]
      simp only
      unfold long
      generalize hf : names.filter (fun n => (p.takeWhile (· ≠ '=')).isPrefixOf n.1) = L
      rcases L with _ | ⟨n, _ | ⟨m, l⟩⟩
      · simp only [List.map_nil]
        by_cases hb : ' ' ∈ p
        · simp [hb]
          exact .file
        · simp [hb]
          exact .unknown rfl
      · simp only [List.map_cons, List.map_nil, he, if_false]
        have hn : n ∈ names := (List.mem_filter.1 (hf ▸ List.mem_singleton_self n : n ∈ names.filter _)).1
        simp only [names, List.mem_cons, List.not_mem_nil, or_false] at hn
        rcases hn with rfl | rfl | rfl | rfl | rfl | rfl
        · exact Agrees.help rfl
        · exact Agrees.version rfl
        · exact Agrees.flag (f := .check) rfl
        · exact Agrees.flag (f := .format) rfl
        · exact Agrees.flag (f := .validate) rfl
        · exact Agrees.flag (f := .verbose) rfl
      · exact .unclear

theorem core_number {digit : Char → Bool} (hd : Digits digit) (ds : Str) : negative digit ('-' :: ds) =
    decimal digit (Str.splitOn '.' ds) := by
  have hall : ∀ s : Str, '.' ∈ s → s.all digit = false := fun s h =>
    List.all_eq_false.2 ⟨'.', h, by simp [hd.dot]⟩
  show ((decide (ds ≠ []) && ds.all digit) || fraction digit (ds.dropWhile digit)) = _
  by_cases h : '.' ∈ ds
  · obtain ⟨a, es, rfl, ha⟩ := List.eq_append_cons_of_mem h
    rw [hall _ h, Str.splitOn_append_cons ha, Bool.and_false, Bool.false_or]
    have hdrop : ∀ a : Str, '.' ∉ a → fraction digit ((a ++ '.' :: es).dropWhile digit) =
        (a.all digit && (decide (es ≠ []) && es.all digit)) := by
      intro a
      induction a with
      | nil => intro _; simp [hd.dot, fraction]
      | cons c a ih =>
        intro ha
        simp only [List.mem_cons, not_or] at ha
        by_cases hc : digit c = true
        · simp only [List.cons_append, List.dropWhile, hc, List.all_cons, Bool.true_and]
          exact ih ha.2
        · simp only [List.cons_append, List.dropWhile, hc, List.all_cons]
          unfold fraction
          split
          · rename_i h'
            simp only [List.cons.injEq] at h'
            exact absurd h'.1.symm ha.1
          · simp
    rw [hdrop a ha]
    by_cases he : '.' ∈ es
    · obtain ⟨b, fs, rfl, hb⟩ := List.eq_append_cons_of_mem he
      rw [hall _ he, Str.splitOn_append_cons hb]
      have := Str.splitOn_ne_nil '.' fs
      cases hf : Str.splitOn '.' fs with
      | nil => exact absurd hf this
      | cons x y => simp [decimal]
    · rw [Str.splitOn_of_not_mem he]
      rfl
  · rw [Str.splitOn_of_not_mem h]
    have : fraction digit (ds.dropWhile digit) = false := by
      unfold fraction
      split
      · rename_i es he
        exact absurd ((List.dropWhile_sublist digit).mem (he ▸ List.mem_cons_self)) h
      · rfl
    rw [this, Bool.or_false]
    rfl

theorem number_eq {digit : Char → Bool} (hd : Digits digit) {p : Str} (hp : p ≠ []) :
    negativeMatch digit ('-' :: p) = number digit p := by
  obtain ⟨q, c, rfl⟩ : ∃ q c, p = q ++ [c] := by
    rcases List.eq_nil_or_concat p with h | ⟨q, c, h⟩
    · exact absurd h hp
    · exact ⟨q, c, by simpa using h⟩
  have h1 : ('-' :: (q ++ [c])).getLast? = some c := by
    rw [← List.cons_append, List.getLast?_append]; rfl
  have h2 : ('-' :: (q ++ [c])).dropLast = '-' :: q := by
    rw [← List.cons_append, List.dropLast_concat]
  unfold negativeMatch number
  rw [h1, h2]
  simp only [List.getLast?_append, List.getLast?_singleton, Option.some_or, Option.some.injEq, List.dropLast_concat]
  by_cases hc : c = '\n'
  · subst hc
    have hlast : negative digit ('-' :: (q ++ ['\n'])) = false := by
      have hn : ∀ s : Str, (s ++ ['\n']).all digit = false := fun s =>
        List.all_eq_false.2 ⟨'\n', by simp, by simp [hd.newline]⟩
      show ((decide (q ++ ['\n'] ≠ []) && (q ++ ['\n']).all digit) || fraction digit ((q ++ ['\n']).dropWhile digit)) = _
      rw [hn]
      simp only [Bool.and_false, Bool.false_or]
      unfold fraction
      split
      · rename_i es he
        have hsuf : '.' :: es <:+ q ++ ['\n'] := he ▸ List.dropWhile_suffix digit
        obtain ⟨t, ht⟩ := hsuf
        rcases List.eq_nil_or_concat es with rfl | ⟨es', x, rfl⟩
        · rfl
        · have : x = '\n' := by
            have := congrArg List.getLast? ht
            rw [List.concat_eq_append, ← List.cons_append, ← List.append_assoc] at this
            simpa only [List.getLast?_append, List.getLast?_singleton, Option.some_or, Option.some.injEq] using this
          subst this
          simp [hd.newline]
      · rfl
    rw [hlast, if_pos rfl, ← core_number hd q]
    simp
  · rw [if_neg hc, ← core_number hd]
    simp [hc]

theorem shortRun_sep (a : Action) (q : Str) : shortRun a ['='] q = none := by
  cases q <;> simp [shortRun]

theorem shortRun_spec (q : Str) : q ≠ [] → q.head? ≠ some '=' →
    if (q.dropWhile (· = 'h')).head? = some '-' ∨ (q.dropWhile (· = 'h')).head? = some '=' then shortRun .help [] q = none
    else ∃ as e, shortRun .help [] q = some (.help :: as, e) := by
  have hl : ∀ c, c ≠ 'h' → c ≠ '-' → optionActions.lookup ['-', c] = none := by
    intro c h1 h2
    simp [optionActions, List.lookup, beq_eq_false_iff_ne.2 h1, beq_eq_false_iff_ne.2 h2]
  induction q with
  | nil => intro h; exact absurd rfl h
  | cons c rest ih =>
    intro _ hne
    have hce : c ≠ '=' := by simpa using hne
    by_cases hm : c = '-'
    · subst hm
      simp [List.dropWhile, shortRun]
    · by_cases hh : c = 'h'
      · subst hh
        have hdw : ('h' :: rest).dropWhile (· = 'h') = rest.dropWhile (· = 'h') := by simp [List.dropWhile]
        rw [hdw]
        match rest with
        | [] => exact ⟨[.help], none, rfl⟩
        | '=' :: r =>
          have : shortRun .help [] ('h' :: '=' :: r) = none := by
            show (shortRun .help ['='] r).map _ = none
            rw [shortRun_sep]; rfl
          simp [List.dropWhile, this]
        | d :: r =>
          by_cases hd : d = '='
          · subst hd
            have : shortRun .help [] ('h' :: '=' :: r) = none := by
              show (shortRun .help ['='] r).map _ = none
              rw [shortRun_sep]; rfl
            simp [List.dropWhile, this]
          · have hs : shortRun .help [] ('h' :: d :: r) = (shortRun .help [] (d :: r)).map fun r => (.help :: r.1, r.2) := by
              rw [shortRun]
              simp only [ne_eq, not_true_eq_false, decide_false, Bool.false_or, decide_eq_true_eq]
              rw [if_neg (by decide)]
              have : optionActions.lookup ['-', 'h'] = some .help := rfl
              rw [this]
            have := ih (by simp) (by simpa using hd)
            rw [hs]
            split
            · rename_i h
              rw [if_pos h] at this
              rw [this]; rfl
            · rename_i h
              rw [if_neg h] at this
              obtain ⟨as, e, h⟩ := this
              exact ⟨.help :: as, e, by rw [h]; rfl⟩
      · have hdw : (c :: rest).dropWhile (· = 'h') = c :: rest := by simp [List.dropWhile, hh]
        rw [hdw, if_neg (by simp [hm, hce])]
        refine ⟨[], some ('-' :: c :: rest), ?_⟩
        rw [shortRun, hl c hh hm]
        simp [hm]

theorem agrees_short {digit : Char → Bool} (hd : Digits digit) {c : Char} (hc : c ≠ '-') (p : Str) :
    Agrees ('-' :: c :: p) (short digit (c :: p)) (parseOptional digit ('-' :: c :: p)) := by
  by_cases hh : c = 'h'
  · subst hh
    unfold short
    rw [if_pos (by simp)]
    have hdw : ('h' :: p).dropWhile (· = 'h') = p.dropWhile (· = 'h') := by simp [List.dropWhile]
    rw [hdw]
    match p with
    | [] => exact .help rfl
    | d :: r =>
      by_cases hde : d = '='
      · subst hde
        rw [if_pos (by simp [List.dropWhile])]
        have : parseOptional digit ('-' :: 'h' :: '=' :: r) = some (.opt ⟨some .help, str!"-h", some ['='], some r⟩) := rfl
        rw [this]
        refine .wrong ?_
        exact shortRun_sep _ r
      · have : parseOptional digit ('-' :: 'h' :: d :: r) = some (.opt ⟨some .help, str!"-h", some [], some (d :: r)⟩) := by
          have h1 : optionActions.lookup ('-' :: 'h' :: d :: r) = none := by
            simp [optionActions, List.lookup]
          have h2 : optionActions.lookup (partition ('-' :: 'h' :: d :: r)).1 = none := by
            have : (partition ('-' :: 'h' :: d :: r)).1 = '-' :: 'h' :: d :: r.takeWhile (· ≠ '=') ∨
                (partition ('-' :: 'h' :: d :: r)).1 = '-' :: 'h' :: d :: r := by
              unfold partition
              split
              · exact .inr rfl
              · left; simp [List.takeWhile, hde]
            rcases this with h | h <;> rw [h] <;> simp [optionActions, List.lookup]
          have h3 : optionTuples ('-' :: 'h' :: d :: r) = [⟨some .help, str!"-h", some [], some (d :: r)⟩] := by
            simp [optionTuples, optionActions, Str.startsWith, List.filterMap]
          unfold parseOptional
          simp only [h1, h2, h3]
          simp
        rw [this]
        have hs := shortRun_spec (d :: r) (by simp) (by simpa using hde)
        split
        · rename_i h
          rw [if_pos h] at hs
          exact .wrong hs
        · rename_i h
          rw [if_neg h] at hs
          obtain ⟨as, e, hs⟩ := hs
          exact .help hs
  · unfold short
    rw [if_neg (by simp [hh])]
    have hl : ∀ q, optionActions.lookup ('-' :: c :: q) = none := by
      intro q
      simp [optionActions, List.lookup, beq_eq_false_iff_ne.2 hh, beq_eq_false_iff_ne.2 hc]
    have h2 : optionActions.lookup (partition ('-' :: c :: p)).1 = none := by
      have : (partition ('-' :: c :: p)).1 = ['-'] ∨ ∃ q, (partition ('-' :: c :: p)).1 = '-' :: c :: q := by
        unfold partition
        split
        · exact .inr ⟨_, rfl⟩
        · by_cases he : c = '='
          · left; simp [List.takeWhile, he]
          · right; exact ⟨p.takeWhile (· ≠ '='), by simp [List.takeWhile, he]⟩
      rcases this with h | ⟨q, h⟩ <;> rw [h]
      · rfl
      · exact hl q
    have h3 : optionTuples ('-' :: c :: p) = [] := by
      unfold optionTuples
      split
      · rename_i h
        simp only [List.cons.injEq, true_and] at h
        exact absurd h.1 hc
      · simp [optionActions, Str.startsWith, List.filterMap, Ne.symm hh, Ne.symm hc, hc, hh]
    unfold parseOptional
    simp only [hl, h2, h3, number_eq hd (p := c :: p) (by simp)]
    by_cases hn : number digit (c :: p) = true
    · simp [hn]
      exact .file
    · by_cases hb : ' ' ∈ c :: p
      · have : ' ' = c ∨ ' ' ∈ p := by simpa using hb
        simp [hn, this]
        exact .file
      · have : ¬(' ' = c ∨ ' ' ∈ p) := by simpa using hb
        simp [hn, this]
        exact .unknown rfl

/-- Every word of the command line but `--` is read as it should be. -/
theorem agrees {digit : Char → Bool} (hd : Digits digit) (s : Str) : Agrees s (says digit s) (parseOptional digit s) := by
  unfold says
  split
  · exact agrees_long hd _
  · exact .file
  · rename_i p h1 h2
    match p with
    | [] => exact absurd rfl h2
    | c :: p =>
      refine agrees_short hd ?_ p
      rintro rfl
      exact h1 p rfl
  · rename_i h1 h2 h3
    match s with
    | [] => exact .file
    | c :: p =>
      have : c ≠ '-' := by rintro rfl; exact h3 p rfl
      have : parseOptional digit (c :: p) = some .arg := by simp [parseOptional, this]
      rw [this]
      exact .file

end SqlV.Args
