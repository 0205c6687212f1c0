import Verif.Lemmas.Args

/-!
# Lines of words
-/

namespace SqlV.Args

open Cmd

variable {digit : Char → Bool}

/-- What a word says where it stands -/
def kindOf (digit : Char → Bool) (p : Str × Cls) : Says := if isArg p then .file else says digit p.1

/-- Words before `--` are read as they should be; what comes after it is an argument. -/
def Shaped (digit : Char → Bool) (l : List (Str × Cls)) : Prop :=
  ∃ a c, l = a ++ c ∧ (∀ p ∈ a, p.1 ≠ str!"--" ∧ Agrees p.1 (says digit p.1) (some p.2)) ∧
    (c = [] ∨ ∃ m : List Str, c = (str!"--", .dashes) :: m.map fun t => (t, .arg))

theorem agrees_unclear {s : Str} {k : Says} (h : Agrees s k none) : k = .unclear := by cases h; rfl

theorem agrees_clear {s : Str} {k : Says} {c : Cls} (h : Agrees s k (some c)) : k ≠ .unclear := by cases h <;> simp

theorem agrees_arg {s : Str} {k : Says} (h : Agrees s k (some .arg)) : k = .file := by cases h; rfl

theorem agrees_not_dashes {s : Str} {k : Says} : ¬Agrees s k (some .dashes) := by intro h; cases h

theorem agrees_file {s : Str} {c : Cls} (h : Agrees s .file (some c)) : c = .arg := by cases h; rfl

theorem agrees_opt {s : Str} {k : Says} {o : Opt} (h : Agrees s k (some (.opt o))) : k ≠ .file := by cases h <;> simp

theorem classify_none (hd : Digits digit) (argv : List Str) : classify digit argv = none ↔
    ∃ x ∈ argv.takeWhile (· ≠ str!"--"), says digit x = .unclear := by
  induction argv with
  | nil => simp [classify]
  | cons s rest ih =>
    rw [classify]
    by_cases hs : s = str!"--"
    · simp [hs]
    · rw [if_neg hs, List.takeWhile_cons, if_pos (by simpa using hs)]
      have ha := agrees hd s
      cases hp : parseOptional digit s with
      | none => rw [hp] at ha; simp [agrees_unclear ha]
      | some c =>
        rw [hp] at ha
        have := agrees_clear ha
        cases hc : classify digit rest with
        | none =>
          obtain ⟨x, hx, hu⟩ := ih.1 hc
          simp only [true_iff]
          exact ⟨x, List.mem_cons_of_mem _ hx, hu⟩
        | some cs =>
          simp only [reduceCtorEq, false_iff]
          rintro ⟨x, hx, hu⟩
          rcases List.mem_cons.1 hx with rfl | hx
          · exact this hu
          · rw [ih.2 ⟨x, hx, hu⟩] at hc; cases hc

theorem classify_some (hd : Digits digit) (argv : List Str) : ∀ l, classify digit argv = some l →
    l.map (·.1) = argv ∧ Shaped digit l := by
  induction argv with
  | nil => intro l h; simp [classify] at h; subst h; exact ⟨rfl, [], [], rfl, by simp, .inl rfl⟩
  | cons s rest ih =>
    intro l h
    rw [classify] at h
    by_cases hs : s = str!"--"
    · rw [if_pos hs] at h
      simp only [Option.some.injEq] at h
      subst h
      exact ⟨by simp [Function.comp_def], [], _, rfl, by simp, .inr ⟨rest, by rw [hs]⟩⟩
    · rw [if_neg hs] at h
      have ha := agrees hd s
      cases hp : parseOptional digit s with
      | none => rw [hp] at h; cases h
      | some c =>
        rw [hp] at h ha
        cases hc : classify digit rest with
        | none => rw [hc] at h; cases h
        | some cs =>
          rw [hc] at h
          simp only [Option.some.injEq] at h
          subst h
          obtain ⟨h1, a, b, rfl, h2, h3⟩ := ih cs hc
          refine ⟨by rw [List.map_cons, h1], (s, c) :: a, b, rfl, ?_, h3⟩
          intro p hp
          rcases List.mem_cons.1 hp with rfl | hp
          · exact ⟨hs, ha⟩
          · exact h2 p hp

/-- The flags after a word -/
def scan1 (fl : Flags) : Says → Except Outcome Flags
  | .help => .error .help
  | .version => .error .version
  | .wrong => .error .error
  | .flag .check => if fl.format then .error .error else .ok { fl with check := true }
  | .flag .format => if fl.check then .error .error else .ok { fl with format := true }
  | .flag .validate => if fl.verbose then .error .error else .ok { fl with validate := true }
  | .flag .verbose => if fl.validate then .error .error else .ok { fl with verbose := true }
  | _ => .ok fl

/-- The flags after some words -/
def scan : Flags → List Says → Except Outcome Flags
  | fl, [] => .ok fl
  | fl, k :: ks =>
    match scan1 fl k with
    | .error o => .error o
    | .ok fl => scan fl ks

/-- The word is a flag. -/
def isFlag : Says → Bool
  | .flag _ => true
  | _ => false

theorem scan_files (ks : List Says) (h : ∀ k ∈ ks, k = .file) (ks' : List Says) (fl : Flags) : scan fl (ks ++ ks') = scan fl ks' := by
  induction ks with
  | nil => rfl
  | cons k ks ih =>
    rw [h k (by simp)] at *
    exact ih fun k hk => h k (by simp [hk])

theorem optional_scan {s : Str} {o : Opt} (h : Agrees s (says digit s) (some (.opt o))) (st : State) : consumeOptional s o st =
    match scan1 st.flags (says digit s) with
    | .error e => .error e
    | .ok fl => .ok { st with flags := fl, extras := st.extras ++ if isFlag (says digit s) then [] else [s] } := by
  generalize says digit s = k at h
  cases h with
  | wrong h => simp [consumeOptional, h, scan1]
  | unknown h => simp [consumeOptional, h, scan1, takeActions, isFlag]
  | flag h =>
    rename_i f
    cases f <;> simp [consumeOptional, h, scan1, takeActions, act, takeAction, isFlag] <;> split <;> simp_all <;> rfl
  | version h => simp [consumeOptional, h, scan1, takeActions, takeAction]; rfl
  | help h => simp [consumeOptional, h, scan1, takeActions, takeAction]; rfl

/-- The words that are left over -/
def left (digit : Char → Bool) (l : List (Str × Cls)) : List Str :=
  (l.filter fun p => !isFlag (kindOf digit p)).map (·.1)

/-- Every option is read as it should be. -/
def OptsOk (digit : Char → Bool) (l : List (Str × Cls)) : Prop :=
  ∀ s o, (s, Cls.opt o) ∈ l → Agrees s (says digit s) (some (.opt o))

theorem arg_kind {p : Str × Cls} (h : isArg p = true) : kindOf digit p = .file := by simp [kindOf, h]

theorem not_arg {p : Str × Cls} (h : isArg p = false) : ∃ o, p = (p.1, .opt o) := by
  obtain ⟨s, c⟩ := p
  cases c with
  | opt o => exact ⟨o, rfl⟩
  | _ => cases h

theorem consume_after (n : Nat) : ∀ (l : List (Str × Cls)) (st : State), l.length < n → st.src.isSome → OptsOk digit l →
    consume n l st = match scan st.flags (l.map (kindOf digit)) with
      | .error e => .error e
      | .ok fl => .ok { st with flags := fl, extras := st.extras ++ left digit l } := by
  induction n with
  | zero => intro l st h; omega
  | succ n ih =>
    intro l st hn hsrc hok
    obtain ⟨x, hx⟩ := Option.isSome_iff_exists.1 hsrc
    have hcp : consumePositionals l st = (l, st) := by simp [consumePositionals, hx]
    rw [consume, hcp]
    by_cases hall : l.all isArg = true
    · rw [if_pos hall]
      have hk : ∀ k ∈ l.map (kindOf digit), k = .file := by
        intro k hk
        obtain ⟨p, hp, rfl⟩ := List.mem_map.1 hk
        exact arg_kind (List.all_eq_true.1 hall p hp)
      have := scan_files _ hk [] st.flags
      rw [List.append_nil] at this
      rw [this]
      have hl : left digit l = l.map (·.1) := by
        rw [left, List.filter_eq_self.2]
        intro p hp
        rw [hk _ (List.mem_map_of_mem hp)]
        rfl
      simp [scan, hl]
    · rw [if_neg hall]
      simp only [Nat.lt_irrefl, if_false]
      have hsplit := List.takeWhile_append_dropWhile (p := isArg) (l := l)
      cases hdw : l.dropWhile isArg with
      | nil =>
        exact absurd (List.all_eq_true.2 (List.dropWhile_eq_nil_iff.1 hdw)) hall
      | cons p rest =>
        have hp : isArg p = false := by
          have := List.head?_dropWhile_not isArg l
          rw [hdw] at this
          simpa using this
        obtain ⟨o, hpo⟩ := not_arg hp
        obtain ⟨s, c⟩ := p
        simp only [Prod.mk.injEq, true_and] at hpo
        subst hpo
        simp only
        rw [hdw] at hsplit
        have hmem : (s, Cls.opt o) ∈ l := by rw [← hsplit]; simp
        have hag := hok s o hmem
        have hk : ∀ k ∈ (l.takeWhile isArg).map (kindOf digit), k = .file := by
          intro k hk
          obtain ⟨p, hp, rfl⟩ := List.mem_map.1 hk
          exact arg_kind (List.mem_takeWhile_imp hp)
        have hks : kindOf digit (s, .opt o) = says digit s := rfl
        have hscan : scan st.flags (l.map (kindOf digit)) = scan st.flags (says digit s :: rest.map (kindOf digit)) := by
          conv_lhs => rw [← hsplit]
          rw [List.map_append, scan_files _ hk, List.map_cons, hks]
        have hleft : left digit l = (l.takeWhile isArg).map (·.1) ++ ((if isFlag (says digit s) then [] else [s]) ++ left digit rest) := by
          conv_lhs => rw [← hsplit]
          rw [left, List.filter_append, List.filter_eq_self.2, List.map_append, List.filter_cons, hks]
          · congr 1
            cases isFlag (says digit s) <;> simp [left]
          · intro p hp
            rw [hk _ (List.mem_map_of_mem hp)]
            rfl
        rw [hscan, scan, optional_scan hag]
        cases hs : scan1 st.flags (says digit s) with
        | error e => rfl
        | ok fl =>
          have hlen : rest.length < n := by
            have := congrArg List.length hsplit
            simp at this
            omega
          show consume n rest _ = _
          refine (ih rest _ hlen (by exact hsrc) fun s' o' h' => hok s' o' (by rw [← hsplit]; simp [h'])).trans ?_
          simp only
          cases scan fl (rest.map (kindOf digit)) with
          | error e => rfl
          | ok fl' => simp [hleft]

theorem shaped_opts {l : List (Str × Cls)} (h : Shaped digit l) : OptsOk digit l := by
  obtain ⟨a, c, rfl, ha, hc⟩ := h
  intro s o hm
  rcases List.mem_append.1 hm with hm | hm
  · exact (ha _ hm).2
  · rcases hc with rfl | ⟨m, rfl⟩
    · cases hm
    · simp at hm

theorem shaped_tail {p : Str × Cls} {l : List (Str × Cls)} (hp : isArg p = false) (h : Shaped digit (p :: l)) : Shaped digit l := by
  obtain ⟨a, c, he, ha, hc⟩ := h
  cases a with
  | nil =>
    rcases hc with rfl | ⟨m, rfl⟩
    · cases he
    · rw [List.nil_append, List.cons.injEq] at he
      rw [he.1] at hp
      cases hp
  | cons q a =>
    simp only [List.cons_append, List.cons.injEq] at he
    obtain ⟨rfl, rfl⟩ := he
    exact ⟨a, c, rfl, fun x hx => ha x (by simp [hx]), hc⟩

theorem shaped_dashes {p : Str × Cls} {l : List (Str × Cls)} (hp : p.2 = .dashes) (h : Shaped digit (p :: l)) :
    p.1 = str!"--" ∧ ∃ m : List Str, l = m.map fun t => (t, .arg) := by
  obtain ⟨a, c, he, ha, hc⟩ := h
  cases a with
  | nil =>
    rcases hc with rfl | ⟨m, rfl⟩
    · cases he
    · rw [List.nil_append, List.cons.injEq] at he
      exact ⟨by rw [he.1], m, he.2⟩
  | cons q a =>
    simp only [List.cons_append, List.cons.injEq] at he
    obtain ⟨rfl, -⟩ := he
    have := (ha p (by simp)).2
    rw [hp] at this
    exact absurd this agrees_not_dashes

/-- The options at the beginning -/
def optsOf (l : List (Str × Cls)) : List (Str × Cls) := l.takeWhile fun p => !isArg p

/-- The arguments after them -/
def runOf (l : List (Str × Cls)) : List (Str × Cls) := (l.dropWhile fun p => !isArg p).takeWhile isArg

/-- What comes after these -/
def restOf (l : List (Str × Cls)) : List (Str × Cls) := (l.dropWhile fun p => !isArg p).dropWhile isArg

theorem split_line (l : List (Str × Cls)) : optsOf l ++ (runOf l ++ restOf l) = l := by
  rw [runOf, restOf, List.takeWhile_append_dropWhile, optsOf, List.takeWhile_append_dropWhile]

/-- The inputs -/
def srcOf (l : List (Str × Cls)) : Option (List Str) :=
  if (runOf l).dropWhile (fun p => p.2 = .dashes) = [] then none else some (((runOf l).map (·.1)).erase str!"--")

theorem consume_before (n : Nat) : ∀ (l : List (Str × Cls)) (st : State), l.length < n → st.src = none → Shaped digit l →
    ∃ ex, (consume n l st = match scan st.flags (l.map (kindOf digit)) with
      | .error e => .error e
      | .ok fl => .ok { flags := fl, src := srcOf l, extras := st.extras ++ ex }) ∧
      (srcOf l ≠ none → ex = left digit (optsOf l ++ restOf l)) := by
  induction n with
  | zero => intro l st h; omega
  | succ n ih =>
    intro l st hn hsrc hsh
    rw [consume]
    by_cases hall : l.all isArg = true
    · rw [if_pos hall]
      have harg := List.all_eq_true.1 hall
      have h1 : l.takeWhile isArg = l := List.takeWhile_eq_self_iff.2 harg
      have h2 : l.dropWhile isArg = [] := List.dropWhile_eq_nil_iff.2 harg
      have h3 : (l.dropWhile fun p => !isArg p) = l := by
        cases l with
        | nil => rfl
        | cons p l => simp [List.dropWhile, harg p (by simp)]
      have h4 : optsOf l = [] := by
        rw [optsOf]
        cases l with
        | nil => rfl
        | cons p l => simp [List.takeWhile, harg p (by simp)]
      have hk : ∀ k ∈ l.map (kindOf digit), k = .file := by
        intro k hk
        obtain ⟨p, hp, rfl⟩ := List.mem_map.1 hk
        exact arg_kind (harg p hp)
      have hscan := scan_files _ hk [] st.flags
      rw [List.append_nil] at hscan
      have hrun : runOf l = l := by rw [runOf, h3, h1]
      have hrest : restOf l = [] := by rw [restOf, h3, h2]
      rw [hscan, hrest, h4, srcOf, hrun]
      simp only [consumePositionals, hsrc, h1, h2, scan]
      by_cases hd : l.dropWhile (fun p => p.2 = .dashes) = []
      · rw [if_pos hd, if_pos hd]
        exact ⟨l.map (·.1), by simp [hsrc], by simp⟩
      · rw [if_neg hd, if_neg hd]
        exact ⟨[], by simp, by simp [left]⟩
    · rw [if_neg hall]
      cases l with
      | nil => exact absurd rfl hall
      | cons p l =>
        by_cases hp : isArg p = true
        · have hnd : p.2 ≠ .dashes := by
            intro hpd
            obtain ⟨-, m, rfl⟩ := shaped_dashes hpd hsh
            refine hall ?_
            simp [isArg, hpd]
          have hr : (List.takeWhile isArg (p :: l)).dropWhile (fun p => p.2 = .dashes) ≠ [] := by
            simp [List.takeWhile, hp, hnd]
          have h3 : ((p :: l).dropWhile fun p => !isArg p) = p :: l := by simp [List.dropWhile, hp]
          have h4 : optsOf (p :: l) = [] := by simp [optsOf, List.takeWhile, hp]
          have hrun : runOf (p :: l) = (p :: l).takeWhile isArg := by rw [runOf, h3]
          have hrest : restOf (p :: l) = (p :: l).dropWhile isArg := by rw [restOf, h3]
          have hcp : consumePositionals (p :: l) st = ((p :: l).dropWhile isArg, { st with src := srcOf (p :: l) }) := by
            simp only [consumePositionals, hsrc]
            rw [if_neg hr, srcOf, hrun, if_neg hr]
          have hlen : ((p :: l).dropWhile isArg).length < (p :: l).length := by
            simp only [List.dropWhile, hp, List.length_cons]
            have := (List.dropWhile_sublist (l := l) isArg).length_le
            omega
          have hsome : (srcOf (p :: l)).isSome = true := by
            rw [srcOf, hrun, if_neg hr]; rfl
          rw [hcp]
          simp only [hlen, if_true]
          rw [consume_after n ((p :: l).dropWhile isArg) { st with src := srcOf (p :: l) } (by omega) hsome fun s o hm =>
            shaped_opts hsh s o ((List.dropWhile_sublist _).mem hm)]
          have hscan : scan st.flags ((p :: l).map (kindOf digit)) = scan st.flags (((p :: l).dropWhile isArg).map (kindOf digit)) := by
            have hk : ∀ k ∈ ((p :: l).takeWhile isArg).map (kindOf digit), k = .file := by
              intro k hk
              obtain ⟨p, hp, rfl⟩ := List.mem_map.1 hk
              exact arg_kind (List.mem_takeWhile_imp hp)
            conv_lhs => rw [← List.takeWhile_append_dropWhile (p := isArg) (l := p :: l)]
            rw [List.map_append, scan_files _ hk]
          rw [hscan, h4, hrest]
          exact ⟨left digit ((p :: l).dropWhile isArg), rfl, fun _ => rfl⟩
        · have hp : isArg p = false := by simpa using hp
          have hag := shaped_opts hsh
          have hsh' := shaped_tail hp hsh
          obtain ⟨o, hpo⟩ := not_arg hp
          obtain ⟨s, c⟩ := p
          simp only [Prod.mk.injEq, true_and] at hpo
          subst hpo
          have hag := hag s o (by simp)
          have htw : ((s, Cls.opt o) :: l).takeWhile isArg = [] := by simp [List.takeWhile, hp]
          have hdw : ((s, Cls.opt o) :: l).dropWhile isArg = (s, Cls.opt o) :: l := by simp [List.dropWhile, hp]
          have hcp : consumePositionals ((s, Cls.opt o) :: l) st = ((s, Cls.opt o) :: l, st) := by
            simp [consumePositionals, hsrc, htw]
          have h1 : optsOf ((s, Cls.opt o) :: l) = (s, .opt o) :: optsOf l := by simp [optsOf, List.takeWhile, hp]
          have h2 : runOf ((s, Cls.opt o) :: l) = runOf l := by simp [runOf, List.dropWhile, hp]
          have h3 : restOf ((s, Cls.opt o) :: l) = restOf l := by simp [restOf, List.dropWhile, hp]
          have h4 : srcOf ((s, Cls.opt o) :: l) = srcOf l := by rw [srcOf, srcOf, h2]
          have hks : kindOf digit (s, .opt o) = says digit s := rfl
          rw [hcp, h4, h1, h3]
          simp only [Nat.lt_irrefl, if_false, htw, hdw, List.map_nil, List.append_nil, List.map_cons, hks, scan]
          rw [optional_scan hag]
          cases hs : scan1 st.flags (says digit s) with
          | error e => exact ⟨left digit ((s, .opt o) :: optsOf l ++ restOf l), rfl, fun _ => rfl⟩
          | ok fl =>
            obtain ⟨ex, he, hx⟩ := ih l { st with flags := fl, extras := st.extras ++ if isFlag (says digit s) then [] else [s] }
              (by simp at hn; omega) hsrc hsh'
            refine ⟨(if isFlag (says digit s) then [] else [s]) ++ ex, ?_, fun h => ?_⟩
            · show consume n l _ = _
              refine Eq.trans he ?_
              simp only [List.append_assoc]
            · rw [hx h, left, left, List.cons_append, List.filter_cons, hks]
              cases isFlag (says digit s) <;> simp

/-- The word stops the scan. -/
def Stops (k : Says) : Prop := k = .help ∨ k = .version ∨ k = .wrong

theorem clash_mono {a b : List Flag} (h : Clash a) : Clash (a ++ b) := by
  rcases h with ⟨h1, h2⟩ | ⟨h1, h2⟩
  · exact .inl ⟨by simp [h1], by simp [h2]⟩
  · exact .inr ⟨by simp [h1], by simp [h2]⟩

theorem scan1_flag (fs : List Flag) (h : ¬Clash fs) (f : Flag) :
    scan1 (given fs) (.flag f) = if Clash (fs ++ [f]) then .error .error else .ok (given (fs ++ [f])) := by
  unfold Clash at *
  cases f <;> simp only [scan1, given, List.mem_append, List.mem_singleton, reduceCtorEq, or_false, or_true, true_and, and_true,
    decide_eq_true_eq] at * <;> split <;> split <;> simp_all

theorem scan_step (fs : List Flag) (h : ¬Clash fs) (k : Says) :
    (Stops k ∧ (∃ o, scan1 (given fs) k = .error o ∧ (o = .help ↔ k = .help) ∧ (o = .version ↔ k = .version))) ∨
    (¬Stops k ∧ if Clash (fs ++ flagsOf [k]) then scan1 (given fs) k = .error .error
      else scan1 (given fs) k = .ok (given (fs ++ flagsOf [k]))) := by
  cases k with
  | help => exact .inl ⟨.inl rfl, _, rfl, by simp, by simp⟩
  | version => exact .inl ⟨.inr (.inl rfl), _, rfl, by simp, by simp⟩
  | wrong => exact .inl ⟨.inr (.inr rfl), _, rfl, by simp, by simp⟩
  | flag f =>
    refine .inr ⟨by simp [Stops], ?_⟩
    have := scan1_flag fs h f
    show if Clash (fs ++ [f]) then _ else scan1 _ _ = .ok (given (fs ++ [f]))
    split <;> simp_all
  | file => exact .inr ⟨by simp [Stops], by simp [flagsOf, h, scan1]⟩
  | unknown => exact .inr ⟨by simp [Stops], by simp [flagsOf, h, scan1]⟩
  | unclear => exact .inr ⟨by simp [Stops], by simp [flagsOf, h, scan1]⟩

theorem flagsOf_cons (k : Says) (ks : List Says) : flagsOf (k :: ks) = flagsOf [k] ++ flagsOf ks := by
  cases k <;> rfl

theorem scan_ok (ks : List Says) : ∀ (fs : List Flag) (fl : Flags), ¬Clash fs →
    (scan (given fs) ks = .ok fl ↔ (∀ k ∈ ks, ¬Stops k) ∧ ¬Clash (fs ++ flagsOf ks) ∧ fl = given (fs ++ flagsOf ks)) := by
  induction ks with
  | nil => intro fs fl h; simp [scan, flagsOf, h, eq_comm]
  | cons k ks ih =>
    intro fs fl h
    rw [scan, flagsOf_cons, ← List.append_assoc]
    rcases scan_step fs h k with ⟨hs, o, ho, -⟩ | ⟨hs, ho⟩
    · rw [ho]
      simp only [reduceCtorEq, false_iff]
      exact fun hh => hh.1 k (by simp) hs
    · split at ho
      · rename_i hc
        rw [ho]
        simp only [reduceCtorEq, false_iff]
        exact fun hh => hh.2.1 (clash_mono hc)
      · rename_i hc
        rw [ho]
        simp only [ih _ fl hc, List.mem_cons, forall_eq_or_imp, hs, not_false_eq_true, true_and]

theorem scan_asks (k₀ : Says) (o₀ : Outcome) (h₀ : (k₀ = .help ∧ o₀ = .help) ∨ (k₀ = .version ∧ o₀ = .version)) (ks : List Says) :
    ∀ fs : List Flag, ¬Clash fs → (scan (given fs) ks = .error o₀ ↔
      ∃ a b, ks = a ++ k₀ :: b ∧ (∀ k ∈ a, ¬Stops k) ∧ ¬Clash (fs ++ flagsOf a)) := by
  have hstop : Stops k₀ := by rcases h₀ with ⟨rfl, -⟩ | ⟨rfl, -⟩ <;> simp [Stops]
  have hne : o₀ ≠ .error := by rcases h₀ with ⟨-, rfl⟩ | ⟨-, rfl⟩ <;> simp
  induction ks with
  | nil => intro fs h; simp [scan]
  | cons k ks ih =>
    intro fs h
    rw [scan]
    rcases scan_step fs h k with ⟨hs, o, ho, h1, h2⟩ | ⟨hs, ho⟩
    · rw [ho]
      simp only [Except.error.injEq]
      have hok : o = o₀ ↔ k = k₀ := by
        rcases h₀ with ⟨rfl, rfl⟩ | ⟨rfl, rfl⟩
        · exact h1
        · exact h2
      rw [hok]
      constructor
      · rintro rfl
        exact ⟨[], ks, rfl, by simp, by simpa [flagsOf] using h⟩
      · rintro ⟨a, b, he, ha, -⟩
        cases a with
        | nil => simp only [List.nil_append, List.cons.injEq] at he; exact he.1
        | cons x a =>
          simp only [List.cons_append, List.cons.injEq] at he
          exact absurd hs (he.1 ▸ ha x (by simp))
    · split at ho
      · rename_i hc
        rw [ho]
        simp only [Except.error.injEq, hne.symm, false_iff]
        rintro ⟨a, b, he, ha, hcl⟩
        cases a with
        | nil => simp only [List.nil_append, List.cons.injEq] at he; exact hs (he.1 ▸ hstop)
        | cons x a =>
          simp only [List.cons_append, List.cons.injEq] at he
          rw [flagsOf_cons, ← he.1, ← List.append_assoc] at hcl
          exact hcl (clash_mono hc)
      · rename_i hc
        rw [ho]
        simp only [ih _ hc]
        constructor
        · rintro ⟨a, b, rfl, ha, hcl⟩
          refine ⟨k :: a, b, rfl, ?_, ?_⟩
          · intro x hx
            rcases List.mem_cons.1 hx with rfl | hx
            · exact hs
            · exact ha x hx
          · rw [flagsOf_cons, ← List.append_assoc]; exact hcl
        · rintro ⟨a, b, he, ha, hcl⟩
          cases a with
          | nil => simp only [List.nil_append, List.cons.injEq] at he; exact absurd (he.1 ▸ hstop) hs
          | cons x a =>
            simp only [List.cons_append, List.cons.injEq] at he
            obtain ⟨rfl, rfl⟩ := he
            refine ⟨a, b, rfl, fun x hx => ha x (by simp [hx]), ?_⟩
            rw [flagsOf_cons, ← List.append_assoc] at hcl
            exact hcl

theorem parseArgs_eq {argv : List Str} {l : List (Str × Cls)} (h : classify digit argv = some l) (hsh : Shaped digit l) :
    parseArgs digit argv = match scan (given []) (l.map (kindOf digit)) with
      | .error e => e
      | .ok fl =>
        match srcOf l with
        | none => .error
        | some srcs => if left digit (optsOf l ++ restOf l) = [] then .args fl srcs else .error := by
  obtain ⟨ex, h1, h2⟩ := consume_before (l.length + 1) l {} (by omega) rfl hsh
  unfold parseArgs
  simp only [h]
  rw [h1]
  show (match (match scan (given []) (l.map (kindOf digit)) with
    | .error e => .error e
    | .ok fl => .ok { flags := fl, src := srcOf l, extras := [] ++ ex } : Except Outcome State) with
    | .error o => o
    | .ok st => _) = _
  cases scan (given []) (l.map (kindOf digit)) with
  | error e => rfl
  | ok fl =>
    simp only
    cases hs : srcOf l with
    | none => rfl
    | some srcs =>
      have := h2 (by simp [hs])
      simp [this]

theorem shaped_cons {q : Str × Cls} {l : List (Str × Cls)} (h : Shaped digit (q :: l)) :
    ((q.1 ≠ str!"--" ∧ Agrees q.1 (says digit q.1) (some q.2)) ∧ Shaped digit l) ∨
      (q = (str!"--", .dashes) ∧ ∃ m : List Str, l = m.map fun t => (t, .arg)) := by
  obtain ⟨a, c, he, ha, hc⟩ := h
  cases a with
  | nil =>
    rcases hc with rfl | ⟨m, rfl⟩
    · cases he
    · rw [List.nil_append, List.cons.injEq] at he
      exact .inr ⟨he.1, m, he.2⟩
  | cons p a =>
    simp only [List.cons_append, List.cons.injEq] at he
    obtain ⟨rfl, rfl⟩ := he
    exact .inl ⟨ha q (by simp), a, c, rfl, fun x hx => ha x (by simp [hx]), hc⟩

theorem prefix_agrees (la lb : List (Str × Cls)) : Shaped digit (la ++ lb) → (∀ q ∈ la, q.1 ≠ str!"--") →
    ∀ q ∈ la, Agrees q.1 (says digit q.1) (some q.2) := by
  induction la with
  | nil => intro _ _ q hq; cases hq
  | cons p la ih =>
    intro h hn q hq
    rcases shaped_cons h with ⟨⟨h1, h2⟩, h3⟩ | ⟨h1, -⟩
    · rcases List.mem_cons.1 hq with rfl | hq
      · exact h2
      · exact ih h3 (fun q hq => hn q (by simp [hq])) q hq
    · exact absurd (by rw [h1]) (hn p (by simp))

theorem opt_prefix (la : List (Str × Cls)) (p : Str × Cls) (lb : List (Str × Cls)) (hp : isArg p = false) :
    Shaped digit (la ++ p :: lb) → ∀ q ∈ la, q.1 ≠ str!"--" := by
  induction la with
  | nil => intro _ q hq; cases hq
  | cons a la ih =>
    intro h q hq
    rcases shaped_cons h with ⟨⟨h1, -⟩, h3⟩ | ⟨-, m, hm⟩
    · rcases List.mem_cons.1 hq with rfl | hq
      · exact h1
      · exact ih h3 q hq
    · have : p ∈ m.map fun t => (t, Cls.arg) := by rw [← hm]; simp
      obtain ⟨t, -, rfl⟩ := List.mem_map.1 this
      cases hp

theorem shaped_at (la : List (Str × Cls)) (d : Str × Cls) (lb : List (Str × Cls)) (hd : d.2 = .dashes) :
    Shaped digit (la ++ d :: lb) → (∀ q ∈ la, q.1 ≠ str!"--" ∧ Agrees q.1 (says digit q.1) (some q.2)) ∧ d.1 = str!"--" ∧
      ∃ m : List Str, lb = m.map fun t => (t, .arg) := by
  induction la with
  | nil =>
    intro h
    exact ⟨by simp, shaped_dashes hd h⟩
  | cons a la ih =>
    intro h
    rcases shaped_cons h with ⟨h1, h3⟩ | ⟨-, m, hm⟩
    · obtain ⟨h4, h5⟩ := ih h3
      refine ⟨fun q hq => ?_, h5⟩
      rcases List.mem_cons.1 hq with rfl | hq
      · exact h1
      · exact h4 q hq
    · have : d ∈ m.map fun t => (t, Cls.arg) := by rw [← hm]; simp
      obtain ⟨t, -, rfl⟩ := List.mem_map.1 this
      cases hd

theorem shaped_all (l : List (Str × Cls)) : Shaped digit l → (∀ q ∈ l, q.2 ≠ .dashes) →
    ∀ q ∈ l, q.1 ≠ str!"--" ∧ Agrees q.1 (says digit q.1) (some q.2) := by
  rintro ⟨a, c, rfl, ha, hc⟩ hn q hq
  rcases hc with rfl | ⟨m, rfl⟩
  · exact ha q (by simpa using hq)
  · exact absurd rfl (hn (str!"--", .dashes) (by simp))

theorem agrees_kind {q : Str × Cls} (h : Agrees q.1 (says digit q.1) (some q.2)) : kindOf digit q = says digit q.1 := by
  obtain ⟨s, c⟩ := q
  cases c with
  | arg => exact (agrees_arg h).symm
  | dashes => exact absurd h agrees_not_dashes
  | opt o => rfl

theorem split_unique {a b c : List (Str × Cls)} (ha : ∀ p ∈ a, isArg p = false) (hb : ∀ p ∈ b, isArg p = true) (hb' : b ≠ [])
    (hc : ∀ p ∈ c, isArg p = false) : optsOf (a ++ (b ++ c)) = a ∧ runOf (a ++ (b ++ c)) = b ∧ restOf (a ++ (b ++ c)) = c := by
  have h1 : (b ++ c).takeWhile (fun p => !isArg p) = [] ∧ (b ++ c).dropWhile (fun p => !isArg p) = b ++ c := by
    cases b with
    | nil => exact absurd rfl hb'
    | cons p b => simp [hb p (by simp)]
  have h2 : c.takeWhile isArg = [] ∧ c.dropWhile isArg = c := by
    cases c with
    | nil => exact ⟨rfl, rfl⟩
    | cons p c => simp [List.takeWhile, List.dropWhile, hc p (by simp)]
  have ha' : ∀ p ∈ a, (!isArg p) = true := fun p hp => by simp [ha p hp]
  refine ⟨?_, ?_, ?_⟩
  · rw [optsOf, List.takeWhile_append_of_pos ha', h1.1, List.append_nil]
  · rw [runOf, List.dropWhile_append_of_pos ha', h1.2, List.takeWhile_append_of_pos hb, h2.1, List.append_nil]
  · rw [restOf, List.dropWhile_append_of_pos ha', h1.2, List.dropWhile_append_of_pos hb, h2.2]

theorem flags_of_all {ks : List Says} (h : ∀ k ∈ ks, isFlag k = true) : ks = (flagsOf ks).map .flag := by
  induction ks with
  | nil => rfl
  | cons k ks ih =>
    have hk := h k (by simp)
    cases k with
    | flag f => rw [flagsOf_cons, List.map_append, ← ih fun k hk => h k (by simp [hk])]; rfl
    | _ => cases hk

theorem flagsOf_append (a b : List Says) : flagsOf (a ++ b) = flagsOf a ++ flagsOf b := by
  rw [flagsOf, List.filterMap_append]; rfl

theorem flagsOf_files {a : List Says} (h : ∀ k ∈ a, k = .file) : flagsOf a = [] := by
  rw [flagsOf, List.filterMap_eq_nil_iff]
  intro k hk
  rw [h k hk]

theorem flagsOf_flags (fs : List Flag) : flagsOf (fs.map .flag) = fs := by
  induction fs with
  | nil => rfl
  | cons f fs ih => rw [List.map_cons, flagsOf_cons, ih]; rfl

end SqlV.Args
