import Verif.Lemmas.CommandLine

/-!
# The command line (C82)

`says`, `Accepts` and `Asks` are in `Verif/Spec/CommandLine.lean`.
-/

namespace SqlV

set_option linter.unusedSectionVars false

open Args Cmd

variable {digit : Char → Bool}

theorem says_dashes : says digit str!"--" = .unclear := rfl

/-- C82: exactly these command lines start a run, with these flags and inputs. -/
theorem C82_accepts_iff (hd : Digits digit) (argv : List Str) (fl : Flags) (srcs : List Str) :
    parseArgs digit argv = .args fl srcs ↔ Accepts digit argv fl srcs := by
  have h0 : ¬Clash [] := by simp [Clash]
  constructor
  · intro h
    cases hc : classify digit argv with
    | none => simp [parseArgs, hc] at h
    | some l =>
      obtain ⟨hw, hsh⟩ := classify_some hd argv l hc
      rw [parseArgs_eq hc hsh] at h
      cases hs : scan (given []) (l.map (kindOf digit)) with
      | error e =>
        rw [hs] at h
        simp only at h
        exfalso
        have herr : ∀ ks (f : Flags) e', scan f ks = .error e' → ∀ fl srcs, e' ≠ .args fl srcs := by
          intro ks
          induction ks with
          | nil => intro f e' h; cases h
          | cons k ks ih =>
            intro f e' h fl srcs
            rw [scan] at h
            cases h1 : scan1 f k with
            | ok f' => rw [h1] at h; exact ih f' e' h fl srcs
            | error o =>
              rw [h1] at h
              cases h
              intro hh
              subst hh
              cases k <;> try cases h1
              rename_i g
              cases g <;> simp only [scan1] at h1 <;> split at h1 <;> cases h1
        exact herr _ _ _ hs _ _ h
      | ok fl' =>
        rw [hs] at h
        simp only at h
        obtain ⟨h1, h2, h3⟩ := (scan_ok _ _ _ h0).1 hs
        rw [List.nil_append] at h2 h3
        cases hsrc : srcOf l with
        | none => rw [hsrc] at h; cases h
        | some srcs' =>
          rw [hsrc] at h
          simp only at h
          split at h
          · rename_i hleft
            simp only [Outcome.args.injEq] at h
            obtain ⟨rfl, rfl⟩ := h
            have hflag : ∀ p ∈ optsOf l ++ restOf l, isFlag (kindOf digit p) = true := by
              intro p hp
              by_contra hn
              rw [left, List.map_eq_nil_iff, List.filter_eq_nil_iff] at hleft
              exact hleft p hp (by simpa using hn)
            have hnarg : ∀ p ∈ optsOf l ++ restOf l, isArg p = false := by
              intro p hp
              by_contra hn
              have := hflag p hp
              rw [arg_kind (by simpa using hn)] at this
              cases this
            have hrun : ∀ p ∈ runOf l, isArg p = true := fun p hp => List.mem_takeWhile_imp hp
            have hsplit := split_line l
            have hfl : flagsOf (l.map (kindOf digit)) = flagsOf ((optsOf l ++ restOf l).map (kindOf digit)) := by
              conv_lhs => rw [← hsplit]
              rw [List.map_append, List.map_append, flagsOf_append, flagsOf_append, flagsOf_files (a := (runOf l).map (kindOf digit)),
                List.map_append, flagsOf_append, List.nil_append]
              intro k hk
              obtain ⟨p, hp, rfl⟩ := List.mem_map.1 hk
              exact arg_kind (hrun p hp)
            rw [hfl] at h2 h3
            have hwords : argv = (optsOf l).map (·.1) ++ (runOf l).map (·.1) ++ (restOf l).map (·.1) := by
              rw [← hw]
              conv_lhs => rw [← hsplit]
              simp
            have hsays : ((optsOf l).map (·.1) ++ (restOf l).map (·.1)).map (says digit) =
                (flagsOf ((optsOf l ++ restOf l).map (kindOf digit))).map .flag := by
              rw [← flags_of_all, ← List.map_append, List.map_map]
              · refine List.map_congr_left fun p hp => ?_
                simp [kindOf, hnarg p hp]
              · intro k hk
                obtain ⟨p, hp, rfl⟩ := List.mem_map.1 hk
                exact hflag p hp
            rw [srcOf] at hsrc
            split at hsrc
            · cases hsrc
            rename_i hne
            cases hsrc
            by_cases hdash : ∃ d ∈ runOf l, d.2 = .dashes
            · obtain ⟨d, hdm, hd2⟩ := hdash
              obtain ⟨r1, r2, hr⟩ := List.append_of_mem hdm
              have hl : l = (optsOf l ++ r1) ++ d :: (r2 ++ restOf l) := by
                conv_lhs => rw [← hsplit, hr]
                simp
              rw [hl] at hsh
              obtain ⟨g1, g2, m, g3⟩ := shaped_at _ d _ hd2 hsh
              have hrest : restOf l = [] := by
                cases hrl : restOf l with
                | nil => rfl
                | cons p r =>
                  have hp : p ∈ m.map fun t => (t, Cls.arg) := by rw [← g3, hrl]; simp
                  obtain ⟨t, -, ht⟩ := List.mem_map.1 hp
                  have := hnarg p (by rw [hrl]; simp)
                  rw [← ht] at this
                  cases this
              have hnot : str!"--" ∉ r1.map (·.1) := by
                intro hm
                obtain ⟨p, hp, he⟩ := List.mem_map.1 hm
                exact (g1 p (by simp [hp])).1 he
              have hers : ((runOf l).map (·.1)).erase str!"--" = r1.map (·.1) ++ r2.map (·.1) := by
                rw [hr, List.map_append, List.erase_append_right _ hnot, List.map_cons, g2, List.erase_cons_head]
              refine ⟨(optsOf l).map (·.1), r1.map (·.1), [], _, by rw [List.append_nil, ← hsays, hrest]; simp, ?_, h2, h3, ?_,
                .inr ⟨rfl, r2.map (·.1), ?_, hers⟩⟩
              · intro f hf
                obtain ⟨p, hp, rfl⟩ := List.mem_map.1 hf
                have hag := (g1 p (by simp [hp])).2
                rw [← agrees_kind hag]
                exact arg_kind (hrun p (by rw [hr]; simp [hp]))
              · rw [hers]
                intro hnil
                rw [List.append_eq_nil_iff, List.map_eq_nil_iff, List.map_eq_nil_iff] at hnil
                rw [hr, hnil.1, hnil.2] at hne
                simp [hd2] at hne
              · rw [hwords, hr, hrest]
                simp [g2]
            · have hnd : ∀ q ∈ l, q.2 ≠ .dashes := by
                intro q hq hq2
                rw [← hsplit] at hq
                have hqa : isArg q = true := by unfold isArg; rw [hq2]
                rcases List.mem_append.1 hq with hq | hq
                · have := hnarg q (by simp [hq]); rw [hqa] at this; cases this
                · rcases List.mem_append.1 hq with hq | hq
                  · exact hdash ⟨q, hq, hq2⟩
                  · have := hnarg q (by simp [hq]); rw [hqa] at this; cases this
              have hall := shaped_all l hsh hnd
              have hmem : ∀ p ∈ runOf l, p ∈ l := fun p hp => by rw [← hsplit]; simp [hp]
              have hers : ((runOf l).map (·.1)).erase str!"--" = (runOf l).map (·.1) := by
                refine List.erase_of_not_mem fun hm => ?_
                obtain ⟨p, hp, he⟩ := List.mem_map.1 hm
                exact (hall p (hmem p hp)).1 he
              refine ⟨(optsOf l).map (·.1), (runOf l).map (·.1), (restOf l).map (·.1), _, hsays, ?_, h2, h3, ?_, .inl ⟨hwords, hers⟩⟩
              · intro f hf
                obtain ⟨p, hp, rfl⟩ := List.mem_map.1 hf
                rw [← agrees_kind (hall p (hmem p hp)).2]
                exact arg_kind (hrun p hp)
              · rw [hers]
                intro hnil
                rw [List.map_eq_nil_iff] at hnil
                rw [hnil] at hne
                exact hne rfl
          · cases h
  · rintro ⟨before, files, after, fs, hba, hfiles, hcl, rfl, hne, hcase⟩
    have hflag : ∀ s ∈ before ++ after, ∃ f, says digit s = .flag f := by
      intro s hs
      have : says digit s ∈ fs.map Says.flag := by rw [← hba]; exact List.mem_map_of_mem hs
      obtain ⟨f, -, hf⟩ := List.mem_map.1 this
      exact ⟨f, hf.symm⟩
    have hno : ∀ s ∈ before ++ files ++ after, says digit s ≠ .unclear := by
      intro s hs
      rw [List.append_assoc, List.mem_append, List.mem_append] at hs
      rcases hs with hs | hs | hs
      · obtain ⟨f, hf⟩ := hflag s (by simp [hs]); rw [hf]; simp
      · rw [hfiles s hs]; simp
      · obtain ⟨f, hf⟩ := hflag s (by simp [hs]); rw [hf]; simp
    have hnd : ∀ s ∈ before ++ files ++ after, s ≠ str!"--" := by
      rintro s hs rfl
      exact hno _ hs says_dashes
    have hclass : ∃ l, classify digit argv = some l := by
      cases hc : classify digit argv with
      | some l => exact ⟨l, rfl⟩
      | none =>
        exfalso
        obtain ⟨x, hx, hu⟩ := (classify_none hd argv).1 hc
        rcases hcase with ⟨rfl, -⟩ | ⟨rfl, more, rfl, -⟩
        · exact hno x ((List.takeWhile_sublist _).mem hx) hu
        · rw [List.takeWhile_append_of_pos (fun s hs => by simpa using hnd s (by simpa using hs))] at hx
          simp only [ne_eq, not_true_eq_false, decide_false, Bool.false_eq_true, not_false_eq_true, List.takeWhile_cons_of_neg,
            List.append_nil] at hx
          exact hno x (by simpa using hx) hu
    obtain ⟨l, hl⟩ := hclass
    obtain ⟨hw, hsh⟩ := classify_some hd argv l hl
    have hkind : ∀ q : Str × Cls, Agrees q.1 (says digit q.1) (some q.2) → says digit q.1 = .file → isArg q = true := by
      rintro ⟨s, c⟩ hag hq
      simp only at hag hq
      rw [hq] at hag
      rw [agrees_file hag]
      rfl
    have hkind' : ∀ q : Str × Cls, Agrees q.1 (says digit q.1) (some q.2) → (∃ f, says digit q.1 = .flag f) → isArg q = false := by
      rintro ⟨s, c⟩ hag ⟨f, hf⟩
      by_contra hn
      have := agrees_kind hag
      rw [arg_kind (by simpa using hn)] at this
      simp only at this hf
      rw [← this] at hf
      cases hf
    -- the result for a line of options, arguments and options
    have key : ∀ lb lr la : List (Str × Cls), l = lb ++ (lr ++ la) → lb.map (·.1) = before → la.map (·.1) = after →
        (∀ q ∈ lb ++ la, Agrees q.1 (says digit q.1) (some q.2)) → (∀ q ∈ lr, isArg q = true) →
        lr.dropWhile (fun p => p.2 = .dashes) ≠ [] → (lr.map (·.1)).erase str!"--" = srcs →
        parseArgs digit argv = .args (given fs) srcs := by
      rintro lb lr la hl' rfl rfl hag hlr hdr hers
      have hnarg : ∀ q ∈ lb ++ la, isArg q = false := fun q hq => hkind' q (hag q hq) (hflag q.1 (by
        rw [← List.map_append]; exact List.mem_map_of_mem hq))
      have hlr' : lr ≠ [] := by rintro rfl; exact hdr rfl
      obtain ⟨u1, u2, u3⟩ := split_unique (a := lb) (b := lr) (c := la) (fun q hq => hnarg q (by simp [hq])) hlr hlr'
        (fun q hq => hnarg q (by simp [hq]))
      have hk : (lb ++ la).map (kindOf digit) = fs.map .flag := by
        rw [← hba, ← List.map_append, List.map_map]
        exact List.map_congr_left fun q hq => agrees_kind (hag q hq)
      have hflags : flagsOf (l.map (kindOf digit)) = fs := by
        rw [hl', List.map_append, List.map_append, flagsOf_append, flagsOf_append, flagsOf_files (a := lr.map (kindOf digit)),
          List.nil_append, ← flagsOf_append, ← List.map_append, hk, flagsOf_flags]
        intro k hk
        obtain ⟨p, hp, rfl⟩ := List.mem_map.1 hk
        exact arg_kind (hlr p hp)
      have hkinds : ∀ q ∈ l, kindOf digit q = .file ∨ ∃ f, kindOf digit q = .flag f := by
        intro q hq
        rw [hl'] at hq
        have hmem : q ∈ lr ∨ q ∈ lb ++ la := by
          simp only [List.mem_append] at hq ⊢
          rcases hq with h | h | h
          · exact .inr (.inl h)
          · exact .inl h
          · exact .inr (.inr h)
        rcases hmem with h | h
        · exact .inl (arg_kind (hlr q h))
        · right
          have : kindOf digit q ∈ fs.map Says.flag := by rw [← hk]; exact List.mem_map_of_mem h
          obtain ⟨f, -, hf⟩ := List.mem_map.1 this
          exact ⟨f, hf.symm⟩
      have hscan : scan (given []) (l.map (kindOf digit)) = .ok (given fs) := by
        rw [scan_ok _ _ _ h0, List.nil_append, hflags]
        refine ⟨?_, hcl, rfl⟩
        intro k hk hst
        obtain ⟨q, hq, rfl⟩ := List.mem_map.1 hk
        rcases hkinds q hq with h | ⟨f, h⟩ <;> rw [h] at hst <;> simp [Stops] at hst
      rw [parseArgs_eq hl hsh, hscan]
      have hsrc : srcOf l = some srcs := by rw [srcOf, hl', u2, if_neg hdr, hers]
      have hleft : left digit (optsOf l ++ restOf l) = [] := by
        rw [hl', u1, u3, left, List.map_eq_nil_iff, List.filter_eq_nil_iff]
        intro q hq
        have : kindOf digit q ∈ fs.map Says.flag := by rw [← hk]; exact List.mem_map_of_mem hq
        obtain ⟨f, -, hf⟩ := List.mem_map.1 this
        rw [← hf]
        simp [isFlag]
      simp only [hsrc, hleft, if_true]
    rcases hcase with ⟨hargv, rfl⟩ | ⟨rfl, more, hargv, rfl⟩
    · rw [hargv, List.append_assoc] at hw
      obtain ⟨lb, lr', rfl, hlb, hlr'⟩ := List.map_eq_append_iff.1 hw
      obtain ⟨lr, la, rfl, hlr, hla⟩ := List.map_eq_append_iff.1 hlr'
      have hall : ∀ q ∈ lb ++ (lr ++ la), Agrees q.1 (says digit q.1) (some q.2) := by
        refine prefix_agrees _ [] (by rwa [List.append_nil]) fun q hq => hnd q.1 ?_
        rw [← hlb, ← hlr, ← hla]
        simp only [List.mem_append, List.mem_map] at hq ⊢
        rcases hq with h | h | h
        · exact .inl (.inl ⟨q, h, rfl⟩)
        · exact .inl (.inr ⟨q, h, rfl⟩)
        · exact .inr ⟨q, h, rfl⟩
      have hargs : ∀ q ∈ lr, isArg q = true := fun q hq =>
        hkind q (hall q (by simp [hq])) (hfiles q.1 (by rw [← hlr]; exact List.mem_map_of_mem hq))
      refine key lb lr la rfl hlb hla (fun q hq => hall q (by
        simp only [List.mem_append] at hq ⊢
        rcases hq with h | h
        · exact .inl h
        · exact .inr (.inr h))) hargs ?_ ?_
      · intro hnil
        rw [List.dropWhile_eq_nil_iff] at hnil
        cases lr with
        | nil => exact hne (by rw [← hlr]; rfl)
        | cons q lr =>
          have h1 := hnil q (by simp)
          have h2 := hall q (by simp)
          rw [show q.2 = .dashes by simpa using h1] at h2
          exact agrees_not_dashes h2
      · rw [hlr]
        exact List.erase_of_not_mem fun hm => hnd _ (by simp [hm]) rfl
    · rw [hargv, List.append_assoc] at hw
      obtain ⟨lb, lr', rfl, hlb, hlr'⟩ := List.map_eq_append_iff.1 hw
      obtain ⟨lf, ld, rfl, hlf, hld⟩ := List.map_eq_append_iff.1 hlr'
      obtain ⟨d, lm, rfl, hd1, hlm⟩ := List.map_eq_cons_iff.1 hld
      have hall : ∀ q ∈ lb ++ lf, Agrees q.1 (says digit q.1) (some q.2) := by
        refine prefix_agrees _ (d :: lm) (by rwa [List.append_assoc]) fun q hq => hnd q.1 ?_
        rw [← hlb, ← hlf]
        simp only [List.mem_append, List.mem_map] at hq ⊢
        rcases hq with h | h
        · exact .inl (.inl ⟨q, h, rfl⟩)
        · exact .inl (.inr ⟨q, h, rfl⟩)
      have hshd : ∀ la : List (Str × Cls), (∀ q ∈ la, q.1 ≠ str!"--") → Shaped digit (la ++ d :: lm) → Shaped digit (d :: lm) := by
        intro la
        induction la with
        | nil => intro _ h; exact h
        | cons q la ih =>
          intro hq h
          rcases shaped_cons h with ⟨-, h⟩ | ⟨h, -⟩
          · exact ih (fun q' h' => hq q' (by simp [h'])) h
          · exact absurd (by rw [h]) (hq q (by simp))
      have hdl : d = (str!"--", .dashes) ∧ ∃ m : List Str, lm = m.map fun t => (t, .arg) := by
        rcases shaped_cons (hshd (lb ++ lf) (fun q hq => hnd q.1 (by
          rw [← hlb, ← hlf]
          simp only [List.mem_append, List.mem_map] at hq ⊢
          rcases hq with h | h
          · exact .inl (.inl ⟨q, h, rfl⟩)
          · exact .inl (.inr ⟨q, h, rfl⟩))) (by rwa [List.append_assoc])) with ⟨⟨h, -⟩, -⟩ | h
        · exact absurd hd1 h
        · exact h
      obtain ⟨rfl, m, rfl⟩ := hdl
      have hm : m = more := by rw [← hlm, List.map_map]; simp [Function.comp_def]
      subst hm
      refine key lb (lf ++ (str!"--", .dashes) :: m.map fun t => (t, .arg)) [] (by simp) hlb rfl
        (fun q hq => hall q (by simp at hq; simp [hq])) ?_ ?_ ?_
      · intro q hq
        simp only [List.mem_append, List.mem_cons, List.mem_map] at hq
        rcases hq with h | rfl | ⟨t, -, rfl⟩
        · exact hkind q (hall q (by simp [h])) (hfiles q.1 (by rw [← hlf]; exact List.mem_map_of_mem h))
        · rfl
        · rfl
      · intro hnil
        rw [List.dropWhile_eq_nil_iff] at hnil
        have h1 : lf = [] := by
          cases lf with
          | nil => rfl
          | cons q lf =>
            have h1 := hnil q (by simp)
            have h2 := hall q (by simp)
            rw [show q.2 = .dashes by simpa using h1] at h2
            exact absurd h2 agrees_not_dashes
        have h2 : m = [] := by
          cases m with
          | nil => rfl
          | cons t m => have := hnil (t, .arg) (by simp); simp at this
        rw [← hlf, h1, h2] at hne
        exact hne rfl
      · have hnot : str!"--" ∉ lf.map (·.1) := by
          rw [hlf]
          exact fun hm => hnd _ (by simp [hm]) rfl
        rw [List.map_append, List.erase_append_right _ hnot, List.map_cons, List.erase_cons_head, hlf, List.map_map]
        simp [Function.comp_def]

/-- C82: exactly these command lines ask for the help, and exactly these for the version. -/
theorem C82_asks_iff (hd : Digits digit) (argv : List Str) :
    (parseArgs digit argv = .help ↔ Asks digit argv .help) ∧ (parseArgs digit argv = .version ↔ Asks digit argv .version) := by
  have h0 : ¬Clash [] := by simp [Clash]
  have key : ∀ (k₀ : Says) (o₀ : Outcome), ((k₀ = .help ∧ o₀ = .help) ∨ (k₀ = .version ∧ o₀ = .version)) →
      (parseArgs digit argv = o₀ ↔ Asks digit argv k₀) := by
    intro k₀ o₀ h₀
    have hk₀ : k₀ ≠ .file ∧ k₀ ≠ .unclear := by rcases h₀ with ⟨rfl, -⟩ | ⟨rfl, -⟩ <;> simp
    cases hc : classify digit argv with
    | none =>
      have : parseArgs digit argv = .error := by simp [parseArgs, hc]
      rw [this]
      obtain ⟨x, hx, hu⟩ := (classify_none hd argv).1 hc
      refine iff_of_false (by rcases h₀ with ⟨-, rfl⟩ | ⟨-, rfl⟩ <;> simp) ?_
      rintro ⟨before, w, rest, -, -, -, -, -, h⟩
      exact h x hx hu
    | some l =>
      obtain ⟨hw, hsh⟩ := classify_some hd argv l hc
      have hun : ∀ x ∈ argv.takeWhile (· ≠ str!"--"), says digit x ≠ .unclear := by
        intro x hx hu
        have := (classify_none hd argv).2 ⟨x, hx, hu⟩
        rw [hc] at this
        cases this
      have hres : parseArgs digit argv = o₀ ↔ scan (given []) (l.map (kindOf digit)) = .error o₀ := by
        rw [parseArgs_eq hc hsh]
        cases scan (given []) (l.map (kindOf digit)) with
        | error e => simp
        | ok fl =>
          simp only [reduceCtorEq, iff_false]
          split
          · rcases h₀ with ⟨-, rfl⟩ | ⟨-, rfl⟩ <;> simp
          · split <;> rcases h₀ with ⟨-, rfl⟩ | ⟨-, rfl⟩ <;> simp
      rw [hres, scan_asks k₀ o₀ h₀ _ _ h0]
      constructor
      · rintro ⟨a, b, he, ha, hcl⟩
        obtain ⟨la, lr, rfl, hla, hlr⟩ := List.map_eq_append_iff.1 he
        obtain ⟨p, lb, rfl, hp, -⟩ := List.map_eq_cons_iff.1 hlr
        have hparg : isArg p = false := by
          by_contra hn
          rw [arg_kind (by simpa using hn)] at hp
          exact hk₀.1 hp.symm
        have hnd := opt_prefix la p lb hparg hsh
        have hag := prefix_agrees la (p :: lb) hsh hnd
        have hmap : (la.map (·.1)).map (says digit) = a := by
          rw [← hla, List.map_map]
          exact List.map_congr_left fun q hq => (agrees_kind (hag q hq)).symm
        refine ⟨la.map (·.1), p.1, lb.map (·.1), by rw [← hw]; simp, ?_, ?_, ?_, ?_, hun⟩
        · intro hm
          obtain ⟨q, hq, he⟩ := List.mem_map.1 hm
          exact hnd q hq he
        · rw [← hp]; simp [kindOf, hparg]
        · intro x hx
          have := ha (says digit x) (by rw [← hmap]; exact List.mem_map_of_mem hx)
          simp only [Stops, not_or] at this
          exact this
        · rw [hmap]; simpa using hcl
      · rintro ⟨before, w, rest, rfl, hnd, hwk, hb, hcl, -⟩
        obtain ⟨la, lr, rfl, hla, hlr⟩ := List.map_eq_append_iff.1 hw
        obtain ⟨p, lb, rfl, hp, -⟩ := List.map_eq_cons_iff.1 hlr
        have hwd : w ≠ str!"--" := by rintro rfl; exact hk₀.2 hwk.symm
        have hag := prefix_agrees (la ++ [p]) lb (by simpa using hsh) (by
          intro q hq
          rcases List.mem_append.1 hq with hq | hq
          · intro he
            exact hnd (by rw [← hla, ← he]; exact List.mem_map_of_mem hq)
          · rw [List.mem_singleton] at hq
            rw [hq, hp]
            exact hwd)
        have hmap : la.map (kindOf digit) = before.map (says digit) := by
          rw [← hla, List.map_map]
          exact List.map_congr_left fun q hq => agrees_kind (hag q (by simp [hq]))
        refine ⟨la.map (kindOf digit), lb.map (kindOf digit), ?_, ?_, by rw [hmap]; simpa using hcl⟩
        · rw [List.map_append, List.map_cons, agrees_kind (hag p (by simp)), hp, hwk]
        · rw [hmap]
          intro k hk hst
          obtain ⟨x, hx, rfl⟩ := List.mem_map.1 hk
          obtain ⟨b1, b2, b3⟩ := hb x hx
          rcases hst with h | h | h
          · exact b1 h
          · exact b2 h
          · exact b3 h
  exact ⟨key .help .help (.inl ⟨rfl, rfl⟩), key .version .version (.inr ⟨rfl, rfl⟩)⟩

section

variable [E : PyEnv]

/-- C82: what a command line does.  If it asks for the help or the version the status is 0; if it gives inputs next to each other,
at least one flag, and no two flags that exclude each other, the inputs are handled; otherwise the status is 2.  Nothing is read
or written in the first and the last case. -/
theorem C82_main (hd : Digits digit) (env : FileEnv) (argv : List Str) (w : World) :
    ((Asks digit argv .help ∨ Asks digit argv .version) → mainArgs env digit argv w = (0, w)) ∧
    (∀ fl srcs, Accepts digit argv fl srcs → fl ≠ ⟨false, false, false, false⟩ →
      mainArgs env digit argv w = handleInputs env fl srcs w) ∧
    (¬Asks digit argv .help → ¬Asks digit argv .version → (∀ fl srcs, Accepts digit argv fl srcs → fl = ⟨false, false, false, false⟩) →
      mainArgs env digit argv w = (2, w)) := by
  obtain ⟨hh, hv⟩ := C82_asks_iff hd argv
  refine ⟨?_, ?_, ?_⟩
  · rintro (h | h)
    · rw [mainArgs, hh.2 h]
    · rw [mainArgs, hv.2 h]
  · intro fl srcs h hne
    rw [mainArgs, (C82_accepts_iff hd argv fl srcs).2 h]
    obtain ⟨before, files, after, fs, -, -, hcl, rfl, hs, -⟩ := h
    simp only [mainProg]
    rw [if_neg (by simpa using hs), if_neg, if_neg, if_neg]
    · intro h
      apply hne
      unfold given at h ⊢
      simpa [and_assoc] using h
    · intro h
      exact hcl (.inr (by simpa [given] using h))
    · intro h
      exact hcl (.inl (by simpa [given, and_comm] using h))
  · intro h1 h2 h3
    rw [mainArgs]
    cases hp : parseArgs digit argv with
    | help => exact absurd (hh.1 hp) h1
    | version => exact absurd (hv.1 hp) h2
    | error => rfl
    | args fl srcs =>
      have ha := (C82_accepts_iff hd argv fl srcs).1 hp
      have := h3 fl srcs ha
      subst this
      simp only [mainProg]
      split
      · rfl
      · simp

/-- C82, a consequence: inputs on both sides of a flag are refused. -/
theorem C82_split_inputs (hd : Digits digit) (env : FileEnv) (argv : List Str) (w : World) (f : Flag)
    (hn : str!"--" ∉ argv) (hs : [.file, .flag f, .file].Sublist (argv.map (says digit)))
    (h1 : ¬Asks digit argv .help) (h2 : ¬Asks digit argv .version) : mainArgs env digit argv w = (2, w) := by
  refine (C82_main hd env argv w).2.2 h1 h2 fun fl srcs h => ?_
  obtain ⟨before, files, after, fs, hfl, hfi, -, -, -, ⟨rfl, -⟩ | ⟨-, more, rfl, -⟩⟩ := h
  · exfalso
    have hmem : ∀ x ∈ before ++ after, says digit x ≠ .file := by
      intro x hx he
      have := List.mem_map_of_mem (f := says digit) hx
      rw [hfl, he] at this
      simp at this
    rw [List.map_append, List.map_append, List.append_assoc, List.sublist_append_iff] at hs
    obtain ⟨l1, l2, he, ha, hs⟩ := hs
    cases l1 with
    | cons k l1 =>
      injection he with he
      subst he
      obtain ⟨x, hx, hk⟩ := List.mem_map.1 (ha.subset List.mem_cons_self)
      exact hmem x (by simp [hx]) hk
    | nil =>
      rw [List.nil_append] at he
      subst he
      obtain ⟨l1, l2, he, ha, hs⟩ := List.sublist_append_iff.1 hs
      cases hl2 : l2.getLast? with
      | some k =>
        have hlast := congrArg List.getLast? he
        rw [List.getLast?_append, hl2] at hlast
        obtain ⟨x, hx, hk⟩ := List.mem_map.1 (hs.subset (List.mem_of_getLast? hl2))
        exact hmem x (by simp [hx]) (hk.trans (by simpa using hlast.symm))
      | none =>
        rw [List.getLast?_eq_none_iff] at hl2
        subst hl2
        rw [List.append_nil] at he
        subst he
        obtain ⟨x, hx, hk⟩ := List.mem_map.1 (ha.subset (List.mem_cons_of_mem _ List.mem_cons_self))
        rw [hfi x hx] at hk
        cases hk
  · simp at hn

end

/-! ## Examples -/

/-- The digits of ASCII meet what is asked of `\d`. -/
example : Digits Char.isDigit := ⟨by decide, by decide, by decide⟩

example : Accepts Char.isDigit [str!"--check-f", str!"a.py", str!"-1.5", str!"--va"] ⟨false, true, true, false⟩ [str!"a.py", str!"-1.5"] :=
  ⟨[str!"--check-f"], [str!"a.py", str!"-1.5"], [str!"--va"], [.check, .validate], by decide, by decide, by decide, by decide, by decide,
    .inl ⟨by decide, by decide⟩⟩

example : Accepts Char.isDigit [str!"--format", str!"a.py", str!"--", str!"--help"] ⟨true, false, false, false⟩ [str!"a.py", str!"--help"] :=
  ⟨[str!"--format"], [str!"a.py"], [], [.format], by decide, by decide, by decide, by decide, by decide,
    .inr ⟨rfl, [str!"--help"], by decide, by decide⟩⟩

/-- Help is asked for although a word before is not known and what comes after clashes. -/
example : Asks Char.isDigit [str!"--what", str!"--format", str!"-hz", str!"--check"] .help :=
  ⟨[str!"--what", str!"--format"], str!"-hz", [str!"--check"], by decide, by decide, by decide, by decide, by decide, by decide⟩

/-- A word that could mean two flags stops even the help. -/
example : parseArgs Char.isDigit [str!"--help", str!"--ver"] = .error := by decide

example : says Char.isDigit (str!"--format=1") = .wrong ∧ says Char.isDigit (str!"--vers") = .version ∧
    says Char.isDigit (str!"--my file") = .file ∧ says Char.isDigit (str!"-x") = .unknown ∧ says Char.isDigit (str!"-h=") = .wrong := by
  decide

/-- Files on both sides of a flag -/
example : [Says.file, .flag .format, .file].Sublist ([str!"a.py", str!"--format", str!"b.py"].map (says Char.isDigit)) ∧
    parseArgs Char.isDigit [str!"a.py", str!"--format", str!"b.py"] = .error ∧
    parseArgs Char.isDigit [str!"a.py", str!"b.py", str!"--format"] = .args ⟨true, false, false, false⟩ [str!"a.py", str!"b.py"] := by
  decide

end SqlV
