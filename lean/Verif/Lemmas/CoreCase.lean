import Verif.Lemmas.CoreCompound

/-! Parsing CASE expressions of the core grammar. -/

set_option linter.unusedSectionVars false

namespace SqlV.Core

open Scan

variable [E : PyEnv] [L : LawfulPyEnv E]

/-- Both parts of WHEN … THEN …. -/
def WhenOk : Node → Prop
  | .whenThen w t => ItemOk w ∧ ItemOk t
  | _ => True

theorem wf_truthy {n : Node} : n.truthy = false ↔ n = .none := by
  cases n <;> simp [Node.truthy]

theorem noKeep_nil (last : Option Str) (w : Str) : NoKeep [] last w := fun _ _ => by simp

/-- What follows THEN … begins with WHEN or ELSE. -/
theorem case_rest {ws : List Node} {e : Node} (hws : ∀ n ∈ ws, isWhen n = true) {ts : List Str}
    (hr : Reads (toksSeq ws ++ opt e.truthy (.kw str!"else" :: toks e)) ts) :
    ts = [] ∨ ∃ t ts', ts = t :: ts' ∧ t ≠ [] ∧ lower t ∈ [str!"when", str!"else"] := by
  have hne : ∀ {t w : Str}, lower t = w → w ≠ [] → t ≠ [] := by
    rintro t w h hw rfl
    exact hw (by rw [← h]; simp [lower])
  cases ws with
  | nil =>
    simp only [toksSeq, List.nil_append] at hr
    rcases reads_opt hr with ⟨-, hr⟩ | ⟨-, rfl⟩
    · replace hr := reads_cons.1 hr
      obtain ⟨t, ts', rfl, ht, -⟩ := hr
      have := lower_kw ht (by decide)
      exact .inr ⟨t, ts', rfl, hne this (by decide), by rw [this]; decide⟩
    · exact .inl rfl
  | cons n ws =>
    have hn := hws n (by simp)
    cases n with
    | whenThen w t =>
      simp only [toksSeq, toks, List.cons_append] at hr
      replace hr := reads_cons.1 hr
      obtain ⟨t, ts', rfl, ht, -⟩ := hr
      have := lower_kw ht (by decide)
      exact .inr ⟨t, ts', rfl, hne this (by decide), by rw [this]; decide⟩
    | _ => simp [isWhen] at hn

theorem caseLoop_end (acc : List Node) (e : Node) (s : Stream) :
    Ev fun r => r.caseLoop none acc e s = .ok ((acc, e), s) :=
  Ev.next0 fun r => by
    show caseLoopF r none acc e s = _
    unfold caseLoopF
    rfl

theorem caseLoop_ok {ws : List Node} {e : Node} (hws : ∀ n ∈ ws, isWhen n = true) (hw : ∀ n ∈ ws, wf n = true)
    (hok : ∀ n ∈ ws, WhenOk n) (he : e.truthy = true → level e ≤ 3) (hwe : wf e = true)
    (heok : e.truthy = true → ItemOk e)
    {ts : List Str} (hr : Reads (toksSeq ws ++ opt e.truthy (.kw str!"else" :: toks e)) ts) :
    ∃ ws' e', foldList ws' = ws ∧ fold e' = e ∧ ∀ acc,
      Ev fun r => r.caseLoop ts.head? acc .none ⟨ts.tail, none⟩ = .ok ((acc ++ ws', e'), ⟨[], none⟩) := by
  induction ws generalizing ts with
  | nil =>
    simp only [toksSeq, List.nil_append] at hr
    rcases reads_opt hr with ⟨ht, hr⟩ | ⟨ht, rfl⟩
    · replace hr := reads_cons.1 hr
      obtain ⟨t, ts, rfl, hk, hr⟩ := hr
      have hkl := lower_kw hk (by decide)
      obtain ⟨e', _, he', ee⟩ := heok ht ts hr
      refine ⟨[], e', rfl, he', fun acc => ?_⟩
      refine (ee.and (caseLoop_end acc e' ⟨[], none⟩)).next ?_
      rintro r ⟨g1, g2⟩
      show caseLoopF r (some t) acc .none ⟨ts, none⟩ = _
      unfold caseLoopF
      have h1 : truthy? (some t) = true := by
        have : t ≠ [] := by rintro rfl; exact absurd hkl (by simp [lower])
        simpa [truthy?] using this
      have h2 : isWord (some t) str!"when" = false := by
        simp [isWord, lower?, hkl]
      rw [if_pos h1, h2, isWord_lower.2 hkl, if_neg (by simp), if_pos rfl, bind_ok (untilOneOf_all none ts)]
      dsimp only [Option.toList, List.nil_append]
      rw [bind_ok (sub_ok g1)]
      rw [List.append_nil]
      exact g2
    · rw [wf_truthy] at ht
      subst ht
      refine ⟨[], .none, rfl, rfl, fun acc => ?_⟩
      rw [List.append_nil]
      exact caseLoop_end acc .none ⟨[], none⟩
  | cons n ws ih =>
    have hn := hws n (by simp)
    cases n with
    | whenThen w t =>
      have hwn := hw _ (List.mem_cons_self)
      simp only [wf, Bool.and_eq_true, decide_eq_true_eq] at hwn
      obtain ⟨⟨⟨l1, l2⟩, w1⟩, w2⟩ := hwn
      obtain ⟨ow, ot⟩ := hok _ (List.mem_cons_self)
      simp only [toksSeq, toks, List.cons_append, List.append_assoc] at hr
      replace hr := reads_cons.1 hr
      obtain ⟨k1, ts, rfl, hk1, hr⟩ := hr
      replace hr := reads_append.1 hr
      obtain ⟨x, y, rfl, hx, hr⟩ := hr
      replace hr := reads_cons.1 hr
      obtain ⟨k2, y, rfl, hk2, hr⟩ := hr
      replace hr := reads_append.1 hr
      obtain ⟨y, z, rfl, hy, hr⟩ := hr
      have hl1 := lower_kw hk1 (by decide)
      have hl2 := lower_kw hk2 (by decide)
      obtain ⟨w', _, hw', ew⟩ := ow x hx
      obtain ⟨t', _, ht', et⟩ := ot y hy
      obtain ⟨ws', e', hws', he', el⟩ := ih (fun n h => hws n (by simp [h])) (fun n h => hw n (by simp [h]))
        (fun n h => hok n (by simp [h])) hr
      refine ⟨.whenThen w' t' :: ws', e', by simp [foldList, fold, hw', ht', hws'], he', fun acc => ?_⟩
      have tx := tame_expr l1 w1 hx
      have ty := tame_expr (by omega) w2 hy
      have e1 : untilOneOf [str!"then"] none [] ⟨x ++ k2 :: (y ++ z), none⟩ =
          .ok ((x, some k2), ⟨y ++ z, none⟩) :=
        untilOneOf_stop tx (by decide) (by decide) [] (by rw [hl2]; decide) (noKeep_nil _ _) _ _
      have e2 : untilOneOf [str!"when", str!"else"] none [] ⟨y ++ z, none⟩ =
          .ok ((y, z.head?), ⟨z.tail, none⟩) := by
        rcases case_rest (fun n h => hws n (by simp [h])) hr with rfl | ⟨k3, z, rfl, -, hk3⟩
        · rw [List.append_nil]
          exact untilOneOf_end ty (by decide) (by decide) []
        · exact untilOneOf_stop ty (by decide) (by decide) [] hk3 (noKeep_nil _ _) _ _
      refine ((ew.and et).and (el (acc ++ [.whenThen w' t']))).next ?_
      rintro r ⟨⟨g1, g2⟩, g3⟩
      show caseLoopF r (some k1) acc .none ⟨x ++ k2 :: (y ++ z), none⟩ = _
      unfold caseLoopF
      have h1 : truthy? (some k1) = true := by
        have : k1 ≠ [] := by rintro rfl; exact absurd hl1 (by simp [lower])
        simpa [truthy?] using this
      rw [if_pos h1, isWord_lower.2 hl1, if_pos rfl, bind_ok e1]
      dsimp only
      rw [bind_ok (sub_ok g1)]
      dsimp only
      rw [bind_ok e2]
      dsimp only
      rw [bind_ok (sub_ok g2)]
      dsimp only
      rw [g3, List.append_assoc]
      rfl
    | _ => simp [isWhen] at hn

theorem tame_seq_whens {ws : List Node} (hw : ∀ n ∈ ws, wf n = true) {ts : List Str} (hr : Reads (toksSeq ws) ts) :
    Tame [] [] ts :=
  tame_seq (fun n hn _ hr => (tame (hw n hn) hr).none) ts hr

theorem case_ok {o e : Node} {ws : List Node} (hw : wf (.case o ws e) = true) (ho : level o ≤ 3 → ItemOk o)
    (hok : ∀ n ∈ ws, WhenOk n) (heok : level e ≤ 3 → ItemOk e) : AtomOk (.case o ws e) := by
  intro main ts hr
  simp only [wf, Bool.and_eq_true, decide_eq_true_eq, Bool.or_eq_true, Bool.not_eq_true'] at hw
  obtain ⟨⟨⟨⟨⟨⟨⟨h1, h2⟩, h3⟩, h4⟩, h5⟩, h6⟩, h7⟩, h8⟩ := hw
  rw [List.all_eq_true] at h4
  have hwl := wfList_iff.1 h7
  simp only [toks] at hr
  replace hr := reads_cons.1 hr
  obtain ⟨c, ts', h', hc, hr⟩ := hr
  obtain ⟨rfl, rfl⟩ := List.cons.inj h'
  replace hr := reads_append.1 hr
  obtain ⟨b, en, rfl, hb, hen⟩ := hr
  replace hen := reads_cons.1 hen
  obtain ⟨en, y, rfl, hen, hy⟩ := hen
  rw [reads_nil] at hy
  subst hy
  rw [List.append_assoc] at hb
  replace hb := reads_append.1 hb
  obtain ⟨x, y, rfl, hx, hy⟩ := hb
  have hcl := lower_kw hc (by decide)
  have henl := lower_kw hen (by decide)
  have hel : e.truthy = true → level e ≤ 3 := fun h => h5.resolve_left (by simp [h])
  obtain ⟨ws', e', hws', he', el⟩ := caseLoop_ok h4 hwl hok hel h8 (fun h => heok (hel h)) hy
  -- the operand
  have hop : ∃ o', fold o' = o ∧ Ev fun r => caseF r ⟨x ++ y, none⟩ = .ok (.case o' ws' e', ⟨[], none⟩) := by
    have hne : ws ≠ [] := by rintro rfl; simp at h3
    have hy0 : ∃ t y', y = t :: y' ∧ t ≠ [] ∧ lower t = str!"when" := by
      cases ws with
      | nil => exact absurd rfl hne
      | cons n ws =>
        have hn := h4 n (by simp)
        cases n with
        | whenThen w t =>
          simp only [toksSeq, toks, List.cons_append] at hy
          replace hy := reads_cons.1 hy
          obtain ⟨t, y', rfl, ht, -⟩ := hy
          have := lower_kw ht (by decide)
          exact ⟨t, y', rfl, by rintro rfl; exact absurd this (by simp [lower]), this⟩
        | _ => simp [isWhen] at hn
    obtain ⟨k, y', rfl, hk0, hkl⟩ := hy0
    rcases h1 with h1 | h1
    · rw [wf_truthy] at h1
      subst h1
      simp only [toks] at hx
      rw [reads_nil] at hx
      subst hx
      refine ⟨.none, rfl, (el []).mono fun r g => ?_⟩
      unfold caseF
      rw [List.nil_append, bind_ok (next!_cons _ _ _), if_pos hkl]
      rw [bind_ok (pure_run _ _)]
      dsimp only [List.head?_cons, List.tail_cons] at g ⊢
      rw [bind_ok g]
      rfl
    · obtain ⟨o', _, ho', eo⟩ := ho h1 x hx
      obtain ⟨t, x, rfl, ht0, htb⟩ := first_token h6 (by omega) hx
      refine ⟨o', ho', (eo.and (el [])).mono ?_⟩
      rintro r ⟨g1, g2⟩
      have tx := tame_expr h1 h6 hx
      have htc : lower t ≠ str!"case" := by
        intro hc
        obtain ⟨k, ks, hk⟩ : ∃ k ks, toks o = k :: ks := by
          cases hto : toks o with
          | nil => rw [hto] at hx; exact absurd hx (by simp [Reads])
          | cons k ks => exact ⟨k, ks, rfl⟩
        rw [hk] at hx h2
        have hok := oks o h6 k (by rw [hk]; simp)
        exact h2 (by rw [List.head?_cons, okTok_case hok hx.1 hc])
      have e1 : untilOneOf [str!"when"] (some t) [] ⟨x ++ k :: y', none⟩ = .ok ((t :: x, some k), ⟨y', none⟩) :=
        untilOneOf_first_stop' tx htc (by decide) (by decide) [] (by rw [hkl]; simp) (noKeep_nil _ _) _ _
      unfold caseF
      rw [List.cons_append, bind_ok (next!_cons _ _ _), if_neg]
      · rw [bind_ok e1]
        dsimp only
        rw [bind_ok (sub_ok g1)]
        dsimp only [List.head?_cons, List.tail_cons] at g2 ⊢
        rw [bind_ok (pure_run _ _)]
        dsimp only
        rw [bind_ok g2]
        rfl
      · intro hw
        exact htb (by rw [hw]; decide)
  obtain ⟨o', ho', ec⟩ := hop
  refine ⟨.case o' ws' e', by simp [fold, ho', hws', he'], fun a rest f ha hf he => ec.mono fun r g => ?_⟩
  have tb : Tame [] [] (x ++ y) := by
    refine .append ?_ ?_
    · exact (tame h6 hx).none
    · replace hy := reads_append.1 hy
      obtain ⟨y1, y2, rfl, hy1, hy2⟩ := hy
      refine .append (tame_seq_whens hwl hy1) ?_
      rcases reads_opt hy2 with ⟨-, hy2⟩ | ⟨-, rfl⟩
      · replace hy2 := reads_cons.1 hy2
        obtain ⟨k, y2, rfl, hk, hy2⟩ := hy2
        exact .cons (quiet_kw hk (by decide) (by decide) (by simp) (by simp)) (tame h8 hy2).none
      · exact .nil _ _
  obtain ⟨n1, n2⟩ := kw_notNumber hc (by decide) (by decide)
  have hq : main ∉ quotes := fun hm => by
    rw [lower_quote hm] at hcl; subst hcl; exact absurd hm (by decide)
  have hp1 : main ≠ str!"(" := by
    rintro rfl; rw [lower_self (by decide) (by decide)] at hcl; exact absurd hcl (by decide)
  have hp2 : main ≠ str!"[" := by
    rintro rfl; rw [lower_self (by decide) (by decide)] at hcl; exact absurd hcl (by decide)
  have e1 : untilOneOf [str!"end"] none [] ⟨x ++ y ++ [en] ++ rest, f⟩ = .ok ((x ++ y, some en), ⟨rest, f⟩) := by
    rw [show x ++ y ++ [en] ++ rest = (x ++ y) ++ en :: rest by simp]
    exact untilOneOf_stop tb.withEnd (by simp) (by decide) [] (by rw [henl]; simp) (noKeep_nil _ _) _ _
  refine atom_of_primary' ?_ hf
  unfold primaryF
  rw [if_neg hq, n1, n2, hcl, if_neg (by simp), if_neg (by simp),
    if_neg (show ¬ str!"case" ∈ trueValues ++ falseValues by decide),
    if_neg (show ¬ str!"case" ∈ nullValues by decide), if_neg (by decide), if_neg hp1, if_neg hp2, if_pos rfl,
    bind_ok e1]
  dsimp only
  rw [bind_ok (assert_true (isWord_lower.2 henl)), bind_ok (next?_run hf), bind_ok (sub_ok g)]
  rfl

end SqlV.Core
