import Verif.Lemmas.Shown
import Verif.Spec.Said

/-!
# The words chosen by the writer are among those printed
-/

namespace SqlV.Shown

set_option linter.unusedSectionVars false

open Said (written writtenList unquoted)

variable [E : PyEnv] [L : LawfulPyEnv E]

namespace Kept

theorem pre {ws l : List Str} (m : List Str) (h : Kept ws l) : Kept ws (m ++ l) := by
  induction m with
  | nil => exact h
  | cons x m ih => exact .skip _ _ _ ih

theorem append {a b c d : List Str} (h1 : Kept a c) (h2 : Kept b d) : Kept (a ++ b) (c ++ d) := by
  induction h1 with
  | nil l => exact pre l h2
  | skip ws x l _ ih => exact .skip _ _ _ ih
  | same w ws l _ ih => exact .same _ _ _ ih
  | capital w ws l _ ih => exact .capital _ _ _ ih

theorem post {ws l : List Str} (m : List Str) (h : Kept ws l) : Kept ws (l ++ m) := by
  simpa using append h (.nil m)

theorem one (w : Str) : Kept [w] [w] := .same _ _ _ (.nil _)

theorem up (w : Str) : Kept [w] [E.upper w] := .capital _ _ _ (.nil _)

theorem refl (l : List Str) : Kept l l := by
  induction l with
  | nil => exact .nil _
  | cons w l ih => exact .same _ _ _ ih

theorem opt {n : Node} {ws : List Str} (ks : List Str) (h : present n = true → Kept (written n) ws) :
    Kept (written n) (Shown.opt n (ks ++ ws)) := by
  unfold Shown.opt
  cases hp : present n with
  | true => exact pre ks (h hp)
  | false =>
    obtain rfl : n = .none := by
      cases n with
      | none => rfl
      | _ => cases hp
    simp only [written]
    exact .nil _

end Kept

theorem kept_absent {n : Node} (hp : present n = false) (l : List Str) : Kept (written n) l := by
  obtain rfl : n = .none := by
    cases n with
    | none => rfl
    | _ => cases hp
  simp only [written]
  exact .nil _

mutual

theorem kept : ∀ n : Node, whole n = true → Kept (written n) (shown n)
  | .none, h => by simp [whole] at h
  | .raw s, _ => by
    simp only [written, unquoted, shown]
    split
    · exact .nil _
    · exact .one s
  | .select es all distinct on f w g h o l off semi, hw => by
    simp only [whole, Bool.and_eq_true] at hw
    obtain ⟨⟨⟨⟨⟨⟨⟨⟨⟨⟨h1, h0⟩, h2⟩, h3⟩, h4⟩, h5⟩, h6⟩, h7⟩, h8⟩, h9⟩, h10⟩ := hw
    have hon := keptList on h3
    simp only [written, shown, List.append_assoc]
    refine .pre _ (.append ?_ (.append (keptList es h1) (.append (.opt _ fun hp => kept f ((Bool.and_eq_true _ _).mp (or_imp h4 hp)).2)
      (.append (.opt _ fun hp => kept w (or_imp h5 hp)) (.append ?_ (.append (.opt _ fun hp => kept h (or_imp h7 hp))
      (.append (.opt _ fun hp => kept o (or_imp h8 hp)) (.append (.opt _ fun hp => kept l (or_imp h9 hp))
      (.post _ (.opt _ fun hp => kept off (or_imp h10 hp)))))))))))
    · cases on with
      | nil => simpa only [writtenList] using Kept.nil _
      | cons a on =>
        simp only [List.isEmpty_cons, Bool.false_or, Bool.and_eq_true, Bool.not_eq_true'] at h0
        rw [h0.1, h0.2]
        simp only [Bool.false_eq_true, if_false, if_true, List.isEmpty_cons]
        exact .pre _ (.pre _ (.post _ hon))
    · have := Kept.opt (n := g) (ws := shown g) ([str!"GROUP"] ++ (if isEach g then [str!"EACH"] else []) ++ [str!"BY"])
        fun hp => kept g (or_imp h6 hp)
      simpa only [List.append_assoc] using this
  | .where_ v, h | .having v, h | .on v, h | .using_ v, h => by
    simp only [whole, Bool.and_eq_true] at h
    simp only [written, shown]
    exact kept v h.2
  | .offset v, h => by
    simp only [whole, Bool.and_eq_true] at h
    simp only [written, shown]
    exact kept v h.2
  | .groupBy args _ _, h => by
    simp only [whole, Bool.and_eq_true] at h
    simp only [written, shown]
    exact .pre _ (keptList args h.2)
  | .orderBy args, h => by
    simp only [whole, Bool.and_eq_true] at h
    simp only [written, shown]
    exact keptList args h.2
  | .orderItem v _ _, h => by
    simp only [whole, Bool.and_eq_true] at h
    simp only [written, shown]
    exact .post _ (kept v h.2)
  | .limit all v, h => by
    simp only [written, shown]
    cases all with
    | true => exact kept_absent (by simpa [whole] using h) _
    | false =>
      simp only [whole, Bool.false_eq_true, if_false, Bool.and_eq_true] at h
      exact kept v h.2
  | .withQuery name q, h => by
    simp only [whole, Bool.and_eq_true] at h
    simp only [written, shown, List.append_assoc]
    exact .append (a := [name]) (.one name) (.pre _ (.post _ (kept q h.2)))
  | .withStmt qs s, h => by
    simp only [whole, Bool.and_eq_true] at h
    simp only [written, shown, List.append_assoc]
    exact .pre _ (.append (keptList qs h.1) (kept s h.2))
  | .func name args, h => by
    simp only [whole] at h
    have ha := keptList args h
    simp only [written, shown, List.append_assoc]
    refine .append ?_ (.pre _ (.post _ ha))
    split
    · exact .nil _
    · exact .up name
  | .cast c t, h => by
    simp only [whole, Bool.and_eq_true] at h
    simp only [written, shown, List.append_assoc]
    exact .pre _ (.append (kept c h.1) (.pre _ (.post _ (kept t h.2))))
  | .count args _, h => by
    simp only [whole] at h
    simp only [written, shown, List.append_assoc]
    exact .pre _ (.pre _ (.post _ (keptList args h)))
  | .arrayAgg c _ _ _ o _, h => by
    simp only [whole, Bool.and_eq_true] at h
    simp only [written, shown, List.append_assoc]
    exact .pre _ (.pre _ (.append (kept c h.1.1) (.pre _ (.post _ (.opt _ fun hp => kept o (or_imp h.1.2 hp))))))
  | .filtered c w, h => by
    simp only [whole, Bool.and_eq_true] at h
    simp only [written, shown, List.append_assoc]
    exact .append (kept c h.1) (.pre _ (.post _ (kept w h.2)))
  | .analytics f part o fr, h => by
    simp only [whole, Bool.and_eq_true] at h
    have hpart := keptList part h.1.1.2
    simp only [written, shown, List.append_assoc]
    refine .append (kept f h.1.1.1) (.pre _ (.append ?_ (.append (.opt _ fun hp => kept o (or_imp h.1.2 hp)) (.post _ ?_))))
    · cases part with
      | nil => simpa only [writtenList] using Kept.nil _
      | cons a part => exact .pre _ hpart
    · exact .opt [] fun hp => kept fr (or_imp h.2 hp)
  | .frame u b, _ => by
    simp only [written, shown]
    exact .post _ (.up u)
  | .column v, _ => by
    simp only [written, shown, printedName]
    split
    · exact .up v
    · exact .one v
  | .chained l r, h => by
    simp only [whole, Bool.and_eq_true] at h
    simp only [written, shown, List.append_assoc]
    exact .append (kept l h.1) (.pre _ (kept r h.2))
  | .type v, _ => by
    simp only [written, shown]
    exact .up v
  | .datePart part e, h => by
    simp only [whole] at h
    simp only [written, shown, List.append_assoc]
    exact .append (a := [part]) (.up part) (.pre _ (kept e h))
  | .string v q pre, _ => by
    simp only [written, shown, List.append_assoc]
    refine .append (.refl _) (.pre _ (.post _ ?_))
    split
    · exact .nil _
    · exact .one v
  | .int _, _ | .float _, _ | .null, _ | .bool _, _ => by
    simpa only [written] using Kept.nil _
  | .paren args, h => by
    simp only [whole, Bool.and_eq_true] at h
    simp only [written, shown, List.append_assoc]
    exact .pre _ (.post _ (keptList args h.2))
  | .array args, h => by
    simp only [whole] at h
    simp only [written, shown, List.append_assoc]
    exact .pre _ (.post _ (keptList args h))
  | .alias e a _, h => by
    simp only [whole, Bool.and_eq_true] at h
    simp only [written, shown, List.append_assoc]
    exact .append (kept e h.1) (.pre _ (kept a h.2))
  | .index e is, h => by
    simp only [whole, Bool.and_eq_true] at h
    simp only [written, shown, List.append_assoc]
    exact .append (kept e h.1) (.pre _ (.post _ (keptList is h.2)))
  | .arith _ l r, h => by
    simp only [whole, Bool.and_eq_true] at h
    simp only [written, shown, List.append_assoc]
    exact .append (kept l h.1.1.2) (.pre _ (kept r h.2))
  | .bitwise l _ r, h => by
    simp only [whole, Bool.and_eq_true] at h
    simp only [written, shown, List.append_assoc]
    exact .append (kept l h.1) (.pre _ (kept r h.2))
  | .table v sq, h => by
    simp only [whole] at h
    simp only [written, shown, List.append_assoc]
    cases sq with
    | true => exact .pre _ (.post _ (kept v h))
    | false => exact kept v h
  | .unnest v offset _ a, h => by
    simp only [whole, Bool.and_eq_true] at h
    have h2 := h.1.2
    simp only [written, shown]
    refine .append (kept v h.1.1) ?_
    cases offset with
    | true => exact .pre _ (.refl _)
    | false =>
      cases a with
      | none => exact .nil _
      | some a => cases h2
  | .join _ l r on using_, h => by
    simp only [whole, Bool.and_eq_true] at h
    have h2 := h.2
    simp only [written, shown, List.append_assoc]
    refine .append (kept l h.1.1.1.1.1.2) (.pre _ (.append (kept r h.1.1.1.2) ?_))
    cases hp : present on with
    | true =>
      rw [hp] at h2
      rw [if_pos rfl]
      have := Kept.append (Kept.pre [str!"ON"] (kept on (or_imp h.1.1.2 hp))) (kept_absent (n := using_) (by simpa using h2) [])
      simpa using this
    | false =>
      simp only [Bool.false_eq_true, if_false]
      exact .append (c := []) (kept_absent hp _) (.opt _ fun hq => kept using_ (or_imp h.1.2 hq))
  | .combined _ l r, h => by
    simp only [whole, Bool.and_eq_true] at h
    simp only [written, shown, List.append_assoc]
    exact .append (kept l h.1) (.pre _ (kept r h.2))
  | .cond l _ r, h => by
    simp only [whole, Bool.and_eq_true] at h
    simp only [written, shown, List.append_assoc]
    exact .append (kept l h.1) (.pre _ (kept r h.2))
  | .boolc _ l r, h => by
    simp only [whole, Bool.and_eq_true] at h
    simp only [written, shown, List.append_assoc]
    exact .append (kept l h.1.1.2) (.pre _ (kept r h.2))
  | .neg e, h => by
    simp only [whole] at h
    simp only [written, shown]
    exact .pre _ (kept e h)
  | .except_ e args, h | .replace e args, h => by
    simp only [whole, Bool.and_eq_true] at h
    simp only [written, shown, List.append_assoc]
    exact .append (kept e h.1) (.pre _ (.post _ (keptList args h.2)))
  | .whenThen w t, h => by
    simp only [whole, Bool.and_eq_true] at h
    simp only [written, shown, List.append_assoc]
    exact .pre _ (.append (kept w h.1.1.2) (.pre _ (kept t h.2)))
  | .case operand whens els, h => by
    simp only [whole, Bool.and_eq_true] at h
    have hw := keptSeq whens h.1.2
    simp only [written, shown, List.append_assoc]
    exact .pre _ (.append (.opt [] fun hp => kept operand (or_imp h.1.1 hp)) (.append hw
      (.post _ (.opt _ fun hp => kept els (or_imp h.2 hp)))))

theorem keptSeq : ∀ l : List Node, wholeList l = true → Kept (writtenList l) (shownSeq l)
  | [], _ => by simpa only [writtenList] using Kept.nil _
  | n :: l, h => by
    simp only [wholeList, Bool.and_eq_true] at h
    simp only [writtenList, shownSeq]
    exact .append (kept n h.1) (keptSeq l h.2)

theorem keptMore : ∀ l : List Node, wholeList l = true → Kept (writtenList l) (shownMore l)
  | [], _ => by simpa only [writtenList] using Kept.nil _
  | n :: l, h => by
    simp only [wholeList, Bool.and_eq_true] at h
    simp only [writtenList, shownMore, List.append_assoc]
    exact .pre _ (.append (kept n h.1) (keptMore l h.2))

theorem keptList : ∀ l : List Node, wholeList l = true → Kept (writtenList l) (shownList l)
  | [], _ => by simpa only [writtenList] using Kept.nil _
  | n :: l, h => by
    simp only [wholeList, Bool.and_eq_true] at h
    simp only [writtenList, shownList]
    exact .append (kept n h.1) (keptMore l h.2)

end

end SqlV.Shown
