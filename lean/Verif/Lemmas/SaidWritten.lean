import Verif.Lemmas.SaidAll

/-!
# The words chosen by the writer are among the words that say a tree
-/

namespace SqlV.Said

set_option linter.unusedSectionVars false

variable [E : PyEnv] [L : LawfulPyEnv E]

/-- The words of the list are, in order, in every word list of the set. -/
def Has (a : Lang) (l : List Str) : Prop := ∀ ws, a ws → l.Sublist ws

namespace Has

variable {a b : Lang} {l m : List Str}

theorem cat (ha : Has a l) (hb : Has b m) : Has (a ⋆ b) (l ++ m) := by
  rintro _ ⟨x, y, hx, hy, rfl⟩
  exact (ha x hx).append (hb y hy)

theorem nil : Has a [] := fun _ _ => List.nil_sublist _

theorem right (hb : Has b m) : Has (a ⋆ b) m := cat nil hb

theorem left (ha : Has a m) : Has (a ⋆ b) m := by simpa using cat ha nil

theorem or (ha : Has a m) (hb : Has b m) : Has (either a b) m := by
  rintro ws (h | h)
  · exact ha ws h
  · exact hb ws h

theorem ite {c : Prop} [Decidable c] (ha : c → Has a m) (hb : ¬ c → Has b m) : Has (if c then a else b) m := by
  split
  · exact ha ‹_›
  · exact hb ‹_›

theorem one {p : Str → Prop} {t : Str} (h : ∀ w, p w → w = t) : Has (one p) [t] := by
  rintro _ ⟨w, hw, rfl⟩
  rw [h w hw]
  exact .refl _

theorem tok {t : Str} : Has (tok t) [t] := one fun _ h => h

theorem optional {o : Option Str} : Has (optional o) o.toList := by
  cases o with
  | none => exact nil
  | some x => exact tok

theorem headed {k : Str} {n : Node} (h : Has a m) (h0 : n = .none → m = []) : Has (headed k n a) m := by
  rintro ws (⟨h1, rfl⟩ | h1)
  · rw [h0 h1]
    exact .refl _
  · exact right h ws h1

end Has

mutual

theorem has_written : ∀ n : Node, Has (said n) (written n)
  | .none | .int _ | .float _ | .null | .bool _ => .nil
  | .frame u _ => by
    simp only [said, written]
    exact .left (.one fun w h => h.1)
  | .raw s => by
    simp only [said, written, plain, unquoted]
    split
    · exact .nil
    · exact .tok
  | .select es all d on f w g h o l off semi => by
    simp only [said, written, List.append_assoc]
    refine .right (.right (.right (.cat ?_ (.cat (has_writtenList es) (.cat ?_ (.cat (has_written w) (.cat (has_written g)
      (.cat (has_written h) (.cat (has_written o) (.cat (has_written l) (.left (has_written off)))))))))))) 
    · split
      · rename_i h0
        subst h0
        exact .nil
      · exact .right (has_writtenList on)
    · refine .headed (has_written f) ?_
      rintro rfl
      rfl
  | .where_ v | .having v | .offset v | .on v | .using_ v | .neg v => by
    simp only [said, written]
    exact .right (has_written v)
  | .table v sq => by
    simp only [said, written]
    exact .ite (fun _ => .right (.left (has_written v))) (fun _ => has_written v)
  | .groupBy args _ _ => by
    simp only [said, written]
    exact .right (.right (.right (.right (has_writtenList args))))
  | .orderBy args => by
    simp only [said, written]
    exact .right (.right (has_writtenList args))
  | .count args _ => by
    simp only [said, written]
    exact .right (.right (.right (has_writtenList args)))
  | .paren args => by
    simp only [said, written]
    exact .right (has_writtenList args)
  | .array args => by
    simp only [said, written]
    exact .right (.left (has_writtenList args))
  | .orderItem v _ _ => by
    simp only [said, written]
    exact .left (has_written v)
  | .limit _ v => by
    simp only [said, written]
    exact .right (.right (has_written v))
  | .withQuery name q => by
    simp only [said, written]
    exact .cat (l := [name]) .tok (.right (.right (has_written q)))
  | .withStmt qs s => by
    simp only [said, written]
    exact .right (.cat (has_writtenSeq qs) (has_written s))
  | .func name args => by
    simp only [said, written]
    refine .cat ?_ (.right (has_writtenList args))
    split
    · exact .nil
    · rename_i h0
      exact .one fun w h => h.resolve_right fun h => h0 h.1
  | .cast c t => by
    simp only [said, written]
    exact .right (.right (.cat (has_written c) (.right (has_written t))))
  | .arrayAgg c _ _ _ o _ => by
    simp only [said, written]
    exact .right (.right (.right (.cat (has_written c) (.right (.right (.left (has_written o)))))))
  | .filtered c w => by
    simp only [said, written]
    exact .cat (has_written c) (.right (.right (.right (has_written w))))
  | .analytics f part o frame => by
    simp only [said, written, List.append_assoc]
    refine .cat (has_written f) (.right (.right (.cat ?_ (.cat (has_written o) (has_written frame)))))
    split
    · rename_i h0
      subst h0
      exact .nil
    · exact .right (.right (has_writtenList part))
  | .column v => by simp only [said, written]; exact .tok
  | .chained l r => by
    simp only [said, written]
    exact .cat (has_written l) (.right (has_written r))
  | .type v => by simp only [said, written]; exact .tok
  | .datePart part e => by
    simp only [said, written]
    exact .cat (l := [part]) (.one fun w h => h.1) (.right (has_written e))
  | .string v q pre => by
    simp only [said, written, literal]
    refine .cat .optional (.left ?_)
    split
    · exact .nil
    · exact .tok
  | .alias e a _ => by
    simp only [said, written]
    exact .cat (has_written e) (.right (has_written a))
  | .index e is => by
    simp only [said, written]
    exact .cat (has_written e) (.right (has_writtenList is))
  | .arith _ l r => by
    simp only [said, written]
    exact .cat (has_written l) (.right (has_written r))
  | .bitwise l _ r => by
    simp only [said, written]
    exact .cat (has_written l) (.right (has_written r))
  | .unnest v _ _ a => by
    simp only [said, written]
    exact .cat (has_written v) (.right (.right .optional))
  | .join _ l r on using_ => by
    simp only [said, written, List.append_assoc]
    exact .cat (has_written l) (.right (.cat (has_written r) (.cat (has_written on) (has_written using_))))
  | .combined _ l r => by
    simp only [said, written]
    exact .cat (has_written l) (.right (has_written r))
  | .cond l _ r => by
    simp only [said, written]
    exact .cat (has_written l) (.right (has_written r))
  | .boolc _ l r => by
    simp only [said, written]
    exact .cat (has_written l) (.right (has_written r))
  | .except_ e args => by
    simp only [said, written]
    exact .cat (has_written e) (.right (.right (has_writtenList args)))
  | .replace e args => by
    simp only [said, written]
    exact .cat (has_written e) (.right (.right (has_writtenList args)))
  | .whenThen w t => by
    simp only [said, written]
    exact .right (.cat (has_written w) (.right (has_written t)))
  | .case operand whens els => by
    simp only [said, written, List.append_assoc]
    refine .right (.cat (has_written operand) (.cat (has_writtenSeq whens) (.headed (has_written els) ?_)))
    rintro rfl
    rfl

theorem has_writtenSeq : ∀ l : List Node, Has (saidSeq l) (writtenList l)
  | [] => .nil
  | n :: ns => by
    simp only [saidSeq, writtenList]
    exact .cat (has_written n) (has_writtenSeq ns)

theorem has_writtenMore : ∀ l : List Node, Has (saidMore l) (writtenList l)
  | [] => .nil
  | n :: ns => by
    simp only [saidMore, writtenList]
    exact .right (.cat (has_written n) (has_writtenMore ns))

theorem has_writtenList : ∀ l : List Node, Has (saidList l) (writtenList l)
  | [] => .nil
  | n :: ns => by
    simp only [saidList, writtenList]
    exact .cat (has_written n) (has_writtenMore ns)

end

end SqlV.Said
