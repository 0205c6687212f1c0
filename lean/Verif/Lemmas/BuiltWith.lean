import Verif.Lemmas.Built
import Verif.Spec.Printable
import Verif.Lemmas.SaidAll

/-!
# WITH inside of WITH
-/

namespace SqlV.Built

set_option linter.unusedSectionVars false

open SqlV.Said
open SqlV.Printable (straight straightList isStatement isOrder)
open SqlV.Shown (present)

variable [E : PyEnv] [L : LawfulPyEnv E]

/-- At least so many occurrences of WITH. -/
def Num (a : Lang) (k : Nat) : Prop := ∀ ws, a ws → k ≤ occurrences str!"with" ws

theorem occurrences_append (w : Str) (x y : List Str) : occurrences w (x ++ y) = occurrences w x + occurrences w y := by
  simp [occurrences]

theorem occurrences_sublist {w : Str} {x y : List Str} (h : x.Sublist y) : occurrences w x ≤ occurrences w y :=
  (h.filter _).length_le

namespace Num

variable {a b : Lang} {k m : Nat}

theorem zero : Num a 0 := fun _ _ => Nat.zero_le _

theorem cat (ha : Num a k) (hb : Num b m) : Num (a ⋆ b) (k + m) := by
  rintro _ ⟨x, y, hx, hy, rfl⟩
  rw [occurrences_append]
  exact Nat.add_le_add (ha x hx) (hb y hy)

theorem mono (ha : Num a k) (h : m ≤ k) : Num a m := fun ws hw => Nat.le_trans h (ha ws hw)

theorem word : Num (word str!"with") 1 := by
  rintro _ ⟨w, hw, rfl⟩
  simp [occurrences, hw]

theorem headed {w : Str} {n : Node} (h : Num a k) (h0 : n = .none → k = 0) : Num (headed w n a) k := by
  rintro ws (⟨h1, rfl⟩ | h1)
  · rw [h0 h1]
    exact Nat.zero_le _
  · have := cat zero h ws h1
    omega

end Num

mutual

theorem num_withs : ∀ n : Node, Num (said n) (withs n)
  | .none | .raw _ | .int _ | .float _ | .null | .bool _ | .string .. | .column _ | .type _ | .frame .. => Num.zero
  | .select es _ _ on f w g h o l off _ => by
    simp only [said, withs]
    refine (Num.cat .zero (Num.cat .zero (Num.cat .zero (Num.cat (k := withsList on) ?_ (Num.cat (num_list es) (Num.cat (k := withs f) ?_
      (Num.cat (num_withs w) (Num.cat (num_withs g) (Num.cat (num_withs h) (Num.cat (num_withs o) (Num.cat (num_withs l)
        (Num.cat (num_withs off) .zero)))))))))))).mono (by omega)
    · split
      · rename_i h0
        subst h0
        exact .zero
      · exact (Num.cat .zero (num_list on)).mono (by omega)
    · exact .headed (num_withs f) (by rintro rfl; rfl)
  | .where_ v | .having v | .on v | .using_ v | .neg v | .offset v => by
    simp only [said, withs]
    exact (Num.cat .zero (num_withs v)).mono (by omega)
  | .datePart _ v | .limit _ v => by
    simp only [said, withs]
    exact (Num.cat .zero (Num.cat .zero (num_withs v))).mono (by omega)
  | .table v sq => by
    simp only [said, withs]
    split
    · exact (Num.cat .zero (Num.cat (num_withs v) .zero)).mono (by omega)
    · exact num_withs v
  | .unnest v _ _ _ | .orderItem v _ _ => by
    simp only [said, withs]
    exact (Num.cat (num_withs v) .zero).mono (by omega)
  | .withQuery _ v => by
    simp only [said, withs]
    exact (Num.cat .zero (Num.cat .zero (Num.cat .zero (num_withs v)))).mono (by omega)
  | .groupBy args _ _ => by
    simp only [said, withs]
    exact (Num.cat .zero (Num.cat .zero (Num.cat .zero (Num.cat .zero (num_list args))))).mono (by omega)
  | .orderBy args | .func _ args => by
    simp only [said, withs]
    exact (Num.cat .zero (Num.cat .zero (num_list args))).mono (by omega)
  | .count args _ => by
    simp only [said, withs]
    exact (Num.cat .zero (Num.cat .zero (Num.cat .zero (num_list args)))).mono (by omega)
  | .array args => by
    simp only [said, withs]
    exact (Num.cat .zero (Num.cat (num_list args) .zero)).mono (by omega)
  | .paren args => by
    simp only [said, withs]
    exact (Num.cat .zero (num_list args)).mono (by omega)
  | .withStmt qs s => by
    simp only [said, withs]
    exact (Num.cat .word (Num.cat (num_seq qs) (num_withs s))).mono (by omega)
  | .cast a b => by
    simp only [said, withs]
    exact (Num.cat .zero (Num.cat .zero (Num.cat (num_withs a) (Num.cat .zero (num_withs b))))).mono (by omega)
  | .filtered a b => by
    simp only [said, withs]
    exact (Num.cat (num_withs a) (Num.cat .zero (Num.cat .zero (Num.cat .zero (num_withs b))))).mono (by omega)
  | .chained a b | .bitwise a _ b | .combined _ a b | .cond a _ b | .alias a b _ | .arith _ a b | .boolc _ a b => by
    simp only [said, withs]
    exact (Num.cat (num_withs a) (Num.cat .zero (num_withs b))).mono (by omega)
  | .whenThen a b => by
    simp only [said, withs]
    exact (Num.cat .zero (Num.cat (num_withs a) (Num.cat .zero (num_withs b)))).mono (by omega)
  | .arrayAgg c _ _ _ o _ => by
    simp only [said, withs]
    exact (Num.cat .zero (Num.cat .zero (Num.cat .zero (Num.cat (num_withs c) (Num.cat .zero (Num.cat .zero (Num.cat (num_withs o)
      .zero))))))).mono (by omega)
  | .analytics f part o frame => by
    simp only [said, withs]
    refine (Num.cat (num_withs f) (Num.cat .zero (Num.cat .zero (Num.cat (k := withsList part) ?_ (Num.cat (num_withs o)
      (num_withs frame)))))).mono (by omega)
    split
    · rename_i h0
      subst h0
      exact .zero
    · exact (Num.cat .zero (Num.cat .zero (num_list part))).mono (by omega)
  | .index e args => by
    simp only [said, withs]
    exact (Num.cat (num_withs e) (Num.cat .zero (num_list args))).mono (by omega)
  | .except_ e args | .replace e args => by
    simp only [said, withs]
    exact (Num.cat (num_withs e) (Num.cat .zero (Num.cat .zero (num_list args)))).mono (by omega)
  | .join _ l r on us => by
    simp only [said, withs]
    exact (Num.cat (num_withs l) (Num.cat .zero (Num.cat (num_withs r) (Num.cat (num_withs on) (num_withs us))))).mono (by omega)
  | .case operand whens els => by
    simp only [said, withs]
    exact (Num.cat .zero (Num.cat (num_withs operand) (Num.cat (num_seq whens) (.headed (num_withs els) (by rintro rfl; rfl))))).mono
      (by omega)

theorem num_seq : ∀ l : List Node, Num (saidSeq l) (withsList l)
  | [] => Num.zero
  | n :: ns => by
    simp only [saidSeq, withsList]
    exact Num.cat (num_withs n) (num_seq ns)

theorem num_more : ∀ l : List Node, Num (saidMore l) (withsList l)
  | [] => Num.zero
  | n :: ns => by
    simp only [saidMore, withsList]
    exact (Num.cat .zero (Num.cat (num_withs n) (num_more ns))).mono (by omega)

theorem num_list : ∀ l : List Node, Num (saidList l) (withsList l)
  | [] => Num.zero
  | n :: ns => by
    simp only [saidList, withsList]
    exact Num.cat (num_withs n) (num_more ns)

end

/-- Straight, or with at least so many statements that begin with WITH. -/
def Ok (k : Nat) (n : Node) : Prop := straight n = true ∨ k ≤ withs n

/-- The same for a list. -/
def OkList (k : Nat) (l : List Node) : Prop := straightList l = true ∨ k ≤ withsList l

theorem ok_absent {k : Nat} {s : Slot} {n : Node} (h : (absent n || built s n) = true) (hn : built s n = true → Ok k n) : Ok k n := by
  cases n with
  | none => exact .inl rfl
  | _ => exact hn (by simpa [absent] using h)

theorem Ok.and2 {k : Nat} {a b : Node} (ha : Ok k a) (hb : Ok k b) : (straight a && straight b) = true ∨ k ≤ withs a + withs b := by
  rcases ha with ha | ha <;> rcases hb with hb | hb
  · exact .inl (by rw [ha, hb]; rfl)
  all_goals exact .inr (by omega)

theorem Ok.andList {k : Nat} {a : Node} {b : List Node} (ha : Ok k a) (hb : OkList k b) :
    (straight a && straightList b) = true ∨ k ≤ withs a + withsList b := by
  rcases ha with ha | ha <;> rcases hb with hb | hb
  · exact .inl (by rw [ha, hb]; rfl)
  all_goals exact .inr (by omega)

/-- The least number of such statements in a crooked tree at this place. -/
def least (s : Slot) : Nat := if s = .query then 1 else 2

theorem Ok.up {s : Slot} {n : Node} (h : Ok 2 n) : Ok (least s) n := by
  refine h.imp id fun h => ?_
  unfold least
  split <;> omega

theorem order_kind {o : Node} (h : (absent o || built .order o) = true) : (!present o || isOrder o) = true := by
  cases o
  case string v q pre => cases pre <;> simp [absent, built, Slot.takes] at h
  all_goals first
    | rfl
    | simp [absent, built, Slot.takes, Slot.source] at h

theorem stmt_kind {q : Node} (h : built .stmt q = true) : isStatement q = true ∨ 1 ≤ withs q := by
  cases q <;> simp only [built, Slot.takes, Slot.source, Bool.false_eq_true, Bool.and_eq_true, false_and, Bool.or_eq_true, or_false,
    decide_eq_true_eq, reduceCtorEq, decide_false, Bool.or_self, false_or] at h
  case string v q pre => cases pre <;> simp_all
  case select => exact .inl rfl
  case withStmt => right; simp only [withs]; omega

mutual

theorem ok : ∀ (n : Node) (s : Slot), built s n = true → Ok (least s) n
  | .none, _, _ | .raw _, _, _ | .int _, _, _ | .float _, _, _ | .null, _, _ | .bool _, _, _ | .string .., _, _ | .column _, _, _
  | .type _, _, _ | .frame .., _, _ => .inl rfl
  | .select es _ _ on f w g h o l off _, s, hb => by
    simp only [built, Bool.and_eq_true] at hb
    obtain ⟨⟨⟨⟨⟨⟨⟨⟨⟨hs, h1⟩, h2⟩, h3⟩, h4⟩, h5⟩, h6⟩, h7⟩, h8⟩, h9⟩ := hb
    have hl : least s = 2 := by unfold least; split; (subst s; simp [Slot.takes] at hs); rfl
    rw [hl]
    have k1 := okList es _ h1
    have k2 := okList on _ h2
    have k3 := ok_absent h3 (ok f _)
    have k4 := ok_absent h4 (ok w _)
    have k5 := ok_absent h5 (ok g _)
    have k6 := ok_absent h6 (ok h _)
    have k7 := ok_absent h7 (ok o _)
    have k8 := ok_absent h8 (ok l _)
    have k9 := ok_absent h9 (ok off _)
    simp only [Ok, OkList, least, straight, withs, reduceCtorEq, if_false, Bool.and_eq_true] at *
    grind
  | .withQuery _ q, s, hb => by
    simp only [built, Bool.and_eq_true, decide_eq_true_eq] at hb
    obtain ⟨rfl, h1⟩ := hb
    have k1 := ok q _ h1
    have k2 := stmt_kind h1
    simp only [Ok, least, straight, withs, if_true, reduceCtorEq, if_false, Bool.and_eq_true] at *
    grind
  | .withStmt qs q, s, hb => by
    simp only [built, Bool.and_eq_true] at hb
    obtain ⟨⟨⟨⟨hs, _⟩, h1⟩, _⟩, h2⟩ := hb
    have k1 := okList qs _ h1
    have k2 := ok q _ h2
    have hl : least s ≤ 2 := by unfold least; split <;> omega
    simp only [Ok, OkList, straight, withs, Bool.and_eq_true, least, reduceCtorEq, if_true, if_false] at *
    grind
  | .where_ v, _, hb => .up (by
    simp only [built, Bool.and_eq_true] at hb
    have k1 : Ok 2 v := ok v _ hb.2
    exact k1)
  | .having v, _, hb => .up (by
    simp only [built, Bool.and_eq_true] at hb
    have k1 : Ok 2 v := ok v _ hb.2
    exact k1)
  | .on v, _, hb => .up (by
    simp only [built, Bool.and_eq_true] at hb
    have k1 : Ok 2 v := ok v _ hb.2
    exact k1)
  | .using_ v, _, hb => .up (by
    simp only [built, Bool.and_eq_true] at hb
    have k1 : Ok 2 v := ok v _ hb.2
    exact k1)
  | .neg v, _, hb => .up (by
    simp only [built, Bool.and_eq_true] at hb
    have k1 : Ok 2 v := ok v _ hb.2
    exact k1)
  | .offset v, _, hb => .up (by
    simp only [built, Bool.and_eq_true] at hb
    have k1 : Ok 2 v := ok v _ hb.2
    exact k1)
  | .table v _, _, hb => .up (by
    simp only [built, Bool.and_eq_true] at hb
    have k1 : Ok 2 v := ok v _ hb.2
    exact k1)
  | .datePart _ v, _, hb => .up (by
    simp only [built, Bool.and_eq_true] at hb
    have k1 : Ok 2 v := ok v _ hb.2
    exact k1)
  | .orderItem v _ _, _, hb => .up (by
    simp only [built, Bool.and_eq_true] at hb
    have k1 : Ok 2 v := ok v _ hb.2
    exact k1)
  | .unnest v _ _ _, _, hb => .up (by
    simp only [built, Bool.and_eq_true] at hb
    have k1 : Ok 2 v := ok v _ hb.1.1.2
    exact k1)
  | .limit all v, _, hb => .up (by
    simp only [built, Bool.and_eq_true] at hb
    have k1 : Ok 2 v := by
      cases all
      · exact ok v _ hb.2
      · exact ok_absent (s := .stmt) (by rw [Bool.or_eq_true]; exact .inl hb.2) (ok v _)
    exact k1)
  | .groupBy args _ _, _, hb => .up (by
    simp only [built, Bool.and_eq_true] at hb
    have k1 : OkList 2 args := okList args _ hb.2
    exact k1)
  | .orderBy args, _, hb => .up (by
    simp only [built, Bool.and_eq_true] at hb
    have k1 : OkList 2 args := okList args _ hb.2
    exact k1)
  | .array args, _, hb => .up (by
    simp only [built, Bool.and_eq_true] at hb
    have k1 : OkList 2 args := okList args _ hb.2
    exact k1)
  | .count args _, _, hb => .up (by
    simp only [built, Bool.and_eq_true] at hb
    have k1 : OkList 2 args := okList args _ hb.2
    exact k1)
  | .func _ args, _, hb => .up (by
    simp only [built, Bool.and_eq_true] at hb
    have k1 : OkList 2 args := okList args _ hb.2
    exact k1)
  | .paren args, _, hb => .up (by
    simp only [built, Bool.and_eq_true, Bool.or_eq_true] at hb
    have k1 : OkList 2 args := hb.elim (fun h => okList args _ h.2) (fun h => okList args _ h.2)
    exact k1)
  | .cast a b, _, hb => .up (by
    simp only [built, Bool.and_eq_true] at hb
    have k1 : Ok 2 a := ok a _ hb.1.2
    have k2 : Ok 2 b := ok b _ hb.2
    exact k1.and2 k2)
  | .filtered a b, _, hb => .up (by
    simp only [built, Bool.and_eq_true] at hb
    have k1 : Ok 2 a := ok a _ hb.1.2
    have k2 : Ok 2 b := ok b _ hb.2
    exact k1.and2 k2)
  | .chained a b, _, hb => .up (by
    simp only [built, Bool.and_eq_true] at hb
    have k1 : Ok 2 a := ok a _ hb.1.2
    have k2 : Ok 2 b := ok b _ hb.2
    exact k1.and2 k2)
  | .bitwise a _ b, _, hb => .up (by
    simp only [built, Bool.and_eq_true] at hb
    have k1 : Ok 2 a := ok a _ hb.1.2
    have k2 : Ok 2 b := ok b _ hb.2
    exact k1.and2 k2)
  | .combined _ a b, _, hb => .up (by
    simp only [built, Bool.and_eq_true] at hb
    have k1 : Ok 2 a := ok a _ hb.1.2
    have k2 : Ok 2 b := ok b _ hb.2
    exact k1.and2 k2)
  | .arith _ a b, _, hb => .up (by
    simp only [built, Bool.and_eq_true] at hb
    have k1 : Ok 2 a := ok a _ hb.1.2
    have k2 : Ok 2 b := ok b _ hb.2
    exact k1.and2 k2)
  | .whenThen a b, _, hb => .up (by
    simp only [built, Bool.and_eq_true] at hb
    have k1 : Ok 2 a := ok a _ hb.1.2
    have k2 : Ok 2 b := ok b _ hb.2
    exact k1.and2 k2)
  | .cond a _ b, _, hb => .up (by
    simp only [built, Bool.and_eq_true, Bool.or_eq_true] at hb
    have k1 : Ok 2 a := ok a _ hb.1.2
    have k2 : Ok 2 b := hb.2.elim (fun h => ok b _ h.2) (fun h => ok b _ h.2)
    exact k1.and2 k2)
  | .boolc _ a b, _, hb => .up (by
    simp only [built, Bool.and_eq_true, Bool.or_eq_true] at hb
    have k1 : Ok 2 a := hb.elim (fun h => ok a _ h.1.2) (fun h => ok a _ h.1.2)
    have k2 : Ok 2 b := hb.elim (fun h => ok b _ h.2) (fun h => ok b _ h.2)
    exact k1.and2 k2)
  | .alias a b w, _, hb => .up (by
    simp only [built, Bool.and_eq_true, Bool.or_eq_true] at hb
    have k1 : Ok 2 a := hb.elim (fun h => h.elim (fun h => ok a _ h.1.2) (fun h => ok a _ h.1.2)) (fun h => ok a _ h.1.2)
    have k2 : Ok 2 b := by
      rcases hb with (h | h) | h
      · cases w
        · exact ok b _ h.2
        · exact ok b _ h.2
      · exact ok b _ h.2
      · exact ok b _ h.2
    exact k1.and2 k2)
  | .index e args, s, hb => by
    simp only [built, Bool.and_eq_true, Bool.or_eq_true] at hb
    obtain ⟨⟨h0, h1⟩, h2⟩ := hb
    have hl : least s = 2 := by unfold least; split; (subst s; simp [Slot.takes] at h0); rfl
    rw [hl]
    have k1 : Ok 2 e := by
      rcases h1 with h1 | h1
      · cases e
        case column => exact .inl rfl
        all_goals cases h1
      · exact hl ▸ ok e s h1.2
    have k2 : OkList 2 args := okList args _ h2
    exact k1.andList k2
  | .except_ e args, _, hb => .up (by
    simp only [built, Bool.and_eq_true] at hb
    have k1 : Ok 2 e := ok e _ hb.1.2
    have k2 : OkList 2 args := okList args _ hb.2
    exact k1.andList k2)
  | .replace e args, _, hb => .up (by
    simp only [built, Bool.and_eq_true] at hb
    have k1 : Ok 2 e := ok e _ hb.1.1.2
    have k2 : OkList 2 args := okList args _ hb.2
    exact k1.andList k2)
  | .arrayAgg c _ _ _ o _, _, hb => .up (by
    simp only [built, Bool.and_eq_true] at hb
    have k1 : Ok 2 c := ok c _ hb.1.1.2
    have k2 : Ok 2 o := ok_absent hb.2 (ok o _)
    have k3 : (!present o || isOrder o) = true := order_kind hb.2
    unfold Ok
    simp only [straight, withs]
    rw [k3, Bool.and_true]
    exact k1.and2 k2)
  | .analytics f part o frame, _, hb => .up (by
    simp only [built, Bool.and_eq_true] at hb
    have k1 : Ok 2 f := ok f _ hb.1.1.1.2
    have k2 : OkList 2 part := okList part _ hb.1.1.2
    have k3 : Ok 2 o := ok_absent hb.1.2 (ok o _)
    have k4 : Ok 2 frame := ok_absent hb.2 (ok frame _)
    simp only [Ok, OkList, straight, withs, Bool.and_eq_true] at *
    grind)
  | .join _ l r on us, _, hb => .up (by
    simp only [built, Bool.and_eq_true] at hb
    obtain ⟨⟨⟨⟨⟨_, h1⟩, h2⟩, h3⟩, h4⟩, _⟩ := hb
    have k1 : Ok 2 l := ok l _ h1
    have k2 : Ok 2 r := ok r _ h2
    have k3 : Ok 2 on := ok_absent h3 (ok on _)
    have k4 : Ok 2 us := ok_absent h4 (ok us _)
    simp only [Ok, straight, withs, Bool.and_eq_true] at *
    grind)
  | .case operand whens els, _, hb => .up (by
    simp only [built, Bool.and_eq_true] at hb
    have k1 : Ok 2 operand := ok_absent hb.1.1.2 (ok operand _)
    have k2 : OkList 2 whens := okList whens _ hb.1.2
    have k3 : Ok 2 els := ok_absent hb.2 (ok els _)
    simp only [Ok, OkList, straight, withs, Bool.and_eq_true] at *
    grind)

theorem okList : ∀ (l : List Node) (s : Slot), builtList s l = true → OkList (least s) l
  | [], _, _ => .inl rfl
  | n :: ns, s, h => by
    simp only [builtList, Bool.and_eq_true] at h
    have k1 := ok n s h.1
    have k2 := okList ns s h.2
    simp only [Ok, OkList, straightList, withsList, Bool.and_eq_true] at *
    grind

end

/-- Where the printer meets a statement WITH that is named in a statement WITH, the word was there twice. -/
theorem straight_of_few {s : Stream} {n : Node} (h : parse s = .ok n) (hw : occurrences str!"with" s.toks < 2) :
    straight n = true := by
  obtain ⟨ws, h1, h2⟩ := Said.parse_said h
  refine (ok n .stmt (parse_built h)).resolve_right ?_
  have := num_withs n ws h1
  have := occurrences_sublist (w := str!"with") h2
  simp only [least, reduceCtorEq, if_false]
  omega

end SqlV.Built
