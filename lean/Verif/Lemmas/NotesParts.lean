import Verif.Lemmas.Notes
import Verif.Lemmas.SaidWritten

/-! There is at most one list of messages, and each message is about something in the tree. -/

set_option linter.unusedSectionVars false
set_option linter.unusedSimpArgs false
set_option linter.unusedTactic false

namespace SqlV.Notes

open SqlV.Core (has found candidate kind first firstOf conditioned untyped agree called columnNotes groupNotes countNotes positionNotes keyNotes)
open SqlV.Shown (present)
open SqlV.Verdict (text typable inside)
open SqlV.Printable (isStatement)

section

variable [E : PyEnv] {k : List Field}

/-! ### At most one list -/

/-- At most one list. -/
def Sole (a : Notes) : Prop := ∀ x y, a x → a y → x = y

theorem Sole.never : Sole never := fun _ _ h => h.elim

theorem Sole.silent : Sole silent := fun _ _ h h' => h.trans h'.symm

theorem Sole.note {m : Str} : Sole (note m) := fun _ _ h h' => h.trans h'.symm

theorem Sole.given {r : Core.Notes} : Sole (given r) := fun x y h h' => by
  have : (Except.ok x : Core.Notes) = .ok y := h.symm.trans h'
  cases this
  rfl

theorem Sole.both {a b : Notes} (ha : Sole a) (hb : Sole b) : Sole (a ⨾ b) := by
  rintro _ _ ⟨x, y, h1, h2, rfl⟩ ⟨z, w, h3, h4, rfl⟩
  rw [ha x z h1 h3, hb y w h2 h4]

theorem Sole.clause {c : Node} {a : Notes} (ha : Sole a) : Sole (clause c a) := by
  unfold Notes.clause
  split
  · exact ha
  · exact Sole.silent

theorem sole_typed (ha : agree k = true) (n : Node) (t u : PType) (ht : typed k n t) (hu : typed k n u) : t = u := by
  unfold typed at ht hu
  split at ht
  · rename_i hk
    rw [if_pos hk] at hu
    exact Option.some.inj (ht.symm.trans hu)
  · rename_i hk
    rw [if_neg hk] at hu
    cases hx : text n with
    | none => rw [hx] at ht; exact ht.elim
    | some x =>
      rw [hx] at ht hu
      simp only at ht hu
      split at ht
      · rename_i hh
        rw [if_pos hh] at hu
        obtain ⟨f, hf, hfx, hft⟩ := ht
        obtain ⟨g, hg, hgx, hgt⟩ := hu
        simp only [agree, List.all_eq_true, Bool.or_eq_true, decide_eq_true_eq] at ha
        have := (ha f hf g hg).resolve_left (fun h => h (hfx.trans hgx.symm))
        exact Option.some.inj (hft.symm.trans (this.trans hgt))
      · rename_i hh
        rw [if_neg hh] at hu
        exact Option.some.inj (ht.symm.trans hu)

theorem Sole.truth (ha : agree k = true) (word : Str) (n : Node) : Sole (truth k word n) := by
  rintro _ _ ⟨_, t, h1, rfl⟩ ⟨_, u, h2, rfl⟩
  rw [sole_typed ha n t u h1 h2]

theorem Sole.path (l r : Node) : Sole (path k l r) := by
  unfold Notes.path
  cases text (.chained l r) with
  | none => exact Sole.never
  | some x =>
    cases text l with
    | none => exact Sole.never
    | some y =>
      simp only
      split
      · exact Sole.silent
      · cases strText r with
        | none => exact Sole.never
        | some z => exact Sole.note

theorem Sole.keys (es args : List Node) : Sole (keys k es args) := by
  induction args with
  | nil => exact Sole.silent
  | cons a as ih => exact Sole.given.both ih

theorem Sole.group (es : List Node) (g : Node) : Sole (group k es g) := by
  cases g <;> first | exact Sole.never | exact Sole.keys es _

theorem Sole.place (w : Option Nat) (i : Int) : Sole (place w i) := by
  unfold Notes.place
  cases w with
  | some m => exact Sole.given
  | none =>
    simp only
    split
    · exact Sole.never
    · exact Sole.given

/-- At most one list for a tree. -/
structure Sure (n : Node) : Prop where
  v : ∀ k, agree k = true → settled k n = true → Sole (tells k n)
  between : ∀ k, agree k = true → settled k n = true → Sole (tellsBounds k n)
  order : ∀ k w, agree k = true → settled k n = true → Sole (tellsOrder k w n)

theorem settledList_iff {l : List Node} : settledList k l = true ↔ ∀ n ∈ l, settled k n = true := by
  induction l with
  | nil => simp [settledList]
  | cons n ns ih => simp [settledList, ih]

theorem sure_list (ha : agree k = true) {l : List Node} (hs : settledList k l = true) (h : ∀ n ∈ l, Sure n) : Sole (tellsList k l) := by
  rw [settledList_iff] at hs
  induction l with
  | nil => rw [tellsList]; exact Sole.silent
  | cons n ns ih =>
    rw [tellsList]
    exact ((h n (by simp)).v k ha (hs n (by simp))).both (ih (fun m hm => hs m (by simp [hm])) fun m hm => h m (by simp [hm]))

theorem sure_orders (ha : agree k = true) (w : Option Nat) {l : List Node} (hs : settledList k l = true) (h : ∀ n ∈ l, Sure n) :
    Sole (tellsOrders k w l) := by
  rw [settledList_iff] at hs
  induction l with
  | nil => rw [tellsOrders]; exact Sole.silent
  | cons n ns ih =>
    rw [tellsOrders]
    exact ((h n (by simp)).order k w ha (hs n (by simp))).both (ih (fun m hm => hs m (by simp [hm])) fun m hm => h m (by simp [hm]))

theorem sure_aliases (ha : agree k = true) {l : List Node} (hs : settledNames k l = true) (h : ∀ m, sizeOf m < sizeOf l → Sure m) :
    Sole (tellsAliases k l) := by
  induction l with
  | nil => rw [tellsAliases]; exact Sole.silent
  | cons n ns ih =>
    have ih := fun hs => ih hs fun m hm' => h m (by simp only [List.cons.sizeOf_spec]; omega)
    cases n with
    | «alias» e a w =>
      rw [tellsAliases]
      rw [settledNames, Bool.and_eq_true] at hs
      exact ((h a (by simp only [List.cons.sizeOf_spec, Node.alias.sizeOf_spec]; omega)).v k ha hs.1).both (ih hs.2)
    | _ =>
      rw [tellsAliases]
      · exact Sole.never
      · exact fun _ _ _ h => by cases h

theorem sure_of {n : Node} (hb : ∀ k, tellsBounds k n = never) (ho : ∀ k w, tellsOrder k w n = never)
    (h : ∀ k, agree k = true → settled k n = true → Sole (tells k n)) : Sure n where
  v := h
  between := fun k _ _ => by rw [hb]; exact Sole.never
  order := fun k w _ _ => by rw [ho]; exact Sole.never

theorem sure_step (n : Node) (ih : ∀ m, sizeOf m < sizeOf n → Sure m) : Sure n := by
  have list : ∀ ns : List Node, sizeOf ns < sizeOf n → ∀ a ∈ ns, Sure a := fun ns hn a hx =>
    ih a (by have := List.sizeOf_lt_of_mem hx; omega)
  cases n with
  | orderBy args =>
    refine ⟨fun k _ _ => by simp only [tells]; exact Sole.never, fun k _ _ => by simp only [tellsBounds]; exact Sole.never, fun k w ha hs => ?_⟩
    rw [settled] at hs
    rw [tellsOrder]
    exact sure_orders ha w hs (list args (by simp <;> omega))
  | orderItem v x d =>
    refine ⟨fun k _ _ => by simp only [tells]; exact Sole.never, fun k _ _ => by simp only [tellsBounds]; exact Sole.never, fun k w ha hs => ?_⟩
    rw [settled] at hs
    have hv := (ih v (by simp <;> omega)).v k ha hs
    simp only [tellsOrder]
    cases first v with
    | none => exact Sole.never
    | some m =>
      cases m with
      | int i => exact Sole.place w i
      | _ => exact hv
  | boolc t l r =>
    refine ⟨fun k ha hs => ?_, fun k ha hs => ?_, fun k w _ _ => by simp only [tellsOrder]; exact Sole.never⟩
    · rw [settled, Bool.and_eq_true] at hs
      rw [tells]
      exact ((ih l (by simp <;> omega)).v k ha hs.1).both ((Sole.truth ha _ _).both (((ih r (by simp <;> omega)).v k ha hs.2).both (Sole.truth ha _ _)))
    · rw [settled, Bool.and_eq_true] at hs
      rw [tellsBounds]
      exact ((ih l (by simp <;> omega)).v k ha hs.1).both ((ih r (by simp <;> omega)).v k ha hs.2)
  | select es all d on f w g h o l off semi =>
    refine sure_of (fun _ => by simp only [tellsBounds]) (fun _ _ => by simp only [tellsOrder]) fun k ha hs => ?_
    simp only [settled, Bool.and_eq_true] at hs
    obtain ⟨⟨⟨⟨⟨⟨⟨h1, h2⟩, h3⟩, h4⟩, h5⟩, h6⟩, h7⟩, h8⟩ := hs
    rw [tells]
    refine (sure_list h1 h2 (list es (by simp <;> omega))).both ?_
    refine (Sole.clause ((ih f (by simp <;> omega)).v [] rfl h3)).both ?_
    refine (Sole.clause ((ih w (by simp <;> omega)).v _ h1 h4)).both ?_
    refine (Sole.clause (Sole.group es g)).both ?_
    refine (Sole.clause ((ih h (by simp <;> omega)).v _ h1 h5)).both ?_
    refine (Sole.clause ((ih o (by simp <;> omega)).order _ _ h1 h6)).both ?_
    exact (Sole.clause ((ih l (by simp <;> omega)).v _ h1 h7)).both (Sole.clause ((ih off (by simp <;> omega)).v _ h1 h8))
  | cond l p r =>
    refine sure_of (fun _ => by simp only [tellsBounds]) (fun _ _ => by simp only [tellsOrder]) fun k ha hs => ?_
    rw [settled, Bool.and_eq_true] at hs
    rw [tells]
    refine ((ih l (by simp <;> omega)).v k ha hs.1).both ?_
    split
    · exact (ih r (by simp <;> omega)).between k ha hs.2
    · exact (ih r (by simp <;> omega)).v k ha hs.2
  | where_ v =>
    refine sure_of (fun _ => by simp only [tellsBounds]) (fun _ _ => by simp only [tellsOrder]) fun k ha hs => ?_
    rw [settled] at hs
    rw [tells]
    exact ((ih v (by simp <;> omega)).v k ha hs).both (Sole.truth ha _ _)
  | having v =>
    refine sure_of (fun _ => by simp only [tellsBounds]) (fun _ _ => by simp only [tellsOrder]) fun k ha hs => ?_
    rw [settled] at hs
    rw [tells]
    exact ((ih v (by simp <;> omega)).v k ha hs).both (Sole.truth ha _ _)
  | filtered a b =>
    refine sure_of (fun _ => by simp only [tellsBounds]) (fun _ _ => by simp only [tellsOrder]) fun k ha hs => ?_
    rw [settled, Bool.and_eq_true] at hs
    rw [tells]
    exact ((ih a (by simp <;> omega)).v k ha hs.1).both ((ih b (by simp <;> omega)).v k ha hs.2)
  | analytics f part o fr =>
    refine sure_of (fun _ => by simp only [tellsBounds]) (fun _ _ => by simp only [tellsOrder]) fun k ha hs => ?_
    simp only [settled, Bool.and_eq_true] at hs
    rw [tells]
    exact ((ih f (by simp <;> omega)).v k ha hs.1.1).both ((sure_list ha hs.1.2 (list part (by simp <;> omega))).both
      (Sole.clause ((ih o (by simp <;> omega)).order k none ha hs.2)))
  | paren args =>
    refine sure_of (fun _ => by simp only [tellsBounds]) (fun _ _ => by simp only [tellsOrder]) fun k ha hs => ?_
    rw [settled] at hs
    rw [tells]
    exact sure_list ha hs (list args (by simp <;> omega))
  | func name args =>
    refine sure_of (fun _ => by simp only [tellsBounds]) (fun _ _ => by simp only [tellsOrder]) fun k ha hs => ?_
    rw [settled] at hs
    rw [tells]
    exact sure_list ha hs (list args (by simp <;> omega))
  | count args d =>
    refine sure_of (fun _ => by simp only [tellsBounds]) (fun _ _ => by simp only [tellsOrder]) fun k ha hs => ?_
    rw [settled] at hs
    rw [tells]
    exact sure_list ha hs (list args (by simp <;> omega))
  | arrayAgg c d i r o l =>
    refine sure_of (fun _ => by simp only [tellsBounds]) (fun _ _ => by simp only [tellsOrder]) fun k ha hs => ?_
    rw [settled] at hs
    rw [tells]
    exact (ih c (by simp <;> omega)).v k ha hs
  | «alias» e a w =>
    refine sure_of (fun _ => by simp only [tellsBounds]) (fun _ _ => by simp only [tellsOrder]) fun k ha hs => ?_
    rw [settled] at hs
    rw [tells]
    exact (ih e (by simp <;> omega)).v k ha hs
  | chained l r =>
    refine sure_of (fun _ => by simp only [tellsBounds]) (fun _ _ => by simp only [tellsOrder]) fun k ha hs => ?_
    rw [tells]
    exact Sole.path l r
  | join type l r on us =>
    refine sure_of (fun _ => by simp only [tellsBounds]) (fun _ _ => by simp only [tellsOrder]) fun k ha hs => ?_
    rw [tells]
    split
    · exact Sole.silent
    · exact Sole.note
  | replace e args =>
    refine sure_of (fun _ => by simp only [tellsBounds]) (fun _ _ => by simp only [tellsOrder]) fun k ha hs => ?_
    rw [settled] at hs
    rw [tells]
    exact sure_aliases ha hs fun m hm => ih m (by simp <;> omega)
  | column v =>
    refine sure_of (fun _ => by simp only [tellsBounds]) (fun _ _ => by simp only [tellsOrder]) fun k ha hs => ?_
    rw [tells]
    exact Sole.given
  | limit all v =>
    refine sure_of (fun _ => by simp only [tellsBounds]) (fun _ _ => by simp only [tellsOrder]) fun k ha hs => ?_
    rw [tells]
    exact Sole.given
  | offset v =>
    refine sure_of (fun _ => by simp only [tellsBounds]) (fun _ _ => by simp only [tellsOrder]) fun k ha hs => ?_
    rw [tells]
    exact Sole.given
  | _ =>
    refine sure_of (fun _ => by simp only [tellsBounds]) (fun _ _ => by simp only [tellsOrder]) fun k ha hs => ?_
    first
    | (simp only [tells]; exact Sole.never)
    | (simp only [tells]; exact Sole.silent)

theorem sure (n : Node) : Sure n := by
  induction h : sizeOf n using Nat.strongRecOn generalizing n with
  | _ k ih => exact sure_step n fun m hm => ih _ (h ▸ hm) m rfl

/-! ### Messages are about the tree -/

/-- All messages of all lists. -/
def All (a : Notes) (P : Str → Prop) : Prop := ∀ ms, a ms → ∀ m ∈ ms, P m

variable {P Q : Str → Prop}

theorem All.never : All never P := fun _ h => h.elim

theorem All.silent : All silent P := fun _ h m hm => by
  have h : _ = [] := h
  rw [h] at hm
  cases hm

theorem All.note {m : Str} (h : P m) : All (note m) P := fun _ hx m' hm => by
  have hx : _ = [m] := hx
  rw [hx, List.mem_singleton] at hm
  exact hm ▸ h

theorem All.nil : All (given (.ok [])) P := fun ms h m hm => by
  have h : (Except.ok [] : Core.Notes) = .ok ms := h
  cases h
  cases hm

theorem All.one {m : Str} (h : P m) : All (given (.ok [m])) P := fun ms hx m' hm => by
  have hx : (Except.ok [m] : Core.Notes) = .ok ms := hx
  cases hx
  rw [List.mem_singleton] at hm
  exact hm ▸ h

theorem All.error {e : PyErr} : All (given (.error e)) P := fun ms h => by
  have h : (Except.error e : Core.Notes) = .ok ms := h
  cases h

theorem All.both {a b : Notes} (ha : All a P) (hb : All b P) : All (a ⨾ b) P := by
  rintro _ ⟨x, y, h1, h2, rfl⟩ m hm
  exact (List.mem_append.1 hm).elim (ha x h1 m) (hb y h2 m)

theorem All.clause {c : Node} {a : Notes} (ha : All a P) : All (clause c a) P := by
  unfold Notes.clause
  split
  · exact ha
  · exact All.silent

theorem All.mono {a : Notes} (ha : All a P) (h : ∀ m, P m → Q m) : All a Q := fun ms hm m hx => h m (ha ms hm m hx)

theorem Within.trans {a b c : Node} (h1 : Within a b) (h2 : Within b c) : Within a c := by
  induction h2 with
  | self => exact h1
  | child hc _ ih => exact .child hc ih

theorem Within.of {c n : Node} (h : c ∈ children n) : Within c n := .child h (.self c)

theorem Blames.up {c n : Node} (h : Within c n) {m : Str} (hb : Blames c m) : Blames n m := by
  cases hb with
  | missing x hx => exact .missing x (hx.trans h)
  | ambiguous x hx => exact .ambiguous x (hx.trans h)
  | key x hx => exact .key x (hx.imp (·.trans h) fun ⟨q, p, hx⟩ => ⟨q, p, hx.trans h⟩)
  | path l r y z hx h1 h2 => exact .path l r y z (hx.trans h) h1 h2
  | position w i hw hx => exact .position w i hw (hx.trans h)
  | where_ v t hx h1 h2 => exact .where_ v t (hx.trans h) h1 h2
  | having v t hx h1 h2 => exact .having v t (hx.trans h) h1 h2
  | operand op l r t hx h1 h2 => exact .operand op l r t (hx.trans h) h1 h2
  | limit al v m hx h1 => exact .limit al v m (hx.trans h) h1
  | offset v m hx h1 => exact .offset v m (hx.trans h) h1
  | join ty l r on us hx h1 => exact .join ty l r on us (hx.trans h) h1

theorem All.up {c n : Node} {a : Notes} (ha : All a (Blames c)) (h : c ∈ children n) : All a (Blames n) :=
  ha.mono fun _ hm => hm.up (.of h)

theorem first_within (n m : Node) (h : first n = some m) : Within m n := by
  induction n using Node.rec (motive_2 := fun ns => firstOf ns = some m → ∃ n ∈ ns, Within m n) with
  | nil => rename_i h; cases h
  | cons n ns h1 h2 => rename_i h; exact ⟨n, by simp, h1 h⟩
  | paren args ih =>
    obtain ⟨c, hc, hw⟩ := ih h
    exact .child hc hw
  | _ => cases h; exact .self _

theorem all_truth (word : Str) (n : Node) (h : ∀ t : PType, t ≠ .bool → t ≠ .object →
    P (str!"The argument of " ++ word ++ str!" must be type boolean, not type " ++ called t)) : All (truth k word n) P := by
  rintro _ ⟨_, t, _, rfl⟩ m hm
  cases t <;> simp only [List.not_mem_nil, List.mem_singleton] at hm <;> subst hm <;> exact h _ (by decide) (by decide)

theorem all_column (v : Str) : All (given (columnNotes k v)) (Blames (.column v)) := by
  unfold columnNotes
  split
  · exact All.nil
  · split
    · exact All.one (.ambiguous v (.self _))
    · exact All.one (.missing v (.self _))

theorem all_path (l r : Node) : All (path k l r) (Blames (.chained l r)) := by
  unfold Notes.path
  cases text (.chained l r) with
  | none => exact All.never
  | some x =>
    cases hy : text l with
    | none => exact All.never
    | some y =>
      simp only
      split
      · exact All.silent
      · cases hz : strText r with
        | none => exact All.never
        | some z => exact All.note (.path l r y z (.self _) hy hz)

theorem all_position (word : Str) (hw : word ∈ [str!"GROUP", str!"ORDER"]) (w : Nat) (i : Int) {n : Node} (hn : Within (.int i) n) :
    All (given (positionNotes word w i)) (Blames n) := by
  unfold positionNotes
  split
  · exact All.nil
  · exact All.one (.position word i hw hn)

theorem all_key (es : List Node) (n : Node) : All (given (groupNotes k es n)) (Blames n) := by
  have key : ∀ v, (Within (.column v) n ∨ ∃ q p, Within (.string v q p) n) → All (given (keyNotes k es v)) (Blames n) := by
    intro v hv
    unfold keyNotes
    split
    · exact All.nil
    · split
      · exact All.error
      · exact All.one (.key v hv)
  unfold groupNotes
  cases hf : first n with
  | none => exact All.error
  | some m =>
    have hm := first_within n m hf
    cases m with
    | int i => exact all_position _ (by simp) _ i hm
    | column v => exact key v (.inl hm)
    | string v q p => exact key v (.inr ⟨q, p, hm⟩)
    | _ => exact All.nil

theorem all_group (es : List Node) (g : Node) : All (group k es g) (Blames g) := by
  cases g with
  | groupBy args ro ea =>
    rw [group]
    have : ∀ l : List Node, (∀ a ∈ l, a ∈ args) → All (keys k es l) (Blames (.groupBy args ro ea)) := by
      intro l
      induction l with
      | nil => exact fun _ => All.silent
      | cons a as ih => exact fun h => ((all_key es a).up (n := .groupBy args ro ea) (h a (by simp))).both (ih fun b hb => h b (by simp [hb]))
    exact this args fun _ h => h
  | _ => exact All.never

theorem all_count (other negative : Str) (v : Node) (h1 : P other) (h2 : P negative) : All (given (countNotes other negative v)) P := by
  unfold countNotes
  cases first v with
  | none => exact All.error
  | some m =>
    cases m with
    | int i =>
      simp only
      split
      · exact All.nil
      · exact All.one h2
    | _ =>
      simp only
      split
      · exact All.error
      · exact All.one h1

/-- The messages about a tree are about something in it. -/
structure Fair (n : Node) : Prop where
  v : ∀ k, All (tells k n) (Blames n)
  between : ∀ k, All (tellsBounds k n) (Blames n)
  order : ∀ k w, All (tellsOrder k w n) (Blames n)

theorem fair_list {n : Node} {l : List Node} (hl : ∀ a ∈ l, a ∈ children n) (h : ∀ a ∈ l, Fair a) : All (tellsList k l) (Blames n) := by
  induction l with
  | nil => rw [tellsList]; exact All.silent
  | cons a as ih =>
    rw [tellsList]
    exact (((h a (by simp)).v k).up (hl a (by simp))).both (ih (fun b hb => hl b (by simp [hb])) fun b hb => h b (by simp [hb]))

theorem fair_orders {n : Node} {w : Option Nat} {l : List Node} (hl : ∀ a ∈ l, a ∈ children n) (h : ∀ a ∈ l, Fair a) :
    All (tellsOrders k w l) (Blames n) := by
  induction l with
  | nil => rw [tellsOrders]; exact All.silent
  | cons a as ih =>
    rw [tellsOrders]
    exact (((h a (by simp)).order k w).up (hl a (by simp))).both (ih (fun b hb => hl b (by simp [hb])) fun b hb => h b (by simp [hb]))

theorem fair_aliases {n : Node} {l : List Node} (hl : ∀ a ∈ l, a ∈ children n) (h : ∀ m, sizeOf m < sizeOf l → Fair m) :
    All (tellsAliases k l) (Blames n) := by
  induction l with
  | nil => rw [tellsAliases]; exact All.silent
  | cons a as ih =>
    have ih := ih (fun b hb => hl b (by simp [hb])) fun m hm' => h m (by simp only [List.cons.sizeOf_spec]; omega)
    cases a with
    | «alias» e a w =>
      rw [tellsAliases]
      have := ((h a (by simp only [List.cons.sizeOf_spec, Node.alias.sizeOf_spec]; omega)).v k).up (n := .alias e a w) (by simp [children])
      exact (this.up (hl _ (by simp))).both ih
    | _ =>
      rw [tellsAliases]
      · exact All.never
      · exact fun _ _ _ h => by cases h

theorem fair_of {n : Node} (hb : ∀ k, tellsBounds k n = never) (ho : ∀ k w, tellsOrder k w n = never)
    (h : ∀ k, All (tells k n) (Blames n)) : Fair n where
  v := h
  between := fun k => by rw [hb]; exact All.never
  order := fun k w => by rw [ho]; exact All.never

theorem fair_step (n : Node) (ih : ∀ m, sizeOf m < sizeOf n → Fair m) : Fair n := by
  have list : ∀ ns : List Node, sizeOf ns < sizeOf n → ∀ a ∈ ns, Fair a := fun ns hn a hx =>
    ih a (by have := List.sizeOf_lt_of_mem hx; omega)
  cases n with
  | orderBy args =>
    refine ⟨fun k => by simp only [tells]; exact All.never, fun k => by simp only [tellsBounds]; exact All.never, fun k w => ?_⟩
    rw [tellsOrder]
    exact fair_orders (fun a ha => ha) (list args (by simp <;> omega))
  | orderItem v x d =>
    refine ⟨fun k => by simp only [tells]; exact All.never, fun k => by simp only [tellsBounds]; exact All.never, fun k w => ?_⟩
    have hv := ((ih v (by simp <;> omega)).v k).up (n := .orderItem v x d) (by simp [children])
    simp only [tellsOrder]
    cases hf : first v with
    | none => exact All.never
    | some m =>
      cases m with
      | int i =>
        have hi : Within (.int i) (.orderItem v x d) := (first_within v _ hf).trans (.of (by simp [children]))
        cases w with
        | some m => exact all_position _ (by simp) _ i hi
        | none =>
          simp only [Notes.place]
          split
          · exact All.never
          · exact all_position _ (by simp) _ i hi
      | _ => exact hv
  | boolc t l r =>
    have hl := fun k => ((ih l (by simp <;> omega)).v k).up (n := .boolc t l r) (by simp [children])
    have hr := fun k => ((ih r (by simp <;> omega)).v k).up (n := .boolc t l r) (by simp [children])
    refine ⟨fun k => ?_, fun k => ?_, fun k w => by simp only [tellsOrder]; exact All.never⟩
    · rw [tells]
      exact (hl k).both ((all_truth _ _ fun ty h1 h2 => .operand t l r ty (.self _) h1 h2).both ((hr k).both
        (all_truth _ _ fun ty h1 h2 => .operand t l r ty (.self _) h1 h2)))
    · rw [tellsBounds]
      exact (hl k).both (hr k)
  | select es all d on f w g h o l off semi =>
    refine fair_of (fun _ => by simp only [tellsBounds]) (fun _ _ => by simp only [tellsOrder]) fun k => ?_
    rw [tells]
    refine (fair_list (fun a ha => by simp [children, ha]) (list es (by simp <;> omega))).both ?_
    refine (All.clause (((ih f (by simp <;> omega)).v _).up (by simp [children]))).both ?_
    refine (All.clause (((ih w (by simp <;> omega)).v _).up (by simp [children]))).both ?_
    refine (All.clause ((all_group es g).up (by simp [children]))).both ?_
    refine (All.clause (((ih h (by simp <;> omega)).v _).up (by simp [children]))).both ?_
    refine (All.clause (((ih o (by simp <;> omega)).order _ _).up (by simp [children]))).both ?_
    exact (All.clause (((ih l (by simp <;> omega)).v _).up (by simp [children]))).both
      (All.clause (((ih off (by simp <;> omega)).v _).up (by simp [children])))
  | cond l p r =>
    refine fair_of (fun _ => by simp only [tellsBounds]) (fun _ _ => by simp only [tellsOrder]) fun k => ?_
    rw [tells]
    refine (((ih l (by simp <;> omega)).v k).up (by simp [children])).both ?_
    split
    · exact ((ih r (by simp <;> omega)).between k).up (by simp [children])
    · exact ((ih r (by simp <;> omega)).v k).up (by simp [children])
  | where_ v =>
    refine fair_of (fun _ => by simp only [tellsBounds]) (fun _ _ => by simp only [tellsOrder]) fun k => ?_
    rw [tells]
    exact (((ih v (by simp <;> omega)).v k).up (by simp [children])).both (all_truth _ _ fun ty h1 h2 => .where_ v ty (.self _) h1 h2)
  | having v =>
    refine fair_of (fun _ => by simp only [tellsBounds]) (fun _ _ => by simp only [tellsOrder]) fun k => ?_
    rw [tells]
    exact (((ih v (by simp <;> omega)).v k).up (by simp [children])).both (all_truth _ _ fun ty h1 h2 => .having v ty (.self _) h1 h2)
  | filtered a b =>
    refine fair_of (fun _ => by simp only [tellsBounds]) (fun _ _ => by simp only [tellsOrder]) fun k => ?_
    rw [tells]
    exact (((ih a (by simp <;> omega)).v k).up (by simp [children])).both (((ih b (by simp <;> omega)).v k).up (by simp [children]))
  | analytics f part o fr =>
    refine fair_of (fun _ => by simp only [tellsBounds]) (fun _ _ => by simp only [tellsOrder]) fun k => ?_
    rw [tells]
    exact (((ih f (by simp <;> omega)).v k).up (by simp [children])).both
      ((fair_list (fun a ha => by simp [children, ha]) (list part (by simp <;> omega))).both
        (All.clause (((ih o (by simp <;> omega)).order k none).up (by simp [children]))))
  | paren args =>
    refine fair_of (fun _ => by simp only [tellsBounds]) (fun _ _ => by simp only [tellsOrder]) fun k => ?_
    rw [tells]
    exact fair_list (fun a ha => ha) (list args (by simp <;> omega))
  | func name args =>
    refine fair_of (fun _ => by simp only [tellsBounds]) (fun _ _ => by simp only [tellsOrder]) fun k => ?_
    rw [tells]
    exact fair_list (fun a ha => ha) (list args (by simp <;> omega))
  | count args d =>
    refine fair_of (fun _ => by simp only [tellsBounds]) (fun _ _ => by simp only [tellsOrder]) fun k => ?_
    rw [tells]
    exact fair_list (fun a ha => ha) (list args (by simp <;> omega))
  | arrayAgg c d i r o l =>
    refine fair_of (fun _ => by simp only [tellsBounds]) (fun _ _ => by simp only [tellsOrder]) fun k => ?_
    rw [tells]
    exact ((ih c (by simp <;> omega)).v k).up (by simp [children])
  | «alias» e a w =>
    refine fair_of (fun _ => by simp only [tellsBounds]) (fun _ _ => by simp only [tellsOrder]) fun k => ?_
    rw [tells]
    exact ((ih e (by simp <;> omega)).v k).up (by simp [children])
  | chained l r =>
    refine fair_of (fun _ => by simp only [tellsBounds]) (fun _ _ => by simp only [tellsOrder]) fun k => ?_
    rw [tells]
    exact all_path l r
  | join type l r on us =>
    refine fair_of (fun _ => by simp only [tellsBounds]) (fun _ _ => by simp only [tellsOrder]) fun k => ?_
    rw [tells]
    split
    · exact All.silent
    · rename_i hc
      exact All.note (.join type l r on us (.self _) (by simpa using hc))
  | replace e args =>
    refine fair_of (fun _ => by simp only [tellsBounds]) (fun _ _ => by simp only [tellsOrder]) fun k => ?_
    rw [tells]
    exact fair_aliases (fun a ha => by simp [children, ha]) fun m hm => ih m (by simp <;> omega)
  | column v =>
    refine fair_of (fun _ => by simp only [tellsBounds]) (fun _ _ => by simp only [tellsOrder]) fun k => ?_
    rw [tells]
    exact all_column v
  | limit all v =>
    refine fair_of (fun _ => by simp only [tellsBounds]) (fun _ _ => by simp only [tellsOrder]) fun k => ?_
    rw [tells]
    exact all_count _ _ v (.limit all v _ (.self _) (by simp)) (.limit all v _ (.self _) (by simp))
  | offset v =>
    refine fair_of (fun _ => by simp only [tellsBounds]) (fun _ _ => by simp only [tellsOrder]) fun k => ?_
    rw [tells]
    exact all_count _ _ v (.offset v _ (.self _) (by simp)) (.offset v _ (.self _) (by simp))
  | _ =>
    refine fair_of (fun _ => by simp only [tellsBounds]) (fun _ _ => by simp only [tellsOrder]) fun k => ?_
    first
    | (simp only [tells]; exact All.never)
    | (simp only [tells]; exact All.silent)

theorem fair (n : Node) : Fair n := by
  induction h : sizeOf n using Nat.strongRecOn generalizing n with
  | _ k ih => exact fair_step n fun m hm => ih _ (h ▸ hm) m rfl

end

end SqlV.Notes
