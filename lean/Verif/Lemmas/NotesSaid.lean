import Verif.Lemmas.NotesParts

/-! Parts of a tree are said by some of the words that say the tree. -/

set_option linter.unusedSectionVars false
set_option linter.unusedSimpArgs false
set_option linter.unusedTactic false

namespace SqlV.Notes

open SqlV.Said

section

variable [E : PyEnv]

/-- The words include those of a tree. -/
def Holds (c : Node) (a : Lang) : Prop := ∀ ws, a ws → ∃ vs, said c vs ∧ vs.Sublist ws

variable {c : Node} {a b : Lang}

theorem Holds.self : Holds c (said c) := fun ws h => ⟨ws, h, List.Sublist.refl _⟩

theorem Holds.left (h : Holds c a) : Holds c (a ⋆ b) := by
  rintro _ ⟨x, y, hx, _, rfl⟩
  obtain ⟨vs, h1, h2⟩ := h x hx
  exact ⟨vs, h1, h2.trans (List.sublist_append_left x y)⟩

theorem Holds.right (h : Holds c b) : Holds c (a ⋆ b) := by
  rintro _ ⟨x, y, _, hy, rfl⟩
  obtain ⟨vs, h1, h2⟩ := h y hy
  exact ⟨vs, h1, h2.trans (List.sublist_append_right x y)⟩

theorem Holds.seq {l : List Node} (hc : c ∈ l) : Holds c (saidSeq l) := by
  induction l with
  | nil => cases hc
  | cons n ns ih =>
    rw [saidSeq]
    rcases List.mem_cons.1 hc with rfl | hc
    · exact Holds.self.left
    · exact (ih hc).right

theorem Holds.more {l : List Node} (hc : c ∈ l) : Holds c (saidMore l) := by
  induction l with
  | nil => cases hc
  | cons n ns ih =>
    rw [saidMore]
    rcases List.mem_cons.1 hc with rfl | hc
    · exact Holds.self.left.right
    · exact (ih hc).right.right

theorem Holds.list {l : List Node} (hc : c ∈ l) : Holds c (saidList l) := by
  cases l with
  | nil => cases hc
  | cons n ns =>
    rw [saidList]
    rcases List.mem_cons.1 hc with rfl | hc
    · exact Holds.self.left
    · exact (Holds.more hc).right

theorem Holds.unless {l : List Node} (hc : c ∈ l) (h : Holds c a) : Holds c (if l = [] then skip else a) := by
  rw [if_neg (by rintro rfl; cases hc)]
  exact h

theorem Holds.headed {k : Str} : Holds c (Said.headed k c (said c)) := by
  rintro ws (⟨rfl, rfl⟩ | h)
  · exact ⟨[], by simp [said, skip], List.Sublist.refl _⟩
  · exact (Holds.self (c := c)).right (a := word k) ws h

theorem Holds.square {q : Bool} : Holds c (if q then tok str!"[" ⋆ said c ⋆ tok str!"]" else said c) := by
  cases q
  · exact Holds.self
  · exact Holds.self.left.right

macro "hold" : tactic => `(tactic| first
  | exact Holds.self
  | exact Holds.headed
  | exact Holds.square
  | (exact Holds.list (by assumption))
  | (exact Holds.seq (by assumption))
  | (exact Holds.unless (by assumption) (Holds.right (Holds.list (by assumption))))
  | (exact Holds.unless (by assumption) (Holds.right (Holds.right (Holds.list (by assumption))))))

syntax "holds" : tactic
macro_rules
  | `(tactic| holds) => `(tactic| first
    | hold
    | (with_reducible refine Holds.left ?_; hold)
    | (with_reducible refine Holds.right ?_; holds))

theorem holds_child (n c : Node) (hc : c ∈ children n) : Holds c (said n) := by
  cases n <;> simp only [children, List.mem_append, List.mem_cons, List.not_mem_nil, or_false] at hc
  case select es al d on f w g h o l off semi =>
    rw [said]
    rcases hc with (hc | hc) | rfl | rfl | rfl | rfl | rfl | rfl | rfl <;> holds
  case analytics f part o fr =>
    rw [said]
    rcases hc with (rfl | hc) | rfl | rfl <;> holds
  all_goals rw [said]
  all_goals first
    | (subst hc; holds; done)
    | (rcases hc with rfl | rfl <;> holds; done)
    | (rcases hc with rfl | rfl | rfl | rfl <;> holds; done)
    | (rcases hc with rfl | hc <;> holds; done)
    | (rcases hc with hc | rfl <;> holds; done)
    | (rcases hc with (rfl | hc) | rfl <;> holds; done)
    | (holds; done)

theorem holds_within {m n : Node} (h : Within m n) : Holds m (said n) := by
  induction h with
  | self => exact Holds.self
  | child hc _ ih =>
    intro ws hw
    obtain ⟨vs, h1, h2⟩ := holds_child _ _ hc ws hw
    obtain ⟨us, h3, h4⟩ := ih vs h1
    exact ⟨us, h3, h4.trans h2⟩

theorem mem_cat {x : Lang} {y : Lang} {ws : List Str} {p : Str → Prop} (h : (x ⋆ y) ws) (hx : ∀ vs, x vs → ∃ w ∈ vs, p w) : ∃ w ∈ ws, p w := by
  obtain ⟨u, v, hu, _, rfl⟩ := h
  obtain ⟨w, hw, hp⟩ := hx u hu
  exact ⟨w, by simp [hw], hp⟩

theorem mem_cat' {x : Lang} {y : Lang} {ws : List Str} {p : Str → Prop} (h : (x ⋆ y) ws) (hy : ∀ vs, y vs → ∃ w ∈ vs, p w) : ∃ w ∈ ws, p w := by
  obtain ⟨u, v, _, hv, rfl⟩ := h
  obtain ⟨w, hw, hp⟩ := hy v hv
  exact ⟨w, by simp [hw], hp⟩

theorem mem_one {p : Str → Prop} (vs : List Str) (h : one p vs) : ∃ w ∈ vs, p w := by
  obtain ⟨w, hp, rfl⟩ := h
  exact ⟨w, by simp, hp⟩

/-- What is about the tree is about the words that say it. -/
theorem about_of_blames {n : Node} {ws ts : List Str} (hs : said n ws) (ht : ws.Sublist ts) {m : Str} (h : Blames n m) : About ts m := by
  have get : ∀ {c : Node} {p : Str → Prop}, Within c n → (∀ vs, said c vs → ∃ w ∈ vs, p w) → ∃ w ∈ ts, p w := by
    intro c p hc hp
    obtain ⟨vs, h1, h2⟩ := holds_within hc ws hs
    obtain ⟨w, hw, h3⟩ := hp vs h1
    exact ⟨w, (h2.trans ht).subset hw, h3⟩
  have col : ∀ {x : Str}, Within (.column x) n → x ∈ ts := by
    intro x hx
    obtain ⟨w, hw, rfl⟩ := get (p := (· = x)) hx fun vs h => by rw [said] at h; exact mem_one vs h
    exact hw
  cases h with
  | missing x hx => exact .missing x (col hx)
  | ambiguous x hx => exact .ambiguous x (col hx)
  | key x hx =>
    rcases hx with hx | ⟨q, p, hx⟩
    · exact .key x (.inl (col hx))
    · by_cases h0 : x = []
      · exact .key x (.inr h0)
      · obtain ⟨w, hw, rfl⟩ := get (p := (· = x)) hx fun vs h => by
          rw [said, literal, if_neg h0] at h
          exact mem_cat' h fun us h => mem_cat h mem_one
        exact .key w (.inl hw)
  | path l r y z hx h1 h2 =>
    obtain ⟨vs, h3, h4⟩ := holds_within hx ws hs
    rw [said] at h3
    obtain ⟨u, v, hu, ⟨d, w, ⟨d', rfl, rfl⟩, hw, rfl⟩, rfl⟩ := h3
    exact .path l r y z u w hu hw (by rw [List.append_assoc]; exact h4.trans ht) h1 h2
  | position word i hw hx =>
    obtain ⟨w, h1, h2⟩ := get (p := fun w => E.toInt w = some i ∨ E.toInt w = some (-i)) hx fun vs h => by
      rw [said] at h
      rcases h with h | h
      · obtain ⟨w, h1, h2⟩ := mem_one vs h
        exact ⟨w, h1, .inl h2.2⟩
      · exact mem_cat' h fun us h => by
          obtain ⟨w, h1, h2⟩ := mem_one us h
          exact ⟨w, h1, .inr h2.2⟩
    exact .position word i w hw h1 h2
  | where_ v t hx h1 h2 =>
    obtain ⟨w, h3, h4⟩ := get (p := fun w => lower w = str!"where") hx fun vs h => by
      rw [said] at h
      exact mem_cat h mem_one
    exact .truth w str!"WHERE" t h3 (.inl ⟨rfl, h4⟩) h1 h2
  | having v t hx h1 h2 =>
    obtain ⟨w, h3, h4⟩ := get (p := fun w => lower w = str!"having") hx fun vs h => by
      rw [said] at h
      exact mem_cat h mem_one
    exact .truth w str!"HAVING" t h3 (.inr (.inl ⟨rfl, h4⟩)) h1 h2
  | operand op l r t hx h1 h2 =>
    obtain ⟨w, h3, h4, h5⟩ := get (p := fun w => (w = op ∨ op = str!"and" ∧ lower w = op) ∧ lower w ∈ [str!"and", str!"or"]) hx fun vs h => by
      rw [said] at h
      exact mem_cat' h fun us h => mem_cat h mem_one
    rcases h4 with rfl | ⟨rfl, h4⟩
    · exact .truth w (E.upper w) t h3 (.inr (.inr (.inl ⟨rfl, h5⟩))) h1 h2
    · exact .truth w (E.upper str!"and") t h3 (.inr (.inr (.inr ⟨rfl, h4⟩))) h1 h2
  | limit al v m hx h1 =>
    obtain ⟨w, h3, h4⟩ := get (p := fun w => lower w = str!"limit") hx fun vs h => by
      rw [said] at h
      exact mem_cat h mem_one
    exact .limit w m h3 h4 h1
  | offset v m hx h1 =>
    obtain ⟨w, h3, h4⟩ := get (p := fun w => lower w = str!"offset") hx fun vs h => by
      rw [said] at h
      exact mem_cat h mem_one
    exact .offset w m h3 h4 h1
  | join type l r on us hx h1 =>
    obtain ⟨w, h3, h4⟩ := get (p := fun w => lower w ∈ joinWords) hx fun vs h => by
      rw [said] at h
      refine mem_cat' h fun us h => mem_cat h fun ks h => ?_
      obtain ⟨w, hw⟩ := List.exists_mem_of_ne_nil _ h.1
      exact ⟨w, hw, h.2.1 w hw⟩
    exact .join w h3 h4

end

end SqlV.Notes
