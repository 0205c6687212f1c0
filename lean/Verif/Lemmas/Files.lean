import Verif.Files

/-! `compute_file_content` token by token. -/

namespace SqlV

set_option linter.unusedSectionVars false

variable [E : PyEnv]

/-- A string token that holds a query. -/
def isQuery (t : PyTok) : Bool := t.kind = .string && isSelectString t.value

/-- What is done to one token, given the tokens after it. -/
def walkStep (fmt val : Bool) (fail : Option PyErr) (t : PyTok) (rest : List PyTok) (a : Acc) :
    Except PyErr Acc :=
  if isQuery t then
    match rest.find? stopsFollow with
    | some n => handleQuery fmt val t n a
    | none =>
      match fail with
      | some e => .error e
      | none => if rest = [] then handleLast t a else .ok (a.add [t])
  else .ok (a.add [t])

/-- All tokens, left to right. -/
def walk (fmt val : Bool) (fail : Option PyErr) : List PyTok → Acc → Except PyErr Acc
  | [], a => match fail with
    | some e => .error e
    | none => .ok a
  | t :: ts, a => do
    let a ← walkStep fmt val fail t ts a
    walk fmt val fail ts a

theorem walkStep_other {t : PyTok} (h : isQuery t = false) (fmt val : Bool) (fail : Option PyErr)
    (rest : List PyTok) (a : Acc) : walkStep fmt val fail t rest a = .ok (a.add [t]) := by
  simp [walkStep, h]

theorem walkStep_some {t n : PyTok} {rest : List PyTok} (h : isQuery t = true)
    (hn : rest.find? stopsFollow = some n) (fmt val : Bool) (fail : Option PyErr) (a : Acc) :
    walkStep fmt val fail t rest a = handleQuery fmt val t n a := by
  simp [walkStep, h, hn]

theorem walkStep_none {t : PyTok} {rest : List PyTok} (h : isQuery t = true)
    (hn : rest.find? stopsFollow = none) (fmt val : Bool) (fail : Option PyErr) (a : Acc) :
    walkStep fmt val fail t rest a = match fail with
      | some e => .error e
      | none => if rest = [] then handleLast t a else .ok (a.add [t]) := by
  simp [walkStep, h, hn]

theorem walk_cons (fmt val : Bool) (fail : Option PyErr) (t : PyTok) (ts : List PyTok) (a : Acc) :
    walk fmt val fail (t :: ts) a =
      (walkStep fmt val fail t ts a).bind fun a => walk fmt val fail ts a := rfl

theorem Acc.add_add (a : Acc) (x y : List PyTok) : (a.add x).add y = a.add (x ++ y) := by
  simp [Acc.add]

theorem Acc.add_nil (a : Acc) : a.add [] = a := by simp [Acc.add]

theorem stopsFollow_of_string {t : PyTok} (h : t.kind = .string) : stopsFollow t = true := by
  simp [stopsFollow, h]

/-- Tokens that are not strings are copied. -/
theorem walk_mid (fmt val : Bool) (fail : Option PyErr) (mid ts : List PyTok) (a : Acc)
    (hm : ∀ t ∈ mid, stopsFollow t = false) :
    walk fmt val fail (mid ++ ts) a = walk fmt val fail ts (a.add mid) := by
  induction mid generalizing a with
  | nil => simp [Acc.add_nil]
  | cons t mid ih =>
    have ht : isQuery t = false := by
      have := hm t (by simp)
      cases hq : isQuery t with
      | false => rfl
      | true =>
        simp only [isQuery, Bool.and_eq_true, decide_eq_true_eq] at hq
        rw [stopsFollow_of_string hq.1] at this
        exact absurd this (by simp)
    rw [List.cons_append, walk_cons, walkStep_other ht]
    show walk fmt val fail (mid ++ ts) (a.add [t]) = _
    rw [ih _ (fun x hx => hm x (by simp [hx])), Acc.add_add]
    rfl

theorem find_mid {mid ts : List PyTok} (hm : ∀ t ∈ mid, stopsFollow t = false) :
    (mid ++ ts).find? stopsFollow = ts.find? stopsFollow := by
  rw [List.find?_append, List.find?_eq_none.2 (by simpa using hm), Option.none_or]

mutual

/-- The loops of the code and the walk agree, unless the stack is exhausted. -/
theorem mainLoop_walk (fmt val : Bool) (limit : Nat) (fail : Option PyErr) (a : Acc) :
    (ts : List PyTok) →
    (mainLoop fmt val limit fail a ts = walk fmt val fail ts a ∨
      mainLoop fmt val limit fail a ts = .error .recursion) ∧
    (ts.length ≤ limit → mainLoop fmt val limit fail a ts = walk fmt val fail ts a)
  | [] => by
    have : mainLoop fmt val limit fail a [] = walk fmt val fail [] a := by
      cases fail <;> simp [mainLoop, walk]
    exact ⟨.inl this, fun _ => this⟩
  | t :: ts => by
    have ih := mainLoop_walk fmt val limit fail (a.add [t]) ts
    have hf := followLoop_walk fmt val limit fail limit t [] a ts
    rw [mainLoop]
    cases hq : isQuery t with
    | true =>
      have h1 : t.kind = .string := by simp [isQuery] at hq; exact hq.1
      have h2 : isSelectString t.value = true := by simp [isQuery] at hq; exact hq.2
      rw [if_pos h1, if_pos h2]
      have hf := hf hq (by simp)
      simp only [List.cons_append, List.nil_append] at hf
      exact ⟨hf.1, fun hl => hf.2 (by simp at hl; omega) (by simp at hl; omega)⟩
    | false =>
      have hw : walk fmt val fail (t :: ts) a = walk fmt val fail ts (a.add [t]) := by
        rw [walk_cons, walkStep_other hq]; rfl
      have h1 : (if t.kind = TokKind.string then
          if isSelectString t.value = true then followLoop fmt val limit fail limit t [] a ts
          else mainLoop fmt val limit fail (a.add [t]) ts
          else mainLoop fmt val limit fail (a.add [t]) ts) =
          mainLoop fmt val limit fail (a.add [t]) ts := by
        by_cases h1 : t.kind = .string
        · have h2 : isSelectString t.value = false := by
            simp [isQuery, h1] at hq; exact hq
          simp [h1, h2]
        · simp [h1]
      rw [h1, hw]
      exact ⟨ih.1, fun hl => ih.2 (by simp at hl; omega)⟩

theorem followLoop_walk (fmt val : Bool) (limit : Nat) (fail : Option PyErr) (depth : Nat) (s : PyTok)
    (mid : List PyTok) (a : Acc) : (ts : List PyTok) →
    isQuery s = true → (∀ t ∈ mid, stopsFollow t = false) →
    (followLoop fmt val limit fail depth s mid a ts = walk fmt val fail (s :: mid ++ ts) a ∨
      followLoop fmt val limit fail depth s mid a ts = .error .recursion) ∧
    (ts.length ≤ depth → ts.length ≤ limit →
      followLoop fmt val limit fail depth s mid a ts = walk fmt val fail (s :: mid ++ ts) a)
  | [], hs, hm => by
    have hfind : (mid ++ []).find? stopsFollow = none := by
      rw [List.append_nil]; exact List.find?_eq_none.2 (by simpa using hm)
    have key : followLoop fmt val limit fail depth s mid a [] =
        walk fmt val fail (s :: mid ++ []) a := by
      rw [List.cons_append, walk_cons, walkStep_none hs hfind]
      cases fail with
      | some e => simp [followLoop, Except.bind]
      | none =>
        cases mid with
        | nil =>
          simp only [followLoop, List.append_nil, if_true]
          cases handleLast s a <;> simp [Except.bind, walk]
        | cons m mid =>
          have h := walk_mid fmt val none (m :: mid) [] (a.add [s]) hm
          have hne : m :: mid ++ [] ≠ [] := by simp
          rw [if_neg hne]
          simp only [followLoop, Except.bind]
          rw [h, Acc.add_add, walk]
          rfl
    exact ⟨.inl key, fun _ _ => key⟩
  | n :: ts, hs, hm => by
    rw [followLoop]
    cases hn : stopsFollow n with
    | false =>
      simp only [Bool.false_eq_true, if_false]
      have h := followLoop_walk fmt val limit fail depth s (mid ++ [n]) a ts hs
        (by intro t ht
            rcases List.mem_append.1 ht with ht | ht
            · exact hm t ht
            · simp at ht; rw [ht]; exact hn)
      have e1 : s :: (mid ++ [n]) ++ ts = s :: mid ++ n :: ts := by simp
      rw [e1] at h
      exact ⟨h.1, fun h1 h2 => h.2 (by simp at h1; omega) (by simp at h2; omega)⟩
    | true =>
      simp only [if_true]
      have hfind : (mid ++ n :: ts).find? stopsFollow = some n := by
        rw [find_mid hm, List.find?_cons, hn]
      have hw : walk fmt val fail (s :: mid ++ n :: ts) a =
          (handleQuery fmt val s n a).bind fun a => walk fmt val fail (n :: ts) (a.add mid) := by
        rw [List.cons_append, walk_cons, walkStep_some hs hfind]
        congr 1
        funext a'
        exact walk_mid fmt val fail mid (n :: ts) a' hm
      rw [hw]
      cases handleQuery fmt val s n a with
      | error e => simp [bind, Except.bind]
      | ok a1 =>
        simp only [bind, Except.bind]
        have ih := mainLoop_walk fmt val limit fail ((a1.add mid).add [n]) ts
        cases hq : isQuery n with
        | false =>
          have hw2 : walk fmt val fail (n :: ts) (a1.add mid) =
              walk fmt val fail ts ((a1.add mid).add [n]) := by
            rw [walk_cons, walkStep_other hq]; rfl
          rw [hw2]
          by_cases h1 : n.kind = .string
          · have h2 : isSelectString n.value = false := by
              simp [isQuery, h1] at hq; exact hq
            rw [if_pos h1]
            cases depth with
            | zero => exact ⟨.inr rfl, fun hl => by simp at hl⟩
            | succ depth =>
              simp only [h2, Bool.false_eq_true, if_false]
              exact ⟨ih.1, fun _ hl => ih.2 (by simp at hl; omega)⟩
          · rw [if_neg h1]
            exact ⟨ih.1, fun _ hl => ih.2 (by simp at hl; omega)⟩
        | true =>
          have h1 : n.kind = .string := by simp [isQuery] at hq; exact hq.1
          have h2 : isSelectString n.value = true := by simp [isQuery] at hq; exact hq.2
          rw [if_pos h1]
          cases depth with
          | zero => exact ⟨.inr rfl, fun hl => by simp at hl⟩
          | succ depth =>
            have hf := followLoop_walk fmt val limit fail depth n [] (a1.add mid) ts hq (by simp)
            simp only [h2, if_true]
            simp only [List.cons_append, List.nil_append] at hf
            exact ⟨hf.1, fun h1 hl => hf.2 (by simp at h1; omega) (by simp at hl; omega)⟩

end

end SqlV
