import Verif.Query
import Verif.Spec.Repr
import Verif.Lemmas.Repr

/-!
# Representations of Python objects, and their way into formatted texts (C83)
-/

namespace SqlV

open Printable (pictured)

section

/-! ### Hexadecimal digits -/

theorem hexDigits_length (k n : Nat) : (hexDigits k n).length = k := by
  induction k generalizing n with
  | zero => rfl
  | succ k ih => rw [hexDigits, List.length_append, ih]; rfl

theorem hexValue_digit (d : Nat) (h : d < 16) : PyLit.hexValue (Nat.digitChar d) = some d := by
  have : ∀ d < 16, PyLit.hexValue (Nat.digitChar d) = some d := by decide
  exact this d h

theorem hexNumber_digits (k n : Nat) (h : n < 16 ^ k) : PyLit.hexNumber (hexDigits k n) = some n := by
  induction k generalizing n with
  | zero =>
    have : n = 0 := by omega
    subst this
    rfl
  | succ k ih =>
    have hd : n / 16 < 16 ^ k := by
      rw [Nat.pow_succ] at h
      omega
    have := ih (n / 16) hd
    rw [PyLit.hexNumber] at this
    rw [PyLit.hexNumber, hexDigits, List.foldlM_append, this]
    have h16 := hexValue_digit (n % 16) (by omega)
    simp only [List.foldlM_cons, List.foldlM_nil, Option.bind_eq_bind, Option.bind_some, h16, Option.map_some]
    show some (16 * (n / 16) + n % 16) = some n
    rw [Nat.div_add_mod]

theorem coded_digits (k : Nat) (c : Char) (r : Str) (h : c.toNat < 16 ^ k) :
    PyLit.coded k (hexDigits k c.toNat ++ r) = some (c, r) := by
  have hl := hexDigits_length k c.toNat
  have ht : (hexDigits k c.toNat ++ r).take k = hexDigits k c.toNat := by
    rw [List.take_append_of_le_length (by omega), List.take_of_length_le (by omega)]
  have hdr : (hexDigits k c.toNat ++ r).drop k = r := List.drop_left' hl
  rw [PyLit.coded, ht, hdr, if_pos hl, hexNumber_digits k _ h]
  simp

variable [E : PyEnv]

theorem body_char (q c : Char) (hq : q = '\'' ∨ q = '"') (k : Nat) (r : Str) :
    PyLit.body q (k + 1) (reprChar q c ++ r) = (PyLit.body q k r).map (c :: ·) := by
  have esc (t : Str) (hne : PyLit.escape (t ++ r) = some (c, r)) :
      PyLit.body q (k + 1) ('\\' :: t ++ r) = (PyLit.body q k r).map (c :: ·) := by
    show PyLit.body q (k + 1) ('\\' :: (t ++ r)) = _
    rw [PyLit.body, if_pos rfl, hne]
    rfl
  have hlt : c.toNat < 16 ^ 8 := by
    have := c.valid
    have : c.toNat < 1114112 := by
      rcases this with h | ⟨_, h⟩ <;> simp only [Char.toNat] <;> omega
    omega
  unfold reprChar
  split
  · rename_i h
    refine esc [c] ?_
    have : c = '\\' ∨ c = '\'' ∨ c = '"' := by
      rcases h with rfl | h
      · exact .inr hq
      · exact .inl h
    rcases this with rfl | rfl | rfl <;> rfl
  · rename_i h0
    split
    · rename_i h; subst h; exact esc ['t'] rfl
    · split
      · rename_i h; subst h; exact esc ['n'] rfl
      · rename_i hn
        split
        · rename_i h; subst h; exact esc ['r'] rfl
        · split
          · rename_i h
            refine esc ('x' :: hexDigits 2 c.toNat) ?_
            exact coded_digits 2 c r (by omega)
          · split
            · rename_i h
              show PyLit.body q (k + 1) (c :: r) = _
              rw [PyLit.body, if_neg (fun e => h0 (.inr e)), if_neg (by
                rintro (e | e)
                · exact h0 (.inl e)
                · exact hn e)]
            · split
              · exact esc ('x' :: hexDigits 2 c.toNat) (coded_digits 2 c r (by omega))
              · split
                · exact esc ('u' :: hexDigits 4 c.toNat) (coded_digits 4 c r (by omega))
                · exact esc ('U' :: hexDigits 8 c.toNat) (coded_digits 8 c r hlt)

theorem body_chars (q : Char) (hq : q = '\'' ∨ q = '"') (s : Str) (k : Nat) (h : s.length ≤ k) :
    PyLit.body q k (s.flatMap (reprChar q)) = some s := by
  induction s generalizing k with
  | nil => cases k <;> rfl
  | cons c s ih =>
    obtain ⟨k, rfl⟩ : ∃ j, k = j + 1 := ⟨k - 1, by simp at h; omega⟩
    rw [List.flatMap_cons, body_char q c hq, ih k (by simpa using h)]
    rfl

theorem reprChar_ne (q c : Char) : 1 ≤ (reprChar q c).length := by
  unfold reprChar
  repeat' split
  all_goals simp

theorem flatMap_length (q : Char) (s : Str) : s.length ≤ (s.flatMap (reprChar q)).length := by
  induction s with
  | nil => simp
  | cons c s ih =>
    have := reprChar_ne q c
    simp only [List.flatMap_cons, List.length_append, List.length_cons]
    omega

/-! ### C83 -/

/-- C83: whatever the string, its representation is a Python literal for it. -/
theorem C83_strings (s : Str) : PyLit.value (reprStr s) = some s := by
  have key (q : Char) (hq : q = '\'' ∨ q = '"') : PyLit.value (q :: s.flatMap (reprChar q) ++ [q]) = some s := by
    show PyLit.value (q :: (s.flatMap (reprChar q) ++ [q])) = some s
    rw [PyLit.value, if_pos ⟨hq, by simp⟩, List.dropLast_concat]
    refine body_chars q hq s _ ?_
    have := flatMap_length q s
    simp only [List.length_append]
    omega
  unfold reprStr
  split
  · exact key '"' (.inr rfl)
  · exact key '\'' (.inl rfl)

/-- C83: so different strings have different representations. -/
theorem C83_strings_differ (s t : Str) (h : reprStr s = reprStr t) : s = t := by
  have := C83_strings s
  rw [h, C83_strings t] at this
  exact (Option.some.inj this).symm

/-- C83: it is in double quotes exactly if there are single and no double quotes in the string. -/
theorem C83_double_quotes (s : Str) : (reprStr s).head? = some '"' ↔ '\'' ∈ s ∧ '"' ∉ s := by
  unfold reprStr
  split
  · rename_i h
    exact ⟨fun _ => h, fun _ => rfl⟩
  · rename_i h
    exact ⟨fun e => absurd e (by simp), fun e => absurd e h⟩

/-- C83: a string of printable characters of ASCII without single quotes and backslashes is just put in quotes. -/
theorem C83_plain_strings (s : Str) (h : ∀ c ∈ s, 32 ≤ c.toNat ∧ c.toNat < 127 ∧ c ≠ '\'' ∧ c ≠ '\\') :
    reprStr s = str!"'" ++ s ++ str!"'" := by
  have hq : ¬('\'' ∈ s ∧ '"' ∉ s) := fun e => (h _ e.1).2.2.1 rfl
  have key : s.flatMap (reprChar '\'') = s := by
    clear hq
    induction s with
    | nil => rfl
    | cons c s ih =>
      have hc := h c (by simp)
      have e : reprChar '\'' c = [c] := by
        unfold reprChar
        rw [if_neg (fun e => e.elim hc.2.2.1 hc.2.2.2), if_neg (by rintro rfl; exact absurd hc.1 (by decide)),
          if_neg (by rintro rfl; exact absurd hc.1 (by decide)), if_neg (by rintro rfl; exact absurd hc.1 (by decide)),
          if_neg (by omega), if_pos (.inl hc.2.1)]
      rw [List.flatMap_cons, e, ih fun d hd => h d (by simp [hd])]
      rfl
  unfold reprStr
  simp only [if_neg hq, key]
  rfl

omit E in
theorem hexDigits_ascii (k n : Nat) : ∀ d ∈ hexDigits k n, 32 ≤ d.toNat ∧ d.toNat < 127 := by
  induction k generalizing n with
  | zero => simp [hexDigits]
  | succ k ih =>
    intro d hd
    rw [hexDigits, List.mem_append, List.mem_singleton] at hd
    rcases hd with hd | rfl
    · exact ih _ d hd
    · have key : ∀ m, m < 16 → 32 ≤ (Nat.digitChar m).toNat ∧ (Nat.digitChar m).toNat < 127 := by decide
      exact key _ (Nat.mod_lt _ (by decide))

/-- C83: in a representation there are only the characters of ASCII that can be seen, and characters of the
string beyond ASCII that Python calls printable; no control characters, in particular. -/
theorem C83_characters (s : Str) (d : Char) (hd : d ∈ reprStr s) :
    (32 ≤ d.toNat ∧ d.toNat < 127) ∨ (d ∈ s ∧ 128 ≤ d.toNat ∧ E.printable d = true) := by
  have key (q : Char) (hq : q = '\'' ∨ q = '"') (h : d ∈ q :: s.flatMap (reprChar q) ++ [q]) :
      (32 ≤ d.toNat ∧ d.toNat < 127) ∨ (d ∈ s ∧ 128 ≤ d.toNat ∧ E.printable d = true) := by
    have hqd : 32 ≤ q.toNat ∧ q.toNat < 127 := by rcases hq with rfl | rfl <;> decide
    have hb : 32 ≤ '\\'.toNat ∧ '\\'.toNat < 127 := by decide
    simp only [List.cons_append, List.mem_cons, List.mem_append, List.mem_flatMap, List.not_mem_nil, or_false] at h
    rcases h with rfl | ⟨c, hc, h⟩ | rfl
    · exact .inl hqd
    · unfold reprChar at h
      have coded (x : Char) (hx : 32 ≤ x.toNat ∧ x.toNat < 127) (k : Nat)
          (h : d ∈ ['\\', x] ++ hexDigits k c.toNat) : 32 ≤ d.toNat ∧ d.toNat < 127 := by
        simp only [List.mem_append, List.mem_cons, List.not_mem_nil, or_false] at h
        rcases h with (rfl | rfl) | h
        · exact hb
        · exact hx
        · exact hexDigits_ascii _ _ d h
      have two (x : Char) (hx : 32 ≤ x.toNat ∧ x.toNat < 127) (h : d ∈ ['\\', x]) : 32 ≤ d.toNat ∧ d.toNat < 127 := by
        simp only [List.mem_cons, List.not_mem_nil, or_false] at h
        rcases h with rfl | rfl
        · exact hb
        · exact hx
      split at h
      · rename_i h0
        refine .inl (two c ?_ h)
        rcases h0 with rfl | rfl
        · exact hqd
        · exact hb
      split at h
      · exact .inl (two 't' (by decide) h)
      split at h
      · exact .inl (two 'n' (by decide) h)
      split at h
      · exact .inl (two 'r' (by decide) h)
      split at h
      · exact .inl (coded 'x' (by decide) 2 h)
      split at h
      · rename_i h1 h2
        rw [List.mem_singleton] at h
        subst h
        rcases h2 with h2 | h2
        · exact .inl ⟨by omega, h2⟩
        · by_cases h3 : d.toNat < 127
          · exact .inl ⟨by omega, h3⟩
          · exact .inr ⟨hc, by omega, h2⟩
      split at h
      · exact .inl (coded 'x' (by decide) 2 h)
      split at h
      · exact .inl (coded 'u' (by decide) 4 h)
      · exact .inl (coded 'U' (by decide) 8 h)
    · exact .inl hqd
  unfold reprStr at hd
  split at hd
  · exact key '"' (.inr rfl) hd
  · exact key '\'' (.inl rfl) hd

/-- C83: and the printable ones beyond ASCII stay as they are. -/
theorem C83_printable_kept (s : Str) (d : Char) (hd : d ∈ s) (h : 128 ≤ d.toNat) (hp : E.printable d = true) :
    d ∈ reprStr s := by
  have ne (x : Char) (hx : x.toNat < 128) : d ≠ x := by
    rintro rfl
    omega
  have key (q : Char) (hq : q = '\'' ∨ q = '"') : d ∈ q :: s.flatMap (reprChar q) ++ [q] := by
    refine List.mem_append_left _ (List.mem_cons_of_mem _ (List.mem_flatMap.2 ⟨d, hd, ?_⟩))
    have h1 : ¬(d = q ∨ d = '\\') := by
      rintro (rfl | rfl)
      · rcases hq with rfl | rfl <;> exact absurd h (by decide)
      · exact absurd h (by decide)
    unfold reprChar
    rw [if_neg h1, if_neg (ne _ (by decide)), if_neg (ne _ (by decide)), if_neg (ne _ (by decide)),
      if_neg (by omega), if_pos (.inr hp)]
    exact List.mem_singleton_self d
  unfold reprStr
  split
  · exact key '"' (.inr rfl)
  · exact key '\'' (.inl rfl)

/-- C83: the representation of every object that has one. -/
theorem C83_text (n : Node) (h : pictured n = true) : pyRepr n = .ok (Picture.picture reprStr n) := Printable.drawn n h

/-- C83: an object has a representation exactly if there are no calls with FILTER and no WITH where `repr` looks. -/
theorem C83_represented (n : Node) : (∃ x, pyRepr n = .ok x) ↔ pictured n = true := Printable.repr_ok n

/-- C83: for all others an `AttributeError` is raised. -/
theorem C83_exceptions (n : Node) (e : PyErr) (h : pyRepr n = .error e) : e = .attribute := Printable.repr_error h

end

/-- A character beyond ASCII that can be printed stays, a control character does not. -/
example : @reprStr { asciiEnv with printable := fun _ => true } ['é', '\x7f', '\x00'] =
    str!"'é\\x7f\\x00'" := by
  decide +kernel

/-- Strings with quotes, controls and characters beyond ASCII. -/
example : @reprStr asciiEnv str!"it's" = str!"\"it's\"" ∧ @reprStr asciiEnv str!"a\"b'\\\n" = str!"'a\"b\\'\\\\\\n'" ∧
    @reprStr asciiEnv ['\x01', 'é', 'λ', '𝒳'] = str!"'\\x01\\xe9\\u03bb\\U0001d4b3'" := by
  decide +kernel

/-- C83: formatted texts contain representations of Python objects, also those of texts that are found valid: `str` is called of an
operand that is a statement, and `SelectStatement` has no `__str__`.  Formatting the result drops most of it. -/
theorem C83_not_sql :
    (@SQLQuery.isValid asciiEnv (SQLQuery.new str!"SELECT 1 + SELECT 'x'")).1 = .ok true ∧
    @formatSql asciiEnv str!"SELECT 1 + SELECT 'x'" = .ok (str!"SELECT 1 + <SelectStatement:\n  Expressions: [<String: 'x' quotes=\"'\" prefix=None>]" ++
      str!"\n  Select All: False - Select Distinct: False - Select Distinct On: None\n  From: None\n  Where: None\n  Group By: None" ++
      str!"\n  Having: None\n  Order By: None\n  Limit: None\n  Offset: None\n  Semi Colon: False\n>\n        ") ∧
    (∃ out, @formatSql asciiEnv str!"SELECT 1 + SELECT 'x'" = .ok out ∧ @formatSql asciiEnv out = .ok str!"SELECT 1 + < SelectStatement:") := by
  refine ⟨by decide +kernel, by decide +kernel, _, rfl, by decide +kernel⟩

/-- The text is read, `pictured` says this about its tree, and this is the representation. -/
def depicted (sql : Str) (p : Bool) (r : Except PyErr Str) : Bool :=
  match parseSql (E := asciiEnv) sql with
  | .ok n => decide (pictured n = p) && decide (pyRepr (E := asciiEnv) n = r)
  | .error _ => false

/-- C83: both cases occur, and without a representation there is no formatted text. -/
theorem C83_cases :
    depicted str!"SELECT sum(x) FILTER (WHERE y) FROM t" false (.error .attribute) ∧
    @formatSql asciiEnv str!"SELECT (1 + SELECT sum(x) FILTER (WHERE y))" = .error .attribute ∧
    depicted str!"SELECT CASE WHEN sum(x) FILTER (WHERE y) THEN 1 END z WHERE a = 'it' OR NOT c[0] LIMIT ALL" true
      (.ok (str!"<SelectStatement:\n  Expressions: [<Alias: <Case: None> as=False 'z'>]" ++
        str!"\n  Select All: False - Select Distinct: False - Select Distinct On: None\n  From: None" ++
        str!"\n  Where: <WhereClause: <BooleanCondition OR: <Condition: <Column: 'a'> = <String: 'it' quotes=\"'\" prefix=None>>, " ++
        str!"<Negation: <Index: <Column: 'c'> indices='<Integer: 0>'>>>>" ++
        str!"\n  Group By: None\n  Having: None\n  Order By: None\n  Limit: <LimitClause: None limit_all=True>\n  Offset: None" ++
        str!"\n  Semi Colon: False\n>\n        ")) ∧
    depicted str!"SELECT DISTINCT ON (a) 1.5, true, null FROM t JOIN v USING (w)" true
      (.ok (str!"<SelectStatement:\n  Expressions: [<Float: 1.5>, <Boolean: True>, <Null: None>]" ++
        str!"\n  Select All: False - Select Distinct: True - Select Distinct On: [<Column: 'a'>]" ++
        str!"\n  From: <Join:\n  Join Type: 'JOIN'\n  Left part: <Table: <Column: 't'>>\n  Right part: <Table: <Column: 'v'>>" ++
        str!"\n  On: None\n  Using <UsingClause: <Parenthesis: <Column: 'w'>>>\n" ++
        str!"\n  Where: None\n  Group By: None\n  Having: None\n  Order By: None\n  Limit: None\n  Offset: None" ++
        str!"\n  Semi Colon: False\n>\n        ")) := by
  decide +kernel

end SqlV
