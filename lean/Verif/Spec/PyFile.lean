import Verif.Files
import Mathlib.Data.List.Forall2

/-! Python files as sequences of tokens and gaps. -/

namespace SqlV

/-! ### Tokens and the text between them -/

/-- Tokens that are printed. -/
def PyTok.printed (t : PyTok) : Bool :=
  match t.kind with
  | .encoding | .indent | .dedent | .endmarker => false
  | _ => true

/-- The text of a token. -/
def PyTok.text (t : PyTok) : Str := if t.printed then t.value else []

/-- The tokens before the end marker. -/
def visible (ts : List PyTok) : List PyTok := ts.takeWhile fun t => t.kind ≠ .endmarker

/-- Gaps and tokens alternating. -/
def weave : List Str → List PyTok → Str
  | g :: gs, t :: ts => g ++ t.text ++ weave gs ts
  | _, _ => []

section
variable [E : PyEnv]

/-- The same token, except possibly for the text of a string that holds a query. -/
structure SameButQuery (t t' : PyTok) : Prop where
  kind : t'.kind = t.kind
  start : t'.start = t.start
  stop : t'.stop = t.stop
  value : t'.value = t.value ∨ (t.kind = .string ∧ isSelectString t.value = true)

end

/-! ### Literals -/

/-- The letters before the quotes of a string literal of Python 2 or 3, in capital or small letters. -/
def literalPrefix (p : Str) : Prop :=
  p.map Char.toLower ∈ [[], ['r'], ['u'], ['b'], ['f'], ['u', 'r'], ['b', 'r'], ['r', 'b'], ['f', 'r'], ['r', 'f']]

instance (p : Str) : Decidable (literalPrefix p) := by unfold literalPrefix; infer_instance

/-! ### Source texts

Where tokens are in a text in which tokens are separated by blanks, lines are joined by a backslash, and
lines of a block begin with the indentation of the block. -/

/-- The position after a text. -/
def advance (p : Nat × Nat) (s : Str) : Nat × Nat :=
  s.foldl (fun p c => if c = '\n' then (p.1 + 1, 0) else (p.1, p.2 + 1)) p

/-- `n` line continuations, then `m` blanks. -/
def blanks (n m : Nat) : Str := (List.replicate n str!"\\\n").flatten ++ List.replicate m ' '

/-- `Reads pos indents bol pieces`: from position `pos`, in blocks with the given indentations
(innermost first), `bol` telling whether a line has just begun, the tokens `pieces.map Prod.snd` stand in
the text `gap₁ token₁ gap₂ token₂ …`. -/
inductive Reads : Nat × Nat → List Str → Bool → List (Str × PyTok) → Prop
  | nil (p : Nat × Nat) (is : List Str) (b : Bool) : Reads p is b []
  /-- an end marker -/
  | endm (p : Nat × Nat) (is : List Str) (b : Bool) (t : PyTok) : t.kind = .endmarker →
      Reads p is b [([], t)]
  /-- a block begins -/
  | indent (p : Nat × Nat) (is : List Str) (b : Bool) (t : PyTok) (r : List (Str × PyTok)) :
      t.kind = .indent → Reads p (t.value :: is) b r → Reads p is b (([], t) :: r)
  /-- a block ends -/
  | dedent (p : Nat × Nat) (i : Str) (is : List Str) (b : Bool) (t : PyTok) (r : List (Str × PyTok)) :
      t.kind = .dedent → Reads t.stop is b r → Reads p (i :: is) b (([], t) :: r)
  /-- a line ends -/
  | eol (p : Nat × Nat) (is : List Str) (b : Bool) (n m : Nat) (t : PyTok) (r : List (Str × PyTok)) :
      (t.kind = .newline ∨ t.kind = .nl) → (t.value = str!"\n" ∨ t.value = []) →
      t.start = advance p (blanks n m) → t.stop.1 = t.start.1 →
      Reads (t.start.1 + 1, 0) is true r → Reads p is b ((blanks n m, t) :: r)
  /-- the first token of a line in a block -/
  | first (p : Nat × Nat) (i : Str) (is : List Str) (m : Nat) (t : PyTok) (r : List (Str × PyTok)) :
      t.printed = true → t.kind ≠ .newline → t.kind ≠ .nl → t.start = (p.1, i.length + m) →
      t.stop = advance t.start t.value → Reads t.stop (i :: is) false r →
      Reads p (i :: is) true ((i ++ List.replicate m ' ', t) :: r)
  /-- any other token: not at the beginning of a line, or outside blocks, or left of the block -/
  | other (p : Nat × Nat) (is : List Str) (b : Bool) (n m : Nat) (t : PyTok)
      (r : List (Str × PyTok)) :
      t.printed = true → t.kind ≠ .newline → t.kind ≠ .nl → t.start = advance p (blanks n m) →
      (b = true → ∀ i is', is = i :: is' → t.start.2 < i.length) →
      t.stop = advance t.start t.value → Reads t.stop is (b && is.isEmpty) r → Reads p is b ((blanks n m, t) :: r)

/-! ### Any text between tokens -/

/-- The lines and columns of a text: how many lines end in it, and how long it is after that. -/
def span (g : Str) : Nat × Nat := advance (0, 0) g

/-- The text of blanks and line continuations with the same lines and columns. -/
def respaced (g : Str) : Str := blanks (span g).1 (span g).2

/-- The same for a line that begins with the indentation `i`. -/
def reindented (i g : Str) : Str :=
  i ++ if (span g).1 = 0 then List.replicate ((span g).2 - i.length) ' ' else respaced g

/-- `Stands pos indents bol pieces printed`: as `Reads`, but `gap₁`, `gap₂`, … are any texts (tabs, form feeds, blanks before a
line continuation, other indentations than that of the block), and the texts `printed` are printed in their places. -/
inductive Stands : Nat × Nat → List Str → Bool → List (Str × PyTok) → List Str → Prop
  | nil (p : Nat × Nat) (is : List Str) (b : Bool) : Stands p is b [] []
  /-- an end marker -/
  | endm (p : Nat × Nat) (is : List Str) (b : Bool) (t : PyTok) : t.kind = .endmarker →
      Stands p is b [([], t)] [[]]
  /-- a block begins -/
  | indent (p : Nat × Nat) (is : List Str) (b : Bool) (t : PyTok) (r : List (Str × PyTok)) (gs : List Str) :
      t.kind = .indent → Stands p (t.value :: is) b r gs → Stands p is b (([], t) :: r) ([] :: gs)
  /-- a block ends -/
  | dedent (p : Nat × Nat) (i : Str) (is : List Str) (b : Bool) (t : PyTok) (r : List (Str × PyTok)) (gs : List Str) :
      t.kind = .dedent → Stands t.stop is b r gs → Stands p (i :: is) b (([], t) :: r) ([] :: gs)
  /-- a line ends -/
  | eol (p : Nat × Nat) (is : List Str) (b : Bool) (g : Str) (t : PyTok) (r : List (Str × PyTok)) (gs : List Str) :
      (t.kind = .newline ∨ t.kind = .nl) → t.start = advance p g → t.stop.1 = t.start.1 →
      Stands (t.start.1 + 1, 0) is true r gs → Stands p is b ((g, t) :: r) (respaced g :: gs)
  /-- the first token of a line in a block, not left of the block -/
  | first (p : Nat × Nat) (i : Str) (is : List Str) (g : Str) (t : PyTok) (r : List (Str × PyTok)) (gs : List Str) :
      t.printed = true → t.kind ≠ .newline → t.kind ≠ .nl → t.start = advance (p.1, 0) g → i.length ≤ t.start.2 →
      t.stop = advance t.start t.value → Stands t.stop (i :: is) false r gs →
      Stands p (i :: is) true ((g, t) :: r) (reindented i g :: gs)
  /-- any other token -/
  | other (p : Nat × Nat) (is : List Str) (b : Bool) (g : Str) (t : PyTok) (r : List (Str × PyTok)) (gs : List Str) :
      t.printed = true → t.kind ≠ .newline → t.kind ≠ .nl → t.start = advance p g →
      (b = true → ∀ i is', is = i :: is' → t.start.2 < i.length) →
      t.stop = advance t.start t.value → Stands t.stop is (b && is.isEmpty) r gs →
      Stands p is b ((g, t) :: r) (respaced g :: gs)

end SqlV
