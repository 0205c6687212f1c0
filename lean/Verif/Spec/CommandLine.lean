import Verif.Files

/-!
# Command lines

What the words of a command line say, and which command lines start a run, ask for help or for the version.
-/

namespace SqlV.Cmd

/-- The flags -/
inductive Flag where
  | format | check | validate | verbose
deriving DecidableEq, Repr

/-- What a word says -/
inductive Says where
  /-- the name of a file or directory -/
  | file
  | flag (f : Flag)
  | help
  | version
  /-- refused when its turn comes -/
  | wrong
  /-- refused if nothing else comes before -/
  | unknown
  /-- refused at once -/
  | unclear
deriving DecidableEq, Repr

/-- The words after two dashes -/
def names : List (Str × Says) :=
  [(str!"help", .help), (str!"version", .version), (str!"check-format", .flag .check), (str!"format", .flag .format),
    (str!"validate", .flag .validate), (str!"verbose-validate", .flag .verbose)]

/-- What `--p` says: a name may be cut off as long as it is clear which one is meant. -/
def long (p : Str) : Says :=
  match names.filter fun n => (p.takeWhile (· ≠ '=')).isPrefixOf n.1 with
  | [] => if ' ' ∈ p then .file else .unknown
  | [n] => if '=' ∈ p then .wrong else n.2
  | _ => .unclear

/-- A number cut at its full stops -/
def decimal (digit : Char → Bool) : List Str → Bool
  | [ds] => ds ≠ [] && ds.all digit
  | [ds, es] => ds.all digit && (es ≠ [] && es.all digit)
  | _ => false

/-- A number without sign, with at most one line break after it -/
def number (digit : Char → Bool) (s : Str) : Bool :=
  decimal digit (Str.splitOn '.' (if s.getLast? = some '\n' then s.dropLast else s))

/-- What `-p` says if `p` does not begin with a dash -/
def short (digit : Char → Bool) (p : Str) : Says :=
  if p.head? = some 'h' then
    if (p.dropWhile (· = 'h')).head? = some '-' ∨ (p.dropWhile (· = 'h')).head? = some '=' then .wrong else .help
  else if number digit p ∨ ' ' ∈ p then .file
  else .unknown

/-- What a word says -/
def says (digit : Char → Bool) : Str → Says
  | '-' :: '-' :: p => long p
  | ['-'] => .file
  | '-' :: p => short digit p
  | _ => .file

/-- The flags that are set -/
def given (fs : List Flag) : Flags :=
  ⟨decide (.format ∈ fs), decide (.check ∈ fs), decide (.validate ∈ fs), decide (.verbose ∈ fs)⟩

/-- Two flags exclude each other. -/
def Clash (fs : List Flag) : Prop := (.format ∈ fs ∧ .check ∈ fs) ∨ (.validate ∈ fs ∧ .verbose ∈ fs)

instance (fs : List Flag) : Decidable (Clash fs) := by unfold Clash; infer_instance

/-- The flags among the words -/
def flagsOf (ks : List Says) : List Flag :=
  ks.filterMap fun k => match k with
    | .flag f => some f
    | _ => none

/-- Command lines that start a run with the flags `fl` and the inputs `srcs`: all inputs are next to each other, and what comes after two
dashes is an input.  This does not say that there is a flag. -/
def Accepts (digit : Char → Bool) (argv : List Str) (fl : Flags) (srcs : List Str) : Prop :=
  ∃ (before files after : List Str) (fs : List Flag),
    (before ++ after).map (says digit) = fs.map .flag ∧ (∀ f ∈ files, says digit f = .file) ∧ ¬Clash fs ∧ fl = given fs ∧
    srcs ≠ [] ∧
    ((argv = before ++ files ++ after ∧ srcs = files) ∨
      (after = [] ∧ ∃ more, argv = before ++ files ++ str!"--" :: more ∧ srcs = files ++ more))

/-- Command lines that ask for the help or the version: some word says so before anything is refused. -/
def Asks (digit : Char → Bool) (argv : List Str) (k : Says) : Prop :=
  ∃ before w rest, argv = before ++ w :: rest ∧ str!"--" ∉ before ∧ says digit w = k ∧
    (∀ x ∈ before, says digit x ≠ .help ∧ says digit x ≠ .version ∧ says digit x ≠ .wrong) ∧
    ¬Clash (flagsOf (before.map (says digit))) ∧
    ∀ x ∈ argv.takeWhile (· ≠ str!"--"), says digit x ≠ .unclear

end SqlV.Cmd
