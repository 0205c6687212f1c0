import Verif.Files

/-!
What a run looks at, independently of the order of effects: the files reached from the inputs, each one
once, and the result of analysing each of them on the contents found at the start.
-/

namespace SqlV

/-- An input after directories have been expanded: a file, or something that does not exist. -/
inductive Item where
  | file (f : Path)
  | missing (src : Path)

/-- The Python files below a directory. -/
def pyFiles (env : FileEnv) (dir : Path) : List Path :=
  (env.walk dir).flatMap fun d =>
    (d.2.filter fun name => str!".py".isSuffixOf name).map fun name => env.join d.1 name

/-- The inputs, directories expanded. -/
def items (env : FileEnv) (srcs : List Path) : List Item :=
  srcs.flatMap fun s =>
    if env.isdir s then (pyFiles env s).map .file
    else if env.isfile s then [.file s]
    else [.missing s]

/-- The first occurrences of files, up to their absolute path. -/
def firsts (env : FileEnv) (seen : List Path) : List Item → List Path
  | [] => []
  | .missing _ :: is => firsts env seen is
  | .file f :: is =>
    if env.abspath f ∈ seen then firsts env seen is
    else f :: firsts env (env.abspath f :: seen) is

/-- The distinct files of a run. -/
def reached (env : FileEnv) (srcs : List Path) : List Path := firsts env [] (items env srcs)

/-- What analysing a file computes. -/
structure Found where
  changed : Nat
  content : Str
  invalid : Nat
  locations : List (Nat × List Str)
deriving DecidableEq

section
variable [E : PyEnv]

/-- The analysis of a file on the contents at the start of the run: reading it, splitting it into
tokens and going through its strings. -/
def found (env : FileEnv) (fl : Flags) (c : Path → Str) (f : Path) : Except PyErr Found :=
  match env.readFault (env.abspath f) with
  | some e => .error e
  | none =>
    (computeContent env.limit (env.tokenize (c (env.abspath f))) (fl.format || fl.check)
      (fl.validate || fl.verbose)).map fun r => ⟨r.1, r.2.1, r.2.2.1, r.2.2.2⟩

/-- Handling a file as a whole: the analysis, or the exception that it or writing the file raises. -/
def handled (env : FileEnv) (fl : Flags) (c : Path → Str) (f : Path) : Except PyErr Found :=
  match found env fl c f with
  | .ok r => if r.changed > 0 ∧ fl.format ∧ env.writeFault (env.abspath f) ≠ none then .error .io else .ok r
  | .error e => .error e

end

/-- No file refuses to be written. -/
def NoWriteFault (env : FileEnv) : Prop := ∀ p, env.writeFault p = none

end SqlV
