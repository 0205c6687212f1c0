import Verif.Query

/-!
# `sqlvalidator/file_handler.py`

The Python tokenizer (`tokenize.generate_tokens`) and the operating system are parameters (`FileEnv`);
`tokenize.untokenize` is modelled after CPython 3.11, `Lib/tokenize.py` 167-223.
-/

namespace SqlV

/-- The token types the code distinguishes.  `ENDMARKER` is `0`, hence falsy. -/
inductive TokKind where
  | endmarker | string | comment | newline | nl | indent | dedent | encoding
  | other (n : Nat)
deriving DecidableEq, Repr

/-- A `TokenInfo` without the physical line, which is only copied. -/
structure PyTok where
  kind : TokKind
  value : Str
  start : Nat × Nat
  stop : Nat × Nat
deriving DecidableEq, Repr

/-- The generator returned by `tokenize.generate_tokens`. -/
structure TokStream where
  toks : List PyTok
  fail : Option PyErr := none

/-! ### CPython's `Untokenizer` -/

/-- State of `Untokenizer.untokenize`: the position reached, the stack of indents (top first), and
whether a line has just ended. -/
structure UState where
  row : Nat := 1
  col : Nat := 0
  indents : List Str := []
  startline : Bool := false

/-- `add_whitespace`, Lib/tokenize.py 174-185: the text appended. -/
def addWhitespace (row col : Nat) (start : Nat × Nat) : Except PyErr Str :=
  if start.1 < row ∨ (start.1 = row ∧ start.2 < col) then .error .value
  else
    let rowOffset := start.1 - row
    let col := if rowOffset = 0 then col else 0
    .ok ((List.replicate rowOffset str!"\\\n").flatten ++ List.replicate (start.2 - col) ' ')

/-- One iteration of the loop of `untokenize`, Lib/tokenize.py 193-221, for a token that is not an
ENDMARKER: the text in front of the token, whether the token itself is printed, and the new state. -/
def untokStep (u : UState) (t : PyTok) : Except PyErr (Str × Bool × UState) :=
  match t.kind with
  | .encoding => .ok ([], false, u)
  | .indent => .ok ([], false, { u with indents := t.value :: u.indents })
  | .dedent =>
    match u.indents with
    | [] => .error .index
    | _ :: is => .ok ([], false, { u with indents := is, row := t.stop.1, col := t.stop.2 })
  | .newline | .nl => do
    let ws ← addWhitespace u.row u.col t.start
    .ok (ws, true, { u with row := t.stop.1 + 1, col := 0, startline := true })
  | _ =>
    match u.startline, u.indents with
    | true, indent :: _ =>
      if t.start.2 ≥ indent.length then do
        let ws ← addWhitespace u.row indent.length t.start
        .ok (indent ++ ws, true, { u with row := t.stop.1, col := t.stop.2, startline := false })
      else do
        let ws ← addWhitespace u.row u.col t.start
        .ok (ws, true, { u with row := t.stop.1, col := t.stop.2, startline := false })
    | _, _ => do
      let ws ← addWhitespace u.row u.col t.start
      .ok (ws, true, { u with row := t.stop.1, col := t.stop.2 })

/-- `Untokenizer.untokenize` on five-tuples, Lib/tokenize.py 187-222 -/
def untokenizeFrom (u : UState) : List PyTok → Except PyErr Str
  | [] => .ok []
  | t :: ts =>
    if t.kind = .endmarker then .ok []
    else do
      let (ws, printed, u) ← untokStep u t
      let rest ← untokenizeFrom u ts
      return ws ++ (if printed then t.value else []) ++ rest

/-- `tokenize.untokenize(tokens)` -/
def untokenize (ts : List PyTok) : Except PyErr Str := untokenizeFrom {} ts

/-! ### Strings holding queries -/

/-- `NO_SQLFORMAT_COMMENT`, file_handler.py 8 -/
def noSqlFormat : Str := str!"nosqlformat"
/-- `NO_SQLVALIDATION_COMMENT`, file_handler.py 9 -/
def noSqlValidation : Str := str!"nosqlvalidation"

/-- `POSSIBLE_QUOTES`, file_handler.py 11 -/
def possibleQuotes : List Str := [str!"\"\"\"", str!"'''", str!"\"", str!"'"]

/-- `STRING_PREFIXES`, file_handler.py 12-41 -/
def pyStringPrefixes : List Str :=
  [str!"r", str!"u", str!"ur", str!"R", str!"U", str!"UR", str!"Ur", str!"uR", str!"f", str!"F",
   str!"fr", str!"Fr", str!"fR", str!"FR", str!"rf", str!"rF", str!"Rf", str!"RF", str!"b", str!"B",
   str!"br", str!"Br", str!"bR", str!"BR", str!"rb", str!"rB", str!"Rb", str!"RB"]

/-- Search for the quotes and the prefix, file_handler.py 346-366 -/
def findQuotes (s : Str) : Option (Str × Option Str) :=
  match possibleQuotes.find? fun q => Str.startsWith s q && Str.endsWith s q with
  | some q => some (q, none)
  | none =>
    possibleQuotes.findSome? fun q =>
      (pyStringPrefixes.find? fun p => Str.startsWith s (p ++ q) && Str.endsWith s q).map
        fun p => (q, some p)

/-- `s[a:-b]` for `b > 0` -/
def sliceInner (s : Str) (a b : Nat) : Str := (s.take (s.length - b)).drop a

/-- The new literal, file_handler.py 377-393 -/
def requote (quotes : Str) (pre : Str) (sql : Str) : Str :=
  let newQuotes :=
    if quotes.length = 1 ∧ hasNL sql then
      if quotes = str!"'" then str!"'''" else str!"\"\"\""
    else quotes
  if newQuotes.length = 3 ∧ hasNL sql then
    pre ++ newQuotes ++ str!"\n" ++ sql ++ str!"\n" ++ newQuotes
  else pre ++ newQuotes ++ sql ++ newQuotes

section

variable [E : PyEnv]

/-- `handle_sql_string`, file_handler.py 341-394: the new literal and the query object. -/
def handleSqlString (s : Str) : Except PyErr (Str × SQLQuery) :=
  match findQuotes s with
  | none => .error .assertion
  | some (quotes, pre) => do
    let body := match pre with
      | some p => s.drop p.length
      | none => s
    let sql := sliceInner body quotes.length quotes.length
    let (r, q) := (SQLQuery.new sql).format
    let formatted ← r
    return (requote quotes (pre.getD []) formatted, q)

/-- Line boundaries of `str.splitlines`. -/
def isLineBreak (c : Char) : Bool :=
  c ∈ ['\n', '\r', '\x0b', '\x0c', '\x1c', '\x1d', '\x1e', '\u0085', '\u2028', '\u2029']

/-- `is_select_string`, file_handler.py 397-402 -/
def isSelectString (s : Str) : Bool :=
  let cleaned := (E.lower s).dropWhile (· ∈ str!" \n'\"`ufbr")
  if cleaned.isEmpty then false
  else decide (((cleaned.takeWhile fun c => !isLineBreak c).takeWhile (· ≠ ' ')) = str!"select")

/-- The variables of `compute_file_content`, file_handler.py 242-245 -/
structure Acc where
  tokens : List PyTok := []
  changed : Nat := 0
  invalid : Nat := 0
  locations : List (Nat × List Str) := []

/-- `tokens.append(...)` / `tokens += ...` -/
def Acc.add (a : Acc) (ts : List PyTok) : Acc := { a with tokens := a.tokens ++ ts }

/-- `if not sql_query.is_valid(): …`, file_handler.py 270-272 and 308-310 -/
def Acc.check (a : Acc) (row : Nat) (q : SQLQuery) : Except PyErr Acc :=
  match q.isValid with
  | (.error e, _) => .error e
  | (.ok true, _) => .ok a
  | (.ok false, q) =>
    .ok { a with invalid := a.invalid + 1, locations := a.locations ++ [(row, q.errors)] }

/-- A query string that is the very last token, file_handler.py 264-273 -/
def handleLast (s : PyTok) (a : Acc) : Except PyErr Acc := do
  let (new, q) ← handleSqlString s.value
  let a := a.add [{ s with value := new }]
  let a := if new ≠ s.value then { a with changed := a.changed + 1 } else a
  a.check s.start.1 q

/-- The analysis of a query string `s` whose next comment, string or end of file is `n`,
file_handler.py 294-313 -/
def handleQuery (shouldFormat shouldValidate : Bool) (s n : PyTok) (a : Acc) : Except PyErr Acc := do
  let noFormat := Str.contains n.value noSqlFormat
  let needsFormat := shouldFormat && !noFormat
  let needsValidate := shouldValidate && !Str.contains n.value noSqlValidation
  if n.kind ≠ .comment ∨ needsFormat ∨ needsValidate then do
    let (new, q) ← handleSqlString s.value
    let a :=
      if new ≠ s.value ∧ !noFormat then
        { a.add [{ s with value := new }] with changed := a.changed + 1 }
      else a.add [s]
    if needsValidate then a.check s.start.1 q else return a
  else return a.add [s]

/-- `next_token and next_token != COMMENT and next_token != STRING` is false, file_handler.py 278-282 -/
def stopsFollow (t : PyTok) : Bool :=
  t.kind = .endmarker || t.kind = .comment || t.kind = .string

mutual

/-- The main loop, file_handler.py 328-335.  `limit` bounds the nesting of `handle_string_token`
calls (317); `fail` is how the generator ends. -/
def mainLoop (shouldFormat shouldValidate : Bool) (limit : Nat) (fail : Option PyErr) (a : Acc) :
    List PyTok → Except PyErr Acc
  | [] => match fail with
    | some e => .error e
    | none => .ok a
  | t :: ts =>
    if t.kind = .string then
      if isSelectString t.value then
        followLoop shouldFormat shouldValidate limit fail limit t [] a ts
      else mainLoop shouldFormat shouldValidate limit fail (a.add [t]) ts
    else mainLoop shouldFormat shouldValidate limit fail (a.add [t]) ts

/-- `handle_string_token` after the select test, file_handler.py 259-326: `s` is the query string and
`mid` the `following_tokens` read so far. -/
def followLoop (shouldFormat shouldValidate : Bool) (limit : Nat) (fail : Option PyErr)
    (depth : Nat) (s : PyTok) (mid : List PyTok) (a : Acc) : List PyTok → Except PyErr Acc
  | [] => match fail with
    | some e => .error e
    | none => match mid with
      | [] => handleLast s a
      | mid => .ok (a.add (s :: mid))
  | n :: ts =>
    if stopsFollow n then do
      let a ← handleQuery shouldFormat shouldValidate s n a
      let a := a.add mid
      if n.kind = .string then
        match depth with
        | 0 => .error .recursion
        | depth + 1 =>
          if isSelectString n.value then
            followLoop shouldFormat shouldValidate limit fail depth n [] a ts
          else mainLoop shouldFormat shouldValidate limit fail (a.add [n]) ts
      else mainLoop shouldFormat shouldValidate limit fail (a.add [n]) ts
    else followLoop shouldFormat shouldValidate limit fail depth s (mid ++ [n]) a ts

end

/-- `compute_file_content`, file_handler.py 239-338, on the token generator of the file: the number of
changed queries, the new content, the number of invalid queries and their locations. -/
def computeContent (limit : Nat) (ts : TokStream) (shouldFormat shouldValidate : Bool) :
    Except PyErr (Nat × Str × Nat × List (Nat × List Str)) := do
  let a ← mainLoop shouldFormat shouldValidate limit ts.fail {} ts.toks
  let content ← untokenize a.tokens
  return (a.changed, content, a.invalid, a.locations)

end

/-! ### Files and directories -/

/-- A path. -/
abbrev Path := Str

/-- How writing a file goes wrong: when opening it, or after it has been truncated. -/
inductive WriteFault where
  | onOpen | onWrite
deriving DecidableEq, Repr

/-- The environment of a run.  The set of existing files does not change during a run. -/
structure FileEnv where
  /-- `os.path.abspath` -/
  abspath : Path → Path
  /-- `os.path.isdir` -/
  isdir : Path → Bool
  /-- `os.path.isfile` -/
  isfile : Path → Bool
  /-- `os.walk`, without the list of sub-directories -/
  walk : Path → List (Path × List Str)
  /-- `os.path.join` -/
  join : Path → Str → Path
  /-- opening or decoding the file (given by absolute path) raises -/
  readFault : Path → Option PyErr
  /-- writing the file (given by absolute path) raises -/
  writeFault : Path → Option WriteFault
  /-- `tokenize.generate_tokens` on the text of a file -/
  tokenize : Str → TokStream
  /-- nesting of `handle_string_token` that the interpreter's stack admits -/
  limit : Nat

/-- Printed messages. -/
inductive Event where
  /-- file_handler.py 210, 215-219 -/
  | reformatted (file : Path) (n : Nat)
  /-- file_handler.py 212, 215-219 -/
  | wouldReformat (file : Path) (n : Nat)
  /-- file_handler.py 223-225 -/
  | invalidIn (file : Path) (n : Nat)
  /-- file_handler.py 228 -/
  | location (row : Nat) (errors : List Str)
  /-- file_handler.py 133, 170 -/
  | couldNotAnalyse (file : Path)
  /-- file_handler.py 136, 172-176 -/
  | errorAnalysing (file : Path) (e : PyErr)
  /-- file_handler.py 139 -/
  | invalidInput (file : Path)
  /-- file_handler.py 405-416 -/
  | formatSummary (files sql : Nat) (check : Bool)
  /-- file_handler.py 419-430 -/
  | validationSummary (files sql : Nat)
deriving DecidableEq, Repr

/-- The line that is printed.  The name and the message of an exception (file_handler.py 136, 173-175) are given by
`show_`. -/
def Event.text (show_ : PyErr → Str) : Event → Str
  | .reformatted f n => str!"reformatted " ++ f ++ str!" (" ++ Str.ofNat n ++ str!" changed SQL)"
  | .wouldReformat f n => str!"would reformat " ++ f ++ str!" (" ++ Str.ofNat n ++ str!" changed SQL)"
  | .invalidIn f n => str!"invalid queries in " ++ f ++ str!" (" ++ Str.ofNat n ++ str!" invalid SQL)"
  | .location row errors => str!"L" ++ Str.ofNat row ++ str!" - " ++ Str.join str!", " errors
  | .couldNotAnalyse f => str!"could not analyse " ++ f
  | .errorAnalysing f e => str!"error analysing " ++ f ++ str!" (" ++ show_ e ++ str!")"
  | .invalidInput _ => str!"Error: Invalid input"
  | .formatSummary files sql check =>
    let content := if check then str!"would be reformatted" else str!"reformatted"
    if sql > 0 then
      Str.ofNat files ++ str!" file" ++ (if files > 1 then str!"s" else []) ++ str!" " ++ content ++ str!" (" ++
        (Str.ofNat sql ++ str!" changed SQL queries") ++ str!")."
    else str!"No file " ++ content ++ str!"."
  | .validationSummary files sql =>
    if sql > 0 then
      Str.ofNat files ++ str!" file" ++ (if files > 1 then str!"s" else []) ++ str!" detected with invalid SQL (" ++
        Str.ofNat sql ++ str!" invalid SQL quer" ++ (if sql > 1 then str!"ies" else str!"y") ++ str!")."
    else str!"No invalid queries found."

/-- The mutable part of the world: contents by absolute path, what has been printed, and (ghost) the
absolute paths opened for writing and those opened for reading. -/
structure World where
  content : Path → Str
  out : List Event := []
  written : List Path := []
  opened : List Path := []

/-- `print(...)` -/
def World.print (w : World) (e : Event) : World := { w with out := w.out ++ [e] }

/-- The content of one file replaced. -/
def World.set (w : World) (p : Path) (s : Str) : World :=
  { w with content := fun q => if q = p then s else w.content q }

/-- The four flags, main.py 18-48 -/
structure Flags where
  format : Bool
  check : Bool
  validate : Bool
  verbose : Bool
deriving DecidableEq, Repr

/-- `InputSQLAnalyseInfo` without `seen_files`, file_handler.py 44-57 -/
structure Info where
  changedFiles : Nat := 0
  changedSql : Nat := 0
  invalidFiles : Nat := 0
  invalidSql : Nat := 0
deriving DecidableEq, Repr

/-- `InputSQLAnalyseInfo.update`, file_handler.py 59-63 -/
def Info.update (a b : Info) : Info :=
  ⟨a.changedFiles + b.changedFiles, a.changedSql + b.changedSql, a.invalidFiles + b.invalidFiles,
   a.invalidSql + b.invalidSql⟩

/-- `with open(filename, "w") as f: f.write(new_content)`, file_handler.py 208-209: opening truncates. -/
def writeFile (env : FileEnv) (file : Path) (s : Str) (w : World) : World × Option PyErr :=
  let p := env.abspath file
  match env.writeFault p with
  | some .onOpen => (w, some .io)
  | some .onWrite => ({ w.set p [] with written := w.written ++ [p] }, some .io)
  | none => ({ w.set p s with written := w.written ++ [p] }, none)

section

variable [E : PyEnv]

/-- What `analyse_file` computes from the file, file_handler.py 194-202 -/
def readAndCompute (env : FileEnv) (fl : Flags) (file : Path) (w : World) :
    Except PyErr (Nat × Str × Nat × List (Nat × List Str)) :=
  match env.readFault (env.abspath file) with
  | some e => .error e
  | none =>
    computeContent env.limit (env.tokenize (w.content (env.abspath file)))
      (fl.format || fl.check) (fl.validate || fl.verbose)

/-- The messages about invalid queries, file_handler.py 221-228 -/
def reportInvalid (fl : Flags) (file : Path) (invalid : Nat) (locations : List (Nat × List Str))
    (w : World) : World :=
  if invalid > 0 ∧ (fl.validate || fl.verbose) then
    let w := w.print (.invalidIn file invalid)
    if fl.verbose then
      { w with out := w.out ++ locations.map fun l => .location l.1 l.2 }
    else w
  else w

/-- `analyse_file`, file_handler.py 181-236.  `seen` is the set object shared by all calls of a run:
it is only ever extended in place (192) and merged with itself, so it is threaded.  It is extended
even if the analysis raises. -/
def analyseFile (env : FileEnv) (fl : Flags) (file : Path) (seen : List Path) (w : World) :
    Except PyErr Info × List Path × World :=
  let p := env.abspath file
  if p ∈ seen then (.ok {}, seen, w)
  else
    let seen := p :: seen
    let w := { w with opened := w.opened ++ [p] }
    match readAndCompute env fl file w with
    | .error e => (.error e, seen, w)
    | .ok (changed, content, invalid, locations) =>
      let (w, fault) :=
        if changed > 0 then
          if fl.format then
            match writeFile env file content w with
            | (w, some e) => (w, some e)
            | (w, none) => (w.print (.reformatted file changed), none)
          else if fl.check then (w.print (.wouldReformat file changed), none)
          else (w, none)
        else (w, none)
      match fault with
      | some e => (.error e, seen, w)
      | none =>
        let w := reportInvalid fl file invalid locations w
        (.ok ⟨if changed > 0 then 1 else 0, changed, if invalid > 0 then 1 else 0, invalid⟩, seen, w)

/-- The handlers of file_handler.py 132-137 and 169-176 -/
def reportError (file : Path) (e : PyErr) (w : World) : World :=
  w.print (if e = .recursion then .couldNotAnalyse file else .errorAnalysing file e)

/-- `analyse_file` under `try`, file_handler.py 123-137 and 159-176 -/
def tryFile (env : FileEnv) (fl : Flags) (file : Path) (seen : List Path) (w : World) :
    Info × List Path × World :=
  match analyseFile env fl file seen w with
  | (.ok info, seen, w) => (info, seen, w)
  | (.error e, seen, w) => ({}, seen, reportError file e w)

/-- The files `analyse_dir` looks at, file_handler.py 155-158 -/
def dirFiles (env : FileEnv) (dir : Path) : List Path :=
  (env.walk dir).flatMap fun d =>
    (d.2.filter fun f => Str.endsWith f str!".py").map fun f => env.join d.1 f

/-- `analyse_file` on a list of files, adding up the results (file_handler.py 155-176). -/
def tryFiles (env : FileEnv) (fl : Flags) :
    List Path → Info → List Path → World → Info × List Path × World
  | [], info, seen, w => (info, seen, w)
  | f :: fs, info, seen, w =>
    let (i, seen, w) := tryFile env fl f seen w
    tryFiles env fl fs (info.update i) seen w

/-- `handle_one_input`, file_handler.py 104-141, with `analyse_dir`, 144-178 -/
def handleOne (env : FileEnv) (fl : Flags) (src : Path) (seen : List Path) (w : World) :
    Info × List Path × World :=
  if env.isdir src then tryFiles env fl (dirFiles env src) {} seen w
  else if env.isfile src then tryFile env fl src seen w
  else ({}, seen, w.print (.invalidInput src))

/-- The loop of `handle_inputs`, file_handler.py 74-85 -/
def handleAll (env : FileEnv) (fl : Flags) :
    List Path → Info → List Path → World → Info × List Path × World
  | [], info, seen, w => (info, seen, w)
  | s :: ss, info, seen, w =>
    let (i, seen, w) := handleOne env fl s seen w
    handleAll env fl ss (info.update i) seen w

/-- `handle_inputs`, file_handler.py 67-101: exit status and final world. -/
def handleInputs (env : FileEnv) (fl : Flags) (srcs : List Path) (w : World) : Nat × World :=
  let (info, _, w) := handleAll env fl srcs {} [] w
  let w := if fl.format || fl.check then
      w.print (.formatSummary info.changedFiles info.changedSql fl.check) else w
  let w := if fl.validate then
      w.print (.validationSummary info.invalidFiles info.invalidSql) else w
  if (fl.check && decide (info.changedSql > 0)) || (fl.validate && decide (info.invalidSql > 0)) then
    (1, w)
  else (0, w)

/-- `_main`, main.py 8-57: argparse refuses missing inputs, two flags of one exclusive group and (via
`parser.error`) the absence of any flag, with status 2 and before anything else happens.  How the words of
the command line become flags and inputs is in Args.lean. -/
def mainProg (env : FileEnv) (fl : Flags) (srcs : List Path) (w : World) : Nat × World :=
  if srcs.isEmpty then (2, w)
  else if fl.check && fl.format then (2, w)
  else if fl.validate && fl.verbose then (2, w)
  else if !(fl.format || fl.check || fl.validate || fl.verbose) then (2, w)
  else handleInputs env fl srcs w

end

end SqlV
