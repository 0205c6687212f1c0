import Verif.Files

/-!
# The command line

`_main` of main.py hands `sys.argv[1:]` to argparse.  This file follows `Lib/argparse.py` of CPython 3.11.10 for the parser that
main.py 9-41 sets up: one positional argument `SRC` with `nargs="+"`, and options that take no argument.  `digit` tells which
characters `\d` of `re` matches.  The texts of usage, help and error messages are not modelled.
-/

namespace SqlV.Args

/-- The actions of the options: `--help` of argparse.py 1789-1793 and those of main.py 13-39 -/
inductive Action where
  | help | version | check | format | validate | verbose
deriving DecidableEq, Repr

/-- `_option_string_actions` in order of insertion: main.py 9-39 -/
def optionActions : List (Str × Action) :=
  [(str!"-h", .help), (str!"--help", .help), (str!"--version", .version), (str!"--check-format", .check),
    (str!"--format", .format), (str!"--validate", .validate), (str!"--verbose-validate", .verbose)]

/-- The option tuples of argparse.py 2243-2340: `(action, option_string, sep, explicit_arg)` -/
structure Opt where
  action : Option Action
  name : Str
  sep : Option Str
  explicit : Option Str
deriving DecidableEq

/-- `s.partition("=")` -/
def partition (s : Str) : Str × Str × Str :=
  match s.dropWhile (· ≠ '=') with
  | [] => (s, [], [])
  | _ :: rest => (s.takeWhile (· ≠ '='), ['='], rest)

/-- `_get_option_tuples`, argparse.py 2300-2340, for a string that begins with a dash and has another character -/
def optionTuples (s : Str) : List Opt :=
  match s with
  | '-' :: '-' :: _ =>
    let (pre, sep, explicit) := partition s
    optionActions.filterMap fun o =>
      if Str.startsWith o.1 pre then
        some ⟨some o.2, o.1, if sep = [] then none else some sep, if sep = [] then none else some explicit⟩
      else none
  | _ =>
    optionActions.filterMap fun o =>
      if o.1 = s.take 2 then some ⟨some o.2, o.1, some [], some (s.drop 2)⟩
      else if Str.startsWith o.1 s then some ⟨some o.2, o.1, none, none⟩
      else none

/-- `\.\d+`, argparse.py 1386 -/
def fraction (digit : Char → Bool) : Str → Bool
  | '.' :: es => es ≠ [] && es.all digit
  | _ => false

/-- `_negative_number_matcher.match(s)` without the line break that `$` allows at the end, argparse.py 1386.  No digit is a
full stop. -/
def negative (digit : Char → Bool) : Str → Bool
  | '-' :: ds => (ds ≠ [] && ds.all digit) || fraction digit (ds.dropWhile digit)
  | _ => false

/-- `_negative_number_matcher.match(s)`, argparse.py 1386 -/
def negativeMatch (digit : Char → Bool) (s : Str) : Bool :=
  negative digit s || (s.getLast? = some '\n' && negative digit s.dropLast)

/-- How a string is read: an argument (`A` of the pattern, and `-` for `--`), an option, or an error -/
inductive Cls where
  | arg
  | dashes
  | opt (o : Opt)
deriving DecidableEq

/-- `_parse_optional`, argparse.py 2243-2298; `none` if the option is ambiguous -/
def parseOptional (digit : Char → Bool) (s : Str) : Option Cls :=
  match s with
  | [] => some .arg
  | c :: _ =>
    if c ≠ '-' then some .arg
    else
      match optionActions.lookup s with
      | some a => some (.opt ⟨some a, s, none, none⟩)
      | none =>
        if s.length = 1 then some .arg
        else
          let (name, sep, explicit) := partition s
          match (if sep ≠ [] then optionActions.lookup name else none) with
          | some a => some (.opt ⟨some a, name, some sep, some explicit⟩)
          | none =>
            match optionTuples s with
            | _ :: _ :: _ => none
            | [o] => some (.opt o)
            | [] =>
              if negativeMatch digit s then some .arg
              else if ' ' ∈ s then some .arg
              else some (.opt ⟨none, s, none, none⟩)

/-- The first loop of `_parse_known_args`, argparse.py 1933-1959 -/
def classify (digit : Char → Bool) : List Str → Option (List (Str × Cls))
  | [] => some []
  | s :: rest =>
    if s = str!"--" then some ((s, .dashes) :: rest.map fun t => (t, .arg))
    else
      match parseOptional digit s, classify digit rest with
      | some c, some cs => some ((s, c) :: cs)
      | _, _ => none

/-- What parsing ends with: the help or the version is printed and the exit status is 0, an error and status 2, or the arguments -/
inductive Outcome where
  | help
  | version
  | error
  | args (fl : Flags) (srcs : List Str)
deriving DecidableEq, Repr

/-- `namespace`, `extras`; `seen_non_default_actions` are the actions whose flags are set -/
structure State where
  flags : Flags := ⟨false, false, false, false⟩
  src : Option (List Str) := none
  extras : List Str := []
deriving DecidableEq, Repr

/-- `take_action` for an option, argparse.py 1965-1983, with the two exclusive groups of main.py 17-39 -/
def takeAction (a : Action) (st : State) : Except Outcome State :=
  match a with
  | .help => .error .help
  | .version => .error .version
  | .check => if st.flags.format then .error .error else .ok { st with flags := { st.flags with check := true } }
  | .format => if st.flags.check then .error .error else .ok { st with flags := { st.flags with format := true } }
  | .validate => if st.flags.verbose then .error .error else .ok { st with flags := { st.flags with validate := true } }
  | .verbose => if st.flags.validate then .error .error else .ok { st with flags := { st.flags with verbose := true } }

/-- The actions of an option of one dash with something after it, and what is left of it: argparse.py 2008-2037.  `none` if an
explicit argument is refused. -/
def shortRun (a : Action) (sep : Str) : Str → Option (List Action × Option Str)
  | [] => none
  | c :: rest =>
    if sep ≠ [] || c = '-' then none
    else
      match optionActions.lookup ['-', c] with
      | some b =>
        match rest with
        | [] => some ([a, b], none)
        | '=' :: rest => (shortRun b ['='] rest).map fun r => (a :: r.1, r.2)
        | d :: rest => (shortRun b [] (d :: rest)).map fun r => (a :: r.1, r.2)
      | none => some ([a], some ('-' :: c :: rest))

/-- The loop of `consume_optional`, argparse.py 1996-2062: the actions to take and an extra; no option takes an argument -/
def optionSteps (s : Str) (o : Opt) : Option (List Action × Option Str) :=
  match o.action with
  | none => some ([], some s)
  | some a =>
    match o.explicit with
    | none => some ([a], none)
    | some e =>
      match o.name with
      | _ :: '-' :: _ => none
      | _ => shortRun a (o.sep.getD []) e

/-- `take_action` for each action, argparse.py 2067-2068 -/
def takeActions : List Action → State → Except Outcome State
  | [], st => .ok st
  | a :: as, st => do takeActions as (← takeAction a st)

/-- `consume_optional`, argparse.py 1986-2069 -/
def consumeOptional (s : Str) (o : Opt) (st : State) : Except Outcome State :=
  match optionSteps s o with
  | none => .error .error
  | some (as, extra) => takeActions as { st with extras := st.extras ++ extra.toList }

/-- Whether the string is not an option -/
def isArg (p : Str × Cls) : Bool :=
  match p.2 with
  | .opt _ => false
  | _ => true

/-- `consume_positionals`, argparse.py 2076-2092: `SRC` takes a match of `-*A[A-]*`, without the first `--` (2475-2481), if it has
not had one before.  The rest of the strings is returned. -/
def consumePositionals (l : List (Str × Cls)) (st : State) : List (Str × Cls) × State :=
  let run := l.takeWhile isArg
  match st.src with
  | some _ => (l, st)
  | none =>
    if run.dropWhile (fun p => p.2 = .dashes) = [] then (l, st)
    else (l.dropWhile isArg, { st with src := some ((run.map (·.1)).erase str!"--") })

/-- The second loop of `_parse_known_args`, argparse.py 2096-2128, which goes on while there are options, and 2130-2134 -/
def consume : Nat → List (Str × Cls) → State → Except Outcome State
  | 0, _, st => .ok st
  | n + 1, l, st =>
    if l.all isArg then
      let (rest, st) := consumePositionals l st
      .ok { st with extras := st.extras ++ rest.map (·.1) }
    else
      let (rest, st') := consumePositionals l st
      if rest.length < l.length then consume n rest st'
      else
        let st := { st with extras := st.extras ++ (l.takeWhile isArg).map (·.1) }
        match l.dropWhile isArg with
        | (s, .opt o) :: rest => do consume n rest (← consumeOptional s o st)
        | _ => .ok st

/-- `parse_args`, argparse.py 1873-1878, 1880-1916 and 1918-2175: nothing may be left over, and `SRC` is required -/
def parseArgs (digit : Char → Bool) (argv : List Str) : Outcome :=
  match classify digit argv with
  | none => .error
  | some l =>
    match consume (l.length + 1) l {} with
    | .error o => o
    | .ok st =>
      match st.src with
      | none => .error
      | some srcs => if st.extras = [] then .args st.flags srcs else .error

variable [E : PyEnv]

/-- `_main`, main.py 8-57, for the strings of the command line: exit status and final world -/
def mainArgs (env : FileEnv) (digit : Char → Bool) (argv : List Str) (w : World) : Nat × World :=
  match parseArgs digit argv with
  | .help | .version => (0, w)
  | .error => (2, w)
  | .args fl srcs => mainProg env fl srcs w

end SqlV.Args
