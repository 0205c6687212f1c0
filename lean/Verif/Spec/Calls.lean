import Verif.Query

/-! Call sequences on a query object. -/

namespace SqlV

variable [E : PyEnv]

/-- The two public methods of `SQLQuery`. -/
inductive Call where
  | format | isValid
deriving DecidableEq

/-- What a call returns or raises. -/
inductive Answer where
  | text (r : Except PyErr Str)
  | verdict (r : Except PyErr Bool)
deriving DecidableEq

/-- One call: the answer and the object afterwards. -/
def Call.on (c : Call) (q : SQLQuery) : Answer × SQLQuery :=
  match c with
  | .format => (.text q.format.1, q.format.2)
  | .isValid => (.verdict q.isValid.1, q.isValid.2)

/-- A sequence of calls (exceptions are caught by the caller, who goes on): the answers in order, and
the object afterwards. -/
def calls : List Call → SQLQuery → List Answer × SQLQuery
  | [], q => ([], q)
  | c :: cs, q =>
    ((c.on q).1 :: (calls cs (c.on q).2).1, (calls cs (c.on q).2).2)

/-- The answer of one call on a fresh object. -/
def fresh (s : Str) (c : Call) : Answer := (c.on (SQLQuery.new s)).1

/-- The answers of the calls of one kind. -/
def Answer.isVerdict : Answer → Bool
  | .verdict _ => true
  | .text _ => false

end SqlV
