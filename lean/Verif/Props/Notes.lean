import Verif.Lemmas.NotesSaid
import Verif.Props.Built
import Verif.Props.Columns

/-!
# The messages about any statement (C79)
-/

namespace SqlV

set_option linter.unusedSectionVars false

open Notes (tells settled Blames About)
open Printable (isStatement)
open Verdict (passes)

section

variable [E : PyEnv] [L : LawfulPyEnv E]

/-- C79: whatever the tree, validation that raises nothing gives a list of messages that the rules `tells` call for. -/
theorem C79_messages (n : Node) (errs : List Str) (h : validate n = .ok errs) : isStatement n = true ∧ tells [] n errs :=
  Notes.ends_validate n errs h

/-- C79: there is no other such list, if known columns of the same name have the same type wherever validation looks. -/
theorem C79_only_list (n : Node) (hs : settled [] n = true) (a b : List Str) (ha : tells [] n a) (hb : tells [] n b) : a = b :=
  (Notes.sure n).v [] rfl hs a b ha hb

/-- C79: so the messages are exactly these, if nothing is raised (C77). -/
theorem C79_exact (n : Node) (hs : settled [] n = true) (hp : passes false true n = true) (errs : List Str) :
    validate n = .ok errs ↔ tells [] n errs := by
  obtain ⟨es, he⟩ := C77_fine_if n hp
  refine ⟨fun h => (C79_messages n errs h).2, fun h => ?_⟩
  rw [he, C79_only_list n hs es errs (C79_messages n es he).2 h]

/-- C79: each message is about something in the tree. -/
theorem C79_blames (n : Node) (errs : List Str) (h : validate n = .ok errs) (m : Str) (hm : m ∈ errs) : Blames n m :=
  (Notes.fair n).v [] errs (C79_messages n errs h).2 m hm

/-- C79: each message that `is_valid` leaves behind is one of the six of the parser, or about tokens of the text: the columns and
positions that it names are among them, and so is the word of the clause or the connective. -/
theorem C79_text (sql : Str) (m : Str) (hm : m ∈ (SQLQuery.new sql).isValid.2.errors) :
    m ∈ [[], str!"Missing BY after GROUP", str!"Missing BY after ORDER", str!"Missing BY after PARTITION", str!"expected '('",
      str!"expected AND"] ∨ About (toTokens sql).toks m := by
  rw [(isValid_new sql).2, verdict.eq_def] at hm
  cases hp : parseSql sql with
  | error e =>
    rw [hp] at hm
    cases e with
    | parsing x =>
      have hx : m = x := by simpa using hm
      subst hx
      exact .inl (C78_messages sql m hp).2.2
    | _ => cases hm
  | ok n =>
    rw [hp] at hm
    simp only at hm
    cases hv : validate n with
    | error e =>
      rw [hv] at hm
      cases e with
      | parsing x =>
        have hx : m = x := by simpa using hm
        subst hx
        have := C77_exceptions n _ hv
        simp at this
      | _ => cases hm
    | ok errs =>
      rw [hv] at hm
      obtain ⟨ws, h1, h2⟩ := C74_nothing_read_in _ _ (parse_of_parseSql hp)
      exact .inr (Notes.about_of_blames h1 h2 (C79_blames n errs hv m hm))

end

/-- The text is read, the hypotheses of `C79_exact` hold for its tree, and these are the messages. -/
def noted (sql : Str) (errs : List Str) : Bool :=
  match parseSql (E := asciiEnv) sql with
  | .ok n => settled (E := asciiEnv) [] n && passes (E := asciiEnv) false true n &&
      decide ((@validate asciiEnv n).toOption = some errs) && decide ((@SQLQuery.isValid asciiEnv (SQLQuery.new sql)).2.errors = errs)
  | .error _ => false

/-- Texts with all kinds of messages. -/
theorem C79_cases :
    noted str!"SELECT c, y.d FROM (SELECT 1 a) x WHERE 2 GROUP BY e, 3 HAVING 'v' ORDER BY 4, f LIMIT g OFFSET -1"
      [str!"The column c was not found", str!"The column d was not found in alias y",
       str!"The argument of WHERE must be type boolean, not type int", str!"column \"e\" does not exist",
       str!"GROUP BY position 3 is not in select list", str!"The argument of HAVING must be type boolean, not type str",
       str!"ORDER BY position 4 is not in select list", str!"The column f was not found",
       str!"argument of LIMIT must not contain variables", str!"OFFSET must not be negative"] ∧
    noted str!"SELECT a FROM (SELECT 1 a) x JOIN (SELECT 2 a) y WHERE 1.5 AND NULL OR x.a IN (1, b) LIMIT -1 OFFSET 'c'"
      [str!"column \"a\" is ambiguous", str!"Missing ON or USING for join",
       str!"The argument of AND must be type boolean, not type float", str!"The argument of OR must be type boolean, not type NoneType",
       str!"The column b was not found", str!"LIMIT must not be negative", str!"argument of OFFSET must be integer"] ∧
    noted str!"SELECT a FROM (SELECT 1 a, b FROM t JOIN u) WHERE a BETWEEN 1 AND 2 AND b GROUP BY ''"
      [str!"Missing ON or USING for join", str!"column \"\" does not exist"] := by
  decide +kernel

/-- Without the hypothesis there may be two lists: `SELECT x FROM (SELECT 1 = 1 x, 1 x) WHERE x`. -/
theorem C79_two_lists : @settled asciiEnv [] twoTypes = false ∧ @tells asciiEnv [] twoTypes [] ∧
    @tells asciiEnv [] twoTypes [str!"The argument of WHERE must be type boolean, not type int"] := by
  refine ⟨by decide +kernel, ?_, ?_⟩
  · exact (@C79_messages asciiEnv _ twoTypes _ C20_two_types_depend_on_order.1).2
  · have : LawfulPyEnv { asciiEnv with setOrder := List.reverse } :=
      { lower_ascii := fun _ _ => rfl, upper_ascii := fun _ _ => rfl, isDigit_ascii := fun _ _ => rfl,
        toInt_digits := fun _ h1 h2 h3 => if_pos ⟨h1, h2, h3⟩, setOrder_perm := fun l => List.reverse_perm l }
    exact (@C79_messages { asciiEnv with setOrder := List.reverse } this twoTypes _ C20_two_types_depend_on_order.2).2

end SqlV
