import Verif.Model.BuildMessages
import Verif.Model.MqlVisitor

/-!
# `parse_mql` with the messages of its exceptions

The functions below follow the functions of the same names in `Model/MqlVisitor.lean`, and also give the message of the exception.
-/

namespace Verif

section
variable [PyText]

/-- The text of `type(v)` (Python built-in, used at snuba_sdk/mql/mql.py:209). A factor of a filter is a named tuple; for the objects of
the metrics layer the text is left open (simplification; `C93` shows that only strings get there). -/
def V.classText : V → Str
  | .list _ => c!"<class 'list'>"
  | .obj (.val v) => v.classText
  | .factor .. => c!"<class 'snuba_sdk.mql.mql.FilterFactor'>"
  | .obj _ => PyText.cls 0

/-- What a method of the visitor says with its `InvalidMQLQueryError` (snuba_sdk/mql/mql.py:208-210, 421-422, 476-478); no other method
raises this error. -/
def ruleWords (rule : Rule) (children : List V) : Option Str :=
  match rule, children with
  | .variable_, _ => some c!"Variables are not supported yet"
  | .unary, [_, c] => some (c!"Unary expression not supported for type " ++ c.classText)
  | .arbitraryFunction, _ => some c!"Cannot use arbitrary functions on a Timeseries without an aggregate"
  | _, _ => none

variable [PyShow] [PyUnicode]

/-- The method that visits the nodes of a rule (snuba_sdk/mql/mql.py:139-592). Columns have their own messages; an `assert` has none. The
words of the other exceptions are left out (simplification; `C93` shows that none of them gets out of the parser). -/
def visitRuleMsg (rule : Rule) (text : Str) (children : List V) : Except Raised V :=
  match rule with
  | .tagKey | .groupByName => (mkColumnMsg (.str text) .none).map fun v => .obj (.val v)
  | _ =>
    match visitRule rule text children with
    | .ok v => .ok v
    | .error .invalidMQL => .error (.invalidMQL, ruleWords rule children)
    | .error e => .error (e, none)

mutual
/-- `MQLVisitor.visit` (snuba_sdk/mql/mql.py:139-155): the exception of a method goes through unchanged. -/
def visitNodeMsg : Node Rule → Except Raised V
  | .node rule text children => do
    let vs ← visitNodesMsg children
    match rule with
    | none => .ok (.list vs)
    | some r => visitRuleMsg r text vs

/-- The visits of several nodes. -/
def visitNodesMsg : List (Node Rule) → Except Raised (List V)
  | [] => .ok []
  | n :: ns => do
    let v ← visitNodeMsg n
    let vs ← visitNodesMsg ns
    .ok (v :: vs)
end

variable [RegexSpace]

/-- `parse_mql` (snuba_sdk/mql/mql.py:125-135). -/
def parseMqlMsg (mql : Str) : Except Raised MVal :=
  match parseTree (stripP isSpace mql) with
  | none => raise .invalidMQL c!"Invalid metrics syntax"
  | some tree => do
    let v ← visitNodeMsg tree
    elsewhere v.asQuery

/-- The parsing of a string query inside `try` (snuba_sdk/metrics_query_visitors.py:99-104). The text of an exception without a message
is empty (Python built-in `str`). -/
def parseCheckedMsg (s : Str) : Except Raised MVal :=
  match parseMqlMsg s with
  | .ok q => .ok q
  | .error e => raise .invalidMetricsQuery (c!"invalid MQL: " ++ e.2.getD [])

end

end Verif
