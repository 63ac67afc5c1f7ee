import Verif.Model.Column

/-!
# snuba_sdk/function.py
-/

namespace Verif

variable [U : PyUnicode]

/-- `function_name_re` (snuba_sdk/function.py:28): `^[a-zA-Z](\w|[().,+'":]| |\[|\]|\-)+$`. -/
def functionNameRe : Regex :=
  .seq (.cls isAlpha)
  (.seq (.plus (.alt (.cls U.isWord)
    (.alt (.cls fun c => c == '(' || c == ')' || c == '.' || c == ',' || c == '+' || c == '\'' ||
        c == '"' || c == ':')
      (.alt (.chr ' ') (.alt (.chr '[') (.alt (.chr ']') (.chr '-')))))))
  .eol)

/-- The loop over parameters in `CurriedFunction.validate` (snuba_sdk/function.py:89-97). The
`assert` at line 94 cannot fail (a bytes parameter is a scalar). -/
def checkParams : List Val → Except Err Unit
  | [] => .ok ()
  | p :: ps =>
    if p.isParamExpr then checkParams ps
    else do
      let b ← isScalar p
      if b then checkParams ps else .error .invalidFunction

/-- The name checks of `CurriedFunction.validate` (snuba_sdk/function.py:52-59). -/
def checkFunctionName (n : Str) : Except Err Unit := do
  ensure (!n.isEmpty) .invalidFunction
  ensure (functionNameRe.matches n) .invalidFunction

omit U in
/-- The initializer element check of `CurriedFunction.validate` (snuba_sdk/function.py:66-72). -/
def checkInits (xs : List Val) : Except Err Unit :=
  ensure (xs.all fun x => x.isColumn || isLiteral x) .invalidFunction

omit U in
/-- `if x is not None: if not isinstance(x, Sequence): raise … ; <element checks>`
(snuba_sdk/function.py:61-72, 84-97). -/
def checkOptSeq (check : List Val → Except Err Unit) (v : Val) : Except Err (SeqKind × List Val) :=
  match v with
  | .none => .ok (.absent, [])
  | v => match v.seq? with
    | none => .error .invalidFunction
    | some (k, xs) => do
      check xs
      .ok (k, xs)

/-- `CurriedFunction.validate` (snuba_sdk/function.py:49-97) on the raw fields; the result is the
normalised fields of the object. -/
def checkCurried (function initializers parameters alias : Val) :
    Except Err (Str × (SeqKind × List Val) × (SeqKind × List Val) × Option Str) := do
  let n ← asStr function .invalidFunction
  checkFunctionName n
  let inits ← checkOptSeq checkInits initializers
  let al ← checkAlias alias .invalidFunction
  let ps ← checkOptSeq checkParams parameters
  .ok (n, inits, ps, al)

/-- `CurriedFunction(function, initializers, parameters, alias)` (snuba_sdk/function.py:31-97). -/
def mkCurried (function initializers parameters alias : Val) : Except Err Val := do
  let (n, i, p, a) ← checkCurried function initializers parameters alias
  .ok (.curried false n i.1 i.2 p.1 p.2 a)

/-- `Function(function, parameters, alias)` (snuba_sdk/function.py:111-115): `initializers` is not an
`__init__` argument and is `None`. -/
def mkFunction (function parameters alias : Val) : Except Err Val := do
  let (n, i, p, a) ← checkCurried function .none parameters alias
  .ok (.curried true n i.1 i.2 p.1 p.2 a)

omit U in
/-- `identifier_re` (snuba_sdk/function.py:118): `^[a-zA-Z_][a-zA-Z0-9_]*$`. -/
def identifierRe : Regex :=
  .seq (.cls fun c => isAlpha c || c == '_')
  (.seq (.star (.cls fun c => isAlpha c || isDigit c || c == '_')) .eol)

omit U in
/-- `Identifier(name)` (snuba_sdk/function.py:125-131). -/
def mkIdentifier (name : Val) : Except Err Val := do
  let s ← asStr name .invalidLambda
  ensure (identifierRe.matches s) .invalidLambda
  .ok (.ident s)

omit U in
/-- The identifier loop of `Lambda.validate` (snuba_sdk/function.py:142-144). -/
def checkIdentifiers : List Val → Except Err (List Str)
  | [] => .ok []
  | v :: vs => do
    let s ← asStr v .invalidLambda
    ensure (identifierRe.matches s) .invalidLambda
    let ss ← checkIdentifiers vs
    .ok (s :: ss)

omit U in
/-- `Lambda(identifiers, transformation)` (snuba_sdk/function.py:134-146). -/
def mkLambda (identifiers transformation : Val) : Except Err Val :=
  match identifiers.listOrTuple? with
  | none => .error .invalidLambda
  | some (k, xs) => do
    let ids ← checkIdentifiers xs
    ensure transformation.isCurried .invalidLambda
    .ok (.lam k ids transformation)

end Verif
