import Verif.Spec.Scalar
import Verif.Spec.Boolean
import Verif.Spec.Part

/-!
# Specification: reading the text of expressions

A reader of SnQL expressions: words, quoted strings, calls, lambdas and aliases. It is written from the syntax of
expressions, not from the printer.
-/

namespace Verif.Spec

/-- What a reader makes of an expression text. -/
inductive STree
  /-- A bare word: a number, `NULL`, the name of a column or of a function. -/
  | word (w : Str)
  /-- A quoted string, without the quotes and escapes. -/
  | text (s : Str)
  /-- An identifier in backticks. -/
  | tick (s : Str)
  /-- Something applied to arguments in parentheses; `f(a)(b)` is applied twice. -/
  | apply (f : STree) (args : List STree)
  /-- Something with an alias. -/
  | named (t : STree) (name : Str)
  /-- A lambda. -/
  | lambda (ids : List Str) (body : STree)

/-- The word at the beginning of a text, and the rest: up to a space, a comma or a parenthesis that is not in
brackets. The first argument says whether we are in brackets. -/
def spanWord : Bool → Str → Str × Str
  | _, [] => ([], [])
  | true, c :: s => (c :: (spanWord (c != ']') s).1, (spanWord (c != ']') s).2)
  | false, c :: s =>
    if c ∈ c!" ,()" then ([], c :: s) else (c :: (spanWord (c == '[') s).1, (spanWord (c == '[') s).2)

/-- An identifier after the opening backtick. -/
def readTicked (s : Str) : Option (Str × Str) :=
  (dropPrefix c!"`" (s.dropWhile (· != '`'))).map fun r => (s.takeWhile (· != '`'), r)

/-- The identifiers of a lambda after the first, up to the closing parenthesis. -/
def moreNames : Nat → Str → Option (List Str × Str)
  | 0, _ => none
  | f + 1, s =>
    match dropPrefix c!", `" s with
    | some s => do
      let (i, s) ← readTicked s
      let (is, s) ← moreNames f s
      some (i :: is, s)
    | none => (dropPrefix c!")" s).map fun r => ([], r)

/-- The identifiers of a lambda after the opening parenthesis. -/
def readNames (s : Str) : Option (List Str × Str) :=
  match dropPrefix c!"`" s with
  | some r => do
    let (i, r) ← readTicked r
    let (is, r) ← moreNames s.length r
    some (i :: is, r)
  | none => (dropPrefix c!")" s).map fun r => ([], r)

/-- An optional alias. -/
def readNamed (t : STree) (s : Str) : Option (STree × Str) :=
  match dropPrefix c!" AS `" s with
  | some s => (readTicked s).map fun p => (.named t p.1, p.2)
  | none => some (t, s)

mutual
/-- The expression at the beginning of a text, and the rest. -/
def readTree : Nat → Str → Option (STree × Str)
  | 0, _ => none
  | f + 1, s =>
    match dropPrefix c!"'" s with
    | some _ => (readQuoted '\'' s).map fun p => (.text p.1, p.2)
    | none =>
      match dropPrefix c!"`" s with
      | some r => (readTicked r).map fun p => (.tick p.1, p.2)
      | none =>
        match dropPrefix c!"(" s with
        | some r => do
          let (is, r) ← readNames r
          let r ← dropPrefix c!" -> " r
          let (b, r) ← readTree f r
          some (.lambda is b, r)
        | none =>
          if (spanWord false s).1 = [] then none
          else do
            let (t, r) ← readCalls f (.word (spanWord false s).1) (spanWord false s).2
            readNamed t r

/-- The groups of arguments after something that is called. -/
def readCalls : Nat → STree → Str → Option (STree × Str)
  | 0, _, _ => none
  | f + 1, t, s =>
    match dropPrefix c!"(" s with
    | none => some (t, s)
    | some s =>
      match dropPrefix c!")" s with
      | some s => readCalls f (.apply t []) s
      | none => do
        let (x, s) ← readTree f s
        let (xs, s) ← moreArgs f s
        readCalls f (.apply t (x :: xs)) s

/-- The arguments after the first, up to the closing parenthesis. -/
def moreArgs : Nat → Str → Option (List STree × Str)
  | 0, _ => none
  | f + 1, s =>
    match dropPrefix c!", " s with
    | some s => do
      let (x, s) ← readTree f s
      let (xs, s) ← moreArgs f s
      some (x :: xs, s)
    | none => (dropPrefix c!")" s).map fun r => ([], r)
end

/-- Read a whole text as an expression. (The number bounds the depth of recursion; a text of `n` characters needs
less.) -/
def readExpression (s : Str) : Option STree :=
  match readTree (s.length + 1) s with
  | some (t, []) => some t
  | _ => none

/-! ### What a tree says -/

/-- The word of a column: in a join the alias of its entity, a dot and its name; otherwise its name. -/
def columnWord (useAliases : Bool) (c : ColumnObj) : Str :=
  match useAliases, c.entity.bind (·.alias) with
  | true, some a => a ++ c!"." ++ c.name
  | _, _ => c.name

/-- The tree with an optional alias. -/
def withName (t : STree) : Option Str → STree
  | none => t
  | some a => .named t a

/-- The tree applied to arguments, if there are any (an absent sequence is not an empty one). -/
def withArgs (t : STree) (k : SeqKind) (xs : List STree) : STree := if k = .absent then t else .apply t xs

/-- The word of a moment: `toDateTime('…')`. -/
def momentTree (s : Str) : STree := .apply (.word c!"toDateTime") [.text s]

mutual
/-- The tree says the value: every part of the value is in its place in the tree. -/
inductive Says (useAliases : Bool) : Val → STree → Prop
  /-- None, bools, ints and floats are the words that denote them. -/
  | token (v w) : readToken w = some v → Says useAliases v (.word w)
  | str (s) : Says useAliases (.str s) (.text s)
  | bytes (bs s) : IsUtf8 bs s → Says useAliases (.bytes bs) (.text s)
  | date (d s) : readMoment (s ++ c!"')") = some (.date d, []) → Says useAliases (.date d) (momentTree s)
  /-- A datetime is the moment in UTC. -/
  | datetime (d u s) : u.tz = none → utcInstant u = utcInstant d → readMoment (s ++ c!"')") = some (.datetime u, []) →
      Says useAliases (.datetime d) (momentTree s)
  | list (xs ts) : SaysAll useAliases xs ts → Says useAliases (.list xs) (.apply (.word c!"array") ts)
  | tuple (xs ts) : SaysAll useAliases xs ts → Says useAliases (.tuple xs) (.apply (.word c!"tuple") ts)
  | column (c) : Says useAliases (.column c) (.word (columnWord useAliases c))
  | aliased (c a) : Says useAliases (.aliased c a) (withName (.word (columnWord useAliases c)) a)
  | curried (f n ik is pk ps a its pts) : SaysAll useAliases is its → SaysAll useAliases ps pts →
      Says useAliases (.curried f n ik is pk ps a) (withName (withArgs (withArgs (.word n) ik its) pk pts) a)
  | ident (n) : Says useAliases (.ident n) (.tick n)
  | lam (k ids b t) : Says useAliases b t → Says useAliases (.lam k ids b) (.lambda ids t)

/-- The trees say the values, one by one. -/
inductive SaysAll (useAliases : Bool) : List Val → List STree → Prop
  | nil : SaysAll useAliases [] []
  | cons (x xs t ts) : Says useAliases x t → SaysAll useAliases xs ts → SaysAll useAliases (x :: xs) (t :: ts)
end

/-- The expressions that are operands: scalars, columns, functions, identifiers and lambdas. -/
inductive OperandNode : Val → Prop
  | literal (v) : Literal v → OperandNode v
  | list (xs) : OperandNode (.list xs)
  | tuple (xs) : OperandNode (.tuple xs)
  | column (c) : OperandNode (.column c)
  | aliased (c a) : OperandNode (.aliased c a)
  | curried (f n ik is pk ps a) : OperandNode (.curried f n ik is pk ps a)
  | ident (n) : OperandNode (.ident n)
  | lam (k ids b) : OperandNode (.lam k ids b)

/-- The function names and entity aliases in this object have no commas. -/
def NoComma : Val → Prop
  | .column c => ∀ e a, c.entity = some e → e.alias = some a → ',' ∉ a
  | .aliased c _ => ∀ e a, c.entity = some e → e.alias = some a → ',' ∉ a
  | .curried _ n _ _ _ _ _ => ',' ∉ n
  | _ => True

/-- All names in the expression can be read, and it consists of operands only. -/
def ReadableVal (v : Val) : Prop := SmoothVal v ∧ ∀ x, Part x v → NoComma x ∧ OperandNode x

/-! ### Expressions that say the same -/

/-- A string, or bytes that encode it. -/
inductive TextOf : Val → Str → Prop
  | str (s) : TextOf (.str s) s
  | bytes (bs s) : IsUtf8 bs s → TextOf (.bytes bs) s

mutual
/-- Expressions that differ only in what SnQL cannot express: whether a text was a string or bytes, in which timezone a
moment was given, which entity a column belongs to (beyond what is in its word), whether a function was built as
`Function` or `CurriedFunction`, and whether arguments were given as list or tuple. -/
inductive Same (useAliases : Bool) : Val → Val → Prop
  | refl (v) : Same useAliases v v
  | text (v v' s) : TextOf v s → TextOf v' s → Same useAliases v v'
  | datetime (d d') : utcInstant d = utcInstant d' → Same useAliases (.datetime d) (.datetime d')
  | list (xs ys) : SameAll useAliases xs ys → Same useAliases (.list xs) (.list ys)
  | tuple (xs ys) : SameAll useAliases xs ys → Same useAliases (.tuple xs) (.tuple ys)
  | column (c c') : columnWord useAliases c = columnWord useAliases c' → Same useAliases (.column c) (.column c')
  | aliased (c c' a) : columnWord useAliases c = columnWord useAliases c' →
      Same useAliases (.aliased c a) (.aliased c' a)
  | curried (f f' n ik ik' is is' pk pk' ps ps' a) : (ik = .absent ↔ ik' = .absent) → (pk = .absent ↔ pk' = .absent) →
      SameAll useAliases is is' → SameAll useAliases ps ps' →
      Same useAliases (.curried f n ik is pk ps a) (.curried f' n ik' is' pk' ps' a)
  | lam (k k' ids b b') : Same useAliases b b' → Same useAliases (.lam k ids b) (.lam k' ids b')

/-- The same for lists of expressions. -/
inductive SameAll (useAliases : Bool) : List Val → List Val → Prop
  | nil : SameAll useAliases [] []
  | cons (x y xs ys) : Same useAliases x y → SameAll useAliases xs ys → SameAll useAliases (x :: xs) (y :: ys)
end

/-- The name of the object is not also the text of something else: columns are not called like a number or a
constant, functions not like the literals for arrays, tuples and moments; a function has parameters, an aliased
column an alias, and initializers are only there if they are given. -/
def Unambiguous (useAliases : Bool) : Val → Prop
  | .column c => ∀ v, readToken (columnWord useAliases c) ≠ some v
  | .aliased c a => a ≠ none ∧ ∀ v, readToken (columnWord useAliases c) ≠ some v
  | .curried _ n ik is pk _ _ =>
    n ≠ c!"array" ∧ n ≠ c!"tuple" ∧ n ≠ c!"toDateTime" ∧ pk ≠ .absent ∧ (ik = .absent → is = [])
  | _ => True

/-- No part of the expression is ambiguous. -/
def UnambiguousVal (useAliases : Bool) (v : Val) : Prop := ∀ x, Part x v → Unambiguous useAliases x

end Verif.Spec
