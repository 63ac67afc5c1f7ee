import Verif.Py.Peg

/-!
# The grammar of snuba_sdk/mql/mql.py

`MQL_GRAMMAR` as data for the engine of `Py/Peg.lean`, rule by rule.
-/

namespace Verif

/-- `\s` of the regular expression engine that `parsimonious` uses (the `regex` package if it is installed, else `re`).
The two disagree on control characters (`regex` follows the White_Space property), so the class is a parameter, known
on the blank, on the newline and on the visible ASCII characters only. -/
class RegexSpace where
  isSpace : Char → Bool
  blank : isSpace ' ' = true
  newline : isSpace '\n' = true
  visible : ∀ c : Char, 33 ≤ c.toNat → c.toNat < 127 → isSpace c = false

/-- The whitespace of Python's `re` satisfies the laws; used in examples. -/
@[reducible] def pySpace : RegexSpace where
  isSpace := Verif.isSpace
  blank := rfl
  newline := rfl
  visible c h1 h2 := by
    have h3 : c.toNat ≠ 0x85 := by omega
    have h4 : c.toNat ≠ 0xa0 := by omega
    have h5 : c.toNat ≠ 0x1680 := by omega
    have h6 : c.toNat ≠ 0x2028 := by omega
    have h7 : c.toNat ≠ 0x2029 := by omega
    have h8 : c.toNat ≠ 0x202f := by omega
    have h9 : c.toNat ≠ 0x205f := by omega
    have h10 : c.toNat ≠ 0x3000 := by omega
    simp only [Verif.isSpace, Bool.or_eq_false_iff, Bool.and_eq_false_iff, decide_eq_false_iff_not, beq_eq_false_iff_ne, ne_eq]
    refine ⟨⟨⟨⟨⟨⟨⟨⟨⟨⟨?_, ?_⟩, h3⟩, h4⟩, h5⟩, ?_⟩, h6⟩, h7⟩, h8⟩, h9⟩, h10⟩ <;> omega

/-- The rules of the grammar, in the order of snuba_sdk/mql/mql.py:29-106; `space` is `_`. -/
inductive Rule
  | expression | exprOp | term | termOp | unary | unaryOp | coefficient | number | filter
  | filterExpr | filterTerm | filterFactor | nestedExpr | conditionOp | jointOperator
  | tagKey | tagValue | suffixWildcard | quotedSuffixWildcard | quotedStringFilter | unquotedStringFilter | stringTuple
  | quotedString | unquotedString | target | variable_ | nestedExpression
  | function | aggregate | aggregateName | arbitraryFunction | arbitraryFunctionName
  | curriedAggregate | curriedAggregateName | curriedArbitraryFunction | curriedArbitraryFunctionName
  | aggregateList | param | paramExpression | groupBy | groupByName | groupByNameTuple
  | innerFilter | metric | quotedMri | lenientMri | unquotedMri | quotedPublicName | unquotedPublicName
  | openParen | closeParen | openSquare | closeSquare | openBrace | closeBrace
  | comma | backtick | colon | and_ | or_ | quote | wildcard | space
  deriving DecidableEq, Repr

/-- `[a-zA-Z0-9_]`. -/
def isNameChar (c : Char) : Bool := isAlpha c || isDigit c || c == '_'

/-- `[a-zA-Z0-9_.]`. -/
def isKeyChar (c : Char) : Bool := isNameChar c || c == '.'

/-- `[a-z_]`. -/
def isLowerChar (c : Char) : Bool := ('a' ≤ c && c ≤ 'z') || c == '_'

/-- `[a-zA-Z0-9_]+` (snuba_sdk/mql/mql.py:69, 71, 73, 75). -/
def nameRe : Regex := (Regex.cls isNameChar).plus

/-- `[a-zA-Z0-9_.]+` (snuba_sdk/mql/mql.py:51, 64, 82). -/
def keyRe : Regex := (Regex.cls isKeyChar).plus

/-- `[0-9]+` (snuba_sdk/mql/mql.py:40). -/
def digitsRe : Regex := (Regex.cls isDigit).plus

/-- `[^"\\]` (snuba_sdk/mql/mql.py:56, 60). -/
def isPlainQuoted (c : Char) : Bool := !(c == '"' || c == '\\')

/-- `"([^"\\]*(?:\\.[^"\\]*)*)"` (snuba_sdk/mql/mql.py:56, 60); `.` is any character but the newline. -/
def quotedRe : Regex :=
  .seq (.chr '"') (.seq (.star (.cls isPlainQuoted))
    (.seq (.star (.seq (.chr '\\') (.seq (.cls (· != '\n')) (.star (.cls isPlainQuoted))))) (.chr '"')))

/-- `[^,\[\]\"}{\(\)\s\*]` (snuba_sdk/mql/mql.py:57, 61). -/
def isUnquotedChar [S : RegexSpace] (c : Char) : Bool :=
  !(c == ',' || c == '[' || c == ']' || c == '"' || c == '}' || c == '{' || c == '(' || c == ')' || S.isSpace c || c == '*')

/-- `[^,\[\]\"}{\(\)\s\*]+` (snuba_sdk/mql/mql.py:57, 61). -/
def unquotedRe [RegexSpace] : Regex := (Regex.cls isUnquotedChar).plus

/-- `[^:`]+:[^/`]+/[^@,`]+@[^`]+` (snuba_sdk/mql/mql.py:88). -/
def lenientMriRe : Regex :=
  .seq (Regex.cls fun c => !(c == ':' || c == '`')).plus (.seq (.chr ':')
    (.seq (Regex.cls fun c => !(c == '/' || c == '`')).plus (.seq (.chr '/')
      (.seq (Regex.cls fun c => !(c == '@' || c == ',' || c == '`')).plus (.seq (.chr '@')
        (Regex.cls fun c => !(c == '`')).plus)))))

/-- The characters ``(){}[]"`,`` that an unquoted MRI never contains (snuba_sdk/mql/mql.py:89). -/
def isMriStop (c : Char) : Bool :=
  c == '(' || c == ')' || c == '{' || c == '}' || c == '[' || c == ']' || c == '"' || c == '`' || c == ','

/-- The regular expression of `unquoted_mri` (snuba_sdk/mql/mql.py:89). -/
def unquotedMriRe : Regex :=
  .seq (Regex.cls fun c => !(c == ':' || isMriStop c)).plus (.seq (.chr ':')
    (.seq (Regex.cls fun c => !(c == '/' || isMriStop c)).plus (.seq (.chr '/')
      (.seq (Regex.cls fun c => !(c == '@' || isMriStop c)).plus (.seq (.chr '@')
        (Regex.cls fun c => !isMriStop c).plus)))))

/-- `([a-z_]+(?:\.[a-z_]+)*)` (snuba_sdk/mql/mql.py:91). -/
def publicNameRe : Regex :=
  .seq (Regex.cls isLowerChar).plus (.star (.seq (.chr '.') (Regex.cls isLowerChar).plus))

/-- A reference to the rule `_`. -/
abbrev ws : Peg Rule := .rule .space

/-- The expressions of the rules of `MQL_GRAMMAR` (snuba_sdk/mql/mql.py:29-106), one line per rule. A parenthesised
single member is the member itself, as in `parsimonious`. -/
def mqlGrammar [S : RegexSpace] : Rule → Peg Rule
  | .expression => .seq [.rule .term, .star (.seq [ws, .rule .exprOp, ws, .rule .term])]
  | .exprOp => .alt [.lit c!"+", .lit c!"-"]
  | .term => .seq [.rule .unary, .star (.seq [ws, .rule .termOp, ws, .rule .unary])]
  | .termOp => .alt [.lit c!"*", .lit c!"/"]
  | .unary => .seq [.opt (.rule .unaryOp), .rule .coefficient]
  | .unaryOp => .lit c!"-"
  | .coefficient => .alt [.rule .number, .rule .quotedString, .rule .filter]
  | .number => .seq [.re digitsRe, .opt (.seq [.lit c!".", .re digitsRe])]
  | .filter => .seq [.rule .target, .opt (.seq [.rule .openBrace, .opt (.seq [ws, .rule .filterExpr, ws]), .rule .closeBrace]), .opt (.rule .groupBy)]
  | .filterExpr => .seq [.rule .filterTerm, .star (.seq [ws, .rule .or_, ws, .rule .filterTerm])]
  | .filterTerm => .seq [.rule .filterFactor, .star (.seq [ws, .opt (.rule .jointOperator), ws, .rule .filterFactor])]
  | .filterFactor => .alt [.seq [.opt (.rule .conditionOp), .alt [.rule .variable_, .rule .tagKey], ws, .rule .colon, ws, .rule .tagValue], .rule .nestedExpr]
  | .nestedExpr => .seq [.rule .openParen, ws, .rule .filterExpr, ws, .rule .closeParen]
  | .conditionOp => .lit c!"!"
  | .jointOperator => .alt [.rule .comma, .rule .and_]
  | .tagKey => .re keyRe
  | .tagValue => .alt [.rule .quotedSuffixWildcard, .rule .suffixWildcard, .rule .quotedStringFilter, .rule .unquotedStringFilter, .rule .stringTuple, .rule .variable_]
  | .suffixWildcard => .seq [.rule .unquotedString, .rule .wildcard]
  | .quotedSuffixWildcard => .seq [.rule .quote, .rule .unquotedString, .rule .wildcard, .rule .quote]
  | .quotedStringFilter => .re quotedRe
  | .unquotedStringFilter => .re unquotedRe
  | .stringTuple => .seq [.rule .openSquare, ws, .alt [.rule .quotedString, .rule .unquotedString], .star (.seq [ws, .rule .comma, ws, .alt [.rule .quotedString, .rule .unquotedString]]), ws, .rule .closeSquare]
  | .quotedString => .re quotedRe
  | .unquotedString => .re unquotedRe
  | .target => .alt [.rule .variable_, .rule .nestedExpression, .rule .function, .rule .metric]
  | .variable_ => .seq [.lit c!"$", .re keyRe]
  | .nestedExpression => .seq [.rule .openParen, ws, .rule .expression, ws, .rule .closeParen]
  | .function => .seq [.alt [.rule .curriedAggregate, .rule .curriedArbitraryFunction, .rule .aggregate, .rule .arbitraryFunction], .opt (.rule .groupBy)]
  | .aggregate => .seq [.rule .aggregateName, .seq [.rule .openParen, ws, .rule .innerFilter, ws, .rule .closeParen]]
  | .aggregateName => .re nameRe
  | .arbitraryFunction => .seq [.rule .arbitraryFunctionName, .seq [.rule .openParen, .seq [ws, .rule .expression, ws], .star (.seq [ws, .rule .comma, ws, .rule .expression]), .rule .closeParen]]
  | .arbitraryFunctionName => .re nameRe
  | .curriedAggregate => .seq [.rule .curriedAggregateName, .seq [.rule .openParen, ws, .opt (.rule .aggregateList), ws, .rule .closeParen], .seq [.rule .openParen, ws, .rule .innerFilter, ws, .rule .closeParen]]
  | .curriedAggregateName => .re nameRe
  | .curriedArbitraryFunction => .seq [.rule .curriedArbitraryFunctionName, .seq [.rule .openParen, ws, .opt (.rule .aggregateList), ws, .rule .closeParen], .seq [.rule .openParen, ws, .seq [ws, .rule .expression, ws], .star (.seq [ws, .rule .comma, ws, .rule .expression]), .rule .closeParen]]
  | .curriedArbitraryFunctionName => .re nameRe
  | .aggregateList => .seq [.star (.rule .param), .rule .paramExpression]
  | .param => .seq [.rule .paramExpression, ws, .rule .comma, ws]
  | .paramExpression => .alt [.rule .number, .rule .quotedString, .rule .unquotedString]
  | .groupBy => .seq [ws, .lit c!"by", ws, .alt [.rule .groupByName, .rule .groupByNameTuple]]
  | .groupByName => .re keyRe
  | .groupByNameTuple => .seq [.rule .openParen, ws, .rule .groupByName, .star (.seq [ws, .rule .comma, ws, .rule .groupByName]), ws, .rule .closeParen]
  | .innerFilter => .seq [.rule .metric, .opt (.seq [.rule .openBrace, .opt (.seq [ws, .rule .filterExpr, ws]), .rule .closeBrace]), .opt (.rule .groupBy)]
  | .metric => .alt [.rule .quotedMri, .rule .unquotedMri, .rule .quotedPublicName, .rule .unquotedPublicName]
  | .quotedMri => .seq [.rule .backtick, .rule .lenientMri, .rule .backtick]
  | .lenientMri => .re lenientMriRe
  | .unquotedMri => .re unquotedMriRe
  | .quotedPublicName => .seq [.rule .backtick, .rule .unquotedPublicName, .rule .backtick]
  | .unquotedPublicName => .re publicNameRe
  | .openParen => .lit c!"("
  | .closeParen => .lit c!")"
  | .openSquare => .lit c!"["
  | .closeSquare => .lit c!"]"
  | .openBrace => .lit c!"{"
  | .closeBrace => .lit c!"}"
  | .comma => .lit c!","
  | .backtick => .lit c!"`"
  | .colon => .lit c!":"
  | .and_ => .alt [.lit c!"AND", .lit c!"and"]
  | .or_ => .alt [.lit c!"OR", .lit c!"or"]
  | .quote => .lit c!"\""
  | .wildcard => .lit c!"*"
  | .space => .re (.star (.cls S.isSpace))

end Verif
