import Verif.Model.MqlGrammar
import Verif.Model.Metrics
import Verif.Model.Column
import Verif.Model.Conditions

/-!
# `MQLVisitor` and `parse_mql` of snuba_sdk/mql/mql.py

The visitor works on untyped values, as in the code: the children of a node may be lists of lists.
-/

namespace Verif

/-- What a `visit_…` method returns: a list (of the results for the children, or built by a method), an object, or a
`FilterFactor` (snuba_sdk/mql/mql.py:595-598). -/
inductive V where
  | list (xs : List V)
  | obj (m : MVal)
  | factor (value : Val) (wildcard : Bool)
  deriving Inhabited

mutual
/-- The value as an argument of an SDK constructor. Objects that are no `Val` become foreign objects, which every
constructor treats alike (simplification; the grammar puts none there). -/
def V.toVal : V → Val
  | .list xs => .list (V.toVals xs)
  | .obj (.val v) => v
  | _ => .other 0

/-- The values of several results. -/
def V.toVals : List V → List Val
  | [] => []
  | x :: xs => x.toVal :: V.toVals xs
end

mutual
/-- The value as a parameter of a `Formula`. -/
def V.toMVal : V → MVal
  | .list xs => .list (V.toMVals xs)
  | .obj m => m
  | .factor .. => .val (.other 0)

/-- The parameters of several results. -/
def V.toMVals : List V → List MVal
  | [] => []
  | x :: xs => x.toMVal :: V.toMVals xs
end

/-- A string result. -/
def V.str (s : Str) : V := .obj (.val (.str s))

/-- `bool(v)` (Python built-in): lists are true when they are not empty; the objects that occur here are true. -/
def V.truthy : V → Bool
  | .list xs => !xs.isEmpty
  | .obj (.val v) => v.truthy
  | _ => true

/-- `isinstance(v, (Timeseries, Formula))`. -/
def MVal.isQuery : MVal → Bool
  | .ts _ | .formula .. => true
  | _ => false

/-- `isinstance(v, (Formula, Timeseries, float, int, str))` (snuba_sdk/mql/mql.py:164, 184). -/
def V.isTerm : V → Bool
  | .obj (.ts _) | .obj (.formula ..) => true
  | .obj (.val (.float _)) | .obj (.val (.int _)) | .obj (.val (.bool _)) | .obj (.val (.str _)) => true
  | _ => false

/-- `assert isinstance(v, (Timeseries, Formula))`. -/
def V.asQuery : V → Except Err MVal
  | .obj m => if m.isQuery then .ok m else .error .assertion
  | _ => .error .assertion

/-- `assert isinstance(v, Timeseries)`. -/
def V.asTimeseries : V → Except Err TimeseriesObj
  | .obj (.ts t) => .ok t
  | _ => .error .assertion

/-- `v[0]` (Python built-in). -/
def V.item0 : V → Except Err V
  | .list (x :: _) => .ok x
  | .list [] => .error .indexError
  | _ => .error .typeError

/-- `AGGREGATE_PLACEHOLDER_NAME` (snuba_sdk/mql/mql.py:25). -/
def aggregatePlaceholder : Str := c!"AGGREGATE_PLACEHOLDER"

/-- `text.replace('\\"', '"')` (snuba_sdk/mql/mql.py:370, 388). -/
def unescapeQuotes : Str → Str
  | '\\' :: '"' :: cs => '"' :: unescapeQuotes cs
  | c :: cs => c :: unescapeQuotes cs
  | [] => []

/-- The number that ASCII digits denote (Python built-in `float(text)`). -/
def digitsNat (s : Str) : Nat := s.foldl (fun n c => n * 10 + (c.toNat - 48)) 0

/-- `float(text)` (Python built-in; snuba_sdk/mql/mql.py:223). Simplification: only digits with at most one point, which
is all that the rule `number` matches; everything else is taken to be a `ValueError`. -/
def floatOfText (t : Str) : Except Err PyFloat :=
  match splitOnce '.' t with
  | none => if t.all isDigit && !t.isEmpty then .ok (ofDecimal false (digitsNat t) 0) else .error .valueError
  | some (a, b) =>
    if (a ++ b).all isDigit && !(a ++ b).isEmpty then .ok (ofDecimal false (digitsNat (a ++ b)) (-(b.length : Int)))
    else .error .valueError

/-- The loop over the operators and right operands of `visit_expression` and `visit_term`
(snuba_sdk/mql/mql.py:166-169, 186-189). -/
def foldTerms (left : V) : List V → Except Err V
  | [] => .ok left
  | .list (_ :: op :: _ :: right :: _) :: rest =>
    foldTerms (.obj (.formula op.toVal (.list [left.toMVal, right.toMVal]) .none .none .none)) rest
  | .list _ :: _ => .error .valueError
  | _ :: _ => .error .typeError

/-- `visit_expression` and `visit_term` (snuba_sdk/mql/mql.py:157-171, 176-191). -/
def visitTerms : List V → Except Err V
  | [left, .list others] => if left.isTerm then foldTerms left others else .error .assertion
  | [left, _] => if left.isTerm then .error .typeError else .error .assertion
  | _ => .error .valueError

/-- `visit_expr_op` (snuba_sdk/mql/mql.py:173-174, 110-113; formula.py:23-24). -/
def visitExprOp (text : Str) : Except Err V :=
  if text = c!"+" then .ok (.str c!"plus") else if text = c!"-" then .ok (.str c!"minus") else .error .keyError

/-- `visit_term_op` (snuba_sdk/mql/mql.py:193-194, 115-118; formula.py:25-26). -/
def visitTermOp (text : Str) : Except Err V :=
  if text = c!"*" then .ok (.str c!"multiply") else if text = c!"/" then .ok (.str c!"divide") else .error .keyError

/-- `visit_unary_op` (snuba_sdk/mql/mql.py:214-215, 120-122). -/
def visitUnaryOp (text : Str) : Except Err V :=
  if text = c!"-" then .ok (.str c!"negate") else .error .keyError

/-- The negation of a coefficient (snuba_sdk/mql/mql.py:201-210); `op` is `unary_op[0]`. -/
def negateCoefficient (op : V) : V → Except Err V
  | .obj (.val (.float f)) => .ok (.obj (.val (.float f.negate)))
  | .obj (.val (.int i)) => .ok (.obj (.val (.int (-i))))
  | .obj (.val (.bool b)) => .ok (.obj (.val (.int (if b then -1 else 0))))
  | .obj (.ts t) => .ok (.obj (.formula op.toVal (.list [.ts t]) .none .none .none))
  | .obj (.formula n p a f g) => .ok (.obj (.formula op.toVal (.list [.formula n p a f g]) .none .none .none))
  | _ => .error .invalidMQL

/-- `visit_unary` (snuba_sdk/mql/mql.py:196-212). -/
def visitUnary : List V → Except Err V
  | [op, c] =>
    if op.truthy then
      match op.item0 with
      | .ok o => negateCoefficient o c
      | .error e => .error e
    else .ok c
  | _ => .error .valueError

/-- `children[0]` (snuba_sdk/mql/mql.py:220, 352). -/
def visitFirst : List V → Except Err V
  | x :: _ => .ok x
  | [] => .error .indexError

/-- `target.filters`. -/
def MVal.filters : MVal → Except Err Val
  | .ts t => .ok t.filters
  | .formula _ _ _ f _ => .ok f
  | _ => .error .attributeError

/-- `target.groupby`. -/
def MVal.groupby : MVal → Except Err Val
  | .ts t => .ok t.groupby
  | .formula _ _ _ _ g => .ok g
  | _ => .error .attributeError

/-- `target.set_filters(filters)` (snuba_sdk/timeseries.py:143-148, formula.py:110-115). -/
def MVal.setFilters (m : MVal) (v : Val) : Except Err MVal :=
  match m with
  | .ts t => (t.setFilters v).map .ts
  | m => setFormulaFilters m v

/-- `target.set_groupby(groupby)` (snuba_sdk/timeseries.py:150-157, formula.py:117-120). -/
def MVal.setGroupby (m : MVal) (v : Val) : Except Err MVal :=
  match m with
  | .ts t => (t.setGroupby v).map .ts
  | m => setFormulaGroupby m v

/-- `current if current else []`, then its items. -/
def currentItems (v : Val) : Except Err (List Val) := if v.truthy then iterItems v else .ok []

/-- Put the filters of a node in front of those of its target (snuba_sdk/mql/mql.py:239-244). -/
def addFilter (packed : V) (target : MVal) : Except Err MVal :=
  match packed with
  | .list (.list (_ :: cond :: _) :: _) => do
    let cur ← target.filters
    let items ← currentItems cur
    target.setFilters (.list (cond.toVal :: items))
  | .list _ => .error .valueError
  | _ => .error .typeError

/-- `if not isinstance(group_by, list): group_by = [group_by]` (snuba_sdk/mql/mql.py:247-248, 331-332, 526-527). -/
def groupItems : V → List Val
  | .list xs => V.toVals xs
  | v => [v.toVal]

/-- Put the groupby of a node in front of that of its target (snuba_sdk/mql/mql.py:246-251, 330-335). -/
def addGroupby (packed : V) (target : MVal) : Except Err MVal := do
  let g ← packed.item0
  let cur ← target.groupby
  let items ← currentItems cur
  target.setGroupby (.list (groupItems g ++ items))

/-- `if filters: _, packed_filters, _ = filters[0]` (snuba_sdk/mql/mql.py:232-234, 512-514); absent filters are `[]`. -/
def packedFilters (filters : V) : Except Err V :=
  if filters.truthy then
    match filters.item0 with
    | .ok (.list [_, p, _]) => .ok p
    | .ok (.list _) => .error .valueError
    | .ok _ => .error .typeError
    | .error e => .error e
  else .ok (.list [])

/-- The filters if there are any (snuba_sdk/mql/mql.py:239). -/
def addFilterIf (packed : V) (target : MVal) : Except Err MVal :=
  if packed.truthy then addFilter packed target else .ok target

/-- The groupby if there is one (snuba_sdk/mql/mql.py:245, 329). -/
def addGroupbyIf (packed : V) (target : MVal) : Except Err MVal :=
  if packed.truthy then addGroupby packed target else .ok target

/-- `visit_filter` (snuba_sdk/mql/mql.py:225-252). -/
def visitFilter : List V → Except Err V
  | target :: filters :: groupbys :: _ => do
    let packed ← packedFilters filters
    let t ← target.asQuery
    let t ← addFilterIf packed t
    let t ← addGroupbyIf groupbys t
    .ok (.obj t)
  | _ => .error .valueError

/-- `(v for _, _, _, v in others)` (snuba_sdk/mql/mql.py:260, 394, 404). -/
def fourths : List V → Except Err (List V)
  | [] => .ok []
  | .list [_, _, _, v] :: rest => do
    let vs ← fourths rest
    .ok (v :: vs)
  | .list _ :: _ => .error .valueError
  | _ :: _ => .error .typeError

/-- The items of a list result. -/
def V.items : V → Except Err (List V)
  | .list xs => .ok xs
  | _ => .error .typeError

/-- `_filter` (snuba_sdk/mql/mql.py:254-271). -/
def visitFilters (op : BooleanOp) : List V → Except Err V
  | first :: others :: _ => do
    let xs ← others.items
    let vs ← fourths xs
    match vs with
    | [] => .ok first
    | _ :: _ =>
      match op with
      | .and => (mkAnd (.list (V.toVals (first :: vs)))).map fun v => .obj (.val v)
      | .or => (mkOr (.list (V.toVals (first :: vs)))).map fun v => .obj (.val v)
  | _ => .error .valueError

/-- `not condition_op` and `len(condition_op) == 1 and condition_op[0] == Op.NOT` (snuba_sdk/mql/mql.py:298-304):
whether the condition is negated; `none` if neither test holds. -/
def negated? : V → Option Bool
  | .list [] => some false
  | .list [.obj (.val (.op .not))] => some true
  | _ => none

/-- The operator of a filter (snuba_sdk/mql/mql.py:297-310). -/
def filterOp (neg : Option Bool) (wildcard : Bool) (rhs : Val) : Op :=
  match neg, wildcard, rhs with
  | some false, true, .str _ => .like
  | some false, _, .list _ => .in_
  | some true, false, .str _ => .neq
  | some true, false, .list _ => .notIn
  | some true, true, .str _ => .notLike
  | _, _, _ => .eq

/-- `visit_filter_factor` (snuba_sdk/mql/mql.py:283-312). -/
def visitFilterFactor [PyUnicode] : List V → Except Err V
  | .obj (.val v) :: _ => if v.isCondition then .ok (.obj (.val v)) else .error .typeError
  | .list [neg, lhs, _, _, _, .factor rhs wildcard] :: _ => do
    let l ← lhs.item0
    let c ← mkCondition l.toVal (.op (filterOp (negated? neg) wildcard rhs)) rhs
    .ok (.obj (.val c))
  | .list [_, _, _, _, _, _] :: _ => .error .attributeError
  | .list _ :: _ => .error .valueError
  | _ :: _ => .error .typeError
  | [] => .error .valueError

/-- `visit_nested_expr` (snuba_sdk/mql/mql.py:314-318). -/
def visitNestedExpr : List V → Except Err V
  | _ :: _ :: e :: _ => .ok e
  | _ => .error .valueError

/-- `visit_function` (snuba_sdk/mql/mql.py:320-336). -/
def visitFunction : List V → Except Err V
  | [targets, groupbys] => do
    let t ← targets.item0
    let t ← t.asQuery
    let t ← addGroupbyIf groupbys t
    .ok (.obj t)
  | _ => .error .valueError

/-- `visit_group_by` (snuba_sdk/mql/mql.py:338-341). -/
def visitGroupBy (children : List V) : Except Err V :=
  match children.getLast? with
  | some g => g.item0
  | none => .error .valueError

/-- `visit_condition_op` (snuba_sdk/mql/mql.py:343-344); the grammar has no other operator. -/
def visitConditionOp (text : Str) : Except Err V :=
  if text = c!"!" then .ok (.obj (.val (.op .not))) else .error .valueError

/-- `visit_tag_key` and `visit_group_by_name` (snuba_sdk/mql/mql.py:346-347, 397-398). -/
def visitColumn [PyUnicode] (text : Str) : Except Err V :=
  (mkColumn (.str text) .none).map fun v => .obj (.val v)

/-- `f"{text}*"` as a wildcard value (snuba_sdk/mql/mql.py:358, 364); the text is always a string. -/
def wildcardFactor : V → Except Err V
  | .obj (.val (.str s)) => .ok (.factor (.str (s ++ ['*'])) true)
  | _ => .error .typeError

/-- `visit_quoted_suffix_wildcard_tag_value` (snuba_sdk/mql/mql.py:354-358). -/
def visitQuotedWildcard : List V → Except Err V
  | [_, t, _, _] => wildcardFactor t
  | _ => .error .valueError

/-- `visit_suffix_wildcard_tag_value` (snuba_sdk/mql/mql.py:360-364). -/
def visitWildcard : List V → Except Err V
  | [t, _] => wildcardFactor t
  | _ => .error .valueError

/-- `[v[0] for v in …]` (snuba_sdk/mql/mql.py:394). -/
def firsts : List V → Except Err (List V)
  | [] => .ok []
  | v :: vs => do
    let x ← v.item0
    let xs ← firsts vs
    .ok (x :: xs)

/-- `visit_string_tuple` (snuba_sdk/mql/mql.py:391-395). -/
def visitStringTuple : List V → Except Err V
  | [_, _, first, others, _, _] => do
    let xs ← others.items
    let vs ← fourths xs
    let items ← firsts (first :: vs)
    .ok (.factor (.list (V.toVals items)) false)
  | _ => .error .valueError

/-- `visit_group_by_name_tuple` (snuba_sdk/mql/mql.py:400-404). -/
def visitGroupTuple : List V → Except Err V
  | [_, _, first, others, _, _] => do
    let xs ← others.items
    let vs ← fourths xs
    .ok (.list (first :: vs))
  | _ => .error .valueError

/-- `if isinstance(children[0], list): target = children[0][0]` (snuba_sdk/mql/mql.py:412-414). -/
def unwrapTarget : V → Except Err V
  | .list xs => (V.list xs).item0
  | v => .ok v

/-- `Timeseries(metric=metric, aggregate=AGGREGATE_PLACEHOLDER_NAME)` (snuba_sdk/mql/mql.py:416, 518). -/
def placeholderSeries (m : MetricObj) : Except Err TimeseriesObj :=
  mkTimeseries (.metric m) (.str aggregatePlaceholder) .none .none .none

/-- A metric becomes a timeseries, a query stays (snuba_sdk/mql/mql.py:415-419). -/
def targetQuery : V → Except Err V
  | .obj (.metric m) => (placeholderSeries m).map fun t => .obj (.ts t)
  | v => v.asQuery.map .obj

/-- `visit_target` (snuba_sdk/mql/mql.py:406-419). -/
def visitTarget : List V → Except Err V
  | c :: _ => do
    let t ← unwrapTarget c
    targetQuery t
  | [] => .error .indexError

/-- `visit_nested_expression` (snuba_sdk/mql/mql.py:424-428). -/
def visitNestedExpression : List V → Except Err V
  | _ :: _ :: e :: _ => e.asQuery.map .obj
  | _ => .error .indexError

/-- `target.aggregate == AGGREGATE_PLACEHOLDER_NAME`. -/
def TimeseriesObj.isPlaceholder (t : TimeseriesObj) : Bool :=
  match t.aggregate with
  | .str s => s == aggregatePlaceholder
  | _ => false

/-- `visit_aggregate` (snuba_sdk/mql/mql.py:430-446). -/
def visitAggregate : List V → Except Err V
  | [name, .list (_ :: _ :: target :: _ :: _)] => do
    let t ← target.asTimeseries
    if t.isPlaceholder then (t.setAggregate name.toVal .none).map fun t => .obj (.ts t)
    else .ok (.obj (.formula name.toVal (.list [.ts t]) .none .none .none))
  | [_, .list _] => .error .valueError
  | [_, _] => .error .typeError
  | _ => .error .valueError

/-- `agg_param_list[0] if agg_param_list else []` (snuba_sdk/mql/mql.py:458, 490). -/
def aggregateParamsOf (v : V) : Except Err V := if v.truthy then v.item0 else .ok (.list [])

/-- `visit_curried_aggregate` (snuba_sdk/mql/mql.py:448-460). -/
def visitCurriedAggregate : List V → Except Err V
  | [name, .list (_ :: _ :: params :: _), .list (_ :: _ :: target :: _ :: _)] => do
    let ps ← aggregateParamsOf params
    let t ← target.asTimeseries
    (t.setAggregate name.toVal ps.toVal).map fun t => .obj (.ts t)
  | [_, .list _, .list _] => .error .valueError
  | [_, _, _] => .error .typeError
  | _ => .error .valueError

/-- `[param[-1] for param in params]` (snuba_sdk/mql/mql.py:470, 493). -/
def lasts : List V → Except Err (List V)
  | [] => .ok []
  | .list xs :: rest => do
    let v ← (match xs.getLast? with | some v => .ok v | none => .error .indexError : Except Err V)
    let vs ← lasts rest
    .ok (v :: vs)
  | _ :: _ => .error .typeError

/-- `isinstance(target, Timeseries) and target.aggregate == AGGREGATE_PLACEHOLDER_NAME`
(snuba_sdk/mql/mql.py:472-475, 494-497). -/
def V.isPlaceholderSeries : V → Bool
  | .obj (.ts t) => t.isPlaceholder
  | _ => false

/-- `visit_arbitrary_function` (snuba_sdk/mql/mql.py:462-479). -/
def visitArbitraryFunction : List V → Except Err V
  | [name, .list (_ :: .list [_, target, _] :: .list params :: _)] => do
    let ps ← lasts params
    if target.isPlaceholderSeries then .error .invalidMQL
    else .ok (.obj (.formula name.toVal (.list (V.toMVals (target :: ps))) .none .none .none))
  | [_, .list _] => .error .valueError
  | [_, _] => .error .typeError
  | _ => .error .valueError

/-- `visit_curried_arbitrary_function` (snuba_sdk/mql/mql.py:481-505). -/
def visitCurriedFunction : List V → Except Err V
  | [name, .list (_ :: _ :: aggregateParams :: _), .list (_ :: _ :: .list [_, target, _] :: .list params :: _)] => do
    let as ← aggregateParamsOf aggregateParams
    let ps ← lasts params
    match target with
    | .obj (.ts t) =>
      if t.isPlaceholder then (t.setAggregate name.toVal as.toVal).map fun t => .obj (.ts t)
      else .ok (.obj (.formula name.toVal (.list (V.toMVals (target :: ps))) as.toVal .none .none))
    | _ => .ok (.obj (.formula name.toVal (.list (V.toMVals (target :: ps))) as.toVal .none .none))
  | [_, .list _, .list _] => .error .valueError
  | [_, _, _] => .error .typeError
  | _ => .error .valueError

/-- `timeseries.set_filters([filter_condition])` if there are filters (snuba_sdk/mql/mql.py:521-523). -/
def innerFilters (packed : V) (t : TimeseriesObj) : Except Err TimeseriesObj :=
  if packed.truthy then
    match packed with
    | .list (.list (_ :: cond :: _) :: _) => t.setFilters (.list [cond.toVal])
    | .list _ => .error .valueError
    | _ => .error .typeError
  else .ok t

/-- `timeseries.set_groupby(group_by)` if there is one (snuba_sdk/mql/mql.py:524-528). -/
def innerGroupby (packed : V) (t : TimeseriesObj) : Except Err TimeseriesObj :=
  if packed.truthy then do
    let g ← packed.item0
    t.setGroupby (.list (groupItems g))
  else .ok t

/-- `metric = metric[0]; assert isinstance(metric, Metric)` (snuba_sdk/mql/mql.py:516-517). -/
def V.metric0 (v : V) : Except Err MetricObj := do
  let m ← v.item0
  match m with
  | .obj (.metric m) => .ok m
  | _ => .error .assertion

/-- `visit_inner_filter` (snuba_sdk/mql/mql.py:507-529). -/
def visitInnerFilter : List V → Except Err V
  | metric :: filters :: groupbys :: _ => do
    let packed ← packedFilters filters
    let m ← metric.metric0
    let t ← placeholderSeries m
    let t ← innerFilters packed t
    let t ← innerGroupby groupbys t
    .ok (.obj (.ts t))
  | _ => .error .valueError

/-- `assert isinstance(param, (str, int, float))` (snuba_sdk/mql/mql.py:536, 546). -/
def V.isParam : V → Bool
  | .obj (.val (.str _)) | .obj (.val (.int _)) | .obj (.val (.bool _)) | .obj (.val (.float _)) => true
  | _ => false

/-- `visit_param` (snuba_sdk/mql/mql.py:531-537). -/
def visitParam : List V → Except Err V
  | p :: _ => if p.isParam then .ok p else .error .assertion
  | [] => .error .valueError

/-- `visit_param_expression` (snuba_sdk/mql/mql.py:539-547). -/
def visitParamExpression : List V → Except Err V
  | [p] => if p.isParam then .ok p else .error .assertion
  | _ => .error .valueError

/-- `visit_aggregate_list` (snuba_sdk/mql/mql.py:549-556); the last parameter is never `None`. -/
def visitAggregateList : List V → Except Err V
  | [.list ps, p] => .ok (.list (ps ++ [p]))
  | [_, _] => .error .attributeError
  | _ => .error .valueError

/-- `Metric(mri=text)` (snuba_sdk/mql/mql.py:572-579). -/
def visitMri (text : Str) : Except Err V := (mkMetric .none (.str text) .none).map fun m => .obj (.metric m)

/-- `Metric(public_name=text)` (snuba_sdk/mql/mql.py:581-585). -/
def visitPublicName (text : Str) : Except Err V := (mkMetric (.str text) .none .none).map fun m => .obj (.metric m)

/-- The method that visits the nodes of a rule; rules without a method of their own have `generic_visit`
(snuba_sdk/mql/mql.py:150, 590-592). The argument `text` is `node.text`. -/
def visitRule [PyUnicode] (rule : Rule) (text : Str) (children : List V) : Except Err V :=
  match rule with
  | .expression | .term => visitTerms children
  | .exprOp => visitExprOp text
  | .termOp => visitTermOp text
  | .unary => visitUnary children
  | .unaryOp => visitUnaryOp text
  | .coefficient | .tagValue => visitFirst children
  | .number => (floatOfText text).map fun f => .obj (.val (.float f))
  | .filter => visitFilter children
  | .filterExpr => visitFilters .or children
  | .filterTerm => visitFilters .and children
  | .filterFactor => visitFilterFactor children
  | .nestedExpr => visitNestedExpr children
  | .function => visitFunction children
  | .groupBy => visitGroupBy children
  | .conditionOp => visitConditionOp text
  | .tagKey | .groupByName => visitColumn text
  | .quotedSuffixWildcard => visitQuotedWildcard children
  | .suffixWildcard => visitWildcard children
  | .quotedStringFilter => .ok (.factor (.str (unescapeQuotes (slice1m1 text))) false)
  | .unquotedStringFilter => .ok (.factor (.str text) false)
  | .quotedString => .ok (.str (unescapeQuotes (slice1m1 text)))
  | .stringTuple => visitStringTuple children
  | .groupByNameTuple => visitGroupTuple children
  | .target => visitTarget children
  | .variable_ => .error .invalidMQL
  | .nestedExpression => visitNestedExpression children
  | .aggregate => visitAggregate children
  | .curriedAggregate => visitCurriedAggregate children
  | .arbitraryFunction => visitArbitraryFunction children
  | .curriedArbitraryFunction => visitCurriedFunction children
  | .innerFilter => visitInnerFilter children
  | .param => visitParam children
  | .paramExpression => visitParamExpression children
  | .aggregateList => visitAggregateList children
  | .unquotedString | .aggregateName | .curriedAggregateName | .arbitraryFunctionName | .curriedArbitraryFunctionName =>
    .ok (.str text)
  | .quotedMri | .quotedPublicName =>
    if rule = .quotedMri then visitMri (slice1m1 text) else visitPublicName (slice1m1 text)
  | .lenientMri | .unquotedMri => visitMri text
  | .unquotedPublicName => visitPublicName text
  | _ => .ok (.list children)

mutual
/-- `MQLVisitor.visit` (snuba_sdk/mql/mql.py:139-155): the children first, from left to right, then the method. -/
def visitNode [PyUnicode] : Node Rule → Except Err V
  | .node rule text children => do
    let vs ← visitNodes children
    match rule with
    | none => .ok (.list vs)
    | some r => visitRule r text vs

/-- The visits of several nodes. -/
def visitNodes [PyUnicode] : List (Node Rule) → Except Err (List V)
  | [] => .ok []
  | n :: ns => do
    let v ← visitNode n
    let vs ← visitNodes ns
    .ok (v :: vs)
end

/-- A number of nested calls that suffices for texts of the given length (see `C41`). -/
def parseDepth (n : Nat) : Nat := 20 * n + 20

/-- `MQL_GRAMMAR.parse(text)` (`parsimonious` `Grammar.parse` and `Expression.parse`): match the first rule, and reject
if text is left over. The outcome `out` is turned into a failure here; `C41` shows that it does not occur. -/
def parseTree [RegexSpace] (text : Str) : Option (Node Rule) :=
  match pegRun mqlGrammar (parseDepth text.length) (.rule .expression) text with
  | .ok nd [] => some nd
  | _ => none

/-- `parse_mql` (snuba_sdk/mql/mql.py:125-135). -/
def parseMql [PyUnicode] [RegexSpace] (mql : Str) : Except Err MVal :=
  match parseTree (stripP isSpace mql) with
  | none => .error .invalidMQL
  | some tree => do
    let v ← visitNode tree
    v.asQuery

end Verif
