{"id": "C01", "title": "SnQL string literals are contained and faithful", "statement": "For every Python str s, the text the SDK emits for s as a SnQL literal starts with a single quote, and a reader that scans a single-quoted literal with backslash escapes stops exactly at the end of the emitted text whatever follows it, and de-escapes it (\\\\ -> \\, \\' -> ', \\n -> newline) back to s. So no string value can end its literal early or change the surrounding query.", "quantifier": "all strings s and all following texts", "why_tests_cant": "The number of interleavings of quotes, backslashes and newlines is unbounded; tests sample a handful.", "anchors": ["snuba_sdk/visitors.py:Translation._stringify_scalar"]}
{"id": "C02", "title": "MQL string literals are contained", "statement": "For every str s, the text emitted for s as an MQL literal is matched in full, and no further, by the MQL grammar's quoted_string token whatever text follows, and contains no raw newline. When s has no backslash and no newline, the SDK's own parser turns the token back into s.", "quantifier": "all strings s and all following texts", "why_tests_cant": "Same unbounded escaping space; also the printer and the parser escape rules are written independently of each other.", "anchors": ["snuba_sdk/visitors.py:Translation._stringify_scalar", "snuba_sdk/mql/mql.py:MQL_GRAMMAR quoted_string", "snuba_sdk/mql/mql.py:MQLVisitor.visit_quoted_string"]}
{"id": "C03", "title": "Scalar literals are unambiguous", "statement": "Two plain scalar values (None, bool, int, float, str, date, naive datetime, and arbitrarily nested lists and tuples of them) that the SDK renders to the same SnQL text are the same value; arrays and tuples of any nesting can be read back from the text.", "quantifier": "all pairs of plain scalar values of any nesting depth", "why_tests_cant": "Injectivity is a statement about all pairs of values.", "anchors": ["snuba_sdk/visitors.py:Translation._stringify_scalar"]}
{"id": "C04", "title": "Datetime literals denote the same instant in UTC", "statement": "For every datetime, the emitted toDateTime('...') literal read as naive UTC denotes exactly the instant of the datetime: aware datetimes are shifted by their UTC offset (two aware datetimes for the same instant give the same text, and different instants give different texts), naive ones are printed unchanged; the only failure is leaving the representable year range.", "quantifier": "all datetimes (year 1..9999, microsecond resolution) and all UTC offsets strictly inside 24h", "why_tests_cant": "Calendar carries (month/leap-year/year boundaries) form a huge space.", "anchors": ["snuba_sdk/visitors.py:Translation._stringify_scalar"]}
{"id": "C05", "title": "Plain literals never contain a raw newline", "statement": "The text emitted for any plain scalar (including nested lists/tuples of strings) contains no newline character, in SnQL and in MQL mode.", "quantifier": "all plain scalar values", "why_tests_cant": "Quantifies over every string content and nesting.", "anchors": ["snuba_sdk/visitors.py:Translation._stringify_scalar"]}
{"id": "C06", "title": "bytes literals equal the literal of their UTF-8 text, or fail", "statement": "For a bytes value that is the UTF-8 encoding of s the emitted literal is the literal of s; a bytes value that is not valid UTF-8 makes serialisation raise rather than emit corrupted text.", "quantifier": "all byte strings", "why_tests_cant": "The space of byte strings is infinite; invalid sequences are easy to miss.", "anchors": ["snuba_sdk/visitors.py:Translation._stringify_scalar"]}
{"id": "C07", "title": "Numeric clause bounds", "statement": "Limit accepts exactly the ints 1..10000, Offset exactly the ints >= 0, Granularity exactly the ints >= 1, LimitBy exactly a non-empty sequence of Columns with an int count in 1..10000; everything else (any other type or value) raises InvalidExpressionError; Totals/Extrapolate accept exactly booleans.", "quantifier": "all Python values passed to the constructors", "why_tests_cant": "Exactness over an unbounded set of values and types.", "anchors": ["snuba_sdk/expressions.py:_validate_int_literal,Limit,Offset,Granularity,Totals,Extrapolate", "snuba_sdk/orderby.py:LimitBy"]}
{"id": "C08", "title": "Column names: accepted language and subscript decomposition", "statement": "Column(name) succeeds exactly for strings of the form ident or ident[key] (ident: a letter or underscore followed by word characters . : / @; key: anything without brackets), optionally followed by one newline. When it succeeds and there is no trailing newline, subscriptable/key are both None for the first form, and name == subscriptable + '[' + key + ']' for the second.", "quantifier": "all strings", "why_tests_cant": "A regular language over all strings, plus a decomposition identity for every member.", "anchors": ["snuba_sdk/column.py:column_name_re,Column.validate"]}
{"id": "C09", "title": "Names cannot smuggle syntax", "statement": "Every accepted alias is non-empty and contains no backtick, quote or whitespace other than possibly one final newline (so it cannot leave its backticks); every accepted Identifier or lambda argument is [A-Za-z_][A-Za-z0-9_]*, every accepted Entity/Storage name is [A-Za-z_]+, in each case possibly followed by one newline.", "quantifier": "all strings offered as alias, identifier, entity or storage name", "why_tests_cant": "Regular-language containment over all strings; the $-matches-before-newline corner is routinely missed by samples.", "anchors": ["snuba_sdk/expressions.py:ALIAS_RE", "snuba_sdk/function.py:identifier_re,function_name_re", "snuba_sdk/entity.py:entity_name_re", "snuba_sdk/storage.py:storage_name_re"]}
{"id": "C10", "title": "Sequences hold only scalars and expressions, at every depth", "statement": "A list or tuple is accepted as a function parameter or condition right-hand side exactly when every element at every nesting depth is a literal, a nested list/tuple, or an SDK expression; otherwise constructing the Function/Condition raises InvalidExpressionError.", "quantifier": "all nested sequences of Python values", "why_tests_cant": "Unbounded nesting.", "anchors": ["snuba_sdk/expressions.py:is_scalar", "snuba_sdk/function.py:CurriedFunction.validate", "snuba_sdk/conditions.py:Condition.validate"]}
{"id": "C11", "title": "Conditions are well-formed by construction", "statement": "A Condition can be built exactly when its lhs is a Column/CurriedFunction/Function, its op is an Op, a unary op (IS NULL / IS NOT NULL) has no rhs, and the rhs is a Column, function or scalar; a BooleanCondition/And/Or exactly when it has a BooleanOp and a list/tuple of at least two conditions.", "quantifier": "all Python values passed to the constructors", "why_tests_cant": "Quantifies over all values and nestings.", "anchors": ["snuba_sdk/conditions.py:Condition.validate,BooleanCondition.validate"]}
{"id": "C12", "title": "Join aliases are unambiguous", "statement": "A Join can be built exactly when it has at least one Relationship and no alias is used for two different entity names anywhere in its relationships.", "quantifier": "all lists of relationships of any length", "why_tests_cant": "Pairs at arbitrary distance in an unbounded list; iteration order of a set.", "anchors": ["snuba_sdk/relationships.py:Join.validate,Join.get_alias_mappings"]}
{"id": "C13", "title": "Constructed expressions stay valid", "statement": "Any expression obtained from the SDK's constructors passes its own validate() again, so Query.validate() never rejects a query because of an individual expression that construction accepted.", "quantifier": "all expressions built by any composition of constructor calls", "why_tests_cant": "Induction over all constructor compositions.", "anchors": ["snuba_sdk/query_visitors.py:Validator", "snuba_sdk/expressions.py:Expression.__post_init__"]}
{"id": "C14", "title": "SnQL clause order and presence", "statement": "The serialised query is the space-joined sequence MATCH, SELECT, BY, ARRAY JOIN, WHERE, HAVING, ORDER BY, LIMIT n BY, LIMIT, OFFSET, GRANULARITY, TOTALS in exactly this order; a clause appears exactly when its field is set (and, for list fields, non-empty), at every subquery depth.", "quantifier": "all queries of any subquery depth", "why_tests_cant": "2^11 clause combinations times unbounded nesting and list contents.", "anchors": ["snuba_sdk/query_visitors.py:QueryVisitor.visit,Printer", "snuba_sdk/query.py:Query"]}
{"id": "C15", "title": "Columns are alias-qualified exactly in join queries", "statement": "In a query whose MATCH is a Join every column with an entity is printed as alias.name and every joined entity as alias: name; in any other query no alias prefix is printed; a subquery's setting never leaks into the enclosing query or vice versa.", "quantifier": "all queries, expression nestings and subquery depths", "why_tests_cant": "Unbounded nesting of expressions and subqueries.", "anchors": ["snuba_sdk/query_visitors.py:Printer.visit", "snuba_sdk/visitors.py:entity_aliases,Translation._visit_column,Translation._visit_entity"]}
{"id": "C16", "title": "Boolean structure survives printing", "statement": "Reading the printed WHERE/HAVING text with the usual precedence (AND binds tighter than OR, parentheses group) gives back exactly the And/Or tree of the condition list, for any nesting and any number of conditions: no condition is captured by a neighbouring operator.", "quantifier": "all condition trees of any shape", "why_tests_cant": "Unbounded tree shapes.", "anchors": ["snuba_sdk/visitors.py:Translation._visit_boolean_condition", "snuba_sdk/query_visitors.py:Printer._visit_where"]}
{"id": "C17", "title": "Serialisation has no memory", "statement": "serialize()/print() of a Query depends only on the query: any sequence of earlier serialisations, including ones that raised midway, leaves the result of a later one unchanged.", "quantifier": "all histories of serialisations (successful or failing) and all queries", "why_tests_cant": "Quantifies over histories and crash points.", "anchors": ["snuba_sdk/query.py:Query.serialize", "snuba_sdk/query_visitors.py:Printer", "snuba_sdk/visitors.py:entity_aliases"]}
{"id": "C18", "title": "serialize() fails exactly when validate() fails", "statement": "Query.serialize() and print() raise whenever validate() raises, with the same error; and for a query built from SDK expressions that validates, serialisation always produces a text, the only exceptions being undecodable bytes (UnicodeDecodeError), datetimes whose UTC time is out of range (OverflowError), datetimes whose time zone knows no offset and Extrapolate objects (AssertionError). When it raises, some part of a clause is to blame for that very exception.", "quantifier": "all queries built from constructor-made expressions", "why_tests_cant": "Totality over all expression trees.", "anchors": ["snuba_sdk/query.py:Query.serialize,Query.print", "snuba_sdk/query_visitors.py:Validator,Printer"]}
{"id": "C19", "title": "print() and serialize() agree up to line breaks", "statement": "For a query whose where clause the OR-optimiser leaves alone, print() is serialize() with the top-level clause separators replaced by newlines; subqueries stay on one line. For any other query the two still differ in the where clause only.", "quantifier": "all queries", "why_tests_cant": "Holds for every clause combination and nesting.", "anchors": ["snuba_sdk/query.py:Query.print", "snuba_sdk/query_visitors.py:Printer._combine"]}
{"id": "C20", "title": "SAMPLE clause denotes the requested rate", "statement": "For an accepted Entity/Storage sample the printed SAMPLE value is a decimal within 0.0000005 of the requested rate, with no exponent, and exactly n.0 for an integral rate.", "quantifier": "all positive finite floats", "why_tests_cant": "All floats.", "anchors": ["snuba_sdk/visitors.py:Translation._visit_entity,_visit_storage", "snuba_sdk/entity.py:Entity.validate"]}
{"id": "C21", "title": "Builder setters change one field only", "statement": "Every Query.set_X either raises and has no effect or returns a query that differs from the original only in field X, which holds the given value; hence setters of different fields commute and the last write to a field wins.", "quantifier": "all queries, all arguments, all sequences of setter calls", "why_tests_cant": "All call sequences.", "anchors": ["snuba_sdk/query.py:Query._replace,set_*"]}
{"id": "C22", "title": "A reachable query never has an invalid subquery", "statement": "Whatever sequence of constructor and setter calls produced a Query, if its match is a Query then that inner query validates, and so do all queries nested inside it.", "quantifier": "all sequences of constructor/setter calls", "why_tests_cant": "Invariant over all histories.", "anchors": ["snuba_sdk/query.py:Query.__post_init__,set_match"]}
{"id": "C23", "title": "What validate() guarantees", "statement": "If Query.validate() succeeds then at every subquery level the select list is non-empty and totals=True occurs only with a non-empty groupby.", "quantifier": "all queries of any depth", "why_tests_cant": "Unbounded depth.", "anchors": ["snuba_sdk/query_visitors.py:Validator._combine"]}
{"id": "C24", "title": "The column search finds exactly the referenced columns", "statement": "Searching an expression or a query for columns returns exactly the columns that occur in it outside list/tuple values: through functions (parameters and initializers), lambdas, aliases, conditions, boolean conditions, order by and limit by at any depth. (Columns inside list/tuple values are not found.)", "quantifier": "all expressions and queries", "why_tests_cant": "Unbounded expression trees.", "anchors": ["snuba_sdk/visitors.py:ExpressionFinder", "snuba_sdk/query_visitors.py:ExpressionSearcher"]}
{"id": "C25", "title": "Outer queries reference only subquery outputs", "statement": "If validate() succeeds on a query over a subquery, every column found in the outer query is the name of a column, or the alias of a function, in the subquery's select list.", "quantifier": "all nested queries", "why_tests_cant": "All query shapes.", "anchors": ["snuba_sdk/query_validation.py:_validate_subquery"]}
{"id": "C26", "title": "Join queries reference only joined entities", "statement": "validate() of a join query (with valid parts) succeeds exactly when every column found in it carries an entity whose alias is bound in the join to that entity's name.", "quantifier": "all join queries", "why_tests_cant": "All query and join shapes.", "anchors": ["snuba_sdk/query_validation.py:_validate_join"]}
{"id": "C27", "title": "Data model conformance", "statement": "When an Entity/Storage match has a data model, validate() succeeds only if every column found in the query is in the model, a subscripted column being looked up by the part before the bracket.", "quantifier": "all queries and data models", "why_tests_cant": "All query shapes and models.", "anchors": ["snuba_sdk/query_validation.py:_validate_entity,_validate_storage", "snuba_sdk/column.py:Column.validate_data_model"]}
{"id": "C28", "title": "Required-column check is sound and exact", "statement": "validate_required_columns accepts a query on an entity with a data model exactly when, after flattening nested And conditions, each required column has an = or IN condition and the time column has both a >= and a < condition; consequently every row that satisfies the WHERE clause satisfies one such condition for each required column.", "quantifier": "all condition trees, models, rows", "why_tests_cant": "Quantifies over all nested And trees and over all rows.", "anchors": ["snuba_sdk/query_validation.py:_check_entity_required_columns_in_conditions,validate_required_columns", "snuba_sdk/conditions.py:get_first_level_and_conditions"]}
{"id": "C29", "title": "OR-optimisation preserves meaning", "statement": "For every WHERE list and every row, the optimised list has the same truth value (three-valued) as the original, provided equal left-hand sides denote the same value.", "quantifier": "all condition lists, rows and interpretations of functions and columns", "why_tests_cant": "Semantic equivalence over all rows and all condition shapes.", "anchors": ["snuba_sdk/query_optimizers/or_optimizer.py:OrOptimizer", "snuba_sdk/query.py:Query._optimize"]}
{"id": "C30", "title": "OR-optimisation shape", "statement": "The optimiser keeps the number and order of the top-level conditions, changes exactly the OR groups made only of = conditions on one left-hand side (turning them into one IN with the values in order), returns None exactly when there is none, never raises on constructed conditions, returns a valid condition group, and has nothing left to do on its own output.", "quantifier": "all condition lists", "why_tests_cant": "All list lengths and shapes.", "anchors": ["snuba_sdk/query_optimizers/or_optimizer.py:OrOptimizer.optimize,_optimize_condition"]}
{"id": "C31", "title": "Aggregate function recognition", "statement": "A plain function name is recognised as an aggregate exactly when it is one of the listed base names followed by one of the listed combinator suffixes; a function expression is an aggregate exactly when it or one of the functions nested in its parameters is, or a parameter is a column named by a known aggregate alias.", "quantifier": "all function names and all nested function expressions", "why_tests_cant": "All strings / all trees.", "anchors": ["snuba_sdk/snuba.py:is_aggregation_function,AGGREGATION_FUNCTIONS", "snuba_sdk/query_visitors.py:is_aggregate,find_column_in_function"]}
{"id": "C32", "title": "Metric, Timeseries and MetricsScope are valid by construction and under setters", "statement": "Any Metric/Timeseries/MetricsScope obtained by any sequence of constructor and set_* calls has at least one of mri/public_name, string aggregate, literal-only aggregate params, condition-only filters and column-only groupby; each setter changes only its own field(s).", "quantifier": "all sequences of constructor and setter calls with arbitrary arguments", "why_tests_cant": "Invariant over all histories.", "anchors": ["snuba_sdk/timeseries.py:Metric,Timeseries,MetricsScope"]}
{"id": "C33", "title": "Rollup consistency", "statement": "A Rollup can be built exactly when at least one of interval/totals is given, a non-zero granularity is one of 10/60/3600/86400, an interval is an int >= 10 and >= granularity, totals is a bool, orderby is a Direction and is not combined with an interval.", "quantifier": "all argument combinations", "why_tests_cant": "Exactness over all integers and types.", "anchors": ["snuba_sdk/timeseries.py:Rollup.validate"]}
{"id": "C34", "title": "Formula grouping consistency", "statement": "Formula.validate() accepts exactly when the formula's parameters are numbers, Timeseries or Formulas, at least one Timeseries occurs at any depth, and all groupby lists given anywhere in the formula tree are equal.", "quantifier": "all formula trees of any depth", "why_tests_cant": "Unbounded trees; explicit-stack traversal.", "anchors": ["snuba_sdk/formula.py:Formula.validate,__validate_consistency"]}
{"id": "C35", "title": "MetricsQuery validation", "statement": "MetricsQuery.validate() accepts exactly when query, start, end, rollup (with a granularity) and scope are present and valid and the optional parts are valid.", "quantifier": "all field combinations", "why_tests_cant": "All combinations of field values.", "anchors": ["snuba_sdk/metrics_query_visitors.py:Validator"]}
{"id": "C36", "title": "MQL context carries every field", "statement": "When a MetricsQuery serialises, the mql_context contains exactly its start, end, rollup, scope, limit, offset, extrapolate and indexer_mappings values, each under its own key.", "quantifier": "all metrics queries", "why_tests_cant": "All field values.", "anchors": ["snuba_sdk/mql_visitor.py:MQLPrinter", "snuba_sdk/metrics_visitors.py:RollupMQLPrinter,ScopeMQLPrinter", "snuba_sdk/mql_context.py:MQLContext"]}
{"id": "C37", "title": "MQL filters preserve the comparison", "statement": "Two filter conditions printed as the same MQL text mean the same comparison; in particular the printed text of a condition determines whether it was a negated (!=, NOT IN, NOT LIKE) comparison.", "quantifier": "all conditions used as metrics filters", "why_tests_cant": "All operators x all operands.", "anchors": ["snuba_sdk/visitors.py:Translation._visit_condition_mql"]}
{"id": "C38", "title": "MQL round trip", "statement": "For every Timeseries or Formula whose names, values and structure lie in the MQL grammar's vocabulary, parsing the printed MQL gives back the same query up to the documented normal form (top-level filters joined by And, numbers as floats, n-ary arithmetic left-nested).", "quantifier": "all timeseries and formula trees in the representable fragment", "why_tests_cant": "Printer and PEG parser are independent programs; unbounded trees and strings.", "anchors": ["snuba_sdk/metrics_visitors.py:FormulaMQLPrinter,TimeseriesMQLPrinter", "snuba_sdk/mql/mql.py:parse_mql"]}
{"id": "C39", "title": "MQL arithmetic precedence and associativity", "statement": "Parsing an unparenthesised chain of operands joined by + - * / yields the tree in which * and / bind tighter than + and - and equal precedence associates to the left, for chains of any length.", "quantifier": "all operator chains of any length over parseable operands", "why_tests_cant": "Unbounded chains.", "anchors": ["snuba_sdk/mql/mql.py:MQLVisitor.visit_expression,visit_term"]}
{"id": "C40", "title": "MQL filter precedence", "statement": "Parsing a filter chain yields Or of Ands: AND/and/comma/space bind tighter than OR/or, a parenthesised group is kept as a unit, single-element groups are not wrapped, for chains of any length and nesting.", "quantifier": "all filter chains", "why_tests_cant": "Unbounded chains and nesting.", "anchors": ["snuba_sdk/mql/mql.py:MQLVisitor._filter,visit_filter_expr,visit_filter_term"]}
{"id": "C41", "title": "The MQL parser always terminates with one answer", "statement": "For every input string the parser terminates: the recursion depth needed is bounded by a linear function of the input length, and the outcome does not depend on any larger bound.", "quantifier": "all strings", "why_tests_cant": "All inputs, including adversarial nesting.", "anchors": ["snuba_sdk/mql/mql.py:MQL_GRAMMAR,parse_mql"]}
{"id": "C42", "title": "Metrics serialisation is repeatable", "statement": "Serialising the same MetricsQuery object any number of times gives the same result each time, even though serialisation rewrites the stored query.", "quantifier": "all metrics queries and all numbers of repetitions", "why_tests_cant": "History property.", "anchors": ["snuba_sdk/metrics_query.py:MetricsQuery.serialize,_optimize"]}
{"id": "C43", "title": "Request flags", "statement": "Flags.validate accepts exactly when every flag is None or a bool; to_dict contains exactly the flags that are set, with their values, and flags never override the query, dataset, app_id, tenant_ids or parent_api entries of a request.", "quantifier": "all flag combinations", "why_tests_cant": "All value combinations and types.", "anchors": ["snuba_sdk/request.py:Flags,Request.to_dict"]}
{"id": "C44", "title": "Request payload", "statement": "Request.to_dict succeeds only for a valid request and then carries the serialised query, app_id, tenant_ids and parent_api unchanged; dataset is present exactly for non-delete queries, mql_context exactly for metrics queries.", "quantifier": "all requests", "why_tests_cant": "All combinations of query kinds and fields.", "anchors": ["snuba_sdk/request.py:Request.validate,Request.to_dict"]}
{"id": "C45", "title": "Delete queries are never unconditional", "statement": "A DeleteQuery serialises exactly when it has at least one column condition and every column condition has at least one value; then the body is the given mapping unchanged.", "quantifier": "all mappings", "why_tests_cant": "All mappings.", "anchors": ["snuba_sdk/delete_query.py:DeleteQuery"]}
{"id": "C46", "title": "Request JSON decodes to the payload", "statement": "The JSON text produced by Request.serialize() decodes (per the JSON grammar) to exactly the dictionary of Request.to_dict(), for any string contents. The text is printable ASCII on one line (Request.print(): printable ASCII and new lines), whatever characters the strings have.", "quantifier": "all payloads (strings over all of Unicode, nested dicts/lists)", "why_tests_cant": "All strings; escaping rules.", "anchors": ["snuba_sdk/request.py:Request.serialize"]}
{"id": "C47", "title": "Legacy conversion: conditions", "statement": "json_to_snql turns the legacy body's conditions into a WHERE list that is the conjunction, in order, of: organization, from_date, to_date, project and then each condition entry, an inner list becoming the OR of its members.", "quantifier": "all legacy bodies", "why_tests_cant": "All bodies.", "anchors": ["snuba_sdk/legacy.py:json_to_snql,parse_condition,parse_extension_condition"]}
{"id": "C48", "title": "Legacy conversion leaves its input alone", "statement": "Converting the same legacy body twice gives the same request both times (the conversion does not modify the caller's body).", "quantifier": "all legacy bodies and repetitions", "why_tests_cant": "History/aliasing property.", "anchors": ["snuba_sdk/legacy.py:json_to_snql"]}
{"id": "C49", "title": "Legacy expressions", "statement": "parse_exp maps a quoted string to the string itself, any other non-empty string to a column, a list of [function, args, alias] to that function of the converted args, and a condition triple to the corresponding comparison function, at every nesting depth.", "quantifier": "all legacy expressions", "why_tests_cant": "Unbounded nesting.", "anchors": ["snuba_sdk/legacy.py:parse_exp,parse_condition_to_function"]}
{"id": "C50", "title": "Legacy scalars: datetime detection", "statement": "A legacy string value is turned into a datetime exactly when it is in one of the accepted formats and the column is not a tag or release; otherwise it is kept verbatim.", "quantifier": "all strings", "why_tests_cant": "All strings.", "anchors": ["snuba_sdk/legacy.py:parse_scalar,parse_datetime,_parse_condition_parts"]}
{"id": "C51", "title": "String queries serialise like parsed queries", "statement": "A MetricsQuery given as an MQL string validates and serialises exactly like the one given the parsed Timeseries/Formula object, except that OR-optimisation is applied to objects only.", "quantifier": "all MQL strings", "why_tests_cant": "All strings.", "anchors": ["snuba_sdk/mql_visitor.py:MQLPrinter._visit_query", "snuba_sdk/metrics_query_visitors.py:Validator._visit_query"]}
{"id": "C52", "title": "What parsed MQL consists of", "statement": "Whatever text parse_mql accepts, its result is a Timeseries or a Formula built from a fixed vocabulary: metrics with exactly one name, formulas with at least one parameter, floats and strings, filters that compare plain columns with strings or lists of strings joined by AND and OR, groupings by plain columns, and aggregate parameters that are strings or floats. Every Timeseries in it passes its own validation, and filters and columns are values the SDK's constructors accept.", "quantifier": "for all strings accepted by the parser, and all parts of the result at any depth", "why_tests_cant": "The grammar generates unboundedly many texts and nested trees; a test shows single texts, while the claim concerns every tree the visitor can build from any parse tree.", "anchors": ["snuba_sdk/mql/mql.py", "snuba_sdk/timeseries.py:91-157", "snuba_sdk/formula.py:47-120"]}
{"id": "C53", "title": "Setters of MetricsQuery change their own field only", "statement": "Each set_* method of MetricsQuery accepts exactly the values of its class (limit 1..10000, offset at least 0, extrapolate bool, indexer mappings anything) and returns a query that differs from the old one in that field only.", "quantifier": "for all metrics queries, whatever their fields hold, and all arguments", "why_tests_cant": "The arguments and the fields range over all Python values; tests try a few good and bad values per setter.", "anchors": ["snuba_sdk/metrics_query.py:41-84"]}
{"id": "C54", "title": "Query setters take exactly the values of their clause", "statement": "Each set_* method of Query succeeds exactly for the values its clause takes (non-empty list of selectable expressions for select, list of them for groupby, non-empty list of columns for array join, list of conditions for where/having, list of OrderBy, a LimitBy, limit 1..10000, offset >= 0, granularity >= 1, bool totals), returning the query with only that clause replaced; otherwise it raises InvalidExpressionError (limit, offset, granularity, totals) or InvalidQueryError (others). set_match takes exactly entities, joins and queries that validate.", "quantifier": "for all queries a program can make and all arguments", "why_tests_cant": "The arguments range over all Python values and the queries over all histories of constructor and setter calls.", "anchors": ["snuba_sdk/query.py:79-165"]}
{"id": "C55", "title": "Legacy conversion: the whole request", "statement": "json_to_snql succeeds exactly when the legacy body describes a request: every clause of the query holds what the body's key says (select, groupby, array join, where, having, order by, limit by from a pair of count and column name, limit, offset, granularity, totals), the entity carries the sample as a float greater than zero, dataset defaults to the entity, app_id and tenant_ids to legacy, the flags are the truthy ones of consistent/turbo/debug/dry_run plus legacy; and a body describes at most one request.", "quantifier": "for all legacy bodies and entity names", "why_tests_cant": "Bodies are arbitrary JSON-like values under eighteen keys; tests compare a few dozen bodies with expected texts and cannot show that every other body is rejected or converted faithfully.", "anchors": ["snuba_sdk/legacy.py:215-370"]}
{"id": "C56", "title": "The text of an expression can be read back", "statement": "The printed text of an expression is read by an independent reader of SnQL expressions as exactly one tree, whose words, quoted strings, argument lists, initializers, aliases and lambdas are the parts of the expression in their places; so two expressions with the same text differ only in what SnQL cannot express (str or bytes, timezone of a moment, list or tuple of arguments, the entity behind a column).", "quantifier": "for all expressions that constructors can build (nested functions, curried functions, lambdas, literals, columns), with and without join aliases", "why_tests_cant": "Unambiguity is a statement about all pairs of expressions of any depth; tests compare a few expressions with expected texts.", "anchors": ["snuba_sdk/visitors.py:137-241", "snuba_sdk/function.py:28-146", "snuba_sdk/column.py:17-75"]}
{"id": "C57", "title": "The text of a whole query can be read back", "statement": "The serialised text of a query is read by an independent reader of SnQL as exactly one query: the entity, storage, join or inner query it is on with its sample rates, and every clause with its items in order, at every level of nesting, where the where clause of the outermost query is the one with merged equalities. So two queries with the same serialised text are on the same thing and have the same clauses, up to what SnQL cannot express.", "quantifier": "for all queries of any nesting whose clauses hold values that constructors can build, with and without joins", "why_tests_cant": "That no text stands for two queries is a statement about all pairs of queries; tests compare a few queries with expected texts and read nothing back.", "anchors": ["snuba_sdk/query_visitors.py:133-225", "snuba_sdk/query.py:167-187", "snuba_sdk/visitors.py:137-321"]}
{"id": "C58", "title": "How parse_mql fails", "statement": "Every failure of parse_mql is an InvalidMQLQueryError, with two exceptions: an InvalidColumnError, and then the text has a key that begins with a digit or a point where a key belongs; and an AssertionError, and then the text is only a number or a string, or has a number or a string alone in parentheses. A text that is only a number or a string always raises AssertionError.", "quantifier": "for all texts (recursion limit of Python aside)", "why_tests_cant": "The visitor has some thirty checks (asserts, unpackings, key look-ups, constructors); that no text reaches the others is a statement about all parse trees. Tests have a few invalid texts, each with one expected exception.", "anchors": ["snuba_sdk/mql/mql.py:27-135", "snuba_sdk/mql/mql.py:139-592", "snuba_sdk/column.py:34-66"]}
{"id": "C59", "title": "Which exceptions constructors and validation raise", "statement": "Each constructor raises the SDK exception of its class and nothing else, whatever the types of the arguments, with these exceptions: Function, CurriedFunction and Condition raise InvalidExpressionError itself, the base class of their exception, exactly if everything before is right and the first wrong parameter (the right-hand side) is a list or tuple with a wrong item at some depth; Rollup raises TypeError exactly if the granularity is an empty string, bytes, list or tuple and the interval an integer of at least 10; a Formula raises TypeError only if the walk through it meets a groupby that is not iterable or not hashable or parameters that are not iterable, and does so if its own name and parameters are right; a DeleteQuery raises AttributeError exactly if its conditions are no mapping and TypeError exactly if a value has no length and no value before it is empty. A metrics query raises the exceptions of its parts; a request raises InvalidRequestError, InvalidFlagError or that of its query. A query made by naming its match and calling setters raises InvalidQueryError only if it is incomplete, InvalidMatchError only over a join or subquery, and InvalidColumnError only if a column is missing from the data model of the match or of its own entity.", "quantifier": "for all argument values (of any modelled type) of the constructors; for all metrics queries, requests and deletions; for all queries made by calls of the constructors and setters", "why_tests_cant": "Tests give each constructor a handful of wrong arguments, one at a time, and never two wrong arguments together or values of unrelated types in each place.", "anchors": ["snuba_sdk/expressions.py:44-129", "snuba_sdk/function.py:49-146", "snuba_sdk/conditions.py:78-158", "snuba_sdk/timeseries.py:33-249", "snuba_sdk/formula.py:40-124", "snuba_sdk/metrics_query.py:86-115", "snuba_sdk/delete_query.py:32-40", "snuba_sdk/request.py:22-75", "snuba_sdk/query_visitors.py:291-348"]}
{"id": "C60", "title": "Setters of Formula change their own field and do not validate", "statement": "set_parameters accepts exactly None and lists of numbers, timeseries and formulas, set_filters None and lists of conditions, set_groupby None and lists of columns; the result differs in that field only, anything else raises InvalidFormulaError. Setting filters or removing the groupby never makes a valid formula invalid; a new groupby keeps it valid exactly when everything grouped inside is grouped by the same columns.", "quantifier": "for all formulas, whatever their fields hold, and all arguments; for the groupby: all formula trees of any depth", "why_tests_cant": "Arguments range over all Python values and the consequence for validity depends on trees of unbounded depth.", "anchors": ["snuba_sdk/formula.py:97-120"]}
{"id": "C61", "title": "The printed text of a metrics query is JSON that says what the query holds", "statement": "The text MetricsQuery.print() returns is JSON for a dictionary with the MQL text and the context, from which every field of the query can be read; its context is the one that is sent. A valid query has a text exactly if its query can be printed, its mappings can be expressed in JSON, and its granularity is not an empty bytes object; str() of a valid query is the same text. The text is printable ASCII and new lines.", "quantifier": "for all metrics queries and all mappings of any depth", "why_tests_cant": "Escaping, nesting and numbers vary without bound; a test compares single texts, the claim is that reading the text always gives the data back.", "anchors": ["snuba_sdk/metrics_query.py:89-96", "snuba_sdk/mql_visitor.py:25-106"]}
{"id": "C62", "title": "Numbers are printed and read as closely as floats allow", "statement": "A finite float is printed as the shortest decimal that rounds to it (at most 17 digits, and of those of that length one nearest to it), with a point or an exponent so that it cannot be taken for an int. A number in MQL, with or without a minus and a fraction, is read as the float nearest to it, of two nearest the one with the even significand, and as infinity exactly from 2^1024 - 2^970 on.", "quantifier": "for all floats, and all number texts of any length in any place of an MQL query", "why_tests_cant": "There are 2^64 floats and infinitely many texts; rounding errors show up only at ties, subnormals and near the overflow limit.", "anchors": ["snuba_sdk/visitors.py:164-165", "snuba_sdk/metrics_visitors.py:152-158", "snuba_sdk/mql/mql.py:222-223"]}
{"id": "C63", "title": "Equality of expressions", "statement": "Values without NaN are equal to themselves; equality is symmetric; and it is transitive where the middle value contains no CurriedFunction (a CurriedFunction is equal to Functions that are not equal to each other, since only Function compares aliases). Equal values are printed as the same text, or fail with the same error, unless they contain a bool, a whole float, a sampling rate of zero, a time zone without offset, or CurriedFunctions with aliases; in particular the same instant in two time zones has one text. Two CurriedFunctions that differ only in their aliases are equal and have different texts.", "quantifier": "for all values and expressions of any depth, in SnQL and in MQL", "why_tests_cant": "Expressions nest without bound; a test compares single pairs, and violations such as the missing transitivity need three objects of chosen classes.", "anchors": ["snuba_sdk/function.py:99-115", "snuba_sdk/visitors.py:142-189", "snuba_sdk/column.py:17-39", "snuba_sdk/entity.py:15-20"]}
{"id": "C64", "title": "Equal expressions have equal hashes", "statement": "Equal SDK values (and Python scalars, tuples) have equal hashes, so that sets and dictionaries take them for one key, if all functions in them are Functions or no function has an alias. hash() fails exactly on values that hold a list or a data model, with a TypeError. CurriedFunctions that differ in their aliases only are equal, but the alias is part of what is hashed.", "quantifier": "all pairs of values, at any depth of nesting", "why_tests_cant": "All pairs of values; numbers of different classes; nesting.", "anchors": ["snuba_sdk/function.py:CurriedFunction.__eq__", "snuba_sdk/entity.py:Entity", "snuba_sdk/storage.py:Storage", "snuba_sdk/column.py:Column", "snuba_sdk/conditions.py:Condition"]}
{"id": "C65", "title": "Which metrics queries have an MQL text", "statement": "A timeseries or formula whose parts have the annotated types can be printed as MQL exactly when none of its parts is to blame for an exception: a filter that compares with a function, a value in a filter or an aggregate parameter that has no text, or a formula whose parameters are absent; and the exception raised is the one that part causes. Every text the parser accepts can be printed again. A metrics query that can be printed can be serialized; the converse is false.", "quantifier": "for all timeseries and formulas nested to any depth with filters and parameters of any size, and all texts accepted by the parser", "why_tests_cant": "Formulas and filters nest without bound and the offending value may sit anywhere; a test shows that one object prints or raises, not that the listed causes are the only ones.", "anchors": ["snuba_sdk/metrics_visitors.py:24-215", "snuba_sdk/visitors.py:283-311", "snuba_sdk/mql_visitor.py:108-117", "snuba_sdk/metrics_query.py:93-111"]}
{"id": "C66", "title": "A parsed query can be printed and read again", "statement": "A text that the MQL parser accepts denotes a query that can be printed as MQL, and the printed text is read as the same query, except that several filters of one timeseries or formula become one conjunction and empty parameter lists disappear; a further round of printing and reading changes nothing. (False in this generality; it holds unless a part is of one of these kinds: MRIs that need backticks, numbers written with exponents, strings with backslashes or line breaks, strings as operands, formula parameters that need quotes, negations with filters or columns of their own, and functions called by the name of an operator with other operands than the operator has.)", "quantifier": "for all texts that the parser accepts", "why_tests_cant": "The texts are unbounded; round-trip tests check the examples at hand, and the kinds of queries that are lost were found by trying to prove that there are none.", "anchors": ["snuba_sdk/mql/mql.py:MQLVisitor", "snuba_sdk/metrics_visitors.py:FormulaMQLPrinter", "snuba_sdk/metrics_visitors.py:TimeseriesMQLPrinter", "snuba_sdk/mql_visitor.py:108-117"]}
{"id": "C67", "title": "Data models decide whether a query is accepted, not what it says", "statement": "The text of an expression or a query does not depend on the data models of its entities and storages. A query is valid exactly if it would be valid without data models and every column is in the data models that apply to it: in a query on an entity or a storage each column in its clauses is in the data model of that entity or storage, and a column listed in a clause is in the data model of its own entity; if only the latter fails, the error is InvalidColumnError. So dropping data models, or adding columns to them, keeps a valid query valid and changes neither print() nor, provided that no entity is used with two data models in the where clause, serialize(). (With two data models for one entity serialize() may differ: conditions on the same column are only merged if the data models are equal.)", "quantifier": "for all queries on entities, storages, joins and subqueries, and all ways of dropping or extending the data models in them", "why_tests_cant": "Data models occur at any depth of a query (in the match, in columns of functions and conditions, in subqueries); a test compares one query with one pair of data models.", "anchors": ["snuba_sdk/column.py:Column.validate_data_model", "snuba_sdk/query_validation.py:_validate_entity", "snuba_sdk/query_validation.py:_validate_storage", "snuba_sdk/query_visitors.py:Validator", "snuba_sdk/query_optimizers/or_optimizer.py:OrOptimizer._optimize_condition", "snuba_sdk/query.py:Query.serialize"]}
{"id": "C68", "title": "An accepted MQL text is read by the rules of the language", "statement": "Whatever text parse_mql accepts, the query it returns is one that the text denotes by the rules of the language, stated without the grammar and the visitor: unary minus binds tighter than * and /, these tighter than + and -, all to the left; AND binds tighter than OR in filters, and a joint that is missing or a comma means AND; filters and columns written behind a call or a group go in front of those inside it; a string in quotes denotes the string with its escaped quotes restored; prefix* denotes a pattern; an aggregate keeps its parameters in order; and so on for every construct. Moreover the parser invents nothing: every name of a metric, aggregate, function or column in the query, and every string in it that has no quotes, is a part of the text.", "quantifier": "for all texts and all queries that parse_mql returns for them", "why_tests_cant": "The texts are recursive (calls in calls, groups in groups, filters in filters), and the parser tries alternatives in order: a wrong reading of one construct may only show in a combination that no test has. The claim also covers texts nobody intended to be accepted.", "anchors": ["snuba_sdk/mql/mql.py:MQL_GRAMMAR", "snuba_sdk/mql/mql.py:parse_mql", "snuba_sdk/mql/mql.py:MQLVisitor"]}
{"id": "C69", "title": "A converted legacy request can be sent, or is refused for one of four reasons", "statement": "json_to_snql does not validate what it returns. For a body of plain data (as read from JSON) whose dates have a UTC equivalent in the years 1 to 9999, whatever request it returns: no expression in its query is rejected or cannot be printed. The request can be serialised exactly if the dataset and the application named in the body, if any, are names of a request and the tenants, if any, are a dictionary (otherwise InvalidRequestError); totals come with something to group by (otherwise InvalidQueryError); flags that count as true are bools (otherwise InvalidFlagError); and the tenants stand for a JSON value (otherwise TypeError). The reasons are looked at in this order. In particular the entity is always good enough as the default of the dataset.", "quantifier": "for all bodies of plain data and all entities for which the conversion returns a request", "why_tests_cant": "Bodies nest without bound, and every construct (quoted strings, calls, conditions in calls, groups, dates, orderings) makes objects by another path; that none of them can slip an expression past its constructor that later fails to validate or print is a statement about all of them at once.", "anchors": ["snuba_sdk/legacy.py:json_to_snql", "snuba_sdk/request.py:Request.validate", "snuba_sdk/request.py:Request.to_dict", "snuba_sdk/request.py:Request.serialize"]}
{"id": "C70", "title": "Equal queries are interchangeable", "statement": "Equality of queries is reflexive (without NaN), symmetric, and transitive as far as functions allow. Two equal queries, however deeply nested, have the same outcome of validate (both valid, or rejected with the same error), are sent as the same text by serialize (OR-optimisation included) and printed as the same text by print, provided that no number in them is in disguise (bools and whole floats equal ints but print differently), no sampling rate is zero, and either all functions are Functions or none has an alias (a CurriedFunction's alias is ignored by ==). Equal queries have equal hashes under the last proviso; a query can be hashed exactly if no value in it holds a list, and raises TypeError otherwise.", "quantifier": "for all queries, with arbitrary values in their clauses, over entities, storages, joins and queries to any depth", "why_tests_cant": "Equality compares objects that may differ in representation (time zones, order of data model columns, number classes), and the optimiser itself compares with ==; that no representation leaks into validation or text is a statement about all pairs of queries at once.", "anchors": ["snuba_sdk/query.py:Query", "snuba_sdk/function.py:CurriedFunction.__eq__", "snuba_sdk/query_visitors.py:Validator", "snuba_sdk/query_visitors.py:Printer", "snuba_sdk/query_optimizers/or_optimizer.py:OrOptimizer"]}
{"id": "C71", "title": "The recipient of a metrics request finds the query that was meant", "statement": "Take any request with a metrics query that MQL can express as it is printed (the normal forms of C38, and texts without the parts that C66 excludes). If it can be serialised, then decoding the text as JSON, taking the string under `query` and parsing it with parse_mql gives a query that asks for the same as the one that was sent, over every store of series: the same metrics, aggregates with the same parameters, over rows for which the filters have the same three-valued truth, grouped by the same tags, combined by the same functions and operators. This includes the OR optimisation, the pushing down of filters of formulas, the nesting of operators and the change of numbers to floats. Under `mql_context` the recipient finds the time range, rollup, scope, limit, offset, extrapolation and mappings. Two such requests with the same text ask for the same.", "quantifier": "for all metrics requests whose query MQL can express, and all stores (rows, tags, equality, patterns, series, functions)", "why_tests_cant": "The path runs through the validator, the OR optimiser, the MQL printer, the JSON encoder and decoder, and the MQL parser; agreement of meaning at the far end is a statement about all queries and all data, while a test compares one text or one parsed object.", "anchors": ["snuba_sdk/request.py:Request.serialize", "snuba_sdk/metrics_query.py:MetricsQuery.serialize", "snuba_sdk/mql_visitor.py:MQLPrinter", "snuba_sdk/metrics_visitors.py:TimeseriesMQLPrinter", "snuba_sdk/mql/mql.py:parse_mql", "snuba_sdk/query_optimizers/or_optimizer.py:OrOptimizer"]}
{"id": "C72", "title": "The recipient of a request finds what was put into it", "statement": "If a request can be serialised, a JSON reader finds in its text one dictionary without repeated keys in which app_id, tenant_ids, parent_api, the dataset (unless it is a deletion) and every flag that was set stand under their own keys with their own values. For SnQL queries whose names cannot be taken for syntax (C57), a reader of SnQL finds in the string under `query` the whole query, every clause and every subquery in its place, with the ORs of the outermost where clause merged, which does not change for which rows it holds; requests with the same text hold the same query up to what SnQL cannot express. For deletions, it finds exactly the column conditions under `columns`, of which there is at least one, and none is empty.", "quantifier": "for all requests and flags, all SnQL queries whose names cannot be taken for syntax, all deletions", "why_tests_cant": "The text goes through two encodings, SnQL in JSON; that neither quoting layer can be confused by the contents of the other, for all strings and all queries, is beyond sample payloads.", "anchors": ["snuba_sdk/request.py:Request.to_dict", "snuba_sdk/request.py:Request.serialize", "snuba_sdk/query.py:Query.serialize", "snuba_sdk/delete_query.py:DeleteQuery.serialize"]}
{"id": "C73", "title": "Equal metrics queries are interchangeable", "statement": "Equality of metrics queries is reflexive (without NaN), symmetric, and transitive as far as functions allow. Two equal metrics queries have the same outcome of validate, are both sent or fail in serialize with the same error, and what is sent has the same MQL text and a context that says the same: start and end are the same moments, though perhaps in other time zones, and rollup, scope, limit, offset, extrapolation and mappings are equal. Afterwards the two are equal again (each may have been rewritten by the optimiser, so that it differs from its former self). The provisos are that no number in the query is disguised as one of another class, that only None, numbers and strings are written with str(), and that either all functions are Functions or none has an alias. Equal objects of the metrics layer have equal hashes under the last proviso; what cannot be hashed raises TypeError, and a valid Formula never can be hashed although its class is frozen.", "quantifier": "for all metrics queries, with arbitrary values in their fields and formulas nested to any depth", "why_tests_cant": "Objects can be equal without having the same representation (time zones, order of mappings, number classes), and serialize changes the object it is called on; that neither leaks into the outcome is a statement about all pairs of queries.", "anchors": ["snuba_sdk/metrics_query.py:MetricsQuery", "snuba_sdk/formula.py:Formula", "snuba_sdk/timeseries.py:Timeseries", "snuba_sdk/mql_visitor.py:MQLPrinter", "snuba_sdk/metrics_query_visitors.py:Validator"]}
{"id": "C74", "title": "Equal requests are interchangeable", "statement": "Equality of requests is reflexive (without NaN), symmetric, and transitive as far as functions allow. Two equal requests are both valid or both rejected, and unless they are deletions with the same error; they are both sent or both fail, again with the same error. In the two texts a JSON reader finds payloads with the same keys, under each key equal values (for SnQL and MQL the identical query text) and, for metrics queries, contexts that say the same. After to_dict, which may rewrite a metrics query, the two are equal again. The provisos are those of C70 and C73 for the queries, none for deletions, and that no flag is a number: 1 == True, but only True is a flag. Equal deletions may be rejected with different errors, depending on the order of their conditions.", "quantifier": "for all requests: all three kinds of queries, all flags, arbitrary tenant ids and conditions", "why_tests_cant": "Python's equality ignores the order of dictionaries, time zones and number classes; that only harmless differences reach the text that is sent is a statement about all pairs of equal requests.", "anchors": ["snuba_sdk/request.py:Request", "snuba_sdk/request.py:Flags", "snuba_sdk/request.py:Request.to_dict", "snuba_sdk/request.py:Request.validate", "snuba_sdk/delete_query.py:DeleteQuery"]}
{"id": "C75", "title": "What equality compares", "statement": "Two objects are equal exactly if they are of the same class and have equal fields, where bools, ints and floats are equal if they are the same number (NaN never is), datetimes if they are the same instant (or, both without an offset, show the same time), data models if they have the same set of columns and the same time column, and dictionaries if they have the same keys and equal values under them, in whatever order. Lists, tuples and boolean conditions are compared place by place and their classes matter. The aliases of two functions matter only if both are of the class Function. This holds for all values and expressions, for queries with all their clauses and subqueries, for the objects of the metrics layer, for metrics queries, deletions, flags and requests.", "quantifier": "for all pairs of objects, nested to any depth", "why_tests_cant": "A test compares chosen pairs. That no field is left out of a comparison, that no order of entries matters, and that numbers are compared exactly (not rounded) are statements about all pairs.", "anchors": ["snuba_sdk/function.py:CurriedFunction.__eq__", "snuba_sdk/query.py:Query", "snuba_sdk/metrics_query.py:MetricsQuery", "snuba_sdk/formula.py:Formula", "snuba_sdk/request.py:Request", "snuba_sdk/delete_query.py:DeleteQuery", "snuba_sdk/entity.py:Entity", "snuba_sdk/schema.py:DataModel"]}
{"id": "C76", "title": "The recipient selects the rows that were asked for", "statement": "Take any SnQL query whose names can be read and are unambiguous, and any recipient that reads the text and evaluates the conditions it finds in three-valued logic (x IN array(a, b) is x = a OR x = b), with an arbitrary meaning of columns, functions and other operators that it shares with the sender. Then at every level of the query the where and having clauses in the text are true, false or unknown for exactly the rows for which the conditions given by the caller are, although the printer flattens a list of conditions into AND, puts groups into parentheses and merges equalities into IN. The same holds for the query text inside the JSON text of a request. The only proviso is that equal left-hand sides inside an Or have the same value; for plain expressions this follows.", "quantifier": "for all queries with subqueries and conditions nested to any depth, all interpretations and all rows", "why_tests_cant": "A test compares texts. That a text selects the same rows as the conditions is a statement about every row and every meaning of the columns and functions, for every nesting of AND, OR and IN.", "anchors": ["snuba_sdk/query.py:Query.serialize", "snuba_sdk/query_visitors.py:QueryTranslator", "snuba_sdk/query_optimizers/or_optimizer.py:OrOptimizer", "snuba_sdk/conditions.py:BooleanCondition", "snuba_sdk/visitors.py:Translation", "snuba_sdk/request.py:Request.serialize"]}
{"id": "C77", "title": "A converted legacy request selects the rows that the body asks for", "statement": "Read the conditions of a legacy body as a conjunction in which an entry that is not itself a condition is the disjunction of its members and an empty entry is no restriction; add the organization (equal to a number, or member of a sequence), the project likewise, and for entities with a time column the two dates as from <= t < to. A missing, false or otherwise-typed organization or project is no restriction. Then for every body that json_to_snql converts and every meaning of columns, functions and operators in three-valued logic, the where clause of the converted query is true, false or unknown at exactly the rows at which the body is, and the having clause likewise. This is still so for the clauses that a recipient reads from the JSON text of the request (with the provisos of C76).", "quantifier": "for all legacy bodies, all interpretations, all rows", "why_tests_cant": "The existing tests compare converted objects for chosen bodies; that the converted and printed query selects the same rows is a statement about every body, every row and every meaning of the columns.", "anchors": ["snuba_sdk/legacy.py:json_to_snql", "snuba_sdk/legacy.py:is_condition", "snuba_sdk/legacy.py:parse_condition", "snuba_sdk/legacy.py:parse_extension_condition", "snuba_sdk/request.py:Request.serialize"]}
{"id": "C78", "title": "What the texts of delete queries, entities and storages show", "statement": "The printed text of a delete query is a call DeleteQuery(storage_name=..., columnsConditions=...) whose arguments are Python literals, and a reader of Python literals gets from it exactly the storage name and the conditions (every column, every value, with order and types), for every string and whatever characters count as printable; so two delete queries that print alike delete from the same storage by the same conditions. The text of an entity determines name, alias and sample, and that of a storage name and sample, whatever text the alias is; the data model is not shown. If name and alias have no quote, backslash or end of line, the text is moreover the call that shows them as literals.", "quantifier": "for all delete queries made of None, bools, ints, floats, strings, lists, tuples and dictionaries with string keys; for all entities and storages that can be constructed; for all choices of printable characters", "why_tests_cant": "Quotes, backslashes, control characters, floats and nested containers combine without bound; that no two different objects share a text is a statement about all pairs of objects.", "anchors": ["snuba_sdk/delete_query.py:DeleteQuery.print", "snuba_sdk/delete_query.py:DeleteQuery.__repr__", "snuba_sdk/entity.py:Entity.__repr__", "snuba_sdk/storage.py:Storage.__repr__"]}
{"id": "C79", "title": "How the conversion of a legacy body fails", "statement": "A legacy body of the right shape (texts, lists, operators in capitals, dates and numbers where the conversion expects them; names, ranges and argument types may be wrong) is converted, or refused with an exception that the docstring of json_to_snql announces (InvalidExpressionError or a subclass, InvalidQueryError, InvalidRequestError), or with InvalidEntityError, the last exactly if the entity name is invalid or the sample is not positive. Every body that is converted has this shape, so a body without it is always refused. For bodies of the wrong shape the announcement does not hold: ValueError, TypeError, AttributeError, IndexError, KeyError, OverflowError and UnboundLocalError can come out.", "quantifier": "for all legacy bodies and entity names, whatever the depth of their expressions, and for all Unicode tables and readings of numbers in texts", "why_tests_cant": "The absence of foreign exceptions is a statement about all bodies of a shape; a test shows one exception for one body.", "anchors": ["snuba_sdk/legacy.py:json_to_snql", "snuba_sdk/legacy.py:parse_exp", "snuba_sdk/legacy.py:_parse_condition_parts", "snuba_sdk/legacy.py:parse_extension_condition"]}
{"id": "C80", "title": "Threads may share a metrics query", "statement": "Any number of threads may call validate, str, print and serialize on one MetricsQuery, beginning whenever they like and interrupting each other between any two reads or assignments of its field query, which serialize replaces. Each call of serialize and validate that has finished has the result it has with nobody else around. A call of print or str returns the text with the filters as they were given or as they are sent, and never a mixture; once a call of serialize has finished, calls that begin later show them as they are sent. The object is always as it was or as serialize leaves it. Every call finishes after at most seven steps of its own, and the steps of a call that is not interrupted are those of the sequential call.", "quantifier": "for all metrics queries (valid or not), all numbers of threads and calls, all interleavings of their steps, and all Unicode tables and representations", "why_tests_cant": "The number of interleavings grows without bound with the number of calls, and a test cannot choose where a thread is interrupted; a race would show up rarely if at all.", "anchors": ["snuba_sdk/metrics_query.py:MetricsQuery.serialize", "snuba_sdk/metrics_query.py:MetricsQuery._optimize", "snuba_sdk/metrics_query.py:MetricsQuery.print", "snuba_sdk/metrics_query.py:MetricsQuery.validate"]}
{"id": "C81", "title": "Lists in several places of a legacy body", "statement": "In Python the same list may occur in several places of a legacy body, or of several bodies, and json_to_snql assigns to items of lists under orderby. If no list under orderby that begins with a dash occurs in a second place of the body, the conversion gives what it gives for a body of distinct lists with the same contents, and leaves the body with the contents that this conversion leaves. At any sharing, the result is that for a body of distinct lists with the contents seen: each item under orderby as the turns of the items before it have left it, what is read before orderby as it was, what is read after it as all turns have left it. At any sharing, the conversion comes to an end, changes no list but items of the list under orderby, and takes nothing from them but the dashes before their first text; another body in which no such list occurs is not affected, and without dashed lists nothing changes at all. The condition is needed: one dashed list that occurs twice under orderby orders descending and then ascending.", "quantifier": "for all bodies of any depth with any sharing of lists (readable, that is, without cycles), all entities and all Unicode tables", "why_tests_cant": "Bodies in tests are written as literals, in which every list is an object of its own; the ways in which lists can be shared are unbounded.", "anchors": ["snuba_sdk/legacy.py:json_to_snql"]}
{"id": "C82", "title": "The order of Python's sets", "statement": "Python visits a set in an order that depends on the hashes of its items, and the hashes of texts differ from process to process. Whatever the order in which the SDK's loops see the columns found in a query, the aliases and the entities of a join, the required columns of a data model, the operators of the time column and the names of the legacy flags, and whichever of several equal items the set keeps: building a join, validating, serializing and checking the required columns of a query give the same result or raise the same class of error, and the conversion of a legacy body gives the same flags. For the check of the columns of a join this rests on the check of the join that comes before it: on its own the former depends on the order when two entities share an alias.", "quantifier": "for all queries, joins and legacy bodies, and all orders of all sets", "why_tests_cant": "A test run has one hash seed and sees one order of each set; the orders and the queries are unbounded.", "anchors": ["snuba_sdk/query_validation.py:validate_match", "snuba_sdk/query_validation.py:_validate_join", "snuba_sdk/query_validation.py:validate_required_columns", "snuba_sdk/relationships.py:Join.validate", "snuba_sdk/legacy.py:json_to_snql"]}
{"id": "C83", "title": "The characters and lines of a query's text", "statement": "Every character of the text of a query, or of an expression, is printable ASCII, or stands in a name that the query holds (a column, entity, storage, function, alias, identifier or relationship), or is not a line break and stands in a string that it holds. So serialize() gives a single line unless a name contains a line break, whatever the strings are, and print() gives one line for the match and one for each clause that is set. The condition on names is needed: the column name id followed by a line break is accepted and printed as it is.", "quantifier": "for all queries of any depth, all strings, names and clauses, and all Unicode tables", "why_tests_cant": "Tests look at the texts of chosen queries; the claim is about every character of every text, at any depth and with any strings.", "anchors": ["snuba_sdk/query_visitors.py:Printer", "snuba_sdk/visitors.py:Translation", "snuba_sdk/query.py:Query.serialize", "snuba_sdk/query.py:Query.print"]}
{"id": "C84", "title": "A deletion deletes the rows that were asked for", "statement": "If the column conditions of a deletion are lists of values, then the recipient of the text of its request finds, under query and columns, conditions that hold for exactly the rows that the deletion asks for: the rows that have, in every column named, one of the values listed for it. This holds whatever cells are and whatever it means for a cell to have a value. There is always a column in which the deleted rows have one of finitely many values, so a deletion never means everything. The storage is no part of the text: requests that differ only in the storage of the deletion have the same text.", "quantifier": "for all deletions with any columns and values, all requests that carry them, all kinds of cells and all rows", "why_tests_cant": "Tests compare the JSON of two small deletions; which rows of a table are deleted, for all tables and all values, cannot be enumerated.", "anchors": ["snuba_sdk/delete_query.py:DeleteQuery", "snuba_sdk/request.py:Request.to_dict", "snuba_sdk/request.py:Request.serialize"]}
{"id": "C85", "title": "Error messages name the culprit", "statement": "When a query is refused because a column does not fit its match, the message names a column that occurs in the query, and what it says of that column is so: it is not selected by the subquery, has no entity, has an alias that the join does not use or uses for another entity, or is not in the data model. When required conditions are missing, the message is about an entity of the innermost match and names, in alphabetical order, exactly the required columns that no condition restricts, or, if there are none, exactly the missing operators for the time column, in the singular for one and the plural for several. A refused join is empty or uses the alias named in the message for the two entities named in it. A refused deletion is empty or the message names its first column without values; a refused set of flags has the named flag as the first one that is no boolean. All this holds in every order of Python's sets. About required columns the message is the same in every order; the order of the two operators for the time column is not.", "quantifier": "for all queries, joins, deletions and flags, all data models, and all orders in which Python may iterate over its sets", "why_tests_cant": "Tests compare the messages of chosen faulty queries in one order of the sets; that a message is never about the wrong column, for all queries and orders, cannot be enumerated.", "anchors": ["snuba_sdk/query_validation.py:validate_match", "snuba_sdk/query_validation.py:validate_required_columns", "snuba_sdk/relationships.py:Join.validate", "snuba_sdk/column.py:Column.validate_data_model", "snuba_sdk/delete_query.py:DeleteQuery.validate", "snuba_sdk/request.py:Flags.validate"]}
{"id": "C86", "title": "The parser's cache changes nothing and keeps the number of evaluations linear", "statement": "The MQL parser with its packrat cache finds, for every text and every rule of the grammar, the same outcome as without the cache, and never reports a left recursion. Each of the 126 expressions of the grammar is evaluated at most once at each position of the text, so the number of evaluations is at most 126 times the length of the text plus one. The parse tree that parse_mql visits is the one found with the cache.", "quantifier": "for all texts, all rules of the MQL grammar and all sufficient numbers of nested calls; that the cache changes nothing also for all grammars", "why_tests_cant": "A cache that returns a stale or foreign entry, or a left recursion, shows only for texts that reach the same expression twice at one position; and a bound on the work for all lengths of texts cannot be measured on finitely many.", "anchors": ["snuba_sdk/mql/mql.py:MQL_GRAMMAR", "snuba_sdk/mql/mql.py:parse_mql"]}
{"id": "C87", "title": "A query is a template of its values", "statement": "The text of an expression, of a query and of a timeseries or formula (here for the values in filters and in the parameters of the aggregates of timeseries) is a template with slots for the literals in it: replacing the literal values in it by other literal values (None by None only) gives the text of the same template, filled with the literals of the new values. Whether a query is valid, and which exception is raised if not, stays the same under such a replacement. For the text that is sent, where conditions of one OR on equal left-hand sides are merged, this holds for replacements that change no equality between these left-hand sides; in particular for all if these are columns.", "quantifier": "for all expressions and queries whose items were made by the constructors and that have a text, and all functions from literal values to literal values", "why_tests_cant": "A value that changes a query outside of its own literal (a clause that is dropped for an empty string, a parenthesis for negative numbers, a condition that is skipped for False) shows only for that value, and there are infinitely many values and places for them.", "anchors": ["snuba_sdk/visitors.py:Translation", "snuba_sdk/query_visitors.py:Printer", "snuba_sdk/query_visitors.py:Validator", "snuba_sdk/query.py:Query.serialize", "snuba_sdk/query.py:Query.print", "snuba_sdk/query_optimizers/or_optimizer.py:OrOptimizer", "snuba_sdk/metrics_visitors.py:TimeseriesMQLPrinter"]}
{"id": "C88", "title": "Lists that the caller changes later", "statement": "The SDK's objects are frozen but keep the lists they were given, and the caller may change these at any time. Whatever was done to the lists inside a query, a text is produced only if the constructor of its class would accept every item of every clause, and the match, as they are now. Moreover a query that gives a text is then one that can be made with the SDK (false for lists inside nested expressions, which are not checked again; proved where only the clauses and the items themselves hold lists). A query made of tuples cannot be changed.", "quantifier": "for all queries made with the SDK, all sequences of changes to the lists inside them and inside what was put into them, at every depth, and both texts", "why_tests_cant": "Tests build an object and use it at once; which of the infinitely many later changes to which of its lists is noticed depends on which checks validation repeats and for which parts.", "anchors": ["snuba_sdk/query.py:Query.serialize", "snuba_sdk/query.py:Query.print", "snuba_sdk/query_visitors.py:Validator", "snuba_sdk/function.py:CurriedFunction.validate", "snuba_sdk/function.py:Lambda.validate", "snuba_sdk/conditions.py:Condition.validate", "snuba_sdk/conditions.py:BooleanCondition.validate", "snuba_sdk/orderby.py:LimitBy.validate", "snuba_sdk/relationships.py:Join.validate"]}
{"id": "C89", "title": "The message of a refused constructor tells what is wrong", "statement": "A constructor of Column, AliasedExpression, Entity, Storage, CurriedFunction, Function, Identifier, Lambda, Condition, BooleanCondition, And, Or, OrderBy, LimitBy, Limit, Offset, Granularity, Totals, Extrapolate, Relationship or Join raises an exception exactly if something is wrong with its arguments. The exception has the class and the exact message that belong to the first thing that is wrong, in the order name, initializers, alias, parameters (and so on for the other classes), and of several bad elements the first is named. Messages about a column quote its name, and messages about a function name it, unless a value inside a parameter is at fault.", "quantifier": "for all arguments of all constructors, of any type, and for joins all orders in which a set may be walked", "why_tests_cant": "Tests compare the messages of some bad arguments; which of several faults is reported, and that no fault gets the message of another, has to hold for every combination of arguments.", "anchors": ["snuba_sdk/column.py:Column.validate", "snuba_sdk/aliased_expression.py:AliasedExpression.validate", "snuba_sdk/entity.py:Entity.validate", "snuba_sdk/storage.py:Storage.validate", "snuba_sdk/function.py:CurriedFunction.validate", "snuba_sdk/function.py:Identifier.validate", "snuba_sdk/function.py:Lambda.validate", "snuba_sdk/conditions.py:Condition.validate", "snuba_sdk/conditions.py:BooleanCondition.validate", "snuba_sdk/orderby.py:OrderBy.validate", "snuba_sdk/orderby.py:LimitBy.validate", "snuba_sdk/expressions.py:_validate_int_literal", "snuba_sdk/expressions.py:is_scalar", "snuba_sdk/relationships.py:Relationship.validate", "snuba_sdk/relationships.py:Join.validate"]}
{"id": "C90", "title": "The message of a refused metrics object tells what is wrong", "statement": "Building or changing a Metric, Timeseries, Rollup or MetricsScope, changing a Formula or MetricsQuery by a setter, and validating a Formula or MetricsQuery raises an exception exactly if one of the demands on it is not met. The exception has the class and the exact message that belong to the first demand not met, in the order of the fields (for a metrics query: query, start, end, rollup, scope, limit, offset, extrapolate, indexer_mappings), and of several bad parameters of a formula the first is named. A setter called on a valid metric, scope or timeseries (filters, groupby) can only be refused because of its argument. Validating a metrics query has a message of the SDK except when an interval is compared with an empty granularity that is no number; for an MQL string that does not parse the message ends with the words of the parser (C93).", "quantifier": "for all objects and all arguments of any type; formulas whose own fields are in order are assumed to be typed as annotated", "why_tests_cant": "Tests compare the messages of some bad arguments, one fault at a time; which of several faults is reported, and that no fault gets the message of another, has to hold for every combination of fields.", "anchors": ["snuba_sdk/timeseries.py:Metric.validate", "snuba_sdk/timeseries.py:Metric.set_mri", "snuba_sdk/timeseries.py:Timeseries.validate", "snuba_sdk/timeseries.py:Timeseries.set_aggregate", "snuba_sdk/timeseries.py:Rollup.validate", "snuba_sdk/timeseries.py:MetricsScope.validate", "snuba_sdk/formula.py:Formula.validate", "snuba_sdk/formula.py:Formula.set_parameters", "snuba_sdk/metrics_query.py:MetricsQuery.set_query", "snuba_sdk/metrics_query.py:MetricsQuery.validate", "snuba_sdk/metrics_query_visitors.py:Validator"]}
{"id": "C91", "title": "The message of a refused query tells what is wrong", "statement": "Naming something as match that is no Entity, Storage, Join or Query, and calling a setter with an argument it does not take, raises an exception with the class and the exact message that belong to the first demand not met, and nothing else makes a setter fail on a query that a program can make. If Query.validate raises with a message, that message is true of the query: the join is empty or uses an alias twice, a column in it is bad or does not fit the match, the select list is empty, or totals are asked for without a groupby. If a subquery is refused as match, by the constructor or by set_match, the message is 'inner query is invalid: ' followed by what is wrong with that subquery. For queries made by naming a match and calling the setters with objects of the SDK there always is a message, they are refused exactly if something is wrong with them, and of several faults the first is reported: a column in a clause that the data model of its own entity does not have (the first such column, in the order of the clauses), then columns that do not fit the match, then the select list, then totals. A valid query that loses its select list, that has totals and loses its groupby, or that has no groupby and gets totals, is refused with exactly the message for that.", "quantifier": "for all arguments of any type, all queries that the constructor and the setters can make, and all orders in which Python may iterate over sets", "why_tests_cant": "Tests try one bad argument per setter and a handful of invalid queries; that no other query gets a message that is false of it, and that an inner query is never blamed for the fault of another, concerns all nested queries.", "anchors": ["snuba_sdk/query.py:Query.__post_init__", "snuba_sdk/query.py:Query.set_match", "snuba_sdk/query.py:Query.set_select", "snuba_sdk/query.py:Query.set_limit", "snuba_sdk/query_visitors.py:Validator._combine", "snuba_sdk/query_validation.py:validate_match"]}
{"id": "C92", "title": "The message of a refused request tells what is wrong", "statement": "Request.validate looks at the dataset, the app_id, parent_api, tenant_ids, the query and the flags, in this order, and raises exactly the exception (class and full text) that belongs to the first thing not in order: that the dataset or app_id is missing, or its text if it has characters that are not allowed, the text of the parent_api, the missing tenant_ids dictionary, whatever the validation of the query raises, unchanged, and the name of the first flag that is no boolean. For deletions and for metrics queries the demands of the query are spelled out too; for a query made of objects of the SDK the first fault of C91 is reported, and there always is a message. While dataset, app_id, parent_api or tenant_ids are not in order, neither the query nor the flags have any effect on what is raised; a valid request in which the dataset is replaced is refused only for the dataset.", "quantifier": "for all requests, with fields of any type, any query of the SDK and any flags", "why_tests_cant": "Each test has one fault per request and looks for a part of the text; which of several faults is reported, and that no fault of the query is reported in words of the request, concerns all combinations.", "anchors": ["snuba_sdk/request.py:Request.validate", "snuba_sdk/request.py:Flags.validate", "snuba_sdk/delete_query.py:DeleteQuery.validate"]}
{"id": "C93", "title": "What parse_mql says about a text it refuses", "statement": "Whatever parse_mql raises has the class and the exact message of a fault that the text has: `Invalid metrics syntax` exactly if the grammar does not match the text; for a text that the grammar matches, `Variables are not supported yet` only if it has a dollar sign and a name, `Unary expression not supported for type <class 'str'>` only if it has a minus sign directly in front of a string in quotes, `Cannot use arbitrary functions on a Timeseries without an aggregate` only if it has a call of a function without parameters whose first argument is, as the language reads it, a metric without an aggregate and which is not just an aggregate like `sum(a)` (it has other arguments, or blanks behind the first, or the first is not a plain metric with filters and columns), the message of a column only with a key in it that is in the text and begins with a digit or a point, and an AssertionError without a message only for a number or string that stands alone or in parentheses. No other exception is raised. Of several faults the one is reported that is met first when each node of the parse tree is visited after its children, from left to right. A metrics query with such a string is refused with `invalid MQL: ` and the same words.", "quantifier": "for all texts", "why_tests_cant": "No test compares a message of the parser. Which method of the visitor raises depends on the whole parse tree, of which there are infinitely many.", "anchors": ["snuba_sdk/mql/mql.py:parse_mql", "snuba_sdk/mql/mql.py:MQLVisitor.visit", "snuba_sdk/mql/mql.py:MQLVisitor.visit_unary", "snuba_sdk/mql/mql.py:MQLVisitor.visit_variable", "snuba_sdk/mql/mql.py:MQLVisitor.visit_arbitrary_function", "snuba_sdk/metrics_query_visitors.py:Validator._visit_query"]}
{"id": "C94", "title": "What printing and serialising a metrics query says", "statement": "print and serialize of a metrics query that does not pass validation raise the exception of validate. For a valid query whose parts have the annotated types, print raises InvalidMetricsQueryError with `MetricQuery.indexer_mappings must not be None` exactly if it has no mappings and its query has an MQL text, InvalidExpressionError only with `CurriedFunction and Function are not supported in conditions in MQL` and only if some filter in it compares with a function, and otherwise an exception for a value that has no text or a formula without parameters. A valid query with an MQL string fails only for missing mappings, in both operations. serialize of a valid query whose metrics have names says nothing else either, where the filters are those that the optimiser left on the object. So the messages that query, start, end, rollup or scope must not be None, that a metric has no name, and those of MQLContext are never seen.", "quantifier": "for all metrics queries", "why_tests_cant": "The tests compare no message of the printer; which exception is raised depends on all parts of a formula of any depth, and that a message is never seen is a statement about all inputs.", "anchors": ["snuba_sdk/mql_visitor.py:MQLPrinter", "snuba_sdk/metrics_visitors.py:MetricMQLPrinter.visit", "snuba_sdk/visitors.py:Translation._visit_condition_mql", "snuba_sdk/mql_context.py:MQLContext.validate", "snuba_sdk/metrics_query.py:MetricsQuery.serialize"]}
{"id": "C95", "title": "What is said when a request cannot be sent", "statement": "to_dict, serialize and print of a request that does not pass validation raise the exception of validate. A request for a deletion that passes validation always has a dictionary. A request for an MQL string is refused exactly for the first of these that fails: dataset, app id, parent_api, tenant_ids, the metrics query, the flags, and last that the query has mappings. For a request for a timeseries or formula whose parts have the annotated types and whose metrics have names, a message of the SDK is that of the first thing validation asks for and does not find or, if it finds everything, one of the two messages of the printer (no mappings; a function in a filter). A request for a query made of objects of the SDK raises the exception of its validation, always with a message or, if it is valid, an exception for a value in some clause that has no text, never with a message of the SDK. Beyond what to_dict raises, serialize and print raise only TypeError, exactly if the dictionary stands for no JSON value.", "quantifier": "for all requests, and all orders in which sets are iterated", "why_tests_cant": "The tests of requests look for parts of messages of validate only; that nothing else can be said when a request is sent is a statement about all queries, flags and fields together.", "anchors": ["snuba_sdk/request.py:Request.to_dict", "snuba_sdk/request.py:Request.serialize", "snuba_sdk/request.py:Request.print", "snuba_sdk/delete_query.py:DeleteQuery.serialize", "snuba_sdk/query.py:Query.serialize"]}
{"id": "C96", "title": "What is said when a legacy body cannot be converted", "statement": "Whatever the body is, the exception of json_to_snql is that of a constructor which refuses its arguments, in the words of that constructor; or that of a setter, which can only be the one for what is selected, for what is grouped by, or for a limit, offset, granularity or totals that the body has; or, for an entity with a time column and a bound whose text is no date, a ValueError that shows this text without the colons after its first plus sign; or one of seven exceptions of Python itself. For a body of the right shape (C79) it is one of the first two, so there always are words of the SDK. An entity that is refused is refused first, whatever else the body holds. An extra, or a text that is no date as a bound, given to a body that is converted without it is refused exactly in the words for this extra or this text. A body that selects nothing is refused in the words of set_select. Take a body that agrees with one that is converted in everything that is looked at before its selected columns, its expressions to group by, its conditions or its having. If the conversion of this list comes to a constructor that refuses, everything before it in the list being converted, the exception is that of this constructor for exactly the arguments it got there, however deep in the list that is and whatever is looked at later. The same holds for a bound that is no date. A body that agrees with one that is converted up to the limit is refused exactly for the first thing that is wrong with limit, offset, granularity and totals, in this order.", "quantifier": "for all legacy bodies, entities and texts, and all orders in which sets are iterated", "why_tests_cant": "Bodies nest to any depth and every part of them can be wrong; the tests look at the messages of a few. That where, having, orderby and limitby never are refused by their setters is a statement about all bodies.", "anchors": ["snuba_sdk/legacy.py:json_to_snql", "snuba_sdk/legacy.py:parse_datetime", "snuba_sdk/legacy.py:parse_exp", "snuba_sdk/legacy.py:parse_condition"]}
{"id": "C97", "title": "What ExpressionFinder finds, for any class", "statement": "When ExpressionFinder for a class of the SDK visits an expression and returns, the result has exactly the outermost objects of that class in it: an object of the class is taken and nothing below it is looked at; an object of another class is walked through, by the initializers and parameters of a function that are expressions, the body of a lambda, the column of an aliased expression, both sides of a condition (the right one only if the operator takes one and it is an expression), the members of a boolean condition, the expression of an order by, the columns of a limit by, the ends of a relationship and the relationships of a join. For the class Identifier a lambda gives its parameters, and its body is not looked at. Everything that is found is of the class. Conditions and boolean conditions are never found, even when their class is asked for. An object without a hash is not found: if one is among the outermost objects of the class, the search raises. For an expression that was constructed, other than Extrapolate, that is the only way to fail, and the exception is a TypeError. For columns the result is that of the search which the validation of queries makes, in the same order.", "quantifier": "for all classes of the SDK and all values that are visited", "why_tests_cant": "The tests of the SDK search for columns in a few expressions; the class, the shape and the depth of what is searched are not bounded.", "anchors": ["snuba_sdk/visitors.py:ExpressionFinder", "snuba_sdk/visitors.py:ExpressionVisitor.visit"]}
