# Formal model of snuba-sdk: design

## Trusted base

* The Lean 4.33.0 kernel. Every theorem named in `MANIFEST.json` depends on no axiom other than `propext`,
  `Classical.choice` and `Quot.sound` (see "Axioms" at the end). There is no `sorry`, `native_decide`, `bv_decide`,
  `implemented_by`, `unsafe`, or own axiom.
* The model (`lean/Verif/Py`, `lean/Verif/Model`) is a hand transcription of the Python source. That the two agree is
  checked by reading only: every definition cites the file and lines it transcribes, and says where it simplifies.
* The specifications (`lean/Verif/Spec`) are small and do not use the helpers of the model, except data types and, where
  said so, basic character classes and the correctly rounded conversion of decimals to floats. The latter is justified by
  C62, whose specification (`Spec/Nearest.lean`) defines the nearest float over the rationals.
* Mathlib is used for the arithmetic of rationals in `Spec/Nearest.lean`, `Spec/Equality.lean`, `Lemmas/Float.lean`, `Lemmas/Nearest.lean` and `Lemmas/Equality.lean` only
  (imported module by module).

## Layout

| directory | content |
|-----------|---------|
| `Py` | Python built-ins: strings, floats, dates, regular expressions, PEG interpreter, UTF-8, JSON, `strptime`, exceptions |
| `Model` | the SDK, function by function |
| `Spec` | what the properties mean, independent of the model |
| `Lemmas` | proofs about the model |
| `Props` | the theorems of the properties (`Cnn_…`), each with concrete examples |

## How the code is modelled

* `Str` is a list of Unicode scalar values (lone surrogates, which Python `str` may hold, are not representable).
* Exceptions are values: every function that can raise returns `Except Err _`; `Err` is the exception class.
  Exception messages are modelled beside the functions that raise them, for C85 and C89 to C96 (`Model/*Messages.lean`).
* Python values are one inductive type `Val` (dynamic typing is kept: constructors take any `Val`, and the `isinstance`
  checks are modelled branch by branch). `MVal` adds the metrics classes.
* Objects are immutable in the SDK except in three places (the printer's `use_entity_aliases` flag,
  `MetricsQuery.serialize` assigning `self.query`, and `json_to_snql` editing lists of the caller's body); these are
  modelled as state. Lists that the caller changes after handing them over are the subject of C88 (a relation between the object before
  and after); the other properties are about objects as they are. Assigning attributes from outside, past the frozen dataclasses, is not modelled.
* Floats are IEEE-754 binary64: sign, odd mantissa and exponent with the range check, the infinities, and one NaN.
  `repr` is the shortest decimal that reads back, in CPython's layout; `float(text)` rounds to nearest even.
* Dates are the proleptic Gregorian calendar; aware datetimes carry their offset in microseconds.
* Regular expressions are data (`Regex`) run by a backtracking matcher with Python's `re.match` meaning, including `$`
  matching before a final newline.
* The MQL grammar is data (`Peg`) run by a PEG interpreter with the semantics of parsimonious (ordered choice, greedy
  repetition, no limit on recursion); a second interpreter with its packrat cache has the same outcomes (C86); the visitor is a function on the parse tree.
* `json.dumps` is modelled for the objects that requests hold (string keys, no cycles); `datetime.strptime` follows CPython 3.11.
* Parameters (type classes) stand for tables that theorems must not depend on: `PyUnicode` (`\w`; fixed on ASCII only),
  `RegexSpace` (blanks of the `regex` module; fixed on the blank, the newline and visible ASCII), `PyRepr` (`str` of metrics values;
  unconstrained), `PyDecimal` (decimal digits; fixed on ASCII), `PyNumberText` (`int` and `float` of texts in legacy bodies;
  unconstrained), `PyShow` (characters that `repr` prints as they are, and `repr` of other objects; unconstrained), `PyText` (`str` of other objects and of foreign classes; unconstrained).

Not modelled: exception messages other than those of C85 and C89 to C96, generated `__repr__` texts of dataclasses, Python's recursion limit and its limit of
4300 digits for `int`/`str` conversions, object identity, subclasses defined by users, memory, hash collisions, abstract
base classes (their methods only raise `NotImplementedError`), `__init__.py` (re-exports). 
Simplifications (each is also stated at the definition concerned):

* Values: sequences other than list, tuple, str and bytes, and objects of foreign classes, are reduced to what the code tests of
  them (`Model/Val.lean`); the sets of a data model (`schema.py`, `ColumnSet` included) are lists; loops over sets have one order,
  except in C82, which says that the order makes no difference.
* A clause of a query contains no `Query` object (`Model/Query.lean`).
* `snuba.py`: two checks answer `False` where the code would raise `AttributeError` (`Model/Snuba.lean`).
* Metrics: fields change through `set_*` only; dictionaries have string keys; foreign objects can be hashed and cannot be
  iterated; a recursion stands for the explicit stack; equal keys are taken to have equal hashes; dictionaries as parameters of
  formulas are not iterated.
* `MetricsQuery`: scopes, rollups and mappings of wrong type fail validation and are not followed further.
* Requests: the query is a query of the SDK, and flags are `None` or a `Flags` object.
* Legacy bodies: a dictionary occurs under `tenant_ids` only, no `set` values; `entity` is a string. No list is shared by two places, except in C81, which says when this makes no difference.
* MQL numbers: `float(text)` is modelled on the texts that the grammar lets through.
* JSON: string keys, no cycles.

So the theorems say nothing about inputs outside these limits.

## Plan per property

| id | what is modelled | how it is proved |
|----|------------------|------------------|
| C01 | `_stringify_scalar` on str | independent literal reader as a spec; induction on the string |
| C02 | same in MQL mode, `quoted_string` token regex | the token is matched in full whatever follows; it is read back exactly if it has no backslash and no newline |
| C03 | `_stringify_scalar` on nested values | a prefix-free reader, mutual structural induction; floats by the shortest-digits argument |
| C04 | datetime shift and isoformat | ordinal arithmetic, proleptic Gregorian calendar inverse |
| C05 | `_stringify_scalar` | structural induction |
| C06 | UTF-8 decoder | decode inverts encode |
| C07 | `_validate_int_literal` and users | case analysis over `Val` |
| C08, C09 | regexes as data, Python match semantics | language characterisation by induction on strings |
| C10, C11 | `is_scalar`, `Condition.validate`, `BooleanCondition.validate` | mutual induction |
| C12 | `Join.validate` | loop invariant over the set of mappings |
| C13 | all constructors and `Validator` | induction on a constructor-reachability predicate; false for subscripted columns |
| C14, C15, C19 | `Printer` | induction on subquery depth; for C15 also: a query on a join or a subquery has the clauses of the same query on a plain entity |
| C16 | boolean printing | independent precedence parser on token lists; false for function names with blanks |
| C17 | printer with explicit flag state and failures | invariant over histories |
| C18 | `serialize`/`validate` | totality by induction; when printing or serialising a valid query raises, a part of one of its own clauses is to blame for that exception class (`Spec/Blame.lean`), also after the rewriting of the conditions |
| C20 | `:f` formatting of floats | arithmetic |
| C21, C22 | setters as operations, reachable queries | induction on operation sequences |
| C23–C28 | `Validator._combine`, `ExpressionFinder`, `query_validation` | induction; row semantics for C28 |
| C29, C30 | `OrOptimizer` | Kleene semantics over an arbitrary interpretation; induction |
| C31 | `is_aggregate`, legacy check | language/tree induction; the table of names is entered a second time in `Spec/Aggregate.lean`, by family, and the two are compared |
| C32–C36 | metrics classes, context | exact acceptance, invariants over histories |
| C37 | `_visit_condition_mql` | a separate reader of filter texts (`Spec/MqlFilterRead`) finds names, values, negations and grouping again; the statement itself is false because the code merges operators |
| C38 | MQL printers against grammar and visitor | `NormalForm` says what is expressible and what becomes of it; printed text is derived in the reading relation of C39/C40; false for five kinds of queries that the parser itself produces |
| C39 | expression rules | chains of operands are read as the unique tidy tree |
| C40 | filter rules | chains are disjunctions of conjunctions; false for blanks before a key that begins with `and` |
| C41 | PEG interpreter | well-founded bound on depth; fuel monotonicity |
| C42 | `MetricsQuery.serialize` as a state transformer | induction on repetitions |
| C43–C45 | flags, request, delete | exact acceptance, exact payload |
| C46 | JSON encoder | independent JSON reader inverts it; every character of the text is printable ASCII (`encodeJson_shown`, by induction on the value); other values raise `TypeError` (`C46_error`) |
| C47, C49, C50 | legacy conversion | relations that define the meaning of a legacy body; equivalence with the code in both directions |
| C48 | explicit mutation of the body | exact condition for the body to be kept; false for lists with a leading dash |
| C51 | string-query path | unfolding both paths |
| C52 | visitor | `ParsedPart` (`Spec/MqlResult.lean`) lists what the parts of a parsed query can be, down to the spelling of names; every method of the visitor keeps to it (types of the rules as in C58, induction over the parse tree). That a rule was tried and failed before another one matched counts too: it is why names do not begin with digits and why a quoted string is no pattern |
| C53 | setters of `MetricsQuery` | case analysis |
| C54 | setters of `Query` | table `Accepts` of clause, argument and stored value; equivalence on every reachable query, and the exception otherwise |
| C55 | `json_to_snql` as a whole | relation `RequestOf` (all keys of the body); equivalence in both directions and uniqueness |
| C56 | `Translation` on expressions | independent reader to trees (`Spec/ExprRead.lean`), relation `Says` between values and trees; induction on the expression; the tree determines the expression up to `Same`; false for function names with commas and parentheses and for columns named like constants |
| C57 | `Query.serialize` | independent reader of whole queries (`Spec/QueryRead.lean`): match, clauses, nesting; relation `SaysQuery` between queries and what is read; induction on the nesting with the expression and condition readers of C56 and C16; the trees determine the query up to `SameQuery`; false for function names like `ff() BY gg` |
| C58 | `parse_mql` | `Spec/MqlErrors.lean` describes the texts; the parse trees have the shape of the grammar (`Fits`), each rule has a type for its result and a blame for its errors (`RTy`, `RErr`), every method of the visitor meets them (`rule_ok`), induction over the tree; the converse for plain scalars uses the evaluation lemmas of C39 |
| C59 | constructors, `validate` | `Spec/Errors.lean` says which values cannot be hashed, walked through or measured; case analysis of every check in the constructors; hashability is shown equal to the inductive description (`hashable_iff`), the walk through a formula by induction over it (`scanFormula_error`); for queries, an invariant of the setters (`called_taken`) and C13 |
| C60 | `Formula.set_parameters`, `set_filters`, `set_groupby` | case analysis; the effect on validity from C34 and the equivalence of Python's equality on groupby lists |
| C61 | `MetricsQuery.__str__`, `MetricsQuery.print` (`Model/MetricsText.lean`) | C36 for the context and the JSON reader of C46 for the text; every part of a valid context is shown to be encoded (`context_json`) |
| C62 | `float.__repr__` and `float(text)` as used by the printers and the MQL parser (`Py/Float.lean`) | over the rationals, against a specification that knows neither the rounding nor the digit search: the result is at least as near as every other float, ties go to the even significand (`roundRat_nearest`); the search ends within 17 digits because floats are at least 2^-53 apart in proportion (`seventeen`), and finds the shortest because rounding is monotone (`nearest_between`) |
| C63 | `==` of SDK objects (`Model/PyEq.lean`: generated `__eq__` of dataclasses, `CurriedFunction.__eq__`) against the printer | the equality itself is the subject; what it is compared with (parts of a value, NaN, disguised numbers) is in `Spec/Equal.lean`; induction over the parts of a value; numbers of different classes via the unique odd significand (`eqInt_eqF`). Object identity is not modelled (Python's containers treat an identical NaN as equal) |
| C64 | `hash` of SDK objects (`Model/Hash.lean`: generated `__hash__` of frozen dataclasses) against `==` | what a hash depends on is a tree (`HashTree`), the function from the tree to a number is left open; induction over the parts of a value; failures against `Unhashable` of C59 |
| C65 | MQL printers (`condMql`, `timeseriesMql`, `paramMql`), `MetricsQuery.print` and `serialize` | `Spec/MqlBlame.lean` says which part causes which exception; induction over filters and over formulas, with C18 for the values in them; parsed queries by C52; serialising by C30 (what the optimiser makes of a filter contains nothing new). Stated for parts of the annotated types (`Annotated`): the constructors of `Formula` do not check them |
| C66 | parser and MQL printers | what C52 says about parsed queries, with the hypothesis that each part `Survives` (`Spec/MqlPrintBack.lean`), puts the query in the relation `NormalForm` with what it is settled to; the rest is C38. **Partial**: false for the seven kinds that `Survives` leaves out, each with a witness (`C66_fails_for_…`) |
| C67 | `Column.validate_data_model`, `Query.validate`, printer and OR optimiser | `Spec/Models.lean` says what it means to replace the data models in a query (`remodelQuery`) and to use known columns only (`Conforms`); the printer by induction over values; validity of a query against that of the query without data models, check by check (`Refines`); equality of conditions is the only place where a data model reaches `serialize` (`remodel_pyEq`). `validate_required_columns`, which also looks at data models, is not part of `validate`: see C28 |
| C68 | `MQL_GRAMMAR`, `MQLVisitor`, `parse_mql` | `Spec/MqlMeaning.lean` defines the language and the values of its texts (`Means`, `Denotes`) construct by construct; the relation `RM` says what the method of each rule has to return, and each method is shown to do so if the methods of the parts do (`rule_means`, induction over the tree that the parser matched). That names occur in the text (`Spec/MqlUses.lean`) is by induction over `Means`. Only this direction: not every text that denotes a query is accepted, and a text may denote more than one (`C68_columns_in_mri`); for texts that must be accepted, and read in one way, see C38 to C40 |
| C69 | `json_to_snql`, `Request.validate`, `to_dict`, `serialize` together | from the relation of C55: everything that a body of plain data is converted to is made by the constructors and has no part without text (`Fit`, `Lemmas/LegacySend.lean`, induction over `Converts` and the other relations of `Spec/Legacy.lean`); then C13/C27 (validation), C18 (printing), C44 and C46 (request). `Spec/LegacySend.lean` has the conditions on the body |
| C70 | `Query.__eq__` and `Query.__hash__` (dataclass-generated, `Model/QueryEq.lean`) | a relation `AlikeQuery` (equal, ordinary, aliases told) that every function between a query and its text respects: `validate`, the column finder, the match checks, the optimiser (whose own use of `==` needs transitivity, `pyEq_trans_either`), the printer (`Lemmas/QueryEqual.lean`). `Agree` relates results including their errors. The spec lists the values of a query (`MadeOf`) and reuses `NoNans`, `Ordinary`, `OnlyFunctions`, `NoAliases`, `Unhashable`. Identity shortcuts of Python's containers are not modelled (they only matter for NaN) |
| C71 | `Request.serialize` with a `MetricsQuery`, and `parse_mql` on what arrives | a meaning of metrics queries over an arbitrary store (`Spec/MetricsMeaning.lean`, partial: only what MQL has a meaning for); a query and its normal form (C38) mean the same, by induction over `NormalForm`; the optimiser keeps normal forms and meanings; then C36, C38, C44, C46 and C66 are put together |
| C72 | `Request.serialize` with `Query` and `DeleteQuery` | C44, C45, C46 and C57 put together: lookups in the decoded dictionary instead of existence of a payload |
| C73 | `__eq__` and `__hash__` of `MetricsQuery`, `Formula`, `Timeseries`, `Metric`, `Rollup`, `MetricsScope` (dataclass-generated, `Model/MetricsEq.lean`) | equality of nested structures (`Lemmas/MetricsEqual.lean`); a relation `AlikeM` that the validators, the optimiser and the MQL printer respect (`Lemmas/MetricsAlike.lean`), then the same for whole metrics queries (`Lemmas/MetricsSame.lean`). What is sent is compared by the reader of contexts of C36 and an independent `SameContext`, in which times are compared as instants. A list is taken to be represented alike on both sides (the model has more than one representation of a list of plain values) |
| C74 | `__eq__` of `Request`, `Flags`, `DeleteQuery` (dataclass-generated, `Model/MetricsEq.lean`) | C70 and C73 for the queries; the payloads are compared entry by entry (`Lemmas/RequestEqual.lean`), where the encoder accepts equal structures alike (`data_json`); the reader of JSON is that of C46. `SamePayload` compares what is found in the two payloads by key |
| C75 | `==` of all classes (`Model/PyEq.lean`, `Model/QueryEq.lean`, `Model/MetricsEq.lean`) | `Spec/Equality.lean` says which objects are equal: numbers as rational numbers (bools, ints and floats alike), datetimes by the instant of the calendar in `Spec/Date.lean`, data models as sets, dictionaries by keys, the rest by class and fields; equivalence by induction (`Lemmas/Equality.lean`; for floats with `floatValue_inj` of C62) |
| C76 | Serialising, printing and merging as in C56, C57, C29 and C72 | `Spec/Rows.lean`: a recipient that evaluates the trees read from the text by Kleene logic over an arbitrary interpretation, and when it understands the sender (each unambiguous expression has the value of every tree that says it). By induction on what the text says (`Says`, `SaysCondition`), its clauses have the truth value of the conditions that were given, at every level. `C76_equal_sides` derives the proviso on merged left-hand sides for ordinary printable expressions without function aliases; for others see `C29_proviso_needed` |
| C77 | `json_to_snql` as in C47 and C55, serialising as in C76 | `Spec/LegacyRows.lean` gives the truth of a body at a row from any truth of single conditions; the truth is unique and equals that of the converted clauses (`Lemmas/LegacyRows.lean`, from the description `WhereOf` of C47 and algebra of Kleene logic); `C77_sent` composes this with C76 |
| C78 | `repr` of strings, numbers and containers (`Py/Repr.lean`), `DeleteQuery.print`, `Entity.__repr__`, `Storage.__repr__` (`Model/Repr.lean`) | `Spec/Repr.lean` is a reader of Python literals and of calls with literal arguments, written from the rules of the language; induction over literals shows that it reads every text back (`Lemmas/Repr.lean`). For entities the alias is not escaped: the texts are told apart by the first quote, the last character and the last `=` (`quoted_sample`), not by reading |
| C79 | the model of `legacy.py` of C47 to C50 and C55 | `Spec/LegacyErrors.lean` says what shape a body has, without names and ranges; each step fails by announced exceptions only, using C59 for the constructors (`FailsBy`, `Lemmas/LegacyErrors.lean`). The specification of C55 gives the converse: what is converted has the shape |
| C80 | `validate`, `__str__`, `print`, `serialize` and `_optimize` of `MetricsQuery`, cut into steps at every read and assignment of the field `query` (`Model/MetricsThreads.lean`) | calls begin at any time and their steps are mixed in any order (`SharedQuery.run`). Invariant over all executions (`SharedQuery.Sure`): the object is the original or its merged form, and each call has in hand only what it would have alone; merging twice is merging once (C42). `C80_alone` ties the steps to the sequential model |
| C81 | `json_to_snql` on bodies whose lists have addresses (`Model/LegacyShared.lean`): the loop over `orderby` reads each item when its turn comes and assigns to it, and what follows reads the body as it is then | what can be read has no cycles; a value in which the changed list does not occur is read as before; exchanging a text for a text changes nothing about what occurs where. By induction over the loop the value model (C47 to C50, C55, C69, C77, C79) is the result (`C81_as_value`); `C81_in_turn` says for any sharing which contents the value model has to be given (`Spec/LegacyShared.lean`: the lists after some turns in closed form), and `C81_seen` that they exist; `C81_changes` and `C81_total` need no condition either; `C81_fails_for_lists_in_two_places` is the witness that `C81_as_value` needs its own |
| C82 | The loops over Python sets, each through an order given from outside (`Model/SetOrder.lean`): `Join.validate`, `validate_match`, `validate_required_columns`, the legacy flags | an order sees only items of the set, and each item or an equal one (`Spec/SetOrder.lean`); each loop passes exactly if a test holds of every item, equal items pass alike, and all failures of one loop are of one class; the dictionary of aliases is the same in every order because `Join.validate` has passed |
| C83 | `Translation`, `Printer`, `Query.serialize`, `Query.print` (as for C14) | `Mentions` says which names and strings a value holds (`Spec/Lines.lean`). Induction over the value: a character that is not printable ASCII is in no fixed piece of text, number or date, and an escaped string holds no line break and no character that the string does not hold. The OR merging brings in no new names or strings |
| C84 | `DeleteQuery` in a `Request` (as for C45 and C72) | the meaning of a deletion is taken from its docstring (`Spec/Deletion.lean`): one relation for the sender's mapping, another for the JSON that the recipient reads, over any type of cells. From C72_delete, since lists are sent as arrays of the same values in the same order |
| C85 | `Join.validate`, `validate_match` and its branches, `Column.validate_data_model`, `validate_required_columns`, `DeleteQuery.validate`, `Flags.validate`, now with their messages, in any order of the sets (`Model/Messages.lean`) | `C85_same_class` ties these to the checks in the rest of the model. The specification (`Spec/Messages.lean`) says of each message what has to be true of the query, in terms of the columns that occur, the aliases used, and the conditions that have to hold; the required columns are listed completely and in alphabetical order. By induction on the loops; a list in alphabetical order is determined by its members |
| C86 | `Expression.match_core` of parsimonious with its packrat cache and its check for left recursion (`Py/PegCache.lean`), run on `MQL_GRAMMAR`; `parse_mql` (as for C41) | the cache is an association list that also records each evaluation that was started; `Spec/PegCache.lean` says which expressions a grammar has and counts them. Induction on the number of nested calls: stored entries are outcomes of the parser without a cache, and an entry in progress is about a call that does not end within the calls considered, so meeting one again contradicts that the call ends (C41). Keys are distinct, so there are at most as many as expressions times positions |
| C87 | `Translation` (SnQL and MQL), `Printer`, `Validator`, `Query.print`, `Query.serialize`, `OrOptimizer`, `TimeseriesMQLPrinter`, `FormulaMQLPrinter` (as for the properties above) | `Spec/Template.lean` says what it is to replace the literals in a query, and what a template is. Mutual induction on the value: for each text there is a list of pieces whose slots are literals of the value and that gives the text for each replacement; lists, clauses and parentheses put templates together. Every check and the search for columns give the same result after a replacement, because they look at classes only; `None` on the right-hand side is why `None` must stay. The optimiser commutes with replacements that keep the equality of left-hand sides; a witness shows that others change more than the literals |
| C88 | `Query.validate`, `serialize`, `print`, `validate` of every expression class, all constructors | `Spec/Mutation.lean` says what an object looks like after lists inside it got other contents (`Edited`, over-approximating: each occurrence may change on its own), and what it is to be accepted by one's constructor. Case analysis of the classes: `validate` repeats exactly the constructor's checks on what the list holds now; induction over the relation shows that frozen parts stay and that parts with lists only outside stay buildable. False for lists in nested expressions, which are not validated again (witness) |
| C89 | the constructors of the SnQL classes, with the texts of their exceptions (`Model/BuildMessages.lean`) | `Spec/BuildMessages.lean` lists what can be wrong with the arguments of each call, in order, with class and literal text (`Refusal`). Case analysis of every check gives `error ↔ Refusal`, hence that the first fault is unique and that a call succeeds iff nothing is wrong; forgetting the texts gives the constructors of the rest of the model. What `str()` gives for values other than `None`, bools, ints, floats, strings, lists, tuples, enum members, columns, entities and storages is a parameter about which nothing is assumed. The text of the class of a value inside a message is pinned by a table of literals (`Spec/ClassText.lean`) |
| C90 | constructors, setters and `validate` of metrics, timeseries, rollups, scopes, formulas and metrics queries, with the texts of their exceptions (`Model/MetricsMessages.lean`) | `Spec/MetricsMessages.lean` gives each operation a list of demands in order, each with class and literal text; `RefusedBy` says that the operation raises exactly what belongs to the first demand that is not met. Proved check by check and composed along the sequence of checks; acceptance iff all demands are met follows, and forgetting the texts gives the functions of the rest of the model. A formula whose fields are in order is assumed to be typed as annotated, as in C34; MQL strings need no assumption because what the parser builds is typed. For a string that is no MQL the message ends with the words of the parser, of which C93 speaks. Two things are left open: the words of Python's own `TypeError` for an interval compared with an empty granularity, and `str()` of a metrics object inside a message (a parameter about which nothing is assumed). `C90_message_given` shows that validating a metrics query raises without a specified message in the first case only |
| C91 | `Query.__post_init__`, `Query.set_*` and `Query.validate` with the texts of their exceptions (`Model/QueryMessages.lean`) | `Spec/QueryMessages.lean`: `fieldDemands` lists what each setter asks of its argument (in the form of C90), `OwnFault` lists what can be wrong with a query itself and the text for it. On a query that a program can make a setter raises exactly what belongs to the first demand not met (`C91_setters`). What validation says is true of the query, or of one inside it; of the query itself if a program can make it, because queries inside were validated before. A refused subquery is reported once, as `inner query is invalid: ` and what is wrong with that subquery. For queries made by naming a match and calling setters with objects of the SDK there always is a message. Three theorems give the exact text after one change of a valid query. `FirstFault` orders the faults of such queries (columns off their own data model, in the order of the clauses; columns that do not fit the match; select list; totals): `C91_first` shows that a query is refused exactly if it has one and that the first is reported, `C91_exact` that the text is then determined, except for columns that do not fit the match, where the order of a set decides which is named. Left open are texts of exceptions raised by clauses that are no objects of the SDK |
| C92 | `Request.validate`, with `Flags.validate` and `DeleteQuery.validate`, with the texts of their exceptions (`Model/RequestMessages.lean`, `Model/Messages.lean`) | `Spec/RequestMessages.lean`: lists of demands in the form of C90, `headDemands` for everything but query and flags, `deleteDemands`, `flagDemands`. `C92_request`: whatever list of demands describes the validation of the query, a request is refused exactly for the first unmet demand of head, query and flags together; `C92_deletion` and `C92_metrics` put in the lists for deletions and (from C90) metrics queries, `C92_query` the first fault of C91. `C92_head_first` and `C92_dataset_replaced` compare two requests. Left open: the texts of Python's own exceptions when the conditions of a deletion are no mapping or a value has no length. |
| C93 | `parse_mql` and the visitor with the texts of their exceptions (`Model/MqlMessages.lean`) | `Spec/MqlMessages.lean` lists the faults of a text as patterns, each with class and literal message. Every raise is traced to the node whose method raised it (induction over trees of the shape of the grammar), and `rule_returns` says for each rule how its own method can fail; six rules can. The syntax error is an iff; the other faults are necessary conditions of the text, not sufficient ones (a dollar sign may stand inside a string, and a call inside of a call is raised for only if nothing else is raised before), because which node raises first depends on the parse tree. `C93_first` says which one it is: the first in postorder whose method raises, as an iff. The fault `call` uses the language of C68: the first argument is a text that means a timeseries without an aggregate. That the call is not just an aggregate like `sum(a)` comes from the order of the alternatives: wherever the grammar tries an arbitrary function, an aggregate has failed at the same place (`grammar_guarded`) |
| C94 | the printer of metrics queries with the texts of its exceptions (`Model/PrintMessages.lean`) | The functions follow `queryMql`, `print` and `serialize`; forgetting the texts gives those (`C94_same_class`). `Spec/PrintMessages.lean` says what it is to compare with a function in a filter. An exception with a message is followed to the place where it is raised (induction over formulas and conditions): only two places are left for a valid query, because validation asks for the other fields and the types for the names of metrics. Messages raised while a single value is turned into a text are left out (`none`), and C65 says when that happens. For `serialize` the statement is about messages only, not about exceptions without one, because after the optimiser the filters need not be of the form that C65 asks for. `MQLContext` is not modelled as an object; `C94_context` says that whenever a query is printed the entries it requires are there and not `None` |
| C95 | `Request.to_dict`, `serialize` and `print` with the texts of their exceptions (`Model/SendMessages.lean`) | The functions follow those of `Model/Request.lean` and use the validation of C92 and the printer of C94; forgetting the texts gives the functions without them (`C95_same_class`, `C95_same_class_query`). For deletions and MQL strings there is a list of demands in the form of C90 (`C95_deletion`, `C95_string`), with the mappings last. `C95_metrics` is about messages only, for the reason given for C94. `C95_query` puts together C92 and C18; that the clauses of every level of a query made by calls hold SDK expressions is proved by induction over the calls. Simplification: both validations of the query see the sets in the same order (by C82 that makes no difference to whether they pass). The request afterwards is in C44, not here |
| C96 | `json_to_snql` and the functions of `legacy.py` it calls, with the texts of their exceptions (`Model/LegacyMessages.lean`) | The functions follow those of `Model/Legacy.lean`; forgetting the texts gives the functions without them (`C96_same_class`). `LegacySaid` lists what can be said; it refers to the refusals of C89 and the demands of C91, and each step of the conversion is shown to stay within it (`C96_said`). That a setter is at fault only for some clauses follows from what the conversion hands to it. `C96_said` does not say which call of a constructor it is that refuses. `C96_clause` does for a body that agrees with a convertible one in what is looked at before the clause: `ComesTo` (`Spec/LegacyHalts.lean`) relates an expression to the calls its conversion comes to, at any depth, and the one that refuses speaks. Groups of alternatives in conditions, aggregations, `orderby`, `arrayjoin` and `limitby` are not among its clauses. `C96_bound` and `C96_extras` do the same for bounds and for the extras together, so the order of these steps is fixed. `C96_entity`, `C96_date`, `C96_extra` and `C96_nothing_selected` give the exact text for a single fault. Python's own texts and the body afterwards (C55) are left out |
| C97 | `ExpressionFinder` for any class of the SDK (`Model/AnyFinder.lean`) | `find` takes the class as an argument; what goes into a set is hashed with `hashTree` (C64). `Outermost` (`Spec/AnyFinder.lean`) says what is in an expression by rules of descent, `InClass` lists the objects of a class. `C97_found` is proved by induction over the value. `C97_class` and `C97_no_conditions` follow from the rules, `C97_unhashable` from C64. `C97_columns` compares with `findColumns`, the model used by the validation of queries. A set is the list of what is put into it, so equal objects are listed more than once; tuples of classes are left out. `C97_found` speaks of searches that return. `C97_returns` says when they do, for constructed expressions, with the invariant of constructed objects (`Lemmas/WF.lean`) |

## Where the code does not do what one would expect

Proved, with witnesses, unless marked "observed":

* C13: a column `tags[a]` on an entity whose data model has the name `tags[a]` but not `tags` constructs (the check runs before the
  subscript is split off) and then fails its own `validate`.
* C16: the function name pattern accepts `a IS NULL OR f`, which captures the neighbouring condition.
* C17: a `Printer` that is used again after a failed print of a join leaks aliases (the SDK itself always takes a fresh one).
* C29: `f(1)` and `f(True)` are equal keys for the optimizer (hence the proviso of the theorem).
* C36: a valid query may not be printable (`indexer_mappings=None`, a nested formula without parameters).
* C37: `a > "5"` is printed like `a = "5"` in MQL (theorem); `LIKE "foo*"` like `= "foo*"` (example). By reading, the same
  holds for `<`, `>=`, `<=`, and the unary operators print an empty right side.
* C38: unary minus with filters, numbers with exponents, string parameters of formulas, MRIs in backticks, and backslashes do not survive a round trip.
* C40: in `{a:1 android:2}` the second key is read as `roid`.
* C42: `print()` differs before and after `serialize()`, which replaces the query by the optimized one.
* C46: NaN and infinities are sent as words that are not JSON.
* C48: a second conversion of the same legacy body loses descending order.
* C81: a dashed list that occurs twice under the `orderby` of a legacy body orders descending, then ascending.
* C83: `Column("id\n")` is accepted (the `$` of the pattern lets a final line break pass) and breaks the line of the text.
* C88: lists held by nested expressions are not checked again: after the list of an `And` inside an `Or` was emptied, `WHERE (() OR c = 3)` is sent.
* C51: a query given as text and the same query given as object serialise differently if OR conditions can be merged.
* C54: `Query.set_match(Storage)` raises though the constructor accepts storages.
* C56: the function name `ff(a), gg` makes one argument look like two; `Column("NULL")` prints like `None`.
* C57: the function name `ff() BY gg` makes a query without groupby print like one with groupby; one And in a where clause prints like the list of its conditions; `LimitBy` with count `True` prints `LIMIT True BY`.
* C58: `parse_mql("sum(a){1:\"b\"}")` raises InvalidColumnError, `parse_mql("1")` and `parse_mql("sum(a) * (1)")` raise AssertionError instead of InvalidMQLQueryError.
* C59: `Rollup(interval=60, granularity="")` raises TypeError (a comparison of a string and a number), and so do `Formula(..., groupby=5)` and a formula over a timeseries grouped by values that cannot be hashed; `Function("f", [[object()]])` and `Condition(c, Op.IN, [object()])` raise the base class InvalidExpressionError, not the exception of their class; `DeleteQuery` raises AttributeError or TypeError for conditions that are no mapping or values without length.
* C60: `Formula.set_parameters([1])` is taken and only found out by the next validation; `MetricsQuery` validates its formula, a formula on its own is not validated by its constructor or its setters.
* C61: mappings with values that JSON does not have (bytes, objects), and `Rollup(totals=True, granularity=b"")`, pass the validation of a metrics query and make `print()` and `Request.serialize()` raise TypeError.
* C62: a number in MQL that is too large is read as infinity without an error; the query is then printed with `inf`, which the parser reads as a metric of that name.
* C63: equality is not transitive (`CurriedFunction` between two `Function`s with different aliases); equal `CurriedFunction`s may have different aliases and texts.
* C64: equal `CurriedFunction`s with different aliases are hashed by different things, so a set keeps both (unless the hashes collide).
* C65: `a = ff(b) OR a = 1` as the filter of a timeseries cannot be printed (`InvalidExpressionError`) but can be serialised: the optimiser makes the
  list `[ff(b), 1]` of the values, and lists are not searched for functions.
* C66: beside the five kinds of C38, strings as operands are lost (`ff(sum(a), "b")` is read back with the metric `b`), and so are functions called by
  the names of operators: `plus(sum(a))` is printed as `(sum(a))`, `plus(0.5)(sum(a), sum(b))` without `0.5`, and `negate(5)` as `-5.0`, which the
  parser does not accept.
* C67: `e.id = 1 OR e.id = 2` is not merged into `e.id IN array(1, 2)` if one of the two columns is of an `Entity` without the data model that the other has,
  although both print alike.
* C68: the further arguments of a call with parameters are lost if its first argument is a metric without an aggregate: `ff(1)(m, sum(b))` is read as `ff(1)(m)`
  (`C68_arguments_dropped`). In `sum(d:a/b@c by x)` the columns are taken as part of the MRI (`C68_columns_in_mri`).
* C70: queries are frozen dataclasses and so have a hash, but `hash` fails for almost every query in use, since clauses are lists (`C70_hashable`).
* C73: `Formula` is a frozen dataclass and so has a hash, but `hash` fails for every valid formula, since it contains a `Timeseries`, which has none (`C73_formula_unhashable`). `MetricsQuery.serialize` may leave the query unequal to what it was before (example beside `C73_interchangeable`).
* C74: equal requests may differ in validity when a flag is 1 instead of `True` (`C74_flags_differ`); equal deletions may be rejected with different errors (`C74_deletion_errors_differ`).
* C79: `json_to_snql` announces three exceptions for invalid bodies, but raises others for many: `having: [["a", "like", "b"]]` `ValueError` (the operator is not in capitals),
  `groupby: null` `TypeError`, an alias that is a number `AttributeError`, a function without arguments `IndexError`, the operator `!` in an expression `KeyError`, an
  infinite `limitby` `OverflowError`, an `orderby` that is a tuple `UnboundLocalError` (`C79_not_announced`).
* C69: totals without groups and flags that are numbers pass the conversion and are refused when the request is sent. A date whose UTC equivalent is before the
  year 1 or after 9999 passes conversion and validation, and raises `OverflowError` when the query is printed (`C69_early_dates_overflow`).
* C84: a column condition that is a string passes validation and is sent as a string (`C84_string_accepted`). The storage of a deletion is not sent (`C84_storage_not_sent`); the
  recipient has to learn it in another way.
* C85: when both conditions on the time column are missing, the message lists `>=` and `<` in the order of a set of enum members, which depends on the hash of their
  names and so changes from one process to the next (`C85_ops_unstable`); the list of required columns is sorted and does not (`C85_required_stable`).
  An entity without alias in a join is reported as having the unknown alias `None`.
* Observed: `$` lets all name patterns accept a trailing newline (part of C08/C09 as stated); NaN passes as a sample rate; `LimitBy([...], True)` prints `True BY`; a legacy `having` with one OR
  group raises; a legacy `orderby` item that is neither string nor list repeats the previous one.

## Testing the model

`conformance/conform.py` reads the tests of the SDK (`/repo/tests`) as text and turns each parametrised case, and most of the single
tests, into a call of the model and a comparison with what the test expects: a value, a text, a class of exception, and for the checks of
C85 and C89 to C92 that the message contains the text the test looks for. All 874 comparisons agree. (`test_request_set_methods`, which assigns to the fields of a request, is left out. A list
of plain values that the model writes in two ways counts as one list, and `set([...])` is read as a list.) This is a test of the
model, not a proof. No code of the SDK was run.

## Testing the theorems

`seeded/LOG.jsonl` lists wrong versions of the model, made in a scratch copy. A line may show two things:

* `refuted`: under the wrong version, the negation of the unchanged statement of the named claim is proved by Lean, without
  `sorryAx`, from the concrete input given. (The scratch copy for this has all proofs cut out; only statements are used.)
* `theorems_failed`: the existing proofs that broke. If these are helper lemmas, the claims that depend on them are
  under `claim_theorems_no_longer_checked`. A broken proof alone does not show that the claim excludes the bug.

Most lines (546 of 558 at the last count) have a refutation. Its `preamble` names a file in `seeded/preambles` with the definitions and small
facts that the proofs share. Lines without `refuted` show only that proofs break. One of them (C97, parameters that are
no expressions) is probably no bug at all for constructed values; its `note` says so.

## Axioms

`#print axioms` on all theorems of `MANIFEST.json`: each depends on a subset of `propext`, `Classical.choice`, `Quot.sound`.
