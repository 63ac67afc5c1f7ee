import Verif.Lemmas.Aggregate
import Verif.Lemmas.AnyFinder
import Verif.Lemmas.Boolean
import Verif.Lemmas.BooleanRead
import Verif.Lemmas.BuildMessages
import Verif.Lemmas.Built
import Verif.Lemmas.Construct
import Verif.Lemmas.Date
import Verif.Lemmas.Deletion
import Verif.Lemmas.Equal
import Verif.Lemmas.Equality
import Verif.Lemmas.Errors
import Verif.Lemmas.Examples
import Verif.Lemmas.ExprRead
import Verif.Lemmas.Finder
import Verif.Lemmas.Float
import Verif.Lemmas.Hash
import Verif.Lemmas.Json
import Verif.Lemmas.JsonNumber
import Verif.Lemmas.JsonPrintable
import Verif.Lemmas.JsonStr
import Verif.Lemmas.JsonValue
import Verif.Lemmas.Legacy
import Verif.Lemmas.LegacyBody
import Verif.Lemmas.LegacyDate
import Verif.Lemmas.LegacyErrors
import Verif.Lemmas.LegacyHalts
import Verif.Lemmas.LegacyMessages
import Verif.Lemmas.LegacyMoment
import Verif.Lemmas.LegacyRows
import Verif.Lemmas.LegacySend
import Verif.Lemmas.LegacyShared
import Verif.Lemmas.Lines
import Verif.Lemmas.Literal
import Verif.Lemmas.Messages
import Verif.Lemmas.MetricsAlike
import Verif.Lemmas.MetricsEqual
import Verif.Lemmas.MetricsMeaning
import Verif.Lemmas.MetricsMessages
import Verif.Lemmas.MetricsSame
import Verif.Lemmas.MetricsThreads
import Verif.Lemmas.Models
import Verif.Lemmas.MqlArith
import Verif.Lemmas.MqlBlock
import Verif.Lemmas.MqlCall
import Verif.Lemmas.MqlEval
import Verif.Lemmas.MqlFilterChain
import Verif.Lemmas.MqlFilterRead
import Verif.Lemmas.MqlFilterValue
import Verif.Lemmas.MqlFunction
import Verif.Lemmas.MqlGeneric
import Verif.Lemmas.MqlGrammar
import Verif.Lemmas.MqlMeaning
import Verif.Lemmas.MqlMessages
import Verif.Lemmas.MqlMethods
import Verif.Lemmas.MqlMetric
import Verif.Lemmas.MqlNumber
import Verif.Lemmas.MqlOperand
import Verif.Lemmas.MqlOrder
import Verif.Lemmas.MqlOutcome
import Verif.Lemmas.MqlParse
import Verif.Lemmas.MqlReads
import Verif.Lemmas.MqlRegex
import Verif.Lemmas.MqlResult
import Verif.Lemmas.MqlRoundTrip
import Verif.Lemmas.MqlStays
import Verif.Lemmas.MqlTrim
import Verif.Lemmas.MqlTyped
import Verif.Lemmas.MqlUses
import Verif.Lemmas.Mutation
import Verif.Lemmas.Names
import Verif.Lemmas.Nearest
import Verif.Lemmas.Numeral
import Verif.Lemmas.Peg
import Verif.Lemmas.PegCache
import Verif.Lemmas.Plain
import Verif.Lemmas.PrintMessages
import Verif.Lemmas.Printing
import Verif.Lemmas.PyEq
import Verif.Lemmas.Query
import Verif.Lemmas.QueryEqual
import Verif.Lemmas.QueryFaults
import Verif.Lemmas.QueryMessages
import Verif.Lemmas.QueryRead
import Verif.Lemmas.Regex
import Verif.Lemmas.Repr
import Verif.Lemmas.RequestEqual
import Verif.Lemmas.RequestMessages
import Verif.Lemmas.Same
import Verif.Lemmas.Scalar
import Verif.Lemmas.SendMessages
import Verif.Lemmas.SetOrder
import Verif.Lemmas.Str
import Verif.Lemmas.Template
import Verif.Lemmas.TemplateMetrics
import Verif.Lemmas.TemplateQuery
import Verif.Lemmas.ValInd
import Verif.Lemmas.WF
import Verif.Model.AnyFinder
import Verif.Model.BuildMessages
import Verif.Model.Column
import Verif.Model.Conditions
import Verif.Model.Delete
import Verif.Model.Entity
import Verif.Model.Expressions
import Verif.Model.Finder
import Verif.Model.Function
import Verif.Model.Hash
import Verif.Model.Legacy
import Verif.Model.LegacyMessages
import Verif.Model.LegacyShared
import Verif.Model.Messages
import Verif.Model.Metrics
import Verif.Model.MetricsEq
import Verif.Model.MetricsMessages
import Verif.Model.MetricsQuery
import Verif.Model.MetricsText
import Verif.Model.MetricsThreads
import Verif.Model.MqlGrammar
import Verif.Model.MqlMessages
import Verif.Model.MqlVisitor
import Verif.Model.OrOptimizer
import Verif.Model.OrderBy
import Verif.Model.PrintMessages
import Verif.Model.Printer
import Verif.Model.PyEq
import Verif.Model.Query
import Verif.Model.QueryEq
import Verif.Model.QueryMessages
import Verif.Model.Relationships
import Verif.Model.Repr
import Verif.Model.Request
import Verif.Model.RequestMessages
import Verif.Model.Required
import Verif.Model.SendMessages
import Verif.Model.SetOrder
import Verif.Model.Snuba
import Verif.Model.Translate
import Verif.Model.Val
import Verif.Model.Validate
import Verif.Props.Aggregate
import Verif.Props.AnyFinder
import Verif.Props.Boolean
import Verif.Props.BuildMessages
import Verif.Props.ClassText
import Verif.Props.Columns
import Verif.Props.Construct
import Verif.Props.Date
import Verif.Props.Deletion
import Verif.Props.Equal
import Verif.Props.Equality
import Verif.Props.Errors
import Verif.Props.ExprRead
import Verif.Props.Formula
import Verif.Props.FormulaSetters
import Verif.Props.Hash
import Verif.Props.Legacy
import Verif.Props.LegacyErrors
import Verif.Props.LegacyHalts
import Verif.Props.LegacyMessages
import Verif.Props.LegacyRows
import Verif.Props.LegacySend
import Verif.Props.LegacyShared
import Verif.Props.Lines
import Verif.Props.Literals
import Verif.Props.Messages
import Verif.Props.MetricsEqual
import Verif.Props.MetricsMeaning
import Verif.Props.MetricsMessages
import Verif.Props.MetricsQuery
import Verif.Props.MetricsText
import Verif.Props.MetricsThreads
import Verif.Props.Models
import Verif.Props.MqlArith
import Verif.Props.MqlChain
import Verif.Props.MqlErrors
import Verif.Props.MqlFilter
import Verif.Props.MqlFilterRead
import Verif.Props.MqlMeaning
import Verif.Props.MqlMessages
import Verif.Props.MqlPrintBack
import Verif.Props.MqlToken
import Verif.Props.MqlTotal
import Verif.Props.Mutation
import Verif.Props.Names
import Verif.Props.Numbers
import Verif.Props.OrOptimizer
import Verif.Props.PegCache
import Verif.Props.PrintMessages
import Verif.Props.Printing
import Verif.Props.Query
import Verif.Props.QueryEqual
import Verif.Props.QueryMessages
import Verif.Props.QueryRead
import Verif.Props.Repr
import Verif.Props.Request
import Verif.Props.RequestEqual
import Verif.Props.RequestJson
import Verif.Props.RequestMeaning
import Verif.Props.RequestMessages
import Verif.Props.Required
import Verif.Props.RoundTrip
import Verif.Props.Rows
import Verif.Props.Sample
import Verif.Props.Scalars
import Verif.Props.SendMessages
import Verif.Props.SetOrder
import Verif.Props.Setters
import Verif.Props.Template
import Verif.Props.Timeseries
import Verif.Props.Total
import Verif.Props.TotalErrors
import Verif.Props.Valid
import Verif.Py.Date
import Verif.Py.Err
import Verif.Py.Float
import Verif.Py.Json
import Verif.Py.Peg
import Verif.Py.PegCache
import Verif.Py.Regex
import Verif.Py.Repr
import Verif.Py.Str
import Verif.Py.Strptime
import Verif.Py.Unicode
import Verif.Py.Utf8
import Verif.Spec.Aggregate
import Verif.Spec.AnyFinder
import Verif.Spec.Blame
import Verif.Spec.Boolean
import Verif.Spec.BuildMessages
import Verif.Spec.Built
import Verif.Spec.ClassText
import Verif.Spec.Columns
import Verif.Spec.Construct
import Verif.Spec.Date
import Verif.Spec.Decimal
import Verif.Spec.Deletion
import Verif.Spec.Equal
import Verif.Spec.Equality
import Verif.Spec.Errors
import Verif.Spec.ExprRead
import Verif.Spec.Formula
import Verif.Spec.Json
import Verif.Spec.Legacy
import Verif.Spec.LegacyDate
import Verif.Spec.LegacyErrors
import Verif.Spec.LegacyHalts
import Verif.Spec.LegacyMessages
import Verif.Spec.LegacyRows
import Verif.Spec.LegacySend
import Verif.Spec.LegacyShared
import Verif.Spec.Lines
import Verif.Spec.Literal
import Verif.Spec.Messages
import Verif.Spec.Metrics
import Verif.Spec.MetricsEqual
import Verif.Spec.MetricsMeaning
import Verif.Spec.MetricsMessages
import Verif.Spec.MetricsQuery
import Verif.Spec.MetricsThreads
import Verif.Spec.Models
import Verif.Spec.Moment
import Verif.Spec.MqlArith
import Verif.Spec.MqlBlame
import Verif.Spec.MqlErrors
import Verif.Spec.MqlFilter
import Verif.Spec.MqlFilterRead
import Verif.Spec.MqlFilterText
import Verif.Spec.MqlMeaning
import Verif.Spec.MqlMessages
import Verif.Spec.MqlOrder
import Verif.Spec.MqlPrintBack
import Verif.Spec.MqlReads
import Verif.Spec.MqlResult
import Verif.Spec.MqlRoundTrip
import Verif.Spec.MqlText
import Verif.Spec.MqlUses
import Verif.Spec.Mutation
import Verif.Spec.Names
import Verif.Spec.Nearest
import Verif.Spec.Part
import Verif.Spec.PegCache
import Verif.Spec.Plain
import Verif.Spec.PrintMessages
import Verif.Spec.Printing
import Verif.Spec.Query
import Verif.Spec.QueryEqual
import Verif.Spec.QueryMessages
import Verif.Spec.QueryRead
import Verif.Spec.Repr
import Verif.Spec.Request
import Verif.Spec.RequestEqual
import Verif.Spec.RequestMessages
import Verif.Spec.Rows
import Verif.Spec.Scalar
import Verif.Spec.Semantics
import Verif.Spec.SendMessages
import Verif.Spec.SetOrder
import Verif.Spec.Template
