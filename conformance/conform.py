"""Compares the Lean model with the expectations written in the tests of the SDK.

The tests under /repo/tests are read as text (Python's ast module) and never run.  Each parametrised case becomes a call
of the model and a comparison with what the test expects: a value, a text or a class of exception.

    python3 /verif/conformance/conform.py /tmp/conformance.lean
    cd /verif/lean && lake build && lake env lean /tmp/conformance.lean

prints one line PASS or FAIL for each case.  This is a test of the model, not a proof.
"""
import ast, sys, datetime as D
from fractions import Fraction
PRE=r'''import Verif.Model.Legacy
import Verif.Model.MetricsText
import Verif.Model.MetricsEq
import Verif.Model.Required
import Verif.Model.Printer
import Verif.Model.Messages
import Verif.Spec.BuildMessages
import Verif.Model.MetricsMessages
import Verif.Model.QueryMessages
import Verif.Model.RequestMessages
open Verif
namespace Conf
instance : PyUnicode := asciiUnicode
instance : PyDecimal := asciiDecimal
instance : PyNumberText := noNumberText
instance : RegexSpace := pySpace
instance : PyRepr := ⟨fun _ => c!"<repr>"⟩

inductive PV where
  | m (v : MVal)
  | q (q : Query)
  | mq (q : MetricsQueryObj)
  | flags (f : FlagsObj)
  | req (r : RequestObj)
  | del (d : DeleteObj)

abbrev R := Except Err PV
def s (x : String) : Str := x.toList
def PV.mval : PV → MVal
  | .m v => v
  | _ => .val (.other 7)
mutual
partial def mToVal : MVal → Val
  | .val v => v
  | .list xs => .list (xs.map mToVal)
  | .tuple xs => .tuple (xs.map mToVal)
  | _ => .other 8
end
def PV.val (p : PV) : Val := mToVal p.mval
def isVal : MVal → Bool | .val _ => true | _ => false
partial def toData : MVal → Data
  | .data d => d
  | .val v => .val v
  | .list xs => .list (xs.map toData)
  | .tuple xs => .list (xs.map toData)
  | _ => .val (.other 9)
def PV.data (p : PV) : Data := toData p.mval
def v (x : Val) : PV := .m (.val x)
def mlist (xs : List PV) : PV :=
  let ms := xs.map PV.mval
  if ms.all isVal then v (.list (ms.map mToVal)) else .m (.list ms)
def mtuple (xs : List PV) : PV :=
  let ms := xs.map PV.mval
  if ms.all isVal then v (.tuple (ms.map mToVal)) else .m (.tuple ms)
def mdict (xs : List (String × PV)) : PV := .m (.data (.dict (xs.map fun (k, p) => (s k, p.data))))
def dt (y m d h mi sec us : Nat) (tz : Option (Option Int)) : PV :=
  if h1 : dateOk y m d = true then
    if h2 : timeOk h mi sec us tz = true then v (.datetime ⟨⟨y, m, d, h1⟩, h, mi, sec, us, tz, h2⟩) else v (.other 1)
  else v (.other 1)
def dte (y m d : Nat) : PV := if h1 : dateOk y m d = true then v (.date ⟨y, m, d, h1⟩) else v (.other 1)
def fl (neg : Bool) (ds : Nat) (p : Int) : PV := v (.float (ofDecimal neg ds p))

def lift (x : Except Err Val) : R := x.map v
def column (n e : PV) : R := lift (mkColumn n.val e.val)
def aliased (e a : PV) : R := lift (mkAliased e.val a.val)
def entity (n a sm d : PV) : R := lift (mkEntity n.val a.val sm.val d.val)
def storage (n sm d : PV) : R := lift (mkStorage n.val sm.val d.val)
def func (f p a : PV) : R := lift (mkFunction f.val p.val a.val)
def curried (f i p a : PV) : R := lift (mkCurried f.val i.val p.val a.val)
def ident (n : PV) : R := lift (mkIdentifier n.val)
def lam (i t : PV) : R := lift (mkLambda i.val t.val)
def cond (l o r : PV) : R := lift (mkCondition l.val o.val r.val)
def boolc (o c : PV) : R := lift (mkBooleanCondition o.val c.val)
def andc (c : PV) : R := lift (mkAnd c.val)
def orc (c : PV) : R := lift (mkOr c.val)
def orderby (e d : PV) : R := lift (mkOrderBy e.val d.val)
def limitby (c n : PV) : R := lift (mkLimitBy c.val n.val)
def limit (n : PV) : R := lift (mkLimit n.val)
def offset (n : PV) : R := lift (mkOffset n.val)
def gran (n : PV) : R := lift (mkGranularity n.val)
def totals (n : PV) : R := lift (mkTotals n.val)
def extrap (n : PV) : R := lift (mkExtrapolate n.val)
def rel (l n r : PV) : R := lift (mkRelationship l.val n.val r.val)
def join (r : PV) : R := lift (mkJoin r.val)
def query (m sel gb aj wh hv ob lb li of gr to : PV) : R := do
  let b : Body := ⟨sel.val, gb.val, aj.val, wh.val, hv.val, ob.val, lb.val, li.val, of.val, gr.val, to.val⟩
  match m with
  | .q i => (mkNested i b).map .q
  | m => (mkQuery m.val b).map .q
def asQ : PV → Except Err Query
  | .q x => .ok x
  | _ => .error .attributeError
def qset (f : Query → Val → Except Err Query) (p a : PV) : R := do
  let x ← asQ p
  (f x a.val).map .q
def setMatch (p a : PV) : R := do
  let x ← asQ p
  match a with
  | .q i => (x.setMatchQuery i).map .q
  | a => (x.setMatch a.val).map .q
def metric (a b c : PV) : R := (mkMetric a.val b.val c.val).map fun m => .m (.metric m)
def ts (mt a p f g : PV) : R := (mkTimeseries mt.mval a.val p.val f.val g.val).map fun t => .m (.ts t)
def formula (n p a f g : PV) : R := .ok (.m (.formula n.val p.mval a.val f.val g.val))
def rollup (i t o g : PV) : R := (mkRollup i.val t.val o.val g.val).map fun r => .m (.rollup r)
def scope (o p u : PV) : R := (mkScope o.val p.val u.val).map fun r => .m (.scope r)
def mquery (q st en ro sc li of ex im : PV) : R :=
  .ok (.mq ⟨q.mval, st.mval, en.mval, ro.mval, sc.mval, li.mval, of.mval, ex.mval, im.mval⟩)
def flagsMk (a b c d e f : PV) : R := .ok (.flags ⟨a.val, b.val, c.val, d.val, e.val, f.val⟩)
def parse (p : PV) : R := match p.val with
  | .str x => (parseMql x).map .m
  | _ => .error .typeError

/-- The model can write a list of plain values as a list of objects or as one value: one form for the comparison. -/
partial def oneForm : MVal → MVal
  | .val (.list xs) => .list (xs.map fun x => oneForm (.val x))
  | .val (.tuple xs) => .tuple (xs.map fun x => oneForm (.val x))
  | .list xs => .list (xs.map oneForm)
  | .tuple xs => .tuple (xs.map oneForm)
  | .formula n p a f g => .formula n (oneForm p) a f g
  | m => m
def eqv : PV → PV → Bool
  | .m (.data a), .m b => a.pyEq (toData b)
  | .m a, .m (.data b) => (toData a).pyEq b
  | .m a, .m b => (oneForm a).pyEq (oneForm b)
  | _, _ => false
def str? : Except Err Str → R := fun r => r.map fun t => v (.str t)
def showV : PV → String
  | .m (.val x) => match translate Cfg.snql x with | .ok t => String.ofList t | .error e => reprStr e
  | .m (.ts t) => match timeseriesMql t with | .ok t => String.ofList t | .error e => reprStr e
  | .m (.formula a b c d e) => match paramMql (.formula a b c d e) with | .ok t => String.ofList t | .error e => reprStr e
  | .m (.data d) => match jsonDumps d with | .ok t => String.ofList t | .error e => reprStr e
  | _ => "?"
def showR : R → String
  | .ok p => "ok " ++ showV p
  | .error e => "error " ++ reprStr e
/-- result of the model, and either the expected value or exception -/
def check (name : String) (r : R) (expected : R) : IO Unit :=
  let good : Bool := match r, expected with
    | .ok a, .ok b => eqv a b
    | .error e, .error x => e == x || (x == .invalidExpression && e.isInvalidExpression)
    | _, _ => false
  if good then IO.println s!"PASS {name}" else IO.println s!"FAIL {name}: got {showR r} expected {showR expected}"
def unit (x : Except Err Unit) : R := x.map fun _ => v .none
def T : PV := v (.bool true)
def F : PV := v (.bool false)
def N : PV := v .none
def legacy (entries : List (String × PV)) (tenant : PV) (e : String) : Except Err RequestObj :=
  (jsonToSnql ⟨entries.map fun (k, p) => (s k, p.val), tenant.data⟩ (s e)).1

def ids : SetOrders := ⟨id, id, id, id, id, id, id⟩
def infixOf (x : Str) : Str → Bool
  | [] => x.isEmpty
  | c :: cs => x.isPrefixOf (c :: cs) || infixOf x cs
/-- The message of the exception contains the text that the test looks for. -/
def checkMsg (name : String) (r : Except Err (Except Raised Unit)) (msg : String) : IO Unit :=
  match r with
  | .ok (.error (_, some m)) =>
    if infixOf (s msg) m then IO.println s!"PASS {name}" else IO.println s!"FAIL {name}: message {String.ofList m} expected {msg}"
  | _ => IO.println s!"FAIL {name}: no message"
local instance : PyShow := ⟨fun _ => false, fun _ => s "<object>"⟩
local instance : PyText := ⟨fun _ => s "<object>", fun _ => s "<class>"⟩
def built (c : Spec.BuildCall) : Except Err (Except Raised Unit) := .ok (c.run.map fun _ => ())
def delQ (a b : PV) : DeleteObj := ⟨a.data, b.data⟩
'''

class Skip(Exception): pass
ERR={'InvalidExpressionError':'invalidExpression','InvalidColumnError':'invalidColumn','InvalidFunctionError':'invalidFunction','InvalidLambdaError':'invalidLambda','InvalidConditionError':'invalidCondition','InvalidEntityError':'invalidEntity','InvalidStorageError':'invalidStorage','InvalidQueryError':'invalidQuery','InvalidMatchError':'invalidMatch','RequiredColumnError':'requiredColumn','InvalidRequiredColumnError':'requiredColumn','InvalidTimeseriesError':'invalidTimeseries','InvalidFormulaError':'invalidFormula','InvalidMetricsQueryError':'invalidMetricsQuery','InvalidMQLError':'invalidMQL','InvalidRequestError':'invalidRequest','InvalidFlagError':'invalidFlag','InvalidDeleteQueryError':'invalidDelete'}
SIG={
'Column':('column',['name','entity']),
'AliasedExpression':('aliased',['exp','alias']),
'Entity':('entity',['name','alias','sample','data_model']),
'Storage':('storage',['name','sample','data_model']),
'Function':('func',['function','parameters','alias']),
'CurriedFunction':('curried',['function','initializers','parameters','alias']),
'Identifier':('ident',['name']),
'Lambda':('lam',['identifiers','transformation']),
'Condition':('cond',['lhs','op','rhs']),
'BooleanCondition':('boolc',['op','conditions']),
'And':('andc',['conditions']),'Or':('orc',['conditions']),
'OrderBy':('orderby',['exp','direction']),'LimitBy':('limitby',['columns','count']),
'Limit':('limit',['limit']),'Offset':('offset',['offset']),'Granularity':('gran',['granularity']),'Totals':('totals',['totals']),'Extrapolate':('extrap',['extrapolate']),
'Relationship':('rel',['lhs','name','rhs']),'Join':('join',['relationships']),
'Query':('query',['match','select','groupby','array_join','where','having','orderby','limitby','limit','offset','granularity','totals']),
'Metric':('metric',['public_name','mri','id']),
'Timeseries':('ts',['metric','aggregate','aggregate_params','filters','groupby']),
'Formula':('formula',['function_name','parameters','aggregate_params','filters','groupby']),
'Rollup':('rollup',['interval','totals','orderby','granularity']),
'MetricsScope':('scope',['org_ids','project_ids','use_case_id']),
'MetricsQuery':('mquery',['query','start','end','rollup','scope','limit','offset','extrapolate','indexer_mappings']),
'Flags':('flagsMk',['totals','consistent','turbo','debug','dry_run','legacy']),
'parse_mql':('parse',['mql']),
'cond':('cond',['lhs','op','rhs']),'bool_cond':('boolc',['op','conditions']),'and_cond':('andc',['conditions']),'or_cond':('orc',['conditions']),
'col':('column',['name','entity']),'func':('func',['function','parameters','alias']),'cur_func':('curried',['function','initializers','parameters','alias']),
'formula':('formula',['operator','parameters','_ap','filters','groupby']),
'timeseries':('ts',['metric','aggregate','aggregate_params','filters','groupby']),
}
OPS={'GT':'gt','LT':'lt','GTE':'gte','LTE':'lte','EQ':'eq','NEQ':'neq','IN':'in_','NOT_IN':'notIn','LIKE':'like','NOT_LIKE':'notLike','IS_NULL':'isNull','IS_NOT_NULL':'isNotNull','NOT':'not'}
def lstr(x):
    o='"'
    for c in x:
        if c=='"': o+='\\"'
        elif c=='\\': o+='\\\\'
        elif c=='\n': o+='\\n'
        elif c=='\t': o+='\\t'
        elif ord(c)<32: o+='\\x%02x'%ord(c)
        else: o+=c
    return o+'"'
class Mod:
    def __init__(s,path):
        s.tree=ast.parse(open(path).read()); s.env={}
        s.src=open(path).read()
        for n in s.tree.body:
            if isinstance(n,ast.Assign) and isinstance(n.targets[0],ast.Name): s.env[n.targets[0].id]=n.value
    def pydate(s,e):
        """stdlib datetime values"""
        if isinstance(e,ast.Name) and e.id in s.env: return s.pydate(s.env[e.id])
        if isinstance(e,ast.BinOp):
            a,b=s.pydate(e.left),s.pydate(e.right)
            return a+b if isinstance(e.op,ast.Add) else a-b
        if isinstance(e,ast.Attribute) and ast.unparse(e)=='timezone.utc': return D.timezone.utc
        if isinstance(e,ast.Call) and isinstance(e.func,ast.Name) and e.func.id in('datetime','date','timedelta','timezone'):
            return getattr(D,e.func.id)(*[s.arg(a) for a in e.args],**{k.arg:s.arg(k.value) for k in e.keywords})
        raise Skip(ast.unparse(e)[:60])
    def arg(s,e):
        if isinstance(e,ast.Constant): return e.value
        if isinstance(e,ast.UnaryOp): return -s.arg(e.operand)
        return s.pydate(e)
    def const(s,x):
        if x is None: return 'N'
        if x is True: return 'T'
        if x is False: return 'F'
        if isinstance(x,int): return '(v (.int (%d)))'%x
        if isinstance(x,float):
            r=repr(abs(x))
            m,_,ex=r.partition('e'); ip,_,fp=m.partition('.')
            neg='true' if x<0 else 'false'
            return '(fl %s %d (%d))'%(neg,int(ip+fp),int(ex or 0)-len(fp))
        if isinstance(x,str): return '(v (.str (s %s)))'%lstr(x)
        if isinstance(x,bytes): return '(v (.bytes [%s]))'%','.join(map(str,x))
        raise Skip(repr(x))
    def dv(s,d):
        if isinstance(d,D.datetime):
            tz='none' if d.tzinfo is None else '(some (some (%d)))'%(d.utcoffset()//D.timedelta(microseconds=1))
            return '(dt %d %d %d %d %d %d %d %s)'%(d.year,d.month,d.day,d.hour,d.minute,d.second,d.microsecond,tz)
        return '(dte %d %d %d)'%(d.year,d.month,d.day)
    def e(s,x):
        """Lean term of type PV, inside a do block"""
        if isinstance(x,ast.Constant): return s.const(x.value)
        if isinstance(x,ast.UnaryOp) and isinstance(x.op,ast.USub): return s.const(-x.operand.value)
        if isinstance(x,ast.List): return '(mlist [%s])'%', '.join(s.e(i) for i in x.elts)
        if isinstance(x,ast.Tuple): return '(mtuple [%s])'%', '.join(s.e(i) for i in x.elts)
        if isinstance(x,ast.Dict):
            return '(mdict [%s])'%', '.join('(%s, %s)'%(lstr(k.value),s.e(vv)) for k,vv in zip(x.keys,x.values))
        if isinstance(x,ast.Name):
            if x.id in s.env: return s.e(s.env[x.id])
            raise Skip(x.id)
        if isinstance(x,ast.BinOp):
            try: return s.dv(s.pydate(x))
            except Skip: pass
            if isinstance(x.op,(ast.Add,ast.Mult)):
                try: return s.const(eval(compile(ast.Expression(x),'','eval'),{}))
                except Exception: pass
            raise Skip(ast.unparse(x)[:80])
        if isinstance(x,ast.Attribute):
            u=ast.unparse(x)
            if u.startswith('Op.'): return '(v (.op .%s))'%OPS[x.attr]
            if u.startswith('BooleanOp.'): return '(v (.boolOp .%s))'%x.attr.lower()
            if u.startswith('Direction.'): return '(v (.direction .%s))'%x.attr.lower()
            if u.startswith('ArithmeticOperator.') and u.endswith('.value'):
                return s.const({'PLUS':'plus','MINUS':'minus','MULTIPLY':'multiply','DIVIDE':'divide'}[u.split('.')[1]])
            raise Skip(u)
        if isinstance(x,ast.Call):
            f=x.func
            if isinstance(f,ast.Name) and f.id in('datetime','date'): return s.dv(s.pydate(x))
            if isinstance(f,ast.Name) and f.id=='set': return s.e(x.args[0])
            if isinstance(f,ast.Name) and f.id=='DataModel':
                def cm(c): return '⟨s %s, %s⟩'%(lstr(c.args[0].value),'true' if c.keywords or len(c.args)>1 else 'false')
                cols=x.args[0].elts; t=[k.value for k in x.keywords] or [x.args[1]]
                return '(v (.dataModel ⟨[%s], %s⟩))'%(', '.join(map(cm,cols)),cm(t[0]))
            if isinstance(f,ast.Name) and f.id in SIG:
                fn,ps=SIG[f.id]
                a={}
                for p,i in zip(ps,x.args) if f.id!='formula' else zip(['operator','parameters','filters','groupby'],x.args): a[p]=i
                for k in x.keywords:
                    if k.arg not in ps: raise Skip('kw '+k.arg)
                    a[k.arg]=k.value
                if f.id=='Query':
                    # a clause given to the constructor is kept as it is
                    pass
                return '(← %s %s)'%(fn,' '.join(s.e(a[p]) if p in a else 'N' for p in ps))
            if isinstance(f,ast.Attribute) and f.attr.startswith('set_'):
                o=s.e(f.value); a=s.e(x.args[0])
                if f.attr=='set_match': return '(← setMatch %s %s)'%(o,a)
                nm={'select':'setSelect','groupby':'setGroupby','array_join':'setArrayJoin','where':'setWhere','having':'setHaving','orderby':'setOrderby','limitby':'setLimitby','limit':'setLimit','offset':'setOffset','granularity':'setGranularity','totals':'setTotals'}[f.attr[4:]]
                return '(← qset Query.%s %s %s)'%(nm,o,a)
            raise Skip(ast.unparse(x)[:80])
        if isinstance(x,ast.Set): return '(mlist [%s])'%', '.join(s.e(i) for i in x.elts)
        raise Skip(ast.unparse(x)[:80])
    def params(s,name):
        out=[]
        for i,c in enumerate(s.env[name].elts):
            if isinstance(c,ast.Call) and ast.unparse(c.func)=='pytest.param': out.append((i,c.args))
            elif isinstance(c,ast.Tuple): out.append((i,c.elts))
            else: out.append((i,[c]))
        return out
    def text(s,x):
        """the literal text of a message"""
        if isinstance(x,ast.JoinedStr): raise Skip('f-string')
        return ast.literal_eval(x)
    def exc(s,x):
        """expected exception: none or class"""
        if isinstance(x,ast.Constant) and x.value is None: return None
        return '(.error .%s)'%ERR[ast.unparse(x.func)]
OUT=[]; SK=[]
CALL={'func':'function','ident':'identifier','lam':'lambda','cond':'condition','boolc':'boolean','andc':'and','orc':'or','gran':'granularity','extrap':'extrapolate','rel':'relationship'}
def refused(m,n,fn,args,x):
    """the message of the exception of the outermost constructor, for terms `args`"""
    if isinstance(x,ast.Constant): return
    OUT.append('#eval checkMsg %s (do\n    built (.%s %s)) %s'%(lstr(n+'msg'),CALL.get(fn,fn),' '.join('(%s).val'%a for a in args),lstr(m.text(x.args[0]))))
def refusedCall(m,n,c,x):
    if isinstance(x,ast.Constant): return
    if ast.unparse(x.func)=='InvalidColumnError' and SIG[c.func.id][0]!='column':
        c=[y for y in ast.walk(c) if isinstance(y,ast.Call) and ast.unparse(y.func)=='col'][0]
    fn,ps=SIG[c.func.id]; a=dict(zip(ps,c.args)); a.update({k.arg:k.value for k in c.keywords})
    refused(m,n,fn,[m.e(a[p]) if p in a else 'N' for p in ps],x)
def said(m,n,body,x):
    """the message of the exception of an operation of the metrics layer"""
    if not isinstance(x,ast.Constant): OUT.append('#eval checkMsg %s (do\n    pure ((%s).map fun _ => ())) %s'%(lstr(n+'msg'),body,lstr(m.text(x.args[0]))))
def saidCall(m,n,op,c,x):
    fn,ps=SIG[c.func.id]; a=dict(zip(ps,c.args)); a.update({k.arg:k.value for k in c.keywords})
    g=lambda p: m.e(a[p]) if p in a else 'N'
    said(m,n,op+' (%s).mval '%g(ps[0])+' '.join('(%s).val'%g(p) for p in ps[1:]),x)
def case(name,body,expected):
    OUT.append('#eval check %s (do\n    %s) (do %s)'%(lstr(name),body,expected))
def run(f,lst,fn):
    m=Mod('/repo/tests/%s.py'%f)
    for i,a in m.params(lst):
        n='%s.%s[%d]'%(f,lst,i)
        try: fn(m,n,a)
        except Skip as ex: SK.append((n,str(ex)))
def pure(x): return 'pure '+x

def exp_or_exc(m,ex,good): 
    return ex if ex else good
def t_mql(m,n,a): case(n,'parse '+m.e(a[0]),'pure '+m.e(a[1]))
for l in ['base_tests','term_tests','arbitrary_function_tests','curried_arbitrary_function_tests']: run('test_mql',l,t_mql)
CFG='⟨true, false⟩'
def tr(x,cfg): return 'str? (translate %s (PV.val %s))'%(cfg,x)
def t_alias(m,n,a):
    refused(m,n,'aliased',[m.e(a[0]),m.e(a[1])],a[3])
    ex=m.exc(a[3]); case(n,tr('(← aliased %s %s)'%(m.e(a[0]),m.e(a[1])),CFG), ex or pure(m.e(a[2])))
run('test_aliased_expression','tests',t_alias)
def t_col(m,n,a):
    refused(m,n,'column',[m.e(a[0]),'N'],a[3])
    ex=m.exc(a[3]); case(n,tr('(← column %s N)'%m.e(a[0]),CFG), ex or pure(m.e(a[2])))
    if not ex:
        case(n+'parts','match (← column %s N).val with | .column c => pure (mtuple [v (.str c.name), (c.subscriptable.map fun x => v (.str x)).getD N, (c.key.map fun x => v (.str x)).getD N]) | _ => .error .typeError'%m.e(a[0]), pure('(mtuple [%s])'%', '.join(m.e(i) for i in a[1].elts)))
run('test_column','tests',t_col)
def t_cole(m,n,a):
    refused(m,n,'column',[m.e(a[0]),m.e(a[1])],a[3])
    ex=m.exc(a[3]); case(n,tr('(← column %s %s)'%(m.e(a[0]),m.e(a[1])),CFG), ex or pure(m.e(a[2])))
run('test_column','entity_tests',t_cole)
def t_wrap(m,n,a):
    refusedCall(m,n,a[0],a[3])
    ex=m.exc(a[3]); case(n,tr(m.e(a[0]),'Cfg.snql'), ex or pure(m.e(a[2])))
    if not ex: case(n+'eq','pure '+m.e(a[0]),pure(m.e(a[1])))
for f,l in [('test_condition','tests'),('test_condition','boolean_tests'),('test_function','tests'),('test_function','curried_tests')]: run(f,l,t_wrap)
def t_entity(m,n,a):
    refused(m,n,'entity',[m.e(i) for i in a[:3]]+['N'],a[4])
    ex=m.exc(a[4]); x='(← entity %s %s %s N)'%tuple(m.e(i) for i in a[:3])
    if ex or a[3].value is not None: case(n,tr(x,CFG), ex or pure(m.e(a[3])))
run('test_entity','tests',t_entity)
def t_storage(m,n,a):
    refused(m,n,'storage',[m.e(i) for i in a[:2]]+['N'],a[3])
    ex=m.exc(a[3]); x='(← storage %s %s N)'%tuple(m.e(i) for i in a[:2])
    if ex or a[2].value is not None: case(n,tr(x,'Cfg.snql'), ex or pure(m.e(a[2])))
run('test_storage','tests',t_storage)
for l,k in [('limit_tests','limit'),('offset_tests','offset'),('granularity_tests','gran'),('totals_tests','totals')]:
    def t(m,n,a,k=k):
        refused(m,n,k,[m.e(a[0])],a[1])
        ex=m.exc(a[1]); case(n,'(fun _ => N) <$> %s %s'%(k,m.e(a[0])), ex or 'pure N')
    run('test_expression',l,t)
def t_ob(m,n,a):
    refused(m,n,'orderby',[m.e(a[0]),m.e(a[1])],a[2])
    ex=m.exc(a[2]); case(n,'(fun _ => N) <$> orderby %s %s'%(m.e(a[0]),m.e(a[1])), ex or 'pure N')
run('test_expression','orderby_tests',t_ob)
def t_lb(m,n,a):
    refused(m,n,'limitby',[m.e(a[0]),m.e(a[1])],a[2])
    ex=m.exc(a[2]); case(n,'(fun _ => N) <$> limitby %s %s'%(m.e(a[0]),m.e(a[1])), ex or 'pure N')
run('test_expression','limitby_tests',t_lb)
def t_flags(m,n,a):
    ex=m.exc(a[2]); k={'dry_run':'dryRun'}.get(a[0].value,a[0].value)
    case(n,'(fun d => PV.m (.data (.dict d))) <$> FlagsObj.toDict { %s := (%s).val }'%(k,m.e(a[1])), ex or pure('(mdict [(%s, %s)])'%(lstr(a[0].value),m.e(a[1]))))
run('test_flags','flag_tests',t_flags)
def t_formula(m,n,a):
    said(m,n,'MVal.validateQueryMsg (%s).mval'%m.e(a[0]),a[1])
    ex=m.exc(a[1]); case(n,'unit (MVal.validateQuery (%s).mval)'%m.e(a[0]), ex or 'pure N')
run('test_formula','tests',t_formula)
def t_fmql(m,n,a):
    ex=m.exc(a[2]); case(n,'str? (paramMql (%s).mval)'%m.e(a[0]), ex or pure(m.e(a[1])))
run('test_formula','formula_mql_tests',t_fmql)
def t_fp(m,n,a):
    case(n,'str? (paramMql (%s).mval)'%m.e(a[0]), pure(m.e(a[1])))
    for g in ['filters','groupby']:
        case(n+g,'(MVal.%s (← parse %s).mval).map v'%(g,m.e(a[1])), '(MVal.%s (%s).mval).map v'%(g,m.e(a[0])))
run('test_formula_printer','formula_tests',t_fp)
def t_lam(m,n,a):
    refused(m,n,'lambda',[m.e(a[0]),m.e(a[1])],a[4])
    ex=m.exc(a[4]); x='(← lam %s %s)'%(m.e(a[0]),m.e(a[1])); case(n,tr(x,'Cfg.snql'), ex or pure(m.e(a[3])))
    if not ex: case(n+'eq','pure '+x,pure(m.e(a[2])))
run('test_lambda','tests',t_lam)
def legacy(m,n,a,ent):
    d=a[0]; ents=[]; ten='N'
    for k,vv in zip(d.keys,d.values):
        if k.value=='tenant_ids': ten=m.e(vv)
        else: ents.append('(%s, %s)'%(lstr(k.value),m.e(vv)))
    cl=ast.literal_eval(a[1])
    body='[%s]'%', '.join(ents)
    q=[c for c in cl if not c.startswith('--')]
    r='(← legacy %s %s %s)'%(body,ten,lstr(ent))
    case(n,'let r := %s\n    let _ ← r.validate\n    match r.query with | .snql q => str? q.print | _ => .error .typeError'%r, pure(m.const('\n'.join(q))))
    fl=[c[3:].split(': ',1) for c in cl if c.startswith('--')]
    fd={k.lower():vv for k,vv in fl if k!='DATASET'}
    fd['legacy']='True'
    case(n+'flags','let r := %s\n    (fun d => PV.m (.data (.dict d))) <$> (r.flags.getD {}).toDict'%r, pure('(mdict [%s])'%', '.join('(%s, %s)'%(lstr(k),{'True':'T','False':'F'}[vv]) for k,vv in fd.items())))
    for k,vv in fl:
        if k=='DATASET': case(n+'ds','let r := %s\n    pure (PV.m (.data r.dataset))'%r,pure(m.const(vv)))
    case(n+'app','let r := %s\n    pure (PV.m (.data r.appId))'%r,pure(m.const('legacy')))
run('test_legacy','tests',lambda m,n,a:legacy(m,n,a,'sessions'))
run('test_legacy','sentry_tests',lambda m,n,a:legacy(m,n,a,'sessions'))
run('test_legacy_api','discover_tests',lambda m,n,a:legacy(m,n,a,a[2].value))
def t_roll(m,n,a):
    said(m,n,'mkRollupMsg '+' '.join('(%s).val'%m.e(i) for i in a[:4]),a[5])
    ex=m.exc(a[5]); case(n,'(fun d => PV.m (.data d)) <$> rollupMql (← rollup %s).mval'%' '.join(m.e(i) for i in a[:4]), ex or pure(m.e(a[4])))
run('test_metrics_expressions','rollup_tests',t_roll)
def t_scope(m,n,a):
    said(m,n,'mkScopeMsg '+' '.join('(%s).val'%m.e(i) for i in a[:3]),a[4])
    ex=m.exc(a[4]); x='(fun d => PV.m (.data d)) <$> scopeMql (← scope %s).mval'%' '.join(m.e(i) for i in a[:3])
    if ex or not(isinstance(a[3],ast.Constant)): case(n,x, ex or pure(m.e(a[3])))
    else: case(n,'(fun _ => N) <$> (do %s)'%x,'pure N')
run('test_metrics_expressions','metric_scope_tests',t_scope)
def t_mq(m,n,a):
    x='match %s with | .mq q => (do q.validate; (fun d => PV.m (.data d)) <$> q.serialize.1) | _ => .error .typeError'%m.e(a[0])
    case(n,x,pure(m.e(a[1])))
run('test_metrics_mql_query','metrics_query_timeseries_to_mql_tests',t_mq)
run('test_metrics_mql_query','metrics_query_formula_to_mql_tests',t_mq)
def t_mqi(m,n,a):
    said(m,n,'(match %s with | .mq q => q.validateMsg | _ => .ok ())'%m.e(a[0]),a[1])
    case(n,'match %s with | .mq q => unit q.validate | _ => .error .typeError'%m.e(a[0]),m.exc(a[1]))
run('test_metrics_mql_query','invalid_metrics_query_to_mql_tests',t_mqi)
def t_q(m,n,a): case(n,'unit (← asQ %s).validate'%m.e(a[0]),'pure N')
run('test_query','tests',t_q)
def t_qi(m,n,a): case(n,'unit (← asQ %s).validate'%m.e(a[0]),m.exc(a[1])); said(m,n,'(← asQ %s).validateMsg ids'%m.e(a[0]),a[1])
run('test_query','invalid_tests',t_qi)
def vm(q): return '(fun q => (match q with | Query.base mm b => unit (validateMatchBase mm b) | .nested i b => (do let c ← searchBody b; unit (validateSubquery i.body c)))) (← asQ %s)'%q
WHERE="[Condition(Column('required1'), Op.IN, [1, 2, 3]), Condition(Column('required2'), Op.EQ, 1), Condition(Column('time'), Op.GTE, BEFORE), Condition(Column('time'), Op.LT, AFTER)]"
def msg(x): return None if isinstance(x,ast.Constant) else ast.literal_eval(x.args[0])
def mcase(name,body,x):
    if msg(x) is not None: OUT.append('#eval checkMsg %s (do\n    pure (%s)) %s'%(lstr(name+'msg'),body,lstr(msg(x))))
def t_vm(m,n,a):
    w=m.e(ast.parse(WHERE,mode='eval').body)
    case(n,vm('(← qset Query.setWhere %s %s)'%(m.e(a[0]),w)),m.exc(a[1]) or 'pure N')
    mcase(n,'validateMatchMsg ids (← asQ (← qset Query.setWhere %s %s))'%(m.e(a[0]),w),a[1])
run('test_query_validation','entity_match_tests',t_vm); run('test_query_validation','storage_match_tests',t_vm)
def t_vs(m,n,a):
    case(n,vm(m.e(a[0])),m.exc(a[1]) or 'pure N')
    mcase(n,'validateMatchMsg ids (← asQ %s)'%m.e(a[0]),a[1])
run('test_query_validation','subquery_match_tests',t_vs); run('test_query_validation','join_match_tests',t_vs)
def t_pq(m,n,a):
    cl=ast.literal_eval(a[1])
    case(n,'str? (← asQ %s).print'%m.e(a[0]),pure(m.const('\n'.join(cl))))
    case(n+'ser','str? (← asQ %s).serialize'%m.e(a[0]),pure(m.const(' '.join(cl))))
run('test_query_visitors','tests',t_pq); run('test_relationships','tests',t_pq)
def t_rel(m,n,a):
    refused(m,n,'rel',[m.e(i) for i in a[:3]],a[4])
    ex=m.exc(a[4]); x='(← rel %s %s %s)'%tuple(m.e(i) for i in a[:3])
    if ex or a[3].value is not None: case(n,tr(x,CFG), ex or pure(m.e(a[3])))
run('test_relationship_expression','relationship_tests',t_rel)
def t_join(m,n,a):
    if m.exc(a[2]): OUT.append('#eval checkMsg %s (do\n    pure ((mkJoinMsg ids (%s).val).map fun _ => ())) %s'%(lstr(n+'msg'),m.e(a[0]),lstr(m.text(a[2].args[0]))))
    ex=m.exc(a[2]); x='(← join %s)'%m.e(a[0])
    if ex or a[1].value is not None: case(n,tr(x,CFG), ex or pure(m.e(a[1])))
run('test_relationship_expression','join_tests',t_join)
import json
def t_req(m,n,a):
    ex=None if isinstance(a[7],ast.Constant) else m.exc(a[7])
    q='(match %s with | .q q => AnyQuery.snql q | .mq q => .metrics q | _ => default)'%m.e(a[3])
    q=q.replace('| _ => default','| _ => .delete default')
    f='none' if isinstance(a[4],ast.Constant) else '(match %s with | .flags f => some f | _ => none)'%m.e(a[4])
    r='(⟨PV.data %s, PV.data %s, %s, %s, PV.data %s, PV.data %s⟩ : RequestObj)'%(m.e(a[0]),m.e(a[1]),q,f,m.e(a[5]),m.e(a[2]))
    case(n,'let r := %s\n    let _ ← r.validate\n    (fun d => PV.m (.data d)) <$> r.toDict.1'%r, ex or pure(m.e(a[6])))
    said(m,n,'%s.validateMsg ids'%r,a[7])
    if not ex:
        try:
            d=eval(compile(ast.Expression(a[6]),'','eval'),{'NOW':m.pydate(m.env['NOW']),'timedelta':D.timedelta})
            case(n+'print','let r := %s\n    str? r.print'%r,pure(m.const(json.dumps(d,sort_keys=True,indent=4*' '))))
        except Exception as e2: SK.append((n+'print',str(e2)))
run('test_request','tests',t_req)
def t_rc(m,n,a):
    q="(← qset Query.setWhere (← query %s (mlist [(← column (v (.str (s \"test1\"))) N), (← column (v (.str (s \"required1\"))) N)]) N N N N N N N N N N) %s)"%(m.e(a[1]),m.e(a[0]))
    case(n,'unit (validateRequiredColumns (← asQ %s))'%q,m.exc(a[2]) or 'pure N')
    mcase(n,'validateRequiredColumnsMsg ids (← asQ %s)'%q,a[2])
run('test_required_column_validation','entity_match_tests',t_rc)
def t_rj(m,n,a):
    m.env['OTHER']=ast.parse("Entity('test_b', 'tb', None, SCHEMA)",mode='eval').body
    m.env['COND0']=a[0]
    base="[Condition(Column('required1', OTHER), Op.IN, [1, 2, 3]), Condition(Column('required2', OTHER), Op.EQ, 1), Condition(Column('time', OTHER), Op.GTE, BEFORE), Condition(Column('time', OTHER), Op.LT, AFTER)]"
    l=ast.parse(base,mode='eval').body; l.elts=l.elts+(a[0].elts)
    q=ast.parse("Query(match=Join([Relationship(ENT_, 'has', OTHER)]), select=[Column('test1', ENT_), Column('required1', OTHER)], where=WH_)",mode='eval').body
    m.env['ENT_']=a[1]; m.env['WH_']=l
    case(n,'unit (validateRequiredColumns (← asQ %s))'%m.e(q),m.exc(a[2]) or 'pure N')
    mcase(n,'validateRequiredColumnsMsg ids (← asQ %s)'%m.e(q),a[2])
run('test_required_column_validation','join_match_tests',t_rj)
def t_sc(m,n,a): case(n,tr(m.e(a[0]),'Cfg.snql'),pure(m.e(a[1])))
run('test_scalar','tests',t_sc)
def t_met(m,n,a):
    said(m,n,'mkMetricMsg '+' '.join('(%s).val'%m.e(i) for i in a[:3]),a[4])
    ex=m.exc(a[4])
    x='(← metric %s)'%' '.join(m.e(i) for i in a[:3])
    if ex or (isinstance(a[3],ast.Constant) and a[3].value): case(n,'match %s with | .m (.metric t) => str? (metricMql t) | _ => .error .typeError'%x, ex or pure(m.e(a[3])))
    else: case(n,'(fun _ => N) <$> (do pure %s)'%x,'pure N')
run('test_timeseries','metric_tests',t_met)
def t_tss(m,n,a):
    saidCall(m,n,'mkTimeseriesMsg',a[0],a[2])
    ex=m.exc(a[2]); case(n,'match %s with | .m (.ts t) => str? (timeseriesMql t) | _ => .error .typeError'%m.e(a[0]), ex or pure(m.e(a[1])))
run('test_timeseries','timeseries_tests',t_tss)

# tests that are functions of their own, by hand
def hand(f,name,body,expected):
    m=Mod('/repo/tests/%s.py'%f)
    case(f+'.'+name,body(m),expected(m) if callable(expected) else expected)
def py(m,x): return m.e(ast.parse(x,mode='eval').body)
def fn(m,name):
    return [n for n in m.tree.body if isinstance(n,ast.FunctionDef) and n.name==name][0]
def local(m,name):
    for st in fn(m,name).body:
        if isinstance(st,ast.Assign) and isinstance(st.targets[0],ast.Name): m.env[st.targets[0].id]=st.value
    return m
def opt(m,name): return 'do\n    let xs ← Val.iter (PV.val %s)\n    match ← optimize xs with | some ys => pure (v (.list ys)) | none => pure N'%py(local(m,name),'condition_group')
hand('test_or_optimizer','test_basic',lambda m:opt(m,'test_basic'),lambda m:pure(py(local(m,'test_basic'),'expected')))
hand('test_or_optimizer','test_unsupported',lambda m:opt(m,'test_unsupported'),'pure N')
hand('test_or_optimizer','test_snql',lambda m:'str? (← asQ %s).serialize'%py(local(m,'test_snql'),'query'),lambda m:pure(m.const(' '.join(ast.literal_eval(local(m,'test_snql').env['expected'])))))
def dele(m,name,val='validate'):
    q=local(m,name).env['query']; k={x.arg:x.value for x in q.keywords}
    return '(fun d => PV.m (.data d)) <$> (delQ %s %s).serialize'%(m.e(k['storage_name']),m.e(k['column_conditions']))
hand('test_delete_query','test_serialize',lambda m:dele(m,'test_serialize'),lambda m:pure(py(local(m,'test_serialize'),'expected')))
def delreq(m):
    r=local(m,'test_serialize_request').env['req']; k={x.arg:x.value for x in r.keywords}; d={x.arg:x.value for x in k['query'].keywords}
    return '(fun d => PV.m (.data d)) <$> (⟨PV.data %s, PV.data %s, .delete (delQ %s %s), some {}, .val (.str (s "<unknown>")), .dict []⟩ : RequestObj).toDict.1'%(m.e(k['dataset']),m.e(k['app_id']),m.e(d['storage_name']),m.e(d['column_conditions']))
hand('test_delete_query','test_serialize_request',delreq,lambda m:pure(py(local(m,'test_serialize_request'),'expected')))
for t,ms in [('test_empty_column_conditions','column conditions cannot be empty'),('test_single_empty_column_condition',"column condition 'project_id' cannot be empty")]:
    hand('test_delete_query',t,lambda m:dele(m,t),'.error .invalidDelete')
    m=Mod('/repo/tests/test_delete_query.py'); q=local(m,t).env['query']; k={x.arg:x.value for x in q.keywords}
    OUT.append('#eval checkMsg "test_delete_query.%smsg" (do\n    pure (delQ %s %s).validateMsg) %s'%(t,m.e(k['storage_name']),m.e(k['column_conditions']),lstr(ms)))
hand('test_flags','test_flag_with_none',lambda m:'(fun d => PV.m (.data (.dict d))) <$> FlagsObj.toDict { totals := .bool false, dryRun := .bool true }','pure (mdict [("totals", F), ("dry_run", T)])')
for n,x in [('tuple','mtuple'),('list','mlist')]:
    hand('test_scalar','test_invalid_scalars.'+n,lambda m:'str? (translate Cfg.snql (PV.val (%s [v (.other 1), v (.other 2)])))'%x,'.error .invalidExpression')
INV=[('Query(match="events")','invalidQuery'),("Query(Entity('events')).set_select([AliasedExpression(Column('transaction'), 'tn')]).set_where([Condition(AliasedExpression(Column('project_id'), 'pi'), Op.IN, (1,))])",'invalidCondition'),
 ('Q.set_match(0)','invalidQuery')]
for k,vs in [('select',['0','[]','[0]']),('groupby',['0','[0]']),('where',['0','[0]']),('having',['0','[0]']),('orderby',['0','[0]']),('limitby',['"a"'])]:
    for x in vs: INV.append(('Q.set_%s(%s)'%(k,x),'invalidQuery'))
INV+=[('Q.set_limit(100000)','invalidExpression'),('Q.set_offset("")','invalidExpression'),('Q.set_granularity(-1)','invalidExpression'),
 ("Query(Query(match=Entity('events'))).set_select([Column('event_id'), Column('title')])",'invalidQuery'),
 ("Query(Query(match=Entity('events'), select=[Column('title'), Column('timestamp')])).set_match(Query(match=Entity('events'))).set_select([Function('uniq', [Column('new_event')], 'uniq_event'), Column('title')])",'invalidQuery')]
for i,(x,er) in enumerate(INV):
    def b(m,x=x):
        m.env['Q']=ast.parse("Query(Entity('events'))",mode='eval').body
        return '(fun _ => N) <$> (do pure %s)'%py(m,x)
    hand('test_invalid_query','%d'%i,b,'.error .'+er)
WORDS=ast.literal_eval([x.value for x in ast.walk(ast.parse(open('/repo/tests/test_invalid_query.py').read())) if isinstance(x,ast.AnnAssign) and x.target.id=='tests'][0])
def q_said(i,body,text):
    m=Mod('/repo/tests/test_invalid_query.py')
    OUT.append('#eval checkMsg "test_invalid_query.%smsg" (do\n    pure ((%s).map fun _ => ())) %s'%(i,body(lambda x:py(m,x)),lstr(text)))
for k,(vals,text) in WORDS.items():
    many=k in ('select','groupby','where','having','orderby')
    for j,x in enumerate(vals if many else [vals]):
        q_said('%s%d'%(k,j),lambda e:'(← asQ %s).set%sMsg %s%s.val'%(e("Query(Entity('events'))"),k.capitalize(),'' if k=='match' else 'ids ',e(repr(x))),text)
q_said('new',lambda e:'mkQueryMsg %s.val {}'%e("'events'"),'queries must have a valid Entity')
SUB='inner query is invalid: query must have at least one expression in select'
q_said('nested',lambda e:'mkNestedMsg ids (← asQ %s) {}'%e("Query(match=Entity('events'))"),SUB)
q_said('set_match',lambda e:'(← asQ %s).setMatchQueryMsg ids (← asQ %s)'%(e("Query(Query(match=Entity('events'), select=[Column('title'), Column('timestamp')]))"),e("Query(match=Entity('events'))")),SUB)
dst=sys.argv[1] if len(sys.argv)>1 else '/tmp/conformance.lean'
open(dst,'w').write(PRE+'\n'+'\n'.join(OUT)+'\nend Conf\n')
print(len(OUT),'cases,',len(SK),'skipped')
for x in SK: print(x)
