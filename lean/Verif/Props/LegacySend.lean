import Verif.Lemmas.LegacySend
import Verif.Props.RequestJson
import Verif.Props.Legacy

/-!
# C69: what a converted legacy body is sent as

`json_to_snql` does not validate the request that it returns. For bodies of plain data the expressions in it are all in order; what
is left are the names, the totals, the flags and the tenants.
-/

namespace Verif
open Spec

section
variable [U : PyUnicode] [D : PyDecimal] [N : PyNumberText]

theorem entityName_request {s : Str} (h : OptNewline EntityName s) : RequestName (.val (.str s)) := by
  have key : ∀ {s : Str}, EntityName s → s ≠ [] ∧ ∀ c ∈ s, RequestChar c := by
    rintro s ⟨h1, h2⟩
    refine ⟨h1, fun c hc => ?_⟩
    rw [← flagChar_iff]
    rcases h2 c hc with h | rfl
    · simp only [flagChar, h, Bool.true_or]
    · decide
  refine ⟨s, rfl, ?_, ?_⟩
  · rcases h with h | ⟨b, h, rfl⟩
    · exact (key h).1
    · simp
  · rcases h with h | ⟨b, h, rfl⟩
    · exact .inl (key h).2
    · exact .inr ⟨b, (key h).2, rfl⟩

theorem valueAt_unique {b : LegacyBody} {k : Str} {v w : Val} (h : ValueAt b k v) (h' : ValueAt b k w) : v = w := by
  rw [← valueAt_iff.2 h, ← valueAt_iff.2 h']

theorem convertsItems_length {vs xs : List Val} (h : ConvertsItems vs xs) : vs.length = xs.length := by
  induction h with
  | nil => rfl
  | cons _ _ _ ih => simp [ih]

theorem itemsOf_nil_falsy {v : Val} (h : ItemsOf v []) : Falsy v := by
  generalize hx : ([] : List Val) = xs at h
  cases h with
  | list => subst hx; exact .list
  | tuple => subst hx; exact .tuple
  | str => cases List.map_eq_nil_iff.1 hx.symm; exact .str
  | bytes => cases List.map_eq_nil_iff.1 hx.symm; exact .bytes

theorem has_or_missing (b : LegacyBody) (k : Str) : (∃ v, Has b k v) ∨ ∀ v, ¬ Has b k v := by
  by_cases h : ∃ v, Has b k v
  · exact .inl h
  · exact .inr fun v hv => h ⟨v, hv⟩

theorem groupbyOf_nil {b : LegacyBody} {xs : List Val} (h : GroupbyOf b xs) : xs ≠ [] ↔ ∃ v, ValueAt b c!"groupby" v ∧ ¬ Falsy v := by
  cases h with
  | missing h =>
    simp only [ne_eq, not_true_eq_false, false_iff]
    rintro ⟨v, hv | ⟨_, rfl⟩, hf⟩
    · exact h v hv
    · exact hf .none
  | @list gs _ h1 h2 =>
    have hl := convertsItems_length h2
    constructor
    · intro hne
      refine ⟨_, .inl h1, fun hf => ?_⟩
      cases hf
      exact hne (List.length_eq_zero_iff.1 hl.symm)
    · rintro ⟨v, hv, hf⟩ rfl
      cases valueAt_unique hv (.inl h1)
      cases List.length_eq_zero_iff.1 hl
      exact hf .list
  | single h1 _ h2 _ _ => exact ⟨fun _ => ⟨_, .inl h1, h2⟩, fun _ => by simp⟩
  | empty h1 _ h2 =>
    simp only [ne_eq, not_true_eq_false, false_iff]
    rintro ⟨v, hv, hf⟩
    cases valueAt_unique hv (.inl h1)
    exact hf (itemsOf_nil_falsy h2)

/-- **C69** (the query): the query of a converted body of plain data is valid exactly if totals come with something to group by; otherwise
its validation raises `InvalidQueryError`. No expression in it is rejected. -/
theorem C69_query_valid (b b' : LegacyBody) (entity : Str) (req : RequestObj) (q : Query) (hb : PlainBody b)
    (h : jsonToSnql b entity = (.ok req, b')) (hq : req.query = .snql q) :
    (TotalsGrouped b → q.validate = .ok ()) ∧ (¬ TotalsGrouped b → q.validate = .error .invalidQuery) := by
  have hr := requestOf_iff.1 ⟨b', h⟩
  obtain ⟨v, s, c, hv, hs, hq', hc⟩ := hr.query
  rw [hq] at hq'
  cases hq'
  have hbuilt := fromBody_built hb hc
  have hclean := fromBody_clean hb hc
  have hm : Built (.entity ⟨entity, none, s, none⟩) := by
    obtain ⟨w, hw, he⟩ := legacyEntity_iff.2 ⟨hr.name, s, hs, rfl⟩
    have hl : Literal w := by
      unfold legacySample at hw
      split at hw
      · cases hw; exact .none
      · obtain ⟨f, _, rfl⟩ := map_eq_ok.1 hw; exact .float f
    exact .entity _ _ _ _ _ (.literal _ (.str entity)) (.literal _ .none) (.literal _ hl) (.literal _ .none) he
  have hx : ∀ e, ¬ HasItem c (.extrapolate e) := fun e he => hclean _ he _ .here (.inr (.inr ⟨e, rfl⟩))
  obtain ⟨ss, hs1, _, hs3, _⟩ := hc.select
  obtain ⟨gs, hg1, hg2, _⟩ := hc.groupby
  obtain ⟨tv, ht1, ht2⟩ := hc.totals
  have hsel : NonEmptySeq c.select := ⟨.list, ss, hs1 ▸ .list _, hs3⟩
  have hgr : NonEmptySeq c.groupby ↔ ∃ v, ValueAt b c!"groupby" v ∧ ¬ Falsy v := by
    rw [← groupbyOf_nil hg2, hg1]
    exact ⟨fun ⟨k, xs, h, hne⟩ => by cases h; exact hne, fun hne => ⟨.list, gs, .list _, hne⟩⟩
  constructor
  · intro hg
    refine (C27_columns_exact _ c none hm (.inl ⟨_, rfl, rfl⟩) hbuilt hx ⟨hsel, ?_⟩).1 (by simp)
    rcases ht2 with ⟨_, ht2⟩ | ⟨_, ht2⟩
    · exact .inl ht2
    · right
      generalize c.totals = t at ht2
      cases ht2 with
      | totals t => exact ⟨t, rfl, fun ht => by subst ht; exact hgr.2 (hg ht1)⟩
  · intro hg
    simp only [TotalsGrouped, Classical.not_imp] at hg
    obtain ⟨hg1', hg2'⟩ := hg
    cases valueAt_unique ht1 hg1'
    rcases ht2 with ⟨h, _⟩ | ⟨_, ht2⟩
    · cases h
    · have ht : c.totals = .totals true := by generalize c.totals = t at ht2; cases ht2; rfl
      rw [C13_query_checks_only_combination_partial _ c hm (.entity _) (by rintro ⟨_, _, _, _, h, _⟩; cases h) hbuilt]
      obtain ⟨cs, hcs⟩ := searchBody_total hbuilt hx
      have hgn : gs = [] := by
        by_cases hn : gs = []
        · exact hn
        · exact absurd (hgr.1 ⟨.list, gs, hg1 ▸ .list _, hn⟩) hg2'
      have hmodel : validateModel none cs = .ok () := validateModel_iff.2 fun _ _ => rfl
      simp [validateMatchBase, hcs, hmodel, combineChecks, hs1, hg1, hgn, ht, selectMissing, totalsSet, Val.iter, Val.seq?, hs3,
        ensure, Val.truthy]

variable [S : RegexSpace] [R : PyRepr]

theorem standsFor_dict {kvs : List (Str × Data)} : (∃ j, StandsFor (.dict kvs) j) ↔ ∀ p ∈ kvs, ∃ j, StandsFor p.2 j := by
  have key : (∃ js, toJsonEntries kvs = .ok js) ↔ ∀ p ∈ kvs, ∃ j, p.2.toJson = .ok j := by
    induction kvs with
    | nil => simp [toJsonEntries]
    | cons p kvs ih =>
      obtain ⟨k, d⟩ := p
      simp only [List.mem_cons, forall_eq_or_imp, ← ih, toJsonEntries, bind_eq_ok, Except.ok.injEq]
      constructor
      · rintro ⟨_, j, hj, js, hjs, _⟩; exact ⟨⟨j, hj⟩, js, hjs⟩
      · rintro ⟨⟨j, hj⟩, js, hjs⟩; exact ⟨_, j, hj, js, hjs, rfl⟩
  simp only [← Data.toJson_iff, ← key, Data.toJson, bind_eq_ok, Except.ok.injEq]
  exact ⟨fun ⟨_, js, h, _⟩ => ⟨js, h⟩, fun ⟨js, h⟩ => ⟨_, js, h, rfl⟩⟩

theorem flag_ok {v x : Val} (h : InPlaceOf v .none x) : (x = .none ∨ ∃ b, x = .bool b) ↔ Falsy v ∨ v = .bool true := by
  rcases h with ⟨h, rfl⟩ | ⟨h, rfl⟩
  · exact ⟨fun _ => .inl h, fun _ => .inl rfl⟩
  · constructor
    · rintro (rfl | ⟨b, rfl⟩)
      · exact absurd .none h
      · cases b
        · exact absurd .no h
        · exact .inr rfl
    · rintro (h' | rfl)
      · exact absurd h' h
      · exact .inr ⟨true, rfl⟩

theorem legacyFlags_ok {b : LegacyBody} {entity : Str} {req : RequestObj} (hr : RequestOf b entity req) :
    (∀ f, req.flags = some f → FlagsOk f) ↔ FlagsTrue b := by
  obtain ⟨f, hf, h1, h2, ⟨v1, hv1, hi1⟩, ⟨v2, hv2, hi2⟩, ⟨v3, hv3, hi3⟩, v4, hv4, hi4⟩ := hr.flags
  rw [hf]
  simp only [Option.some.injEq, forall_eq']
  constructor
  · intro hok k hk v hv
    simp only [List.mem_cons, List.not_mem_nil, or_false] at hk
    rcases hk with rfl | rfl | rfl | rfl
    · cases valueAt_unique hv hv1; exact (flag_ok hi1).1 (hok _ _ .consistent)
    · cases valueAt_unique hv hv2; exact (flag_ok hi2).1 (hok _ _ .turbo)
    · cases valueAt_unique hv hv3; exact (flag_ok hi3).1 (hok _ _ .debug)
    · cases valueAt_unique hv hv4; exact (flag_ok hi4).1 (hok _ _ .dryRun)
  · intro ht k v hv
    cases hv with
    | totals => exact .inl h2
    | consistent => exact (flag_ok hi1).2 (ht _ (by simp) _ hv1)
    | turbo => exact (flag_ok hi2).2 (ht _ (by simp) _ hv2)
    | debug => exact (flag_ok hi3).2 (ht _ (by simp) _ hv3)
    | dryRun => exact (flag_ok hi4).2 (ht _ (by simp) _ hv4)
    | legacy => exact .inr ⟨true, h1⟩

theorem name_ok {v d x : Val} (h : InPlaceOf v d x) (hd : RequestName (.val d)) : RequestName (.val x) ↔ Falsy v ∨ RequestName (.val v) := by
  rcases h with ⟨h, rfl⟩ | ⟨h, rfl⟩
  · exact ⟨fun _ => .inl h, fun _ => hd⟩
  · exact ⟨.inr, fun h' => h'.elim (fun h' => absurd h' h) id⟩

theorem legacyNames_ok {b : LegacyBody} {entity : Str} {req : RequestObj} (hr : RequestOf b entity req) :
    (RequestName req.dataset ∧ RequestName req.appId ∧ ∃ kvs, req.tenantIds = .dict kvs) ↔ NamesOk b := by
  obtain ⟨v1, x1, hv1, hi1, e1⟩ := hr.dataset
  obtain ⟨v2, x2, hv2, hi2, e2⟩ := hr.appId
  have k1 := name_ok hi1 (entityName_request hr.name)
  have k2 := name_ok hi2 ⟨c!"legacy", rfl, by simp, .inl fun c hc => by
    rw [← flagChar_iff]; simp only [List.mem_cons, List.not_mem_nil, or_false] at hc
    rcases hc with rfl | rfl | rfl | rfl | rfl | rfl <;> decide⟩
  have k3 : (∃ kvs, req.tenantIds = .dict kvs) ↔ EmptyData b.tenantIds ∨ ∃ kvs, b.tenantIds = .dict kvs := by
    rcases hr.tenants with ⟨h, h'⟩ | ⟨h, h'⟩
    · exact ⟨fun _ => .inl h, fun _ => ⟨_, h'⟩⟩
    · rw [h']; exact ⟨.inr, fun h'' => h''.elim (fun h'' => absurd h'' h) id⟩
  rw [e1, e2, k1, k2, k3]
  constructor
  · rintro ⟨h1, h2, h3⟩
    exact ⟨fun v hv => valueAt_unique hv1 hv ▸ h1, fun v hv => valueAt_unique hv2 hv ▸ h2, h3⟩
  · rintro ⟨h1, h2, h3⟩
    exact ⟨h1 _ hv1, h2 _ hv2, h3⟩

theorem checkName_error {d : Data} {e : Err} (h : checkName d = .error e) : e = .invalidRequest := by
  unfold checkName at h
  split at h
  · split at h
    · cases h; rfl
    · exact (ensure_eq_error.1 h).2.symm
  · cases h; rfl

/-- **C69**: what becomes of a converted body of plain data. Its request can be sent exactly if the named dataset and application are names of a
request and the tenants a dictionary (otherwise `InvalidRequestError`), totals come with something to group by (otherwise
`InvalidQueryError`), flags are bools (otherwise `InvalidFlagError`), and the tenants stand for a JSON value (otherwise `TypeError`). -/
theorem C69_outcome (b b' : LegacyBody) (entity : Str) (req : RequestObj) (hb : PlainBody b) (h : jsonToSnql b entity = (.ok req, b')) :
    (NamesOk b → TotalsGrouped b → FlagsTrue b → TenantsJson b → ∃ t, req.serialize = .ok t) ∧
    (¬ NamesOk b → req.serialize = .error .invalidRequest) ∧
    (NamesOk b → ¬ TotalsGrouped b → req.serialize = .error .invalidQuery) ∧
    (NamesOk b → TotalsGrouped b → ¬ FlagsTrue b → req.serialize = .error .invalidFlag) ∧
    (NamesOk b → TotalsGrouped b → FlagsTrue b → ¬ TenantsJson b → req.serialize = .error .typeError) := by
  have hr := requestOf_iff.1 ⟨b', h⟩
  obtain ⟨v, s, c, hv, hs, hq, hc⟩ := hr.query
  obtain ⟨hval, hinval⟩ := C69_query_valid b b' entity req _ hb h hq
  have hparent : checkParent req.parentApi = .ok () := by rw [hr.parentApi]; rfl
  obtain ⟨f, hf, _⟩ := hr.flags
  have hraise : ∀ e, req.validate = .error e → req.serialize = .error e := fun e he =>
    (C46_error req).1 e (by unfold RequestObj.toDict; rw [he])
  have hnames : NamesOk b → checkName req.dataset = .ok () ∧ checkName req.appId = .ok () ∧ checkTenants req.tenantIds = .ok () := by
    intro hn
    obtain ⟨h1, h2, h3⟩ := (legacyNames_ok hr).2 hn
    exact ⟨checkName_iff.2 h1, checkName_iff.2 h2, checkTenants_iff.2 h3⟩
  have hflags : validateFlags req.flags = f.validate := by rw [hf]; rfl
  have hquery : ∀ {r}, req.query.validate = r ↔ (Query.base (.entity ⟨entity, none, s, none⟩) c).validate = r := by rw [hq]; exact Iff.rfl
  have hflagsTrue : FlagsTrue b ↔ FlagsOk f := by
    rw [← legacyFlags_ok hr, hf]; simp
  have payload : NamesOk b → TotalsGrouped b → FlagsTrue b → ∃ d, req.toDict.1 = .ok d ∧ ((∃ j, StandsFor d j) ↔ TenantsJson b) := by
    intro hn ht hfl
    have hok : RequestOk req := by
      rw [← C44_validate_iff]
      obtain ⟨h1, h2, h3⟩ := hnames hn
      simp only [RequestObj.validate, h1, h2, hparent, h3, hquery.2 (hval ht), hflags, (C43_validate_iff f).2 (hflagsTrue.1 hfl), ok_bind]
    obtain ⟨t, hser⟩ := C18_valid_serialises (.base (.entity ⟨entity, none, s, none⟩) c)
      (fun b' hb' => by simp only [levels, List.mem_singleton] at hb'; subst hb'; exact bodyBuilt_made (fromBody_built hb hc)) (hval ht)
      (fun x ⟨b', hb', hx⟩ => by simp only [levels, List.mem_singleton] at hb'; subst hb'; exact fromBody_clean hb hc x hx)
    have hqe : QueryEntry req.query (.val (.str t)) := by rw [hq]; exact .snql _ _ hser
    obtain ⟨d, hd⟩ := (C44_succeeds_iff req).2 ⟨hok, _, hqe⟩
    obtain ⟨_, kvs, rfl, hp⟩ := C44_to_dict req d hd
    refine ⟨_, hd, ?_⟩
    have htenants : (∃ j, StandsFor req.tenantIds j) ↔ TenantsJson b := by
      rcases hr.tenants with ⟨h, h'⟩ | ⟨h, h'⟩
      · rw [h']
        refine ⟨fun _ => .inl h, fun _ => standsFor_dict.2 ?_⟩
        simpa using ⟨_, StandsFor.val _ _ (.str c!"legacy")⟩
      · rw [h']; exact ⟨.inr, fun h'' => h''.elim (fun h'' => absurd h'' h) id⟩
    rw [standsFor_dict, ← htenants]
    constructor
    · intro hall; exact hall _ ((hp.entries _ _).2 .tenantIds)
    · rintro hj ⟨k, x⟩ hm
      have hstr : ∀ {x : Data}, RequestName x → ∃ j, StandsFor x j := by rintro x ⟨s, rfl, _⟩; exact ⟨_, .val _ _ (.str s)⟩
      cases (hp.entries k x).1 hm with
      | query x hx =>
        rw [hq] at hx
        cases hx
        exact ⟨_, .val _ _ (.str _)⟩
      | dataset _ => exact hstr hok.dataset
      | appId => exact hstr hok.appId
      | tenantIds => exact hj
      | parentApi => rw [hr.parentApi]; exact ⟨_, .val _ _ (.str _)⟩
      | context q kvs x h => rw [hq] at h; cases h
      | flag f k b => exact ⟨_, .val _ _ (.bool _)⟩
  refine ⟨?_, ?_, ?_, ?_, ?_⟩
  · intro h1 h2 h3 h4
    obtain ⟨d, hd, hj⟩ := payload h1 h2 h3
    obtain ⟨j, hj⟩ := hj.2 h4
    exact (C46_serializes_iff req).2 ⟨d, j, hd, hj⟩
  · intro hn
    apply hraise
    cases h1 : checkName req.dataset with
    | error e => cases checkName_error h1; simp only [RequestObj.validate, h1]; rfl
    | ok _ => cases h2 : checkName req.appId with
      | error e => cases checkName_error h2; simp only [RequestObj.validate, h1, h2, ok_bind]; rfl
      | ok _ => cases h3 : checkTenants req.tenantIds with
        | error e =>
          have : e = .invalidRequest := by unfold checkTenants at h3; split at h3 <;> cases h3; rfl
          subst this
          simp only [RequestObj.validate, h1, h2, h3, hparent, ok_bind]; rfl
        | ok _ => exact absurd ((legacyNames_ok hr).1 ⟨checkName_iff.1 h1, checkName_iff.1 h2, checkTenants_iff.1 h3⟩) hn
  · intro hn ht
    apply hraise
    obtain ⟨h1, h2, h3⟩ := hnames hn
    simp only [RequestObj.validate, h1, h2, hparent, h3, hquery.2 (hinval ht), ok_bind]; rfl
  · intro hn ht hfl
    apply hraise
    obtain ⟨h1, h2, h3⟩ := hnames hn
    simp only [RequestObj.validate, h1, h2, hparent, h3, hquery.2 (hval ht), hflags, C43_error f (mt hflagsTrue.2 hfl), ok_bind]
  · intro h1 h2 h3 h4
    obtain ⟨d, hd, hj⟩ := payload h1 h2 h3
    exact (C46_error req).2 d hd (mt hj.1 h4)

end

section Examples

attribute [local instance] asciiUnicode asciiDecimal noNumberText pySpace
local instance sendRepr : PyRepr := ⟨fun _ => []⟩

/-- A text that is no date is plain data. -/
private theorem plain_text {s : Str} (h : parseDatetime s = none) : PlainData (.str s) :=
  .text _ fun t ht => by rw [(C50_datetime_iff s t).2 ht] at h; cases h

private def sendBody (totals : Bool) (more : List (Str × Val)) : LegacyBody :=
  { entries := [(c!"aggregations", .list [.list [.str c!"count()", .str c!"", .str c!"n"]]), (c!"project", .list [.int 1]),
      (c!"conditions", .list [.list [.str c!"a", .str c!"=", .int 1]]), (c!"totals", .bool totals)] ++ more }

private theorem sendBody_plain {totals : Bool} {more : List (Str × Val)} (h : ∀ k v, (k, v) ∈ more → PlainData v) :
    PlainBody (sendBody totals more) := by
  intro k v hv
  rcases List.mem_append.1 hv with hv | hv
  · simp only [List.mem_cons, List.not_mem_nil, or_false, Prod.mk.injEq] at hv
    rcases hv with ⟨rfl, rfl⟩ | ⟨rfl, rfl⟩ | ⟨rfl, rfl⟩ | ⟨rfl, rfl⟩
    · refine .list _ fun x hx => ?_
      cases List.mem_singleton.1 hx
      refine .list _ fun y hy => ?_
      simp only [List.mem_cons, List.not_mem_nil, or_false] at hy
      rcases hy with rfl | rfl | rfl <;> exact plain_text (by decide +kernel)
    · refine .list _ fun x hx => ?_
      cases List.mem_singleton.1 hx
      exact .int 1
    · refine .list _ fun x hx => ?_
      cases List.mem_singleton.1 hx
      refine .list _ fun y hy => ?_
      simp only [List.mem_cons, List.not_mem_nil, or_false] at hy
      rcases hy with rfl | rfl | rfl
      · exact plain_text (by decide +kernel)
      · exact plain_text (by decide +kernel)
      · exact .int 1
    · exact .bool _
  · exact h k v hv

private def sent (b : LegacyBody) : Except Err Str :=
  match (jsonToSnql b c!"events").1 with
  | .ok r => r.serialize
  | .error e => .error e

set_option maxRecDepth 20000 in
/-- C69: the hypotheses hold of a body with an aggregation, a project and a condition, and it is sent. -/
example : PlainBody (sendBody false []) ∧ (∃ r b', jsonToSnql (sendBody false []) c!"events" = (.ok r, b')) ∧
    sent (sendBody false []) = .ok c!"{\"legacy\": true, \"query\": \"MATCH (events) SELECT count() AS `n` WHERE project_id IN tuple(1) AND a = 1 TOTALS False\", \"dataset\": \"events\", \"app_id\": \"legacy\", \"tenant_ids\": {\"legacy\": \"legacy\"}, \"parent_api\": \"<unknown>\"}" :=
  ⟨sendBody_plain (by simp), ⟨_, _, rfl⟩, by decide +kernel⟩

private theorem sendBody_has {totals : Bool} {more : List (Str × Val)} {k : Str} {v : Val} (h : (sendBody totals more).get k = v) :
    ValueAt (sendBody totals more) k v := valueAt_iff.1 h

set_option maxRecDepth 20000 in
/-- C69: totals without groups, a flag that is a number, a dataset that is no name, and tenants with bytes are converted and then refused, each
with its own error. -/
example : sent (sendBody true []) = .error .invalidQuery ∧
    (∃ t, sent (sendBody true [(c!"groupby", .str c!"a")]) = .ok t) ∧
    sent (sendBody false [(c!"debug", .int 1)]) = .error .invalidFlag ∧
    sent (sendBody false [(c!"dataset", .str c!"a b")]) = .error .invalidRequest ∧
    sent { sendBody false [] with tenantIds := .dict [(c!"a", .val (.bytes []))] } = .error .typeError :=
  ⟨by decide +kernel, ⟨c!"{\"legacy\": true, \"query\": \"MATCH (events) SELECT count() AS `n` BY a WHERE project_id IN tuple(1) AND a = 1 TOTALS True\", \"dataset\": \"events\", \"app_id\": \"legacy\", \"tenant_ids\": {\"legacy\": \"legacy\"}, \"parent_api\": \"<unknown>\"}", by decide +kernel⟩, by decide +kernel, by decide +kernel, by decide +kernel⟩

/-- C69: the specification tells the first two apart. -/
example : ¬ TotalsGrouped (sendBody true []) ∧ TotalsGrouped (sendBody true [(c!"groupby", .str c!"a")]) := by
  constructor
  · intro h
    obtain ⟨v, hv, hf⟩ := h (sendBody_has rfl)
    cases valueAt_unique hv (sendBody_has (v := .none) rfl)
    exact hf .none
  · exact fun _ => ⟨.str c!"a", sendBody_has rfl, by intro h; cases h⟩

/-- C69: the other hypotheses of the outcome hold of that body. -/
example : NamesOk (sendBody true [(c!"groupby", .str c!"a")]) ∧ FlagsTrue (sendBody true [(c!"groupby", .str c!"a")]) ∧
    TenantsJson (sendBody true [(c!"groupby", .str c!"a")]) := by
  refine ⟨⟨fun v hv => ?_, fun v hv => ?_, .inl (.val .none)⟩, fun k hk v hv => ?_, .inl (.val .none)⟩
  · cases valueAt_unique hv (sendBody_has (v := .none) rfl); exact .inl .none
  · cases valueAt_unique hv (sendBody_has (v := .none) rfl); exact .inl .none
  · simp only [List.mem_cons, List.not_mem_nil, or_false] at hk
    rcases hk with rfl | rfl | rfl | rfl <;> (cases valueAt_unique hv (sendBody_has (v := .none) rfl); exact .inl .none)

set_option maxRecDepth 20000 in
/-- **C69** (the bound on dates is needed): a body with a date whose UTC equivalent is before the year 1 is converted, its query is
valid, and sending it raises `OverflowError`. -/
theorem C69_early_dates_overflow : ∃ b r b', jsonToSnql b c!"events" = (.ok r, b') ∧ r.validate = .ok () ∧ r.serialize = .error .overflowError :=
  ⟨sendBody false [(c!"having", .list [.list [.str c!"a", .str c!"=", .str c!"0001-01-01T00:00:00+01:00"]])], _, _, rfl, by decide +kernel,
    by decide +kernel⟩

end Examples

end Verif
