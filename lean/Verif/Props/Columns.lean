import Verif.Lemmas.Query
import Verif.Lemmas.Examples

/-!
# C24–C27: column search and the checks based on it
-/

namespace Verif
open Spec

/-! ### C24 -/

/-- **C24** (expressions): the search returns exactly the occurring columns. -/
theorem C24_finder_exact (v : Val) (cs : List ColumnObj) (h : findColumns v = .ok cs) (c : ColumnObj) :
    c ∈ cs ↔ Occurs c v := findColumns_mem v cs h

/-- **C24** (queries): the search over the clauses of a query returns exactly the occurring
columns. -/
theorem C24_query_search_exact (b : Body) (cs : List ColumnObj) (h : searchBody b = .ok cs) (c : ColumnObj) :
    c ∈ cs ↔ OccursInBody c b := searchBody_mem h

section
variable [U : PyUnicode]

/-- **C24** (expressions): the search succeeds on every constructed expression but `Extrapolate`
(which is not a SnQL clause). -/
theorem C24_finder_total (v : Val) (hb : Built v) (he : Expr v) (hx : ∀ b, v ≠ .extrapolate b) :
    ∃ cs, findColumns v = .ok cs := wf_findColumns (built_wf hb) (.inl ⟨he, hx⟩)

/-- **C24** (queries): the search succeeds on clauses made of constructed expressions. -/
theorem C24_query_search_total (b : Body) (hb : BodyBuilt b) (hx : ∀ e, ¬ HasItem b (.extrapolate e)) :
    ∃ cs, searchBody b = .ok cs := searchBody_total hb hx

/-! ### C25 -/

/-- **C25**: in a valid query over a subquery every referenced column is an output of the subquery: the
name of a column or the alias of a function in its select list. -/
theorem C25_outer_columns_are_outputs (q : Query) (b : Body) (h : (Query.nested q b).validate = .ok ())
    (c : ColumnObj) (hc : OccursInBody c b) :
    ∃ k xs, SeqOf q.body.select k xs ∧ ∃ x ∈ xs, (∃ d, x = .column d ∧ d.name = c.name) ∨
      (∃ f n ik is pk ps, x = .curried f n ik is pk ps (some c.name)) := by
  obtain ⟨h1, _, cs, h2, h3, _⟩ := nested_validate_iff.1 h
  obtain ⟨⟨k, xs, hs, _⟩, _⟩ := body_complete h1
  refine ⟨k, xs, hs, ?_⟩
  exact (validateSubquery_iff hs).1 h3 c ((searchBody_mem h2).2 hc)

/-- **C25** (exactness): with a valid subquery and constructed, complete clauses, validation succeeds exactly
when every referenced column is an output of the subquery; otherwise it raises `InvalidMatchError`. -/
theorem C25_outer_columns_exact (q : Query) (b : Body) (hq : q.validate = .ok ()) (hb : BodyBuilt b)
    (hx : ∀ e, ¬ HasItem b (.extrapolate e)) (hc : Complete b) :
    let good := ∀ c, OccursInBody c b → ∃ k xs, SeqOf q.body.select k xs ∧
      ∃ x ∈ xs, (∃ d, x = .column d ∧ d.name = c.name) ∨
        (∃ f n ik is pk ps, x = .curried f n ik is pk ps (some c.name))
    (good → (Query.nested q b).validate = .ok ()) ∧
    (¬ good → (Query.nested q b).validate = .error .invalidMatch) := by
  intro good
  obtain ⟨cs, hcs⟩ := searchBody_total hb hx
  obtain ⟨⟨k, xs, hs, _⟩, _⟩ := body_complete hq
  have e : (Query.nested q b).validate = (do validateSubquery q.body cs; combineChecks b) := by
    simp [Query.validate, hq, validateClauses_built hb, hcs]
  have key : good ↔ validateSubquery q.body cs = .ok () := by
    rw [validateSubquery_iff hs]
    constructor
    · intro hg c hcm
      obtain ⟨k', xs', hs', h⟩ := hg c ((searchBody_mem hcs).1 hcm)
      rw [hs.unique hs'] ; exact h
    · intro hg c hcm
      exact ⟨k, xs, hs, hg c ((searchBody_mem hcs).2 hcm)⟩
  rw [e, key]
  constructor
  · intro h; rw [h]; exact combineChecks_complete hc
  · intro h
    rw [validateSubquery_error hs h]; rfl

/-! ### C26 -/

/-- **C26**: validation of a join query with constructed, complete clauses succeeds exactly when every
referenced column carries an entity whose alias is bound in the join to that entity's name; otherwise
it raises `InvalidMatchError`. -/
theorem C26_join_columns_exact (k : SeqKind) (rels : List RelObj) (b : Body) (hj : Built (.join k rels))
    (hb : BodyBuilt b) (hx : ∀ e, ¬ HasItem b (.extrapolate e)) (hc : Complete b) :
    let good := ∀ c, OccursInBody c b → ∃ e a, c.entity = some e ∧ e.alias = some a ∧ Uses rels a e.name
    (good → (Query.base (.join k rels) b).validate = .ok ()) ∧
    (¬ good → (Query.base (.join k rels) b).validate = .error .invalidMatch) := by
  intro good
  obtain ⟨cs, hcs⟩ := searchBody_total hb hx
  have hfun : ∀ a n n', Uses rels a n → Uses rels a n' → n = n' := by
    cases built_wf hj with
    | literal _ h => cases h
    | join _ _ _ _ h => exact h
  have e : (Query.base (.join k rels) b).validate = (do validateJoin rels cs; combineChecks b) := by
    rw [C13_query_checks_only_combination_partial _ _ hj (.join _ _) (by rintro ⟨_, _, _, _, h, _⟩; cases h) hb]
    simp [validateMatchBase, hcs]
  have key : good ↔ validateJoin rels cs = .ok () := by
    rw [validateJoin_iff hfun]
    exact ⟨fun h c hm => h c ((searchBody_mem hcs).1 hm), fun h c hm => h c ((searchBody_mem hcs).2 hm)⟩
  rw [e, key]
  constructor
  · intro h; rw [h]; exact combineChecks_complete hc
  · intro h
    have : validateJoin rels cs = .error .invalidMatch := ensure_ne_ok h
    rw [this]; rfl

/-- **C26** (soundness, whatever the clauses hold): if a join query validates then every referenced
column carries such an entity. -/
theorem C26_join_columns_sound (k : SeqKind) (rels : List RelObj) (b : Body)
    (h : (Query.base (.join k rels) b).validate = .ok ()) (c : ColumnObj) (hc : OccursInBody c b) :
    ∃ e a, c.entity = some e ∧ e.alias = some a ∧ Uses rels a e.name := by
  obtain ⟨h1, _, h2, _⟩ := base_validate_iff.1 h
  simp only [validateMatchBase, bind_eq_ok] at h2
  obtain ⟨cs, hcs, h2⟩ := h2
  have hfun := ((checkJoin_iff rels).1 h1).2
  exact (validateJoin_iff hfun).1 h2 c ((searchBody_mem hcs).2 hc)

/-! ### C27 -/

/-- The name under which a column is looked up in a data model: the part before the bracket of a
subscripted column. -/
def Spec.lookupName (c : ColumnObj) : Str :=
  match c.subscriptable with
  | some s => s
  | none => c.name

/-- **C27** (entity or storage with a data model): if the query validates, every referenced column is in the
model, a subscripted one by the part before the bracket. -/
theorem C27_columns_in_model (m : Val) (b : Body) (d : DataModel)
    (hm : (∃ e, m = .entity e ∧ e.dataModel = some d) ∨ (∃ s, m = .storage s ∧ s.dataModel = some d))
    (h : (Query.base m b).validate = .ok ()) (c : ColumnObj) (hc : OccursInBody c b)
    (hne : c.subscriptable ≠ some []) : ∃ x ∈ d.columns, x.name = lookupName c := by
  obtain ⟨_, _, h2, _⟩ := base_validate_iff.1 h
  simp only [validateMatchBase, bind_eq_ok] at h2
  obtain ⟨cs, hcs, h2⟩ := h2
  have h3 : validateModel (some d) cs = .ok () := by
    rcases hm with ⟨e, rfl, hd⟩ | ⟨s, rfl, hd⟩ <;> (simp only [hd] at h2; exact h2)
  exact modelContains hne (validateModel_iff.1 h3 c ((searchBody_mem hcs).2 hc))

/-- **C27** (exactness): with constructed, complete clauses, validation succeeds exactly when every
referenced column is in the model; otherwise it raises `InvalidColumnError`. Without a data model
it succeeds. -/
theorem C27_columns_exact (m : Val) (b : Body) (dm : Option DataModel) (hmb : Built m)
    (hm : (∃ e, m = .entity e ∧ e.dataModel = dm) ∨ (∃ s, m = .storage s ∧ s.dataModel = dm))
    (hb : BodyBuilt b) (hx : ∀ e, ¬ HasItem b (.extrapolate e)) (hc : Complete b) :
    let good := ∀ d, dm = some d → ∀ c, OccursInBody c b → ∃ x ∈ d.columns, x.name = lookupName c
    (good → (Query.base m b).validate = .ok ()) ∧
    (¬ good → (Query.base m b).validate = .error .invalidColumn) := by
  intro good
  obtain ⟨cs, hcs⟩ := searchBody_total hb hx
  have hexp : Expr m := by rcases hm with ⟨e, rfl, _⟩ | ⟨s, rfl, _⟩ <;> constructor
  have hmis : ¬ ModelMismatch m := by
    rintro ⟨_, _, _, _, h, _⟩; rcases hm with ⟨e, rfl, _⟩ | ⟨s, rfl, _⟩ <;> cases h
  have e : (Query.base m b).validate = (do validateModel dm cs; combineChecks b) := by
    rw [C13_query_checks_only_combination_partial m b hmb hexp hmis hb]
    rcases hm with ⟨e, rfl, hd⟩ | ⟨s, rfl, hd⟩ <;> simp [validateMatchBase, hcs, hd]
  have key : good ↔ validateModel dm cs = .ok () := by
    rw [validateModel_iff]
    constructor
    · intro hg c hcm
      have ho := (searchBody_mem hcs).1 hcm
      cases dm with
      | none => rfl
      | some d => exact containsModel (subscriptable_ne_nil (occursInBody_colOk hb ho)) (hg d rfl c ho)
    · intro hg d hd c ho
      subst hd
      exact modelContains (subscriptable_ne_nil (occursInBody_colOk hb ho)) (hg c ((searchBody_mem hcs).2 ho))
  rw [e, key]
  constructor
  · intro h; rw [h]; exact combineChecks_complete hc
  · intro h; rw [validateModel_error h]; rfl

end

/-! ### Concrete cases -/

section Examples

open Ex

/-- C24: `count(x) AS n` meets the hypotheses of the totality theorem and the search finds `x` in it. -/
example : @Built asciiUnicode count ∧ Expr count ∧ (∀ b, count ≠ .extrapolate b) ∧
    findColumns count = .ok [⟨c!"x", none, none, none⟩] :=
  ⟨count_built, .curried .., (fun _ h => by cases h), rfl⟩

/-- C24: a column inside an array value is not searched; the specification says so too. -/
example : findColumns (.cond (col c!"a") .in_ (.list [col c!"b"])) = .ok [⟨c!"a", none, none, none⟩] := rfl

/-- C24 for queries: the hypotheses hold of a body selecting `a` and `count(x)`. -/
example : @BodyBuilt asciiUnicode (body [col c!"a", count]) ∧
    (∀ e, ¬ HasItem (body [col c!"a", count]) (.extrapolate e)) ∧
    searchBody (body [col c!"a", count]) = .ok [⟨c!"a", none, none, none⟩, ⟨c!"x", none, none, none⟩] :=
  ⟨body_built _ (by
    intro x hx; simp at hx
    rcases hx with rfl | rfl
    · exact col_ok _ rfl
    · exact count_ok),
   body_noExtrapolate _ (by
    intro x hx e h; simp at hx
    rcases hx with rfl | rfl <;> cases h), rfl⟩

/-- C25: selecting the alias `n` from that subquery is valid; selecting `x`, which is used inside but is not
an output, is not. -/
example : @Query.validate asciiUnicode inner = .ok () ∧
    @Query.validate asciiUnicode (.nested inner (body [col c!"n"])) = .ok () ∧
    @Query.validate asciiUnicode (.nested inner (body [col c!"x"])) = .error .invalidMatch :=
  ⟨rfl, rfl, rfl⟩

/-- C25 exactness: its hypotheses hold of that query. -/
example : @BodyBuilt asciiUnicode (body [col c!"n"]) ∧
    (∀ e, ¬ HasItem (body [col c!"n"]) (.extrapolate e)) ∧ Complete (body [col c!"n"]) :=
  ⟨body_built _ (by intro x hx; simp at hx; subst hx; exact col_ok _ rfl),
   body_noExtrapolate _ (by intro x hx e h; simp at hx; subst hx; cases h), body_complete' _ _⟩

/-- C26: in that join, a column of alias `g` on the entity `groups` is accepted; with the entity name
`events` under alias `g`, with an unknown alias and without entity it is rejected. -/
example :
    let q (e : Option EntityObj) : Query := .base (.join .list [rel]) (body [.column ⟨c!"a", e, none, none⟩])
    @Query.validate asciiUnicode (q (some ⟨c!"groups", some c!"g", none, none⟩)) = .ok () ∧
    @Query.validate asciiUnicode (q (some ⟨c!"events", some c!"g", none, none⟩)) = .error .invalidMatch ∧
    @Query.validate asciiUnicode (q (some ⟨c!"groups", some c!"h", none, none⟩)) = .error .invalidMatch ∧
    @Query.validate asciiUnicode (q none) = .error .invalidMatch :=
  ⟨rfl, rfl, rfl, rfl⟩

/-- C27: an entity whose model has `tags` and `time`: `tags[x]` is in the model, `nope` is not. -/
example :
    let m : Val := .entity ⟨c!"events", none, none, some ⟨[⟨c!"tags", false⟩, ⟨c!"time", true⟩], ⟨c!"time", true⟩⟩⟩
    @Query.validate asciiUnicode (.base m (body [.column ⟨c!"tags[x]", none, some c!"tags", some c!"x"⟩])) = .ok () ∧
    @Query.validate asciiUnicode (.base m (body [col c!"nope"])) = .error .invalidColumn :=
  ⟨rfl, rfl⟩

end Examples

end Verif
