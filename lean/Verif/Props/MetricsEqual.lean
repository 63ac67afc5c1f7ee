import Verif.Lemmas.MetricsSame
import Verif.Props.Total

/-!
# C73: equality of metrics queries
-/

namespace Verif
open Spec

/-- **C73.** Every metrics query without NaN is equal to itself. -/
theorem C73_reflexive (q : MetricsQueryObj) (h : Everywhere NoNans q) (hk : ∀ x ∈ fieldsOf q, Keyed x) : q.pyEq q = true := by
  have key : ∀ x ∈ fieldsOf q, x.pyEq x = true := fun x hx => mval_refl x (h x hx) (hk x hx)
  exact fields_iff.2 ⟨key _ (by simp [fieldsOf]), key _ (by simp [fieldsOf]), key _ (by simp [fieldsOf]), key _ (by simp [fieldsOf]),
    key _ (by simp [fieldsOf]), key _ (by simp [fieldsOf]), key _ (by simp [fieldsOf]), key _ (by simp [fieldsOf]), key _ (by simp [fieldsOf])⟩

theorem metricsQuery_symm {q r : MetricsQueryObj} (hq : ∀ x ∈ fieldsOf q, Keyed x) (hr : ∀ x ∈ fieldsOf r, Keyed x) (h : q.pyEq r = true) :
    r.pyEq q = true := by
  have key : ∀ x ∈ fieldsOf q, ∀ y ∈ fieldsOf r, x.pyEq y = true → y.pyEq x = true := fun x hx y hy => mval_symm x y (hq x hx) (hr y hy)
  have f := fields_iff.1 h
  exact fields_iff.2 ⟨key _ (by simp [fieldsOf]) _ (by simp [fieldsOf]) f.query, key _ (by simp [fieldsOf]) _ (by simp [fieldsOf]) f.start,
    key _ (by simp [fieldsOf]) _ (by simp [fieldsOf]) f.end_, key _ (by simp [fieldsOf]) _ (by simp [fieldsOf]) f.rollup,
    key _ (by simp [fieldsOf]) _ (by simp [fieldsOf]) f.scope, key _ (by simp [fieldsOf]) _ (by simp [fieldsOf]) f.limit,
    key _ (by simp [fieldsOf]) _ (by simp [fieldsOf]) f.offset, key _ (by simp [fieldsOf]) _ (by simp [fieldsOf]) f.extrapolate,
    key _ (by simp [fieldsOf]) _ (by simp [fieldsOf]) f.mappings⟩

/-- **C73.** Equality of metrics queries does not depend on the order. -/
theorem C73_symmetric (q r : MetricsQueryObj) (hq : ∀ x ∈ fieldsOf q, Keyed x) (hr : ∀ x ∈ fieldsOf r, Keyed x) : q.pyEq r = r.pyEq q := by
  cases h : q.pyEq r
  · cases h' : r.pyEq q
    · rfl
    · rw [metricsQuery_symm hr hq h'] at h; exact h.symm
  · exact (metricsQuery_symm hq hr h).symm

/-- **C73.** Two metrics queries that are equal to a third one are equal, if no function in the third is a `CurriedFunction`, or if no
function in the two has an alias. -/
theorem C73_transitive (q r s : MetricsQueryObj) (hf : Everywhere OnlyFunctions r ∨ (Everywhere NoAliases q ∧ Everywhere NoAliases s))
    (h : q.pyEq r = true) (h' : r.pyEq s = true) : q.pyEq s = true := by
  have key : ∀ x ∈ fieldsOf q, ∀ y ∈ fieldsOf r, ∀ z ∈ fieldsOf s, x.pyEq y = true → y.pyEq z = true → x.pyEq z = true := by
    intro x hx y hy z hz
    refine mval_trans y x z ?_
    rcases hf with hf | hf
    · exact .inl (hf y hy)
    · exact .inr ⟨hf.1 x hx, hf.2 z hz⟩
  have f := fields_iff.1 h
  have g := fields_iff.1 h'
  refine fields_iff.2 ⟨key _ ?_ _ ?_ _ ?_ f.query g.query, key _ ?_ _ ?_ _ ?_ f.start g.start, key _ ?_ _ ?_ _ ?_ f.end_ g.end_,
    key _ ?_ _ ?_ _ ?_ f.rollup g.rollup, key _ ?_ _ ?_ _ ?_ f.scope g.scope, key _ ?_ _ ?_ _ ?_ f.limit g.limit,
    key _ ?_ _ ?_ _ ?_ f.offset g.offset, key _ ?_ _ ?_ _ ?_ f.extrapolate g.extrapolate, key _ ?_ _ ?_ _ ?_ f.mappings g.mappings⟩ <;>
    simp [fieldsOf]

/-- **C73.** Equal metrics queries are interchangeable: they are both valid or are rejected with the same error; they are both sent or fail
with the same error; what is sent has the same text and a context that says the same; and afterwards they are equal again. This holds if
no number in them is disguised as one of another class, nothing but `None`, numbers and strings is written with `str` in a formula, and either
all functions are `Function`s or no function has an alias. -/
theorem C73_interchangeable [U : PyUnicode] [S : RegexSpace] [R : PyRepr] (q r : MetricsQueryObj) (h : q.pyEq r = true)
    (hq : Ordinarily q) (hr : Ordinarily r)
    (hf : (Everywhere OnlyFunctions q ∧ Everywhere OnlyFunctions r) ∨ (Everywhere NoAliases q ∧ Everywhere NoAliases r)) :
    q.validate = r.validate ∧ (∀ e, q.serialize.1 = .error e ↔ r.serialize.1 = .error e) ∧
      (∀ d e, q.serialize.1 = .ok d → r.serialize.1 = .ok e → SameSent d e) ∧ q.serialize.2.pyEq r.serialize.2 = true := by
  have key : ∀ {m : Bool}, AlikeQ m q r → q.validate = r.validate ∧ (∀ e, q.serialize.1 = .error e ↔ r.serialize.1 = .error e) ∧
      (∀ d e, q.serialize.1 = .ok d → r.serialize.1 = .ok e → SameSent d e) ∧ q.serialize.2.pyEq r.serialize.2 = true := by
    intro m h
    obtain ⟨h1, h2⟩ := serialize_same h
    refine ⟨h.validate, ?_, ?_, h2⟩
    · intro e
      cases hx : q.serialize.1 <;> cases hy : r.serialize.1 <;> rw [hx, hy] at h1
      · have h1 : _ = _ := h1
        rw [h1]
      · exact h1.elim
      · exact h1.elim
      · simp
    · intro d e hd he
      rw [hd, he] at h1
      exact h1
  rcases hf with hf | hf
  · exact key (m := true) (alikeQ_of h hq hr hf.1 hf.2)
  · exact key (m := false) (alikeQ_of h hq hr hf.1 hf.2)

/-- **C73.** Equal objects of the metrics layer have equal hashes (or both cannot be hashed), if all functions are `Function`s or no function
has an alias; whatever cannot be hashed fails with a TypeError. -/
theorem C73_equal_hashes (x y : MVal) (h : x.pyEq y = true)
    (hf : (Entirely OnlyFunctions x ∧ Entirely OnlyFunctions y) ∨ (Entirely NoAliases x ∧ Entirely NoAliases y)) :
    x.hashTree = y.hashTree ∧ ∀ e, x.hashTree = .error e → e = .typeError := by
  refine ⟨?_, mval_hash_error x⟩
  rcases hf with hf | hf
  · exact mval_hash (m := true) x y h hf.1 hf.2
  · exact mval_hash (m := false) x y h hf.1 hf.2

/-- **C73.** A valid formula cannot be hashed although its class is hashable: it contains a timeseries. -/
theorem C73_formula_unhashable (n : Val) (p : MVal) (a f g : Val) (h : validateFormula n p g = .ok ()) :
    (MVal.formula n p a f g).hashTree = .error .typeError := formula_noHash h

section Examples

attribute [local instance] asciiUnicode pySpace
@[local instance] private def exRepr : PyRepr := ⟨fun _ => []⟩

/-- 14:00+02:00 and 12:00 UTC on the same day. -/
private def exTwo : Datetime := ⟨⟨2024, 2, 29, rfl⟩, 14, 0, 0, 0, some (some 7200000000), rfl⟩
private def exTwelve : Datetime := ⟨⟨2024, 2, 29, rfl⟩, 12, 0, 0, 0, some (some 0), rfl⟩

private def exColumn (n : Str) : Val := .column ⟨n, none, none, none⟩

private def exFilter : Val :=
  .list [.boolCond .or .or .list [.cond (exColumn c!"env") .eq (.str c!"a"), .cond (exColumn c!"env") .eq (.str c!"b")]]

private def exTs : TimeseriesObj := ⟨⟨.none, .str c!"d:t/d@ms", .none⟩, .str c!"sum", .none, .none, .list [exColumn c!"env"]⟩

/-- `(sum(d:t/d@ms) by (env) * 2){env:"a" OR env:"b"}` from a moment, with mappings in the given order. -/
private def exQ (t : Datetime) (kvs : List (Str × Data)) : MetricsQueryObj :=
  { query := .formula (.str c!"multiply") (.list [.ts exTs, .val (.int 2)]) .none exFilter .none
    start := .val (.datetime t)
    end_ := .val (.datetime ⟨⟨2024, 3, 1, rfl⟩, 0, 0, 0, 0, none, rfl⟩)
    rollup := .rollup ⟨.int 60, .none, .none, .int 60⟩
    scope := .scope ⟨.list [.int 1], .list [.int 11], .str c!"transactions"⟩
    indexerMappings := .data (.dict kvs) }

private def exA : List (Str × Data) := [(c!"a", .val (.int 1)), (c!"b", .val (.int 2))]
private def exB : List (Str × Data) := [(c!"b", .val (.int 2)), (c!"a", .val (.int 1))]

private theorem exPart {Q : Val → Prop} {v : Val} (h : Q v) (hc : ∀ x ∈ v.children, ∀ y, Part y x → Q y) : ∀ y, Part y v → Q y := by
  intro y hy
  rcases (part_iff ..).1 hy with rfl | ⟨x, hx, hy⟩
  · exact h
  · exact hc x hx y hy

/-- The values in the filter. -/
private theorem exFilterAll {Q : Val → Prop} (h1 : Q exFilter) (h2 : ∀ k cs, Q (.boolCond .or .or k cs)) (h3 : ∀ l o r, Q (.cond l o r))
    (h4 : ∀ n, Q (exColumn n)) (h5 : ∀ s, Q (.str s)) : ∀ y, Part y exFilter → Q y := by
  have hc : ∀ n s, ∀ y, Part y (.cond (exColumn n) .eq (.str s)) → Q y := by
    intro n s
    refine exPart (h3 _ _ _) fun x hx => ?_
    simp only [Val.children, List.mem_cons, List.not_mem_nil, or_false] at hx
    rcases hx with rfl | rfl
    · exact exPart (h4 _) fun x hx => by simp [exColumn, Val.children] at hx
    · exact exPart (h5 _) fun x hx => by simp [Val.children] at hx
  refine exPart h1 fun x hx => ?_
  simp only [exFilter, Val.children, List.mem_cons, List.not_mem_nil, or_false] at hx
  subst hx
  refine exPart (h2 _ _) fun x hx => ?_
  simp only [Val.children, List.mem_cons, List.not_mem_nil, or_false] at hx
  rcases hx with rfl | rfl <;> exact hc _ _

/-- The values in the query. -/
private theorem exAll {Q : Val → Prop} (hf : Q exFilter) (h2 : ∀ k cs, Q (.boolCond .or .or k cs)) (h3 : ∀ l o r, Q (.cond l o r))
    (h4 : ∀ n, Q (exColumn n)) (h5 : ∀ s, Q (.str s)) (h6 : Q .none) (h7 : ∀ i, Q (.int i)) (h8 : Q (.list [exColumn c!"env"])) :
    Entirely (fun v => ∀ y, Part y v → Q y) (exQ exTwo exA).query := by
  have leaf : ∀ v : Val, v.children = [] → Q v → ∀ y, Part y v → Q y := fun v hc h => exPart h fun x hx => by rw [hc] at hx; cases hx
  intro v hv
  cases hv with
  | formula _ _ _ _ _ _ hm =>
    simp only [List.mem_cons, List.not_mem_nil, or_false] at hm
    rcases hm with rfl | rfl | rfl | rfl
    · exact leaf _ rfl (h5 _)
    · exact leaf _ rfl h6
    · exact exFilterAll hf h2 h3 h4 h5
    · exact leaf _ rfl h6
  | params _ _ _ _ _ _ hp =>
    cases hp with
    | item _ _ x _ hs hx hv =>
      cases hs
      simp only [List.mem_cons, List.not_mem_nil, or_false] at hx
      rcases hx with rfl | rfl
      · cases hv with
        | ts _ _ hm =>
          simp only [exTs, List.mem_cons, List.not_mem_nil, or_false] at hm
          rcases hm with rfl | rfl | rfl | rfl | rfl | rfl | rfl <;> try first | exact leaf _ rfl h6 | exact leaf _ rfl (h5 _)
          refine exPart h8 fun x hx => ?_
          simp only [Val.children, List.mem_cons, List.not_mem_nil, or_false] at hx
          subst hx
          exact leaf _ rfl (h4 _)
        | item _ _ _ _ hs => cases hs
      · cases hv with
        | val => exact leaf _ rfl (h7 _)
        | item _ _ _ _ hs => cases hs
  | item _ _ _ _ hs => cases hs

/-- The values everywhere. -/
private theorem exEverywhere {Q : Val → Prop} (t : Datetime) {kvs : List (Str × Data)} (hk : ∀ k x, (k, x) ∈ kvs → ∃ i, x = .val (.int i))
    (hf : Q exFilter) (h2 : ∀ k cs, Q (.boolCond .or .or k cs)) (h3 : ∀ l o r, Q (.cond l o r))
    (h4 : ∀ n, Q (exColumn n)) (h5 : ∀ s, Q (.str s)) (h6 : Q .none) (h7 : ∀ i, Q (.int i)) (h8 : Q (.list [exColumn c!"env"]))
    (h9 : ∀ t, Q (.datetime t)) (h10 : ∀ i, Q (.list [.int i])) : Everywhere (fun v => ∀ y, Part y v → Q y) (exQ t kvs) := by
  have leaf : ∀ v : Val, v.children = [] → Q v → ∀ y, Part y v → Q y := fun v hc h => exPart h fun x hx => by rw [hc] at hx; cases hx
  have one : ∀ i, ∀ y, Part y (.list [.int i]) → Q y := by
    intro i
    refine exPart (h10 _) fun x hx => ?_
    simp only [Val.children, List.mem_cons, List.not_mem_nil, or_false] at hx
    subst hx; exact leaf _ rfl (h7 _)
  have val : ∀ v : Val, (∀ y, Part y v → Q y) → Entirely (fun v => ∀ y, Part y v → Q y) (.val v) := by
    intro v h w hw
    cases hw with
    | val => exact h
    | item _ _ _ _ hs => cases hs
  intro x hx
  simp only [fieldsOf, exQ, List.mem_cons, List.not_mem_nil, or_false] at hx
  rcases hx with rfl | rfl | rfl | rfl | rfl | rfl | rfl | rfl | rfl
  · exact exAll hf h2 h3 h4 h5 h6 h7 h8
  · exact val _ (leaf _ rfl (h9 _))
  · exact val _ (leaf _ rfl (h9 _))
  · intro v hv
    cases hv with
    | rollup _ _ hm =>
      simp only [List.mem_cons, List.not_mem_nil, or_false] at hm
      rcases hm with rfl | rfl | rfl | rfl <;> first | exact leaf _ rfl h6 | exact leaf _ rfl (h7 _)
    | item _ _ _ _ hs => cases hs
  · intro v hv
    cases hv with
    | scope _ _ hm =>
      simp only [List.mem_cons, List.not_mem_nil, or_false] at hm
      rcases hm with rfl | rfl | rfl <;> first | exact one _ | exact leaf _ rfl (h5 _)
    | item _ _ _ _ hs => cases hs
  · exact val _ (leaf _ rfl h6)
  · exact val _ (leaf _ rfl h6)
  · exact val _ (leaf _ rfl h6)
  · intro v hv
    cases hv with
    | data _ _ hd =>
      cases hd with
      | entry _ k x _ hx hv =>
        obtain ⟨i, rfl⟩ := hk k x hx
        cases hv
        exact leaf _ rfl (h7 _)
    | item _ _ _ _ hs => cases hs

private theorem exKvs (kvs : List (Str × Data)) (h : kvs = exA ∨ kvs = exB) : ∀ k x, (k, x) ∈ kvs → ∃ i, x = .val (.int i) := by
  intro k x hx
  rcases h with rfl | rfl <;> simp only [exA, exB, List.mem_cons, List.not_mem_nil, or_false, Prod.mk.injEq] at hx <;>
    rcases hx with ⟨_, rfl⟩ | ⟨_, rfl⟩ <;> exact ⟨_, rfl⟩

private theorem exNoAliases (t : Datetime) (kvs : List (Str × Data)) (h : kvs = exA ∨ kvs = exB) : Everywhere NoAliases (exQ t kvs) :=
  exEverywhere t (exKvs kvs h) (by simp [exFilter]) (by simp) (by simp) (by simp [exColumn]) (by simp) (by simp) (by simp) (by simp) (by simp) (by simp)

private theorem exOnly (t : Datetime) (kvs : List (Str × Data)) (h : kvs = exA ∨ kvs = exB) : Everywhere OnlyFunctions (exQ t kvs) :=
  exEverywhere t (exKvs kvs h) (by simp [exFilter]) (by simp) (by simp) (by simp [exColumn]) (by simp) (by simp) (by simp) (by simp) (by simp) (by simp)

private theorem exNoNans (t : Datetime) (kvs : List (Str × Data)) (h : kvs = exA ∨ kvs = exB) : Everywhere NoNans (exQ t kvs) :=
  exEverywhere t (exKvs kvs h) (by simp [exFilter, ownSamples, ownEntities]) (by simp [ownSamples, ownEntities]) (by simp [ownSamples, ownEntities])
    (by simp [exColumn, ownSamples, ownEntities]) (by simp [ownSamples, ownEntities]) (by simp [ownSamples, ownEntities])
    (by simp [ownSamples, ownEntities]) (by simp [ownSamples, ownEntities]) (by simp [ownSamples, ownEntities]) (by simp [ownSamples, ownEntities])

private theorem exKeyed (t : Datetime) (kvs : List (Str × Data)) (h : kvs = exA ∨ kvs = exB) : ∀ x ∈ fieldsOf (exQ t kvs), Keyed x := by
  intro x hx ks hks
  simp only [fieldsOf, exQ, List.mem_cons, List.not_mem_nil, or_false] at hx
  have none : ∀ {x : MVal}, InObject x (.dict ks) → (∀ xs, ¬ MSeq x xs) → (∀ d, x ≠ .data d) → (∀ n p a f g, x ≠ .formula n p a f g) → False := by
    intro x hk h1 h2 h3
    cases hk with
    | item _ _ _ _ hs => exact h1 _ hs
    | params => exact h3 _ _ _ _ _ rfl
    | data => exact h2 _ rfl
  rcases hx with rfl | rfl | rfl | rfl | rfl | rfl | rfl | rfl | rfl
  · cases hks with
    | item _ _ _ _ hs => cases hs
    | params _ _ _ _ _ _ hp =>
      cases hp with
      | item _ _ x _ hs hx hv =>
        cases hs
        simp only [List.mem_cons, List.not_mem_nil, or_false] at hx
        rcases hx with rfl | rfl <;>
          exact (none hv (by rintro _ ⟨⟩) (by rintro _ ⟨⟩) (by rintro _ _ _ _ _ ⟨⟩)).elim
  rotate_left 7
  · cases hks with
    | item _ _ _ _ hs => cases hs
    | data _ _ hd =>
      cases hd with
      | self => rcases h with rfl | rfl <;> decide
      | entry _ k x _ hx hv =>
        obtain ⟨i, rfl⟩ := exKvs kvs h k x hx
        cases hv
  all_goals exact (none hks (by rintro _ ⟨⟩) (by rintro _ ⟨⟩) (by rintro _ _ _ _ _ ⟨⟩)).elim

private theorem exOrdinarily (t : Datetime) (kvs : List (Str × Data)) : Ordinarily (exQ t kvs) := by
  have plain : ∀ v : Val, ¬ Disguised v → ownSamples v = [] → (∀ t, v ≠ .datetime t) →
      (¬ Disguised v ∧ (∀ f ∈ ownSamples v, ¬ IsZero f) ∧ ∀ t, v = .datetime t → t.tz ≠ some none) :=
    fun v h1 h2 h3 => ⟨h1, by simp [h2], fun t e => (h3 t e).elim⟩
  have int : ∀ i, Ordinary (.int i) := fun i => ordinary_of (by rintro ⟨⟩) rfl (by rintro t ⟨⟩) (by intro x hx; cases hx)
  have ints : ∀ i, Ordinary (.list [.int i]) := by
    intro i
    refine ordinary_of (by rintro ⟨⟩) rfl (by rintro t ⟨⟩) fun x hx => ?_
    simp only [Val.children, List.mem_cons, List.not_mem_nil, or_false] at hx
    subst hx; exact int i
  refine ⟨exAll ?_ ?_ ?_ ?_ ?_ ?_ ?_ ?_, ?_, ?_, ?_⟩
  · exact plain _ (by rintro ⟨⟩) rfl (by rintro t ⟨⟩)
  · exact fun _ _ => plain _ (by rintro ⟨⟩) rfl (by rintro t ⟨⟩)
  · exact fun _ _ _ => plain _ (by rintro ⟨⟩) rfl (by rintro t ⟨⟩)
  · exact fun _ => plain _ (by rintro ⟨⟩) rfl (by rintro t ⟨⟩)
  · exact fun _ => plain _ (by rintro ⟨⟩) rfl (by rintro t ⟨⟩)
  · exact plain _ (by rintro ⟨⟩) rfl (by rintro t ⟨⟩)
  · exact fun _ => plain _ (by rintro ⟨⟩) rfl (by rintro t ⟨⟩)
  · exact plain _ (by rintro ⟨⟩) rfl (by rintro t ⟨⟩)
  · refine .formula _ _ _ _ _ (.str _) (by rintro v ⟨⟩) ?_ (by rintro k xs ⟨⟩)
    rintro xs ⟨⟩ x hx
    simp only [List.mem_cons, List.not_mem_nil, or_false] at hx
    rcases hx with rfl | rfl
    · exact .ts _ (.str _)
    · exact .val _ (.int _)
  · rintro r ⟨⟩
    exact ⟨int _, int _, .none⟩
  · rintro s ⟨⟩
    exact ⟨ints _, ints _⟩

example : (exQ exTwo exA).pyEq (exQ exTwo exA) = true := C73_reflexive _ (exNoNans _ _ (.inl rfl)) (exKeyed _ _ (.inl rfl))

example : (exQ exTwo exA).pyEq (exQ exTwelve exB) = (exQ exTwelve exB).pyEq (exQ exTwo exA) :=
  C73_symmetric _ _ (exKeyed _ _ (.inl rfl)) (exKeyed _ _ (.inr rfl))

example : (exQ exTwo exA).pyEq (exQ exTwelve exA) = true :=
  C73_transitive _ (exQ exTwelve exB) _ (.inl (exOnly _ _ (.inr rfl))) (by decide +kernel) (by decide +kernel)

/-- The text that is sent of a query. -/
private def exText (d : Except Err Data) : Option Str :=
  match d with
  | .ok (.dict ((_, .val (.str s)) :: _)) => some s
  | _ => none

private theorem exSent (t : Datetime) (kvs : List (Str × Data)) :
    exText (exQ t kvs).serialize.1 = some c!"(sum(d:t/d@ms) by (env) * 2){env:[\"a\", \"b\"]}" := by
  simp only [MetricsQueryObj.serialize]
  rfl

/-- The same instant in two time zones, and the mappings in two orders: the queries are equal, and what is sent is the same. -/
example : ∃ d e, (exQ exTwo exA).serialize.1 = .ok d ∧ (exQ exTwelve exB).serialize.1 = .ok e ∧ SameSent d e := by
  obtain ⟨d, hd⟩ : ∃ d, (exQ exTwo exA).serialize.1 = .ok d := ⟨_, rfl⟩
  obtain ⟨e, he⟩ : ∃ d, (exQ exTwelve exB).serialize.1 = .ok d := ⟨_, rfl⟩
  exact ⟨d, e, hd, he, (C73_interchangeable _ _ (by decide +kernel) (exOrdinarily _ _) (exOrdinarily _ _)
    (.inr ⟨exNoAliases _ _ (.inl rfl), exNoAliases _ _ (.inr rfl)⟩)).2.2.1 d e hd he⟩

/-- After it was sent, a query need not be equal to its former self: its filters were rewritten. -/
example : (exQ exTwo exA).pyEq (exQ exTwo exA) = true ∧ (exQ exTwo exA).serialize.2.pyEq (exQ exTwo exA) = false := by decide +kernel

/-- The number one and the float 1.0 are equal and are written as different texts. -/
example : ∃ q r : MetricsQueryObj, q.pyEq r = true ∧ q.validate = .ok () ∧ r.validate = .ok () ∧ exText q.serialize.1 ≠ exText r.serialize.1 :=
  ⟨{ exQ exTwo exA with query := .formula (.str c!"multiply") (.list [.ts exTs, .val (.int 1)]) .none .none .none },
    { exQ exTwo exA with query := .formula (.str c!"multiply") (.list [.ts exTs, .val (.float (ofDecimal false 1 0))]) .none .none .none },
    by decide +kernel⟩

example : (MVal.metric ⟨.none, .str c!"d:t/d@ms", .int 1⟩).hashTree = (MVal.metric ⟨.none, .str c!"d:t/d@ms", .bool true⟩).hashTree := by
  refine (C73_equal_hashes _ _ (by decide +kernel) (.inr ⟨?_, ?_⟩)).1 <;>
  · intro v hv
    cases hv with
    | metric _ _ hm =>
      simp only [List.mem_cons, List.not_mem_nil, or_false] at hm
      rcases hm with rfl | rfl | rfl <;> exact exPart (by simp) fun x hx => by simp [Val.children] at hx
    | item _ _ _ _ hs => cases hs

example : (MVal.formula (.str c!"plus") (.tuple [.ts exTs, .val (.int 1)]) .none .none .none).hashTree = .error .typeError :=
  C73_formula_unhashable _ _ _ _ _ (by decide +kernel)

end Examples

end Verif
