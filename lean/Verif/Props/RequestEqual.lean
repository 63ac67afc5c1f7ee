import Verif.Lemmas.RequestEqual
import Verif.Props.RequestJson
import Verif.Props.Total

/-!
# C74: equality of requests
-/

namespace Verif
open Spec

/-! ### The laws -/

theorem anyQuery_refl {q : AnyQuery} (h : QueryAll NoNans q) (hk : QueryKeyed q) : q.pyEq q = true := by
  cases q with
  | snql q => exact query_refl q h
  | metrics q =>
    have key : ∀ x ∈ fieldsOf q, x.pyEq x = true := fun x hx => mval_refl x (h x hx) (hk x hx)
    exact fields_iff.2 ⟨key _ (by simp [fieldsOf]), key _ (by simp [fieldsOf]), key _ (by simp [fieldsOf]), key _ (by simp [fieldsOf]),
      key _ (by simp [fieldsOf]), key _ (by simp [fieldsOf]), key _ (by simp [fieldsOf]), key _ (by simp [fieldsOf]), key _ (by simp [fieldsOf])⟩
  | delete q =>
    simp only [AnyQuery.pyEq, DeleteObj.pyEq, Bool.and_eq_true]
    exact ⟨data_refl _ h.1 hk.1, data_refl _ h.2 hk.2⟩

theorem anyQuery_symm {q r : AnyQuery} (hq : QueryKeyed q) (hr : QueryKeyed r) (h : q.pyEq r = true) : r.pyEq q = true := by
  cases q <;> cases r <;> first | exact Bool.noConfusion h | skip
  · exact query_symm h
  · rename_i q r
    have key : ∀ x ∈ fieldsOf q, ∀ y ∈ fieldsOf r, x.pyEq y = true → y.pyEq x = true := fun x hx y hy => mval_symm x y (hq x hx) (hr y hy)
    have f := fields_iff.1 h
    refine fields_iff.2 ⟨key _ ?_ _ ?_ f.query, key _ ?_ _ ?_ f.start, key _ ?_ _ ?_ f.end_, key _ ?_ _ ?_ f.rollup, key _ ?_ _ ?_ f.scope,
      key _ ?_ _ ?_ f.limit, key _ ?_ _ ?_ f.offset, key _ ?_ _ ?_ f.extrapolate, key _ ?_ _ ?_ f.mappings⟩ <;> simp [fieldsOf]
  · simp only [AnyQuery.pyEq, DeleteObj.pyEq, Bool.and_eq_true] at h ⊢
    exact ⟨data_symm _ _ hq.1 hr.1 h.1, data_symm _ _ hq.2 hr.2 h.2⟩

theorem flags_symm {f g : Option FlagsObj} (h : optEq FlagsObj.pyEq f g = true) : optEq FlagsObj.pyEq g f = true := by
  cases f <;> cases g <;> first
    | exact Bool.noConfusion h
    | rfl
    | skip
  simp only [optEq, FlagsObj.pyEq, Bool.and_eq_true] at h ⊢
  obtain ⟨⟨⟨⟨⟨h1, h2⟩, h3⟩, h4⟩, h5⟩, h6⟩ := h
  exact ⟨⟨⟨⟨⟨pyEq_symm _ _ h1, pyEq_symm _ _ h2⟩, pyEq_symm _ _ h3⟩, pyEq_symm _ _ h4⟩, pyEq_symm _ _ h5⟩, pyEq_symm _ _ h6⟩

/-- **C74.** Every request without NaN is equal to itself. -/
theorem C74_reflexive (r : RequestObj) (h : RequestAll NoNans r) (hk : RequestKeyed r) : r.pyEq r = true := by
  have key : ∀ d ∈ otherFields r, d.pyEq d = true := fun d hd => data_refl d (h.fields d hd) (hk.fields d hd)
  have hf : optEq FlagsObj.pyEq r.flags r.flags = true := by
    have hf := h.flags
    revert hf
    cases r.flags with
    | none => intro _; rfl
    | some f =>
      intro hf
      have key : ∀ v ∈ flagValues f, Verif.pyEq v v = true := fun v hv => pyEq_refl v (hf f rfl v hv)
      simp only [flagValues, List.mem_cons, List.not_mem_nil, or_false, forall_eq_or_imp, forall_eq] at key
      simp only [optEq, FlagsObj.pyEq, key, Bool.and_self]
  exact request_iff.2 ⟨key _ (by simp [otherFields]), key _ (by simp [otherFields]), anyQuery_refl h.query hk.query, hf,
    key _ (by simp [otherFields]), key _ (by simp [otherFields])⟩

theorem request_symm {a b : RequestObj} (ha : RequestKeyed a) (hb : RequestKeyed b) (h : a.pyEq b = true) : b.pyEq a = true := by
  have f := request_iff.1 h
  have key : ∀ x ∈ otherFields a, ∀ y ∈ otherFields b, x.pyEq y = true → y.pyEq x = true := fun x hx y hy =>
    data_symm x y (ha.fields x hx) (hb.fields y hy)
  refine request_iff.2 ⟨key _ ?_ _ ?_ f.dataset, key _ ?_ _ ?_ f.appId, anyQuery_symm ha.query hb.query f.query, flags_symm f.flags,
    key _ ?_ _ ?_ f.parentApi, key _ ?_ _ ?_ f.tenantIds⟩ <;> simp [otherFields]

/-- **C74.** Equality of requests does not depend on the order. -/
theorem C74_symmetric (a b : RequestObj) (ha : RequestKeyed a) (hb : RequestKeyed b) : a.pyEq b = b.pyEq a := by
  cases h : a.pyEq b
  · cases h' : b.pyEq a
    · rfl
    · rw [request_symm hb ha h'] at h; exact h.symm
  · exact (request_symm ha hb h).symm

theorem anyQuery_trans {q r s : AnyQuery} (hf : QueryAll OnlyFunctions r ∨ (QueryAll NoAliases q ∧ QueryAll NoAliases s))
    (h : q.pyEq r = true) (h' : r.pyEq s = true) : q.pyEq s = true := by
  cases q <;> cases r <;> first | exact Bool.noConfusion h | skip
  all_goals cases s <;> first | exact Bool.noConfusion h' | skip
  · exact query_trans hf h h'
  · rename_i q r s
    have key : ∀ x ∈ fieldsOf q, ∀ y ∈ fieldsOf r, ∀ z ∈ fieldsOf s, x.pyEq y = true → y.pyEq z = true → x.pyEq z = true := by
      intro x hx y hy z hz
      refine mval_trans y x z ?_
      rcases hf with hf | hf
      · exact .inl (hf y hy)
      · exact .inr ⟨hf.1 x hx, hf.2 z hz⟩
    have f := fields_iff.1 h
    have g := fields_iff.1 h'
    refine fields_iff.2 ⟨key _ ?_ _ ?_ _ ?_ f.query g.query, key _ ?_ _ ?_ _ ?_ f.start g.start, key _ ?_ _ ?_ _ ?_ f.end_ g.end_,
      key _ ?_ _ ?_ _ ?_ f.rollup g.rollup, key _ ?_ _ ?_ _ ?_ f.scope g.scope, key _ ?_ _ ?_ _ ?_ f.limit g.limit,
      key _ ?_ _ ?_ _ ?_ f.offset g.offset, key _ ?_ _ ?_ _ ?_ f.extrapolate g.extrapolate, key _ ?_ _ ?_ _ ?_ f.mappings g.mappings⟩ <;>
      simp [fieldsOf]
  · simp only [AnyQuery.pyEq, DeleteObj.pyEq, Bool.and_eq_true] at h h' ⊢
    refine ⟨data_trans _ _ _ ?_ h.1 h'.1, data_trans _ _ _ ?_ h.2 h'.2⟩
    · exact hf.imp (·.1) fun h => ⟨h.1.1, h.2.1⟩
    · exact hf.imp (·.2) fun h => ⟨h.1.2, h.2.2⟩

/-- **C74.** Two requests that are equal to a third one are equal, if no function in the third is a `CurriedFunction`, or if no function in
the two has an alias. -/
theorem C74_transitive (a b c : RequestObj) (hf : RequestAll OnlyFunctions b ∨ (RequestAll NoAliases a ∧ RequestAll NoAliases c))
    (h : a.pyEq b = true) (h' : b.pyEq c = true) : a.pyEq c = true := by
  have f := request_iff.1 h
  have g := request_iff.1 h'
  have key : ∀ x ∈ otherFields a, ∀ y ∈ otherFields b, ∀ z ∈ otherFields c, x.pyEq y = true → y.pyEq z = true → x.pyEq z = true := by
    intro x hx y hy z hz
    refine data_trans y x z ?_
    rcases hf with hf | hf
    · exact .inl (hf.fields y hy)
    · exact .inr ⟨hf.1.fields x hx, hf.2.fields z hz⟩
  have hq : a.query.pyEq c.query = true := by
    refine anyQuery_trans ?_ f.query g.query
    exact hf.imp (·.query) fun h => ⟨h.1.query, h.2.query⟩
  have hfl : optEq FlagsObj.pyEq a.flags c.flags = true := by
    have h1 := f.flags
    have h2 := g.flags
    have h3 : (∀ f, b.flags = some f → ∀ v ∈ flagValues f, OnlyFunctions v) ∨
        ((∀ f, a.flags = some f → ∀ v ∈ flagValues f, NoAliases v) ∧ (∀ f, c.flags = some f → ∀ v ∈ flagValues f, NoAliases v)) :=
      hf.imp (·.flags) fun h => ⟨h.1.flags, h.2.flags⟩
    revert h1 h2 h3
    cases a.flags <;> cases b.flags <;> cases c.flags <;> intro h1 h2 h3 <;> first
      | exact Bool.noConfusion h1
      | exact Bool.noConfusion h2
      | rfl
      | skip
    rename_i x y z
    have key : ∀ u ∈ flagValues x, ∀ v ∈ flagValues y, ∀ w ∈ flagValues z, Verif.pyEq u v = true → Verif.pyEq v w = true → Verif.pyEq u w = true := by
      intro u hu v hv w hw
      refine pyEq_trans_either v u w ?_
      exact h3.imp (fun h => h y rfl v hv) fun h => ⟨h.1 x rfl u hu, h.2 z rfl w hw⟩
    simp only [optEq, FlagsObj.pyEq, Bool.and_eq_true] at h1 h2 ⊢
    obtain ⟨⟨⟨⟨⟨a1, a2⟩, a3⟩, a4⟩, a5⟩, a6⟩ := h1
    obtain ⟨⟨⟨⟨⟨b1, b2⟩, b3⟩, b4⟩, b5⟩, b6⟩ := h2
    refine ⟨⟨⟨⟨⟨key _ ?_ _ ?_ _ ?_ a1 b1, key _ ?_ _ ?_ _ ?_ a2 b2⟩, key _ ?_ _ ?_ _ ?_ a3 b3⟩, key _ ?_ _ ?_ _ ?_ a4 b4⟩,
      key _ ?_ _ ?_ _ ?_ a5 b5⟩, key _ ?_ _ ?_ _ ?_ a6 b6⟩ <;> simp [flagValues]
  refine request_iff.2 ⟨key _ ?_ _ ?_ _ ?_ f.dataset g.dataset, key _ ?_ _ ?_ _ ?_ f.appId g.appId, hq, hfl,
    key _ ?_ _ ?_ _ ?_ f.parentApi g.parentApi, key _ ?_ _ ?_ _ ?_ f.tenantIds g.tenantIds⟩ <;> simp [otherFields]

section
variable [U : PyUnicode] [S : RegexSpace] [R : PyRepr]

omit R in
/-- **C74** (validation). Equal requests are both valid or neither is, and if they are not deletions, both are rejected with the same error.
The provisos for the queries are those of C70 and C73 (none for deletions), and no flag may be a number, which could be equal to a bool. -/
theorem C74_validate (a b : RequestObj) (h : a.pyEq b = true) (hc : Comparable a.query b.query) (ha : RequestKeyed a) (hb : RequestKeyed b)
    (fa : FlagsApart a) (fb : FlagsApart b) :
    (a.validate = .ok () ↔ b.validate = .ok ()) ∧ ((∀ d, a.query ≠ .delete d) → a.validate = b.validate) :=
  request_valid ⟨request_iff.1 h, hc, ha, hb, fa, fb⟩

/-- **C74** (what is sent). Equal requests are both sent or both fail, if they are not deletions with the same error. In the two texts a reader of
JSON finds payloads that say the same: the same keys, under every key equal values (for SnQL and MQL the very same text of the query), and
for metrics queries contexts that say the same. Afterwards the two requests are equal again. -/
theorem C74_interchangeable (a b : RequestObj) (h : a.pyEq b = true) (hc : Comparable a.query b.query) (ha : RequestKeyed a) (hb : RequestKeyed b)
    (fa : FlagsApart a) (fb : FlagsApart b) :
    ((∃ t, a.serialize = .ok t) ↔ ∃ t, b.serialize = .ok t) ∧
    ((∀ d, a.query ≠ .delete d) → ∀ e, a.serialize = .error e ↔ b.serialize = .error e) ∧
    (∀ t t', a.serialize = .ok t → b.serialize = .ok t' → ∃ kvs kvs' j j', SamePayload kvs kvs' ∧ StandsFor (.dict kvs) j ∧
      StandsFor (.dict kvs') j' ∧ readJsonText true t = some j ∧ readJsonText true t' = some j') ∧
    a.toDict.2.pyEq b.toDict.2 = true := by
  obtain ⟨h1, h2, h3, h4⟩ := toDict_same ⟨request_iff.1 h, hc, ha, hb, fa, fb⟩
  have hj : ∀ {d e}, a.toDict.1 = .ok d → b.toDict.1 = .ok e → ((∃ j, d.toJson = .ok j) ↔ ∃ j, e.toJson = .ok j) := by
    intro d e hd he
    obtain ⟨_, _, _, _, _, hj⟩ := h2 d e hd he
    exact hj
  have hs : ∀ r : RequestObj, r.serialize = (r.toDict.1 >>= jsonDumps) := fun _ => rfl
  refine ⟨?_, ?_, ?_, h4⟩
  · simp only [hs, jsonDumps, bind_eq_ok]
    constructor
    · rintro ⟨t, d, hd, j, hj', _⟩
      obtain ⟨e, he⟩ := h1.1 ⟨d, hd⟩
      obtain ⟨j', hj'⟩ := (hj hd he).1 ⟨j, hj'⟩
      exact ⟨_, e, he, j', hj', rfl⟩
    · rintro ⟨t, e, he, j, hj', _⟩
      obtain ⟨d, hd⟩ := h1.2 ⟨e, he⟩
      obtain ⟨j', hj'⟩ := (hj hd he).2 ⟨j, hj'⟩
      exact ⟨_, d, hd, j', hj', rfl⟩
  · intro hn e
    have h3 := h3 hn
    rw [hs, hs]
    cases hx : a.toDict.1 with
    | error x =>
      rw [(h3 x).1 hx]
    | ok d =>
      obtain ⟨d', hd'⟩ := h1.1 ⟨d, hx⟩
      have hj := hj hx hd'
      rw [hd']
      simp only [ok_bind, jsonDumps]
      cases hd : d.toJson with
      | ok j =>
        obtain ⟨j', hj'⟩ := hj.1 ⟨j, hd⟩
        simp [hj']
      | error x =>
        cases he : d'.toJson with
        | ok j' =>
          obtain ⟨j, hj⟩ := hj.2 ⟨j', he⟩
          rw [hd] at hj; cases hj
        | error y => rw [Data.toJson_error d hd, Data.toJson_error d' he]
  · intro t t' ht ht'
    obtain ⟨d, j, hd, sj, rj, _⟩ := C46_decodes a t ht
    obtain ⟨d', j', hd', sj', rj', _⟩ := C46_decodes b t' ht'
    obtain ⟨kvs, kvs', rfl, rfl, hp, _⟩ := h2 d d' hd hd'
    exact ⟨kvs, kvs', j, j', hp, sj, sj', rj, rj'⟩

end

section Examples

attribute [local instance] asciiUnicode pySpace
@[local instance] private def exPlainRepr : PyRepr := ⟨fun _ => []⟩

/-- 14:00+02:00 and 12:00 UTC on the same day. -/
private def exTwo : Datetime := ⟨⟨2024, 2, 29, rfl⟩, 14, 0, 0, 0, some (some 7200000000), rfl⟩
private def exTwelve : Datetime := ⟨⟨2024, 2, 29, rfl⟩, 12, 0, 0, 0, some (some 0), rfl⟩

/-- A deletion with its conditions and tenants in one order, and in another one with `True` for 1. -/
private def exDeleteA : RequestObj :=
  { dataset := .val (.str c!"events"), appId := .val (.str c!"app"), flags := some { debug := .bool true }
    query := .delete ⟨.val (.str c!"search"), .dict [(c!"a", .val (.list [.int 1])), (c!"b", .val (.list [.str c!"x"]))]⟩
    tenantIds := .dict [(c!"org", .val (.int 1)), (c!"use", .val (.str c!"y"))] }
private def exDeleteB : RequestObj :=
  { dataset := .val (.str c!"events"), appId := .val (.str c!"app"), flags := some { debug := .bool true }
    query := .delete ⟨.val (.str c!"search"), .dict [(c!"b", .val (.list [.str c!"x"])), (c!"a", .val (.list [.bool true]))]⟩
    tenantIds := .dict [(c!"use", .val (.str c!"y")), (c!"org", .val (.bool true))] }

/-- A metrics query from a moment. -/
private def exZoneQuery (t : Datetime) : MetricsQueryObj :=
  { query := .val (.str c!"sum(d:t/d@ms) * 2"), start := .val (.datetime t), end_ := .val (.datetime ⟨⟨2024, 3, 1, rfl⟩, 0, 0, 0, 0, none, rfl⟩)
    rollup := .rollup ⟨.int 60, .none, .none, .int 60⟩, scope := .scope ⟨.list [.int 1], .list [.int 11], .str c!"transactions"⟩
    indexerMappings := .data (.dict []) }

private def exMetrics (t : Datetime) : RequestObj :=
  { dataset := .val (.str c!"metrics"), appId := .val (.str c!"app"), query := .metrics (exZoneQuery t) }

private theorem exLeaf {Q : Val → Prop} {v : Val} (hc : v.children = []) (h : Q v) : ∀ y, Part y v → Q y := by
  intro y hy
  rcases part_iff.1 hy with rfl | ⟨x, hx, _⟩
  · exact h
  · rw [hc] at hx; cases hx

private theorem exSingle {Q : Val → Prop} {v : Val} (hc : v.children = []) (h : Q v) (h' : Q (.list [v])) : ∀ y, Part y (.list [v]) → Q y := by
  intro y hy
  rcases part_iff.1 hy with rfl | ⟨x, hx, hy⟩
  · exact h'
  · simp only [Val.children, List.mem_cons, List.not_mem_nil, or_false] at hx
    subst hx; exact exLeaf hc h y ‹Part y x›

private theorem exVal {P : Val → Prop} {v : Val} (h : P v) : DataAll P (.val v) := by
  intro w hw; cases hw; exact h

private theorem exPair {P : Val → Prop} {j k : Str} {v w : Val} (h : P v) (h' : P w) : DataAll P (.dict [(j, .val v), (k, .val w)]) := by
  intro u hu
  cases hu with
  | entry _ _ _ _ hx hv =>
    simp only [List.mem_cons, List.not_mem_nil, or_false, Prod.mk.injEq] at hx
    rcases hx with ⟨_, rfl⟩ | ⟨_, rfl⟩ <;> cases hv <;> assumption

private theorem exOnce {j k : Str} {v w : Val} (h : j ≠ k) : KeysOnce (.dict [(j, .val v), (k, .val w)]) := by
  intro kvs hk
  cases hk with
  | self => simpa using h
  | entry _ _ _ _ hx hv =>
    simp only [List.mem_cons, List.not_mem_nil, or_false, Prod.mk.injEq] at hx
    rcases hx with ⟨_, rfl⟩ | ⟨_, rfl⟩ <;> cases hv

private theorem exAllA {Q : Val → Prop} (h1 : ∀ s, Q (.str s)) (h2 : ∀ i, Q (.int i)) (h3 : ∀ b, Q (.bool b)) (h4 : Q .none)
    (h5 : ∀ v, Q (.list [v])) : RequestAll (fun v => ∀ y, Part y v → Q y) exDeleteA := by
  refine ⟨fun d hd => ?_, fun f hf v hv => ?_, exVal (exLeaf rfl (h1 _)), exPair (exSingle rfl (h2 _) (h5 _)) (exSingle rfl (h1 _) (h5 _))⟩
  · simp only [otherFields, exDeleteA, List.mem_cons, List.not_mem_nil, or_false] at hd
    rcases hd with rfl | rfl | rfl | rfl
    · exact exVal (exLeaf rfl (h1 _))
    · exact exVal (exLeaf rfl (h1 _))
    · exact exVal (exLeaf rfl (h1 _))
    · exact exPair (exLeaf rfl (h2 _)) (exLeaf rfl (h1 _))
  · cases hf
    simp only [flagValues, List.mem_cons, List.not_mem_nil, or_false] at hv
    rcases hv with rfl | rfl | rfl | rfl | rfl | rfl <;> first | exact exLeaf rfl (h3 _) | exact exLeaf rfl h4

private theorem exKeyedA : RequestKeyed exDeleteA := by
  refine ⟨fun d hd => ?_, keysOnce_val _, exOnce (by decide)⟩
  simp only [otherFields, exDeleteA, List.mem_cons, List.not_mem_nil, or_false] at hd
  rcases hd with rfl | rfl | rfl | rfl <;> first | exact keysOnce_val _ | exact exOnce (by decide)

private theorem exKeyedB : RequestKeyed exDeleteB := by
  refine ⟨fun d hd => ?_, keysOnce_val _, exOnce (by decide)⟩
  simp only [otherFields, exDeleteB, List.mem_cons, List.not_mem_nil, or_false] at hd
  rcases hd with rfl | rfl | rfl | rfl <;> first | exact keysOnce_val _ | exact exOnce (by decide)

private theorem exApart (r : RequestObj) (h : ∀ f, r.flags = some f → ∀ v ∈ flagValues f, Switch v) : FlagsApart r := by
  intro f hf v hv
  cases h f hf v hv <;> exact ⟨nofun, nofun⟩

private theorem exApartA : FlagsApart exDeleteA := by
  refine exApart _ fun f hf v hv => ?_
  cases hf
  simp only [flagValues, List.mem_cons, List.not_mem_nil, or_false] at hv
  rcases hv with rfl | rfl | rfl | rfl | rfl | rfl <;> first | exact .none | exact .bool _

private theorem exApartB : FlagsApart exDeleteB := by
  refine exApart _ fun f hf v hv => ?_
  cases hf
  simp only [flagValues, List.mem_cons, List.not_mem_nil, or_false] at hv
  rcases hv with rfl | rfl | rfl | rfl | rfl | rfl <;> first | exact .none | exact .bool _

private theorem exApartM (t : Datetime) : FlagsApart (exMetrics t) := by
  refine exApart _ fun f hf v hv => ?_
  cases hf
  simp only [flagValues, List.mem_cons, List.not_mem_nil, or_false] at hv
  rcases hv with rfl | rfl | rfl | rfl | rfl | rfl <;> exact .none

example : exDeleteA.pyEq exDeleteA = true :=
  C74_reflexive _ (exAllA (by simp [ownSamples, ownEntities]) (by simp [ownSamples, ownEntities]) (by simp [ownSamples, ownEntities])
    (by simp [ownSamples, ownEntities]) (by simp [ownSamples, ownEntities])) exKeyedA

example : exDeleteA.pyEq exDeleteB = exDeleteB.pyEq exDeleteA := C74_symmetric _ _ exKeyedA exKeyedB

example : exDeleteB.pyEq { exDeleteB with flags := some { debug := .int 1 } } = true :=
  C74_transitive _ exDeleteA _ (.inl (exAllA (by simp) (by simp) (by simp) (by simp) (by simp))) (by decide +kernel) (by decide +kernel)

/-- The two deletions are sent as different texts, in which the same is found. -/
example : exDeleteA.serialize ≠ exDeleteB.serialize ∧ ∃ t t' kvs kvs' j j', exDeleteA.serialize = .ok t ∧ exDeleteB.serialize = .ok t' ∧
    SamePayload kvs kvs' ∧ StandsFor (.dict kvs) j ∧ StandsFor (.dict kvs') j' ∧ readJsonText true t = some j ∧ readJsonText true t' = some j' := by
  obtain ⟨t, ht⟩ : ∃ t, exDeleteA.serialize = .ok t := ⟨_, rfl⟩
  obtain ⟨t', ht'⟩ : ∃ t, exDeleteB.serialize = .ok t := ⟨_, rfl⟩
  obtain ⟨kvs, kvs', j, j', h⟩ := (C74_interchangeable exDeleteA exDeleteB (by decide +kernel) trivial exKeyedA exKeyedB exApartA exApartB).2.2.1
    t t' ht ht'
  exact ⟨fun h => absurd h (by decide +kernel), t, t', kvs, kvs', j, j', ht, ht', h⟩

example : exDeleteA.validate = .ok () ↔ exDeleteB.validate = .ok () :=
  (C74_validate exDeleteA exDeleteB (by decide +kernel) trivial exKeyedA exKeyedB exApartA exApartB).1

private theorem exMetricsAll {Q : Val → Prop} (t : Datetime) (h1 : ∀ s, Q (.str s)) (h2 : ∀ i, Q (.int i)) (h3 : ∀ t, Q (.datetime t)) (h4 : Q .none)
    (h5 : ∀ v, Q (.list [v])) : Everywhere (fun v => ∀ y, Part y v → Q y) (exZoneQuery t) := by
  have val : ∀ v : Val, v.children = [] → Q v → Entirely (fun v => ∀ y, Part y v → Q y) (.val v) := by
    intro v hc h w hw
    cases hw with
    | val => exact exLeaf hc h
    | item _ _ _ _ hs => cases hs
  intro x hx
  simp only [fieldsOf, exZoneQuery, List.mem_cons, List.not_mem_nil, or_false] at hx
  rcases hx with rfl | rfl | rfl | rfl | rfl | rfl | rfl | rfl | rfl <;> first
    | exact val _ rfl (h1 _)
    | exact val _ rfl (h3 _)
    | exact val _ rfl h4
    | skip
  · intro v hv
    cases hv with
    | rollup _ _ hm =>
      simp only [List.mem_cons, List.not_mem_nil, or_false] at hm
      rcases hm with rfl | rfl | rfl | rfl <;> first | exact exLeaf rfl h4 | exact exLeaf rfl (h2 _)
    | item _ _ _ _ hs => cases hs
  · intro v hv
    cases hv with
    | scope _ _ hm =>
      simp only [List.mem_cons, List.not_mem_nil, or_false] at hm
      rcases hm with rfl | rfl | rfl <;> first | exact exSingle rfl (h2 _) (h5 _) | exact exLeaf rfl (h1 _)
    | item _ _ _ _ hs => cases hs
  · intro v hv
    cases hv with
    | data _ _ hd => cases hd with
      | entry _ _ _ _ hx => cases hx
    | item _ _ _ _ hs => cases hs

private theorem exMetricsKeyed (t : Datetime) : RequestKeyed (exMetrics t) := by
  refine ⟨fun d hd => ?_, fun x hx kvs hk => ?_⟩
  · simp only [otherFields, exMetrics, List.mem_cons, List.not_mem_nil, or_false] at hd
    rcases hd with rfl | rfl | rfl | rfl <;> try exact keysOnce_val _
    intro kvs hk
    cases hk with
    | self => simp
    | entry _ _ _ _ hx => cases hx
  · simp only [fieldsOf, exZoneQuery, List.mem_cons, List.not_mem_nil, or_false] at hx
    have none : ∀ {x : MVal}, InObject x (.dict kvs) → (∀ xs, ¬ MSeq x xs) → (∀ d, x ≠ .data d) → (∀ n p a f g, x ≠ .formula n p a f g) → False := by
      intro x hk h1 h2 h3
      cases hk with
      | item _ _ _ _ hs => exact h1 _ hs
      | params => exact h3 _ _ _ _ _ rfl
      | data => exact h2 _ rfl
    rcases hx with rfl | rfl | rfl | rfl | rfl | rfl | rfl | rfl | rfl <;> first
      | (refine (none hk ?_ ?_ ?_).elim; rintro _ ⟨⟩; rintro _ ⟨⟩; rintro _ _ _ _ _ ⟨⟩; done)
      | skip
    cases hk with
    | data _ _ hd => cases hd with
      | self => simp
      | entry _ _ _ _ hx => cases hx
    | item _ _ _ _ hs => cases hs

private theorem exMetricsOrdinarily (t : Datetime) : Ordinarily (exZoneQuery t) := by
  have leaf : ∀ v : Val, v.children = [] → ¬ Disguised v → ownSamples v = [] → (∀ t, v ≠ .datetime t) → Ordinary v := fun v hc h1 h2 h3 =>
    ordinary_of h1 h2 h3 (by rw [hc]; simp)
  have ints : ∀ i, Ordinary (.list [.int i]) := by
    intro i
    refine ordinary_of (by rintro ⟨⟩) rfl (by rintro t ⟨⟩) fun x hx => ?_
    simp only [Val.children, List.mem_cons, List.not_mem_nil, or_false] at hx
    subst hx; exact leaf _ rfl (by rintro ⟨⟩) rfl (by rintro t ⟨⟩)
  refine ⟨?_, .val _ (.str _), ?_, ?_⟩
  · intro v hv
    cases hv with
    | val => exact leaf _ rfl (by rintro ⟨⟩) rfl (by rintro t ⟨⟩)
    | item _ _ _ _ hs => cases hs
  · rintro r ⟨⟩
    exact ⟨leaf _ rfl (by rintro ⟨⟩) rfl (by rintro t ⟨⟩), leaf _ rfl (by rintro ⟨⟩) rfl (by rintro t ⟨⟩), .none⟩
  · rintro s ⟨⟩
    exact ⟨ints _, ints _⟩

/-- Metrics requests with the start in two time zones: both are sent, and the same is found in the texts. -/
example : ∃ t t' kvs kvs' j j', (exMetrics exTwo).serialize = .ok t ∧ (exMetrics exTwelve).serialize = .ok t' ∧
    SamePayload kvs kvs' ∧ StandsFor (.dict kvs) j ∧ StandsFor (.dict kvs') j' ∧ readJsonText true t = some j ∧ readJsonText true t' = some j' := by
  have key := C74_interchangeable (exMetrics exTwo) (exMetrics exTwelve) (by decide +kernel)
    ⟨exMetricsOrdinarily _, exMetricsOrdinarily _, .inl ⟨exMetricsAll _ (by simp) (by simp) (by simp) (by simp) (by simp),
      exMetricsAll _ (by simp) (by simp) (by simp) (by simp) (by simp)⟩⟩ (exMetricsKeyed _) (exMetricsKeyed _) (exApartM _) (exApartM _)
  obtain ⟨t, ht⟩ : ∃ t, (exMetrics exTwo).serialize = .ok t := ⟨_, rfl⟩
  obtain ⟨t', ht'⟩ := key.1.1 ⟨t, ht⟩
  obtain ⟨kvs, kvs', j, j', h⟩ := key.2.2.1 t t' ht ht'
  exact ⟨t, t', kvs, kvs', j, j', ht, ht', h⟩

/-- Two equal deletions that are rejected with different errors: which condition is looked at first depends on the order. -/
theorem C74_deletion_errors_differ : ∃ a b : RequestObj, a.pyEq b = true ∧ RequestKeyed a ∧ RequestKeyed b ∧
    a.validate = .error .invalidDelete ∧ b.validate = .error .typeError := by
  refine ⟨{ exDeleteA with query := .delete ⟨.val (.str c!"s"), .dict [(c!"a", .val (.list [])), (c!"b", .val (.int 5))]⟩ },
    { exDeleteA with query := .delete ⟨.val (.str c!"s"), .dict [(c!"b", .val (.int 5)), (c!"a", .val (.list []))]⟩ }, by decide +kernel,
    ⟨exKeyedA.fields, keysOnce_val _, exOnce (by decide)⟩, ⟨exKeyedA.fields, keysOnce_val _, exOnce (by decide)⟩, by decide +kernel, by decide +kernel⟩

/-- Equal requests of which one is valid and the other is not: 1 is equal to `True`, but not a flag. -/
theorem C74_flags_differ : ∃ a b : RequestObj, a.pyEq b = true ∧ RequestKeyed a ∧ RequestKeyed b ∧
    a.validate = .ok () ∧ b.validate = .error .invalidFlag :=
  ⟨exDeleteA, { exDeleteA with flags := some { debug := .int 1 } }, by decide +kernel, exKeyedA, ⟨exKeyedA.fields, exKeyedA.query⟩,
    by decide +kernel, by decide +kernel⟩

end Examples

end Verif
