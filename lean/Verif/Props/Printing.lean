import Verif.Lemmas.Printing
import Verif.Props.OrOptimizer
import Verif.Props.Query

/-!
# C14, C15, C17, C19: the printed query
-/

namespace Verif
open Spec

section
variable [U : PyUnicode]

/-! ### C14 -/

/-- List clauses that will be printed are lists or tuples. -/
def Shaped (b : Body) : Prop :=
  ∀ f : Field, f.itemSep.isSome = true → (f.get b).truthy = true → NonEmptySeq (f.get b)

/-- The same at all levels. -/
def AllShaped (q : Query) : Prop := ∀ b ∈ levels q, Shaped b

theorem validated_shaped {b : Body} (h : validateClauses b = .ok ()) : Shaped b := by
  simp only [validateClauses, bind_eq_ok] at h
  obtain ⟨_, h1, _, h2, _, h3, _, h4, _, h5, _, h6, _⟩ := h
  intro f hf ht
  cases f <;> first
    | (simp [Field.itemSep] at hf; done)
    | exact listValidate_seq ‹_› ht

theorem validated_allShaped {q : Query} (h : q.validate = .ok ()) : AllShaped q := by
  induction q with
  | base m b =>
    intro b' hb
    simp only [levels, List.mem_singleton] at hb
    subst hb
    exact validated_shaped (base_validate_iff.1 h).2.1
  | nested q b ih =>
    intro b' hb
    simp only [levels, List.mem_cons] at hb
    rcases hb with rfl | hb
    · exact validated_shaped (nested_validate_iff.1 h).2.1
    · exact ih (nested_validate_iff.1 h).1 b' hb

omit U in
theorem paired_translateAll {cfg : Cfg} : ∀ {xs : List Val} {ts : List Str}, translateAll cfg xs = .ok ts →
    ClauseText.Paired' cfg xs ts
  | [], ts, h => by cases h; trivial
  | x :: xs, ts, h => by
    simp only [translateAll, bind_eq_ok] at h
    obtain ⟨t, ht, ts', hts, h⟩ := h
    cases h
    exact ⟨ht, paired_translateAll hts⟩

omit U in
theorem listClause_spec {cfg : Cfg} {f : Field} {sep c : Str} {b : Body} (hf : f.itemSep = some sep) (hs : Shaped b)
    (h : listClause cfg f.keyword sep (f.get b) = .ok c) :
    ∃ t, (f.isSet b = true → ClauseText cfg f (f.get b) t ∧ c = f.keyword ++ c!" " ++ t) ∧
      (f.isSet b = false → c = []) := by
  unfold listClause at h
  split at h
  · rename_i ht
    obtain ⟨k, xs, hx, hne⟩ := hs f (by simp [hf]) ht
    simp only [Val.iter, hx.seq, ok_bind, bind_eq_ok] at h
    obtain ⟨ts, hts, h⟩ := h
    cases h
    refine ⟨joinWith sep ts, fun _ => ⟨?_, rfl⟩, ?_⟩
    · simp only [ClauseText, hf]
      exact ⟨k, xs, ts, hx, paired_translateAll hts, rfl⟩
    · intro hset
      simp only [Field.isSet, hf] at hset
      generalize f.get b = v at hx hset
      cases hx <;> simp at hset <;> exact absurd hset hne
  · rename_i ht
    cases h
    refine ⟨[], ?_, fun _ => rfl⟩
    intro hset
    exfalso
    apply ht
    simp only [Field.isSet, hf] at hset
    generalize f.get b = v at hset
    cases v <;> simp_all [Val.truthy]

omit U in
theorem optClause_spec {cfg : Cfg} {f : Field} {c : Str} {b : Body} (hf : f.itemSep = none)
    (h : optClause cfg f.keyword (f.get b) = .ok c) :
    ∃ t, (f.isSet b = true → ClauseText cfg f (f.get b) t ∧ c = f.keyword ++ c!" " ++ t) ∧
      (f.isSet b = false → c = []) := by
  simp only [ClauseText, Field.isSet, hf]
  generalize f.get b = v at h
  by_cases hv : v = .none
  · subst hv
    simp only [optClause, Except.ok.injEq] at h
    exact ⟨[], by simp, fun _ => h.symm⟩
  · have h' : (do let t ← translate cfg v; Except.ok (f.keyword ++ [' '] ++ t)) = .ok c := by
      cases v <;> first | exact absurd rfl hv | exact h
    simp only [bind_eq_ok, Except.ok.injEq] at h'
    obtain ⟨t, ht, rfl⟩ := h'
    refine ⟨t, fun _ => ⟨ht, rfl⟩, fun hf => ?_⟩
    cases v <;> first | exact absurd rfl hv | simp at hf

omit U in
theorem bodyClauses_spec {cfg : Cfg} {b : Body} {cs : List Str} (hs : Shaped b) (h : bodyClauses cfg b = .ok cs) :
    ∃ txt : Field → Str, (∀ f : Field, f.isSet b = true → ClauseText cfg f (f.get b) (txt f)) ∧
      cs.filter (fun c => !c.isEmpty) =
        (clauseOrder.filter (·.isSet b)).map fun f => f.keyword ++ c!" " ++ txt f := by
  simp only [bodyClauses, bind_eq_ok] at h
  obtain ⟨c1, h1, c2, h2, c3, h3, c4, h4, c5, h5, c6, h6, c7, h7, c8, h8, c9, h9, c10, h10, c11, h11, h⟩ := h
  cases h
  obtain ⟨t1, p1, n1⟩ := listClause_spec (f := .select) rfl hs h1
  obtain ⟨t2, p2, n2⟩ := listClause_spec (f := .groupby) rfl hs h2
  obtain ⟨t3, p3, n3⟩ := listClause_spec (f := .arrayJoin) rfl hs h3
  obtain ⟨t4, p4, n4⟩ := listClause_spec (f := .where_) rfl hs h4
  obtain ⟨t5, p5, n5⟩ := listClause_spec (f := .having) rfl hs h5
  obtain ⟨t6, p6, n6⟩ := listClause_spec (f := .orderby) rfl hs h6
  obtain ⟨t7, p7, n7⟩ := optClause_spec (f := .limitby) rfl h7
  obtain ⟨t8, p8, n8⟩ := optClause_spec (f := .limit) rfl h8
  obtain ⟨t9, p9, n9⟩ := optClause_spec (f := .offset) rfl h9
  obtain ⟨t10, p10, n10⟩ := optClause_spec (f := .granularity) rfl h10
  obtain ⟨t11, p11, n11⟩ := optClause_spec (f := .totals) rfl h11
  let txt : Field → Str := fun
    | .select => t1 | .groupby => t2 | .arrayJoin => t3 | .where_ => t4 | .having => t5 | .orderby => t6
    | .limitby => t7 | .limit => t8 | .offset => t9 | .granularity => t10 | .totals => t11
  let cl : Field → Str := fun
    | .select => c1 | .groupby => c2 | .arrayJoin => c3 | .where_ => c4 | .having => c5 | .orderby => c6
    | .limitby => c7 | .limit => c8 | .offset => c9 | .granularity => c10 | .totals => c11
  have hp : ∀ f : Field, f.isSet b = true → ClauseText cfg f (f.get b) (txt f) ∧ cl f = f.keyword ++ c!" " ++ txt f := by
    intro f hf; cases f
    · exact p1 hf
    · exact p2 hf
    · exact p3 hf
    · exact p4 hf
    · exact p5 hf
    · exact p6 hf
    · exact p7 hf
    · exact p8 hf
    · exact p9 hf
    · exact p10 hf
    · exact p11 hf
  have hn : ∀ f : Field, f.isSet b = false → cl f = [] := by
    intro f hf; cases f
    · exact n1 hf
    · exact n2 hf
    · exact n3 hf
    · exact n4 hf
    · exact n5 hf
    · exact n6 hf
    · exact n7 hf
    · exact n8 hf
    · exact n9 hf
    · exact n10 hf
    · exact n11 hf
  refine ⟨txt, fun f hf => (hp f hf).1, ?_⟩
  show (clauseOrder.map cl).filter (fun c => !c.isEmpty) = _
  generalize clauseOrder = fs
  induction fs with
  | nil => rfl
  | cons f fs ih =>
    cases hf : f.isSet b with
    | true =>
      simp only [List.map_cons, List.filter_cons, hf, if_true, (hp f hf).2, ih]
      rw [if_pos (by cases f <;> rfl)]
    | false => simp only [List.map_cons, List.filter_cons, hf, hn f hf, ih]; rfl

omit U in
theorem printQuery_printed {q : Query} : ∀ {sep t : Str}, AllShaped q → printQuery sep q = .ok t →
    Printed sep q t := by
  induction q with
  | base m b =>
    intro sep t hs h
    simp only [printQuery, bind_eq_ok] at h
    obtain ⟨mt, hm, cs, hcs, h⟩ := h
    cases h
    obtain ⟨txt, h1, h2⟩ := bodyClauses_spec (hs b (by simp [levels])) hcs
    have := Printed.base sep m b mt txt hm h1
    simp only [clauseTexts, ← h2] at this
    exact this
  | nested q b ih =>
    intro sep t hs h
    simp only [printQuery, bind_eq_ok] at h
    obtain ⟨it, hi, cs, hcs, h⟩ := h
    cases h
    obtain ⟨txt, h1, h2⟩ := bodyClauses_spec (hs b (by simp [levels])) hcs
    have := Printed.nested sep q b it txt (ih (fun b' hb => hs b' (by simp [levels, hb])) hi) h1
    simp only [clauseTexts, ← h2] at this
    exact this

/-- **C14** (`print`): the text is the match followed by exactly the clauses that are set, in the fixed order,
with the texts of their items, at every depth. -/
theorem C14_print (q : Query) (t : Str) (h : q.print = .ok t) : Printed c!"\n" q t := by
  simp only [Query.print, bind_eq_ok] at h
  obtain ⟨_, hv, h⟩ := h
  exact printQuery_printed (validated_allShaped hv) h

omit U in
theorem optimizeLoop_length [U : PyUnicode] : ∀ {xs new : List Val} {o : Bool}, optimizeLoop xs = .ok (new, o) →
    new.length = xs.length
  | [], new, o, h => by cases h; rfl
  | x :: xs, new, o, h => by
    simp only [optimizeLoop, bind_eq_ok] at h
    obtain ⟨a, _, ⟨r1, r2⟩, hr, h⟩ := h
    have := optimizeLoop_length hr
    cases a <;> simp only [Except.ok.injEq, Prod.mk.injEq] at h <;> obtain ⟨rfl, _⟩ := h <;> simp [this]

/-- The optimised query is the query with another where clause; the clause is set as before. -/
theorem optimize_put {q o : Query} (hs : Shaped q.body) (h : q.optimize = .ok o) :
    ∃ w, o = putWhere w q ∧ (w = q.body.where_ ∨
      ∃ k xs new, SeqOf q.body.where_ k xs ∧ Verif.optimize xs = .ok (some new) ∧ w = .list new ∧
        new.length = xs.length) := by
  have same : q = putWhere q.body.where_ q := by cases q <;> rfl
  unfold Query.optimize at h
  by_cases hw : q.body.where_ = .none
  · rw [hw] at h
    cases h
    exact ⟨_, same, .inl rfl⟩
  · have h' : (do
        let xs ← q.body.where_.iter
        let o ← Verif.optimize xs
        match o with
        | some new => q.withBody { q.body with where_ := .list new }
        | none => .ok q) = .ok o := by
      revert h
      generalize q.body.where_ = w at hw
      cases w <;> first | exact absurd rfl hw | exact id
    simp only [bind_eq_ok] at h'
    obtain ⟨xs, hxs, o', ho, h⟩ := h'
    cases o' with
    | none => cases h; exact ⟨_, same, .inl rfl⟩
    | some new =>
      have ho' := ho
      simp only [Verif.optimize, bind_eq_ok] at ho'
      obtain ⟨⟨n', b⟩, hl, hb⟩ := ho'
      have hnew : n' = new := by
        simp only [Except.ok.injEq] at hb
        cases b <;> simp at hb
        exact hb
      subst hnew
      have hlen := optimizeLoop_length hl
      have ht : xs ≠ [] := by
        rintro rfl
        simp only [optimizeLoop, Except.ok.injEq, Prod.mk.injEq] at hl
        obtain ⟨_, rfl⟩ := hl
        simp at hb
      have hseq : ∃ k, SeqOf q.body.where_ k xs := by
        have htr : q.body.where_.truthy = true := by
          generalize q.body.where_ = w at hxs
          cases w <;> simp only [Val.iter, Val.seq?, Except.ok.injEq, reduceCtorEq] at hxs <;> subst hxs <;>
            simpa [Val.truthy] using ht
        obtain ⟨k, ys, hk, _⟩ := hs .where_ rfl htr
        have hk' : q.body.where_.iter = .ok ys := by
          simp only [Val.iter]; rw [show q.body.where_.seq? = _ from hk.seq]
        rw [hk'] at hxs
        cases hxs
        exact ⟨k, hk⟩
      obtain ⟨k, hk⟩ := hseq
      obtain ⟨hb', hm, _⟩ := withBody_ok h
      refine ⟨.list n', ?_, .inr ⟨k, xs, n', hk, ho, rfl, hlen⟩⟩
      cases q <;> cases o <;> simp_all [putWhere, matchOf, Query.body]

/-- **C14** (`serialize`): the same for the query whose top-level where clause is replaced by the OR
optimiser; the replaced clause is set exactly if the original is. -/
theorem C14_serialize (q : Query) (t : Str) (h : q.serialize = .ok t) :
    ∃ w, Printed c!" " (putWhere w q) t ∧
      (w = q.body.where_ ∨ ∃ k xs new, SeqOf q.body.where_ k xs ∧ Verif.optimize xs = .ok (some new) ∧
        w = .list new) ∧
      ∀ f : Field, f.isSet (putWhere w q).body = f.isSet q.body := by
  simp only [Query.serialize, bind_eq_ok] at h
  obtain ⟨_, hv, o, ho, h⟩ := h
  have hs := validated_allShaped hv
  have hq : Shaped q.body := hs _ (by cases q <;> simp [levels, Query.body])
  obtain ⟨w, rfl, hw⟩ := optimize_put hq ho
  have hbody : ∀ f : Field, f ≠ .where_ → f.get (putWhere w q).body = f.get q.body := by
    intro f hf; cases q <;> cases f <;> first | rfl | exact absurd rfl hf
  have hwh : Field.get .where_ (putWhere w q).body = w := by cases q <;> rfl
  have hset : ∀ f : Field, f.isSet (putWhere w q).body = f.isSet q.body := by
    intro f
    by_cases hf : f = .where_
    · subst hf
      simp only [Field.isSet, Field.itemSep, hwh]
      rcases hw with rfl | ⟨k, xs, new, hk, _, rfl, hl⟩
      · rfl
      · have hk : SeqOf (Field.get .where_ q.body) k xs := hk
        generalize Field.get .where_ q.body = v at hk
        cases hk <;> cases new <;> cases xs <;> simp_all
    · simp only [Field.isSet, hbody f hf]
  refine ⟨w, printQuery_printed ?_ h, ?_, hset⟩
  · intro b hb
    have hcase : b = (putWhere w q).body ∨ b ∈ levels q := by
      cases q with
      | base m b' => simp only [putWhere, levels, List.mem_singleton] at hb; exact .inl hb
      | nested i b' =>
        simp only [putWhere, levels, List.mem_cons] at hb
        rcases hb with hb | hb
        · exact .inl hb
        · exact .inr (by simp [levels, hb])
    rcases hcase with rfl | hb
    · intro f hf ht
      by_cases hff : f = .where_
      · subst hff
        rw [hwh] at ht ⊢
        rcases hw with rfl | ⟨k, xs, new, hk, _, rfl, hl⟩
        · exact hq .where_ hf ht
        · exact ⟨_, _, .list new, by rintro rfl; simp [Val.truthy] at ht⟩
      · rw [hbody f hff] at ht ⊢
        exact hq f hf ht
    · exact hs b hb
  · rcases hw with h | ⟨k, xs, new, h1, h2, h3, _⟩
    · exact .inl h
    · exact .inr ⟨k, xs, new, h1, h2, h3⟩

/-! ### C15 -/

/-- The text of an entity in a join: `(alias: name)` with its sample. -/
def Spec.joinedEntity (e : EntityObj) (alias sample : Str) : Str := c!"(" ++ alias ++ c!": " ++ e.name ++ sample ++ c!")"

omit U in
/-- **C15** (columns): inside a join query a column of an entity is printed as `alias.name`, everywhere else
a column is printed as its name. -/
theorem C15_column_text (c : ColumnObj) :
    (∀ e a, c.entity = some e → e.alias = some a →
      translate ⟨true, false⟩ (.column c) = .ok (a ++ c!"." ++ c.name)) ∧
    (c.entity = none → translate ⟨true, false⟩ (.column c) = .ok c.name) ∧
    translate ⟨false, false⟩ (.column c) = .ok c.name := by
  refine ⟨?_, ?_, ?_⟩
  · intro e a he ha; simp [translate, colStr, he, ha, optStr]
  · intro he; simp [translate, colStr, he]
  · cases he : c.entity <;> simp [translate, colStr, he]

omit U in
/-- **C15** (join queries): the clauses are those of the query in which every column has been renamed to
`alias.name`, printed without aliases; every joined entity is printed as `(alias: name)`. -/
theorem C15_join_query (sep : Str) (k : SeqKind) (rels : List RelObj) (b : Body) :
    printQuery sep (.base (.join k rels) b) = (do
      let cs ← bodyClauses ⟨false, false⟩ (mapBody qualifyColumn qualifyEntity b)
      .ok (combineClauses sep ((c!"MATCH " ++ joinStr ⟨true, false⟩ rels) :: cs))) := by
  rw [bodyClauses_map (cfg := ⟨true, false⟩) (cfg' := ⟨false, false⟩) rfl (fun c => qualify_col c false) (fun e => qualify_ent e false) b]
  rfl

omit U in
/-- **C15** (joined entities): the match of a join is the list of `(alias: name) -[rel]-> (alias: name)`. -/
theorem C15_join_entities (r : RelObj) (a a' : Str) (h : r.lhs.alias = some a) (h' : r.rhs.alias = some a') :
    relStr ⟨true, false⟩ r = joinedEntity r.lhs a (sampleClause r.lhs.sample) ++ c!" -[" ++ r.name ++ c!"]-> " ++
      joinedEntity r.rhs a' (sampleClause r.rhs.sample) := by
  simp [relStr, entityStr, h, h', joinedEntity]

omit U in
/-- **C15** (other queries): the text of a query over an entity or storage does not depend on entities of columns
or aliases of entities. -/
theorem C15_plain_query (sep : Str) (m : Val) (b : Body) (hm : ∀ k rels, m ≠ .join k rels) :
    printQuery sep (.base m b) =
      printQuery sep (.base (mapVal bareColumn bareEntity m) (mapBody bareColumn bareEntity b)) := by
  have hj : m.isJoin = false := by cases m <;> first | rfl | exact absurd rfl (hm _ _)
  have hj' : (mapVal bareColumn bareEntity m).isJoin = false := by
    cases m <;> first | rfl | exact absurd rfl (hm _ _)
  simp only [printQuery, hj, hj']
  rw [bodyClauses_map (cfg := ⟨false, false⟩) rfl (fun c => bare_col c false) (fun e => bare_ent e false) b,
    translate_map (cfg := ⟨false, false⟩) rfl (fun c => bare_col c false) (fun e => bare_ent e false) m]

omit U in
/-- **C15** (no leak): in a query over a subquery, the subquery is printed as it is printed alone, and the outer
clauses without aliases, whatever the subquery is. -/
theorem C15_no_leak (sep : Str) (q : Query) (b : Body) :
    printQuery sep (.nested q b) = (do
      let t ← printQuery c!" " q
      let cs ← bodyClauses ⟨false, false⟩ (mapBody bareColumn bareEntity b)
      .ok (combineClauses sep ((c!"MATCH { " ++ t ++ c!" }") :: cs))) := by
  rw [bodyClauses_map (cfg := ⟨false, false⟩) rfl (fun c => bare_col c false) (fun e => bare_ent e false) b]
  rfl

omit U in
theorem combine_head (sep head : Str) (cs : List Str) (hh : head ≠ []) :
    combineClauses sep (head :: cs) = head ++ (cs.filter fun c => !c.isEmpty).flatMap (sep ++ ·) := by
  have aux : ∀ (ts : List Str) (t : Str), joinWith sep (t :: ts) = t ++ ts.flatMap (sep ++ ·) := by
    intro ts
    induction ts with
    | nil => simp [joinWith]
    | cons u us ih => intro t; rw [joinWith, ih]; simp
  have : (!head.isEmpty) = true := by simpa using hh
  simp only [combineClauses, List.filter_cons, this, if_true, aux]

omit U in
theorem plainly_print (sep n : Str) (fc : ColumnObj → ColumnObj) (fe : EntityObj → EntityObj) (b : Body) :
    printQuery sep (plainly fc fe n b) = (do
      let cs ← bodyClauses ⟨false, false⟩ (mapBody fc fe b)
      .ok (combineClauses sep ((c!"MATCH (" ++ n ++ c!")") :: cs))) := by
  simp [plainly, printQuery, translate, entityStr, sampleClause, Val.isJoin]

omit U in
theorem linkTexts_join (rels : List RelObj) : LinkTexts rels (rels.map (relStr ⟨true, false⟩)) := by
  induction rels with
  | nil => exact .nil
  | cons r rs ih =>
    have e : ∀ e : EntityObj, translate ⟨false, false⟩ (.entity (qualifyEntity e)) = .ok (entityStr ⟨true, false⟩ e) := by
      intro e
      rw [← qualify_ent e false]; rfl
    exact .cons r rs _ _ _ (e _) (e _) ih

omit U in
theorem linkTexts_unique {rels : List RelObj} {ts ts' : List Str} (h : LinkTexts rels ts) (h' : LinkTexts rels ts') : ts = ts' := by
  induction h generalizing ts' with
  | nil => cases h'; rfl
  | cons r rs l r' ts h1 h2 _ ih =>
    cases h' with
    | cons _ _ l2 r2 ts2 h3 h4 h5 =>
      rw [h1] at h3; rw [h2] at h4
      cases h3; cases h4
      rw [ih h5]

omit U in
/-- **C15** (join queries, by comparison): apart from the match, a join query is printed like the query over any entity in which every
column has been renamed to `alias.name`; its match is the list of the links, with the entities printed as `alias: name`. The two
queries fail alike. -/
theorem C15_join_like_plain (sep n : Str) (k : SeqKind) (rels : List RelObj) (b : Body) :
    (∀ t, printQuery sep (.base (.join k rels) b) = .ok t ↔
      ∃ links rest, LinkTexts rels links ∧ t = c!"MATCH " ++ joinWith c!", " links ++ rest ∧
        printQuery sep (plainly qualifyColumn qualifyEntity n b) = .ok (c!"MATCH (" ++ n ++ c!")" ++ rest)) ∧
    ∀ e, printQuery sep (.base (.join k rels) b) = .error e ↔ printQuery sep (plainly qualifyColumn qualifyEntity n b) = .error e := by
  rw [C15_join_query, plainly_print]
  cases bodyClauses ⟨false, false⟩ (mapBody qualifyColumn qualifyEntity b) with
  | error e => simp [error_bind]
  | ok cs =>
    simp only [ok_bind, reduceCtorEq, Except.ok.injEq, implies_true, and_true, iff_self]
    rw [combine_head _ _ _ (by simp), combine_head _ _ _ (by simp)]
    intro t
    constructor
    · rintro rfl
      exact ⟨_, _, linkTexts_join rels, rfl, rfl⟩
    · rintro ⟨links, rest, hl, rfl, h⟩
      rw [linkTexts_unique hl (linkTexts_join rels), ← List.append_cancel_left h]
      rfl

omit U in
/-- **C15** (subqueries, by comparison): apart from the match, a query over a subquery is printed like the query over any entity in
which the columns belong to no entity; its match is the text of the subquery on one line, in braces. It fails exactly if the subquery
fails, or the clauses do. -/
theorem C15_subquery_like_plain (sep n : Str) (q : Query) (b : Body) :
    (∀ t, printQuery sep (.nested q b) = .ok t ↔
      ∃ inner rest, printQuery c!" " q = .ok inner ∧ t = c!"MATCH { " ++ inner ++ c!" }" ++ rest ∧
        printQuery sep (plainly bareColumn bareEntity n b) = .ok (c!"MATCH (" ++ n ++ c!")" ++ rest)) ∧
    ∀ e, printQuery sep (.nested q b) = .error e ↔ printQuery c!" " q = .error e ∨
      ((∃ inner, printQuery c!" " q = .ok inner) ∧ printQuery sep (plainly bareColumn bareEntity n b) = .error e) := by
  rw [C15_no_leak, plainly_print]
  cases printQuery c!" " q with
  | error e => simp [error_bind]
  | ok inner =>
    cases bodyClauses ⟨false, false⟩ (mapBody bareColumn bareEntity b) with
    | error e => simp [error_bind, ok_bind]
    | ok cs =>
      simp only [ok_bind, reduceCtorEq, Except.ok.injEq, implies_true, and_true, iff_self, false_or, and_false]
      rw [combine_head _ _ _ (by simp), combine_head _ _ _ (by simp)]
      intro t
      constructor
      · rintro rfl
        exact ⟨_, _, rfl, rfl, rfl⟩
      · rintro ⟨_, rest, rfl, rfl, h⟩
        rw [← List.append_cancel_left h]

/-! ### C17 -/

omit U in
/-- **C17** (agreement): the printer with its mutable flag, started fresh, prints what the pure printer
prints. -/
theorem visitSt_fresh (sep : Str) (q : Query) : (visitSt sep false q).1 = printQuery sep q := by
  induction q generalizing sep with
  | base m b =>
    cases hj : m.isJoin with
    | true =>
      simp only [visitSt, printQuery, hj, if_true]
      split <;> rename_i h <;> exact h.symm
    | false =>
      simp only [visitSt, printQuery, hj]
      split <;> rename_i h <;> exact h.symm
  | nested q b ih => simp only [visitSt, printQuery, ih]

omit U in
theorem visitSt_restores {sep t : Str} {q : Query} (h : (visitSt sep false q).1 = .ok t) :
    (visitSt sep false q).2 = false := by
  cases q with
  | base m b =>
    cases hj : m.isJoin with
    | true =>
      simp only [visitSt, hj, if_true] at h ⊢
      split at h
      · rfl
      · cases h
    | false =>
      simp only [visitSt, hj] at h ⊢
      split at h <;> rfl
  | nested q b => rfl

/-- What one call does: `serialize` (optimise, then print with a new printer) or `print`. -/
inductive Spec.Call
  | serialize (q : Query)
  | print (q : Query)

/-- A process: the flag of the printer that was used last, and the results so far.  Each call makes a new
`Printer` (snuba_sdk/query.py:176, 180), so it starts with the flag off whatever the state is. -/
def Spec.runCall (flag : Bool) : Call → Except Err Str × Bool
  | .serialize q =>
    match (do q.validate; q.optimize : Except Err Query) with
    | .ok o => visitSt c!" " false o
    | .error e => (.error e, flag)
  | .print q =>
    match q.validate with
    | .ok _ => visitSt c!"\n" false q
    | .error e => (.error e, flag)

/-- The state after a history of calls. -/
def Spec.afterCalls (flag : Bool) : List Call → Bool
  | [] => flag
  | c :: cs => afterCalls (runCall flag c).2 cs

/-- **C17.** After any history of calls, successful or not, a call returns what it returns in a fresh
process, namely a function of the query alone. -/
theorem C17_no_memory (history : List Call) (q : Query) :
    (runCall (afterCalls false history) (.serialize q)).1 = q.serialize ∧
    (runCall (afterCalls false history) (.print q)).1 = q.print := by
  constructor
  · simp only [runCall, Query.serialize]
    cases hv : q.validate with
    | error e => rfl
    | ok u =>
      cases ho : q.optimize with
      | error e => simp
      | ok o => simp only [ok_bind]; exact visitSt_fresh _ _
  · simp only [runCall, Query.print]
    cases hv : q.validate with
    | error e => rfl
    | ok u => simp only [ok_bind]; exact visitSt_fresh _ _

/-- Printing a list of queries with one and the same `Printer`. -/
def Spec.reuse (sep : Str) (flag : Bool) : List Query → List (Except Err Str)
  | [] => []
  | q :: qs => (visitSt sep flag q).1 :: reuse sep (visitSt sep flag q).2 qs

omit U in
/-- **C17** (reused printer): one printer used for several queries prints each as a new printer would, as long as
every earlier one succeeded. -/
theorem C17_reused_printer (sep : Str) (qs : List Query) (q : Query)
    (h : ∀ q' ∈ qs, ∃ t, printQuery sep q' = .ok t) :
    (reuse sep false (qs ++ [q])).getLast? = some (printQuery sep q) := by
  induction qs with
  | nil => simp only [List.nil_append, reuse, visitSt_fresh, List.getLast?_singleton]
  | cons q' qs ih =>
    simp only [List.mem_cons, forall_eq_or_imp] at h
    obtain ⟨⟨t, ht⟩, hr⟩ := h
    rw [← visitSt_fresh] at ht
    have := ih hr
    simp only [List.cons_append, reuse, visitSt_restores ht]
    cases hq : reuse sep false (qs ++ [q]) with
    | nil => cases qs <;> simp [reuse] at hq
    | cons a l => rw [hq] at this; rw [List.getLast?_cons_cons]; exact this

/-! ### C19 -/

/-- **C19.** If no condition of the where clause is one the OR optimiser merges, `serialize` and `print` both fail
with the same error, or are the same lines joined by spaces and by newlines; the lines are the match and one
per clause that is set; a subquery is part of the first line, as printed on one line. -/
theorem C19_print_serialize (q : Query) (hb : ListClauseBuilt q.body.where_)
    (hn : ∀ k xs, SeqOf q.body.where_ k xs → ∀ c ∈ xs, ¬ ∃ l rs, Mergeable c l rs) :
    (∃ e, q.serialize = .error e ∧ q.print = .error e) ∨
    ∃ head txt, q.serialize = .ok (joinWith c!" " (clauseTexts head q.body txt)) ∧
      q.print = .ok (joinWith c!"\n" (clauseTexts head q.body txt)) ∧
      ∀ i b, q = .nested i b → ∃ t, printQuery c!" " i = .ok t ∧ head = c!"MATCH { " ++ t ++ c!" }" := by
  cases hv : q.validate with
  | error e => exact .inl ⟨e, by simp [Query.serialize, hv], by simp [Query.print, hv]⟩
  | ok u =>
    have ho : q.optimize = .ok q := by
      unfold Query.optimize
      rcases hb with hw | ⟨k, xs, hk, hx⟩
      · rw [hw]
      · obtain ⟨r, hr, hrn⟩ := C30_total_and_none_iff xs (fun c hc => (hx c hc).1)
        have : r = none := hrn.2 (fun ⟨c, hc, l, rs, hm⟩ => hn k xs hk c hc ⟨l, rs, hm⟩)
        subst this
        generalize q.body.where_ = w at hk
        cases hk <;> simp [Val.iter, Val.seq?, hr]
    have hs : Shaped q.body := validated_allShaped hv _ (by cases q <;> simp [levels, Query.body])
    simp only [Query.serialize, Query.print, hv, ok_bind, ho]
    cases q with
    | base m b =>
      simp only [printQuery]
      cases hm : translate ⟨m.isJoin, false⟩ m with
      | error e => exact .inl ⟨e, rfl, rfl⟩
      | ok mt =>
        cases hc : bodyClauses ⟨m.isJoin, false⟩ b with
        | error e => exact .inl ⟨e, rfl, rfl⟩
        | ok cs =>
          right
          obtain ⟨txt, _, h2⟩ := bodyClauses_spec hs hc
          refine ⟨c!"MATCH " ++ mt, txt, ?_, ?_, by intro i b h; cases h⟩ <;>
          · simp only [ok_bind, clauseTexts, Query.body] at h2 ⊢
            rw [← h2]; rfl
    | nested i b =>
      simp only [printQuery]
      cases hm : printQuery c!" " i with
      | error e => exact .inl ⟨e, rfl, rfl⟩
      | ok it =>
        cases hc : bodyClauses ⟨false, false⟩ b with
        | error e => exact .inl ⟨e, rfl, rfl⟩
        | ok cs =>
          right
          obtain ⟨txt, _, h2⟩ := bodyClauses_spec hs hc
          refine ⟨c!"MATCH { " ++ it ++ c!" }", txt, ?_, ?_, ?_⟩
          · simp only [ok_bind, clauseTexts, Query.body] at h2 ⊢
            rw [← h2]; rfl
          · simp only [ok_bind, clauseTexts, Query.body] at h2 ⊢
            rw [← h2]; rfl
          · intro i' b' h; cases h; exact ⟨it, hm, rfl⟩

omit U in
theorem clauseText_unique {cfg : Cfg} {f : Field} {v : Val} {t t' : Str} (h : ClauseText cfg f v t) (h' : ClauseText cfg f v t') : t = t' := by
  have hp : ∀ xs ts ts', ClauseText.Paired' cfg xs ts → ClauseText.Paired' cfg xs ts' → ts = ts' := by
    intro xs
    induction xs with
    | nil => intro ts ts' h h'; cases ts <;> cases ts' <;> simp_all [ClauseText.Paired']
    | cons x xs ih =>
      intro ts ts' h h'
      cases ts <;> cases ts' <;> simp only [ClauseText.Paired'] at h h'
      obtain ⟨h1, h2⟩ := h
      obtain ⟨h3, h4⟩ := h'
      rw [h1] at h3
      cases h3
      rw [ih _ _ h2 h4]
  unfold ClauseText at h h'
  cases hi : f.itemSep with
  | some sep =>
    simp only [hi] at h h'
    obtain ⟨k, xs, ts, h1, h2, rfl⟩ := h
    obtain ⟨k', xs', ts', h3, h4, rfl⟩ := h'
    rw [h1.unique h3] at h2
    rw [hp _ _ _ h2 h4]
  | none =>
    simp only [hi] at h h'
    rw [h] at h'; exact Except.ok.inj h'

omit U in
theorem clauseTexts_congr {head : Str} {b : Body} {txt txt' : Field → Str} (h : ∀ f : Field, f.isSet b = true → txt f = txt' f) :
    clauseTexts head b txt = clauseTexts head b txt' := by
  simp only [clauseTexts, List.cons.injEq, true_and, List.map_inj_left]
  intro f hf
  rw [h f (List.mem_filter.1 hf).2]

omit U in
theorem printed_unique {sep : Str} {q : Query} {t t' : Str} (h : Printed sep q t) (h' : Printed sep q t') : t = t' := by
  induction h generalizing t' with
  | base sep m b mt txt h1 h2 =>
    cases h' with
    | base _ _ _ mt' txt' h3 h4 =>
      rw [h1] at h3; cases h3
      rw [clauseTexts_congr fun f hf => clauseText_unique (h2 f hf) (h4 f hf)]
  | nested sep q b it txt h1 h2 ih =>
    cases h' with
    | nested _ _ _ it' txt' h3 h4 =>
      rw [ih h3, clauseTexts_congr fun f hf => clauseText_unique (h2 f hf) (h4 f hf)]

/-- **C19** (any where clause). Whatever the OR optimiser merges, the lines of `print` and the parts of `serialize` correspond one to
one, and are the same, except for the line of the where clause. -/
theorem C19_other_lines (q : Query) (s t : Str) (hs : q.serialize = .ok s) (ht : q.print = .ok t) :
    ∃ head txt txt', s = joinWith c!" " (clauseTexts head q.body txt) ∧ t = joinWith c!"\n" (clauseTexts head q.body txt') ∧
      ∀ f : Field, f ≠ .where_ → txt f = txt' f := by
  obtain ⟨w, hp, _, hset⟩ := C14_serialize q s hs
  have hp' := C14_print q t ht
  have hget : ∀ f : Field, f ≠ .where_ → f.get (putWhere w q).body = f.get q.body := by
    intro f hf; cases q <;> cases f <;> first | rfl | exact absurd rfl hf
  have hct : ∀ (head : Str) (txt : Field → Str), clauseTexts head (putWhere w q).body txt = clauseTexts head q.body txt := by
    intro head txt
    simp only [clauseTexts, hset]
  have key : ∀ {cfg : Cfg} {head : Str} {txt txt' : Field → Str},
      (∀ f : Field, f.isSet (putWhere w q).body = true → ClauseText cfg f (f.get (putWhere w q).body) (txt f)) →
      (∀ f : Field, f.isSet q.body = true → ClauseText cfg f (f.get q.body) (txt' f)) →
      ∃ txt'', clauseTexts head q.body txt' = clauseTexts head q.body txt'' ∧ ∀ f : Field, f ≠ .where_ → txt f = txt'' f := by
    intro cfg head txt txt' h1 h2
    refine ⟨fun f => if f.isSet q.body then txt' f else txt f, clauseTexts_congr fun f hf => by simp [hf], fun f hf => ?_⟩
    show txt f = if f.isSet q.body then txt' f else txt f
    split
    · rename_i hi
      have a := h1 f (by rw [hset]; exact hi)
      rw [hget f hf] at a
      exact clauseText_unique a (h2 f hi)
    · rfl
  cases q with
  | base m b =>
    simp only [putWhere, Query.body] at hp hct key ⊢
    cases hp with
    | base _ _ _ mt txt h1 h2 =>
      cases hp' with
      | base _ _ _ mt' txt' h3 h4 =>
        rw [h1] at h3; cases h3
        obtain ⟨txt'', h5, h6⟩ := key (head := c!"MATCH " ++ mt) h2 h4
        exact ⟨_, txt, txt'', by rw [hct], by rw [h5], h6⟩
  | nested i b =>
    simp only [putWhere, Query.body] at hp hct key ⊢
    cases hp with
    | nested _ _ _ it txt h1 h2 =>
      cases hp' with
      | nested _ _ _ it' txt' h3 h4 =>
        rw [printed_unique h3 h1] at *
        obtain ⟨txt'', h5, h6⟩ := key (head := c!"MATCH { " ++ it ++ c!" }") h2 h4
        exact ⟨_, txt, txt'', by rw [hct], by rw [h5], h6⟩

end

section Examples
open Ex

/-- A join query: column `a` of `e`. -/
def Ex.joined : Query :=
  .base (.join .list [rel]) { select := .list [.column ⟨c!"a", some events, none, none⟩], limit := .limit (.int 10) }

/-- C14: a subquery with select, and an outer query with select, groupby, limit and totals. -/
example : (Query.nested inner {
      select := .list [col c!"a"], groupby := .list [col c!"a"], limit := .limit (.int 10), totals := .totals true
    }).print =
    .ok c!"MATCH { MATCH (events) SELECT a, count(x) AS `n` }\nSELECT a\nBY a\nLIMIT 10\nTOTALS True" := by rfl

/-- C15: the same column, in a join and in a plain query. -/
example : joined.print = .ok c!"MATCH (e: events) -[has]-> (g: groups)\nSELECT e.a\nLIMIT 10" := by rfl

example : (Query.base (.entity events) joined.body).print = .ok c!"MATCH (events)\nSELECT a\nLIMIT 10" := by rfl

/-- C15: a join inside a subquery does not make the outer query print aliases. -/
example : (Query.nested joined { select := .list [.column ⟨c!"a", some events, none, none⟩] }).print =
    .ok c!"MATCH { MATCH (e: events) -[has]-> (g: groups) SELECT e.a LIMIT 10 }\nSELECT a" := by rfl

/-- C15: a join query, and the plain query that is printed alike. -/
example : ∃ k rels, joined = .base (.join k rels) joined.body ∧
    joined.print = .ok c!"MATCH (e: events) -[has]-> (g: groups)\nSELECT e.a\nLIMIT 10" ∧
    printQuery c!"\n" (plainly qualifyColumn qualifyEntity c!"things" joined.body) =
      .ok c!"MATCH (things)\nSELECT e.a\nLIMIT 10" := ⟨_, _, rfl, rfl, rfl⟩

/-- C15: a query over a join query, and the plain query that is printed alike. -/
example : printQuery c!" " (.nested joined joined.body) =
      .ok c!"MATCH { MATCH (e: events) -[has]-> (g: groups) SELECT e.a LIMIT 10 } SELECT a LIMIT 10" ∧
    printQuery c!" " (plainly bareColumn bareEntity c!"things" joined.body) = .ok c!"MATCH (things) SELECT a LIMIT 10" := ⟨rfl, rfl⟩

/-- C17: a query whose printing fails midway, inside a join. -/
def Ex.failing : Query :=
  .base (.join .list [rel]) {
    select := .list [.column ⟨c!"a", some events, none, none⟩]
    where_ := .list [.cond (.column ⟨c!"a", some events, none, none⟩) .eq (.bytes [255])] }

/-- C17: the failure is real: the query validates but cannot be printed. -/
example : failing.validate = .ok () ∧ failing.print = .error .unicodeDecodeError := ⟨rfl, rfl⟩

example : (runCall (afterCalls false [.print failing, .serialize failing, .print joined]) (.print inner)).1 =
    inner.print := (C17_no_memory _ _).2

/-- C17: the proviso of `C17_reused_printer` is needed: after a failed join query, a reused printer prints a plain
query with aliases. (The SDK does not reuse printers.) -/
theorem C17_reused_printer_after_failure :
    reuse c!" " false [failing, .base (.entity events) joined.body] =
      [.error .unicodeDecodeError, .ok c!"MATCH (e: events) SELECT e.a LIMIT 10"] ∧
    printQuery c!" " (.base (.entity events) joined.body) = .ok c!"MATCH (events) SELECT a LIMIT 10" := ⟨rfl, rfl⟩

/-- C19: a query with two clauses and a subquery. -/
example : inner.serialize = .ok c!"MATCH (events) SELECT a, count(x) AS `n`" ∧
    (Query.nested inner (body [col c!"a"])).serialize =
      .ok c!"MATCH { MATCH (events) SELECT a, count(x) AS `n` } SELECT a" ∧
    (Query.nested inner (body [col c!"a"])).print =
      .ok c!"MATCH { MATCH (events) SELECT a, count(x) AS `n` }\nSELECT a" := ⟨rfl, rfl, rfl⟩

example : ListClauseBuilt (Query.nested inner (body [col c!"a"])).body.where_ := .inl rfl

/-- C19: a query whose where clause is merged. -/
private def mergedOnly : Query :=
  .base (.entity events) { body [col c!"a"] with
    where_ := .list [.boolCond .or .or .list [.cond (col c!"b") .eq (.int 1), .cond (col c!"b") .eq (.int 2)]], limit := .limit (.int 7) }

example : mergedOnly.serialize = .ok c!"MATCH (events) SELECT a WHERE b IN array(1, 2) LIMIT 7" ∧
    mergedOnly.print = .ok c!"MATCH (events)\nSELECT a\nWHERE (b = 1 OR b = 2)\nLIMIT 7" := ⟨rfl, rfl⟩
example := C19_other_lines mergedOnly _ _ rfl rfl

end Examples

end Verif
