import Verif.Lemmas.Models
import Verif.Props.Total

/-!
# C67: data models decide whether a query is accepted, not what it says
-/

namespace Verif
open Spec

section
variable [U : PyUnicode]

/-- **C67** (text): the text of an expression and of a query does not depend on the data models in it. -/
theorem C67_text (f : Option DataModel → Option DataModel) (cfg : Cfg) (v : Val) (sep : Str) (q : Query) :
    translate cfg (remodel f v) = translate cfg v ∧ printQuery sep (remodelQuery f q) = printQuery sep q :=
  ⟨remodel_translate cfg v, remodel_printQuery q sep⟩

/-- **C67** (acceptance): a query is valid exactly if it is valid without data models and its columns are in the data models. -/
theorem C67_valid_iff (q : Query) : q.validate = .ok () ↔ (remodelQuery noModel q).validate = .ok () ∧ Conforms q :=
  (query_refines q).iff

/-- **C67** (rejection): a query that is valid without data models and uses an unknown column is rejected for the column. -/
theorem C67_rejected (q : Query) (h : (remodelQuery noModel q).validate = .ok ()) (hc : ¬ Conforms q) :
    q.validate = .error .invalidColumn := by
  rcases (query_refines q).only h with e | e
  · exact absurd ((query_refines q).iff.1 e).2 hc
  · exact e

/-- **C67** (larger data models): a valid query stays valid, and prints the same text, when data models are dropped or get more
columns. -/
theorem C67_print (f : Option DataModel → Option DataModel) (hf : Widens f) (q : Query) (h : q.validate = .ok ()) :
    (remodelQuery f q).validate = .ok () ∧ (remodelQuery f q).print = q.print := by
  refine ⟨valid_remodel hf h, ?_⟩
  simp only [Query.print, h, valid_remodel hf h, remodel_printQuery]

/-- **C67** (serialization): a valid query is also serialized to the same text, provided that data models that differ in the where
clause do not become equal, nor equal ones different. -/
theorem C67_serialize (f : Option DataModel → Option DataModel) (hf : Widens f) (q : Query) (h : q.validate = .ok ())
    (hd : Distinguishes f q.body.where_) : (remodelQuery f q).serialize = q.serialize := by
  simp only [Query.serialize, h, valid_remodel hf h, ok_bind, remodel_optimize hf h hd]
  cases q.optimize with
  | error e => rfl
  | ok o => exact remodel_printQuery o _

/-- **C67** (one data model for each entity): if no entity is used with two data models in the where clause, they can be dropped, or
get more columns, without a change of the serialized text. -/
theorem C67_serialize_one (f : Option DataModel → Option DataModel) (hf : Widens f) (q : Query) (h : q.validate = .ok ())
    (ho : OneModelEach q.body.where_) : (remodelQuery f q).serialize = q.serialize := by
  have hr : ∀ o : Option DataModel, SameModel o o := by
    rintro (_ | d)
    · exact .none
    · exact .some _ _ (fun _ => Iff.rfl) rfl
  refine C67_serialize f hf q h ⟨fun x y e e' hx hy he he' hn ha => ?_, fun s s' hs hs' hn => ?_⟩
  · rw [ho.entities x y e e' hx hy he he' hn ha]; exact ⟨fun _ => hr _, fun _ => hr _⟩
  · rw [ho.storages s s' hs hs' hn]; exact ⟨fun _ => hr _, fun _ => hr _⟩

end

section Examples
attribute [local instance] asciiUnicode

private def model (ns : List Str) : DataModel := ⟨ns.map fun n => ⟨n, false⟩, ⟨c!"timestamp", false⟩⟩
private def entity (alias : Str) (d : Option DataModel) : EntityObj := ⟨c!"events", some alias, none, d⟩
private def colOf (n alias : Str) (d : Option DataModel) : Val := .column ⟨n, some (entity alias d), none, none⟩
private def plain (n : Str) : Val := .column ⟨n, none, none, none⟩

/-- Two conditions on the same column of the same entity, once with and once without a data model. -/
private def either (d d' : Option DataModel) : Val :=
  .boolCond .or .or .list [.cond (colOf c!"id" c!"e" d) .eq (.int 1), .cond (colOf c!"id" c!"e" d') .eq (.int 2)]

private def joined (d d' : Option DataModel) : Query :=
  .base (.join .list [⟨entity c!"e" d, c!"has", entity c!"t" none⟩])
    { select := .list [colOf c!"id" c!"e" d], where_ := .list [either d d'] }

private def counted (d : DataModel) : Query :=
  .base (.entity ⟨c!"events", none, none, some d⟩)
    { select := .list [plain c!"id"], where_ := .list [.cond (plain c!"name") .eq (.str c!"x")] }

/-- **C67** (why equality matters for serialization): two conditions on a column of the same entity are merged after its data model
has been removed from both, and not if only one of them has it. -/
theorem C67_serialize_differs : ∃ q : Query, q.validate = .ok () ∧ (remodelQuery noModel q).validate = .ok () ∧
    q.print = (remodelQuery noModel q).print ∧
    q.serialize = .ok c!"MATCH (e: events) -[has]-> (t: events) SELECT e.id WHERE (e.id = 1 OR e.id = 2)" ∧
    (remodelQuery noModel q).serialize = .ok c!"MATCH (e: events) -[has]-> (t: events) SELECT e.id WHERE e.id IN array(1, 2)" :=
  ⟨joined (some (model [c!"id"])) none, by decide +kernel, by decide +kernel, by decide +kernel, by decide +kernel, by decide +kernel⟩

/-- Dropping all data models is a special case. -/
private theorem noModel_widens : Widens noModel := ⟨rfl, fun _ _ h => by cases h⟩

/-- Every data model gets a further column. -/
private def more : Option DataModel → Option DataModel := fun d => d.map fun d => { d with columns := ⟨c!"more", false⟩ :: d.columns }

private theorem more_widens : Widens more := by
  refine ⟨rfl, fun d d' h x hx => ?_⟩
  cases h
  exact ⟨x, List.mem_cons_of_mem _ hx, rfl⟩

example : (counted (model [c!"id", c!"name"])).validate = .ok () := by decide +kernel
example : Conforms (counted (model [c!"id", c!"name"])) := (C67_valid_iff _).1 (by decide +kernel) |>.2
example : (remodelQuery more (counted (model [c!"id", c!"name"]))).print = .ok c!"MATCH (events)\nSELECT id\nWHERE name = 'x'" :=
  (C67_print more more_widens _ (by decide +kernel)).2.trans (by decide +kernel)

/-- Without the column `name` in the data model the query is rejected. -/
example : ¬ Conforms (counted (model [c!"id"])) ∧ (counted (model [c!"id"])).validate = .error .invalidColumn :=
  have h : ¬ Conforms (counted (model [c!"id"])) := fun h =>
    absurd ((C67_valid_iff (counted (model [c!"id"]))).2 ⟨by decide +kernel, h⟩) (by decide +kernel)
  ⟨h, C67_rejected _ (by decide +kernel) h⟩

private theorem either_parts {d : Option DataModel} {x : Val} (h : Part x (.list [either d d])) :
    (∀ e ∈ ownEntities x, e.dataModel = d) ∧ ∀ s, x ≠ .storage s := by
  have leaf : ∀ {v : Val}, v.children = [] → (∀ e ∈ ownEntities v, e.dataModel = d) → (∀ s, v ≠ .storage s) → Part x v →
      (∀ e ∈ ownEntities x, e.dataModel = d) ∧ ∀ s, x ≠ .storage s := by
    intro v hv h1 h2 h
    rcases part_iff.1 h with rfl | ⟨c, hc, _⟩
    · exact ⟨h1, h2⟩
    · rw [hv] at hc; cases hc
  have inner : ∀ n, Part x (.cond (colOf c!"id" c!"e" d) .eq (.int n)) →
      (∀ e ∈ ownEntities x, e.dataModel = d) ∧ ∀ s, x ≠ .storage s := by
    intro n h
    rcases part_iff.1 h with rfl | ⟨c, hc, h⟩
    · exact ⟨fun e he => (by cases he), fun s hs => (by cases hs)⟩
    · simp only [Val.children, List.mem_cons, List.not_mem_nil, or_false] at hc
      rcases hc with rfl | rfl
      · exact leaf rfl (by simp [colOf, ownEntities, entity]) (by simp [colOf]) h
      · exact leaf rfl (by simp [ownEntities]) (by simp) h
  rcases part_iff.1 h with rfl | ⟨c, hc, h⟩
  · exact ⟨fun e he => (by cases he), fun s hs => (by cases hs)⟩
  · simp only [Val.children, List.mem_cons, List.not_mem_nil, or_false] at hc
    subst hc
    rcases part_iff.1 h with rfl | ⟨c, hc, h⟩
    · exact ⟨fun e he => (by cases he), fun s hs => (by cases hs)⟩
    · simp only [either, Val.children, List.mem_cons, List.not_mem_nil, or_false] at hc
      rcases hc with rfl | rfl <;> exact inner _ h

private theorem either_one (d : Option DataModel) : OneModelEach (.list [either d d]) :=
  ⟨fun _ _ e e' hx hy he he' _ _ => ((either_parts hx).1 e he).trans ((either_parts hy).1 e' he').symm,
    fun s _ hs _ _ => absurd rfl ((either_parts hs).2 s)⟩

/-- With the same data model in both conditions they are merged with it and without it. -/
example : (remodelQuery noModel (joined (some (model [c!"id"])) (some (model [c!"id"])))).serialize =
    .ok c!"MATCH (e: events) -[has]-> (t: events) SELECT e.id WHERE e.id IN array(1, 2)" :=
  (C67_serialize_one noModel noModel_widens (joined (some (model [c!"id"])) (some (model [c!"id"]))) (by decide +kernel) (either_one _)).trans (by decide +kernel)

end Examples

end Verif
