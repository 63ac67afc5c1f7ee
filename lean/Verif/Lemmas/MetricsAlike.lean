import Verif.Lemmas.MetricsEqual
import Verif.Props.Timeseries

/-!
# Lemmas: metrics queries that are alike
-/

namespace Verif
open Spec

variable {m : Bool}

/-! ### Values -/

theorem Alike.showable {a b : Val} (h : Alike m a b) (hs : Showable a) : a = b := by
  obtain ⟨h, ha, hb, -, -⟩ := h
  obtain ⟨a1, -, -⟩ := ha a .here
  obtain ⟨b1, -, -⟩ := hb b .here
  cases hs <;> cases b <;> first
    | exact Bool.noConfusion h
    | skip
  all_goals try exact (b1 (.bool _)).elim
  all_goals simp only [Verif.pyEq, beq_iff_eq] at h
  all_goals first
    | (subst h; rfl)
    | skip
  case none.none => rfl
  case int.float i f =>
    cases f <;> simp only [PyFloat.eqInt, Bool.false_eq_true, Dbl.toInt?, beq_iff_eq] at h
    rename_i d
    by_cases hd : 0 ≤ d.e
    · exact (b1 (.whole d hd)).elim
    · rw [if_neg hd] at h; cases h
  case float.int f i =>
    cases f <;> simp only [PyFloat.eqInt, Bool.false_eq_true, Dbl.toInt?, beq_iff_eq] at h
    rename_i d
    by_cases hd : 0 ≤ d.e
    · exact (a1 (.whole d hd)).elim
    · rw [if_neg hd] at h; cases h
  case float.float f g =>
    have e : some f = some g := sample_eq h (by
      rintro x hx ⟨d, rfl, hd⟩
      cases hx
      rcases dbl_cases d with ⟨_, h0⟩ | h0
      · exact a1 (.whole d (by omega))
      · omega)
    cases e; rfl

/-- Values that are alike have the same class, as far as the metrics layer asks for it. -/
theorem Alike.classes {a b : Val} (h : Alike m a b) : a.given = b.given ∧ a.isStr = b.isStr ∧ a.isInt = b.isInt ∧ a.isGroupItem = b.isGroupItem ∧
    a.isDirection = b.isDirection ∧ a.isBool = b.isBool ∧ (MVal.val a).isFormulaParam = (MVal.val b).isFormulaParam := by
  obtain ⟨h, ha, hb, -, -⟩ := h
  obtain ⟨a1, -, -⟩ := ha a .here
  obtain ⟨b1, -, -⟩ := hb b .here
  cases a <;> cases b <;> first
    | exact Bool.noConfusion h
    | skip
  all_goals try exact (a1 (.bool _)).elim
  all_goals try exact (b1 (.bool _)).elim
  all_goals first
    | exact ⟨rfl, rfl, rfl, rfl, rfl, rfl, rfl⟩
    | skip
  all_goals simp only [Verif.pyEq] at h
  case int.float i f =>
    cases f <;> simp only [PyFloat.eqInt, Bool.false_eq_true, Dbl.toInt?, beq_iff_eq] at h
    rename_i d
    by_cases hd : 0 ≤ d.e
    · exact (b1 (.whole d hd)).elim
    · rw [if_neg hd] at h; cases h
  case float.int f i =>
    cases f <;> simp only [PyFloat.eqInt, Bool.false_eq_true, Dbl.toInt?, beq_iff_eq] at h
    rename_i d
    by_cases hd : 0 ≤ d.e
    · exact (a1 (.whole d hd)).elim
    · rw [if_neg hd] at h; cases h

theorem Alike.items {a b : Val} (h : Alike m a b) : Agree (AlikeAll m) (iterItems a) (iterItems b) := by
  have e : ∀ v, iterItems v = v.iter := by
    intro v
    unfold iterItems Val.iter
    cases v.seq? <;> rfl
  rw [e, e]; exact h.iter

theorem Alike.seq {a b : Val} (h : Alike m a b) : (a.seq? = none ∧ b.seq? = none) ∨
    ∃ k xs k' ys, a.seq? = some (k, xs) ∧ b.seq? = some (k', ys) ∧ AlikeAll m xs ys := by
  have hi := h.iter
  unfold Val.iter at hi
  cases ha : a.seq? with
  | none =>
    cases hb : b.seq? with
    | none => exact .inl ⟨rfl, rfl⟩
    | some p => obtain ⟨k, xs⟩ := p; rw [ha, hb] at hi; exact hi.elim
  | some p =>
    obtain ⟨k, xs⟩ := p
    cases hb : b.seq? with
    | none => rw [ha, hb] at hi; exact hi.elim
    | some p => obtain ⟨k', ys⟩ := p; rw [ha, hb] at hi; exact .inr ⟨k, xs, k', ys, rfl, rfl, hi⟩

theorem Alike.hashable {a b : Val} (h : Alike m a b) : hashable a = hashable b := by
  have e := pyEq_hash a b h.eq h.told
  have ha := hashTree_ok a
  have hb := hashTree_ok b
  rw [e] at ha
  have hu : Unhashable a ↔ Unhashable b := 
    ⟨fun hu => Classical.byContradiction fun hn => (ha.symm.trans hb).2 hn hu, fun hu => Classical.byContradiction fun hn => (ha.symm.trans hb).1 hn hu⟩
  rw [Bool.eq_iff_iff, ← Bool.not_eq_false, ← Bool.not_eq_false, hashable_iff, hashable_iff, hu]

theorem allHashable_eq : ∀ {xs ys : List Val}, AlikeAll m xs ys → allHashable xs = allHashable ys
  | [], [], _ => rfl
  | [], _ :: _, h => h.elim
  | _ :: _, [], h => h.elim
  | x :: xs, y :: ys, h => by simp only [allHashable, h.1.hashable, allHashable_eq h.2]

theorem alikeAll_all {p : Val → Bool} (hp : ∀ {a b}, Alike m a b → p a = p b) : ∀ {xs ys : List Val}, AlikeAll m xs ys → xs.all p = ys.all p
  | [], [], _ => rfl
  | [], _ :: _, h => h.elim
  | _ :: _, [], h => h.elim
  | x :: xs, y :: ys, h => by simp only [List.all_cons, hp h.1, alikeAll_all hp h.2]

theorem Alike.optListOf {p : Val → Bool} (hp : ∀ {a b}, Alike m a b → p a = p b) {a b : Val} (h : Alike m a b) : optListOf p a = optListOf p b := by
  have hi := h.iter
  obtain ⟨h, -, -, -, -⟩ := h
  cases a <;> cases b <;> first
    | exact Bool.noConfusion h
    | rfl
    | skip
  exact alikeAll_all hp hi

theorem Alike.listType {p : Val → Bool} (hp : ∀ {a b}, Alike m a b → p a = p b) {a b : Val} (h : Alike m a b) : listType a p = listType b p := by
  have hi := h.iter
  obtain ⟨h, -, -, -, -⟩ := h
  cases a <;> cases b <;> first
    | exact Bool.noConfusion h
    | rfl
    | skip
  exact alikeAll_all hp hi

theorem condMqlAll_eq {cfg : Cfg} : ∀ {xs ys : List Val}, (∀ x ∈ xs, ∀ y, Alike m x y → condMql cfg x = condMql cfg y) → AlikeAll m xs ys →
    condMqlAll cfg xs = condMqlAll cfg ys
  | [], [], _, _ => rfl
  | [], _ :: _, _, h => h.elim
  | _ :: _, [], _, h => h.elim
  | x :: xs, y :: ys, ih, h => by
    simp only [condMqlAll, (pyEq_condition h.1.eq).1, ih x (by simp) y h.1, condMqlAll_eq (fun z hz => ih z (by simp [hz])) h.2]

theorem condMql_eq {cfg : Cfg} : ∀ (a b : Val), Alike m a b → condMql cfg a = condMql cfg b := by
  intro a
  induction a using Val.childInd with
  | step a ih =>
    intro b h
    have hc := h
    obtain ⟨h, -, -, -, -⟩ := h
    cases a <;> cases b <;> first
      | exact Bool.noConfusion h
      | (simp only [condMql]; done)
      | skip
    case cond.cond l o r l' o' r' =>
      simp only [Verif.pyEq, Bool.and_eq_true, beq_iff_eq] at h
      have hl : Alike m l l' := hc.child (by simp [Val.children]) (by simp [Val.children]) h.1.1
      have hr : Alike m r r' := hc.child (by simp [Val.children]) (by simp [Val.children]) h.2
      simp only [condMql, rhsMql, h.1.2, hl.translate, hr.translate, hr.cases_on.2.2.2.2.2, (pyEq_class h.2).2.2.1, isScalar_eq _ _ h.2]
    case boolCond.boolCond c o k cs c' o' k' cs' =>
      simp only [Verif.pyEq, Bool.and_eq_true, beq_iff_eq] at h
      have hx : AlikeAll m cs cs' := hc.children (fun _ h => h) (fun _ h => h) h.2
      have e : condMqlAll cfg cs = condMqlAll cfg cs' := condMqlAll_eq (cfg := cfg) (fun x hx y => ih x hx y) hx
      simp only [condMql, h.1.1.2, e]

/-! ### Objects -/

/-- Metrics that are alike. -/
structure AlikeMetric (m : Bool) (a b : MetricObj) : Prop where
  publicName : Alike m a.publicName b.publicName
  mri : Alike m a.mri b.mri
  id : Alike m a.id b.id

/-- Timeseries that are alike. -/
structure AlikeTs (m : Bool) (a b : TimeseriesObj) : Prop where
  metric : AlikeMetric m a.metric b.metric
  aggregate : Alike m a.aggregate b.aggregate
  aggregateParams : Alike m a.aggregateParams b.aggregateParams
  filters : Alike m a.filters b.filters
  groupby : Alike m a.groupby b.groupby

mutual
/-- Queries of the metrics layer that are alike; other objects need only be equal. -/
def AlikeM (m : Bool) : MVal → MVal → Prop
  | .val v, .val w => Alike m v w
  | .ts t, .ts u => AlikeTs m t u
  | .formula n p a f g, .formula n' p' a' f' g' => Alike m n n' ∧ AlikeM m p p' ∧ Alike m a a' ∧ Alike m f f' ∧ Alike m g g'
  | .list xs, .list ys => AlikeMs m xs ys
  | .tuple xs, .tuple ys => AlikeMs m xs ys
  | .metric a, .metric b => a.pyEq b = true
  | .rollup a, .rollup b => a.pyEq b = true
  | .scope a, .scope b => a.pyEq b = true
  | .data a, .data b => a.pyEq b = true
  | _, _ => False

/-- Lists of such objects. -/
def AlikeMs (m : Bool) : List MVal → List MVal → Prop
  | [], [] => True
  | x :: xs, y :: ys => AlikeM m x y ∧ AlikeMs m xs ys
  | _, _ => False
end

/-- What is asked of the values of an object. -/
def Fine (m : Bool) (v : Val) : Prop := Ordinary v ∧ Told m v

theorem alike_of {a b : Val} (h : Verif.pyEq a b = true) (ha : Fine m a) (hb : Fine m b) : Alike m a b := ⟨h, ha.1, hb.1, ha.2, hb.2⟩

theorem alikeMs_of : ∀ {xs ys : List MVal}, (∀ x ∈ xs, ∀ y ∈ ys, x.pyEq y = true → AlikeM m x y) → mvalEqAll xs ys = true → AlikeMs m xs ys
  | [], [], _, _ => trivial
  | [], _ :: _, _, h => by simp [mvalEqAll] at h
  | _ :: _, [], _, h => by simp [mvalEqAll] at h
  | x :: xs, y :: ys, ih, h => by
    simp only [mvalEqAll, Bool.and_eq_true] at h
    exact ⟨ih x (by simp) y (by simp) h.1, alikeMs_of (fun a ha b hb => ih a (by simp [ha]) b (by simp [hb])) h.2⟩

theorem alikeM_of : ∀ x y : MVal, x.pyEq y = true → Entirely (Fine m) x → Entirely (Fine m) y → AlikeM m x y := by
  intro x
  induction x using MVal.full with
  | val v =>
    intro y h hx hy
    cases y <;> simp only [MVal.pyEq, Bool.false_eq_true] at h
    exact alike_of h (hx _ (.val _)) (hy _ (.val _))
  | metric a => intro y h hx hy; cases y <;> simp only [MVal.pyEq, Bool.false_eq_true] at h; exact h
  | ts t =>
    intro y h hx hy
    cases y <;> simp only [MVal.pyEq, Bool.false_eq_true] at h
    simp only [TimeseriesObj.pyEq, MetricObj.pyEq, Bool.and_eq_true] at h
    obtain ⟨⟨⟨⟨⟨⟨h1, h2⟩, h3⟩, h4⟩, h5⟩, h6⟩, h7⟩ := h
    refine ⟨⟨alike_of h1 ?_ ?_, alike_of h2 ?_ ?_, alike_of h3 ?_ ?_⟩, alike_of h4 ?_ ?_, alike_of h5 ?_ ?_, alike_of h6 ?_ ?_, alike_of h7 ?_ ?_⟩ <;>
      first
        | (refine hx _ (.ts _ _ ?_); simp; done)
        | (refine hy _ (.ts _ _ ?_); simp; done)
  | formula n p a f g ih =>
    intro y h hx hy
    cases y <;> simp only [MVal.pyEq, Bool.false_eq_true] at h
    simp only [Bool.and_eq_true] at h
    obtain ⟨⟨⟨⟨h1, h2⟩, h3⟩, h4⟩, h5⟩ := h
    refine ⟨alike_of h1 ?_ ?_, ih _ h2 hx.params hy.params, alike_of h3 ?_ ?_, alike_of h4 ?_ ?_, alike_of h5 ?_ ?_⟩ <;>
      first
        | (refine hx _ (.formula _ _ _ _ _ _ ?_); simp; done)
        | (refine hy _ (.formula _ _ _ _ _ _ ?_); simp; done)
  | rollup r => intro y h hx hy; cases y <;> simp only [MVal.pyEq, Bool.false_eq_true] at h; exact h
  | scope s => intro y h hx hy; cases y <;> simp only [MVal.pyEq, Bool.false_eq_true] at h; exact h
  | list xs ih =>
    intro y h hx hy
    cases y <;> simp only [MVal.pyEq, Bool.false_eq_true] at h
    exact alikeMs_of (fun a ha b hb e => ih a ha b e (hx.item (.list _) ha) (hy.item (.list _) hb)) h
  | tuple xs ih =>
    intro y h hx hy
    cases y <;> simp only [MVal.pyEq, Bool.false_eq_true] at h
    exact alikeMs_of (fun a ha b hb e => ih a ha b e (hx.item (.tuple _) ha) (hy.item (.tuple _) hb)) h
  | data d => intro y h hx hy; cases y <;> simp only [MVal.pyEq, Bool.false_eq_true] at h; exact h

/-! ### Validation -/

theorem AlikeMetric.validate {a b : MetricObj} (h : AlikeMetric m a b) : a.validate = b.validate := by
  simp only [MetricObj.validate, h.publicName.classes.1, h.publicName.classes.2.1, h.mri.classes.1, h.mri.classes.2.1, h.id.classes.1,
    h.id.classes.2.2.1]

theorem AlikeTs.validate {a b : TimeseriesObj} (h : AlikeTs m a b) : a.validate = b.validate := by
  simp only [TimeseriesObj.validate, h.metric.validate, h.aggregate.classes.2.1, h.aggregateParams.optListOf (fun h => (pyEq_class h.eq).1),
    h.filters.optListOf (fun h => h.cases_on.2.2.2.2.1), h.groupby.optListOf (fun h => h.classes.2.2.2.1)]

/-- Keys that are alike one by one. -/
def AlikeKeys (m : Bool) : List (List Val) → List (List Val) → Prop
  | [], [] => True
  | x :: xs, y :: ys => AlikeAll m x y ∧ AlikeKeys m xs ys
  | _, _ => False

theorem alikeKeys_append : ∀ {as bs cs ds : List (List Val)}, AlikeKeys m as bs → AlikeKeys m cs ds → AlikeKeys m (as ++ cs) (bs ++ ds)
  | [], [], _, _, _, h => h
  | [], _ :: _, _, _, h, _ => h.elim
  | _ :: _, [], _, _, h, _ => h.elim
  | _ :: _, _ :: _, _, _, h, h' => ⟨h.1, alikeKeys_append h.2 h'⟩

theorem alikeAll_eq : ∀ {xs ys zs ws : List Val}, AlikeAll m xs ys → AlikeAll m zs ws → pyEqList xs zs = pyEqList ys ws
  | [], [], [], [], _, _ => rfl
  | [], [], _ :: _, _ :: _, _, _ => rfl
  | _ :: _, _ :: _, [], [], _, _ => rfl
  | x :: xs, y :: ys, z :: zs, w :: ws, h, h' => by simp only [pyEqList, h.1.pyEq h'.1, alikeAll_eq h.2 h'.2]
  | [], _ :: _, _, _, h, _ => h.elim
  | _ :: _, [], _, _, h, _ => h.elim
  | _, _, [], _ :: _, _, h => h.elim
  | _, _, _ :: _, [], _, h => h.elim

theorem alikeKeys_filter {k l : List Val} (hk : AlikeAll m k l) : ∀ {xs ys : List (List Val)}, AlikeKeys m xs ys →
    AlikeKeys m (xs.filter fun x => !pyEqList k x) (ys.filter fun y => !pyEqList l y)
  | [], [], _ => trivial
  | [], _ :: _, h => h.elim
  | _ :: _, [], h => h.elim
  | x :: xs, y :: ys, h => by
    simp only [List.filter_cons, alikeAll_eq hk h.1]
    split
    · exact ⟨h.1, alikeKeys_filter hk h.2⟩
    · exact alikeKeys_filter hk h.2

theorem keySet_eq : ∀ {xs ys : List (List Val)}, AlikeKeys m xs ys → AlikeKeys m (keySet xs) (keySet ys)
  | [], [], _ => trivial
  | [], _ :: _, h => h.elim
  | _ :: _, [], h => h.elim
  | _ :: _, _ :: _, h => ⟨h.1, alikeKeys_filter h.1 (keySet_eq h.2)⟩

theorem AlikeKeys.length : ∀ {xs ys : List (List Val)}, AlikeKeys m xs ys → xs.length = ys.length
  | [], [], _ => rfl
  | [], _ :: _, h => h.elim
  | _ :: _, [], h => h.elim
  | _ :: _, _ :: _, h => by simp [h.2.length]

theorem optGroupKey_eq {a b : Val} (h : Alike m a b) : Agree (AlikeKeys m) (optGroupKey a) (optGroupKey b) := by
  simp only [optGroupKey, groupKey, h.classes.1]
  split
  · rcases h.seq with ⟨h1, h2⟩ | ⟨k, xs, k', ys, h1, h2, h3⟩
    · rw [h1, h2]; rfl
    · rw [h1, h2]
      simp only [allHashable_eq h3]
      split
      · exact ⟨h3, trivial⟩
      · rfl
  · trivial

/-- The results of the scan are alike. -/
def AlikeScan (m : Bool) (p q : List (List Val) × Bool) : Prop := AlikeKeys m p.1 q.1 ∧ p.2 = q.2

theorem scanAll_eq : ∀ {xs ys : List MVal}, (∀ x ∈ xs, ∀ y, AlikeM m x y → Agree (AlikeScan m) (scanFormula x) (scanFormula y)) → AlikeMs m xs ys →
    Agree (AlikeScan m) (scanAll xs) (scanAll ys)
  | [], [], _, _ => ⟨trivial, rfl⟩
  | [], _ :: _, _, h => h.elim
  | _ :: _, [], _, h => h.elim
  | x :: xs, y :: ys, ih, h => by
    simp only [scanAll]
    refine (ih x (by simp) y h.1).bind fun p q hpq => (scanAll_eq (fun z hz => ih z (by simp [hz])) h.2).bind fun p' q' hpq' => ?_
    exact ⟨alikeKeys_append hpq.1 hpq'.1, by rw [hpq.2, hpq'.2]⟩

theorem scan_eq : ∀ x : MVal, (∀ y, AlikeM m x y → Agree (AlikeScan m) (scanFormula x) (scanFormula y)) ∧
    ∀ y, AlikeM m x y → Agree (AlikeScan m) (scanParams x) (scanParams y) := by
  intro x
  induction x using MVal.full with
  | val v =>
    refine ⟨fun y h => ?_, fun y h => ?_⟩ <;> cases y <;> try exact h.elim
    · exact ⟨trivial, rfl⟩
    · rename_i w
      have h : Alike m v w := h
      simp only [scanParams, h.truthy]
      rcases h.seq with ⟨h1, h2⟩ | ⟨k, xs, k', ys, h1, h2, h3⟩
      · simp only [h1, h2]
        split
        · rfl
        · exact ⟨trivial, rfl⟩
      · simp only [h1, h2, Option.isNone_some, Bool.and_false, Bool.false_eq_true, if_false]
        exact ⟨trivial, rfl⟩
  | metric a => refine ⟨fun y h => ?_, fun y h => ?_⟩ <;> cases y <;> first | exact h.elim | exact ⟨trivial, rfl⟩ | rfl
  | ts t =>
    refine ⟨fun y h => ?_, fun y h => ?_⟩ <;> cases y <;> first | exact h.elim | skip
    · simp only [scanFormula]
      exact (optGroupKey_eq (AlikeTs.groupby h)).bind fun g g' hg => ⟨hg, rfl⟩
    · rfl
  | formula n p a f g ih =>
    refine ⟨fun y h => ?_, fun y h => ?_⟩ <;> cases y <;> first | exact h.elim | skip
    · obtain ⟨-, h1, -, -, h2⟩ := h
      simp only [scanFormula]
      refine (optGroupKey_eq h2).bind fun g g' hg => (ih.2 _ h1).bind fun p q hpq => ?_
      exact ⟨alikeKeys_append hg hpq.1, hpq.2⟩
    · rfl
  | rollup a => refine ⟨fun y h => ?_, fun y h => ?_⟩ <;> cases y <;> first | exact h.elim | exact ⟨trivial, rfl⟩ | rfl
  | scope a => refine ⟨fun y h => ?_, fun y h => ?_⟩ <;> cases y <;> first | exact h.elim | exact ⟨trivial, rfl⟩ | rfl
  | list xs ih =>
    refine ⟨fun y h => ?_, fun y h => ?_⟩ <;> cases y <;> first | exact h.elim | skip
    · exact ⟨trivial, rfl⟩
    · exact scanAll_eq (fun x hx => (ih x hx).1) h
  | tuple xs ih =>
    refine ⟨fun y h => ?_, fun y h => ?_⟩ <;> cases y <;> first | exact h.elim | skip
    · exact ⟨trivial, rfl⟩
    · exact scanAll_eq (fun x hx => (ih x hx).1) h
  | data d => refine ⟨fun y h => ?_, fun y h => ?_⟩ <;> cases y <;> first | exact h.elim | exact ⟨trivial, rfl⟩ | rfl

theorem AlikeM.isFormulaParam {x y : MVal} (h : AlikeM m x y) : x.isFormulaParam = y.isFormulaParam := by
  cases x <;> cases y <;> first
    | exact h.elim
    | rfl
    | exact (Alike.classes (m := m) h).2.2.2.2.2.2

theorem alikeMs_all : ∀ {xs ys : List MVal}, AlikeMs m xs ys → xs.all MVal.isFormulaParam = ys.all MVal.isFormulaParam
  | [], [], _ => rfl
  | [], _ :: _, h => h.elim
  | _ :: _, [], h => h.elim
  | x :: xs, y :: ys, h => by simp only [List.all_cons, h.1.isFormulaParam, alikeMs_all h.2]

theorem alikeMs_vals : ∀ {xs ys : List Val}, AlikeAll m xs ys → AlikeMs m (xs.map .val) (ys.map .val)
  | [], [], _ => trivial
  | [], _ :: _, h => h.elim
  | _ :: _, [], h => h.elim
  | _ :: _, _ :: _, h => ⟨h.1, alikeMs_vals h.2⟩

theorem AlikeM.seq {x y : MVal} (h : AlikeM m x y) : (x.seq? = none ∧ y.seq? = none) ∨
    ∃ xs ys, x.seq? = some xs ∧ y.seq? = some ys ∧ AlikeMs m xs ys := by
  cases x <;> cases y <;> first
    | exact h.elim
    | exact .inl ⟨rfl, rfl⟩
    | exact .inr ⟨_, _, rfl, rfl, h⟩
    | skip
  rcases Alike.seq (m := m) h with ⟨h1, h2⟩ | ⟨k, xs, k', ys, h1, h2, h3⟩
  · exact .inl ⟨by simp [MVal.seq?, h1], by simp [MVal.seq?, h2]⟩
  · exact .inr ⟨_, _, by simp only [MVal.seq?, h1, Option.map_some], by simp only [MVal.seq?, h2, Option.map_some], alikeMs_vals h3⟩

theorem validateFormula_eq {n n' : Val} {p p' : MVal} {g g' : Val} (hn : Alike m n n') (hp : AlikeM m p p') (hg : Alike m g g') :
    validateFormula n p g = validateFormula n' p' g' := by
  simp only [validateFormula, hn.classes.2.1]
  refine congrArg _ (funext fun _ => ?_)
  rcases hp.seq with ⟨h1, h2⟩ | ⟨xs, ys, h1, h2, h3⟩
  · rw [h1, h2]
  · rw [h1, h2]
    simp only [alikeMs_all h3]
    refine congrArg _ (funext fun _ => ?_)
    refine Agree.eq.1 ((optGroupKey_eq hg).bind fun k k' hk => ((scan_eq p).2 _ hp).bind fun s s' hs => Agree.eq.2 ?_)
    rw [hs.2, (keySet_eq (alikeKeys_append hk hs.1)).length]

theorem AlikeM.validateQuery {x y : MVal} (h : AlikeM m x y) : x.validateQuery = y.validateQuery := by
  cases x <;> cases y <;> first
    | exact h.elim
    | rfl
    | exact AlikeTs.validate h
    | exact validateFormula_eq h.1 h.2.1 h.2.2.2.2

theorem alikeMs_eq : ∀ {xs ys : List MVal}, (∀ x ∈ xs, ∀ y, AlikeM m x y → x.pyEq y = true) → AlikeMs m xs ys → mvalEqAll xs ys = true
  | [], [], _, _ => rfl
  | [], _ :: _, _, h => h.elim
  | _ :: _, [], _, h => h.elim
  | x :: xs, y :: ys, ih, h => by
    simp only [mvalEqAll, Bool.and_eq_true]
    exact ⟨ih x (by simp) y h.1, alikeMs_eq (fun z hz => ih z (by simp [hz])) h.2⟩

theorem AlikeM.eq : ∀ {x y : MVal}, AlikeM m x y → x.pyEq y = true := by
  intro x
  induction x using MVal.full with
  | val v => intro y h; cases y <;> first | exact h.elim | exact Alike.eq h
  | metric a => intro y h; cases y <;> first | exact h.elim | exact h
  | ts t =>
    intro y h
    cases y <;> first | exact h.elim | skip
    obtain ⟨⟨h1, h2, h3⟩, h4, h5, h6, h7⟩ := h
    simp only [MVal.pyEq, TimeseriesObj.pyEq, MetricObj.pyEq, h1.eq, h2.eq, h3.eq, h4.eq, h5.eq, h6.eq, h7.eq, Bool.and_self]
  | formula n p a f g ih =>
    intro y h
    cases y <;> first | exact h.elim | skip
    obtain ⟨h1, h2, h3, h4, h5⟩ := h
    simp only [MVal.pyEq, h1.eq, ih h2, h3.eq, h4.eq, h5.eq, Bool.and_self]
  | rollup a => intro y h; cases y <;> first | exact h.elim | exact h
  | scope a => intro y h; cases y <;> first | exact h.elim | exact h
  | list xs ih => intro y h; cases y <;> first | exact h.elim | exact alikeMs_eq (fun x hx y => ih x hx) h
  | tuple xs ih => intro y h; cases y <;> first | exact h.elim | exact alikeMs_eq (fun x hx y => ih x hx) h
  | data d => intro y h; cases y <;> first | exact h.elim | exact h

/-! ### Printing -/

theorem filtersMql_eq {a b : Val} (h : Alike m a b) : filtersMql a = filtersMql b := by
  simp only [filtersMql, h.classes.1]
  split
  · exact Agree.eq.1 (h.items.bind fun xs ys hx => Agree.eq.2 (by rw [condMqlAll_eq (fun x _ y => condMql_eq x y) hx]))
  · rfl

theorem groupbyMql_eq {a b : Val} (h : Alike m a b) : groupbyMql a = groupbyMql b := by
  simp only [groupbyMql, h.classes.1]
  split
  · exact Agree.eq.1 (h.items.bind fun xs ys hx => Agree.eq.2 (by rw [translateAll_eq hx]))
  · rfl

theorem aggregateParamsMql_eq {a b : Val} (h : Alike m a b) : aggregateParamsMql a = aggregateParamsMql b := by
  simp only [aggregateParamsMql, h.truthy]
  split
  · exact Agree.eq.1 (h.items.bind fun xs ys hx => Agree.eq.2 (by rw [translateAll_eq hx]))
  · rfl

theorem metricMql_other {a : MetricObj} (h1 : a.mri.isStr = false) (h2 : a.mri.given = true) : metricMql a = .error .assertion := by
  obtain ⟨p, q, i⟩ := a
  cases q <;> first | rfl | (simp [Val.isStr, Val.given] at h1 h2; done)

theorem metricMql_none {p i : Val} (h1 : p.isStr = false) (h2 : p.given = true) : metricMql ⟨p, .none, i⟩ = .error .assertion := by
  cases p <;> first | rfl | (simp [Val.isStr, Val.given] at h1 h2; done)

theorem showable_of {v : Val} (h : v.isStr = true ∨ v.given = false) : Showable v := by
  cases v <;> first | exact .str _ | exact .none | (simp [Val.isStr, Val.given] at h; done)

theorem metricMql_eq {a b : MetricObj} (h : AlikeMetric m a b) : metricMql a = metricMql b := by
  obtain ⟨h1, h2, -⟩ := h
  obtain ⟨p, q, i⟩ := a
  obtain ⟨p', q', i'⟩ := b
  simp only at h1 h2
  by_cases hq : q.isStr = true ∨ q.given = false
  · have e := h2.showable (showable_of hq)
    subst e
    cases q <;> try (simp [Val.isStr, Val.given] at hq; done)
    · by_cases hp : p.isStr = true ∨ p.given = false
      · have e := h1.showable (showable_of hp)
        subst e
        cases p <;> first | rfl | (simp [Val.isStr, Val.given] at hp; done)
      · simp only [not_or, Bool.not_eq_true, Bool.not_eq_false] at hp
        rw [metricMql_none hp.1 hp.2, metricMql_none (h1.classes.2.1 ▸ hp.1) (h1.classes.1 ▸ hp.2)]
    · rfl
  · simp only [not_or, Bool.not_eq_true, Bool.not_eq_false] at hq
    rw [metricMql_other hq.1 hq.2, metricMql_other (a := ⟨p', q', i'⟩) (h2.classes.2.1 ▸ hq.1) (h2.classes.1 ▸ hq.2)]

theorem items_showable {a : Val} (h : ∀ k xs, SeqOf a k xs → ∀ x ∈ xs, Showable x) {xs : List Val} (hi : iterItems a = .ok xs) : ∀ x ∈ xs, Showable x := by
  cases a <;> simp only [iterItems, Val.seq?, reduceCtorEq, Except.ok.injEq] at hi <;> subst hi
  · intro x hx
    obtain ⟨c, -, rfl⟩ := List.mem_map.1 hx
    exact .str _
  · intro x hx
    obtain ⟨c, -, rfl⟩ := List.mem_map.1 hx
    exact .int _
  · exact h _ _ (.list _)
  · exact h _ _ (.tuple _)

section
variable [R : PyRepr]

theorem pyStrs_eq : ∀ {xs ys : List Val}, AlikeAll m xs ys → (∀ x ∈ xs, Showable x) →
    (xs.map fun x => pyStr (.val x)) = ys.map fun y => pyStr (.val y)
  | [], [], _, _ => rfl
  | [], _ :: _, h, _ => h.elim
  | _ :: _, [], h, _ => h.elim
  | x :: xs, y :: ys, h, hs => by
    simp only [List.map_cons, h.1.showable (hs x (by simp)), pyStrs_eq h.2 fun z hz => hs z (by simp [hz])]

theorem shown_eq {a b : Val} (h : Alike m a b) (hs : ∀ k xs, SeqOf a k xs → ∀ x ∈ xs, Showable x) {f : List Str → Str} :
    (do let xs ← iterItems a; .ok (f (xs.map fun x => pyStr (.val x))) : Except Err Str) =
      (do let xs ← iterItems b; .ok (f (xs.map fun x => pyStr (.val x)))) := by
  have hi := h.items
  cases ha : iterItems a with
  | error e =>
    cases hb : iterItems b with
    | error e' => rw [ha, hb] at hi; cases hi; rfl
    | ok ys => rw [ha, hb] at hi; exact hi.elim
  | ok xs =>
    cases hb : iterItems b with
    | error e' => rw [ha, hb] at hi; exact hi.elim
    | ok ys =>
      rw [ha, hb] at hi
      simp only [ok_bind, pyStrs_eq hi (items_showable hs ha)]

theorem formulaParamsMql_eq {a b : Val} (h : Alike m a b) (hs : ∀ k xs, SeqOf a k xs → ∀ x ∈ xs, Showable x) :
    formulaParamsMql a = formulaParamsMql b := by
  simp only [formulaParamsMql, h.truthy]
  split
  · exact shown_eq h hs (f := fun ts => ['('] ++ joinWith c!", " ts ++ [')'])
  · rfl

theorem formulaHead_eq {n n' a a' : Val} {ps : List Str} (hn : Alike m n n') (hs : Showable n) (h : Alike m a a')
    (ha : ∀ k xs, SeqOf a k xs → ∀ x ∈ xs, Showable x) : formulaHead n a ps = formulaHead n' a' ps := by
  rw [← hn.showable hs]
  simp only [formulaHead, formulaParamsMql_eq h ha]

theorem timeseriesMql_eq {t u : TimeseriesObj} (h : AlikeTs m t u) (hs : Showable t.aggregate) : timeseriesMql t = timeseriesMql u := by
  simp only [timeseriesMql, metricMql_eq h.metric, aggregateParamsMql_eq h.aggregateParams, filtersMql_eq h.filters, groupbyMql_eq h.groupby,
    h.aggregate.showable hs]

theorem paramsMqlAll_eq : ∀ {xs ys : List MVal}, (∀ x ∈ xs, ∀ y, AlikeM m x y → paramMql x = paramMql y) → AlikeMs m xs ys →
    paramsMqlAll xs = paramsMqlAll ys
  | [], [], _, _ => rfl
  | [], _ :: _, _, h => h.elim
  | _ :: _, [], _, h => h.elim
  | x :: xs, y :: ys, ih, h => by
    simp only [paramsMqlAll, ih x (by simp) y h.1, paramsMqlAll_eq (fun z hz => ih z (by simp [hz])) h.2]

theorem print_eq : ∀ x : MVal, (Legible x → ∀ y, AlikeM m x y → paramMql x = paramMql y) ∧
    ((∀ v, x = .val v → Showable v) → (∀ xs, MSeq x xs → ∀ z ∈ xs, Legible z) → ∀ y, AlikeM m x y → paramsMql x = paramsMql y) := by
  intro x
  induction x using MVal.full with
  | val v =>
    refine ⟨fun hl y h => ?_, fun hv _ y h => ?_⟩ <;> cases y <;> first | exact h.elim | skip
    · cases hl with
      | val _ hs => rw [Alike.showable h hs]
    · rw [Alike.showable h (hv _ rfl)]
  | ts t =>
    refine ⟨fun hl y h => ?_, fun hv _ y h => ?_⟩ <;> cases y <;> first | exact h.elim | skip
    · cases hl with
      | ts _ hs => exact timeseriesMql_eq h hs
    · rfl
  | formula n p a f g ih =>
    refine ⟨fun hl y h => ?_, fun hv _ y h => ?_⟩ <;> cases y <;> first | exact h.elim | skip
    · obtain ⟨h1, h2, h3, h4, h5⟩ := h
      cases hl with
      | formula _ _ _ _ _ l1 l2 l3 l4 =>
        simp only [paramMql, ih.2 l2 l3 _ h2, formulaHead_eq h1 l1 h3 l4, filtersMql_eq h4, groupbyMql_eq h5]
    · rfl
  | list xs ih =>
    refine ⟨fun hl y h => ?_, fun hv hl y h => ?_⟩ <;> cases y <;> first | exact h.elim | skip
    · cases hl
    · exact paramsMqlAll_eq (fun x hx y => (ih x hx).1 (hl _ (.list _) x hx) y) h
  | tuple xs ih =>
    refine ⟨fun hl y h => ?_, fun hv hl y h => ?_⟩ <;> cases y <;> first | exact h.elim | skip
    · cases hl
    · exact paramsMqlAll_eq (fun x hx y => (ih x hx).1 (hl _ (.tuple _) x hx) y) h
  | _ =>
    refine ⟨fun hl y h => ?_, fun hv _ y h => ?_⟩ <;> cases y <;> first | exact h.elim | skip
    · cases hl
    · rfl

end

/-! ### Optimisation -/

/-- Filters that are alike, if there are any. -/
def AlikeFilters (m : Bool) : Option Val → Option Val → Prop
  | none, none => True
  | some a, some b => Alike m a b
  | _, _ => False

theorem optimizeFilters_eq {a b : Val} (h : Alike m a b) : Agree (AlikeFilters m) (optimizeFilters a) (optimizeFilters b) := by
  simp only [optimizeFilters, h.classes.1]
  split
  · refine h.items.bind fun xs ys hx => ?_
    have ho : Agree (fun p q => AlikeFilters m (p.map .list) (q.map .list)) (Verif.optimize xs) (Verif.optimize ys) := by
      simp only [Verif.optimize]
      refine (optimizeLoop_eq hx).bind fun p q hpq => ?_
      obtain ⟨new, o⟩ := p
      obtain ⟨new', o'⟩ := q
      obtain ⟨hn, rfl⟩ := hpq
      cases o
      · exact trivial
      · exact alike_list hn
    exact ho.bind fun p q hpq => hpq
  · exact trivial

theorem optimizeQuery_eq {x y : MVal} (h : AlikeM m x y) : Agree (AlikeM m) (optimizeQuery x) (optimizeQuery y) := by
  cases x <;> cases y <;> first
    | exact h.elim
    | exact h
    | skip
  · rename_i t u
    simp only [optimizeQuery]
    refine (optimizeFilters_eq (AlikeTs.filters h)).bind fun r s hr => ?_
    cases r <;> cases s <;> first | exact hr.elim | skip
    · exact h
    · rename_i f f'
      have h' : AlikeTs m ⟨t.metric, t.aggregate, t.aggregateParams, f, t.groupby⟩ ⟨u.metric, u.aggregate, u.aggregateParams, f', u.groupby⟩ :=
        ⟨h.metric, h.aggregate, h.aggregateParams, hr, h.groupby⟩
      simp only [TimeseriesObj.replaceFilters, mkTimeseries, asMetric, ok_bind, h'.validate]
      cases TimeseriesObj.validate _
      · rfl
      · exact h'
  · simp only [optimizeQuery]
    refine (optimizeFilters_eq h.2.2.2.1).bind fun r s hr => ?_
    cases r <;> cases s <;> first | exact hr.elim | skip
    · exact h
    · exact ⟨h.1, h.2.1, h.2.2.1, hr, h.2.2.2.2⟩

theorem optimizeQuery_legible {x y : MVal} (h : optimizeQuery x = .ok y) (hl : Legible x) : Legible y := by
  cases hl with
  | val v hs => cases h; exact .val v hs
  | ts t hs =>
    simp only [optimizeQuery, bind_eq_ok, Except.ok.injEq] at h
    obtain ⟨r, -, u, hu, rfl⟩ := h
    refine .ts _ ?_
    cases r with
    | none => cases hu; exact hs
    | some f =>
      simp only [TimeseriesObj.replaceFilters, mkTimeseries, asMetric, ok_bind, bind_eq_ok, Except.ok.injEq] at hu
      obtain ⟨-, -, rfl⟩ := hu
      exact hs
  | formula n p a f g h1 h2 h3 h4 =>
    simp only [optimizeQuery, bind_eq_ok, Except.ok.injEq] at h
    obtain ⟨r, -, rfl⟩ := h
    exact .formula _ _ _ _ _ h1 h2 h3 h4

/-! ### Hashes -/

theorem hashAll_eq : ∀ {xs ys : List Val}, pyEqList xs ys = true → (∀ x ∈ xs, Told m x) → (∀ y ∈ ys, Told m y) → hashTrees xs = hashTrees ys := by
  intro xs ys h hx hy
  refine hashTrees_eq (fun x h1 y h2 e => pyEq_hash x y e ?_) h
  cases m
  · exact .inr ⟨hx x h1, hy y h2⟩
  · exact .inl ⟨hx x h1, hy y h2⟩

theorem mvalHashes_eq : ∀ {xs ys : List MVal}, (∀ x ∈ xs, ∀ y ∈ ys, x.pyEq y = true → x.hashTree = y.hashTree) → mvalEqAll xs ys = true →
    mvalHashes xs = mvalHashes ys
  | [], [], _, _ => rfl
  | [], _ :: _, _, h => by simp [mvalEqAll] at h
  | _ :: _, [], _, h => by simp [mvalEqAll] at h
  | x :: xs, y :: ys, ih, h => by
    simp only [mvalEqAll, Bool.and_eq_true] at h
    simp only [mvalHashes, ih x (by simp) y (by simp) h.1, mvalHashes_eq (fun a ha b hb => ih a (by simp [ha]) b (by simp [hb])) h.2]

theorem mval_hash : ∀ x y : MVal, x.pyEq y = true → Entirely (Told m) x → Entirely (Told m) y → x.hashTree = y.hashTree := by
  intro x
  induction x using MVal.full with
  | val v =>
    intro y h hx hy
    cases y <;> simp only [MVal.pyEq, Bool.false_eq_true] at h
    refine pyEq_hash _ _ h ?_
    have h1 := hx _ (.val _)
    have h2 := hy _ (.val _)
    cases m
    · exact .inr ⟨h1, h2⟩
    · exact .inl ⟨h1, h2⟩
  | metric a =>
    intro y h hx hy
    cases y <;> simp only [MVal.pyEq, Bool.false_eq_true] at h
    simp only [MetricObj.pyEq, Bool.and_eq_true] at h
    simp only [MVal.hashTree, MetricObj.hashTree]
    rw [hashAll_eq (by simp only [pyEqList, h.1.1, h.1.2, h.2, Bool.and_self]) (fun x h => hx x (.metric _ _ h)) fun y h => hy y (.metric _ _ h)]
  | ts t => intro y h hx hy; cases y <;> simp only [MVal.pyEq, Bool.false_eq_true] at h; rfl
  | formula n p a f g ih =>
    intro y h hx hy
    cases y <;> simp only [MVal.pyEq, Bool.false_eq_true, Bool.and_eq_true] at h
    rename_i n' p' a' f' g'
    obtain ⟨⟨⟨⟨h1, h2⟩, h3⟩, h4⟩, h5⟩ := h
    have e1 : hashTree n = hashTree n' := by
      have k1 := hx n (.formula _ _ _ _ _ _ (by simp))
      have k2 := hy n' (.formula _ _ _ _ _ _ (by simp))
      refine pyEq_hash _ _ h1 ?_
      cases m
      · exact .inr ⟨k1, k2⟩
      · exact .inl ⟨k1, k2⟩
    have e2 : hashTrees [a, f, g] = hashTrees [a', f', g'] :=
      hashAll_eq (by simp only [pyEqList, h3, h4, h5, Bool.and_self]) (fun x h => hx x (.formula _ _ _ _ _ _ (List.mem_cons_of_mem _ h)))
        fun y h => hy y (.formula _ _ _ _ _ _ (List.mem_cons_of_mem _ h))
    simp only [MVal.hashTree, e1, e2, ih _ h2 hx.params hy.params]
  | rollup a =>
    intro y h hx hy
    cases y <;> simp only [MVal.pyEq, Bool.false_eq_true] at h
    simp only [RollupObj.pyEq, Bool.and_eq_true] at h
    simp only [MVal.hashTree, RollupObj.hashTree]
    rw [hashAll_eq (by simp only [pyEqList, h.1.1.1, h.1.1.2, h.1.2, h.2, Bool.and_self]) (fun x h => hx x (.rollup _ _ h))
      fun y h => hy y (.rollup _ _ h)]
  | scope s => intro y h hx hy; cases y <;> simp only [MVal.pyEq, Bool.false_eq_true] at h; rfl
  | list xs ih => intro y h hx hy; cases y <;> simp only [MVal.pyEq, Bool.false_eq_true] at h; rfl
  | tuple xs ih =>
    intro y h hx hy
    cases y <;> simp only [MVal.pyEq, Bool.false_eq_true] at h
    simp only [MVal.hashTree, mvalHashes_eq (fun a ha b hb e => ih a ha b e (hx.item (.tuple _) ha) (hy.item (.tuple _) hb)) h]
  | data d => intro y h hx hy; cases y <;> simp only [MVal.pyEq, Bool.false_eq_true] at h; rfl

theorem mvalHashes_error : ∀ {xs : List MVal} {e : Err}, (∀ x ∈ xs, ∀ e, x.hashTree = .error e → e = .typeError) → mvalHashes xs = .error e → e = .typeError
  | [], _, _, h => by cases h
  | x :: xs, e, ih, h => by
    simp only [mvalHashes, bind_eq_error] at h
    rcases h with h | ⟨t, -, h | ⟨ts, -, h⟩⟩
    · exact ih x (by simp) e h
    · exact mvalHashes_error (fun y hy => ih y (by simp [hy])) h
    · cases h

theorem mval_hash_error : ∀ (x : MVal) (e : Err), x.hashTree = .error e → e = .typeError := by
  have hs : ∀ {xs : List Val} {e : Err}, hashTrees xs = .error e → e = .typeError := fun h => hashTrees_error (fun x _ _ => hashTree_error x) h
  intro x
  induction x using MVal.full with
  | val v => intro e h; exact hashTree_error v h
  | metric a =>
    intro e h
    simp only [MVal.hashTree, MetricObj.hashTree, bind_eq_error] at h
    rcases h with h | ⟨t, -, h⟩
    · exact hs h
    · cases h
  | rollup a =>
    intro e h
    simp only [MVal.hashTree, RollupObj.hashTree, bind_eq_error] at h
    rcases h with h | ⟨t, -, h⟩
    · exact hs h
    · cases h
  | formula n p a f g ih =>
    intro e h
    simp only [MVal.hashTree, bind_eq_error] at h
    rcases h with h | ⟨t, -, h | ⟨u, -, h | ⟨w, -, h⟩⟩⟩
    · exact hashTree_error n h
    · exact ih e h
    · exact hs h
    · cases h
  | tuple xs ih =>
    intro e h
    simp only [MVal.hashTree, bind_eq_error] at h
    rcases h with h | ⟨t, -, h⟩
    · exact mvalHashes_error ih h
    · cases h
  | _ => intro e h; cases h; rfl

/-- No hash. -/
def NoHash (x : MVal) : Prop := ∀ t, x.hashTree ≠ .ok t

theorem noHash {x : MVal} (h : NoHash x) : x.hashTree = .error .typeError := by
  cases hx : x.hashTree with
  | error e => rw [mval_hash_error x e hx]
  | ok t => exact (h t hx).elim

theorem mvalHashes_ok : ∀ {xs : List MVal} {ts : List HashTree}, mvalHashes xs = .ok ts → ∀ x ∈ xs, ∃ t, x.hashTree = .ok t
  | [], _, _, x, hx => by cases hx
  | y :: ys, ts, h, x, hx => by
    simp only [mvalHashes, bind_eq_ok] at h
    obtain ⟨t, h1, us, h2, -⟩ := h
    rcases List.mem_cons.1 hx with rfl | hx
    · exact ⟨t, h1⟩
    · exact mvalHashes_ok h2 x hx

theorem scanAll_ts : ∀ {xs : List MVal} {gs : List (List Val)}, (∀ x ∈ xs, ∀ gs, scanFormula x = .ok (gs, true) → NoHash x) →
    scanAll xs = .ok (gs, true) → ∃ x ∈ xs, NoHash x
  | [], _, _, h => by simp [scanAll] at h
  | x :: xs, gs, ih, h => by
    simp only [scanAll, bind_eq_ok] at h
    obtain ⟨⟨g, t⟩, h1, ⟨g', t'⟩, h2, h3⟩ := h
    simp only [Except.ok.injEq, Prod.mk.injEq] at h3
    cases t with
    | true => exact ⟨x, by simp, ih x (by simp) g h1⟩
    | false =>
      have e : t' = true := by simpa using h3.2
      subst e
      obtain ⟨y, hy, h⟩ := scanAll_ts (fun z hz => ih z (by simp [hz])) h2
      exact ⟨y, by simp [hy], h⟩

/-- An object in which a timeseries is found cannot be hashed. -/
theorem scan_noHash : ∀ x : MVal, (∀ gs, scanFormula x = .ok (gs, true) → NoHash x) ∧ ∀ gs, scanParams x = .ok (gs, true) → NoHash x := by
  intro x
  induction x using MVal.full with
  | val v =>
    refine ⟨fun gs h => ?_, fun gs h => ?_⟩
    · simp [scanFormula] at h
    · simp only [scanParams] at h
      split at h <;> simp at h
  | ts t =>
    refine ⟨fun gs h t => by simp [MVal.hashTree], fun gs h => by simp [scanParams] at h⟩
  | formula n p a f g ih =>
    refine ⟨fun gs h t ht => ?_, fun gs h => by simp [scanParams] at h⟩
    simp only [scanFormula, bind_eq_ok] at h
    obtain ⟨k, -, ⟨gs', b⟩, h2, h3⟩ := h
    simp only [Except.ok.injEq, Prod.mk.injEq] at h3
    obtain ⟨-, rfl⟩ := h3
    simp only [MVal.hashTree, bind_eq_ok] at ht
    obtain ⟨u, -, w, hw, -⟩ := ht
    exact ih.2 _ h2 w hw
  | list xs ih =>
    refine ⟨fun gs h => by simp [scanFormula] at h, fun gs h t => by simp [MVal.hashTree]⟩
  | tuple xs ih =>
    refine ⟨fun gs h => by simp [scanFormula] at h, fun gs h t ht => ?_⟩
    simp only [scanParams] at h
    obtain ⟨x, hx, hn⟩ := scanAll_ts (fun x hx => (ih x hx).1) h
    simp only [MVal.hashTree, bind_eq_ok] at ht
    obtain ⟨ts, h1, -⟩ := ht
    obtain ⟨u, hu⟩ := mvalHashes_ok h1 x hx
    exact hn u hu
  | _ => refine ⟨fun gs h => by simp [scanFormula] at h, fun gs h => by simp [scanParams] at h⟩

theorem formula_noHash {n : Val} {p : MVal} {a f g : Val} (h : validateFormula n p g = .ok ()) : (MVal.formula n p a f g).hashTree = .error .typeError := by
  refine noHash fun t ht => ?_
  simp only [validateFormula, bind_eq_ok] at h
  obtain ⟨-, -, h⟩ := h
  cases hs : p.seq? with
  | none => rw [hs] at h; cases h
  | some ps =>
    rw [hs] at h
    simp only [bind_eq_ok, ensure_eq_ok] at h
    obtain ⟨-, -, k, -, ⟨gs, b⟩, h2, -, h3, -⟩ := h
    simp only at h3
    subst h3
    simp only [MVal.hashTree, bind_eq_ok] at ht
    obtain ⟨u, -, w, hw, -⟩ := ht
    exact (scan_noHash p).2 _ h2 w hw

end Verif
