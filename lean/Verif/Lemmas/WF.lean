import Verif.Props.Valid

/-!
# The structural invariant of built values
-/

namespace Verif
open Spec

/-- What an entity object satisfies after construction. -/
structure EntOk (e : EntityObj) : Prop where
  name : OptNewline EntityName e.name
  alias : e.alias ≠ some []
  sample : ∀ f, e.sample = some f → f.leZero = false

/-- What a storage object satisfies after construction. -/
structure StorOk (s : StorageObj) : Prop where
  name : OptNewline EntityName s.name
  sample : ∀ f, s.sample = some f → f.leZero = false

/-- What a relationship object satisfies after construction. -/
structure RelOk (r : RelObj) : Prop where
  lhs : EntOk r.lhs
  lalias : r.lhs.alias.isSome = true
  name : r.name ≠ []
  rhs : EntOk r.rhs
  ralias : r.rhs.alias.isSome = true

/-- An accepted alias. -/
def AliasOk (a : Option Str) : Prop := ∀ s, a = some s → s ≠ [] ∧ OptNewline AliasText s

variable [U : PyUnicode]

/-- Structural description of built values. -/
inductive WF : Val → Prop
  | literal (v) : Literal v → WF v
  | list (xs) : (∀ x ∈ xs, WF x) → WF (.list xs)
  | tuple (xs) : (∀ x ∈ xs, WF x) → WF (.tuple xs)
  | op (o) : WF (.op o)
  | boolOp (o) : WF (.boolOp o)
  | direction (d) : WF (.direction d)
  | dataModel (d) : WF (.dataModel d)
  | other (n) : WF (.other n)
  | limit (n : PyInt) : 1 ≤ n.toInt → n.toInt ≤ 10000 → WF (.limit n)
  | offset (n : PyInt) : 0 ≤ n.toInt → WF (.offset n)
  | granularity (n : PyInt) : 1 ≤ n.toInt → WF (.granularity n)
  | totals (b) : WF (.totals b)
  | extrapolate (b) : WF (.extrapolate b)
  | column (c) : ColOk c → (∀ e, c.entity = some e → EntOk e) → WF (.column c)
  | aliased (c a) : ColOk c → (∀ e, c.entity = some e → EntOk e) → AliasOk a → WF (.aliased c a)
  | curried (isFn n ik inits pk params a) :
      (∀ x ∈ inits, WF x) → (∀ x ∈ params, WF x) →
      (∀ x ∈ inits, (∃ c, x = .column c) ∨ Literal x) → (∀ x ∈ params, Param x ∨ Scalar x) →
      (ik = .absent → inits = []) → (pk = .absent → params = []) →
      OptNewline FunctionName n → AliasOk a → WF (.curried isFn n ik inits pk params a)
  | ident (n) : OptNewline IdentName n → WF (.ident n)
  | lam (k ids body) : (∀ i ∈ ids, OptNewline IdentName i) → WF body → body.isCurried = true →
      WF (.lam k ids body)
  | cond (l o r) : WF l → WF r → ColOrFn l → (o = .isNull ∨ o = .isNotNull → r = .none) →
      (ColOrFn r ∨ Scalar r) → WF (.cond l o r)
  | boolCond (cls o k cs) : (∀ c ∈ cs, WF c) → (∀ c ∈ cs, Cond c) → 2 ≤ cs.length →
      (cls = .and → o = .and) → (cls = .or → o = .or) → WF (.boolCond cls o k cs)
  | orderby (e d) : WF e → ColOrFn e → WF (.orderby e d)
  | limitby (k cs n) : (∀ c ∈ cs, ColOk c) → (∀ c ∈ cs, ∀ e, c.entity = some e → EntOk e) → cs ≠ [] →
      1 ≤ n.toInt → n.toInt ≤ 10000 → WF (.limitby k cs n)
  | entity (e) : EntOk e → WF (.entity e)
  | storage (s) : StorOk s → WF (.storage s)
  | rel (r) : RelOk r → WF (.rel r)
  | join (k rels) : (∀ r ∈ rels, RelOk r) → rels ≠ [] →
      (∀ a n n', Uses rels a n → Uses rels a n' → n = n') → WF (.join k rels)

theorem WF.column_inv {c : ColumnObj} (h : WF (.column c)) :
    ColOk c ∧ ∀ e, c.entity = some e → EntOk e := by
  cases h with
  | literal _ h => cases h
  | column _ h1 h2 => exact ⟨h1, h2⟩

theorem WF.entity_inv {e : EntityObj} (h : WF (.entity e)) : EntOk e := by
  cases h with
  | literal _ h => cases h
  | entity _ h => exact h

theorem WF.rel_inv {r : RelObj} (h : WF (.rel r)) : RelOk r := by
  cases h with
  | literal _ h => cases h
  | rel _ h => exact h

theorem WF.seq_inv {v : Val} {k xs} (h : WF v) (hs : v.seq? = some (k, xs)) : ∀ x ∈ xs, WF x := by
  cases v <;> simp [Val.seq?] at hs
  · obtain ⟨rfl, rfl⟩ := hs
    intro x hx; simp at hx; obtain ⟨c, _, rfl⟩ := hx
    exact .literal _ (.str _)
  · obtain ⟨rfl, rfl⟩ := hs
    intro x hx; simp at hx; obtain ⟨c, _, rfl⟩ := hx
    exact .literal _ (.int _)
  · obtain ⟨rfl, rfl⟩ := hs
    cases h with
    | literal _ h => cases h
    | list _ h => exact h
  · obtain ⟨rfl, rfl⟩ := hs
    cases h with
    | literal _ h => cases h
    | tuple _ h => exact h

omit U in
theorem Spec.SeqOf.seq {v : Val} {k xs} (h : SeqOf v k xs) : v.seq? = some (k, xs) := by cases h <;> rfl

theorem checkOptSeq_shape {check : List Val → Except Err Unit} {v : Val} {r : SeqKind × List Val}
    (h : checkOptSeq check v = .ok r) (hv : WF v) :
    (r.1 = .absent → r.2 = []) ∧ (∀ x ∈ r.2, WF x) := by
  cases v <;> simp only [checkOptSeq, Val.seq?, bind_eq_ok, reduceCtorEq, Except.ok.injEq] at h
  case none => subst h; simp
  all_goals
    obtain ⟨_, _, rfl⟩ := h
    refine ⟨by simp, hv.seq_inv rfl⟩

theorem curried_wf {isFn : Bool} {f i p a : Val}
    {r : Str × (SeqKind × List Val) × (SeqKind × List Val) × Option Str}
    (hi : WF i) (hp : WF p) (h : checkCurried f i p a = .ok r) :
    WF (.curried isFn r.1 r.2.1.1 r.2.1.2 r.2.2.1.1 r.2.2.1.2 r.2.2.2) := by
  have hn : (if false then mkFunction f p a else mkCurried f i p a) =
      .ok (.curried false r.1 r.2.1.1 r.2.1.2 r.2.2.1.1 r.2.2.1.2 r.2.2.2) := by
    simp [mkCurried, h]
  obtain ⟨n, _, _, _, _, a', hx, _, hname, halias⟩ := C09_function_names false f i p a _ hn
  cases hx
  have hc := checkCurried_ok h
  simp only [checkCurried, bind_eq_ok] at h
  obtain ⟨n, hn, _, _, ri, hri, al, hal, rp, hrp, hx⟩ := h
  cases hx
  have h1 := checkOptSeq_shape hri hi
  have h2 := checkOptSeq_shape hrp hp
  refine .curried _ _ _ _ _ _ _ h1.2 h2.2 ?_ (checkParams_iff.1 hc.2.2.1) h1.1 h2.1 hname ?_
  · have := hc.2.1
    simp only [checkInits, ensure_eq_ok, List.all_eq_true, Bool.or_eq_true, isLiteral_iff] at this
    intro x hx
    rcases this x hx with h | h
    · left; cases x <;> simp [Val.isColumn] at h; exact ⟨_, rfl⟩
    · exact .inr h
  · intro s hs
    rcases halias with ⟨_, h⟩ | ⟨s', _, h1, h2, h3⟩
    · rw [h] at hs; cases hs
    · rw [h3] at hs; cases hs; exact ⟨h1, h2⟩

theorem mkBool_wf {cls : BoolCls} {o : BooleanOp} {cs x : Val} (h : mkBool cls o cs = .ok x) (hcs : WF cs)
    (h1 : cls = .and → o = .and) (h2 : cls = .or → o = .or) : WF x := by
  obtain ⟨k, xs, hs, hl, hc, rfl⟩ := (mkBool_ok_iff _ _ _ _).1 h
  exact .boolCond _ _ _ _ (hcs.seq_inv hs.seq) hc hl h1 h2

/-- Built values have the structural invariant. -/
theorem built_wf {v : Val} (h : Built v) : WF v := by
  induction h with
  | literal v h => exact .literal v h
  | list xs _ ih => exact .list xs ih
  | tuple xs _ ih => exact .tuple xs ih
  | op => exact .op _
  | boolOp => exact .boolOp _
  | direction => exact .direction _
  | dataModel => exact .dataModel _
  | other => exact .other _
  | limit v x _ h _ => obtain ⟨n, _, h1, h2, rfl⟩ := (C07_limit_accepts_iff _ _).1 h; exact .limit n h1 h2
  | offset v x _ h _ => obtain ⟨n, _, h1, rfl⟩ := (C07_offset_accepts_iff _ _).1 h; exact .offset n h1
  | granularity v x _ h _ =>
    obtain ⟨n, _, h1, rfl⟩ := (C07_granularity_accepts_iff _ _).1 h; exact .granularity n h1
  | totals v x _ h _ =>
    obtain ⟨b, _, rfl⟩ := (C07_totals_extrapolate_accept_iff _ _).1.1 h; exact .totals b
  | extrapolate v x _ h _ =>
    obtain ⟨b, _, rfl⟩ := (C07_totals_extrapolate_accept_iff _ _).2.1 h; exact .extrapolate b
  | column n e x _ _ h _ ihe =>
    obtain ⟨c, rfl, hc, _, he⟩ := mkColumn_ok h
    refine .column c hc fun en hen => ?_
    rcases he with ⟨h0, _⟩ | ⟨en', h0, rfl⟩
    · rw [h0] at hen; cases hen
    · rw [h0] at hen; cases hen; exact ihe.entity_inv
  | aliased c a x _ _ h ihc _ =>
    obtain ⟨co, rfl, h'⟩ := (C09_aliased_accepts_iff _ _ _).1 h
    obtain ⟨h1, h2⟩ := ihc.column_inv
    rcases h' with ⟨_, rfl⟩ | ⟨s, _, hne, hs, rfl⟩
    · exact .aliased _ _ h1 h2 (by intro s hs; cases hs)
    · exact .aliased _ _ h1 h2 (by intro s' hs'; cases hs'; exact ⟨hne, hs⟩)
  | curried f i p a x _ _ _ _ h _ ihi ihp _ =>
    simp only [mkCurried, bind_eq_ok] at h
    obtain ⟨r, hr, hx⟩ := h
    cases hx; exact curried_wf ihi ihp hr
  | function f p a x _ _ _ h _ ihp _ =>
    simp only [mkFunction, bind_eq_ok] at h
    obtain ⟨r, hr, hx⟩ := h
    cases hx; exact curried_wf (.literal _ .none) ihp hr
  | identifier n x _ h _ =>
    obtain ⟨s, _, h', rfl⟩ := (C09_identifier_accepts_iff _ _).1 h; exact .ident s h'
  | lambda is b x _ _ h _ ihb =>
    obtain ⟨k, ss, _, h1, ⟨f, n, ik, is, pk, ps, a, rfl⟩, rfl⟩ := (C09_lambda_accepts_iff _ _ _).1 h
    exact .lam _ _ _ h1 ihb rfl
  | condition l o r x _ _ _ h ihl _ ihr =>
    obtain ⟨o', rfl, h1, h2, h3, rfl⟩ := (C11_condition_accepts_iff _ _ _ _).1 h
    exact .cond _ _ _ ihl ihr h1 h2 h3
  | boolean o cs x _ _ h _ ihcs =>
    cases o <;> simp only [mkBooleanCondition, reduceCtorEq] at h
    exact mkBool_wf h ihcs (by intro h; cases h) (by intro h; cases h)
  | and cs x _ h ihcs => exact mkBool_wf h ihcs (fun _ => rfl) (by intro h; cases h)
  | or cs x _ h ihcs => exact mkBool_wf h ihcs (by intro h; cases h) (fun _ => rfl)
  | orderby e d x _ _ h ihe _ =>
    simp only [mkOrderBy, bind_eq_ok, ensure_eq_ok, isColOrFn_iff] at h
    obtain ⟨_, h1, h2⟩ := h
    cases d <;> simp at h2
    subst h2; exact .orderby _ _ ihe h1
  | limitby cs n x _ _ h ihcs _ =>
    obtain ⟨k, cs', n', hs, hne, _, h1, h2, rfl⟩ := (C07_limitby_accepts_iff _ _ _).1 h
    have := ihcs.seq_inv hs.seq
    refine .limitby _ _ _ (fun c hc => ?_) (fun c hc => ?_) hne h1 h2
    · exact (this _ (List.mem_map_of_mem hc)).column_inv.1
    · exact (this _ (List.mem_map_of_mem hc)).column_inv.2
  | entity n a s d x _ _ _ _ h =>
    simp only [mkEntity, bind_eq_ok, ensure_eq_ok, entityNameRe_iff] at h
    obtain ⟨nm, _, _, h1, smp, h2, al, h3, dm, _, hx⟩ := h
    cases hx
    refine .entity _ ⟨h1, ?_, ?_⟩
    · cases a <;> simp only [checkEntityAlias, reduceCtorEq, Except.ok.injEq] at h3
      · subst h3; simp
      · split at h3
        · cases h3
        · rename_i hz; cases h3; simpa using hz
    · cases s <;> simp only [checkSample, reduceCtorEq, Except.ok.injEq] at h2
      · subst h2; simp
      · split at h2
        · cases h2
        · rename_i hz; cases h2; intro f hf; cases hf; simpa using hz
  | storage n s d x _ _ _ h =>
    simp only [mkStorage, bind_eq_ok, ensure_eq_ok, entityNameRe_iff] at h
    obtain ⟨nm, _, _, h1, smp, h2, dm, _, hx⟩ := h
    cases hx
    refine .storage _ ⟨h1, ?_⟩
    cases s <;> simp only [checkSample, reduceCtorEq, Except.ok.injEq] at h2
    · subst h2; simp
    · split at h2
      · cases h2
      · rename_i hz; cases h2; intro f hf; cases hf; simpa using hz
  | relationship l n r x _ _ _ h ihl _ ihr =>
    simp only [mkRelationship, bind_eq_ok, ensure_eq_ok] at h
    obtain ⟨le, h1, re, h2, s, _, _, h3, hx⟩ := h
    cases hx
    have ve : ∀ v e, validEntity v = .ok e → v = .entity e ∧ e.alias.isSome = true := by
      intro v e h
      unfold validEntity at h
      split at h
      · split at h
        · rename_i ha; cases h; simp [ha]
        · cases h
      · cases h
    obtain ⟨rfl, hl⟩ := ve _ _ h1
    obtain ⟨rfl, hr⟩ := ve _ _ h2
    exact .rel _ ⟨ihl.entity_inv, hl, by simpa using h3, ihr.entity_inv, hr⟩
  | join rs x _ h ihrs =>
    obtain ⟨k, rels, hs, h1, h2, rfl⟩ := (C12_join_accepts_iff _ _).1 h
    exact .join _ _ (fun r hr => (ihrs.seq_inv hs.seq _ (List.mem_map_of_mem hr)).rel_inv) h1 h2

end Verif
