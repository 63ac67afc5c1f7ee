import Verif.Props.Total
import Verif.Spec.Blame

/-!
# C18: the exceptions of `print` and `serialize` on valid queries
-/

namespace Verif
open Spec

theorem translateAll_error {cfg : Cfg} {e : Err} : ∀ {xs : List Val}, translateAll cfg xs = .error e → ∃ x ∈ xs, translate cfg x = .error e
  | [], h => by cases h
  | x :: xs, h => by
    simp only [translateAll, bind_eq_error, reduceCtorEq, and_false, exists_false, or_false] at h
    rcases h with h | ⟨_, _, h⟩
    · exact ⟨x, by simp, h⟩
    · obtain ⟨y, hy, h⟩ := translateAll_error h
      exact ⟨y, by simp [hy], h⟩

theorem translateInits_error {cfg : Cfg} {e : Err} : ∀ {xs : List Val}, translateInits cfg xs = .error e → ∃ x ∈ xs, translate cfg x = .error e
  | [], h => by cases h
  | x :: xs, h => by
    simp only [translateInits] at h
    split at h
    · simp only [bind_eq_error, reduceCtorEq, and_false, exists_false, or_false] at h
      rcases h with h | ⟨_, _, h⟩
      · exact ⟨x, by simp, h⟩
      · obtain ⟨y, hy, h⟩ := translateInits_error h
        exact ⟨y, by simp [hy], h⟩
    · obtain ⟨y, hy, h⟩ := translateInits_error h
      exact ⟨y, by simp [hy], h⟩

theorem translateParams_error {cfg : Cfg} {e : Err} : ∀ {xs : List Val}, (∀ x ∈ xs, Param x ∨ Scalar x) →
    translateParams cfg xs = .error e → ∃ x ∈ xs, translate cfg x = .error e
  | [], _, h => by cases h
  | x :: xs, hp, h => by
    simp only [List.mem_cons, forall_eq_or_imp] at hp
    have hx : usesParam x = .ok true := by
      unfold usesParam
      split
      · rfl
      · rename_i hn
        rcases hp.1 with hpar | hs
        · exfalso; apply hn; cases hpar <;> rfl
        · exact isScalar_true_iff.2 hs
    simp only [translateParams, hx, ok_bind, if_true, bind_eq_error, reduceCtorEq, and_false, exists_false, or_false] at h
    rcases h with h | ⟨_, _, h⟩
    · exact ⟨x, by simp, h⟩
    · obtain ⟨y, hy, h⟩ := translateParams_error hp.2 h
      exact ⟨y, by simp [hy], h⟩

section
variable [U : PyUnicode]

/-- What fails to print is to blame, or a part of it is. -/
theorem wf_translate_error (cfg : Cfg) {v : Val} (h : WF v) : Element v → ∀ e, translate cfg v = .error e → ∃ x, Part x v ∧ Blames e x := by
  induction h with
  | literal v h =>
    intro _ e he
    cases h with
    | bytes bs =>
      by_cases hs : ∃ s, IsUtf8 bs s
      · obtain ⟨s, hs⟩ := hs
        rw [C06_bytes_literal_is_string_literal cfg bs s hs] at he
        cases he
      · rw [C06_invalid_bytes_raise cfg bs fun s h => hs ⟨s, h⟩] at he
        cases he
        exact ⟨_, .here, .bytes _ hs⟩
    | datetime t =>
      obtain ⟨h1, h2, h3⟩ := C04_succeeds_iff cfg t
      cases hu : utcInstant t with
      | none =>
        rw [h2 hu] at he
        cases he
        exact ⟨_, .here, .offset _ hu⟩
      | some n =>
        by_cases hr : Representable n
        · obtain ⟨s, hs⟩ := h1.2 ⟨n, hu, hr⟩
          rw [hs] at he
          cases he
        · rw [h3 n hu hr] at he
          cases he
          exact ⟨_, .here, .range _ n hu hr⟩
    | _ => cases he
  | list xs _ ih =>
    intro hel e he
    have hel : ∀ x ∈ xs, Element x := by
      cases hel with
      | literal _ h => cases h
      | expr _ h => cases h
      | list _ h => exact h
    simp only [translate, allScalar_iff.2 hel, ok_bind, bind_eq_error, reduceCtorEq, and_false, exists_false, or_false] at he
    obtain ⟨x, hx, he⟩ := translateAll_error he
    obtain ⟨y, hy, hb⟩ := ih x hx (hel x hx) e he
    exact ⟨y, .list _ x hx hy, hb⟩
  | tuple xs _ ih =>
    intro hel e he
    have hel : ∀ x ∈ xs, Element x := by
      cases hel with
      | literal _ h => cases h
      | expr _ h => cases h
      | tuple _ h => exact h
    simp only [translate, allScalar_iff.2 hel, ok_bind, bind_eq_error, reduceCtorEq, and_false, exists_false, or_false] at he
    obtain ⟨x, hx, he⟩ := translateAll_error he
    obtain ⟨y, hy, hb⟩ := ih x hx (hel x hx) e he
    exact ⟨y, .tuple _ x hx hy, hb⟩
  | op | boolOp | direction | dataModel | other =>
    intro he
    cases he with
    | literal _ h => cases h
    | expr _ h => cases h
  | limit | offset | granularity | totals | column | aliased | ident | entity | storage | rel | join | limitby =>
    intro _ e he
    cases he
  | extrapolate b =>
    intro _ e he
    cases he
    exact ⟨_, .here, .extrapolate b⟩
  | curried isFn n ik inits pk params a _ _ hi hp _ _ _ _ ih1 ih2 =>
    intro _ e he
    simp only [translate, bind_eq_error, reduceCtorEq, and_false, exists_false, or_false] at he
    rcases he with he | ⟨_, _, he⟩
    · obtain ⟨x, hx, he⟩ := translateInits_error he
      obtain ⟨y, hy, hb⟩ := ih1 x hx (by
        rcases hi x hx with ⟨c, rfl⟩ | h
        · exact .expr _ (.column _)
        · exact .literal _ h) e he
      exact ⟨y, .init _ _ _ _ _ _ _ x hx hy, hb⟩
    · obtain ⟨x, hx, he⟩ := translateParams_error hp he
      obtain ⟨y, hy, hb⟩ := ih2 x hx (by
        rcases hp x hx with h | h
        · exact param_element h
        · exact scalar_element h) e he
      exact ⟨y, .param _ _ _ _ _ _ _ x hx hy, hb⟩
  | lam k ids body _ _ hb ih =>
    intro _ e he
    have hel : Element body := by cases body <;> simp [Val.isCurried] at hb; exact .expr _ (.curried ..)
    simp only [translate, bind_eq_error, reduceCtorEq, and_false, exists_false, or_false] at he
    obtain ⟨y, hy, hb⟩ := ih hel e he
    exact ⟨y, .body _ _ _ hy, hb⟩
  | cond l o r _ _ hl hu hr ih1 ih2 =>
    intro _ e he
    have e2 : Element r := by
      rcases hr with h | h
      · exact colOrFn_element h
      · exact scalar_element h
    simp only [translate, bind_eq_error, reduceCtorEq, and_false, exists_false, or_false] at he
    rcases he with he | ⟨_, _, he⟩
    · have he : translate cfg r = .error e := by
        unfold rhsText at he
        split at he
        · cases he
        · split at he
          · simpa only [bind_eq_error, reduceCtorEq, and_false, exists_false, or_false] using he
          · rename_i hc
            have hs : Scalar r := hr.resolve_left fun h => hc (isColOrFn_iff.2 h)
            simp only [isScalar_true_iff.2 hs, ok_bind, if_true, bind_eq_error, reduceCtorEq, and_false, exists_false, or_false] at he
            exact he
      obtain ⟨y, hy, hb⟩ := ih2 e2 e he
      exact ⟨y, .rhs _ _ _ hy, hb⟩
    · obtain ⟨y, hy, hb⟩ := ih1 (colOrFn_element hl) e he
      exact ⟨y, .lhs _ _ _ hy, hb⟩
  | boolCond cls o k cs _ hc _ _ _ ih =>
    intro _ e he
    simp only [translate, bind_eq_error, reduceCtorEq, and_false, exists_false, or_false] at he
    obtain ⟨x, hx, he⟩ := translateAll_error he
    obtain ⟨y, hy, hb⟩ := ih x hx (cond_element (hc x hx)) e he
    exact ⟨y, .item _ _ _ _ x hx hy, hb⟩
  | orderby x d _ hx ih =>
    intro _ e he
    simp only [translate, bind_eq_error, reduceCtorEq, and_false, exists_false, or_false] at he
    obtain ⟨y, hy, hb⟩ := ih (colOrFn_element hx) e he
    exact ⟨y, .ordered _ _ hy, hb⟩

theorem listClause_error {cfg : Cfg} {kw sep : Str} {v : Val} {e : Err} (h : ListSound v) (he : listClause cfg kw sep v = .error e) :
    ∃ k xs x y, SeqOf v k xs ∧ x ∈ xs ∧ Part y x ∧ Blames e y := by
  rcases h with rfl | ⟨k, xs, hs, hx⟩
  · cases he
  · unfold listClause at he
    split at he
    · simp only [Val.iter, hs.seq, ok_bind, bind_eq_error, reduceCtorEq, and_false, exists_false, or_false] at he
      obtain ⟨x, hm, he⟩ := translateAll_error he
      obtain ⟨y, hy, hb⟩ := wf_translate_error cfg (hx x hm).1 (hx x hm).2 e he
      exact ⟨k, xs, x, y, hs, hm, hy, hb⟩
    · cases he

theorem optClause_error {cfg : Cfg} {kw : Str} {v : Val} {e : Err} (h : OptSound v) (he : optClause cfg kw v = .error e) :
    ∃ y, Part y v ∧ Blames e y := by
  by_cases hv : v = .none
  · subst hv; cases he
  · have hw := h.resolve_left hv
    have e1 : optClause cfg kw v = (do let t ← translate cfg v; .ok (kw ++ [' '] ++ t)) := by
      cases v <;> first | exact absurd rfl hv | rfl
    rw [e1] at he
    simp only [bind_eq_error, reduceCtorEq, and_false, exists_false, or_false] at he
    exact wf_translate_error cfg hw.1 hw.2 e he

theorem bodyClauses_error {cfg : Cfg} {b : Body} {e : Err} (h : BodySound b) (he : bodyClauses cfg b = .error e) :
    ∃ x, HasItem b x ∧ ∃ y, Part y x ∧ Blames e y := by
  obtain ⟨hl, ho⟩ := h
  have list : ∀ {kw sep : Str} {v}, v ∈ [b.select, b.groupby, b.arrayJoin, b.where_, b.having, b.orderby] → listClause cfg kw sep v = .error e →
      ∃ x, HasItem b x ∧ ∃ y, Part y x ∧ Blames e y := by
    intro kw sep v hv he
    obtain ⟨k, xs, x, y, h1, h2, h3, h4⟩ := listClause_error (hl v hv) he
    exact ⟨x, .inl ⟨v, hv, k, xs, h1, h2⟩, y, h3, h4⟩
  have opt : ∀ {kw : Str} {v}, v ∈ [b.limitby, b.limit, b.offset, b.granularity, b.totals] → optClause cfg kw v = .error e →
      ∃ x, HasItem b x ∧ ∃ y, Part y x ∧ Blames e y := by
    intro kw v hv he
    exact ⟨v, .inr hv, optClause_error (ho v hv) he⟩
  simp only [bodyClauses, bind_eq_error, reduceCtorEq, and_false, exists_false, or_false] at he
  rcases he with he | ⟨_, _, he | ⟨_, _, he | ⟨_, _, he | ⟨_, _, he | ⟨_, _, he | ⟨_, _, he | ⟨_, _, he | ⟨_, _, he | ⟨_, _, he | ⟨_, _, he⟩⟩⟩⟩⟩⟩⟩⟩⟩⟩
  all_goals first | exact list (by simp) he | exact opt (by simp) he

theorem printQuery_error {q : Query} {e : Err} : ∀ {sep : Str}, (∀ b ∈ levels q, BodySound b) → MatchOk q → printQuery sep q = .error e →
    ∃ x, InClauses x q ∧ ∃ y, Part y x ∧ Blames e y := by
  induction q with
  | base m b =>
    intro sep hb hm he
    have ht : ∃ t, translate ⟨m.isJoin, false⟩ m = .ok t := by
      simp only [MatchOk] at hm
      cases m <;> simp [Val.isMatch] at hm <;> exact ⟨_, rfl⟩
    obtain ⟨t, ht⟩ := ht
    simp only [printQuery, ht, ok_bind, bind_eq_error, reduceCtorEq, and_false, exists_false, or_false] at he
    obtain ⟨x, hx, h⟩ := bodyClauses_error (hb b (by simp [levels])) he
    exact ⟨x, ⟨b, by simp [levels], hx⟩, h⟩
  | nested q b ih =>
    intro sep hb hm he
    simp only [printQuery, bind_eq_error, reduceCtorEq, and_false, exists_false, or_false] at he
    rcases he with he | ⟨_, _, he⟩
    · obtain ⟨x, ⟨b', h1, h2⟩, h⟩ := ih (fun b' h => hb b' (by simp [levels, h])) hm he
      exact ⟨x, ⟨b', by simp [levels, h1], h2⟩, h⟩
    · obtain ⟨x, hx, h⟩ := bodyClauses_error (hb b (by simp [levels])) he
      exact ⟨x, ⟨b, by simp [levels], hx⟩, h⟩

/-- **C18** (`print`): on a valid query made of SDK expressions, the exception of `print` is the one that some part of a clause is to
blame for. -/
theorem C18_print_raises (q : Query) (hb : ∀ b ∈ levels q, BodyMade b) (hv : q.validate = .ok ()) (e : Err) (he : q.print = .error e) :
    ∃ x, InClauses x q ∧ ∃ y, Part y x ∧ Blames e y := by
  simp only [Query.print, hv, ok_bind] at he
  exact printQuery_error (fun b h => made_sound (hb b h)) (validated_match hv) he

omit U in
/-- What is to blame for an exception is a scalar, not a condition or a list. -/
theorem Spec.Blames.leaf {e : Err} {y v : Val} (hb : Blames e y) (h : Part y v) (hv : ∀ bs, v ≠ .bytes bs) (hv' : ∀ t, v ≠ .datetime t)
    (hv'' : ∀ b, v ≠ .extrapolate b) : ∃ c ∈ v.children, Part y c := by
  rcases part_iff.1 h with rfl | h
  · cases hb
    · exact absurd rfl (hv _)
    · exact absurd rfl (hv' _)
    · exact absurd rfl (hv' _)
    · exact absurd rfl (hv'' _)
  · exact h

omit U in
/-- What is to blame in an optimised condition was there before. -/
theorem rewritten_parts {c c' : Val} (h : Rewritten c c') {e : Err} {y : Val} (hy : Part y c') (hb : Blames e y) : Part y c := by
  rcases h with ⟨l, rs, hm, rfl⟩ | ⟨_, rfl⟩
  · obtain ⟨⟨cls, o, k, cs, r, hc, hl⟩, hr⟩ := mergeable_parts hm
    obtain ⟨d, hd, hd'⟩ := hb.leaf hy (by simp) (by simp) (by simp)
    simp only [Val.children, List.mem_cons, List.not_mem_nil, or_false] at hd
    rcases hd with rfl | rfl
    · exact hc ▸ .item _ _ _ _ _ hl (.lhs _ _ _ hd')
    · obtain ⟨d, hd, hy⟩ := hb.leaf hd' (by simp) (by simp) (by simp)
      obtain ⟨_, _, _, _, _, hc', hl'⟩ := hr d hd
      exact hc' ▸ .item _ _ _ _ _ hl' (.rhs _ _ _ hy)
  · exact hy

theorem rewritten_each {xs new : List Val} (hrew : Paired Rewritten xs new) (hxs : ∀ x ∈ xs, Built x ∧ Expr x) :
    ∀ x' ∈ new, (WF x' ∧ Element x') ∧ ∃ x ∈ xs, ∀ e y, Part y x' → Blames e y → Part y x := by
  induction hrew with
  | nil => simp
  | cons c c' cs cs' h1 _ ih =>
    simp only [List.mem_cons, forall_eq_or_imp] at hxs ⊢
    refine ⟨⟨(rewritten_sound (built_wf hxs.1.1) (.expr _ hxs.1.2) h1).1, c, .inl rfl, fun e y => rewritten_parts h1⟩, ?_⟩
    intro x' hx'
    obtain ⟨h2, x, hx, h3⟩ := ih hxs.2 x' hx'
    exact ⟨h2, x, .inr hx, h3⟩

/-- **C18** (`serialize`): on a valid query made of SDK expressions, the exception of `serialize` is the one that some part of a clause
is to blame for; in particular it is a UnicodeDecodeError, an OverflowError or an AssertionError. -/
theorem C18_serialize_raises (q : Query) (hb : ∀ b ∈ levels q, BodyMade b) (hv : q.validate = .ok ()) (e : Err)
    (he : q.serialize = .error e) : ∃ x, InClauses x q ∧ ∃ y, Part y x ∧ Blames e y := by
  have hq : q.body ∈ levels q := by cases q <;> simp [levels, Query.body]
  have hmade := hb _ hq
  have ho : ∃ o, q.optimize = .ok o := by
    unfold Query.optimize
    have hw := hmade.lists q.body.where_ (by simp)
    rcases hw with hw | ⟨k, xs, hs, hx⟩
    · rw [hw]; exact ⟨_, rfl⟩
    · obtain ⟨r, hr, _⟩ := C30_total_and_none_iff xs (fun c hc => (hx c hc).1)
      have hset : ∃ o, q.withBody { q.body with where_ := .list (r.getD []) } = .ok o := by
        cases q with
        | base m b =>
          have := validated_match hv
          simp only [MatchOk] at this
          exact ⟨_, by simp only [Query.withBody, mkQuery, this, if_true]; rfl⟩
        | nested i b =>
          have := (nested_validate_iff.1 hv).1
          exact ⟨_, by simp only [Query.withBody, mkNested, this]; rfl⟩
      generalize q.body.where_ = w at hs
      cases r with
      | none => cases hs <;> exact ⟨q, by simp [Val.iter, Val.seq?, hr]⟩
      | some new =>
        obtain ⟨o, ho⟩ := hset
        cases hs <;> exact ⟨o, by simp [Val.iter, Val.seq?, hr]; exact ho⟩
  obtain ⟨o, ho⟩ := ho
  simp only [Query.serialize, hv, ok_bind, ho] at he
  have hs := validated_allShaped hv
  obtain ⟨w, rfl, hw⟩ := optimize_put (hs _ hq) ho
  have hput : (∀ x', HasItem (putWhere w q).body x' → ∃ x, HasItem q.body x ∧ ∀ y, Part y x' → Blames e y → Part y x) ∧
      BodySound (putWhere w q).body := by
    have e1 : (putWhere w q).body = { q.body with where_ := w } := by cases q <;> rfl
    have hso := made_sound hmade
    rw [e1]
    rcases hw with rfl | ⟨k, xs, new, hk, hopt, rfl, _⟩
    · exact ⟨fun x hx => ⟨x, hx, fun y hy _ => hy⟩, hso⟩
    · have hxs : ∀ x ∈ xs, Built x ∧ Expr x := by
        rcases hmade.lists q.body.where_ (by simp) with h | ⟨k', xs', hk', h⟩
        · rw [h] at hk; cases hk
        · rw [hk.unique hk']; exact h
      have key := rewritten_each (optimize_some (fun c hc => (hxs c hc).1) hopt).1 hxs
      constructor
      · rintro x (⟨v, hv, k', ys, hs', hx⟩ | hx)
        · simp only [List.mem_cons, List.not_mem_nil, or_false] at hv
          rcases hv with rfl | rfl | rfl | rfl | rfl | rfl
          · exact ⟨x, .inl ⟨_, by simp, k', ys, hs', hx⟩, fun y hy _ => hy⟩
          · exact ⟨x, .inl ⟨q.body.groupby, by simp, k', ys, hs', hx⟩, fun y hy _ => hy⟩
          · exact ⟨x, .inl ⟨q.body.arrayJoin, by simp, k', ys, hs', hx⟩, fun y hy _ => hy⟩
          · cases hs'
            obtain ⟨_, x0, h0, h1⟩ := key x hx
            exact ⟨x0, .inl ⟨q.body.where_, by simp, k, xs, hk, h0⟩, fun y hy hb => h1 e y hy hb⟩
          · exact ⟨x, .inl ⟨q.body.having, by simp, k', ys, hs', hx⟩, fun y hy _ => hy⟩
          · exact ⟨x, .inl ⟨q.body.orderby, by simp, k', ys, hs', hx⟩, fun y hy _ => hy⟩
        · exact ⟨x, .inr hx, fun y hy _ => hy⟩
      · constructor
        · intro v hv
          simp only [List.mem_cons, List.not_mem_nil, or_false] at hv
          rcases hv with rfl | rfl | rfl | rfl | rfl | rfl
          · exact hso.1 _ (by simp)
          · exact hso.1 _ (by simp)
          · exact hso.1 _ (by simp)
          · exact .inr ⟨_, _, .list new, fun x hx => (key x hx).1⟩
          · exact hso.1 _ (by simp)
          · exact hso.1 _ (by simp)
        · exact hso.2
  obtain ⟨x', ⟨b, hbl, hx'⟩, y, hy, hbl'⟩ := printQuery_error (q := putWhere w q) (by
    intro b hbl
    cases q with
    | base m b' =>
      simp only [putWhere, levels, List.mem_singleton] at hbl
      subst hbl; exact hput.2
    | nested i b' =>
      simp only [putWhere, levels, List.mem_cons] at hbl
      rcases hbl with rfl | hbl
      · exact hput.2
      · exact made_sound (hb b (by simp [levels, hbl]))) (by
    have := validated_match hv
    cases q <;> exact this) he
  cases q with
  | base m b' =>
    simp only [putWhere, levels, List.mem_singleton] at hbl
    subst hbl
    obtain ⟨x, h1, h2⟩ := hput.1 x' hx'
    exact ⟨x, ⟨_, hq, h1⟩, y, h2 y hy hbl', hbl'⟩
  | nested i b' =>
    simp only [putWhere, levels, List.mem_cons] at hbl
    rcases hbl with rfl | hbl
    · obtain ⟨x, h1, h2⟩ := hput.1 x' hx'
      exact ⟨x, ⟨_, hq, h1⟩, y, h2 y hy hbl', hbl'⟩
    · exact ⟨x', ⟨b, by simp [levels, hbl], hx'⟩, y, hy, hbl'⟩

/-- **C18** (`str` of one expression): the exception is the one that a part of the expression is to blame for; `Extrapolate` has no
text at all. -/
theorem C18_expression_raises (cfg : Cfg) (v : Val) (hb : Built v) (hx : Expr v) :
    (∀ e, translate cfg v = .error e → ∃ y, Part y v ∧ Blames e y) ∧ ∀ b, v = .extrapolate b → translate cfg v = .error .assertion :=
  ⟨wf_translate_error cfg (built_wf hb) (.expr _ hx), by rintro b rfl; rfl⟩

end

section Examples
open Ex
attribute [local instance] asciiUnicode

/-- A query compared with bytes that are not UTF-8. -/
private def undecodable : Query :=
  .base (.entity events) {
    select := .list [col c!"a"]
    where_ := .list [.cond (col c!"a") .eq (.bytes [255])] }

private theorem undecodable_made : ∀ b ∈ levels undecodable, BodyMade b := by
  intro b hb
  simp only [undecodable, levels, List.mem_singleton] at hb
  subst hb
  constructor
  · intro v hv
    simp only [List.mem_cons, List.not_mem_nil, or_false] at hv
    rcases hv with rfl | rfl | rfl | rfl | rfl | rfl
    · refine .inr ⟨_, _, .list _, ?_⟩
      intro x hx
      simp only [List.mem_singleton] at hx
      subst hx
      exact ⟨col_built _ rfl, .column _⟩
    · exact .inl rfl
    · exact .inl rfl
    · refine .inr ⟨_, _, .list _, ?_⟩
      intro x hx
      simp only [List.mem_singleton] at hx
      subst hx
      exact ⟨.condition (col c!"a") (.op .eq) (.bytes [255]) _ (col_built _ rfl) (.op _) (.literal _ (.bytes _)) rfl, .cond ..⟩
    · exact .inl rfl
    · exact .inl rfl
  · intro v hv
    simp only [List.mem_cons, List.not_mem_nil, or_false] at hv
    rcases hv with rfl | rfl | rfl | rfl | rfl <;> exact .inl rfl

/-- C18: the hypotheses hold, and it is the bytes that are to blame. -/
example : undecodable.validate = .ok () ∧ undecodable.print = .error .unicodeDecodeError ∧
    undecodable.serialize = .error .unicodeDecodeError := ⟨rfl, rfl, rfl⟩

example : ∃ x, InClauses x undecodable ∧ ∃ y, Part y x ∧ Blames .unicodeDecodeError y :=
  C18_serialize_raises undecodable undecodable_made rfl _ rfl

/-- C18: `str` of an `Extrapolate` raises an AssertionError. -/
example (cfg : Cfg) : translate cfg (.extrapolate true) = .error .assertion :=
  (C18_expression_raises cfg (.extrapolate true) (.extrapolate (.bool true) _ (.literal _ (.bool _)) rfl) (.extrapolate _)).2 _ rfl

end Examples

end Verif
