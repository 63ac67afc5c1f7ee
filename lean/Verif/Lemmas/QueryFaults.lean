import Verif.Lemmas.QueryMessages

/-!
# Lemmas: which fault of a query is reported
-/

namespace Verif.QueryFaults
open Spec BuildMsg MetricsMsg QueryMsg

section
variable [U : PyUnicode]

theorem all_append : ∀ xs ys : List Val, validateAllMsg (xs ++ ys) = (do validateAllMsg xs; validateAllMsg ys)
  | [], _ => rfl
  | x :: xs, ys => by
    simp only [List.cons_append, validateAllMsg, all_append xs ys]
    cases x.validateMsg <;> rfl

/-- The clauses are validated item by item, in their order. -/
theorem clauses_items {b : Body} (ht : ∀ f : Field, Taken f (f.get b)) : validateClausesMsg b = validateAllMsg (itemsOf b) := by
  have list : ∀ f ∈ [Field.select, .groupby, .arrayJoin, .where_, .having, .orderby],
      listValidateMsg (f.get b) = validateAllMsg (listItems (f.get b)) := by
    intro f hf
    rcases taken_list hf (ht f) with h0 | ⟨xs, h0, _⟩ <;> rw [h0] <;> rfl
  have opt : ∀ f ∈ [Field.limitby, .limit, .offset, .granularity, .totals], optValidateMsg (f.get b) = .ok () := by
    intro f hf
    rcases taken_one hf (ht f) with h0 | ⟨h1, h2, h3, _⟩
    · rw [h0]; rfl
    · generalize f.get b = v at h1 h2 h3
      unfold optValidateMsg
      split
      · rfl
      · exact ok_of_drop (by rw [drop_item, C13_built_stay_valid_partial _ h1 h2 h3])
  have h1 := list .select (by simp)
  have h2 := list .groupby (by simp)
  have h3 := list .arrayJoin (by simp)
  have h4 := list .where_ (by simp)
  have h5 := list .having (by simp)
  have h6 := list .orderby (by simp)
  have h7 := opt .limitby (by simp)
  have h8 := opt .limit (by simp)
  have h9 := opt .offset (by simp)
  have h10 := opt .granularity (by simp)
  have h11 := opt .totals (by simp)
  simp only [Field.get] at h1 h2 h3 h4 h5 h6 h7 h8 h9 h10 h11
  simp only [validateClausesMsg, h1, h2, h3, h4, h5, h6, h7, h8, h9, h10, h11, itemsOf, all_append, ok_bind]
  generalize validateAllMsg (listItems b.select) = a1
  generalize validateAllMsg (listItems b.groupby) = a2
  generalize validateAllMsg (listItems b.arrayJoin) = a3
  generalize validateAllMsg (listItems b.where_) = a4
  generalize validateAllMsg (listItems b.having) = a5
  generalize validateAllMsg (listItems b.orderby) = a6
  cases a1 <;> cases a2 <;> cases a3 <;> cases a4 <;> cases a5 <;> cases a6 <;> rfl

omit U in
theorem dataModel_fails {c : ColumnObj} {owner : Str} {dm : Option DataModel} (h : Unsupported dm c) :
    c.validateDataModelMsg owner dm = .error (.invalidColumn, some (c!"'" ++ owner ++ c!"' does not support the column '" ++ c.name ++ c!"'")) := by
  obtain ⟨d, n, rfl, hs, hn⟩ := h
  have hv : c.validateDataModel (some d) = .error .invalidColumn := by
    simp only [ColumnObj.validateDataModel, ensure, DataModel.contains]
    refine if_neg ?_
    simp only [List.any_eq_true, beq_iff_eq]
    rintro ⟨x, hx, he⟩
    apply hn
    refine ⟨x, hx, he.trans ?_⟩
    rcases hs with ⟨h1, h2⟩ | ⟨h1, rfl⟩
    · simp [h1, h2]
    · rcases h1 with h1 | h1 <;> simp [h1]
  simp only [ColumnObj.validateDataModelMsg, hv]
  rfl

theorem built_column {c : ColumnObj} (h : Built (.column c)) : ColOk c := by
  cases built_wf h with
  | literal _ h => cases h
  | column _ h => exact h

/-- An item that has been built is refused exactly if it is a column that its entity does not have. -/
theorem item_fault {v : Val} (hb : Built v) (he : Spec.Expr v) {r : Raised} : v.validateMsg = .error r ↔
    ∃ c e, v = .column c ∧ c.entity = some e ∧ Unsupported e.dataModel c ∧
      r = (.invalidColumn, some (c!"'" ++ e.name ++ c!"' does not support the column '" ++ c.name ++ c!"'")) := by
  cases v with
  | column c =>
    have hc := built_column hb
    simp only [Val.validateMsg, ColumnObj.validateMsg, hc.name, if_true, ColumnObj.checkEntityMsg]
    constructor
    · intro h
      split at h
      · cases h
      · rename_i e hen
        obtain ⟨a, ha, hne⟩ := hc.alias e hen
        cases a with
        | nil => exact absurd rfl hne
        | cons x xs =>
          simp only [ha] at h
          obtain ⟨y, t⟩ := r
          cases t with
          | none =>
            unfold ColumnObj.validateDataModelMsg at h
            split at h <;> cases h
          | some t =>
            obtain ⟨rfl, hu, rfl⟩ := unsupported_of h
            exact ⟨c, e, rfl, hen, hu, rfl⟩
    · rintro ⟨c', e, hc', hen, hu, rfl⟩
      cases hc'
      obtain ⟨a, ha, hne⟩ := hc.alias e hen
      cases a with
      | nil => exact absurd rfl hne
      | cons x xs =>
        simp only [hen, ha]
        exact dataModel_fails hu
  | _ =>
    have hv := C13_built_stay_valid_partial _ hb he (by rintro ⟨_, _, _, _, h, _⟩; cases h)
    simp only [Val.validateMsg, hv, elsewhere]
    constructor
    · intro h; cases h
    · rintro ⟨_, _, h, _⟩; cases h

theorem item_fine {v : Val} (hb : Built v) (he : Spec.Expr v) : v.validateMsg = .ok () ↔ ¬ OffModel v := by
  constructor
  · rintro h ⟨c, e, h1, h2, h3⟩
    rw [(item_fault hb he).2 ⟨c, e, h1, h2, h3, rfl⟩] at h
    cases h
  · intro h
    cases hv : v.validateMsg with
    | ok _ => rfl
    | error r =>
      obtain ⟨c, e, h1, h2, h3, _⟩ := (item_fault hb he).1 hv
      exact absurd ⟨c, e, h1, h2, h3⟩ h

/-- Of several items the first bad one is reported. -/
theorem items_fault {r : Raised} : ∀ {vs : List Val}, (∀ v ∈ vs, Built v ∧ Spec.Expr v) → (validateAllMsg vs = .error r ↔
    ∃ pre c post e, vs = pre ++ .column c :: post ∧ (∀ v ∈ pre, ¬ OffModel v) ∧ c.entity = some e ∧ Unsupported e.dataModel c ∧
      r = (.invalidColumn, some (c!"'" ++ e.name ++ c!"' does not support the column '" ++ c.name ++ c!"'")))
  | [], _ => by
    constructor
    · intro h; cases h
    · rintro ⟨pre, c, post, e, h, _⟩
      cases pre <;> cases h
  | v :: vs, hv => by
    have h1 := hv v (by simp)
    have ih := items_fault (r := r) (vs := vs) fun w hw => hv w (List.mem_cons_of_mem _ hw)
    simp only [validateAllMsg, bind_eq_error, item_fault h1.1 h1.2]
    constructor
    · rintro (⟨c, e, rfl, h2, h3, h4⟩ | ⟨_, h0, h⟩)
      · exact ⟨[], c, vs, e, rfl, by simp, h2, h3, h4⟩
      · obtain ⟨pre, c, post, e, rfl, hp, h2⟩ := ih.1 h
        refine ⟨v :: pre, c, post, e, rfl, ?_, h2⟩
        intro w hw
        rcases List.mem_cons.1 hw with rfl | hw
        · exact (item_fine h1.1 h1.2).1 h0
        · exact hp w hw
    · rintro ⟨pre, c, post, e, h, hp, h2⟩
      cases pre with
      | nil => cases h; exact .inl ⟨c, e, rfl, h2⟩
      | cons w pre =>
        cases h
        exact .inr ⟨(), (item_fine h1.1 h1.2).2 (hp _ (by simp)), ih.2 ⟨pre, c, post, e, rfl, fun w hw => hp w (List.mem_cons_of_mem _ hw), h2⟩⟩

theorem items_fine : ∀ {vs : List Val}, (∀ v ∈ vs, Built v ∧ Spec.Expr v) → (validateAllMsg vs = .ok () ↔ ∀ v ∈ vs, ¬ OffModel v)
  | [], _ => by simp [validateAllMsg]
  | v :: vs, hv => by
    have h1 := hv v (by simp)
    have ih := items_fine (vs := vs) fun w hw => hv w (List.mem_cons_of_mem _ hw)
    simp only [validateAllMsg, bind_eq_ok, List.mem_cons, forall_eq_or_imp, ← ih, ← item_fine h1.1 h1.2]
    exact ⟨fun ⟨_, h, h'⟩ => ⟨h, h'⟩, fun ⟨h, h'⟩ => ⟨(), h, h'⟩⟩

theorem taken_items {b : Body} (ht : ∀ f : Field, Taken f (f.get b)) : ∀ v ∈ itemsOf b, Built v ∧ Spec.Expr v := by
  have key : ∀ f ∈ [Field.select, .groupby, .arrayJoin, .where_, .having, .orderby], ∀ v ∈ listItems (f.get b), Built v ∧ Spec.Expr v := by
    intro f hf v hv
    rcases taken_list hf (ht f) with h0 | ⟨xs, h0, hx⟩
    · rw [h0] at hv; cases hv
    · rw [h0] at hv; exact ⟨(hx v hv).1, (hx v hv).2.1⟩
  intro v hv
  simp only [itemsOf, List.mem_append] at hv
  rcases hv with ((((hv | hv) | hv) | hv) | hv) | hv
  · exact key .select (by simp) v hv
  · exact key .groupby (by simp) v hv
  · exact key .arrayJoin (by simp) v hv
  · exact key .where_ (by simp) v hv
  · exact key .having (by simp) v hv
  · exact key .orderby (by simp) v hv

/-- The columns fit the match if the check says so. -/
theorem match_fine {σ : SetOrders} (hσ : PossibleOrders σ) {q : Query} (hq : Called q) (h : validateMatchMsg σ q = .ok ()) : NoCulprit q := by
  intro c x t ho hc
  have hd : dropMessage (validateMatchMsg σ q) = .ok () := by rw [h]; rfl
  have unsupported : ∀ {dm : Option DataModel}, Unsupported dm c → c.validateDataModel dm ≠ .ok () := by
    intro dm hu he
    have := dataModel_fails (owner := []) hu
    simp only [ColumnObj.validateDataModelMsg, he] at this
    cases this
  have hj : ∀ {k rels b}, q = .base (.join k rels) b → (¬ ∃ e a, c.entity = some e ∧ e.alias = some a ∧ Uses rels a e.name) → False := by
    rintro k rels b rfl hn
    have hbm := called_match hq rfl
    have hfun : ∀ a n n', Uses rels a n → Uses rels a n' → n = n' := by
      cases built_wf hbm with
      | literal _ h => cases h
      | join _ _ _ _ h => exact h
    have hjv : (Val.join k rels).validate = .ok () :=
      C13_built_stay_valid_partial _ hbm (.join ..) (by rintro ⟨_, _, _, _, h, _⟩; cases h)
    rw [(C85_same_class σ).2.1] at hd
    simp only [validateMatchBaseIn, bind_eq_ok] at hd
    obtain ⟨cs, hcs, hd⟩ := hd
    rw [validateJoin_order hσ hjv, validateJoin_iff hfun] at hd
    exact hn (hd c ((searchBody_mem hcs).2 ho))
  cases hc with
  | notInSubquery hn =>
    rename_i i b
    rw [(C85_same_class σ).2.2.1] at hd
    simp only [bind_eq_ok] at hd
    obtain ⟨cs, hcs, hd⟩ := hd
    rw [validateSubquery_order hσ] at hd
    obtain ⟨⟨k, xs, hs, _⟩, _⟩ := body_complete (reach_inner (called_reach hq) (i := i) rfl)
    obtain ⟨y, hy, h1⟩ := (validateSubquery_iff hs).1 hd c ((searchBody_mem hcs).2 ho)
    exact hn ⟨k, xs, y, hs, hy, h1⟩
  | unqualified he => exact hj rfl fun ⟨e, _, h, _⟩ => by rw [he] at h; cases h
  | noAlias he ha => exact hj rfl fun ⟨e, a, h, h', _⟩ => by rw [he] at h; cases h; rw [ha] at h'; cases h'
  | unknownAlias he ha hn => exact hj rfl fun ⟨e, a, h, h', hu⟩ => by rw [he] at h; cases h; rw [ha] at h'; cases h'; exact hn ⟨_, hu⟩
  | otherEntity he ha hu hn =>
    rename_i k rels b e a n
    have hbm := called_match hq rfl
    refine hj rfl fun ⟨e', a', h, h', hu'⟩ => ?_
    rw [he] at h; cases h; rw [ha] at h'; cases h'
    cases built_wf hbm with
    | literal _ h => cases h
    | join _ _ _ _ h => exact hn (h _ _ _ hu hu')
  | entity hu =>
    rw [(C85_same_class σ).2.1] at hd
    simp only [validateMatchBaseIn, bind_eq_ok] at hd
    obtain ⟨cs, hcs, hd⟩ := hd
    rw [validateModel_order hσ, validateModel_iff] at hd
    exact unsupported hu (hd c ((searchBody_mem hcs).2 ho))
  | storage hu =>
    rw [(C85_same_class σ).2.1] at hd
    simp only [validateMatchBaseIn, bind_eq_ok] at hd
    obtain ⟨cs, hcs, hd⟩ := hd
    rw [validateModel_order hσ, validateModel_iff] at hd
    exact unsupported hu (hd c ((searchBody_mem hcs).2 ho))

/-- The validation of a query of SDK objects consists of three steps: the match has been validated before. -/
theorem called_steps {σ : SetOrders} (hσ : PossibleOrders σ) {q : Query} (hq : Called q) :
    q.validateMsg σ = (do validateAllMsg (itemsOf q.body); validateMatchMsg σ q; combineChecksMsg q.body) := by
  rw [← clauses_items (called_taken hq)]
  cases q with
  | base m b =>
    have hbm := called_match hq rfl
    have hmm := reach_match (called_reach hq) (m := m) rfl
    have hmv : m.validate = .ok () := by
      refine C13_built_stay_valid_partial m hbm ?_ ?_
      · cases m <;> first | constructor | cases hmm
      · rintro ⟨_, _, _, _, rfl, _⟩; cases hmm
    have hv : validateMatchClauseMsg σ m = .ok () := by
      apply ok_of_drop
      rw [drop_matchClause]
      cases m with
      | join k rels => exact (checkJoin_order hσ rels).trans hmv
      | _ => exact hmv
    simp only [Query.validateMsg, hv, ok_bind, Query.body]
  | nested i b =>
    simp only [Query.validateMsg, (validateMsg_ok hσ).2 (reach_inner (called_reach hq) (i := i) rfl), ok_bind, Query.body]

/-- What the checks across clauses say. -/
theorem combine_first {σ : SetOrders} (hσ : PossibleOrders σ) {q : Query} (hq : Called q) (hi : ∀ v ∈ itemsOf q.body, ¬ OffModel v)
    (hm : validateMatchMsg σ q = .ok ()) {x : Err} {t : Str} (h : combineChecksMsg q.body = .error (x, some t)) : FirstFault q x t := by
  have hn := match_fine hσ hq hm
  have hv : validateClauses q.body = .ok () := by
    rw [← drop_clauses, clauses_items (called_taken hq), (items_fine (taken_items (called_taken hq))).2 hi]; rfl
  have hx : x = .invalidQuery := by
    have hd : combineChecks q.body = .error x := by rw [← drop_combine, h]; rfl
    exact (taken_combine (called_taken hq) hd).1
  subst hx
  have hf := combine_text hv h
  generalize hx : Err.invalidQuery = x at hf
  cases hf with
  | noSelect h' => exact .noSelect hi hn h'
  | noGroupby h1 h2 h3 => exact .noGroupby hi hn h1 h2 h3
  | column _ hc => cases hc <;> cases hx
  | _ => cases hx

theorem validate_first {σ : SetOrders} (hσ : PossibleOrders σ) {q : Query} (hq : Called q) {x : Err} {t : Str}
    (h : q.validateMsg σ = .error (x, some t)) : FirstFault q x t := by
  have ht := taken_items (called_taken hq)
  rw [called_steps hσ hq] at h
  simp only [bind_eq_error] at h
  rcases h with h | ⟨_, hc, h | ⟨_, hm, h⟩⟩
  · obtain ⟨pre, c, post, e, h1, h2, h3, h4, h5⟩ := (items_fault ht).1 h
    cases h5
    exact .item h1 h2 h3 h4
  · obtain ⟨t', c, he, ho, hc'⟩ := C85_match hσ h (match_class h)
    cases he
    exact .column ((items_fine ht).1 hc) ho hc'
  · exact combine_first hσ hq ((items_fine ht).1 hc) hm h

theorem fault_refused {σ : SetOrders} (hσ : PossibleOrders σ) {q : Query} (hq : Called q) {x : Err} {t : Str} (hf : FirstFault q x t) :
    q.validateMsg σ ≠ .ok () := by
  intro h
  have ht := taken_items (called_taken hq)
  have hb := body_complete ((validateMsg_ok hσ).1 h)
  rw [called_steps hσ hq] at h
  simp only [bind_eq_ok] at h
  obtain ⟨_, hi, _, hm, hc⟩ := h
  have hn := match_fine hσ hq hm
  cases hf with
  | item h1 h2 h3 h4 => exact (items_fine ht).1 hi _ (by rw [h1]; simp) ⟨_, _, rfl, h3, h4⟩
  | column _ ho hc => exact hn _ _ _ ho hc
  | noSelect _ _ h => exact h hb.1
  | noGroupby _ _ _ h1 h2 =>
    rcases hb.2 with h | ⟨t, h, h3⟩
    · rw [h1] at h; cases h
    · rw [h1] at h; cases h; exact h2 (h3 rfl)

end

end Verif.QueryFaults
