import Verif.Lemmas.Names
import Verif.Lemmas.Construct
import Verif.Props.Construct

/-!
# C08, C09: accepted names
-/

namespace Verif
open Spec

section
variable [U : PyUnicode]

/-! ### C08 -/

/-- **C08.** `Column(name)` succeeds exactly for strings `ident` or `ident[key]`, optionally followed by one
newline. -/
theorem C08_column_accepts_iff (name : Val) :
    (∃ x, mkColumn name .none = .ok x) ↔ ∃ s, name = .str s ∧ OptNewline ColName s := by
  constructor
  · rintro ⟨x, h⟩
    simp only [mkColumn, bind_eq_ok, ensure_eq_ok] at h
    obtain ⟨s, hs, _, hm, _⟩ := h
    cases name <;> simp [asStr] at hs
    subst hs
    exact ⟨_, rfl, columnNameRe_iff.1 hm⟩
  · rintro ⟨s, rfl, h⟩
    rw [← columnNameRe_iff] at h
    simp [mkColumn, asStr, asEntity, h, ensure, ColumnObj.validate, ColumnObj.checkEntity]

/-- **C08.** Any failure of `Column(name, entity)` is an `InvalidColumnError`. -/
theorem C08_column_rejects (name entity : Val) (e : Err) (h : mkColumn name entity = .error e) :
    e = .invalidColumn := by
  unfold mkColumn ColumnObj.validate ColumnObj.checkEntity at h
  simp only [bind_eq_error, ensure_eq_error] at h
  rcases h with h | ⟨_, _, ⟨_, h⟩ | ⟨_, _, h | ⟨en, _, (⟨_, h⟩ | ⟨_, _, h | ⟨_, _, h⟩⟩) | ⟨_, _, h⟩⟩⟩⟩
  · cases name <;> simp [asStr] at h <;> exact h.symm
  · exact h.symm
  · cases entity <;> simp [asEntity] at h <;> exact h.symm
  · exact h.symm
  · split at h
    · cases h
    · rcases bind_eq_error.1 h with h | ⟨_, _, h⟩
      · exact (ensure_eq_error.1 h).2.symm
      · unfold ColumnObj.validateDataModel at h
        split at h
        · cases h
        · exact (ensure_eq_error.1 h).2.symm
  · cases h
  · cases h

/-- **C08.** Whatever the entity argument, a constructed column has the given name, and when there is no
trailing newline: `subscriptable` and `key` are both `None` if the name is an `ident`, and otherwise
`name = subscriptable + "[" + key + "]"` with `subscriptable` an `ident` and no bracket in `key`. -/
theorem C08_column_subscript (s : Str) (entity : Val) (x : Val) (h : mkColumn (.str s) entity = .ok x)
    (hnl : s.getLast? ≠ some '\n') :
    ∃ c, x = .column c ∧ c.name = s ∧
      ((ColIdent s ∧ c.subscriptable = none ∧ c.key = none) ∨
       ∃ i k, ColIdent i ∧ ColKey k ∧ s = i ++ '[' :: k ++ [']'] ∧
        c.subscriptable = some i ∧ c.key = some k) := by
  simp only [mkColumn, asStr, ColumnObj.validate, bind_eq_ok, ensure_eq_ok] at h
  obtain ⟨_, hs, _, hm, en, _, c, ⟨_, _, _, _, hc⟩, hx⟩ := h
  cases hs; cases hc; cases hx
  have hname : (ColumnObj.setSubscript ⟨s, en, none, none⟩).name = s := by
    unfold ColumnObj.setSubscript; split <;> rfl
  refine ⟨_, rfl, hname, ?_⟩
  rcases columnNameRe_iff.1 hm with (hi | ⟨i, k, hi, hk, rfl⟩) | ⟨b, _, rfl⟩
  · left
    refine ⟨hi, ?_⟩
    simp [ColumnObj.setSubscript, splitSubscript, splitOnce_none (colIdent_no_bracket hi).1]
  · right
    refine ⟨i, k, hi, hk, rfl, ?_⟩
    have : splitOnce '[' (i ++ '[' :: k ++ [']']) = some (i, k ++ [']']) := by
      rw [List.append_assoc]; exact splitOnce_append (colIdent_no_bracket hi).1
    simp only [ColumnObj.setSubscript, splitSubscript, this, Option.map_some, strip_bracket hk.2]
    exact ⟨trivial, trivial⟩
  · simp at hnl

example : @ColName asciiUnicode c!"tags[a b]" ∧ ¬ @ColName asciiUnicode c!"1a" := by
  letI := asciiUnicode
  constructor
  · exact .inr ⟨c!"tags", c!"a b", ⟨'t', c!"ags", rfl, by decide, by decide⟩, by unfold ColKey; decide, rfl⟩
  · rintro (⟨h, u, h1, h2, _⟩ | ⟨i, k, ⟨h, u, rfl, h2, _⟩, _, h3⟩)
    · cases h1; revert h2; decide
    · simp at h3; obtain ⟨rfl, _⟩ := h3; revert h2; decide

example : @mkColumn asciiUnicode (.str c!"tags[a b]") .none =
      .ok (.column ⟨c!"tags[a b]", none, some c!"tags", some c!"a b"⟩) ∧
    @mkColumn asciiUnicode (.str c!"a.b:c/d@e") .none = .ok (.column ⟨c!"a.b:c/d@e", none, none, none⟩) ∧
    @mkColumn asciiUnicode (.str c!"tags[a]b") .none = .error .invalidColumn ∧
    @mkColumn asciiUnicode (.str c!"") .none = .error .invalidColumn ∧
    @mkColumn asciiUnicode (.int 3) .none = .error .invalidColumn := ⟨rfl, rfl, rfl, rfl, rfl⟩

/-- What the hypothesis of `C08_column_subscript` excludes: a trailing newline is accepted and ends up,
with the bracket, in the key. -/
example : @mkColumn asciiUnicode (.str c!"tags[a]\n") .none =
    .ok (.column ⟨c!"tags[a]\n", none, some c!"tags", some c!"a]\n"⟩) := rfl

/-! ### C09 -/

omit U in
theorem checkAlias_iff {a : Val} {e : Err} {o : Option Str} : checkAlias a e = .ok o ↔
    (a = .none ∧ o = none) ∨ ∃ s, a = .str s ∧ s ≠ [] ∧ OptNewline AliasText s ∧ o = some s := by
  have hal : ∀ s : Str, ALIAS_RE.matches s = true ↔ OptNewline AliasText s := by
    intro s
    rw [ALIAS_RE_iff]
    have : (fun b : Str => ∀ c ∈ b, aliasChar c = true) = AliasText := by
      funext b; unfold AliasText
      simp only [aliasChar, Bool.or_eq_true, beq_iff_eq, List.mem_cons, List.not_mem_nil, or_false, or_assoc]
    rw [this]
  cases a
  case none => simp only [checkAlias, Except.ok.injEq, true_and, reduceCtorEq, false_and, exists_false, or_false]
               exact eq_comm
  case str s =>
    simp only [checkAlias, reduceCtorEq, false_and, false_or, Val.str.injEq, List.isEmpty_iff]
    constructor
    · intro h
      split at h
      · cases h
      · rename_i hne
        split at h
        · rename_i hm; cases h; exact ⟨s, rfl, hne, (hal s).1 hm, rfl⟩
        · cases h
    · rintro ⟨_, rfl, hne, hm, rfl⟩
      rw [if_neg hne, if_pos ((hal s).2 hm)]
  all_goals simp [checkAlias]

omit U in
/-- **C09** (aliases, exact): `AliasedExpression` accepts exactly None or a non-empty alias text, possibly
followed by one newline. -/
theorem C09_aliased_accepts_iff (exp alias x : Val) : mkAliased exp alias = .ok x ↔
    ∃ c, exp = .column c ∧ ((alias = .none ∧ x = .aliased c none) ∨
      ∃ s, alias = .str s ∧ s ≠ [] ∧ OptNewline AliasText s ∧ x = .aliased c (some s)) := by
  simp only [mkAliased, bind_eq_ok, checkAlias_iff]
  constructor
  · rintro ⟨c, hc, a, h, hx⟩
    cases hx
    refine ⟨c, by cases exp <;> simp [asColumn] at hc; rw [hc], ?_⟩
    rcases h with ⟨h, rfl⟩ | ⟨s, h, hne, hs, rfl⟩
    · exact .inl ⟨h, rfl⟩
    · exact .inr ⟨s, h, hne, hs, rfl⟩
  · rintro ⟨c, rfl, ⟨rfl, rfl⟩ | ⟨s, rfl, hne, hs, rfl⟩⟩
    · exact ⟨c, rfl, none, .inl ⟨rfl, rfl⟩, rfl⟩
    · exact ⟨c, rfl, some s, .inr ⟨s, rfl, hne, hs, rfl⟩, rfl⟩

/-- **C09** (function names and aliases): an accepted function has a name of the function-name
language and an alias that is None or a non-empty alias text, each possibly followed by one
newline. -/
theorem C09_function_names (isFn : Bool) (fn inits ps alias x : Val)
    (h : (if isFn then mkFunction fn ps alias else mkCurried fn inits ps alias) = .ok x) :
    ∃ n ik is pk qs a, x = .curried isFn n ik is pk qs a ∧ fn = .str n ∧ OptNewline FunctionName n ∧
      ((alias = .none ∧ a = none) ∨
        ∃ s, alias = .str s ∧ s ≠ [] ∧ OptNewline AliasText s ∧ a = some s) := by
  have hfn : OneChar (.alt (.cls U.isWord)
    (.alt (.cls fun c => c == '(' || c == ')' || c == '.' || c == ',' || c == '+' || c == '\'' ||
        c == '"' || c == ':')
      (.alt (.chr ' ') (.alt (.chr '[') (.alt (.chr ']') (.chr '-')))))) _ :=
    .alt (.cls _) (.alt (.cls _) (.alt (.chr _) (.alt (.chr _) (.alt (.chr _) (.chr _)))))
  have key : ∀ ini r, checkCurried fn ini ps alias = .ok r →
      fn = .str r.1 ∧ OptNewline FunctionName r.1 ∧ ((alias = .none ∧ r.2.2.2 = none) ∨
        ∃ s, alias = .str s ∧ s ≠ [] ∧ OptNewline AliasText s ∧ r.2.2.2 = some s) := by
    intro ini r hr
    simp only [checkCurried, checkFunctionName, bind_eq_ok, ensure_eq_ok, checkAlias_iff] at hr
    obtain ⟨n, hn, _, ⟨_, _, hm⟩, i, _, a, ha, p, _, hr⟩ := hr
    cases hr
    refine ⟨by cases fn <;> simp [asStr] at hn; rw [hn], ?_, ha⟩
    rw [matches_iff] at hm
    rw [optNewline_iff]
    simp only [functionNameRe, mem_run_seq, mem_run_cls, mem_run_plus hfn, mem_run_eol] at hm
    obtain ⟨t, _, ⟨h, rfl, hh⟩, _, ⟨u, rfl, hne, hu⟩, rfl, he⟩ := hm
    refine ⟨h :: u, _, ⟨h, u, rfl, hh, hne, ?_⟩, rfl, he⟩
    intro c hc
    have := hu c hc
    simp at this ⊢
    rcases this with h | h | h | h | h | h
    · exact .inl h
    · rcases h with ((((((h | h) | h) | h) | h) | h) | h) | h <;> simp [h]
    all_goals simp [h]
  cases isFn
  · simp only [Bool.false_eq_true, if_false, mkCurried, bind_eq_ok] at h
    obtain ⟨r, hr, hx⟩ := h
    cases hx
    exact ⟨_, _, _, _, _, _, rfl, key _ _ hr⟩
  · simp only [if_true, mkFunction, bind_eq_ok] at h
    obtain ⟨r, hr, hx⟩ := h
    cases hx
    exact ⟨_, _, _, _, _, _, rfl, key _ _ hr⟩

omit U in
/-- **C09** (alias safety): an alias text, even with the newline, contains none of the characters that could
end or escape the backticks, nor other quotes, commas or whitespace except that one final newline. -/
theorem C09_alias_safe (s : Str) (h : OptNewline AliasText s) :
    OptNewline QuoteSafe s ∧ ∀ rest, (s ++ '`' :: rest).takeWhile (· != '`') = s := by
  have hsafe : ∀ b, AliasText b → QuoteSafe b := by
    intro b hb c hc
    apply aliasChar_safe
    have := hb c hc
    simpa only [aliasChar, Bool.or_eq_true, beq_iff_eq, List.mem_cons, List.not_mem_nil, or_false, or_assoc] using this
  have h1 : OptNewline QuoteSafe s := by
    rcases h with h | ⟨b, h, rfl⟩
    · exact .inl (hsafe _ h)
    · exact .inr ⟨b, hsafe _ h, rfl⟩
  refine ⟨h1, fun rest => ?_⟩
  have h2 : ∀ c ∈ s, (c != '`') = true := by
    rcases h1 with h' | ⟨b, h', rfl⟩
    · intro c hc; simpa using (h' c hc).1
    · intro c hc
      rcases List.mem_append.1 hc with hc | hc
      · simpa using (h' c hc).1
      · simp at hc; subst hc; decide
  rw [List.takeWhile_append_of_pos h2]; simp

omit U in
/-- **C09** (`Identifier`): exact. -/
theorem C09_identifier_accepts_iff (v x : Val) :
    mkIdentifier v = .ok x ↔ ∃ s, v = .str s ∧ OptNewline IdentName s ∧ x = .ident s := by
  simp only [mkIdentifier, bind_eq_ok, ensure_eq_ok, identifierRe_iff]
  constructor
  · rintro ⟨s, hs, _, h, hx⟩
    cases hx
    exact ⟨s, by cases v <;> simp [asStr] at hs; rw [hs], h, rfl⟩
  · rintro ⟨s, rfl, h, rfl⟩; exact ⟨s, rfl, (), h, rfl⟩

omit U in
theorem checkIdentifiers_iff : ∀ {xs : List Val} {ss : List Str},
    checkIdentifiers xs = .ok ss ↔ xs = ss.map .str ∧ ∀ s ∈ ss, OptNewline IdentName s
  | [], ss => by cases ss <;> simp [checkIdentifiers]
  | x :: xs, ss => by
    simp only [checkIdentifiers, bind_eq_ok, ensure_eq_ok, identifierRe_iff, checkIdentifiers_iff (xs := xs)]
    constructor
    · rintro ⟨s, hs, _, h, ss', ⟨rfl, h2⟩, hx⟩
      cases hx
      refine ⟨by cases x <;> simp [asStr] at hs; rw [hs]; rfl, ?_⟩
      simp only [List.mem_cons, forall_eq_or_imp]; exact ⟨h, h2⟩
    · rintro ⟨h1, h2⟩
      cases ss with
      | nil => simp at h1
      | cons s ss =>
        simp only [List.map_cons, List.cons.injEq] at h1
        simp only [List.mem_cons, forall_eq_or_imp] at h2
        exact ⟨s, by rw [h1.1]; rfl, (), h2.1, ss, ⟨h1.2, h2.2⟩, rfl⟩

omit U in
/-- **C09** (`Lambda`): exact. -/
theorem C09_lambda_accepts_iff (ids body x : Val) :
    mkLambda ids body = .ok x ↔ ∃ k ss, SeqOf ids k (ss.map .str) ∧ (∀ s ∈ ss, OptNewline IdentName s) ∧
      (∃ f n ik is pk ps a, body = .curried f n ik is pk ps a) ∧ x = .lam k ss body := by
  have hb : body.isCurried = true ↔ ∃ f n ik is pk ps a, body = .curried f n ik is pk ps a := by
    cases body <;> simp [Val.isCurried]
  unfold mkLambda
  cases h : ids.listOrTuple? with
  | none =>
    simp only [reduceCtorEq, false_iff]
    rintro ⟨k, ss, hs, _⟩; exact listOrTuple?_none.1 h _ _ hs
  | some p =>
    obtain ⟨k, xs⟩ := p
    have hs := listOrTuple?_iff.1 h
    simp only [bind_eq_ok, ensure_eq_ok, checkIdentifiers_iff, hb]
    constructor
    · rintro ⟨ss, ⟨rfl, h2⟩, _, h3, hx⟩
      cases hx; exact ⟨k, ss, hs, h2, h3, rfl⟩
    · rintro ⟨k', ss, hs', h2, h3, rfl⟩
      rw [← listOrTuple?_iff, h] at hs'; cases hs'
      exact ⟨ss, ⟨rfl, h2⟩, (), h3, rfl⟩

omit U in
/-- **C09** (`Entity`, `Storage`): an accepted name is a non-empty word of letters and underscores,
possibly followed by one newline, and is the name of the object. -/
theorem C09_entity_storage_names (name alias sample dm x : Val) :
    (mkEntity name alias sample dm = .ok x →
      ∃ e, x = .entity e ∧ name = .str e.name ∧ OptNewline EntityName e.name) ∧
    (mkStorage name sample dm = .ok x →
      ∃ s, x = .storage s ∧ name = .str s.name ∧ OptNewline EntityName s.name) := by
  constructor
  · intro h
    simp only [mkEntity, bind_eq_ok, ensure_eq_ok, entityNameRe_iff] at h
    obtain ⟨s, hs, _, h, _, _, _, _, _, _, hx⟩ := h
    cases hx
    exact ⟨_, rfl, by cases name <;> simp [asStr] at hs; rw [hs], h⟩
  · intro h
    simp only [mkStorage, bind_eq_ok, ensure_eq_ok, entityNameRe_iff] at h
    obtain ⟨s, hs, _, h, _, _, _, _, hx⟩ := h
    cases hx
    exact ⟨_, rfl, by cases name <;> simp [asStr] at hs; rw [hs], h⟩

omit U in
/-- **C09** (`Entity`, `Storage`): every such name is accepted. -/
theorem C09_entity_storage_accept (s : Str) (h : OptNewline EntityName s) :
    mkEntity (.str s) .none .none .none = .ok (.entity ⟨s, none, none, none⟩) ∧
    mkStorage (.str s) .none .none = .ok (.storage ⟨s, none, none⟩) := by
  rw [← entityNameRe_iff] at h
  simp [mkEntity, mkStorage, asStr, h, ensure, checkSample, checkEntityAlias, checkDataModel]

end

example : mkAliased exCol (.str c!"p95(d)") = .ok (.aliased ⟨c!"project_id", none, none, none⟩ (some c!"p95(d)")) ∧
    mkAliased exCol (.str c!"a`b") = .error .invalidExpression ∧
    mkAliased exCol (.str c!"") = .error .invalidExpression ∧
    mkIdentifier (.str c!"x1") = .ok (.ident c!"x1") ∧ mkIdentifier (.str c!"1x") = .error .invalidLambda ∧
    mkEntity (.str c!"events") (.str c!"e") .none .none = .ok (.entity ⟨c!"events", some c!"e", none, none⟩) ∧
    mkEntity (.str c!"ev ents") .none .none .none = .error .invalidEntity := by
  refine ⟨rfl, rfl, rfl, rfl, rfl, rfl, rfl⟩

/-- The newline corner: Python's `$` lets a final newline through. -/
example : mkAliased exCol (.str c!"a\n") = .ok (.aliased ⟨c!"project_id", none, none, none⟩ (some c!"a\n")) ∧
    mkIdentifier (.str c!"x\n") = .ok (.ident c!"x\n") := ⟨rfl, rfl⟩

example : OptNewline AliasText c!"p95(d)" ∧ OptNewline IdentName c!"x1" ∧ OptNewline EntityName c!"events" := by
  refine ⟨.inl (by unfold AliasText; decide), .inl ⟨'x', c!"1", rfl, by decide, by decide⟩,
    .inl ⟨by decide, by decide⟩⟩

example : @mkFunction asciiUnicode (.str c!"count") (.list []) (.str c!"c") =
    .ok (.curried true c!"count" .absent [] .list [] (some c!"c")) := rfl

end Verif
