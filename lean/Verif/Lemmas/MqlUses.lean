import Verif.Lemmas.MqlMeaning
import Verif.Spec.MqlUses

/-!
# The names and strings in a query occur in each text that denotes it
-/

namespace Verif

open Spec

section
variable [S : RegexSpace]

omit S in
theorem infix_mid {a s b t : Str} (h : s <:+: t) : s <:+: a ++ (t ++ b) := h.trans ⟨a, b, by simp⟩

omit S in
theorem infix_left {s t b : Str} (h : s <:+: t) : s <:+: t ++ b := h.trans ⟨[], b, by simp⟩

omit S in
theorem infix_right {s t a : Str} (h : s <:+: t) : s <:+: a ++ t := h.trans ⟨a, [], by simp⟩

omit S in
theorem infix_cons {s t : Str} {c : Char} (h : s <:+: t) : s <:+: c :: t := h.trans ⟨[c], [], by simp⟩

omit S in
theorem unescaped_same {u s : Str} (h : Unescaped u s) (hq : '"' ∉ s) : u = s := by
  induction h with
  | nil => rfl
  | plain _ _ _ ih => simp only [List.mem_cons, not_or] at hq; rw [ih hq.2]
  | quote => simp at hq
  | other _ _ _ ih => simp only [List.mem_cons, not_or] at hq; rw [ih hq.2.2]

omit S in
theorem quoted_uses {t s r : Str} (h : QuotedMeans t s) (hu : ValUses (.str s) r) : r <:+: t := by
  obtain ⟨u, rfl, hu'⟩ := h
  cases hu with
  | string hq => rw [unescaped_same hu' hq]; exact infix_cons (infix_left List.infix_rfl)

omit S in
theorem str_uses {s r : Str} (hu : ValUses (.str s) r) : r = s := by cases hu; rfl

theorem listed_uses {α : Type} {P : Str → α → Prop} {f : α → Val} {r : Str} (hP : ∀ t a, P t a → ValUses (f a) r → r <:+: t) :
    ∀ {t : Str} {xs : List α}, Listed P t xs → ∀ x ∈ xs, ValUses (f x) r → r <:+: t := by
  intro t xs h
  induction h with
  | one h => intro x hx hu; simp only [List.mem_singleton] at hx; subst hx; exact hP _ _ h hu
  | cons h _ _ _ ih =>
    intro x hx hu
    rcases List.mem_cons.1 hx with rfl | hx
    · exact infix_left (hP _ _ h hu)
    · exact infix_right (infix_right (infix_cons (infix_right (ih x hx hu))))

theorem item_uses {t s r : Str} (h : ItemMeans t s) (hu : ValUses (.str s) r) : r <:+: t := by
  cases h with
  | quoted h => exact quoted_uses h hu
  | bare => rw [str_uses hu]; exact List.infix_rfl

theorem value_uses {t : Str} {k : ValueKind} {v : Val} {r : Str} (h : ValueMeans t k v) (hu : ValUses v r) : r <:+: t := by
  cases h with
  | quoted h => exact quoted_uses h hu
  | bare => rw [str_uses hu]; exact List.infix_rfl
  | pattern => rw [str_uses hu]; exact List.infix_rfl
  | @quotedPattern u => rw [str_uses hu]; exact ⟨['"'], ['"'], by simp⟩
  | list _ h =>
    cases hu with
    | list hx hu =>
      obtain ⟨s, hs, rfl⟩ := List.mem_map.1 hx
      exact infix_cons (infix_right (infix_left (listed_uses (f := .str) (fun _ _ => item_uses) h s hs hu)))

omit S in
theorem key_uses {k r : Str} (hu : ValUses (keyColumn k) r) : r = k := by cases hu; rfl

omit S in
theorem conj_uses {xs : List Val} {r : Str} (h : ValUses (conj xs) r) : ∃ x ∈ xs, ValUses x r := by
  rcases xs with _ | ⟨x, _ | ⟨y, xs⟩⟩
  · cases h with | member hx => cases hx
  · exact ⟨x, .head _, h⟩
  · cases h with | member hx h => exact ⟨_, hx, h⟩

omit S in
theorem disj_uses {xs : List Val} {r : Str} (h : ValUses (disj xs) r) : ∃ x ∈ xs, ValUses x r := by
  rcases xs with _ | ⟨x, _ | ⟨y, xs⟩⟩
  · cases h with | member hx => cases hx
  · exact ⟨x, .head _, h⟩
  · cases h with | member hx h => exact ⟨_, hx, h⟩

omit S in
theorem joined_uses {js : List Joined} {j : Joined} {r : Str} (hj : j ∈ js) (h : r <:+: j.text) : r <:+: js.flatMap Joined.written := by
  obtain ⟨a, b, rfl⟩ := List.append_of_mem hj
  simp only [List.flatMap_append, List.flatMap_cons, Joined.written]
  exact infix_right (infix_left (infix_right (infix_right (infix_right h))))

theorem filter_uses {k : FilterRank} {t : Str} {v : Val} (h : FilterMeans k t v) : ∀ {r : Str}, ValUses v r → r <:+: t := by
  induction h with
  | compare _ _ _ ht =>
    intro r hu
    cases hu with
    | lhs hu => rw [key_uses hu]; exact infix_right (infix_left List.infix_rfl)
    | rhs hu => exact infix_right (infix_right (infix_right (infix_cons (infix_right (value_uses ht hu)))))
  | group _ _ _ ih => intro r hu; exact infix_cons (infix_right (infix_left (ih hu)))
  | all _ _ _ ih ihs =>
    intro r hu
    obtain ⟨x, hx, h⟩ := conj_uses hu
    rcases List.mem_cons.1 hx with rfl | hx
    · exact infix_left (ih h)
    · obtain ⟨j, hj, rfl⟩ := List.mem_map.1 hx
      exact infix_right (joined_uses hj (ihs j hj h))
  | any _ _ _ ih ihs =>
    intro r hu
    obtain ⟨x, hx, h⟩ := disj_uses hu
    rcases List.mem_cons.1 hx with rfl | hx
    · exact infix_left (ih h)
    · obtain ⟨j, hj, rfl⟩ := List.mem_map.1 hx
      exact infix_right (joined_uses hj (ihs j hj h))

theorem block_uses {t : Str} {fs : List Val} {r : Str} (h : BlockMeans t fs) : ∀ f ∈ fs, ValUses f r → r <:+: t := by
  intro f hf hu
  cases h with
  | none => cases hf
  | empty => cases hf
  | some _ h =>
    simp only [List.mem_singleton] at hf
    subst hf
    exact infix_cons (infix_right (infix_left (filter_uses h hu)))

omit S in
theorem keyMeans_uses {t : Str} {v : Val} {r : Str} (h : KeyMeans t v) (hu : ValUses v r) : r <:+: t := by
  cases h; rw [key_uses hu]; exact List.infix_rfl

theorem group_uses {t : Str} {gs : List Val} {r : Str} (h : GroupMeans t gs) : ∀ g ∈ gs, ValUses g r → r <:+: t := by
  intro g hg hu
  cases h with
  | none => cases hg
  | one _ _ hk =>
    simp only [List.mem_singleton] at hg
    subst hg
    exact infix_right (infix_right (infix_right (keyMeans_uses hk hu)))
  | many _ _ _ h =>
    exact infix_right (infix_right (infix_right (infix_cons (infix_right (infix_left (listed_uses (f := id) (fun _ _ => keyMeans_uses) h g hg hu))))))

omit S in
theorem prepend_uses {xs : List Val} {v : Val} {r : Str} (h : ValUses (prepend xs v) r) : (∃ x ∈ xs, ValUses x r) ∨ ValUses v r := by
  unfold prepend at h
  split at h
  · cases h with
    | list hx h =>
      rcases List.mem_append.1 hx with hx | hx
      · exact .inl ⟨_, hx, h⟩
      · exact .inr (.list hx h)
  · split at h
    · exact .inr h
    · cases h with | list hx h => exact .inl ⟨_, hx, h⟩

omit S in
theorem optList_uses {xs : List Val} {r : Str} (h : ValUses (optList xs) r) : ∃ x ∈ xs, ValUses x r := by
  cases xs with
  | nil => cases h
  | cons x xs => cases h with | list hx h => exact ⟨_, hx, h⟩

theorem param_uses {t : Str} {v : Val} {r : Str} (h : ParamMeans t v) (hu : ValUses v r) : r <:+: t := by
  cases h with
  | number => cases hu
  | quoted h => exact quoted_uses h hu
  | bare => rw [str_uses hu]; exact List.infix_rfl

theorem paramsMeans_uses {t : Str} {ps : List Val} {r : Str} (h : ParamsMeans t ps) (hu : ValUses (.list ps) r) : r <:+: t := by
  cases hu with
  | list hx hu =>
    cases h with
    | none => cases hx
    | some _ h => exact infix_cons (infix_right (infix_left (listed_uses (f := id) (fun _ _ => param_uses) h _ hx hu)))

omit S in
theorem metric_uses {t : Str} {o : MetricObj} {r : Str} (h : MetricMeans t o) (hu : o.publicName = .str r ∨ o.mri = .str r) : r <:+: t := by
  cases h <;> simp only [reduceCtorEq, false_or, or_false, Val.str.injEq] at hu <;> subst hu <;>
    first | exact List.infix_rfl | exact infix_cons (infix_left List.infix_rfl)

theorem series_uses {t : Str} {o : MetricObj} {fs gs : List Val} {n : Str} {ps : Val} {r : Str} (h : SeriesMeans t o fs gs)
    (hu : QueryUses (.ts ⟨o, .str n, ps, optList fs, optList gs⟩) r) : r = n ∨ ValUses ps r ∨ r <:+: t := by
  cases h with
  | mk hm hb hg =>
    cases hu with
    | publicName h => exact .inr (.inr (infix_left (metric_uses hm (.inl h))))
    | mri h => exact .inr (.inr (infix_left (metric_uses hm (.inr h))))
    | aggregate h => cases h; exact .inl rfl
    | params h => exact .inr (.inl h)
    | filters h =>
      obtain ⟨x, hx, h⟩ := optList_uses h
      exact .inr (.inr (infix_right (infix_left (block_uses hb x hx h))))
    | groupby h =>
      obtain ⟨x, hx, h⟩ := optList_uses h
      exact .inr (.inr (infix_right (infix_right (group_uses hg x hx h))))

omit S in
theorem addFilters_uses {fs : List Val} {x : MVal} {r : Str} (h : QueryUses (addFilters fs x) r) : (∃ f ∈ fs, ValUses f r) ∨ QueryUses x r := by
  cases x with
  | ts t =>
    cases h with
    | publicName h => exact .inr (.publicName h)
    | mri h => exact .inr (.mri h)
    | aggregate h hp => exact .inr (.aggregate h hp)
    | params h => exact .inr (.params h)
    | filters h => exact (prepend_uses h).imp id .filters
    | groupby h => exact .inr (.groupby h)
  | formula n p a f g =>
    simp only [addFilters] at h
    cases h with
    | function h => exact .inr (.function h)
    | operand hx h => exact .inr (.operand hx h)
    | formulaParams h => exact .inr (.formulaParams h)
    | formulaFilters h => exact (prepend_uses h).imp id .formulaFilters
    | formulaGroupby h => exact .inr (.formulaGroupby h)
  | _ => exact .inr h

omit S in
theorem addGroups_uses {gs : List Val} {x : MVal} {r : Str} (h : QueryUses (addGroups gs x) r) : (∃ g ∈ gs, ValUses g r) ∨ QueryUses x r := by
  cases x with
  | ts t =>
    cases h with
    | publicName h => exact .inr (.publicName h)
    | mri h => exact .inr (.mri h)
    | aggregate h hp => exact .inr (.aggregate h hp)
    | params h => exact .inr (.params h)
    | filters h => exact .inr (.filters h)
    | groupby h => exact (prepend_uses h).imp id .groupby
  | formula n p a f g =>
    simp only [addGroups] at h
    cases h with
    | function h => exact .inr (.function h)
    | operand hx h => exact .inr (.operand hx h)
    | formulaParams h => exact .inr (.formulaParams h)
    | formulaFilters h => exact .inr (.formulaFilters h)
    | formulaGroupby h => exact (prepend_uses h).imp id .formulaGroupby
  | _ => exact .inr h

omit S in
theorem args_uses {as : List Arg} {a : Arg} {r : Str} (ha : a ∈ as) (h : r <:+: a.text) : r <:+: argsText as := by
  obtain ⟨b, c, rfl⟩ := List.append_of_mem ha
  simp only [argsText, List.flatMap_append, List.flatMap_cons]
  exact infix_right (infix_left (infix_right (infix_cons (infix_right h))))

omit S in
theorem negate_uses {x y : MVal} {r : Str} (h : negateM x = some y) (hu : QueryUses y r) : QueryUses x r := by
  cases x with
  | val v =>
    cases v <;> simp only [negateM, Option.some.injEq, reduceCtorEq] at h
    subst h
    cases hu with | value hu => cases hu
  | ts t =>
    cases h
    cases hu with
    | function h => exact absurd (by decide) h
    | operand hx hu => simp only [List.mem_singleton] at hx; subst hx; exact hu
    | formulaParams h => cases h
    | formulaFilters h => cases h
    | formulaGroupby h => cases h
  | formula n p a f g =>
    cases h
    cases hu with
    | function h => exact absurd (by decide) h
    | operand hx hu => simp only [List.mem_singleton] at hx; subst hx; exact hu
    | formulaParams h => cases h
    | formulaFilters h => cases h
    | formulaGroupby h => cases h
  | _ => cases h

omit S in
theorem arith_uses {op : Arith} {x y : MVal} {r : Str} (hu : QueryUses (.formula (.str op.name) (.list [x, y]) .none .none .none) r) :
    QueryUses x r ∨ QueryUses y r := by
  cases hu with
  | function h => exact absurd (by cases op <;> decide) h
  | operand hx hu =>
    simp only [List.mem_cons, List.not_mem_nil, or_false] at hx
    rcases hx with rfl | rfl
    · exact .inl hu
    · exact .inr hu
  | formulaParams h => cases h
  | formulaFilters h => cases h
  | formulaGroupby h => cases h

omit S in
theorem call_uses {n : Str} {x : MVal} {as : List Arg} {p : Val} {r : Str}
    (hu : QueryUses (.formula (.str n) (.list (x :: as.map (·.value))) p .none .none) r) :
    r = n ∨ ValUses p r ∨ QueryUses x r ∨ ∃ a ∈ as, QueryUses a.value r := by
  cases hu with
  | function h => exact .inl rfl
  | operand hx hu =>
    rcases List.mem_cons.1 hx with rfl | hx
    · exact .inr (.inr (.inl hu))
    · obtain ⟨a, ha, rfl⟩ := List.mem_map.1 hx
      exact .inr (.inr (.inr ⟨a, ha, hu⟩))
  | formulaParams h => exact .inr (.inl h)
  | formulaFilters h => cases h
  | formulaGroupby h => cases h

theorem means_uses {k : Rank} {t : Str} {x : MVal} (h : Means k t x) : ∀ {r : Str}, QueryUses x r → r <:+: t := by
  induction h with
  | aggregate _ _ hi =>
    intro r hu
    rcases series_uses hi hu with rfl | h | h
    · exact infix_left List.infix_rfl
    · cases h
    · exact infix_right (infix_cons (infix_right (infix_left h)))
  | curriedAggregate _ hp _ hi =>
    intro r hu
    rcases series_uses hi hu with rfl | h | h
    · exact infix_left List.infix_rfl
    · exact infix_right (infix_left (paramsMeans_uses hp h))
    · exact infix_right (infix_right (infix_cons (infix_right (infix_left h))))
  | function _ _ _ _ _ _ _ ih ihs =>
    intro r hu
    rcases call_uses hu with rfl | h | h | ⟨a, ha, h⟩
    · exact infix_left List.infix_rfl
    · cases h
    · exact infix_right (infix_cons (infix_right (infix_left (ih h))))
    · exact infix_right (infix_cons (infix_right (infix_right (infix_right (infix_left (args_uses ha (ihs a ha h)))))))
  | curriedFunction _ hp _ _ _ _ _ _ ih ihs =>
    intro r hu
    rcases call_uses hu with rfl | h | h | ⟨a, ha, h⟩
    · exact infix_left List.infix_rfl
    · exact infix_right (infix_left (paramsMeans_uses hp h))
    · exact infix_right (infix_right (infix_cons (infix_right (infix_left (ih h)))))
    · exact infix_right (infix_right (infix_cons (infix_right (infix_right (infix_right (infix_left (args_uses ha (ihs a ha h))))))))
  | seriesCall _ hp _ _ _ _ _ _ ih _ =>
    intro r hu
    cases hu with
    | publicName h => exact infix_right (infix_right (infix_cons (infix_right (infix_left (ih (.publicName h))))))
    | mri h => exact infix_right (infix_right (infix_cons (infix_right (infix_left (ih (.mri h))))))
    | aggregate h => cases h; exact infix_left List.infix_rfl
    | params h => exact infix_right (infix_left (paramsMeans_uses hp h))
    | filters h => exact infix_right (infix_right (infix_cons (infix_right (infix_left (ih (.filters h))))))
    | groupby h => exact infix_right (infix_right (infix_cons (infix_right (infix_left (ih (.groupby h))))))
  | grouped _ hg ih =>
    intro r hu
    rcases addGroups_uses hu with ⟨g, hg', h⟩ | h
    · exact infix_right (group_uses hg g hg' h)
    · exact infix_left (ih h)
  | paren _ _ _ _ ih => intro r hu; exact infix_cons (infix_right (infix_left (ih hu)))
  | metric h =>
    intro r hu
    cases hu with
    | publicName hu => exact metric_uses h (.inl hu)
    | mri hu => exact metric_uses h (.inr hu)
    | aggregate hu hp => cases hu; exact absurd rfl hp
    | params h => cases h
    | filters h => cases h
    | groupby h => cases h
  | number => intro r hu; cases hu with | value hu => cases hu
  | string h => intro r hu; cases hu with | value hu => exact quoted_uses h hu
  | filtered _ _ hb hg ih =>
    intro r hu
    rcases addGroups_uses hu with ⟨g, hg', h⟩ | h
    · exact infix_right (infix_right (group_uses hg g hg' h))
    · rcases addFilters_uses h with ⟨f, hf, h⟩ | h
      · exact infix_right (infix_left (block_uses hb f hf h))
      · exact infix_left (ih h)
  | plain _ ih => exact ih
  | minus _ hy ih => intro r hu; exact infix_cons (ih (negate_uses hy hu))
  | factor _ ih => exact ih
  | times _ _ _ _ _ ih ih' =>
    intro r hu
    rcases arith_uses hu with h | h
    · exact infix_left (ih h)
    · exact infix_right (infix_right (infix_cons (infix_right (ih' h))))
  | summand _ ih => exact ih
  | plus _ _ _ _ _ ih ih' =>
    intro r hu
    rcases arith_uses hu with h | h
    · exact infix_left (ih h)
    · exact infix_right (infix_right (infix_cons (infix_right (ih' h))))

theorem denotes_uses {text : Str} {x : MVal} {r : Str} (h : Denotes text x) (hu : QueryUses x r) : r <:+: text := by
  obtain ⟨a, t, b, rfl, _, _, hm, _⟩ := h
  exact infix_right (infix_left (means_uses hm hu))

end

end Verif
