import Verif.Spec.Messages
import Verif.Lemmas.SetOrder
import Verif.Lemmas.Finder
import Verif.Props.Required
import Verif.Lemmas.JsonValue

/-!
# Lemmas: exceptions with their messages
-/

namespace Verif
open Spec

/-! ### The classes are those of the other model files -/

theorem drop_bind {α β : Type} (x : Except Raised α) (f : α → Except Raised β) :
    dropMessage (x >>= f) = dropMessage x >>= fun a => dropMessage (f a) := by
  cases x <;> rfl

theorem drop_elsewhere {α : Type} (x : Except Err α) : dropMessage (elsewhere x) = x := by
  cases x <;> rfl

theorem drop_seen : ∀ (rest seen : List (Str × Str)), dropMessage (checkSeenMsg seen rest) = checkSeen seen rest
  | [], _ => rfl
  | (a, n) :: rest, seen => by
    simp only [checkSeenMsg, checkSeen]
    cases seen.lookup a with
    | none => exact drop_seen rest _
    | some m =>
      simp only []
      split
      · rfl
      · exact drop_seen rest _

theorem drop_join (σ : SetOrders) (rels : List RelObj) : dropMessage (checkJoinMsg σ rels) = checkJoinIn σ rels := by
  simp only [checkJoinMsg, checkJoinIn]
  cases rels with
  | nil => rfl
  | cons r rels => exact drop_seen _ _

theorem drop_inner (names : List (Option Str)) : ∀ cs, dropMessage (checkInnerMsg names cs) =
    ensure (cs.all fun c => names.contains (some c.name)) .invalidMatch
  | [] => rfl
  | c :: cs => by
    simp only [checkInnerMsg, List.all_cons]
    cases names.contains (some c.name) with
    | true => simpa using drop_inner names cs
    | false => rfl

theorem drop_subquery (σ : SetOrders) (inner : Body) (cols : List ColumnObj) :
    dropMessage (validateSubqueryMsg σ inner cols) = validateSubqueryIn σ inner cols := by
  simp only [validateSubqueryMsg, validateSubqueryIn, validateSubquery]
  cases inner.select <;> first
    | rfl
    | (simp only []
       split
       · rename_i h; rw [h]; rfl
       · rename_i h; rw [h]; exact drop_inner _ _)

theorem drop_qualified (dict : List (Str × Str)) : ∀ cs, dropMessage (checkQualifiedMsg dict cs) = checkQualified dict cs
  | [] => rfl
  | c :: cs => by
    simp only [checkQualifiedMsg, checkQualified]
    cases c.entity with
    | none => rfl
    | some e =>
      simp only []
      cases e.alias.bind (fun a => dict.lookup a) with
      | none => rfl
      | some n =>
        simp only []
        split
        · rfl
        · exact drop_qualified dict cs

theorem drop_model (owner : Str) (dm : Option DataModel) : ∀ cs, dropMessage (validateModelMsg owner dm cs) = validateModel dm cs
  | [] => rfl
  | c :: cs => by
    simp only [validateModelMsg, validateModel, drop_bind, drop_model owner dm cs]
    congr 1
    simp only [ColumnObj.validateDataModelMsg]
    cases c.validateDataModel dm <;> rfl

theorem drop_entity (σ : SetOrders) (e : EntityObj) (w : Val) : dropMessage (checkEntityRequiredMsg σ e w) = checkEntityRequiredIn σ e w := by
  simp only [checkEntityRequiredMsg, checkEntityRequiredIn]
  cases e.dataModel with
  | none => rfl
  | some dm =>
    simp only []
    cases w.truthy with
    | false => rfl
    | true =>
      simp only [ensure, if_true, ok_bind]
      cases w.iter with
      | error x => rfl
      | ok xs =>
        simp only [ok_bind]
        cases (missingRequired (firstLevelAnd xs) e.alias (σ.required dm.required)).isEmpty with
        | false => rfl
        | true =>
          simp only [if_true, ok_bind]
          cases (missingOps (firstLevelAnd xs) e.alias dm.timeColumn.name (σ.ops [.gte, .lt])).isEmpty <;> rfl

theorem drop_entities (σ : SetOrders) (w : Val) : ∀ es, dropMessage (checkEntitiesRequiredMsg σ es w) = checkEntitiesRequiredIn σ es w
  | [] => rfl
  | e :: es => by
    simp only [checkEntitiesRequiredMsg, checkEntitiesRequiredIn, drop_bind, drop_entity, drop_entities σ w es]

theorem drop_required (σ : SetOrders) : ∀ q, dropMessage (validateRequiredColumnsMsg σ q) = validateRequiredColumnsIn σ q
  | .nested q _ => drop_required σ q
  | .base m b => by
    cases m <;> first
      | rfl
      | exact drop_entity σ _ _
      | exact drop_entities σ _ _

theorem drop_columns : ∀ kvs, dropMessage (checkColumnsMsg kvs) = checkColumns kvs
  | [] => rfl
  | (col, values) :: kvs => by
    simp only [checkColumnsMsg, checkColumns, drop_bind, drop_elsewhere]
    congr 1
    funext n
    cases n with
    | zero => rfl
    | succ n => exact drop_columns kvs

theorem drop_flags : ∀ fs, dropMessage (checkFlagsMsg fs) = checkFlags fs
  | [] => rfl
  | (k, v) :: fs => by
    simp only [checkFlagsMsg, checkFlags]
    cases checkFlag v with
    | error e => rfl
    | ok _ => exact drop_flags fs

/-! ### Sorting -/

theorem strLt_total : ∀ a b : Str, strLt a b = false → strLt b a = false → a = b
  | [], [], _, _ => rfl
  | [], _ :: _, h, _ => by simp [strLt] at h
  | _ :: _, [], _, h => by simp [strLt] at h
  | a :: as, b :: bs, h1, h2 => by
    simp only [strLt] at h1 h2
    split at h1
    · rename_i e
      subst e
      simp only [if_true] at h2
      rw [strLt_total as bs h1 h2]
    · rename_i ne
      rw [if_neg (Ne.symm ne)] at h2
      have h1 := of_decide_eq_false h1
      have h2 := of_decide_eq_false h2
      have : a.toNat = b.toNat := by omega
      exact absurd (by rw [← Char.ofNat_toNat a, this, Char.ofNat_toNat]) ne

theorem insertStr_mem (s t : Str) : ∀ ts, t ∈ insertStr s ts ↔ t = s ∨ t ∈ ts
  | [] => by simp [insertStr]
  | u :: ts => by
    simp only [insertStr]
    split
    · simp only [List.mem_cons, insertStr_mem s t ts]
      constructor
      · rintro (h | h | h)
        · exact .inr (.inl h)
        · exact .inl h
        · exact .inr (.inr h)
      · rintro (h | h | h)
        · exact .inr (.inl h)
        · exact .inl h
        · exact .inr (.inr h)
    · simp

theorem sortStrs_mem (t : Str) : ∀ ts, t ∈ sortStrs ts ↔ t ∈ ts
  | [] => Iff.rfl
  | s :: ts => by simp only [sortStrs, insertStr_mem, sortStrs_mem t ts, List.mem_cons]

theorem insertStr_length (s : Str) : ∀ ts, (insertStr s ts).length = ts.length + 1
  | [] => rfl
  | u :: ts => by
    simp only [insertStr]
    split
    · simp [insertStr_length s ts]
    · rfl

theorem sortStrs_length : ∀ ts, (sortStrs ts).length = ts.length
  | [] => rfl
  | s :: ts => by simp [sortStrs, insertStr_length, sortStrs_length ts]

theorem insertStr_sorted (s : Str) : ∀ ts, Alphabetical ts → s ∉ ts → Alphabetical (insertStr s ts)
  | [], _, _ => by simp [insertStr, Alphabetical]
  | t :: ts, h, hs => by
    have h0 := List.pairwise_cons.1 h
    simp only [List.mem_cons, not_or] at hs
    simp only [insertStr]
    split
    · rename_i hlt
      refine List.pairwise_cons.2 ⟨fun u hu => ?_, insertStr_sorted s ts h0.2 hs.2⟩
      rcases (insertStr_mem s u ts).1 hu with rfl | hu
      · exact (strLt_iff _ _).1 hlt
      · exact h0.1 u hu
    · rename_i hlt
      have hb : Before s t := by
        cases hst : strLt s t with
        | true => exact (strLt_iff _ _).1 hst
        | false => exact absurd (strLt_total s t hst (by simpa using hlt)) hs.1
      refine List.pairwise_cons.2 ⟨fun u hu => ?_, h⟩
      rcases List.mem_cons.1 hu with rfl | hu
      · exact hb
      · exact List.lt_trans hb (h0.1 u hu)

theorem sortStrs_sorted : ∀ ts, ts.Nodup → Alphabetical (sortStrs ts)
  | [], _ => .nil
  | s :: ts, h => by
    have h := List.nodup_cons.1 h
    exact insertStr_sorted s _ (sortStrs_sorted ts h.2) (fun hm => h.1 ((sortStrs_mem s ts).1 hm))

/-- Lists in alphabetical order with the same strings are the same. -/
theorem alphabetical_unique : ∀ {xs ys : List Str}, Alphabetical xs → Alphabetical ys → (∀ s, s ∈ xs ↔ s ∈ ys) → xs = ys
  | [], [], _, _, _ => rfl
  | [], y :: ys, _, _, h => absurd ((h y).2 (by simp)) (by simp)
  | x :: xs, [], _, _, h => absurd ((h x).1 (by simp)) (by simp)
  | x :: xs, y :: ys, hx, hy, h => by
    have hx' := List.pairwise_cons.1 hx
    have hy' := List.pairwise_cons.1 hy
    have hxy : x = y := by
      rcases List.mem_cons.1 ((h x).1 (by simp)) with e | h1
      · exact e
      · rcases List.mem_cons.1 ((h y).2 (by simp)) with e | h2
        · exact e.symm
        · exact absurd (List.lt_trans (hy'.1 x h1) (hx'.1 y h2)) (List.lt_irrefl _)
    subst hxy
    congr 1
    refine alphabetical_unique hx'.2 hy'.2 fun s => ?_
    have hn : ∀ {l : List Str}, (∀ t ∈ l, Before x t) → x ∉ l := fun h hm => List.lt_irrefl _ (h x hm)
    constructor
    · intro hs
      rcases List.mem_cons.1 ((h s).1 (List.mem_cons_of_mem _ hs)) with e | h1
      · subst e; exact absurd hs (hn hx'.1)
      · exact h1
    · intro hs
      rcases List.mem_cons.1 ((h s).2 (List.mem_cons_of_mem _ hs)) with e | h1
      · subst e; exact absurd hs (hn hy'.1)
      · exact h1

/-! ### What the loops find -/

theorem missingRequired_mem (xs : List Val) (e : EntityObj) (m : ModelColumn) : ∀ rs,
    m ∈ missingRequired (firstLevelAnd xs) e.alias rs ↔ m ∈ rs ∧ Unrestricted xs e m.name [.eq, .in_]
  | [] => by simp [missingRequired]
  | r :: rs => by
    simp only [missingRequired]
    split
    · rename_i h
      rw [missingRequired_mem xs e m rs, List.mem_cons]
      constructor
      · rintro ⟨h1, h2⟩; exact ⟨.inr h1, h2⟩
      · rintro ⟨rfl | h1, h2⟩
        · exact absurd (matchingConditionExists_iff.1 h) h2
        · exact ⟨h1, h2⟩
    · rename_i h
      rw [List.mem_cons, missingRequired_mem xs e m rs, List.mem_cons]
      constructor
      · rintro (rfl | ⟨h1, h2⟩)
        · exact ⟨.inl rfl, fun hc => h (matchingConditionExists_iff.2 hc)⟩
        · exact ⟨.inr h1, h2⟩
      · rintro ⟨rfl | h1, h2⟩
        · exact .inl rfl
        · exact .inr ⟨h1, h2⟩

theorem missingRequired_sublist (top : List Val) (a : Option Str) : ∀ rs, (missingRequired top a rs).Sublist rs
  | [] => .slnil
  | r :: rs => by
    simp only [missingRequired]
    split
    · exact (missingRequired_sublist top a rs).cons _
    · exact (missingRequired_sublist top a rs).cons_cons _

theorem missingOps_mem (xs : List Val) (e : EntityObj) (n : Str) (o : Op) : ∀ os,
    o ∈ missingOps (firstLevelAnd xs) e.alias n os ↔ o ∈ os ∧ Unrestricted xs e n [o]
  | [] => by simp [missingOps]
  | p :: os => by
    simp only [missingOps]
    split
    · rename_i h
      rw [missingOps_mem xs e n o os, List.mem_cons]
      constructor
      · rintro ⟨h1, h2⟩; exact ⟨.inr h1, h2⟩
      · rintro ⟨rfl | h1, h2⟩
        · exact absurd (matchingConditionExists_iff.1 h) h2
        · exact ⟨h1, h2⟩
    · rename_i h
      rw [List.mem_cons, missingOps_mem xs e n o os, List.mem_cons]
      constructor
      · rintro (rfl | ⟨h1, h2⟩)
        · exact ⟨.inl rfl, fun hc => h (matchingConditionExists_iff.2 hc)⟩
        · exact ⟨.inr h1, h2⟩
      · rintro ⟨rfl | h1, h2⟩
        · exact .inl rfl
        · exact .inr ⟨h1, h2⟩

theorem quoted_eq (e : EntityObj) (n : Str) : c!"'" ++ aliasPrefix e.alias ++ n ++ c!"'" = quotedName e n := by
  unfold aliasPrefix quotedName
  cases e.alias with
  | none => simp
  | some a => cases a <;> simp

theorem quotedName_inj {e : EntityObj} {n m : Str} (h : quotedName e n = quotedName e m) : n = m := by
  rw [← quoted_eq, ← quoted_eq] at h
  simpa using h

theorem missingOps_sublist (top : List Val) (a : Option Str) (n : Str) : ∀ os, (missingOps top a n os).Sublist os
  | [] => .slnil
  | o :: os => by
    simp only [missingOps]
    split
    · exact (missingOps_sublist top a n os).cons _
    · exact (missingOps_sublist top a n os).cons_cons _

/-- Sequences of the two operators without repetition. -/
theorem two_ops {os : List Op} (hn : os.Nodup) (h : ∀ o ∈ os, o ∈ [Op.gte, Op.lt]) :
    os = [] ∨ os = [.gte] ∨ os = [.lt] ∨ os = [.gte, .lt] ∨ os = [.lt, .gte] := by
  match os, hn, h with
  | [], _, _ => exact .inl rfl
  | [a], _, h =>
    have := h a (by simp)
    simp only [List.mem_cons, List.not_mem_nil, or_false] at this
    rcases this with rfl | rfl <;> simp
  | [a, b], hn, h =>
    have h1 := h a (by simp)
    have h2 := h b (by simp)
    simp only [List.mem_cons, List.not_mem_nil, or_false] at h1 h2
    rcases h1 with rfl | rfl <;> rcases h2 with rfl | rfl <;> simp at hn ⊢
  | a :: b :: c :: _, hn, h =>
    have h1 := h a (by simp)
    have h2 := h b (by simp)
    have h3 := h c (by simp)
    simp only [List.mem_cons, List.not_mem_nil, or_false] at h1 h2 h3
    rcases h1 with rfl | rfl <;> rcases h2 with rfl | rfl <;> rcases h3 with rfl | rfl <;> simp at hn

theorem names_nodup (e : EntityObj) : ∀ {ms : List ModelColumn}, ms.Nodup → (∀ m ∈ ms, m.required = true) →
    (ms.map fun m => quotedName e m.name).Nodup
  | [], _, _ => by simp
  | m :: ms, hn, hr => by
    have hn := List.nodup_cons.1 hn
    refine List.nodup_cons.2 ⟨fun h => ?_, names_nodup e hn.2 fun m h => hr m (List.mem_cons_of_mem _ h)⟩
    obtain ⟨m', h1, h2⟩ := List.mem_map.1 h
    have h3 := quotedName_inj h2
    have h4 := hr m (by simp)
    have h5 := hr m' (List.mem_cons_of_mem _ h1)
    have : m' = m := by
      cases m; cases m'
      simp only at h3 h4 h5
      rw [h3, h4, h5]
    exact hn.1 (this ▸ h1)

/-- What is said of one entity. -/
theorem required_text {σ : SetOrders} (hσ : TrueSets σ) {e : EntityObj} {d : DataModel} {w : Val} {k : SeqKind} {xs : List Val} {x : Err} {t : Str}
    (hd : e.dataModel = some d) (hw : SeqOf w k xs) (h : checkEntityRequiredMsg σ e w = .error (x, some t)) :
    x = .requiredColumn ∧ RequiredText e d xs t := by
  have hi : w.iter = .ok xs := by cases hw <;> rfl
  simp only [checkEntityRequiredMsg, hd, hi] at h
  split at h
  · have hm := fun m => missingRequired_mem xs e m (σ.required d.required)
    have hn : (missingRequired (firstLevelAnd xs) e.alias (σ.required d.required)).Nodup :=
      (missingRequired_sublist _ _ _).nodup (hσ.requiredOnce _)
    have hr : ∀ m, m ∈ σ.required d.required ↔ m ∈ d.columns ∧ m.required = true := fun m => by
      rw [(hσ.required _).mem]; simp [DataModel.required]
    generalize missingRequired (firstLevelAnd xs) e.alias (σ.required d.required) = ms at *
    have hq : ∀ m ∈ d.columns, m.required = true → Unrestricted xs e m.name [.eq, .in_] → m ∈ ms := fun m h1 h2 h3 =>
      (hm m).2 ⟨(hr m).2 ⟨h1, h2⟩, h3⟩
    split at h
    · rename_i he
      have he : ms = [] := by simpa using he
      have ha : ∀ m ∈ d.columns, m.required = true → ¬ Unrestricted xs e m.name [.eq, .in_] := fun m h1 h2 h3 => by
        have := hq m h1 h2 h3; rw [he] at this; cases this
      have ho := fun o => missingOps_mem xs e d.timeColumn.name o (σ.ops [.gte, .lt])
      have hos : (missingOps (firstLevelAnd xs) e.alias d.timeColumn.name (σ.ops [.gte, .lt])).Nodup :=
        (missingOps_sublist _ _ _ _).nodup (hσ.opsOnce _)
      have hop : ∀ o, o ∈ σ.ops [.gte, .lt] ↔ o ∈ [Op.gte, Op.lt] := fun o => (hσ.ops _).mem o
      generalize missingOps (firstLevelAnd xs) e.alias d.timeColumn.name (σ.ops [.gte, .lt]) = os at *
      split at h
      · cases h
      · rename_i hne
        injection h with h
        injection h with h1 h2
        injection h2 with h2
        refine ⟨h1.symm, ?_⟩
        have hm' : ∀ o, o ∈ os ↔ o ∈ [Op.gte, Op.lt] ∧ Unrestricted xs e d.timeColumn.name [o] := fun o => by rw [ho, hop]
        have hs : ∀ o, o ∈ σ.ops os ↔ o ∈ os := (hσ.ops os).mem
        have h4 := two_ops hos fun o h => ((hm' o).1 h).1
        have h5 := two_ops (hσ.opsOnce os) fun o h => ((hm' o).1 ((hs o).1 h)).1
        have hne : os ≠ [] := by simpa using hne
        have one : ∀ o, os = [o] → σ.ops os = [o] → RequiredText e d xs t := fun o h6 h7 => by
          have hoin := ((hm' o).1 (by simp [h6])).1
          have := RequiredText.time (xs := xs) (e := e) (d := d) (o := o) ha (fun p hp => by
            have := hm' p
            rw [h6, List.mem_singleton] at this
            exact ⟨fun h => this.2 ⟨hp, h⟩, fun h => (this.1 h).2⟩) hoin
          rw [← h2, timeMessage, h7, h6]
          rw [← quoted_eq] at this
          simpa [plural, joinWith] using this
        have two : ∀ o p, (o = .gte ∧ p = .lt ∨ o = .lt ∧ p = .gte) → os.length = 2 → σ.ops os = [o, p] → RequiredText e d xs t := fun o p hp h6 h7 => by
          have hg : Op.gte ∈ os := (hs _).1 (by rw [h7]; rcases hp with ⟨rfl, rfl⟩ | ⟨rfl, rfl⟩ <;> simp)
          have hl : Op.lt ∈ os := (hs _).1 (by rw [h7]; rcases hp with ⟨rfl, rfl⟩ | ⟨rfl, rfl⟩ <;> simp)
          have := RequiredText.times (xs := xs) (e := e) (d := d) ha ((hm' _).1 hg).2 ((hm' _).1 hl).2 hp
          rw [← h2, timeMessage, h7, plural, h6]
          rw [← quoted_eq] at this
          simpa [joinWith] using this
        have hg := hs .gte
        have hl := hs .lt
        rcases h4 with h4 | h4 | h4 | h4 | h4
        · exact absurd h4 hne
        · rcases h5 with h5 | h5 | h5 | h5 | h5 <;> first
            | exact one _ h4 h5
            | (rw [h5, h4] at hg hl; simp at hg hl)
        · rcases h5 with h5 | h5 | h5 | h5 | h5 <;> first
            | exact one _ h4 h5
            | (rw [h5, h4] at hg hl; simp at hg hl)
        · rcases h5 with h5 | h5 | h5 | h5 | h5 <;> first
            | exact two _ _ (by simp) (by rw [h4]; rfl) h5
            | (rw [h5, h4] at hg hl; simp at hg hl)
        · rcases h5 with h5 | h5 | h5 | h5 | h5 <;> first
            | exact two _ _ (by simp) (by rw [h4]; rfl) h5
            | (rw [h5, h4] at hg hl; simp at hg hl)
    · rename_i hne
      injection h with h
      injection h with h1 h2
      injection h2 with h2
      refine ⟨h1.symm, ?_⟩
      have hne : ms ≠ [] := by simpa using hne
      have ename : (fun m : ModelColumn => c!"'" ++ aliasPrefix e.alias ++ m.name ++ c!"'") = fun m => quotedName e m.name :=
        funext fun m => quoted_eq e m.name
      rw [requiredMessage, missingNames, ename] at h2
      have hreq : ∀ m ∈ ms, m.required = true := fun m h => ((hr m).1 ((hm m).1 h).1).2
      have hnames := names_nodup e hn hreq
      have hmem : ∀ s, s ∈ sortStrs (ms.map fun m => quotedName e m.name) ↔
          ∃ m ∈ d.columns, m.required = true ∧ Unrestricted xs e m.name [.eq, .in_] ∧ s = quotedName e m.name := fun s => by
        rw [sortStrs_mem, List.mem_map]
        constructor
        · rintro ⟨m, h1, rfl⟩
          have h3 := (hm m).1 h1
          have h4 := (hr m).1 h3.1
          exact ⟨m, h4.1, h4.2, h3.2, rfl⟩
        · rintro ⟨m, h1, h3, h4, rfl⟩
          exact ⟨m, hq m h1 h3 h4, rfl⟩
      have hsorted := sortStrs_sorted _ hnames
      rcases ms with _ | ⟨m, _ | ⟨m', ms⟩⟩
      · exact absurd rfl hne
      ·
        have := RequiredText.column (e := e) (d := d) (xs := xs) (n := m.name) fun s => by
          constructor
          · rintro ⟨m', h1, h3, h4, rfl⟩
            have := hq m' h1 h3 h4
            rw [List.mem_singleton] at this
            rw [this]
          · rintro rfl
            have h3 := (hm m).1 (by simp)
            have h4 := (hr m).1 h3.1
            exact ⟨m, h4.1, h4.2, h3.2, rfl⟩
        rw [← h2]
        simpa [plural, joinWith, sortStrs, insertStr] using this
      ·
        have hlen : 2 ≤ (sortStrs ((m :: m' :: ms).map fun m => quotedName e m.name)).length := by
          rw [sortStrs_length, List.length_map]; simp
        have := RequiredText.columns (e := e) (d := d) (xs := xs) hlen hsorted hmem
        rw [← h2]
        have hp : plural (sortStrs ((m :: m' :: ms).map fun m => quotedName e m.name)) = c!"s" := by
          exact if_pos hlen
        rw [hp]
        exact this
  · rename_i ht
    injection h with h
    injection h with h1 h2
    injection h2 with h2
    refine ⟨h1.symm, h2 ▸ .noConditions ?_⟩
    cases hw <;> simpa [Val.truthy] using ht

/-! ### The columns at fault -/

theorem inner_text {names : List (Option Str)} {x : Err} {t : Str} : ∀ {cs : List ColumnObj}, checkInnerMsg names cs = .error (x, some t) →
    x = .invalidMatch ∧ ∃ c ∈ cs, some c.name ∉ names ∧
      t = c!"outer query is referencing column '" ++ c.name ++ c!"' that does not exist in subquery"
  | [], h => by cases h
  | c :: cs, h => by
    simp only [checkInnerMsg] at h
    split at h
    · obtain ⟨h0, c', h1, h2⟩ := inner_text h
      exact ⟨h0, c', List.mem_cons_of_mem _ h1, h2⟩
    · rename_i hc
      injection h with h
      injection h with h1 h2
      injection h2 with h2
      exact ⟨h1.symm, c, by simp, by simpa using hc, h2.symm⟩

theorem innerNames_mem (n : Str) : ∀ xs : List Val, some n ∈ innerNames xs ↔
    ∃ x ∈ xs, (∃ d, x = .column d ∧ d.name = n) ∨ ∃ f m ik is pk ps, x = .curried f m ik is pk ps (some n)
  | [] => by simp [innerNames]
  | x :: xs => by
    have ih := innerNames_mem n xs
    simp only [List.exists_mem_cons_iff]
    cases x <;> simp [innerNames, ih, eq_comm]

theorem model_text {owner : Str} {dm : Option DataModel} {x : Err} {t : Str} : ∀ {cs : List ColumnObj}, validateModelMsg owner dm cs = .error (x, some t) →
    x = .invalidColumn ∧ ∃ c ∈ cs, Unsupported dm c ∧ t = c!"'" ++ owner ++ c!"' does not support the column '" ++ c.name ++ c!"'"
  | [], h => by cases h
  | c :: cs, h => by
    simp only [validateModelMsg, ColumnObj.validateDataModelMsg] at h
    cases hv : c.validateDataModel dm with
    | ok _ =>
      rw [hv] at h
      obtain ⟨h0, c', h1, h2⟩ := model_text h
      exact ⟨h0, c', List.mem_cons_of_mem _ h1, h2⟩
    | error e =>
      rw [hv] at h
      injection h with h
      injection h with h1 h2
      injection h2 with h2
      subst h1
      cases dm with
      | none => cases hv
      | some d =>
        simp only [ColumnObj.validateDataModel] at hv
        obtain ⟨k, hk, hv⟩ : ∃ k, SoughtAs c k ∧ ensure (d.contains k) .invalidColumn = .error e := by
          refine ⟨_, ?_, hv⟩
          unfold SoughtAs
          cases c.subscriptable with
          | none => exact .inr ⟨.inl rfl, rfl⟩
          | some s =>
            cases s with
            | nil => exact .inr ⟨.inr rfl, rfl⟩
            | cons a s => exact .inl ⟨rfl, by simp⟩
        unfold ensure at hv
        split at hv
        · cases hv
        · rename_i hc
          refine ⟨by cases hv; rfl, c, by simp, ⟨d, k, rfl, hk, ?_⟩, h2.symm⟩
          rintro ⟨y, h1, h2⟩
          refine hc ?_
          simp only [DataModel.contains, List.any_eq_true, beq_iff_eq]
          exact ⟨y, h1, h2⟩

theorem qualified_text {dict : List (Str × Str)} {x : Err} {t : Str} : ∀ {cs : List ColumnObj}, checkQualifiedMsg dict cs = .error (x, some t) →
    x = .invalidMatch ∧ ∃ c ∈ cs,
      (c.entity = none ∧ t = c!"column '" ++ c.name ++ c!"' must have a qualifying entity") ∨
      (∃ e, c.entity = some e ∧ e.alias = none ∧ t = c!"column '" ++ c.name ++ c!"' has unknown entity alias None") ∨
      (∃ e a, c.entity = some e ∧ e.alias = some a ∧ dict.lookup a = none ∧ t = c!"column '" ++ c.name ++ c!"' has unknown entity alias " ++ a) ∨
      ∃ e a n, c.entity = some e ∧ e.alias = some a ∧ dict.lookup a = some n ∧ n ≠ e.name ∧
        t = c!"column '" ++ c.name ++ c!"' has incorrect alias for entity " ++ e.repr ++ c!": '" ++ a ++ c!"'"
  | [], h => by cases h
  | c :: cs, h => by
    simp only [checkQualifiedMsg] at h
    cases he : c.entity with
    | none =>
      rw [he] at h
      injection h with h
      injection h with h1 h2
      injection h2 with h2
      exact ⟨h1.symm, c, by simp, .inl ⟨he, h2.symm⟩⟩
    | some e =>
      simp only [he] at h
      cases ha : e.alias with
      | none =>
        simp only [ha, Option.bind] at h
        injection h with h
        injection h with h1 h2
        injection h2 with h2
        exact ⟨h1.symm, c, by simp, .inr (.inl ⟨e, he, ha, by rw [← h2]; simp [optStr, List.append_assoc]⟩)⟩
      | some a =>
        simp only [ha, Option.bind] at h
        cases hl : dict.lookup a with
        | none =>
          simp only [hl] at h
          injection h with h
          injection h with h1 h2
          injection h2 with h2
          exact ⟨h1.symm, c, by simp, .inr (.inr (.inl ⟨e, a, he, ha, hl, h2.symm⟩))⟩
        | some n =>
          simp only [hl] at h
          split at h
          · rename_i hn
            injection h with h
            injection h with h1 h2
            injection h2 with h2
            exact ⟨h1.symm, c, by simp, .inr (.inr (.inr ⟨e, a, n, he, ha, hl, hn, h2.symm⟩))⟩
          · obtain ⟨h0, c', h1, h2⟩ := qualified_text h
            exact ⟨h0, c', List.mem_cons_of_mem _ h1, h2⟩

theorem lookup_none_pair {α : Type} (a : Str) (n : α) : ∀ {d : List (Str × α)}, d.lookup a = none → (a, n) ∉ d
  | [], _ => by simp
  | (b, m) :: d, h => by
    simp only [List.lookup] at h
    split at h
    · cases h
    · rename_i hb
      intro hm
      rcases List.mem_cons.1 hm with hm | hm
      · cases hm
        simp at hb
      · exact lookup_none_pair a n h hm

theorem seen_text {x : Err} {t : Str} : ∀ {rest seen : List (Str × Str)}, checkSeenMsg seen rest = .error (x, some t) →
    x = .invalidExpression ∧ ∃ a n m, ((a, n) ∈ rest ∨ (a, n) ∈ seen) ∧ ((a, m) ∈ rest ∨ (a, m) ∈ seen) ∧ Before n m ∧
      t = c!"alias '" ++ a ++ c!"' is duplicated for entities " ++ n ++ c!", " ++ m
  | [], seen, h => by cases h
  | (a, n) :: rest, seen, h => by
    have later : ∀ {seen'}, seen' = (a, n) :: seen → checkSeenMsg seen' rest = .error (x, some t) → x = .invalidExpression ∧
        ∃ b n' m, ((b, n') ∈ (a, n) :: rest ∨ (b, n') ∈ seen) ∧ ((b, m) ∈ (a, n) :: rest ∨ (b, m) ∈ seen) ∧ Before n' m ∧
          t = c!"alias '" ++ b ++ c!"' is duplicated for entities " ++ n' ++ c!", " ++ m := by
      rintro _ rfl h
      obtain ⟨h0, b, n', m, h1, h2, h3⟩ := seen_text h
      refine ⟨h0, b, n', m, ?_, ?_, h3⟩
      · rcases h1 with h1 | h1
        · exact .inl (List.mem_cons_of_mem _ h1)
        · rcases List.mem_cons.1 h1 with h1 | h1
          · exact .inl (by rw [h1]; simp)
          · exact .inr h1
      · rcases h2 with h1 | h1
        · exact .inl (List.mem_cons_of_mem _ h1)
        · rcases List.mem_cons.1 h1 with h1 | h1
          · exact .inl (by rw [h1]; simp)
          · exact .inr h1
    simp only [checkSeenMsg] at h
    split at h
    · rename_i m hl
      split at h
      · rename_i hne
        injection h with h
        injection h with h1 h2
        injection h2 with h2
        refine ⟨h1.symm, a, ?_⟩
        have hm := lookup_mem_pair hl
        cases hs : strLt m n with
        | true =>
          refine ⟨m, n, .inr hm, .inl (by simp), (strLt_iff _ _).1 hs, ?_⟩
          rw [← h2]
          simp [sortStrs, insertStr, hs, joinWith]
        | false =>
          have hs' : strLt n m = true := by
            cases hs' : strLt n m with
            | true => rfl
            | false => exact absurd (strLt_total _ _ hs hs') hne
          refine ⟨n, m, .inl (by simp), .inr hm, (strLt_iff _ _).1 hs', ?_⟩
          rw [← h2]
          simp [sortStrs, insertStr, hs, joinWith]
      · exact later rfl h
    · exact later rfl h

theorem columns_text {x : Err} {t : Str} : ∀ {kvs : List (Str × Data)}, checkColumnsMsg kvs = .error (x, some t) →
    x = .invalidDelete ∧ ∃ before after col v, kvs = before ++ (col, v) :: after ∧ v.len = .ok 0 ∧
      (∀ p ∈ before, ∃ n, p.2.len = .ok n ∧ n ≠ 0) ∧ t = c!"column condition '" ++ col ++ c!"' cannot be empty"
  | [], h => by cases h
  | (col, v) :: kvs, h => by
    simp only [checkColumnsMsg] at h
    cases hv : v.len with
    | error e =>
      rw [hv] at h
      cases h
    | ok n =>
      rw [hv] at h
      simp only [elsewhere, ok_bind] at h
      split at h
      · rename_i h0
        injection h with h
        injection h with h1 h2
        injection h2 with h2
        exact ⟨h1.symm, [], kvs, col, v, rfl, h0 ▸ hv, by simp, h2.symm⟩
      · rename_i h0
        obtain ⟨h1, b, a, c, w, h2, h3, h4, h5⟩ := columns_text h
        refine ⟨h1, (col, v) :: b, a, c, w, by rw [h2]; rfl, h3, ?_, h5⟩
        intro p hp
        rcases List.mem_cons.1 hp with rfl | hp
        · exact ⟨n, hv, h0⟩
        · exact h4 p hp

theorem flags_text {x : Err} {t : Str} : ∀ {fs : List (Str × Val)}, checkFlagsMsg fs = .error (x, some t) →
    ∃ before after k v, fs = before ++ (k, v) :: after ∧ checkFlag v = .error x ∧
      (∀ p ∈ before, checkFlag p.2 = .ok ()) ∧ t = k ++ c!" must be a boolean"
  | [], h => by cases h
  | (k, v) :: fs, h => by
    simp only [checkFlagsMsg] at h
    cases hv : checkFlag v with
    | error e =>
      rw [hv] at h
      injection h with h
      injection h with h1 h2
      injection h2 with h2
      exact ⟨[], fs, k, v, rfl, h1 ▸ hv, by simp, h2.symm⟩
    | ok u =>
      rw [hv] at h
      obtain ⟨b, a, k', w, h2, h3, h4, h5⟩ := flags_text h
      refine ⟨(k, v) :: b, a, k', w, by rw [h2]; rfl, h3, ?_, h5⟩
      intro p hp
      rcases List.mem_cons.1 hp with rfl | hp
      · exact hv
      · exact h4 p hp

/-! ### Errors of the search for columns -/

/-- The errors that the search may raise. -/
private def Searching (e : Err) : Prop := e = .assertion ∨ e = .typeError ∨ e = .invalidExpression

private theorem findInAll_errors {x : Err} : ∀ {vs : List Val}, (∀ v ∈ vs, ∀ e, findColumns v = .error e → Searching e) →
    findInAll vs = .error x → Searching x
  | [], _, h => by cases h
  | v :: vs, ih, h => by
    simp only [findInAll, bind_eq_error] at h
    rcases h with h | ⟨_, _, h | ⟨_, _, h⟩⟩
    · exact ih v (by simp) _ h
    · exact findInAll_errors (fun w hw => ih w (List.mem_cons_of_mem _ hw)) h
    · cases h

private theorem findInExprs_errors {x : Err} : ∀ {vs : List Val}, (∀ v ∈ vs, ∀ e, findColumns v = .error e → Searching e) →
    findInExprs vs = .error x → Searching x
  | [], _, h => by cases h
  | v :: vs, ih, h => by
    simp only [findInExprs] at h
    split at h
    · simp only [bind_eq_error] at h
      rcases h with h | ⟨_, _, h | ⟨_, _, h⟩⟩
      · exact ih v (by simp) _ h
      · exact findInExprs_errors (fun w hw => ih w (List.mem_cons_of_mem _ hw)) h
      · cases h
    · exact findInExprs_errors (fun w hw => ih w (List.mem_cons_of_mem _ hw)) h

private theorem findColumns_errors (v : Val) : ∀ e, findColumns v = .error e → Searching e := by
  induction v using Val.childInd with
  | step v ih =>
    intro e h
    have scalars : ∀ {xs}, allScalar xs = .error e → Searching e := fun h =>
      .inr (.inr (allScalar_error h))
    cases v <;> simp only [findColumns, reduceCtorEq, bind_eq_error, Except.error.injEq, and_false, exists_false, or_false] at h
    case list => exact scalars h
    case tuple => exact scalars h
    case curried f n ik is pk ps a =>
      simp only [Val.children, List.mem_append] at ih
      rcases h with h | ⟨_, _, h⟩
      · exact findInExprs_errors (fun x hx => ih x (.inl hx)) h
      · exact findInExprs_errors (fun x hx => ih x (.inr hx)) h
    case lam => exact ih _ (by simp [Val.children]) _ h
    case cond l o r =>
      simp only [Val.children, List.mem_cons, List.not_mem_nil, or_false] at ih
      rcases h with h | ⟨_, _, h⟩
      · exact ih _ (.inl rfl) _ h
      · split at h
        · simp only [bind_eq_error] at h
          rcases h with h | ⟨_, _, h⟩
          · exact ih _ (.inr rfl) _ h
          · cases h
        · cases h
    case boolCond => exact findInAll_errors (fun x hx => ih x (by simpa [Val.children] using hx)) h
    case orderby => exact ih _ (by simp [Val.children]) _ h
    all_goals exact .inl h.symm

private theorem searchTerms_errors {v : Val} {e : Err} (h : searchTerms v = .error e) : Searching e := by
  unfold searchTerms at h
  split at h
  · simp only [bind_eq_error] at h
    rcases h with h | ⟨_, _, h⟩
    · unfold Val.iter at h
      split at h
      · cases h
      · cases h; exact .inr (.inl rfl)
    · exact findInAll_errors (fun x _ => findColumns_errors x) h
  · cases h

private theorem searchOne_errors {v : Val} {e : Err} (h : searchOne v = .error e) : Searching e := by
  unfold searchOne at h
  split at h
  · exact findColumns_errors v e h
  · cases h

theorem searchBody_errors {b : Body} {e : Err} (h : searchBody b = .error e) :
    e = .assertion ∨ e = .typeError ∨ e = .invalidExpression := by
  simp only [searchBody, bind_eq_error] at h
  rcases h with h | ⟨_, _, h | ⟨_, _, h | ⟨_, _, h | ⟨_, _, h | ⟨_, _, h | ⟨_, _, h | ⟨_, _, h | ⟨_, _, h | ⟨_, _, h | ⟨_, _, h | ⟨_, _, h⟩⟩⟩⟩⟩⟩⟩⟩⟩⟩⟩
  all_goals first | exact searchTerms_errors h | exact searchOne_errors h | cases h

/-! ### Exceptions with a message -/

theorem inner_said (names : List (Option Str)) (x : Err) : ∀ cs, checkInnerMsg names cs ≠ .error (x, none)
  | [] => by simp [checkInnerMsg]
  | c :: cs => by
    simp only [checkInnerMsg]
    split
    · exact inner_said names x cs
    · simp [raise]

theorem qualified_said (dict : List (Str × Str)) (x : Err) : ∀ cs, checkQualifiedMsg dict cs ≠ .error (x, none)
  | [] => by simp [checkQualifiedMsg]
  | c :: cs => by
    simp only [checkQualifiedMsg]
    split
    · simp [raise]
    · split
      · simp [raise]
      · split
        · simp [raise]
        · exact qualified_said dict x cs

theorem model_said (owner : Str) (dm : Option DataModel) (x : Err) : ∀ cs, validateModelMsg owner dm cs ≠ .error (x, none)
  | [] => by simp [validateModelMsg]
  | c :: cs => by
    simp only [validateModelMsg, ColumnObj.validateDataModelMsg]
    cases c.validateDataModel dm with
    | ok _ => exact model_said owner dm x cs
    | error e => simp [raise]

theorem seen_said (x : Err) : ∀ rest seen : List (Str × Str), checkSeenMsg seen rest ≠ .error (x, none)
  | [], seen => by simp [checkSeenMsg]
  | (a, n) :: rest, seen => by
    simp only [checkSeenMsg]
    split
    · split
      · simp [raise]
      · exact seen_said x rest _
    · exact seen_said x rest _

theorem flags_said (x : Err) : ∀ fs, checkFlagsMsg fs ≠ .error (x, none)
  | [] => by simp [checkFlagsMsg]
  | (k, v) :: fs => by
    simp only [checkFlagsMsg]
    split
    · exact flags_said x fs
    · simp [raise]

theorem entity_said {σ : SetOrders} {e : EntityObj} {w : Val} {k : SeqKind} {xs : List Val} {x : Err} (hw : SeqOf w k xs) :
    checkEntityRequiredMsg σ e w ≠ .error (x, none) := by
  have hi : w.iter = .ok xs := by cases hw <;> rfl
  simp only [checkEntityRequiredMsg, hi]
  split
  · simp
  · split
    · split
      · split <;> simp [raise]
      · simp [raise]
    · simp [raise]

theorem required_stable {σ τ : SetOrders} (hσ : TrueSets σ) (hτ : TrueSets τ) {e : EntityObj} {d : DataModel} {w : Val} {k : SeqKind}
    {xs : List Val} (hd : e.dataModel = some d) (hw : SeqOf w k xs)
    (hm : ∃ m ∈ d.columns, m.required = true ∧ Unrestricted xs e m.name [.eq, .in_]) :
    checkEntityRequiredMsg σ e w = checkEntityRequiredMsg τ e w := by
  have hi : w.iter = .ok xs := by cases hw <;> rfl
  simp only [checkEntityRequiredMsg, hd, hi]
  have names : ∀ {ρ : SetOrders}, TrueSets ρ →
      Alphabetical (missingNames e.alias (missingRequired (firstLevelAnd xs) e.alias (ρ.required d.required))) ∧
      ∀ s, s ∈ missingNames e.alias (missingRequired (firstLevelAnd xs) e.alias (ρ.required d.required)) ↔
        ∃ m ∈ d.columns, m.required = true ∧ Unrestricted xs e m.name [.eq, .in_] ∧ s = quotedName e m.name := by
    intro ρ hρ
    have hr : ∀ m, m ∈ ρ.required d.required ↔ m ∈ d.columns ∧ m.required = true := fun m => by
      rw [(hρ.required _).mem]; simp [DataModel.required]
    have hm := fun m => missingRequired_mem xs e m (ρ.required d.required)
    have ename : (fun m : ModelColumn => c!"'" ++ aliasPrefix e.alias ++ m.name ++ c!"'") = fun m => quotedName e m.name :=
      funext fun m => quoted_eq e m.name
    rw [missingNames, ename]
    refine ⟨sortStrs_sorted _ (names_nodup e ((missingRequired_sublist _ _ _).nodup (hρ.requiredOnce _))
      fun m h => ((hr m).1 ((hm m).1 h).1).2), fun s => ?_⟩
    rw [sortStrs_mem, List.mem_map]
    constructor
    · rintro ⟨m, h1, rfl⟩
      have h3 := (hm m).1 h1
      have h4 := (hr m).1 h3.1
      exact ⟨m, h4.1, h4.2, h3.2, rfl⟩
    · rintro ⟨m, h1, h3, h4, rfl⟩
      exact ⟨m, (hm m).2 ⟨(hr m).2 ⟨h1, h3⟩, h4⟩, rfl⟩
  have some_ : ∀ {ρ : SetOrders}, TrueSets ρ → (missingRequired (firstLevelAnd xs) e.alias (ρ.required d.required)).isEmpty = false := by
    intro ρ hρ
    obtain ⟨m, h1, h2, h3⟩ := hm
    have : m ∈ missingRequired (firstLevelAnd xs) e.alias (ρ.required d.required) :=
      (missingRequired_mem xs e m _).2 ⟨by rw [(hρ.required _).mem]; simp [DataModel.required, h1, h2], h3⟩
    cases hl : missingRequired (firstLevelAnd xs) e.alias (ρ.required d.required) with
    | nil => rw [hl] at this; cases this
    | cons _ _ => rfl
  simp only [some_ hσ, some_ hτ, Bool.false_eq_true, if_false]
  rw [alphabetical_unique (names hσ).1 (names hτ).1 fun s => by rw [(names hσ).2, (names hτ).2]]

end Verif
