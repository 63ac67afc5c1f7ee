import Verif.Lemmas.LegacyShared
import Verif.Lemmas.Examples

/-!
# Theorems: legacy bodies in which a list occurs in several places
-/

namespace Verif
open Spec

section
variable [U : PyUnicode] [D : PyDecimal] [N : PyNumberText]

omit U D N in
theorem shared_read {h : Heap} {n : Nat} {b : SharedBody} {v : LegacyBody} (hv : b.read h n = some v) :
    ∃ es, b.entries.mapM (readEntry h n) = some es ∧ v = { entries := es, tenantIds := b.tenantIds } := by
  simp only [SharedBody.read, Option.map_eq_some_iff] at hv
  obtain ⟨es, h1, h2⟩ := hv
  exact ⟨es, h1, h2.symm⟩

omit U D N in
theorem shared_orderby {h : Heap} {n : Nat} {b : SharedBody} {v : LegacyBody} (hv : b.read h n = some v)
    (ht : (v.get c!"orderby").truthy = true) :
    ∃ o, b.entries.lookup c!"orderby" = some o ∧ o.read h n = some (v.get c!"orderby") ∧ v.entries.lookup c!"orderby" = some (v.get c!"orderby") := by
  obtain ⟨es, h1, rfl⟩ := shared_read hv
  have hl := read_lookup (key := c!"orderby") h1
  cases ho : b.entries.lookup c!"orderby" with
  | none =>
    rw [ho] at hl
    simp [LegacyBody.get, LegacyBody.getD, hl, Val.truthy] at ht
  | some o =>
    rw [ho, Option.bind_some] at hl
    cases hr : o.read h n with
    | none =>
      rw [hr] at hl
      simp [LegacyBody.get, LegacyBody.getD, hl, Val.truthy] at ht
    | some w =>
      rw [hr] at hl
      refine ⟨o, rfl, ?_, ?_⟩
      · rw [hr]; simp [LegacyBody.get, LegacyBody.getD, hl]
      · simp [LegacyBody.get, LegacyBody.getD, hl]

omit U D N in
theorem read_same {h h' : Heap} {n : Nat} {b : SharedBody} (hr : ∀ k y, (k, y) ∈ b.entries → y.read h' n = y.read h n) :
    b.read h' n = b.read h n := by
  simp only [SharedBody.read]
  rw [mapM_agree (g := readEntry h n) fun p hp => by simp only [readEntry, hr p.1 p.2 hp]]

/-- **C81**, bodies without dashed lists in two places: if no list under `orderby` that begins with a dash occurs in a second place
of the body, then the conversion gives what it gives for the value of the body, and what the body is afterwards is what that
conversion says. -/
theorem C81_as_value (n : Nat) (h : Heap) (b : SharedBody) (v : LegacyBody) (entity : Str) (hv : b.read h n = some v)
    (hk : KeysDiffer b) (hd : DashedOnce h b) :
    ∃ h', sharedToSnql n h b entity = some ((jsonToSnql v entity).1, h') ∧ b.read h' n = some (jsonToSnql v entity).2 := by
  unfold sharedToSnql jsonToSnql
  simp only [hv, Option.bind_eq_bind, Option.bind_some]
  cases legacyStart v entity with
  | error e => exact ⟨h, rfl, hv⟩
  | ok q =>
    dsimp only
    by_cases ht : (v.get c!"orderby").truthy = true
    · simp only [ht, if_true]
      obtain ⟨o, ho, hor, hvo⟩ := shared_orderby hv ht
      simp only [ho, Option.bind_some]
      obtain ⟨es, h1, rfl⟩ := shared_read hv
      generalize hw : LegacyBody.get { entries := es, tenantIds := b.tenantIds } c!"orderby" = w at *
      have hplain : (∀ a, o ≠ .ref a) → (∀ ws, w ≠ .list ws) → ∃ h',
          (sharedLoop n h none (orderItems h o)).bind (fun x => (b.read x.2 n).bind fun b' =>
            some (x.1.bind fun obs => (q.setOrderby (.list obs)).bind fun q => legacyFinish b' entity q, x.2)) =
            some ((legacyOrder w).1.bind fun obs => (q.setOrderby (.list obs)).bind fun q =>
              legacyFinish { entries := es, tenantIds := b.tenantIds } entity q, h') ∧
          b.read h' n = some { entries := updateEntry c!"orderby" (legacyOrder w).2 es, tenantIds := b.tenantIds } := by
        intro hno hnl
        have hitems : orderItems h o = [o] := by cases o <;> first | rfl | exact absurd rfl (hno _)
        have horder : legacyOrder w = ((orderLoop none [w]).1, w) := by cases w <;> first | rfl | exact absurd rfl (hnl _)
        obtain ⟨h', g1, _, g3, _⟩ := sharedLoop_reads (Nat.le_refl n) [o] h none [w] (mapM_cons_some.2 ⟨w, [], hor, rfl, rfl⟩)
          (fun i a hi => by
            have := List.mem_singleton.1 (List.mem_of_getElem? hi)
            exact absurd this.symm (hno a))
        have hb' : b.read h' n = some { entries := es, tenantIds := b.tenantIds } := by
          rw [← hv]
          exact read_same fun k y _ => g3 n y fun a ha => absurd (List.mem_singleton.1 ha).symm (hno a)
        refine ⟨h', ?_, ?_⟩
        · rw [hitems, g1, horder]
          simp only [Option.bind_some, hb']
        · rw [hb', horder, updateEntry_same]
          intro w' hw'
          rw [hvo] at hw'
          exact (Option.some.inj hw').symm
      cases o with
      | val u =>
        refine hplain (fun a he => by cases he) fun ws he => ?_
        subst he
        cases n with
        | zero => simp [HVal.read] at hor
        | succ n => cases u <;> simp [HVal.read] at hor
      | tuple xs =>
        refine hplain (fun a he => by cases he) fun ws he => ?_
        subst he
        cases n with
        | zero => simp [HVal.read] at hor
        | succ n => simp [HVal.read] at hor
      | ref l =>
        cases n with
        | zero => simp [HVal.read] at hor
        | succ m =>
          obtain ⟨ws, hws, rfl⟩ := read_ref.1 hor
          have hmem := lookup_in ho
          obtain ⟨h', g1, g2, g3, g4⟩ := sharedLoop_reads (Nat.le_succ m) (h l) h none ws hws
            (fun i a hi hda => (hd l i a hmem hi hda).1)
          have hll : h' l = h l := g4 l fun hin _ => read_acyclic _ hor _ hin .here
          have hb' : b.read h' (m + 1) =
              some { entries := updateEntry c!"orderby" (.list (orderLoop none ws).2) es, tenantIds := b.tenantIds } := by
            simp only [SharedBody.read]
            rw [read_updated (o := .ref l) hk h1 ho (read_ref.2 ⟨_, by rw [hll]; exact g2, rfl⟩)]
            · rfl
            · intro k y hy hne
              refine g3 _ y fun a ha hda hoc => ?_
              obtain ⟨i, hi⟩ := List.getElem?_of_mem ha
              exact hne ((hd l i a hmem hi hda).2 k y hy hoc)
          refine ⟨h', ?_, hb'⟩
          simp only [orderItems, g1, Option.bind_some, hb', legacyOrder, Option.some.injEq, Prod.mk.injEq, and_true]
          congr 1
          funext obs
          congr 1
          funext q
          exact legacyFinish_updated { entries := es, tenantIds := b.tenantIds } _ entity q
    · simp only [ht]
      exact ⟨h, rfl, hv⟩

/-- **C81**, at any sharing: the conversion of a body that can be read comes to an end, and the body can be read afterwards. -/
theorem C81_total (n : Nat) (h : Heap) (b : SharedBody) (v : LegacyBody) (entity : Str) (hv : b.read h n = some v) :
    ∃ r h' v', sharedToSnql n h b entity = some (r, h') ∧ b.read h' n = some v' := by
  unfold sharedToSnql
  simp only [hv, Option.bind_eq_bind, Option.bind_some]
  cases legacyStart v entity with
  | error e => exact ⟨_, h, v, rfl, hv⟩
  | ok q =>
    dsimp only
    by_cases ht : (v.get c!"orderby").truthy = true
    · simp only [ht, if_true]
      obtain ⟨o, ho, hor, _⟩ := shared_orderby hv ht
      have hitems : ∀ x ∈ orderItems h o, ∃ w, x.read h n = some w := by
        cases o with
        | ref l =>
          intro x hx
          cases n with
          | zero => simp [HVal.read] at hor
          | succ m =>
            obtain ⟨ws, hws, _⟩ := read_ref.1 hor
            obtain ⟨w, hw⟩ := mapM_some_mem hws x hx
            exact ⟨w, read_more _ _ _ hw⟩
        | _ =>
          intro x hx
          cases List.mem_singleton.1 hx
          exact ⟨_, hor⟩
      obtain ⟨r, h', g1, g2⟩ := sharedLoop_total (orderItems h o) h none hitems
      obtain ⟨es, h1, rfl⟩ := shared_read hv
      obtain ⟨es', h2⟩ : ∃ es', b.entries.mapM (readEntry h' n) = some es' := by
        refine mapM_some_of fun p hp => ?_
        obtain ⟨y, hy⟩ := mapM_some_mem h1 p hp
        simp only [readEntry, Option.map_eq_some_iff] at hy
        obtain ⟨w, hw, _⟩ := hy
        obtain ⟨w', hw'⟩ := g2 _ _ _ hw
        exact ⟨(p.1, w'), by simp only [readEntry, hw', Option.map_some]⟩
      have hb' : b.read h' n = some { entries := es', tenantIds := b.tenantIds } := by simp only [SharedBody.read, h2, Option.map_some]
      rw [ho, Option.bind_some, g1, Option.bind_some, hb', Option.bind_some]
      exact ⟨_, h', _, rfl, hb'⟩
    · simp only [ht]
      exact ⟨_, h, v, rfl, hv⟩

/-- **C81**, at any sharing: the conversion changes no list but items of the list under `orderby`, and takes nothing from those but the dashes
before their first text. -/
theorem C81_changes (n : Nat) (h h' : Heap) (b : SharedBody) (entity : Str) (r : Except Err RequestObj)
    (hr : sharedToSnql n h b entity = some (r, h')) (a : Nat) : h' a = h a ∨ (OrderedBy h b a ∧ DashesGone h h' a) := by
  unfold sharedToSnql at hr
  cases hv : b.read h n with
  | none => simp [hv] at hr
  | some v =>
    simp only [hv, Option.bind_eq_bind, Option.bind_some] at hr
    cases hs : legacyStart v entity with
    | error e => rw [hs] at hr; cases hr; exact .inl rfl
    | ok q =>
      rw [hs] at hr
      dsimp only at hr
      by_cases ht : (v.get c!"orderby").truthy = true
      · simp only [ht, if_true] at hr
        obtain ⟨o, ho, hor, _⟩ := shared_orderby hv ht
        simp only [ho, Option.bind_some] at hr
        cases hl : sharedLoop n h none (orderItems h o) with
        | none => simp [hl] at hr
        | some rh =>
          simp only [hl, Option.bind_some] at hr
          cases hb : b.read rh.2 n with
          | none => simp [hb] at hr
          | some b' =>
            simp only [hb, Option.bind_some, Option.some.injEq, Prod.mk.injEq] at hr
            rw [← hr.2]
            rcases sharedLoop_changes _ _ rh.2 _ rh.1 hl a with hc | ⟨hm, hc⟩
            · exact .inl hc
            · cases o with
              | ref l => exact .inr ⟨⟨l, lookup_in ho, hm⟩, hc⟩
              | val u => cases List.mem_singleton.1 hm
              | tuple xs => cases List.mem_singleton.1 hm
      · simp only [ht] at hr
        cases hr
        exact .inl rfl

/-- **C81**, other bodies: one in which no dashed list under the first one's `orderby` occurs is afterwards what it was before. -/
theorem C81_other_body (n m : Nat) (h h' : Heap) (b b' : SharedBody) (entity : Str) (r : Except Err RequestObj)
    (hr : sharedToSnql n h b entity = some (r, h'))
    (ho : ∀ a k y, OrderedBy h b a → DashedAt h a → (k, y) ∈ b'.entries → ¬ OccursIn h a y) : b'.read h' m = b'.read h m := by
  refine read_same fun k y hy => read_apart_all m y fun a ha => ?_
  rcases C81_changes n h h' b entity r hr a with hc | ⟨h1, s, t, rest, h2, ⟨i, rfl, _⟩, _⟩
  · exact absurd hc ha
  · exact ho a k y h1 ⟨_, rest, h2⟩ hy

/-- **C81**, bodies without dashed lists: the conversion gives what it gives for the value of the body and changes no list, whatever occurs
in several places. -/
theorem C81_no_dashes (n : Nat) (h : Heap) (b : SharedBody) (v : LegacyBody) (entity : Str) (hv : b.read h n = some v)
    (hk : KeysDiffer b) (hd : ∀ a, OrderedBy h b a → ¬ DashedAt h a) :
    sharedToSnql n h b entity = some ((jsonToSnql v entity).1, h) := by
  obtain ⟨h', h1, _⟩ := C81_as_value n h b v entity hv hk fun l i a hl hi hda => absurd hda (hd a ⟨l, hl, List.mem_of_getElem? hi⟩)
  have he : h' = h := by
    funext a
    rcases C81_changes n h h' b entity _ h1 a with hc | ⟨h2, s, t, rest, h3, ⟨i, rfl, _⟩, _⟩
    · exact hc
    · exact absurd ⟨_, rest, h3⟩ (hd a h2)
  rw [h1, he]

omit U D N in
theorem items_readable {h : Heap} {n l : Nat} {v : Val} (hr : (HVal.ref l).read h n = some v) : ∀ x ∈ h l, ∃ w, x.read h n = some w := by
  intro x hx
  cases n with
  | zero => simp [HVal.read] at hr
  | succ m =>
    obtain ⟨ws, hws, _⟩ := read_ref.1 hr
    obtain ⟨w, hw⟩ := mapM_some_mem hws x hx
    exact ⟨w, read_more _ _ _ hw⟩

/-- **C81**, at any sharing, exactly: the conversion gives what it gives for a body of distinct lists that has the contents seen: each
item under `orderby` as the turns before it have left it, what is read before `orderby` as it was, and what is read afterwards as
all turns have left it. If it succeeds, the lists afterwards are those that all turns leave. -/
theorem C81_in_turn (n : Nat) (h : Heap) (b : SharedBody) (v w : LegacyBody) (entity : Str) (hv : b.read h n = some v)
    (hw : BodySeen h n b w) :
    ∃ h', sharedToSnql n h b entity = some ((jsonToSnql w entity).1, h') ∧
      ∀ req, (jsonToSnql w entity).1 = .ok req → h' = afterTurns h (orderingItems h b) := by
  obtain ⟨es, h1, rfl⟩ := shared_read hv
  have hlook := fun key => read_lookup (key := key) h1
  have hstart : legacyStart w entity = legacyStart { entries := es, tenantIds := b.tenantIds } entity :=
    legacyStart_early (fun key hm => by rw [hw.early key hm, ← hlook key]) entity
  have htotal := C81_total n h b _ entity hv
  unfold sharedToSnql at htotal ⊢
  unfold jsonToSnql
  rw [hstart]
  simp only [hv, Option.bind_eq_bind, Option.bind_some] at htotal ⊢
  have ho := hw.order
  have hlo := hlook c!"orderby"
  have hfin : ∀ h' b', b.read h' n = some b' → h' = afterTurns h (orderingItems h b) → ∀ q, legacyFinish b' entity q = legacyFinish w entity q := by
    intro h' b' hb' he q
    obtain ⟨es', h2, rfl⟩ := shared_read hb'
    refine (legacyFinish_late hw.tenants (fun key hm hn => ?_) entity q).symm
    rw [hw.late key hm hn, ← he]
    exact (read_lookup h2).symm
  cases hst : legacyStart { entries := es, tenantIds := b.tenantIds } entity with
  | error e => exact ⟨h, rfl, fun _ hq => by cases hq⟩
  | ok q =>
    rw [hst] at htotal
    dsimp only at htotal ⊢
    generalize hbo : b.entries.lookup c!"orderby" = bo at ho hlo htotal ⊢
    generalize hwo : w.entries.lookup c!"orderby" = wo at ho
    have hitems : orderingItems h b = match (generalizing := false) bo with | some (.ref l) => h l | _ => [] := by
      unfold orderingItems; rw [hbo]; rcases bo with _ | _ | _ | _ <;> rfl
    have hwg : w.get c!"orderby" = wo.getD .none := by simp only [LegacyBody.get, LegacyBody.getD, hwo]
    cases ho with
    | none =>
      have hvg : LegacyBody.get { entries := es, tenantIds := b.tenantIds } c!"orderby" = .none := by
        simp only [LegacyBody.get, LegacyBody.getD, hlo]; rfl
      have hno : h = afterTurns h (orderingItems h b) := by rw [hitems, afterTurns_nil]
      rw [hwg, hvg]
      exact ⟨h, by simp only [Option.getD_none, Val.truthy, Bool.false_eq_true, if_false, hfin h _ hv hno q], fun _ _ => hno⟩
    | @other o x hno hr =>
      have hvg : LegacyBody.get { entries := es, tenantIds := b.tenantIds } c!"orderby" = x := by
        simp only [LegacyBody.get, LegacyBody.getD, hlo, Option.bind_some, hr, Option.getD_some]
      have hsame : h = afterTurns h (orderingItems h b) := by
        rw [hitems]
        cases o with
        | ref l => exact absurd rfl (hno l)
        | _ => rw [afterTurns_nil]
      rw [hwg, hvg, Option.getD_some]
      by_cases ht : x.truthy = true
      · simp only [ht, if_true, Option.bind_some]
        have hit : orderItems h o = [o] := by cases o <;> first | rfl | exact absurd rfl (hno _)
        have hxl : ∀ ws, x ≠ .list ws := by
          rintro ws rfl
          cases n with
          | zero => simp [HVal.read] at hr
          | succ n =>
            cases o with
            | ref l => exact hno l rfl
            | tuple xs => simp [HVal.read] at hr
            | val u => cases u <;> simp [HVal.read] at hr
        have horder : (legacyOrder x).1 = (orderLoop none [x]).1 := by cases x <;> first | rfl | exact absurd rfl (hxl _)
        obtain ⟨h', g1, g2⟩ := sharedLoop_turns (h := h) (n := n) (done := []) (os := [o]) (vs := [x])
          (.cons (by rw [afterTurns_nil]; exact hr) .nil) none
        rw [afterTurns_nil] at g1
        have hh' : h' = h := by
          funext a
          rcases sharedLoop_changes _ _ h' _ _ g1 a with hc | ⟨hm, _⟩
          · exact hc
          · exact absurd (List.mem_singleton.1 hm).symm (hno a)
        subst hh'
        refine ⟨h', ?_, fun _ _ => hsame⟩
        simp only [hit, g1, hv, Option.bind_some, horder, hfin h' _ hv hsame]
      · simp only [ht]
        exact ⟨h, by simp only [Bool.false_eq_true, if_false, hfin h _ hv hsame q], fun _ _ => hsame⟩
    | @list l vs hs =>
      have hr : ∃ ws, (HVal.ref l).read h n = some (.list ws) ∧ (ws = [] ↔ h l = []) := by
        obtain ⟨y, hy⟩ := mapM_some_mem h1 (c!"orderby", .ref l) (lookup_in hbo)
        simp only [readEntry, Option.map_eq_some_iff] at hy
        obtain ⟨x, hx, _⟩ := hy
        cases n with
        | zero => simp [HVal.read] at hx
        | succ m =>
          obtain ⟨ws, hws, rfl⟩ := read_ref.1 hx
          refine ⟨ws, hx, ?_⟩
          cases hl : h l with
          | nil => rw [hl] at hws; cases hws; simp
          | cons z zs =>
            rw [hl] at hws
            obtain ⟨_, _, _, _, rfl⟩ := mapM_cons_some.1 hws
            simp
      obtain ⟨ws, hr, hempty⟩ := hr
      have hvg : LegacyBody.get { entries := es, tenantIds := b.tenantIds } c!"orderby" = .list ws := by
        simp only [LegacyBody.get, LegacyBody.getD, hlo, Option.bind_some, hr, Option.getD_some]
      rw [hvg] at htotal
      rw [hwg, hvg, Option.getD_some]
      have htr : (Val.list ws).truthy = (Val.list vs).truthy := by
        have e : ws = [] ↔ vs = [] := hempty.trans (seen_nil hs)
        cases ws <;> cases vs <;> simp_all [Val.truthy]
      rw [htr] at htotal ⊢
      by_cases ht : (Val.list vs).truthy = true
      · simp only [ht, if_true, Option.bind_some] at htotal ⊢
        obtain ⟨h', g1, g2⟩ := sharedLoop_turns hs none
        rw [afterTurns_nil] at g1
        simp only [orderItems, g1, Option.bind_some] at htotal ⊢
        cases hb' : b.read h' n with
        | none =>
          rw [hb'] at htotal
          obtain ⟨_, _, _, hh, _⟩ := htotal
          cases hh
        | some b' =>
          refine ⟨h', ?_, ?_⟩
          · simp only [Option.bind_some, legacyOrder]
            cases hres : (orderLoop none vs).1 with
            | error e => rfl
            | ok xs =>
              have he : h' = afterTurns h (orderingItems h b) := by rw [hitems]; simpa using g2 xs hres
              simp only [Except.bind, hfin h' b' hb' he]
          · intro req hreq
            simp only [legacyOrder] at hreq
            cases hres : (orderLoop none vs).1 with
            | error e => rw [hres] at hreq; cases hreq
            | ok xs => rw [hitems]; simpa using g2 xs hres
      · have hl : h l = [] := by
          apply (seen_nil hs).2
          cases vs with
          | nil => rfl
          | cons _ _ => simp [Val.truthy] at ht
        have hno : h = afterTurns h (orderingItems h b) := by rw [hitems]; simp only [hl, afterTurns_nil]
        simp only [ht]
        exact ⟨h, by simp only [Bool.false_eq_true, if_false, hfin h _ hv hno q], fun _ _ => hno⟩

omit U D N in
theorem lookup_entries {α β : Type} {R : Str → α → β → Prop} : ∀ (es : List (Str × α)), (∀ k x, (k, x) ∈ es → ∃ y, R k x y) →
    ∃ fs : List (Str × β), ∀ key, (es.lookup key = none ∧ fs.lookup key = none) ∨ ∃ x y, es.lookup key = some x ∧ fs.lookup key = some y ∧ R key x y
  | [], _ => ⟨[], fun _ => .inl ⟨rfl, rfl⟩⟩
  | (k, x) :: es, h => by
    obtain ⟨y, hy⟩ := h k x (List.mem_cons_self ..)
    obtain ⟨fs, hfs⟩ := lookup_entries es fun k' x' hm => h k' x' (List.mem_cons_of_mem _ hm)
    refine ⟨(k, y) :: fs, fun key => ?_⟩
    simp only [List.lookup_cons]
    by_cases hk : key = k
    · subst hk
      simp only [beq_self_eq_true]
      exact .inr ⟨x, y, rfl, rfl, hy⟩
    · simp only [beq_false_of_ne hk]
      exact hfs key

omit U D N in
/-- **C81**: what the conversion sees exists, for every body that can be read. -/
theorem C81_seen (n : Nat) (h : Heap) (b : SharedBody) (v : LegacyBody) (hv : b.read h n = some v) : ∃ w, BodySeen h n b w := by
  obtain ⟨es, h1, _⟩ := shared_read hv
  obtain ⟨fs, hfs⟩ := lookup_entries (R := fun key x y =>
      if key ∈ earlyKeys then x.read h n = some y
      else if key = c!"orderby" then OrderSeen h n (some x) (some y)
      else x.read (afterTurns h (orderingItems h b)) n = some y) b.entries (by
    intro k x hm
    obtain ⟨p, hp⟩ := mapM_some_mem h1 (k, x) hm
    simp only [readEntry, Option.map_eq_some_iff] at hp
    obtain ⟨y, hy, _⟩ := hp
    split
    · exact ⟨y, hy⟩
    · split
      · cases x with
        | ref l =>
          obtain ⟨vs, hvs⟩ := seen_exists (h l) [] (items_readable hy)
          exact ⟨_, .list hvs⟩
        | val u => exact ⟨y, .other (fun l he => by cases he) hy⟩
        | tuple xs => exact ⟨y, .other (fun l he => by cases he) hy⟩
      · exact read_turns _ n x y hy)
  refine ⟨{ entries := fs, tenantIds := b.tenantIds }, rfl, ?_, ?_, ?_⟩
  · intro key hm
    rcases hfs key with ⟨e1, e2⟩ | ⟨x, y, e1, e2, hR⟩
    · rw [e1, e2]; rfl
    · rw [e1, e2]
      rw [if_pos hm] at hR
      exact hR.symm
  · rcases hfs c!"orderby" with ⟨e1, e2⟩ | ⟨x, y, e1, e2, hR⟩
    · rw [e1, e2]; exact .none
    · rw [e1, e2]
      rw [if_neg (by decide), if_pos rfl] at hR
      exact hR
  · intro key hm hn
    rcases hfs key with ⟨e1, e2⟩ | ⟨x, y, e1, e2, hR⟩
    · rw [e1, e2]; rfl
    · rw [e1, e2]
      rw [if_neg hm, if_neg hn] at hR
      exact hR.symm

end

section Examples

attribute [local instance] asciiUnicode asciiDecimal noNumberText

/-- Lists: `["-max", ["x"]]` at 1, `["x"]` at 2, the list under `orderby` at 3. -/
private def twiceHeap : Heap
  | 0 => [.val (.str c!"a")]
  | 1 => [.val (.str c!"-max"), .ref 2]
  | 2 => [.val (.str c!"x")]
  | 3 => [.ref 1, .ref 1]
  | 4 => [.ref 1, .ref 5]
  | 5 => [.val (.str c!"max"), .ref 2]
  | _ => []

/-- `orderby` is `[L, L]` for one list `L`. -/
private def twiceBody : SharedBody := { entries := [(c!"selected_columns", .ref 0), (c!"orderby", .ref 3)] }

/-- `orderby` is `[L, M]`, two lists that share the list of the parameters. -/
private def onceBody : SharedBody := { entries := [(c!"selected_columns", .ref 0), (c!"orderby", .ref 4)] }

private def twiceValue (second : Str) : LegacyBody :=
  { entries := [(c!"selected_columns", .list [.str c!"a"]),
      (c!"orderby", .list [.list [.str c!"-max", .list [.str c!"x"]], .list [.str second, .list [.str c!"x"]]])] }

private def sharedDirections (r : Except Err RequestObj) : Option (List Direction) :=
  match r with
  | .ok req => match req.query with
    | .snql q => match q.body.orderby with
      | .list os => some (os.filterMap fun
        | .orderby _ d => some d
        | _ => none)
      | _ => none
    | _ => none
  | .error _ => none

set_option maxRecDepth 10000 in
/-- **C81** needs its condition: if one dashed list occurs twice under `orderby`, the first orders descending and the second
ascending, while two equal lists order descending both. -/
theorem C81_fails_for_lists_in_two_places : ∃ (n : Nat) (h h' : Heap) (b : SharedBody) (v : LegacyBody) (r : Except Err RequestObj),
    b.read h n = some v ∧ KeysDiffer b ∧ sharedToSnql n h b c!"events" = some (r, h') ∧
    sharedDirections r = some [.desc, .asc] ∧ sharedDirections (jsonToSnql v c!"events").1 = some [.desc, .desc] := by
  refine ⟨5, twiceHeap, _, twiceBody, twiceValue c!"-max", _, rfl, ?_, rfl, rfl, rfl⟩
  simp [KeysDiffer, twiceBody]

private theorem once_dashed {a : Nat} (hd : DashedAt twiceHeap a) : a = 1 := by
  obtain ⟨s, rest, h⟩ := hd
  match a with
  | 0 => exact absurd h (by simp [twiceHeap])
  | 1 => rfl
  | 2 => exact absurd h (by simp [twiceHeap])
  | 3 => exact absurd h (by simp [twiceHeap])
  | 4 => exact absurd h (by simp [twiceHeap])
  | 5 => exact absurd h (by simp [twiceHeap])
  | _ + 6 => exact absurd h (by simp [twiceHeap])

private theorem once_occurs {x : HVal} (hx : OccursIn twiceHeap 1 x) : x = .ref 1 ∨ x = .ref 3 ∨ x = .ref 4 ∨ ∃ xs, x = .tuple xs := by
  induction hx with
  | here => exact .inl rfl
  | tuple xs => exact .inr (.inr (.inr ⟨xs, rfl⟩))
  | list b y hy ho ih =>
    match b with
    | 0 => simp [twiceHeap] at hy; subst hy; cases ho
    | 1 =>
      exact .inl rfl
    | 2 => simp [twiceHeap] at hy; subst hy; cases ho
    | 3 => exact .inr (.inl rfl)
    | 4 => exact .inr (.inr (.inl rfl))
    | 5 =>
      simp [twiceHeap] at hy
      rcases hy with rfl | rfl
      · cases ho
      · rcases ih with h | h | h | ⟨_, h⟩ <;> cases h
    | _ + 6 => cases hy

set_option maxRecDepth 10000 in
/-- C81: a dashed list in one place, and a list of parameters in two. -/
example : ∃ v h', onceBody.read twiceHeap 5 = some v ∧ KeysDiffer onceBody ∧ DashedOnce twiceHeap onceBody ∧
    sharedToSnql 5 twiceHeap onceBody c!"events" = some ((jsonToSnql v c!"events").1, h') ∧
    onceBody.read h' 5 = some (jsonToSnql v c!"events").2 ∧ sharedDirections (jsonToSnql v c!"events").1 = some [.desc, .asc] := by
  have hk : KeysDiffer onceBody := by simp [KeysDiffer, onceBody]
  have hd : DashedOnce twiceHeap onceBody := by
    intro l i a hl hi hda
    cases once_dashed hda
    have hl : l = 4 := by simpa [onceBody] using hl
    subst hl
    have hi0 : i = 0 := by
      match i with
      | 0 => rfl
      | 1 => cases hi
      | _ + 2 => cases hi
    subst hi0
    constructor
    · intro j y hj hy
      match j with
      | 0 => rfl
      | 1 => cases hj; rcases once_occurs hy with h | h | h | ⟨_, h⟩ <;> cases h
      | _ + 2 => cases hj
    · intro k y hm hy
      simp only [onceBody, List.mem_cons, Prod.mk.injEq, List.not_mem_nil, or_false] at hm
      rcases hm with ⟨rfl, rfl⟩ | ⟨rfl, rfl⟩
      · rcases once_occurs hy with h | h | h | ⟨_, h⟩ <;> cases h
      · rfl
  obtain ⟨h', h1, h2⟩ := C81_as_value 5 twiceHeap onceBody (twiceValue c!"max") c!"events" rfl hk hd
  exact ⟨_, h', rfl, hk, hd, h1, h2, rfl⟩

set_option maxRecDepth 10000 in
/-- C81: with one list twice, the second is seen without the dash. -/
example : ∃ h', BodySeen twiceHeap 5 twiceBody (twiceValue c!"max") ∧
    sharedToSnql 5 twiceHeap twiceBody c!"events" = some ((jsonToSnql (twiceValue c!"max") c!"events").1, h') ∧
    h' = afterTurns twiceHeap [.ref 1, .ref 1] := by
  have hs : BodySeen twiceHeap 5 twiceBody (twiceValue c!"max") := by
    refine ⟨rfl, fun key hm => ?_, .list (.cons rfl (.cons rfl .nil)), fun key hm hn => ?_⟩
    · simp only [earlyKeys, List.mem_cons, List.not_mem_nil, or_false] at hm
      rcases hm with rfl | rfl | rfl | rfl | rfl | rfl | rfl | rfl | rfl | rfl | rfl <;> rfl
    have h1 : key ≠ c!"selected_columns" := fun he => hm (by rw [he]; decide)
    simp only [twiceValue, twiceBody, List.lookup_cons, beq_false_of_ne h1, beq_false_of_ne hn]
    rfl
  obtain ⟨h', h1, h2⟩ := C81_in_turn 5 twiceHeap twiceBody (twiceValue c!"-max") (twiceValue c!"max") c!"events" rfl hs
  exact ⟨h', hs, h1, h2 _ rfl⟩

/-- C81: a body of its own, which shares the list of the parameters, is not affected. -/
example : ∃ r h', sharedToSnql 5 twiceHeap twiceBody c!"events" = some (r, h') ∧
    SharedBody.read h' 5 { entries := [(c!"selected_columns", .ref 5)] } =
      some { entries := [(c!"selected_columns", .list [.str c!"max", .list [.str c!"x"]])] } ∧ OrderedBy twiceHeap twiceBody 1 ∧
    DashesGone twiceHeap h' 1 := by
  obtain ⟨r, h', v', h1, _⟩ := C81_total 5 twiceHeap twiceBody _ c!"events" rfl
  refine ⟨r, h', h1, ?_, ⟨3, by simp [twiceBody], by simp [twiceHeap]⟩, ?_⟩
  · rw [C81_other_body 5 5 twiceHeap h' twiceBody _ c!"events" r h1]
    · rfl
    · intro a k y _ hda hy hoc
      cases once_dashed hda
      simp only [List.mem_singleton, Prod.mk.injEq] at hy
      rcases hy with ⟨_, rfl⟩
      rcases once_occurs hoc with h | h | h | ⟨_, h⟩ <;> cases h
  · have h2 : ∃ r'' h'', sharedToSnql 5 twiceHeap twiceBody c!"events" = some (r'', h'') ∧ h'' 1 = [.val (.str c!"max"), .ref 2] :=
      ⟨_, _, rfl, rfl⟩
    obtain ⟨r'', h'', h2, h3⟩ := h2
    rw [h1] at h2
    cases h2
    exact ⟨c!"-max", c!"max", [.ref 2], rfl, ⟨0, rfl, fun _ h => by cases h⟩, h3⟩

/-- C81: a body without a dash, ordered by one list twice. -/
example : ∃ v, SharedBody.read twiceHeap 5 { entries := [(c!"selected_columns", .ref 0), (c!"orderby", .ref 2)] } = some v ∧
    sharedToSnql 5 twiceHeap { entries := [(c!"selected_columns", .ref 0), (c!"orderby", .ref 2)] } c!"events" =
      some ((jsonToSnql v c!"events").1, twiceHeap) :=
  ⟨_, rfl, C81_no_dashes 5 twiceHeap _ _ c!"events" rfl (by simp [KeysDiffer]) fun a ⟨l, hl, ha⟩ => by
    have hl : l = 2 := by simpa using hl
    subst hl
    simp [twiceHeap] at ha⟩

end Examples

end Verif
