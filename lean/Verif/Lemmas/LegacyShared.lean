import Verif.Spec.LegacyShared
import Verif.Props.Legacy

/-!
# Lemmas about legacy bodies with shared lists
-/

namespace Verif
open Spec

theorem mapM_agree {α β : Type} {f g : α → Option β} : ∀ {xs : List α}, (∀ x ∈ xs, f x = g x) → xs.mapM f = xs.mapM g
  | [], _ => rfl
  | x :: xs, h => by
    simp only [List.mapM_cons, h x (List.mem_cons_self ..), mapM_agree fun y hy => h y (List.mem_cons_of_mem _ hy)]

theorem mapM_cons_some {α β : Type} {f : α → Option β} {x : α} {xs : List α} {zs : List β} :
    (x :: xs).mapM f = some zs ↔ ∃ y ys, f x = some y ∧ xs.mapM f = some ys ∧ zs = y :: ys := by
  simp only [List.mapM_cons]
  cases f x with
  | none => simp
  | some y =>
    cases xs.mapM f with
    | none => simp
    | some ys => simp [eq_comm]

theorem mapM_some_mem {α β : Type} {f : α → Option β} : ∀ {xs : List α} {ys : List β}, xs.mapM f = some ys → ∀ x ∈ xs, ∃ y, f x = some y
  | [], _, _, x, hx => by cases hx
  | x :: xs, zs, h, z, hz => by
    obtain ⟨y, ys, h1, h2, rfl⟩ := mapM_cons_some.1 h
    rcases List.mem_cons.1 hz with rfl | hz
    · exact ⟨y, h1⟩
    · exact mapM_some_mem h2 z hz

theorem mapM_more {α β : Type} {f g : α → Option β} (hfg : ∀ x y, f x = some y → g x = some y) :
    ∀ {xs : List α} {ys : List β}, xs.mapM f = some ys → xs.mapM g = some ys
  | [], _, h => h
  | x :: xs, zs, h => by
    obtain ⟨y, ys, h1, h2, rfl⟩ := mapM_cons_some.1 h
    exact mapM_cons_some.2 ⟨y, ys, hfg _ _ h1, mapM_more hfg h2, rfl⟩

theorem read_more {h : Heap} : ∀ (n : Nat) (x : HVal) (v : Val), x.read h n = some v → x.read h (n + 1) = some v
  | 0, x, v, hx => by simp [HVal.read] at hx
  | n + 1, x, v, hx => by
    cases x with
    | val w => cases w <;> first | exact hx | (simp [HVal.read] at hx)
    | tuple xs =>
      simp only [HVal.read, Option.map_eq_some_iff] at hx ⊢
      obtain ⟨ys, h1, h2⟩ := hx
      exact ⟨ys, mapM_more (read_more n) h1, h2⟩
    | ref a =>
      rw [HVal.read] at hx ⊢
      simp only [Option.map_eq_some_iff] at hx ⊢
      obtain ⟨ys, h1, h2⟩ := hx
      exact ⟨ys, mapM_more (read_more n) h1, h2⟩

theorem read_ref {h : Heap} {n : Nat} {a : Nat} {v : Val} :
    (HVal.ref a).read h (n + 1) = some v ↔ ∃ vs, (h a).mapM (HVal.read h n) = some vs ∧ v = .list vs := by
  simp only [HVal.read, Option.map_eq_some_iff]
  exact ⟨fun ⟨vs, h1, h2⟩ => ⟨vs, h1, h2.symm⟩, fun ⟨vs, h1, h2⟩ => ⟨vs, h1, h2.symm⟩⟩

/-- Values in which the list does not occur are read as before when it changes. -/
theorem read_apart {h h' : Heap} {a : Nat} (hh : ∀ b, b ≠ a → h' b = h b) : ∀ (n : Nat) (x : HVal), ¬ OccursIn h a x →
    x.read h' n = x.read h n
  | 0, x, _ => by simp [HVal.read]
  | n + 1, x, hx => by
    cases x with
    | val v => cases v <;> rfl
    | tuple xs =>
      simp only [HVal.read]
      rw [mapM_agree fun y hy => read_apart hh n y fun ho => hx (.tuple _ _ hy ho)]
    | ref b =>
      have hb : b ≠ a := fun he => hx (he ▸ .here)
      simp only [HVal.read, hh b hb]
      rw [mapM_agree fun y hy => read_apart hh n y fun ho => hx (.list _ _ hy ho)]

/-- What can be read is not infinitely deep: an occurrence is read with less depth. -/
theorem read_occurs {h : Heap} {a : Nat} {x : HVal} (ho : OccursIn h a x) : ∀ {n : Nat} {v : Val}, x.read h n = some v →
    ∃ m w, m ≤ n ∧ (HVal.ref a).read h m = some w := by
  induction ho with
  | here => intro n v hx; exact ⟨n, v, Nat.le_refl _, hx⟩
  | list b y hy _ ih =>
    intro n v hx
    cases n with
    | zero => simp [HVal.read] at hx
    | succ n =>
      obtain ⟨vs, h1, _⟩ := read_ref.1 hx
      obtain ⟨w, hw⟩ := mapM_some_mem h1 y hy
      obtain ⟨m, w, hm, hw⟩ := ih hw
      exact ⟨m, w, by omega, hw⟩
  | tuple xs y hy _ ih =>
    intro n v hx
    cases n with
    | zero => simp [HVal.read] at hx
    | succ n =>
      simp only [HVal.read, Option.map_eq_some_iff] at hx
      obtain ⟨vs, h1, _⟩ := hx
      obtain ⟨w, hw⟩ := mapM_some_mem h1 y hy
      obtain ⟨m, w, hm, hw⟩ := ih hw
      exact ⟨m, w, by omega, hw⟩

theorem read_acyclic {h : Heap} {a : Nat} : ∀ (n : Nat) {v : Val}, (HVal.ref a).read h n = some v → ∀ y ∈ h a, ¬ OccursIn h a y := by
  intro n
  induction n using Nat.strongRecOn with
  | ind n ih =>
    intro v hx y hy ho
    cases n with
    | zero => simp [HVal.read] at hx
    | succ n =>
      obtain ⟨vs, h1, _⟩ := read_ref.1 hx
      obtain ⟨w, hw⟩ := mapM_some_mem h1 y hy
      obtain ⟨m, w', hm, hw'⟩ := read_occurs ho hw
      exact ih m (by omega) hw' y hy ho

/-! ### Taking the dash out -/

theorem setFirst_same {h : Heap} {a : Nat} {x : HVal} : h.setFirst a x a = x :: (h a).drop 1 := by simp [Heap.setFirst]

theorem setFirst_other {h : Heap} {a b : Nat} {x : HVal} (hb : b ≠ a) : h.setFirst a x b = h b := by simp [Heap.setFirst, hb]

/-- What `stripFirst` does. -/
theorem stripFirst_cases (h : Heap) (o : HVal) :
    (stripFirst h o = h ∧ ∀ a, o = .ref a → ¬ DashedAt h a) ∨
    ∃ a s rest, o = .ref a ∧ h a = .val (.str ('-' :: s)) :: rest ∧
      stripFirst h o = h.setFirst a (.val (.str (lstripP (· == '-') ('-' :: s)))) := by
  cases o with
  | val v => exact .inl ⟨rfl, fun a ha => by cases ha⟩
  | tuple xs => exact .inl ⟨rfl, fun a ha => by cases ha⟩
  | ref a =>
    simp only [stripFirst]
    split
    · rename_i s rest hs
      split
      · rename_i hd
        cases s with
        | nil => simp [startsWith] at hd
        | cons c s =>
          have hc : '-' = c := by simpa [startsWith] using hd
          subst hc
          exact .inr ⟨a, s, rest, rfl, hs, rfl⟩
      · rename_i hd
        refine .inl ⟨rfl, fun b hb => ?_⟩
        cases hb
        rintro ⟨s', rest', h'⟩
        rw [hs] at h'
        cases h'
        simp [startsWith] at hd
    · rename_i hn
      refine .inl ⟨rfl, fun b hb => ?_⟩
      cases hb
      rintro ⟨s', rest', h'⟩
      exact hn _ _ h'

/-- Exchanging a text for a text does not change what occurs where. -/
theorem occurs_strip {h : Heap} {a : Nat} {s t : Str} {rest : List HVal} (hs : h a = .val (.str s) :: rest) {b : Nat} {x : HVal} :
    OccursIn (h.setFirst a (.val (.str t))) b x ↔ OccursIn h b x := by
  constructor
  · intro ho
    induction ho with
    | here => exact .here
    | list c y hy ho ih =>
      by_cases hc : c = a
      · subst hc
        rw [setFirst_same, hs] at hy
        rcases List.mem_cons.1 hy with rfl | hy
        · cases ho
        · exact .list _ y (by rw [hs]; exact List.mem_cons_of_mem _ hy) ih
      · rw [setFirst_other hc] at hy
        exact .list _ y hy ih
    | tuple xs y hy _ ih => exact .tuple xs y hy ih
  · intro ho
    induction ho with
    | here => exact .here
    | list c y hy ho ih =>
      by_cases hc : c = a
      · subst hc
        rw [hs] at hy
        rcases List.mem_cons.1 hy with rfl | hy
        · cases ho
        · exact .list _ y (by rw [setFirst_same, hs]; exact List.mem_cons_of_mem _ hy) ih
      · exact .list _ y (by rw [setFirst_other hc]; exact hy) ih
    | tuple xs y hy _ ih => exact .tuple xs y hy ih

theorem dashed_strip {h : Heap} {a b : Nat} {x : HVal} (hb : b ≠ a) : DashedAt (h.setFirst a x) b ↔ DashedAt h b := by
  unfold DashedAt
  rw [setFirst_other hb]

section
variable [U : PyUnicode] [D : PyDecimal]

/-- A list with a dash is read, before and after. -/
theorem read_dashed {h : Heap} {a : Nat} {s : Str} {rest : List HVal} {n : Nat} {v : Val} (hs : h a = .val (.str ('-' :: s)) :: rest)
    (hv : (HVal.ref a).read h n = some v) (part : Option Val) :
    (HVal.ref a).read (h.setFirst a (.val (.str (lstripP (· == '-') ('-' :: s))))) n = some (orderStep part v).2 := by
  have hac := read_acyclic n hv
  cases n with
  | zero => simp [HVal.read] at hv
  | succ n =>
    obtain ⟨vs, h1, rfl⟩ := read_ref.1 hv
    rw [hs] at h1
    obtain ⟨w, ws, hw, hws, rfl⟩ := mapM_cons_some.1 h1
    cases n with
    | zero => simp [HVal.read] at hw
    | succ n =>
      simp only [HVal.read, Option.some.injEq] at hw
      subst hw
      refine read_ref.2 ⟨.str (lstripP (· == '-') ('-' :: s)) :: ws, ?_, ?_⟩
      · rw [setFirst_same, hs]
        refine mapM_cons_some.2 ⟨_, ws, rfl, ?_, rfl⟩
        rw [← hws]
        refine mapM_agree fun y hy => read_apart (fun b hb => setFirst_other hb) _ y (hac y ?_)
        rw [hs]; exact List.mem_cons_of_mem _ hy
      · simp [orderStep, startsWith]

omit D U in
theorem orderStep_keeps [U : PyUnicode] [D : PyDecimal] {h : Heap} {o : HVal} {n : Nat} {v : Val} (hv : o.read h n = some v) (hd : ∀ a, o = .ref a → ¬ DashedAt h a)
    (part : Option Val) : (orderStep part v).2 = v := by
  unfold orderStep
  split
  · rfl
  · rename_i s rest
    split
    · rename_i hs
      exfalso
      cases n with
      | zero => simp [HVal.read] at hv
      | succ n =>
        cases o with
        | val w => cases w <;> simp [HVal.read] at hv
        | tuple xs => simp [HVal.read] at hv
        | ref a =>
          obtain ⟨vs, h1, h2⟩ := read_ref.1 hv
          cases h2
          cases ha : h a with
          | nil => rw [ha] at h1; cases h1
          | cons x xs =>
            rw [ha] at h1
            obtain ⟨w, ws, hw, _, he⟩ := mapM_cons_some.1 h1
            cases he
            cases n with
            | zero => simp [HVal.read] at hw
            | succ n =>
              cases x with
              | val w =>
                have : w = .str s := by cases w <;> simp_all [HVal.read]
                subst this
                cases s with
                | nil => simp [startsWith] at hs
                | cons c s =>
                  have hc : '-' = c := by simpa [startsWith] using hs
                  subst hc
                  exact hd a rfl ⟨s, xs, ha⟩
              | tuple ys => simp [HVal.read] at hw
              | ref b => simp [HVal.read] at hw
    · rfl
  · rfl
  · split <;> rfl
  · split <;> rfl

/-! ### The loop -/

omit U D in
theorem read_le {h : Heap} {x : HVal} {v : Val} {m n : Nat} (hmn : m ≤ n) (hx : x.read h m = some v) : x.read h n = some v := by
  induction hmn with
  | refl => exact hx
  | step _ ih => exact read_more _ _ _ ih

/-- Among the items no dashed list occurs in a second one. -/
def OnceIn (h : Heap) (os : List HVal) : Prop :=
  ∀ (i a : Nat), os[i]? = some (.ref a) → DashedAt h a → ∀ (j : Nat) (y : HVal), os[j]? = some y → OccursIn h a y → j = i

/-- What holds after the first item's turn. -/
theorem strip_facts {h : Heap} {o : HVal} {os : List HVal} {m : Nat} {v : Val} (part : Option Val) (hv : o.read h m = some v)
    (ho : OnceIn h (o :: os)) :
    o.read (stripFirst h o) m = some (orderStep part v).2 ∧
    (∀ y ∈ os, y.read (stripFirst h o) m = y.read h m) ∧ OnceIn (stripFirst h o) os ∧
    (∀ b y, OccursIn (stripFirst h o) b y ↔ OccursIn h b y) ∧ (∀ b, .ref b ∈ os → (DashedAt (stripFirst h o) b ↔ DashedAt h b)) ∧
    (∀ k y, (∀ a, o = .ref a → DashedAt h a → ¬ OccursIn h a y) → y.read (stripFirst h o) k = y.read h k) ∧
    ∀ b, (o = .ref b → ¬ DashedAt h b) → stripFirst h o b = h b := by
  rcases stripFirst_cases h o with ⟨h1, hd⟩ | ⟨a, s, rest, rfl, hs, h1⟩
  · rw [h1]
    refine ⟨by rw [orderStep_keeps hv hd]; exact hv, fun _ _ => rfl, ?_, fun _ _ => Iff.rfl, fun _ _ => Iff.rfl, fun _ _ _ => rfl,
      fun _ _ => rfl⟩
    intro i a hi hda j y hj hy
    have := ho (i + 1) a hi hda (j + 1) y hj hy
    omega
  · have hda : DashedAt h a := ⟨s, rest, hs⟩
    have hnot : ∀ y ∈ os, ¬ OccursIn h a y := by
      intro y hy hoc
      obtain ⟨j, hj⟩ := List.getElem?_of_mem hy
      have := ho 0 a rfl hda (j + 1) y hj hoc
      omega
    have hne : ∀ b, .ref b ∈ os → b ≠ a := fun b hb he => hnot _ hb (he ▸ .here)
    rw [h1]
    refine ⟨read_dashed hs hv part, fun y hy => read_apart (fun b hb => setFirst_other hb) _ y (hnot y hy), ?_,
      fun b y => occurs_strip hs, fun b hb => dashed_strip (hne b hb),
      fun k y hy => read_apart (fun b hb => setFirst_other hb) _ y (hy a rfl hda), ?_⟩
    · intro i b hi hdb j y hj hy
      have hb := hne b (List.mem_of_getElem? hi)
      have := ho (i + 1) b hi ((dashed_strip hb).1 hdb) (j + 1) y hj ((occurs_strip hs).1 hy)
      omega
    · intro b hb
      by_cases he : b = a
      · subst he; exact absurd hda (hb rfl)
      · exact setFirst_other he

theorem sharedLoop_reads {m n : Nat} (hmn : m ≤ n) : ∀ (os : List HVal) (h : Heap) (part : Option Val) (vs : List Val),
    os.mapM (HVal.read h m) = some vs → OnceIn h os →
    ∃ h', sharedLoop n h part os = some ((orderLoop part vs).1, h') ∧ os.mapM (HVal.read h' m) = some (orderLoop part vs).2 ∧
      (∀ k y, (∀ a, .ref a ∈ os → DashedAt h a → ¬ OccursIn h a y) → y.read h' k = y.read h k) ∧
      ∀ b, (.ref b ∈ os → ¬ DashedAt h b) → h' b = h b
  | [], h, part, vs, hvs, _ => by
    cases hvs
    exact ⟨h, rfl, rfl, fun _ _ _ => rfl, fun _ _ => rfl⟩
  | o :: os, h, part, vs, hvs, ho => by
    obtain ⟨v, ws, hv, hws, rfl⟩ := mapM_cons_some.1 hvs
    obtain ⟨f1, f2, f3, f4, f5, f6, f7⟩ := strip_facts part hv ho
    have hws' : os.mapM (HVal.read (stripFirst h o) m) = some ws := by rw [mapM_agree f2, hws]
    have hstop : ∀ k y, (∀ a, .ref a ∈ o :: os → DashedAt h a → ¬ OccursIn h a y) → y.read (stripFirst h o) k = y.read h k :=
      fun k y hy => f6 k y fun a ha => hy a (by rw [ha]; exact List.mem_cons_self ..)
    have hstop' : ∀ b, (.ref b ∈ o :: os → ¬ DashedAt h b) → stripFirst h o b = h b :=
      fun b hb => f7 b fun he => hb (by rw [he]; exact List.mem_cons_self ..)
    simp only [sharedLoop, orderLoop, read_le hmn hv, Option.bind_eq_bind, Option.bind_some]
    cases hstep : orderStep part v with
    | mk r w =>
      rw [hstep] at f1
      cases r with
      | error e => exact ⟨_, rfl, mapM_cons_some.2 ⟨_, _, f1, hws', rfl⟩, hstop, hstop'⟩
      | ok pd =>
        obtain ⟨p, d⟩ := pd
        dsimp only
        cases mkOrderBy p (.direction d) with
        | error e => exact ⟨_, rfl, mapM_cons_some.2 ⟨_, _, f1, hws', rfl⟩, hstop, hstop'⟩
        | ok x =>
          obtain ⟨h', g1, g2, g3, g4⟩ := sharedLoop_reads hmn os (stripFirst h o) (some p) ws hws' f3
          refine ⟨h', by simp only [g1, Option.bind_some], mapM_cons_some.2 ⟨_, _, ?_, g2, rfl⟩, ?_, ?_⟩
          · rw [g3 m o, f1]
            intro b hb hdb hoc
            obtain ⟨i, hi⟩ := List.getElem?_of_mem hb
            have := ho (i + 1) b hi ((f5 b hb).1 hdb) 0 o rfl ((f4 b o).1 hoc)
            omega
          · intro k y hy
            rw [g3 k y, hstop k y hy]
            intro b hb hdb hoc
            exact hy b (List.mem_cons_of_mem _ hb) ((f5 b hb).1 hdb) ((f4 b y).1 hoc)
          · intro b hb
            rw [g4 b, hstop' b hb]
            intro hbo hdb
            exact hb (List.mem_cons_of_mem _ hbo) ((f5 b hbo).1 hdb)

/-! ### The body -/

omit U D in
theorem read_lookup {h : Heap} {n : Nat} {key : Str} : ∀ {es : List (Str × HVal)} {vs : List (Str × Val)},
    es.mapM (readEntry h n) = some vs → vs.lookup key = (es.lookup key).bind fun o => o.read h n
  | [], vs, hes => by cases hes; rfl
  | (k, x) :: es, vs, hes => by
    obtain ⟨y, ys, h1, h2, rfl⟩ := mapM_cons_some.1 hes
    simp only [readEntry, Option.map_eq_some_iff] at h1
    obtain ⟨w, hw, rfl⟩ := h1
    simp only [List.lookup_cons]
    cases key == k with
    | true => simp [hw]
    | false => simpa using read_lookup h2

omit U D in
theorem lookup_in {α : Type} {key : Str} {o : α} : ∀ {es : List (Str × α)}, es.lookup key = some o → (key, o) ∈ es
  | [], h => by cases h
  | (k, x) :: es, h => by
    simp only [List.lookup_cons] at h
    by_cases hk : key = k
    · subst hk
      simp only [beq_self_eq_true, Option.some.injEq] at h
      rw [h]; exact List.mem_cons_self ..
    · simp only [beq_false_of_ne hk] at h
      exact List.mem_cons_of_mem _ (lookup_in h)

omit U D in
/-- The entries afterwards, if only the value under one key has changed. -/
theorem read_updated {h h' : Heap} {n : Nat} {key : Str} {w' : Val} : ∀ {es : List (Str × HVal)} {vs : List (Str × Val)} {o : HVal},
    (es.map (·.1)).Pairwise (· ≠ ·) → es.mapM (readEntry h n) = some vs → es.lookup key = some o → o.read h' n = some w' →
    (∀ k y, (k, y) ∈ es → k ≠ key → y.read h' n = y.read h n) → es.mapM (readEntry h' n) = some (updateEntry key w' vs)
  | [], vs, o, _, _, ho, _, _ => by cases ho
  | (k, x) :: es, vs, o, hp, hes, ho, hw, hother => by
    obtain ⟨y, ys, h1, h2, rfl⟩ := mapM_cons_some.1 hes
    simp only [readEntry, Option.map_eq_some_iff] at h1
    obtain ⟨w, hx, rfl⟩ := h1
    simp only [List.map_cons, List.pairwise_cons] at hp
    simp only [List.lookup_cons] at ho
    by_cases hk : key = k
    · subst hk
      simp only [beq_self_eq_true, Option.some.injEq] at ho
      subst ho
      refine mapM_cons_some.2 ⟨(key, w'), ys, by simp [readEntry, hw], ?_, by simp [updateEntry]⟩
      rw [← h2]
      refine mapM_agree fun p hp' => ?_
      simp only [readEntry]
      rw [hother p.1 p.2 (List.mem_cons_of_mem _ hp') fun he => hp.1 p.1 (List.mem_map_of_mem hp') he.symm]
    · simp only [beq_false_of_ne hk] at ho
      refine mapM_cons_some.2 ⟨(k, w), _, ?_, read_updated hp.2 h2 ho hw fun k' y' hm => hother k' y' (List.mem_cons_of_mem _ hm), ?_⟩
      · simp only [readEntry, hother k x (List.mem_cons_self ..) (Ne.symm hk), hx, Option.map_some]
      · simp only [updateEntry, if_neg (Ne.symm hk)]

omit U D in
theorem updateEntry_other {key key' : Str} {v : Val} (hk : key' ≠ key) : ∀ {es : List (Str × Val)},
    (updateEntry key v es).lookup key' = es.lookup key'
  | [] => rfl
  | (k, w) :: es => by
    by_cases he : k = key
    · subst he
      simp only [updateEntry, if_true, List.lookup_cons, beq_false_of_ne hk]
    · simp only [updateEntry, if_neg he, List.lookup_cons, updateEntry_other hk]

omit D in
theorem legacyFinish_updated [N : PyNumberText] (b : LegacyBody) (w : Val) (entity : Str) (q : Query) :
    legacyFinish { b with entries := updateEntry c!"orderby" w b.entries } entity q = legacyFinish b entity q := by
  have hg : ∀ key, key ≠ c!"orderby" → LegacyBody.get { b with entries := updateEntry c!"orderby" w b.entries } key = b.get key := by
    intro key hk
    simp only [LegacyBody.get, LegacyBody.getD, updateEntry_other hk]
  simp only [legacyFinish, legacyExtras, legacyRequest, legacyFlags]
  rw [hg _ (by decide), hg _ (by decide), hg _ (by decide), hg _ (by decide), hg _ (by decide), hg _ (by decide), hg _ (by decide),
    hg _ (by decide), hg _ (by decide), hg _ (by decide), hg _ (by decide)]

/-! ### With lists shared at will -/

omit U D in
theorem mapM_some_of {α β : Type} {f : α → Option β} : ∀ {xs : List α}, (∀ x ∈ xs, ∃ y, f x = some y) → ∃ ys, xs.mapM f = some ys
  | [], _ => ⟨[], rfl⟩
  | x :: xs, h => by
    obtain ⟨y, hy⟩ := h x (List.mem_cons_self ..)
    obtain ⟨ys, hys⟩ := mapM_some_of fun z hz => h z (List.mem_cons_of_mem _ hz)
    exact ⟨y :: ys, mapM_cons_some.2 ⟨y, ys, hy, hys, rfl⟩⟩

omit U D in
/-- What could be read can be read after a turn. -/
theorem read_strip {h : Heap} (o : HVal) : ∀ (n : Nat) (x : HVal) (v : Val), x.read h n = some v → ∃ w, x.read (stripFirst h o) n = some w
  | 0, x, v, hx => by simp [HVal.read] at hx
  | n + 1, x, v, hx => by
    cases x with
    | val u => cases u <;> first | exact ⟨_, rfl⟩ | (simp [HVal.read] at hx)
    | tuple xs =>
      simp only [HVal.read, Option.map_eq_some_iff] at hx ⊢
      obtain ⟨ys, h1, _⟩ := hx
      obtain ⟨zs, hz⟩ := mapM_some_of fun y hy => (mapM_some_mem h1 y hy).elim fun w hw => read_strip o n y w hw
      exact ⟨_, zs, hz, rfl⟩
    | ref b =>
      obtain ⟨ys, h1, _⟩ := read_ref.1 hx
      have hz : ∃ zs, (stripFirst h o b).mapM (HVal.read (stripFirst h o) n) = some zs := by
        refine mapM_some_of fun y hy => ?_
        have hold : ∀ z ∈ h b, ∃ w, z.read (stripFirst h o) n = some w :=
          fun z hz => (mapM_some_mem h1 z hz).elim fun w hw => read_strip o n z w hw
        rcases stripFirst_cases h o with ⟨hs, _⟩ | ⟨a, s, rest, rfl, ha, hs⟩
        · exact hold y (by rw [hs] at hy; exact hy)
        · by_cases hb : b = a
          · subst hb
            rw [hs, setFirst_same, ha] at hy
            rcases List.mem_cons.1 hy with rfl | hy
            · obtain ⟨w, hw⟩ := mapM_some_mem h1 (.val (.str ('-' :: s))) (by rw [ha]; exact List.mem_cons_self ..)
              cases n with
              | zero => simp [HVal.read] at hw
              | succ n => exact ⟨_, rfl⟩
            · exact hold y (by rw [ha]; exact List.mem_cons_of_mem _ hy)
          · exact hold y (by rw [hs, setFirst_other hb] at hy; exact hy)
      obtain ⟨zs, hz⟩ := hz
      exact ⟨_, read_ref.2 ⟨zs, hz, rfl⟩⟩

/-- The loop ends, and what could be read can be read afterwards. -/
theorem sharedLoop_total {n : Nat} : ∀ (os : List HVal) (h : Heap) (part : Option Val), (∀ o ∈ os, ∃ v, o.read h n = some v) →
    ∃ r h', sharedLoop n h part os = some (r, h') ∧ ∀ (m : Nat) (x : HVal) (v : Val), x.read h m = some v → ∃ w, x.read h' m = some w
  | [], h, part, _ => ⟨_, h, rfl, fun _ _ v hv => ⟨v, hv⟩⟩
  | o :: os, h, part, ho => by
    obtain ⟨v, hv⟩ := ho o (List.mem_cons_self ..)
    simp only [sharedLoop, hv, Option.bind_eq_bind, Option.bind_some]
    cases (orderStep part v).1 with
    | error e => exact ⟨_, _, rfl, read_strip o⟩
    | ok pd =>
      obtain ⟨p, d⟩ := pd
      dsimp only
      cases mkOrderBy p (.direction d) with
      | error e => exact ⟨_, _, rfl, read_strip o⟩
      | ok x =>
        obtain ⟨r, h', h1, h2⟩ := sharedLoop_total os (stripFirst h o) (some p) fun y hy =>
          (ho y (List.mem_cons_of_mem _ hy)).elim fun w hw => read_strip o _ _ w hw
        refine ⟨_, h', by simp only [h1, Option.bind_some]; rfl, fun m y w hw => ?_⟩
        obtain ⟨w', hw'⟩ := read_strip o m y w hw
        exact h2 m y w' hw'

/-- The list at an address before and after: the same, or its first text without the dashes. -/
def ListChange (h h' : Heap) (os : List HVal) (b : Nat) : Prop :=
  h' b = h b ∨ (.ref b ∈ os ∧ DashesGone h h' b)

omit U D in
theorem strip_change (h : Heap) (o : HVal) (b : Nat) : ListChange h (stripFirst h o) [o] b := by
  rcases stripFirst_cases h o with ⟨hs, _⟩ | ⟨a, s, rest, rfl, ha, hs⟩
  · exact .inl (by rw [hs])
  · by_cases hb : b = a
    · subst hb
      refine .inr ⟨List.mem_cons_self .., '-' :: s, _, rest, ha, dashed_iff.1 ⟨by simp [startsWith], rfl⟩, ?_⟩
      rw [hs, setFirst_same, ha]; rfl
    · exact .inl (by rw [hs, setFirst_other hb])

theorem sharedLoop_changes {n : Nat} : ∀ (os : List HVal) (h h' : Heap) (part : Option Val) (r : Except Err (List Val)),
    sharedLoop n h part os = some (r, h') → ∀ b, ListChange h h' os b
  | [], h, h', part, r, hl, b => by
    cases hl
    exact .inl rfl
  | o :: os, h, h', part, r, hl, b => by
    have hstop : ListChange h (stripFirst h o) (o :: os) b := by
      rcases strip_change h o b with hc | ⟨hm, hc⟩
      · exact .inl hc
      · exact .inr ⟨List.mem_cons.2 (.inl (List.mem_singleton.1 hm)), hc⟩
    cases hv : o.read h n with
    | none => simp [sharedLoop, hv] at hl
    | some v =>
      simp only [sharedLoop, hv, Option.bind_eq_bind, Option.bind_some] at hl
      cases he : (orderStep part v).1 with
      | error e => rw [he] at hl; cases hl; exact hstop
      | ok pd =>
        obtain ⟨p, d⟩ := pd
        rw [he] at hl
        dsimp only at hl
        cases hm : mkOrderBy p (.direction d) with
        | error e => rw [hm] at hl; cases hl; exact hstop
        | ok x =>
          rw [hm] at hl
          dsimp only at hl
          cases hl' : sharedLoop n (stripFirst h o) (some p) os with
          | none => simp [hl'] at hl
          | some rh =>
            rw [hl'] at hl
            cases hl
            rcases sharedLoop_changes os _ rh.2 _ rh.1 hl' b with hc | ⟨hmem, s, t, rest, h1, h2, h3⟩
            · rcases hstop with hc' | ⟨hm', s, t, rest, h1, h2, h3⟩
              · exact .inl (hc.trans hc')
              · exact .inr ⟨hm', s, t, rest, h1, h2, hc.trans h3⟩
            · rcases hstop with hc' | ⟨_, s', t', rest', h1', h2', h3'⟩
              · exact .inr ⟨List.mem_cons_of_mem _ hmem, s, t, rest, hc' ▸ h1, h2, h3⟩
              · rw [h3'] at h1
                cases h1
                obtain ⟨k, hk, _⟩ := h2
                obtain ⟨_, _, hnd⟩ := h2'
                exact absurd hk (hnd _)

omit U D in
/-- Values in which no changed list occurs are read as before. -/
theorem read_apart_all {h h' : Heap} : ∀ (n : Nat) (x : HVal), (∀ a, h' a ≠ h a → ¬ OccursIn h a x) → x.read h' n = x.read h n
  | 0, x, _ => by simp [HVal.read]
  | n + 1, x, hx => by
    cases x with
    | val v => cases v <;> rfl
    | tuple xs =>
      simp only [HVal.read]
      rw [mapM_agree fun y hy => read_apart_all n y fun a ha ho => hx a ha (.tuple _ _ hy ho)]
    | ref b =>
      have hb : h' b = h b := Classical.byContradiction fun hn => hx b hn .here
      simp only [HVal.read, hb]
      rw [mapM_agree fun y hy => read_apart_all n y fun a ha ho => hx a ha (.list _ _ hy ho)]

/-! ### Turn by turn -/

omit U D in
theorem afterTurns_nil (h : Heap) : afterTurns h [] = h := by
  funext a
  unfold afterTurns
  split
  · simp [*]
  · rfl

omit U D in
theorem dropWhile_again {p : Char → Bool} : ∀ (s : Str), (s.dropWhile p).dropWhile p = s.dropWhile p
  | [] => rfl
  | c :: s => by
    by_cases hc : p c = true
    · simp only [List.dropWhile_cons, hc, if_true]; exact dropWhile_again s
    · simp [List.dropWhile_cons, hc]

omit U D in
theorem isListAt_iff {a : Nat} {o : HVal} : isListAt a o = true ↔ o = .ref a := by
  cases o <;> simp [isListAt]

omit U D in
/-- What a turn does to a list. -/
theorem stripFirst_at (h : Heap) (o : HVal) (a : Nat) : stripFirst h o a =
    match h a with
    | .val (.str s) :: rest => if isListAt a o then .val (.str (s.dropWhile (· == '-'))) :: rest else h a
    | xs => xs := by
  rcases stripFirst_cases h o with ⟨h1, hd⟩ | ⟨b, s, rest, rfl, hb, h1⟩
  · rw [h1]
    split
    · rename_i s rest hs
      split
      · rename_i he
        have := hd a (isListAt_iff.1 he)
        cases s with
        | nil => exact hs
        | cons c s =>
          have hc : (c == '-') = false := by
            rw [beq_eq_false_iff_ne]
            rintro rfl
            exact this ⟨s, rest, hs⟩
          rw [hs]; simp [List.dropWhile_cons, hc]
      · rfl
    · rfl
  · rw [h1]
    by_cases hab : a = b
    · subst hab
      rw [setFirst_same, hb]
      simp [lstripP, isListAt]
    · rw [setFirst_other hab]
      split
      · rw [if_neg (fun he => hab (HVal.ref.inj (isListAt_iff.1 he)).symm)]
      · rfl

omit U D in
theorem stripFirst_turn (h : Heap) (done : List HVal) (o : HVal) : stripFirst (afterTurns h done) o = afterTurns h (done ++ [o]) := by
  funext a
  rw [stripFirst_at]
  simp only [afterTurns, List.any_append, List.any_cons, List.any_nil, Bool.or_false]
  split
  · rename_i s rest hs
    split at hs
    · rename_i s' rest' hs'
      rw [hs']
      by_cases hd : done.any (isListAt a) = true
      · simp only [hd, if_true, Bool.true_or] at hs ⊢
        cases hs
        rw [dropWhile_again]
        split <;> rfl
      · simp only [Bool.not_eq_true] at hd
        simp only [hd, Bool.false_or] at hs ⊢
        rw [hs'] at hs
        cases hs
        split <;> simp_all
    · rename_i hn
      exact absurd hs (hn _ _)
  · rename_i hn
    split
    · rename_i s rest hs
      exfalso
      simp only [hs] at hn
      split at hn
      · exact hn _ _ rfl
      · exact hn _ _ rfl
    · rfl

theorem sharedLoop_turns {n : Nat} {h : Heap} {done os : List HVal} {vs : List Val} (hs : SeenInTurn h n done os vs) :
    ∀ (part : Option Val), ∃ h', sharedLoop n (afterTurns h done) part os = some ((orderLoop part vs).1, h') ∧
      ∀ xs, (orderLoop part vs).1 = .ok xs → h' = afterTurns h (done ++ os) := by
  induction hs with
  | nil => intro part; exact ⟨_, rfl, fun _ _ => by rw [List.append_nil]⟩
  | @cons done os o v vs hv _ ih =>
    intro part
    simp only [sharedLoop, orderLoop, hv, Option.bind_eq_bind, Option.bind_some, stripFirst_turn]
    cases hstep : orderStep part v with
    | mk r w =>
      cases r with
      | error e => exact ⟨_, rfl, fun _ hx => by cases hx⟩
      | ok pd =>
        obtain ⟨p, d⟩ := pd
        dsimp only
        cases mkOrderBy p (.direction d) with
        | error e => exact ⟨_, rfl, fun _ hx => by cases hx⟩
        | ok x =>
          obtain ⟨h', g1, g2⟩ := ih (some p)
          refine ⟨h', by simp only [g1, Option.bind_some], fun xs hx => ?_⟩
          cases hr : (orderLoop (some p) vs).1 with
          | error e => rw [hr] at hx; cases hx
          | ok ys => rw [g2 ys hr]; simp

omit U D in
theorem legacyStart_early [U : PyUnicode] [D : PyDecimal] [N : PyNumberText] {v w : LegacyBody} (hk : ∀ key ∈ earlyKeys, w.entries.lookup key = v.entries.lookup key) (entity : Str) :
    legacyStart w entity = legacyStart v entity := by
  have hd : ∀ key ∈ earlyKeys, ∀ d, w.getD key d = v.getD key d := fun key hm d => by simp only [LegacyBody.getD, hk key hm]
  have hg : ∀ key ∈ earlyKeys, w.get key = v.get key := fun key hm => hd key hm _
  simp only [legacyStart, legacySelect, legacyGroupby, legacyWhere, legacyTimes, legacyHaving]
  rw [hg c!"sample" (by decide), hd c!"aggregations" (by decide), hd c!"selected_columns" (by decide), hg c!"arrayjoin" (by decide),
    hd c!"groupby" (by decide), hg c!"organization" (by decide), hg c!"from_date" (by decide), hg c!"to_date" (by decide),
    hg c!"project" (by decide), hd c!"conditions" (by decide), hd c!"having" (by decide)]

omit U D in
theorem legacyFinish_late [U : PyUnicode] [N : PyNumberText] {v w : LegacyBody} (ht : w.tenantIds = v.tenantIds)
    (hk : ∀ key, key ∉ earlyKeys → key ≠ c!"orderby" → w.entries.lookup key = v.entries.lookup key) (entity : Str) (q : Query) :
    legacyFinish w entity q = legacyFinish v entity q := by
  have hg : ∀ key, key ∉ earlyKeys → key ≠ c!"orderby" → w.get key = v.get key := fun key hm hn => by
    simp only [LegacyBody.get, LegacyBody.getD, hk key hm hn]
  simp only [legacyFinish, legacyExtras, legacyRequest, legacyFlags, ht]
  rw [hg c!"limitby" (by decide) (by decide), hg c!"limit" (by decide) (by decide), hg c!"offset" (by decide) (by decide),
    hg c!"granularity" (by decide) (by decide), hg c!"totals" (by decide) (by decide), hg c!"dataset" (by decide) (by decide),
    hg c!"app_id" (by decide) (by decide), hg c!"consistent" (by decide) (by decide), hg c!"turbo" (by decide) (by decide),
    hg c!"debug" (by decide) (by decide), hg c!"dry_run" (by decide) (by decide)]

omit U D in
/-- What could be read can be read after any turns. -/
theorem read_turns {h : Heap} : ∀ (done : List HVal) (n : Nat) (x : HVal) (v : Val), x.read h n = some v →
    ∃ w, x.read (afterTurns h done) n = some w := by
  intro done
  have key : ∀ (more pre : List HVal) (n : Nat) (x : HVal) (v : Val), x.read (afterTurns h pre) n = some v →
      ∃ w, x.read (afterTurns h (pre ++ more)) n = some w := by
    intro more
    induction more with
    | nil => intro pre n x v hx; rw [List.append_nil]; exact ⟨v, hx⟩
    | cons o more ih =>
      intro pre n x v hx
      obtain ⟨w, hw⟩ := read_strip o n x v hx
      rw [stripFirst_turn] at hw
      have := ih (pre ++ [o]) n x w hw
      simpa using this
  intro n x v hx
  have := key done [] n x v (by rw [afterTurns_nil]; exact hx)
  simpa using this

omit U D in
theorem seen_exists {h : Heap} {n : Nat} : ∀ (os done : List HVal), (∀ o ∈ os, ∃ v, o.read h n = some v) → ∃ vs, SeenInTurn h n done os vs
  | [], done, _ => ⟨[], .nil⟩
  | o :: os, done, ho => by
    obtain ⟨v, hv⟩ := ho o (List.mem_cons_self ..)
    obtain ⟨w, hw⟩ := read_turns done n o v hv
    obtain ⟨vs, hvs⟩ := seen_exists os (done ++ [o]) fun x hx => ho x (List.mem_cons_of_mem _ hx)
    exact ⟨w :: vs, .cons hw hvs⟩

omit U D in
theorem seen_nil {h : Heap} {n : Nat} {done os : List HVal} {vs : List Val} (hs : SeenInTurn h n done os vs) : os = [] ↔ vs = [] := by
  cases hs <;> simp

end

end Verif
