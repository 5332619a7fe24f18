import Verif.Lemmas.SpaceDisc
import Verif.Lemmas.SpacePoly
import Verif.Lemmas.SpaceP1
import Verif.Model.SpacePolyDisc
/-
Lemmas about the loop that numbers the local dofs of a discontinuous polynomial space.
-/
namespace Verif.Space
open Verif.Grid

/-- The pairs (local dof, used). -/
def usePairs (uses : Elem → List RefUse) (e : Elem) : List (Nat × Bool) := (uses e).map fun w => (w.ldof, w.used)

theorem storeDof_true (e : Nat) (row : List Int) (m : RefMaps) (w : RefUse) (h : w.used = true) :
    storeDof e (row, m) w = (row.set w.ldof (m.maps.global2local.length : Int),
      ⟨⟨m.maps.local2global, m.maps.global2local ++ [[⟨e, w.ldof⟩]]⟩, m.boxes ++ [(e, w.ref)]⟩) := by
  unfold storeDof
  rw [if_pos h]

theorem storeDof_false (e : Nat) (row : List Int) (m : RefMaps) (w : RefUse) (h : w.used = false) :
    storeDof e (row, m) w = (row.set w.ldof (-1), m) := by
  unfold storeDof
  rw [if_neg (by rw [h]; exact Bool.false_ne_true)]

theorem storeDof_fold (e : Nat) (ws : List RefUse) : ∀ (row : List Int) (m : RefMaps),
    (ws.foldl (storeDof e) (row, m)).2 =
      ⟨⟨m.maps.local2global, m.maps.global2local ++ (ws.filter (·.used)).map fun w => [(⟨e, w.ldof⟩ : LocalDof)]⟩,
        m.boxes ++ (ws.filter (·.used)).map fun w => (e, w.ref)⟩ := by
  induction ws with
  | nil => intro row m; simp
  | cons w ws ih =>
    intro row m
    rw [List.foldl_cons]
    cases h : w.used with
    | true => rw [storeDof_true _ _ _ _ h, ih]; simp [h]
    | false => rw [storeDof_false _ _ _ _ h, ih]; simp [h]

theorem storeDof_row_length (e : Nat) (ws : List RefUse) : ∀ (row : List Int) (m : RefMaps),
    (ws.foldl (storeDof e) (row, m)).1.length = row.length := by
  induction ws with
  | nil => intro row m; rfl
  | cons w ws ih =>
    intro row m
    rw [List.foldl_cons]
    cases h : w.used with
    | true => rw [storeDof_true _ _ _ _ h, ih]; simp
    | false => rw [storeDof_false _ _ _ _ h, ih]; simp

theorem storeDof_row_skip (e : Nat) (ws : List RefUse) : ∀ (row : List Int) (m : RefMaps) (i : Nat),
    (∀ w ∈ ws, w.ldof ≠ i) → (ws.foldl (storeDof e) (row, m)).1[i]? = row[i]? := by
  induction ws with
  | nil => intro row m i _; rfl
  | cons w ws ih =>
    intro row m i hi
    have h0 := hi w (List.mem_cons_self ..)
    have h1 := fun w' hw' => hi w' (List.mem_cons_of_mem _ hw')
    rw [List.foldl_cons]
    cases h : w.used with
    | true => rw [storeDof_true _ _ _ _ h, ih _ _ _ h1, List.getElem?_set_ne h0]
    | false => rw [storeDof_false _ _ _ _ h, ih _ _ _ h1, List.getElem?_set_ne h0]

theorem storeDof_row_get (e : Nat) (ws : List RefUse) : ∀ (row : List Int) (m : RefMaps) (j : Nat) (w : RefUse),
    (ws.map (·.ldof)).Nodup → ws[j]? = some w → w.ldof < row.length →
    (ws.foldl (storeDof e) (row, m)).1[w.ldof]? =
      some (if w.used then ((m.maps.global2local.length + ((ws.take j).filter (·.used)).length : Nat) : Int) else -1) := by
  induction ws with
  | nil => intro row m j w _ h; simp at h
  | cons w0 ws ih =>
    intro row m j w hnd hj hlt
    rw [List.map_cons, List.nodup_cons] at hnd
    rw [List.foldl_cons]
    cases j with
    | zero =>
      simp only [List.getElem?_cons_zero, Option.some.injEq] at hj
      subst hj
      have hskip : ∀ w' ∈ ws, w'.ldof ≠ w0.ldof := fun w' hw' heq => hnd.1 (List.mem_map.mpr ⟨w', hw', heq⟩)
      cases h : w0.used with
      | true => rw [storeDof_true _ _ _ _ h, storeDof_row_skip _ _ _ _ _ hskip, List.getElem?_set_self hlt]; simp
      | false => rw [storeDof_false _ _ _ _ h, storeDof_row_skip _ _ _ _ _ hskip, List.getElem?_set_self hlt]; simp
    | succ j =>
      rw [List.getElem?_cons_succ] at hj
      cases h : w0.used with
      | true =>
        rw [storeDof_true _ _ _ _ h, ih _ _ j w hnd.2 hj (by simpa using hlt)]
        simp only [List.length_append, List.length_nil, List.take_succ_cons, List.filter_cons, h, if_true,
          List.length_cons]
        congr 2
        congr 1
        omega
      | false =>
        rw [storeDof_false _ _ _ _ h, ih _ _ j w hnd.2 hj (by simpa using hlt)]
        simp [List.take_succ_cons, List.filter_cons, h]

theorem storeElements_global (n : Elem → Nat) (uses : Elem → List RefUse) : ∀ (es : List Elem) (m : RefMaps),
    (es.foldl (storeElement n uses) m).maps.global2local =
      m.maps.global2local ++ (es.flatMap (usedOf (usePairs uses))).map fun ld => [ld] := by
  intro es
  induction es with
  | nil => intro m; simp
  | cons e es ih =>
    intro m
    rw [List.foldl_cons, ih]
    unfold storeElement
    simp only [storeDof_fold]
    rw [List.flatMap_cons, List.map_append, List.append_assoc]
    congr 2
    unfold usedOf usePairs
    rw [List.filter_map, List.map_map, List.map_map]
    rfl

theorem storeElements_boxes (n : Elem → Nat) (uses : Elem → List RefUse) : ∀ (es : List Elem) (m : RefMaps),
    (es.foldl (storeElement n uses) m).boxes =
      m.boxes ++ es.flatMap fun e => ((uses e).filter (·.used)).map fun w => (e.index, w.ref) := by
  intro es
  induction es with
  | nil => intro m; simp
  | cons e es ih =>
    intro m
    rw [List.foldl_cons, ih]
    unfold storeElement
    simp only [storeDof_fold]
    rw [List.flatMap_cons, List.append_assoc]

theorem storeElements_local_length (n : Elem → Nat) (uses : Elem → List RefUse) : ∀ (es : List Elem) (m : RefMaps),
    (es.foldl (storeElement n uses) m).maps.local2global.length = m.maps.local2global.length := by
  intro es
  induction es with
  | nil => intro m; rfl
  | cons e es ih => intro m; rw [List.foldl_cons, ih]; simp [storeElement, storeDof_fold]

theorem storeElements_local_skip (n : Elem → Nat) (uses : Elem → List RefUse) : ∀ (es : List Elem) (m : RefMaps) (k : Nat),
    (∀ e ∈ es, e.index ≠ k) → (es.foldl (storeElement n uses) m).maps.local2global[k]? = m.maps.local2global[k]? := by
  intro es
  induction es with
  | nil => intro m k _; rfl
  | cons e es ih =>
    intro m k hk
    rw [List.foldl_cons, ih _ _ (fun e' he' => hk e' (List.mem_cons_of_mem _ he'))]
    simp only [storeElement, storeDof_fold]
    exact List.getElem?_set_ne (hk e (List.mem_cons_self ..))

theorem storeElements_local (n : Elem → Nat) (uses : Elem → List RefUse) (pre : List Elem) (e : Elem) (post : List Elem)
    (m : RefMaps) (hpost : ∀ e' ∈ post, e'.index ≠ e.index) (hlt : e.index < m.maps.local2global.length) :
    ∃ m' : RefMaps, m'.maps.global2local.length =
        m.maps.global2local.length + (pre.flatMap (usedOf (usePairs uses))).length ∧
      ((pre ++ e :: post).foldl (storeElement n uses) m).maps.local2global[e.index]? =
        some ((uses e).foldl (storeDof e.index) (List.replicate (n e) 0, m')).1 := by
  refine ⟨pre.foldl (storeElement n uses) m, ?_, ?_⟩
  · rw [storeElements_global]; simp
  · rw [List.foldl_append, List.foldl_cons, storeElements_local_skip _ _ _ _ _ hpost]
    have : e.index < (pre.foldl (storeElement n uses) m).maps.local2global.length := by
      rw [storeElements_local_length]; exact hlt
    generalize pre.foldl (storeElement n uses) m = m1 at this
    simp only [storeElement, storeDof_fold]
    exact List.getElem?_set_self this

/-- What the lemmas need of the uses: distinct elements; in each element every local dof occurs once. -/
structure GoodStore (v : View) (n : Elem → Nat) (uses : Elem → List RefUse) : Prop where
  index_nodup : (v.elems.map (·.index)).Nodup
  index_lt : ∀ e ∈ v.elems, e.index < v.count 0
  keys : ∀ e ∈ v.elems, ((uses e).map (·.ldof)).Perm (List.range (n e))

section
variable {v : View} {n : Elem → Nat} {uses : Elem → List RefUse}

theorem storeElements_g2l : (storeElements v n uses).maps.global2local =
    (v.elems.flatMap (usedOf (usePairs uses))).map fun ld => [ld] := by
  unfold storeElements
  rw [storeElements_global]
  simp

theorem storeElements_count : (storeElements v n uses).maps.globalDofCount =
    (v.elems.flatMap (usedOf (usePairs uses))).length := by
  unfold DofMaps.globalDofCount
  rw [storeElements_g2l]
  simp

theorem usedOf_nodup (h : GoodStore v n uses) : (v.elems.flatMap (usedOf (usePairs uses))).Nodup := by
  rw [List.nodup_flatMap]
  constructor
  · intro e he
    have hnd : ((usePairs uses e).map Prod.fst).Nodup := by
      unfold usePairs
      rw [List.map_map]
      exact (h.keys e he).nodup_iff.mpr List.nodup_range
    have : (((usePairs uses e).filter (·.2)).map Prod.fst).Nodup :=
      hnd.sublist (List.Sublist.map _ List.filter_sublist)
    refine List.Nodup.map_on ?_ (List.Nodup.of_map _ this)
    intro a ha b hb hab
    have h1 : a.1 = b.1 := by injection hab
    exact List.inj_on_of_nodup_map this ha hb h1
  · have := h.index_nodup
    rw [List.Nodup, List.pairwise_map] at this
    refine this.imp ?_
    intro a b hab
    rw [Function.onFun, List.disjoint_left]
    intro x hx hy
    simp only [usedOf, List.mem_map] at hx hy
    obtain ⟨_, -, rfl⟩ := hx
    obtain ⟨_, -, h2⟩ := hy
    injection h2 with h3
    exact hab h3.symm

/-- The row of an element, by position in the list of its uses. -/
theorem storeElements_row (h : GoodStore v n uses) (e : Elem) (he : e ∈ v.elems) :
    ((storeElements v n uses).maps.getGlobalDofs e.index).length = n e ∧
    ∀ (j : Nat) (w : RefUse), (uses e)[j]? = some w → ∃ g : Int, (storeElements v n uses).maps.At ⟨e.index, w.ldof⟩ g ∧
      ((w.used = true ∧ 0 ≤ g ∧ (v.elems.flatMap (usedOf (usePairs uses)))[g.toNat]? = some ⟨e.index, w.ldof⟩) ∨
        (w.used = false ∧ g = -1)) := by
  obtain ⟨pre, post, hsplit⟩ := List.append_of_mem he
  have hpost : ∀ e' ∈ post, e'.index ≠ e.index := by
    have hnd := h.index_nodup
    rw [hsplit, List.map_append, List.map_cons, List.nodup_append] at hnd
    have h2 := (List.nodup_cons.mp hnd.2.1).1
    intro e' he' heq
    exact h2 (List.mem_map.mpr ⟨e', he', heq⟩)
  obtain ⟨m', hlen, hrow⟩ := storeElements_local n uses pre e post ⟨⟨List.replicate (v.count 0) [], []⟩, []⟩ hpost
    (by simpa using h.index_lt e he)
  rw [← hsplit] at hrow
  have hget : (storeElements v n uses).maps.getGlobalDofs e.index =
      ((uses e).foldl (storeDof e.index) (List.replicate (n e) 0, m')).1 := by
    unfold DofMaps.getGlobalDofs storeElements
    rw [List.getD_eq_getElem?_getD, hrow]; rfl
  refine ⟨by rw [hget, storeDof_row_length, List.length_replicate], ?_⟩
  intro j w hj
  have hnd : ((uses e).map (·.ldof)).Nodup := (h.keys e he).nodup_iff.mpr List.nodup_range
  have hlt : w.ldof < n e := by
    have := (h.keys e he).mem_iff.mp (List.mem_map.mpr ⟨w, List.mem_of_getElem? hj, rfl⟩)
    exact List.mem_range.mp this
  have hval := storeDof_row_get e.index (uses e) (List.replicate (n e) 0) m' j w hnd hj (by simpa using hlt)
  rw [← hget] at hval
  refine ⟨_, hval, ?_⟩
  cases hu : w.used with
  | false => right; simp
  | true =>
    left
    refine ⟨rfl, by rw [if_pos rfl]; exact Int.natCast_nonneg _, ?_⟩
    rw [if_pos rfl, Int.toNat_natCast, hlen]
    have h1 := filter_take_get (·.used) (uses e) j w hj hu
    have h2 : (usedOf (usePairs uses) e)[(((uses e).take j).filter (·.used)).length]? = some ⟨e.index, w.ldof⟩ := by
      unfold usedOf usePairs
      rw [List.filter_map, List.map_map, List.getElem?_map]
      have : (uses e).filter ((fun x : Nat × Bool => x.2) ∘ fun w => (w.ldof, w.used)) = (uses e).filter (·.used) := rfl
      rw [this, h1]; rfl
    rw [hsplit]
    simp only [List.length_nil, Nat.zero_add]
    rw [flatMap_get_mid _ _ _ _ _ (List.getElem?_eq_some_iff.mp h2).1, h2]

theorem mem_usePairs (e : Elem) (i : Nat) (b : Bool) : (i, b) ∈ usePairs uses e ↔ ∃ (j : Nat) (w : RefUse), (uses e)[j]? = some w ∧ w.ldof = i ∧ w.used = b := by
  unfold usePairs
  rw [List.mem_map]
  constructor
  · rintro ⟨w, hw, h2⟩
    obtain ⟨j, hj⟩ := List.mem_iff_getElem?.mp hw
    injection h2 with h3 h4
    exact ⟨j, w, hj, h3, h4⟩
  · rintro ⟨j, w, hj, rfl, rfl⟩
    exact ⟨w, List.mem_of_getElem? hj, rfl⟩

/-- All entries of the local-to-global map. -/
theorem storeElements_at (h : GoodStore v n uses) (ld : LocalDof) (g : Int) :
    (storeElements v n uses).maps.At ld g ↔ ∃ e ∈ v.elems, e.index = ld.entityIndex ∧
      (((ld.dofIndex, true) ∈ usePairs uses e ∧ 0 ≤ g ∧
          (v.elems.flatMap (usedOf (usePairs uses)))[g.toNat]? = some ld) ∨
        ((ld.dofIndex, false) ∈ usePairs uses e ∧ g = -1)) := by
  constructor
  · intro hat
    by_cases hx : ∃ e ∈ v.elems, e.index = ld.entityIndex
    · obtain ⟨e, he, hidx⟩ := hx
      obtain ⟨hlen, hrow⟩ := storeElements_row h e he
      have hat' := hat
      unfold DofMaps.At at hat'
      rw [← hidx] at hat'
      have hlt := (List.getElem?_eq_some_iff.mp hat').1
      rw [hlen] at hlt
      have hmem := (h.keys e he).mem_iff.mpr (List.mem_range.mpr hlt)
      obtain ⟨w, hw, hwd⟩ := List.mem_map.mp hmem
      obtain ⟨j, hj⟩ := List.mem_iff_getElem?.mp hw
      obtain ⟨g', hg', hcase⟩ := hrow j w hj
      have hld : (⟨e.index, w.ldof⟩ : LocalDof) = ld := by rw [hidx, hwd]
      rw [hld] at hg' hcase
      have : g' = g := by
        unfold DofMaps.At at hat hg'
        rw [hat] at hg'
        injection hg' with h5
        exact h5.symm
      subst this
      refine ⟨e, he, hidx, ?_⟩
      rcases hcase with ⟨h1, h2, h3⟩ | ⟨h1, h2⟩
      · exact Or.inl ⟨(mem_usePairs e _ _).mpr ⟨j, w, hj, hwd, h1⟩, h2, h3⟩
      · exact Or.inr ⟨(mem_usePairs e _ _).mpr ⟨j, w, hj, hwd, h1⟩, h2⟩
    · exfalso
      have hnil : (storeElements v n uses).maps.getGlobalDofs ld.entityIndex = [] := by
        unfold DofMaps.getGlobalDofs storeElements
        rw [List.getD_eq_getElem?_getD, storeElements_local_skip _ _ _ _ _ (fun e he hk => hx ⟨e, he, hk⟩),
          List.getElem?_replicate]
        split <;> rfl
      unfold DofMaps.At at hat
      rw [hnil] at hat
      simp at hat
  · rintro ⟨e, he, hidx, hcase⟩
    obtain ⟨-, hrow⟩ := storeElements_row h e he
    have hb : ∀ b, (ld.dofIndex, b) ∈ usePairs uses e → ∃ g' : Int, (storeElements v n uses).maps.At ld g' ∧
        ((b = true ∧ 0 ≤ g' ∧ (v.elems.flatMap (usedOf (usePairs uses)))[g'.toNat]? = some ld) ∨ (b = false ∧ g' = -1)) := by
      intro b hb
      obtain ⟨j, w, hj, hd, hu⟩ := (mem_usePairs e _ _).mp hb
      obtain ⟨g', h1, h2⟩ := hrow j w hj
      rw [hd, hidx] at h1 h2
      rw [hu] at h2
      exact ⟨g', h1, h2⟩
    rcases hcase with ⟨hm, h0, hget⟩ | ⟨hm, rfl⟩
    · obtain ⟨g', h1, ⟨-, h2, h3⟩ | ⟨h2, -⟩⟩ := hb _ hm
      · have : g'.toNat = g.toNat :=
          (List.getElem?_inj (List.getElem?_eq_some_iff.mp h3).1 (usedOf_nodup h)).mp (h3.trans hget.symm)
        have : g' = g := by omega
        rw [← this]; exact h1
      · cases h2
    · obtain ⟨g', h1, ⟨h2, -⟩ | ⟨-, rfl⟩⟩ := hb _ hm
      · cases h2
      · exact h1

theorem storeElements_globalToLocal {g : Nat} (hg : g < (storeElements v n uses).maps.globalDofCount) :
    ∃ ld, (storeElements v n uses).maps.globalToLocal g = [ld] ∧
      (v.elems.flatMap (usedOf (usePairs uses)))[g]? = some ld := by
  rw [storeElements_count] at hg
  refine ⟨(v.elems.flatMap (usedOf (usePairs uses)))[g], ?_, List.getElem?_eq_getElem hg⟩
  unfold DofMaps.globalToLocal
  rw [storeElements_g2l, List.getD_eq_getElem?_getD, List.getElem?_map, List.getElem?_eq_getElem hg]
  rfl

theorem storeElements_consistent (h : GoodStore v n uses) : (storeElements v n uses).maps.Consistent where
  range := by
    intro ld g hat
    rw [storeElements_at h] at hat
    obtain ⟨e, he, -, ⟨-, h0, h1⟩ | ⟨-, h1⟩⟩ := hat
    · right
      have := (List.getElem?_eq_some_iff.mp h1).1
      rw [storeElements_count]
      omega
    · left; exact h1
  inverse := by
    intro g hg ld
    obtain ⟨ld', h1, h2⟩ := storeElements_globalToLocal hg
    rw [h1, List.mem_singleton, storeElements_at h]
    constructor
    · rintro rfl
      obtain ⟨e, he, hm⟩ := List.mem_flatMap.mp (List.mem_of_getElem? h2)
      obtain ⟨h3, h4⟩ := (mem_usedOf e ld).mp hm
      refine ⟨e, he, h3, Or.inl ⟨h4, by omega, ?_⟩⟩
      rw [Int.toNat_natCast]; exact h2
    · rintro ⟨e, he, hi, ⟨-, -, h4⟩ | ⟨-, h4⟩⟩
      · rw [Int.toNat_natCast, h2] at h4
        injection h4 with h5
        exact h5.symm
      · omega
  once := by
    intro g hg
    obtain ⟨ld', h1, h2⟩ := storeElements_globalToLocal hg
    rw [h1]; exact List.nodup_singleton _
  flat_mem := flat_mem _
  flat_sorted := flat_sorted _

/-- The box of a global dof. -/
theorem storeElements_box (h : GoodStore v n uses) (g : Nat) (ld : LocalDof) (hat : (storeElements v n uses).maps.At ld g) :
    ∃ e ∈ v.elems, e.index = ld.entityIndex ∧ ∃ w ∈ uses e, w.ldof = ld.dofIndex ∧ w.used = true ∧
      (storeElements v n uses).boxes[g]? = some (e.index, w.ref) := by
  obtain ⟨e, he, hidx, ⟨hm, -, hget⟩ | ⟨-, hneg⟩⟩ := (storeElements_at h ld g).mp hat
  · rw [Int.toNat_natCast] at hget
    have hb : (storeElements v n uses).boxes =
        (v.elems.flatMap fun e => ((uses e).filter (·.used)).map fun w => (e, w)).map fun q => (q.1.index, q.2.ref) := by
      unfold storeElements
      rw [storeElements_boxes, List.map_flatMap]
      simp [Function.comp_def]
    have hl : v.elems.flatMap (usedOf (usePairs uses)) =
        (v.elems.flatMap fun e => ((uses e).filter (·.used)).map fun w => (e, w)).map fun q =>
          (⟨q.1.index, q.2.ldof⟩ : LocalDof) := by
      rw [List.map_flatMap]
      refine List.flatMap_congr ?_
      intro e _
      unfold usedOf usePairs
      rw [List.filter_map, List.map_map, List.map_map]
      rfl
    rw [hl, List.getElem?_map, Option.map_eq_some_iff] at hget
    obtain ⟨⟨e', w⟩, hq, hld⟩ := hget
    have hmem := List.mem_of_getElem? hq
    rw [List.mem_flatMap] at hmem
    obtain ⟨e'', he'', hmw⟩ := hmem
    rw [List.mem_map] at hmw
    obtain ⟨w', hw', heq⟩ := hmw
    injection heq with h1 h2
    subst h1 h2
    rw [List.mem_filter] at hw'
    subst hld
    refine ⟨e'', he'', rfl, w', hw'.1, rfl, hw'.2, ?_⟩
    rw [hb, List.getElem?_map, hq]; rfl
  · omega

end

end Verif.Space
