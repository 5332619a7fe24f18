import Verif.Lemmas.SpaceP1
/-
Lemmas about the discontinuous spaces.
-/
namespace Verif.Space
open Verif.Grid

/-- The used local dofs of an element, in order. -/
def usedOf (uses : Elem → List (Nat × Bool)) (e : Elem) : List LocalDof :=
  ((uses e).filter (·.2)).map fun w => ⟨e.index, w.1⟩

/-- The global dofs given to a list of local dofs when the counter starts at `c`. -/
def pushRow : List (Nat × Bool) → Nat → List Int
  | [], _ => []
  | w :: ws, c => if w.2 then (c : Int) :: pushRow ws (c + 1) else -1 :: pushRow ws c

theorem pushDof_fold (e : Nat) (ws : List (Nat × Bool)) : ∀ (row : List Int) (g2l : List (List LocalDof)),
    ws.foldl (pushDof e) (row, g2l) =
      (row ++ pushRow ws g2l.length, g2l ++ (ws.filter (·.2)).map fun w => [(⟨e, w.1⟩ : LocalDof)]) := by
  induction ws with
  | nil => intro row g2l; simp [pushRow]
  | cons w ws ih =>
    intro row g2l
    rw [List.foldl_cons]
    cases h : w.2 with
    | true =>
      have : pushDof e (row, g2l) w = (row ++ [(g2l.length : Int)], g2l ++ [[⟨e, w.1⟩]]) := by
        simp [pushDof, h]
      rw [this]
      refine (ih _ _).trans ?_
      simp [pushRow, h]
    | false =>
      have : pushDof e (row, g2l) w = (row ++ [-1], g2l) := by
        simp [pushDof, h]
      rw [this]
      refine (ih _ _).trans ?_
      simp [pushRow, h]

theorem pushElements_global (uses : Elem → List (Nat × Bool)) : ∀ (es : List Elem) (m : DofMaps),
    (es.foldl (pushElement uses) m).global2local =
      m.global2local ++ (es.flatMap (usedOf uses)).map fun ld => [ld] := by
  intro es
  induction es with
  | nil => intro m; simp
  | cons e es ih =>
    intro m
    rw [List.foldl_cons, ih]
    unfold pushElement
    simp only [pushDof_fold, List.flatMap_cons, List.map_append, List.append_assoc]
    congr 2
    unfold usedOf
    rw [List.map_map]
    rfl

/-- The counter when the element list `es` has been visited, starting from `c`. -/
def counterAfter (uses : Elem → List (Nat × Bool)) (es : List Elem) (c : Nat) : Nat :=
  c + (es.flatMap (usedOf uses)).length

theorem pushElements_local_length (uses : Elem → List (Nat × Bool)) : ∀ (es : List Elem) (m : DofMaps),
    (es.foldl (pushElement uses) m).local2global.length = m.local2global.length := by
  intro es
  induction es with
  | nil => intro m; rfl
  | cons e es ih => intro m; rw [List.foldl_cons, ih]; simp [pushElement]

theorem pushElements_local_skip (uses : Elem → List (Nat × Bool)) : ∀ (es : List Elem) (m : DofMaps) (k : Nat),
    (∀ e ∈ es, e.index ≠ k) → (es.foldl (pushElement uses) m).local2global[k]? = m.local2global[k]? := by
  intro es
  induction es with
  | nil => intro m k _; rfl
  | cons e es ih =>
    intro m k hk
    rw [List.foldl_cons, ih _ _ (fun e' he' => hk e' (List.mem_cons_of_mem _ he'))]
    unfold pushElement
    simp only []
    rw [List.getElem?_set_ne (hk e List.mem_cons_self)]

theorem pushElements_local (uses : Elem → List (Nat × Bool)) (pre : List Elem) (e : Elem) (post : List Elem)
    (m : DofMaps) (hpost : ∀ e' ∈ post, e'.index ≠ e.index) (hlt : e.index < m.local2global.length) :
    ((pre ++ e :: post).foldl (pushElement uses) m).local2global[e.index]? =
      some (pushRow (uses e) (counterAfter uses pre m.global2local.length)) := by
  rw [List.foldl_append, List.foldl_cons, pushElements_local_skip _ _ _ _ hpost]
  unfold pushElement
  simp only [pushDof_fold, List.nil_append]
  have hl := pushElements_local_length uses pre m
  unfold pushElement at hl
  simp only [pushDof_fold, List.nil_append] at hl
  rw [List.getElem?_set_self (by rw [hl]; exact hlt)]
  have hg := pushElements_global uses pre m
  unfold pushElement at hg
  simp only [pushDof_fold, List.nil_append] at hg
  rw [hg]
  unfold counterAfter
  simp

theorem pushRow_length (ws : List (Nat × Bool)) : ∀ c, (pushRow ws c).length = ws.length := by
  induction ws with
  | nil => intro c; rfl
  | cons w ws ih => intro c; unfold pushRow; split <;> simp [ih]

theorem pushRow_get (ws : List (Nat × Bool)) : ∀ (c i : Nat),
    (pushRow ws c)[i]? = ws[i]?.map fun w =>
      if w.2 then ((c + ((ws.take i).filter (·.2)).length : Nat) : Int) else -1 := by
  induction ws with
  | nil => intro c i; simp [pushRow]
  | cons w ws ih =>
    intro c i
    unfold pushRow
    cases h : w.2 with
    | true =>
      rw [if_pos rfl]
      cases i with
      | zero => simp [h]
      | succ i =>
        simp only [List.getElem?_cons_succ, ih, List.take_succ_cons, List.filter_cons, h, if_true,
          List.length_cons]
        congr 1
        funext x
        split
        · congr 1; omega
        · rfl
    | false =>
      rw [if_neg (by simp)]
      cases i with
      | zero => simp [h]
      | succ i =>
        simp [ih, List.filter_cons, h]

/-- Hypotheses on the uses: local dofs are numbered in order. -/
structure GoodUses (v : View) (uses : Elem → List (Nat × Bool)) : Prop where
  index_nodup : (v.elems.map (·.index)).Nodup
  index_lt : ∀ e ∈ v.elems, e.index < v.count 0
  keys : ∀ e ∈ v.elems, (uses e).map Prod.fst = List.range (uses e).length

theorem filter_take_get {α : Type} (p : α → Bool) (l : List α) : ∀ (i : Nat) (a : α), l[i]? = some a → p a = true →
    (l.filter p)[((l.take i).filter p).length]? = some a := by
  induction l with
  | nil => intro i a h; simp at h
  | cons x l ih =>
    intro i a h hp
    cases i with
    | zero =>
      simp only [List.getElem?_cons_zero, Option.some.injEq] at h
      subst h
      simp [hp]
    | succ i =>
      simp only [List.getElem?_cons_succ] at h
      have := ih i a h hp
      cases hx : p x with
      | true => simp [hx, this]
      | false => simp [hx, this]

theorem flatMap_get_mid {α β : Type} (f : α → List β) (pre : List α) (e : α) (post : List α) (k : Nat)
    (hk : k < (f e).length) :
    ((pre ++ e :: post).flatMap f)[(pre.flatMap f).length + k]? = (f e)[k]? := by
  rw [List.flatMap_append, List.getElem?_append_right (by omega), List.flatMap_cons,
    List.getElem?_append_left (by omega)]
  congr 1
  omega

section
variable {v : View} {uses : Elem → List (Nat × Bool)}

theorem pushElements_g2l : (pushElements v uses).global2local = (v.elems.flatMap (usedOf uses)).map fun ld => [ld] := by
  unfold pushElements
  rw [pushElements_global]
  simp

theorem pushElements_count : (pushElements v uses).globalDofCount = (v.elems.flatMap (usedOf uses)).length := by
  unfold DofMaps.globalDofCount
  rw [pushElements_g2l]
  simp

/-- All entries of the local-to-global map: the key lemma. -/
theorem pushElements_at (h : GoodUses v uses) (ld : LocalDof) (g : Int) :
    (pushElements v uses).At ld g ↔ ∃ e ∈ v.elems, e.index = ld.entityIndex ∧
      (((ld.dofIndex, true) ∈ uses e ∧ 0 ≤ g ∧ (v.elems.flatMap (usedOf uses))[g.toNat]? = some ld) ∨
        ((ld.dofIndex, false) ∈ uses e ∧ g = -1)) := by
  have hkey : ∀ e ∈ v.elems, ∀ (i : Nat) (b : Nat × Bool), (uses e)[i]? = some b → b.1 = i := by
    intro e he i b hb
    have h1 := congrArg (fun l => l[i]?) (h.keys e he)
    simp only [List.getElem?_map, hb, Option.map_some] at h1
    have hi := (List.getElem?_eq_some_iff.mp hb).1
    rw [List.getElem?_range hi] at h1
    injection h1
  have hkey' : ∀ e ∈ v.elems, ∀ (i : Nat) (b : Bool), (i, b) ∈ uses e → (uses e)[i]? = some (i, b) := by
    intro e he i b hb
    obtain ⟨j, hj⟩ := List.mem_iff_getElem?.mp hb
    have := hkey e he j _ hj
    simp only at this
    subst this; exact hj
  have hnodup : (v.elems.flatMap (usedOf uses)).Nodup := by
    rw [List.nodup_flatMap]
    constructor
    · intro e he
      have hnd : ((uses e).map Prod.fst).Nodup := by rw [h.keys e he]; exact List.nodup_range
      have : (((uses e).filter (·.2)).map Prod.fst).Nodup :=
        hnd.sublist (List.Sublist.map _ List.filter_sublist)
      refine List.Nodup.map_on ?_ (List.Nodup.of_map _ this)
      intro a ha b hb hab
      have h1 : a.1 = b.1 := by injection hab
      exact List.inj_on_of_nodup_map this ha hb h1
    · have := h.index_nodup
      rw [List.Nodup, List.pairwise_map] at this
      refine this.imp ?_
      intro a b hab
      rw [Function.onFun, List.disjoint_left]
      intro x hx hy
      simp only [usedOf, List.mem_map] at hx hy
      obtain ⟨_, -, rfl⟩ := hx
      obtain ⟨_, -, h2⟩ := hy
      injection h2 with h3
      exact hab h3.symm
  -- rows
  have hrow : ∀ e ∈ v.elems, ∃ c, (pushElements v uses).getGlobalDofs e.index = pushRow (uses e) c ∧
      ∀ k, k < (usedOf uses e).length → (v.elems.flatMap (usedOf uses))[c + k]? = (usedOf uses e)[k]? := by
    intro e he
    obtain ⟨pre, post, hsplit⟩ := List.append_of_mem he
    refine ⟨(pre.flatMap (usedOf uses)).length, ?_, ?_⟩
    · unfold DofMaps.getGlobalDofs pushElements
      rw [List.getD_eq_getElem?_getD]
      have hpost : ∀ e' ∈ post, e'.index ≠ e.index := by
        have hnd := h.index_nodup
        rw [hsplit, List.map_append, List.map_cons, List.nodup_append] at hnd
        have h2 := (List.nodup_cons.mp hnd.2.1).1
        intro e' he' heq
        exact h2 (List.mem_map.mpr ⟨e', he', heq⟩)
      have := pushElements_local uses pre e post ⟨List.replicate (v.count 0) [], []⟩ hpost
        (by simpa using h.index_lt e he)
      rw [hsplit, this]
      simp [counterAfter]
    · intro k hk
      rw [hsplit]
      exact flatMap_get_mid _ _ _ _ _ hk
  unfold DofMaps.At
  by_cases hx : ∃ e ∈ v.elems, e.index = ld.entityIndex
  · obtain ⟨e, he, hidx⟩ := hx
    have huniq : ∀ e' ∈ v.elems, e'.index = ld.entityIndex → e' = e := fun e' he' hi' =>
      List.inj_on_of_nodup_map h.index_nodup he' he (hi'.trans hidx.symm)
    obtain ⟨c, hc, hpos⟩ := hrow e he
    have hused : ∀ i, (i, true) ∈ uses e →
        (v.elems.flatMap (usedOf uses))[c + (((uses e).take i).filter (·.2)).length]? = some ⟨e.index, i⟩ := by
      intro i hi
      have h1 := filter_take_get (·.2) (uses e) i (i, true) (hkey' e he i true hi) rfl
      have h2 : (usedOf uses e)[(((uses e).take i).filter (·.2)).length]? = some ⟨e.index, i⟩ := by
        unfold usedOf
        rw [List.getElem?_map, h1]; rfl
      rw [hpos _ (List.getElem?_eq_some_iff.mp h2).1, h2]
    rw [← hidx, hc, pushRow_get]
    constructor
    · intro hg
      cases hu : (uses e)[ld.dofIndex]? with
      | none => rw [hu] at hg; simp at hg
      | some w =>
        rw [hu] at hg
        simp only [Option.map_some, Option.some.injEq] at hg
        have hw1 := hkey e he _ _ hu
        refine ⟨e, he, rfl, ?_⟩
        cases hw2 : w.2 with
        | true =>
          left
          rw [hw2, if_pos rfl] at hg
          have hmem : (ld.dofIndex, true) ∈ uses e := by
            have : w = (ld.dofIndex, true) := Prod.ext hw1 hw2
            rw [← this]; exact List.mem_of_getElem? hu
          refine ⟨hmem, by omega, ?_⟩
          rw [← hg, Int.toNat_natCast, hused _ hmem, hidx]
        | false =>
          right
          rw [hw2, if_neg (by simp)] at hg
          have : w = (ld.dofIndex, false) := Prod.ext hw1 hw2
          rw [← this]; exact ⟨List.mem_of_getElem? hu, hg.symm⟩
    · rintro ⟨e', he', hi', hcase⟩
      have := huniq e' he' (hi'.trans hidx)
      subst this
      rcases hcase with ⟨hm, h0, hget⟩ | ⟨hm, rfl⟩
      · rw [hkey' e' he' _ _ hm]
        simp only [Option.map_some, if_true, Option.some.injEq]
        have h3 := hused _ hm
        rw [hidx] at h3
        have : c + (((uses e').take ld.dofIndex).filter (·.2)).length = g.toNat :=
          (List.getElem?_inj (List.getElem?_eq_some_iff.mp h3).1 hnodup).mp (h3.trans hget.symm)
        exact (congrArg (Nat.cast : Nat → Int) this).trans (Int.toNat_of_nonneg h0)
      · rw [hkey' e' he' _ _ hm]
        simp
  · have : (pushElements v uses).getGlobalDofs ld.entityIndex = [] := by
      unfold DofMaps.getGlobalDofs pushElements
      rw [List.getD_eq_getElem?_getD, pushElements_local_skip _ _ _ _ (fun e he hk => hx ⟨e, he, hk⟩),
        List.getElem?_replicate]
      split <;> rfl
    rw [this]
    simp only [List.getElem?_nil, reduceCtorEq, false_iff]
    rintro ⟨e, he, hi, -⟩
    exact hx ⟨e, he, hi⟩

theorem mem_usedOf (e : Elem) (ld : LocalDof) :
    ld ∈ usedOf uses e ↔ e.index = ld.entityIndex ∧ (ld.dofIndex, true) ∈ uses e := by
  unfold usedOf
  simp only [List.mem_map, List.mem_filter]
  constructor
  · rintro ⟨⟨i, b⟩, ⟨h1, h2⟩, rfl⟩
    simp only at h2
    subst h2
    exact ⟨rfl, h1⟩
  · rintro ⟨h1, h2⟩
    exact ⟨_, ⟨h2, rfl⟩, by rw [h1]⟩

theorem pushElements_globalToLocal {g : Nat} (hg : g < (pushElements v uses).globalDofCount) :
    ∃ ld, (pushElements v uses).globalToLocal g = [ld] ∧ (v.elems.flatMap (usedOf uses))[g]? = some ld := by
  rw [pushElements_count] at hg
  refine ⟨(v.elems.flatMap (usedOf uses))[g], ?_, List.getElem?_eq_getElem hg⟩
  unfold DofMaps.globalToLocal
  rw [pushElements_g2l, List.getD_eq_getElem?_getD, List.getElem?_map, List.getElem?_eq_getElem hg]
  rfl

theorem pushElements_consistent (h : GoodUses v uses) : (pushElements v uses).Consistent where
  range := by
    intro ld g hat
    rw [pushElements_at h] at hat
    obtain ⟨e, he, -, ⟨-, h0, h1⟩ | ⟨-, h1⟩⟩ := hat
    · right
      have := (List.getElem?_eq_some_iff.mp h1).1
      rw [pushElements_count]
      omega
    · left; exact h1
  inverse := by
    intro g hg ld
    obtain ⟨ld', h1, h2⟩ := pushElements_globalToLocal hg
    rw [h1, List.mem_singleton, pushElements_at h]
    constructor
    · rintro rfl
      obtain ⟨e, he, hm⟩ := List.mem_flatMap.mp (List.mem_of_getElem? h2)
      obtain ⟨h3, h4⟩ := (mem_usedOf e ld).mp hm
      refine ⟨e, he, h3, Or.inl ⟨h4, by omega, ?_⟩⟩
      rw [Int.toNat_natCast]; exact h2
    · rintro ⟨e, he, hi, ⟨-, -, h4⟩ | ⟨-, h4⟩⟩
      · rw [Int.toNat_natCast, h2] at h4
        injection h4 with h5
        exact h5.symm
      · omega
  once := by
    intro g hg
    obtain ⟨ld', h1, h2⟩ := pushElements_globalToLocal hg
    rw [h1]; exact List.nodup_singleton _
  flat_mem := flat_mem _
  flat_sorted := flat_sorted _
end

end Verif.Space
