import Verif.Model.PairTopology
import Verif.Spec.Duffy
import Mathlib.Data.List.Perm.Basic
import Mathlib.Data.List.Nodup
import Mathlib.Data.List.Dedup
import Mathlib.Data.Finset.Card
import Mathlib.Data.List.Sublists
/-
Property C62: how a pair of elements is classified.
-/
namespace Verif.Quad

theorem firstMatch_some {l : List Int} {x : Int} {k : Nat} (h : firstMatch l x = some k) : l[k]? = some x := by
  have := List.find?_some h
  simpa using this

theorem firstMatch_isSome {l : List Int} {x : Int} : (firstMatch l x).isSome ↔ x ∈ l := by
  unfold firstMatch
  rw [List.find?_isSome]
  constructor
  · rintro ⟨k, _, h⟩
    exact List.mem_of_getElem? (by simpa using h)
  · intro h
    obtain ⟨k, hk, rfl⟩ := List.mem_iff_getElem.mp h
    exact ⟨k, List.mem_range.mpr hk, by simp [List.getElem?_eq_getElem hk]⟩

theorem sharedVertices_mem {t u : List Int} {p : Nat × Nat} (h : p ∈ sharedVertices t u) :
    ∃ x, t[p.1]? = some x ∧ u[p.2]? = some x := by
  unfold sharedVertices at h
  obtain ⟨v, hv, e⟩ := List.mem_filterMap.mp h
  rw [Option.map_eq_some_iff] at e
  obtain ⟨w, hw, rfl⟩ := e
  rw [Option.bind_eq_some_iff] at hw
  obtain ⟨x, hx, hw⟩ := hw
  exact ⟨x, firstMatch_some hw, hx⟩

/-- The trial vertices in the list, in order, are those whose corner is a corner of the test element. -/
theorem sharedVertices_snd (t u : List Int) :
    (sharedVertices t u).map Prod.snd = (List.range u.length).filter fun v => decide (∃ x ∈ t, u[v]? = some x) := by
  unfold sharedVertices
  rw [List.map_filterMap, ← List.filterMap_eq_filter]
  apply List.filterMap_congr
  intro v hv
  have hv' := List.mem_range.mp hv
  rw [List.getElem?_eq_getElem hv']
  simp only [Option.bind_some, Option.map_map]
  cases hm : firstMatch t u[v] with
  | none =>
    have : u[v] ∉ t := by
      intro h
      have := firstMatch_isSome.mpr h
      simp [hm] at this
    have h2 : ¬ ∃ x ∈ t, u[v]? = some x := by
      rintro ⟨x, hx, e⟩
      rw [List.getElem?_eq_getElem hv'] at e
      exact this (by cases e; exact hx)
    simp [Option.guard, h2]
  | some k =>
    have : u[v] ∈ t := firstMatch_isSome.mp (by simp [hm])
    have h2 : ∃ x ∈ t, u[v]? = some x := ⟨_, this, List.getElem?_eq_getElem hv'⟩
    simp [Option.guard, h2]

theorem sharedVertices_length (t u : List Int) (hu : u.Nodup) :
    (sharedVertices t u).length = (u.toFinset ∩ t.toFinset).card := by
  rw [← List.length_map (f := Prod.snd), sharedVertices_snd]
  have hnd : ((List.range u.length).filter fun v => decide (∃ x ∈ t, u[v]? = some x)).Nodup :=
    List.nodup_range.filter _
  rw [← List.toFinset_card_of_nodup hnd]
  refine Finset.card_bij (fun v _ => u.getD v 0) ?_ ?_ ?_
  · intro v hv
    simp only [List.mem_toFinset, List.mem_filter, List.mem_range, decide_eq_true_eq] at hv
    obtain ⟨hv, x, hx, e⟩ := hv
    rw [List.getElem?_eq_getElem hv] at e
    simp only [Option.some.injEq] at e
    simp [List.getD, List.getElem?_eq_getElem hv, e, hx]
    rw [← e]; exact List.getElem_mem hv
  · intro v hv w hw e
    simp only [List.mem_toFinset, List.mem_filter, List.mem_range] at hv hw
    simp only [List.getD, List.getElem?_eq_getElem hv.1, List.getElem?_eq_getElem hw.1, Option.getD_some] at e
    exact (List.Nodup.getElem_inj_iff hu).mp e
  · intro x hx
    simp only [Finset.mem_inter, List.mem_toFinset] at hx
    obtain ⟨v, hv, rfl⟩ := List.mem_iff_getElem.mp hx.1
    refine ⟨v, ?_, by simp [List.getD, List.getElem?_eq_getElem hv]⟩
    simp only [List.mem_toFinset, List.mem_filter, List.mem_range, decide_eq_true_eq]
    exact ⟨hv, _, hx.2, List.getElem?_eq_getElem hv⟩

theorem sharedVertices_snd_lt (t u : List Int) : ((sharedVertices t u).map Prod.snd).Pairwise (· < ·) := by
  rw [sharedVertices_snd]
  exact (List.pairwise_lt_range).filter _

/-- Number of corners that two elements have in common. -/
def commonCorners (t u : List Int) : Nat := (u.toFinset ∩ t.toFinset).card

/-- **C62 (triangles).**  For triangles with distinct corners the classification never throws, the type says how many
corners the elements share, the shared local vertices are corners with the same global index, and the quadrature rule
for the configuration never throws (`Valid`).  An assertion fails only if two elements have the same three corners in
different orders. -/
theorem C62_triangles (t u : List Int) (ht : t.length = 3) (hu : u.length = 3) (hut : t.Nodup) (huu : u.Nodup) :
    (determineTopology t u ≠ .throw) ∧
    ∀ T, determineTopology t u = .ok T ∨ determineTopology t u = .assertFails T →
      T.testVertexCount = 3 ∧ T.trialVertexCount = 3 ∧
      (T.type = .Disjoint ↔ commonCorners t u = 0) ∧ (T.type = .SharedVertex ↔ commonCorners t u = 1) ∧
      (T.type = .SharedEdge ↔ commonCorners t u = 2) ∧ (T.type = .Coincident ↔ commonCorners t u = 3) ∧
      (∀ c, T.config = some c → c.Valid ∧
        match c with
        | .coincident => True
        | .vertex a b => t[a]? = u[b]? ∧ t[a]?.isSome
        | .edge a a' b b' => (t[a]? = u[b]? ∧ t[a]?.isSome) ∧ t[a']? = u[b']? ∧ t[a']?.isSome) ∧
      (determineTopology t u = .assertFails T → t ≠ u ∧ t.Perm u) := by
  have hlen := sharedVertices_length t u huu
  have hle : commonCorners t u ≤ 3 := by
    rw [commonCorners, ← hlen, ← List.length_map (f := Prod.snd), sharedVertices_snd]
    refine (List.length_filter_le _ _).trans ?_
    rw [List.length_range, hu]
  have hsnd := sharedVertices_snd_lt t u
  have hmem : ∀ p ∈ sharedVertices t u, ∃ x, t[p.1]? = some x ∧ u[p.2]? = some x := fun p hp => sharedVertices_mem hp
  have bound : ∀ {l : List Int} {k : Nat} {x : Int}, l.length = 3 → l[k]? = some x → k ≤ 2 := by
    intro l k x h e
    have := (List.getElem?_eq_some_iff.mp e).1
    omega
  change (sharedVertices t u).length = commonCorners t u at hlen
  unfold determineTopology
  generalize hs : sharedVertices t u = l at *
  match l, hlen, hmem, hsnd with
  | [], hlen, _, _ =>
    simp only [List.length_nil] at hlen
    simp only [ht, hu]
    refine ⟨by simp, ?_⟩
    intro T hT
    simp only [TopologyResult.ok.injEq, reduceCtorEq, or_false] at hT
    subst hT
    simp [← hlen, Topology.config]
  | [p], hlen, hmem, _ =>
    simp only [List.length_singleton] at hlen
    obtain ⟨x, h1, h2⟩ := hmem p (by simp)
    have b1 := bound ht h1
    have b2 := bound hu h2
    simp only [ht, hu]
    refine ⟨by simp, ?_⟩
    intro T hT
    simp only [TopologyResult.ok.injEq, reduceCtorEq, or_false] at hT
    subst hT
    simp [← hlen, Topology.config, Config.Valid, b1, b2, h1, h2]
    omega
  | [p, q], hlen, hmem, hsnd =>
    simp only [List.length_cons, List.length_nil] at hlen
    obtain ⟨x, h1, h2⟩ := hmem p (by simp)
    obtain ⟨y, h3, h4⟩ := hmem q (by simp)
    have b1 := bound ht h1
    have b2 := bound hu h2
    have b3 := bound ht h3
    have b4 := bound hu h4
    simp only [List.map_cons, List.map_nil, List.pairwise_cons, List.mem_singleton, forall_eq] at hsnd
    have ne2 : p.2 ≠ q.2 := by have := hsnd.1; omega
    have ne1 : p.1 ≠ q.1 := by
      intro e
      rw [e, h3] at h1
      cases h1
      have i2 := (List.getElem?_eq_some_iff.mp h2)
      have i4 := (List.getElem?_eq_some_iff.mp h4)
      obtain ⟨i2, e2⟩ := i2
      obtain ⟨i4, e4⟩ := i4
      exact ne2 ((List.Nodup.getElem_inj_iff huu).mp (e2.trans e4.symm))
    simp only [ht, hu]
    refine ⟨by simp, ?_⟩
    intro T hT
    simp only [TopologyResult.ok.injEq, reduceCtorEq, or_false] at hT
    subst hT
    simp [← hlen, Topology.config, Config.Valid, b1, b2, b3, b4, h1, h2, h3, h4, ne1, ne2]
    omega
  | p :: q :: r :: rest, hlen, hmem, hsnd =>
    simp only [List.length_cons] at hlen
    have hrest : rest = [] := by
      cases rest with
      | nil => rfl
      | cons a b => simp only [List.length_cons] at hlen; omega
    subst hrest
    simp only [List.length_nil] at hlen
    have hperm : u.Perm t := by
      have hsub : u.toFinset ∩ t.toFinset = u.toFinset :=
        Finset.eq_of_subset_of_card_le Finset.inter_subset_left (by
          rw [List.toFinset_card_of_nodup huu, hu]; unfold commonCorners at hlen; omega)
      have hsub' : u ⊆ t := by
        intro x hx
        have : x ∈ u.toFinset ∩ t.toFinset := by rw [hsub]; simpa using hx
        simpa using (Finset.mem_inter.mp this).2
      exact (huu.subperm hsub').perm_of_length_le (by omega)
    simp only [ht, hu, List.length_cons, List.length_nil]
    split
    · split
      · refine ⟨by simp, ?_⟩
        intro T hT
        simp only [TopologyResult.ok.injEq, reduceCtorEq, or_false] at hT
        subst hT
        simp [← hlen, Topology.config, Config.Valid]
      · rename_i hall
        refine ⟨by simp, ?_⟩
        intro T hT
        simp only [TopologyResult.assertFails.injEq, reduceCtorEq, false_or] at hT
        subst hT
        refine ⟨rfl, rfl, by simp [← hlen], by simp [← hlen], by simp [← hlen], by simp [← hlen], ?_, ?_⟩
        · intro c hc
          simp [Topology.config] at hc
          subst hc
          simp [Config.Valid]
        · intro _
          refine ⟨?_, hperm.symm⟩
          intro e
          apply hall
          rw [List.all_eq_true]
          intro p hp
          obtain ⟨x, h1, h2⟩ := hmem p hp
          rw [e] at h1
          obtain ⟨i1, e1⟩ := List.getElem?_eq_some_iff.mp h1
          obtain ⟨i2, e2⟩ := List.getElem?_eq_some_iff.mp h2
          simpa using (List.Nodup.getElem_inj_iff huu).mp (e1.trans e2.symm)
    · rename_i h
      simp at h

/-- **C62 (same element).**  An element paired with itself is classified as coincident. -/
theorem C62_same (t : List Int) (ht : 3 ≤ t.length) (hut : t.Nodup) :
    determineTopology t t = .ok { type := .Coincident, testVertexCount := t.length, trialVertexCount := t.length } := by
  have hlen := sharedVertices_length t t hut
  rw [Finset.inter_self, List.toFinset_card_of_nodup hut] at hlen
  have hall : (sharedVertices t t).all (fun p => p.1 == p.2) = true := by
    rw [List.all_eq_true]
    intro p hp
    obtain ⟨x, h1, h2⟩ := sharedVertices_mem hp
    obtain ⟨i1, e1⟩ := List.getElem?_eq_some_iff.mp h1
    obtain ⟨i2, e2⟩ := List.getElem?_eq_some_iff.mp h2
    simpa using (List.Nodup.getElem_inj_iff hut).mp (e1.trans e2.symm)
  unfold determineTopology
  generalize sharedVertices t t = l at *
  match l, hlen, hall with
  | [], hlen, _ => simp at hlen; omega
  | [_], hlen, _ => simp at hlen; omega
  | [_, _], hlen, _ => simp at hlen; omega
  | p :: q :: r :: rest, hlen, hall => simp only [hlen, and_self, if_true, hall]

/-- **C62 (positions).**  If corners with the same global index have the same position (`X`), the corners that the
quadrature rule takes as shared have the same positions in both elements: the first half of `Config.Placed`. -/
theorem C62_shared_positions {V : Type} (X : Int → V) (t u : List Int) (ht : t.length = 3) (hu : u.length = 3)
    (hut : t.Nodup) (huu : u.Nodup) (T : Topology) (hT : determineTopology t u = .ok T) (c : Config)
    (hc : T.config = some c) :
    match c with
    | .coincident => t.map X = u.map X
    | .vertex a b => t[a]?.map X = u[b]?.map X ∧ t[a]?.isSome
    | .edge a a' b b' => (t[a]?.map X = u[b]?.map X ∧ t[a]?.isSome) ∧ t[a']?.map X = u[b']?.map X ∧ t[a']?.isSome := by
  obtain ⟨-, h⟩ := C62_triangles t u ht hu hut huu
  obtain ⟨-, -, -, -, -, h4, h, -⟩ := h T (Or.inl hT)
  obtain ⟨-, h⟩ := h c hc
  cases c with
  | coincident =>
    suffices t = u by rw [this]
    have htype : T.type = .Coincident := by
      unfold Topology.config at hc
      split at hc <;> simp_all
    have hlen := sharedVertices_length t u huu
    change _ = commonCorners t u at hlen
    rw [h4.mp htype] at hlen
    have hsnd := sharedVertices_snd_lt t u
    have hmem : ∀ p ∈ sharedVertices t u, ∃ x, t[p.1]? = some x ∧ u[p.2]? = some x := fun p hp => sharedVertices_mem hp
    unfold determineTopology at hT
    generalize sharedVertices t u = l at *
    match l, hlen with
    | [p, q, r], _ =>
      simp only [ht, hu, List.length_cons, List.length_nil] at hT
      split at hT
      · split at hT
        · rename_i hall
          rw [List.all_eq_true] at hall
          simp only [List.map_cons, List.map_nil, List.pairwise_cons, List.mem_cons, List.not_mem_nil, or_false] at hsnd
          have key : ∀ s ∈ [p, q, r], t[s.2]? = u[s.2]? ∧ s.2 < 3 := by
            intro s hs
            obtain ⟨x, h1, h2⟩ := hmem s hs
            have e := hall s hs
            simp only [beq_iff_eq] at e
            rw [e] at h1
            refine ⟨h1.trans h2.symm, ?_⟩
            have := (List.getElem?_eq_some_iff.mp h2).1
            omega
          obtain ⟨k1, l1⟩ := key p (by simp)
          obtain ⟨k2, l2⟩ := key q (by simp)
          obtain ⟨k3, l3⟩ := key r (by simp)
          have o1 := hsnd.1 q.2 (Or.inl rfl)
          have o2 := hsnd.2.1 r.2 rfl
          have z1 : p.2 = 0 := by omega
          have z2 : q.2 = 1 := by omega
          have z3 : r.2 = 2 := by omega
          rw [z1] at k1; rw [z2] at k2; rw [z3] at k3
          apply List.ext_getElem?
          intro i
          match i with
          | 0 => exact k1
          | 1 => exact k2
          | 2 => exact k3
          | k + 3 => rw [List.getElem?_eq_none (by omega), List.getElem?_eq_none (by omega)]
        · simp at hT
      · simp at hT
  | vertex a b => exact ⟨by rw [h.1], h.2⟩
  | edge a a' b b' => exact ⟨⟨by rw [h.1.1], h.1.2⟩, by rw [h.2.1], h.2.2⟩

/-- **C62 (counterexample).**  Two triangles over the same corners in different orders: a debug build stops; a release
build uses the rule for coincident elements although local vertex 0 of one is not local vertex 0 of the other. -/
theorem C62_counterexample_permuted : determineTopology [4, 7, 9] [7, 9, 4] =
    .assertFails { type := .Coincident, testVertexCount := 3, trialVertexCount := 3 } := by decide

/-! ### Examples -/

example : determineTopology [4, 7, 9] [9, 4, 2] =
    .ok ⟨.SharedEdge, 3, 3, 2, 0, 0, 1⟩ := by decide
example : determineTopology [4, 7, 9] [1, 7, 2] =
    .ok ⟨.SharedVertex, 3, 3, 1, -1, 1, -1⟩ := by decide
/-- Quadrilaterals that share three corners throw. -/
example : determineTopology [0, 1, 2, 3] [0, 1, 2, 4] = .throw := by decide

end Verif.Quad
