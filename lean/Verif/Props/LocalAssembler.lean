import Verif.Lemmas.LocalAssembler
/-
Property C64: the local assembler of integral operators returns, for every pair of elements, the integrals computed with the
quadrature rule chosen for that pair, whether or not singular integrals are cached and however the work is grouped.
-/
namespace Verif.LocalAsm

open Verif.Quad Verif.HMat

section
variable {D S K : Type} [DecidableEq D] [DecidableEq S] [Zero K]

/-- The integrals of a pair of elements with the rule chosen for it: what the user expects. -/
def Assembler.integrals (A : Assembler D S K) (e t : Nat) (nominal : ℝ) : Option (Mx K) :=
  (A.select e t nominal).map fun d => A.form d (A.testShapeset e) (A.trialShapeset t) e t

/-- What is assumed of the grids and of the selector: corner indices are vertices; on one grid a rule is chosen for every
pair, and for elements that touch it does not depend on the nominal distance. -/
structure Assembler.Ready (A : Assembler D S K) : Prop where
  same : A.identical = true → A.trialGrid = A.testGrid
  corners : A.identical = true → ValidCorners A.testGrid A.vertexCount
  selects : ∀ e < A.testGrid.elementCount, ∀ t < A.trialGrid.elementCount, ∀ nominal, (A.select e t nominal).isSome
  adjacent : A.identical = true → ∀ e < A.testGrid.elementCount, ∀ t < A.trialGrid.elementCount, A.testGrid.Touch e t →
    ∀ nominal, A.select e t nominal = A.select e t (-1)

theorem getElem?_mapM {X Y : Type} (f : X → Option Y) (l : List X) (out : List Y) (h : l.mapM f = some out) (i : Nat) :
    out[i]? = l[i]?.bind f := by
  induction l generalizing out i with
  | nil =>
    simp only [List.mapM_nil] at h
    cases h
    simp
  | cons a l ih =>
    rw [List.mapM_cons] at h
    simp only [Option.bind_eq_bind, Option.bind_eq_some_iff] at h
    obtain ⟨y, hy, ys, hys, h⟩ := h
    cases h
    cases i with
    | zero => simp [hy]
    | succ i => simpa using ih ys hys i

theorem mapM_isSome {X Y : Type} (f : X → Option Y) (l : List X) (h : ∀ x ∈ l, (f x).isSome) :
    ∃ out, l.mapM f = some out := by
  induction l with
  | nil => exact ⟨[], rfl⟩
  | cons a l ih =>
    obtain ⟨ys, hys⟩ := ih fun x hx => h x (List.mem_cons_of_mem _ hx)
    obtain ⟨y, hy⟩ := Option.isSome_iff_exists.mp (h a (by simp))
    exact ⟨y :: ys, by rw [List.mapM_cons, hy, hys]; rfl⟩

/-- **C64 (cache).**  Every run of the constructor of a ready assembler succeeds.  Afterwards the cache answers exactly for
the pairs of elements with a common corner, if caching was asked for and both spaces live on one grid, and the answer is the
matrix of integrals for that pair. -/
theorem C64_cache (A : Assembler D S K) (hA : A.Ready) (caching : Bool) (r : Option (Cache K))
    (hr : A.Constructed caching r) :
    ∃ c, r = some c ∧
      (∀ e t, (c.lookup e t).isSome ↔ caching = true ∧ A.identical = true ∧ e < A.testGrid.elementCount ∧
        t < A.testGrid.elementCount ∧ A.testGrid.Touch e t) ∧
      ∀ e t m, c.lookup e t = some m → A.integrals e t (-1) = some m := by
  have hempty : ∀ e t, (Cache.empty (K := K)).lookup e t = none := by intro e t; rfl
  cases caching with
  | false =>
    simp only [Assembler.Constructed] at hr
    exact ⟨_, hr, by intro e t; simp [hempty], by intro e t m h; simp [hempty] at h⟩
  | true =>
    simp only [Assembler.Constructed, if_true] at hr
    by_cases hid : A.identical = true
    swap
    · have hp : A.adjacentPairs = some [] := by
        rw [Assembler.adjacentPairs]; simp [hid]
      rw [hp] at hr
      simp only [Assembler.CacheRun, List.isEmpty_nil, if_true] at hr
      exact ⟨_, hr, by intro e t; simp [hempty, hid], by intro e t m h; simp [hempty] at h⟩
    obtain ⟨pairs, hp, hsort, hmem⟩ := adjacentPairs_spec A hid (hA.corners hid)
    rw [hp] at hr
    simp only [Assembler.CacheRun] at hr
    match pairs, hp, hsort, hmem, hr with
    | [], _, _, hmem, hr =>
      simp only [List.isEmpty_nil, if_true] at hr
      refine ⟨_, hr, ?_, by intro e t m h; simp [hempty] at h⟩
      intro e t
      have := hmem e t
      simp only [List.not_mem_nil, false_iff] at this
      simp [hempty, this, hid]
    | p₀ :: rest, hp, hsort, hmem, hr =>
      simp only [List.isEmpty_cons, Bool.false_eq_true, if_false] at hr
      set pairs := p₀ :: rest with hpairs
      have hs2 : pairs.Pairwise fun a b => a.2 ≤ b.2 := hsort.imp fun {a b} h => by
        rw [pairLess_iff] at h; omega
      have hrange : ∀ p ∈ pairs, p.1 < A.testGrid.elementCount ∧ p.2 < A.trialGrid.elementCount := by
        intro p hp
        have := (hmem p.1 p.2).mp hp
        rw [hA.same hid]
        exact ⟨this.1, this.2.1⟩
      obtain ⟨variants, hv⟩ : ∃ variants, A.pairVariants pairs = some variants := by
        apply mapM_isSome
        intro p hp
        rw [Option.isSome_map]
        exact hA.selects _ (hrange p hp).1 _ (hrange p hp).2 _
      rw [hv] at hr
      obtain ⟨order, writes, hnd, hord, hperm, rfl⟩ := hr
      have hvk : ∀ k, variants[k]? = pairs[k]?.bind fun (p : Nat × Nat) =>
          (A.select p.1 p.2 (-1)).map fun d => (d, A.testShapeset p.1, A.trialShapeset p.2) :=
        getElem?_mapM _ _ _ hv
      set pos := cachePositions 0 p₀.2 pairs with hposdef
      have hpos : ∀ k, pos[k]? = pairs[k]?.map fun p => ((pairs.take k).countP (fun q => q.2 == p.2), p.2) :=
        cachePositions_start p₀ rest hs2
      have hplen : pos.length = pairs.length := cachePositions_length _ _ _
      have hvlen : variants.length = pairs.length := by
        have h1 := hvk variants.length
        rw [List.getElem?_eq_none (Nat.le_refl _)] at h1
        by_contra hne
        rcases Nat.lt_or_gt_of_ne hne with hlt | hgt
        · rw [List.getElem?_eq_getElem hlt] at h1
          simp only [Option.bind_some] at h1
          have := hA.selects _ (hrange _ (List.getElem_mem hlt)).1 _ (hrange _ (List.getElem_mem hlt)).2 (-1)
          rw [eq_comm, Option.map_eq_none_iff] at h1
          rw [h1] at this
          simp at this
        · have h2 := hvk pairs.length
          rw [List.getElem?_eq_getElem hgt, List.getElem?_eq_none (Nat.le_refl _)] at h2
          simp at h2
      set L := pairs.zip (variants.zip pos) with hL
      have hLlen : L.length = pairs.length := by
        simp [hL, hvlen, hplen]
      -- entry number k
      have hLk : ∀ k, (hk : k < pairs.length) → ∃ d, A.select pairs[k].1 pairs[k].2 (-1) = some d ∧
          L[k]? = some (pairs[k], (d, A.testShapeset pairs[k].1, A.trialShapeset pairs[k].2),
            ((pairs.take k).countP (fun q => q.2 == pairs[k].2), pairs[k].2)) := by
        intro k hk
        obtain ⟨d, hd⟩ := Option.isSome_iff_exists.mp
          (hA.selects _ (hrange _ (List.getElem_mem hk)).1 _ (hrange _ (List.getElem_mem hk)).2 (-1))
        refine ⟨d, hd, ?_⟩
        have h1 := hvk k
        have h2 := hpos k
        rw [List.getElem?_eq_getElem hk] at h1 h2
        simp only [Option.bind_some, Option.map_some, hd] at h1 h2
        rw [hL, List.getElem?_zip_eq_some.mpr]
        refine ⟨List.getElem?_eq_getElem hk, ?_⟩
        rw [List.getElem?_zip_eq_some]
        exact ⟨h1, h2⟩
      let W : (Nat × Nat) × (D × S × S) × Nat × Nat → (Nat × Nat) × CacheCell K := fun x =>
        (x.2.2, ⟨some x.1.1, A.form x.2.1.1 x.2.1.2.1 x.2.1.2.2 x.1.1 x.1.2⟩)
      have hW : writes.Perm (L.map W) := by
        refine hperm.trans ?_
        refine List.Perm.trans (List.Perm.of_eq ?_) (flatMap_filterMap_perm L (fun x => x.2.1)
          (fun active x => (x.2.2, (⟨some x.1.1, A.form active.1 active.2.1 active.2.2 x.1.1 x.1.2⟩ : CacheCell K)))
          order hnd ?_)
        · apply List.flatMap_congr
          intro v _
          rfl
        · intro x hx
          rw [hord]
          have := (List.of_mem_zip hx).2
          exact (List.of_mem_zip this).1
      -- positions are different and inside the cache
      have hposW : (L.map W).map Prod.fst = pos := by
        rw [List.map_map]
        have : (Prod.fst ∘ W) = fun x : (Nat × Nat) × (D × S × S) × Nat × Nat => x.2.2 := rfl
        rw [this]
        have h3 : (fun x : (Nat × Nat) × (D × S × S) × Nat × Nat => x.2.2) = Prod.snd ∘ Prod.snd := rfl
        rw [h3, ← List.map_map, hL, List.map_snd_zip, List.map_snd_zip]
        · omega
        · rw [List.length_zip]; omega
      have hlt : ∀ k, (hk : k < pairs.length) → (pairs.take k).countP (fun q => q.2 == pairs[k].2) <
          (pairs.take (k + 1)).countP (fun q => q.2 == pairs[k].2) := by
        intro k hk
        rw [List.take_succ, List.countP_append, List.getElem?_eq_getElem hk]
        simp
      have hposnd : pos.Nodup := by
        rw [List.nodup_iff_injective_get]
        intro i j hij
        have hi : i.1 < pairs.length := hplen ▸ i.2
        have hj : j.1 < pairs.length := hplen ▸ j.2
        have h1 := hpos i.1
        have h2 := hpos j.1
        rw [List.getElem?_eq_getElem i.2, List.getElem?_eq_getElem hi] at h1
        rw [List.getElem?_eq_getElem j.2, List.getElem?_eq_getElem hj] at h2
        simp only [Option.map_some, Option.some.injEq] at h1 h2
        simp only [List.get_eq_getElem] at hij
        rw [h1, h2, Prod.mk.injEq] at hij
        obtain ⟨hc, ht⟩ := hij
        rw [ht] at hc
        have mono : ∀ a b, a ≤ b → (pairs.take a).countP (fun q => q.2 == pairs[j.1].2) ≤
            (pairs.take b).countP (fun q => q.2 == pairs[j.1].2) := by
          intro a b hab
          exact (List.take_sublist_take_left hab).countP_le
        rcases Nat.lt_trichotomy i.1 j.1 with h | h | h
        · have l1 := hlt i.1 hi
          rw [ht] at l1
          have l2 := mono (i.1 + 1) j.1 h
          omega
        · exact Fin.ext h
        · have l1 := hlt j.1 hj
          have l2 := mono (j.1 + 1) i.1 h
          omega
      have hwnd : (writes.map Prod.fst).Nodup := by
        rw [(hW.map Prod.fst).nodup_iff, hposW]; exact hposnd
      have hWmem : ∀ w, w ∈ writes ↔ ∃ k, ∃ hk : k < pairs.length, ∃ d, A.select pairs[k].1 pairs[k].2 (-1) = some d ∧
          w = (((pairs.take k).countP (fun q => q.2 == pairs[k].2), pairs[k].2),
            (⟨some pairs[k].1, A.form d (A.testShapeset pairs[k].1) (A.trialShapeset pairs[k].2) pairs[k].1
              pairs[k].2⟩ : CacheCell K)) := by
        intro w
        rw [hW.mem_iff, List.mem_map]
        constructor
        · rintro ⟨x, hx, rfl⟩
          obtain ⟨k, hk, rfl⟩ := List.mem_iff_getElem.mp hx
          have hk' : k < pairs.length := hLlen ▸ hk
          obtain ⟨d, hd, hx⟩ := hLk k hk'
          rw [List.getElem?_eq_getElem hk, Option.some.injEq] at hx
          exact ⟨k, hk', d, hd, by rw [hx]⟩
        · rintro ⟨k, hk, d, hd, rfl⟩
          obtain ⟨d', hd', hx⟩ := hLk k hk
          rw [hd, Option.some.injEq] at hd'
          subst hd'
          exact ⟨_, List.mem_of_getElem? hx, rfl⟩
      have hwb : ∀ w ∈ writes, w.1.1 < maxNeighbourCount pairs ∧ w.1.2 < A.trialGrid.elementCount := by
        intro w hw
        obtain ⟨k, hk, d, -, rfl⟩ := (hWmem w).mp hw
        refine ⟨?_, (hrange _ (List.getElem_mem hk)).2⟩
        refine lt_of_lt_of_le (hlt k hk) (le_trans ?_ (maxNeighbourCount_ge pairs hs2 pairs[k].2))
        exact (List.take_sublist _ _).countP_le
      obtain ⟨c, hc, hrows, hcols, hcell, hother⟩ := foldlM_write writes
        (⟨maxNeighbourCount pairs, A.trialGrid.elementCount, fun _ _ => ⟨none, ⟨0, 0, fun _ _ => 0⟩⟩⟩ : Cache K) hwnd hwb
      refine ⟨c, hc, ?_, ?_⟩
      · intro e t
        rw [Cache.lookup, Option.isSome_map, List.find?_isSome]
        simp only [true_and, hid]
        rw [← hmem]
        constructor
        · rintro ⟨n, -, hn⟩
          simp only [decide_eq_true_eq] at hn
          by_cases hin : (n, t) ∈ writes.map Prod.fst
          · obtain ⟨w, hw, hwe⟩ := List.mem_map.mp hin
            have := hcell w hw
            rw [hwe] at this
            rw [this] at hn
            obtain ⟨k, hk, d, -, rfl⟩ := (hWmem w).mp hw
            simp only [Prod.mk.injEq, Option.some.injEq] at hwe hn
            rw [← hn, ← hwe.2]
            exact List.getElem_mem hk
          · rw [hother n t hin] at hn
            simp at hn
        · intro hin
          obtain ⟨k, hk, hke⟩ := List.mem_iff_getElem.mp hin
          obtain ⟨d, hd, -⟩ := hLk k hk
          have hw := (hWmem _).mpr ⟨k, hk, d, hd, rfl⟩
          have hb := hwb _ hw
          have hcl := hcell _ hw
          rw [hke] at hcl hb
          refine ⟨(pairs.take k).countP (fun q => q.2 == t), ?_, ?_⟩
          · rw [List.mem_range, hrows]; exact hb.1
          · rw [decide_eq_true_eq, hcl]
      · intro e t m hm
        rw [Cache.lookup, Option.map_eq_some_iff] at hm
        obtain ⟨n, hn, rfl⟩ := hm
        have hn' := List.find?_some hn
        simp only [decide_eq_true_eq] at hn'
        by_cases hin : (n, t) ∈ writes.map Prod.fst
        · obtain ⟨w, hw, hwe⟩ := List.mem_map.mp hin
          have := hcell w hw
          rw [hwe] at this
          rw [this] at hn' ⊢
          obtain ⟨k, hk, d, hd, rfl⟩ := (hWmem w).mp hw
          simp only [Prod.mk.injEq, Option.some.injEq] at hwe hn'
          rw [hn', hwe.2] at hd
          rw [Assembler.integrals, hd]
          simp only [hn', hwe.2]
          rfl
        · rw [hother n t hin] at hn'
          simp at hn'

/-- With a cache as the constructor leaves it, an answer of the cache is right for every nominal distance. -/
theorem lookup_integrals (A : Assembler D S K) (hA : A.Ready) (caching : Bool) (c : Cache K)
    (hr : A.Constructed caching (some c)) (e t : Nat) (m : Mx K) (hm : c.lookup e t = some m) (nominal : ℝ) :
    A.integrals e t nominal = some m := by
  obtain ⟨c', hc, h1, h2⟩ := C64_cache A hA caching _ hr
  cases hc
  obtain ⟨-, hid, he, ht, htouch⟩ := (h1 e t).mp (by rw [hm]; rfl)
  have := h2 e t m hm
  rw [Assembler.integrals, hA.adjacent hid e he t (by rw [hA.same hid]; exact ht) htouch]
  exact this

/-- **C64 (several elements with one).**  For every list of elements A, every element B, every local function of B (or all
of them), every previous content of the result and every order in which the groups are processed, the call returns the
integrals of each pair, or the column or row of them that was asked for. -/
theorem C64_list (A : Assembler D S K) (hA : A.Ready) (caching : Bool) (c : Cache K)
    (hr : A.Constructed caching (some c)) (variant : CallVariant) (elementsA : List Nat) (elementB : Nat)
    (hrange : ∀ a ∈ elementsA, (testTrial variant a elementB).1 < A.testGrid.elementCount ∧
      (testTrial variant a elementB).2 < A.trialGrid.elementCount)
    (dofB : Option Nat) (nominal : ℝ) (order : List (Option (D × S)))
    (hord : ∀ vs, A.listVariants c variant elementsA elementB nominal = some vs → ∀ v ∈ vs, v ∈ order)
    (init : Nat → Mx K) :
    ∃ r, A.evaluateList c variant elementsA elementB dofB nominal order init = some r ∧
      ∀ i, (hi : i < elementsA.length) → ∃ m,
        A.integrals (testTrial variant elementsA[i] elementB).1 (testTrial variant elementsA[i] elementB).2 nominal = some m ∧
        r i = slice variant dofB m := by
  obtain ⟨vs, hvs⟩ : ∃ vs, A.listVariants c variant elementsA elementB nominal = some vs := by
    apply mapM_isSome
    intro a ha
    simp only
    split
    · rfl
    · rw [Option.isSome_map]
      exact hA.selects _ (hrange a ha).1 _ (hrange a ha).2 _
  refine ⟨_, by rw [Assembler.evaluateList, hvs]; rfl, ?_⟩
  intro i hi
  have hvi := getElem?_mapM _ _ _ hvs
  dsimp only
  rw [runBatches_spec]
  rotate_left
  · intro j hj
    have hj := List.mem_range.mp hj
    have := hvi j
    rw [List.getElem?_eq_getElem hj] at this
    simp only [Option.bind_some] at this
    cases hv : vs[j]? with
    | none =>
      rw [hv] at this
      exfalso
      obtain ⟨d, hd⟩ := Option.isSome_iff_exists.mp (hA.selects _ (hrange _ (List.getElem_mem hj)).1 _
        (hrange _ (List.getElem_mem hj)).2 nominal)
      rw [hd] at this
      split at this <;> simp at this
    | some v => exact hord vs hvs v (List.mem_of_getElem? hv)
  · exact List.mem_range.mpr hi
  have hvi := hvi i
  rw [List.getElem?_eq_getElem hi] at hvi
  simp only [Option.bind_some] at hvi
  have hget : elementsA.getD i 0 = elementsA[i] := by
    rw [List.getD_eq_getElem?_getD, List.getElem?_eq_getElem hi]; rfl
  rw [hvi]
  simp only [hget, hi, if_true]
  cases hl : c.lookup (testTrial variant elementsA[i] elementB).1 (testTrial variant elementsA[i] elementB).2 with
  | some m =>
    simp only [hl, Option.join_some]
    exact ⟨m, lookup_integrals A hA caching c hr _ _ m hl nominal, rfl⟩
  | none =>
    obtain ⟨d, hd⟩ := Option.isSome_iff_exists.mp (hA.selects _ (hrange _ (List.getElem_mem hi)).1 _
        (hrange _ (List.getElem_mem hi)).2 nominal)
    simp only [hd, Option.map_some, Option.join_some]
    refine ⟨_, by rw [Assembler.integrals, hd]; rfl, ?_⟩
    cases variant <;> rfl

theorem mem_grid2 (rows cols : Nat) (x : Nat × Nat) : x ∈ grid2 rows cols ↔ x.1 < rows ∧ x.2 < cols := by
  simp only [grid2, List.mem_flatMap, List.mem_range, List.mem_map]
  constructor
  · rintro ⟨j, hj, i, hi, rfl⟩; exact ⟨hi, hj⟩
  · rintro ⟨hi, hj⟩; exact ⟨x.2, hj, x.1, hi, rfl⟩

/-- **C64 (several with several).**  The same for all pairs of two lists of elements. -/
theorem C64_array (A : Assembler D S K) (hA : A.Ready) (caching : Bool) (c : Cache K)
    (hr : A.Constructed caching (some c)) (tests trials : List Nat) (htests : ∀ e ∈ tests, e < A.testGrid.elementCount)
    (htrials : ∀ t ∈ trials, t < A.trialGrid.elementCount) (nominal : ℝ) (order : List (Option (D × S × S)))
    (hord : ∀ e ∈ tests, ∀ t ∈ trials, ∀ v, A.pairVariant c nominal e t = some v → v ∈ order)
    (init : Nat × Nat → Mx K) :
    ∃ r, A.evaluate2d c tests trials nominal order init = some r ∧
      ∀ i j, (hi : i < tests.length) → (hj : j < trials.length) →
        A.integrals tests[i] trials[j] nominal = some (r (i, j)) := by
  have hget1 : ∀ i, (hi : i < tests.length) → tests.getD i 0 = tests[i] := by
    intro i hi; rw [List.getD_eq_getElem?_getD, List.getElem?_eq_getElem hi]; rfl
  have hget2 : ∀ i, (hi : i < trials.length) → trials.getD i 0 = trials[i] := by
    intro i hi; rw [List.getD_eq_getElem?_getD, List.getElem?_eq_getElem hi]; rfl
  have hsome : ∀ i j, (hi : i < tests.length) → (hj : j < trials.length) →
      (A.pairVariant c nominal tests[i] trials[j]).isSome := by
    intro i j hi hj
    unfold Assembler.pairVariant
    split
    · rfl
    · rw [Option.isSome_map]
      exact hA.selects _ (htests _ (List.getElem_mem hi)) _ (htrials _ (List.getElem_mem hj)) _
  refine ⟨_, by
    rw [Assembler.evaluate2d, if_pos]
    rw [List.all_eq_true]
    intro x hx
    obtain ⟨h1, h2⟩ := (mem_grid2 _ _ _).mp hx
    simp only [hget1 _ h1, hget2 _ h2]
    exact hsome _ _ h1 h2, ?_⟩
  intro i j hi hj
  rw [runBatches_spec]
  rotate_left
  · intro x hx
    obtain ⟨h1, h2⟩ := (mem_grid2 _ _ _).mp hx
    simp only [hget1 _ h1, hget2 _ h2]
    obtain ⟨v, hv⟩ := Option.isSome_iff_exists.mp (hsome _ _ h1 h2)
    rw [hv]
    exact hord _ (List.getElem_mem h1) _ (List.getElem_mem h2) v hv
  · exact (mem_grid2 _ _ _).mpr ⟨hi, hj⟩
  simp only [hget1 _ hi, hget2 _ hj]
  rw [if_pos ((mem_grid2 _ _ _).mpr ⟨hi, hj⟩)]
  unfold Assembler.pairVariant
  cases hl : c.lookup tests[i] trials[j] with
  | some m =>
    simp only [Option.join_some]
    exact lookup_integrals A hA caching c hr _ _ m hl nominal
  | none =>
    obtain ⟨d, hd⟩ := Option.isSome_iff_exists.mp (hA.selects _ (htests _ (List.getElem_mem hi)) _
      (htrials _ (List.getElem_mem hj)) nominal)
    simp only [hd, Option.map_some, Option.join_some]
    rw [Assembler.integrals, hd]
    rfl

/-- **C64 (one pair).** -/
theorem C64_single (A : Assembler D S K) (hA : A.Ready) (caching : Bool) (c : Cache K)
    (hr : A.Constructed caching (some c)) (e t : Nat) (he : e < A.testGrid.elementCount)
    (ht : t < A.trialGrid.elementCount) (nominal : ℝ) (order : List (Option (D × S × S)))
    (hord : ∀ v, A.pairVariant c nominal e t = some v → v ∈ order) :
    ∃ m, A.evaluateSingle c e t nominal order = some m ∧ A.integrals e t nominal = some m := by
  obtain ⟨r, h1, h2⟩ := C64_array A hA caching c hr [e] [t] (by simpa using he) (by simpa using ht) nominal order
    (by simpa using hord) (fun _ => ⟨0, 0, fun _ _ => 0⟩)
  exact ⟨r (0, 0), by rw [Assembler.evaluateSingle, h1]; rfl, h2 0 0 (by simp) (by simp)⟩

/-- **C64 (a list of pairs).**  Lists of different lengths are refused; otherwise each result belongs to its pair. -/
theorem C64_paired (A : Assembler D S K) (hA : A.Ready) (caching : Bool) (c : Cache K)
    (hr : A.Constructed caching (some c)) (tests trials : List Nat) (htests : ∀ e ∈ tests, e < A.testGrid.elementCount)
    (htrials : ∀ t ∈ trials, t < A.trialGrid.elementCount) (nominal : ℝ) (order : Nat → List (Option (D × S × S)))
    (hord : ∀ (i e t : Nat) v, tests[i]? = some e → trials[i]? = some t → A.pairVariant c nominal e t = some v → v ∈ order i) :
    (tests.length ≠ trials.length → A.evaluatePaired c tests trials nominal order = none) ∧
    (tests.length = trials.length → ∃ r, A.evaluatePaired c tests trials nominal order = some r ∧
      r.length = tests.length ∧ ∀ (i e t : Nat) (m : Mx K), tests[i]? = some e → trials[i]? = some t → r[i]? = some m →
        A.integrals e t nominal = some m) := by
  refine ⟨fun h => by rw [Assembler.evaluatePaired, if_pos h], fun h => ?_⟩
  have key : ∀ i, (hi : i < tests.length) → ∃ m,
      A.evaluateSingle c (tests.getD i 0) (trials.getD i 0) nominal (order i) = some m ∧
      A.integrals (tests.getD i 0) (trials.getD i 0) nominal = some m := by
    intro i hi
    have hi' : i < trials.length := h ▸ hi
    rw [List.getD_eq_getElem?_getD, List.getElem?_eq_getElem hi, List.getD_eq_getElem?_getD,
      List.getElem?_eq_getElem hi']
    exact C64_single A hA caching c hr _ _ (htests _ (List.getElem_mem hi)) (htrials _ (List.getElem_mem hi')) nominal
      (order i) (fun v hv => hord i _ _ v (List.getElem?_eq_getElem hi) (List.getElem?_eq_getElem hi') hv)
  obtain ⟨r, hrr⟩ : ∃ r, A.evaluatePaired c tests trials nominal order = some r := by
    rw [Assembler.evaluatePaired, if_neg (by simp [h])]
    apply mapM_isSome
    intro i hi
    obtain ⟨m, hm, -⟩ := key i (List.mem_range.mp hi)
    rw [hm]; rfl
  refine ⟨r, hrr, ?_, ?_⟩
  · rw [Assembler.evaluatePaired, if_neg (by simp [h])] at hrr
    have hk := getElem?_mapM _ _ _ hrr
    by_contra hne
    rcases Nat.lt_or_gt_of_ne hne with hlt | hgt
    · have := hk r.length
      rw [List.getElem?_eq_none (Nat.le_refl _), List.getElem?_range hlt] at this
      obtain ⟨m, hm, -⟩ := key _ hlt
      simp only [Option.bind_some, hm] at this
      simp at this
    · have := hk tests.length
      rw [List.getElem?_eq_getElem hgt, List.getElem?_eq_none (by simp)] at this
      simp at this
  · intro i e t m he ht hm
    rw [Assembler.evaluatePaired, if_neg (by simp [h])] at hrr
    have hk := getElem?_mapM _ _ _ hrr i
    obtain ⟨hi, -⟩ := List.getElem?_eq_some_iff.mp he
    rw [hm, List.getElem?_range hi] at hk
    obtain ⟨m', hm', hint⟩ := key i hi
    simp only [Option.bind_some, hm', Option.some.injEq] at hk
    subst hk
    rw [List.getD_eq_getElem?_getD, he, List.getD_eq_getElem?_getD, ht] at hint
    exact hint

/-- There is a run of the constructor. -/
theorem constructed_exists (A : Assembler D S K) (caching : Bool) : ∃ r, A.Constructed caching r := by
  unfold Assembler.Constructed
  split
  · split
    · exact ⟨none, rfl⟩
    · rename_i pairs _
      unfold Assembler.CacheRun
      split
      · exact ⟨_, rfl⟩
      · split
        · exact ⟨none, rfl⟩
        · rename_i variants _
          exact ⟨_, variants.dedup, _, variants.nodup_dedup, fun v => List.mem_dedup, List.Perm.refl _, rfl⟩
  · exact ⟨_, rfl⟩

end

/-! ### With the default selector -/

/-- An assembler with the default selector of descriptors. -/
noncomputable def defaultAssembler {S K : Type} (s : Selector) (vertexCount : Nat) (testShapeset trialShapeset : Nat → S)
    (form : Descriptor → S → S → Nat → Nat → Mx K) : Assembler Descriptor S K :=
  ⟨s.test, s.trial, vertexCount, s.identical, testShapeset, trialShapeset, s.descriptor, form⟩

/-- **C64 (default selector).**  The default selector meets the assumptions: on a grid of triangles, and on two different
grids, with accuracy options that serve every distance. -/
theorem C64_default_ready {S K : Type} (s : Selector) (vertexCount : Nat) (testShapeset trialShapeset : Nat → S)
    (form : Descriptor → S → S → Nat → Nat → Mx K) (hserve : Serves s.doubleRegular)
    (hgrid : s.identical = true → s.trial = s.test ∧ s.test.Triangular ∧ ValidCorners s.test vertexCount) :
    (defaultAssembler s vertexCount testShapeset trialShapeset form).Ready where
  same h := (hgrid h).1
  corners h := (hgrid h).2.2
  selects e he t ht nominal := by
    show (s.descriptor e t nominal).isSome
    cases hid : s.identical with
    | false =>
      obtain ⟨D, -, hD, -⟩ := C63_two_grids s hid hserve e t nominal
      rw [hD]; rfl
    | true =>
      obtain ⟨h1, h2, -⟩ := hgrid hid
      have ht' : t < s.test.elementCount := by
        have : t < s.trial.elementCount := ht
        rwa [h1] at this
      obtain ⟨D, hD, -⟩ := C63_descriptor s hid h1 h2 hserve e t he ht' nominal
      rw [hD]; rfl
  adjacent hid e he t ht htouch nominal := by
    obtain ⟨h1, h2, -⟩ := hgrid hid
    have ht' : t < s.test.elementCount := by
      have : t < s.trial.elementCount := ht
      rwa [h1] at this
    obtain ⟨D, hD, h3, -⟩ := C63_descriptor s hid h1 h2 hserve e t he ht' nominal
    show s.descriptor e t nominal = s.descriptor e t (-1)
    rw [(h3 htouch).2.2.2 (-1), hD]

/-! ### Examples -/

/-- A ready assembler on a grid with touching and distant triangles. -/
noncomputable def exampleAssembler : Assembler Descriptor Nat Int :=
  defaultAssembler ⟨threeTriangles, threeTriangles, true, fun _ => 1, fun _ => 0, [(⊤, {})], {}⟩ 7 id (fun _ => 0)
    fun d s _ e t => ⟨1, 1, fun _ _ => d.testOrder + 10 * s + 100 * e + 1000 * t⟩

theorem exampleAssembler_ready : exampleAssembler.Ready :=
  C64_default_ready _ _ _ _ _ serves_default fun _ => ⟨rfl, threeTriangles_triangular, by
    intro e he
    have h : e = 0 ∨ e = 1 ∨ e = 2 := by
      have : e < 3 := he
      omega
    rcases h with rfl | rfl | rfl <;> simp [threeTriangles]⟩

/-- Its constructor fills the cache for elements 0 and 1, which share an edge, but not for 0 and 2. -/
example : ∃ c, exampleAssembler.Constructed true (some c) ∧ (c.lookup 0 1).isSome ∧ ¬ (c.lookup 0 2).isSome := by
  obtain ⟨r, hr⟩ := constructed_exists exampleAssembler true
  obtain ⟨c, rfl, h, -⟩ := C64_cache _ exampleAssembler_ready true r hr
  refine ⟨c, hr, (h 0 1).mpr ⟨rfl, rfl, by decide, by decide, 1, by decide, by decide⟩, ?_⟩
  rw [h 0 2]
  rintro ⟨-, -, -, -, v, h1, h2⟩
  simp [exampleAssembler, defaultAssembler, threeTriangles] at h1 h2
  omega

end Verif.LocalAsm
