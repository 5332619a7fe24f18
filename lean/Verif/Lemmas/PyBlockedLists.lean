import Verif.Lemmas.PyBlockedBoundary2
/-
Lemmas for C87 and C88: vectors of several grid functions.
-/
namespace Verif.PyOp
noncomputable section

theorem assign_exact (x : Arr) (start n : Nat) (v : Arr) (h : v.rows = n) : ∃ y, x.assign start n v = .ok y ∧ y.twoD = x.twoD ∧
    y.rows = x.rows ∧ y.cols = x.cols ∧ y.complex = x.complex ∧ (∀ p, p < start ∨ start + n ≤ p → y.e p 0 = x.e p 0) ∧
    ∀ q < n, y.e (start + q) 0 = v.e q 0 := by
  unfold Arr.assign
  rw [if_pos (Or.inl h)]
  refine ⟨_, rfl, rfl, rfl, rfl, rfl, fun p hp => ?_, fun q hq => ?_⟩
  · dsimp only
    rw [if_neg (by omega)]
  · dsimp only
    rw [if_pos (by omega)]
    split
    · have : q = 0 := by omega
      rw [this]
    · rw [Nat.add_sub_cancel_left]

theorem assignAll_ok : ∀ (dims : List Nat) (vs : List Arr) (x : Arr) (pos : Nat), vs.map (·.rows) = dims →
    ∃ y, assignAll x pos dims vs = .ok y ∧ y.twoD = x.twoD ∧ y.rows = x.rows ∧ y.cols = x.cols ∧ y.complex = x.complex ∧
      (∀ p < pos, y.e p 0 = x.e p 0) ∧
      ∀ j v, vs[j]? = some v → ∀ q < dims.getD j 0, y.e (pos + (offset dims j + q)) 0 = v.e q 0
  | [], vs, x, pos, h => ⟨x, by cases vs <;> rfl, rfl, rfl, rfl, rfl, fun _ _ => rfl, fun j v hv => by
      rw [List.map_eq_nil_iff] at h
      subst h
      simp at hv⟩
  | d :: ds, [], x, pos, h => by simp at h
  | d :: ds, v :: vs, x, pos, h => by
    rw [List.map_cons, List.cons.injEq] at h
    obtain ⟨y, hy1, hy2, hy3, hy4, hy5, hy6, hy7⟩ := assign_exact x pos d v h.1
    obtain ⟨z, hz1, hz2, hz3, hz4, hz5, hz6, hz7⟩ := assignAll_ok ds vs y (pos + d) h.2
    refine ⟨z, ?_, hz2.trans hy2, hz3.trans hy3, hz4.trans hy4, hz5.trans hy5, fun p hp => ?_, fun j u hu q hq => ?_⟩
    · rw [assignAll, hy1, ok_bind, hz1]
    · rw [hz6 p (by omega), hy6 p (Or.inl hp)]
    · cases j with
      | zero =>
        simp only [List.getElem?_cons_zero, Option.some.injEq] at hu
        subst hu
        simp only [List.getD_cons_zero] at hq
        rw [offset_zero, Nat.zero_add, hz6 _ (by omega), hy7 q hq]
      | succ j =>
        rw [List.getElem?_cons_succ] at hu
        rw [List.getD_cons_succ] at hq
        have := hz7 j u hu q hq
        rw [offset_cons, ← this]
        congr 1
        omega

theorem splitAll_get (x : Arr) : ∀ (dims : List Nat) (pos i : Nat), (splitAll x pos dims)[i]? =
    (dims[i]?).map fun d => x.part (pos + offset dims i) d
  | [], pos, i => by simp [splitAll]
  | d :: ds, pos, 0 => by simp [splitAll, offset_zero]
  | d :: ds, pos, i + 1 => by
    rw [splitAll, List.getElem?_cons_succ, splitAll_get x ds (pos + d) i, List.getElem?_cons_succ, offset_cons]
    congr 1
    funext e
    congr 1
    omega

theorem splitAll_length (x : Arr) : ∀ (dims : List Nat) (pos : Nat), (splitAll x pos dims).length = dims.length
  | [], _ => rfl
  | d :: ds, pos => by rw [splitAll, List.length_cons, splitAll_length x ds, List.length_cons]

theorem getElem?_getD {l : List Nat} {i : Nat} (hi : i < l.length) : l[i]? = some (l.getD i 0) := by
  simp [hi]

/-- A part within the array. -/
theorem part_ok (x : Arr) {dims : List Nat} (hx : x.rows = dims.sum) {i : Nat} (hi : i < dims.length) :
    (x.part (offset dims i) (dims.getD i 0)).rows = dims.getD i 0 := by
  have h1 := offset_mono dims (i := i + 1) (j := dims.length) hi
  rw [offset_succ, offset_length] at h1
  simp only [Arr.part, hx]
  omega

/-- A matrix-vector product, block by block. -/
theorem product_blocks {rd cd : List Nat} {M : Matrix (Fin rd.sum) (Fin cd.sum) ℂ} {x y : Arr} (h : IsProduct M x y) (hx : 0 < x.cols)
    {i k : Nat} (hi : i < rd.length) (hk : k < rd.getD i 0) : y.e (offset rd i + k) 0 =
      ∑ j ∈ Finset.range cd.length, ∑ q ∈ Finset.range (cd.getD j 0), tableOf M (offset rd i + k) (offset cd j + q) * x.e (offset cd j + q) 0 := by
  rw [← toM_tableOf M] at h
  rw [h.entry (offset_le rd hi hk) hx]
  have := sum_blocks (fun t => tableOf M (offset rd i + k) t * x.e t 0) cd 0
  simp only [Nat.zero_add] at this
  rw [this]

theorem mapM_ok_list {α β : Type} {f : α → Res β} : ∀ (l : List α), (∀ a ∈ l, ∃ b, f a = .ok b) → ∃ bs, l.mapM f = .ok bs ∧
    bs.length = l.length ∧ ∀ (i : Nat) b, bs[i]? = some b → ∃ a, l[i]? = some a ∧ f a = .ok b
  | [], _ => ⟨[], rfl, rfl, fun i b hb => (by simp at hb)⟩
  | a :: l, h => by
    obtain ⟨b, hb⟩ := h a (by simp)
    obtain ⟨bs, h1, h2, h3⟩ := mapM_ok_list l (fun a ha => h a (by simp [ha]))
    refine ⟨b :: bs, by rw [List.mapM_cons, hb, ok_bind, h1, ok_bind]; rfl, by simp [h2], fun i c hc => ?_⟩
    cases i with
    | zero =>
      simp only [List.getElem?_cons_zero, Option.some.injEq] at hc
      exact ⟨a, by simp, by rw [hb, hc]⟩
    | succ i =>
      rw [List.getElem?_cons_succ] at hc ⊢
      exact h3 i c hc

theorem applyList_ok {core : Core} {b : BNode} {weak : BOp} {rs ds cs : List Space} (h1 : b.range = rs.map some)
    (h2 : b.dualToRange = ds.map some) (h3 : b.domain = cs.map some) (hl : rs.length = ds.length) (h0 : cs ≠ [])
    {M : Matrix (Fin (ds.map core.dofs).sum) (Fin (cs.map core.dofs).sum) ℂ} (hw1 : weak.rowDims = ds.map core.dofs)
    (hw2 : weak.colDims = cs.map core.dofs) (hw3 : BActs weak M) (fs : List (Space × Arr))
    (hf : fs.map (fun f => f.2.rows) = cs.map core.dofs)
    (v : Nat → Nat → ℂ) (hv : ∀ (j : Nat) f, fs[j]? = some f → ∀ q < f.2.rows, f.2.e q 0 = v j q) :
    ∃ gs, applyList b weak fs = .ok gs ∧ gs.length = rs.length ∧ ∀ (i : Nat) g, gs[i]? = some g →
      g.space = rs.getD i 0 ∧ g.dual = ds.getD i 0 ∧ g.coeffs = none ∧ g.primal = false ∧ ∃ p, g.duals = some p ∧ p.twoD = false ∧
        p.cols = 1 ∧ p.rows = core.dofs (ds.getD i 0) ∧ ∀ k < core.dofs (ds.getD i 0), p.e k 0 = ∑ j ∈ Finset.range cs.length,
          ∑ q ∈ Finset.range (core.dofs (cs.getD j 0)),
            tableOf M (offset (ds.map core.dofs) i + k) (offset (cs.map core.dofs) j + q) * v j q := by
  have hlen : fs.length = cs.length := by have := congrArg List.length hf; simpa using this
  unfold applyList
  rw [h3, List.length_map, if_neg (by omega), if_neg (by
    intro hh
    rw [hlen, List.length_eq_zero_iff] at hh
    exact h0 hh)]
  obtain ⟨x, hx1, hx2, hx3, hx4, hx5, -, hx7⟩ := assignAll_ok (cs.map core.dofs) (fs.map (·.2))
    ⟨false, (cs.map core.dofs).sum, 1, fs.any (·.2.complex), fun _ _ => 0⟩ 0 (by rw [List.map_map]; exact hf)
  rw [hw3.1, hw2, hx1, ok_bind]
  obtain ⟨y, hy1, hy2⟩ := (hw3.2 x hx3 (by rw [hx4]) (fun _ => hx4)).1
  rw [hy1, ok_bind, hw1]
  have hyr : y.rows = (ds.map core.dofs).sum := hy2.2.1
  have hzip : ∀ i, i < rs.length → ((splitAll y 0 (ds.map core.dofs)).zip (b.range.zip b.dualToRange))[i]? =
      some (y.part (offset (ds.map core.dofs) i) (core.dofs (ds.getD i 0)), some (rs.getD i 0), some (ds.getD i 0)) := by
    intro i hi
    rw [List.getElem?_zip_eq_some]
    refine ⟨?_, ?_⟩
    · rw [splitAll_get, getElem?_getD (by simp; omega), getD_map_dofs _ _ (by omega), Option.map_some, Nat.zero_add]
    · rw [List.getElem?_zip_eq_some, h1, h2]
      constructor
      · simp [hi]
      · simp [show i < ds.length by omega]
  have hzl : ((splitAll y 0 (ds.map core.dofs)).zip (b.range.zip b.dualToRange)).length = rs.length := by
    rw [List.length_zip, List.length_zip, splitAll_length, h1, h2, List.length_map, List.length_map, List.length_map]
    omega
  obtain ⟨gs, hg1, hg2, hg3⟩ := mapM_ok_list (f := fun (p : Arr × Option Space × Option Space) => (match p.2.1, p.2.2 with
      | some r, some d => GF.new r (some d) none none (some p.1)
      | _, _ => .error .AttributeError : Res GF)) ((splitAll y 0 (ds.map core.dofs)).zip (b.range.zip b.dualToRange)) (by
    intro a ha
    obtain ⟨i, hi, rfl⟩ := List.getElem_of_mem ha
    have h5 := hzip i (by rw [hzl] at hi; exact hi)
    rw [List.getElem?_eq_getElem hi, Option.some.injEq] at h5
    rw [h5]
    exact ⟨_, rfl⟩)
  refine ⟨gs, hg1, by rw [hg2, hzl], fun i g hg => ?_⟩
  have hi : i < rs.length := by
    have : i < gs.length := by
      by_contra hh
      rw [List.getElem?_eq_none (by omega)] at hg
      cases hg
    rw [hg2, hzl] at this
    exact this
  obtain ⟨a, ha1, ha2⟩ := hg3 i g hg
  rw [hzip i hi, Option.some.injEq] at ha1
  subst ha1
  dsimp only at ha2
  cases ha2
  have hi' : i < (ds.map core.dofs).length := by rw [List.length_map]; omega
  have hdd := getD_map_dofs (core := core) ds i (by omega)
  refine ⟨rfl, rfl, rfl, rfl, _, rfl, rfl, rfl, ?_, fun k hk => ?_⟩
  · have := part_ok y hyr hi'
    rw [hdd] at this
    exact this
  · show y.e (offset (ds.map core.dofs) i + k) 0 = _
    rw [product_blocks hy2 (by rw [hx4]; exact Nat.one_pos) hi' (by rw [hdd]; exact hk), List.length_map]
    refine Finset.sum_congr rfl fun j hj => ?_
    rw [Finset.mem_range] at hj
    rw [getD_map_dofs _ _ hj]
    refine Finset.sum_congr rfl fun q hq => ?_
    rw [Finset.mem_range] at hq
    have hjf : j < fs.length := by omega
    have h6 := hx7 j fs[j].2 (by simp [hjf]) q (by rw [getD_map_dofs _ _ hj]; exact hq)
    rw [Nat.zero_add] at h6
    rw [h6]
    have h7 : fs[j].2.rows = core.dofs (cs.getD j 0) := by
      have := congrArg (fun l => l.getD j 0) hf
      rw [getD_map_dofs _ _ hj] at this
      rw [← this]
      simp [hjf]
    rw [hv j fs[j] (by simp [hjf]) q (by rw [h7]; exact hq)]

end

end Verif.PyOp
