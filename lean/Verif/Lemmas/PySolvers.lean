import Verif.Spec.PySolvers
import Verif.Lemmas.PyBlockedLists
import Verif.Lemmas.PyBoundary2
import Verif.Lemmas.PyGridFunction
/-
Lemmas for C88.
-/
namespace Verif.PyOp
noncomputable section

/-- What a reliable solver returns. -/
theorem scipy_reliable {tol : ℝ} {solver : Solver} (hr : Reliable tol solver) {shape : Nat × Nat} {mv : Arr → Res Arr} {r c : Nat}
    {M : Matrix (Fin r) (Fin c) ℂ} (hs : shape = (r, c))
    (hmv : ∀ x : Arr, x.rows = c → x.cols = 1 → ∃ y, mv x = .ok y ∧ IsProduct M x y) {b : Arr} (hb : b.twoD = false) {s : Iterations}
    (h : scipy solver shape mv b = .ok s) : r = c ∧ b.rows = r ∧ VecOf s.x c ∧
      (s.info = 0 → Within tol r (fun k => ∑ q ∈ Finset.range c, tableOf M k q * s.x.e q 0) fun k => b.e k 0) := by
  subst hs
  unfold scipy at h
  dsimp only at h
  split_ifs at h with h1 h2
  · rw [not_not] at h1
    subst h1
    obtain ⟨h3, h4⟩ := hr r M mv b s hmv ⟨hb, h2.1, h2.2⟩ h
    refine ⟨rfl, h2.1, h3, fun hi => ?_⟩
    obtain ⟨y, hy, hw⟩ := h4 hi
    obtain ⟨y', hy', hp⟩ := hmv s.x h3.2.1 h3.2.2
    rw [hy] at hy'
    cases hy'
    rw [← toM_tableOf M] at hp
    unfold Within at hw ⊢
    refine le_of_eq_of_le (Finset.sum_congr rfl fun k hk => ?_) hw
    dsimp only
    rw [hp.entry (Finset.mem_range.mp hk) (by rw [h3.2.2]; exact Nat.one_pos)]

theorem ravel_vec {x : Arr} {n : Nat} (h : VecOf x n) : VecIs x.ravel n fun k => x.e k 0 := by
  refine ⟨rfl, ?_, rfl, fun i _ => ?_⟩
  · show x.rows * x.cols = n
    rw [h.2.1, h.2.2, Nat.mul_one]
  · show x.e (i / x.cols) (i % x.cols) = x.e i 0
    rw [h.2.2, Nat.div_one, Nat.mod_one]

theorem within_zero {n : Nat} {v w : Nat → ℂ} (h : Within 0 n v w) : ∀ k < n, v k = w k := by
  intro k hk
  unfold Within at h
  have h0 : ∑ k ∈ Finset.range n, ‖v k - w k‖ ^ 2 = 0 := le_antisymm (by simpa using h) (Finset.sum_nonneg fun _ _ => sq_nonneg _)
  have := (Finset.sum_eq_zero_iff_of_nonneg (fun _ _ => sq_nonneg _)).mp h0 k (Finset.mem_range.mpr hk)
  rw [sq_eq_zero_iff, norm_eq_zero, sub_eq_zero] at this
  exact this

theorem within_congr {tol : ℝ} {n : Nat} {v w v' w' : Nat → ℂ} (h : Within tol n v w) (hv : ∀ k < n, v k = v' k)
    (hw : ∀ k < n, w k = w' k) : Within tol n v' w' := by
  unfold Within at h ⊢
  have e1 : ∑ k ∈ Finset.range n, ‖v' k - w' k‖ ^ 2 = ∑ k ∈ Finset.range n, ‖v k - w k‖ ^ 2 :=
    Finset.sum_congr rfl fun k hk => by rw [hv k (Finset.mem_range.mp hk), hw k (Finset.mem_range.mp hk)]
  have e2 : ∑ k ∈ Finset.range n, ‖w' k‖ ^ 2 = ∑ k ∈ Finset.range n, ‖w k‖ ^ 2 :=
    Finset.sum_congr rfl fun k hk => by rw [hw k (Finset.mem_range.mp hk)]
  rw [e1, e2]
  exact h

/-- The parts of a successful call. -/
theorem solveSingle_ok {core : Core} {cg : Bool} {solver : Solver} {A : Operand} {b : GF} {o : Options} {r : Solution GF}
    (h : solveSingle core cg solver A b o = .ok r) : ∃ p s c f, system core A b o.strong = .ok p ∧
      scipy solver p.1.shape p.1.matvec p.2 = .ok s ∧
      s.calls.foldlM (Counter.call o.residuals (if cg then some (p.1.apply, p.2) else none)) ⟨0, []⟩ = .ok c ∧
      GF.new A.domain none none (some s.x.ravel) none = .ok f ∧ r = .pack o f s.info c := by
  unfold solveSingle at h
  obtain ⟨p, h1, h⟩ := Res.bind_ok h
  obtain ⟨s, h2, h⟩ := Res.bind_ok h
  obtain ⟨c, h3, h⟩ := Res.bind_ok h
  obtain ⟨f, h4, h⟩ := Res.bind_ok h
  exact ⟨p, s, c, f, h1, h2, h3, h4, (Except.ok.inj h).symm⟩

theorem solveBlocked_ok {core : Core} {solver : Solver} {A : BOperand} {fs : List GF} {o : Options} {r : Solution (List GF)}
    (h : solveBlocked core solver A fs o = .ok r) : ∃ p s c cs gs, blockedSystem core A fs o.strong = .ok p ∧
      scipy solver p.1.shape p.1.matvec p.2 = .ok s ∧ s.calls.foldlM (Counter.call o.residuals none) ⟨0, []⟩ = .ok c ∧
      allSpaces A.node.domain = .ok cs ∧ listFromCoefficients core s.x.ravel cs = .ok gs ∧ r = .pack o gs s.info c := by
  unfold solveBlocked at h
  obtain ⟨p, h1, h⟩ := Res.bind_ok h
  obtain ⟨s, h2, h⟩ := Res.bind_ok h
  obtain ⟨c, h3, h⟩ := Res.bind_ok h
  obtain ⟨cs, h4, h⟩ := Res.bind_ok h
  obtain ⟨gs, h5, h⟩ := Res.bind_ok h
  exact ⟨p, s, c, cs, gs, h1, h2, h3, h4, h5, (Except.ok.inj h).symm⟩

/-- The inverse of a mass matrix with at least as many rows as columns. -/
theorem inverse_mass {core : Core} {r d : Space} (hr : (core.mass r d).rows = core.dofs d) (hc : (core.mass r d).cols = core.dofs r)
    (hf : FullRank (core.mass r d)) : ∃ X : Matrix (Fin (core.dofs r)) (Fin (core.dofs d)) ℂ,
      Denotes (.inverse (core.mass r d)) (core.dofs r) (core.dofs d) X ∧
      (core.dofs r ≤ core.dofs d → X * toM (core.dofs d) (core.dofs r) (core.mass r d).e = 1) := by
  have key : ∃ X : Matrix (Fin (core.mass r d).cols) (Fin (core.mass r d).rows) ℂ,
      Denotes (.inverse (core.mass r d)) (core.mass r d).cols (core.mass r d).rows X ∧
      ((core.mass r d).cols ≤ (core.mass r d).rows → X * toM (core.mass r d).rows (core.mass r d).cols (core.mass r d).e = 1) := by
    obtain ⟨X, h1, h2, -⟩ := mp_exists _ hf
    exact ⟨X, .inverse _ X h1, h2⟩
  rw [hr, hc] at key
  exact key

/-- A function is determined by its projections. -/
theorem proj_inverse {core : Core} {r d : Space} {X : Matrix (Fin (core.dofs r)) (Fin (core.dofs d)) ℂ}
    (hX : X * toM (core.dofs d) (core.dofs r) (core.mass r d).e = 1) (g : Nat → ℂ) (k : Fin (core.dofs r)) :
    g k = ∑ p, X k p * proj core ⟨r, g⟩ d p := by
  have h1 : (fun p : Fin (core.dofs d) => proj core ⟨r, g⟩ d p) =
      (toM (core.dofs d) (core.dofs r) (core.mass r d).e).mulVec fun j => g j := by
    funext p
    unfold proj
    dsimp only
    rw [Finset.sum_range]
    rfl
  have h2 : X.mulVec (fun p : Fin (core.dofs d) => proj core ⟨r, g⟩ d p) = fun j : Fin (core.dofs r) => g j := by
    rw [h1, Matrix.mulVec_mulVec, hX, Matrix.one_mulVec]
  exact (congrFun h2 k).symm

theorem sum_tableOf {r c : Nat} (M : Matrix (Fin r) (Fin c) ℂ) (k : Fin r) (u : Nat → ℂ) :
    ∑ q ∈ Finset.range c, tableOf M k q * u q = ∑ q, M k q * u q := by
  rw [Finset.sum_range]
  refine Finset.sum_congr rfl fun q _ => ?_
  unfold tableOf
  rw [dif_pos ⟨k.isLt, q.isLt⟩]

/-! ### Lists -/

theorem allSpaces_some (l : List Space) : allSpaces (l.map some) = .ok l := by
  unfold allSpaces
  induction l with
  | nil => rfl
  | cons a l ih =>
    rw [List.map_cons, List.mapM_cons, ih]
    rfl

/-- The right-hand side made of vectors of the lengths `dims`. -/
theorem assignAll_vec {dims : List Nat} {vs : List Arr} {z : Bool} (h : vs.map (·.rows) = dims) (w : Nat → Nat → ℂ)
    (hw : ∀ (j : Nat) v, vs[j]? = some v → ∀ q < dims.getD j 0, v.e q 0 = w j q) :
    ∃ y, assignAll ⟨false, dims.sum, 1, z, fun _ _ => 0⟩ 0 dims vs = .ok y ∧ VecOf y dims.sum ∧
      ∀ j < dims.length, ∀ q < dims.getD j 0, y.e (offset dims j + q) 0 = w j q := by
  obtain ⟨y, h1, h2, h3, h4, -, -, h7⟩ := assignAll_ok dims vs ⟨false, dims.sum, 1, z, fun _ _ => 0⟩ 0 h
  refine ⟨y, h1, ⟨h2, h3, h4⟩, fun j hj q hq => ?_⟩
  have hl : vs.length = dims.length := by rw [← h, List.length_map]
  have hj' : j < vs.length := by omega
  have := h7 j vs[j] (List.getElem?_eq_getElem hj') q hq
  rw [Nat.zero_add] at this
  rw [this, hw j vs[j] (List.getElem?_eq_getElem hj') q hq]

theorem listWithin_of {tol : ℝ} {dims : List Nat} {v w : Nat → ℂ} (h : Within tol dims.sum v w) :
    ListWithin tol dims (fun a k => v (offset dims a + k)) fun a k => w (offset dims a + k) := by
  unfold Within at h
  unfold ListWithin
  have key : ∀ f : Nat → ℝ, ∑ t ∈ Finset.range dims.sum, f t =
      ∑ j ∈ Finset.range dims.length, ∑ q ∈ Finset.range (dims.getD j 0), f (offset dims j + q) := by
    intro f
    have := sum_blocks (fun t => (f t : ℂ)) dims 0
    simp only [Nat.zero_add] at this
    exact_mod_cast this
  rw [key, key] at h
  exact h

theorem listWithin_congr {tol : ℝ} {dims : List Nat} {v w v' w' : Nat → Nat → ℂ} (h : ListWithin tol dims v w)
    (hv : ∀ a < dims.length, ∀ k < dims.getD a 0, v a k = v' a k) (hw : ∀ a < dims.length, ∀ k < dims.getD a 0, w a k = w' a k) :
    ListWithin tol dims v' w' := by
  unfold ListWithin at h ⊢
  have e1 : ∑ a ∈ Finset.range dims.length, ∑ k ∈ Finset.range (dims.getD a 0), ‖v' a k - w' a k‖ ^ 2 =
      ∑ a ∈ Finset.range dims.length, ∑ k ∈ Finset.range (dims.getD a 0), ‖v a k - w a k‖ ^ 2 :=
    Finset.sum_congr rfl fun a ha => Finset.sum_congr rfl fun k hk => by
      rw [hv a (Finset.mem_range.mp ha) k (Finset.mem_range.mp hk), hw a (Finset.mem_range.mp ha) k (Finset.mem_range.mp hk)]
  have e2 : ∑ a ∈ Finset.range dims.length, ∑ k ∈ Finset.range (dims.getD a 0), ‖w' a k‖ ^ 2 =
      ∑ a ∈ Finset.range dims.length, ∑ k ∈ Finset.range (dims.getD a 0), ‖w a k‖ ^ 2 :=
    Finset.sum_congr rfl fun a ha => Finset.sum_congr rfl fun k hk => by
      rw [hw a (Finset.mem_range.mp ha) k (Finset.mem_range.mp hk)]
  rw [e1, e2]
  exact h

/-- The functions cut out of a vector of coefficients. -/
theorem listFromCoefficients_ok {core : Core} {x : Arr} {cs : List Space} (hx : x.rows = (cs.map core.dofs).sum) :
    ∃ gs, listFromCoefficients core x cs = .ok gs ∧ gs.length = cs.length ∧ ∀ (j : Nat) g, gs[j]? = some g → g.space = cs.getD j 0 ∧
      ∃ c, (g.coefficients core).1 = .ok c ∧ VecIs c (core.dofs (cs.getD j 0)) fun q => x.e (offset (cs.map core.dofs) j + q) 0 := by
  have hzl : ((splitAll x 0 (cs.map core.dofs)).zip cs).length = cs.length := by
    rw [List.length_zip, splitAll_length, List.length_map, min_self]
  have hzip : ∀ j < cs.length, ((splitAll x 0 (cs.map core.dofs)).zip cs)[j]? =
      some (x.part (offset (cs.map core.dofs) j) (core.dofs (cs.getD j 0)), cs.getD j 0) := by
    intro j hj
    rw [List.getElem?_zip_eq_some]
    refine ⟨?_, by simp [hj]⟩
    rw [splitAll_get, getElem?_getD (by simpa using hj), getD_map_dofs _ _ hj, Option.map_some, Nat.zero_add]
  obtain ⟨gs, h1, h2, h3⟩ := mapM_ok_list (f := fun p : Arr × Space => GF.new p.2 none none (some p.1) none)
    ((splitAll x 0 (cs.map core.dofs)).zip cs) (by
      intro a ha
      obtain ⟨i, hi, rfl⟩ := List.getElem_of_mem ha
      have h5 := hzip i (by rw [hzl] at hi; exact hi)
      rw [List.getElem?_eq_getElem hi, Option.some.injEq] at h5
      rw [h5]
      exact ⟨_, rfl⟩)
  refine ⟨gs, h1, by rw [h2, hzl], fun j g hg => ?_⟩
  have hj : j < cs.length := by
    by_contra hh
    rw [List.getElem?_eq_none (by omega)] at hg
    cases hg
  obtain ⟨a, ha1, ha2⟩ := h3 j g hg
  rw [hzip j hj, Option.some.injEq] at ha1
  subst ha1
  cases ha2
  have hp := part_ok x hx (i := j) (by rw [List.length_map]; exact hj)
  rw [getD_map_dofs _ _ hj] at hp
  exact ⟨rfl, _, rfl, rfl, hp, rfl, fun q _ => rfl⟩

/-- The inverse mass matrices, with their blocks. -/
theorem inverseMasses_exact {core : Core} {comp : Components} (hs : BlockedSound core comp) {b : BNode} {rs ds cs : List Space}
    (h : Spaced comp b rs ds cs) : ∃ (F : Nat → Nat → Nat → ℂ) (E : Nat → Nat → ℂ),
      BDenotes (.blocks b.range.length b.range.length (inverseMasses core b)) (rs.map core.dofs) (ds.map core.dofs) (toM _ _ E) ∧
      IsBlockTable (rs.map core.dofs) (ds.map core.dofs) (fun i j => if i = j then F i else fun _ _ => 0) E ∧
      ∀ i < rs.length, core.dofs (rs.getD i 0) ≤ core.dofs (ds.getD i 0) → toM (core.dofs (rs.getD i 0)) (core.dofs (ds.getD i 0)) (F i) *
        toM (core.dofs (ds.getD i 0)) (core.dofs (rs.getD i 0)) (core.mass (rs.getD i 0) (ds.getD i 0)).e = 1 := by
  have key : ∀ i, i < rs.length → ∃ F : Nat → Nat → ℂ, Built (.inverse (core.mass (rs.getD i 0) (ds.getD i 0)))
      (core.dofs (rs.getD i 0)) (core.dofs (ds.getD i 0)) (toM _ _ F) ∧
      (core.dofs (rs.getD i 0) ≤ core.dofs (ds.getD i 0) → toM (core.dofs (rs.getD i 0)) (core.dofs (ds.getD i 0)) F *
        toM (core.dofs (ds.getD i 0)) (core.dofs (rs.getD i 0)) (core.mass (rs.getD i 0) (ds.getD i 0)).e = 1) := by
    intro i hi
    obtain ⟨k, h1, h2⟩ := h.row i hi
    have hf := hs.invertible k
    rw [h1, h2] at hf
    obtain ⟨X, hX1, hX2⟩ := inverse_mass (hs.massRows _ _) (hs.massCols _ _) hf
    refine ⟨tableOf X, ?_, ?_⟩
    · rw [toM_tableOf]
      refine ⟨.inverse (core.mass (rs.getD i 0) (ds.getD i 0)), ⟨hs.massTyped _ _, hf, ?_, ?_⟩, ⟨fun _ h => (by cases h), fun _ h => (by cases h)⟩, hX1, (inverse_built hs hf).1⟩
      · rw [hs.massRows]; exact hs.dofs _
      · rw [hs.massCols]; exact hs.dofs _
    · rw [toM_tableOf]
      exact hX2
  choose! F hF using key
  have hl : b.range.length = rs.length := by rw [h.range, List.length_map]
  obtain ⟨E, hE⟩ := exists_table (rs.map core.dofs) (ds.map core.dofs) (fun i j => if i = j then F i else fun _ _ => 0)
  refine ⟨F, E, BDenotes.blocks (by rw [hl, List.length_map]) (by rw [hl, List.length_map, h.len]) (fun i hi j hj => ?_) ⟨fun i hi => ?_,
    fun j hj => ?_⟩ hE, hE, fun i hi => (hF i hi).2⟩
  · rw [List.length_map] at hi hj
    rw [getD_map_dofs _ _ hi, getD_map_dofs _ _ hj]
    by_cases hij : i = j
    · subst hij
      rw [inverseMasses_diag hs h hi]
      refine ⟨fun op ho => ?_, fun ho => (by cases ho)⟩
      cases ho
      rw [if_pos rfl]
      exact (hF i hi).1
    · rw [inverseMasses_off hij]
      refine ⟨fun op ho => (by cases ho), fun _ p _ q _ => ?_⟩
      rw [if_neg hij]
  · exact ⟨i, hi, by rw [inverseMasses_diag hs h (by omega)]; rfl⟩
  · exact ⟨j, hj, by rw [inverseMasses_diag hs h (by omega)]; rfl⟩

theorem tableOf_apply {r c : Nat} (M : Matrix (Fin r) (Fin c) ℂ) {p q : Nat} (hp : p < r) (hq : q < c) :
    tableOf M p q = M ⟨p, hp⟩ ⟨q, hq⟩ := by
  unfold tableOf
  rw [dif_pos ⟨hp, hq⟩]

/-- The strong form applied to the coefficients of a list of functions: the coefficients of the image. -/
theorem blocked_strong_apply {core : Core} {rs ds cs : List Space} (hl : rs.length = ds.length) {F : Nat → Nat → Nat → ℂ}
    {E : Nat → Nat → ℂ}
    (hE : IsBlockTable (rs.map core.dofs) (ds.map core.dofs) (fun i j => if i = j then F i else fun _ _ => 0) E)
    (hF : ∀ i < rs.length, core.dofs (rs.getD i 0) ≤ core.dofs (ds.getD i 0) →
      toM (core.dofs (rs.getD i 0)) (core.dofs (ds.getD i 0)) (F i) *
        toM (core.dofs (ds.getD i 0)) (core.dofs (rs.getD i 0)) (core.mass (rs.getD i 0) (ds.getD i 0)).e = 1)
    (W : Matrix (Fin (ds.map core.dofs).sum) (Fin (cs.map core.dofs).sum) ℂ) (u : Nat → ℂ) (g : Nat → Nat → ℂ)
    (hg : ∀ a < rs.length, ∀ k < core.dofs (ds.getD a 0), proj core ⟨rs.getD a 0, g a⟩ (ds.getD a 0) k =
      ∑ t ∈ Finset.range (cs.map core.dofs).sum, tableOf W (offset (ds.map core.dofs) a + k) t * u t)
    {a : Nat} (ha : a < rs.length) (hd : core.dofs (rs.getD a 0) ≤ core.dofs (ds.getD a 0)) {k : Nat} (hk : k < core.dofs (rs.getD a 0)) :
    ∑ t ∈ Finset.range (cs.map core.dofs).sum, tableOf (toM (rs.map core.dofs).sum (ds.map core.dofs).sum E * W)
      (offset (rs.map core.dofs) a + k) t * u t = g a k := by
  have hpos : offset (rs.map core.dofs) a + k < (rs.map core.dofs).sum :=
    offset_le _ (by rw [List.length_map]; exact ha) (by rw [getD_map_dofs _ _ ha]; exact hk)
  have e1 : ∀ t ∈ Finset.range (cs.map core.dofs).sum, tableOf (toM (rs.map core.dofs).sum (ds.map core.dofs).sum E * W)
      (offset (rs.map core.dofs) a + k) t * u t = ∑ p ∈ Finset.range (ds.map core.dofs).sum,
        E (offset (rs.map core.dofs) a + k) p * (tableOf W p t * u t) := by
    intro t ht
    rw [Finset.mem_range] at ht
    rw [tableOf_apply _ hpos ht, Matrix.mul_apply, Finset.sum_mul, Finset.sum_range]
    refine Finset.sum_congr rfl fun p _ => ?_
    rw [tableOf_apply W p.isLt ht]
    exact mul_assoc _ _ _
  rw [Finset.sum_congr rfl e1, Finset.sum_comm]
  have e2 := sum_blocks (fun p => ∑ t ∈ Finset.range (cs.map core.dofs).sum, E (offset (rs.map core.dofs) a + k) p * (tableOf W p t * u t))
    (ds.map core.dofs) 0
  simp only [Nat.zero_add] at e2
  rw [e2, List.length_map, Finset.sum_eq_single a]
  · rw [getD_map_dofs _ _ (by omega)]
    have e3 := proj_inverse (hF a ha hd) (g a) ⟨k, hk⟩
    dsimp only at e3
    rw [e3, Finset.sum_range]
    refine Finset.sum_congr rfl fun p _ => ?_
    have e4 := hE a (by rw [List.length_map]; exact ha) a (by rw [List.length_map]; omega) k (by rw [getD_map_dofs _ _ ha]; exact hk) p
      (by rw [getD_map_dofs _ _ (by omega)]; exact p.isLt)
    simp only [if_true] at e4
    rw [hg a ha p p.isLt, e4, Finset.mul_sum]
    rfl
  · intro j hj hja
    rw [Finset.mem_range] at hj
    refine Finset.sum_eq_zero fun p hp => Finset.sum_eq_zero fun t _ => ?_
    rw [Finset.mem_range] at hp
    have e4 := hE a (by rw [List.length_map]; exact ha) j (by rw [List.length_map]; exact hj) k (by rw [getD_map_dofs _ _ ha]; exact hk) p hp
    dsimp only at e4
    rw [if_neg (Ne.symm hja)] at e4
    rw [e4, zero_mul]
  · intro hh
    exact absurd (Finset.mem_range.mpr (by omega)) hh

/-! ### The callback -/

theorem fold_count {store : Bool} {cg : Option ((Arr → Res Arr) × Arr)} : ∀ (l : List Arr) (c c' : Counter),
    l.foldlM (Counter.call store cg) c = .ok c' → c'.count = c.count + l.length
  | [], c, c', h => by
    have := Except.ok.inj h
    rw [← this]
    rfl
  | x :: l, c, c', h => by
    rw [List.foldlM_cons] at h
    obtain ⟨d, h1, h2⟩ := Res.bind_ok h
    rw [fold_count l d c' h2, List.length_cons]
    have : d.count = c.count + 1 := by
      unfold Counter.call at h1
      split_ifs at h1
      · rw [← Except.ok.inj h1]
      · cases cg with
        | none => rw [← Except.ok.inj h1]
        | some p =>
          dsimp only at h1
          obtain ⟨y, -, h1⟩ := Res.bind_ok h1
          obtain ⟨w, -, h1⟩ := Res.bind_ok h1
          rw [← Except.ok.inj h1]
    omega

theorem fold_gmres : ∀ (l : List Arr) (c : Counter), l.foldlM (Counter.call true none) c =
    .ok ⟨c.count + l.length, c.residuals ++ l.map Arr.norm⟩
  | [], c => by simp; rfl
  | x :: l, c => by
    rw [List.foldlM_cons]
    show (Counter.call true none c x >>= _) = _
    have : Counter.call true none c x = .ok ⟨c.count + 1, c.residuals ++ [x.norm]⟩ := rfl
    rw [this, ok_bind, fold_gmres l]
    simp
    omega

theorem fold_cg {op : Arr → Res Arr} {v : Arr} : ∀ (l : List Arr) (c c' : Counter), l.foldlM (Counter.call true (some (op, v))) c = .ok c' →
    ∃ L, c'.residuals = c.residuals ++ L ∧ List.Forall₂ (fun (x : Arr) ρ => ∃ y w, op x = .ok y ∧ v.add (y.smul ⟨-1, false⟩) = .ok w ∧
      ρ = w.norm) l L
  | [], c, c', h => by
    have := Except.ok.inj h
    rw [← this]
    exact ⟨[], by simp, .nil⟩
  | x :: l, c, c', h => by
    rw [List.foldlM_cons] at h
    obtain ⟨d, h1, h2⟩ := Res.bind_ok h
    obtain ⟨L, h3, h4⟩ := fold_cg l d c' h2
    unfold Counter.call at h1
    rw [if_neg (by simp)] at h1
    dsimp only at h1
    obtain ⟨y, hy, h1⟩ := Res.bind_ok h1
    obtain ⟨w, hw, h1⟩ := Res.bind_ok h1
    refine ⟨w.norm :: L, ?_, .cons ⟨y, w, hy, hw, rfl⟩ h4⟩
    rw [h3, ← Except.ok.inj h1]
    simp

theorem forall₂_mem {α β : Type} {R : α → β → Prop} {l : List α} {m : List β} (h : List.Forall₂ R l m) :
    List.Forall₂ (fun a b => a ∈ l ∧ R a b) l m := by
  induction h with
  | nil => exact .nil
  | cons h _ ih => exact .cons ⟨by simp, h⟩ (ih.imp fun a b hab => ⟨by simp [hab.1], hab.2⟩)

theorem cg_residual {op : Op} {m n : Nat} {M : Matrix (Fin m) (Fin n) ℂ} (hM : Acts op M) {v x y w : Arr} (hv : VecOf v m)
    (hx : VecOf x n) (hy : op.apply x = .ok y) (hw : v.add (y.smul ⟨-1, false⟩) = .ok w) :
    w.norm = Real.sqrt (∑ k : Fin m, ‖v.e k 0 - ∑ q, M k q * x.e q 0‖ ^ 2) := by
  obtain ⟨y', hy', hp⟩ := (hM.2 x hx.2.1 (by rw [hx.2.2]) (fun _ => hx.2.2)).1
  rw [hy] at hy'
  cases hy'
  have hyv : VecIs y m fun k => y.e k 0 := ⟨hp.1.trans hx.1, hp.2.1, hp.2.2.1.trans hx.2.2, fun _ _ => rfl⟩
  obtain ⟨w', hw', h5⟩ := vec_add (v := fun k => v.e k 0) ⟨hv.1, hv.2.1, hv.2.2, fun _ _ => rfl⟩ (vec_smul hyv ⟨-1, false⟩)
  rw [hw] at hw'
  cases hw'
  unfold Arr.norm
  rw [h5.2.1, h5.2.2.1, Finset.sum_range]
  refine congrArg _ (Finset.sum_congr rfl fun k _ => ?_)
  rw [Finset.sum_range_one, h5.2.2.2 k k.isLt]
  have := congrFun (hp.2.2.2 0 (by rw [hx.2.2]; exact Nat.one_pos)) k
  have e : y.e k 0 = ∑ q, M k q * x.e q 0 := this
  show ‖v.e k 0 + -1 * y.e k 0‖ ^ 2 = _
  rw [e, neg_one_mul, sub_eq_add_neg]

/-! ### Lists of right-hand sides -/

theorem mapM_get {α β : Type} {f : α → Res β} {l : List α} {bs : List β} (h : l.mapM f = .ok bs) : bs.length = l.length ∧
    ∀ (i : Nat) b, bs[i]? = some b → ∃ a, l[i]? = some a ∧ f a = .ok b := by
  induction l generalizing bs with
  | nil =>
    have := Except.ok.inj h
    subst this
    exact ⟨rfl, fun i b hb => (by simp at hb)⟩
  | cons a l ih =>
    rw [List.mapM_cons] at h
    obtain ⟨b, h1, h⟩ := Res.bind_ok h
    obtain ⟨cs, h2, h⟩ := Res.bind_ok h
    have := Except.ok.inj h
    subst this
    obtain ⟨h3, h4⟩ := ih h2
    refine ⟨by simp [h3], fun i c hc => ?_⟩
    cases i with
    | zero =>
      simp only [List.getElem?_cons_zero, Option.some.injEq] at hc
      exact ⟨a, by simp, by rw [h1, hc]⟩
    | succ i =>
      rw [List.getElem?_cons_succ] at hc ⊢
      exact h4 i c hc

/-- The right-hand side of the weak form. -/
theorem projections_vec {core : Core} {fs : List GF} {ds : List Space} {as : Nat → AFun} (hl : fs.length = ds.length)
    (hf : ∀ (a : Nat) f, fs[a]? = some f → ∃ p, (f.projections core (some (ds.getD a 0))).1 = .ok p ∧
      VecIs p (core.dofs (ds.getD a 0)) (proj core (as a) (ds.getD a 0))) {v : Arr} (h : projectionsOfFunctions core fs ds = .ok v) :
    VecOf v (ds.map core.dofs).sum ∧ ∀ a < ds.length, ∀ k < core.dofs (ds.getD a 0),
      v.e (offset (ds.map core.dofs) a + k) 0 = proj core (as a) (ds.getD a 0) k := by
  unfold projectionsOfFunctions at h
  obtain ⟨ps, h1, h2⟩ := Res.bind_ok h
  obtain ⟨h3, h4⟩ := mapM_get h1
  rw [List.length_zip, hl, min_self] at h3
  have h5 : ∀ (a : Nat) p, ps[a]? = some p → a < ds.length ∧ VecIs p (core.dofs (ds.getD a 0)) (proj core (as a) (ds.getD a 0)) := by
    intro a p hp
    have ha : a < ds.length := by
      by_contra hh
      rw [List.getElem?_eq_none (by omega)] at hp
      cases hp
    obtain ⟨⟨f, s⟩, hz, hq⟩ := h4 a p hp
    rw [List.getElem?_zip_eq_some] at hz
    dsimp only at hz hq
    have hs : ds.getD a 0 = s := by rw [List.getD_eq_getElem?_getD, hz.2]; rfl
    obtain ⟨p', hp1, hp2⟩ := hf a f hz.1
    rw [hs, hq] at hp1
    cases hp1
    exact ⟨ha, hp2⟩
  have h6 : ps.map (·.rows) = ds.map core.dofs := by
    refine List.ext_getElem (by rw [List.length_map, List.length_map, h3]) fun a ha hb => ?_
    rw [List.getElem_map, List.getElem_map]
    rw [List.length_map] at ha hb
    have := (h5 a ps[a] (List.getElem?_eq_getElem ha)).2.2.1
    rw [this, List.getD_eq_getElem?_getD, List.getElem?_eq_getElem hb, Option.getD_some]
  unfold projectionsOfList at h2
  rw [h6] at h2
  obtain ⟨y, hy1, hy2, hy3⟩ := assignAll_vec (z := ps.any (·.complex)) h6 (fun a k => proj core (as a) (ds.getD a 0) k) (fun j p hp q hq => by
    obtain ⟨hj, hv⟩ := h5 j p hp
    rw [getD_map_dofs _ _ hj] at hq
    exact hv.2.2.2 q hq)
  rw [hy1] at h2
  cases h2
  refine ⟨hy2, fun a ha k hk => hy3 a (by rw [List.length_map]; exact ha) k (by rw [getD_map_dofs _ _ ha]; exact hk)⟩

/-- The right-hand side of the strong form. -/
theorem coefficients_vec {core : Core} {fs : List GF} {rs : List Space} {as : Nat → AFun} (hl : fs.length = rs.length)
    (hf : ∀ (a : Nat) f, fs[a]? = some f → f.space = rs.getD a 0 ∧ ∃ c, (f.coefficients core).1 = .ok c ∧
      VecIs c (core.dofs (rs.getD a 0)) (as a).value) {cs : List (Space × Arr)} (h : coefficientsOf core fs = .ok cs) {v : Arr}
    (hv : coefficientsOfList core cs = .ok v) :
    VecOf v (rs.map core.dofs).sum ∧ ∀ a < rs.length, ∀ k < core.dofs (rs.getD a 0),
      v.e (offset (rs.map core.dofs) a + k) 0 = (as a).value k := by
  unfold coefficientsOf at h
  obtain ⟨h3, h4⟩ := mapM_get h
  rw [hl] at h3
  have h5 : ∀ (a : Nat) p, cs[a]? = some p → a < rs.length ∧ p.1 = rs.getD a 0 ∧ VecIs p.2 (core.dofs (rs.getD a 0)) (as a).value := by
    intro a p hp
    have ha : a < rs.length := by
      by_contra hh
      rw [List.getElem?_eq_none (by omega)] at hp
      cases hp
    obtain ⟨f, hz, hq⟩ := h4 a p hp
    obtain ⟨c, hc, hq⟩ := Res.bind_ok hq
    have := Except.ok.inj hq
    subst this
    obtain ⟨q1, c', hc', q2⟩ := hf a f hz
    rw [hc] at hc'
    cases hc'
    exact ⟨ha, q1, q2⟩
  have h6 : (cs.map fun f => core.dofs f.1) = rs.map core.dofs := by
    refine List.ext_getElem (by rw [List.length_map, List.length_map, h3]) fun a ha hb => ?_
    rw [List.getElem_map, List.getElem_map]
    rw [List.length_map] at ha hb
    have := (h5 a cs[a] (List.getElem?_eq_getElem ha)).2.1
    rw [this, List.getD_eq_getElem?_getD, List.getElem?_eq_getElem hb, Option.getD_some]
  have h7 : (cs.map (·.2)).map (·.rows) = rs.map core.dofs := by
    rw [List.map_map]
    refine List.ext_getElem (by rw [List.length_map, List.length_map, h3]) fun a ha hb => ?_
    rw [List.getElem_map, List.getElem_map]
    rw [List.length_map] at ha hb
    have := (h5 a cs[a] (List.getElem?_eq_getElem ha)).2.2.2.1
    show (cs[a]).2.rows = _
    rw [this, List.getD_eq_getElem?_getD, List.getElem?_eq_getElem hb, Option.getD_some]
  unfold coefficientsOfList at hv
  rw [h6] at hv
  obtain ⟨y, hy1, hy2, hy3⟩ := assignAll_vec (z := cs.any (·.2.complex)) h7 (fun a k => (as a).value k) (fun j p hp q hq => by
    rw [List.getElem?_map] at hp
    obtain ⟨p', hp', rfl⟩ := Option.map_eq_some_iff.mp hp
    obtain ⟨hj, -, hv⟩ := h5 j p' hp'
    rw [getD_map_dofs _ _ hj] at hq
    exact hv.2.2.2 q hq)
  rw [hy1] at hv
  cases hv
  refine ⟨hy2, fun a ha k hk => hy3 a (by rw [List.length_map]; exact ha) k (by rw [getD_map_dofs _ _ ha]; exact hk)⟩

end

end Verif.PyOp
