import Verif.Spec.PyGridFunction
import Verif.Lemmas.PyDiscrete2
/-
Lemmas for C85.
-/
namespace Verif.PyOp
noncomputable section

variable {core : Core}

theorem VecIs.congr {y : Arr} {n : Nat} {v w : Nat → ℂ} (h : VecIs y n v) (hw : ∀ i < n, v i = w i) : VecIs y n w :=
  ⟨h.1, h.2.1, h.2.2.1, fun i hi => (h.2.2.2 i hi).trans (hw i hi)⟩

theorem product_entry {r c : Nat} {M : Matrix (Fin r) (Fin c) ℂ} {x y : Arr} {v : Nat → ℂ} (h : IsProduct M x y) (hx : VecIs x c v) :
    y.twoD = false ∧ y.rows = r ∧ y.cols = 1 ∧ ∀ i : Fin r, y.e i 0 = ∑ j, M i j * v j := by
  obtain ⟨h1, h2, h3, h4⟩ := h
  obtain ⟨x1, x2, x3, x4⟩ := hx
  refine ⟨h1.trans x1, h2, h3.trans x3, fun i => ?_⟩
  have := congrFun (h4 0 (by omega)) i
  rw [this]
  simp only [Matrix.mulVec, dotProduct]
  exact Finset.sum_congr rfl fun j _ => by rw [x4 j j.isLt]

/-- The mass matrix times the coefficients. -/
theorem sparse_apply (hm : core.Masses) {f : AFun} {c : Arr} (hc : VecIs c (core.dofs f.space) f.value) (E : Space) :
    ∃ y, (Op.sparse (core.mass f.space E)).apply c = .ok y ∧ VecIs y (core.dofs E) (proj core f E) := by
  obtain ⟨y, hy1, hy2⟩ := sparse_ok (core.mass f.space E) (x := c) (hc.2.1.trans (hm.cols _ _).symm)
  refine ⟨y, ?_, ?_⟩
  · unfold Op.apply
    rw [if_pos hc.2.2.1]
    exact hy1
  · have hc' : VecIs c (core.mass f.space E).cols f.value := by rw [hm.cols]; exact hc
    obtain ⟨p1, p2, p3, p4⟩ := product_entry hy2 hc'
    refine ⟨p1, p2.trans (hm.rows _ _), p3, fun i hi => ?_⟩
    have hi' : i < (core.mass f.space E).rows := by rw [hm.rows]; exact hi
    rw [p4 ⟨i, hi'⟩]
    unfold proj
    rw [← hm.cols f.space E, Finset.sum_range]
    rfl

theorem proj_congr {f g : AFun} (hs : f.space = g.space) (hv : ∀ i < core.dofs f.space, f.value i = g.value i) (E : Space) (i : Nat) :
    proj core f E i = proj core g E i := by
  unfold proj
  rw [hs] at hv ⊢
  exact Finset.sum_congr rfl fun j hj => by rw [hv j (Finset.mem_range.mp hj)]

/-- The coefficients are determined by the projections. -/
theorem inverse_apply (hm : core.Masses) {s D : Space} (hn : Nonsingular core s D) {p : Arr} (hp : VecOf p (core.dofs D)) :
    ∃ y w, computeCoefficients core s p D = .ok y ∧ VecIs y (core.dofs s) w ∧ VecIs p (core.dofs D) (proj core ⟨s, w⟩ D) ∧
      ∀ w', VecIs p (core.dofs D) (proj core ⟨s, w'⟩ D) → ∀ i < core.dofs s, w' i = w i := by
  obtain ⟨h1, h2, h3⟩ := hn
  obtain ⟨X, hX, hXA, hAX⟩ := mp_exists _ h3
  have e1 : (core.mass s D).rows = core.dofs D := hm.rows s D
  have e2 : (core.mass s D).cols = core.dofs s := hm.cols s D
  obtain ⟨y, hy1, hy2⟩ := solve_ok (core.mass s D) h3 (by rw [e1]; exact h2) hX (hp.2.1.trans e1.symm) hp.2.2
  have hpv : VecIs p (core.mass s D).rows (fun i => p.e i 0) := ⟨hp.1, by rw [e1]; exact hp.2.1, hp.2.2, fun _ _ => rfl⟩
  obtain ⟨q1, q2, q3, q4⟩ := product_entry hy2 hpv
  have q5 : ∀ i : Fin (core.mass s D).cols, y.e i 0 = X.mulVec (fun j : Fin (core.mass s D).rows => p.e j 0) i := fun i => q4 i
  refine ⟨y, fun i => y.e i 0, ?_, ⟨q1, q2.trans e2, q3, fun _ _ => rfl⟩, ⟨hp.1, hp.2.1, hp.2.2, fun i hi => ?_⟩, fun w' hw' i hi => ?_⟩
  · unfold computeCoefficients
    rw [if_neg (by simp [hp.1]), (mkInverse_eq _).1 h3, ok_bind]
    unfold Op.apply
    rw [if_pos hp.2.2]
    exact hy1
  · have hi' : i < (core.mass s D).rows := by rw [e1]; exact hi
    have key := congrFun (congrArg (fun M => M.mulVec (fun j : Fin (core.mass s D).rows => p.e j 0))
      (hAX (by rw [e1, e2, h1]))) ⟨i, hi'⟩
    simp only [Matrix.one_mulVec] at key
    rw [← Matrix.mulVec_mulVec] at key
    rw [← key]
    unfold proj
    dsimp only
    rw [← e2, Finset.sum_range]
    rw [Matrix.mulVec, dotProduct]
    exact Finset.sum_congr rfl fun j _ => by rw [q5 j]; rfl
  · have hi' : i < (core.mass s D).cols := by rw [e2]; exact hi
    have key := congrFun (congrArg (fun M => M.mulVec (fun j : Fin (core.mass s D).cols => w' j))
      (hXA (by rw [e1, e2, h1]))) ⟨i, hi'⟩
    simp only [Matrix.one_mulVec] at key
    rw [← Matrix.mulVec_mulVec] at key
    have q6 := q5 ⟨i, hi'⟩
    dsimp only at q6 ⊢
    rw [q6, ← key]
    refine congrFun (congrArg _ ?_) _
    funext k
    have hk : (k : Nat) < core.dofs D := by rw [← e1]; exact k.isLt
    rw [hw'.2.2.2 k hk]
    unfold proj
    dsimp only
    rw [← e2, Finset.sum_range]
    rfl

/-- The object `f` stands for the function `a`. -/
structure Stands (core : Core) (f : GF) (a : AFun) : Prop where
  space : f.space = a.space
  coeffs : ∀ c, f.coeffs = some c → VecIs c (core.dofs a.space) a.value
  duals : ∀ p, f.duals = some p → VecIs p (core.dofs f.dual) (proj core a f.dual)
  primal : f.primal = true → f.coeffs ≠ none
  dual : f.primal = false → f.coeffs = none ∧ f.duals ≠ none ∧ Nonsingular core f.space f.dual

theorem coefficients_ok (hm : core.Masses) {f : GF} {a : AFun} (h : Stands core f a) :
    ∃ c f', f.coefficients core = (.ok c, f') ∧ VecIs c (core.dofs a.space) a.value ∧ Stands core f' a ∧ f'.dual = f.dual ∧
      f'.primal = true ∧ (f.primal = true → f' = f) := by
  unfold GF.coefficients
  cases hc : f.coeffs with
  | some c =>
    have hp : f.primal = true := by
      by_contra hn
      have := (h.dual (by simpa using hn)).1
      rw [hc] at this; cases this
    exact ⟨c, f, rfl, h.coeffs c hc, h, rfl, hp, fun _ => rfl⟩
  | none =>
    have hp : f.primal = false := by
      by_contra hn
      exact h.primal (by simpa using hn) hc
    obtain ⟨-, d2, d3⟩ := h.dual hp
    cases hd : f.duals with
    | none => exact absurd hd d2
    | some p =>
      have hv := h.duals p hd
      obtain ⟨y, w, y1, y2, y3, y4⟩ := inverse_apply hm d3 (p := p) ⟨hv.1, hv.2.1, hv.2.2.1⟩
      have hw : ∀ i < core.dofs f.space, a.value i = w i := y4 a.value (by
        exact hv.congr fun i _ => proj_congr (g := ⟨f.space, a.value⟩) h.space.symm (fun _ _ => rfl) _ _)
      dsimp only
      rw [y1]
      have hv' : VecIs y (core.dofs a.space) a.value := by
        rw [h.space] at y2 hw
        exact y2.congr fun i hi => (hw i hi).symm
      refine ⟨y, _, rfl, hv', ⟨h.space, ?_, fun q hq => h.duals q (by rw [hd]; exact hq), fun _ => by simp, fun hh => by simp at hh⟩, rfl, rfl, fun hh => ?_⟩
      · intro c hcc
        cases hcc
        exact hv'
      · rw [hp] at hh; cases hh

theorem projections_ok (hm : core.Masses) {f : GF} {a : AFun} (h : Stands core f a) (E : Option Space)
    (hE : f.primal = true ∨ E.getD f.dual = f.dual) :
    ∃ y f', f.projections core E = (.ok y, f') ∧ VecIs y (core.dofs (E.getD f.dual)) (proj core a (E.getD f.dual)) ∧
      Stands core f' a ∧ (f.primal = false → f' = f) := by
  have key : f.primal = true → ∀ E, ∃ y f', f.project core E = (.ok y, f') ∧ VecIs y (core.dofs E) (proj core a E) ∧
      Stands core f' a := by
    intro hp E
    unfold GF.project GF.coefficients
    cases hc : f.coeffs with
    | none => exact absurd hc (h.primal hp)
    | some c =>
      dsimp only
      have hv := h.coeffs c hc
      obtain ⟨y, y1, y2⟩ := sparse_apply hm hv E
      rw [h.space, y1]
      refine ⟨y, _, rfl, y2, ⟨rfl, ?_, ?_, fun _ => by simp, fun hh => ?_⟩⟩
      · intro c' hcc
        cases hcc
        exact hv
      · intro p hpp
        cases hpp
        exact y2
      · dsimp only at hh; rw [hp] at hh; cases hh
  have lift : ∀ E, f.primal = true → ∃ y f', f.project core E = (.ok y, f') ∧ VecIs y (core.dofs E) (proj core a E) ∧
      Stands core f' a ∧ (f.primal = false → f' = f) := by
    intro E hp
    obtain ⟨y, f', h1, h2, h3⟩ := key hp E
    exact ⟨y, f', h1, h2, h3, fun hh => by rw [hp] at hh; cases hh⟩
  unfold GF.projections
  cases hd : f.duals with
  | none =>
    dsimp only
    have hp : f.primal = true := by
      by_contra hn
      exact (h.dual (by simpa using hn)).2.1 hd
    exact lift _ hp
  | some p =>
    dsimp only
    by_cases he : E.getD f.dual = f.dual
    · rw [if_pos he, he]
      exact ⟨p, f, rfl, h.duals p hd, h, fun _ => rfl⟩
    · rw [if_neg he]
      exact lift _ (hE.resolve_right he)

theorem new_coeffs {s : Space} {d : Option Space} {v : Arr} {w : Nat → ℂ} (hv : VecIs v (core.dofs s) w) :
    ∃ f, GF.new s d none (some v) none = .ok f ∧ Stands core f ⟨s, w⟩ := by
  refine ⟨⟨s, d.getD s, some v, none, true⟩, ?_, ?_⟩
  · unfold GF.new GF.setCoefficients
    simp [hv.1]
  · refine ⟨rfl, fun c hc => ?_, fun p hp => (by cases hp), fun _ => (by simp), fun hh => (by cases hh)⟩
    cases hc
    exact hv

theorem new_duals {s : Space} {d : Option Space} {p : Arr} {w : Nat → ℂ} (hn : Nonsingular core s (d.getD s))
    (hv : VecIs p (core.dofs (d.getD s)) (proj core ⟨s, w⟩ (d.getD s))) :
    (∃ f, GF.new s d none none (some p) = .ok f ∧ Stands core f ⟨s, w⟩) ∧
    (∃ f, GF.new s d (some p) none none = .ok f ∧ Stands core f ⟨s, w⟩) := by
  have hs : Stands core ⟨s, d.getD s, none, some p, false⟩ ⟨s, w⟩ :=
    ⟨rfl, fun c hc => (by cases hc), fun q hq => (by cases hq; exact hv), fun hh => (by cases hh), fun _ => ⟨rfl, by simp, hn⟩⟩
  exact ⟨⟨_, rfl, hs⟩, ⟨_, rfl, hs⟩⟩

theorem vec_add {x y : Arr} {n : Nat} {v w : Nat → ℂ} (hx : VecIs x n v) (hy : VecIs y n w) :
    ∃ z, x.add y = .ok z ∧ VecIs z n (fun i => v i + w i) := by
  obtain ⟨x1, x2, x3, x4⟩ := hx
  obtain ⟨y1, y2, y3, y4⟩ := hy
  unfold Arr.add broadcast
  rw [x2, y2, x3, y3]
  simp only [if_true]
  refine ⟨_, rfl, x1, rfl, rfl, fun i hi => ?_⟩
  dsimp only
  have : (if n = 1 then 0 else i) = i := by split <;> omega
  rw [this, x4 i hi, y4 i hi]

theorem vec_smul {x : Arr} {n : Nat} {v : Nat → ℂ} (hx : VecIs x n v) (s : Scalar) : VecIs (x.smul s) n (fun i => s.value * v i) :=
  ⟨hx.1, hx.2.1, hx.2.2.1, fun i hi => by show s.value * _ = _; rw [hx.2.2.2 i hi]⟩

theorem proj_add (s E : Space) (v w : Nat → ℂ) (i : Nat) :
    proj core ⟨s, v⟩ E i + proj core ⟨s, w⟩ E i = proj core ⟨s, fun k => v k + w k⟩ E i := by
  unfold proj
  rw [← Finset.sum_add_distrib]
  exact Finset.sum_congr rfl fun j _ => by ring

theorem proj_smul (s E : Space) (c : ℂ) (v : Nat → ℂ) (i : Nat) :
    c * proj core ⟨s, v⟩ E i = proj core ⟨s, fun k => c * v k⟩ E i := by
  unfold proj
  rw [Finset.mul_sum]
  exact Finset.sum_congr rfl fun j _ => by ring

theorem proj_re (hm : core.Masses) (s E : Space) (v : Nat → ℂ) (i : Nat) :
    ((proj core ⟨s, v⟩ E i).re : ℂ) = proj core ⟨s, fun k => ((v k).re : ℂ)⟩ E i := by
  unfold proj
  rw [Complex.re_sum, Complex.ofReal_sum]
  refine Finset.sum_congr rfl fun j _ => ?_
  have him : ((core.mass s E).e i j).im = 0 := Complex.conj_eq_iff_im.mp (hm.real s E i j)
  have : (core.mass s E).e i j = (((core.mass s E).e i j).re : ℂ) := by
    apply Complex.ext <;> simp [him]
  dsimp only
  rw [this, Complex.re_ofReal_mul, Complex.ofReal_mul]

theorem proj_im (hm : core.Masses) (s E : Space) (v : Nat → ℂ) (i : Nat) :
    ((proj core ⟨s, v⟩ E i).im : ℂ) = proj core ⟨s, fun k => ((v k).im : ℂ)⟩ E i := by
  unfold proj
  rw [Complex.im_sum, Complex.ofReal_sum]
  refine Finset.sum_congr rfl fun j _ => ?_
  have him : ((core.mass s E).e i j).im = 0 := Complex.conj_eq_iff_im.mp (hm.real s E i j)
  have : (core.mass s E).e i j = (((core.mass s E).e i j).re : ℂ) := by
    apply Complex.ext <;> simp [him]
  dsimp only
  rw [this, Complex.im_ofReal_mul, Complex.ofReal_mul]

theorem smul_stands (hm : core.Masses) {f : GF} {a : AFun} (h : Stands core f a) (s : Scalar) :
    ∃ g, f.smul core s = .ok g ∧ Stands core g ⟨a.space, fun k => s.value * a.value k⟩ := by
  unfold GF.smul
  by_cases hp : f.primal = false
  · rw [if_pos hp]
    obtain ⟨d1, d2, d3⟩ := h.dual hp
    cases hd : f.duals with
    | none => exact absurd hd d2
    | some p =>
      have hv := vec_smul (h.duals p hd) s
      dsimp only
      rw [h.space]
      rw [h.space] at d3
      exact (new_duals (d := some f.dual) d3 (hv.congr fun i _ => proj_smul a.space f.dual s.value a.value i)).1
  · rw [if_neg hp]
    obtain ⟨c, f', h1, h2, h3, -⟩ := coefficients_ok hm h
    rw [h1]
    dsimp only
    rw [h.space]
    exact new_coeffs (vec_smul h2 s)

theorem part_stands (hm : core.Masses) {f : GF} {a : AFun} (h : Stands core f a) (part : Arr → Arr) (q : ℂ → ℂ)
    (hq : ∀ x n v, VecIs x n v → VecIs (part x) n (fun i => q (v i)))
    (hpr : ∀ s E v i, q (proj core ⟨s, v⟩ E i) = proj core ⟨s, fun k => q (v k)⟩ E i) :
    ∃ g, f.part core part = .ok g ∧ Stands core g ⟨a.space, fun k => q (a.value k)⟩ := by
  unfold GF.part
  by_cases hp : f.primal = true
  · rw [if_pos hp]
    obtain ⟨c, f', h1, h2, h3, -⟩ := coefficients_ok hm h
    rw [h1]
    dsimp only
    rw [h.space]
    exact new_coeffs (hq _ _ _ h2)
  · rw [if_neg hp]
    obtain ⟨y, f', h1, h2, h3, -⟩ := projections_ok hm h none (Or.inr rfl)
    rw [h1]
    dsimp only
    obtain ⟨d1, d2, d3⟩ := h.dual (by simpa using hp)
    rw [h.space] at d3 ⊢
    exact (new_duals (d := some f.dual) d3 ((hq _ _ _ h2).congr fun i _ => hpr a.space f.dual a.value i)).1

/-- All objects stand for functions. -/
def HeapOk (core : Core) (h : Heap) (ah : AHeap) : Prop := h.size = ah.size ∧ ∀ i < h.size, Stands core (h.obj i) (ah.obj i)

theorem HeapOk.set {h : Heap} {ah : AHeap} (hh : HeapOk core h ah) {i : Nat} {f : GF} (hf : Stands core f (ah.obj i)) :
    HeapOk core (h.set i f) ah := by
  refine ⟨hh.1, fun j hj => ?_⟩
  show Stands core (if j = i then f else h.obj j) _
  split
  · rename_i hji
    subst hji
    exact hf
  · exact hh.2 j hj

theorem HeapOk.push {h : Heap} {ah : AHeap} (hh : HeapOk core h ah) {r : Res GF} {a : AFun}
    (hr : ∃ f, r = .ok f ∧ Stands core f a) : (h.push r).1 = .ok none ∧ HeapOk core (h.push r).2 (ah.push a) := by
  obtain ⟨f, rfl, hf⟩ := hr
  refine ⟨rfl, by show h.size + 1 = ah.size + 1; rw [hh.1], fun j hj => ?_⟩
  show Stands core (if j = h.size then f else h.obj j) (if j = ah.size then a else ah.obj j)
  rw [← hh.1]
  split
  · exact hf
  · rename_i hne
    have hj' : j < h.size + 1 := hj
    exact hh.2 j (by omega)

theorem add_ok' (hm : core.Masses) {h : Heap} {ah : AHeap} (hh : HeapOk core h ah) {i j : Nat} (hi : i < h.size) (hj : j < h.size)
    (hs : (ah.obj i).space = (ah.obj j).space) :
    (h.add core i j).1 = .ok none ∧
    HeapOk core (h.add core i j).2 (ah.push ⟨(ah.obj i).space, fun k => (ah.obj i).value k + (ah.obj j).value k⟩) := by
  have si := hh.2 i hi
  have sj := hh.2 j hj
  unfold Heap.add
  rw [if_neg (by rw [si.space, sj.space]; simpa using hs)]
  by_cases hd : (h.obj i).primal = false ∧ (h.obj j).primal = false ∧ (h.obj i).dual = (h.obj j).dual
  · rw [if_pos hd]
    obtain ⟨y1, f1, e1, v1, s1, z1⟩ := projections_ok hm si none (Or.inr rfl)
    have z1' := z1 hd.1
    subst z1'
    rw [e1]
    dsimp only
    have hset : ((h.set i (h.obj i)).obj j) = h.obj j := by
      unfold Heap.set
      dsimp only
      split
      · rename_i hji; rw [hji]
      · rfl
    rw [hset]
    obtain ⟨y2, f2, e2, v2, s2, z2⟩ := projections_ok hm sj none (Or.inr rfl)
    have z2' := z2 hd.2.1
    subst z2'
    rw [e2]
    dsimp only
    have hk := (hh.set (i := i) si).set (i := j) sj
    have hobj : (((h.set i (h.obj i)).set j (h.obj j)).obj i) = h.obj i := by
      unfold Heap.set
      dsimp only
      split
      · rename_i hji; rw [hji]
      · simp
    rw [hobj]
    refine hk.push ?_
    rw [ok_bind, ok_bind]
    simp only [Option.getD_none] at v1 v2
    rw [← hd.2.2] at v2
    obtain ⟨z, hz, hv⟩ := vec_add v1 v2
    rw [hz, ok_bind]
    have hn := (si.dual hd.1).2.2
    rw [si.space] at hn ⊢
    refine (new_duals (d := some (h.obj i).dual) hn (hv.congr fun k _ => ?_)).1
    have : proj core (ah.obj j) (h.obj i).dual k = proj core ⟨(ah.obj i).space, (ah.obj j).value⟩ (h.obj i).dual k :=
      proj_congr (g := ⟨(ah.obj i).space, (ah.obj j).value⟩) hs.symm (fun _ _ => rfl) _ _
    rw [this]
    exact proj_add (ah.obj i).space _ (ah.obj i).value _ k
  · rw [if_neg hd]
    obtain ⟨c1, f1, e1, v1, s1, -, -, -⟩ := coefficients_ok hm si
    rw [e1]
    dsimp only
    have hk := hh.set (i := i) s1
    obtain ⟨c2, f2, e2, v2, s2, -, -, -⟩ := coefficients_ok hm (hk.2 j hj)
    rw [e2]
    dsimp only
    have hk2 := hk.set (i := j) s2
    refine hk2.push ?_
    rw [ok_bind, ok_bind]
    rw [← hs] at v2
    obtain ⟨z, hz, hv⟩ := vec_add v1 v2
    rw [hz, ok_bind, (hk2.2 i hi).space]
    exact new_coeffs hv

theorem apply_ok' (hm : core.Masses) {h : Heap} {ah : AHeap} (hh : HeapOk core h ah) {op : Op} {domain range dual : Space} {i : Nat}
    (hi : i < h.size) (hn : Nonsingular core range dual)
    (hM : ∃ M : Matrix (Fin (core.dofs dual)) (Fin (core.dofs domain)) ℂ, Acts op M)
    (hc : core.compatible domain (ah.obj i).space = true) :
    (h.apply core op domain range dual i).1 = .ok none ∧
    ∃ w, (∀ M : Matrix (Fin (core.dofs dual)) (Fin (core.dofs domain)) ℂ, Acts op M →
      ∀ k : Fin (core.dofs dual), proj core ⟨range, w⟩ dual k = ∑ j, M k j * (ah.obj i).value j) ∧
    HeapOk core (h.apply core op domain range dual i).2 (ah.push ⟨range, w⟩) := by
  have si := hh.2 i hi
  unfold Heap.apply
  rw [if_neg (by rw [si.space]; simpa using hc)]
  obtain ⟨c1, f1, e1, v1, s1, -, -, -⟩ := coefficients_ok hm si
  rw [e1]
  dsimp only
  rw [ok_bind]
  rw [← hm.compatible _ _ hc] at v1
  have happ : ∀ M : Matrix (Fin (core.dofs dual)) (Fin (core.dofs domain)) ℂ, Acts op M → ∃ y, op.apply c1 = .ok y ∧
      y.twoD = false ∧ y.rows = core.dofs dual ∧ y.cols = 1 ∧ ∀ k : Fin (core.dofs dual), y.e k 0 = ∑ j, M k j * (ah.obj i).value j := by
    intro M hA
    obtain ⟨y, hy1, hy2⟩ := (hA.2 c1 v1.2.1 (by rw [v1.2.2.1]) (fun _ => v1.2.2.1)).1
    exact ⟨y, hy1, product_entry hy2 v1⟩
  obtain ⟨M, hA⟩ := hM
  obtain ⟨y, hy, y1, y2, y3, y4⟩ := happ M hA
  obtain ⟨-, w, -, -, w3, -⟩ := inverse_apply hm hn (p := y) ⟨y1, y2, y3⟩
  rw [hy, ok_bind]
  obtain ⟨r1, r2⟩ := (hh.set s1).push (new_duals (d := some dual) hn w3).1
  refine ⟨r1, w, fun M' hA' k => ?_, r2⟩
  obtain ⟨y', hy', -, -, -, y4'⟩ := happ M' hA'
  rw [hy] at hy'
  cases hy'
  rw [← y4' k, w3.2.2.2 k k.isLt]

end

end Verif.PyOp
