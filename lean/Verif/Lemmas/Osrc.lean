import Verif.Lemmas.Pade
import Verif.Props.PyDiscrete
/-
The OSRC operators as matrices.
-/
namespace Verif.PyOp
open Complex
noncomputable section

/-- The sparse matrix `mass - c * stiff`. -/
def shifted (mass stiff : Arr) (c : Scalar) : Arr :=
  ⟨true, mass.rows, mass.cols, mass.complex || (stiff.complex || c.complex), fun i j => mass.e i j + -(c.value * stiff.e i j)⟩

theorem shiftedInverse_eq {mass stiff : Arr} (hr : stiff.rows = mass.rows) (hc : stiff.cols = mass.cols) (c : Scalar) :
    shiftedInverse (.sparse mass) (.sparse stiff) c = mkInverse (shifted mass stiff c) := by
  have h : (Op.sparse mass).sub ((Op.sparse stiff).smul c) = .ok (.sparse (shifted mass stiff c)) := by
    unfold Op.sub Op.smul Op.neg Op.add Arr.smul
    dsimp only
    rw [if_neg (by rw [hr, hc]; exact fun h => h rfl)]
    rfl
  unfold shiftedInverse
  rw [h]
  rfl

/-- The expression of one term. -/
def stepExpr (mass stiff : Arr) (pade : Pade) (dk : Scalar) (e : Expr) (i : Nat) : Expr :=
  .sub e (.mul (.smul ⟨pade.alpha i / dk.value ^ 2, true⟩ (.sparse stiff))
    (.inverse (shifted mass stiff ⟨pade.beta i / dk.value ^ 2, true⟩)))

theorem osrcStep_eq {mass stiff : Arr} (hr : stiff.rows = mass.rows) (hc : stiff.cols = mass.cols) (pade : Pade) (dk : Scalar)
    {e : Expr} {term : Op} (h : e.eval = .ok term) (i : Nat) :
    osrcStep (.sparse mass) (.sparse stiff) pade dk term i = (stepExpr mass stiff pade dk e i).eval := by
  unfold osrcStep stepExpr
  rw [shiftedInverse_eq hr hc]
  simp only [Expr.eval, h]
  cases mkInverse (shifted mass stiff ⟨pade.beta i / dk.value ^ 2, true⟩) with
  | error _ => rfl
  | ok inv => rfl

theorem pseudo_inv {n : Nat} (A : Matrix (Fin n) (Fin n) ℂ) (h : A.det ≠ 0) : IsPseudoInverse A A⁻¹ := by
  have hu : IsUnit A.det := isUnit_iff_ne_zero.mpr h
  have h1 := Matrix.mul_nonsing_inv A hu
  have h2 := Matrix.nonsing_inv_mul A hu
  unfold IsPseudoInverse
  rw [h1, h2]
  simp

theorem mat_shifted (n : Nat) (mass stiff : Arr) (c : Scalar) : mat n (shifted mass stiff c) = mat n mass - c.value • mat n stiff := by
  ext i j
  simp [mat, shifted, sub_eq_add_neg]

/-- What is needed of the two matrices for the algebra. -/
structure Square (n : Nat) (A : Arr) : Prop where
  twoD : A.twoD = true
  rows : A.rows = n
  cols : A.cols = n
  real : ∀ i j, star (A.e i j) = A.e i j

theorem Pencil.mass_square {n : Nat} {mass stiff : Arr} (h : Pencil n mass stiff) : Square n mass :=
  ⟨h.mass_shape.1, h.mass_shape.2.1, h.mass_shape.2.2, h.mass_real⟩

theorem Pencil.stiff_square {n : Nat} {mass stiff : Arr} (h : Pencil n mass stiff) : Square n stiff :=
  ⟨h.stiff_shape.1, h.stiff_shape.2.1, h.stiff_shape.2.2, h.stiff_real⟩

theorem Square.denotes {n : Nat} {A : Arr} (h : Square n A) : Denotes (.sparse A) n n (mat n A) := by
  obtain ⟨t, r, c, z, e⟩ := A
  obtain ⟨h1, h2, h3, h4⟩ := h
  dsimp only at h1 h2 h3
  subst h2 h3
  exact Denotes.sparse _

theorem Square.wellformed {n : Nat} {A : Arr} (h : Square n A) : (Expr.sparse A).Wellformed := ⟨h.twoD, fun _ => h.real⟩

theorem shifted_denotes {n : Nat} {mass stiff : Arr} (hm : Square n mass) (hs : Square n stiff) (hn : n ≠ 1) (c : Scalar)
    (hc : c.complex = false → star c.value = c.value) (hd : (mat n mass - c.value • mat n stiff).det ≠ 0) :
    Denotes (.inverse (shifted mass stiff c)) n n (mat n mass - c.value • mat n stiff)⁻¹ ∧
      (Expr.inverse (shifted mass stiff c)).Wellformed := by
  have hr := hm.rows
  have hcl := hm.cols
  constructor
  · have h := Denotes.inverse (shifted mass stiff c)
    obtain ⟨t, r, k, z, e⟩ := mass
    dsimp only at hr hcl
    subst hr
    subst hcl
    refine h _ ?_
    rw [← mat_shifted]
    rw [← mat_shifted] at hd
    exact pseudo_inv _ hd
  · refine ⟨⟨rfl, ?_⟩, ?_, ?_, ?_⟩
    · intro hz i j
      have hz' : c.complex = false := by
        have : (mass.complex || (stiff.complex || c.complex)) = false := hz
        cases hcc : c.complex
        · rfl
        · rw [hcc] at this; simp at this
      show star (mass.e i j + -(c.value * stiff.e i j)) = mass.e i j + -(c.value * stiff.e i j)
      rw [star_add, star_neg, star_mul', hm.real, hs.real, hc hz']
    · unfold FullRank
      rw [if_pos (show (shifted mass stiff c).rows ≥ (shifted mass stiff c).cols from le_of_eq (hcl.trans hr.symm))]
      obtain ⟨t, r, k, z, e⟩ := mass
      dsimp only at hr hcl
      subst hr
      subst hcl
      rw [← mat_shifted] at hd
      exact Matrix.mulVec_injective_iff_isUnit.mpr ((Matrix.isUnit_iff_isUnit_det _).mpr (isUnit_iff_ne_zero.mpr hd))
    · show mass.rows ≠ 1
      rw [hr]; exact hn
    · show mass.cols ≠ 1
      rw [hcl]; exact hn

/-- The matrix of the sum over the terms. -/
def termMatrix {n : Nat} (M K : Matrix (Fin n) (Fin n) ℂ) (pade : Pade) (dk : ℂ) (npade : Nat) : Matrix (Fin n) (Fin n) ℂ :=
  -∑ i ∈ Finset.range npade, (pade.alpha i / dk ^ 2) • K * (M - (pade.beta i / dk ^ 2) • K)⁻¹

theorem term_eval {n : Nat} {mass stiff : Arr} (hm : Square n mass) (hs : Square n stiff) (hn : n ≠ 1) (pade : Pade) (dk : Scalar)
    (npade : Nat) (hd : ∀ i < npade, (mat n mass - (pade.beta i / dk.value ^ 2) • mat n stiff).det ≠ 0) :
    ∃ (e : Expr) (op : Op), e.eval = .ok op ∧ e.Wellformed ∧ e.Plain ∧
      (List.range npade).foldlM (osrcStep (.sparse mass) (.sparse stiff) pade dk) (Op.zero n n) = .ok op ∧
      Denotes e n n (termMatrix (mat n mass) (mat n stiff) pade dk.value npade) := by
  induction npade with
  | zero =>
    refine ⟨.zero n n, .zero n n, rfl, trivial, ⟨fun _ h => (by cases h), fun _ h => (by cases h)⟩, rfl, ?_⟩
    have : termMatrix (mat n mass) (mat n stiff) pade dk.value 0 = 0 := by simp [termMatrix]
    rw [this]
    exact Denotes.zero n n
  | succ m ih =>
    obtain ⟨e, op, h1, h2, h3, h4, h5⟩ := ih fun i hi => hd i (by omega)
    obtain ⟨hi1, hi2⟩ := shifted_denotes hm hs hn ⟨pade.beta m / dk.value ^ 2, true⟩ (fun h => by cases h) (hd m (by omega))
    have hden : Denotes (stepExpr mass stiff pade dk e m) n n (termMatrix (mat n mass) (mat n stiff) pade dk.value (m + 1)) := by
      have := Denotes.sub h5 (Denotes.mul (Denotes.smul ⟨pade.alpha m / dk.value ^ 2, true⟩ hs.denotes) hi1)
      have e1 : termMatrix (mat n mass) (mat n stiff) pade dk.value (m + 1) =
          termMatrix (mat n mass) (mat n stiff) pade dk.value m -
            (pade.alpha m / dk.value ^ 2) • mat n stiff * (mat n mass - (pade.beta m / dk.value ^ 2) • mat n stiff)⁻¹ := by
        unfold termMatrix
        rw [Finset.sum_range_succ, neg_add]
        exact (sub_eq_add_neg _ _).symm
      rw [e1]
      exact this
    have hw : (stepExpr mass stiff pade dk e m).Wellformed := ⟨h2, ⟨fun h => (by cases h), hs.wellformed⟩, hi2⟩
    have hpl : (stepExpr mass stiff pade dk e m).Plain :=
      ⟨⟨fun _ h => (by cases h), fun _ h => (by cases h)⟩, h3, ⟨fun _ h => (by cases h), fun _ h => (by cases h)⟩,
        ⟨⟨fun _ h => (by cases h), fun _ h => (by cases h)⟩, ⟨fun _ h => (by cases h), fun _ h => (by cases h)⟩⟩,
        ⟨fun _ h => (by cases h), fun _ h => (by cases h)⟩⟩
    obtain ⟨op', h6, _⟩ := C81_expressions _ hw hpl _ hden
    refine ⟨_, op', h6, hw, hpl, ?_, hden⟩
    rw [List.range_succ, List.foldlM_append, h4]
    show (List.foldlM (osrcStep (.sparse mass) (.sparse stiff) pade dk) op [m]) = _
    rw [List.foldlM_cons]
    rw [osrcStep_eq (hs.rows.trans hm.rows.symm) (hs.cols.trans hm.cols.symm) pade dk h1, h6]
    rfl

theorem plain_leaf_sparse (A : Arr) : (Expr.sparse A).Plain := ⟨fun _ h => (by cases h), fun _ h => (by cases h)⟩

/-- The matrix of `c0 * mass + term * mass`. -/
def rootMatrix {n : Nat} (M K : Matrix (Fin n) (Fin n) ℂ) (pade : Pade) (dk : ℂ) (npade : Nat) : Matrix (Fin n) (Fin n) ℂ :=
  pade.c0 • M + termMatrix M K pade dk npade * M

theorem dtn_acts {n : Nat} {mass stiff : Arr} (hm : Square n mass) (hs : Square n stiff) (hn : n ≠ 1) (npade : Nat) (theta : ℝ)
    (k : Scalar) (given : Option Scalar) (bbox : BBox)
    (hd : ∀ i < npade, (mat n mass - ((padeCoeffs npade theta).beta i / (dampedWavenumber k given bbox).value ^ 2) • mat n stiff).det ≠ 0) :
    ∃ op, osrcDtn mass stiff npade theta k given bbox = .ok op ∧
      Acts op ((I * k.value) • rootMatrix (mat n mass) (mat n stiff) (padeCoeffs npade theta) (dampedWavenumber k given bbox).value npade) := by
  obtain ⟨e, term, h1, h2, h3, h4, h5⟩ := term_eval hm hs hn _ _ npade hd
  set E : Expr := .smul ⟨I * k.value, true⟩ (.add (.smul ⟨(padeCoeffs npade theta).c0, true⟩ (.sparse mass)) (.mul e (.sparse mass))) with hE
  have hden := Denotes.smul ⟨I * k.value, true⟩ (Denotes.add (Denotes.smul ⟨(padeCoeffs npade theta).c0, true⟩ hm.denotes)
    (Denotes.mul h5 hm.denotes))
  have hw : E.Wellformed := ⟨fun h => (by cases h), ⟨fun h => (by cases h), hm.wellformed⟩, h2, hm.wellformed⟩
  have hp : E.Plain := ⟨⟨fun _ h => (by cases h), fun _ h => (by cases h)⟩, ⟨fun _ h => (by cases h), fun _ h => (by cases h)⟩,
    ⟨⟨fun _ h => (by cases h), fun _ h => (by cases h)⟩, plain_leaf_sparse _⟩,
    ⟨⟨fun _ h => (by cases h), fun _ h => (by cases h)⟩, h3, plain_leaf_sparse _⟩⟩
  obtain ⟨op, h6, h7⟩ := C81_expressions E hw hp _ hden
  refine ⟨op, ?_, h7⟩
  unfold osrcDtn osrcRoot
  have hsh : (Op.sparse mass).shape = (n, n) := by unfold Op.shape; rw [hm.rows, hm.cols]
  rw [hsh]
  dsimp only
  rw [h4, ← h6, hE]
  simp only [Expr.eval, h1]
  rfl

theorem ntd_acts {n : Nat} {mass stiff : Arr} (hm : Square n mass) (hs : Square n stiff) (hn : n ≠ 1) (npade : Nat) (theta : ℝ)
    (k : Scalar) (given : Option Scalar) (bbox : BBox)
    (hdk : (dampedWavenumber k given bbox).complex = false →
      star (dampedWavenumber k given bbox).value = (dampedWavenumber k given bbox).value)
    (hd : ∀ i < npade, (mat n mass - ((padeCoeffs npade theta).beta i / (dampedWavenumber k given bbox).value ^ 2) • mat n stiff).det ≠ 0)
    (hd1 : (mat n mass - (1 / (dampedWavenumber k given bbox).value ^ 2) • mat n stiff).det ≠ 0) :
    ∃ op, osrcNtd mass stiff npade theta k given bbox = .ok op ∧
      Acts op ((1 / (I * k.value)) • (mat n mass * (mat n mass - (1 / (dampedWavenumber k given bbox).value ^ 2) • mat n stiff)⁻¹ *
        rootMatrix (mat n mass) (mat n stiff) (padeCoeffs npade theta) (dampedWavenumber k given bbox).value npade)) := by
  obtain ⟨e, term, h1, h2, h3, h4, h5⟩ := term_eval hm hs hn _ _ npade hd
  generalize hdkd : dampedWavenumber k given bbox = dk at *
  obtain ⟨hi1, hi2⟩ := shifted_denotes hm hs hn ⟨1 / dk.value ^ 2, dk.complex⟩
    (fun h => by
      show star (1 / dk.value ^ 2) = 1 / dk.value ^ 2
      rw [star_div₀, star_pow, hdk h, star_one]) hd1
  set E : Expr := .smul ⟨1 / (I * k.value), true⟩ (.mul (.mul (.sparse mass) (.inverse (shifted mass stiff ⟨1 / dk.value ^ 2, dk.complex⟩)))
    (.add (.smul ⟨(padeCoeffs npade theta).c0, true⟩ (.sparse mass)) (.mul e (.sparse mass)))) with hE
  have hden := Denotes.smul ⟨1 / (I * k.value), true⟩ (Denotes.mul (Denotes.mul hm.denotes hi1)
    (Denotes.add (Denotes.smul ⟨(padeCoeffs npade theta).c0, true⟩ hm.denotes) (Denotes.mul h5 hm.denotes)))
  have hw : E.Wellformed := ⟨fun h => (by cases h), ⟨hm.wellformed, hi2⟩, ⟨fun h => (by cases h), hm.wellformed⟩, h2, hm.wellformed⟩
  have hp : E.Plain := ⟨⟨fun _ h => (by cases h), fun _ h => (by cases h)⟩, ⟨fun _ h => (by cases h), fun _ h => (by cases h)⟩,
    ⟨⟨fun _ h => (by cases h), fun _ h => (by cases h)⟩, plain_leaf_sparse _, ⟨fun _ h => (by cases h), fun _ h => (by cases h)⟩⟩,
    ⟨fun _ h => (by cases h), fun _ h => (by cases h)⟩, ⟨⟨fun _ h => (by cases h), fun _ h => (by cases h)⟩, plain_leaf_sparse _⟩,
    ⟨⟨fun _ h => (by cases h), fun _ h => (by cases h)⟩, h3, plain_leaf_sparse _⟩⟩
  obtain ⟨op, h6, h7⟩ := C81_expressions E hw hp _ hden
  refine ⟨op, ?_, h7⟩
  unfold osrcNtd
  rw [hdkd, hm.rows, hm.cols]
  dsimp only
  rw [h4, ← h6, hE, shiftedInverse_eq (hs.rows.trans hm.rows.symm) (hs.cols.trans hm.cols.symm)]
  simp only [Expr.eval, h1]
  show (do let inv ← mkInverse (shifted mass stiff ⟨1 / dk.value ^ 2, dk.complex⟩)
           let left ← (Op.sparse mass).mul inv
           let t ← term.mul (.sparse mass)
           let root ← ((Op.sparse mass).smul ⟨(padeCoeffs npade theta).c0, true⟩).add t
           let p ← left.mul root
           Except.ok (p.smul ⟨1 / (I * k.value), true⟩)) = (do
             let u ← (do let u ← (do let v ← mkInverse (shifted mass stiff ⟨1 / dk.value ^ 2, dk.complex⟩); (Op.sparse mass).mul v)
                         let v ← (do let v ← term.mul (.sparse mass); ((Op.sparse mass).smul ⟨(padeCoeffs npade theta).c0, true⟩).add v)
                         u.mul v)
             Except.ok (u.smul ⟨1 / (I * k.value), true⟩))
  cases mkInverse (shifted mass stiff ⟨1 / dk.value ^ 2, dk.complex⟩) with
  | error _ => rfl
  | ok inv =>
    show (do let left ← (Op.sparse mass).mul inv
             let t ← term.mul (.sparse mass)
             let root ← ((Op.sparse mass).smul ⟨(padeCoeffs npade theta).c0, true⟩).add t
             let p ← left.mul root
             Except.ok (p.smul ⟨1 / (I * k.value), true⟩)) = (do
               let u ← (do let u ← (Op.sparse mass).mul inv
                           let v ← (do let v ← term.mul (.sparse mass); ((Op.sparse mass).smul ⟨(padeCoeffs npade theta).c0, true⟩).add v)
                           u.mul v)
               Except.ok (u.smul ⟨1 / (I * k.value), true⟩))
    cases (Op.sparse mass).mul inv with
    | error _ => rfl
    | ok left =>
      cases term.mul (.sparse mass) with
      | error _ => rfl
      | ok t =>
        show (do let root ← ((Op.sparse mass).smul ⟨(padeCoeffs npade theta).c0, true⟩).add t
                 let p ← left.mul root
                 Except.ok (p.smul ⟨1 / (I * k.value), true⟩)) = (do
               let u ← (do let v ← ((Op.sparse mass).smul ⟨(padeCoeffs npade theta).c0, true⟩).add t
                           left.mul v)
               Except.ok (u.smul ⟨1 / (I * k.value), true⟩))
        cases ((Op.sparse mass).smul ⟨(padeCoeffs npade theta).c0, true⟩).add t with
        | error _ => rfl
        | ok r => rfl

end

end Verif.PyOp
