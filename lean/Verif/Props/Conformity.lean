import Verif.Spec.Conformity
import Verif.Props.SpaceVector
/-
Property C72: functions of the RWG and Raviart-Thomas spaces have continuous normal components, those of the Nedelec spaces
continuous tangential components on consistently oriented surfaces.
-/
namespace Verif.Space
open Verif.Grid Verif.Shape

/-! ### One triangle -/

section
variable (X Y Z : P3 ℝ) (h : areaVector X Y Z ≠ ⟨0, 0, 0⟩)
include h

theorem side_ne : 0 < (Y.sub X).dot (Y.sub X) := by
  rcases lt_or_eq_of_le (show 0 ≤ (Y.sub X).dot (Y.sub X) by
    simp only [P3.dot]; nlinarith [mul_self_nonneg (Y.sub X).x, mul_self_nonneg (Y.sub X).y, mul_self_nonneg (Y.sub X).z]) with h0 | h0
  · exact h0
  · exfalso
    have hg := gram_pos X Y Z h
    unfold gram at hg
    rw [← h0] at hg
    nlinarith [sq_nonneg ((Y.sub X).dot (Z.sub X))]

/-- The outward conormal: its product with the third side. -/
theorem conormal_third (ν : P3 ℝ) (hν : OutwardConormal X Y Z ν) :
    ν.dot (Z.sub X) = -((fullData X Y Z).integrationElement / Real.sqrt ((Y.sub X).dot (Y.sub X))) := by
  have hl := side_ne X Y Z h
  have hi := ie_pos X Y Z h
  have hs := ie_sq X Y Z h
  have hll := Real.sq_sqrt hl.le
  have hlp := Real.sqrt_pos.mpr hl
  -- w = (|a|² c - (a·c) a)
  have key : ν = P3.smul (ν.dot (Z.sub X) / gram (Y.sub X) (Z.sub X))
      ⟨(Y.sub X).dot (Y.sub X) * (Z.sub X).x - (Y.sub X).dot (Z.sub X) * (Y.sub X).x,
       (Y.sub X).dot (Y.sub X) * (Z.sub X).y - (Y.sub X).dot (Z.sub X) * (Y.sub X).y,
       (Y.sub X).dot (Y.sub X) * (Z.sub X).z - (Y.sub X).dot (Z.sub X) * (Y.sub X).z⟩ := by
    have hgr := (gram_pos X Y Z h).ne'
    have hn := normal_eq X Y Z h
    have hco := hν.coplanar
    have hor := hν.orthogonal
    apply eq_of_dots X Y Z h
    · show ν.dot (Y.sub X) = _
      rw [hor]
      show (0 : ℝ) = P3.dot _ (Y.sub X)
      simp only [P3.dot, P3.smul]
      ring
    · show ν.dot (Z.sub X) = P3.dot _ (Z.sub X)
      generalize hk : ν.dot (Z.sub X) = κ
      generalize hG : gram (Y.sub X) (Z.sub X) = G at *
      have : ∀ u w : P3 ℝ, gram u w = G → κ = P3.dot (P3.smul (κ / G)
          ⟨u.dot u * w.x - u.dot w * u.x, u.dot u * w.y - u.dot w * u.y, u.dot u * w.z - u.dot w * u.z⟩) w := by
        intro u w hu
        have : P3.dot (P3.smul (κ / G)
          ⟨u.dot u * w.x - u.dot w * u.x, u.dot u * w.y - u.dot w * u.y, u.dot u * w.z - u.dot w * u.z⟩) w = κ / G * gram u w := by
          simp only [gram, P3.dot, P3.smul]; ring
        rw [this, hu]; field_simp
      exact this _ _ hG
    · rw [hn]
      have e1 : ∀ u : P3 ℝ, u.dot ⟨(areaVector X Y Z).x / (fullData X Y Z).integrationElement,
          (areaVector X Y Z).y / (fullData X Y Z).integrationElement, (areaVector X Y Z).z / (fullData X Y Z).integrationElement⟩ =
          u.dot (areaVector X Y Z) / (fullData X Y Z).integrationElement := by
        intro u; simp only [P3.dot]; ring
      rw [e1, e1, hco]
      generalize ν.dot (Z.sub X) / gram (Y.sub X) (Z.sub X) = κ
      simp only [P3.dot, P3.smul, areaVector, P3.sub]
      ring
  have hu := hν.unit
  have hsq : ν.dot ν = (ν.dot (Z.sub X)) ^ 2 * (Y.sub X).dot (Y.sub X) / gram (Y.sub X) (Z.sub X) := by
    have hgr := (gram_pos X Y Z h).ne'
    conv_lhs => rw [key]
    generalize ν.dot (Z.sub X) = κ
    have : ∀ u w : P3 ℝ, gram u w ≠ 0 → P3.dot (P3.smul (κ / gram u w)
          ⟨u.dot u * w.x - u.dot w * u.x, u.dot u * w.y - u.dot w * u.y, u.dot u * w.z - u.dot w * u.z⟩)
          (P3.smul (κ / gram u w)
          ⟨u.dot u * w.x - u.dot w * u.x, u.dot u * w.y - u.dot w * u.y, u.dot u * w.z - u.dot w * u.z⟩) =
          κ ^ 2 * u.dot u / gram u w := by
      intro u w hg
      have : P3.dot (P3.smul (κ / gram u w)
          ⟨u.dot u * w.x - u.dot w * u.x, u.dot u * w.y - u.dot w * u.y, u.dot u * w.z - u.dot w * u.z⟩)
          (P3.smul (κ / gram u w)
          ⟨u.dot u * w.x - u.dot w * u.x, u.dot u * w.y - u.dot w * u.y, u.dot u * w.z - u.dot w * u.z⟩) =
          (κ / gram u w) ^ 2 * (u.dot u * gram u w) := by
        generalize κ / gram u w = r
        simp only [gram, P3.dot, P3.smul]; ring
      rw [this]; field_simp
    exact this _ _ hgr
  rw [hu, ← hs] at hsq
  have hneg := hν.outward
  generalize ν.dot (Z.sub X) = κ at *
  generalize (fullData X Y Z).integrationElement = i at *
  rw [← hll] at hsq
  generalize Real.sqrt ((Y.sub X).dot (Y.sub X)) = l at *
  have h2 : (κ * l) ^ 2 = i ^ 2 := by
    have : i ^ 2 ≠ 0 := by positivity
    field_simp at hsq
    linarith [hsq]
  have h3 : κ * l = -i := by
    rcases sq_eq_sq_iff_eq_or_eq_neg.mp h2 with h3 | h3
    · have : κ * l < 0 := mul_neg_of_neg_of_pos hneg hlp
      linarith
    · exact h3
  field_simp
  linarith

end

/-- The corners of a triangle with local side `k` first: (0,1), (0,2), (1,2). -/
def sideCorners {α : Type} (A B C : α) : Nat → α × α × α
  | 0 => (A, B, C)
  | 1 => (A, C, B)
  | _ => (B, C, A)

theorem OutwardConormal.swap {X Y Z ν : P3 ℝ} (h : OutwardConormal X Y Z ν) : OutwardConormal Y X Z ν := by
  obtain ⟨h1, h2, h3, h4⟩ := h
  refine ⟨h1, ?_, ?_, ?_⟩
  · simp only [P3.dot, P3.sub] at *; linarith
  · simp only [P3.dot, areaVector, P3.sub] at *; linarith
  · simp only [P3.dot, P3.sub] at *; linarith

theorem area_side (A B C : P3 ℝ) (k : Nat) (h : areaVector A B C ≠ ⟨0, 0, 0⟩) :
    let s := sideCorners A B C k
    areaVector s.1 s.2.1 s.2.2 ≠ ⟨0, 0, 0⟩ ∧
      (fullData s.1 s.2.1 s.2.2).integrationElement = (fullData A B C).integrationElement := by
  have e : ∀ A' B' C' : P3 ℝ, (fullData A' B' C').integrationElement =
      Real.sqrt (gram (B'.sub A') (C'.sub A')) := fun _ _ _ => rfl
  match k with
  | 0 => exact ⟨h, rfl⟩
  | 1 =>
    refine ⟨?_, ?_⟩
    · intro h1
      apply h
      have hx := congrArg P3.x h1
      have hy := congrArg P3.y h1
      have hz := congrArg P3.z h1
      simp only [sideCorners, areaVector] at hx hy hz
      simp only [areaVector, P3.mk.injEq]
      refine ⟨?_, ?_, ?_⟩ <;> linarith
    · rw [e, e]
      congr 1
      simp only [sideCorners, gram, P3.dot, P3.sub]; ring
  | k + 2 =>
    refine ⟨?_, ?_⟩
    · intro h1
      apply h
      have hx := congrArg P3.x h1
      have hy := congrArg P3.y h1
      have hz := congrArg P3.z h1
      simp only [sideCorners, areaVector] at hx hy hz
      simp only [areaVector, P3.mk.injEq]
      refine ⟨?_, ?_, ?_⟩ <;> linarith
    · rw [e, e]
      congr 1
      simp only [sideCorners, gram, P3.dot, P3.sub]; ring

/-- The reference point lies on local side `k`. -/
def onLocalSide (q : ℝ × ℝ) : Nat → Prop
  | 0 => q.2 = 0
  | 1 => q.1 = 0
  | _ => q.1 + q.2 = 1

/-- Flux of the shape functions through side `k`: one over the length of the side for the function of the side, zero for the
others. -/
theorem shape_flux (A B C : P3 ℝ) (h : areaVector A B C ≠ ⟨0, 0, 0⟩) (k : Nat) (hk : k < 3) (q : ℝ × ℝ) (hq : onLocalSide q k)
    (ν : P3 ℝ) (hν : OutwardConormal (sideCorners A B C k).1 (sideCorners A B C k).2.1 (sideCorners A B C k).2.2 ν)
    (j : Nat) (hj : j < 3) :
    (hdivValue (rtShape j q) (fullData A B C)).dot ν =
      if j = k then 1 / Real.sqrt (((sideCorners A B C k).2.1.sub (sideCorners A B C k).1).dot
        ((sideCorners A B C k).2.1.sub (sideCorners A B C k).1)) else 0 := by
  obtain ⟨hs, hie⟩ := area_side A B C k h
  have h3 := conormal_third _ _ _ hs ν hν
  have hl := Real.sqrt_pos.mpr (side_ne _ _ _ hs)
  have h0 := hν.orthogonal
  have hi := ie_pos A B C h
  rw [hie] at h3
  have e : ∀ b : BasisAt, (hdivValue b (fullData A B C)).dot ν = (b.v0 * ν.dot (B.sub A) + b.v1 * ν.dot (C.sub A)) /
      (fullData A B C).integrationElement := by
    intro b
    rw [hdiv_tangential]
    simp only [displacement, P3.dot, P3.sub]
    ring
  rw [e]
  have key : ∀ x y l i : ℝ, 0 < l → 0 < i → x = -(i / l) * y → x / i = -y * (1 / l) := by
    intro x y l i hl hi hx
    rw [hx]; field_simp
  have hB : ν.dot (B.sub C) = ν.dot (B.sub A) - ν.dot (C.sub A) := by simp only [P3.dot, P3.sub]; ring
  generalize Real.sqrt (((sideCorners A B C k).2.1.sub (sideCorners A B C k).1).dot
        ((sideCorners A B C k).2.1.sub (sideCorners A B C k).1)) = l at *
  generalize (fullData A B C).integrationElement = i at *
  interval_cases k
  · simp only [sideCorners, onLocalSide] at *
    rw [h0, h3]
    interval_cases j <;> simp [rtShape, hq] <;> field_simp
  · simp only [sideCorners, onLocalSide] at *
    rw [h0, h3]
    interval_cases j <;> simp [rtShape, hq] <;> field_simp
  · simp only [sideCorners, onLocalSide] at *
    have e1 : ν.dot (C.sub A) = i / l := by
      have : ν.dot (C.sub A) = ν.dot (C.sub B) - ν.dot (A.sub B) := by simp only [P3.dot, P3.sub]; ring
      rw [this, h0, h3]; ring
    have e2 : ν.dot (B.sub A) = i / l := by
      have : ν.dot (B.sub A) = - ν.dot (A.sub B) := by simp only [P3.dot, P3.sub]; ring
      rw [this, h3]; ring
    rw [e1, e2]
    have hq2 : q.2 = 1 - q.1 := by linarith
    interval_cases j
    · simp [rtShape, hq2]
    · simp [rtShape, hq2]; left; ring
    · simp [rtShape, hq2]; field_simp; ring

/-! ### Elements of a grid -/

section
variable (g : GridData ℝ) (hg : g.Valid) (e : Nat) (t : Tri) (ht : g.data.elements[e]? = some t)
  (hn : areaVector (nodeAt g.nodes t.a) (nodeAt g.nodes t.b) (nodeAt g.nodes t.c) ≠ ⟨0, 0, 0⟩)
include hg ht hn

/-- The sides of an element, with the vertices in any order. -/
theorem side_local (x y z : Nat) (hp : [x, y, z].Perm t.verts) (f0 f1 f2 : Nat) (hf : g.data.element2Edges[e]? = some [f0, f1, f2]) :
    ∃ k < 3, (∃ f p, ([f0, f1, f2] : List Nat)[k]? = some f ∧ g.data.edges[f]? = some p ∧ side p = s(x, y)) ∧
      (∀ ν, OutwardConormal (nodeAt g.nodes x) (nodeAt g.nodes y) (nodeAt g.nodes z) ν →
        let sc := sideCorners (nodeAt g.nodes t.a) (nodeAt g.nodes t.b) (nodeAt g.nodes t.c) k
        OutwardConormal sc.1 sc.2.1 sc.2.2 ν ∧
        (sc.2.1.sub sc.1).dot (sc.2.1.sub sc.1) =
          ((nodeAt g.nodes y).sub (nodeAt g.nodes x)).dot ((nodeAt g.nodes y).sub (nodeAt g.nodes x))) ∧
      (∀ q, OnSide g t q x y → onLocalSide q k) := by
  obtain ⟨g0, g1, g2, p0, p1, p2, hedges, hp0, hs0, hp1, hs1, hp2, hs2, -⟩ := element_edges g hg e t ht
  rw [hf] at hedges
  simp only [Option.some.injEq, List.cons.injEq, and_true] at hedges
  obtain ⟨rfl, rfl, rfl⟩ := hedges
  have hnd : [x, y, z].Nodup := by
    rw [hp.nodup_iff]
    have := hg.mesh.proper t (List.mem_of_getElem? ht)
    unfold Tri.Proper at this
    simp [Tri.verts]; tauto
  have hsym : ∀ X Y : P3 ℝ, (X.sub Y).dot (X.sub Y) = (Y.sub X).dot (Y.sub X) := by
    intro X Y; simp only [P3.dot, P3.sub]; ring
  -- reference coordinates of the points of a side
  have hco : ∀ q q' : ℝ × ℝ, refMap (nodeAt g.nodes t.a) (nodeAt g.nodes t.b) (nodeAt g.nodes t.c) q =
      refMap (nodeAt g.nodes t.a) (nodeAt g.nodes t.b) (nodeAt g.nodes t.c) q' → q = q' :=
    fun q q' h => refMap_inj _ _ _ hn q q' h
  have hx : x ∈ t.verts := hp.subset (by simp)
  have hy : y ∈ t.verts := hp.subset (by simp)
  have hz : z ∈ t.verts := hp.subset (by simp)
  simp only [List.nodup_cons, List.mem_cons, List.not_mem_nil, or_false, not_or] at hnd
  simp only [Tri.verts, List.mem_cons, List.not_mem_nil, or_false] at hx hy hz
  obtain ⟨⟨hxy, hxz⟩, hyz, -⟩ := hnd
  have go : ∀ (q q' : ℝ × ℝ) (P : P3 ℝ), refMap (nodeAt g.nodes t.a) (nodeAt g.nodes t.b) (nodeAt g.nodes t.c) q = P →
      refMap (nodeAt g.nodes t.a) (nodeAt g.nodes t.b) (nodeAt g.nodes t.c) q' = P → q = q' :=
    fun q q' P h1 h2 => hco q q' (h1.trans h2.symm)
  rcases hx with hx | hx | hx <;> rcases hy with hy | hy | hy <;> rcases hz with hz | hz | hz <;>
    first
    | exact absurd (hx.trans hy.symm) hxy
    | exact absurd (hx.trans hz.symm) hxz
    | exact absurd (hy.trans hz.symm) hyz
    | skip
  -- (a, b, c)
  · subst hx hy hz
    refine ⟨0, by omega, ⟨f0, p0, rfl, hp0, hs0⟩, fun ν hν => ⟨hν, rfl⟩, ?_⟩
    rintro q ⟨τ, hτ⟩
    have := go q (τ, 0) _ hτ (by simp only [refMap, P3.mk.injEq]; refine ⟨?_, ?_, ?_⟩ <;> ring)
    rw [this]; rfl
  -- (a, c, b)
  · subst hx hy hz
    refine ⟨1, by omega, ⟨f1, p1, rfl, hp1, hs1⟩, fun ν hν => ⟨hν, rfl⟩, ?_⟩
    rintro q ⟨τ, hτ⟩
    have := go q (0, τ) _ hτ (by simp only [refMap, P3.mk.injEq]; refine ⟨?_, ?_, ?_⟩ <;> ring)
    rw [this]; rfl
  -- (b, a, c)
  · subst hx hy hz
    refine ⟨0, by omega, ⟨f0, p0, rfl, hp0, hs0.trans Sym2.eq_swap⟩, fun ν hν => ⟨hν.swap, hsym _ _⟩, ?_⟩
    rintro q ⟨τ, hτ⟩
    have := go q (1 - τ, 0) _ hτ (by simp only [refMap, P3.mk.injEq]; refine ⟨?_, ?_, ?_⟩ <;> ring)
    rw [this]; rfl
  -- (b, c, a)
  · subst hx hy hz
    refine ⟨2, by omega, ⟨f2, p2, rfl, hp2, hs2⟩, fun ν hν => ⟨hν, rfl⟩, ?_⟩
    rintro q ⟨τ, hτ⟩
    have := go q (1 - τ, τ) _ hτ (by simp only [refMap, P3.mk.injEq]; refine ⟨?_, ?_, ?_⟩ <;> ring)
    rw [this]; simp [onLocalSide]
  -- (c, a, b)
  · subst hx hy hz
    refine ⟨1, by omega, ⟨f1, p1, rfl, hp1, hs1.trans Sym2.eq_swap⟩, fun ν hν => ⟨hν.swap, hsym _ _⟩, ?_⟩
    rintro q ⟨τ, hτ⟩
    have := go q (0, 1 - τ) _ hτ (by simp only [refMap, P3.mk.injEq]; refine ⟨?_, ?_, ?_⟩ <;> ring)
    rw [this]; rfl
  -- (c, b, a)
  · subst hx hy hz
    refine ⟨2, by omega, ⟨f2, p2, rfl, hp2, hs2.trans Sym2.eq_swap⟩, fun ν hν => ⟨hν.swap, hsym _ _⟩, ?_⟩
    rintro q ⟨τ, hτ⟩
    have := go q (τ, 1 - τ) _ hτ (by simp only [refMap, P3.mk.injEq]; refine ⟨?_, ?_, ?_⟩ <;> ring)
    rw [this]; simp [onLocalSide]

/-- The flux of a function through a side of an element. -/
theorem field_flux (hused : AllUsed g) (domain : Nat → Int) (s : GridSegment) (mode : DofMode) (pb : Bool) (vol : Nat → ℝ)
    (m : DofMaps) (hm : assignRWG (g.data.view domain) s mode pb = .ok m) (c : Nat → ℝ)
    (x y z : Nat) (hp : [x, y, z].Perm t.verts) (ν : P3 ℝ)
    (hν : OutwardConormal (nodeAt g.nodes x) (nodeAt g.nodes y) (nodeAt g.nodes z) ν) (q : ℝ × ℝ) (hq : OnSide g t q x y) :
    ∃ f p X, g.data.edges[f]? = some p ∧ side p = s(x, y) ∧ (g.data.view domain).elems[e]? = some X ∧ X.index = e ∧ f ∈ X.sub 1 ∧
      (open Classical in
      rtField g (g.data.view domain) s mode vol m c e t q ν =
        if RWGEdge (g.data.view domain) s mode pb f ∧ (mode.elementOnSegment = true → s.contains 0 e = .ok true) then
          c (countBelow (RWGEdge (g.data.view domain) s mode pb) f) *
            (if ((rwgScan (g.data.view domain) s mode)[f]?.bind (·.lowest)) = some e then vol f else -vol f) *
            (1 / Real.sqrt (((nodeAt g.nodes y).sub (nodeAt g.nodes x)).dot ((nodeAt g.nodes y).sub (nodeAt g.nodes x))))
        else 0) := by
  classical
  obtain ⟨f0, f1, f2, p0, p1, p2, hedges, -⟩ := element_edges g hg e t ht
  obtain ⟨k, hk, ⟨f, p, hfk, hpf, hside⟩, hcon, hon⟩ := side_local g hg e t ht hn x y z hp f0 f1 f2 hedges
  obtain ⟨X, hX, hidx, -, hsub⟩ := view_elem g.data domain e t ht
  rw [hedges] at hsub
  simp only [Option.getD_some] at hsub
  obtain ⟨hcon, hlen⟩ := hcon ν hν
  have hflux := shape_flux _ _ _ hn k hk q (hon q hq) ν hcon
  rw [hlen] at hflux
  have hv := gridView_wf g hg hused domain
  have htri : Triangular (g.data.view domain) := by
    refine ⟨rfl, ?_⟩
    intro e he
    obtain ⟨n, hn⟩ := List.getElem?_of_mem he
    obtain ⟨t, -, -, hs, -⟩ := view_elem' g.data domain n e hn
    rw [hs]; rfl
  have hmem := List.mem_of_getElem? hX
  have hfm : ∀ (i f : Nat), ([f0, f1, f2] : List Nat)[i]? = some f → f < (g.data.view domain).count 1 := by
    intro i f hf
    have := sub_lt (g.data.view domain) hv hmem (by omega : (1 : Nat) ≠ 0) (by show (1 : Nat) ≤ 2; omega) (by rw [hsub]; exact hf)
    exact this
  refine ⟨f, p, X, hpf, hside, hX, hidx, by rw [hsub]; exact List.mem_of_getElem? hfk, ?_⟩
  -- the row
  have hgood := rwg_good (g.data.view domain) hv rfl s mode pb
  rw [assignRWG_ok _ htri] at hm
  cases hm
  have hrow : (writeElements (g.data.view domain) (rwgNumbering (g.data.view domain) s mode pb).2 (fun e => (e.sub 1).length)
      (rwgWrites (g.data.view domain) s mode pb)).getGlobalDofs e =
      ([f0, f1, f2] : List Nat).map fun f => if RWGEdge (g.data.view domain) s mode pb f ∧
        (mode.elementOnSegment = true → s.contains 0 e = .ok true) then
          (countBelow (RWGEdge (g.data.view domain) s mode pb) f : Int) else -1 := by
    rw [← hidx, writeElements_row hgood hmem]
    have hR : ∀ (i f : Nat), ([f0, f1, f2] : List Nat)[i]? = some f →
        (if !mode.elementOnSegment || inSegment s 0 X.index then
          (rwgNumbering (g.data.view domain) s mode pb).1.getD f (-1) else -1) =
        if RWGEdge (g.data.view domain) s mode pb f ∧ (mode.elementOnSegment = true → s.contains 0 X.index = .ok true) then
          (countBelow (RWGEdge (g.data.view domain) s mode pb) f : Int) else -1 := by
      intro i f hf
      rw [rwgNumbering_get _ hv s mode pb f (hfm i f hf)]
      have hin := inSegment_iff s 0 X.index
      by_cases h1 : RWGEdge (g.data.view domain) s mode pb f
      · rw [if_pos h1]
        cases hmo : mode.elementOnSegment
        · simp [h1]
        · by_cases h2 : inSegment s 0 X.index = true
          · have h3 := hin.mp h2
            simp only [Nat.cast_zero, Int.ofNat_zero] at h3
            simp [h1, h2]
            exact h3
          · have h3 : ¬ s.contains 0 X.index = .ok true := fun h => h2 (hin.mpr h)
            simp [h2]
            exact fun _ h => absurd h h3
      · rw [if_neg h1]
        simp [h1]
    unfold rowOf rwgWrites
    simp only [hsub, List.zipIdx_cons, List.zipIdx_nil, List.map_cons, List.map_nil, hR 0 f0 rfl, hR 1 f1 rfl, hR 2 f2 rfl,
      List.length_cons, List.length_nil, List.foldl_cons, List.foldl_nil]
    rfl
  have hw : elementWeights (g.data.view domain) s mode vol e = ([f0, f1, f2] : List Nat).map fun f =>
      if ((rwgScan (g.data.view domain) s mode)[f]?.bind (·.lowest)) = some e then vol f else -vol f := by
    unfold elementWeights rwgWeights
    rw [hX]
    simp only [Option.map_some, Option.getD_some, hsub, hidx]
  unfold rtField
  rw [hrow, hw]
  simp only [List.map_cons, List.map_nil]
  rw [expandW_three]
  have hfl : ∀ j < 3, (hdivValue (rtShape j q) (elementData g t)).dot ν = if j = k then
      1 / Real.sqrt (((nodeAt g.nodes y).sub (nodeAt g.nodes x)).dot ((nodeAt g.nodes y).sub (nodeAt g.nodes x))) else 0 := hflux
  rw [hfl 0 (by omega), hfl 1 (by omega), hfl 2 (by omega)]
  have hpos : ∀ (P : Prop) [Decidable P] (n : Nat) (A : ℝ), (if (0 : Int) ≤ (if P then (n : Int) else -1) then
      c (if P then (n : Int) else -1).toNat * A else 0) = if P then c n * A else 0 := by
    intro P _ n A
    by_cases hP : P
    · rw [if_pos hP, if_pos hP, if_pos (by omega), Int.toNat_natCast]
    · rw [if_neg hP, if_neg (by omega), if_neg hP]
  simp only [mul_assoc, hpos]
  interval_cases k
  · simp only [List.getElem?_cons_zero, Option.some.injEq] at hfk
    subst hfk
    simp
  · simp only [List.getElem?_cons_succ, List.getElem?_cons_zero, Option.some.injEq] at hfk
    subst hfk
    simp
  · simp only [List.getElem?_cons_succ, List.getElem?_cons_zero, Option.some.injEq] at hfk
    subst hfk
    simp

end


/-- An edge is determined by its end points. -/
theorem edge_unique (g : GridData ℝ) (hg : g.Valid) (f f' : Nat) (p p' : Nat × Nat) (h : g.data.edges[f]? = some p)
    (h' : g.data.edges[f']? = some p') (hs : side p = side p') : f = f' := by
  obtain ⟨c, hc⟩ := hg.init
  have hnd := (C31_edges _ _ c _ hc).1
  have h1 : (g.data.edges.map side)[f]? = some (side p) := by rw [List.getElem?_map, h]; rfl
  have h2 : (g.data.edges.map side)[f']? = some (side p) := by rw [List.getElem?_map, h', hs]; rfl
  have hl := (List.getElem?_eq_some_iff.mp h1).1
  exact (List.getElem?_inj hl hnd).mp (h1.trans h2.symm)

/-- The elements that have an edge are those that have its side. -/
theorem adjacent_side (g : GridData ℝ) (hg : g.Valid) (domain : Nat → Int) (f : Nat) (p : Nat × Nat)
    (h : g.data.edges[f]? = some p) (X : Elem) :
    X ∈ adjacentElems (g.data.view domain) f → ∃ t, g.data.elements[X.index]? = some t ∧ side p ∈ t.sides := by
  intro hX
  have h2 := List.mem_filter.mp hX
  obtain ⟨n, hn⟩ := List.getElem?_of_mem h2.1
  obtain ⟨t, ht, hidx, -, hsub⟩ := view_elem' g.data domain n X hn
  obtain ⟨f0, f1, f2, p0, p1, p2, hedges, hp0, hs0, hp1, hs1, hp2, hs2, -⟩ := element_edges g hg n t ht
  rw [hedges] at hsub
  simp only [Option.getD_some] at hsub
  rw [hidx]
  refine ⟨t, ht, ?_⟩
  have hf : f ∈ [f0, f1, f2] := by rw [← hsub]; simpa using h2.2
  simp only [List.mem_cons, List.not_mem_nil, or_false] at hf
  unfold Tri.sides
  rcases hf with rfl | rfl | rfl
  · rw [h] at hp0; cases hp0; rw [hs0]; simp
  · rw [h] at hp1; cases hp1; rw [hs1]; simp
  · rw [h] at hp2; cases hp2; rw [hs2]; simp

/-- **C72 (normal components)** Let `x y` be a side of exactly two elements `e1`, `e2` of the grid, both in the segment or both
outside (no condition if elements are not selected by the segment).  For every vector of coefficients the fluxes of the RWG
(`vol` = lengths) or Raviart-Thomas (`vol = 1`) function out of the two elements through the side cancel, at every point of
the side. -/
theorem C72_normal_continuity (g : GridData ℝ) (hg : g.Valid) (hused : AllUsed g) (domain : Nat → Int) (s : GridSegment)
    (mode : DofMode) (pb : Bool) (vol : Nat → ℝ) :
    ∃ m, assignRWG (g.data.view domain) s mode pb = .ok m ∧
      ∀ (c : Nat → ℝ) (e1 e2 : Nat) (t1 t2 : Tri) (x y z1 z2 : Nat) (q1 q2 : ℝ × ℝ) (ν1 ν2 : P3 ℝ), e1 ≠ e2 →
        g.data.elements[e1]? = some t1 → g.data.elements[e2]? = some t2 →
        [x, y, z1].Perm t1.verts → [x, y, z2].Perm t2.verts →
        (∀ e3 t3, g.data.elements[e3]? = some t3 → s(x, y) ∈ t3.sides → e3 = e1 ∨ e3 = e2) →
        areaVector (nodeAt g.nodes t1.a) (nodeAt g.nodes t1.b) (nodeAt g.nodes t1.c) ≠ ⟨0, 0, 0⟩ →
        areaVector (nodeAt g.nodes t2.a) (nodeAt g.nodes t2.b) (nodeAt g.nodes t2.c) ≠ ⟨0, 0, 0⟩ →
        OnSide g t1 q1 x y → OnSide g t2 q2 x y →
        OutwardConormal (nodeAt g.nodes x) (nodeAt g.nodes y) (nodeAt g.nodes z1) ν1 →
        OutwardConormal (nodeAt g.nodes x) (nodeAt g.nodes y) (nodeAt g.nodes z2) ν2 →
        (mode.elementOnSegment = true → (s.contains 0 e1 = .ok true ↔ s.contains 0 e2 = .ok true)) →
        rtField g (g.data.view domain) s mode vol m c e1 t1 q1 ν1 +
          rtField g (g.data.view domain) s mode vol m c e2 t2 q2 ν2 = 0 := by
  classical
  have hv := gridView_wf g hg hused domain
  have htri : Triangular (g.data.view domain) := by
    refine ⟨rfl, ?_⟩
    intro e he
    obtain ⟨n, hn⟩ := List.getElem?_of_mem he
    obtain ⟨t, -, -, hs, -⟩ := view_elem' g.data domain n e hn
    rw [hs]; rfl
  refine ⟨_, assignRWG_ok _ htri s mode pb, ?_⟩
  intro c e1 e2 t1 t2 x y z1 z2 q1 q2 ν1 ν2 hne ht1 ht2 hp1 hp2 h3 hn1 hn2 hq1 hq2 hν1 hν2 hseg
  obtain ⟨f1, p1, X1, hf1, hs1, hX1, hi1, hfX1, hval1⟩ := field_flux g hg e1 t1 ht1 hn1 hused domain s mode pb vol _
    (assignRWG_ok _ htri s mode pb) c x y z1 hp1 ν1 hν1 q1 hq1
  obtain ⟨f2, p2, X2, hf2, hs2, hX2, hi2, hfX2, hval2⟩ := field_flux g hg e2 t2 ht2 hn2 hused domain s mode pb vol _
    (assignRWG_ok _ htri s mode pb) c x y z2 hp2 ν2 hν2 q2 hq2
  have hf : f1 = f2 := edge_unique g hg _ _ _ _ hf1 hf2 (hs1.trans hs2.symm)
  subst hf
  rw [hval1, hval2]
  by_cases hR : RWGEdge (g.data.view domain) s mode pb f1
  · by_cases hc : mode.elementOnSegment = true → s.contains 0 e1 = .ok true
    · have hc2 : mode.elementOnSegment = true → s.contains 0 e2 = .ok true := fun h => (hseg h).mp (hc h)
      have hy1 : RWGEdge (g.data.view domain) s mode pb f1 ∧ (mode.elementOnSegment = true → s.contains 0 e1 = .ok true) := ⟨hR, hc⟩
      have hy2 : RWGEdge (g.data.view domain) s mode pb f1 ∧ (mode.elementOnSegment = true → s.contains 0 e2 = .ok true) := ⟨hR, hc2⟩
      rw [if_pos hy1, if_pos hy2]
      obtain ⟨E, hE, hfE, hmin, hw⟩ := C43_weights (g.data.view domain) hv htri s mode pb vol f1 hR
      have hadj : E ∈ adjacentElems (g.data.view domain) f1 := List.mem_filter.mpr ⟨hE, by simpa using hfE⟩
      obtain ⟨t3, ht3, hs3⟩ := adjacent_side g hg domain f1 p1 hf1 E hadj
      have hor := h3 E.index t3 ht3 (by rw [← hs1]; exact hs3)
      have hwt : ∀ (X : Elem), X ∈ (g.data.view domain).elems → f1 ∈ X.sub 1 →
          (if ((rwgScan (g.data.view domain) s mode)[f1]?.bind (·.lowest)) = some X.index then vol f1 else -vol f1) =
            if X.index = E.index then vol f1 else -vol f1 := by
        intro X hX hfX
        obtain ⟨i, hi⟩ := List.getElem?_of_mem hfX
        have h4 := hw X hX i hi
        unfold rwgWeights at h4
        rw [List.getElem?_map, hi] at h4
        simpa using h4
      have hw1 := hwt X1 (List.mem_of_getElem? hX1) hfX1
      have hw2 := hwt X2 (List.mem_of_getElem? hX2) hfX2
      rw [hi1] at hw1
      rw [hi2] at hw2
      rw [hw1, hw2]
      rcases hor with h5 | h5
      · rw [h5, if_pos rfl, if_neg (fun h => hne h.symm)]; ring
      · rw [h5, if_neg hne, if_pos rfl]; ring
    · have hc2 : ¬ (mode.elementOnSegment = true → s.contains 0 e2 = .ok true) :=
        fun h => hc (fun hm => (hseg hm).mpr (h hm))
      rw [if_neg (fun h => hc h.2), if_neg (fun h => hc2 h.2), add_zero]
  · rw [if_neg (fun h => hR h.1), if_neg (fun h => hR h.1), add_zero]

/-- **C72 (boundary)** Unless dofs are put on boundaries, there is no flux through a side that belongs to one element only. -/
theorem C72_boundary (g : GridData ℝ) (hg : g.Valid) (hused : AllUsed g) (domain : Nat → Int) (s : GridSegment)
    (mode : DofMode) (vol : Nat → ℝ) :
    ∃ m, assignRWG (g.data.view domain) s mode false = .ok m ∧
      ∀ (c : Nat → ℝ) (e1 : Nat) (t1 : Tri) (x y z1 : Nat) (q1 : ℝ × ℝ) (ν1 : P3 ℝ),
        g.data.elements[e1]? = some t1 → [x, y, z1].Perm t1.verts →
        (∀ e3 t3, g.data.elements[e3]? = some t3 → s(x, y) ∈ t3.sides → e3 = e1) →
        areaVector (nodeAt g.nodes t1.a) (nodeAt g.nodes t1.b) (nodeAt g.nodes t1.c) ≠ ⟨0, 0, 0⟩ →
        OnSide g t1 q1 x y →
        OutwardConormal (nodeAt g.nodes x) (nodeAt g.nodes y) (nodeAt g.nodes z1) ν1 →
        rtField g (g.data.view domain) s mode vol m c e1 t1 q1 ν1 = 0 := by
  classical
  have htri : Triangular (g.data.view domain) := by
    refine ⟨rfl, ?_⟩
    intro e he
    obtain ⟨n, hn⟩ := List.getElem?_of_mem he
    obtain ⟨t, -, -, hs, -⟩ := view_elem' g.data domain n e hn
    rw [hs]; rfl
  refine ⟨_, assignRWG_ok _ htri s mode false, ?_⟩
  intro c e1 t1 x y z1 q1 ν1 ht1 hp1 h3 hn1 hq1 hν1
  obtain ⟨f1, p1, X1, hf1, hs1, hX1, hi1, hfX1, hval1⟩ := field_flux g hg e1 t1 ht1 hn1 hused domain s mode false vol _
    (assignRWG_ok _ htri s mode false) c x y z1 hp1 ν1 hν1 q1 hq1
  rw [hval1, if_neg]
  rintro ⟨hR, -⟩
  have h2 := hR.2.2.1
  simp only [Bool.false_eq_true, false_or] at h2
  have hv := gridView_wf g hg hused domain
  have hall : ∀ X ∈ adjacentElems (g.data.view domain) f1, X = X1 := by
    intro X hX
    obtain ⟨t3, ht3, hs3⟩ := adjacent_side g hg domain f1 p1 hf1 X hX
    have h4 := h3 X.index t3 ht3 (by rw [← hs1]; exact hs3)
    exact List.inj_on_of_nodup_map hv.index_nodup (List.mem_filter.mp hX).1 (List.mem_of_getElem? hX1) (by rw [h4, hi1])
  have hnd : (adjacentElems (g.data.view domain) f1).Nodup := (List.Nodup.of_map _ hv.index_nodup).filter _
  have hle : (adjacentElems (g.data.view domain) f1).length ≤ 1 := by
    match hl : adjacentElems (g.data.view domain) f1, hnd, hall with
    | [], _, _ => simp
    | [_], _, _ => simp
    | a :: b :: l, hnd, hall =>
      exfalso
      have ha := hall a (by simp)
      have hb := hall b (by simp)
      rw [ha, hb] at hnd
      simp at hnd
  omega

/-! ### Tangential components -/

theorem expandW_smul (gd : List Int) (w : List ℝ) (c : Nat → ℝ) (r : ℝ) (F : Nat → ℝ) :
    expandW gd w c (fun a => r * F a) = r * expandW gd w c F := by
  unfold expandW
  rw [← List.sum_map_mul_left]
  congr 1
  apply List.map_congr_left
  intro q _
  split
  · ring
  · ring

/-- The outward conormal of the first side of a triangle. -/
theorem conormal_exists (X Y Z : P3 ℝ) (h : areaVector X Y Z ≠ ⟨0, 0, 0⟩) :
    OutwardConormal X Y Z (P3.smul (1 / Real.sqrt ((Y.sub X).dot (Y.sub X))) ((Y.sub X).cross (fullData X Y Z).normal)) := by
  have hl := side_ne X Y Z h
  have hll := Real.sq_sqrt hl.le
  have hlp := Real.sqrt_pos.mpr hl
  have hn := C71_normal X Y Z h
  have hne := normal_eq X Y Z h
  have hi := ie_pos X Y Z h
  have horth : (fullData X Y Z).normal.dot (Y.sub X) = 0 := by
    have := hn.orthogonal 1 0
    simp only [displacement, P3.dot, P3.sub] at *; linarith
  have hunit := hn.unit
  have hpos := hn.rightHanded
  refine ⟨?_, ?_, ?_, ?_⟩
  · generalize Real.sqrt ((Y.sub X).dot (Y.sub X)) = l at *
    generalize (fullData X Y Z).normal = n at *
    generalize Y.sub X = a at *
    have : (P3.smul (1 / l) (a.cross n)).dot (P3.smul (1 / l) (a.cross n)) =
        (1 / l) ^ 2 * (a.dot a * n.dot n - n.dot a ^ 2) := by
      simp only [P3.dot, P3.smul, P3.cross]; ring
    rw [this, hunit, horth, ← hll]
    field_simp
    ring
  · simp only [P3.dot, P3.smul, P3.cross]; ring
  · rw [hne]
    simp only [P3.dot, P3.smul, P3.cross]; ring
  · have : (P3.smul (1 / Real.sqrt ((Y.sub X).dot (Y.sub X))) ((Y.sub X).cross (fullData X Y Z).normal)).dot (Z.sub X) =
        -(1 / Real.sqrt ((Y.sub X).dot (Y.sub X)) * (areaVector X Y Z).dot (fullData X Y Z).normal) := by
      rw [areaVector_eq]
      simp only [P3.dot, P3.smul, P3.cross]; ring
    rw [this]
    have : 0 < 1 / Real.sqrt ((Y.sub X).dot (Y.sub X)) * (areaVector X Y Z).dot (fullData X Y Z).normal := by positivity
    linarith

/-- Along a side that the triangle runs through from `x` to `y`, the tangential component of a Nedelec function is the length
times the flux of the Raviart-Thomas function. -/
theorem tangential_flux (g : GridData ℝ) (t : Tri)
    (hn : areaVector (nodeAt g.nodes t.a) (nodeAt g.nodes t.b) (nodeAt g.nodes t.c) ≠ ⟨0, 0, 0⟩) (x y : Nat) (ht : Traverses t x y) :
    ∃ z ν l, [x, y, z].Perm t.verts ∧ OutwardConormal (nodeAt g.nodes x) (nodeAt g.nodes y) (nodeAt g.nodes z) ν ∧
      l = Real.sqrt (((nodeAt g.nodes y).sub (nodeAt g.nodes x)).dot ((nodeAt g.nodes y).sub (nodeAt g.nodes x))) ∧
      ∀ v s mode vol m c e q, ncField g v s mode vol m c e t q ((nodeAt g.nodes y).sub (nodeAt g.nodes x)) =
        l * rtField g v s mode vol m c e t q ν := by
  -- cyclic permutations have the same normal
  have main : ∀ X Y Z : P3 ℝ, areaVector X Y Z = areaVector (nodeAt g.nodes t.a) (nodeAt g.nodes t.b) (nodeAt g.nodes t.c) →
      OutwardConormal X Y Z (P3.smul (1 / Real.sqrt ((Y.sub X).dot (Y.sub X))) ((Y.sub X).cross (elementData g t).normal)) ∧
      ∀ v s mode vol m c e q, ncField g v s mode vol m c e t q (Y.sub X) = Real.sqrt ((Y.sub X).dot (Y.sub X)) *
        rtField g v s mode vol m c e t q
          (P3.smul (1 / Real.sqrt ((Y.sub X).dot (Y.sub X))) ((Y.sub X).cross (elementData g t).normal)) := by
    intro X Y Z hA
    have hX : areaVector X Y Z ≠ ⟨0, 0, 0⟩ := by rw [hA]; exact hn
    have hnor : (fullData X Y Z).normal = (elementData g t).normal := by
      have h1 := normal_eq X Y Z hX
      have h2 := normal_eq _ _ _ hn
      have h3 := (C71_integration_element X Y Z hX).2
      have h4 := (C71_integration_element _ _ _ hn).2
      rw [h3, hA] at h1
      rw [h4] at h2
      rw [h1]
      exact h2.symm
    have hco := conormal_exists X Y Z hX
    have hlp := Real.sqrt_pos.mpr (side_ne X Y Z hX)
    rw [hnor] at hco
    refine ⟨hco, ?_⟩
    intro v s mode vol m c e q
    unfold ncField rtField
    rw [← expandW_smul]
    congr 1
    funext a
    have hr := (C71_rotation _ _ _ hn (rtShape a q)).1
    have e1 : hcurlValue (ncShape a q) (elementData g t) =
        (elementData g t).normal.cross (hdivValue (rtShape a q) (elementData g t)) := hr
    rw [e1]
    generalize Real.sqrt ((Y.sub X).dot (Y.sub X)) = l at *
    generalize (elementData g t).normal = n
    generalize hdivValue (rtShape a q) (elementData g t) = u
    generalize Y.sub X = d
    have : l * u.dot (P3.smul (1 / l) (d.cross n)) = (l * (1 / l)) * u.dot (d.cross n) := by
      simp only [P3.dot, P3.smul]; ring
    rw [this, mul_one_div_cancel hlp.ne', one_mul]
    simp only [P3.dot, P3.cross]; ring
  rcases ht with ⟨rfl, rfl⟩ | ⟨rfl, rfl⟩ | ⟨rfl, rfl⟩
  · obtain ⟨h1, h2⟩ := main (nodeAt g.nodes t.a) (nodeAt g.nodes t.b) (nodeAt g.nodes t.c) rfl
    exact ⟨t.c, _, _, List.Perm.refl _, h1, rfl, h2⟩
  · obtain ⟨h1, h2⟩ := main (nodeAt g.nodes t.b) (nodeAt g.nodes t.c) (nodeAt g.nodes t.a) (by
      simp only [areaVector, P3.mk.injEq]; refine ⟨?_, ?_, ?_⟩ <;> ring)
    refine ⟨t.a, _, _, ?_, h1, rfl, h2⟩
    exact (List.perm_append_comm : ([t.b, t.c] ++ [t.a]).Perm _)
  · obtain ⟨h1, h2⟩ := main (nodeAt g.nodes t.c) (nodeAt g.nodes t.a) (nodeAt g.nodes t.b) (by
      simp only [areaVector, P3.mk.injEq]; refine ⟨?_, ?_, ?_⟩ <;> ring)
    refine ⟨t.b, _, _, ?_, h1, rfl, h2⟩
    exact (List.perm_append_comm : ([t.c] ++ [t.a, t.b]).Perm _)

theorem OnSide.swap {g : GridData ℝ} {t : Tri} {q : ℝ × ℝ} {x y : Nat} (h : OnSide g t q x y) : OnSide g t q y x := by
  obtain ⟨τ, h⟩ := h
  refine ⟨1 - τ, ?_⟩
  rw [h]
  simp only [P3.mk.injEq]
  refine ⟨?_, ?_, ?_⟩ <;> ring

/-- **C72 (tangential components)** At a side `x y` of exactly two elements, both in the segment or both outside, the tangential
components of a Nedelec (`vol = 1`) or scaled Nedelec (`vol` = lengths) function from the two elements agree if the elements
run through the side in opposite directions (consistent orientation), and are opposite if they run through it in the same
direction. -/
theorem C72_tangential_continuity (g : GridData ℝ) (hg : g.Valid) (hused : AllUsed g) (domain : Nat → Int) (s : GridSegment)
    (mode : DofMode) (pb : Bool) (vol : Nat → ℝ) :
    ∃ m, assignRWG (g.data.view domain) s mode pb = .ok m ∧
      ∀ (c : Nat → ℝ) (e1 e2 : Nat) (t1 t2 : Tri) (x y : Nat) (q1 q2 : ℝ × ℝ), e1 ≠ e2 →
        g.data.elements[e1]? = some t1 → g.data.elements[e2]? = some t2 → Traverses t1 x y →
        (∀ e3 t3, g.data.elements[e3]? = some t3 → s(x, y) ∈ t3.sides → e3 = e1 ∨ e3 = e2) →
        areaVector (nodeAt g.nodes t1.a) (nodeAt g.nodes t1.b) (nodeAt g.nodes t1.c) ≠ ⟨0, 0, 0⟩ →
        areaVector (nodeAt g.nodes t2.a) (nodeAt g.nodes t2.b) (nodeAt g.nodes t2.c) ≠ ⟨0, 0, 0⟩ →
        OnSide g t1 q1 x y → OnSide g t2 q2 x y →
        (mode.elementOnSegment = true → (s.contains 0 e1 = .ok true ↔ s.contains 0 e2 = .ok true)) →
        let edge := (nodeAt g.nodes y).sub (nodeAt g.nodes x)
        (Traverses t2 y x → ncField g (g.data.view domain) s mode vol m c e1 t1 q1 edge =
          ncField g (g.data.view domain) s mode vol m c e2 t2 q2 edge) ∧
        (Traverses t2 x y → ncField g (g.data.view domain) s mode vol m c e1 t1 q1 edge =
          -ncField g (g.data.view domain) s mode vol m c e2 t2 q2 edge) := by
  obtain ⟨m, hm, hmain⟩ := C72_normal_continuity g hg hused domain s mode pb vol
  refine ⟨m, hm, ?_⟩
  intro c e1 e2 t1 t2 x y q1 q2 hne ht1 ht2 htr h3 hn1 hn2 hq1 hq2 hseg edge
  obtain ⟨z1, ν1, l1, hp1, hν1, hl1, hf1⟩ := tangential_flux g t1 hn1 x y htr
  constructor
  · intro htr2
    obtain ⟨z2, ν2, l2, hp2, hν2, hl2, hf2⟩ := tangential_flux g t2 hn2 y x htr2
    have hl : l1 = l2 := by
      rw [hl1, hl2]
      congr 1
      simp only [P3.dot, P3.sub]; ring
    have key := hmain c e1 e2 t1 t2 x y z1 z2 q1 q2 ν1 ν2 hne ht1 ht2 hp1 ((List.Perm.swap _ _ _).trans hp2) h3 hn1 hn2 hq1 hq2
      hν1 hν2.swap hseg
    rw [hf1]
    have hneg : ncField g (g.data.view domain) s mode vol m c e2 t2 q2 edge =
        -ncField g (g.data.view domain) s mode vol m c e2 t2 q2 ((nodeAt g.nodes x).sub (nodeAt g.nodes y)) := by
      unfold ncField
      rw [← neg_one_mul, ← expandW_smul]
      congr 1
      funext a
      simp only [edge, P3.dot, P3.sub]; ring
    rw [hneg, hf2, ← hl]
    linear_combination l1 * key
  · intro htr2
    obtain ⟨z2, ν2, l2, hp2, hν2, hl2, hf2⟩ := tangential_flux g t2 hn2 x y htr2
    have key := hmain c e1 e2 t1 t2 x y z1 z2 q1 q2 ν1 ν2 hne ht1 ht2 hp1 hp2 h3 hn1 hn2 hq1 hq2 hν1 hν2 hseg
    rw [hf1, hf2, hl2, ← hl1]
    linear_combination l1 * key

/-! ### The meaning of the coefficients -/

theorem edgeLength_side (g : GridData ℝ) (f : Nat) (p : Nat × Nat) (x y : Nat) (hf : g.data.edges[f]? = some p)
    (hs : side p = s(x, y)) : edgeLength g f =
      Real.sqrt (((nodeAt g.nodes y).sub (nodeAt g.nodes x)).dot ((nodeAt g.nodes y).sub (nodeAt g.nodes x))) := by
  unfold edgeLength
  rw [hf]
  unfold side at hs
  rcases Sym2.eq_iff.mp hs with ⟨h1, h2⟩ | ⟨h1, h2⟩
  · simp only [h1, h2]
  · simp only [h1, h2]
    congr 1
    simp only [P3.dot, P3.sub]; ring

/-- **C72 (meaning of the coefficients)** On the whole grid, every side that has two neighbours (or any side, if dofs are put on
boundaries) has its own dof, and the coefficient of an RWG function at it is the flux of the function per unit length out of the
neighbour with the lowest index, minus the flux out of any other neighbour. -/
theorem C72_rwg_flux (g : GridData ℝ) (hg : g.Valid) (hused : AllUsed g) (domain : Nat → Int) (mode : DofMode) (pb : Bool) :
    ∃ m, assignRWG (g.data.view domain) (wholeGrid (g.data.view domain)) mode pb = .ok m ∧
      ∃ dof : Sym2 Nat → Nat,
        (∀ (e e' : Nat) (t t' : Tri) (S S' : Sym2 Nat), g.data.elements[e]? = some t → g.data.elements[e']? = some t' →
          S ∈ t.sides → S' ∈ t'.sides → 
          (pb = true ∨ ∃ e2 t2, e2 ≠ e ∧ g.data.elements[e2]? = some t2 ∧ S ∈ t2.sides) →
          (pb = true ∨ ∃ e2 t2, e2 ≠ e' ∧ g.data.elements[e2]? = some t2 ∧ S' ∈ t2.sides) →
          dof S < m.globalDofCount ∧ (dof S = dof S' → S = S')) ∧
        ∀ (c : Nat → ℝ) (e : Nat) (t : Tri) (x y z : Nat) (q : ℝ × ℝ) (ν : P3 ℝ),
          g.data.elements[e]? = some t → [x, y, z].Perm t.verts →
          (pb = true ∨ ∃ e2 t2, e2 ≠ e ∧ g.data.elements[e2]? = some t2 ∧ s(x, y) ∈ t2.sides) →
          areaVector (nodeAt g.nodes t.a) (nodeAt g.nodes t.b) (nodeAt g.nodes t.c) ≠ ⟨0, 0, 0⟩ →
          OnSide g t q x y → OutwardConormal (nodeAt g.nodes x) (nodeAt g.nodes y) (nodeAt g.nodes z) ν →
          let flux := rtField g (g.data.view domain) (wholeGrid (g.data.view domain)) mode (edgeLength g) m c e t q ν
          ((∀ e2 t2, g.data.elements[e2]? = some t2 → s(x, y) ∈ t2.sides → e ≤ e2) → flux = c (dof s(x, y))) ∧
          ((∃ e2 t2, e2 < e ∧ g.data.elements[e2]? = some t2 ∧ s(x, y) ∈ t2.sides) → flux = -c (dof s(x, y))) := by
  classical
  have hv := gridView_wf g hg hused domain
  have htri : Triangular (g.data.view domain) := by
    refine ⟨rfl, ?_⟩
    intro e he
    obtain ⟨n, hn⟩ := List.getElem?_of_mem he
    obtain ⟨t, -, -, hs, -⟩ := view_elem' g.data domain n e hn
    rw [hs]; rfl
  -- the element with an edge
  have hside : ∀ (e : Nat) (t : Tri) (S : Sym2 Nat), g.data.elements[e]? = some t → S ∈ t.sides →
      ∃ f p X, g.data.edges[f]? = some p ∧ side p = S ∧ (g.data.view domain).elems[e]? = some X ∧ X.index = e ∧ f ∈ X.sub 1 := by
    intro e t S ht hS
    obtain ⟨f0, f1, f2, p0, p1, p2, hedges, hp0, hs0, hp1, hs1, hp2, hs2, -⟩ := element_edges g hg e t ht
    obtain ⟨X, hX, hi, -, hsub⟩ := view_elem g.data domain e t ht
    rw [hedges] at hsub
    simp only [Option.getD_some] at hsub
    simp only [Tri.sides, List.mem_cons, List.not_mem_nil, or_false] at hS
    have : S = s(t.a, t.b) ∨ S = s(t.a, t.c) ∨ S = s(t.b, t.c) := by
      rcases hS with h | h | h
      · exact Or.inl h
      · exact Or.inr (Or.inl h)
      · exact Or.inr (Or.inr h)
    rcases this with rfl | rfl | rfl
    · exact ⟨f0, p0, X, hp0, hs0, hX, hi, by rw [hsub]; simp⟩
    · exact ⟨f1, p1, X, hp1, hs1, hX, hi, by rw [hsub]; simp⟩
    · exact ⟨f2, p2, X, hp2, hs2, hX, hi, by rw [hsub]; simp⟩
  have hR : ∀ (e : Nat) (t : Tri) (S : Sym2 Nat) (f : Nat) (p : Nat × Nat), g.data.elements[e]? = some t → S ∈ t.sides →
      g.data.edges[f]? = some p → side p = S →
      (pb = true ∨ ∃ e2 t2, e2 ≠ e ∧ g.data.elements[e2]? = some t2 ∧ S ∈ t2.sides) →
      RWGEdge (g.data.view domain) (wholeGrid (g.data.view domain)) mode pb f ∧ f < (g.data.view domain).count 1 ∧
        ∀ (e : Nat) (t : Tri), g.data.elements[e]? = some t → S ∈ t.sides →
          ∃ X, (g.data.view domain).elems[e]? = some X ∧ X.index = e ∧ f ∈ X.sub 1 := by
    intro e t S f p ht hS hf hs hor
    have hall : ∀ (e : Nat) (t : Tri), g.data.elements[e]? = some t → S ∈ t.sides →
          ∃ X, (g.data.view domain).elems[e]? = some X ∧ X.index = e ∧ f ∈ X.sub 1 := by
      intro e t ht hS
      obtain ⟨f', p', X, hf', hs', hX, hi, hm⟩ := hside e t S ht hS
      have : f' = f := edge_unique g hg _ _ _ _ hf' hf (hs'.trans hs.symm)
      subst this
      exact ⟨X, hX, hi, hm⟩
    obtain ⟨X, hX, hi, hm⟩ := hall e t ht hS
    have hXm := List.mem_of_getElem? hX
    have hlt : f < (g.data.view domain).count 1 := hv.has_lt X hXm 1 f (by have := htri.1; omega) (Or.inr ⟨by omega, hm⟩)
    have hXa : X ∈ adjacentElems (g.data.view domain) f := List.mem_filter.mpr ⟨hXm, by simpa using hm⟩
    have hXlt : X.index < (g.data.view domain).count 0 := hv.has_lt X hXm 0 _ (by omega) (Or.inl ⟨rfl, rfl⟩)
    refine ⟨⟨fun _ => contains_wholeGrid _ _ _ (by decide) hlt, List.length_pos_of_mem hXa, ?_,
      fun _ => ⟨X, hXa, contains_wholeGrid _ _ _ (by decide) hXlt⟩⟩, hlt, hall⟩
    rcases hor with h | ⟨e2, t2, hne, ht2, hS2⟩
    · exact Or.inl h
    · right
      obtain ⟨X2, hX2, hi2, hm2⟩ := hall e2 t2 ht2 hS2
      have hX2a : X2 ∈ adjacentElems (g.data.view domain) f :=
        List.mem_filter.mpr ⟨List.mem_of_getElem? hX2, by simpa using hm2⟩
      by_contra hlt2
      match hl : adjacentElems (g.data.view domain) f with
      | [] => rw [hl] at hXa; simp at hXa
      | [a] =>
        rw [hl] at hXa hX2a
        simp only [List.mem_singleton] at hXa hX2a
        exact hne (by rw [← hi2, ← hi, hX2a, hXa])
      | a :: b :: l => rw [hl] at hlt2; simp at hlt2
  refine ⟨_, assignRWG_ok _ htri _ mode pb, fun S => countBelow (RWGEdge (g.data.view domain) (wholeGrid (g.data.view domain)) mode pb)
    ((g.data.edges.map side).idxOf S), ?_, ?_⟩
  · intro e e' t t' S S' ht ht' hS hS' ho ho'
    obtain ⟨f, p, -, hf, hs, -⟩ := hside e t S ht hS
    obtain ⟨f', p', -, hf', hs', -⟩ := hside e' t' S' ht' hS'
    have hidx : ∀ (f : Nat) (p : Nat × Nat) (S : Sym2 Nat), g.data.edges[f]? = some p → side p = S → (g.data.edges.map side).idxOf S = f := by
      intro f p S hf hs
      have h1 : (g.data.edges.map side)[f]? = some S := by rw [List.getElem?_map, hf]; simp [hs]
      obtain ⟨c, hc⟩ := hg.init
      have hnd := (C31_edges _ _ c _ hc).1
      obtain ⟨hl, h2⟩ := List.getElem?_eq_some_iff.mp h1
      rw [← h2]
      exact hnd.idxOf_getElem f hl
    obtain ⟨r1, hlt, -⟩ := hR e t S f p ht hS hf hs ho
    obtain ⟨r2, -, -⟩ := hR e' t' S' f' p' ht' hS' hf' hs' ho'
    dsimp only
    constructor
    · rw [writeElements_count, rwgNumbering_count _ hv, hidx f p S hf hs]
      exact countBelow_lt _ hlt r1
    · intro h
      rw [hidx f p S hf hs, hidx f' p' S' hf' hs'] at h
      have := countBelow_inj _ r1 r2 h
      subst this
      rw [hf] at hf'
      cases hf'
      rw [← hs, ← hs']
  · intro c e t x y z q ν ht hp ho hn hq hν
    obtain ⟨f, p, X, hf, hs, hX, hi, hfX, hval⟩ := field_flux g hg e t ht hn hused domain _ mode pb (edgeLength g) _
      (assignRWG_ok _ htri (wholeGrid (g.data.view domain)) mode pb) c x y z hp ν hν q hq
    have hS : s(x, y) ∈ t.sides := by
      obtain ⟨t', ht', hS⟩ := adjacent_side g hg domain f p hf X
        (List.mem_filter.mpr ⟨List.mem_of_getElem? hX, by simpa using hfX⟩)
      rw [hi, ht] at ht'
      cases ht'
      rw [← hs]; exact hS
    obtain ⟨r, hlt, hall⟩ := hR e t _ f p ht hS hf hs ho
    have hidx : (g.data.edges.map side).idxOf s(x, y) = f := by
      have h1 : (g.data.edges.map side)[f]? = some s(x, y) := by rw [List.getElem?_map, hf]; simp [hs]
      obtain ⟨c, hc⟩ := hg.init
      have hnd := (C31_edges _ _ c _ hc).1
      obtain ⟨hl, h2⟩ := List.getElem?_eq_some_iff.mp h1
      rw [← h2]
      exact hnd.idxOf_getElem f hl
    have hXlt : X.index < (g.data.view domain).count 0 := hv.has_lt X (List.mem_of_getElem? hX) 0 _ (by omega) (Or.inl ⟨rfl, rfl⟩)
    rw [hi] at hXlt
    have hyes : RWGEdge (g.data.view domain) (wholeGrid (g.data.view domain)) mode pb f ∧
        (mode.elementOnSegment = true → (wholeGrid (g.data.view domain)).contains 0 e = .ok true) :=
      ⟨r, fun _ => contains_wholeGrid _ _ _ (by decide) hXlt⟩
    dsimp only
    rw [hval, if_pos hyes, hidx, edgeLength_side g f p x y hf hs]
    obtain ⟨f0, f1, f2, -, -, -, hedges, -⟩ := element_edges g hg e t ht
    obtain ⟨k, hk, -, hsc, -⟩ := side_local g hg e t ht hn x y z hp f0 f1 f2 hedges
    have hpos : Real.sqrt (((nodeAt g.nodes y).sub (nodeAt g.nodes x)).dot ((nodeAt g.nodes y).sub (nodeAt g.nodes x))) ≠ 0 := by
      obtain ⟨-, hlen⟩ := hsc ν hν
      rw [← hlen]
      exact (Real.sqrt_pos.mpr (side_ne _ _ _ (area_side _ _ _ k hn).1)).ne'
    generalize Real.sqrt (((nodeAt g.nodes y).sub (nodeAt g.nodes x)).dot ((nodeAt g.nodes y).sub (nodeAt g.nodes x))) = l at hpos
    obtain ⟨E, hE, hfE, hmin, hw⟩ := C43_weights (g.data.view domain) hv htri _ mode pb (fun _ => l) f r
    have hwt : (if ((rwgScan (g.data.view domain) (wholeGrid (g.data.view domain)) mode)[f]?.bind (·.lowest)) = some e then l else -l) =
          if e = E.index then l else -l := by
      obtain ⟨i, hi'⟩ := List.getElem?_of_mem hfX
      have h4 := hw X (List.mem_of_getElem? hX) i hi'
      unfold rwgWeights at h4
      rw [List.getElem?_map, hi'] at h4
      rw [hi] at h4
      simpa using h4
    rw [hwt]
    constructor
    · intro hle
      obtain ⟨t3, ht3, hs3⟩ := adjacent_side g hg domain f p hf E (List.mem_filter.mpr ⟨hE, by simpa using hfE⟩)
      have h1 := hle E.index t3 ht3 (by rw [← hs]; exact hs3)
      have h2 := hmin X (List.mem_of_getElem? hX) hfX
      rw [if_pos (by omega)]
      field_simp
    · rintro ⟨e2, t2, hlt2, ht2, hS2⟩
      obtain ⟨X2, hX2, hi2, hm2⟩ := hall e2 t2 ht2 hS2
      have h2 := hmin X2 (List.mem_of_getElem? hX2) hm2
      rw [if_neg (by omega)]
      field_simp

/-- Non-vacuity of C72: two triangles that are not in one plane, sharing the side `1 2`, which the first traverses from 1 to 2 and
the second from 2 to 1; the middle of the side in both; its conormals; no third neighbour. -/
example : ∃ d, DataContainer.init 4 [⟨0, 1, 2⟩, ⟨1, 3, 2⟩] = some d ∧
    ∃ g : GridData ℝ, g = ⟨[⟨0, 0, 0⟩, ⟨1, 0, 0⟩, ⟨0, 1, 0⟩, ⟨1, 1, 1⟩], d, [3, 4]⟩ ∧ g.Valid ∧ AllUsed g ∧
    g.data.elements[0]? = some ⟨0, 1, 2⟩ ∧ g.data.elements[1]? = some ⟨1, 3, 2⟩ ∧
    [1, 2, 0].Perm (Tri.verts ⟨0, 1, 2⟩) ∧ [1, 2, 3].Perm (Tri.verts ⟨1, 3, 2⟩) ∧
    Traverses ⟨0, 1, 2⟩ 1 2 ∧ Traverses ⟨1, 3, 2⟩ 2 1 ∧ s(1, 2) ∈ Tri.sides ⟨1, 3, 2⟩ ∧
    OnSide g ⟨0, 1, 2⟩ (1 / 2, 1 / 2) 1 2 ∧ OnSide g ⟨1, 3, 2⟩ (0, 1 / 2) 1 2 ∧
    (∀ (e3 : Nat) (t3 : Tri), g.data.elements[e3]? = some t3 → s(1, 2) ∈ t3.sides → e3 = 0 ∨ e3 = 1) ∧
    areaVector (nodeAt g.nodes 0) (nodeAt g.nodes 1) (nodeAt g.nodes 2) ≠ ⟨0, 0, 0⟩ ∧
    areaVector (nodeAt g.nodes 1) (nodeAt g.nodes 3) (nodeAt g.nodes 2) ≠ ⟨0, 0, 0⟩ ∧
    (∃ ν, OutwardConormal (nodeAt g.nodes 1) (nodeAt g.nodes 2) (nodeAt g.nodes 0) ν) ∧
    ∃ ν, OutwardConormal (nodeAt g.nodes 1) (nodeAt g.nodes 2) (nodeAt g.nodes 3) ν := by
  refine ⟨_, rfl, _, rfl, ?_⟩
  have hv : GridData.Valid (K := ℝ) ⟨[⟨0, 0, 0⟩, ⟨1, 0, 0⟩, ⟨0, 1, 0⟩, ⟨1, 1, 1⟩],
      ((DataContainer.init 4 [⟨0, 1, 2⟩, ⟨1, 3, 2⟩]).get rfl), [3, 4]⟩ := by
    refine ⟨⟨0, rfl⟩, rfl, rfl, ?_, ?_⟩ <;>
    · intro t ht
      have ht : t ∈ [(⟨0, 1, 2⟩ : Tri), ⟨1, 3, 2⟩] := ht
      simp only [List.mem_cons, List.not_mem_nil, or_false] at ht
      rcases ht with rfl | rfl <;> simp [Tri.verts, Tri.Proper] <;> decide
  refine ⟨hv, ?_, rfl, rfl, by decide, by decide, Or.inr (Or.inl ⟨rfl, rfl⟩), Or.inr (Or.inr ⟨rfl, rfl⟩), ?_, ⟨1 / 2, ?_⟩,
    ⟨1 / 2, ?_⟩, ?_, ?_, ?_, ⟨_, conormal_exists _ _ _ ?_⟩, ⟨_, conormal_exists _ _ _ ?_⟩⟩
  · intro v hv
    have hv : v < 4 := hv
    interval_cases v
    · exact ⟨⟨0, 1, 2⟩, by decide, by decide⟩
    · exact ⟨⟨0, 1, 2⟩, by decide, by decide⟩
    · exact ⟨⟨0, 1, 2⟩, by decide, by decide⟩
    · exact ⟨⟨1, 3, 2⟩, by decide, by decide⟩
  · decide
  · simp [refMap, nodeAt]; norm_num
  · simp [refMap, nodeAt]
  · intro e3 t3 h3 _
    have : e3 < 2 := (List.getElem?_eq_some_iff.mp h3).1
    omega
  all_goals
    intro h
    have := congrArg P3.z h
    simp [areaVector, nodeAt] at this

end Verif.Space
