import Verif.Lemmas.PyOperators5
/-
Lemmas for C95: multitrace operators.
-/
namespace Verif.PyOp
noncomputable section

variable {V : Type} [AddCommGroup V] [Module ℝ V] {lib : Library} {S : Surface V} {z : Prop} {l : List Node} {i j : Nat} {d r t s : Space}
  {a b : V →ₗ[ℝ] V →ₗ[ℝ] ℂ}

/-- The compound operator with curls and normals in the space of the single-layer operator. -/
theorem StandsAs.maue (hx : Exact lib S) {wave2 : Option Scalar} (h : StandsAs lib S z l i d r d (compoundForm S lib.core wave2 a s))
    (hc : ∀ c, ∀ v ∈ S.span lib.core d, S.curl c v ∈ S.span lib.core s)
    (hn : wave2 = none ∨ ∀ c, ∀ v ∈ S.span lib.core d, S.normal c v ∈ S.span lib.core s) :
    HasForm lib l i d r d (S.galerkin lib.core (S.maue wave2 fun v w => a v w) d d) := by
  refine h.hasForm fun p hp q hq => ?_
  rw [compoundForm_eq]
  have hp := basis_mem (lib := lib) (S := S) d p hp
  have hq := basis_mem (lib := lib) (S := S) d q hq
  refine maue_congr wave2 (fun c => ?_) (hn.imp_right fun hn c => ?_)
  · rw [proj_self hx (hc c _ hp), proj_self hx (hc c _ hq)]
  · rw [proj_self hx (hn c _ hp), proj_self hx (hn c _ hq)]

theorem runs_multitraceLin (hx : Exact lib S) (hn : Nested lib S) {grid : SpaceName → Space} (hg : GridSpaces lib S grid) (hl : OpHeap lib l)
    (wave2 : Option Scalar) (hc : ∀ c, wave2 = some c → c.complex = false → star c.value = c.value) :
    Runs lib (multitraceLin lib wave2 grid) l fun b l' => HasBlocks lib S l' b ![grid .P1, grid .P1] ![grid .P1, grid .P1] ![grid .P1, grid .P1]
      ![![fun v w => -S.form .dlp v w, fun v w => S.form .slp v w], ![S.maue wave2 fun v w => S.form .slp v w, fun v w => S.form .dlp w v]] := by
  unfold multitraceLin
  dsimp only
  refine (runs_operator hx hn hl wave2.isSome .slp (grid .DP1) (grid .DP1) (grid .DP1) true).bind fun base n1 hl1 h1 => ?_
  generalize l ++ n1 = l1 at *
  refine (runs_project_nested hx hl1 h1 (grid .P1) (grid .P1) (grid .P1) (fun q hq => hg.linear (basis_mem _ q hq)) (fun q hq => hg.linear (basis_mem _ q hq))).bind
    fun slp n2 hl2 h2 => ?_
  replace h1 := h1.extend hl1 n2
  generalize l1 ++ n2 = l2 at *
  refine (runs_operator hx hn hl2 wave2.isSome .dlp (grid .P1) (grid .P1) (grid .P1) true).bind fun dlp n3 hl3 h3 => ?_
  replace h1 := h1.extend hl2 n3
  replace h2 := h2.extend hl2 n3
  generalize l2 ++ n3 = l3 at *
  refine (runs_transpose hl3 trivial h3 (grid .P1)).bind fun adlp n4 hl4 h4 => ?_
  replace h1 := h1.extend hl3 n4
  replace h2 := h2.extend hl3 n4
  replace h3 := h3.extend hl3 n4
  generalize l3 ++ n4 = l4 at *
  refine (runs_hyp_op hx hl4 wave2 hc (h1.weaken fun h => h.elim) (grid .P1) (grid .P1) true).bind fun hyp n5 hl5 h5 => ?_
  replace h2 := h2.extend hl4 n5
  replace h3 := h3.extend hl4 n5
  replace h4 := h4.extend hl4 n5
  generalize l4 ++ n5 = l5 at *
  refine (runs_negate hl5 h3).bind fun minus n6 hl6 h6 => ?_
  replace h2 := h2.extend hl5 n6
  replace h4 := h4.extend hl5 n6
  replace h5 := h5.extend hl5 n6
  generalize l5 ++ n6 = l6 at *
  refine (runs_setBlocks hl6 (h6.weaken fun h => h.elim) (h2.weaken fun h => h.elim) h5 (h4.weaken fun h => h.elim)).mono fun b new hb => ?_
  obtain ⟨e, b1, b2, b3, ops, b4, o1, o2, o3, o4⟩ := hb
  rw [e]
  exact hasBlocks b1 b2 b3 b4 o1 o2 o3 o4 (h6.hasForm fun _ _ _ _ => rfl) (h2.hasForm fun _ _ _ _ => rfl)
    (h5.maue hx hg.linearCurl (Or.inr hg.linearNormal)) (h4.hasForm fun _ _ _ _ => rfl)

theorem runs_multitraceDual (hx : Exact lib S) (hn : Nested lib S) {grid : SpaceName → Space} (hg : GridSpaces lib S grid) (hl : OpHeap lib l)
    (wave2 : Option Scalar) (hc : ∀ c, wave2 = some c → c.complex = false → star c.value = c.value) :
    Runs lib (multitraceDual lib wave2 grid) l fun b l' => HasBlocks lib S l' b ![grid .BP1, grid .DUAL] ![grid .BP1, grid .DUAL] ![grid .DUAL, grid .BP1]
      ![![fun v w => -S.form .dlp v w, fun v w => S.form .slp v w], ![S.maue wave2 fun v w => S.form .slp v w, fun v w => S.form .dlp w v]] := by
  unfold multitraceDual
  dsimp only
  have hbase : S.span lib.core (grid .DUAL) ≤ S.span lib.core (if wave2.isSome then grid .fineDP1 else grid .fineDP0) ∧
      (∀ c, ∀ v ∈ S.span lib.core (grid .BP1), S.curl c v ∈ S.span lib.core (if wave2.isSome then grid .fineDP1 else grid .fineDP0)) ∧
      (wave2 = none ∨ ∀ c, ∀ v ∈ S.span lib.core (grid .BP1), S.normal c v ∈ S.span lib.core (if wave2.isSome then grid .fineDP1 else grid .fineDP0)) := by
    cases wave2 with
    | none => exact ⟨hg.constant, hg.fineCurl, Or.inl rfl⟩
    | some w => exact ⟨hg.constant.trans hg.fine, fun c v hv => hg.fine (hg.fineCurl c v hv), Or.inr hg.fineNormal⟩
  generalize (if wave2.isSome then grid .fineDP1 else grid .fineDP0) = base0 at hbase ⊢
  obtain ⟨hb1, hb2, hb3⟩ := hbase
  refine (runs_operator hx hn hl wave2.isSome .slp base0 base0 base0 true).bind fun base n1 hl1 h1 => ?_
  generalize l ++ n1 = l1 at *
  refine (runs_operator hx hn hl1 wave2.isSome .dlp (grid .fineDP1) (grid .fineDP1) (grid .fineDP1) true).bind fun dd n2 hl2 h2 => ?_
  replace h1 := h1.extend hl1 n2
  generalize l1 ++ n2 = l2 at *
  refine (runs_project_nested hx hl2 h2 (grid .BP1) (grid .BP1) (grid .DUAL) (fun q hq => hg.fineLinear (basis_mem _ q hq))
    (fun q hq => hg.fine (hg.constant (basis_mem _ q hq)))).bind fun dlp n3 hl3 h3 => ?_
  replace h1 := h1.extend hl2 n3
  replace h2 := h2.extend hl2 n3
  generalize l2 ++ n3 = l3 at *
  refine (runs_transpose hl3 trivial h2 (grid .DUAL)).bind fun tr n4 hl4 h4 => ?_
  replace h1 := h1.extend hl3 n4
  replace h3 := h3.extend hl3 n4
  generalize l3 ++ n4 = l4 at *
  refine (runs_project_nested hx hl4 h4 (grid .DUAL) (grid .DUAL) (grid .BP1) (fun q hq => hg.fine (hg.constant (basis_mem _ q hq)))
    (fun q hq => hg.fineLinear (basis_mem _ q hq))).bind fun adlp n5 hl5 h5 => ?_
  replace h1 := h1.extend hl4 n5
  replace h3 := h3.extend hl4 n5
  generalize l4 ++ n5 = l5 at *
  refine (runs_project_nested hx hl5 h1 (grid .DUAL) (grid .BP1) (grid .DUAL) (fun q hq => hb1 (basis_mem _ q hq)) (fun q hq => hb1 (basis_mem _ q hq))).bind
    fun slp n6 hl6 h6 => ?_
  replace h1 := h1.extend hl5 n6
  replace h3 := h3.extend hl5 n6
  replace h5 := h5.extend hl5 n6
  generalize l5 ++ n6 = l6 at *
  unfold BNode.new
  refine (runs_setBlock hl6 h6 (by simp) (by simp) (by simp) (by simp) (by simp)).bind fun b new _ ⟨e, hb⟩ => ?_
  rw [e, hb]
  refine (runs_hyp_op hx hl6 wave2 hc (h1.weaken fun h => h.elim) (grid .BP1) (grid .DUAL) true).bind fun hyp n7 hl7 h7 => ?_
  replace h3 := h3.extend hl6 n7
  replace h5 := h5.extend hl6 n7
  replace h6 := h6.extend hl6 n7
  generalize l6 ++ n7 = l7 at *
  refine (runs_setBlock hl7 h7 (by simp) (by simp) (by simp) (by simp) (by simp)).bind fun b new _ ⟨e, hb⟩ => ?_
  rw [e, hb]
  refine (runs_negate hl7 h3).bind fun minus n8 hl8 h8 => ?_
  replace h5 := h5.extend hl7 n8
  replace h6 := h6.extend hl7 n8
  replace h7 := h7.extend hl7 n8
  generalize l7 ++ n8 = l8 at *
  refine (runs_setBlock hl8 h8 (by simp) (by simp) (by simp) (by simp) (by simp)).bind fun b new _ ⟨e, hb⟩ => ?_
  rw [e, hb]
  refine (runs_setBlock hl8 h5 (by simp) (by simp) (by simp) (by simp) (by simp)).mono fun b new ⟨e, hb⟩ => ?_
  rw [e, hb]
  exact hasBlocks (b00 := minus) (b01 := slp) (b10 := hyp) (b11 := adlp) rfl rfl rfl rfl (by simp) (by simp) (by simp) (by simp) (h8.hasForm fun _ _ _ _ => rfl)
    (h6.hasForm fun _ _ _ _ => rfl) (h7.maue hx hb2 hb3) (h5.hasForm fun _ _ _ _ => rfl)

theorem runs_multitraceTarget (hx : Exact lib S) (hn : Nested lib S) (source target : SpaceName → Space) (x y : SpaceName) (hl : OpHeap lib l)
    (wave2 : Option Scalar) :
    Runs lib (multitraceTarget lib wave2 source target x y) l fun b l' => HasBlocks lib S l' b ![source x, source y] ![target x, target y] ![target y, target x]
      ![![fun v w => -S.form .dlp v w, fun v w => S.form .slp v w], ![fun v w => S.form .hyp v w, fun v w => S.form .dlp w v]] := by
  unfold multitraceTarget
  refine (runs_operator hx hn hl wave2.isSome .slp _ _ _ true).bind fun slp n1 hl1 h1 => ?_
  generalize l ++ n1 = l1 at *
  refine (runs_operator hx hn hl1 wave2.isSome .dlp _ _ _ true).bind fun dlp n2 hl2 h2 => ?_
  replace h1 := h1.extend hl1 n2
  generalize l1 ++ n2 = l2 at *
  refine (runs_operator hx hn hl2 wave2.isSome .dlp _ _ _ true).bind fun back n3 hl3 h3 => ?_
  replace h1 := h1.extend hl2 n3
  replace h2 := h2.extend hl2 n3
  generalize l2 ++ n3 = l3 at *
  refine (runs_transpose hl3 trivial h3 (target y)).bind fun adlp n4 hl4 h4 => ?_
  replace h1 := h1.extend hl3 n4
  replace h2 := h2.extend hl3 n4
  generalize l3 ++ n4 = l4 at *
  refine (runs_hyp_no hx hn hl4 wave2 _ _ _ .no true (Or.inr rfl)).bind fun hyp n5 hl5 h5 => ?_
  replace h1 := h1.extend hl4 n5
  replace h2 := h2.extend hl4 n5
  replace h4 := h4.extend hl4 n5
  generalize l4 ++ n5 = l5 at *
  refine (runs_negate hl5 h2).bind fun minus n6 hl6 h6 => ?_
  replace h1 := h1.extend hl5 n6
  replace h4 := h4.extend hl5 n6
  replace h5 := h5.extend hl5 n6
  generalize l5 ++ n6 = l6 at *
  refine (runs_setBlocks hl6 (h6.weaken fun h => h.elim) (h1.weaken fun h => h.elim) (h5.weaken fun h => h.elim) (h4.weaken fun h => h.elim)).mono fun b new hb => ?_
  obtain ⟨e, b1, b2, b3, ops, b4, o1, o2, o3, o4⟩ := hb
  rw [e]
  exact hasBlocks b1 b2 b3 b4 o1 o2 o3 o4 (h6.hasForm fun _ _ _ _ => rfl) (h1.hasForm fun _ _ _ _ => rfl) (h5.hasForm fun _ _ _ _ => rfl)
    (h4.hasForm fun _ _ _ _ => rfl)

end

end Verif.PyOp
