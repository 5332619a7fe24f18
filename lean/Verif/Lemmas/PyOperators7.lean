import Verif.Lemmas.PyOperators6
/-
Lemmas for C95: Maxwell operators, and the number of integral operators.
-/
namespace Verif.PyOp
noncomputable section

variable {V : Type} [AddCommGroup V] [Module ℝ V] {lib : Library} {S : Surface V} {z : Prop} {l : List Node} {i j : Nat} {d r t s : Space}
  {a b : V →ₗ[ℝ] V →ₗ[ℝ] ℂ}

theorem runs_maxwellField (hx : Exact lib S) (hn : Nested lib S) {rot : V →ₗ[ℝ] V} (hr : Rotates lib S rot) (hl : OpHeap lib l) (k : Label) (d r t t' : Space)
    (ht : lib.spaces.hdiv t = some t') (u : Bool) :
    Runs lib (maxwellField lib k d r t u) l fun i l' => StandsAs lib S True l' i d r t ((S.form k).comp rot) := by
  unfold maxwellField
  rw [ht]
  obtain ⟨n, h⟩ : ∃ n, lib.limit = n + 2 := ⟨lib.limit - 2, by have := hn.limit; omega⟩
  rw [h]
  obtain ⟨h1, h2⟩ := hr t t' ht
  refine (runs_preprocess hx hn hl n k d r t' u).bind fun i new hl1 hi => ?_
  exact runs_rewrite hl1 hi d r t _ rfl h1.symm fun p hp q hq => by rw [LinearMap.comp_apply, h2 p (by omega)]

theorem runs_maxwellMultitrace (hx : Exact lib S) (hn : Nested lib S) {rot : V →ₗ[ℝ] V} (hr : Rotates lib S rot) {source target : SpaceName → Space}
    (hs : FieldSpaces lib S source) (ht : FieldSpaces lib S target) (hd : ∃ t', lib.spaces.hdiv (target .fineSNC) = some t') (hl : OpHeap lib l) :
    Runs lib (maxwellMultitrace lib source target) l fun b l' => HasBlocks lib S l' b ![source .BRWG, source .BC] ![target .BRWG, target .BC] ![target .RBC, target .BSNC]
      ![![fun v w => S.form .mfie (rot v) w, fun v w => S.form .efie (rot v) w], ![fun v w => -S.form .efie (rot v) w, fun v w => S.form .mfie (rot v) w]] := by
  obtain ⟨t', ht'⟩ := hd
  unfold maxwellMultitrace
  refine (runs_maxwellField hx hn hr hl .efie _ _ _ t' ht' true).bind fun efie n1 hl1 h1 => ?_
  generalize l ++ n1 = l1 at *
  refine (runs_maxwellField hx hn hr hl1 .mfie _ _ _ t' ht' true).bind fun mfie n2 hl2 h2 => ?_
  replace h1 := h1.extend hl1 n2
  generalize l1 ++ n2 = l2 at *
  refine (runs_project_nested hx hl2 h2 (source .BRWG) (target .BRWG) (target .RBC) (fun q hq => hs.rwg (basis_mem _ q hq)) (fun q hq => ht.rbc (basis_mem _ q hq))).bind
    fun b00 n3 hl3 h3 => ?_
  replace h1 := h1.extend hl2 n3
  replace h2 := h2.extend hl2 n3
  generalize l2 ++ n3 = l3 at *
  unfold BNode.new
  refine (runs_setBlock hl3 h3 (by simp) (by simp) (by simp) (by simp) (by simp)).bind fun b new _ ⟨e, hb⟩ => ?_
  rw [e, hb]
  refine (runs_project_nested hx hl3 h1 (source .BC) (target .BRWG) (target .RBC) (fun q hq => hs.bc (basis_mem _ q hq)) (fun q hq => ht.rbc (basis_mem _ q hq))).bind
    fun b01 n4 hl4 h4 => ?_
  replace h1 := h1.extend hl3 n4
  replace h2 := h2.extend hl3 n4
  replace h3 := h3.extend hl3 n4
  generalize l3 ++ n4 = l4 at *
  refine (runs_setBlock hl4 h4 (by simp) (by simp) (by simp) (by simp) (by simp)).bind fun b new _ ⟨e, hb⟩ => ?_
  rw [e, hb]
  refine (runs_project_nested hx hl4 h1 (source .BRWG) (target .BC) (target .BSNC) (fun q hq => hs.rwg (basis_mem _ q hq)) (fun q hq => ht.snc (basis_mem _ q hq))).bind
    fun e0 n5 hl5 h5 => ?_
  replace h2 := h2.extend hl4 n5
  replace h3 := h3.extend hl4 n5
  replace h4 := h4.extend hl4 n5
  generalize l4 ++ n5 = l5 at *
  refine (runs_negate hl5 h5).bind fun b10 n6 hl6 h6 => ?_
  replace h2 := h2.extend hl5 n6
  replace h3 := h3.extend hl5 n6
  replace h4 := h4.extend hl5 n6
  generalize l5 ++ n6 = l6 at *
  refine (runs_setBlock hl6 h6 (by simp) (by simp) (by simp) (by simp) (by simp)).bind fun b new _ ⟨e, hb⟩ => ?_
  rw [e, hb]
  refine (runs_project_nested hx hl6 h2 (source .BC) (target .BC) (target .BSNC) (fun q hq => hs.bc (basis_mem _ q hq)) (fun q hq => ht.snc (basis_mem _ q hq))).bind
    fun b11 n7 hl7 h7 => ?_
  replace h3 := h3.extend hl6 n7
  replace h4 := h4.extend hl6 n7
  replace h6 := h6.extend hl6 n7
  generalize l6 ++ n7 = l7 at *
  refine (runs_setBlock hl7 h7 (by simp) (by simp) (by simp) (by simp) (by simp)).mono fun b new ⟨e, hb⟩ => ?_
  rw [e, hb]
  exact hasBlocks (b00 := b00) (b01 := b01) (b10 := b10) (b11 := b11) rfl rfl rfl rfl (by simp) (by simp) (by simp) (by simp) (h3.hasForm fun _ _ _ _ => rfl)
    (h4.hasForm fun _ _ _ _ => rfl) (h6.hasForm fun _ _ _ _ => rfl) (h7.hasForm fun _ _ _ _ => rfl)

theorem runs_efieSquared (hx : Exact lib S) (hn : Nested lib S) {rot : V →ₗ[ℝ] V} (hr : Rotates lib S rot) {grid : SpaceName → Space}
    (hs : FieldSpaces lib S grid) (hd : ∃ t', lib.spaces.hdiv (grid .fineSNC) = some t') (hl : OpHeap lib l) :
    Runs lib (efieSquared lib grid) l fun p l' => StandsAs lib S True l' p.1 (grid .BRWG) (grid .BRWG) (grid .BSNC) ((S.form .efie).comp rot) ∧
      StandsAs lib S True l' p.2 (grid .BC) (grid .BRWG) (grid .RBC) ((S.form .efie).comp rot) := by
  obtain ⟨t', ht'⟩ := hd
  unfold efieSquared
  refine (runs_maxwellField hx hn hr hl .efie _ _ _ t' ht' true).bind fun efie n1 hl1 h1 => ?_
  generalize l ++ n1 = l1 at *
  refine (runs_project_nested hx hl1 h1 (grid .BRWG) (grid .BRWG) (grid .BSNC) (fun q hq => hs.rwg (basis_mem _ q hq)) (fun q hq => hs.snc (basis_mem _ q hq))).bind
    fun e1 n2 hl2 h2 => ?_
  replace h1 := h1.extend hl1 n2
  generalize l1 ++ n2 = l2 at *
  refine (runs_project_nested hx hl2 h1 (grid .BC) (grid .BRWG) (grid .RBC) (fun q hq => hs.bc (basis_mem _ q hq)) (fun q hq => hs.rbc (basis_mem _ q hq))).bind
    fun e2 n3 hl3 h3 => ?_
  replace h2 := h2.extend hl2 n3
  exact Runs.pure hl3 ⟨h2, h3⟩

/-! ### Counting -/

theorem integrals_append (x y : List Node) : integrals lib (x ++ y) = integrals lib x + integrals lib y := by
  unfold integrals
  rw [List.filter_append, List.length_append]

theorem integrals_nil : integrals lib [] = 0 := rfl

theorem integrals_one {n : Node} (h : IsIntegral lib n) : integrals lib [n] = 1 := by
  unfold integrals; simp [h]

theorem integrals_zero {n : Node} (h : ¬ IsIntegral lib n) : integrals lib [n] = 0 := by
  unfold integrals; simp [h]

theorem Creates.bind {α β : Type} {m : Build α} {f : α → Build β} {p q : Nat} (hm : Creates lib m p) (hf : ∀ x, Creates lib (f x) q) : Creates lib (m >>= f) (p + q) := by
  intro l y l' h
  have h : StateT.bind m f l = _ := h
  unfold StateT.bind at h
  cases hml : m l with
  | error e => rw [hml] at h; cases h
  | ok r =>
    obtain ⟨x, l1⟩ := r
    rw [hml] at h
    obtain ⟨n1, e1, c1⟩ := hm l x l1 hml
    obtain ⟨n2, e2, c2⟩ := hf x l1 y l' h
    exact ⟨n1 ++ n2, by rw [e2, e1, List.append_assoc], by rw [integrals_append, c1, c2]⟩

theorem Creates.pure {α : Type} (x : α) : Creates lib (Pure.pure x : Build α) 0 := by
  intro l y l' h
  have h : Except.ok (x, l) = Except.ok (y, l') := h
  cases h
  exact ⟨[], by simp, integrals_nil⟩

theorem Creates.get : Creates lib (get : Build (List Node)) 0 := by
  intro l y l' h
  have h : (Except.ok (l, l) : Except Exn _) = Except.ok (y, l') := h
  cases h
  exact ⟨[], by simp, integrals_nil⟩

theorem creates_allocWith {f : (Nat → Node) → Res Node} (hf : ∀ nodes n, f nodes = .ok n → ∀ k, n.kind ≠ .elementary k) : Creates lib (allocWith f) 0 := by
  intro l y l' h
  unfold allocWith at h
  split at h
  · rename_i n hn
    cases h
    exact ⟨[n], rfl, integrals_zero fun ⟨k, d, t, _, e⟩ => hf _ _ hn _ e⟩
  · cases h

theorem creates_rewrite (i : Nat) (d r t : Space) : Creates lib (rewriteSpaces i d r t) 0 := by
  intro l y l' h
  have h : (Except.ok (l.length, l ++ [mkRewrite i d r t]) : Except Exn _) = Except.ok (y, l') := h
  cases h
  exact ⟨_, rfl, integrals_zero fun ⟨k, d, t, _, e⟩ => by cases e⟩

theorem creates_zero (d r t : Space) : Creates lib (alloc ⟨.zero, d, r, t⟩) 0 := by
  intro l y l' h
  have h : (Except.ok (l.length, l ++ [⟨.zero, d, r, t⟩]) : Except Exn _) = Except.ok (y, l') := h
  cases h
  exact ⟨_, rfl, integrals_zero fun ⟨k, d, t, _, e⟩ => by cases e⟩

theorem creates_project (i : Nat) (d r t : Space) : Creates lib (project i d r t) 0 := by
  intro l y l' h
  unfold project at h
  split at h
  · rename_i n hn
    cases h
    refine ⟨[n], rfl, integrals_zero fun ⟨k, d, t, _, e⟩ => ?_⟩
    unfold mkProjection at hn
    dsimp only at hn
    split at hn
    · split at hn
      · cases hn
      · cases hn; cases e
    · cases hn; cases e
  · cases h
    exact ⟨[], by simp, integrals_nil⟩

theorem creates_integral {k : Label} (hk : Label.Integral k) (d r t : Space) : Creates lib (elementary lib k d r t) 1 := by
  intro l y l' h
  have h : (Except.ok (l.length, l ++ [⟨.elementary (lib.number k d t), d, r, t⟩]) : Except Exn _) = Except.ok (y, l') := h
  cases h
  exact ⟨_, rfl, integrals_one ⟨k, d, t, hk, rfl⟩⟩

theorem creates_local (hn : Numbered lib) {k : Label} (hk : ¬ Label.Integral k) (d r t : Space) : Creates lib (elementary lib k d r t) 0 := by
  intro l y l' h
  have h : (Except.ok (l.length, l ++ [⟨.elementary (lib.number k d t), d, r, t⟩]) : Except Exn _) = Except.ok (y, l') := h
  cases h
  refine ⟨_, rfl, integrals_zero fun ⟨k', d', t', hk', e⟩ => ?_⟩
  have e : Kind.elementary (lib.number k d t) = .elementary (lib.number k' d' t') := e
  injection e with e
  exact hk (hn _ _ _ _ _ _ e ▸ hk')

theorem creates_preprocess {k : Label} (hk : Label.Integral k) (n : Nat) : ∀ d r t u, Creates lib (preprocess lib n k d r t u) 1 := by
  induction n with
  | zero => intro d r t u l x l' h; cases h
  | succ n ih =>
    intro d r t u
    unfold preprocess
    split
    · exact (ih _ _ _ _).bind fun _ => creates_rewrite _ _ _ _
    · split
      · exact (creates_integral hk _ _ _).bind fun _ => creates_project _ _ _ _
      · exact creates_integral hk _ _ _

theorem creates_addSandwich (factor : Option Scalar) (slp compound op : Nat) : Creates lib (addSandwich lib factor slp compound op) 0 := by
  have hprod : ∀ p, Creates lib (do
      let b ← allocWith fun nodes => mkProduct lib.core nodes p op
      allocWith fun nodes => mkSum lib.core nodes compound b) 0 := by
    intro p
    refine (creates_allocWith fun nodes n h k hk => ?_).bind (q := 0) fun _ => creates_allocWith fun nodes n h k hk => ?_
    · unfold mkProduct at h; split at h
      · cases h
      · cases h; cases hk
    · unfold mkSum at h; split at h
      · cases h
      · cases h; cases hk
  unfold addSandwich
  refine (creates_allocWith fun nodes n h k hk => ?_).bind (q := 0) fun p => ?_
  · unfold mkDualProduct at h; split at h
    · cases h
    · cases h; cases hk
  · cases factor with
    | none => exact (Creates.pure p).bind (q := 0) hprod
    | some c =>
      refine (creates_allocWith fun nodes n h k hk => ?_).bind (q := 0) hprod
      cases h; cases hk

theorem creates_compoundStep (hn : Numbered lib) (wave2 : Option Scalar) (d s : Space) (slp compound c : Nat) : Creates lib (compoundStep lib wave2 d s slp compound c) 0 := by
  unfold compoundStep
  refine (creates_local hn (fun h => ?_) _ _ _).bind (q := 0) fun _ => (creates_addSandwich _ _ _ _).bind (q := 0) fun _ => ?_
  · rcases h with h | h | h | h | h | h <;> cases h
  · cases wave2 with
    | none => exact Creates.pure _
    | some w =>
      refine (creates_local hn (fun h => ?_) _ _ _).bind (q := 0) fun _ => creates_addSandwich _ _ _ _
      rcases h with h | h | h | h | h | h <;> cases h

theorem creates_hyp_op (hn : Numbered lib) (wave2 : Option Scalar) (d r : Space) (slp : Nat) (u : Bool) : Creates lib (hypersingular lib wave2 d r d (.op slp) u) 0 := by
  have hu : (if d ≠ d then UseSlp.no else UseSlp.op slp) = .op slp := if_neg (fun h => h rfl)
  unfold hypersingular
  rw [hu]
  refine (Creates.pure slp).bind (q := 0) fun slp => Creates.get.bind (q := 0) fun l => (creates_zero _ _ _).bind (q := 0) fun c => ?_
  simp only [List.foldlM_cons, List.foldlM_nil, bind_pure]
  have h : Creates lib (do
      let c ← compoundStep lib wave2 d (nodesOf l slp).domain slp c 0
      let c ← compoundStep lib wave2 d (nodesOf l slp).domain slp c 1
      compoundStep lib wave2 d (nodesOf l slp).domain slp c 2) 0 :=
    (creates_compoundStep hn _ _ _ _ _ _).bind (q := 0) fun _ => (creates_compoundStep hn _ _ _ _ _ _).bind (q := 0) fun _ => creates_compoundStep hn _ _ _ _ _ _
  exact h.bind (q := 0) fun _ => creates_rewrite _ _ _ _

end

end Verif.PyOp
