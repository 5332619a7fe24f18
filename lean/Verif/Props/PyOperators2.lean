import Verif.Props.PyOperators
/-
C95: a library and spaces that meet the hypotheses of the theorems.
-/
namespace Verif.PyOp
noncomputable section

namespace Example

/-- Functions on a surface of four triangles. -/
abbrev W := Fin 4 → ℝ

def ip : W →ₗ[ℝ] W →ₗ[ℝ] ℝ := LinearMap.mk₂ ℝ (fun v w => v 0 * w 0 + v 1 * w 1 + v 2 * w 2 + v 3 * w 3)
  (fun _ _ _ => by simp only [Pi.add_apply]; ring) (fun _ _ _ => by simp only [Pi.smul_apply, smul_eq_mul]; ring)
  (fun _ _ _ => by simp only [Pi.add_apply]; ring) (fun _ _ _ => by simp only [Pi.smul_apply, smul_eq_mul]; ring)

theorem ip_apply (v w : W) : ip v w = v 0 * w 0 + v 1 * w 1 + v 2 * w 2 + v 3 * w 3 := rfl

/-- Shift by `c + 1` triangles. -/
def shift (c : Nat) : W →ₗ[ℝ] W := LinearMap.funLeft ℝ ℝ fun i => i + (Fin.ofNat 4 (c + 1))

def weight : W →ₗ[ℝ] W := LinearMap.pi fun i => ((i : ℕ) + 1 : ℝ) • LinearMap.proj i

def one : W := fun _ => 1

def rankOne : W →ₗ[ℝ] W →ₗ[ℝ] ℝ := LinearMap.mk₂ ℝ (fun v w => ip v one * ip w one) (fun _ _ _ => by simp [add_mul]) (fun _ _ _ => by simp [mul_assoc])
  (fun _ _ _ => by simp [mul_add]) (fun _ _ _ => by simp [mul_left_comm])

/-- Real forms. -/
def real : Label → W →ₗ[ℝ] W →ₗ[ℝ] ℝ
  | .slp => ip.compl₂ weight
  | .dlp => ip.compl₂ (shift 0)
  | .adlp => (ip.compl₂ (shift 0)).flip
  | .hyp => ip.compl₁₂ (shift 0) (weight ∘ₗ shift 0) + ip.compl₁₂ (shift 1) (weight ∘ₗ shift 1) + ip.compl₁₂ (shift 2) (weight ∘ₗ shift 2)
  | .efie => ip.compl₂ (weight ∘ₗ shift 1)
  | .mfie => ip.compl₂ (shift 1)
  | .identity => ip
  | .rankOne => rankOne
  | .curl c => ip.compl₂ (shift c)
  | .normal c => ip.compl₂ (((c : ℝ) + 1) • LinearMap.id)

/-- Spaces 0 and 2 (a barycentric version) are functions constant on pairs of triangles, space 1 all functions; 3 and 4 are rotated versions. -/
def dofs : Space → Nat
  | 0 => 2 | 1 => 4 | 2 => 2 | 3 => 2 | 4 => 4 | _ => 0

def pairs (i : Nat) : W := fun k => if (k : Nat) / 2 = i then 1 else 0
def single (i : Nat) : W := fun k => if (k : Nat) = i then 1 else 0

def basis : Space → Nat → W
  | 0 => pairs | 1 => single | 2 => pairs | 3 => fun i => -pairs i | 4 => fun i => -single i | _ => fun _ => 0

def surface : Surface W where
  basis := basis
  ip := ip
  form k := (real k).compr₂ (Algebra.linearMap ℝ ℂ)
  curl := shift
  normal c := ((c : ℝ) + 1) • LinearMap.id
  one := one

theorem form_apply (k : Label) (v w : W) : surface.form k v w = (real k v w : ℝ) := rfl

/-- Numbers of kinds of operators. -/
def index : Label → Nat
  | .slp => 0 | .dlp => 1 | .adlp => 2 | .hyp => 3 | .efie => 4 | .mfie => 5 | .identity => 6 | .rankOne => 7
  | .curl c => 8 + 2 * c
  | .normal c => 9 + 2 * c

def label : Nat → Label
  | 0 => .slp | 1 => .dlp | 2 => .adlp | 3 => .hyp | 4 => .efie | 5 => .mfie | 6 => .identity | 7 => .rankOne
  | n + 8 => if n % 2 = 0 then .curl (n / 2) else .normal (n / 2)

theorem label_index (k : Label) : label (index k) = k := by
  cases k <;> try rfl
  · rename_i c
    show label (8 + 2 * c) = _
    rw [Nat.add_comm]
    show (if (2 * c) % 2 = 0 then Label.curl (2 * c / 2) else Label.normal (2 * c / 2)) = _
    rw [if_pos (by omega), show 2 * c / 2 = c by omega]
  · rename_i c
    show label (9 + 2 * c) = _
    rw [show 9 + 2 * c = (2 * c + 1) + 8 by omega]
    show (if (2 * c + 1) % 2 = 0 then Label.curl ((2 * c + 1) / 2) else Label.normal ((2 * c + 1) / 2)) = _
    rw [if_neg (by omega), show (2 * c + 1) / 2 = c by omega]

def array (d t : Space) (f : W → W → ℝ) : Arr := ⟨true, dofs t, dofs d, false, fun i j => (f (basis t i) (basis d j) : ℝ)⟩

def lib : Library where
  core := {
    dofs := dofs
    compatible := fun s t => s == t
    form := fun n _ => .dense (array n.unpair.2.unpair.1 n.unpair.2.unpair.2 fun v w => real (label n.unpair.1) v w)
    mass := fun d t => array d t fun v w => ip v w }
  spaces := {
    superSpace := fun s => if s = 0 ∨ s = 2 then 1 else if s = 3 then 4 else s
    discontinuous := fun s => if s = 0 ∨ s = 2 then 1 else s
    barycentric := fun s => s == 2
    nonBarycentric := fun s => if s = 2 then some 0 else none
    hdiv := fun s => if s = 0 then some 3 else if s = 1 then some 4 else none }
  number k d t := Nat.pair (index k) (Nat.pair d t)
  dense := false
  limit := 1000

def grid : SpaceName → Space
  | .P1 => 0 | .DP1 => 1 | .DUAL => 0 | .BP1 => 2 | .fineDP0 => 1 | .fineDP1 => 1 | .BRWG => 0 | .BC => 0 | .RBC => 0 | .BSNC => 0 | .fineRWG => 1 | .fineSNC => 1

theorem typed (d t : Space) (f : W → W → ℝ) : (array d t f).Typed := fun _ i j => Complex.conj_ofReal _

theorem independent_pairs : LinearIndependent ℝ fun i : Fin 2 => pairs i := by
  rw [Fintype.linearIndependent_iff]
  intro g h
  have h0 := congrFun h 0
  have h2 := congrFun h 2
  simp [Fin.sum_univ_two, pairs] at h0 h2
  intro i
  fin_cases i
  · exact h0
  · exact h2

theorem independent_single : LinearIndependent ℝ fun i : Fin 4 => single i := by
  rw [Fintype.linearIndependent_iff]
  intro g h i
  have h0 := congrFun h i
  simp only [Finset.sum_apply, Pi.smul_apply, single, smul_eq_mul, mul_ite, mul_one, mul_zero, Pi.zero_apply, Fin.val_inj] at h0
  simpa using h0

theorem independent_neg {n : Nat} {f : Fin n → W} (h : LinearIndependent ℝ f) : LinearIndependent ℝ fun i => -f i := by
  have := h.neg
  exact this

theorem whole (v : W) : v ∈ surface.span lib.core 1 := by
  have : v = ∑ i : Fin 4, v i • single i := by
    funext k
    simp only [Finset.sum_apply, Pi.smul_apply, single, smul_eq_mul, mul_ite, mul_one, mul_zero, Fin.val_inj]
    simp
  rw [this]
  exact Submodule.sum_mem _ fun i _ => Submodule.smul_mem _ _ (Submodule.subset_span ⟨i, rfl⟩)

theorem whole4 (v : W) : v ∈ surface.span lib.core 4 := by
  have : v = ∑ i : Fin 4, (-v i) • (-single i) := by
    funext k
    simp only [Finset.sum_apply, Pi.smul_apply, Pi.neg_apply, single, smul_eq_mul, neg_mul_neg, mul_ite, mul_one, mul_zero, Fin.val_inj]
    simp
  rw [this]
  exact Submodule.sum_mem _ fun i _ => Submodule.smul_mem _ _ (Submodule.subset_span ⟨i, rfl⟩)

theorem exact : Exact lib surface where
  symm v w := by show ip v w = ip w v; rw [ip_apply, ip_apply]; ring
  positive v hv := by
    show 0 < ip v v
    rw [ip_apply]
    have hn : ∀ i, 0 ≤ v i * v i := fun i => mul_self_nonneg _
    by_contra hlt
    refine hv (funext fun i => ?_)
    have h0 := hn 0; have h1 := hn 1; have h2 := hn 2; have h3 := hn 3
    have : v i * v i = 0 := by
      fin_cases i
      · show v 0 * v 0 = 0; linarith
      · show v 1 * v 1 = 0; linarith
      · show v 2 * v 2 = 0; linarith
      · show v 3 * v 3 = 0; linarith
    simpa using this
  independent s := by
    match s with
    | 0 => exact independent_pairs
    | 1 => exact independent_single
    | 2 => exact independent_pairs
    | 3 => exact independent_neg independent_pairs
    | 4 => exact independent_neg independent_single
    | n + 5 =>
      have : IsEmpty (Fin (lib.core.dofs (n + 5))) := Fin.isEmpty
      exact linearIndependent_empty_type
  notOne s := by
    match s with
    | 0 => exact (by decide : (2 : Nat) ≠ 1)
    | 1 => exact (by decide : (4 : Nat) ≠ 1)
    | 2 => exact (by decide : (2 : Nat) ≠ 1)
    | 3 => exact (by decide : (2 : Nat) ≠ 1)
    | 4 => exact (by decide : (4 : Nat) ≠ 1)
    | n + 5 => exact (by decide : (0 : Nat) ≠ 1)
  compatible s := beq_self_eq_true s
  mass d t := ⟨rfl, typed _ _ _, rfl, rfl, fun _ _ _ _ => rfl⟩
  forms k d t τ := by
    show IsAtom (dofs t) (dofs d) _ (.dense (array (Nat.unpair (Nat.unpair (Nat.pair (index k) (Nat.pair d t))).2).1 (Nat.unpair (Nat.unpair (Nat.pair (index k) (Nat.pair d t))).2).2
      fun v w => real (label (Nat.unpair (Nat.pair (index k) (Nat.pair d t))).1) v w))
    simp only [Nat.unpair_pair, label_index]
    exact .dense _ ⟨rfl, typed _ _ _⟩ rfl rfl fun _ _ _ _ => rfl
  identity _ _ := rfl
  curl _ _ _ := rfl
  normal _ _ _ := rfl
  rankOne v w := by rw [form_apply]; exact Complex.ofReal_mul _ _

theorem nested : Nested lib surface where
  super s := by
    by_cases h : s = 0 ∨ s = 2
    · have : lib.spaces.superSpace s = 1 := if_pos h
      rw [this]; exact fun v _ => whole v
    · by_cases h3 : s = 3
      · have : lib.spaces.superSpace s = 4 := by show (if s = 0 ∨ s = 2 then 1 else if s = 3 then 4 else s) = 4; rw [if_neg h, if_pos h3]
        rw [this]; exact fun v _ => whole4 v
      · have : lib.spaces.superSpace s = s := by show (if s = 0 ∨ s = 2 then 1 else if s = 3 then 4 else s) = s; rw [if_neg h, if_neg h3]
        rw [this]
  nonBarycentric s s' h := by
    have h : (if s = 2 then some 0 else none) = some s' := h
    split at h
    · rename_i hs
      cases h
      subst hs
      exact ⟨rfl, fun _ => rfl, rfl⟩
    · cases h
  limit := by decide

theorem gridSpaces : GridSpaces lib surface grid where
  linear := fun v _ => whole v
  linearCurl := fun _ v _ => whole _
  linearNormal := fun _ v _ => whole _
  constant := fun v _ => whole v
  fine := fun v _ => whole v
  fineLinear := fun v _ => whole v
  fineCurl := fun _ v _ => whole _
  fineNormal := fun _ v _ => whole _

theorem fieldSpaces : FieldSpaces lib surface grid where
  rwg := fun v _ => whole v
  bc := fun v _ => whole v
  snc := fun v _ => whole v
  rbc := fun v _ => whole v

theorem rotates : Rotates lib surface (-LinearMap.id) := by
  intro s s' h
  have h : (if s = 0 then some 3 else if s = 1 then some 4 else none) = some s' := h
  split at h
  · rename_i hs; cases h; subst hs; exact ⟨rfl, fun _ _ => rfl⟩
  · split at h
    · rename_i hs; cases h; subst hs; exact ⟨rfl, fun _ _ => rfl⟩
    · cases h

theorem numbered : Numbered lib := by
  intro k d t k' d' t' h
  have h : Nat.pair (index k) (Nat.pair d t) = Nat.pair (index k') (Nat.pair d' t') := h
  have h1 := (Nat.pair_eq_pair.mp h).1
  have := congrArg label h1
  rwa [label_index, label_index] at this

theorem opHeap_nil (lib : Library) : OpHeap lib [] := fun i => Or.inr (Or.inl (by
  have : nodesOf [] i = ⟨.zero, 0, 0, 0⟩ := nodesOf_out [] (Nat.zero_le i)
  rw [this]))

/-- Integration by parts holds in the example. -/
theorem parts (v w : W) : surface.form .hyp v w = surface.maue none (fun v w => surface.form .slp v w) v w := by
  unfold Surface.maue
  simp only [form_apply, Finset.sum_range_succ, Finset.sum_range_zero, waveFactor, zero_mul, add_zero, zero_add, ← Complex.ofReal_add]
  rfl

end Example

open Example in
/-- The hypotheses of the theorems hold for a library with spaces that are properly contained in others; so all of them apply to it. -/
theorem C95_example : Exact lib surface ∧ Nested lib surface ∧ GridSpaces lib surface grid ∧ FieldSpaces lib surface grid ∧
    Rotates lib surface (-LinearMap.id) ∧ Numbered lib ∧ OpHeap lib [] ∧ (∀ k t, ∃ op, (lib.core.form k t).eval = .ok op) ∧
    surface.span lib.core (grid .P1) ≠ surface.span lib.core (grid .DP1) := by
  refine ⟨exact, nested, gridSpaces, fieldSpaces, rotates, numbered, opHeap_nil lib, fun _ _ => ⟨_, rfl⟩, fun h => ?_⟩
  have hmem : Example.single 0 ∈ surface.span lib.core (grid .P1) := h ▸ whole _
  have key : ∀ v ∈ surface.span lib.core 0, v 0 = v 1 := by
    intro v hv
    refine Submodule.span_induction (p := fun v _ => v 0 = v 1) ?_ rfl ?_ ?_ hv
    · rintro _ ⟨i, rfl⟩
      rfl
    · intro x y _ _ h1 h2; simp [h1, h2]
    · intro c x _ h1; simp [h1]
  have := key _ hmem
  simp [Example.single] at this

open Example in
/-- The multitrace operator of the example, and its hypersingular block that is that of the direct assembly. -/
theorem C95_example_multitrace (l : List Node) (hl : OpHeap lib l) : Runs lib (multitrace lib none grid .linear none) l fun b l' =>
    HasBlocks lib surface l' b ![0, 0] ![0, 0] ![0, 0]
      ![![fun v w => -surface.form .dlp v w, fun v w => surface.form .slp v w], ![fun v w => surface.form .hyp v w, fun v w => surface.form .dlp w v]] := by
  have h := C95_multitrace_linear exact nested gridSpaces hl none (fun _ h => by cases h)
  have he : (fun v w => surface.form .hyp v w) = surface.maue none fun v w => surface.form .slp v w := by
    funext v w; exact parts v w
  rw [he]
  exact h

namespace Example

/-- The L2 projection to the functions constant on pairs of triangles. -/
def average (v : W) : W := ((v 0 + v 1) / 2) • pairs 0 + ((v 2 + v 3) / 2) • pairs 1

theorem average_projection (v : W) : surface.IsProjection lib.core 0 v (average v) := by
  constructor
  · exact Submodule.add_mem _ (Submodule.smul_mem _ _ (Submodule.subset_span ⟨(0 : Fin 2), rfl⟩)) (Submodule.smul_mem _ _ (Submodule.subset_span ⟨(1 : Fin 2), rfl⟩))
  · intro w hw
    show ip w (v - average v) = 0
    refine Submodule.span_induction (p := fun w _ => ip w (v - average v) = 0) ?_ ?_ ?_ ?_ hw
    · rintro _ ⟨i, rfl⟩
      show ip (pairs i) _ = 0
      have h : ∀ i : Fin 2, ip (pairs i) (v - average v) = 0 := by
        intro i
        fin_cases i
        · rw [ip_apply]; simp [pairs, average]; ring
        · rw [ip_apply]; simp [pairs, average]; ring
      exact h i
    · simp
    · intro x y _ _ h1 h2; simp [h1, h2]
    · intro c x _ h1; simp [h1]

end Example

open Example in
/-- The spaces matter: with the single-layer operator on the space itself, which does not contain the curls, the operator is another one (as the
documentation of `use_slp` warns). -/
theorem C95_slp_space_matters : ∃ M : Matrix (Fin (lib.core.dofs 0)) (Fin (lib.core.dofs 0)) ℂ, M ≠ surface.galerkin lib.core (fun v w => surface.form .hyp v w) 0 0 ∧
    Runs lib (do
      let slp ← operator lib false .slp 0 0 0 true
      hypersingular lib none 0 0 0 (.op slp) true) [] fun i l' => HasForm lib l' i 0 0 0 M := by
  refine ⟨_, ?_, (C95_layer exact nested (opHeap_nil lib) false .slp 0 0 0 true).bind fun slp new hl h =>
    C95_hypersingular_slp exact hl none (fun _ h => by cases h) h 0 0 true average average_projection⟩
  intro h
  have h00 := congrFun (congrFun h (0 : Fin 2)) (0 : Fin 2)
  have h00 : surface.maue none (fun v w => surface.form .slp (average v) (average w)) (pairs 0) (pairs 0) = surface.form .hyp (pairs 0) (pairs 0) := h00
  rw [parts] at h00
  unfold Surface.maue at h00
  simp only [form_apply, Finset.sum_range_succ, Finset.sum_range_zero, waveFactor, zero_mul, add_zero, zero_add, ← Complex.ofReal_add, Complex.ofReal_inj] at h00
  have hs : ∀ c v k, surface.curl c v k = v (k + Fin.ofNat 4 (c + 1)) := fun _ _ _ => rfl
  have hr : ∀ v w, real .slp v w = v 0 * w 0 + v 1 * (2 * w 1) + v 2 * (3 * w 2) + v 3 * (4 * w 3) := by
    intro v w
    show ip v (weight w) = _
    rw [ip_apply]
    simp [weight]
    norm_num
  rw [hr, hr, hr, hr, hr, hr] at h00
  simp [average, pairs, hs, Fin.ofNat] at h00
  norm_num at h00

end

end Verif.PyOp
