import Verif.Spec.PySpace
/-
Explicit results of the constructors.
-/
namespace Verif.PySpace
open Verif.Grid Verif.Space

/-- Native space of kind "DP". -/
def dpNative (a : Args) : Native :=
  if a.order = 0 then onDomains .constant .constant a.grid a.domains a.closed
  else onDomains (.polynomialDiscontinuous a.order 4)
    (.polynomialDiscontinuous a.order ((if a.onElement then 2 else 0) + (if a.refPoint then 4 else 0))) a.grid a.domains a.closed

/-- Native space of kind "P". -/
def pNative (a : Args) : Native :=
  if a.order = 1 then onDomains (.linearContinuous false) (.linearContinuous a.strict) a.grid a.domains a.closed
  else onDomains (.polynomialContinuous a.order false) (.polynomialContinuous a.order a.strict) a.grid a.domains a.closed

def dpSpace (a : Args) : PySpace := .mk ⟨dpNative a, some a.key, a.order, true, false, a.grid, .scalar⟩ .self .self .self .none

theorem mkDP_eq (a : Args) : mkDP a =
    if (a.refPoint = true ∨ a.onElement = true) ∧ 0 ≤ a.order ∧ a.order ≤ 10 then .ok (dpSpace a) else .error .valueError := by
  unfold mkDP coreFunctionSpace dpSpace dpNative
  simp only [Bind.bind, Except.bind]
  rcases a with ⟨g, k, o, d, c, s, r, el⟩
  simp only
  by_cases ho : 0 ≤ o ∧ o ≤ 10
  · cases r <;> cases el <;> by_cases h0 : o = 0 <;> simp [ho, h0]
  · cases r <;> cases el <;> simp [ho]

/-- Arguments of the discontinuous companion of a "P" space. -/
def pDiscArgs (a : Args) : Args :=
  if a.closed = false then ⟨a.grid, "DP", a.order, a.domains, a.closed, false, false, true⟩
  else ⟨a.grid, "DP", a.order, a.domains, a.closed, false, true, a.strict⟩

def pSpace (a : Args) : PySpace :=
  .mk ⟨pNative a, some a.key, a.order, true, false, a.grid, .scalar⟩ .self (.to (dpSpace (pDiscArgs a))) (.to (dpSpace (pDiscArgs a))) .none

theorem mkP_eq (a : Args) : mkP a =
    if 1 ≤ a.order ∧ a.order ≤ 10 then .ok (pSpace a) else .error .valueError := by
  rcases a with ⟨g, k, o, d, c, s, r, el⟩
  unfold mkP coreFunctionSpace pSpace pNative pDiscArgs
  simp only [Bind.bind, Except.bind, mkDP_eq]
  by_cases ho : 1 ≤ o ∧ o ≤ 10
  · have h0 : 0 ≤ o ∧ o ≤ 10 := by omega
    cases el <;> cases c <;> cases s <;> simp [ho, h0] <;> by_cases h1 : o = 1 <;> simp [h1]
  · cases el <;> simp [ho]

/-- Arguments of the discontinuous companion of a vector space. -/
def vDiscArgs (a : Args) : Args :=
  if a.closed = false then ⟨a.grid, "DP", 1, a.domains, a.closed, false, false, true⟩
  else ⟨a.grid, "DP", 1, a.domains, a.closed, false, true, false⟩

theorem vectorDisc_eq (a : Args) : vectorDisc a = .ok (dpSpace (vDiscArgs a)) := by
  unfold vectorDisc vDiscArgs
  cases h : a.closed <;> simp [mkDP_eq]

def rtSpace (a : Args) : PySpace :=
  .mk ⟨onDomains .raviartThomas .raviartThomas a.grid a.domains a.closed, some a.key, 0, true, false, a.grid, .hdiv⟩
    .self (.to (dpSpace (vDiscArgs a))) .self .none

theorem mkRT_eq (a : Args) : mkRT a = .ok (rtSpace a) := by
  unfold mkRT
  simp only [Bind.bind, Except.bind, vectorDisc_eq]
  rfl

def rwgSpace (a : Args) : PySpace :=
  .mk ⟨onDomains .rwg .rwg a.grid a.domains a.closed, some a.key, 0, true, false, a.grid, .hdiv⟩
    .self (.to (dpSpace (vDiscArgs a))) .self .none

theorem mkRWG_eq (a : Args) : mkRWG a = .ok (rwgSpace a) := by
  unfold mkRWG
  simp only [Bind.bind, Except.bind, vectorDisc_eq]
  rfl

def ncSpace (a : Args) : PySpace :=
  .mk ⟨onDomains .nedelec .nedelec a.grid a.domains a.closed, some a.key, 0, true, false, a.grid, .hcurl⟩
    .self (.to (dpSpace (vDiscArgs a))) .self
    (.to (rtSpace { grid := a.grid, kind := "RT", order := 0, domains := a.domains, closed := a.closed }))

theorem mkNC_eq (a : Args) : mkNC a = .ok (ncSpace a) := by
  unfold mkNC
  simp only [Bind.bind, Except.bind, vectorDisc_eq, mkRT_eq]
  rfl

def sncSpace (a : Args) : PySpace :=
  .mk ⟨onDomains .scaledNedelec .scaledNedelec a.grid a.domains a.closed, some a.key, 0, true, false, a.grid, .hcurl⟩
    .self (.to (dpSpace (vDiscArgs a))) .self
    (.to (rwgSpace { grid := a.grid, kind := "RWG", order := 0, domains := a.domains, closed := a.closed }))

theorem mkSNC_eq (a : Args) : mkSNC a = .ok (sncSpace a) := by
  unfold mkSNC
  simp only [Bind.bind, Except.bind, vectorDisc_eq, mkRWG_eq]
  rfl

/-- `function_space(grid, "DP", order)`. -/
def dp (grid : Nat) (order : Int) : PySpace := dpSpace { grid := grid, kind := "DP", order := order }

theorem callDP_eq (grid : Nat) (order : Int) : callDP grid order =
    if 0 ≤ order ∧ order ≤ 10 then .ok (dp grid order) else .error .valueError := by
  unfold callDP dp
  rw [mkDP_eq]
  simp

theorem callDP_one (grid : Nat) : callDP grid 1 = .ok (dp grid 1) := by rw [callDP_eq]; rfl
theorem callDP_zero (grid : Nat) : callDP grid 0 = .ok (dp grid 0) := by rw [callDP_eq]; rfl

def bdpSpace (bary : Nat → Nat) (a : Args) : PySpace :=
  .mk ⟨adaptive .linearDiscontinuousBarycentric a.grid, some a.key, a.order, true, true, bary a.grid, .scalar⟩
    (.to (dp a.grid a.order)) (.to (dp (bary a.grid) a.order)) (.to (dp (bary a.grid) a.order)) .none

theorem mkBDP_eq (bary : Nat → Nat) (a : Args) : mkBDP bary a =
    if a.order = 1 then .ok (bdpSpace bary a) else .error .valueError := by
  unfold mkBDP coreFunctionSpace guardWhole bdpSpace
  simp only [Bind.bind, Except.bind, callDP_eq]
  by_cases h : a.order = 1 <;> simp [h]

def bpSpace (bary : Nat → Nat) (a : Args) : PySpace :=
  .mk ⟨adaptive .linearContinuousBarycentric a.grid, some a.key, a.order, true, true, bary a.grid, .scalar⟩
    (.to (pSpace { grid := a.grid, kind := "P", order := a.order })) (.to (dp (bary a.grid) a.order))
    (.to (dp (bary a.grid) a.order)) .none

theorem mkBP_eq (bary : Nat → Nat) (a : Args) : mkBP bary a =
    if a.order = 1 then .ok (bpSpace bary a) else .error .valueError := by
  unfold mkBP coreFunctionSpace guardWhole bpSpace
  simp only [Bind.bind, Except.bind, callDP_eq, mkP_eq]
  by_cases h : a.order = 1 <;> simp [h]

def dualSpace (bary : Nat → Nat) (a : Args) : PySpace :=
  .mk ⟨adaptive .constantDual a.grid, some a.key, 0, false, true, bary a.grid, .scalar⟩ .none
    (.to (dp (bary a.grid) 0)) (.to (dp (bary a.grid) 0)) .none

theorem mkDual_eq (bary : Nat → Nat) (a : Args) : mkDual bary a = .ok (dualSpace bary a) := by
  unfold mkDual
  simp only [Bind.bind, Except.bind, callDP_zero]
  rfl

def brtSpace (bary : Nat → Nat) (a : Args) : PySpace :=
  .mk ⟨adaptive .raviartThomasBarycentric a.grid, some a.key, 0, true, true, bary a.grid, .hdiv⟩
    (.to (rtSpace { grid := a.grid, kind := "RT", order := 0 })) (.to (dp (bary a.grid) 1))
    (.to (rtSpace { grid := bary a.grid, kind := "RT", order := 0 })) .none

theorem mkBRT_eq (bary : Nat → Nat) (a : Args) : mkBRT bary a = .ok (brtSpace bary a) := by
  unfold mkBRT
  simp only [Bind.bind, Except.bind, callDP_one, mkRT_eq]
  rfl

def brwgSpace (bary : Nat → Nat) (a : Args) : PySpace :=
  .mk ⟨adaptive .rwgBarycentric a.grid, some a.key, 0, true, true, bary a.grid, .hdiv⟩
    (.to (rwgSpace { grid := a.grid, kind := "RWG", order := 0 })) (.to (dp (bary a.grid) 1))
    (.to (rwgSpace { grid := bary a.grid, kind := "RWG", order := 0 })) .none

theorem mkBRWG_eq (bary : Nat → Nat) (a : Args) : mkBRWG bary a = .ok (brwgSpace bary a) := by
  unfold mkBRWG
  simp only [Bind.bind, Except.bind, callDP_one, mkRWG_eq]
  rfl

def bncSpace (bary : Nat → Nat) (a : Args) : PySpace :=
  .mk ⟨adaptive .nedelecBarycentric a.grid, some a.key, 0, true, true, bary a.grid, .hcurl⟩
    (.to (ncSpace { grid := a.grid, kind := "NC", order := 0 })) (.to (dp (bary a.grid) 1))
    (.to (ncSpace { grid := bary a.grid, kind := "NC", order := 0 }))
    (.to (brtSpace bary { grid := a.grid, kind := "B-RT", order := 0 }))

theorem mkBNC_eq (bary : Nat → Nat) (a : Args) : mkBNC bary a = .ok (bncSpace bary a) := by
  unfold mkBNC
  simp only [Bind.bind, Except.bind, callDP_one, mkNC_eq, mkBRT_eq]
  rfl

def bsncSpace (bary : Nat → Nat) (a : Args) : PySpace :=
  .mk ⟨adaptive .scaledNedelecBarycentric a.grid, some a.key, 0, true, true, bary a.grid, .hcurl⟩
    (.to (sncSpace { grid := a.grid, kind := "SNC", order := 0 })) (.to (dp (bary a.grid) 1))
    (.to (sncSpace { grid := bary a.grid, kind := "SNC", order := 0 }))
    (.to (brwgSpace bary { grid := a.grid, kind := "B-RWG", order := 0 }))

theorem mkBSNC_eq (bary : Nat → Nat) (a : Args) : mkBSNC bary a = .ok (bsncSpace bary a) := by
  unfold mkBSNC
  simp only [Bind.bind, Except.bind, callDP_one, mkSNC_eq, mkBRWG_eq]
  rfl

def bcSpace (bary : Nat → Nat) (grid : Nat) (key : Option Key) : PySpace :=
  .mk ⟨adaptive .buffaChristiansen grid, key, 0, false, true, bary grid, .hdiv⟩ .none (.to (dp (bary grid) 1))
    (.to (rwgSpace { grid := bary grid, kind := "RWG", order := 0 })) .none

theorem mkBC_eq (bary : Nat → Nat) (grid : Nat) (key : Option Key) : mkBC bary grid key = .ok (bcSpace bary grid key) := by
  unfold mkBC
  simp only [Bind.bind, Except.bind, callDP_one, mkRWG_eq]
  rfl

def rbcSpace (bary : Nat → Nat) (a : Args) : PySpace :=
  .mk ⟨adaptive .rotatedBuffaChristiansen a.grid, some a.key, 0, false, true, bary a.grid, .hcurl⟩ .none
    (.to (dp (bary a.grid) 1)) (.to (sncSpace { grid := bary a.grid, kind := "SNC", order := 0 }))
    (.to (bcSpace bary a.grid none))

theorem mkRBC_eq (bary : Nat → Nat) (a : Args) : mkRBC bary a = .ok (rbcSpace bary a) := by
  unfold mkRBC
  simp only [Bind.bind, Except.bind, callDP_one, mkSNC_eq, mkBC_eq]
  rfl

/-- The space of an order-0 kind. -/
def zeroSpace (bary : Nat → Nat) (a : Args) : PySpace :=
  if a.kind = "DUAL" then dualSpace bary a
  else if a.kind = "RT" then rtSpace a
  else if a.kind = "NC" then ncSpace a
  else if a.kind = "SNC" then sncSpace a
  else if a.kind = "RWG" then rwgSpace a
  else if a.kind = "B-RT" then brtSpace bary a
  else if a.kind = "B-NC" then bncSpace bary a
  else if a.kind = "B-SNC" then bsncSpace bary a
  else if a.kind = "B-RWG" then brwgSpace bary a
  else if a.kind = "BC" then bcSpace bary a.grid (some a.key)
  else rbcSpace bary a

/-- Explicit result of `function_space`. -/
theorem functionSpace_eq (bary : Nat → Nat) (a : Args) : functionSpace bary a =
    if a.kind = "DP" then
      if (a.refPoint = true ∨ a.onElement = true) ∧ 0 ≤ a.order ∧ a.order ≤ 10 then .ok (dpSpace a) else .error .valueError
    else if a.kind = "B-DP" then if a.order = 1 then .ok (bdpSpace bary a) else .error .valueError
    else if a.kind = "P" then if 1 ≤ a.order ∧ a.order ≤ 10 then .ok (pSpace a) else .error .valueError
    else if a.kind = "B-P" then if a.order = 1 then .ok (bpSpace bary a) else .error .valueError
    else if a.kind ∈ orderZeroKinds then if a.order > 0 then .error .valueError else .ok (zeroSpace bary a)
    else .error .valueError := by
  unfold functionSpace zeroSpace orderZero orderZeroKinds
  simp only [mkDP_eq, mkBDP_eq, mkP_eq, mkBP_eq, mkDual_eq, mkRT_eq, mkNC_eq, mkSNC_eq, mkRWG_eq, mkBRT_eq, mkBNC_eq, mkBSNC_eq,
    mkBRWG_eq, mkBC_eq, mkRBC_eq]
  by_cases h1 : a.kind = "DP"; · simp [h1]
  by_cases h2 : a.kind = "B-DP"; · simp [h2]
  by_cases h3 : a.kind = "P"; · simp [h3]
  by_cases h4 : a.kind = "B-P"; · simp [h4]
  simp only [h1, h2, h3, h4, if_false]
  by_cases k1 : a.kind = "DUAL"; · simp [k1]
  by_cases k2 : a.kind = "RT"; · simp [k2]
  by_cases k3 : a.kind = "NC"; · simp [k3]
  by_cases k4 : a.kind = "SNC"; · simp [k4]
  by_cases k5 : a.kind = "RWG"; · simp [k5]
  by_cases k6 : a.kind = "B-RT"; · simp [k6]
  by_cases k7 : a.kind = "B-NC"; · simp [k7]
  by_cases k8 : a.kind = "B-SNC"; · simp [k8]
  by_cases k9 : a.kind = "B-RWG"; · simp [k9]
  by_cases k10 : a.kind = "BC"; · simp [k10]
  by_cases k11 : a.kind = "RBC"; · simp [k11]
  simp [k1, k2, k3, k4, k5, k6, k7, k8, k9, k10, k11]

/-- The possible results. -/
inductive Result (bary : Nat → Nat) (a : Args) : PySpace → Prop
  | dp (hk : a.kind = "DP") : Result bary a (dpSpace a)
  | bdp (ho : a.order = 1) (hk : a.kind = "B-DP") : Result bary a (bdpSpace bary a)
  | p (hk : a.kind = "P") : Result bary a (pSpace a)
  | bp (ho : a.order = 1) (hk : a.kind = "B-P") : Result bary a (bpSpace bary a)
  | dual (hk : a.kind = "DUAL") : Result bary a (dualSpace bary a)
  | rt (hk : a.kind = "RT") : Result bary a (rtSpace a)
  | nc (hk : a.kind = "NC") : Result bary a (ncSpace a)
  | snc (hk : a.kind = "SNC") : Result bary a (sncSpace a)
  | rwg (hk : a.kind = "RWG") : Result bary a (rwgSpace a)
  | brt (hk : a.kind = "B-RT") : Result bary a (brtSpace bary a)
  | bnc (hk : a.kind = "B-NC") : Result bary a (bncSpace bary a)
  | bsnc (hk : a.kind = "B-SNC") : Result bary a (bsncSpace bary a)
  | brwg (hk : a.kind = "B-RWG") : Result bary a (brwgSpace bary a)
  | bc (hk : a.kind = "BC") : Result bary a (bcSpace bary a.grid (some a.key))
  | rbc (hk : a.kind = "RBC") : Result bary a (rbcSpace bary a)

theorem functionSpace_result (bary : Nat → Nat) (a : Args) (s : PySpace) (h : functionSpace bary a = .ok s) : Result bary a s := by
  unfold functionSpace orderZero at h
  simp only [mkDP_eq, mkBDP_eq, mkP_eq, mkBP_eq, mkDual_eq, mkRT_eq, mkNC_eq, mkSNC_eq, mkRWG_eq, mkBRT_eq, mkBNC_eq, mkBSNC_eq,
    mkBRWG_eq, mkBC_eq, mkRBC_eq] at h
  by_cases h1 : a.kind = "DP"
  · rw [if_pos h1] at h
    split_ifs at h
    cases h; exact .dp h1
  rw [if_neg h1] at h
  by_cases h2 : a.kind = "B-DP"
  · rw [if_pos h2] at h
    split_ifs at h with ho
    cases h; exact .bdp ho h2
  rw [if_neg h2] at h
  by_cases h3 : a.kind = "P"
  · rw [if_pos h3] at h
    split_ifs at h
    cases h; exact .p h3
  rw [if_neg h3] at h
  by_cases h4 : a.kind = "B-P"
  · rw [if_pos h4] at h
    split_ifs at h with ho
    cases h; exact .bp ho h4
  rw [if_neg h4] at h
  by_cases k0 : a.kind = "DUAL"
  · rw [if_pos k0] at h
    split_ifs at h
    cases h; exact .dual k0
  rw [if_neg k0] at h
  by_cases k1 : a.kind = "RT"
  · rw [if_pos k1] at h
    split_ifs at h
    cases h; exact .rt k1
  rw [if_neg k1] at h
  by_cases k2 : a.kind = "NC"
  · rw [if_pos k2] at h
    split_ifs at h
    cases h; exact .nc k2
  rw [if_neg k2] at h
  by_cases k3 : a.kind = "SNC"
  · rw [if_pos k3] at h
    split_ifs at h
    cases h; exact .snc k3
  rw [if_neg k3] at h
  by_cases k4 : a.kind = "RWG"
  · rw [if_pos k4] at h
    split_ifs at h
    cases h; exact .rwg k4
  rw [if_neg k4] at h
  by_cases k5 : a.kind = "B-RT"
  · rw [if_pos k5] at h
    split_ifs at h
    cases h; exact .brt k5
  rw [if_neg k5] at h
  by_cases k6 : a.kind = "B-NC"
  · rw [if_pos k6] at h
    split_ifs at h
    cases h; exact .bnc k6
  rw [if_neg k6] at h
  by_cases k7 : a.kind = "B-SNC"
  · rw [if_pos k7] at h
    split_ifs at h
    cases h; exact .bsnc k7
  rw [if_neg k7] at h
  by_cases k8 : a.kind = "B-RWG"
  · rw [if_pos k8] at h
    split_ifs at h
    cases h; exact .brwg k8
  rw [if_neg k8] at h
  by_cases k9 : a.kind = "BC"
  · rw [if_pos k9] at h
    split_ifs at h
    cases h; exact .bc k9
  rw [if_neg k9] at h
  by_cases k10 : a.kind = "RBC"
  · rw [if_pos k10] at h
    split_ifs at h
    cases h; exact .rbc k10
  rw [if_neg k10] at h
  cases h

end Verif.PySpace
