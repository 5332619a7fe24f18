import Verif.Model.Params
import Verif.Props.QuadratureSelector
import Mathlib.Tactic.Linarith
/-
C113: a parameter set on a parameter list takes effect, and nothing else does.
-/
namespace Verif.Params

/-! ### Specification -/

/-- The documented defaults (the comments and values of `global_parameters.cpp`). -/
def documentedDefault : Param → Value
  | .boundaryOperatorAssemblyType => .str "hmat"
  | .potentialOperatorAssemblyType => .str "hmat"
  | .enableSingularIntegralCaching => .bool true
  | .enableInterpolation => .bool true
  | .interpolationPointsPerWavelength => .int 5000
  | .nearMaxRelDist => .dbl (.fin 2)
  | .nearSingleOrder => .int 4
  | .nearDoubleOrder => .int 4
  | .mediumMaxRelDist => .dbl (.fin 4)
  | .mediumSingleOrder => .int 3
  | .mediumDoubleOrder => .int 3
  | .farSingleOrder => .int 2
  | .farDoubleOrder => .int 2
  | .doubleSingular => .int 6
  | .minBlockSize => .int 20
  | .maxBlockSize => .int 1000000
  | .eta => .dbl (.fin (12 / 10))
  | .eps => .dbl (.fin (1 / 1000))
  | .maxRank => .int 30
  | .compressionAlgorithm => .str "aca"
  | .admissibility => .str "weak"
  | .cutoff => .dbl (.fin (1797693134862315 * 10 ^ 293))
  | .extendedVerbosity => .bool false
  | .gmshUseBinary => .bool true

/-- The two attributes that are not in the tree. -/
def Param.isFlag : Param → Bool
  | .extendedVerbosity => true
  | .gmshUseBinary => true
  | _ => false

/-- The lists created by a history, in order: `true` for `global_parameters()`, `false` for `ParameterList()`. -/
def births (h : List Event) : List Bool :=
  h.filterMap fun e =>
    match e with
    | .newGlobal => some true
    | .newEmpty => some false
    | .set _ _ _ => none

/-- The value of property `p` of list `i` after a history, latest event first: the value of the last accepted assignment
since the creation of the list, otherwise the documented default (for `ParameterList()`: nothing). -/
def currentRev : List Event → Nat → Param → Option Value
  | [], _, _ => none
  | .newGlobal :: older, i, p =>
    if i = (births older).length then some (documentedDefault p) else currentRev older i p
  | .newEmpty :: older, i, p =>
    if i = (births older).length then (if p.isFlag then some (documentedDefault p) else none) else currentRev older i p
  | .set j q a :: older, i, p =>
    match convert p.kind a with
    | .ok v => if j = i ∧ q = p ∧ i < (births older).length then some v else currentRev older i p
    | .error _ => currentRev older i p

def current (h : List Event) (i : Nat) (p : Param) : Option Value := currentRev h.reverse i p

/-- Not an infinity and not a NaN. -/
def Value.Finite : Value → Prop
  | .dbl (.fin _) => True
  | .dbl _ => False
  | _ => True

instance (v : Value) : Decidable v.Finite := by
  cases v with
  | dbl x => cases x <;> unfold Value.Finite <;> infer_instance
  | _ => unfold Value.Finite; infer_instance

/-- The number, truth value or text in a value. -/
def Value.toInt : Value → Int
  | .int i => i
  | _ => 0
def Value.toBool : Value → Bool
  | .bool b => b
  | _ => false
def Value.toRat : Value → ℚ
  | .dbl (.fin x) => x
  | _ => 0
def Value.toStr : Value → String
  | .str s => s
  | _ => ""

/-- The value that the C++ code uses: infinite values and missing ones are replaced by the default. -/
def effective (h : List Event) (i : Nat) (p : Param) : Value :=
  match current h i p with
  | some v => if v.Finite then v else documentedDefault p
  | none => documentedDefault p

/-- The quadrature order for elements at a normalised distance `d`: thresholds in increasing order. -/
noncomputable def orderFor (near medium : ℚ) (oNear oMedium oFar : Int) (d : ℝ) : Int :=
  if near < medium then (if d ≤ near then oNear else if d ≤ medium then oMedium else oFar)
  else (if d ≤ medium then oMedium else if d ≤ near then oNear else oFar)

/-! ### Lemmas -/

def Value.kind : Value → Kind
  | .int _ => .int
  | .bool _ => .bool
  | .dbl _ => .dbl
  | .str _ => .str

theorem lookup_put (t : Tree) (p q : Path) (v : Value) :
    lookup (put t p v) q = if p = q then some v else lookup t q := by
  induction t with
  | nil => simp [put, lookup]
  | cons e t ih =>
    obtain ⟨r, w⟩ := e
    simp only [put]
    by_cases h : r = p
    · subst h
      simp only [if_true, lookup]
      by_cases h2 : r = q <;> simp [h2]
    · simp only [if_neg h, lookup, ih]
      by_cases h2 : r = q
      · subst h2; simp [Ne.symm h]
      · simp [h2]

theorem setPath_eq (p : Param) : p.setPath = p.getPath := by cases p <;> rfl

theorem getPath_inj (p q : Param) (x : Path) (hp : p.getPath = some x) (hq : q.getPath = some x) : p = q := by
  have h := hp.trans hq.symm
  clear hq
  cases p <;> cases q <;> first | rfl | (exfalso; revert h; decide) | (exfalso; simp [Param.getPath] at hp; done)

theorem getPath_ne_threads (p : Param) : p.getPath ≠ some ["options", "global", "maxThreadCount"] := by
  cases p <;> decide
theorem getPath_ne_verbosity (p : Param) : p.getPath ≠ some ["options", "global", "verbosityLevel"] := by
  cases p <;> decide

theorem convert_kind (k : Kind) (a : PyVal) (v : Value) (h : convert k a = .ok v) : v.kind = k := by
  cases k <;> cases a <;> simp only [convert] at h <;> first
    | (cases h; rfl)
    | (split at h <;> cases h; rfl)
    | (simp at h)

/-- What a list holds. -/
structure Agrees (l : PList) (glob : Bool) (cur : Param → Option Value) : Prop where
  tree : ∀ p x, p.getPath = some x → lookup l.tree x = cur p
  verbosity : cur .extendedVerbosity = some (.bool l.extendedVerbosity)
  binary : cur .gmshUseBinary = some (.bool l.gmshUseBinary)
  threads : lookup l.tree ["options", "global", "maxThreadCount"] = if glob then some (.int (-1)) else none
  level : lookup l.tree ["options", "global", "verbosityLevel"] = if glob then some (.int 5) else none
  kinds : ∀ p v, cur p = some v → v.kind = p.kind

theorem documentedDefault_kind (p : Param) : (documentedDefault p).kind = p.kind := by cases p <;> rfl

theorem documentedDefault_finite (p : Param) : (documentedDefault p).Finite := by cases p <;> trivial

theorem global_lookup (p : Param) (x : Path) (h : p.getPath = some x) :
    lookup globalParameters x = some (documentedDefault p) := by
  cases p <;> simp only [Param.getPath, Option.some.injEq, reduceCtorEq] at h <;> subst h <;> rfl

theorem agrees_global : Agrees globalList true fun p => some (documentedDefault p) where
  tree p x h := global_lookup p x h
  verbosity := rfl
  binary := rfl
  threads := by rfl
  level := by rfl
  kinds p v h := by cases h; exact documentedDefault_kind p

theorem agrees_empty : Agrees emptyList false fun p => if p.isFlag then some (documentedDefault p) else none where
  tree p x h := by cases p <;> simp_all [Param.getPath, Param.isFlag, emptyList, lookup]
  verbosity := rfl
  binary := rfl
  threads := rfl
  level := rfl
  kinds p v h := by
    by_cases hf : p.isFlag = true
    · simp only [hf, if_true, Option.some.injEq] at h
      subst h; exact documentedDefault_kind p
    · simp [hf] at h

theorem agrees_store (l : PList) (g : Bool) (cur : Param → Option Value) (hl : Agrees l g cur) (p : Param) (v : Value)
    (hv : v.kind = p.kind) : Agrees (l.store p v) g fun q => if p = q then some v else cur q := by
  unfold PList.store
  rw [setPath_eq]
  cases hp : p.getPath with
  | none =>
    have hkinds : ∀ q w, (if p = q then some v else cur q) = some w → w.kind = q.kind := by
      intro q w hw
      split at hw
      · next e => cases hw; exact e ▸ hv
      · exact hl.kinds q w hw
    cases v with
    | bool b =>
      cases p <;> simp only [Param.getPath, reduceCtorEq] at hp <;>
        exact ⟨fun q x hq => by
            rw [if_neg (by rintro rfl; simp [Param.getPath] at hq)]; exact hl.tree q x hq,
          by first | rfl | simpa using hl.verbosity, by first | rfl | simpa using hl.binary, hl.threads, hl.level, hkinds⟩
    | _ => cases p <;> simp [Param.getPath] at hp <;> simp [Value.kind, Param.kind] at hv
  | some x =>
    refine ⟨?_, ?_, ?_, ?_, ?_, ?_⟩
    · intro q y hq
      show lookup (put l.tree x v) y = _
      rw [lookup_put]
      by_cases h : x = y
      · subst h
        have := getPath_inj p q x hp hq
        simp [this]
      · rw [if_neg h, if_neg (by rintro rfl; rw [hp] at hq; exact h (Option.some.inj hq))]
        exact hl.tree q y hq
    · rw [if_neg (by rintro rfl; simp [Param.getPath] at hp)]; exact hl.verbosity
    · rw [if_neg (by rintro rfl; simp [Param.getPath] at hp)]; exact hl.binary
    · show lookup (put l.tree x v) _ = _
      rw [lookup_put, if_neg (fun h => getPath_ne_threads p (by rw [hp, h])), hl.threads]
    · show lookup (put l.tree x v) _ = _
      rw [lookup_put, if_neg (fun h => getPath_ne_verbosity p (by rw [hp, h])), hl.level]
    · intro q w hw
      split at hw
      · next e => cases hw; exact e ▸ hv
      · exact hl.kinds q w hw

theorem births_append (h : List Event) (e : Event) : births (h ++ [e]) = births h ++ births [e] := by
  simp [births, List.filterMap_append]

theorem births_reverse_length (h : List Event) : (births h.reverse).length = (births h).length := by
  simp [births, List.filterMap_reverse]

theorem current_append (h : List Event) (e : Event) (i : Nat) (p : Param) :
    current (h ++ [e]) i p = currentRev (e :: h.reverse) i p := by
  simp [current]

/-- Every list that a history has created agrees with the specification. -/
theorem run_agrees (h : List Event) :
    (run [] h).length = (births h).length ∧
    ∀ i g, (births h)[i]? = some g → ∃ l, (run [] h)[i]? = some l ∧ Agrees l g (current h i) := by
  induction h using List.reverseRecOn with
  | nil => exact ⟨rfl, fun i g hg => by simp [births] at hg⟩
  | append_singleton h e ih =>
    obtain ⟨hlen, ih⟩ := ih
    have hrun : run [] (h ++ [e]) = step (run [] h) e := by simp [run, List.foldl_append]
    have hb := births_reverse_length h
    cases e with
    | newGlobal =>
      have hbirths : births (h ++ [Event.newGlobal]) = births h ++ [true] := births_append _ _
      rw [hrun, hbirths]
      refine ⟨by simp [step, hlen], ?_⟩
      intro i g hg
      have hcur : current (h ++ [Event.newGlobal]) i =
          fun p => if i = (births h).length then some (documentedDefault p) else current h i p := by
        funext p; rw [current_append, currentRev, hb]; rfl
      rw [hcur]
      by_cases hi : i = (births h).length
      · subst hi
        rw [List.getElem?_append_right (le_refl _)] at hg
        simp only [Nat.sub_self, List.getElem?_cons_zero, Option.some.injEq] at hg
        subst hg
        refine ⟨globalList, by simp [step, ← hlen], ?_⟩
        simpa using agrees_global
      · have hlt : i < (births h).length := by
          have := (List.getElem?_eq_some_iff.mp hg).1
          simp only [List.length_append, List.length_singleton] at this; omega
        rw [List.getElem?_append_left hlt] at hg
        obtain ⟨l, hl, ha⟩ := ih i g hg
        refine ⟨l, by rw [step, List.getElem?_append_left (by omega)]; exact hl, ?_⟩
        simpa [hi] using ha
    | newEmpty =>
      have hbirths : births (h ++ [Event.newEmpty]) = births h ++ [false] := births_append _ _
      rw [hrun, hbirths]
      refine ⟨by simp [step, hlen], ?_⟩
      intro i g hg
      have hcur : current (h ++ [Event.newEmpty]) i =
          fun p => if i = (births h).length then (if p.isFlag then some (documentedDefault p) else none)
            else current h i p := by
        funext p; rw [current_append, currentRev, hb]; rfl
      rw [hcur]
      by_cases hi : i = (births h).length
      · subst hi
        rw [List.getElem?_append_right (le_refl _)] at hg
        simp only [Nat.sub_self, List.getElem?_cons_zero, Option.some.injEq] at hg
        subst hg
        refine ⟨emptyList, by simp [step, ← hlen], ?_⟩
        simpa using agrees_empty
      · have hlt : i < (births h).length := by
          have := (List.getElem?_eq_some_iff.mp hg).1
          simp only [List.length_append, List.length_singleton] at this; omega
        rw [List.getElem?_append_left hlt] at hg
        obtain ⟨l, hl, ha⟩ := ih i g hg
        refine ⟨l, by rw [step, List.getElem?_append_left (by omega)]; exact hl, ?_⟩
        simpa [hi] using ha
    | set j q a =>
      have hbirths : births (h ++ [Event.set j q a]) = births h := by
        rw [births_append]; simp [births]
      rw [hrun, hbirths]
      have hsteplen : (step (run [] h) (.set j q a)).length = (run [] h).length := by
        simp only [step]
        split
        · rfl
        · split <;> simp
      refine ⟨by rw [hsteplen, hlen], ?_⟩
      intro i g hg
      obtain ⟨l, hl, ha⟩ := ih i g hg
      have hilt := (List.getElem?_eq_some_iff.mp hg).1
      cases hc : convert q.kind a with
      | error e =>
        have hcur : current (h ++ [Event.set j q a]) i = current h i := by
          funext p
          rw [current_append, currentRev]
          split
          · next v hv =>
            rw [if_neg]; · rfl
            rintro ⟨-, rfl, -⟩
            rw [hc] at hv; cases hv
          · rfl
        rw [hcur]
        refine ⟨l, ?_, ha⟩
        simp only [step, PList.set, hc]
        split <;> exact hl
      | ok v =>
        by_cases hj : j = i
        · subst hj
          have hcur : current (h ++ [Event.set j q a]) j = fun p => if q = p then some v else current h j p := by
            funext p
            rw [current_append, currentRev, hb]
            by_cases hqp : q = p
            · subst hqp
              simp [hc, hilt]
            · rw [if_neg hqp]
              split
              · rw [if_neg (fun h => hqp h.2.1)]; rfl
              · rfl
          rw [hcur]
          refine ⟨l.store q v, ?_, agrees_store l g _ ha q v (convert_kind _ _ _ hc)⟩
          simp only [step, hl, PList.set, hc]
          rw [List.getElem?_set_self (by omega)]
        · have hcur : current (h ++ [Event.set j q a]) i = current h i := by
            funext p
            rw [current_append, currentRev]
            split
            · rw [if_neg (fun h => hj h.1)]; rfl
            · rfl
          rw [hcur]
          refine ⟨l, ?_, ha⟩
          simp only [step]
          split
          · exact hl
          · simp only [PList.set, hc]
            rw [List.getElem?_set_ne hj]; exact hl

theorem agrees_read (l : PList) (g : Bool) (cur : Param → Option Value) (hl : Agrees l g cur) (p : Param) :
    l.read p = match cur p with
      | some v => if v.Finite then .ok v else .terminate
      | none => .terminate := by
  unfold PList.read
  cases hp : p.getPath with
  | none =>
    cases p <;> simp only [Param.getPath, reduceCtorEq] at hp
    · simp [hl.verbosity, Value.Finite]
    · simp [hl.binary, Value.Finite]
  | some x =>
    have ht := hl.tree p x hp
    cases hc : cur p with
    | none =>
      rw [hc] at ht
      cases p.kind <;> simp [get, ht, Res.bind]
    | some v =>
      rw [hc] at ht
      have hk := hl.kinds p v hc
      rw [← hk]
      cases v with
      | int i => simp [get, ht, Res.bind, Value.kind, asInt, Value.Finite]
      | bool i => simp [get, ht, Res.bind, Value.kind, asBool, Value.Finite]
      | str i => simp [get, ht, Res.bind, Value.kind, asStr, Value.Finite]
      | dbl d => cases d <;> simp [get, ht, Res.bind, Value.kind, asDbl, Value.Finite]

/-- The value used instead of a missing or infinite one. -/
def eff (cur : Param → Option Value) (p : Param) : Value :=
  match cur p with
  | some v => if v.Finite then v else documentedDefault p
  | none => documentedDefault p

theorem getDefaulted_int (l : PList) (g : Bool) (cur : Param → Option Value) (hl : Agrees l g cur) (p : Param) (x : Path)
    (hp : p.getPath = some x) (hk : p.kind = .int) :
    getDefaulted asInt l.tree x = .ok (eff cur p).toInt := by
  have hd := documentedDefault_kind p
  rw [hk] at hd
  unfold getDefaulted get getOr eff
  rw [global_lookup p x hp, hl.tree p x hp]
  cases hdd : documentedDefault p with
  | int i =>
    cases hc : cur p with
    | none => simp [Res.bind, asInt, Value.toInt]
    | some v =>
      have := hl.kinds p v hc
      rw [hk] at this
      cases v <;> simp [Value.kind] at this
      simp [Res.bind, asInt, Value.toInt, Value.Finite]
  | _ => rw [hdd] at hd; simp [Value.kind] at hd

theorem getDefaulted_bool (l : PList) (g : Bool) (cur : Param → Option Value) (hl : Agrees l g cur) (p : Param) (x : Path)
    (hp : p.getPath = some x) (hk : p.kind = .bool) :
    getDefaulted asBool l.tree x = .ok (eff cur p).toBool := by
  have hd := documentedDefault_kind p
  rw [hk] at hd
  unfold getDefaulted get getOr eff
  rw [global_lookup p x hp, hl.tree p x hp]
  cases hdd : documentedDefault p with
  | bool i =>
    cases hc : cur p with
    | none => simp [Res.bind, asBool, Value.toBool]
    | some v =>
      have := hl.kinds p v hc
      rw [hk] at this
      cases v <;> simp [Value.kind] at this
      simp [Res.bind, asBool, Value.toBool, Value.Finite]
  | _ => rw [hdd] at hd; simp [Value.kind] at hd

theorem getDefaulted_str (l : PList) (g : Bool) (cur : Param → Option Value) (hl : Agrees l g cur) (p : Param) (x : Path)
    (hp : p.getPath = some x) (hk : p.kind = .str) :
    getDefaulted asStr l.tree x = .ok (eff cur p).toStr := by
  have hd := documentedDefault_kind p
  rw [hk] at hd
  unfold getDefaulted get getOr eff
  rw [global_lookup p x hp, hl.tree p x hp]
  cases hdd : documentedDefault p with
  | str i =>
    cases hc : cur p with
    | none => simp [Res.bind, asStr, Value.toStr]
    | some v =>
      have := hl.kinds p v hc
      rw [hk] at this
      cases v <;> simp [Value.kind] at this
      simp [Res.bind, asStr, Value.toStr, Value.Finite]
  | _ => rw [hdd] at hd; simp [Value.kind] at hd

theorem getDefaulted_dbl (l : PList) (g : Bool) (cur : Param → Option Value) (hl : Agrees l g cur) (p : Param) (x : Path)
    (hp : p.getPath = some x) (hk : p.kind = .dbl) :
    getDefaulted asDbl l.tree x = .ok (eff cur p).toRat := by
  have hd := documentedDefault_kind p
  have hf := documentedDefault_finite p
  rw [hk] at hd
  unfold getDefaulted get getOr eff
  rw [global_lookup p x hp, hl.tree p x hp]
  cases hdd : documentedDefault p with
  | dbl i =>
    rw [hdd] at hf
    cases i with
    | fin i =>
      cases hc : cur p with
      | none => simp [Res.bind, asDbl, Value.toRat]
      | some v =>
        have := hl.kinds p v hc
        rw [hk] at this
        cases v with
        | dbl d => cases d <;> simp [Res.bind, asDbl, Value.toRat, Value.Finite]
        | _ => simp [Value.kind] at this
    | _ => exact hf.elim
  | _ => rw [hdd] at hd; simp [Value.kind] at hd

theorem get_threads_defaulted (l : PList) (g : Bool) (cur : Param → Option Value) (hl : Agrees l g cur) :
    getDefaulted asInt l.tree ["options", "global", "maxThreadCount"] = .ok (-1) ∧
    getDefaulted asInt l.tree ["options", "global", "verbosityLevel"] = .ok 5 := by
  have h1 : lookup globalParameters ["options", "global", "maxThreadCount"] = some (.int (-1)) := by rfl
  have h2 : lookup globalParameters ["options", "global", "verbosityLevel"] = some (.int 5) := by rfl
  constructor
  · unfold getDefaulted get getOr
    rw [h1, hl.threads]
    cases g <;> rfl
  · unfold getDefaulted get getOr
    rw [h2, hl.level]
    cases g <;> rfl

theorem setTwo_equal (d : ℚ) (o₁ o₂ o₃ : Int) : setTwo d o₁ d o₂ o₃ false = .undefined := by
  unfold setTwo
  rw [(Quad.C63_counterexample_equal_thresholds (d : ℝ) o₁ o₂ o₃ false).1]

theorem setTwo_spec (a b : ℚ) (hab : a ≠ b) (o₁ o₂ o₃ : Int) :
    ∃ l, setTwo a o₁ b o₂ o₃ false = .ok l ∧
      ∀ d : ℝ, Quad.regularOptions l d = some ⟨false, orderFor a b o₁ o₂ o₃ d⟩ := by
  have hab' : (a : ℝ) ≠ b := by exact_mod_cast hab
  obtain ⟨l, hl, hd⟩ := Quad.C63_set_regular [(a : ℝ), (b : ℝ)] [o₁, o₂, o₃] false rfl (by simp [hab'])
  refine ⟨l, ?_, ?_⟩
  · unfold setTwo
    simp only [List.map_cons, List.map_nil] at hl
    rw [hl]
  · intro d
    obtain ⟨i, hi, ho, h1, h2⟩ := hd d
    rw [ho]
    congr 1
    unfold orderFor
    have hlt : (a < b) ↔ ((a : ℝ) < (b : ℝ)) := by exact_mod_cast Iff.rfl
    simp only [hlt]
    have hcases : i = 0 ∨ i = 1 ∨ i = 2 := by simp only [List.length_cons, List.length_nil] at hi; omega
    rcases hcases with rfl | rfl | rfl
    · obtain ⟨h3, h4⟩ := h1 (by simp)
      simp only [List.getElem_cons_zero, List.mem_cons, List.not_mem_nil, or_false, forall_eq_or_imp, forall_eq] at h3 h4 ⊢
      congr 1
      split_ifs with c1 c2 <;> first | rfl | (exfalso; first | exact c2 h3 | skip)
      · exact absurd (h4.2 c2) (by intro h; exact hab' (le_antisymm h (not_lt.mp c1)))
    · obtain ⟨h3, h4⟩ := h1 (by simp)
      simp only [List.getElem_cons_succ, List.getElem_cons_zero, List.mem_cons, List.not_mem_nil, or_false,
        forall_eq_or_imp, forall_eq] at h3 h4 ⊢
      congr 1
      split_ifs with c1 c2 <;> first | rfl | skip
      · exact absurd (h4.1 c2) (not_le.mpr c1)
    · have h3 := h2 (by simp)
      simp only [List.getElem_cons_succ, List.getElem_cons_zero, List.mem_cons, List.not_mem_nil, or_false,
        forall_eq_or_imp, forall_eq] at h3 ⊢
      congr 1
      simp [not_le.mpr h3.1, not_le.mpr h3.2]

theorem get_int (l : PList) (g : Bool) (cur : Param → Option Value) (hl : Agrees l g cur) (p : Param) (x : Path)
    (hp : p.getPath = some x) (hk : p.kind = .int) (v : Value) (hv : cur p = some v) :
    get asInt l.tree x = .ok v.toInt := by
  have := hl.kinds p v hv
  rw [hk] at this
  unfold get
  rw [hl.tree p x hp, hv]
  cases v <;> simp [Value.kind] at this
  simp [asInt, Value.toInt]

theorem get_bool (l : PList) (g : Bool) (cur : Param → Option Value) (hl : Agrees l g cur) (p : Param) (x : Path)
    (hp : p.getPath = some x) (hk : p.kind = .bool) (v : Value) (hv : cur p = some v) :
    get asBool l.tree x = .ok v.toBool := by
  have := hl.kinds p v hv
  rw [hk] at this
  unfold get
  rw [hl.tree p x hp, hv]
  cases v <;> simp [Value.kind] at this
  simp [asBool, Value.toBool]

theorem get_str (l : PList) (g : Bool) (cur : Param → Option Value) (hl : Agrees l g cur) (p : Param) (x : Path)
    (hp : p.getPath = some x) (hk : p.kind = .str) (v : Value) (hv : cur p = some v) :
    get asStr l.tree x = .ok v.toStr := by
  have := hl.kinds p v hv
  rw [hk] at this
  unfold get
  rw [hl.tree p x hp, hv]
  cases v <;> simp [Value.kind] at this
  simp [asStr, Value.toStr]

theorem get_dbl (l : PList) (g : Bool) (cur : Param → Option Value) (hl : Agrees l g cur) (p : Param) (x : Path)
    (hp : p.getPath = some x) (hk : p.kind = .dbl) (v : Value) (hv : cur p = some v) (hf : v.Finite) :
    get asDbl l.tree x = .ok v.toRat := by
  have := hl.kinds p v hv
  rw [hk] at this
  unfold get
  rw [hl.tree p x hp, hv]
  cases v with
  | dbl d => cases d <;> first | exact hf.elim | simp [asDbl, Value.toRat]
  | _ => simp [Value.kind] at this

theorem get_none {α : Type} (conv : Value → Option α) (l : PList) (g : Bool) (cur : Param → Option Value)
    (hl : Agrees l g cur) (p : Param) (x : Path) (hp : p.getPath = some x) (hv : cur p = none) :
    get conv l.tree x = .ptreeError := by
  unfold get
  rw [hl.tree p x hp, hv]; rfl

/-- On a list of `global_parameters()` every property has a value. -/
theorem current_isSome (h : List Event) (i : Nat) (hg : (births h)[i]? = some true) (p : Param) :
    ∃ v, current h i p = some v := by
  induction h using List.reverseRecOn with
  | nil => simp [births] at hg
  | append_singleton h e ih =>
    rw [current_append]
    have hb := births_reverse_length h
    cases e with
    | newGlobal =>
      have hbirths : births (h ++ [Event.newGlobal]) = births h ++ [true] := births_append _ _
      rw [currentRev, hb]
      split
      · exact ⟨_, rfl⟩
      · next hi =>
        apply ih
        have hlt : i < (births h).length := by
          have := (List.getElem?_eq_some_iff.mp hg).1
          rw [hbirths] at this
          simp only [List.length_append, List.length_singleton] at this; omega
        rw [hbirths, List.getElem?_append_left hlt] at hg
        exact hg
    | newEmpty =>
      have hbirths : births (h ++ [Event.newEmpty]) = births h ++ [false] := births_append _ _
      rw [currentRev, hb]
      split
      · next hi =>
        subst hi
        rw [hbirths, List.getElem?_append_right (le_refl _)] at hg
        simp at hg
      · next hi =>
        apply ih
        have hlt : i < (births h).length := by
          have := (List.getElem?_eq_some_iff.mp hg).1
          rw [hbirths] at this
          simp only [List.length_append, List.length_singleton] at this; omega
        rw [hbirths, List.getElem?_append_left hlt] at hg
        exact hg
    | set j q a =>
      have hbirths : births (h ++ [Event.set j q a]) = births h := by
        rw [births_append]; simp [births]
      rw [hbirths] at hg
      rw [currentRev]
      split
      · split
        · exact ⟨_, rfl⟩
        · exact ih hg
      · exact ih hg

/-! ### Theorems -/

/-- **C113 (what is read is what was set).**  For every history of creating parameter lists and assigning to their
properties, reading property `p` of list `i` returns the value of the last accepted assignment to this property of this list,
or the documented default if there was none; assignments to other properties, to other lists and rejected assignments change
nothing.  Where nothing can be returned - an infinite or NaN value, or a property of a `ParameterList()` that was never
assigned - the process is terminated. -/
theorem C113_read (h : List Event) (i : Nat) (hi : i < (births h).length) :
    ∃ l, (run [] h)[i]? = some l ∧ ∀ p, l.read p = match current h i p with
      | some v => if v.Finite then .ok v else .terminate
      | none => .terminate := by
  obtain ⟨l, hl, ha⟩ := (run_agrees h).2 i _ (List.getElem?_eq_getElem hi)
  exact ⟨l, hl, fun p => agrees_read l _ _ ha p⟩

/-- **C113 (no crash).**  On a list of `global_parameters()` every property can be read after every history in which no
infinite or NaN value was assigned, and gives the value last assigned or the default. -/
theorem C113_read_global (h : List Event) (i : Nat) (hg : (births h)[i]? = some true)
    (hfin : ∀ j p x, Event.set j p (.float x) ∈ h → ∃ q, x = .fin q) (p : Param) :
    ∃ l v, (run [] h)[i]? = some l ∧ current h i p = some v ∧ l.read p = .ok v := by
  obtain ⟨l, hl, hr⟩ := C113_read h i (List.getElem?_eq_some_iff.mp hg).1
  obtain ⟨v, hv⟩ := current_isSome h i hg p
  have key : ∀ (h : List Event), (∀ j p x, Event.set j p (.float x) ∈ h → ∃ q, x = .fin q) →
      ∀ v, currentRev h i p = some v → v.Finite := by
    intro h
    induction h with
    | nil => intro _ v hv; simp [currentRev] at hv
    | cons e h ih =>
      intro hfin v hv
      have ih' := ih (fun j p x hm => hfin j p x (List.mem_cons_of_mem _ hm))
      cases e with
      | newGlobal =>
        rw [currentRev] at hv
        split at hv
        · cases hv; exact documentedDefault_finite p
        · exact ih' v hv
      | newEmpty =>
        rw [currentRev] at hv
        split at hv
        · split at hv
          · cases hv; exact documentedDefault_finite p
          · simp at hv
        · exact ih' v hv
      | set j q a =>
        rw [currentRev] at hv
        split at hv
        · next w hw =>
          split at hv
          · cases hv
            cases hk : p.kind <;> rw [hk] at hw <;> cases a <;> simp only [convert] at hw <;> first
              | (cases hw; trivial)
              | (split at hw <;> cases hw; trivial)
              | (simp at hw; done)
              | (cases hw
                 obtain ⟨q, rfl⟩ := hfin _ _ _ (List.mem_cons_self)
                 trivial)
          · exact ih' v hv
        · exact ih' v hv
  refine ⟨l, v, hl, hv, ?_⟩
  rw [hr p, hv]
  show (if v.Finite then Res.ok v else Res.terminate) = _
  rw [if_pos (key h.reverse (fun j p x hm => hfin j p x (List.mem_reverse.mp hm)) v hv)]

/-- **C113 (which assignments are accepted).**  A 32-bit integer, a truth value, a floating-point number and a string are
stored unchanged by a property of that type, an integer is also accepted for a floating-point property; an integer out of
range is an `OverflowError`, a string for a number is a `TypeError`, and anything but a string for a text is a
`ValueError`. -/
theorem C113_accepted :
    (∀ i, -2147483648 ≤ i → i ≤ 2147483647 → convert .int (.int i) = .ok (.int i)) ∧
    (∀ i, i < -2147483648 ∨ 2147483647 < i → convert .int (.int i) = .error .overflowError) ∧
    (∀ b, convert .bool (.bool b) = .ok (.bool b)) ∧
    (∀ x, convert .dbl (.float x) = .ok (.dbl x)) ∧
    (∀ i : Int, convert .dbl (.int i) = .ok (.dbl (.fin i))) ∧
    (∀ s, convert .str (.str s) = .ok (.str s)) ∧
    (∀ s, convert .int (.str s) = .error .typeError ∧ convert .dbl (.str s) = .error .typeError) ∧
    (∀ v, (∀ s, v ≠ .str s) → convert .str v = .error .valueError) := by
  refine ⟨fun i h1 h2 => by simp [convert, h1, h2], fun i h => ?_, fun b => rfl, fun x => rfl, fun i => rfl,
    fun s => rfl, fun s => ⟨rfl, rfl⟩, fun v hv => ?_⟩
  · rw [convert, if_neg (by omega)]
  · cases v with
    | str s => exact absurd rfl (hv s)
    | _ => rfl

/-- **C113 (assembly and quadrature).**  After every history, a `Context` made from a list uses exactly the values of the
list (the defaults for missing and infinite ones): the assembly mode, the flag for singular integrals, and the absolute
quadrature orders that belong to a distance by the two thresholds, for single and double integrals, and for singular
integrals.  An unknown assembly type is a `std::runtime_error`, and equal thresholds are undefined behaviour. -/
theorem C113_context (h : List Event) (i : Nat) (hi : i < (births h).length) :
    ∃ l, (run [] h)[i]? = some l ∧
      let e := effective h i
      let type := (e .boundaryOperatorAssemblyType).toStr
      let near := (e .nearMaxRelDist).toRat
      let medium := (e .mediumMaxRelDist).toRat
      (type ≠ "hmat" → type ≠ "dense" → context l.tree = .runtimeError) ∧
      (type = "hmat" ∨ type = "dense" → near = medium → context l.tree = .undefined) ∧
      (type = "hmat" ∨ type = "dense" → near ≠ medium → ∃ c, context l.tree = .ok c ∧
        (c.mode = .hmat ↔ type = "hmat") ∧ c.maxThreadCount = -1 ∧ c.verbosity = .high ∧
        c.singularCaching = (e .enableSingularIntegralCaching).toBool ∧
        (∀ d : ℝ, Quad.regularOptions c.singleRegular d = some ⟨false, orderFor near medium
          (e .nearSingleOrder).toInt (e .mediumSingleOrder).toInt (e .farSingleOrder).toInt d⟩) ∧
        (∀ d : ℝ, Quad.regularOptions c.doubleRegular d = some ⟨false, orderFor near medium
          (e .nearDoubleOrder).toInt (e .mediumDoubleOrder).toInt (e .farDoubleOrder).toInt d⟩) ∧
        c.doubleSingular = ⟨false, (e .doubleSingular).toInt⟩) := by
  obtain ⟨l, hl, ha⟩ := (run_agrees h).2 i _ (List.getElem?_eq_getElem hi)
  refine ⟨l, hl, ?_⟩
  intro e type near medium
  have he : eff (current h i) = e := rfl
  have g1 := getDefaulted_str l _ _ ha .boundaryOperatorAssemblyType _ rfl rfl
  have g2 := get_threads_defaulted l _ _ ha
  have g3 := getDefaulted_bool l _ _ ha .enableSingularIntegralCaching _ rfl rfl
  have g4 := getDefaulted_dbl l _ _ ha .nearMaxRelDist _ rfl rfl
  have g5 := getDefaulted_dbl l _ _ ha .mediumMaxRelDist _ rfl rfl
  have g6 := getDefaulted_int l _ _ ha .nearSingleOrder _ rfl rfl
  have g7 := getDefaulted_int l _ _ ha .mediumSingleOrder _ rfl rfl
  have g8 := getDefaulted_int l _ _ ha .farSingleOrder _ rfl rfl
  have g9 := getDefaulted_int l _ _ ha .nearDoubleOrder _ rfl rfl
  have g10 := getDefaulted_int l _ _ ha .mediumDoubleOrder _ rfl rfl
  have g11 := getDefaulted_int l _ _ ha .farDoubleOrder _ rfl rfl
  have g12 := getDefaulted_int l _ _ ha .doubleSingular _ rfl rfl
  rw [he] at g1 g3 g4 g5 g6 g7 g8 g9 g10 g11 g12
  have hctx : context l.tree = (modeOf type).bind fun mode =>
      (setTwo near (e .nearSingleOrder).toInt medium (e .mediumSingleOrder).toInt (e .farSingleOrder).toInt false).bind
        fun s =>
      (setTwo near (e .nearDoubleOrder).toInt medium (e .mediumDoubleOrder).toInt (e .farDoubleOrder).toInt false).bind
        fun d =>
      .ok ⟨mode, -1, .high, (e .enableSingularIntegralCaching).toBool, s, d, ⟨false, (e .doubleSingular).toInt⟩⟩ := by
    unfold context
    rw [g1, g2.1, g2.2, g3, g4, g5, g6, g7, g8, g9, g10, g11, g12]
    rfl
  refine ⟨?_, ?_, ?_⟩
  · intro h1 h2
    rw [hctx, modeOf, if_neg h1, if_neg h2]; rfl
  · intro ht hnm
    rw [hctx, hnm, setTwo_equal]
    rcases ht with ht | ht <;> rw [ht] <;> rfl
  · intro ht hnm
    obtain ⟨s, hs, hs'⟩ := setTwo_spec near medium hnm (e .nearSingleOrder).toInt (e .mediumSingleOrder).toInt
      (e .farSingleOrder).toInt
    obtain ⟨d, hd, hd'⟩ := setTwo_spec near medium hnm (e .nearDoubleOrder).toInt (e .mediumDoubleOrder).toInt
      (e .farDoubleOrder).toInt
    rw [hctx, hs, hd]
    rcases ht with ht | ht
    · rw [ht]
      exact ⟨_, rfl, by simp, rfl, rfl, rfl, hs', hd', rfl⟩
    · rw [ht]
      exact ⟨_, rfl, by simp, rfl, rfl, rfl, hs', hd', rfl⟩

/-- **C113 (potential operators).**  `EvaluationOptions` made from a list of `global_parameters()` has the mode set for
potential operators; an unknown one is a `std::runtime_error`.  From a `ParameterList()` they can never be made, whatever was
assigned to it. -/
theorem C113_evaluation_options (h : List Event) (i : Nat) :
    ((births h)[i]? = some true → ∃ l v, (run [] h)[i]? = some l ∧ current h i .potentialOperatorAssemblyType = some v ∧
      evaluationOptions l.tree =
        if v.toStr = "hmat" then .ok (.hmat, -1, .high) else if v.toStr = "dense" then .ok (.dense, -1, .high)
        else .runtimeError) ∧
    ((births h)[i]? = some false → ∃ l, (run [] h)[i]? = some l ∧ evaluationOptions l.tree = .ptreeError) := by
  constructor
  · intro hg
    obtain ⟨l, hl, ha⟩ := (run_agrees h).2 i _ hg
    obtain ⟨v, hv⟩ := current_isSome h i hg .potentialOperatorAssemblyType
    refine ⟨l, v, hl, hv, ?_⟩
    unfold evaluationOptions
    rw [get_str l _ _ ha .potentialOperatorAssemblyType _ rfl rfl v hv]
    have h1 : get asInt l.tree ["options", "global", "maxThreadCount"] = .ok (-1) := by
      unfold get; rw [ha.threads]; rfl
    have h2 : get asInt l.tree ["options", "global", "verbosityLevel"] = .ok 5 := by
      unfold get; rw [ha.level]; rfl
    rw [h1, h2]
    by_cases c1 : v.toStr = "hmat"
    · rw [if_pos c1, c1]; rfl
    · rw [if_neg c1]
      by_cases c2 : v.toStr = "dense"
      · rw [if_pos c2, c2]; rfl
      · rw [if_neg c2]
        show (modeOf v.toStr).bind _ = _
        rw [modeOf, if_neg c1, if_neg c2]; rfl
  · intro hg
    obtain ⟨l, hl, ha⟩ := (run_agrees h).2 i _ hg
    refine ⟨l, hl, ?_⟩
    unfold evaluationOptions
    have h1 : get asInt l.tree ["options", "global", "maxThreadCount"] = .ptreeError := by
      unfold get; rw [ha.threads]; rfl
    rw [h1]
    cases hc : current h i .potentialOperatorAssemblyType with
    | none => rw [get_none _ l _ _ ha .potentialOperatorAssemblyType _ rfl hc]; rfl
    | some v => rw [get_str l _ _ ha .potentialOperatorAssemblyType _ rfl rfl v hc]; rfl

/-- **C113 (H-matrix options).**  With a list of `global_parameters()` whose numbers are finite, the assembly of an H-matrix
uses exactly the values of the list: block sizes, the admissibility condition with its parameter, the compression with its
parameters; unknown names are a `std::runtime_error`. -/
theorem C113_hmat_options (h : List Event) (i : Nat) (hg : (births h)[i]? = some true) (boundary : Bool)
    (hfin : ∀ p v, current h i p = some v → v.Finite) :
    ∃ l, (run [] h)[i]? = some l ∧
      let e := effective h i
      let adm := (e .admissibility).toStr
      let alg := (e .compressionAlgorithm).toStr
      ((adm ≠ "strong" ∧ adm ≠ "weak") ∨ (alg ≠ "aca" ∧ alg ≠ "dense") → hmatOptions boundary l.tree = .runtimeError) ∧
      (adm = "strong" ∨ adm = "weak" → alg = "aca" ∨ alg = "dense" → ∃ o, hmatOptions boundary l.tree = .ok o ∧
        o.minBlockSize = (e .minBlockSize).toInt ∧ o.maxBlockSize = (e .maxBlockSize).toInt ∧
        (adm = "strong" → o.admissibility = .strong (e .eta).toRat) ∧
        (adm = "weak" → o.admissibility = .weak) ∧
        (alg = "aca" → o.compressor = .aca (e .eps).toRat (e .maxRank).toInt (e .cutoff).toRat) ∧
        (alg = "dense" → o.compressor = .dense (e .cutoff).toRat)) := by
  obtain ⟨l, hl, ha⟩ := (run_agrees h).2 i _ hg
  refine ⟨l, hl, ?_⟩
  intro e adm alg
  have hcur : ∀ p, current h i p = some (e p) := by
    intro p
    obtain ⟨v, hv⟩ := current_isSome h i hg p
    rw [hv]
    show some v = some (effective h i p)
    rw [effective, hv]
    show some v = some (if v.Finite then v else documentedDefault p)
    rw [if_pos (hfin p v hv)]
  have hf : ∀ p, (e p).Finite := fun p => hfin p _ (hcur p)
  have g1 := get_int l _ _ ha .minBlockSize _ rfl rfl _ (hcur _)
  have g2 := get_int l _ _ ha .maxBlockSize _ rfl rfl _ (hcur _)
  have g3 := get_dbl l _ _ ha .eta _ rfl rfl _ (hcur _) (hf _)
  have g4 := get_str l _ _ ha .admissibility _ rfl rfl _ (hcur _)
  have g5 := get_str l _ _ ha .compressionAlgorithm _ rfl rfl _ (hcur _)
  have g6 := get_int l _ _ ha .maxRank _ rfl rfl _ (hcur _)
  have g7 := get_dbl l _ _ ha .eps _ rfl rfl _ (hcur _) (hf _)
  have g8 := get_dbl l _ _ ha .cutoff _ rfl rfl _ (hcur _) (hf _)
  have hb : blockClusterOptions l.tree =
      if adm = "strong" then .ok ((e .minBlockSize).toInt, (e .maxBlockSize).toInt, .strong (e .eta).toRat)
      else if adm = "weak" then .ok ((e .minBlockSize).toInt, (e .maxBlockSize).toInt, .weak) else .runtimeError := by
    unfold blockClusterOptions
    rw [g4, g1, g2, g3]
    rfl
  have ho : hmatOptions boundary l.tree = (blockClusterOptions l.tree).bind fun bct =>
      if alg = "aca" then .ok ⟨bct.1, bct.2.1, bct.2.2, .aca (e .eps).toRat (e .maxRank).toInt (e .cutoff).toRat⟩
      else if alg = "dense" then .ok ⟨bct.1, bct.2.1, bct.2.2, .dense (e .cutoff).toRat⟩
      else .runtimeError := by
    unfold hmatOptions
    rw [g1, g2, g3, g5, g6, g7, g8]
    cases boundary <;> rfl
  rw [ho, hb]
  constructor
  · intro hbad
    by_cases c1 : adm = "strong"
    · rw [if_pos c1]
      rcases hbad with hbad | hbad
      · exact absurd c1 hbad.1
      · show (if alg = "aca" then _ else if alg = "dense" then _ else Res.runtimeError) = Res.runtimeError
        rw [if_neg hbad.1, if_neg hbad.2]
    · rw [if_neg c1]
      by_cases c2 : adm = "weak"
      · rw [if_pos c2]
        rcases hbad with hbad | hbad
        · exact absurd c2 hbad.2
        · show (if alg = "aca" then _ else if alg = "dense" then _ else Res.runtimeError) = Res.runtimeError
          rw [if_neg hbad.1, if_neg hbad.2]
      · rw [if_neg c2]; rfl
  · intro hadm halg
    rcases hadm with hadm | hadm <;> rcases halg with halg | halg <;> rw [hadm, halg] <;>
      exact ⟨_, rfl, rfl, rfl, by simp, by simp, by simp, by simp⟩

/-- **C113 (operators).**  A boundary operator created with list `i` uses, when it is assembled, the values its list has at
that time - also those assigned after the operator was created - except for the interpolation of oscillatory kernels, which
is fixed when the operator is created. -/
theorem C113_operator (h₁ h₂ : List Event) (i : Nat) (hg : (births h₁)[i]? = some true) (op : Operator)
    (hop : createOperator (run [] h₁) i = some (.ok op)) (r : Assembled)
    (hr : assemble (run [] (h₁ ++ h₂)) op = some (.ok r)) :
    (r.interpolation = if (effective h₁ i .enableInterpolation).toBool then
        some (effective h₁ i .interpolationPointsPerWavelength).toInt else none) ∧
    ∃ l, (run [] (h₁ ++ h₂))[i]? = some l ∧ context l.tree = .ok r.context ∧
      (r.hmat = none ↔ (effective (h₁ ++ h₂) i .boundaryOperatorAssemblyType).toStr = "dense") ∧
      ∀ o, r.hmat = some o → hmatOptions true l.tree = .ok o := by
  obtain ⟨l₁, hl₁, ha₁⟩ := (run_agrees h₁).2 i _ hg
  have hg₂ : (births (h₁ ++ h₂))[i]? = some true := by
    rw [show births (h₁ ++ h₂) = births h₁ ++ births h₂ by simp [births, List.filterMap_append],
      List.getElem?_append_left (List.getElem?_eq_some_iff.mp hg).1]
    exact hg
  obtain ⟨l₂, hl₂, hc⟩ := C113_context (h₁ ++ h₂) i (List.getElem?_eq_some_iff.mp hg₂).1
  obtain ⟨u, hu⟩ := current_isSome h₁ i hg .interpolationPointsPerWavelength
  obtain ⟨w, hw⟩ := current_isSome h₁ i hg .enableInterpolation
  have hu' : effective h₁ i .interpolationPointsPerWavelength = u := by
    have := ha₁.kinds _ _ hu
    rw [effective, hu]
    cases u <;> simp [Value.kind, Param.kind] at this
    simp [Value.Finite]
  have hw' : effective h₁ i .enableInterpolation = w := by
    have := ha₁.kinds _ _ hw
    rw [effective, hw]
    cases w <;> simp [Value.kind, Param.kind] at this
    simp [Value.Finite]
  have hopv : op = ⟨i, if w.toBool then some u.toInt else none⟩ := by
    unfold createOperator at hop
    rw [hl₁] at hop
    simp only [Option.map_some, Option.some.injEq] at hop
    rw [get_int l₁ _ _ ha₁ .interpolationPointsPerWavelength _ rfl rfl u hu,
      get_bool l₁ _ _ ha₁ .enableInterpolation _ rfl rfl w hw] at hop
    cases hctx : context l₁.tree with
    | ok c => rw [hctx] at hop; simp only [Res.bind, Res.ok.injEq] at hop; exact hop.symm
    | _ => rw [hctx] at hop; simp [Res.bind] at hop
  subst hopv
  unfold assemble at hr
  simp only [hl₂, Option.map_some, Option.some.injEq] at hr
  cases hrd : l₂.read .boundaryOperatorAssemblyType with
  | ok v =>
    rw [hrd] at hr
    cases hctx : context l₂.tree with
    | ok c =>
      rw [hctx] at hr
      simp only [Res.bind] at hr
      have hmode : c.mode = .hmat ↔ (effective (h₁ ++ h₂) i .boundaryOperatorAssemblyType).toStr = "hmat" := by
        by_contra hne
        by_cases ht : (effective (h₁ ++ h₂) i .boundaryOperatorAssemblyType).toStr = "hmat" ∨
            (effective (h₁ ++ h₂) i .boundaryOperatorAssemblyType).toStr = "dense"
        · by_cases hnm : (effective (h₁ ++ h₂) i .nearMaxRelDist).toRat = (effective (h₁ ++ h₂) i .mediumMaxRelDist).toRat
          · have := hc.2.1 ht hnm
            rw [hctx] at this; simp at this
          · obtain ⟨c', hc', hm, -⟩ := hc.2.2 ht hnm
            rw [hctx] at hc'
            cases hc'
            exact hne hm
        · push Not at ht
          have := hc.1 ht.1 ht.2
          rw [hctx] at this; simp at this
      have htype : (effective (h₁ ++ h₂) i .boundaryOperatorAssemblyType).toStr = "hmat" ∨
            (effective (h₁ ++ h₂) i .boundaryOperatorAssemblyType).toStr = "dense" := by
        by_contra ht
        push Not at ht
        have := hc.1 ht.1 ht.2
        rw [hctx] at this; simp at this
      cases hm : c.mode with
      | dense =>
        rw [hm] at hr hmode
        simp only [Res.ok.injEq] at hr
        subst hr
        refine ⟨by simp [hu', hw'], l₂, hl₂, hctx, ?_, by simp⟩
        rcases htype with ht | ht
        · exact absurd (hmode.mpr ht) (by simp)
        · simp [ht]
      | hmat =>
        rw [hm] at hr hmode
        cases hho : hmatOptions true l₂.tree with
        | ok o =>
          rw [hho] at hr
          simp only [Res.ok.injEq] at hr
          subst hr
          refine ⟨by simp [hu', hw'], l₂, hl₂, hctx, ?_, ?_⟩
          · simp [hmode.mp rfl]
          · intro o' ho'
            simp only [Option.some.injEq] at ho'
            rw [hho, ho']
        | _ => rw [hho] at hr; simp at hr
    | _ => rw [hctx] at hr; simp [Res.bind] at hr
  | _ => rw [hrd] at hr; simp [Res.bind] at hr

/-- **C113 (an operator can be assembled).**  With a list of `global_parameters()` on which only supported values were
assigned, both the creation and the assembly succeed. -/
theorem C113_operator_succeeds (h₁ h₂ : List Event) (i : Nat) (hg : (births h₁)[i]? = some true)
    (hok : ∀ h, h = h₁ ∨ h = h₁ ++ h₂ →
      (∀ p v, current h i p = some v → v.Finite) ∧
      (effective h i .nearMaxRelDist).toRat ≠ (effective h i .mediumMaxRelDist).toRat ∧
      (effective h i .boundaryOperatorAssemblyType).toStr ∈ ["hmat", "dense"] ∧
      (effective h i .admissibility).toStr ∈ ["strong", "weak"] ∧
      (effective h i .compressionAlgorithm).toStr ∈ ["aca", "dense"]) :
    ∃ op r, createOperator (run [] h₁) i = some (.ok op) ∧ assemble (run [] (h₁ ++ h₂)) op = some (.ok r) := by
  obtain ⟨l₁, hl₁, ha₁⟩ := (run_agrees h₁).2 i _ hg
  have hg₂ : (births (h₁ ++ h₂))[i]? = some true := by
    rw [show births (h₁ ++ h₂) = births h₁ ++ births h₂ by simp [births, List.filterMap_append],
      List.getElem?_append_left (List.getElem?_eq_some_iff.mp hg).1]
    exact hg
  obtain ⟨hf₁, hnm₁, ht₁, -, -⟩ := hok h₁ (Or.inl rfl)
  obtain ⟨hf₂, hnm₂, ht₂, had₂, hal₂⟩ := hok (h₁ ++ h₂) (Or.inr rfl)
  simp only [List.mem_cons, List.not_mem_nil, or_false] at ht₁ ht₂ had₂ hal₂
  obtain ⟨u, hu⟩ := current_isSome h₁ i hg .interpolationPointsPerWavelength
  obtain ⟨w, hw⟩ := current_isSome h₁ i hg .enableInterpolation
  obtain ⟨l₁', hl₁', hc₁⟩ := C113_context h₁ i (List.getElem?_eq_some_iff.mp hg).1
  obtain rfl : l₁ = l₁' := by rw [hl₁] at hl₁'; exact Option.some.inj hl₁'
  obtain ⟨c₁, hc₁, -⟩ := hc₁.2.2 ht₁ hnm₁
  obtain ⟨l₂, hl₂, hr₂⟩ := C113_read (h₁ ++ h₂) i (List.getElem?_eq_some_iff.mp hg₂).1
  obtain ⟨l₂', hl₂', hc₂⟩ := C113_context (h₁ ++ h₂) i (List.getElem?_eq_some_iff.mp hg₂).1
  obtain rfl : l₂ = l₂' := by rw [hl₂] at hl₂'; exact Option.some.inj hl₂'
  obtain ⟨c₂, hc₂, -⟩ := hc₂.2.2 ht₂ hnm₂
  obtain ⟨l₂', hl₂', hh₂⟩ := C113_hmat_options (h₁ ++ h₂) i hg₂ true hf₂
  obtain rfl : l₂ = l₂' := by rw [hl₂] at hl₂'; exact Option.some.inj hl₂'
  obtain ⟨o, ho, -⟩ := hh₂.2 had₂ hal₂
  obtain ⟨v, hv⟩ := current_isSome (h₁ ++ h₂) i hg₂ .boundaryOperatorAssemblyType
  have hread := hr₂ .boundaryOperatorAssemblyType
  rw [hv] at hread
  replace hread : l₂.read .boundaryOperatorAssemblyType = .ok v := by
    rw [hread]
    show (if v.Finite then Res.ok v else Res.terminate) = _
    rw [if_pos (hf₂ _ v hv)]
  have hcreate : createOperator (run [] h₁) i = some (.ok ⟨i, if w.toBool then some u.toInt else none⟩) := by
    unfold createOperator
    rw [hl₁, Option.map_some, hc₁,
      get_int l₁ _ _ ha₁ .interpolationPointsPerWavelength _ rfl rfl u hu,
      get_bool l₁ _ _ ha₁ .enableInterpolation _ rfl rfl w hw]
    rfl
  cases hm : c₂.mode with
  | dense =>
    refine ⟨_, ⟨c₂, if w.toBool then some u.toInt else none, none⟩, hcreate, ?_⟩
    unfold assemble
    simp only [hl₂, Option.map_some, hread, hc₂, Res.bind, hm]
  | hmat =>
    refine ⟨_, ⟨c₂, if w.toBool then some u.toInt else none, some o⟩, hcreate, ?_⟩
    unfold assemble
    simp only [hl₂, Option.map_some, hread, hc₂, Res.bind, hm, ho]

/-- **C113 (counterexamples).**  (1) Reading any parameter of a new `ParameterList()` terminates the process, although a
`Context` made from it works; an operator with such a list cannot be assembled.  (2) An infinite distance threshold is
accepted, and then silently replaced by the default in the assembly, while reading it terminates the process.  (3) An
infinite `eta` makes the assembly of an H-matrix fail although weak admissibility does not use it. -/
theorem C113_counterexamples :
    (∀ p : Param, p.isFlag = false → emptyList.read p = .terminate) ∧
    (∃ c, context emptyList.tree = .ok c ∧ c.mode = .hmat ∧ hmatOptions true emptyList.tree = .ptreeError) ∧
    assemble [emptyList] ⟨0, none⟩ = some .terminate ∧
    (let l := globalList.store .nearMaxRelDist (.dbl .posInf)
     PList.set globalList .nearMaxRelDist (.float .posInf) = .ok l ∧ l.read .nearMaxRelDist = .terminate ∧
      getDefaulted asDbl l.tree ["options", "quadrature", "near", "maxRelDist"] = .ok 2) ∧
    (let l := globalList.store .eta (.dbl .posInf)
     l.read .admissibility = .ok (.str "weak") ∧ hmatOptions true l.tree = .ptreeError) := by
  refine ⟨?_, ?_, ?_, ⟨rfl, by rfl, by rfl⟩, by rfl, by rfl⟩
  · intro p hp
    cases p <;> first | rfl | simp [Param.isFlag] at hp
  · obtain ⟨l, hl, h⟩ := C113_context [.newEmpty] 0 (by decide)
    have : l = emptyList := by
      have h2 : (run [] [Event.newEmpty])[0]? = some emptyList := rfl
      rw [h2] at hl; exact (Option.some.inj hl).symm
    subst this
    obtain ⟨c, hc, hm, -⟩ := h.2.2 (Or.inl rfl) (by
      show (2 : ℚ) ≠ 4
      norm_num)
    exact ⟨c, hc, hm.mpr rfl, by rfl⟩
  · rfl

/-! ### Examples -/

/-- Two lists with different settings; the assignments are independent. -/
example : (births [.newGlobal, .newGlobal, .set 0 .farDoubleOrder (.int 9), .set 1 .eps (.float (.fin (1 / 10))),
      .set 0 .farDoubleOrder (.str "high")])[0]? = some true ∧
    current [.newGlobal, .newGlobal, .set 0 .farDoubleOrder (.int 9), .set 1 .eps (.float (.fin (1 / 10))),
      .set 0 .farDoubleOrder (.str "high")] 0 .farDoubleOrder = some (.int 9) ∧
    current [.newGlobal, .newGlobal, .set 0 .farDoubleOrder (.int 9), .set 1 .eps (.float (.fin (1 / 10))),
      .set 0 .farDoubleOrder (.str "high")] 1 .farDoubleOrder = some (.int 2) := ⟨rfl, rfl, rfl⟩

/-- The hypotheses of `C113_operator_succeeds` and `C113_operator` hold for an operator whose list is changed to dense
assembly and to no interpolation after its creation. -/
example : ∃ op r,
    createOperator (run [] [.newGlobal]) 0 = some (.ok op) ∧
    assemble (run [] ([.newGlobal] ++ [.set 0 .boundaryOperatorAssemblyType (.str "dense"),
      .set 0 .enableInterpolation (.bool false)])) op = some (.ok r) ∧
    r.hmat = none ∧ r.interpolation = some 5000 := by
  obtain ⟨op, r, ho, hr⟩ := C113_operator_succeeds [.newGlobal]
    [.set 0 .boundaryOperatorAssemblyType (.str "dense"), .set 0 .enableInterpolation (.bool false)] 0 rfl (by
      intro h hh
      rcases hh with rfl | rfl
      · refine ⟨?_, ?_, by decide, by decide, by decide⟩
        · intro p v hv
          cases p <;> (cases hv; trivial)
        · show (2 : ℚ) ≠ 4
          norm_num
      · refine ⟨?_, ?_, by decide, by decide, by decide⟩
        · intro p v hv
          cases p <;> (cases hv; trivial)
        · show (2 : ℚ) ≠ 4
          norm_num)
  obtain ⟨h1, l, -, -, h2, -⟩ := C113_operator [.newGlobal]
    [.set 0 .boundaryOperatorAssemblyType (.str "dense"), .set 0 .enableInterpolation (.bool false)] 0 rfl op ho r hr
  exact ⟨op, r, ho, hr, h2.mpr (by decide), h1⟩

end Verif.Params
