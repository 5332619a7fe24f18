import Verif.Lemmas.BcWalk
import Verif.Lemmas.Space
import Verif.Spec.SpaceVector
/-
The contents of the dof maps and coefficients of the Buffa-Christiansen spaces after a sequence of columns.
-/
namespace Verif.Space
open Verif.Grid

/-- A column, the face it belongs to, its dof and weight. -/
structure Push (K : Type) where
  face : Nat
  col : Col K
  dof : Nat
  w : K

variable {K : Type}

/-- The columns in order. -/
def pushAll (l : List (Push K)) (st : BcState K) : BcState K := l.foldl (fun st p => st.push p.face p.col p.dof p.w) st

theorem pushFrom_eq [Field K] (w : Nat → Nat) (col : Nat → Col K) (dof : Nat) (wt : K) : ∀ (m k : Nat) (st : BcState K),
    pushFrom w col dof wt k m st = pushAll ((List.range' k m).map fun k => ⟨w k, col k, dof, wt⟩) st := by
  intro m
  induction m with
  | zero => intro k st; rfl
  | succ m ih =>
    intro k st
    rw [pushFrom, ih]
    rfl

theorem pushAll_append (l l' : List (Push K)) (st : BcState K) : pushAll (l ++ l') st = pushAll l' (pushAll l st) := by
  unfold pushAll
  rw [List.foldl_append]

/-- The columns of a face. -/
def ofFace (l : List (Push K)) (F : Nat) : List (Push K) := l.filter fun p => decide (p.face = F)

theorem ofFace_snoc_self (l : List (Push K)) (p : Push K) : ofFace (l ++ [p]) p.face = ofFace l p.face ++ [p] := by
  simp [ofFace]

theorem ofFace_snoc_ne (l : List (Push K)) (p : Push K) (F : Nat) (h : p.face ≠ F) : ofFace (l ++ [p]) F = ofFace l F := by
  simp [ofFace, h]

/-- The state after the columns `l`. -/
structure Rep (st : BcState K) (l : List (Push K)) (nf nd : Nat) : Prop where
  coeffs_length : st.coeffs.length = nf
  rows_length : st.local2global.length = nf
  weights_length : st.weights.length = nf
  dofs_length : st.global2local.length = nd
  coeffs : ∀ F < nf, st.coeffs[F]? = some ((ofFace l F).map (·.col))
  rows : ∀ F < nf, st.local2global[F]? = some ((ofFace l F).map fun p => (p.dof : Int))
  weights : ∀ F < nf, st.weights[F]? = some ((ofFace l F).map (·.w))
  inverse : ∀ d < nd, ∀ ld : LocalDof, ld ∈ st.global2local.getD d [] ↔
    ∃ row, st.local2global[ld.entityIndex]? = some row ∧ row[ld.dofIndex]? = some (d : Int)
  once : ∀ d < nd, (st.global2local.getD d []).Nodup
  range : ∀ p ∈ l, p.face < nf ∧ p.dof < nd

theorem rep_nil (nf nd : Nat) :
    Rep (⟨List.replicate nf [], List.replicate nf [], List.replicate nf [], List.replicate nd []⟩ : BcState K) [] nf nd where
  coeffs_length := by simp
  rows_length := by simp
  weights_length := by simp
  dofs_length := by simp
  coeffs := by intro F hF; simp [hF, ofFace]
  rows := by intro F hF; simp [hF, ofFace]
  weights := by intro F hF; simp [hF, ofFace]
  inverse := by
    intro d hd ld
    simp only [List.getD_eq_getElem?_getD, List.getElem?_replicate, hd, if_true, Option.getD_some, List.not_mem_nil, false_iff]
    rintro ⟨row, h1, h2⟩
    split at h1
    · cases h1; simp at h2
    · cases h1
  once := by intro d hd; simp [List.getD_eq_getElem?_getD, hd]
  range := by simp

theorem getD_modify {α : Type} (l : List (List α)) (i j : Nat) (x : List α) (hi : i < l.length) :
    (l.modify i (· ++ x)).getD j [] = if i = j then l.getD j [] ++ x else l.getD j [] := by
  rw [List.getD_eq_getElem?_getD, List.getElem?_modify]
  by_cases h : i = j
  · subst h
    simp [List.getElem?_eq_getElem hi]
  · simp [h, List.getD_eq_getElem?_getD]

theorem rep_push {st : BcState K} {l : List (Push K)} {nf nd : Nat} (h : Rep st l nf nd) (p : Push K) (hf : p.face < nf) (hd : p.dof < nd) :
    Rep (st.push p.face p.col p.dof p.w) (l ++ [p]) nf nd := by
  have hlen : (((st.append p.face p.col).coeffs.getD p.face []).length - 1) = (ofFace l p.face).length := by
    show ((st.coeffs.modify p.face (· ++ [p.col])).getD p.face []).length - 1 = _
    rw [getD_modify _ _ _ _ (by rw [h.coeffs_length]; exact hf), if_pos rfl, List.getD_eq_getElem?_getD, h.coeffs _ hf]
    simp
  have e1 : (st.push p.face p.col p.dof p.w).coeffs = st.coeffs.modify p.face (· ++ [p.col]) := rfl
  have e2 : (st.push p.face p.col p.dof p.w).local2global = st.local2global.modify p.face (· ++ [(p.dof : Int)]) := rfl
  have e3 : (st.push p.face p.col p.dof p.w).weights = st.weights.modify p.face (· ++ [p.w]) := rfl
  have e4 : (st.push p.face p.col p.dof p.w).global2local =
      st.global2local.modify p.dof (· ++ [⟨p.face, (ofFace l p.face).length⟩]) := by
    rw [← hlen]; rfl
  have hrow : ∀ F, F < nf → (st.local2global.modify p.face (· ++ [(p.dof : Int)]))[F]? =
      some ((ofFace (l ++ [p]) F).map fun p => (p.dof : Int)) := by
    intro F hF
    rw [List.getElem?_modify, h.rows F hF]
    by_cases hp : p.face = F
    · subst hp; rw [ofFace_snoc_self]; simp
    · rw [ofFace_snoc_ne _ _ _ hp]; simp [hp]
  refine ⟨?_, ?_, ?_, ?_, ?_, ?_, ?_, ?_, ?_, ?_⟩
  · rw [e1]; simp [h.coeffs_length]
  · rw [e2]; simp [h.rows_length]
  · rw [e3]; simp [h.weights_length]
  · rw [e4]; simp [h.dofs_length]
  · intro F hF
    rw [e1, List.getElem?_modify, h.coeffs F hF]
    by_cases hp : p.face = F
    · subst hp; rw [ofFace_snoc_self]; simp
    · rw [ofFace_snoc_ne _ _ _ hp]; simp [hp]
  · intro F hF
    rw [e2]; exact hrow F hF
  · intro F hF
    rw [e3, List.getElem?_modify, h.weights F hF]
    by_cases hp : p.face = F
    · subst hp; rw [ofFace_snoc_self]; simp
    · rw [ofFace_snoc_ne _ _ _ hp]; simp [hp]
  · intro d hdd ld
    rw [e4, e2, getD_modify _ _ _ _ (by rw [h.dofs_length]; exact hd)]
    have hold := h.inverse d hdd ld
    by_cases hF : ld.entityIndex < nf
    · rw [hrow _ hF]
      rw [h.rows _ hF] at hold
      have hold' : ld ∈ st.global2local.getD d [] ↔ ((ofFace l ld.entityIndex).map fun p => (p.dof : Int))[ld.dofIndex]? = some (d : Int) := by
        rw [hold]
        constructor
        · rintro ⟨row, h1, h2⟩; cases h1; exact h2
        · intro h2; exact ⟨_, rfl, h2⟩
      have hnew : (∃ row, some ((ofFace (l ++ [p]) ld.entityIndex).map fun p => (p.dof : Int)) = some row ∧ row[ld.dofIndex]? = some (d : Int)) ↔
          ((ofFace (l ++ [p]) ld.entityIndex).map fun p => (p.dof : Int))[ld.dofIndex]? = some (d : Int) := by
        constructor
        · rintro ⟨row, h1, h2⟩; cases h1; exact h2
        · intro h2; exact ⟨_, rfl, h2⟩
      rw [hnew]
      by_cases hp : p.face = ld.entityIndex
      · rw [← hp] at hold' ⊢
        rw [ofFace_snoc_self, List.map_append]
        by_cases hlt : ld.dofIndex < (ofFace l p.face).length
        · rw [List.getElem?_append_left (by simpa using hlt), ← hold']
          split
          · constructor
            · intro hm
              rcases List.mem_append.mp hm with hm | hm
              · exact hm
              · rw [List.mem_singleton] at hm
                rw [hm] at hlt; simp at hlt
            · exact fun hm => List.mem_append_left _ hm
          · rfl
        · rw [List.getElem?_append_right (by simpa using hlt)]
          have hno : ld ∉ st.global2local.getD d [] := by
            rw [hold', List.getElem?_eq_none (by simpa using hlt)]; simp
          simp only [List.length_map, List.map_cons, List.map_nil]
          by_cases hdp : p.dof = d
          · rw [if_pos hdp, List.mem_append]
            simp only [hno, false_or, List.mem_singleton]
            constructor
            · intro h1; rw [h1]; simp [hdp]
            · intro h1
              have : ld.dofIndex - (ofFace l p.face).length = 0 := by
                by_contra h2
                rw [List.getElem?_eq_none (by simp; omega)] at h1; cases h1
              cases ld
              simp only [LocalDof.mk.injEq]
              simp only at hp this hlt
              exact ⟨hp.symm, by omega⟩
          · rw [if_neg hdp]
            simp only [hno, false_iff]
            intro h1
            have h3 := List.mem_of_getElem? h1
            simp only [List.mem_singleton] at h3
            omega
      · rw [ofFace_snoc_ne _ _ _ hp, ← hold']
        split
        · constructor
          · intro hm
            rcases List.mem_append.mp hm with hm | hm
            · exact hm
            · rw [List.mem_singleton] at hm
              rw [hm] at hp; exact absurd rfl hp
          · exact fun hm => List.mem_append_left _ hm
        · rfl
    · have n1 : st.local2global[ld.entityIndex]? = none := List.getElem?_eq_none (by rw [h.rows_length]; omega)
      have n2 : (st.local2global.modify p.face (· ++ [(p.dof : Int)]))[ld.entityIndex]? = none :=
        List.getElem?_eq_none (by simp [h.rows_length]; omega)
      rw [n2]
      rw [n1] at hold
      have : ld ∉ st.global2local.getD d [] := by rw [hold]; rintro ⟨row, h1, -⟩; cases h1
      constructor
      · intro hm
        split at hm
        · rcases List.mem_append.mp hm with hm | hm
          · exact absurd hm this
          · rw [List.mem_singleton] at hm
            rw [hm] at hF; exact absurd hf hF
        · exact absurd hm this
      · rintro ⟨row, h1, -⟩; cases h1
  · intro d hdd
    rw [e4, getD_modify _ _ _ _ (by rw [h.dofs_length]; exact hd)]
    split
    · rw [List.nodup_append]
      refine ⟨h.once d hdd, by simp, ?_⟩
      intro a ha b hb hab
      rw [List.mem_singleton] at hb
      rw [hab, hb, h.inverse d hdd] at ha
      obtain ⟨row, h1, h2⟩ := ha
      simp only at h1 h2
      rw [h.rows _ hf] at h1
      cases h1
      rw [List.getElem?_eq_none (by simp)] at h2
      cases h2
    · exact h.once d hdd
  · intro q hq
    rcases List.mem_append.mp hq with hq | hq
    · exact h.range q hq
    · rw [List.mem_singleton] at hq
      subst hq; exact ⟨hf, hd⟩

theorem rep_pushAll {nf nd : Nat} : ∀ (l' : List (Push K)) (st : BcState K) (l : List (Push K)), Rep st l nf nd →
    (∀ p ∈ l', p.face < nf ∧ p.dof < nd) → Rep (pushAll l' st) (l ++ l') nf nd := by
  intro l'
  induction l' with
  | nil => intro st l h _; simpa [pushAll] using h
  | cons p l' ih =>
    intro st l h hr
    have h1 := rep_push h p (hr p (by simp)).1 (hr p (by simp)).2
    have h2 := ih _ _ h1 (fun q hq => hr q (List.mem_cons_of_mem _ hq))
    rw [List.append_assoc] at h2
    exact h2

/-! ### After the last loop -/

section
variable [Field K] {st : BcState K} {l : List (Push K)} {nf nd : Nat} (h : Rep st l nf nd)
include h

theorem fill_coeffs (F : Nat) (hF : F < nf) :
    (bcFill st).coeffs[F]? = some (if ofFace l F = [] then [⟨0, 0, 0⟩] else (ofFace l F).map (·.col)) := by
  show (st.coeffs.map _)[F]? = _
  rw [List.getElem?_map, h.coeffs F hF]
  by_cases he : ofFace l F = []
  · simp [he]
  · simp [he]

theorem fill_rows (F : Nat) (hF : F < nf) :
    (bcFill st).local2global[F]? = some (if ofFace l F = [] then [-1] else (ofFace l F).map fun p => (p.dof : Int)) := by
  show ((st.local2global.zip st.coeffs).map _)[F]? = _
  rw [List.getElem?_map, show (st.local2global.zip st.coeffs)[F]? = some ((ofFace l F).map fun p => (p.dof : Int), (ofFace l F).map (·.col)) from
    List.getElem?_zip_eq_some.mpr ⟨h.rows F hF, h.coeffs F hF⟩]
  by_cases he : ofFace l F = []
  · simp [he]
  · simp [he]

theorem fill_weights (F : Nat) (hF : F < nf) :
    (bcFill st).weights[F]? = some (if ofFace l F = [] then [1] else (ofFace l F).map (·.w)) := by
  show ((st.weights.zip st.coeffs).map _)[F]? = _
  rw [List.getElem?_map, show (st.weights.zip st.coeffs)[F]? = some ((ofFace l F).map (·.w), (ofFace l F).map (·.col)) from
    List.getElem?_zip_eq_some.mpr ⟨h.weights F hF, h.coeffs F hF⟩]
  by_cases he : ofFace l F = []
  · simp [he]
  · simp [he]

theorem fill_length : (bcFill st).local2global.length = nf ∧ (bcFill st).coeffs.length = nf ∧ (bcFill st).weights.length = nf := by
  refine ⟨?_, ?_, ?_⟩
  · show ((st.local2global.zip st.coeffs).map _).length = _
    simp [h.rows_length, h.coeffs_length]
  · show (st.coeffs.map _).length = _
    simp [h.coeffs_length]
  · show ((st.weights.zip st.coeffs).map _).length = _
    simp [h.weights_length, h.coeffs_length]

theorem fill_at (ld : LocalDof) (x : Int) : (bcFill st).maps.At ld x ↔
    ld.entityIndex < nf ∧ (if ofFace l ld.entityIndex = [] then [-1] else (ofFace l ld.entityIndex).map fun p => (p.dof : Int))[ld.dofIndex]? = some x := by
  unfold DofMaps.At DofMaps.getGlobalDofs
  show ((bcFill st).local2global.getD ld.entityIndex [])[ld.dofIndex]? = some x ↔ _
  rw [List.getD_eq_getElem?_getD]
  by_cases hF : ld.entityIndex < nf
  · rw [fill_rows h _ hF]
    simp only [Option.getD_some, hF, true_and]
  · rw [show (bcFill st).local2global[ld.entityIndex]? = none from List.getElem?_eq_none (by rw [(fill_length h).1]; omega)]
    simp [hF]

theorem fill_consistent : (bcFill st).maps.Consistent where
  range := by
    intro ld x hx
    rw [fill_at h] at hx
    obtain ⟨hF, hx⟩ := hx
    have hm := List.mem_of_getElem? hx
    split at hm
    · left; simpa using hm
    · right
      simp only [List.mem_map] at hm
      obtain ⟨p, hp, rfl⟩ := hm
      refine ⟨by omega, ?_⟩
      have := (h.range p (List.mem_of_mem_filter hp)).2
      show (p.dof : Int) < ((bcFill st).global2local.length : Int)
      have e : (bcFill st).global2local.length = nd := h.dofs_length
      rw [e]; omega
  inverse := by
    intro d hd ld
    have hd' : d < nd := by
      have e : (bcFill st).global2local.length = nd := h.dofs_length
      have hd2 : d < (bcFill st).global2local.length := hd
      omega
    rw [fill_at h]
    have e := h.inverse d hd' ld
    show ld ∈ st.global2local.getD d [] ↔ _
    rw [e]
    by_cases hF : ld.entityIndex < nf
    · rw [h.rows _ hF]
      simp only [hF, true_and]
      by_cases he : ofFace l ld.entityIndex = []
      · simp only [he, if_true, List.map_nil]
        constructor
        · rintro ⟨row, h1, h2⟩; cases h1; simp at h2
        · intro h1
          have := List.mem_of_getElem? h1
          simp only [List.mem_singleton] at this
          omega
      · simp only [he, if_false]
        constructor
        · rintro ⟨row, h1, h2⟩; cases h1; exact h2
        · intro h1; exact ⟨_, rfl, h1⟩
    · rw [List.getElem?_eq_none (by rw [h.rows_length]; omega)]
      simp [hF]
  once := by
    intro d hd
    have hd' : d < nd := by
      have e : (bcFill st).global2local.length = nd := h.dofs_length
      have hd2 : d < (bcFill st).global2local.length := hd
      omega
    exact h.once d hd'
  flat_mem := flat_mem _
  flat_sorted := flat_sorted _

end

/-- The sum of an expansion. -/
theorem expandW_pushes (L : List (Push ℝ)) (c : Nat → ℝ) (shape : Nat → ℝ) (val : Push ℝ → ℝ)
    (hs : ∀ a p, L[a]? = some p → shape a = val p) :
    expandW (L.map fun p => (p.dof : Int)) (L.map (·.w)) c shape = (L.map fun p => c p.dof * p.w * val p).sum := by
  unfold expandW
  have : ∀ (L' : List (Push ℝ)) (k : Nat), (∀ a p, L'[a]? = some p → shape (k + a) = val p) →
      ((((L'.map fun p => (p.dof : Int)).zip (L'.map (·.w))).zipIdx k).map fun q =>
        if 0 ≤ q.1.1 then c q.1.1.toNat * q.1.2 * shape q.2 else 0).sum = (L'.map fun p => c p.dof * p.w * val p).sum := by
    intro L'
    induction L' with
    | nil => intro k _; rfl
    | cons p L' ih =>
      intro k hk
      simp only [List.map_cons, List.zip_cons_cons, List.zipIdx_cons, List.sum_cons]
      rw [ih (k + 1) (fun a q hq => by
        have := hk (a + 1) q (by simpa using hq)
        rwa [show k + (a + 1) = k + 1 + a by omega] at this)]
      rw [if_pos (by omega), Int.toNat_natCast]
      have := hk 0 p (by simp)
      rw [Nat.add_zero] at this
      rw [this]
  exact this L 0 (fun a p hp => by rw [Nat.zero_add]; exact hs a p hp)

end Verif.Space
