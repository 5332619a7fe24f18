import Verif.Lemmas.MengerCode
import Mathlib.Tactic.FieldSimp
import Mathlib.Tactic.Positivity
import Mathlib.Tactic.IntervalCases

/-!
# C102: the Menger sponge
-/

noncomputable section

namespace Verif.Shapes

/-- The determinant of three lattice vectors. -/
def detZ (u v w : Z3) : ℤ :=
  u.1 * (v.2.1 * w.2.2 - v.2.2 * w.2.1) - u.2.1 * (v.1 * w.2.2 - v.2.2 * w.1)
    + u.2.2 * (v.1 * w.2.1 - v.2.1 * w.1)

theorem det_scaled {N : ℕ} (hN : 0 < N) (a b d m : Z3) :
    det3 (scaled N b - scaled N a) (scaled N d - scaled N a) (centre N m - scaled N a) =
      detZ (b - a) (d - a) (m + m + (1, 1, 1) - (a + a)) / (2 * (N : ℝ) ^ 3) := by
  have hN' : (N : ℝ) ≠ 0 := by positivity
  obtain ⟨a0, a1, a2⟩ := a
  obtain ⟨b0, b1, b2⟩ := b
  obtain ⟨d0, d1, d2⟩ := d
  obtain ⟨m0, m1, m2⟩ := m
  unfold det3 detZ scaled centre
  simp only [Pi.sub_apply, Matrix.cons_val_zero, Matrix.cons_val_one, Matrix.cons_val, Prod.fst_add, Prod.snd_add,
    Prod.fst_sub, Prod.snd_sub]
  push_cast
  field_simp
  ring

theorem square_pointsInto {N : ℕ} (hN : 0 < N) (c : Z3) (f : Fin 6) : PointsInto N (square c f) c := by
  intro a b d rest h
  have h' : c + off f 0 = a ∧ c + off f 1 = b ∧ c + off f 2 = d := by
    unfold square at h
    simp only [List.cons.injEq] at h
    exact ⟨h.1, h.2.1, h.2.2.1⟩
  obtain ⟨rfl, rfl, rfl⟩ := h'
  rw [det_scaled hN]
  have hd : ∀ f, 0 < detZ (off f 1 - off f 0) (off f 2 - off f 0) ((1, 1, 1) - (off f 0 + off f 0)) := by
    decide
  have e : detZ (c + off f 1 - (c + off f 0)) (c + off f 2 - (c + off f 0))
      (c + c + (1, 1, 1) - (c + off f 0 + (c + off f 0))) =
      detZ (off f 1 - off f 0) (off f 2 - off f 0) ((1, 1, 1) - (off f 0 + off f 0)) := by
    congr 1 <;> abel
  rw [e]
  have := hd f
  have h1 : (0 : ℝ) < detZ (off f 1 - off f 0) (off f 2 - off f 0) ((1, 1, 1) - (off f 0 + off f 0)) := by
    exact_mod_cast this
  positivity

/-- `menger_sponge(h, level)` refuses negative levels.  For every other level the geometry is well
formed; its surfaces are exactly the sides between a cell of the sponge and a cell outside, each
once; they fit together to a closed surface, and no point or line is given twice.

The English property also asks for normals that point out of the sponge, as those of the other closed
shapes of the module do: the theorem says that they all point into it. -/
theorem C102_menger_partial (h : ℝ) (level : ℤ) :
    (level < 0 → mengerSponge h level = .error .TypeError) ∧
    (0 ≤ level → ∃ g bs qs faces, mengerSponge h level = .ok ⟨h, g⟩ ∧
      WellNumbered g ∧ InOrder [] g ∧
      bs.Nodup ∧ (∀ c f, (c, f) ∈ bs ↔ Sponge level.toNat c ∧ ¬Sponge level.toNat (c + dir f)) ∧
      List.Forall₂ (fun b q => IsSide b.1 (dir b.2) q ∧ PointsInto (3 ^ level.toNat) q b.1) bs qs ∧
      Draws g faces ∧ Places g faces (qs.map (List.map (scaled (3 ^ level.toNat)))) ∧
      ClosedSurface faces ∧ SharesPoints g ∧ SharesLines g ∧
      ∀ k ∈ pointNumbers g, ∃ f ∈ faces, k ∈ f) := by
  refine ⟨fun hl => by unfold mengerSponge; rw [if_pos hl], fun hl => ?_⟩
  generalize hn : level.toNat = n
  set N := 3 ^ n with hN
  have hNpos : 0 < N := by positivity
  set good : ℕ → Prop := fun k => ∃ b ∈ drawn n, ∃ q ∈ squareN b.1 b.2, k = getPoint N q with hgood
  -- corners of the sides drawn
  have hcell : ∀ b ∈ drawn n, b.1.1 < N ∧ b.1.2.1 < N ∧ b.1.2.2 < N := by
    intro b hb
    unfold drawn at hb
    simp only [List.mem_flatMap, List.mem_map] at hb
    obtain ⟨p, hp, f, -, rfl⟩ := hb
    exact (mem_cubeRange _ _).1 hp
  have hcorner : ∀ b ∈ drawn n, ∀ q ∈ squareN b.1 b.2, q.1 ≤ N ∧ q.2.1 ≤ N ∧ q.2.2 ≤ N := by
    intro b hb q hq
    have h1 := hcell b hb
    have h2 : toZ q ∈ square (toZ b.1) b.2 := by
      rw [← squareN_toZ]
      exact List.mem_map_of_mem hq
    have h3 := ((square_isSide (toZ b.1) b.2).2.2.1 (toZ q)).1 h2 |>.1
    unfold CornerOf toZ at h3
    simp only at h3
    omega
  have hnd : ∀ b ∈ drawn n, ((squareN b.1 b.2).map (getPoint N)).Nodup := by
    intro b hb
    refine List.Nodup.map_on (fun p hp q hq he => getPoint_inj (hcorner b hb p hp) (hcorner b hb q hq) he) ?_
    refine List.Nodup.of_map toZ ?_
    rw [squareN_toZ]
    exact (square_isSide _ _).2.1
  have hlen : ∀ b : N3 × Fin 6, (squareN b.1 b.2).length = 4 := by
    intro b
    have := (square_isSide (toZ b.1) b.2).1
    rwa [← squareN_toZ, List.length_map] at this
  have hcalls : ∀ es ∈ (drawn n).map (fun b => sides (squareN b.1 b.2)), ∀ e ∈ es,
      getPoint N e.1 ≠ getPoint N e.2 ∧ good (getPoint N e.1) ∧ good (getPoint N e.2) := by
    intro es hes e he
    obtain ⟨b, hb, rfl⟩ := List.mem_map.1 hes
    have hm := mem_sides he
    refine ⟨?_, ⟨b, hb, _, hm.1, rfl⟩, ⟨b, hb, _, hm.2, rfl⟩⟩
    refine sides_ne (hnd b hb) (by rw [List.length_map, hlen]; omega) (e := (getPoint N e.1, getPoint N e.2)) ?_
    rw [sides_map]
    exact List.mem_map.2 ⟨e, he, rfl⟩
  obtain ⟨I, -, nl, nsf, ol, os, hb⟩ := faceStmts_spec N _ 1 (edgeInv_init good) hcalls
  set r := faceStmts N 1 ((drawn n).map fun b => sides (squareN b.1 b.2)) EdgeGen.init with hr
  set pts : List (Stmt V3) := (cubeRange (N + 1)).filterMap fun p =>
      if r.2.2.nodes (getPoint N p) then some (Stmt.point (getPoint N p) (mengerCoords N p)) else none with hpts
  set g : List (Stmt V3) := pts ++ r.2.2.lines ++ r.1 ++ r.2.1 with hg
  have hrun : mengerSponge h level = .ok ⟨h, g⟩ := by
    unfold mengerSponge
    rw [if_neg (by omega), hn]
    simp only [faces_eq]
    rfl
  -- the points
  have mpts : ∀ s, s ∈ pts ↔ ∃ p : N3, (p.1 ≤ N ∧ p.2.1 ≤ N ∧ p.2.2 ≤ N) ∧
      r.2.2.nodes (getPoint N p) = true ∧ s = .point (getPoint N p) (mengerCoords N p) := by
    intro s
    rw [hpts, List.mem_filterMap]
    constructor
    · rintro ⟨p, hp, hs⟩
      rw [mem_cubeRange] at hp
      split at hs
      · rename_i hnode
        cases hs
        exact ⟨p, by omega, hnode, rfl⟩
      · cases hs
    · rintro ⟨p, hp, hnode, rfl⟩
      refine ⟨p, (mem_cubeRange _ _).2 (by omega), ?_⟩
      rw [if_pos hnode]
  have lineIn : ∀ k a b, Stmt.line k a b ∈ g ↔ Stmt.line k a b ∈ r.2.2.lines := by
    intro k a b
    rw [hg]
    simp only [List.mem_append]
    constructor
    · rintro (((h | h) | h) | h)
      · obtain ⟨p, -, -, hp⟩ := (mpts _).1 h
        cases hp
      · exact h
      · obtain ⟨_, _, h, -⟩ := ol _ h
        cases h
      · obtain ⟨_, h, -⟩ := os _ h
        cases h
    · exact fun h => .inl (.inl (.inr h))
  have pointIn : ∀ k p, Stmt.point k p ∈ g ↔ Stmt.point k p ∈ pts := by
    intro k p
    rw [hg]
    simp only [List.mem_append]
    constructor
    · rintro (((h | h) | h) | h)
      · exact h
      · obtain ⟨_, _, _, h, -⟩ := I.only _ h
        cases h
      · obtain ⟨_, _, h, -⟩ := ol _ h
        cases h
      · obtain ⟨_, h, -⟩ := os _ h
        cases h
    · exact fun h => .inl (.inl (.inl h))
  have pn : pointNumbers g = pointNumbers pts := by
    rw [hg]
    simp only [pointNumbers_append]
    have e1 : pointNumbers r.2.2.lines = [] := List.filterMap_eq_nil_iff.2 fun s hs => by
      obtain ⟨_, _, _, rfl, -⟩ := I.only _ hs; rfl
    have e2 : pointNumbers r.1 = [] := List.filterMap_eq_nil_iff.2 fun s hs => by
      obtain ⟨_, _, rfl, -⟩ := ol _ hs; rfl
    have e3 : pointNumbers r.2.1 = [] := List.filterMap_eq_nil_iff.2 fun s hs => by
      obtain ⟨_, rfl, -⟩ := os _ hs; rfl
    rw [e1, e2, e3, List.append_nil, List.append_nil, List.append_nil]
  have ln : lineNumbers g = lineNumbers r.2.2.lines := by
    rw [hg]
    simp only [lineNumbers_append]
    have e1 : lineNumbers pts = [] := List.filterMap_eq_nil_iff.2 fun s hs => by
      obtain ⟨_, _, _, rfl⟩ := (mpts _).1 hs; rfl
    have e2 : lineNumbers r.1 = [] := List.filterMap_eq_nil_iff.2 fun s hs => by
      obtain ⟨_, _, rfl, -⟩ := ol _ hs; rfl
    have e3 : lineNumbers r.2.1 = [] := List.filterMap_eq_nil_iff.2 fun s hs => by
      obtain ⟨_, rfl, -⟩ := os _ hs; rfl
    rw [e1, e2, e3, List.append_nil, List.append_nil, List.nil_append]
  have lpn : loopNumbers g = loopNumbers r.1 := by
    rw [hg]
    simp only [loopNumbers_append]
    have e1 : loopNumbers pts = [] := List.filterMap_eq_nil_iff.2 fun s hs => by
      obtain ⟨_, _, _, rfl⟩ := (mpts _).1 hs; rfl
    have e2 : loopNumbers r.2.2.lines = [] := List.filterMap_eq_nil_iff.2 fun s hs => by
      obtain ⟨_, _, _, rfl, -⟩ := I.only _ hs; rfl
    have e3 : loopNumbers r.2.1 = [] := List.filterMap_eq_nil_iff.2 fun s hs => by
      obtain ⟨_, rfl, -⟩ := os _ hs; rfl
    rw [e1, e2, e3, List.append_nil, List.nil_append, List.nil_append]
  have sfn : surfaceNumbers g = surfaceNumbers r.2.1 := by
    rw [hg]
    simp only [surfaceNumbers_append]
    have e1 : surfaceNumbers pts = [] := List.filterMap_eq_nil_iff.2 fun s hs => by
      obtain ⟨_, _, _, rfl⟩ := (mpts _).1 hs; rfl
    have e2 : surfaceNumbers r.2.2.lines = [] := List.filterMap_eq_nil_iff.2 fun s hs => by
      obtain ⟨_, _, _, rfl, -⟩ := I.only _ hs; rfl
    have e3 : surfaceNumbers r.1 = [] := List.filterMap_eq_nil_iff.2 fun s hs => by
      obtain ⟨_, _, rfl, -⟩ := ol _ hs; rfl
    rw [e1, e2, e3, List.nil_append, List.nil_append, List.nil_append]
  -- every end of a line is a point
  have hends : ∀ k, r.2.2.nodes k = true → good k := by
    intro k hk
    obtain ⟨m, a, b, hm, hab⟩ := (I.node k).1 hk
    obtain ⟨_, _, _, he, -, -, ga, gb⟩ := I.only _ hm
    cases he
    rcases hab with rfl | rfl
    · exact ga
    · exact gb
  have hpoint : ∀ k, r.2.2.nodes k = true → k ∈ pointNumbers pts := by
    intro k hk
    obtain ⟨b, hbm, p, hp, rfl⟩ := hends k hk
    exact mem_pointNumbers.2 ⟨_, (mpts _).2 ⟨p, hcorner b hbm p hp, hk, rfl⟩⟩
  -- the corners of the faces
  have hnode : ∀ b ∈ drawn n, ∀ q ∈ squareN b.1 b.2, r.2.2.nodes (getPoint N q) = true := by
    intro b hbm q hq
    obtain ⟨i, hi, rfl⟩ := List.getElem_of_mem hbm
    have h2 := (List.forall₂_iff_get.1 hb).2 i (by simpa using hi) (by simpa using hi)
    obtain ⟨ls, -, -, h3⟩ := h2
    rw [List.get_eq_getElem, List.getElem_map] at h3
    obtain ⟨e, he, he'⟩ : ∃ e ∈ sides (squareN (drawn n)[i].1 (drawn n)[i].2), e.1 = q := by
      have := sides_map_fst (squareN (drawn n)[i].1 (drawn n)[i].2)
      rw [← this] at hq
      exact List.mem_map.1 hq
    obtain ⟨j, hj, rfl⟩ := List.getElem_of_mem he
    have h4 := (List.forall₂_iff_get.1 h3).2 j (by rw [h3.length_eq]; exact hj) hj
    rw [← he', I.node]
    rcases h4 with ⟨k, -, hk⟩ | ⟨k, -, hk⟩
    · exact ⟨k, _, _, hk, .inl rfl⟩
    · exact ⟨k, _, _, hk, .inr rfl⟩
  set faces : List (List ℕ) := (drawn n).map fun b => (squareN b.1 b.2).map (getPoint N) with hfaces
  refine ⟨g, (drawn n).map fun b => (toZ b.1, b.2), (drawn n).map fun b => square (toZ b.1) b.2, faces, hrun,
    ⟨?_, ?_, ?_, ?_, ?_⟩, ?_, ?_, ?_, ?_, ?_, ?_, ?_, ?_, ?_, ?_⟩
  · rw [pn]
    have : pointNumbers pts = ((cubeRange (N + 1)).filter fun p => r.2.2.nodes (getPoint N p)).map (getPoint N) := by
      rw [hpts]
      unfold pointNumbers
      rw [List.filterMap_filterMap, ← List.filterMap_eq_map', ← List.filterMap_eq_filter, List.filterMap_filterMap]
      refine congrArg (fun f => List.filterMap f _) (funext fun p => ?_)
      cases hnp : r.2.2.nodes (getPoint N p) <;> simp [hnp, Option.guard]
    rw [this]
    refine List.Nodup.map_on ?_ ((nodup_cubeRange _).filter _)
    intro p hp q hq he
    have h1 := (mem_cubeRange _ _).1 (List.mem_of_mem_filter hp)
    have h2 := (mem_cubeRange _ _).1 (List.mem_of_mem_filter hq)
    exact getPoint_inj (by omega) (by omega) he
  · rw [ln, I.nums]; exact List.nodup_range'
  · rw [lpn, nl]; exact List.nodup_range'
  · rw [sfn, nsf]; exact List.nodup_range'
  · intro k hk
    rw [ln, I.nums, List.mem_range'_1] at hk
    omega
  · rw [hg, inOrder_append, inOrder_append, inOrder_append]
    refine ⟨⟨⟨?_, ?_⟩, ?_⟩, ?_⟩
    · refine inOrder_of_refers fun s hs => ?_
      obtain ⟨_, _, _, rfl⟩ := (mpts _).1 hs
      trivial
    · refine inOrder_of_refers fun s hs => ?_
      obtain ⟨k, a, b, rfl, -, hne, -⟩ := I.only _ hs
      refine ⟨?_, ?_, hne⟩
      · exact hpoint _ ((I.node a).2 ⟨k, a, b, hs, .inl rfl⟩)
      · exact hpoint _ ((I.node b).2 ⟨k, a, b, hs, .inr rfl⟩)
    · refine inOrder_of_refers fun s hs => ?_
      obtain ⟨k, ls, rfl, hls⟩ := ol _ hs
      intro l hl
      rw [List.nil_append, lineNumbers_append]
      exact List.mem_append_right _ (hls l hl)
    · refine inOrder_of_refers fun s hs => ?_
      obtain ⟨k, rfl, hk⟩ := os _ hs
      show k ∈ loopNumbers _
      rw [List.nil_append, loopNumbers_append]
      exact List.mem_append_right _ hk
  · refine (nodup_drawn n).map ?_
    rintro ⟨p, f⟩ ⟨q, f'⟩ he
    simp only [Prod.mk.injEq] at he
    rw [toZ_inj he.1, he.2]
  · intro c f
    rw [List.mem_map]
    constructor
    · rintro ⟨⟨p, f'⟩, hp, he⟩
      cases he
      exact (mem_drawn n p f').1 hp
    · intro hs
      obtain ⟨x, y, z⟩ := c
      have hbd := sponge_bounds n _ _ _ hs.1
      refine ⟨((x.toNat, y.toNat, z.toNat), f), (mem_drawn n _ f).2 ?_, ?_⟩
      · have : toZ (x.toNat, y.toNat, z.toNat) = (x, y, z) := by
          unfold toZ
          simp only [Prod.mk.injEq]
          omega
        rw [this]
        exact hs
      · simp only [toZ, Prod.mk.injEq, and_true]
        omega
  · refine List.forall₂_map_left_iff.2 (List.forall₂_map_right_iff.2 ?_)
    rw [List.forall₂_same]
    intro b _
    exact ⟨square_isSide _ _, square_pointsInto hNpos _ _⟩
  · unfold Draws
    rw [sfn, nsf, hfaces]
    rw [List.forall₂_map_right_iff] at hb ⊢
    refine hb.imp ?_
    rintro k b ⟨ls, h1, h2, h3⟩
    refine ⟨k, ls, ?_, ?_, ?_⟩
    · rw [hg]; exact List.mem_append_right _ h1
    · rw [hg]; exact List.mem_append_left _ (List.mem_append_right _ h2)
    · unfold Around
      show List.Forall₂ _ ls (sides _)
      rw [sides_map, List.forall₂_map_right_iff]
      refine h3.imp fun l e (hj : Joins r.2.2.lines l (getPoint N e.1) (getPoint N e.2)) => ?_
      refine hj.mono fun s hs => ?_
      rw [hg]
      exact List.mem_append_left _ (List.mem_append_left _ (List.mem_append_right _ hs))
  · unfold Places
    rw [hfaces, List.map_map, List.forall₂_map_left_iff, List.forall₂_map_right_iff, List.forall₂_same]
    intro b hbm
    unfold At
    simp only [Function.comp_apply]
    rw [← squareN_toZ, List.map_map, List.forall₂_map_left_iff, List.forall₂_map_right_iff, List.forall₂_same]
    intro q hq
    rw [pointIn, mpts]
    refine ⟨q, hcorner b hbm q hq, hnode b hbm q hq, ?_⟩
    congr 1
    unfold mengerCoords scaled toZ
    simp
  · have hcl := closed_squares n ((drawn n).map fun b => (toZ b.1, b.2)) ?_ ?_
    · have hz : (((drawn n).map fun b => squareN b.1 b.2).flatMap sides).map (fun e => (toZ e.1, toZ e.2)) =
          (((drawn n).map fun b => (toZ b.1, b.2)).map fun b => square b.1 b.2).flatMap sides := by
        rw [List.map_flatMap, List.flatMap_map, List.map_map, List.flatMap_map]
        refine List.flatMap_congr fun b _ => ?_
        simp only [Function.comp_apply]
        rw [← squareN_toZ, sides_map]
      have hf : faces.flatMap sides =
          (((drawn n).map fun b => squareN b.1 b.2).flatMap sides).map
            (fun e => (getPoint N e.1, getPoint N e.2)) := by
        rw [hfaces, List.map_flatMap, List.flatMap_map, List.flatMap_map]
        refine List.flatMap_congr fun b _ => ?_
        rw [sides_map]
      have hin : ∀ e ∈ ((drawn n).map fun b => squareN b.1 b.2).flatMap sides,
          (e.1.1 ≤ N ∧ e.1.2.1 ≤ N ∧ e.1.2.2 ≤ N) ∧ (e.2.1 ≤ N ∧ e.2.2.1 ≤ N ∧ e.2.2.2 ≤ N) := by
        intro e he
        rw [List.flatMap_map, List.mem_flatMap] at he
        obtain ⟨b, hbm, he⟩ := he
        have := mem_sides he
        exact ⟨hcorner b hbm _ this.1, hcorner b hbm _ this.2⟩
      have h1 := hcl.once
      have h2 := hcl.back
      rw [← hz] at h1 h2
      constructor
      · rw [hf]
        refine List.Nodup.map_on ?_ (List.Nodup.of_map _ h1)
        intro e he e' he' hee
        simp only [Prod.mk.injEq] at hee
        have k1 := hin e he
        have k2 := hin e' he'
        exact Prod.ext (getPoint_inj k1.1 k2.1 hee.1) (getPoint_inj k1.2 k2.2 hee.2)
      · rw [hf]
        intro e he
        obtain ⟨e0, he0, rfl⟩ := List.mem_map.1 he
        have := h2 _ (List.mem_map_of_mem he0)
        obtain ⟨e1, he1, hee⟩ := List.mem_map.1 this
        simp only [Prod.swap, Prod.mk.injEq] at hee
        refine List.mem_map.2 ⟨e1, he1, ?_⟩
        rw [toZ_inj hee.1, toZ_inj hee.2]
        rfl
    · refine (nodup_drawn n).map ?_
      rintro ⟨p, f⟩ ⟨q, f'⟩ he
      simp only [Prod.mk.injEq] at he
      rw [toZ_inj he.1, he.2]
    · rintro ⟨⟨x, y, z⟩, f⟩
      rw [List.mem_map]
      constructor
      · rintro ⟨⟨p, f'⟩, hp, he⟩
        rw [← he]
        exact (mem_drawn n p f').1 hp
      · intro hs
        have hbd := sponge_bounds n _ _ _ hs.1
        have : toZ (x.toNat, y.toNat, z.toNat) = (x, y, z) := by
          unfold toZ
          simp only [Prod.mk.injEq]
          omega
        refine ⟨((x.toNat, y.toNat, z.toNat), f), (mem_drawn n _ f).2 ?_, ?_⟩
        · rw [this]
          exact hs
        · simp only [this]
  · intro k l p hk hl
    rw [pointIn, mpts] at hk hl
    obtain ⟨q, hq, -, hq'⟩ := hk
    obtain ⟨q', hq2, -, hq2'⟩ := hl
    simp only [Stmt.point.injEq] at hq' hq2'
    obtain ⟨rfl, rfl⟩ := hq'
    obtain ⟨rfl, he⟩ := hq2'
    have hN0 : (N : ℝ) ≠ 0 := by positivity
    have e : ∀ i, mengerCoords N q i = mengerCoords N q' i := fun i => congrFun he i
    have e0 := e 0
    have e1 := e 1
    have e2 := e 2
    unfold mengerCoords at e0 e1 e2
    simp only [Matrix.cons_val_zero, Matrix.cons_val_one, Matrix.cons_val, mul_one] at e0 e1 e2
    rw [div_left_inj' hN0, Nat.cast_inj] at e0 e1 e2
    have : q = q' := Prod.ext e0 (Prod.ext e1 e2)
    rw [this]
  · intro k m a b hk hm
    rw [lineIn] at hk
    rw [lineIn, lineIn] at hm
    have h1 := (I.kept _ _ _ hk).1
    rcases hm with hm | hm
    · have h2 := (I.kept _ _ _ hm).1
      rw [h1] at h2
      simpa using h2
    · have h2 := (I.kept _ _ _ hm).2
      rw [h1] at h2
      obtain ⟨_, _, _, he, hpos, -⟩ := I.only _ hk
      cases he
      simp only [Option.some.injEq] at h2
      omega
  · intro k hk
    rw [pn] at hk
    obtain ⟨p, hp⟩ := mem_pointNumbers.1 hk
    obtain ⟨q, hq, hqn, he⟩ := (mpts _).1 hp
    simp only [Stmt.point.injEq] at he
    obtain ⟨rfl, rfl⟩ := he
    obtain ⟨b, hbm, q', hq', hqe⟩ := hends _ hqn
    refine ⟨_, List.mem_map_of_mem hbm, List.mem_map.2 ⟨q', hq', hqe.symm⟩⟩

/-- The sponge of level `n` has `20^n` cells, all within the cube of `3^n` cells a side. -/
theorem C102_cells (n : ℕ) : (∃ cells : List Z3, cells.Nodup ∧ (∀ c, c ∈ cells ↔ Sponge n c) ∧
      cells.length = 20 ^ n) ∧
    ∀ x y z, Sponge n (x, y, z) → (0 ≤ x ∧ x < 3 ^ n) ∧ (0 ≤ y ∧ y < 3 ^ n) ∧ (0 ≤ z ∧ z < 3 ^ n) := by
  refine ⟨?_, sponge_bounds n⟩
  induction n with
  | zero => exact ⟨[(0, 0, 0)], List.nodup_singleton _, fun c => List.mem_singleton, rfl⟩
  | succ n ih =>
    obtain ⟨cells, hn, hm, hl⟩ := ih
    set ds : List Z3 := [(0, 0, 0), (0, 0, 1), (0, 0, 2), (0, 1, 0), (0, 1, 2), (0, 2, 0), (0, 2, 1), (0, 2, 2),
      (1, 0, 0), (1, 0, 2), (1, 2, 0), (1, 2, 2), (2, 0, 0), (2, 0, 1), (2, 0, 2), (2, 1, 0), (2, 1, 2),
      (2, 2, 0), (2, 2, 1), (2, 2, 2)] with hds
    have hd : ∀ x y z : ℤ, (x, y, z) ∈ ds ↔ ((0 ≤ x ∧ x < 3) ∧ (0 ≤ y ∧ y < 3) ∧ (0 ≤ z ∧ z < 3)) ∧
        ¬(x = 1 ∧ y = 1) ∧ ¬(x = 1 ∧ z = 1) ∧ ¬(y = 1 ∧ z = 1) := by
      intro x y z
      rw [hds]
      simp only [List.mem_cons, Prod.mk.injEq, List.not_mem_nil, or_false]
      constructor
      · rintro (h | h | h | h | h | h | h | h | h | h | h | h | h | h | h | h | h | h | h | h) <;> omega
      · rintro ⟨⟨⟨h1, h2⟩, ⟨h3, h4⟩, h5, h6⟩, h7, h8, h9⟩
        interval_cases x <;> interval_cases y <;> interval_cases z <;> simp_all
    refine ⟨cells.flatMap fun c => ds.map fun d => (3 * c.1 + d.1, 3 * c.2.1 + d.2.1, 3 * c.2.2 + d.2.2), ?_, ?_, ?_⟩
    · rw [List.nodup_flatMap]
      refine ⟨fun c _ => ?_, hn.imp ?_⟩
      · refine List.Nodup.map ?_ (by decide)
        rintro ⟨a, b, c⟩ ⟨a', b', c'⟩ he
        simp only [Prod.mk.injEq] at he ⊢
        omega
      · rintro ⟨a, b, c⟩ ⟨a', b', c'⟩ hne p hp hq
        obtain ⟨⟨d1, d2, d3⟩, h1, rfl⟩ := List.mem_map.1 hp
        obtain ⟨⟨e1, e2, e3⟩, h2, h3⟩ := List.mem_map.1 hq
        have := (hd _ _ _).1 h1
        have := (hd _ _ _).1 h2
        simp only [Prod.mk.injEq] at h3
        apply hne
        simp only [Prod.mk.injEq]
        omega
    · rintro ⟨x, y, z⟩
      rw [sponge_succ, ← hm, List.mem_flatMap]
      constructor
      · rintro ⟨⟨a, b, c⟩, h1, h2⟩
        obtain ⟨⟨d1, d2, d3⟩, h3, h4⟩ := List.mem_map.1 h2
        have h5 := (hd _ _ _).1 h3
        simp only [Prod.mk.injEq] at h4
        obtain ⟨rfl, rfl, rfl⟩ := h4
        have e : ∀ a d : ℤ, (0 ≤ d ∧ d < 3) → (3 * a + d) / 3 = a ∧ (3 * a + d) % 3 = d := by
          intro a d h; omega
        rw [(e _ _ h5.1.1).1, (e _ _ h5.1.2.1).1, (e _ _ h5.1.2.2).1, (e _ _ h5.1.1).2, (e _ _ h5.1.2.1).2,
          (e _ _ h5.1.2.2).2]
        exact ⟨h1, h5.2⟩
      · rintro ⟨h1, h2⟩
        refine ⟨_, h1, List.mem_map.2 ⟨(x % 3, y % 3, z % 3), (hd _ _ _).2 ⟨by omega, h2⟩, ?_⟩⟩
        simp only [Prod.mk.injEq]
        omega
    · rw [List.length_flatMap]
      simp only [List.length_map]
      rw [List.map_const', List.sum_replicate, smul_eq_mul, hl, hds, pow_succ]
      rfl

/-- No surface of the geometry, at any level, has its normal pointing out of the sponge: the centre of
the cell it bounds is never behind it. -/
theorem C102_counterexample_orientation (h : ℝ) (level : ℤ) (hl : 0 ≤ level) :
    ∃ g faces polygons cells, mengerSponge h level = .ok ⟨h, g⟩ ∧ Draws g faces ∧ Places g faces polygons ∧
      polygons ≠ [] ∧
      List.Forall₂ (fun (p : List V3) c => Sponge level.toNat c ∧ ∃ a b d e, p = [a, b, d, e] ∧
        ¬Behind a b d (centre (3 ^ level.toNat) c)) polygons cells := by
  obtain ⟨g, bs, qs, faces, h1, -, -, -, hm, h2, h3, h4, -⟩ := (C102_menger_partial h level).2 hl
  refine ⟨g, faces, _, bs.map Prod.fst, h1, h3, h4, ?_, ?_⟩
  · have h0 : ∀ n, ∃ x : ℤ, Sponge n (x, 0, 0) ∧ ¬Sponge n (x + -1, 0, 0) := by
      intro n
      refine ⟨0, ?_, fun h => ?_⟩
      · induction n with
        | zero => rfl
        | succ n ih => rw [sponge_succ]; exact ⟨ih, by norm_num⟩
      · have := (sponge_bounds n _ _ _ h).1.1
        omega
    obtain ⟨x, hx1, hx2⟩ := h0 level.toNat
    have hmem : ((x, 0, 0), (0 : Fin 6)) ∈ bs := (hm _ _).2 ⟨hx1, hx2⟩
    intro he
    have hlen := h2.length_eq
    rw [List.map_eq_nil_iff] at he
    rw [he, List.length_nil, List.length_eq_zero_iff] at hlen
    rw [hlen] at hmem
    exact absurd hmem List.not_mem_nil
  · rw [List.forall₂_map_left_iff, List.forall₂_map_right_iff]
    have hall : ∀ b ∈ bs, Sponge level.toNat b.1 := fun b hb => ((hm b.1 b.2).1 hb).1
    clear hm h4
    induction h2 with
    | nil => exact .nil
    | @cons b q bs qs hbq _ ih =>
      refine .cons ⟨hall b (List.mem_cons_self ..), ?_⟩ (ih fun b hb => hall b (List.mem_cons_of_mem _ hb))
      obtain ⟨⟨hlen, -⟩, hp⟩ := hbq
      obtain ⟨a, b', d, e, rfl⟩ : ∃ a b d e, q = [a, b, d, e] := by
        match q, hlen with
        | [a, b, d, e], _ => exact ⟨a, b, d, e, rfl⟩
      refine ⟨_, _, _, _, rfl, ?_⟩
      unfold Behind
      exact not_lt.2 (hp a b' d [e] rfl).le

/-- A concrete cell on the surface of level 1: the middle of an edge of the cube, next to a tunnel. -/
example : Sponge 1 (0, 0, 1) ∧ ¬Sponge 1 ((0, 0, 1) + dir 1 + dir 3) := by
  constructor
  · rw [sponge_succ, sponge_zero]; norm_num
  · show ¬Sponge 1 (1, 1, 1)
    rw [sponge_succ]; norm_num

end Verif.Shapes
