import Verif.Model.DataContainer
import Mathlib.Data.List.Nodup
import Mathlib.Tactic.Ring
/-
Lemmas about the data container.
-/
namespace Verif.Grid

/-- The stored form of an edge: larger node first. -/
def ord (p : Nat × Nat) : Nat × Nat := if p.2 > p.1 then (p.2, p.1) else p

theorem prefix_get {α : Type} {l1 l2 : List α} (h : l1 <+: l2) {i : Nat} (hi : i < l1.length) :
    l2[i]? = l1[i]? := by
  obtain ⟨t, rfl⟩ := h
  exact List.getElem?_append_left hi

structure EdgeInv (n : Nat) (st : EdgeState) : Prop where
  len : st.pairs.length = n
  pairs : ∀ (k : Nat) (l : List (Nat × Nat)), st.pairs[k]? = some l → ∀ (m i : Nat), (m, i) ∈ l ↔ st.edges[i]? = some (k, m)
  nodup : st.edges.Nodup
  ordered : ∀ p ∈ st.edges, p.2 ≤ p.1 ∧ p.1 < n

theorem edgeInv_init (n : Nat) : EdgeInv n ⟨[], List.replicate n []⟩ := by
  refine ⟨by simp, ?_, by simp, by simp⟩
  intro k l h m i
  rw [List.getElem?_replicate] at h
  split at h
  · cases h; simp
  · cases h

theorem edgeStep_spec (n : Nat) (st : EdgeState) (hi : EdgeInv n st) (p : Nat × Nat)
    (h1 : p.1 < n) (h2 : p.2 < n) :
    ∃ st' i, edgeStep st p = some (st', i) ∧ EdgeInv n st' ∧ st.edges <+: st'.edges ∧
      st'.edges[i]? = some (ord p) ∧ ∀ q ∈ st'.edges, q ∈ st.edges ∨ q = ord p := by
  have hq1 : (ord p).1 < n := by unfold ord; split <;> simpa
  have hq2 : (ord p).2 ≤ (ord p).1 := by unfold ord; split <;> (try simp only) <;> omega
  unfold edgeStep
  change ∃ st' i, ((st.pairs[(ord p).1]?).map fun l =>
    match l.find? (fun r => (ord p).2 == r.1) with
    | some r => (st, r.2)
    | none => ((⟨st.edges ++ [ord p], st.pairs.set (ord p).1 (l ++ [((ord p).2, st.edges.length)])⟩ :
        EdgeState), st.edges.length)) = some (st', i) ∧ _
  generalize ord p = q at *
  have hl : q.1 < st.pairs.length := by rw [hi.len]; exact hq1
  rw [List.getElem?_eq_getElem hl, Option.map_some]
  have hpl := hi.pairs q.1 _ (List.getElem?_eq_getElem hl)
  generalize st.pairs[q.1] = l at hpl
  cases hf : l.find? (fun r => q.2 == r.1) with
  | some r =>
    have hr1 : q.2 = r.1 := by simpa using List.find?_some hf
    have hr2 : r ∈ l := List.mem_of_find?_eq_some hf
    refine ⟨st, r.2, rfl, hi, List.prefix_rfl, ?_, fun q hq => Or.inl hq⟩
    have := (hpl r.1 r.2).mp hr2
    rw [this, ← hr1]
  | none =>
    have hnot : ∀ i, (q.2, i) ∉ l := by
      intro i hm
      have := List.find?_eq_none.mp hf _ hm
      simp at this
    have hqn : q ∉ st.edges := by
      intro hm
      obtain ⟨i, hi', hieq⟩ := List.getElem_of_mem hm
      exact hnot i ((hpl q.2 i).mpr (by rw [List.getElem?_eq_getElem hi', hieq]))
    refine ⟨_, _, rfl, ⟨?_, ?_, ?_, ?_⟩, List.prefix_append _ _, by simp, ?_⟩
    · simp [hi.len]
    · intro k l' hk m i
      simp only at hk ⊢
      rw [List.getElem?_append]
      by_cases hkq : q.1 = k
      · subst hkq
        rw [List.getElem?_set_self hl] at hk
        cases hk
        rw [List.mem_append, hpl]
        simp only [List.mem_singleton, Prod.mk.injEq]
        split
        · rename_i hlt
          constructor
          · rintro (h | ⟨_, h⟩)
            · exact h
            · omega
          · intro h; exact Or.inl h
        · rename_i hge
          rw [List.getElem?_eq_none (by omega)]
          constructor
          · rintro (h | ⟨rfl, rfl⟩)
            · cases h
            · simp
          · intro h
            right
            rcases Nat.lt_or_ge (i - st.edges.length) 1 with hz | hz
            · have hz' : i - st.edges.length = 0 := by omega
              rw [hz'] at h
              simp at h
              have : q.2 = m := by rw [h]
              exact ⟨this.symm, by omega⟩
            · rw [List.getElem?_eq_none (by simpa using hz)] at h
              cases h
      · rw [List.getElem?_set_ne hkq] at hk
        rw [hi.pairs k l' hk m i]
        split
        · rfl
        · rename_i hge
          rw [List.getElem?_eq_none (by omega)]
          constructor
          · intro h; cases h
          · intro h
            rcases Nat.lt_or_ge (i - st.edges.length) 1 with hz | hz
            · have hz' : i - st.edges.length = 0 := by omega
              rw [hz'] at h
              simp at h
              exact absurd (by rw [h]) hkq
            · rw [List.getElem?_eq_none (by simpa using hz)] at h
              cases h
    · rw [List.nodup_append]
      refine ⟨hi.nodup, by simp, ?_⟩
      intro x hx y hy
      simp at hy
      subst hy
      exact fun h => hqn (h ▸ hx)
    · intro r hr
      rcases List.mem_append.mp hr with h | h
      · exact hi.ordered r h
      · simp at h; subst h; exact ⟨hq2, hq1⟩
    · intro r hr
      rcases List.mem_append.mp hr with h | h
      · exact Or.inl h
      · simp at h; exact Or.inr h

theorem edgeStep_some (st st' : EdgeState) (p : Nat × Nat) (i : Nat)
    (h : edgeStep st p = some (st', i)) :
    p.1 < st.pairs.length ∧ p.2 < st.pairs.length ∧ st'.pairs.length = st.pairs.length := by
  unfold edgeStep at h
  simp only [Option.map_eq_some_iff] at h
  obtain ⟨l, hl, h⟩ := h
  have hlt := (List.getElem?_eq_some_iff.mp hl).1
  refine ⟨?_, ?_, ?_⟩
  · split at hlt <;> (try simp only at hlt) <;> omega
  · split at hlt <;> (try simp only at hlt) <;> omega
  · split at h
    · cases h; rfl
    · cases h; simp

theorem edgeSteps_spec (n : Nat) (ps : List (Nat × Nat)) : ∀ (st : EdgeState), EdgeInv n st →
    (∀ p ∈ ps, p.1 < n ∧ p.2 < n) →
    ∃ st' is, edgeSteps st ps = some (st', is) ∧ EdgeInv n st' ∧ st.edges <+: st'.edges ∧
      is.map (fun i => st'.edges[i]?) = ps.map (fun p => some (ord p)) ∧
      ∀ q ∈ st'.edges, q ∈ st.edges ∨ q ∈ ps.map ord := by
  induction ps with
  | nil =>
    intro st hi _
    exact ⟨st, [], rfl, hi, List.prefix_rfl, rfl, fun q hq => Or.inl hq⟩
  | cons p ps ih =>
    intro st hi hv
    obtain ⟨st1, i, e1, hi1, hp1, hg1, hm1⟩ := edgeStep_spec n st hi p (hv p List.mem_cons_self).1
      (hv p List.mem_cons_self).2
    obtain ⟨st2, is, e2, hi2, hp2, hg2, hm2⟩ := ih st1 hi1 (fun q hq => hv q (List.mem_cons_of_mem _ hq))
    refine ⟨st2, i :: is, ?_, hi2, hp1.trans hp2, ?_, ?_⟩
    · simp only [edgeSteps, e1, Option.bind_eq_bind, Option.bind_some, e2]; rfl
    · rw [List.map_cons, List.map_cons, hg2]
      congr 1
      have hlt := (List.getElem?_eq_some_iff.mp hg1).1
      rw [prefix_get hp2 hlt]
      exact hg1
    · intro q hq
      rcases hm2 q hq with h | h
      · rcases hm1 q h with h | h
        · exact Or.inl h
        · right; rw [h]; exact List.mem_cons_self
      · right; exact List.mem_cons_of_mem _ h

theorem edgeSteps_some (ps : List (Nat × Nat)) : ∀ (st st' : EdgeState) (is : List Nat),
    edgeSteps st ps = some (st', is) →
    (∀ p ∈ ps, p.1 < st.pairs.length ∧ p.2 < st.pairs.length) ∧
      st'.pairs.length = st.pairs.length := by
  induction ps with
  | nil => intro st st' is h; cases h; simp
  | cons p ps ih =>
    intro st st' is h
    simp only [edgeSteps, Option.bind_eq_bind, Option.bind_eq_some_iff] at h
    obtain ⟨⟨st1, i⟩, e1, ⟨⟨st2, is2⟩, e2, e3⟩⟩ := h
    cases e3
    obtain ⟨h1, h2, h3⟩ := edgeStep_some _ _ _ _ e1
    obtain ⟨h4, h5⟩ := ih _ _ _ e2
    rw [h3] at h4 h5
    refine ⟨?_, h5⟩
    intro q hq
    rcases List.mem_cons.mp hq with rfl | hq
    · exact ⟨h1, h2⟩
    · exact h4 q hq

theorem elementSteps_spec (n : Nat) (ts : List Tri) : ∀ (st : EdgeState), EdgeInv n st →
    (∀ t ∈ ts, ∀ v ∈ t.verts, v < n) →
    ∃ st' iss, elementSteps st ts = some (st', iss) ∧ EdgeInv n st' ∧ st.edges <+: st'.edges ∧
      iss.map (fun is => is.map fun i => st'.edges[i]?) =
        ts.map (fun t => t.edgeNodes.map fun p => some (ord p)) ∧
      ∀ q ∈ st'.edges, q ∈ st.edges ∨ ∃ t ∈ ts, q ∈ t.edgeNodes.map ord := by
  induction ts with
  | nil =>
    intro st hi _
    exact ⟨st, [], rfl, hi, List.prefix_rfl, rfl, fun q hq => Or.inl hq⟩
  | cons t ts ih =>
    intro st hi hv
    obtain ⟨st1, is, e1, hi1, hp1, hg1, hm1⟩ := edgeSteps_spec n t.edgeNodes st hi (by
      have hv' := hv t List.mem_cons_self
      simp only [Tri.verts, List.mem_cons, List.not_mem_nil, or_false, forall_eq_or_imp, forall_eq] at hv'
      simp only [Tri.edgeNodes, List.mem_cons, List.not_mem_nil, or_false, forall_eq_or_imp, forall_eq]
      omega)
    obtain ⟨st2, iss, e2, hi2, hp2, hg2, hm2⟩ := ih st1 hi1
      (fun q hq => hv q (List.mem_cons_of_mem _ hq))
    refine ⟨st2, is :: iss, ?_, hi2, hp1.trans hp2, ?_, ?_⟩
    · simp only [elementSteps, e1, Option.bind_eq_bind, Option.bind_some, e2]; rfl
    · rw [List.map_cons, List.map_cons, hg2]
      congr 1
      rw [← hg1]
      apply List.map_congr_left
      intro i hi'
      have : st1.edges[i]? ∈ t.edgeNodes.map (fun p => some (ord p)) := by
        rw [← hg1]; exact List.mem_map.mpr ⟨i, hi', rfl⟩
      obtain ⟨p, _, hp⟩ := List.mem_map.mp this
      have hlt := (List.getElem?_eq_some_iff.mp hp.symm).1
      rw [prefix_get hp2 hlt]
    · intro q hq
      rcases hm2 q hq with h | ⟨t', ht', h⟩
      · rcases hm1 q h with h | h
        · exact Or.inl h
        · exact Or.inr ⟨t, List.mem_cons_self, h⟩
      · exact Or.inr ⟨t', List.mem_cons_of_mem _ ht', h⟩

theorem elementSteps_some (ts : List Tri) : ∀ (st st' : EdgeState) (iss : List (List Nat)),
    elementSteps st ts = some (st', iss) → ∀ t ∈ ts, ∀ v ∈ t.verts, v < st.pairs.length := by
  induction ts with
  | nil => intro st st' is h; simp
  | cons t ts ih =>
    intro st st' is h
    simp only [elementSteps, Option.bind_eq_bind, Option.bind_eq_some_iff] at h
    obtain ⟨⟨st1, i⟩, e1, ⟨⟨st2, is2⟩, e2, e3⟩⟩ := h
    obtain ⟨h4, h5⟩ := edgeSteps_some _ _ _ _ e1
    have h6 := ih _ _ _ e2
    simp only at h5 h6
    rw [h5] at h6
    intro q hq
    rcases List.mem_cons.mp hq with rfl | hq
    · simp only [Tri.edgeNodes, List.mem_cons, List.not_mem_nil, or_false, forall_eq_or_imp,
        forall_eq] at h4
      simp only [Tri.verts, List.mem_cons, List.not_mem_nil, or_false, forall_eq_or_imp, forall_eq]
      omega
    · exact h6 q hq

/-! ### The inverse tables -/

/-- What the rows contribute to entry `k` of the table. -/
def contrib (k : Nat) : Nat → List (List Nat) → List Nat
  | _, [] => []
  | i, ks :: kss => List.replicate (ks.count k) i ++ contrib k (i + 1) kss

theorem pushKeys_spec (i : Nat) (ks : List Nat) : ∀ (table : List (List Nat)),
    (∀ k ∈ ks, k < table.length) →
    ∃ table', pushKeys i table ks = some table' ∧ table'.length = table.length ∧
      ∀ k l, table[k]? = some l → table'[k]? = some (l ++ List.replicate (ks.count k) i) := by
  induction ks with
  | nil => intro table _; exact ⟨table, rfl, rfl, by intro k l h; simp [h]⟩
  | cons a ks ih =>
    intro table hk
    have ha := hk a List.mem_cons_self
    obtain ⟨t2, e2, l2, g2⟩ := ih (table.set a (table[a] ++ [i])) (by
      intro k hk'; simp; exact hk k (List.mem_cons_of_mem _ hk'))
    refine ⟨t2, ?_, by simpa using l2, ?_⟩
    · simp only [pushKeys, pushAt, List.getElem?_eq_getElem ha, Option.map_some]
      exact e2
    · intro k l hl
      rw [List.count_cons]
      by_cases hka : a = k
      · subst hka
        rw [List.getElem?_eq_getElem ha] at hl
        cases hl
        rw [g2 a _ (List.getElem?_set_self ha)]
        simp [List.replicate_succ]
      · rw [g2 k l (by rw [List.getElem?_set_ne hka]; exact hl)]
        simp [hka]

theorem pushRows_spec (kss : List (List Nat)) : ∀ (i : Nat) (table : List (List Nat)),
    (∀ ks ∈ kss, ∀ k ∈ ks, k < table.length) →
    ∃ table', pushRows i table kss = some table' ∧ table'.length = table.length ∧
      ∀ k l, table[k]? = some l → table'[k]? = some (l ++ contrib k i kss) := by
  induction kss with
  | nil => intro i table _; exact ⟨table, rfl, rfl, by intro k l h; simp [h, contrib]⟩
  | cons ks kss ih =>
    intro i table hk
    obtain ⟨t1, e1, l1, g1⟩ := pushKeys_spec i ks table (hk ks List.mem_cons_self)
    obtain ⟨t2, e2, l2, g2⟩ := ih (i + 1) t1 (by
      intro k hk'; rw [l1]; exact hk k (List.mem_cons_of_mem _ hk'))
    refine ⟨t2, ?_, by omega, ?_⟩
    · simp only [pushRows, e1, Option.bind_eq_bind, Option.bind_some]
      exact e2
    · intro k l hl
      rw [g2 k _ (g1 k l hl), contrib, List.append_assoc]

theorem mem_contrib (k : Nat) (kss : List (List Nat)) : ∀ (i j : Nat),
    j ∈ contrib k i kss ↔ i ≤ j ∧ ∃ ks, kss[j - i]? = some ks ∧ k ∈ ks := by
  induction kss with
  | nil => intro i j; simp [contrib]
  | cons ks kss ih =>
    intro i j
    rw [contrib, List.mem_append, List.mem_replicate, ih]
    rw [ne_eq, List.count_eq_zero, not_not]
    constructor
    · rintro (⟨h1, rfl⟩ | ⟨h1, ks', h2, h3⟩)
      · exact ⟨le_refl _, ks, by simp, h1⟩
      · refine ⟨by omega, ks', ?_, h3⟩
        have : j - i = (j - (i + 1)) + 1 := by omega
        rw [this, List.getElem?_cons_succ]; exact h2
    · rintro ⟨h1, ks', h2, h3⟩
      rcases Nat.eq_or_lt_of_le h1 with h | h
      · subst h
        simp at h2
        subst h2
        exact Or.inl ⟨h3, rfl⟩
      · right
        refine ⟨h, ks', ?_, h3⟩
        have : j - i = (j - (i + 1)) + 1 := by omega
        rw [this, List.getElem?_cons_succ] at h2; exact h2

theorem contrib_sorted (k : Nat) (kss : List (List Nat)) : ∀ (i : Nat), (∀ ks ∈ kss, ks.Nodup) →
    (contrib k i kss).Pairwise (· < ·) := by
  induction kss with
  | nil => intro i _; simp [contrib]
  | cons ks kss ih =>
    intro i h
    rw [contrib, List.pairwise_append]
    refine ⟨?_, ih _ (fun ks hks => h ks (List.mem_cons_of_mem _ hks)), ?_⟩
    · have hc : ks.count k ≤ 1 := List.nodup_iff_count_le_one.mp (h ks List.mem_cons_self) k
      obtain hz | hz : ks.count k = 0 ∨ ks.count k = 1 := by omega
      · rw [hz]; simp
      · rw [hz]; simp
    · intro a ha b hb
      have h1 := (List.mem_replicate.mp ha).2
      have h2 := ((mem_contrib k kss (i + 1) b).mp hb).1
      omega

/-! ### The whole container -/

theorem init_spec (n : Nat) (ts : List Tri) (c : Nat) (hv : ∀ t ∈ ts, ∀ v ∈ t.verts, v < n) :
    ∃ d, DataContainer.init n ts c = some d ∧ d.nnodes = n ∧ d.elements = ts ∧ d.edges.Nodup ∧
      (∀ p ∈ d.edges, p.2 ≤ p.1 ∧ p.1 < n ∧ ∃ t ∈ ts, p ∈ t.edgeNodes.map ord) ∧
      (d.element2Edges.map (fun is => is.map fun i => d.edges[i]?) =
        ts.map (fun t => t.edgeNodes.map fun p => some (ord p))) ∧
      d.edge2Elements.length = d.edges.length ∧
      d.node2Elements.length = n ∧ d.node2Edges.length = n ∧
      (∀ k, k < d.edges.length → d.edge2Elements[k]? = some (contrib k 0 d.element2Edges)) ∧
      (∀ k, k < n → d.node2Elements[k]? = some (contrib k 0 (ts.map Tri.verts))) ∧
      (∀ k, k < n → d.node2Edges[k]? = some (contrib k 0 (d.edges.map fun p => [p.1, p.2]))) ∧
      d.nodeIds = ids c n ∧ d.elementIds = ids (c + n) ts.length ∧
      d.edgeIds = ids (c + n + ts.length) d.edges.length := by
  obtain ⟨st, iss, e1, hi, -, hg, hm⟩ := elementSteps_spec n ts _ (edgeInv_init n) hv
  have hrange : ∀ is ∈ iss, ∀ i ∈ is, i < st.edges.length := by
    intro is his i hii
    have : is.map (fun i => st.edges[i]?) ∈ iss.map (fun is => is.map fun i => st.edges[i]?) :=
      List.mem_map.mpr ⟨is, his, rfl⟩
    rw [hg] at this
    obtain ⟨t, _, ht⟩ := List.mem_map.mp this
    have h2 : st.edges[i]? ∈ is.map (fun i => st.edges[i]?) := List.mem_map.mpr ⟨i, hii, rfl⟩
    rw [← ht] at h2
    obtain ⟨p, _, hp⟩ := List.mem_map.mp h2
    exact (List.getElem?_eq_some_iff.mp hp.symm).1
  obtain ⟨t1, f1, l1, g1⟩ := pushRows_spec iss 0 (List.replicate st.edges.length []) (by
    simpa using hrange)
  obtain ⟨t2, f2, l2, g2⟩ := pushRows_spec (ts.map Tri.verts) 0 (List.replicate n []) (by
    simpa using hv)
  obtain ⟨t3, f3, l3, g3⟩ := pushRows_spec (st.edges.map fun p => [p.1, p.2]) 0 (List.replicate n []) (by
    intro ks hks k hk
    obtain ⟨p, hp, rfl⟩ := List.mem_map.mp hks
    have := hi.ordered p hp
    simp only [List.mem_cons, List.not_mem_nil, or_false] at hk
    simp only [List.length_replicate]
    omega)
  refine ⟨⟨n, ts, st.edges, iss, t1, t2, t3, ids c n, ids (c + n) ts.length,
    ids (c + n + ts.length) st.edges.length⟩, ?_, rfl, rfl, hi.nodup, ?_, hg, ?_, ?_, ?_, ?_, ?_, ?_,
    rfl, rfl, rfl⟩
  · simp only [DataContainer.init, e1, Option.bind_eq_bind, Option.bind_some, f1, f2, f3]
    rfl
  · intro p hp
    refine ⟨(hi.ordered p hp).1, (hi.ordered p hp).2, ?_⟩
    rcases hm p hp with h | h
    · simp at h
    · exact h
  · simpa using l1
  · simpa using l2
  · simpa using l3
  · intro k hk
    have := g1 k [] (by rw [List.getElem?_replicate, if_pos hk])
    simpa using this
  · intro k hk
    have := g2 k [] (by rw [List.getElem?_replicate, if_pos hk])
    simpa using this
  · intro k hk
    have := g3 k [] (by rw [List.getElem?_replicate, if_pos hk])
    simpa using this

theorem init_valid (n : Nat) (ts : List Tri) (c : Nat) (d : DataContainer)
    (h : DataContainer.init n ts c = some d) : ∀ t ∈ ts, ∀ v ∈ t.verts, v < n := by
  simp only [DataContainer.init, Option.bind_eq_bind, Option.bind_eq_some_iff] at h
  obtain ⟨⟨st, iss⟩, e1, _⟩ := h
  simpa using elementSteps_some _ _ _ _ e1

end Verif.Grid
