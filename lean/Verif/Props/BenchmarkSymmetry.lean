import Verif.Props.BenchmarkGood
import Verif.Props.Rigid

/-! # Property C67, symmetry of the scenes -/

set_option linter.unusedSectionVars false

namespace OpenMps

open Ref

/-- A permutation of the lines of a file that is an involution of the sites. -/
noncomputable def sitePerm (sites : List Site) (m : Site → Site) (hm : ∀ s ∈ sites, m s ∈ sites) (hmm : ∀ s ∈ sites, m (m s) = s) (hn : sites.Nodup) : Equiv.Perm ℕ :=
  Function.Involutive.toPerm (fun i => if h : i < sites.length then sites.idxOf (m sites[i]) else i) (by
    intro i
    by_cases h : i < sites.length
    · have h1 : sites.idxOf (m sites[i]) < sites.length := List.idxOf_lt_length_of_mem (hm _ (List.getElem_mem h))
      simp only [h, h1, dite_true]
      rw [List.getElem_idxOf h1, hmm _ (List.getElem_mem h)]
      exact hn.idxOf_getElem i h
    · simp only [h, dite_false])

theorem sitePerm_lt {sites : List Site} {m : Site → Site} (hm : ∀ s ∈ sites, m s ∈ sites) (hmm : ∀ s ∈ sites, m (m s) = s) (hn : sites.Nodup) (i : ℕ) :
    sitePerm sites m hm hmm hn i < sites.length ↔ i < sites.length := by
  change (if h : i < sites.length then sites.idxOf (m sites[i]) else i) < _ ↔ _
  by_cases h : i < sites.length
  · simp only [h, dite_true, iff_true]
    exact List.idxOf_lt_length_of_mem (hm _ (List.getElem_mem h))
  · simp only [h, dite_false]

theorem sitePerm_get {sites : List Site} {m : Site → Site} (hm : ∀ s ∈ sites, m s ∈ sites) (hmm : ∀ s ∈ sites, m (m s) = s) (hn : sites.Nodup) {i : ℕ}
    (h : i < sites.length) (h' : sitePerm sites m hm hmm hn i < sites.length) : sites[sitePerm sites m hm hmm hn i] = m sites[i] := by
  have e : sitePerm sites m hm hmm hn i = sites.idxOf (m sites[i]) := by
    change (if h : i < sites.length then sites.idxOf (m sites[i]) else i) = _
    simp only [h, dite_true]
  simp only [e]
  exact List.getElem_idxOf _

section
variable {b : BenchParams ℝ} {sites : List Site} {env : Env ℝ 2} {s0 s s' : State ℝ 2 Unit}

theorem bench_symmetric {cfg : Config} {M : Rigid 2} {m : Site → Site} (hm : ∀ s ∈ sites, m s ∈ sites) (hmm : ∀ s ∈ sites, m (m s) = s) (hn : sites.Nodup)
    (hnum : ∀ s ∈ sites, (m s).number = s.number) (hpos : ∀ s ∈ sites, (m s).pos b.l0 = M.place (s.pos b.l0)) (hg : M.KeepsGravity cfg (b.args cfg))
    (hl : 0 < b.l0) (hR : 0 < b.reByL0) (hC : 0 ≤ b.courant)
    (h : BenchStart cfg b sites env s0 s) {steps : List (Schedule × Option ℝ)} (run : InsideRun (benchParams cfg b sites) steps s s') :
    Symmetric M (sitePerm sites m hm hmm hn) s' := by
  have hlt := sitePerm_lt hm hmm hn
  have hget := fun {i : ℕ} (hi : i < sites.length) => sitePerm_get hm hmm hn hi ((hlt i).mpr hi)
  have hnn := (start_n h).2
  have hS : Symmetric M (sitePerm sites m hm hmm hn) s := by
    refine ⟨rfl, ?_, ?_, ?_, ?_, ?_, ?_, rfl⟩
    · intro i; rw [hnn]; exact hlt i
    all_goals
      intro i hi
      rw [hnn] at hi
      rw [start_ps h hi, start_ps h ((hlt i).mpr hi), hget hi]
    · change PType.ofInt _ = PType.ofInt _
      rw [hnum _ (List.getElem_mem hi)]
    · exact hpos _ (List.getElem_mem hi)
    · exact (turn_zero M).symm
    · rfl
    · rfl
  refine C55_symmetric_scene_stays_symmetric_in_runs (W := fun _ => True) (P := benchParams cfg b sites) (Or.inl rfl) hl hR hC h.1 h.2.1 (start_hist _ h) (start_ok h) hg hS ?_ trivial run
  intro w w' hw t dt
  refine ⟨⟨rfl, trivial⟩, ?_⟩
  intro i hi
  rw [hnn] at hi
  have e : ∀ j (hj : j < sites.length), (benchParams cfg b sites).walls.pos w j t dt = (sites[j]).pos b.l0 := by
    intro j hj
    simp [benchParams, mainWalls, hj, Site.particle]
  change (benchParams cfg b sites).walls.pos w' _ t dt = M.place ((benchParams cfg b sites).walls.pos w i t dt)
  rw [e _ hi, e _ ((hlt i).mpr hi), hget hi]
  exact hpos _ (List.getElem_mem hi)

theorem selfSimilar_of {M : Rigid 2} {σ : Equiv.Perm ℕ} {s : State ℝ 2 Unit} (h : Symmetric M σ s) : SelfSimilar M s :=
  fun i hi => ⟨σ i, (h.perm i).mpr hi, h.ty i hi, h.x i hi, h.u i hi, h.p i hi, h.dens i hi⟩

noncomputable def upDown : Rigid 2 where
  R := !![1, 0; 0, -1]
  shift := 0
  orth := by
    ext i j
    fin_cases i <;> fin_cases j <;> simp [Matrix.mul_apply, Fin.sum_univ_two]

noncomputable def exchange : Rigid 2 where
  R := !![0, 1; 1, 0]
  shift := 0
  orth := by
    ext i j
    fin_cases i <;> fin_cases j <;> simp [Matrix.mul_apply, Fin.sum_univ_two]

theorem upDown_is : IsUpDown upDown := by
  intro v
  have : upDown.turn v = ![v 0, -v 1] := by
    funext i
    fin_cases i <;> simp [upDown, Rigid.turn, Matrix.mulVec, dotProduct, Fin.sum_univ_two]
  refine ⟨?_, this⟩
  unfold Rigid.place
  rw [this]
  change _ + (0 : Fin 2 → ℝ) = _
  rw [add_zero]

theorem exchange_is : IsExchange exchange := by
  intro v
  have : exchange.turn v = ![v 1, v 0] := by
    funext i
    fin_cases i <;> simp [exchange, Rigid.turn, Matrix.mulVec, dotProduct, Fin.sum_univ_two]
  refine ⟨?_, this⟩
  unfold Rigid.place
  rw [this]
  change _ + (0 : Fin 2 → ℝ) = _
  rw [add_zero]

theorem flip_is (c : ℝ) : IsMirror c (flip c) := fun v => ⟨flip_place c v, flip_turn c v⟩

/-- **C67.**  The run from a file of `StaticPressure/generate.py` stays exactly symmetric about the middle of the basin, for any schedules, as long as no particle leaves the grid. -/
theorem C67_static_pressure_stays_symmetric {cfg : Config} {width height : ℤ} (hgrav : cfg.centralGravity = false) (hl : 0 < b.l0) (hR : 0 < b.reByL0) (hC : 0 ≤ b.courant) (hw : 1 ≤ width)
    (h : BenchStart cfg b (staticPressureSites width height) env s0 s) {steps : List (Schedule × Option ℝ)}
    (run : InsideRun (benchParams cfg b (staticPressureSites width height)) steps s s') {M : Rigid 2} (hM : IsMirror ((width - 1) * b.l0) M) : SelfSimilar M s' := by
  refine selfSimilar_of (bench_symmetric (M := M) (m := fun t => ⟨t.number, width - 1 - t.i, t.k⟩) ?_ ?_ (nodup_staticPressure (by omega)) ?_ ?_ ?_ hl hR hC h run)
  · intro t ht
    rw [mem_staticPressure (by omega)] at ht ⊢
    dsimp only
    omega
  · intro t _
    simp
  · intro t _; rfl
  · intro t _
    rw [(hM _).1, (site_pos b.l0 t).1, (site_pos b.l0 t).2]
    funext a
    match a with
    | 0 => rw [(site_pos b.l0 _).1]; simp; ring
    | 1 => rw [(site_pos b.l0 _).2]; simp
  · unfold Rigid.KeepsGravity
    rw [if_neg (by rw [hgrav]; decide)]
    right
    rw [(hM _).2]
    funext a
    fin_cases a <;> simp [vertical]

/-- **C67.**  The run from a file of `CentralGravity/generate.py`, with `GRAVITY_CENTRAL`, stays exactly symmetric about both axes, and if width and height are equal also about the diagonal
(and hence under quarter turns), for any schedules, as long as no particle leaves the grid. -/
theorem C67_central_gravity_stays_symmetric {cfg : Config} {width height : ℤ} (hgrav : cfg.centralGravity = true) (hl : 0 < b.l0) (hR : 0 < b.reByL0) (hC : 0 ≤ b.courant)
    (h : BenchStart cfg b (centralGravitySites width height) env s0 s) {steps : List (Schedule × Option ℝ)}
    (run : InsideRun (benchParams cfg b (centralGravitySites width height)) steps s s') {M : Rigid 2}
    (hM : IsMirror 0 M ∨ IsUpDown M ∨ IsExchange M ∧ width = height) : SelfSimilar M s' := by
  have hg : M.KeepsGravity cfg (b.args cfg) := by
    unfold Rigid.KeepsGravity
    rw [if_pos hgrav]
    have h0 : M.place 0 = M.shift := by unfold Rigid.place; rw [turn_zero, zero_add]
    rw [← h0]
    rcases hM with hM | hM | hM
    · rw [(hM _).1]; funext a; fin_cases a <;> simp
    · rw [(hM _).1]; funext a; fin_cases a <;> simp
    · rw [(hM.1 _).1]; funext a; fin_cases a <;> simp
  rcases hM with hM | hM | ⟨hM, hwh⟩
  · refine selfSimilar_of (bench_symmetric (M := M) (m := fun t => ⟨t.number, -t.i, t.k⟩) ?_ ?_ (nodup_centralGravity _ _) ?_ ?_ hg hl hR hC h run)
    · intro t ht
      rw [mem_centralGravity] at ht ⊢
      dsimp only
      omega
    · intro t _; simp
    · intro t _; rfl
    · intro t _
      rw [(hM _).1, (site_pos b.l0 t).1, (site_pos b.l0 t).2]
      funext a
      match a with
      | 0 => rw [(site_pos b.l0 _).1]; simp
      | 1 => rw [(site_pos b.l0 _).2]; simp
  · refine selfSimilar_of (bench_symmetric (M := M) (m := fun t => ⟨t.number, t.i, -t.k⟩) ?_ ?_ (nodup_centralGravity _ _) ?_ ?_ hg hl hR hC h run)
    · intro t ht
      rw [mem_centralGravity] at ht ⊢
      dsimp only
      omega
    · intro t _; simp
    · intro t _; rfl
    · intro t _
      rw [(hM _).1, (site_pos b.l0 t).1, (site_pos b.l0 t).2]
      funext a
      match a with
      | 0 => rw [(site_pos b.l0 _).1]; simp
      | 1 => rw [(site_pos b.l0 _).2]; simp
  · refine selfSimilar_of (bench_symmetric (M := M) (m := fun t => ⟨t.number, t.k, t.i⟩) ?_ ?_ (nodup_centralGravity _ _) ?_ ?_ hg hl hR hC h run)
    · intro t ht
      rw [mem_centralGravity] at ht ⊢
      dsimp only
      omega
    · intro t _; rfl
    · intro t _; rfl
    · intro t _
      rw [(hM _).1, (site_pos b.l0 t).1, (site_pos b.l0 t).2]
      funext a
      match a with
      | 0 => rw [(site_pos b.l0 _).1]; simp
      | 1 => rw [(site_pos b.l0 _).2]; simp

end

end OpenMps
