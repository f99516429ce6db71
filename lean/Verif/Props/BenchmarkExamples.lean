import Verif.Props.Benchmark
import Verif.Props.BenchmarkDensity
import Verif.Props.BenchmarkSymmetry
import Verif.Props.RestartExamples

/-! # Property C67, examples -/

set_option linter.unusedSectionVars false

namespace OpenMps

open Ref

/-- There are printers and readers that understand each other, for every file of a generator. -/
theorem readsBack_exists (b : BenchParams ℝ) (sites : List Site) : ∃ pr xc cv, ReadsBack pr xc cv b sites := by
  let L : List ℝ := b.numbers ++ sites.flatMap (fun s => [s.pos b.l0 0, s.pos b.l0 1])
  let rd : List Char → Option ℝ := fun t => if t = ['0'] then some 0 else (tableConv L).num t
  have hrd : ∀ v ∈ L, rd ((tablePrinter L).num v) = some v := by
    intro v hv
    have hne : (tablePrinter L).num v ≠ ['0'] := by
      intro h
      have h1 : '-' :: List.replicate (L.idxOf v) '1' = ['0'] := h
      injection h1 with h2 _
      exact absurd h2 (by decide)
    simp only [rd, if_neg hne]
    exact table_exact hv
  refine ⟨tablePrinter L, ⟨rd, fun t => (unaryParse t).map Int.toNat⟩, ⟨unaryParse, rd⟩, tablePrinter_clean L, ?_, ?_, ?_, ?_, ?_⟩
  · intro v hv
    exact hrd v (List.mem_append_left _ hv)
  · change (unaryParse (unaryPrint b.steps)).map Int.toNat = _
    rw [unary_roundtrip]; rfl
  · intro k _ _; exact unary_roundtrip k
  · intro s hs a
    refine hrd _ (List.mem_append_right _ (List.mem_flatMap.2 ⟨s, hs, ?_⟩))
    match a with
    | 0 => simp
    | 1 => simp
  · change rd ['0'] = _
    simp [rd]

/-- Every file can be loaded (exact arithmetic). -/
theorem benchStart_exists (cfg : Config) (b : BenchParams ℝ) (sites : List Site) : ∃ env s0 s, BenchStart cfg b sites env s0 s := by
  obtain ⟨env, h1⟩ : ∃ env, Env.mk? cfg (b.args cfg) = some env := ⟨_, rfl⟩
  obtain ⟨s0, h2⟩ : ∃ s0, State.new? (ω := Unit) env () = some s0 := by
    unfold State.new? Grid.mk?
    exact ⟨_, rfl⟩
  exact ⟨env, s0, _, h1, h2, rfl⟩

/-- The parameters of `/repo/Benchmark/StaticPressure/generate.py:8-26`. -/
noncomputable def shipped : BenchParams ℝ :=
  { startTime := 0, endTime := 1 / 2, outputInterval := 5 / 10000, eps := 1 / 10 ^ 10, l0 := 1 / 1000, steps := 100, courant := 1 / 10, g := 98 / 10,
    rho := 9982 / 10, nu := 1004 / 10 ^ 9, reByL0 := 24 / 10, surfaceRatio := 95 / 100, lo := 0, hi := 0 }

theorem shipped_pos : 0 < shipped.l0 ∧ 0 < shipped.reByL0 ∧ 0 ≤ shipped.courant ∧ 0 < shipped.block := by
  unfold shipped BenchParams.block
  norm_num

/-- The shipped file of `StaticPressure` (50 by 100 particles of water; the sizes are variables so that the list is not evaluated) is read, all its particles survive the first step, and the water particle at (0, 0), in the corner, has the reference density. -/
example {huge tiny : ℝ} {w h : ℤ} (hw : w = 50) (hh' : h = 100) (hh : 1 ≤ huge) (ht : tiny ≤ 1 / 1000) : ∃ (pr : Printer ℝ) (xc : XConv ℝ) (cv : Conv ℝ) (b : BenchParams ℝ) (sites : List Site) (env : Env ℝ 2) (s0 s : State ℝ 2 Unit),
    staticPressureDoc pr huge tiny shipped w h = benchDoc pr b sites ∧ ReadsBack pr xc cv b sites ∧ GoodStart b.l0 b.block b.lo b.hi sites ∧
    BenchStart Config.default b sites env s0 s ∧
    (∀ fuel, programMain 2 Config.default xc cv pr (fun _ => Schedule.serial s.n) 0 ["openmps", "in.xml"] (fun _ => some (staticPressureDoc pr huge tiny shipped w h)) fuel =
      runLoop (benchParams Config.default b sites) (fun _ => Schedule.serial s.n) pr b.condition fuel s) ∧
    (∀ dt s', s.forwardTime (benchParams Config.default b sites) (Schedule.serial s.n) dt ≠ .exn .gridFull s') ∧
    ∃ i, i < s.n ∧ (s.ps i).x = ![0, 0] ∧ (s.ps i).ty = .incompressibleNewton ∧
      ∑ j ∈ (Finset.range s.n).erase i, weight env.re (len ((s.ps j).x - (s.ps i).x)) = env.n0 := by
  obtain ⟨p1, p2, p3, p4⟩ := shipped_pos
  have hsc := fun pr => C67_static_pressure_scene pr (huge := huge) (tiny := tiny) (b := shipped) (width := w) (height := h) p1 p4 (by omega) (by omega)
    (by rw [hw, hh']; unfold shipped; norm_num; linarith) (by unfold shipped; norm_num; linarith)
  let b : BenchParams ℝ := { shipped with lo := lowest huge shipped.l0 (staticPressureSites w h), hi := highest tiny shipped.l0 (staticPressureSites w h) }
  have hb : b.l0 = shipped.l0 ∧ b.reByL0 = shipped.reByL0 ∧ b.courant = shipped.courant ∧ b.block = shipped.block := ⟨rfl, rfl, rfl, rfl⟩
  obtain ⟨pr, xc, cv, hr⟩ := readsBack_exists b (staticPressureSites w h)
  obtain ⟨env, s0, s, hst⟩ := benchStart_exists Config.default b (staticPressureSites w h)
  have hg : GoodStart b.l0 b.block b.lo b.hi (staticPressureSites w h) := by
    refine ⟨?_, ?_, ?_⟩
    · intro t ht; rw [mem_staticPressure (by omega)] at ht; omega
    · refine apart_of_nodup (nodup_staticPressure (by omega)) ?_
      intro t ht u hu h1 h2
      rw [mem_staticPressure (by omega)] at ht hu
      omega
    · intro t ht a
      refine ⟨(foldl_pyMin (fun s => s.pos b.l0 a) _ _).2.1 t ht, lt_of_le_of_lt ((foldl_pyMax (fun s => s.pos b.l0 a) (staticPressureSites w h) tiny).2.1 t ht) ?_⟩
      change _ < _ + 2 * b.block
      rw [hb.2.2.2]
      exact lt_add_of_pos_right _ (by linarith)
  refine ⟨pr, xc, cv, b, staticPressureSites w h, env, s0, s, rfl, hr, hg, hst, ?_, ?_, ?_⟩
  · intro fuel
    rw [C67_benchmark_files_are_read hr hg.types rfl ⟨le_refl _, "in.xml", by simp [inputFile], rfl⟩ fuel hst.1 hst.2.1]
    rw [hst.2.2]
    rfl
  · intro dt s'
    exact (C67_first_step_keeps_all_particles (b := b) (benchParams Config.default b (staticPressureSites w h)) p1 p2 p3 hst hg _ (Schedule.serial_valid s.n) dt).1 s'
  · have hm : (⟨0, 0, 0⟩ : Site) ∈ staticPressureSites w h := by
      rw [mem_staticPressure (by omega)]; exact Or.inl ⟨rfl, by dsimp only; omega⟩
    obtain ⟨i, hi, he⟩ := List.mem_iff_getElem.mp hm
    refine ⟨i, by rw [(start_n hst).2]; exact hi, ?_, ?_, ?_⟩
    · rw [start_ps hst hi, he]
      change Site.pos _ _ = _
      rw [site_pos_node]
      funext a
      fin_cases a <;> simp [node]
    · rw [start_ps hst hi, he]; rfl
    · refine C67_static_pressure_density (b := b) (R := 2) p1 (by omega) (by omega) (by norm_num) (by change shipped.reByL0 ≤ _; unfold shipped; norm_num) hst hi ?_ ?_
      · rw [he]; rfl
      · rw [he]; dsimp only; omega

end OpenMps
