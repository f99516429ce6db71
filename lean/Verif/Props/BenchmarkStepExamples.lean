import Verif.Props.BenchmarkStep
import Verif.Props.BenchmarkExamples

/-! # Property C67, the first step of the shipped files -/

set_option linter.unusedSectionVars false

namespace OpenMps

open Ref

/-- The scene of `StaticPressure` with any range around it. -/
theorem static_good {b : BenchParams ℝ} {w h : ℤ} (hl : 0 < b.l0) (hB : 0 < b.block) (hw : 1 ≤ w) (hh : 1 ≤ h)
    (h1 : b.lo = ![-4 * b.l0, -4 * b.l0]) (h2 : b.hi = ![(w + 3) * b.l0, h * b.l0]) : GoodStart b.l0 b.block b.lo b.hi (staticPressureSites w h) := by
  refine ⟨?_, ?_, ?_⟩
  · intro t ht; rw [mem_staticPressure (by omega)] at ht; omega
  · refine apart_of_nodup (nodup_staticPressure (by omega)) ?_
    intro t ht u hu h1 h2
    rw [mem_staticPressure (by omega)] at ht hu
    omega
  · intro t ht
    rw [mem_staticPressure (by omega)] at ht
    obtain ⟨⟨k1, k2⟩, k3, k4⟩ := site_bounds hl (s := t) (A := -4) (B := w + 3) (C := -4) (D := h) (by omega)
    rw [h1, h2]
    push_cast at k1 k2 k3 k4
    refine Fin.forall_fin_two.mpr ⟨⟨k1, ?_⟩, k3, ?_⟩
    · simp only [Matrix.cons_val_zero]; linarith
    · simp only [Matrix.cons_val_one, Matrix.cons_val_fin_one]; linarith

/-- The first step of the shipped scene of `StaticPressure` (50 by 100 particles of water), with or without SPP and with every schedule, succeeds, and the particles are symmetric about the middle of the
basin after it. -/
example (cfg : Config) (hcg : cfg.centralGravity = false) (hx : cfg.explicit = false) {w h : ℤ} (hw : w = 50) (hh : h = 100) (b : BenchParams ℝ)
    (hb : b = { shipped with lo := ![-4 * shipped.l0, -4 * shipped.l0], hi := ![(w + 3) * shipped.l0, h * shipped.l0] }) :
    ∃ (env : Env ℝ 2) (s0 s : State ℝ 2 Unit), BenchStart cfg b (staticPressureSites w h) env s0 s ∧ 0 < env.maxDt ∧
      ∀ sch : Schedule, sch.Valid s.n → ∀ dt, 0 ≤ dt → dt ≤ env.maxDt → ∃ s', s.forwardTime (benchParams cfg b (staticPressureSites w h)) sch dt = .ok s' ∧
        ∀ M, IsMirror ((w - 1) * b.l0) M → SelfSimilar M s' := by
  obtain ⟨p1, p2, p3, p4⟩ := shipped_pos
  have q : b.l0 = shipped.l0 ∧ b.reByL0 = shipped.reByL0 ∧ b.courant = shipped.courant ∧ b.block = shipped.block ∧ b.g = shipped.g ∧ b.surfaceRatio = shipped.surfaceRatio := by
    subst hb; exact ⟨rfl, rfl, rfl, rfl, rfl, rfl⟩
  obtain ⟨q1, q2, q3, q4, q5, q6⟩ := q
  obtain ⟨env, s0, s, hst⟩ := benchStart_exists cfg b (staticPressureSites w h)
  have hg : GoodStart b.l0 b.block b.lo b.hi (staticPressureSites w h) := static_good (by rw [q1]; exact p1) (by rw [q4]; exact p4) (by omega) (by omega) (by rw [hb]) (by rw [hb])
  refine ⟨env, s0, s, hst, ?_, ?_⟩
  · rw [(envmk_real hst.1).2.2.2.2.2.2.1, if_neg (by rw [hx]; decide)]
    refine lt_min ?_ (Real.sqrt_pos.mpr ?_)
    · change 0 < b.outputInterval / Scalar.ofInt (b.steps : ℤ)
      rw [hb, ofInt_real]; unfold shipped; norm_num
    · change 0 < 2 * (b.courant * b.l0) / b.g
      rw [q3, q1, q5]; unfold shipped; norm_num
  · intro sch hv dt h0 h1
    obtain ⟨s', hs'⟩ := C67_static_pressure_first_step (n := 3) hcg hx (by rw [q1]; exact p1) (by rw [q2]; unfold shipped; norm_num) (by rw [q2]; unfold shipped; norm_num) (by omega) (by omega)
      (by rw [q3]; exact p3) (by rw [q3]; unfold shipped; norm_num) (by rw [q5]; unfold shipped; norm_num)
      (fun _ => by
        have : ⌈b.reByL0⌉ = 3 := by rw [q2, Int.ceil_eq_iff]; unfold shipped; norm_num
        rw [this, q1]; unfold shipped; norm_num)
      (fun _ => by rw [q6]; unfold shipped; norm_num) hst hg sch hv h0 h1
    refine ⟨s', hs', fun M hM => ?_⟩
    refine C67_static_pressure_stays_symmetric hcg (by rw [q1]; exact p1) (by rw [q2]; exact p2) (by rw [q3]; exact p3) (by omega) hst (.given (s1 := s') sch dt ?_ hv hs' (.nil _)) hM
    intro i hi hd
    have hi' : i < (staticPressureSites w h).length := by rw [← (start_n hst).2]; exact hi
    intro hout
    refine bs_enabled (dt := dt) (by rw [q4]; exact p4) hst hg hi' ?_
    unfold Ref.setting
    simp only
    rw [if_pos ⟨hd, hout⟩]

end OpenMps
