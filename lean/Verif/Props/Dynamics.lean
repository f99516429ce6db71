import Verif.Lemmas.Dynamics

/-! # C64: short steps follow the equations of motion -/

set_option linter.unusedSectionVars false

namespace OpenMps

open Ref Filter Topology

variable {D : Nat} {ω : Type}

/-- **C64.**  In the explicit mode, with every combination of the other options, the step is a consistent discretisation of the equations of motion
`du_i/dt = viscosity + gravity + pressure`, `dx_i/dt = u_i`: when the state is advanced by smaller and smaller steps, the change of velocity of
every fluid particle divided by the step size tends to the acceleration `dudt` and the change of position divided by the step size tends to the
velocity.  The enabled particles are apart from each other, the walls move continuously; with DS no pair is closer than `l0 - MaxDx`; with GC
the correction matrix is regular and, if SPP is on, the fluid particles are not at the surface. -/
theorem C64_step_follows_the_equations_of_motion {P : Params ℝ D ω} {env : Env ℝ D} {w : ω} {s0 s : State ℝ D ω} {dts : List ℝ}
    (hD : D = 2 ∨ D = 3) (hnew : State.new? env w = some s0) (hist : Hist P s0 dts s) (hok : s0.grid.ClearOK) (hL : 0 < env.neighborLength)
    (hre : 0 ≤ env.re) (hn0 : 0 < env.n0) (hexp : P.cfg.explicit = true)
    (sch : ℝ → Schedule) (hv : ∀ dt, (sch dt).Valid s.n) (s' : ℝ → State ℝ D ω)
    (h : ∀ dt, 0 < dt → s.forwardTime P (sch dt) dt = .ok (s' dt))
    (hwalls : ∀ i, i < s.n → (s.ps i).ty ≠ .disabled → (s.ps i).ty ≠ .incompressibleNewton →
      Tendsto (fun dt => P.walls.pos (P.walls.pre s.world (s.env.t + dt) dt) i (s.env.t + dt) dt) (𝓝[>] 0) (𝓝 (s.ps i).x))
    (hapart : ∀ i j, i < s.n → j < s.n → i ≠ j → (s.ps i).ty ≠ .disabled → (s.ps j).ty ≠ .disabled → (s.ps i).x ≠ (s.ps j).x)
    (hgc : P.cfg.gc = true → ∀ i, i < s.n → (s.ps i).ty = .incompressibleNewton →
      (P.cfg.spp = false ∨ env.n0 < (setting P s 0).density (scene s).x i) ∧ (momentMatrix P s i).det ≠ 0)
    (hds : P.cfg.ds = true → ∀ i j, i < s.n → j < s.n → i ≠ j → (s.ps i).ty = .incompressibleNewton → (s.ps j).ty ≠ .disabled →
      |env.l0 - env.maxDx| < dist (s.ps i).x (s.ps j).x)
    (i : ℕ) (hi : i < s.n) (hf : (s.ps i).ty = .incompressibleNewton) (hin : ¬ Outside s.env (s.ps i).x) :
    Tendsto (fun dt => (1 / dt) • (((s' dt).ps i).u - (s.ps i).u)) (𝓝[>] 0) (𝓝 (dudt P s i)) ∧
    Tendsto (fun dt => (1 / dt) • (((s' dt).ps i).x - (s.ps i).x)) (𝓝[>] 0) (𝓝 (s.ps i).u) := by
  classical
  have hconst := hist_consts hnew hist
  set T := setting P s 0 with hT
  have hty : ∀ j, T.ty j ≠ .disabled → (s.ps j).ty ≠ .disabled ∧ T.ty j = (s.ps j).ty := by
    intro j hj
    by_cases hc : (s.ps j).ty ≠ .disabled ∧ Outside s.env (s.ps j).x
    · exact absurd (show T.ty j = .disabled from if_pos hc) hj
    · have e : T.ty j = (s.ps j).ty := if_neg hc
      exact ⟨by rw [← e]; exact hj, e⟩
  have hfl : ∀ j, T.Fluid j → (s.ps j).ty = .incompressibleNewton := by
    intro j hj
    have hj' : T.ty j = .incompressibleNewton := hj
    have := (hty j (by rw [hj']; decide)).2
    rw [← this]; exact hj'
  have hfi : T.Fluid i := by
    change T.ty i = _
    have : T.ty i = (s.ps i).ty := if_neg (fun hc => hin hc.2)
    rw [this]; exact hf
  have en0 : T.env.n0 = env.n0 := by change s.env.n0 = _; rw [hconst]
  have el0 : T.env.l0 - T.env.maxDx = env.l0 - env.maxDx := by change s.env.l0 - s.env.maxDx = _; rw [hconst]
  set cb : ℝ → ℕ → Fin D → ℝ := fun dt i => P.walls.pos (P.walls.pre s.world (s.env.t + dt) dt) i (s.env.t + dt) dt with hcb
  have hsm : Smooth T (scene s) cb := by
    refine ⟨by rw [en0]; exact hn0, ?_, ?_, ?_, ?_⟩
    · intro j hj hd hnf
      obtain ⟨k1, k2⟩ := hty j hd
      exact hwalls j hj k1 (fun hc => hnf (show T.ty j = _ by rw [k2]; exact hc))
    · intro j k hj hk hjk hdj hdk
      exact len_pos_of_ne (Ne.symm (hapart j k hj hk hjk (hty j hdj).1 (hty k hdk).1))
    · intro hg j hj hfj
      obtain ⟨k1, k2⟩ := hgc hg j hj (hfl j hfj)
      exact ⟨by rw [en0]; exact k1, k2⟩
    · intro hd j k hj hk hjk hfj hdk
      have := hds hd j k hj hk hjk (hfl j hfj) (hty k hdk).1
      rw [el0]
      have e : len ((scene s).x k - (scene s).x j) = dist (s.ps j).x (s.ps k).x := by
        rw [len_sub, dist_comm']; rfl
      rw [e]
      exact sq_lt_sq' (neg_lt_of_abs_lt this) (lt_of_abs_lt this)
  obtain ⟨r1, r2⟩ := hsm.rates (fun dt => s.env.t + dt) (i := i) hi hfi
  have hstep : ∀ dt, 0 < dt → ((s' dt).ps i).u = ((retimed T dt (s.env.t + dt) (cb dt)).finish (stage T (scene s) (fun dt => s.env.t + dt) cb dt)).u i ∧
      ((s' dt).ps i).x = ((retimed T dt (s.env.t + dt) (cb dt)).finish (stage T (scene s) (fun dt => s.env.t + dt) cb dt)).x i := by
    intro dt hdt
    obtain ⟨a, ha, ka⟩ := C42_step_is_the_reference_function hD hnew hist hok hL hre (sch dt) (hv dt) dt (h dt hdt)
    have e : (setting P s dt).step P.eps (scene s) = some ((retimed T dt (s.env.t + dt) (cb dt)).finish (stage T (scene s) (fun dt => s.env.t + dt) cb dt)) := by
      unfold Setting.step Setting.pressure
      have : (setting P s dt).cfg.explicit = true := hexp
      rw [this]
      rfl
    rw [e] at ha
    injection ha with ha
    obtain ⟨-, k1, k2, -⟩ := ka i hi
    rw [k1, k2, ← ha]
    exact ⟨rfl, rfl⟩
  have hpos : ∀ᶠ dt : ℝ in 𝓝[>] 0, 0 < dt := eventually_mem_nhdsWithin
  constructor
  · refine r1.congr' ?_
    filter_upwards [hpos] with dt hdt
    rw [(hstep dt hdt).1]; rfl
  · refine r2.congr' ?_
    filter_upwards [hpos] with dt hdt
    rw [(hstep dt hdt).2]; rfl

end OpenMps
