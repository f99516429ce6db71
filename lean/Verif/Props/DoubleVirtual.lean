import Verif.Props.DoubleRun
import Verif.Props.RoundingVirtualRun

/-! # C71 and C72: the first stage at a free surface, in `double` -/

set_option linter.unusedSectionVars false
set_option exponentiation.threshold 2000

namespace OpenMps

variable {D : Nat} {ω : Type}

theorem double_guard : doubleRounding.finite (Scalar.epsilon : Double) ∧ (1 : ℝ) / 2 ^ 60 ≤ doubleRounding.val (Scalar.epsilon : Double) := by
  have h : (Scalar.epsilon : Double).isFinite = true ∧ (1 : ℚ) / 2 ^ 60 ≤ (Scalar.epsilon : Double).value := by decide +kernel
  refine ⟨h.1, ?_⟩
  have : ((1 / 2 ^ 60 : ℚ) : ℝ) ≤ (((Scalar.epsilon : Double).value : ℚ) : ℝ) := by exact_mod_cast h.2
  push_cast at this
  exact this

/-- **C71**, first stage at a free surface in `double`: no condition on the number density, with or without SPP.  The virtual neighbour beyond the free surface never spoils velocities or positions. -/
theorem C71_free_surface_in_double (hD : D ≤ 3) {ℓ : Double}
    {P : Params Double D ω} {cfg : Config} {e : EnvArgs Double D} {env : Env Double D} {w : ω} {s0 s s1 t : State Double D ω} {dts : List Double}
    (hmk : Env.mk? cfg e = some env) (hc : e.courant.isFinite = true ∧ 1 / 2 ^ 20 ≤ e.courant.val ∧ e.courant.val ≤ 1)
    (hℓ : ℓ.Sized 30) (hre : env.re.Sized 30) (hL : env.neighborLength.Sized 30)
    (h1 : ℓ.val ≤ env.re.val) (h2 : env.re.val ≤ 2 ^ 20 * ℓ.val) (h3 : env.neighborLength.val ≤ 2 ^ 21 * ℓ.val)
    (hn0 : env.n0.Sized 10) (hla : env.lambda.Sized 60) (hrho : env.rho.Sized 30) (hnu : env.nu.Upto 30) (hnu0 : 0 ≤ env.nu.val)
    (hg : ∀ a, (env.g a).Upto 30)
    (hnew : State.new? env w = some s0) (hist : Hist P s0 dts s) (hok : s0.grid.ClearOK)
    (hsize : ∀ a, s0.grid.size a ≤ 2 ^ 20) (hmin : ∀ a, (env.minX a).Upto 500)
    (hpos : ∀ i, i < s.n → (s.ps i).ty ≠ .disabled → ∀ a, ((s.ps i).x a).Upto 60 ∧ ((s.ps i).u a).Upto 30)
    (hsep : ∀ i j, i < s.n → j < s.n → j ≠ i → (s.ps i).ty ≠ .disabled → (s.ps j).ty ≠ .disabled → ℓ.val ≤ Double.trueDist (s.ps i).x (s.ps j).x)
    (sch : Schedule) (hv : sch.Valid s.n) (dt : Double) (hdt : dt.Sized 30) (hcg : P.cfg.centralGravity = false)
    (h : (s.start dt).searchNeighbor (sch 0) = .ok s1) (ht : s.beforePressure P sch dt = .ok t)
    (i : Nat) (hi : i < s.n) (hty : (s1.ps i).ty = .incompressibleNewton) (hk : (s1.neighbors i).length ≤ 2 ^ 20)
    (hx : ∀ a, |((s.ps i).x a).val| ≤ 2 ^ 20 * env.re.val) :
    ∃ N, doubleRounding.Within s1 i N ∧ ∀ a, ((t.ps i).u a).isFinite = true ∧ ((t.ps i).x a).isFinite = true ∧
      |((t.ps i).u a).val - (((s.ps i).u a).val + dt.val * doubleRounding.trueAcceleration P.cfg s1 i N a)| ≤
        (2 * (s1.neighbors i).length + 200) / 2 ^ 50 * (sz ((s.ps i).u a).val + dt.val * doubleRounding.accelerationSize P.cfg s1 i N a) ∧
      |((t.ps i).x a).val - (((s.ps i).x a).val + dt.val * ((t.ps i).u a).val)| ≤
        8 / 2 ^ 50 * (sz ((s.ps i).x a).val + dt.val * sz ((t.ps i).u a).val) := by
  have hl := double_lengths hℓ hre h1 h2
  have hL' := hL.mono (show 30 ≤ 400 by norm_num)
  have hmin' := Double.Upto.inRange hL' hmin
  have hpos' : ∀ i, i < s.n → (s.ps i).ty ≠ .disabled → doubleRounding.InRange env.neighborLength (s.ps i).x :=
    fun i hi hd => Double.Upto.inRange hL' (fun a => (hpos i hi hd a).1.mono (by norm_num))
  have henv : (s.start dt).env = { env with t := (s.start dt).env.t, dt := dt } := by
    have : s.env = { env with t := s.env.t, dt := s.env.dt } := by
      refine Hist.rec' (Q := fun _ s => s.env = { env with t := s.env.t, dt := s.env.dt }) ?_ ?_ ?_ hist
      · unfold State.new? at hnew
        split at hnew
        · cases hnew
        · injection hnew with hnew; rw [← hnew]
      · intro _ _ _ _ h; exact h
      · intro _ _ _ _ _ _ h hv hl
        rw [(step_frame hv hl).2.1]
        rw [h]
    change { s.env with dt := dt, t := s.env.t + dt } = { env with t := s.env.t + dt, dt := dt }
    conv_lhs => rw [this]
  have hP : doubleRounding.Plain (s.start dt).env := by
    rw [henv]
    exact ⟨hre, hn0.mono (by norm_num), hla, hrho, hdt, hnu, hnu0, hg⟩
  exact C71_first_stage_of_a_step_at_a_free_surface doubleRounding dd.1 dd.2.1 dd.2.2.1 hD hmk hc hl hℓ.2.1 hnew hist hok hL'.goodLength h3 hsize hmin'
    (fun i hi hd => ⟨hpos' i hi hd, hpos i hi hd⟩) hsep sch hv dt hP hcg h ht i hi hty hk double_guard hn0.2.2 hx

end OpenMps
