import Verif.Props.DoublePpe
import Verif.Props.DoubleVirtual
import Verif.Props.RoundingPpeVirtual

/-! # C74 at a free surface, in `double` -/

set_option linter.unusedSectionVars false
set_option exponentiation.threshold 2000

namespace OpenMps

variable {D : Nat} {ω : Type}

/-- **C74** at a free surface, in `double`: no condition on the number density, with or without SPP.  Where the density is below `n_0`, the equation contains the virtual
neighbour, with pressure zero, at the distance `r_e / (n_0 - n + 1)`. -/
theorem C74_free_surface_in_double (hD : D ≤ 3) (hD0 : 0 < D) {ℓ : Double}
    {P : Params Double D ω} {env : Env Double D} {w : ω} {s0 s t s' : State Double D ω} {dts : List Double}
    (hℓ : ℓ.Sized 30) (hre : env.re.Sized 30) (hL : env.neighborLength.Sized 30)
    (h1 : ℓ.val ≤ env.re.val) (h2 : env.re.val ≤ 2 ^ 20 * ℓ.val) (h3 : env.neighborLength.val ≤ 2 ^ 21 * ℓ.val)
    (hn0 : env.n0.Sized 10) (hla : env.lambda.Sized 60) (hrho : env.rho.Sized 30) (hnu : env.nu.Upto 30) (hnu0 : 0 ≤ env.nu.val)
    (hg : ∀ a, (env.g a).Upto 30)
    (hnew : State.new? env w = some s0) (hist : Hist P s0 dts s) (hok : s0.grid.ClearOK)
    (hsize : ∀ a, s0.grid.size a ≤ 2 ^ 20) (hmin : ∀ a, (env.minX a).Upto 500)
    (hpos : ∀ i, i < s.n → (s.ps i).ty ≠ .disabled → ∀ a, ((s.ps i).x a).Upto 60)
    (sch : Schedule) (hv : sch.Valid s.n) (dt : Double) (hdt : dt.Sized 30) (himp : P.cfg.explicit = false)
    (he0 : P.eps.val ≠ 0) (he1 : |P.eps.val| ≤ 1) (hn : s.n ≤ 2 ^ 20)
    (ht : s.beforePressure P sch dt = .ok t) (hs' : s.forwardTime P sch dt = .ok s')
    {m : ℝ} (hm : env.re.val + 2 * m ≤ (1 - 1 / 2 ^ 26) * env.neighborLength.val)
    (hmove : ∀ j, j < s.n → (t.ps j).ty ≠ .disabled → Double.trueDist (s.ps j).x (t.ps j).x ≤ m ∧
      ∀ a, ((t.ps j).x a).Upto 60 ∧ ((t.ps j).u a).Upto 60)
    (hsep : ∀ i j, i < s.n → j < s.n → j ≠ i → (t.ps i).ty ≠ .disabled → (t.ps j).ty ≠ .disabled → ℓ.val ≤ Double.trueDist (t.ps i).x (t.ps j).x)
    (i : Nat) (hi : i < s.n) (hf : t.fixedRow P.cfg i = false) (hk : (t.neighbors i).length ≤ 2 ^ 20)
    (hx : ∀ a, |((t.ps i).x a).val| ≤ 2 ^ 20 * env.re.val)
    (hni : (t.ps i).n.Upto 60) (hecs : P.cfg.ecs = true → (t.ecs i).Upto 60) :
    (s'.ps i).p = (if Scalar.lt (s'.ppe.x i) 0 then 0 else s'.ppe.x i) ∧
    (P.cfg.spp = true → |(t.nNoSpp i).val - doubleRounding.trueDensity t i| ≤ ((t.neighbors i).length + 1) * (doubleRounding.trueDensity t i + 1) / 2 ^ 41) ∧
    ∃ N v, doubleRounding.Within t i N ∧ doubleRounding.Beyond P.cfg t i N v ∧
      |doubleRounding.surfaceSource P.cfg t i N - doubleRounding.surfaceLaplacian P.cfg t i N v (fun j => (s'.ppe.x j).val)| ≤
        |doubleRounding.trueResidual s.n s'.ppe.A s'.ppe.b s'.ppe.x i| +
        (2 * (t.neighbors i).length + 200) / 2 ^ 50 *
          (doubleRounding.surfaceLaplacianSize P.cfg t i N v (fun j => (s'.ppe.x j).val) + doubleRounding.sourceSize P.cfg t i N) ∧
      ∃ x₀ : ℕ → Double, (∀ k, k < s.n → x₀ k = (s.ps k).p ∨ x₀ k = 0) ∧ (∀ k, s.n ≤ k → x₀ k = s.ppe.x k) ∧
        ∀ (q : ℕ) (X Λ : ℝ), q ≤ 2 ^ 20 → (∀ k < s.n, rowLength s.n s'.ppe.A k ≤ q) → 0 ≤ Λ →
          doubleRounding.CalmRun s.n s'.ppe.A s'.ppe.b x₀ P.eps X Λ →
          |doubleRounding.surfaceSource P.cfg t i N - doubleRounding.surfaceLaplacian P.cfg t i N v (fun j => (s'.ppe.x j).val)| ≤
            (1 + 1 / 2 ^ 26) * |P.eps.val| * vecNorm s.n (doubleRounding.trueResidual s.n s'.ppe.A s'.ppe.b x₀) +
            (s.n + 4) * vecNorm s.n (doubleRounding.drift s.n q s'.ppe.A s'.ppe.b X Λ) + √(5 * (s.n + 1) / 2 ^ 1075) / |P.eps.val| +
            (2 * (t.neighbors i).length + 200) / 2 ^ 50 *
              (doubleRounding.surfaceLaplacianSize P.cfg t i N v (fun j => (s'.ppe.x j).val) + doubleRounding.sourceSize P.cfg t i N) := by
  have hl := double_lengths hℓ hre h1 h2
  have hL' := hL.mono (show 30 ≤ 400 by norm_num)
  have henv : (s.start dt).env = { env with t := (s.start dt).env.t, dt := dt } := by
    have : s.env = { env with t := s.env.t, dt := s.env.dt } := by
      refine Hist.rec' (Q := fun _ s => s.env = { env with t := s.env.t, dt := s.env.dt }) ?_ ?_ ?_ hist
      · unfold State.new? at hnew
        split at hnew
        · cases hnew
        · injection hnew with hnew; rw [← hnew]
      · intro _ _ _ _ h; exact h
      · intro _ _ _ _ _ _ h hv hl
        rw [(step_frame hv hl).2.1]
        rw [h]
    change { s.env with dt := dt, t := s.env.t + dt } = { env with t := s.env.t + dt, dt := dt }
    conv_lhs => rw [this]
  have hP : doubleRounding.Plain (s.start dt).env := by
    rw [henv]
    exact ⟨hre, hn0.mono (by norm_num), hla, hrho, hdt, hnu, hnu0, hg⟩
  have key := C74_pressures_of_a_step_at_a_free_surface doubleRounding dd.1 dd.2.1 dd.2.2.1 dd.2.2.2.1 dd.2.2.2.2 hD hD0 hl hℓ.2.1 hnew hist hok
    hL'.goodLength h3 hsize (Double.Upto.inRange hL' hmin)
    (fun i hi hd => Double.Upto.inRange hL' (fun a => (hpos i hi hd a).mono (by norm_num))) sch hv dt hP himp he0 he1 hn ht hs' hm
    (fun j hj hd => ⟨(hmove j hj hd).1, Double.Upto.inRange hL' (fun a => ((hmove j hj hd).2 a).1.mono (by norm_num)), (hmove j hj hd).2⟩)
    hsep i hi hf hk double_guard hn0.2.2 hx hni hecs
  rw [double_η, mul_one_div] at key
  exact key

end OpenMps
