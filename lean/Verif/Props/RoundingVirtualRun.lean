import Verif.Props.RoundingVirtual
import Verif.Props.RoundingForcesRun

/-! # C71 at a free surface, in a running computer -/

set_option linter.unusedSectionVars false
set_option exponentiation.threshold 1000

namespace OpenMps

variable {F : Type} [Scalar F] {D : Nat} {ω : Type}

/-- After the densities have been computed, the stored density without virtual neighbour is the exact one up to rounding. -/
theorem Rounding.stored_density (R : Rounding F) (hR : R.DoubleLike) (hD : D ≤ 3) {ℓ : F} {t : State F D ω} (hl : R.Lengths ℓ t.env.re)
    (hn0 : R.finite t.env.n0) {i : ℕ} (hi : i < t.n) (hact : (t.ps i).ty.active = true) (h : R.Row ℓ t i) (cfg : Config) (hs : cfg.spp = true) :
    R.finite ((t.densC cfg).nNoSpp i) ∧
      |R.val ((t.densC cfg).nNoSpp i) - R.trueDensity t i| ≤ ((t.neighbors i).length + 1) * (R.trueDensity t i + 1) / 2 ^ 41 := by
  have hNd := R.trueDensity_list t i h.nodup h.entry h.cover
  have hst : (t.densC cfg).nNoSpp i = (t.densCompute cfg i).1 := by
    unfold State.densC
    simp only [hs, if_true]
    rw [if_pos hi]
  rw [hst]
  unfold State.densCompute
  simp only [if_pos hact]
  unfold State.accumulate
  simp only [hs, if_true, Bool.true_and]
  have hlt : Scalar.lt t.env.n0 t.env.n0 = false := by
    cases h : Scalar.lt t.env.n0 t.env.n0 with
    | false => rfl
    | true => exact absurd ((R.lt hn0 hn0).mp h) (lt_irrefl _)
  have hspp : ∀ g : Vec F D, State.sppParticle { t with nNoSpp := upd t.nNoSpp i t.env.n0 } i g = none := by
    intro g
    unfold State.sppParticle
    simp only [upd, if_true, hlt, Bool.false_eq_true, if_false]
  rw [hspp]
  simp only
  exact R.accLoop_accurate hR hD { t with nNoSpp := upd t.nNoSpp i t.env.n0 } hl i (fun j hj => (h.entry j hj).2.1) h.length h.this h.pair
    (fun j q' => if decide (j < 0) = true then 0 else W (dist (t.ps i).x q'.x) t.env.re) (fun j hj => by
      rw [if_neg]; simp) _ hNd

/-- A density that is close to an exact one is not negative, up to far more than rounding. -/
theorem Rounding.density_lower (R : Rounding F) {t : State F D ω} {i : ℕ} (hlen : (t.neighbors i).length ≤ 2 ^ 20) {n : F}
    (h : |R.val n - R.trueDensity t i| ≤ ((t.neighbors i).length + 1) * (R.trueDensity t i + 1) / 2 ^ 41) : -1 ≤ R.val n := by
  have hlen : ((t.neighbors i).length : ℝ) ≤ 2 ^ 20 := by exact_mod_cast hlen
  have hN0 : 0 ≤ R.trueDensity t i := by
    unfold Rounding.trueDensity
    exact Finset.sum_nonneg (fun _ _ => weight_nonneg')
  rw [abs_le] at h
  have a4 : ((t.neighbors i).length + 1) * (R.trueDensity t i + 1) / 2 ^ 41 ≤ R.trueDensity t i + 1 := by
    rw [div_le_iff₀ (by positivity), mul_comm]
    have : (2 : ℝ) ^ 20 + 1 ≤ 2 ^ 41 := by norm_num
    exact mul_le_mul_of_nonneg_left (by linarith) (by linarith)
  linarith [h.1]

/-- After the densities have been computed, the surroundings of every particle are as needed. -/
theorem Rounding.surroundings_of_density (R : Rounding F) (hR : R.DoubleLike) (hD : D ≤ 3) {ℓ : F} {t : State F D ω} (hl : R.Lengths ℓ t.env.re)
    (hn0 : R.finite t.env.n0) {i : ℕ} (hi : i < t.n) (hact : (t.ps i).ty.active = true) (h : R.Row ℓ t i) (cfg : Config) (hs : cfg.spp = true)
    (hg : R.finite (Scalar.epsilon : F) ∧ 1 / 2 ^ 60 ≤ R.val (Scalar.epsilon : F)) (h10 : R.val t.env.n0 ≤ 2 ^ 10)
    (hx : ∀ a, |R.val ((t.ps i).x a)| ≤ 2 ^ 20 * R.val t.env.re) :
    R.Surroundings (t.densC cfg) i := by
  obtain ⟨a1, a2⟩ := R.stored_density hR hD hl hn0 hi hact h cfg hs
  exact ⟨hg, a1, R.density_lower h.length a2, h10, fun a => by rw [densC_x]; exact hx a⟩

/-- **C71**, at a free surface in a step of a running computer (option SPP, the default, or not).  In a computer made from accepted constants, after any
history, in a box of up to `2^20` blocks per axis and a million radii of influence, with particles in the range of the arithmetic and not closer than `ℓ`:
whatever table the search of the next step builds, whatever order the threads work in and whatever the number density, the first stage of the step gives
every fluid particle - alone, at the surface or inside - the exact viscosity of its real neighbours and gravity up to rounding. -/
theorem C71_first_stage_of_a_step_at_a_free_surface (R : Rounding F) (hR : R.DoubleLike) (hW : R.Wide) (hE : R.Exact) (hD : D ≤ 3) {ℓ : F}
    {P : Params F D ω} {cfg : Config} {e : EnvArgs F D} {env : Env F D} {w : ω} {s0 s s1 t : State F D ω} {dts : List F}
    (hmk : Env.mk? cfg e = some env)
    (hc : R.finite e.courant ∧ 1 / 2 ^ 20 ≤ R.val e.courant ∧ R.val e.courant ≤ 1)
    (hl : R.Lengths ℓ env.re) (hℓ : 1 / 2 ^ 30 ≤ R.val ℓ)
    (hnew : State.new? env w = some s0) (hist : Hist P s0 dts s) (hok : s0.grid.ClearOK)
    (hL : R.GoodLength env.neighborLength) (hLℓ : R.val env.neighborLength ≤ 2 ^ 21 * R.val ℓ)
    (hsize : ∀ a, s0.grid.size a ≤ 2 ^ 20) (hmin : R.InRange env.neighborLength env.minX)
    (hpos : ∀ i, i < s.n → (s.ps i).ty ≠ .disabled →
      R.InRange env.neighborLength (s.ps i).x ∧ ∀ a, R.Upto 60 ((s.ps i).x a) ∧ R.Upto 30 ((s.ps i).u a))
    (hsep : ∀ i j, i < s.n → j < s.n → j ≠ i → (s.ps i).ty ≠ .disabled → (s.ps j).ty ≠ .disabled →
      R.val ℓ ≤ R.trueDist (s.ps i).x (s.ps j).x)
    (sch : Schedule) (hv : sch.Valid s.n) (dt : F) (hP : R.Plain (s.start dt).env) (hcg : P.cfg.centralGravity = false)
    (h : (s.start dt).searchNeighbor (sch 0) = .ok s1) (ht : s.beforePressure P sch dt = .ok t)
    (i : Nat) (hi : i < s.n) (hty : (s1.ps i).ty = .incompressibleNewton) (hk : (s1.neighbors i).length ≤ 2 ^ 20)
    (hg : R.finite (Scalar.epsilon : F) ∧ 1 / 2 ^ 60 ≤ R.val (Scalar.epsilon : F)) (h10 : R.val env.n0 ≤ 2 ^ 10)
    (hx : ∀ a, |R.val ((s.ps i).x a)| ≤ 2 ^ 20 * R.val env.re) :
    ∃ N, R.Within s1 i N ∧ ∀ a, R.finite ((t.ps i).u a) ∧ R.finite ((t.ps i).x a) ∧
      |R.val ((t.ps i).u a) - (R.val ((s.ps i).u a) + R.val dt * R.trueAcceleration P.cfg s1 i N a)| ≤
        (2 * (s1.neighbors i).length + 200) / 2 ^ 50 * (sz (R.val ((s.ps i).u a)) + R.val dt * R.accelerationSize P.cfg s1 i N a) ∧
      |R.val ((t.ps i).x a) - (R.val ((s.ps i).x a) + R.val dt * R.val ((t.ps i).u a))| ≤
        8 / 2 ^ 50 * (sz (R.val ((s.ps i).x a)) + R.val dt * sz (R.val ((t.ps i).u a))) :=
  R.first_stage_of_a_step hR hW hE hD hmk hc hl hℓ hnew hist hok hL hLℓ hsize hmin hpos hsep sch hv dt hP hcg h ht i hi hty hk (by
    intro hl1 hP1 r4 hi1 row row0 r7 r6 r3
    have e : ((s1.densC P.cfg).ecsC P.cfg).nNoSpp = (s1.densC P.cfg).nNoSpp ∧ ((s1.densC P.cfg).ecsC P.cfg).env = s1.env ∧
        ((s1.densC P.cfg).ecsC P.cfg).ps = (s1.densC P.cfg).ps := by
      unfold State.ecsC
      split <;> exact ⟨rfl, rfl, rfl⟩
    refine row0.accumulate_visc hR hW hE hD (by rw [e.2.1]; exact hl1) (by rw [e.2.1]; exact hP1) P.cfg (fun hs => ?_) (fun a => ?_)
    · obtain ⟨q1, q2, q3, q4, q5⟩ := R.surroundings_of_density hR hD hl1 hP1.n0.1 hi1 (by rw [hty]; rfl) row P.cfg hs hg (by rw [r4]; exact h10)
        (fun a => by rw [(r7 i).1, r3]; exact hx a)
      refine ⟨q1, by rw [e.1]; exact q2, by rw [e.1]; exact q3, by rw [e.2.1]; exact q4, fun a => ?_⟩
      rw [e.2.2, e.2.1]
      exact q5 a
    · rw [e.2.2, densC_u, (r7 i).2.1]
      exact ((hpos i hi r6).2 a).2)

end OpenMps
