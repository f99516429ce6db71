import Verif.Lemmas.Consistency
import Verif.Lemmas.Accuracy
import Verif.Props.ReferenceStep

set_option linter.unusedSectionVars false

/-! # Property C58: the discrete operators on the reference lattice -/

namespace OpenMps

open Ref

variable {D : Nat} {ω : Type}

section
variable {S : Setting D} {x : ℕ → Fin D → ℝ} {i : ℕ} {s : Scene D}

theorem sum_mem_lattice (h : 0 < S.env.l0) (f : (Fin D → ℤ) → ℝ) : ∑ᶠ v ∈ lattice D S.env.l0 S.env.re, f v = ∑ v ∈ lat D S.env.re h, f v := by
  unfold lat
  exact finsum_mem_eq_finite_toFinset_sum f _

theorem density_lattice (h : 0 < S.env.l0) (hn : S.env.n0 = ∑ v ∈ lat D S.env.re h, weight S.env.re (len (node S.env.l0 v)))
    (hi : S.InLattice x i) : S.density x i = S.env.n0 := by
  unfold Setting.density
  rw [near_lattice h hi (fun d => weight S.env.re (len d)), ← hn]

theorem virtual_lattice (h : 0 < S.env.l0) (hn : S.env.n0 = ∑ v ∈ lat D S.env.re h, weight S.env.re (len (node S.env.l0 v)))
    (hi : S.InLattice x i) : ¬ S.HasVirtual x i := by
  rintro ⟨-, h1, -⟩
  rw [density_lattice h hn hi] at h1
  exact lt_irrefl _ h1

theorem weight_sum (h : 0 < S.env.l0) (hn : S.env.n0 = ∑ v ∈ lat D S.env.re h, weight S.env.re (len (node S.env.l0 v))) :
    ∑ v ∈ lat D S.env.re h, weight S.env.re (len (node S.env.l0 v)) / len (node S.env.l0 v) ^ 2 * len (node S.env.l0 v) ^ 2 = S.env.n0 := by
  rw [hn]
  refine Finset.sum_congr rfl (fun v hv => ?_)
  have := lat_len_pos h hv
  field_simp

theorem moment_lattice (h : 0 < S.env.l0) (hD : 0 < D) (hn : S.env.n0 = ∑ v ∈ lat D S.env.re h, weight S.env.re (len (node S.env.l0 v)))
    (hi : S.InLattice s.x i) : S.moment s i = (S.env.n0 / D) • (1 : Matrix (Fin D) (Fin D) ℝ) := by
  unfold Setting.moment
  rw [if_neg (virtual_lattice h hn hi), add_zero,
    near_lattice h hi (fun d => (weight S.env.re (len d) / len d ^ 2) • Matrix.vecMulVec d d)]
  ext a b
  rw [Matrix.sum_apply]
  simp only [Matrix.smul_apply, Matrix.vecMulVec_apply, smul_eq_mul]
  rw [lat_second h hD (fun r => weight S.env.re r / r ^ 2) a b, weight_sum h hn, Matrix.one_apply]
  split <;> simp

theorem correction_lattice (h : 0 < S.env.l0) (hD : 0 < D) (hn0 : 0 < S.env.n0)
    (hn : S.env.n0 = ∑ v ∈ lat D S.env.re h, weight S.env.re (len (node S.env.l0 v)))
    (hi : S.InLattice s.x i) : S.correction s i = (D / S.env.n0) • (1 : Matrix (Fin D) (Fin D) ℝ) := by
  unfold Setting.correction
  split
  · rfl
  · rw [moment_lattice h hD hn hi]
    have hD' : (D : ℝ) ≠ 0 := by exact_mod_cast hD.ne'
    apply Matrix.inv_eq_left_inv
    rw [smul_mul_smul_comm, mul_one]
    have : (D : ℝ) / S.env.n0 * (S.env.n0 / D) = 1 := by field_simp
    rw [this, one_smul]

/-- Pressure acceleration on the lattice, all options. -/
theorem push_lattice (h : 0 < S.env.l0) (hD : 0 < D) (hn0 : 0 < S.env.n0)
    (hn : S.env.n0 = ∑ v ∈ lat D S.env.re h, weight S.env.re (len (node S.env.l0 v)))
    (hi : S.InLattice s.x i) (hd : S.cfg.gc = true → s.dens i = S.env.n0) {g : Fin D → ℝ}
    (hp : ∀ j ∈ S.near s.x i, s.p j = s.p i + prod g (s.x j - s.x i)) : S.push s i = -((S.env.dt / S.env.rho) • g) := by
  have hD' : (D : ℝ) ≠ 0 := by exact_mod_cast hD.ne'
  have hV := virtual_lattice h hn hi
  have hgrad : ∀ c : ℝ, ∑ v ∈ lat D S.env.re h, (weight S.env.re (len (node S.env.l0 v)) / len (node S.env.l0 v) ^ 2 *
      (c + prod g (node S.env.l0 v))) • node S.env.l0 v = (S.env.n0 / D) • g := by
    intro c
    rw [lat_gradient h hD (fun r => weight S.env.re r / r ^ 2) c g, weight_sum h hn]
  unfold Setting.push
  split
  · rename_i hgc
    have hf : S.forceGc s i = g := by
      unfold Setting.forceGc
      simp only
      rw [if_neg hV, add_zero, nearSolid_lattice hi, correction_lattice h hD hn0 hn hi]
      have e : ∑ j ∈ S.near s.x i, ((if S.cfg.midpoint then s.p j + s.p i else s.p j - s.p i) / len (s.x j - s.x i) ^ 2 *
            weight S.env.re (len (s.x j - s.x i))) • ((D / S.env.n0) • (1 : Matrix (Fin D) (Fin D) ℝ)).mulVec (s.x j - s.x i)
          = (D / S.env.n0) • ∑ j ∈ S.near s.x i, (fun d => (weight S.env.re (len d) / len d ^ 2 *
            ((if S.cfg.midpoint then 2 * s.p i else 0) + prod g d)) • d) (s.x j - s.x i) := by
        rw [Finset.smul_sum]
        refine Finset.sum_congr rfl (fun j hj => ?_)
        rw [Matrix.smul_mulVec, Matrix.one_mulVec, hp j hj, smul_smul, smul_smul]
        congr 1
        split <;> ring
      rw [e, near_lattice h hi (fun d => (weight S.env.re (len d) / len d ^ 2 *
            ((if S.cfg.midpoint then 2 * s.p i else 0) + prod g d)) • d), hgrad, smul_smul]
      have : (D : ℝ) / S.env.n0 * (S.env.n0 / D) = 1 := by field_simp
      rw [this, one_smul]
    rw [hf, hd hgc, neg_smul]
    congr 2
    field_simp
  · have hf : S.force s i = (S.env.n0 / D) • g := by
      unfold Setting.force
      rw [if_neg hV, add_zero, nearSolid_lattice hi]
      have e : ∑ j ∈ S.near s.x i, ((s.p j + s.p i) / len (s.x j - s.x i) ^ 2 * weight S.env.re (len (s.x j - s.x i))) • (s.x j - s.x i)
          = ∑ j ∈ S.near s.x i, (fun d => (weight S.env.re (len d) / len d ^ 2 * (2 * s.p i + prod g d)) • d) (s.x j - s.x i) := by
        refine Finset.sum_congr rfl (fun j hj => ?_)
        rw [hp j hj]
        congr 1
        ring
      rw [e, near_lattice h hi (fun d => (weight S.env.re (len d) / len d ^ 2 * (2 * s.p i + prod g d)) • d), hgrad]
    rw [hf, smul_smul, neg_mul, neg_smul]
    congr 2
    field_simp

/-- Second radial moment of the Laplacian's coefficients. -/
theorem laplace_second (h : 0 < S.env.l0) (hD : 0 < D) (hn0 : 0 < S.env.n0) (hlam : S.env.lambda ≠ 0)
    (hn : S.env.lambda = (∑ v ∈ lat D S.env.re h, weight S.env.re (len (node S.env.l0 v)) * len (node S.env.l0 v) ^ 2) / S.env.n0) :
    (∑ v ∈ lat D S.env.re h, S.laplace (len (node S.env.l0 v)) * len (node S.env.l0 v) ^ 2) / D = 2 * S.laplaceFactor := by
  have hD' : (D : ℝ) ≠ 0 := by exact_mod_cast hD.ne'
  unfold Setting.laplaceFactor Setting.laplace
  split
  · rw [sum_mem_lattice h (fun v => 1 / len (node S.env.l0 v)), Finset.mul_sum, Finset.sum_div, Finset.mul_sum]
    refine Finset.sum_congr rfl (fun v hv => ?_)
    have := lat_len_pos h hv
    field_simp
  · have e : ∑ v ∈ lat D S.env.re h, 2 * (D : ℝ) / (S.env.lambda * S.env.n0) * weight S.env.re (len (node S.env.l0 v)) * len (node S.env.l0 v) ^ 2
        = 2 * (D : ℝ) / (S.env.lambda * S.env.n0) * ∑ v ∈ lat D S.env.re h, weight S.env.re (len (node S.env.l0 v)) * len (node S.env.l0 v) ^ 2 := by
      rw [Finset.mul_sum]; exact Finset.sum_congr rfl (fun v _ => by ring)
    have e2 : ∑ v ∈ lat D S.env.re h, weight S.env.re (len (node S.env.l0 v)) * len (node S.env.l0 v) ^ 2 = S.env.lambda * S.env.n0 := by
      rw [eq_div_iff hn0.ne'] at hn; exact hn.symm
    rw [e, e2]
    field_simp

/-- The Laplacian of a quadratic function on the lattice. -/
theorem laplace_quadratic (h : 0 < S.env.l0) (hD : 0 < D) (hn0 : 0 < S.env.n0) (hlam : S.env.lambda ≠ 0)
    (hn : S.env.lambda = (∑ v ∈ lat D S.env.re h, weight S.env.re (len (node S.env.l0 v)) * len (node S.env.l0 v) ^ 2) / S.env.n0)
    (hi : S.InLattice x i) {q : ℕ → ℝ} {g : Fin D → ℝ} {H : Matrix (Fin D) (Fin D) ℝ}
    (hq : ∀ j ∈ S.near x i, q j = quadratic (q i) g H (x j - x i)) :
    ∑ j ∈ S.near x i, S.laplace (len (x j - x i)) * (q j - q i) = S.laplaceFactor * H.trace := by
  have e : ∑ j ∈ S.near x i, S.laplace (len (x j - x i)) * (q j - q i) = ∑ j ∈ S.near x i,
      (fun d => S.laplace (len d) * prod g d + 1 / 2 * (S.laplace (len d) * prod d (H.mulVec d))) (x j - x i) := by
    refine Finset.sum_congr rfl (fun j hj => ?_)
    rw [hq j hj]
    unfold quadratic
    ring
  rw [e, near_lattice h hi (fun d => S.laplace (len d) * prod g d + 1 / 2 * (S.laplace (len d) * prod d (H.mulVec d))),
    Finset.sum_add_distrib, ← Finset.mul_sum, lat_linear h S.laplace g, lat_quadratic h hD S.laplace H, laplace_second h hD hn0 hlam hn]
  ring

end

/-- What the constructor guarantees for the setting of a step. -/
theorem setting_lattice {P : Params ℝ D ω} {cfg : Config} {args : EnvArgs ℝ D} {env : Env ℝ D} {w : ω} {s0 s : State ℝ D ω} {dts : List ℝ}
    (hmk : Env.mk? cfg args = some env) (hl : 0 < args.l0) (hR : 1 < args.reByL0) (hD : 0 < D)
    (hnew : State.new? env w = some s0) (hist : Hist P s0 dts s) (dt : ℝ) :
    ∃ h : 0 < (setting P s dt).env.l0, 0 < (setting P s dt).env.n0 ∧ (setting P s dt).env.lambda ≠ 0 ∧
      (setting P s dt).env.n0 = ∑ v ∈ lat D (setting P s dt).env.re h, weight (setting P s dt).env.re (len (node (setting P s dt).env.l0 v)) ∧
      (setting P s dt).env.lambda = (∑ v ∈ lat D (setting P s dt).env.re h, weight (setting P s dt).env.re (len (node (setting P s dt).env.l0 v)) *
        len (node (setting P s dt).env.l0 v) ^ 2) / (setting P s dt).env.n0 := by
  have hc := hist_consts hnew hist
  have hl' : 0 < env.l0 := by rw [(envmk_real hmk).2.2.2.2.2.1]; exact hl
  obtain ⟨h1, h2⟩ := mk_lattice hmk hl'
  obtain ⟨k1, -, k3⟩ := C28_n0_positive_iff hmk hl hD
  have he : (setting P s dt).env = { env with t := s.env.t + dt, dt := dt } := by
    change { s.env with dt := dt, t := s.env.t + dt } = _
    conv_lhs => rw [hc]
  rw [he]
  exact ⟨hl', k1.mpr hR, (lt_of_lt_of_le (by positivity) (k3 hR).1).ne', h1, h2⟩

/-- **C58.**  The pressure gradient is exact on the reference lattice: if, at the pressure computation of a step, a fluid particle is surrounded by the
lattice of pitch `l_0` and the pressures of these particles depend linearly on the position, with gradient `g`, then the step changes its velocity by exactly
`-dt/rho g` (after viscosity and gravity), with every combination of options (`GC`, midpoint, `SPP`, ...), if dynamic stabilisation is off or
no particle is closer than its distance. -/
theorem C58_linear_pressure_accelerates_exactly {P : Params ℝ D ω} {cfg : Config} {args : EnvArgs ℝ D} {env : Env ℝ D} {w : ω}
    {s0 s s' : State ℝ D ω} {dts : List ℝ} (hD : D = 2 ∨ D = 3) (hmk : Env.mk? cfg args = some env) (hl : 0 < args.l0) (hR : 1 < args.reByL0)
    (hnew : State.new? env w = some s0) (hist : Hist P s0 dts s) (hok : s0.grid.ClearOK) (hL : 0 < env.neighborLength)
    (sch : Schedule) (hv : sch.Valid s.n) (dt : ℝ) (h : s.forwardTime P sch dt = .ok s') {i : ℕ} (hi : i < s.n)
    (hf : (s'.ps i).ty = .incompressibleNewton) {g : Fin D → ℝ} :
    let S := setting P s dt
    let m : Scene D := { S.predict (scene s) with p := fun j => (s'.ps j).p }
    S.InLattice m.x i → (∀ j ∈ S.near m.x i, (s'.ps j).p = (s'.ps i).p + prod g (m.x j - m.x i)) →
    (P.cfg.ds = true → let a := S.kick (S.push m) m
      ∀ j ∈ S.nearSolid a.x i, (env.l0 - env.maxDx) ^ 2 ≤ len (a.x j - a.x i) ^ 2) →
    (s'.ps i).u = m.u i - (dt / env.rho) • g ∧ (s'.ps i).x = m.x i - (dt ^ 2 / env.rho) • g := by
  classical
  intro S m hlat hp hds
  have hD0 : 0 < D := by omega
  have hre : 0 ≤ env.re := by rw [(envmk_real hmk).1]; exact mul_nonneg (by linarith) hl.le
  obtain ⟨hl0, hn0, hlam, hn, -⟩ := setting_lattice (P := P) hmk hl hR hD0 hnew hist dt
  have hc := hist_consts hnew hist
  have hrho : S.env.rho = env.rho := by change s.env.rho = _; rw [hc]
  have hl0e : S.env.l0 = env.l0 := by change s.env.l0 = _; rw [hc]
  have hmdx : S.env.maxDx = env.maxDx := by change s.env.maxDx = _; rw [hc]
  have hdt : S.env.dt = dt := rfl
  obtain ⟨hty, p, hpr, ha⟩ := C42_step_computes_the_reference_formulas hD hnew hist hok hL hre sch hv dt h
  have hfl : S.Fluid i := by unfold Setting.Fluid; rw [← hty i hi]; exact hf
  have hpe : ∀ j, j < s.n → p j = (s'.ps j).p := fun j hj => (ha j hj).2.2.1.symm
  set q : Scene D := { S.predict (scene s) with p := p } with hq
  have hdens : q.dens i = S.env.n0 := by
    change S.reported (S.predict (scene s)).x (scene s).dens i = _
    unfold Setting.reported
    rw [if_pos ⟨by rw [hfl]; decide, by rw [hfl]; decide⟩]
    have : S.density (S.predict (scene s)).x i = S.env.n0 := density_lattice hl0 hn hlat
    rw [this, max_self, ite_self]
  have hpush : S.push q i = -((S.env.dt / S.env.rho) • g) := by
    refine push_lattice (S := S) (s := q) hl0 hD0 hn0 hn hlat (fun _ => hdens) ?_
    intro j hj
    have hjn : j < s.n := near_lt hj
    change p j = p i + _
    rw [hpe j hjn, hpe i hi]
    exact hp j hj
  have hpm : ∀ j, j < S.n → S.push q j = S.push m j := by
    intro j hj
    have hs : ∀ k ∈ S.nearSolid (S.predict (scene s)).x j, p k = (s'.ps k).p := by
      intro k hk; exact hpe k (near_lt (mem_nearSolid.mp hk).1)
    unfold Setting.push
    have e1 : S.forceGc q j = S.forceGc m j := by
      unfold Setting.forceGc
      simp only
      rw [show q.p j = m.p j from hpe j hj]
      congr 1
      refine Finset.sum_congr rfl (fun k hk => ?_)
      rw [show q.p k = m.p k from hs k hk]
      rfl
    have e2 : S.force q j = S.force m j := by
      unfold Setting.force
      rw [show q.p j = m.p j from hpe j hj]
      congr 1
      refine Finset.sum_congr rfl (fun k hk => ?_)
      rw [show q.p k = m.p k from hs k hk]
    rw [e1, e2]
  have hfin : (S.finish q).u i = q.u i + S.push q i ∧ (S.finish q).x i = q.x i + S.env.dt • S.push q i := by
    have hk : (S.kick (S.push q) q).u i = q.u i + S.push q i ∧ (S.kick (S.push q) q).x i = q.x i + S.env.dt • S.push q i := by
      unfold Setting.kick
      simp only
      rw [if_pos hfl, if_pos hfl]
      exact ⟨rfl, rfl⟩
    unfold Setting.finish
    simp only
    split
    · rename_i hd
      have hz : S.stabilise q.x (S.kick (S.push q) q) i = 0 := by
        unfold Setting.stabilise
        simp only
        have hx : ∀ j, j < S.n → (S.kick (S.push q) q).x j = (S.kick (S.push m) m).x j := by
          intro j hj
          unfold Setting.kick
          simp only
          rw [hpm j hj]
        rw [Finset.sum_eq_zero, smul_zero]
        intro j hj
        have hjn : j < S.n := near_lt (mem_nearSolid.mp hj).1
        have hj' : j ∈ S.nearSolid (S.kick (S.push m) m).x i := by
          rw [mem_nearSolid, mem_near_ref] at hj ⊢
          rw [hx j hjn, hx i hi] at hj
          exact hj
        have := hds hd j hj'
        rw [if_neg]
        rw [hx j hjn, hx i hi, hl0e, hmdx]
        exact not_lt.mpr this
      generalize hk2 : S.kick (S.push q) q = k at hz hk ⊢
      constructor
      · rw [← hk.1]
        unfold Setting.kick
        simp only
        rw [if_pos hfl, hz, add_zero]
      · rw [← hk.2]
        unfold Setting.kick
        simp only
        rw [if_pos hfl, hz, smul_zero, add_zero]
    · exact hk
  obtain ⟨a1, a2, -, -⟩ := ha i hi
  constructor
  · change (scene s').u i = _
    rw [a2, hfin.1, hpush, hdt, hrho, sub_eq_add_neg]
  · change (scene s').x i = _
    rw [a1, hfin.2, hpush, hdt, hrho, smul_neg, smul_smul, sub_eq_add_neg]
    congr 3
    ring

/-- **C58.**  Viscosity on the reference lattice: if, at the beginning of a step, a fluid particle is surrounded by the lattice and the components of
the velocity are polynomials of degree two in the position there, the first stage of the step accelerates it by `nu` times the Laplacian of the velocity
(the trace of the second derivatives), times 1 for the standard Laplacian or the factor of `HL`, plus gravity.  In particular uniform flow and
shear flow (`H = 0`) feel no viscosity. -/
theorem C58_viscosity_is_the_laplacian {P : Params ℝ D ω} {cfg : Config} {args : EnvArgs ℝ D} {env : Env ℝ D} {w : ω}
    {s0 s : State ℝ D ω} {dts : List ℝ} (hD : D = 2 ∨ D = 3) (hmk : Env.mk? cfg args = some env) (hl : 0 < args.l0) (hR : 1 < args.reByL0)
    (hnew : State.new? env w = some s0) (hist : Hist P s0 dts s) (dt : ℝ) {i : ℕ} {g : Fin D → Fin D → ℝ} {H : Fin D → Matrix (Fin D) (Fin D) ℝ} :
    let S := setting P s dt
    S.Fluid i → S.InLattice (scene s).x i →
    (∀ j ∈ S.near (scene s).x i, ∀ a, (s.ps j).u a = quadratic ((s.ps i).u a) (g a) (H a) ((s.ps j).x - (s.ps i).x)) →
    (S.predict (scene s)).u i = (s.ps i).u + dt • ((fun a => env.nu * S.laplaceFactor * (H a).trace) + S.gravity (s.ps i).x) := by
  intro S hf hlat hu
  have hD0 : 0 < D := by omega
  obtain ⟨hl0, hn0, hlam, hn, hln⟩ := setting_lattice (P := P) hmk hl hR hD0 hnew hist dt
  have hc := hist_consts hnew hist
  have hnu : S.env.nu = env.nu := by change s.env.nu = _; rw [hc]
  unfold Setting.predict
  simp only
  rw [if_pos hf]
  unfold Setting.acceleration
  change (s.ps i).u + dt • _ = _
  congr 3
  funext a
  rw [Pi.smul_apply, Finset.sum_apply, nearSolid_lattice hlat, hnu, smul_eq_mul, mul_assoc]
  congr 1
  exact laplace_quadratic (S := S) hl0 hD0 hn0 hlam hln hlat (q := fun j => (s.ps j).u a) (fun j hj => hu j hj a)

/-- **C58.**  The pressure equation on the reference lattice: left-hand side and (with `HS`) right-hand side.  For a particle surrounded by the lattice
(none of them at the surface) the discrete Laplacian of a polynomial of degree two is its Laplacian (times the factor of `HL`), and the rate of change of the
density in a flow that is linear in the position is a negative multiple of the divergence. -/
theorem C58_pressure_equation_on_the_lattice {P : Params ℝ D ω} {cfg : Config} {args : EnvArgs ℝ D} {env : Env ℝ D} {w : ω}
    {s0 s : State ℝ D ω} {dts : List ℝ} (hD : D = 2 ∨ D = 3) (hmk : Env.mk? cfg args = some env) (hl : 0 < args.l0) (hR : 1 < args.reByL0)
    (hnew : State.new? env w = some s0) (hist : Hist P s0 dts s) (dt : ℝ) {i : ℕ} {m : Scene D} :
    let S := setting P s dt
    S.InLattice m.x i →
    (∀ (q : ℕ → ℝ) (g : Fin D → ℝ) (H : Matrix (Fin D) (Fin D) ℝ), (∀ j ∈ S.near m.x i, ¬ S.Surface m.dens j) →
      (∀ j ∈ S.near m.x i, q j = quadratic (q i) g H (m.x j - m.x i)) → S.laplacian m q i = S.laplaceFactor * H.trace) ∧
    (∀ A : Matrix (Fin D) (Fin D) ℝ, P.cfg.hs = true → (∀ j ∈ S.near m.x i, m.u j - m.u i = A.mulVec (m.x j - m.x i)) →
      S.rate m.x m.u m.dens i = -(env.re / D * ∑ᶠ v ∈ lattice D env.l0 env.re, 1 / len (node env.l0 v)) * A.trace) := by
  classical
  intro S hlat
  have hD0 : 0 < D := by omega
  obtain ⟨hl0, hn0, hlam, hn, hln⟩ := setting_lattice (P := P) hmk hl hR hD0 hnew hist dt
  have hc := hist_consts hnew hist
  constructor
  · intro q g H hns hq
    unfold Setting.laplacian
    rw [if_neg (virtual_lattice (S := S) hl0 hn hlat), add_zero, nearSolid_lattice hlat]
    rw [← laplace_quadratic (S := S) hl0 hD0 hn0 hlam hln hlat hq]
    exact Finset.sum_congr rfl (fun j hj => by rw [if_neg (hns j hj)])
  · intro A hhs hA
    have hre : S.env.re = env.re := by change s.env.re = _; rw [hc]
    have hl0e : S.env.l0 = env.l0 := by change s.env.l0 = _; rw [hc]
    unfold Setting.rate
    rw [if_pos (show S.cfg.hs = true from hhs), if_neg (by
      rintro ⟨-, k⟩
      rw [density_lattice (S := S) hl0 hn hlat] at k
      exact lt_irrefl _ k)]
    have e : ∑ j ∈ S.near m.x i, prod (m.x j - m.x i) (m.u j - m.u i) / len (m.x j - m.x i) ^ 3 =
        ∑ j ∈ S.near m.x i, (fun d => 1 / len d ^ 3 * prod d (A.mulVec d)) (m.x j - m.x i) := by
      refine Finset.sum_congr rfl (fun j hj => ?_)
      rw [hA j hj]; ring
    rw [e, near_lattice (S := S) hl0 hlat (fun d => 1 / len d ^ 3 * prod d (A.mulVec d)), lat_quadratic hl0 hD0 (fun r => 1 / r ^ 3) A]
    have e2 : ∑ v ∈ lat D S.env.re hl0, 1 / len (node S.env.l0 v) ^ 3 * len (node S.env.l0 v) ^ 2 = ∑ᶠ v ∈ lattice D env.l0 env.re, 1 / len (node env.l0 v) := by
      rw [← hre, ← hl0e, sum_mem_lattice hl0 (fun v => 1 / len (node S.env.l0 v))]
      refine Finset.sum_congr rfl (fun v hv => ?_)
      have := lat_len_pos hl0 hv
      field_simp
    rw [e2, hre]
    ring

end OpenMps
