import Verif.Lemmas.Ppe
import Verif.Lemmas.Before
import Verif.Props.Lattice
import Verif.Props.Density
import Verif.Props.Solver
import Mathlib.Logic.Relation

/-! # Properties C24 and C27 (the pressure equation) -/

set_option linter.unusedSectionVars false

namespace OpenMps

variable {D : Nat} {ω : Type}

/-- Particles with a pressure equation of their own: not dummy, not disabled, and (without SPP) not at the surface. -/
def HasEquation (cfg : Config) (s : State ℝ D ω) (i : Nat) : Prop :=
  i < s.n ∧ (s.ps i).ty ≠ .dummy ∧ (s.ps i).ty ≠ .disabled ∧
    (cfg.spp = true ∨ s.env.surfaceRatio ≤ (s.ps i).n / s.env.n0)

theorem hasEquation_iff (cfg : Config) (s : State ℝ D ω) (i : Nat) :
    HasEquation cfg s i ↔ i < s.n ∧ s.fixedRow cfg i = false := by
  unfold HasEquation State.fixedRow State.isSurface
  simp only [lt_real, Bool.or_eq_false_iff, decide_eq_false_iff_not, Bool.and_eq_false_iff, Bool.not_eq_false', not_lt, and_assoc]

/-- Positive parameters. -/
structure Env.Positive (e : Env ℝ D) : Prop where
  re : 0 < e.re
  n0 : 0 < e.n0
  lambda : 0 < e.lambda

/-- No two interacting particles are at the same place. -/
def Separated (s : State ℝ D ω) : Prop :=
  ∀ i j, i < s.n → j < s.n → i ≠ j → (s.ps i).ty ≠ .disabled → (s.ps j).ty ≠ .disabled → (s.ps i).x ≠ (s.ps j).x

theorem coef_pos {cfg : Config} {s : State ℝ D ω} (hD : 0 < D ∧ D < 5) (he : s.env.Positive) {r : ℝ} (h0 : 0 < r) (h1 : r < s.env.re) :
    0 < s.coef cfg r := by
  obtain ⟨hre, hn0, hl⟩ := he
  unfold State.coef
  split
  · have : (0 : ℝ) < Scalar.ofInt ((5 - D : Nat) : Int) := by
      rw [ofInt_real]
      have : 0 < 5 - D := by omega
      exact_mod_cast this
    have h3 : 0 < r * r * r := by positivity
    change 0 < Scalar.ofInt ((5 - D : Nat) : Int) * s.env.re / s.env.n0 / (r * r * r)
    positivity
  · have : (0 : ℝ) < Scalar.ofInt ((2 * D : Nat) : Int) := by
      rw [ofInt_real]
      have : 0 < 2 * D := by omega
      exact_mod_cast this
    have hW := W_pos h0 h1
    change 0 < Scalar.ofInt ((2 * D : Nat) : Int) / s.env.lambda / s.env.n0 * W r s.env.re
    positivity

theorem near_coef_pos {cfg : Config} {s : State ℝ D ω} (h : NbrOK s) (hD : 0 < D ∧ D < 5) (he : s.env.Positive) (hsep : Separated s)
    {i j : Nat} (hi : i < s.n) (hd : (s.ps i).ty ≠ .disabled) (hj : j ∈ s.near i) : 0 < s.coef cfg (dist (s.ps i).x (s.ps j).x) := by
  obtain ⟨a, b, c⟩ := h.near_ne hi hd hj
  refine coef_pos hD he (dist_pos' (hsep i j hi a b.symm hd c)) ?_
  rw [dist_comm']; exact (mem_near.mp hj).2.2

/-- The virtual particle is at the distance `r_e / (n0 - n + 1)`. -/
theorem spp_dist {s : State ℝ D ω} {i : Nat} {v : Vec ℝ D} {q : Particle ℝ D} (h : s.sppParticle i v = some q) (hre : 0 < s.env.re) :
    dist (s.ps i).x q.x = s.env.re / (s.env.n0 - s.nNoSpp i + 1) ∧ s.nNoSpp i < s.env.n0 := by
  unfold State.sppParticle at h
  simp only at h
  split at h
  · rename_i h1
    rw [lt_real_iff] at h1
    split at h
    · rename_i h2
      rw [lt_real_iff] at h2
      injection h with h
      refine ⟨?_, h1⟩
      rw [← h]
      simp only
      set g := vdiv v s.env.n0 with hg
      have hrg : 0 < Scalar.sqrt (dot g g) := lt_trans (by change (0 : ℝ) < 1 / 2 ^ 52; positivity) h2
      have hw : 0 < s.env.n0 - s.nNoSpp i + 1 := by linarith
      have hq : 0 < s.env.re / (s.env.n0 - s.nNoSpp i + 1) / Scalar.sqrt (dot g g) := by positivity
      have hcc : ∀ c : ℝ, dot (smul c g) (smul c g) = c * c * dot g g := by
        intro c; rw [dot_smul_left, dot_comm, dot_smul_left, mul_assoc]
      rw [dist_def, sub_sub_cancel, hcc, Real.sqrt_mul (mul_self_nonneg _), Real.sqrt_mul_self_eq_abs, abs_of_pos hq]
      exact div_mul_cancel₀ _ hrg.ne'
    · cases h
  · cases h

theorem spp_coef_pos {cfg : Config} {s : State ℝ D ω} (hD : 0 < D ∧ D < 5) (he : s.env.Positive) {i : Nat} {q : Particle ℝ D} {v : Vec ℝ D}
    (h : s.sppParticle i v = some q) : 0 < s.coef cfg (dist (s.ps i).x q.x) := by
  obtain ⟨a, b⟩ := spp_dist h he.re
  have hw : 1 < s.env.n0 - s.nNoSpp i + 1 := by linarith
  have := he.re
  rw [a]
  refine coef_pos hD he (by positivity) ?_
  rw [div_lt_iff₀ (by linarith)]
  nlinarith

theorem sppWeight_nonneg {cfg : Config} {s : State ℝ D ω} (hD : 0 < D ∧ D < 5) (he : s.env.Positive) (i : Nat) : 0 ≤ s.sppWeight cfg i := by
  unfold State.sppWeight State.sppTerm
  split
  · cases hq : s.sppParticle i (s.dxg i) with
    | none => exact le_refl _
    | some q => exact (spp_coef_pos hD he hq).le
  · exact le_refl _

/-! ## The quadratic form -/

section
variable (cfg : Config) (s : State ℝ D ω)

/-- Numbers of the particles with an equation. -/
noncomputable def State.eqs : Finset Nat := (Finset.range s.n).filter (fun i => s.fixedRow cfg i = false)

/-- Near particles with an equation. -/
noncomputable def State.nearEqs (i : Nat) : Finset Nat := (s.near i).filter (fun j => s.fixedRow cfg j = false)

/-- Weight with which the pressure of a particle is tied to zero: virtual particle and near surface particles. -/
noncomputable def State.anchor (i : Nat) : ℝ :=
  ∑ k ∈ (s.near i).filter (fun k => (s.ps k).ty ≠ .dummy ∧ s.fixedRow cfg k = true), s.coef cfg (dist (s.ps i).x (s.ps k).x)
    + s.sppWeight cfg i

end

section
variable {cfg : Config} {s : State ℝ D ω}

theorem mem_eqs {i : Nat} : i ∈ s.eqs cfg ↔ i < s.n ∧ s.fixedRow cfg i = false := by simp [State.eqs]

theorem mem_nearEqs {i j : Nat} : j ∈ s.nearEqs cfg i ↔ j ∈ s.near i ∧ s.fixedRow cfg j = false := by simp [State.nearEqs]

theorem eqs_enabled {i : Nat} (h : i ∈ s.eqs cfg) : (s.ps i).ty ≠ .disabled := (not_fixed (mem_eqs.mp h).2).2.1

theorem nearEqs_sub : ∀ i ∈ s.eqs cfg, s.nearEqs cfg i ⊆ s.eqs cfg := by
  intro i hi j hj
  rw [mem_nearEqs] at hj
  exact mem_eqs.mpr ⟨(mem_near.mp hj.1).1, hj.2⟩

theorem nearEqs_symm (h : NbrOK s) : ∀ i ∈ s.eqs cfg, ∀ j ∈ s.eqs cfg, j ∈ s.nearEqs cfg i ↔ i ∈ s.nearEqs cfg j := by
  intro i hi j hj
  rw [mem_nearEqs, mem_nearEqs, h.near_symm (mem_eqs.mp hi).1 (mem_eqs.mp hj).1 (eqs_enabled hi) (eqs_enabled hj)]
  exact ⟨fun k => ⟨k.1, (mem_eqs.mp hi).2⟩, fun k => ⟨k.1, (mem_eqs.mp hj).2⟩⟩

/-- The diagonal splits into interactions with particles that have an equation, and the anchor. -/
theorem diag_split (i : Nat) :
    ∑ k ∈ (s.near i).filter (fun k => (s.ps k).ty ≠ .dummy), s.coef cfg (dist (s.ps i).x (s.ps k).x) + s.sppWeight cfg i
      = ∑ j ∈ s.nearEqs cfg i, s.coef cfg (dist (s.ps i).x (s.ps j).x) + s.anchor cfg i := by
  unfold State.anchor
  rw [← add_assoc]
  congr 1
  rw [← Finset.sum_filter_add_sum_filter_not ((s.near i).filter (fun k => (s.ps k).ty ≠ .dummy)) (fun k => s.fixedRow cfg k = false)]
  rw [Finset.filter_filter, Finset.filter_filter]
  congr 1
  · apply Finset.sum_congr _ (fun _ _ => rfl)
    ext j
    rw [Finset.mem_filter, mem_nearEqs]
    constructor
    · rintro ⟨a, b, c⟩; exact ⟨a, c⟩
    · rintro ⟨a, c⟩; exact ⟨a, (not_fixed c).1, c⟩
  · apply Finset.sum_congr _ (fun _ _ => rfl)
    ext j
    rw [Finset.mem_filter, Finset.mem_filter]
    simp

variable {schB schA : List Ev}

theorem applyMat_free (h : NbrOK s) (hre : 0 ≤ s.env.re) (hB : ValidSched s.n schB) (hA : ValidSched s.n schA) (v : Nat → ℝ) {i : Nat}
    (hi : i ∈ s.eqs cfg) :
    applyMat s.n (s.setPpe cfg schB schA).ppe.A v i
      = ∑ j ∈ s.nearEqs cfg i, s.coef cfg (dist (s.ps i).x (s.ps j).x) * (v j - v i) - s.anchor cfg i * v i := by
  obtain ⟨hin, hf⟩ := mem_eqs.mp hi
  unfold applyMat
  rw [← Finset.add_sum_erase _ _ (Finset.mem_range.mpr hin), entry_diag cfg h hre hB hA hin hf]
  have hsub : s.nearEqs cfg i ⊆ (Finset.range s.n).erase i := by
    intro j hj
    rw [mem_nearEqs] at hj
    obtain ⟨a, b, c⟩ := h.near_ne hin (eqs_enabled hi) hj.1
    exact Finset.mem_erase.mpr ⟨b, Finset.mem_range.mpr a⟩
  have e1 : ∑ j ∈ (Finset.range s.n).erase i, entry (s.setPpe cfg schB schA).ppe.A i j * v j
      = ∑ j ∈ s.nearEqs cfg i, s.coef cfg (dist (s.ps i).x (s.ps j).x) * v j := by
    rw [← Finset.sum_subset hsub]
    · apply Finset.sum_congr rfl
      intro j hj
      have hji := (Finset.mem_erase.mp (hsub hj)).1
      rw [entry_off cfg h hre hB hA hin hf hji, if_pos (mem_nearEqs.mp hj)]
    · intro j hj hnj
      have hji := (Finset.mem_erase.mp hj).1
      rw [entry_off cfg h hre hB hA hin hf hji, if_neg (fun hc => hnj (mem_nearEqs.mpr hc)), zero_mul]
  rw [e1]
  have e2 := diag_split (s := s) i (cfg := cfg)
  have e3 : -(∑ k ∈ (s.near i).filter (fun k => (s.ps k).ty ≠ .dummy), s.coef cfg (dist (s.ps i).x (s.ps k).x)) - s.sppWeight cfg i
      = -(∑ j ∈ s.nearEqs cfg i, s.coef cfg (dist (s.ps i).x (s.ps j).x)) - s.anchor cfg i := by linarith
  rw [e3]
  simp only [mul_sub, Finset.sum_sub_distrib]
  rw [← Finset.sum_mul]
  ring

theorem applyMat_fixed (hB : ValidSched s.n schB) (hA : ValidSched s.n schA) (v : Nat → ℝ) {i : Nat} (hi : i < s.n)
    (hf : s.fixedRow cfg i = true) : applyMat s.n (s.setPpe cfg schB schA).ppe.A v i = v i := by
  unfold applyMat
  simp only [entry_fixed cfg hB hA hi hf]
  simp [Finset.sum_ite_eq, hi]

/-- The quadratic form of the matrix. -/
theorem quadForm_ppe (h : NbrOK s) (hre : 0 ≤ s.env.re) (hB : ValidSched s.n schB) (hA : ValidSched s.n schA) (v : Nat → ℝ)
    (hv : ∀ i, i < s.n → s.fixedRow cfg i = true → v i = 0) :
    quadForm s.n (s.setPpe cfg schB schA).ppe.A v
      = -(1 / 2 * ∑ i ∈ s.eqs cfg, ∑ j ∈ s.nearEqs cfg i, s.coef cfg (dist (s.ps i).x (s.ps j).x) * (v i - v j) ^ 2)
        - ∑ i ∈ s.eqs cfg, s.anchor cfg i * v i ^ 2 := by
  unfold quadForm
  have h1 : ∑ i ∈ Finset.range s.n, v i * applyMat s.n (s.setPpe cfg schB schA).ppe.A v i
      = ∑ i ∈ s.eqs cfg, v i * applyMat s.n (s.setPpe cfg schB schA).ppe.A v i := by
    unfold State.eqs
    rw [Finset.sum_filter_of_ne]
    intro i hi hne
    by_contra hc
    exact hne (by rw [hv i (Finset.mem_range.mp hi) (by simpa using hc)]; simp)
  rw [h1]
  have h2 : ∑ i ∈ s.eqs cfg, v i * applyMat s.n (s.setPpe cfg schB schA).ppe.A v i
      = ∑ i ∈ s.eqs cfg, ∑ j ∈ s.nearEqs cfg i, s.coef cfg (dist (s.ps i).x (s.ps j).x) * (v i * (v j - v i))
        - ∑ i ∈ s.eqs cfg, s.anchor cfg i * v i ^ 2 := by
    rw [← Finset.sum_sub_distrib]
    apply Finset.sum_congr rfl
    intro i hi
    rw [applyMat_free h hre hB hA v hi, mul_sub, Finset.mul_sum]
    congr 1
    · exact Finset.sum_congr rfl (fun j _ => by ring)
    · ring
  rw [h2]
  congr 1
  have h3 := sum_symm (s.eqs cfg) (s.nearEqs cfg) nearEqs_sub (nearEqs_symm h)
    (fun i j => s.coef cfg (dist (s.ps i).x (s.ps j).x) * (v i * (v j - v i)))
  have h4 : ∑ i ∈ s.eqs cfg, ∑ j ∈ s.nearEqs cfg i, s.coef cfg (dist (s.ps i).x (s.ps j).x) * (v i - v j) ^ 2
      = -(∑ i ∈ s.eqs cfg, ∑ j ∈ s.nearEqs cfg i, s.coef cfg (dist (s.ps i).x (s.ps j).x) * (v i * (v j - v i)))
        - ∑ i ∈ s.eqs cfg, ∑ j ∈ s.nearEqs cfg i, s.coef cfg (dist (s.ps j).x (s.ps i).x) * (v j * (v i - v j)) := by
    rw [← Finset.sum_neg_distrib, ← Finset.sum_sub_distrib]
    apply Finset.sum_congr rfl
    intro i _
    rw [← Finset.sum_neg_distrib, ← Finset.sum_sub_distrib]
    apply Finset.sum_congr rfl
    intro j _
    rw [dist_comm' (s.ps j).x]
    ring
  rw [h4, ← h3]
  ring

end


/-! ## The state at the pressure computation -/

/-- The constant parameters of the environment after any history. -/
theorem hist_consts {P : Params ℝ D ω} {env : Env ℝ D} {w : ω} {s0 s : State ℝ D ω} {dts : List ℝ}
    (hnew : State.new? env w = some s0) (hist : Hist P s0 dts s) : s.env = { env with t := s.env.t, dt := s.env.dt } := by
  refine Hist.rec' (Q := fun _ s => s.env = { env with t := s.env.t, dt := s.env.dt }) ?_ ?_ ?_ hist
  · unfold State.new? at hnew
    split at hnew
    · cases hnew
    · injection hnew with hnew; rw [← hnew]
  · intro _ _ _ _ h; exact h
  · intro _ _ _ _ _ _ h hv hl
    rw [(step_frame hv hl).2.1]
    rw [h]

/-- The neighbour table, size and parameters at the pressure computation. -/
theorem beforePressure_facts {P : Params ℝ D ω} {env : Env ℝ D} {w : ω} {s0 s t : State ℝ D ω} {dts : List ℝ}
    (hnew : State.new? env w = some s0) (hist : Hist P s0 dts s) (hok : s0.grid.ClearOK) (hL : 0 < env.neighborLength)
    {sch : Schedule} (hv : sch.Valid s.n) {dt : ℝ} (h : s.beforePressure P sch dt = .ok t) :
    NbrOK t ∧ t.n = s.n ∧ t.env = { env with t := t.env.t, dt := dt } := by
  obtain ⟨b0, b1, b2, b3, b4, b5, -⟩ := hist.built hnew
  obtain ⟨-, h2, -⟩ := hist.frame
  obtain ⟨s1, hs, rfl⟩ := beforePressure_midC hv h
  have hLs : 0 < (s.start dt).env.neighborLength := by change 0 < s.env.neighborLength; rw [b5]; exact hL
  have hN := nbrOK_of_search (s := s.start dt) (hv 0) (h2.clearOK.mpr hok) b0 b1 hLs hs
  obtain ⟨g0, g, nb, k1, k2, k3, k4, -⟩ := searchNeighbor_ok_frame (s := s.start dt) (hv 0) hs
  refine ⟨hN.congr (midC_n _ _) (midC_nbr _ _) (midC_ty P s1), ?_, ?_⟩
  · rw [midC_n, k3]; rfl
  · rw [midC_env, k3]
    change (s.start dt).env = { env with t := (s.start dt).env.t, dt := dt }
    change { s.env with dt := dt, t := s.env.t + dt } = { env with t := s.env.t + dt, dt := dt }
    conv_lhs => rw [hist_consts hnew hist]

/-! ## Independent specification of the coefficients -/

/-- The coefficient of the Laplacian for a distance `r`: `(5-D) r_e / (n0 r^3)` for the high-order Laplacian, else
`2 D / (lambda n0) (r_e / r - 1)`. -/
noncomputable def laplacianWeight (cfg : Config) (env : Env ℝ D) (r : ℝ) : ℝ :=
  if cfg.hl then (5 - D) * env.re / (env.n0 * r ^ 3) else 2 * D / (env.lambda * env.n0) * (env.re / r - 1)

/-- Particle `i` has a virtual free-surface particle: the weights of its near particles sum to less than `n0`, and its near particles are
on average displaced to one side. -/
def HasVirtual (t : State ℝ D ω) (i : Nat) : Prop :=
  ∑ j ∈ t.near i, W (dist (t.ps i).x (t.ps j).x) t.env.re < t.env.n0 ∧
  2⁻¹ ^ 52 < norm2 ((1 / t.env.n0) • ∑ j ∈ t.near i, W (dist (t.ps i).x (t.ps j).x) t.env.re • ((t.ps j).x - (t.ps i).x))

open Classical in
/-- The weight of the virtual particle, which is at the distance `r_e / (n0 - n + 1)`. -/
noncomputable def virtualWeight (cfg : Config) (t : State ℝ D ω) (i : Nat) : ℝ :=
  if cfg.spp = true ∧ HasVirtual t i then
    laplacianWeight cfg t.env (t.env.re / (t.env.n0 - ∑ j ∈ t.near i, W (dist (t.ps i).x (t.ps j).x) t.env.re + 1))
  else 0

theorem coef_eq_laplacianWeight (cfg : Config) (t : State ℝ D ω) (hD : D < 5) {r : ℝ} (h0 : 0 < r) (h1 : r < t.env.re) :
    t.coef cfg r = laplacianWeight cfg t.env r := by
  unfold State.coef laplacianWeight
  split
  · rw [ofInt_real]
    have : (((5 - D : Nat) : Int) : ℝ) = 5 - (D : ℝ) := by
      rw [Int.cast_natCast, Nat.cast_sub (by omega)]; norm_num
    rw [this]
    change (5 - (D : ℝ)) * t.env.re / t.env.n0 / (r * r * r) = _
    rw [div_div]; congr 2; ring
  · rw [ofInt_real, W_real, if_pos ⟨h0, h1⟩]
    have : (((2 * D : Nat) : Int) : ℝ) = 2 * (D : ℝ) := by push_cast; ring
    rw [this]
    change (2 * (D : ℝ)) / t.env.lambda / t.env.n0 * (t.env.re / r - 1) = _
    rw [div_div]

theorem sppParticle_isSome_iff (t : State ℝ D ω) (i : Nat) (v : Vec ℝ D) :
    (∃ q, t.sppParticle i v = some q) ↔ t.nNoSpp i < t.env.n0 ∧ 2⁻¹ ^ 52 < norm2 ((1 / t.env.n0) • v) := by
  have e : ∀ (d : Vec ℝ D), Scalar.sqrt (dot d d) = norm2 d := fun d => (norm2_real d).symm
  have e2 : vdiv v t.env.n0 = (1 / t.env.n0) • v := by
    funext a; change v a / t.env.n0 = 1 / t.env.n0 * v a; ring
  have e3 : (Scalar.epsilon : ℝ) = 2⁻¹ ^ 52 := by change (1 : ℝ) / 2 ^ 52 = _; norm_num
  unfold State.sppParticle
  simp only
  rw [e, e2]
  by_cases h1 : t.nNoSpp i < t.env.n0
  · rw [if_pos (lt_real_iff.mpr h1)]
    by_cases h2 : (2⁻¹ : ℝ) ^ 52 < norm2 ((1 / t.env.n0) • v)
    · rw [if_pos (by rw [lt_real_iff, e3]; exact h2)]
      exact ⟨fun _ => ⟨h1, h2⟩, fun _ => ⟨_, rfl⟩⟩
    · rw [if_neg (by rw [lt_real_iff, e3]; exact h2)]
      exact ⟨fun ⟨q, hq⟩ => (nomatch hq), fun h => absurd h.2 h2⟩
  · rw [if_neg (by rw [lt_real_iff]; exact h1)]
    exact ⟨fun ⟨q, hq⟩ => (nomatch hq), fun h => absurd h.1 h1⟩

/-- At the pressure computation the density buffer holds the weight sums of the current positions. -/
theorem midC_nNoSpp {P : Params ℝ D ω} {s1 : State ℝ D ω} (h : NbrOK (s1.midC P)) (hre : 0 ≤ s1.env.re) (hs : P.cfg.spp = true) (i : Nat)
    (hi : i < s1.n) (hty : ((s1.midC P).ps i).ty.active = true) :
    (s1.midC P).nNoSpp i = ∑ j ∈ (s1.midC P).near i, W (dist ((s1.midC P).ps i).x ((s1.midC P).ps j).x) (s1.midC P).env.re := by
  set t0 := (((((s1.densC P.cfg).ecsC P.cfg).duC (State.accelCompute P.cfg)).preC P.walls).moveC P.walls) with ht0
  have e : s1.midC P = (t0.densC P.cfg).saveX P.cfg := rfl
  have hx : ∀ k, ((s1.midC P).ps k).x = (t0.ps k).x := by
    intro k; rw [e, saveX_ps]; exact densC_x _ _ _
  have hty' : ∀ k, ((s1.midC P).ps k).ty = (t0.ps k).ty := by
    intro k; rw [e, saveX_ps]; exact densC_ty _ _ _
  have hn : (s1.midC P).n = t0.n := by rw [e, saveX_n]; rfl
  have hnb : (s1.midC P).nbr = t0.nbr := by rw [e, saveX_nbr]; rfl
  have henv : (s1.midC P).env = t0.env := by rw [e, saveX_env]; rfl
  have hN0 : NbrOK t0 := h.congr hn.symm hnb.symm (fun k => (hty' k).symm)
  have h1 : (s1.midC P).nNoSpp i = (t0.densC P.cfg).nNoSpp i := by rw [e, saveX_nNoSpp]
  rw [h1, densC_nNoSpp_real hN0 (by rw [← henv, midC_env]; exact hre) i (by rw [← hn, midC_n]; exact hi) (by rw [← hty']; exact hty) hs]
  unfold State.nearDensity
  have hnear : t0.near i = (s1.midC P).near i := by
    unfold State.near State.neighbors
    simp only [hn, hnb, henv, hx]
  rw [hnear]
  simp only [hx, henv]


/-- Same weight of the virtual particle. -/
theorem sppWeight_eq {P : Params ℝ D ω} {s1 : State ℝ D ω} (h : NbrOK (s1.midC P)) (hD : D < 5) (hre : 0 < s1.env.re) {i : Nat}
    (hi : i < s1.n) (hty : ((s1.midC P).ps i).ty.active = true) : (s1.midC P).sppWeight P.cfg i = virtualWeight P.cfg (s1.midC P) i := by
  set t := s1.midC P with ht
  have hret : 0 < t.env.re := by rw [ht, midC_env]; exact hre
  unfold State.sppWeight State.sppTerm virtualWeight
  cases hs : P.cfg.spp with
  | false => rw [if_neg (by decide), if_neg (fun hc => by cases hc.1)]
  | true =>
    rw [if_pos rfl]
    have hn := midC_nNoSpp h hre.le hs i hi hty
    rw [← ht] at hn
    have hdx : t.dxg i = ∑ j ∈ t.near i, W (dist (t.ps i).x (t.ps j).x) t.env.re • ((t.ps j).x - (t.ps i).x) := by
      unfold State.dxg
      apply Finset.sum_congr rfl
      intro j _
      rw [dist_comm' (t.ps j).x]; rfl
    have hiff := sppParticle_isSome_iff t i (t.dxg i)
    rw [hn, hdx] at hiff
    by_cases hV : HasVirtual t i
    · rw [if_pos ⟨rfl, hV⟩]
      obtain ⟨q, hq⟩ := hiff.mpr hV
      rw [hdx, hq]
      obtain ⟨d1, d2⟩ := spp_dist hq hret
      simp only
      rw [d1, hn]
      rw [hn] at d2
      have hw : 1 < t.env.n0 - ∑ j ∈ t.near i, W (dist (t.ps i).x (t.ps j).x) t.env.re + 1 := by linarith
      refine coef_eq_laplacianWeight _ _ hD (by positivity) ?_
      rw [div_lt_iff₀ (by linarith)]
      nlinarith
    · rw [if_neg (fun hc => hV hc.2), hdx]
      cases hq : t.sppParticle i (∑ j ∈ t.near i, W (dist (t.ps i).x (t.ps j).x) t.env.re • ((t.ps j).x - (t.ps i).x)) with
      | none => rfl
      | some q => exact absurd (hiff.mp ⟨q, hq⟩) hV

theorem hasEquation_active {cfg : Config} {t : State ℝ D ω} {i : Nat} (h : HasEquation cfg t i) : (t.ps i).ty.active = true := by
  unfold PType.active; simp [h.2.1, h.2.2.1]

theorem anchor_nonneg {cfg : Config} {s : State ℝ D ω} (h : NbrOK s) (hD : 0 < D ∧ D < 5) (he : s.env.Positive) (hsep : Separated s) {i : Nat}
    (hi : i ∈ s.eqs cfg) : 0 ≤ s.anchor cfg i := by
  unfold State.anchor
  refine add_nonneg (Finset.sum_nonneg ?_) (sppWeight_nonneg hD he i)
  intro k hk
  exact (near_coef_pos h hD he hsep (mem_eqs.mp hi).1 (eqs_enabled hi) (Finset.mem_filter.mp hk).1).le

/-- **C24.**  The coefficient matrix assembled in a step (after any history of calls; `t` is the state at that point, with the positions, types and
densities it is assembled from) when no two enabled particles are at the same place:
it is symmetric; the off-diagonal entry of two particles is not negative, it is different from zero exactly for interacting particles that both have an equation,
and then it is the Laplacian coefficient of their distance; rows of other (dummy, disabled, surface) particles are those of the identity; diagonal entries of
equations are not positive; with SPP each equation's row sums to minus the weight of its virtual particle (zero without virtual particle);
and the matrix is negative semidefinite on the pressures that vanish for particles without equation. -/
theorem C24_matrix_is_graph_laplacian {P : Params ℝ D ω} {env : Env ℝ D} {w : ω} {s0 s t : State ℝ D ω} {dts : List ℝ} (hD : D = 2 ∨ D = 3)
    (hnew : State.new? env w = some s0) (hist : Hist P s0 dts s) (hok : s0.grid.ClearOK) (hL : 0 < env.neighborLength) (hpos : env.Positive)
    (sch : Schedule) (hv : sch.Valid s.n) (dt : ℝ) (h : s.beforePressure P sch dt = .ok t) (hsep : Separated t) :
    let A := (t.setPpe P.cfg (sch 6) (sch 7)).ppe.A
    (∀ i j, i < t.n → j < t.n → entry A i j = entry A j i) ∧
    (∀ i j, i < t.n → j < t.n → i ≠ j → 0 ≤ entry A i j ∧
      (entry A i j ≠ 0 ↔ HasEquation P.cfg t i ∧ HasEquation P.cfg t j ∧ j ∈ t.near i) ∧
      (entry A i j ≠ 0 → entry A i j = laplacianWeight P.cfg t.env (dist (t.ps i).x (t.ps j).x))) ∧
    (∀ i, i < t.n → ¬ HasEquation P.cfg t i → ∀ j, entry A i j = if i = j then 1 else 0) ∧
    (∀ i, HasEquation P.cfg t i → entry A i i ≤ 0) ∧
    (P.cfg.spp = true → ∀ i, HasEquation P.cfg t i → ∑ j ∈ Finset.range t.n, entry A i j = -virtualWeight P.cfg t i) ∧
    (∀ i, 0 ≤ virtualWeight P.cfg t i ∧ (0 < virtualWeight P.cfg t i ↔ P.cfg.spp = true ∧ HasVirtual t i)) ∧
    (∀ v : Nat → ℝ, (∀ i, i < t.n → ¬ HasEquation P.cfg t i → v i = 0) → quadForm t.n A v ≤ 0) := by
  classical
  obtain ⟨hN, hn, henv⟩ := beforePressure_facts hnew hist hok hL hv h
  obtain ⟨s1, hs1, hts1⟩ := beforePressure_midC hv h
  have hpt : t.env.Positive := by rw [henv]; exact ⟨hpos.re, hpos.n0, hpos.lambda⟩
  have hre : 0 ≤ t.env.re := hpt.re.le
  have hvt : sch.Valid t.n := by rw [hn]; exact hv
  have hD4 : 0 < D ∧ D < 5 := by omega
  have hfix : ∀ i, i < t.n → (t.fixedRow P.cfg i = true ↔ ¬ HasEquation P.cfg t i) := by
    intro i hi
    rw [hasEquation_iff, ← Bool.not_eq_false]
    simp [hi]
  intro A
  have hoff : ∀ i j, i < t.n → j < t.n → i ≠ j → entry A i j
      = if HasEquation P.cfg t i ∧ HasEquation P.cfg t j ∧ j ∈ t.near i then t.coef P.cfg (dist (t.ps i).x (t.ps j).x) else 0 := by
    intro i j hi hj hij
    by_cases hf : t.fixedRow P.cfg i = true
    · rw [entry_fixed P.cfg (hvt 6) (hvt 7) hi hf, if_neg hij, if_neg (fun hc => (hfix i hi).mp hf hc.1)]
    · have hf : t.fixedRow P.cfg i = false := by simpa using hf
      rw [entry_off P.cfg hN hre (hvt 6) (hvt 7) hi hf hij.symm]
      have e1 := (hasEquation_iff P.cfg t i).mpr ⟨hi, hf⟩
      have e2 := hasEquation_iff P.cfg t j
      by_cases hc : j ∈ t.near i ∧ t.fixedRow P.cfg j = false
      · rw [if_pos hc, if_pos ⟨e1, e2.mpr ⟨hj, hc.2⟩, hc.1⟩]
      · rw [if_neg hc, if_neg (fun k => hc ⟨k.2.2, (e2.mp k.2.1).2⟩)]
  have hpair : ∀ i j, i < t.n → j < t.n → i ≠ j → HasEquation P.cfg t i → j ∈ t.near i →
      0 < t.coef P.cfg (dist (t.ps i).x (t.ps j).x) ∧
      t.coef P.cfg (dist (t.ps i).x (t.ps j).x) = laplacianWeight P.cfg t.env (dist (t.ps i).x (t.ps j).x) := by
    intro i j hi hj hij hE hnear
    refine ⟨near_coef_pos hN hD4 hpt hsep hi hE.2.2.1 hnear, coef_eq_laplacianWeight _ _ hD4.2 ?_ ?_⟩
    · exact dist_pos' (hsep i j hi hj hij hE.2.2.1 (hN.near_ne hi hE.2.2.1 hnear).2.2)
    · rw [dist_comm']; exact (mem_near.mp hnear).2.2
  have hsw : ∀ i, HasEquation P.cfg t i → t.sppWeight P.cfg i = virtualWeight P.cfg t i := by
    intro i hE
    have e : s1.env.re = t.env.re := by rw [hts1, midC_env]
    have e2 : s1.n = t.n := by rw [hts1, midC_n]
    rw [hts1]
    exact sppWeight_eq (by rw [← hts1]; exact hN) hD4.2 (by rw [e]; exact hpt.re) (by rw [e2]; exact hE.1)
      (by rw [← hts1]; exact hasEquation_active hE)
  have hLW : ∀ i, HasVirtual t i → 0 < laplacianWeight P.cfg t.env
      (t.env.re / (t.env.n0 - ∑ j ∈ t.near i, W (dist (t.ps i).x (t.ps j).x) t.env.re + 1)) := by
    intro i hV
    have hw : 1 < t.env.n0 - ∑ j ∈ t.near i, W (dist (t.ps i).x (t.ps j).x) t.env.re + 1 := by linarith [hV.1]
    have hr := hpt.re
    have h0 : 0 < t.env.re / (t.env.n0 - ∑ j ∈ t.near i, W (dist (t.ps i).x (t.ps j).x) t.env.re + 1) := by positivity
    have h1 : t.env.re / (t.env.n0 - ∑ j ∈ t.near i, W (dist (t.ps i).x (t.ps j).x) t.env.re + 1) < t.env.re := by
      rw [div_lt_iff₀ (by linarith)]
      nlinarith
    rw [← coef_eq_laplacianWeight P.cfg t hD4.2 h0 h1]
    exact coef_pos hD4 hpt h0 h1
  refine ⟨?_, ?_, ?_, ?_, ?_, ?_, ?_⟩
  · intro i j hi hj
    by_cases hij : i = j
    · rw [hij]
    · rw [hoff i j hi hj hij, hoff j i hj hi (Ne.symm hij), dist_comm' (t.ps j).x]
      by_cases hc : HasEquation P.cfg t i ∧ HasEquation P.cfg t j ∧ j ∈ t.near i
      · rw [if_pos hc, if_pos ⟨hc.2.1, hc.1, (hN.near_symm hi hj hc.1.2.2.1 hc.2.1.2.2.1).mp hc.2.2⟩]
      · rw [if_neg hc, if_neg]
        intro k
        exact hc ⟨k.2.1, k.1, (hN.near_symm hi hj k.2.1.2.2.1 k.1.2.2.1).mpr k.2.2⟩
  · intro i j hi hj hij
    rw [hoff i j hi hj hij]
    by_cases hc : HasEquation P.cfg t i ∧ HasEquation P.cfg t j ∧ j ∈ t.near i
    · rw [if_pos hc]
      obtain ⟨p1, p2⟩ := hpair i j hi hj hij hc.1 hc.2.2
      exact ⟨p1.le, ⟨fun _ => hc, fun _ => p1.ne'⟩, fun _ => p2⟩
    · rw [if_neg hc]
      exact ⟨le_refl _, ⟨fun k => absurd rfl k, fun k => absurd k hc⟩, fun k => absurd rfl k⟩
  · intro i hi hE j
    exact entry_fixed P.cfg (hvt 6) (hvt 7) hi ((hfix i hi).mpr hE) j
  · intro i hE
    have hf := ((hasEquation_iff P.cfg t i).mp hE).2
    have hW := sppWeight_nonneg (cfg := P.cfg) hD4 hpt i
    have hS : 0 ≤ ∑ k ∈ (t.near i).filter (fun k => (t.ps k).ty ≠ .dummy), t.coef P.cfg (dist (t.ps i).x (t.ps k).x) := by
      apply Finset.sum_nonneg
      intro k hk
      have hk := (Finset.mem_filter.mp hk).1
      exact (near_coef_pos hN hD4 hpt hsep hE.1 hE.2.2.1 hk).le
    have e := entry_diag P.cfg hN hre (hvt 6) (hvt 7) hE.1 hf
    change entry A i i = _ at e
    rw [e]; linarith
  · intro hs i hE
    have hi := hE.1
    have hf := ((hasEquation_iff P.cfg t i).mp hE).2
    have hone := applyMat_free hN hre (hvt 6) (hvt 7) (fun _ => 1) (mem_eqs.mpr ⟨hi, hf⟩)
    have e1 : applyMat t.n A (fun _ => 1) i = ∑ j ∈ Finset.range t.n, entry A i j := by
      unfold applyMat; simp only [mul_one]
    rw [← e1]
    refine hone.trans ?_
    simp only [sub_self, mul_zero, Finset.sum_const_zero, mul_one, zero_sub]
    rw [← hsw i hE]
    unfold State.anchor
    have : (t.near i).filter (fun k => (t.ps k).ty ≠ .dummy ∧ t.fixedRow P.cfg k = true) = ∅ := by
      apply Finset.filter_eq_empty_iff.mpr
      rintro k hk ⟨hk1, hk2⟩
      have hk3 := (hN.near_ne hi hE.2.2.1 hk).2.2
      exact (hfix k (mem_near.mp hk).1).mp hk2 ⟨(mem_near.mp hk).1, hk1, hk3, Or.inl hs⟩
    rw [this, Finset.sum_empty, zero_add]
  · intro i
    unfold virtualWeight
    by_cases hc : P.cfg.spp = true ∧ HasVirtual t i
    · rw [if_pos hc]; exact ⟨(hLW i hc.2).le, fun _ => hc, fun _ => hLW i hc.2⟩
    · rw [if_neg hc]; exact ⟨le_refl _, fun k => absurd k (lt_irrefl _), fun k => absurd k hc⟩
  · intro v hvz
    have e := quadForm_ppe hN hre (hvt 6) (hvt 7) v (fun i hi hf => hvz i hi ((hfix i hi).mp hf))
    refine e.trans_le ?_
    have h1 : 0 ≤ ∑ i ∈ t.eqs P.cfg, ∑ j ∈ t.nearEqs P.cfg i, t.coef P.cfg (dist (t.ps i).x (t.ps j).x) * (v i - v j) ^ 2 := by
      apply Finset.sum_nonneg; intro i hi
      apply Finset.sum_nonneg; intro j hj
      have := near_coef_pos (cfg := P.cfg) hN hD4 hpt hsep (mem_eqs.mp hi).1 (eqs_enabled hi) (mem_nearEqs.mp hj).1
      positivity
    have h2 : 0 ≤ ∑ i ∈ t.eqs P.cfg, t.anchor P.cfg i * v i ^ 2 := by
      apply Finset.sum_nonneg; intro i hi
      have := anchor_nonneg (cfg := P.cfg) hN hD4 hpt hsep hi
      positivity
    linarith

/-! ## C27 -/

/-- Particle `i` (with an equation) is tied to pressure zero: by a virtual particle, or (without SPP) by a near surface particle. -/
def Tied (cfg : Config) (t : State ℝ D ω) (i : Nat) : Prop :=
  (cfg.spp = true ∧ HasVirtual t i) ∨
  (cfg.spp = false ∧ ∃ k ∈ t.near i, (t.ps k).ty ≠ .dummy ∧ (t.ps k).n / t.env.n0 < t.env.surfaceRatio)

/-- Two particles with equations interact. -/
def Linked (cfg : Config) (t : State ℝ D ω) (i j : Nat) : Prop :=
  HasEquation cfg t i ∧ HasEquation cfg t j ∧ j ∈ t.near i

/-- Every particle with an equation is connected, through interacting particles with equations, to one that is tied to pressure zero
(every fluid body has a free surface), or (with SPP) has no neighbours at all (a single drop). -/
def EveryBodyHasSurface (cfg : Config) (t : State ℝ D ω) : Prop :=
  ∀ i, HasEquation cfg t i → (cfg.spp = true ∧ t.neighbors i = []) ∨
    ∃ k, Relation.ReflTransGen (Linked cfg t) i k ∧ HasEquation cfg t k ∧ Tied cfg t k

theorem near_alone {t : State ℝ D ω} {i : Nat} (h : t.neighbors i = []) : t.near i = ∅ := by
  ext j; rw [mem_near, h]; simp


/-- **C27**, definiteness: if every body has a free surface, the matrix is negative definite on the pressures that vanish for particles without equation
and for single drops. -/
theorem C27_matrix_negative_definite {P : Params ℝ D ω} {env : Env ℝ D} {w : ω} {s0 s t : State ℝ D ω} {dts : List ℝ} (hD : D = 2 ∨ D = 3)
    (hnew : State.new? env w = some s0) (hist : Hist P s0 dts s) (hok : s0.grid.ClearOK) (hL : 0 < env.neighborLength) (hpos : env.Positive)
    (sch : Schedule) (hv : sch.Valid s.n) (dt : ℝ) (h : s.beforePressure P sch dt = .ok t) (hsep : Separated t)
    (hsurf : EveryBodyHasSurface P.cfg t) (v : Nat → ℝ) (hvz : ∀ i, i < t.n → ¬ HasEquation P.cfg t i ∨ (P.cfg.spp = true ∧ t.neighbors i = []) → v i = 0)
    (hne : ∃ i, i < t.n ∧ v i ≠ 0) :
    quadForm t.n (t.setPpe P.cfg (sch 6) (sch 7)).ppe.A v < 0 := by
  obtain ⟨hN, hn, henv⟩ := beforePressure_facts hnew hist hok hL hv h
  obtain ⟨s1, hs1, hts1⟩ := beforePressure_midC hv h
  have hpt : t.env.Positive := by rw [henv]; exact ⟨hpos.re, hpos.n0, hpos.lambda⟩
  have hre : 0 ≤ t.env.re := hpt.re.le
  have hvt : sch.Valid t.n := by rw [hn]; exact hv
  have hD4 : 0 < D ∧ D < 5 := by omega
  have hfix : ∀ i, i < t.n → (t.fixedRow P.cfg i = true ↔ ¬ HasEquation P.cfg t i) := by
    intro i hi
    rw [hasEquation_iff, ← Bool.not_eq_false]
    simp [hi]
  obtain ⟨c1, c2, c3, c4, c5, c6, c7⟩ := C24_matrix_is_graph_laplacian hD hnew hist hok hL hpos sch hv dt h hsep
  refine lt_of_le_of_ne (c7 v (fun i hi hE => hvz i hi (Or.inl hE))) ?_
  intro hzero
  rw [quadForm_ppe hN hre (hvt 6) (hvt 7) v (fun i hi hf => hvz i hi (Or.inl ((hfix i hi).mp hf)))] at hzero
  have hcp : ∀ i ∈ t.eqs P.cfg, ∀ j ∈ t.nearEqs P.cfg i, 0 < t.coef P.cfg (dist (t.ps i).x (t.ps j).x) := by
    intro i hi j hj
    exact near_coef_pos (cfg := P.cfg) hN hD4 hpt hsep (mem_eqs.mp hi).1 (eqs_enabled hi) (mem_nearEqs.mp hj).1
  have h1t : ∀ i ∈ t.eqs P.cfg, ∀ j ∈ t.nearEqs P.cfg i, 0 ≤ t.coef P.cfg (dist (t.ps i).x (t.ps j).x) * (v i - v j) ^ 2 := by
    intro i hi j hj; have := hcp i hi j hj; positivity
  have h2t : ∀ i ∈ t.eqs P.cfg, 0 ≤ t.anchor P.cfg i * v i ^ 2 := by
    intro i hi; have := anchor_nonneg (cfg := P.cfg) hN hD4 hpt hsep hi; positivity
  have h1 := Finset.sum_nonneg (fun i hi => Finset.sum_nonneg (h1t i hi))
  have h2 := Finset.sum_nonneg h2t
  have z1 : ∑ i ∈ t.eqs P.cfg, ∑ j ∈ t.nearEqs P.cfg i, t.coef P.cfg (dist (t.ps i).x (t.ps j).x) * (v i - v j) ^ 2 = 0 := by linarith
  have z2 : ∑ i ∈ t.eqs P.cfg, t.anchor P.cfg i * v i ^ 2 = 0 := by linarith
  have hlink : ∀ i j, Linked P.cfg t i j → v i = v j := by
    rintro i j ⟨hi, hj, hij⟩
    have hi' := mem_eqs.mpr ((hasEquation_iff P.cfg t i).mp hi)
    have hj' := mem_nearEqs.mpr ⟨hij, ((hasEquation_iff P.cfg t j).mp hj).2⟩
    have a := (Finset.sum_eq_zero_iff_of_nonneg (fun i hi => Finset.sum_nonneg (h1t i hi))).mp z1 i hi'
    have b := (Finset.sum_eq_zero_iff_of_nonneg (h1t i hi')).mp a j hj'
    rcases mul_eq_zero.mp b with b | b
    · exact absurd b (hcp i hi' j hj').ne'
    · exact sub_eq_zero.mp (pow_eq_zero_iff (by norm_num) |>.mp b)
  have htied : ∀ k, HasEquation P.cfg t k → Tied P.cfg t k → v k = 0 := by
    intro k hk hT
    have hk' := mem_eqs.mpr ((hasEquation_iff P.cfg t k).mp hk)
    have hanchor : 0 < t.anchor P.cfg k := by
      have hsn := sppWeight_nonneg (cfg := P.cfg) hD4 hpt k
      have hterm : ∀ l ∈ (t.near k).filter (fun l => (t.ps l).ty ≠ .dummy ∧ t.fixedRow P.cfg l = true),
          0 < t.coef P.cfg (dist (t.ps k).x (t.ps l).x) :=
        fun l hl => near_coef_pos hN hD4 hpt hsep hk.1 hk.2.2.1 (Finset.mem_filter.mp hl).1
      unfold State.anchor
      rcases hT with hT | ⟨hT, l, hl, hl1, hl2⟩
      · have e : s1.env.re = t.env.re := by rw [hts1, midC_env]
        have e2 : s1.n = t.n := by rw [hts1, midC_n]
        have e3 : t.sppWeight P.cfg k = virtualWeight P.cfg t k := by
          rw [hts1]
          exact sppWeight_eq (by rw [← hts1]; exact hN) hD4.2 (by rw [e]; exact hpt.re) (by rw [e2]; exact hk.1)
            (by rw [← hts1]; exact hasEquation_active hk)
        rw [e3]
        exact add_pos_of_nonneg_of_pos (Finset.sum_nonneg (fun l hl => (hterm l hl).le)) ((c6 k).2.mpr hT)
      · refine add_pos_of_pos_of_nonneg ?_ hsn
        refine Finset.sum_pos hterm ⟨l, Finset.mem_filter.mpr ⟨hl, hl1, ?_⟩⟩
        unfold State.fixedRow State.isSurface
        simp only [hT, Bool.not_false, Bool.true_and, Bool.or_eq_true]
        exact Or.inr (lt_real_iff.mpr hl2)
    have a := (Finset.sum_eq_zero_iff_of_nonneg h2t).mp z2 k hk'
    rcases mul_eq_zero.mp a with a | a
    · exact absurd a hanchor.ne'
    · exact pow_eq_zero_iff (by norm_num) |>.mp a
  obtain ⟨i, hi, hvi⟩ := hne
  apply hvi
  by_cases hE : HasEquation P.cfg t i
  · rcases hsurf i hE with hA | ⟨k, hik, hk, hT⟩
    · exact hvz i hi (Or.inr hA)
    have : v i = v k := by
      clear hT
      induction hik with
      | refl => rfl
      | tail _ hl ih => exact (ih hl.1).trans (hlink _ _ hl)
    rw [this, htied k hk hT]
  · exact hvz i hi (Or.inl hE)


/-- A particle without neighbours contributes nothing to the right-hand side. -/
theorem rhs_alone {P : Params ℝ D ω} {s1 : State ℝ D ω} (hN : NbrOK s1) (hre : 0 ≤ s1.env.re) (hn0 : 0 < s1.env.n0) (hs : P.cfg.spp = true)
    {i : Nat} (hi : i < s1.n) (hal : s1.neighbors i = []) (hE : HasEquation P.cfg (s1.midC P) i) :
    ((s1.midC P).rhsCompute P.cfg i).1 = 0 := by
  have hact := hasEquation_active hE
  have hact1 : (s1.ps i).ty.active = true := by rw [← hact, midC_ty]
  have hf := ((hasEquation_iff _ _ _).mp hE).2
  -- a state with the neighbour table of `s1` after a density computation
  have key : ∀ u : State ℝ D ω, NbrOK u → u.n = s1.n → u.nbr = s1.nbr → u.env = s1.env → (u.ps i).ty.active = true →
      (u.densC P.cfg).nNoSpp i = 0 ∧ ((u.densC P.cfg).ps i).n = u.env.n0 := by
    intro u hu h1 h2 h3 h4
    have hnear : u.near i = ∅ := near_alone (by unfold State.neighbors at hal ⊢; rw [h2]; exact hal)
    have hz : u.nearDensity i = 0 := by unfold State.nearDensity; rw [hnear, Finset.sum_empty]
    rw [densC_nNoSpp_real hu (by rw [h3]; exact hre) i (by rw [h1]; exact hi) h4 hs,
      densC_n_real hu (by rw [h3]; exact hre) i (by rw [h1]; exact hi) h4, hz, hs]
    exact ⟨rfl, by simp only [if_true]; rw [max_eq_right (by rw [h3]; exact hn0.le)]⟩
  have hspeed : ∀ u : State ℝ D ω, u.nNoSpp i = 0 → (u.ps i).n = u.env.n0 → 0 < u.env.n0 → u.densitySpeed P.cfg i = 0 := by
    intro u h1 h2 h3
    unfold State.densitySpeed
    rw [hs, h1, h2]
    have : Scalar.lt (0 : ℝ) u.env.n0 = true := lt_real_iff.mpr h3
    rw [this]
    cases P.cfg.hs <;> simp
  set m := (((((s1.densC P.cfg).ecsC P.cfg).duC (State.accelCompute P.cfg)).preC P.walls).moveC P.walls) with hm
  have hmid : s1.midC P = (m.densC P.cfg).saveX P.cfg := rfl
  have hmty : ∀ k, (m.ps k).ty = (s1.ps k).ty := by
    intro k; rw [hm, moveC_ty]; exact densC_ty _ _ _
  have hm1 := key m (hN.congr rfl rfl hmty) rfl rfl rfl (by rw [hmty]; exact hact1)
  have hs1 := key s1 hN rfl rfl rfl hact1
  have hspm : (s1.midC P).densitySpeed P.cfg i = 0 := by
    apply hspeed
    · rw [hmid, saveX_nNoSpp]; exact hm1.1
    · rw [hmid, saveX_ps, saveX_env]; exact hm1.2
    · rw [midC_env]; exact hn0
  have hecs : P.cfg.ecs = true → (s1.midC P).ecs i = 0 := by
    intro hc
    have e : (s1.midC P).ecs i = ((s1.densC P.cfg).ecsC P.cfg).ecs i := by rw [hmid, saveX_ecs]; rfl
    rw [e]
    unfold State.ecsC
    rw [if_pos hc]
    have hi' : i < (s1.densC P.cfg).n := hi
    have hsp0 : (s1.densC P.cfg).densitySpeed P.cfg i = 0 := hspeed _ hs1.1 hs1.2 hn0
    have hc2 : State.ecsCompute P.cfg (s1.densC P.cfg) i = some 0 := by
      unfold State.ecsCompute
      rw [if_pos (by rw [densC_ty]; exact hact1)]
      simp only
      rw [hsp0]
      have : Scalar.abs (0 : ℝ) = 0 := abs_zero
      rw [this]
      simp
    simp only [hi', if_true, hc2, Option.getD_some]
  unfold State.rhsCompute
  rw [if_neg (by rw [hf]; decide)]
  simp only
  rw [hspm]
  by_cases hc : P.cfg.ecs = true
  · rw [if_pos hc, hecs hc]; simp
  · rw [if_neg hc]; simp

/-- The pressures that vanish for particles without equation and for single drops. -/
def freePressures (cfg : Config) (t : State ℝ D ω) : Submodule ℝ (Nat → ℝ) where
  carrier := { v | ∀ i, i < t.n → ¬ HasEquation cfg t i ∨ (cfg.spp = true ∧ t.neighbors i = []) → v i = 0 }
  zero_mem' := fun _ _ _ => rfl
  add_mem' := by
    intro a b ha hb i hi hE
    rw [Pi.add_apply, ha i hi hE, hb i hi hE, add_zero]
  smul_mem' := by
    intro c a ha i hi hE
    rw [Pi.smul_apply, ha i hi hE, smul_zero]

/-- The system of a step has the shape required by C26. -/
theorem ppe_residual_free {P : Params ℝ D ω} {s1 : State ℝ D ω} (hN : NbrOK s1) (hre : 0 ≤ s1.env.re) (hn0 : 0 < s1.env.n0)
    {schB schA : List Ev} (hB : ValidSched s1.n schB) (hA : ValidSched s1.n schA) :
    let t := s1.midC P
    let E := (t.setPpe P.cfg schB schA).ppe
    E.size = t.n ∧ (∀ v ∈ freePressures P.cfg t, applyMat t.n E.A v ∈ freePressures P.cfg t) ∧
    (fun i => E.b i - applyMat t.n E.A E.x i) ∈ freePressures P.cfg t := by
  intro t E
  have htn : t.n = s1.n := midC_n _ _
  have hNt : NbrOK t := hN.congr htn (midC_nbr _ _) (midC_ty P s1)
  have hret : 0 ≤ t.env.re := by rw [midC_env]; exact hre
  rw [← htn] at hB hA
  have hfix : ∀ i, i < t.n → ¬ HasEquation P.cfg t i → t.fixedRow P.cfg i = true := by
    intro i hi hE
    rw [hasEquation_iff] at hE
    by_contra hc
    exact hE ⟨hi, by simpa using hc⟩
  -- rows of single drops are zero
  have hzero : ∀ i, i < t.n → HasEquation P.cfg t i → t.neighbors i = [] → ∀ v, applyMat t.n E.A v i = 0 := by
    intro i hi hE hal v
    have hf := ((hasEquation_iff _ _ _).mp hE).2
    have e : applyMat t.n E.A v i = _ := applyMat_free hNt hret hB hA v (mem_eqs.mpr ⟨hi, hf⟩)
    have hnear := near_alone hal
    have h1 : t.nearEqs P.cfg i = ∅ := by unfold State.nearEqs; rw [hnear, Finset.filter_empty]
    have h2 : t.anchor P.cfg i = 0 := by
      unfold State.anchor State.sppWeight State.sppTerm
      rw [hnear, Finset.filter_empty, Finset.sum_empty, zero_add]
      split
      · have hd : t.dxg i = 0 := by unfold State.dxg; rw [hnear, Finset.sum_empty]
        cases hq : t.sppParticle i (t.dxg i) with
        | none => rfl
        | some q =>
          have := (sppParticle_isSome_iff t i (t.dxg i)).mp ⟨q, hq⟩
          have h0 : norm2 ((1 / t.env.n0) • (0 : Vec ℝ D)) = 0 := by
            rw [smul_zero, norm2_real, dot_self_eq_zero.mpr rfl, Real.sqrt_zero]
          rw [hd, h0] at this
          exact absurd this.2 (not_lt.mpr (by positivity))
      · rfl
    rw [e, h1, h2, Finset.sum_empty]; ring
  have hb : ∀ i, i < t.n → E.b i = (t.rhsCompute P.cfg i).1 ∧ E.x i = (t.rhsCompute P.cfg i).2 := by
    intro i hi
    have e : E = (t.ppeC P.cfg).ppe := by
      change (t.setPpe P.cfg schB schA).ppe = _
      rw [setPpe_eq P.cfg t schB schA hB hA]
    rw [e]
    exact ⟨if_pos hi, if_pos hi⟩
  refine ⟨?_, ?_, ?_⟩
  · change (t.setPpe P.cfg schB schA).ppe.size = t.n
    rw [setPpe_eq P.cfg t schB schA hB hA]; rfl
  · intro v hvm i hi hE
    by_cases hE' : HasEquation P.cfg t i
    · exact hzero i hi hE' (hE.resolve_left (fun k => k hE')).2 v
    · rw [show applyMat t.n E.A v i = v i from applyMat_fixed hB hA v hi (hfix i hi hE')]
      exact hvm i hi hE
  · intro i hi hE
    simp only
    by_cases hE' : HasEquation P.cfg t i
    · obtain ⟨hs, hal⟩ := hE.resolve_left (fun k => k hE')
      rw [hzero i hi hE' hal, (hb i hi).1, sub_zero]
      refine rhs_alone hN hre hn0 hs (by rw [← htn]; exact hi) ?_ hE'
      unfold State.neighbors at hal ⊢
      rw [midC_nbr] at hal
      exact hal
    · have hf := hfix i hi hE'
      rw [show applyMat t.n E.A E.x i = E.x i from applyMat_fixed hB hA E.x hi hf]
      have hr : t.rhsCompute P.cfg i = (0, 0) := by unfold State.rhsCompute; rw [if_pos hf]
      rw [(hb i hi).1, (hb i hi).2, hr, sub_zero]

/-- **C27.**  If, at the pressure computation of a step, every fluid body has a free surface and no two enabled particles are at the same place, the pressure solver
does not throw: in exact arithmetic the step does not throw the solver exception, and in arithmetic where division by zero gives a non-finite value
(and a non-zero tolerance) the solver, run on the system of the step, returns a finite solution with the required accuracy. -/
theorem C27_pressure_equation_solvable {P : Params ℝ D ω} {env : Env ℝ D} {w : ω} {s0 s t : State ℝ D ω} {dts : List ℝ} (hD : D = 2 ∨ D = 3)
    (hnew : State.new? env w = some s0) (hist : Hist P s0 dts s) (hok : s0.grid.ClearOK) (hL : 0 < env.neighborLength) (hpos : env.Positive)
    (sch : Schedule) (hv : sch.Valid s.n) (dt : ℝ) (h : s.beforePressure P sch dt = .ok t) (hsep : Separated t)
    (hsurf : EveryBodyHasSurface P.cfg t) :
    (∃ s', s.forwardTime P sch dt = .ok s') ∧
    (P.eps ≠ 0 → let E := (t.setPpe P.cfg (sch 6) (sch 7)).ppe
      ∃ y : Nat → PReal, ∃ y' : Nat → ℝ,
        cgSolve t.n (fun i j => (E.A i j).map .val) (fun i => .val (E.b i)) (fun i => .val (E.x i)) (.val P.eps) = (y, true) ∧
        (∀ i, i < t.n → y i = .val (y' i)) ∧
        Real.sqrt (residualSq t.n E.A E.b y') ≤ |P.eps| * Real.sqrt (residualSq t.n E.A E.b E.x)) := by
  obtain ⟨hN, hn, henv⟩ := beforePressure_facts hnew hist hok hL hv h
  have hvt : sch.Valid t.n := by rw [hn]; exact hv
  obtain ⟨c1, -⟩ := C24_matrix_is_graph_laplacian hD hnew hist hok hL hpos sch hv dt h hsep
  obtain ⟨s1, hs1, hts1⟩ := beforePressure_midC hv h
  have hn1 : s1.n = s.n := by rw [← hn, hts1, midC_n]
  have henv1 : s1.env = t.env := by rw [hts1, midC_env]
  have hN1 : NbrOK s1 := hN.congr (by rw [hn1, hn]) (by rw [hts1, midC_nbr]) (fun i => by rw [hts1, midC_ty])
  have hres := ppe_residual_free (P := P) hN1 (by rw [henv1, henv]; exact hpos.re.le) (by rw [henv1, henv]; exact hpos.n0)
    (schB := sch 6) (schA := sch 7) (by rw [hn1]; exact hv 6) (by rw [hn1]; exact hv 7)
  rw [← hts1] at hres
  obtain ⟨e1, e2, e3⟩ := hres
  have hdef : ∀ v ∈ freePressures P.cfg t, (∃ i, i < t.n ∧ v i ≠ 0) →
      quadForm t.n (t.setPpe P.cfg (sch 6) (sch 7)).ppe.A v ≠ 0 := fun v hvm hne =>
    (C27_matrix_negative_definite hD hnew hist hok hL hpos sch hv dt h hsep hsurf v hvm hne).ne
  constructor
  · have hsol := cgSolve_definite P.eps c1 (freePressures P.cfg t) e2 e3 hdef
    rw [forwardTime_beforePressure, h]
    simp only [Res.andThen, Res.bind]
    unfold State.computeImplicit
    simp only
    cases hx : P.cfg.explicit with
    | true => simp only [if_true, Res.andThen, Res.bind]; exact ⟨_, rfl⟩
    | false =>
      simp only [Bool.false_eq_true, if_false]
      unfold State.solvePpe
      simp only
      rw [e1, hsol]
      simp only [if_true, Res.andThen, Res.bind]
      exact ⟨_, rfl⟩
  · intro heps
    exact C26_solver_succeeds_on_definite_systems _ _ _ heps c1 (freePressures P.cfg t) e2 e3 hdef

end OpenMps
