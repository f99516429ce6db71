import Verif.Props.Double
import Verif.Props.DoubleRun
import Verif.Spec.Toy

/-! # Examples in `double` -/

set_option linter.unusedSectionVars false
set_option exponentiation.threshold 2000

namespace OpenMps

/-- A literal. -/
def dbl (q : ℚ) : Double := Double.round q false

/-- `0.1 + 0.2` is `0.30000000000000004`, not `0.3`. -/
example : dbl (1 / 10) + dbl (2 / 10) ≠ dbl (3 / 10) ∧ (dbl (1 / 10) + dbl (2 / 10)).value - (dbl (3 / 10)).value = 1 / 2 ^ 54 := by decide +kernel

/-- The last bits of `0.1`; gradual underflow; overflow; division by zero; NaN. -/
example : (dbl (1 / 10)).code = 0x3FB999999999999A ∧ (Scalar.sqrt (dbl 2)).code = 0x3FF6A09E667F3BCD ∧
    (dbl (1 / 2 ^ 1074)).code = 1 ∧ (dbl (1 / 2 ^ 1075)).code = 0 ∧ (dbl (2 ^ 1023) * dbl 2).isInf ∧
    (dbl (-1) / dbl 0) = Double.inf true ∧ (dbl 0 / dbl 0).isNan ∧ (Scalar.sqrt (dbl (-1))).isNan ∧ Scalar.lt Double.nan Double.nan = false ∧
    (Scalar.floorIdx (dbl (-1 / 10)) = some (-1)) ∧ Scalar.floorIdx (dbl (2 ^ 63)) = none ∧ Scalar.floorIdx Double.nan = none := by decide +kernel

/-- `l_0 = 0.1`, `r_e = 2.4 l_0`, Courant number 0.1, box `[0,1]^2`, viscous fluid. -/
def dblArgs : EnvArgs Double 2 :=
  { maxDt := dbl 1, courant := dbl (1 / 10), g := dbl (98 / 10), rho := dbl 1000, nu := dbl (1 / 1000), surfaceRatio := dbl (95 / 100)
    reByL0 := dbl (24 / 10), c := dbl 1, l0 := dbl (1 / 10), minX := ![dbl 0, dbl 0], maxX := ![dbl 1, dbl 1] }

def dblEnv : Env Double 2 := (Env.mk? Config.default dblArgs).get (by decide +kernel)

theorem dblEnv_eq : Env.mk? Config.default dblArgs = some dblEnv := by unfold dblEnv; exact (Option.some_get _).symm

def dblNew : State Double 2 Unit := (State.new? dblEnv ()).get (by decide +kernel)

theorem dblNew_eq : State.new? dblEnv () = some dblNew := by unfold dblNew; exact (Option.some_get _).symm

/-- Two fluid particles passing each other. -/
def dblParticles : List (Particle Double 2) :=
  [{ x := ![dbl (2 / 10), dbl (5 / 10)], u := ![dbl 1, dbl 0], p := dbl 100, n := dbl 6, ty := .incompressibleNewton },
   { x := ![dbl (43 / 100), dbl (5 / 10)], u := ![dbl (-1), dbl (1 / 3)], p := dbl 50, n := dbl 40, ty := .incompressibleNewton },
   { x := ![dbl (9 / 10), dbl (9 / 10)], u := ![dbl 0, dbl 0], p := dbl 0, n := dbl 0, ty := .wall }]

def dblState : State Double 2 Unit := dblNew.addParticles dblParticles

/-- The options of the repository except SPP. -/
def dblP : Params Double 2 Unit :=
  { cfg := { Config.default with spp := false }, eps := dbl (1 / 10 ^ 6), walls := { pre := fun w _ _ => w, pos := fun _ _ _ _ => ![dbl (9 / 10), dbl (9 / 10)] } }

theorem dblState_hist : Hist dblP dblNew [] dblState := .add _ .start

theorem dblState_search : ∃ s1, (dblState.start (dbl (1 / 1000))).searchNeighbor (Schedule.serial 3 0) = .ok s1 ∧
    ((s1.ps 0).ty = .incompressibleNewton ∧ s1.neighbors 0 = [1] ∧ (s1.ps 1).ty = .incompressibleNewton) := by
  obtain ⟨s1, h1, h2⟩ := Res.check_ok (r := (dblState.start (dbl (1 / 1000))).searchNeighbor (Schedule.serial 3 0))
    (f := fun s1 => decide ((s1.ps 0).ty = .incompressibleNewton ∧ s1.neighbors 0 = [1] ∧ (s1.ps 1).ty = .incompressibleNewton)) (by decide +kernel)
  exact ⟨s1, h1, by simpa using h2⟩

theorem Double.sized_of {b : ℕ} {x : Double} (h : x.isFinite = true ∧ 1 / 2 ^ b ≤ x.value ∧ x.value ≤ 2 ^ b) : x.Sized b := by
  refine ⟨h.1, ?_, ?_⟩
  · have : ((1 / 2 ^ b : ℚ) : ℝ) ≤ ((x.value : ℚ) : ℝ) := by exact_mod_cast h.2.1
    push_cast at this
    exact this
  · have : ((x.value : ℚ) : ℝ) ≤ ((2 ^ b : ℚ) : ℝ) := by exact_mod_cast h.2.2
    push_cast at this
    exact this

theorem Double.upto_of {b : ℕ} {x : Double} (h : x.isFinite = true ∧ -2 ^ b ≤ x.value ∧ x.value ≤ 2 ^ b) : x.Upto b := by
  refine ⟨h.1, abs_le.mpr ⟨?_, ?_⟩⟩
  · have : ((-2 ^ b : ℚ) : ℝ) ≤ ((x.value : ℚ) : ℝ) := by exact_mod_cast h.2.1
    push_cast at this
    exact this
  · have : ((x.value : ℚ) : ℝ) ≤ ((2 ^ b : ℚ) : ℝ) := by exact_mod_cast h.2.2
    push_cast at this
    exact this

theorem Double.val_le_of {x y : Double} (h : x.value ≤ y.value) : x.val ≤ y.val := by
  unfold Double.val
  exact_mod_cast h

theorem Double.le_trueDist {D : ℕ} {ℓ : Double} {x y : Vec Double D} (h : ℓ.value ^ 2 ≤ ∑ a, ((x a).value - (y a).value) ^ 2) : ℓ.val ≤ Double.trueDist x y := by
  apply Real.le_sqrt_of_sq_le
  unfold Double.val
  exact_mod_cast h

theorem Double.trueDist_le {D : ℕ} {r : Double} {x y : Vec Double D} (h0 : 0 ≤ r.value) (h : ∑ a, ((x a).value - (y a).value) ^ 2 ≤ r.value ^ 2) : Double.trueDist x y ≤ r.val := by
  apply Real.sqrt_le_iff.mpr
  unfold Double.val
  exact ⟨by exact_mod_cast h0, by exact_mod_cast h⟩

theorem Double.trueLength_le {D : ℕ} {r : ℚ} {u : Vec Double D} (h0 : 0 ≤ r) (h : ∑ a, (u a).value ^ 2 ≤ r ^ 2) : Double.trueLength u ≤ r := by
  apply Real.sqrt_le_iff.mpr
  unfold Double.val
  exact ⟨by exact_mod_cast h0, by exact_mod_cast h⟩

theorem dblCourant : dblArgs.courant.isFinite = true ∧ (1 : ℝ) / 2 ^ 20 ≤ dblArgs.courant.val ∧ dblArgs.courant.val ≤ 1 := by
  have h : dblArgs.courant.isFinite = true ∧ (1 : ℚ) / 2 ^ 20 ≤ dblArgs.courant.value ∧ dblArgs.courant.value ≤ 1 := by decide +kernel
  refine ⟨h.1, ?_, ?_⟩
  · have : ((1 / 2 ^ 20 : ℚ) : ℝ) ≤ ((dblArgs.courant.value : ℚ) : ℝ) := by exact_mod_cast h.2.1
    push_cast at this
    exact this
  · unfold Double.val
    exact_mod_cast h.2.2

theorem dblState_n : dblState.n = 3 := by decide +kernel

theorem dblState_valid : (Schedule.serial 3).Valid dblState.n := by rw [dblState_n]; exact Schedule.serial_valid 3

theorem dblNew_ok : dblNew.grid.ClearOK := fun h => absurd h (by decide)

theorem dbl_bounds : ∀ i, i < 3 → ∀ a, (((dblState.ps i).x a).isFinite = true ∧ -2 ^ 60 ≤ ((dblState.ps i).x a).value ∧ ((dblState.ps i).x a).value ≤ 2 ^ 60) ∧
    (((dblState.ps i).u a).isFinite = true ∧ -2 ^ 30 ≤ ((dblState.ps i).u a).value ∧ ((dblState.ps i).u a).value ≤ 2 ^ 30) := by decide +kernel

theorem dbl_sep : ∀ i, i < 3 → ∀ j, j < 3 → j ≠ i → (dbl (2 / 10)).value ^ 2 ≤ ∑ a, (((dblState.ps i).x a).value - ((dblState.ps j).x a).value) ^ 2 := by decide +kernel

/-- The hypotheses of the theorems on neighbours and on the matrix hold of this computer. -/
example : ∃ s1, (dblState.start (dbl (1 / 1000))).searchNeighbor (Schedule.serial 3 0) = .ok s1 ∧ 1 ∈ s1.neighbors 0 ∧ 0 ∈ s1.neighbors 1 := by
  obtain ⟨s1, h1, h2, -, h4⟩ := dblState_search
  have key := C72_no_neighbour_lost_in_double (by decide) dblEnv_eq dblCourant (Double.sized_of (by decide +kernel)) (Double.sized_of (by decide +kernel)) dblNew_eq dblState_hist
    dblNew_ok (by decide +kernel) (fun a => Double.upto_of (by revert a; decide +kernel))
    (fun i hi _ a => (Double.upto_of (dbl_bounds i (dblState_n ▸ hi) a).1).mono (by norm_num)) (Schedule.serial 3) dblState_valid _ h1 0 1 (by decide +kernel) (by decide +kernel) (by decide)
    (by rw [h2]; decide) (by rw [h4]; decide)
  have h5 := key.1 (Double.trueDist_le (by decide +kernel) (by decide +kernel))
  exact ⟨s1, h1, h5, key.2.2.mp h5⟩

/-- The hypotheses of the theorem on the first stage hold of it. -/
example : ∃ s1 t N, (dblState.start (dbl (1 / 1000))).searchNeighbor (Schedule.serial 3 0) = .ok s1 ∧
    dblState.beforePressure dblP (Schedule.serial 3) (dbl (1 / 1000)) = .ok t ∧
    |((t.ps 0).u 0).val - (((dblState.ps 0).u 0).val + (dbl (1 / 1000)).val * doubleRounding.trueAcceleration dblP.cfg s1 0 N 0)| ≤
      202 / 2 ^ 50 * (sz ((dblState.ps 0).u 0).val + (dbl (1 / 1000)).val * doubleRounding.accelerationSize dblP.cfg s1 0 N 0) := by
  obtain ⟨s1, h1, h2, h3, h4⟩ := dblState_search
  have hbp := beforePressure_of_search (P := dblP) dblState_valid h1
  obtain ⟨-, N, -, key⟩ := C72_first_stage_in_double (by decide) (ℓ := dbl (2 / 10)) dblEnv_eq dblCourant (Double.sized_of (by decide +kernel)) (Double.sized_of (by decide +kernel))
    (Double.sized_of (by decide +kernel)) (Double.val_le_of (by decide +kernel))
    (by
      have h : dblEnv.re.value ≤ 2 ^ 20 * (dbl (2 / 10)).value := by decide +kernel
      unfold Double.val; exact_mod_cast h)
    (by
      have h : dblEnv.neighborLength.value ≤ 2 ^ 21 * (dbl (2 / 10)).value := by decide +kernel
      unfold Double.val; exact_mod_cast h)
    (Double.sized_of (by decide +kernel)) (Double.sized_of (by decide +kernel)) (Double.sized_of (by decide +kernel)) (Double.upto_of (by decide +kernel))
    (by
      have h : 0 ≤ dblEnv.nu.value := by decide +kernel
      unfold Double.val; exact_mod_cast h)
    (fun a => Double.upto_of (by revert a; decide +kernel)) dblNew_eq dblState_hist dblNew_ok (by decide +kernel) (fun a => Double.upto_of (by revert a; decide +kernel))
    (fun i hi _ a => ⟨Double.upto_of (dbl_bounds i (dblState_n ▸ hi) a).1, Double.upto_of (dbl_bounds i (dblState_n ▸ hi) a).2⟩)
    (fun i j hi hj hij _ _ => Double.le_trueDist (dbl_sep i (dblState_n ▸ hi) j (dblState_n ▸ hj) hij)) (Schedule.serial 3) dblState_valid (dbl (1 / 1000)) (Double.sized_of (by decide +kernel)) rfl h1 hbp 0
    (by decide +kernel) h2 (by rw [h3]; decide) (fun h => by cases h)
  have := (key 0).2.2.1
  rw [h3] at this
  refine ⟨s1, _, N, h1, hbp, ?_⟩
  norm_num at this ⊢
  exact this

/-- The hypotheses of the theorem on the automatic time step hold of it. -/
example : ∃ dt, dblState.determineDt = some dt ∧ 0 < dt.val ∧ ∀ i, i < dblState.n → Double.trueLength (dblState.ps i).u * dt.val ≤ (1 + 1 / 2 ^ 40) * dblState.env.maxDx.val := by
  obtain ⟨dt, h1, -, h3, -, h5, -⟩ := C72_automatic_step_in_double (by decide) dblState (by decide +kernel) (V := ((2 : ℚ) : ℝ)) (by
      have : (1 : ℝ) / 2 ^ 300 ≤ 1 := by rw [div_le_one (by positivity)]; exact one_le_pow₀ (by norm_num)
      push_cast; linarith) (by
      have : (2 : ℝ) ^ 1 ≤ 2 ^ 300 := pow_le_pow_right₀ (by norm_num) (by norm_num)
      push_cast; linarith) (Double.sized_of (by decide +kernel)) (Double.sized_of (by decide +kernel))
    (fun i hi => ⟨fun a => (dbl_bounds i (dblState_n ▸ hi) a).2.1, Double.trueLength_le (by norm_num) (by revert i; decide +kernel)⟩)
  exact ⟨dt, h1, h3, h5⟩

/-- A whole step in `double`, evaluated: it succeeds, and the matrix is symmetric where two particles are coupled. -/
example : (dblState.forwardTime dblP (Schedule.serial 3) (dbl (1 / 1000))).check
    (fun s => decide ((s.ps 0).ty = .incompressibleNewton ∧ ((s.ps 0).u 0).isFinite ∧ s.ppe.A 0 1 = s.ppe.A 1 0 ∧ (s.ps 0).x 1 ≠ (dblState.ps 0).x 1)) (fun _ _ => false) = true := by
  decide +kernel

end OpenMps
