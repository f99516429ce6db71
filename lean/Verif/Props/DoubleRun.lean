import Verif.Props.Double
import Verif.Props.RoundingForcesRun
import Verif.Props.RoundingRun
import Verif.Props.RoundingSolver
import Verif.Lemmas.DoubleBits
import Verif.Lemmas.Ppe

/-! # C72: the program in `double`

The theorems about rounding for `double` itself, and laws that hold bit for bit. -/

set_option linter.unusedSectionVars false
set_option exponentiation.threshold 2000

namespace OpenMps

variable {D : Nat} {ω : Type}

theorem dd : doubleRounding.DoubleLike ∧ doubleRounding.Wide ∧ doubleRounding.Exact ∧ doubleRounding.Ordinary ∧ doubleRounding.Propagates :=
  C72_double_satisfies_the_rounding_model.2.2.2.2.2

theorem double_Ω : (2 : ℝ) ^ 1023 ≤ doubleRounding.Ω := by
  change (2 : ℝ) ^ 1023 ≤ 2 ^ 1024 - 2 ^ 971
  have e1 : (2 : ℝ) ^ 1024 = 2 * 2 ^ 1023 := by rw [← pow_succ']
  have e2 : (2 : ℝ) ^ 971 ≤ 2 ^ 1023 := pow_le_pow_right₀ (by norm_num) (by norm_num)
  rw [e1]
  generalize (2 : ℝ) ^ 1023 = q at *
  generalize (2 : ℝ) ^ 971 = p at *
  linarith

theorem double_η : doubleRounding.η = 1 / 2 ^ 1075 := rfl

theorem le_double_Ω {k : ℕ} (h : k ≤ 1023) : (2 : ℝ) ^ k ≤ doubleRounding.Ω :=
  (pow_le_pow_right₀ (by norm_num) h).trans double_Ω

theorem Double.Sized.pos {b : ℕ} {x : Double} (h : x.Sized b) : 0 < x.val := lt_of_lt_of_le (by positivity) h.2.1

theorem Double.Sized.goodLength {x : Double} (h : x.Sized 400) : doubleRounding.GoodLength x := by
  obtain ⟨h1, h2, h3⟩ := h
  have hp : (0 : ℝ) < 1 / 2 ^ 400 := by positivity
  have hv : 0 < x.val := lt_of_lt_of_le hp h2
  refine ⟨h1, hv, ?_, ?_⟩
  · rw [double_η]
    change _ ≤ x.val ^ 2 / 2 ^ 50
    have h4 : (1 / 2 ^ 400 : ℝ) ^ 2 ≤ x.val ^ 2 := pow_le_pow_left₀ hp.le h2 2
    rw [le_div_iff₀ (by positivity)]
    refine le_trans ?_ h4
    rw [div_pow, one_pow, ← pow_mul, div_mul_eq_mul_div, one_mul, div_le_div_iff₀ (by positivity) (by positivity), one_mul, ← pow_add]
    exact pow_le_pow_right₀ (by norm_num) (by norm_num)
  · change 2 ^ 50 * x.val ^ 2 ≤ _
    have h4 : x.val ^ 2 ≤ (2 ^ 400) ^ 2 := pow_le_pow_left₀ hv.le h3 2
    refine (mul_le_mul_of_nonneg_left h4 (by positivity)).trans ?_
    rw [← pow_mul, ← pow_add]
    exact le_double_Ω (by norm_num)

theorem Double.Upto.inRange {L : Double} (hL : L.Sized 400) {x : Vec Double D} (h : ∀ a, (x a).Upto 500) : doubleRounding.InRange L x := by
  intro a
  obtain ⟨h1, h2⟩ := h a
  have k1 : (2 : ℝ) ^ 1020 ≤ doubleRounding.Ω / 8 := by
    rw [le_div_iff₀ (by norm_num), show (8 : ℝ) = 2 ^ 3 by norm_num, ← pow_add]
    exact le_double_Ω (by norm_num)
  have k2 : (2 : ℝ) ^ 500 ≤ 2 ^ 1020 := pow_le_pow_right₀ (by norm_num) (by norm_num)
  refine ⟨h1, h2.trans (k2.trans k1), h2.trans ?_⟩
  have k3 : (2 : ℝ) ^ 1020 * (1 / 2 ^ 400) ≤ doubleRounding.Ω / 8 * L.val := mul_le_mul k1 hL.2.1 (by positivity) (by linarith [pow_pos (show (0 : ℝ) < 2 by norm_num) 1020])
  refine le_trans ?_ k3
  rw [mul_one_div, le_div_iff₀ (by positivity), ← pow_add]
  exact pow_le_pow_right₀ (by norm_num) (by norm_num)

/-- **C72**, neighbours.  In a computer with any history, in a box of at most `2^20` blocks per axis, with lengths between `2^-400` and `2^400` and coordinates up to
`2^500`: the table that the next step builds in `double` lists for an enabled particle every other enabled particle within the radius of influence (exact distance), and
none beyond `1 + 2^-26` search radii; and it is symmetric. -/
theorem C72_no_neighbour_lost_in_double (hD : D ≤ 3)
    {P : Params Double D ω} {cfg : Config} {e : EnvArgs Double D} {env : Env Double D} {w : ω} {s0 s s1 : State Double D ω} {dts : List Double}
    (hmk : Env.mk? cfg e = some env) (hc : e.courant.isFinite = true ∧ 1 / 2 ^ 20 ≤ e.courant.val ∧ e.courant.val ≤ 1)
    (hre : env.re.Sized 400) (hL : env.neighborLength.Sized 400)
    (hnew : State.new? env w = some s0) (hist : Hist P s0 dts s) (hok : s0.grid.ClearOK)
    (hsize : ∀ a, s0.grid.size a ≤ 2 ^ 20) (hmin : ∀ a, (env.minX a).Upto 500)
    (hpos : ∀ i, i < s.n → (s.ps i).ty ≠ .disabled → ∀ a, ((s.ps i).x a).Upto 500)
    (sch : Schedule) (hv : sch.Valid s.n) (dt : Double) (h : (s.start dt).searchNeighbor (sch 0) = .ok s1)
    (i j : Nat) (hi : i < s.n) (hj : j < s.n) (hij : j ≠ i) (hdi : (s1.ps i).ty ≠ .disabled) (hdj : (s1.ps j).ty ≠ .disabled) :
    (Double.trueDist (s.ps i).x (s.ps j).x ≤ env.re.val → j ∈ s1.neighbors i) ∧
    (j ∈ s1.neighbors i → Double.trueDist (s.ps i).x (s.ps j).x < (1 + 1 / 2 ^ 26) * env.neighborLength.val) ∧
    (j ∈ s1.neighbors i ↔ i ∈ s1.neighbors j) := by
  have hmin' := Double.Upto.inRange hL hmin
  have hpos' := fun i hi hd => Double.Upto.inRange hL (hpos i hi hd)
  have r4 : 4 * doubleRounding.val env.re ≤ doubleRounding.Ω := by
    refine (mul_le_mul_of_nonneg_left hre.2.2 (by norm_num)).trans ?_
    rw [show (4 : ℝ) = 2 ^ 2 by norm_num, ← pow_add]
    exact le_double_Ω (by norm_num)
  refine ⟨fun hd => ?_, fun hd => ?_, ?_⟩
  · exact C47_radius_of_influence_covered doubleRounding dd.1 hD hmk hc ⟨hre.1, hre.pos.le, r4⟩ (by
      rw [show (4 : ℝ) = 2 ^ 2 by norm_num]; exact le_double_Ω (by norm_num)) hnew hist hok hL.goodLength hsize hmin' hpos' sch hv dt h i j hi hj hij hdi hdj hd
  · exact (C47_no_neighbour_lost_by_rounding doubleRounding dd.1 hD hnew hist hok hL.goodLength hsize hmin' hpos' sch hv dt h i j hi hj hij hdi hdj).2 hd
  · obtain ⟨b0, -⟩ := hist.geometry hnew
    obtain ⟨-, h2, -⟩ := hist.frame
    exact C47_neighbours_symmetric Double.sq_sub (s := s.start dt) (hv 0) (h2.clearOK.mpr hok) b0 h i j hi hj hdi hdj

/-- **C72**, symmetry.  The neighbour table is symmetric bit for bit, with any coordinates (infinities and NaN included: particles outside the grid are disabled first). -/
theorem C72_neighbours_symmetric_in_double {P : Params Double D ω} {env : Env Double D} {w : ω} {s0 s s1 : State Double D ω} {dts : List Double}
    (hnew : State.new? env w = some s0) (hist : Hist P s0 dts s) (hok : s0.grid.ClearOK)
    (sch : Schedule) (hv : sch.Valid s.n) (dt : Double) (h : (s.start dt).searchNeighbor (sch 0) = .ok s1)
    (i j : Nat) (hi : i < s.n) (hj : j < s.n) (hdi : (s1.ps i).ty ≠ .disabled) (hdj : (s1.ps j).ty ≠ .disabled) :
    j ∈ s1.neighbors i ↔ i ∈ s1.neighbors j := by
  obtain ⟨b0, -⟩ := hist.geometry hnew
  obtain ⟨-, h2, -⟩ := hist.frame
  exact C47_neighbours_symmetric Double.sq_sub (s := s.start dt) (hv 0) (h2.clearOK.mpr hok) b0 h i j hi hj hdi hdj

/-! ## The matrix -/

theorem Double.dot_swap (x y : Vec Double D) : dot (x - y) (x - y) = dot (y - x) (y - x) := by
  unfold dot
  congr 1
  funext v a
  rw [Pi.sub_apply, Pi.sub_apply, Double.sq_sub]

theorem Double.dist_swap (x y : Vec Double D) : dist x y = dist y x := by
  unfold dist
  rw [Double.dot_swap]

theorem mem_nearList_double {s : State Double D ω} {i j : Nat} (h : j ∈ s.neighbors i ↔ i ∈ s.neighbors j) : j ∈ s.nearList i ↔ i ∈ s.nearList j := by
  unfold State.nearList
  rw [List.mem_filter, List.mem_filter, h, Double.dot_swap]
  simp only [ne_eq, eq_comm]

section
variable {F : Type} [Scalar F]

theorem rowFold_all (l : List (Nat × F)) (j : Nat) (v : F) : ∀ r : Nat → Option F, (∀ e ∈ l, e.1 = j → e.2 = v) →
    l.foldl (fun r e => upd r e.1 (some e.2)) r j = if ∃ e ∈ l, e.1 = j then some v else r j := by
  induction l with
  | nil => intro r _; simp
  | cons e l ih =>
    intro r h
    rw [List.foldl_cons, ih _ (fun e' he' => h e' (List.mem_cons_of_mem _ he'))]
    by_cases h1 : ∃ e ∈ l, e.1 = j
    · rw [if_pos h1, if_pos]
      obtain ⟨e', he, hj⟩ := h1
      exact ⟨e', List.mem_cons_of_mem _ he, hj⟩
    · rw [if_neg h1]
      by_cases h2 : e.1 = j
      · rw [if_pos ⟨e, List.mem_cons_self, h2⟩]
        unfold upd
        rw [if_pos h2.symm, h e List.mem_cons_self h2]
      · rw [if_neg]
        · unfold upd
          rw [if_neg (Ne.symm h2)]
        · rintro ⟨e', he, hj⟩
          rcases List.mem_cons.mp he with rfl | he
          · exact h2 hj
          · exact h1 ⟨e', he, hj⟩

/-- The entry of row `i` at another column. -/
theorem entry_other (cfg : Config) (s : State F D ω) {i j : Nat} (hi : i < s.n) (hf : s.fixedRow cfg i = false) (hij : j ≠ i) :
    (s.ppeC cfg).ppe.A i j =
      if j ∈ s.nearList i ∧ (s.ps j).ty ≠ .dummy ∧ s.isSurface cfg (s.ps j).n = false then some (s.coef cfg (dist (s.ps i).x (s.ps j).x)) else none := by
  change assemble s.n _ i j = _
  rw [assemble_row, if_pos hi, if_pos hi]
  unfold State.matCompute
  rw [hf]
  simp only [Bool.false_eq_true, if_false]
  change ((_ ++ _ : List (Nat × F))).foldl (fun r e => upd r e.1 (some e.2)) (fun _ => none) j = _
  rw [rowFold_all _ j (s.coef cfg (dist (s.ps i).x (s.ps j).x)), accumulate_entries]
  · congr 1
    simp only [List.mem_append, List.mem_map, List.mem_filter, List.mem_singleton, eq_iff_iff, Bool.and_eq_true, decide_eq_true_iff, Bool.not_eq_true']
    constructor
    · rintro ⟨e, ⟨k, hk, rfl⟩ | rfl, he⟩
      · subst he; exact ⟨hk.1, hk.2.1, hk.2.2⟩
      · exact absurd he.symm hij
    · rintro ⟨h1, h2, h3⟩
      exact ⟨_, Or.inl ⟨j, ⟨h1, h2, h3⟩, rfl⟩, rfl⟩
  · rw [accumulate_entries]
    intro e he hj
    rcases List.mem_append.mp he with he | he
    · obtain ⟨k, -, rfl⟩ := List.mem_map.mp he
      subst hj; rfl
    · rw [List.mem_singleton] at he
      subst he
      exact absurd hj.symm hij

end

/-- **C72**, matrix.  In a step of a computer in `double`, after any history and with any coordinates: the coefficients that couple two particles with pressure equations
of their own are the same bits in both rows, whatever order the threads work in. -/
theorem C72_pressure_matrix_symmetric_in_double {P : Params Double D ω} {env : Env Double D} {w : ω} {s0 s t : State Double D ω} {dts : List Double}
    (hnew : State.new? env w = some s0) (hist : Hist P s0 dts s) (hok : s0.grid.ClearOK)
    {sch : Schedule} (hv : sch.Valid s.n) {dt : Double} (h : s.beforePressure P sch dt = .ok t)
    {schB schA : List Ev} (hB : ValidSched t.n schB) (hA : ValidSched t.n schA) (i j : Nat) (hi : i < s.n) (hj : j < s.n)
    (hfi : (t.ps i).ty ≠ .dummy ∧ (t.ps i).ty ≠ .disabled ∧
      (P.cfg.spp = true ∨ Scalar.lt ((t.ps i).n / t.env.n0) t.env.surfaceRatio = false))
    (hfj : (t.ps j).ty ≠ .dummy ∧ (t.ps j).ty ≠ .disabled ∧
      (P.cfg.spp = true ∨ Scalar.lt ((t.ps j).n / t.env.n0) t.env.surfaceRatio = false)) :
    (t.setPpe P.cfg schB schA).ppe.A i j = (t.setPpe P.cfg schB schA).ppe.A j i ∧
    (i ≠ j → ∀ a, (t.setPpe P.cfg schB schA).ppe.A i j = some a → a = t.coef P.cfg (dist (t.ps i).x (t.ps j).x)) := by
  rw [setPpe_eq P.cfg t schB schA hB hA]
  by_cases hij : i = j
  · subst hij; exact ⟨rfl, fun h => absurd rfl h⟩
  obtain ⟨s1, hs, rfl⟩ := beforePressure_midC hv h
  have hn1 : s1.n = s.n := searchNeighbor_n (s.start dt) s1 _ (hv 0) hs
  set t := s1.midC P with ht
  have htn : t.n = s.n := (midC_n P s1).trans hn1
  have free : ∀ k, (t.ps k).ty ≠ .dummy ∧ (t.ps k).ty ≠ .disabled ∧ (P.cfg.spp = true ∨ Scalar.lt ((t.ps k).n / t.env.n0) t.env.surfaceRatio = false) →
      t.fixedRow P.cfg k = false ∧ t.isSurface P.cfg (t.ps k).n = false := by
    intro k hk
    have h3 : t.isSurface P.cfg (t.ps k).n = false := by
      unfold State.isSurface
      rcases hk.2.2 with h | h
      · rw [h]; rfl
      · rw [h, Bool.and_false]
    refine ⟨?_, h3⟩
    unfold State.fixedRow
    rw [h3, decide_eq_false hk.1, decide_eq_false hk.2.1]
    rfl
  have hsym : j ∈ t.neighbors i ↔ i ∈ t.neighbors j := by
    have e : ∀ k, t.neighbors k = s1.neighbors k := by
      intro k
      unfold State.neighbors
      rw [show t.nbr = s1.nbr by rw [ht]; unfold State.midC; rw [saveX_nbr]; rfl]
    rw [e, e]
    have hdi := hfi.2.1
    have hdj := hfj.2.1
    rw [ht, midC_ty] at hdi hdj
    exact C72_neighbours_symmetric_in_double hnew hist hok sch hv dt hs i j hi hj hdi hdj
  rw [entry_other P.cfg t (by omega) (free i hfi).1 (Ne.symm hij), entry_other P.cfg t (by omega) (free j hfj).1 hij]
  constructor
  · simp only [hfi.1, hfj.1, (free i hfi).2, (free j hfj).2, ne_eq, not_false_eq_true, and_true]
    simp only [mem_nearList_double hsym, Double.dist_swap (t.ps i).x]
  · intro _ a ha
    split at ha
    · injection ha with ha; exact ha.symm
    · cases ha

/-! ## Action and reaction -/

/-- **C72**, action and reaction.  In `double` the contributions of two particles to each other - pressure gradient and viscosity - are opposite bit for bit: same absolute value,
opposite sign (or both NaN). -/
theorem C72_action_is_reaction_in_double (cfg : Config) (s : State Double D ω) (i j : Nat) (hi : (s.ps i).ty ≠ .dummy) (hj : (s.ps j).ty ≠ .dummy) (a : Fin D) :
    Double.Opposite (s.gradFunc i j (s.ps j) a) (s.gradFunc j i (s.ps i) a) ∧ Double.Opposite (s.viscFunc cfg i j (s.ps j) a) (s.viscFunc cfg j i (s.ps i) a) := by
  constructor
  · unfold State.gradFunc
    rw [if_pos hj, if_pos hi]
    simp only [smul]
    rw [Double.dot_swap (s.ps i).x (s.ps j).x, show (s.ps i).p + (s.ps j).p = (s.ps j).p + (s.ps i).p from Double.add_comm' _ _]
    exact Double.opposite_mul_sub _ _ _
  · unfold State.viscFunc
    rw [if_pos hj, if_pos hi]
    rw [Double.dist_swap (s.ps j).x (s.ps i).x]
    split <;> exact Double.opposite_mul_sub _ _ _

/-! ## Accuracy -/

theorem Double.Sized.mono {b b' : ℕ} {x : Double} (h : x.Sized b) (hb : b ≤ b') : x.Sized b' :=
  ⟨h.1, (one_div_le_one_div_of_le (by positivity) (pow_le_pow_right₀ (by norm_num) hb)).trans h.2.1, h.2.2.trans (pow_le_pow_right₀ (by norm_num) hb)⟩

theorem Double.Upto.mono {b b' : ℕ} {x : Double} (h : x.Upto b) (hb : b ≤ b') : x.Upto b' :=
  ⟨h.1, h.2.trans (pow_le_pow_right₀ (by norm_num) hb)⟩

theorem double_lengths {ℓ re : Double} (hℓ : ℓ.Sized 30) (hre : re.Sized 30) (h1 : ℓ.val ≤ re.val) (h2 : re.val ≤ 2 ^ 20 * ℓ.val) : doubleRounding.Lengths ℓ re := by
  refine ⟨(hℓ.mono (by norm_num)).goodLength, hre.1, h1, h2, le_double_Ω (by norm_num), ?_⟩
  refine le_trans ?_ (le_double_Ω (show 61 ≤ 1023 by norm_num))
  change 2 * re.val ^ 2 ≤ 2 ^ 61
  have := hre.pos
  have h3 := hre.2.2
  norm_num at h3 ⊢
  nlinarith

/-- **C72**, first stage.  In a step in `double` of a computer with any history, with physical constants between `2^-30` and `2^30` and enabled particles not closer than `ℓ`: the densities of the table just built are
the exact ones at the stored positions up to 12 significant digits, and the velocities and positions after viscosity, gravity and movement are those of exact arithmetic, up to `200 + 2 * number of neighbours`
times `2^-50` of the terms involved. -/
theorem C72_first_stage_in_double (hD : D ≤ 3) {ℓ : Double}
    {P : Params Double D ω} {cfg : Config} {e : EnvArgs Double D} {env : Env Double D} {w : ω} {s0 s s1 t : State Double D ω} {dts : List Double}
    (hmk : Env.mk? cfg e = some env) (hc : e.courant.isFinite = true ∧ 1 / 2 ^ 20 ≤ e.courant.val ∧ e.courant.val ≤ 1)
    (hℓ : ℓ.Sized 30) (hre : env.re.Sized 30) (hL : env.neighborLength.Sized 30)
    (h1 : ℓ.val ≤ env.re.val) (h2 : env.re.val ≤ 2 ^ 20 * ℓ.val) (h3 : env.neighborLength.val ≤ 2 ^ 21 * ℓ.val)
    (hn0 : env.n0.Sized 30) (hla : env.lambda.Sized 60) (hrho : env.rho.Sized 30) (hnu : env.nu.Upto 30) (hnu0 : 0 ≤ env.nu.val)
    (hg : ∀ a, (env.g a).Upto 30)
    (hnew : State.new? env w = some s0) (hist : Hist P s0 dts s) (hok : s0.grid.ClearOK)
    (hsize : ∀ a, s0.grid.size a ≤ 2 ^ 20) (hmin : ∀ a, (env.minX a).Upto 500)
    (hpos : ∀ i, i < s.n → (s.ps i).ty ≠ .disabled → ∀ a, ((s.ps i).x a).Upto 60 ∧ ((s.ps i).u a).Upto 30)
    (hsep : ∀ i j, i < s.n → j < s.n → j ≠ i → (s.ps i).ty ≠ .disabled → (s.ps j).ty ≠ .disabled → ℓ.val ≤ Double.trueDist (s.ps i).x (s.ps j).x)
    (sch : Schedule) (hv : sch.Valid s.n) (dt : Double) (hdt : dt.Sized 30) (hcg : P.cfg.centralGravity = false)
    (h : (s.start dt).searchNeighbor (sch 0) = .ok s1) (ht : s.beforePressure P sch dt = .ok t)
    (i : Nat) (hi : i < s.n) (hty : (s1.ps i).ty = .incompressibleNewton) (hk : (s1.neighbors i).length ≤ 2 ^ 20)
    (hN : P.cfg.spp = true →
      env.n0.val + ((s1.neighbors i).length + 1) * (doubleRounding.trueDensity s1 i + 1) / 2 ^ 41 ≤ doubleRounding.trueDensity s1 i) :
    (∀ cfg' (sch' : List Ev), ValidSched s.n sch' →
      (((s1.computeDensities cfg' sch').ps i).n).isFinite = true ∧
      |(((s1.computeDensities cfg' sch').ps i).n).val -
          (if cfg'.spp then max (doubleRounding.trueDensity s1 i) env.n0.val else doubleRounding.trueDensity s1 i)| ≤
        ((s1.neighbors i).length + 1) * (doubleRounding.trueDensity s1 i + 1) / 2 ^ 41) ∧
    ∃ N, doubleRounding.Within s1 i N ∧ ∀ a, ((t.ps i).u a).isFinite = true ∧ ((t.ps i).x a).isFinite = true ∧
      |((t.ps i).u a).val - (((s.ps i).u a).val + dt.val * doubleRounding.trueAcceleration P.cfg s1 i N a)| ≤
        (2 * (s1.neighbors i).length + 200) / 2 ^ 50 * (sz ((s.ps i).u a).val + dt.val * doubleRounding.accelerationSize P.cfg s1 i N a) ∧
      |((t.ps i).x a).val - (((s.ps i).x a).val + dt.val * ((t.ps i).u a).val)| ≤
        8 / 2 ^ 50 * (sz ((s.ps i).x a).val + dt.val * sz ((t.ps i).u a).val) := by
  have hl := double_lengths hℓ hre h1 h2
  have hL' := hL.mono (show 30 ≤ 400 by norm_num)
  have hmin' := Double.Upto.inRange hL' hmin
  have hpos' : ∀ i, i < s.n → (s.ps i).ty ≠ .disabled → doubleRounding.InRange env.neighborLength (s.ps i).x :=
    fun i hi hd => Double.Upto.inRange hL' (fun a => (hpos i hi hd a).1.mono (by norm_num))
  have r4 : 4 * doubleRounding.val env.re ≤ doubleRounding.Ω := by
    refine (mul_le_mul_of_nonneg_left hre.2.2 (by norm_num)).trans ?_
    rw [show (4 : ℝ) = 2 ^ 2 by norm_num, ← pow_add]
    exact le_double_Ω (by norm_num)
  constructor
  · intro cfg' sch' hv'
    exact C63_density_after_search_is_accurate doubleRounding dd.1 hD hmk hc hl r4 hn0.1 hnew hist hok hL'.goodLength h3 hsize hmin' hpos' hsep sch hv dt h i hi
      (by rw [hty]; rfl) hk sch' hv' cfg'
  · have henv : (s.start dt).env = { env with t := (s.start dt).env.t, dt := dt } := by
      have : s.env = { env with t := s.env.t, dt := s.env.dt } := by
        refine Hist.rec' (Q := fun _ s => s.env = { env with t := s.env.t, dt := s.env.dt }) ?_ ?_ ?_ hist
        · unfold State.new? at hnew
          split at hnew
          · cases hnew
          · injection hnew with hnew; rw [← hnew]
        · intro _ _ _ _ h; exact h
        · intro _ _ _ _ _ _ h hv hl
          rw [(step_frame hv hl).2.1]
          rw [h]
      change { s.env with dt := dt, t := s.env.t + dt } = { env with t := s.env.t + dt, dt := dt }
      conv_lhs => rw [this]
    have hP : doubleRounding.Plain (s.start dt).env := by
      rw [henv]
      exact ⟨hre, hn0, hla, hrho, hdt, hnu, hnu0, hg⟩
    exact C71_first_stage_of_a_step_is_accurate doubleRounding dd.1 dd.2.1 dd.2.2.1 hD hmk hc hl hℓ.2.1 hnew hist hok hL'.goodLength h3 hsize hmin'
      (fun i hi hd => ⟨hpos' i hi hd, hpos i hi hd⟩) hsep sch hv dt hP hcg h ht i hi hty hk hN

/-! ## Time step and run -/

theorem double_speedScale {V : ℝ} {dx dt : Double} (h1 : 1 / 2 ^ 300 ≤ V) (h2 : V ≤ 2 ^ 300) (hx : dx.Sized 100) (ht : dt.Sized 100) :
    doubleRounding.SpeedScale V dx dt := by
  have p1 : (0 : ℝ) < 1 / 2 ^ 300 := by positivity
  have hV : 0 < V := lt_of_lt_of_le p1 h1
  have hη : ∀ {a b c : ℕ}, a + c ≤ 1075 → b = a + c → doubleRounding.η * 2 ^ a ≤ (1 / 2 ^ c : ℝ) := by
    intro a b c h _
    rw [double_η, div_mul_eq_mul_div, one_mul, div_le_div_iff₀ (by positivity) (by positivity), one_mul, ← pow_add]
    exact pow_le_pow_right₀ (by norm_num) h
  have η0 := doubleRounding.η_nonneg
  refine ⟨hx.1, hx.pos, ht.1, ht.pos, ?_, hV, ?_, ?_, ?_, ?_, ?_⟩
  · refine lt_of_le_of_lt ht.2.2 (lt_of_lt_of_le ?_ double_Ω)
    exact pow_lt_pow_right₀ (by norm_num) (by norm_num)
  · have := pow_le_pow_left₀ hV.le h2 2
    refine (mul_le_mul_of_nonneg_left this (by norm_num)).trans ?_
    rw [show (16 : ℝ) = 2 ^ 4 by norm_num, ← pow_mul, ← pow_add]
    exact le_double_Ω (by norm_num)
  · have := le_double_Ω (show 0 ≤ 1023 by norm_num)
    rwa [pow_zero] at this
  · have := pow_le_pow_left₀ p1.le h1 2
    refine le_trans ?_ this
    rw [div_pow, one_pow, ← pow_mul]
    have := hη (a := 0) (c := 300 * 2) (b := 600) (by norm_num) (by norm_num)
    rwa [pow_zero, mul_one] at this
  · refine (mul_le_mul_of_nonneg_left h2 η0).trans ((hη (c := 160) (b := 460) (by norm_num) (by norm_num)).trans ?_)
    rw [le_div_iff₀ (by positivity)]
    refine le_trans ?_ hx.2.1
    rw [div_mul_eq_mul_div, one_mul, div_le_div_iff₀ (by positivity) (by positivity), one_mul, ← pow_add]
  · have k := pow_le_pow_left₀ ht.pos.le ht.2.2 2
    refine (mul_le_mul_of_nonneg_left k η0).trans ?_
    rw [← pow_mul]
    refine (hη (c := 320) (b := 520) (by norm_num) (by norm_num)).trans ?_
    rw [le_div_iff₀ (by positivity)]
    refine le_trans ?_ (pow_le_pow_left₀ (by positivity) hx.2.1 2)
    rw [div_pow, one_pow, ← pow_mul, div_mul_eq_mul_div, one_mul, div_le_div_iff₀ (by positivity) (by positivity), one_mul, ← pow_add]

/-- **C72**, automatic time step.  In `double`, with speeds up to `V` (between `2^-300` and `2^300`) and limits between `2^-100` and `2^100`: the chosen step is positive, at most the maximal one, moves no particle farther
than the Courant limit allows, and is the largest such step, all up to a relative error of `2^-40`. -/
theorem C72_automatic_step_in_double (hD : D ≤ 3) (s : State Double D ω) (hn : 0 < s.n) {V : ℝ} (h1 : 1 / 2 ^ 300 ≤ V) (h2 : V ≤ 2 ^ 300)
    (hx : s.env.maxDx.Sized 100) (ht : s.env.maxDt.Sized 100)
    (hu : ∀ i, i < s.n → (∀ a, ((s.ps i).u a).isFinite = true) ∧ Double.trueLength (s.ps i).u ≤ V) :
    ∃ dt, s.determineDt = some dt ∧ dt.isFinite = true ∧ 0 < dt.val ∧ dt.val ≤ s.env.maxDt.val ∧
      (∀ i, i < s.n → Double.trueLength (s.ps i).u * dt.val ≤ (1 + 1 / 2 ^ 40) * s.env.maxDx.val) ∧
      ∀ d, d ≤ s.env.maxDt.val → (∀ i, i < s.n → Double.trueLength (s.ps i).u * d ≤ (1 - 1 / 2 ^ 40) * s.env.maxDx.val) → d ≤ dt.val :=
  C65_automatic_step_in_rounded_arithmetic doubleRounding dd.1 dd.2.2.2.1 hD s hn (double_speedScale h1 h2 hx ht) hu

/-- **C72**, run.  The program in `double`: if the steps succeed and no particle gets faster than `V`, then after `K` steps, where `K δ` exceeds the simulated time by one per mille and `δ` is a step that no speed forbids, it has finished. -/
theorem C72_run_finishes_in_double (hD : D ≤ 3)
    {cfg : Config} {cv : Conv Double} {pr : Printer Double} {sch : Nat → Schedule} {cond : Condition Double} {a : EnvArgs Double D}
    {m : Nat} {csv : List Char} {P : Params Double D Unit} {s0 : State Double D Unit} (h : mainStart cfg cv cond a m csv P s0)
    (hv : ∀ k, (sch k).Valid s0.n) {offset N : Nat} (h1 : toSize (cond.startTime / cond.outputInterval) = some offset)
    (h2 : toSize ((cond.endTime - cond.startTime) / cond.outputInterval) = some N) (hI : cond.outputInterval.Sized 100)
    {V δ : ℝ} (hV1 : 1 / 2 ^ 300 ≤ V) (hV2 : V ≤ 2 ^ 300) (hx : s0.env.maxDx.Sized 100) (ht : s0.env.maxDt.Sized 100)
    (hδ : 0 < δ) (hδ1 : δ ≤ s0.env.maxDt.val) (hδ2 : V * δ ≤ (1 - 1 / 2 ^ 40) * s0.env.maxDx.val)
    (hN : N ≤ 2 ^ 38) (hlong : N * cond.outputInterval.val ≤ 2 ^ 36 * δ) {K : Nat} (hK : 1001 / 1000 * (N * cond.outputInterval.val) ≤ K * δ)
    (hsteps : ∀ k, k ≤ K → ∃ s, s0.afterSteps P sch k = .ok s ∧
      ∀ i, i < s.n → (∀ a, ((s.ps i).u a).isFinite = true) ∧ Double.trueLength (s.ps i).u ≤ V) :
    ∀ fuel, K ≤ fuel → (mainProgram cfg cv pr sch cond a m csv fuel).ending = .finished := by
  refine C65_run_finishes_in_rounded_arithmetic doubleRounding dd.1 dd.2.2.2.1 hD h hv h1 h2 hI.1 hI.pos (double_speedScale hV1 hV2 hx ht) hδ hδ1 hδ2 hN hlong ?_ hK hsteps
  refine le_trans ?_ (le_double_Ω (show 140 ≤ 1023 by norm_num))
  have k1 : (N : ℝ) ≤ 2 ^ 38 := by exact_mod_cast hN
  have k2 : (N : ℝ) * cond.outputInterval.val ≤ 2 ^ 38 * 2 ^ 100 := mul_le_mul k1 hI.2.2 hI.pos.le (by positivity)
  have k3 := ht.2.2
  change 2 * (N * cond.outputInterval.val) + s0.env.maxDt.val ≤ _
  norm_num at k2 k3 ⊢
  linarith

/-- **C72**, output times.  The `k`-th file is written at the time `k` intervals after the start, up to one step and a relative error of `(k + 1) 2^-48`. -/
theorem C72_output_times_in_double (hD : D ≤ 3)
    {cfg : Config} {cv : Conv Double} {pr : Printer Double} {sch : Nat → Schedule} {cond : Condition Double} {a : EnvArgs Double D}
    {m : Nat} {csv : List Char} {P : Params Double D Unit} {s0 : State Double D Unit} (h : mainStart cfg cv cond a m csv P s0)
    (hv : ∀ k, (sch k).Valid s0.n) {offset N : Nat} (h1 : toSize (cond.startTime / cond.outputInterval) = some offset)
    (h2 : toSize ((cond.endTime - cond.startTime) / cond.outputInterval) = some N) (hI : cond.outputInterval.Sized 100)
    {V : ℝ} (hV1 : 1 / 2 ^ 300 ≤ V) (hV2 : V ≤ 2 ^ 300) (hx : s0.env.maxDx.Sized 100) (ht : s0.env.maxDt.Sized 100)
    (hN : N ≤ 2 ^ 38) (fuel : Nat) {k : Nat} {rec : OutRec Double} (hrec : (mainProgram cfg cv pr sch cond a m csv fuel).outs[k]? = some rec)
    (hspeed : ∀ j s, j < rec.iteration → s0.afterSteps P sch j = .ok s →
      ∀ i, i < s.n → (∀ a, ((s.ps i).u a).isFinite = true) ∧ Double.trueLength (s.ps i).u ≤ V) :
    ∃ t : Double, t.isFinite = true ∧ rec.time = (if k = 0 then cond.startTime else t + cond.startTime) ∧
      (∃ s, s0.afterSteps P sch rec.iteration = .ok s ∧ s.env.t = t) ∧
      (1 - (k + 1) / 2 ^ 48) * (k * cond.outputInterval.val) ≤ t.val ∧
      t.val ≤ (1 + (k + 1) / 2 ^ 48) * (k * cond.outputInterval.val + s0.env.maxDt.val) := by
  refine C65_output_times_in_rounded_arithmetic doubleRounding dd.1 dd.2.2.2.1 hD h hv h1 h2 hI.1 hI.pos (double_speedScale hV1 hV2 hx ht) hN ?_ fuel hrec hspeed
  refine le_trans ?_ (le_double_Ω (show 140 ≤ 1023 by norm_num))
  have k1 : (N : ℝ) ≤ 2 ^ 38 := by exact_mod_cast hN
  have k2 : (N : ℝ) * cond.outputInterval.val ≤ 2 ^ 38 * 2 ^ 100 := mul_le_mul k1 hI.2.2 hI.pos.le (by positivity)
  have k3 := ht.2.2
  change 2 * (N * cond.outputInterval.val) + s0.env.maxDt.val ≤ _
  norm_num at k2 k3 ⊢
  linarith

/-- **C72**, solver.  If the conjugate gradient solver returns normally in `double`, its solution leaves a true residual of at most `eps` times that of the initial guess, up to rounding errors of `2^-50` and underflow. -/
theorem C72_solver_in_double {n m : ℕ} {A : Sparse Double} {b x : ℕ → Double} {eps : Double} {X Λ : ℝ} (hn : n ≤ 2 ^ 20) (hm : m ≤ 2 ^ 20)
    (hrow : ∀ i < n, rowLength n A i ≤ m) (hΛ : 0 ≤ Λ) (hC : doubleRounding.CalmRun n A b x eps X Λ) (he0 : eps.val ≠ 0) (he : |eps.val| ≤ 1)
    {y : ℕ → Double} (h : cgSolve n A b x eps = (y, true)) :
    vecNorm n (doubleRounding.trueResidual n A b y) ≤
      (1 + 1 / 2 ^ 26) * |eps.val| * vecNorm n (doubleRounding.trueResidual n A b x) + (n + 4) * vecNorm n (doubleRounding.drift n m A b X Λ) +
        √(5 * (n + 1) / 2 ^ 1075) / |eps.val| := by
  have := C68_returned_solution_is_accurate doubleRounding dd.1 dd.2.2.2.1 dd.2.2.2.2 hn hm hrow hΛ hC he0 he h
  rwa [double_η, mul_one_div] at this

/-! ## Exceptional operands -/

/-- **C72**, NaN and infinities.  Operations with a NaN give NaN and comparisons with a NaN are false; dividing a nonzero finite number by a zero gives an infinity and `0 / 0` gives NaN; the square root of a negative number is
NaN; `Index` conversion of NaN, of an infinity and of a number of at least `2^63` in absolute value (except `-2^63`) is undefined, all other floors are exact. -/
theorem C72_exceptional_operands (x y : Double) :
    ((x.isNan = true ∨ y.isNan = true) → (x + y).isNan = true ∧ (x - y).isNan = true ∧ (x * y).isNan = true ∧ (x / y).isNan = true ∧
      Scalar.lt x y = false ∧ Scalar.le x y = false ∧ Scalar.eq x y = false) ∧
    (x.isFinite = true → y.code = 0 → (x.code ≠ 0 → (x / y).isInf = true) ∧ (x.code = 0 → (x / y).isNan = true)) ∧
    (x.isNan = true ∨ (x.neg = true ∧ x.code ≠ 0) → (Scalar.sqrt x).isNan = true) ∧
    (∀ k, Scalar.floorIdx x = some k ↔ x.isFinite = true ∧ k = ⌊x.val⌋ ∧ -2 ^ 63 ≤ k ∧ k < 2 ^ 63) := by
  have hnn : Double.nan.isNan = true := by decide +kernel
  have hii : ∀ b, (Double.inf b).isInf = true := by intro b; cases b <;> decide +kernel
  refine ⟨fun h => ?_, fun hx hy => ?_, fun h => ?_, fun k => ?_⟩
  · have h1 : (x.isNan || y.isNan) = true := by rcases h with h | h <;> simp [h]
    have h2 : (!x.isNan && !y.isNan) = false := by rcases h with h | h <;> simp [h]
    refine ⟨?_, ?_, ?_, ?_, ?_, ?_, ?_⟩
    · change (x.add y).isNan = true
      unfold Double.add; rw [if_pos h1]; exact hnn
    · change (x.add y.neg').isNan = true
      rw [Double.add_neg'_eq, if_pos h1]; exact hnn
    · change (x.mul y).isNan = true
      unfold Double.mul; rw [if_pos h1]; exact hnn
    · change (x.div y).isNan = true
      unfold Double.div; rw [if_pos h1]; exact hnn
    · change (!x.isNan && !y.isNan && _) = false
      rw [h2, Bool.false_and]
    · change (!x.isNan && !y.isNan && _) = false
      rw [h2, Bool.false_and]
    · change (!x.isNan && !y.isNan && _) = false
      rw [h2, Bool.false_and]
  · have hx' := Double.not_nan_of_finite hx
    have hyf : y.isFinite = true := by rw [Double.isFinite_iff, hy]; unfold Double.infCode; norm_num
    have hy' := Double.not_nan_of_finite hyf
    constructor
    · intro h
      change (x.div y).isInf = true
      unfold Double.div
      simp only [hx', hy', hy, h, Bool.or_self, Bool.false_eq_true, if_false, if_true]
      exact hii _
    · intro h
      change (x.div y).isNan = true
      unfold Double.div
      simp only [hx', hy', hy, h, Bool.or_self, Bool.false_eq_true, if_false, if_true]
      exact hnn
  · change (x.sqrt).isNan = true
    unfold Double.sqrt
    by_cases hn : x.isNan = true
    · rw [if_pos hn]; exact hnn
    · rcases h with h | ⟨h1, h2⟩
      · exact absurd h hn
      · rw [if_neg hn, if_neg h2, if_pos h1]; exact hnn
  · change x.toIndex ⌊x.value⌋ = some k ↔ _
    have e : ⌊x.val⌋ = ⌊x.value⌋ := Rat.floor_cast x.value
    rw [e]
    unfold Double.toIndex
    simp only [Bool.and_eq_true, decide_eq_true_iff]
    constructor
    · intro h
      split at h
      · rename_i hc
        injection h with h
        subst h
        exact ⟨hc.1.1, rfl, hc.1.2, hc.2⟩
      · cases h
    · rintro ⟨h1, rfl, h2, h3⟩
      rw [if_pos ⟨⟨h1, h2⟩, h3⟩]

theorem Double.round_zero_neg (z : Bool) : (Double.round 0 z).neg = z ∧ (Double.round 0 z).code = 0 := by
  cases z <;> decide +kernel

/-- **C72**, infinities.  `inf + x = inf` for finite `x`, `inf - inf` is NaN; `inf * x` and `inf / x` are infinite with the sign of the rule except `inf * 0` and `inf / inf`, which are NaN; `x / inf` is zero. -/
theorem C72_infinities (x y : Double) (hx : x.isInf = true) :
    (y.isFinite = true → x + y = x ∧ y + x = x ∧ (y / x).code = 0 ∧ (y / x).neg = (y.neg != x.neg) ∧ (x / y).isInf = true ∧ (x / y).neg = (x.neg != y.neg)) ∧
    (y.isFinite = true → y.code ≠ 0 → (x * y).isInf = true ∧ (x * y).neg = (x.neg != y.neg) ∧ (y * x).isInf = true ∧ (y * x).neg = (y.neg != x.neg)) ∧
    (y.code = 0 → (x * y).isNan = true ∧ (y * x).isNan = true) ∧
    (y.isInf = true → (x / y).isNan = true ∧ (x * y).isInf = true ∧ (x * y).neg = (x.neg != y.neg) ∧
      (x.neg = y.neg → x + y = x ∧ (x - y).isNan = true) ∧ (x.neg ≠ y.neg → (x + y).isNan = true ∧ x - y = x)) := by
  have hnn : Double.nan.isNan = true := by decide +kernel
  have hii : ∀ b, (Double.inf b).isInf = true ∧ (Double.inf b).neg = b := by intro b; cases b <;> decide +kernel
  have h0 : ∀ b, (Double.mk' b 0).code = 0 ∧ (Double.mk' b 0).neg = b := by intro b; cases b <;> decide +kernel
  have xn := Double.inf_not_nan hx
  have xc := Double.inf_code hx
  refine ⟨fun hy => ?_, fun hy hc => ?_, fun hc => ?_, fun hy => ?_⟩
  · obtain ⟨yn, yi⟩ := Double.not_nan_of_finite hy
    have e1 : y / x = Double.mk' (y.neg != x.neg) 0 := by
      change y.div x = _
      unfold Double.div
      simp only [xn, yn, yi, hx, Bool.or_self, Bool.false_eq_true, if_false, if_true]
    have e2 : x / y = Double.inf (x.neg != y.neg) := by
      change x.div y = _
      unfold Double.div
      simp only [xn, yn, yi, hx, Bool.or_self, Bool.false_eq_true, if_false, if_true]
    refine ⟨?_, ?_, ?_, ?_, ?_, ?_⟩
    · change x.add y = x
      unfold Double.add
      simp only [xn, yn, yi, hx, Bool.or_self, Bool.false_and, Bool.false_eq_true, if_false, if_true]
    · change y.add x = x
      unfold Double.add
      simp only [xn, yn, yi, hx, Bool.or_self, Bool.false_eq_true, if_false, if_true]
    · rw [e1]; exact (h0 _).1
    · rw [e1]; exact (h0 _).2
    · rw [e2]; exact (hii _).1
    · rw [e2]; exact (hii _).2
  · obtain ⟨yn, yi⟩ := Double.not_nan_of_finite hy
    have e1 : x * y = Double.inf (x.neg != y.neg) := by
      change x.mul y = _
      unfold Double.mul
      simp only [xn, yn, hx, hc, Bool.or_self, Bool.false_eq_true, if_false, if_true]
    have e2 : y * x = Double.inf (y.neg != x.neg) := by
      change y.mul x = _
      unfold Double.mul
      simp only [xn, yn, yi, hx, hc, Bool.or_self, Bool.false_eq_true, if_false, if_true]
    rw [e1, e2]
    exact ⟨(hii _).1, (hii _).2, (hii _).1, (hii _).2⟩
  · have hy : y.isFinite = true := by rw [Double.isFinite_iff, hc]; unfold Double.infCode; norm_num
    obtain ⟨yn, yi⟩ := Double.not_nan_of_finite hy
    constructor
    · change (x.mul y).isNan = true
      unfold Double.mul
      simp only [xn, yn, hx, hc, Bool.or_self, Bool.false_eq_true, if_false, if_true]
      exact hnn
    · change (y.mul x).isNan = true
      unfold Double.mul
      simp only [xn, yn, yi, hx, hc, Bool.or_self, Bool.false_eq_true, if_false, if_true]
      exact hnn
  · have yn := Double.inf_not_nan hy
    have yc : y.code ≠ 0 := by rw [Double.inf_code hy]; unfold Double.infCode; norm_num
    have e1 : x * y = Double.inf (x.neg != y.neg) := by
      change x.mul y = _
      unfold Double.mul
      simp only [xn, yn, hx, yc, Bool.or_self, Bool.false_eq_true, if_false, if_true]
    refine ⟨?_, by rw [e1]; exact (hii _).1, by rw [e1]; exact (hii _).2, fun h => ⟨?_, ?_⟩, fun h => ⟨?_, ?_⟩⟩
    · change (x.div y).isNan = true
      unfold Double.div
      simp only [xn, yn, hx, hy, Bool.or_self, Bool.false_eq_true, if_false, if_true]
      exact hnn
    · change x.add y = x
      unfold Double.add
      simp only [xn, yn, hx, hy, h, Bool.or_self, bne_self_eq_false, Bool.and_false, Bool.false_eq_true, if_false, if_true]
    · change (x.add y.neg').isNan = true
      rw [Double.add_neg'_eq]
      have : (y.isInf && (x.neg != !y.neg)) = true := by rw [hy, h]; cases y.neg <;> rfl
      rw [if_neg (by rw [xn, yn]; decide), if_pos hx, if_pos this]
      exact hnn
    · change (x.add y).isNan = true
      unfold Double.add
      have : (y.isInf && (x.neg != y.neg)) = true := by rw [hy]; revert h; cases x.neg <;> cases y.neg <;> decide
      rw [if_neg (by rw [xn, yn]; decide), if_pos hx, if_pos this]
      exact hnn
    · change x.add y.neg' = x
      rw [Double.add_neg'_eq]
      have : ¬ (y.isInf && (x.neg != !y.neg)) = true := by rw [hy]; revert h; cases x.neg <;> cases y.neg <;> decide
      rw [if_neg (by rw [xn, yn]; decide), if_pos hx, if_neg this]

/-- **C72**, zeros and constants.  An exact sum of zero is `0`, or `-0` if both summands are negative; products and quotients have the sign of the rule also when they are zero; `0`, `1`, small integers, `std::numeric_limits<double>::epsilon()`
and `std::ceil` have their exact values. -/
theorem C72_zeros_and_constants (x y : Double) (hx : x.isFinite = true) (hy : y.isFinite = true) :
    (x.val + y.val = 0 → (x + y).code = 0 ∧ (x + y).neg = (x.neg && y.neg)) ∧
    (x * y).neg = (x.neg != y.neg) ∧ (y.code ≠ 0 → (x / y).neg = (x.neg != y.neg)) ∧
    (0 : Double).val = 0 ∧ (0 : Double).neg = false ∧ (1 : Double).val = 1 ∧ (∀ k : ℤ, |k| ≤ 2 ^ 53 → (Scalar.ofInt k : Double).isFinite = true ∧ (Scalar.ofInt k : Double).val = k) ∧
    (Scalar.epsilon : Double).val = 1 / 2 ^ 52 ∧
    (∀ k, Scalar.ceilIdx x = some k ↔ k = ⌈x.val⌉ ∧ -2 ^ 63 ≤ k ∧ k < 2 ^ 63) := by
  obtain ⟨xn, xi⟩ := Double.not_nan_of_finite hx
  obtain ⟨yn, yi⟩ := Double.not_nan_of_finite hy
  have hsign : ∀ z : Double, z.value < 0 → z.neg = true := by
    intro z hz
    unfold Double.value at hz
    split at hz
    · assumption
    · exact absurd hz (not_lt.mpr (by unfold Double.mag; positivity))
  have hsign' : ∀ z : Double, 0 < z.value → z.neg = false := by
    intro z hz
    unfold Double.value at hz
    split at hz
    · have : 0 ≤ Double.mag z.code := by unfold Double.mag; positivity
      linarith
    · rename_i h; simpa using h
  have hz0 : ∀ z : Double, z.value ≠ 0 → z.neg = decide (z.value < 0) := by
    intro z hz
    rcases lt_or_gt_of_ne hz with h | h
    · rw [hsign z h, decide_eq_true h]
    · rw [hsign' z h, decide_eq_false (not_lt.mpr h.le)]
  have hrn : ∀ v z, (Double.round v z).neg = if v = 0 then z else decide (v < 0) := by
    intro v z; unfold Double.round; rw [Double.mk'_neg]
  refine ⟨fun h => ?_, ?_, fun hc => ?_, doubleRounding.zero.2, rfl, doubleRounding.one.2, fun k hk => Double.ofInt_small k hk, ?_, fun k => ?_⟩
  · have hv : x.value + y.value = 0 := by
      unfold Double.val at h
      exact_mod_cast h
    have e : x + y = Double.round 0 (x.neg && y.neg) := by
      change x.add y = _
      unfold Double.add
      simp only [xn, yn, xi, yi, Bool.or_self, Bool.false_eq_true, if_false, hv]
    rw [e]
    exact ⟨(Double.round_zero_neg _).2, (Double.round_zero_neg _).1⟩
  · have e : x * y = Double.round (x.value * y.value) (x.neg != y.neg) := by
      change x.mul y = _
      unfold Double.mul
      simp only [xn, yn, xi, yi, Bool.or_self, Bool.false_eq_true, if_false]
    rw [e, hrn]
    split
    · rfl
    · rename_i h
      have hx0 : x.value ≠ 0 := left_ne_zero_of_mul h
      have hy0 : y.value ≠ 0 := right_ne_zero_of_mul h
      rw [hz0 x hx0, hz0 y hy0]
      rcases lt_or_gt_of_ne hx0 with h1 | h1 <;> rcases lt_or_gt_of_ne hy0 with h2 | h2
      · rw [decide_eq_false (not_lt.mpr (mul_pos_of_neg_of_neg h1 h2).le), decide_eq_true h1, decide_eq_true h2]; rfl
      · rw [decide_eq_true (mul_neg_of_neg_of_pos h1 h2), decide_eq_true h1, decide_eq_false (not_lt.mpr h2.le)]; rfl
      · rw [decide_eq_true (mul_neg_of_pos_of_neg h1 h2), decide_eq_false (not_lt.mpr h1.le), decide_eq_true h2]; rfl
      · rw [decide_eq_false (not_lt.mpr (mul_pos h1 h2).le), decide_eq_false (not_lt.mpr h1.le), decide_eq_false (not_lt.mpr h2.le)]; rfl
  · have e : x / y = Double.round (x.value / y.value) (x.neg != y.neg) := by
      change x.div y = _
      unfold Double.div
      simp only [xn, yn, xi, yi, hc, Bool.or_self, Bool.false_eq_true, if_false]
    rw [e, hrn]
    split
    · rfl
    · rename_i h
      have hx0 : x.value ≠ 0 := fun h0 => h (by rw [h0, zero_div])
      have hy0 : y.value ≠ 0 := fun h0 => h (by rw [h0, div_zero])
      rw [hz0 x hx0, hz0 y hy0]
      rcases lt_or_gt_of_ne hx0 with h1 | h1 <;> rcases lt_or_gt_of_ne hy0 with h2 | h2
      · rw [decide_eq_false (not_lt.mpr (div_pos_of_neg_of_neg h1 h2).le), decide_eq_true h1, decide_eq_true h2]; rfl
      · rw [decide_eq_true (div_neg_of_neg_of_pos h1 h2), decide_eq_true h1, decide_eq_false (not_lt.mpr h2.le)]; rfl
      · rw [decide_eq_true (div_neg_of_pos_of_neg h1 h2), decide_eq_false (not_lt.mpr h1.le), decide_eq_true h2]; rfl
      · rw [decide_eq_false (not_lt.mpr (div_pos h1 h2).le), decide_eq_false (not_lt.mpr h1.le), decide_eq_false (not_lt.mpr h2.le)]; rfl
  · have h : (Scalar.epsilon : Double).value = 1 / 2 ^ 52 := by decide +kernel
    unfold Double.val
    rw [h]
    push_cast
    rfl
  · change x.toIndex ⌈x.value⌉ = some k ↔ _
    have e : ⌈x.val⌉ = ⌈x.value⌉ := Rat.ceil_cast x.value
    rw [e]
    unfold Double.toIndex
    simp only [hx, Bool.true_and, Bool.and_eq_true, decide_eq_true_iff]
    constructor
    · intro h
      split at h
      · rename_i hc
        injection h with h
        subst h
        exact ⟨rfl, hc.1, hc.2⟩
      · cases h
    · rintro ⟨rfl, h2, h3⟩
      rw [if_pos ⟨h2, h3⟩]

/-- **C72**, number of outputs.  The number of outputs after the first one is the quotient of simulated time and output interval rounded up, up to a relative error of `2^-51` of the quotient: never too few or too many
by more than the one that a quotient next to a whole number decides about. -/
theorem C72_number_of_outputs_in_double {cond : Condition Double} {N : ℕ} (hs : cond.startTime.isFinite = true) (he : cond.endTime.isFinite = true) (hI : cond.outputInterval.Sized 100)
    (hd : cond.endTime.val = cond.startTime.val ∨ 1 / 2 ^ 500 ≤ cond.endTime.val - cond.startTime.val)
    (h : toSize ((cond.endTime - cond.startTime) / cond.outputInterval) = some N) :
    ⌈(1 - 1 / 2 ^ 51) * ((cond.endTime.val - cond.startTime.val) / cond.outputInterval.val)⌉ ≤ (N : ℤ) ∧
      (N : ℤ) ≤ ⌈(1 + 1 / 2 ^ 51) * ((cond.endTime.val - cond.startTime.val) / cond.outputInterval.val)⌉ := by
  set x := cond.endTime - cond.startTime with hx
  set I := cond.outputInterval with hIe
  have hIp := hI.pos
  have hI0 : I.val ≠ 0 := hIp.ne'
  -- the quotient is finite
  obtain ⟨k, hk, hN⟩ : ∃ k : ℤ, (x / I).toIndex ⌈(x / I).value⌉ = some k ∧ (N : ℤ) = k := by
    unfold toSize at h
    change (match (x / I).toIndex ⌈(x / I).value⌉ with | some k => if 0 ≤ k then some k.toNat else none | none => none) = some N at h
    cases hc : (x / I).toIndex ⌈(x / I).value⌉ with
    | none => rw [hc] at h; cases h
    | some k =>
      rw [hc] at h
      simp only at h
      split at h
      · rename_i h0
        injection h with h
        exact ⟨k, rfl, by omega⟩
      · cases h
  have hqf : (x / I).isFinite = true := by
    by_contra hc
    rw [Bool.not_eq_true] at hc
    unfold Double.toIndex at hk
    rw [hc] at hk
    simp at hk
  have hk' : k = ⌈(x / I).val⌉ := by
    unfold Double.toIndex at hk
    split at hk
    · injection hk with hk
      rw [← hk]
      exact (Rat.ceil_cast _).symm
    · cases hk
  have hxf : x.isFinite = true := by
    obtain ⟨h1, h2⟩ := Double.not_nan_of_finite hqf
    change (Double.div x I).isFinite = true at hqf
    unfold Double.div at hqf
    obtain ⟨i1, i2⟩ := Double.not_nan_of_finite hI.1
    rcases Double.trichotomy' x with h | h | h
    · exact h
    · rw [h, Bool.true_or, if_pos rfl, Double.nan_not_finite] at hqf; cases hqf
    · rw [Double.inf_not_nan h, i1, h, i2] at hqf
      simp only [Bool.or_self, Bool.false_eq_true, if_false, if_true] at hqf
      rw [Double.inf_not_finite] at hqf; cases hqf
  -- errors
  obtain ⟨e1, m1, r1⟩ := Double.add_rnd he (show cond.startTime.neg'.isFinite = true from hs)
  rw [Double.neg'_val, ← sub_eq_add_neg] at r1
  change Double.Rnd (cond.endTime.val - cond.startTime.val) x e1 m1 at r1
  obtain ⟨k1, hk1⟩ := Double.val_multiple cond.endTime
  obtain ⟨k2, hk2⟩ := Double.val_multiple cond.startTime
  obtain ⟨δ, hδ, hxv⟩ := r1.rel hxf (k1 - k2) (by rw [hk1, hk2]; push_cast; ring)
  obtain ⟨e2, m2, r2⟩ := Double.div_rnd hxf hI.1 hI0
  change Double.Rnd (x.val / I.val) (x / I) e2 m2 at r2
  set q := (cond.endTime.val - cond.startTime.val) / I.val with hq
  have hqx : x.val / I.val = q * (1 + δ) := by rw [hxv, hq]; ring
  rw [abs_le] at hδ
  have key : (1 - 1 / 2 ^ 51) * q ≤ (x / I).val ∧ (x / I).val ≤ (1 + 1 / 2 ^ 51) * q := by
    rcases hd with hd | hd
    · have : q = 0 := by rw [hq, hd, sub_self, zero_div]
      have h0 : (x / I).val = 0 := r2.zero (by rw [hqx, this, zero_mul])
      rw [this, h0, mul_zero, mul_zero]
      exact ⟨le_refl _, le_refl _⟩
    · have hqpos : 1 / 2 ^ 600 ≤ q := by
        rw [hq, le_div_iff₀ hIp]
        refine le_trans ?_ hd
        refine (mul_le_mul_of_nonneg_left hI.2.2 (by positivity)).trans (le_of_eq ?_)
        rw [show (2 : ℝ) ^ 600 = 2 ^ 500 * 2 ^ 100 by rw [← pow_add]]
        have a : (0 : ℝ) < 2 ^ 500 := by positivity
        have b : (0 : ℝ) < 2 ^ 100 := by positivity
        generalize (2 : ℝ) ^ 500 = a at *
        generalize (2 : ℝ) ^ 100 = b at *
        field_simp
      have hq0 : 0 < q := lt_of_lt_of_le (by positivity) hqpos
      have herr : |(x / I).val - q * (1 + δ)| ≤ 1 / 2 ^ 53 * (q * (1 + δ)) := by
        have hp : 0 ≤ q * (1 + δ) := mul_nonneg hq0.le (by norm_num at hδ ⊢; linarith)
        rcases r2.err hqf with h1 | ⟨-, h1⟩
        · rw [hqx, abs_of_nonneg hp] at h1; exact h1
        · rw [hqx] at h1
          refine h1.trans ?_
          have h2 : (1 : ℝ) / 2 ^ 601 ≤ q * (1 + δ) := by
            have : q * (1 / 2) ≤ q * (1 + δ) := mul_le_mul_of_nonneg_left (by norm_num at hδ ⊢; linarith) hq0.le
            refine le_trans ?_ this
            rw [show (2 : ℝ) ^ 601 = 2 ^ 600 * 2 by rw [← pow_succ], ← div_div]
            have a : (0 : ℝ) < 2 ^ 600 := by positivity
            generalize (2 : ℝ) ^ 600 = a at *
            linarith
          refine le_trans ?_ (mul_le_mul_of_nonneg_left h2 (by positivity))
          rw [div_mul_div_comm, one_mul, ← pow_add]
          exact one_div_le_one_div_of_le (by positivity) (pow_le_pow_right₀ (by norm_num) (by norm_num))
      rw [abs_le] at herr
      norm_num at herr hδ ⊢
      have hl := mul_le_mul_of_nonneg_left hδ.1 hq0.le
      have hu := mul_le_mul_of_nonneg_left hδ.2 hq0.le
      constructor <;> nlinarith
  rw [hN, hk']
  exact ⟨Int.ceil_le_ceil key.1, Int.ceil_le_ceil key.2⟩

end OpenMps
