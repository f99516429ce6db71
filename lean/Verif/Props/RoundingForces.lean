import Verif.Lemmas.RoundingTerms
import Verif.Lemmas.Step

/-! # C71: rounding does not spoil the accelerations -/

set_option linter.unusedSectionVars false
set_option exponentiation.threshold 1000

namespace OpenMps

variable {F : Type} [Scalar F] {D : Nat} {ω : Type}

theorem two_pow_inv_le {a b : ℕ} (h : a ≤ b) : (1 : ℝ) / 2 ^ b ≤ 1 / 2 ^ a :=
  one_div_le_one_div_of_le (by positivity) (pow_le_pow_right₀ (by norm_num) h)

theorem pow_add_le {a b c : ℕ} (h : a + 1 ≤ c) (h' : b + 1 ≤ c) : (2 : ℝ) ^ a + 2 ^ b ≤ 2 ^ c := by
  obtain ⟨d, rfl⟩ : ∃ d, c = d + 1 := ⟨c - 1, by omega⟩
  have h1 : (2 : ℝ) ^ a ≤ 2 ^ d := pow_le_pow_right₀ (by norm_num) (by omega)
  have h2 : (2 : ℝ) ^ b ≤ 2 ^ d := pow_le_pow_right₀ (by norm_num) (by omega)
  rw [pow_succ]
  linarith

theorem inv_add_le {a b c : ℕ} (h : c + 1 ≤ a) (h' : c + 1 ≤ b) : (1 : ℝ) / 2 ^ a + 1 / 2 ^ b ≤ 1 / 2 ^ c := by
  have h1 : (1 : ℝ) / 2 ^ a ≤ 1 / 2 ^ (c + 1) := two_pow_inv_le h
  have h2 : (1 : ℝ) / 2 ^ b ≤ 1 / 2 ^ (c + 1) := two_pow_inv_le h'
  have h3 : (1 : ℝ) / 2 ^ (c + 1) + 1 / 2 ^ (c + 1) = 1 / 2 ^ c := by
    rw [pow_succ]; field_simp; norm_num
  linarith

theorem inv_le_one (a : ℕ) : (1 : ℝ) / 2 ^ a ≤ 1 := by rw [div_le_one (by positivity)]; exact one_le_pow₀ (by norm_num)

/-- Without virtual neighbour the sum is that of the loop. -/
theorem Rounding.NoVirtual.accumulate {R : Rounding F} {cfg : Config} {t : State F D ω} {i : ℕ} (h : R.NoVirtual cfg t i) {A : Type} [Add A] (z : A)
    (f : Int → Particle F D → A) : t.accumulate cfg i z f = (t.accLoop i z f).1 := by
  unfold State.accumulate
  cases hs : cfg.spp with
  | false => rfl
  | true =>
    obtain ⟨f1, f2, h1⟩ := h hs
    have hlt : Scalar.lt (t.nNoSpp i) t.env.n0 = false := by
      cases hc : Scalar.lt (t.nNoSpp i) t.env.n0 with
      | false => rfl
      | true => exact absurd ((R.lt f1 f2).mp hc) (not_lt.mpr h1)
    simp only [if_true]
    have : t.sppParticle i (t.accLoop i z f).2 = none := by
      unfold State.sppParticle
      simp only [hlt, Bool.false_eq_true, if_false]
    rw [this]

theorem sum_small {ι : Type} (N : Finset ι) (p : ι → Prop) [DecidablePred p] (m : ι → ℝ) {δ : ℝ} :
    ∑ j ∈ N, (if p j then m j else δ) = ∑ j ∈ N.filter p, m j + (N.filter (fun j => ¬ p j)).card * δ := by
  rw [Finset.sum_ite, Finset.sum_const, nsmul_eq_mul]

theorem State.taken_card (t : State F D ω) (i : ℕ) (p : ℕ → Prop) [DecidablePred p] (hlen : (t.neighbors i).length ≤ 2 ^ 20) :
    (((t.taken i).filter p).card : ℝ) ≤ 2 ^ 20 := by
  have h1 : ((t.taken i).filter p).card ≤ (t.neighbors i).length := by
    refine (Finset.card_filter_le _ _).trans ?_
    unfold State.taken
    exact (List.toFinset_card_le _).trans (List.length_filter_le _ _)
  have : ((t.taken i).filter p).card ≤ 2 ^ 20 := h1.trans hlen
  exact_mod_cast this

/-- The virtual neighbour changes the viscosity at most by an underflow. -/
def Rounding.Harmless (R : Rounding F) (cfg : Config) (t : State F D ω) (i : ℕ) : Prop :=
  t.accumulate cfg i (0 : Vec F D) (t.viscFunc cfg i) = (t.accLoop i (0 : Vec F D) (t.viscFunc cfg i)).1 ∨
    ∃ w : Vec F D, t.accumulate cfg i (0 : Vec F D) (t.viscFunc cfg i) = (t.accLoop i (0 : Vec F D) (t.viscFunc cfg i)).1 + w ∧
      ∀ a, R.finite (w a) ∧ |R.val (w a)| ≤ R.η

/-- The acceleration of the first stage. -/
theorem Rounding.Row.acceleration {R : Rounding F} (hR : R.DoubleLike) (hW : R.Wide) (hE : R.Exact) (hD : D ≤ 3) {ℓ : F} {t : State F D ω}
    (hl : R.Lengths ℓ t.env.re) (hℓ : 1 / 2 ^ 30 ≤ R.val ℓ) (hP : R.Plain t.env) {i : ℕ}
    (h : R.Row ℓ t i) (cfg : Config) (hcg : cfg.centralGravity = false) (hnv : R.Harmless cfg t i) (a : Fin D)
    (hui : R.Upto 30 ((t.ps i).u a)) (huj : ∀ j ∈ t.neighbors i, R.Upto 30 ((t.ps j).u a)) :
    R.Mag ((t.accumulate cfg i (0 : Vec F D) (t.viscFunc cfg i) + t.gravity cfg i) a) (R.trueAcceleration cfg t i (t.taken i) a)
      (R.accelerationSize cfg t i (t.taken i) a) (154 + 2 * (t.neighbors i).length) 805 := by
  have hD0 : 0 < D := Nat.pos_of_ne_zero (fun h => by subst h; exact a.elim0)
  have hlen := h.length
  have hgr : t.gravity cfg i = t.env.g := by
    unfold State.gravity
    rw [hcg]
    simp only [Bool.false_eq_true, if_false]
  rw [hgr]
  classical
  set T : ℕ → ℝ := fun j => if (t.ps j).ty ≠ .dummy then
    R.val t.env.nu * (R.laplace cfg t.env (R.trueDist (t.ps i).x (t.ps j).x) * (R.val ((t.ps j).u a) - R.val ((t.ps i).u a))) else 0 with hT
  set M : ℕ → ℝ := fun j => if (t.ps j).ty ≠ .dummy then
    sz (R.val t.env.nu) * (R.laplaceSize cfg t.env (R.trueDist (t.ps i).x (t.ps j).x) * sz (R.val ((t.ps j).u a) - R.val ((t.ps i).u a)))
    else 1 / 2 ^ 770 with hM
  -- sizes of entries that are not taken do not matter
  set M' : ℕ → ℝ := fun j => if t.takes i j = true then M j else 0 with hM'
  have term : ∀ j ∈ t.neighbors i, t.takes i j = true → R.Mag (t.viscFunc cfg i (j : Int) (t.ps j) a) (T j) (M j) 150 770 := by
    intro j hj ht
    simp only [hT, hM]
    by_cases hd : (t.ps j).ty ≠ .dummy
    · rw [if_pos hd, if_pos hd]
      exact h.visc hR hW hE hD hD0 hl hℓ hP cfg a hui hj (huj j hj) ht hd
    · rw [if_neg hd, if_neg hd]
      unfold State.viscFunc
      rw [if_neg hd]
      refine ⟨R.zero.1, by rw [abs_zero]; positivity, ?_, le_refl _, ?_⟩
      · change |R.val 0 - 0| ≤ _
        rw [R.zero.2, sub_zero, abs_zero]
        have := e50_pos
        positivity
      · refine le_trans (b := 1) ?_ (one_le_pow₀ (by norm_num))
        rw [div_le_one (by positivity)]
        exact one_le_pow₀ (by norm_num)
  have key := h.acc hR hW (t.viscFunc cfg i) a T M' (K := 150) (c := 770) (B := 800) (by norm_num) (by norm_num) (by norm_num)
    (by
      intro j hj
      simp only [hM']
      split
      · rename_i ht
        exact ⟨(term j hj ht).pos.le, (term j hj ht).hi⟩
      · exact ⟨le_refl _, by positivity⟩)
    (by
      intro j hj ht
      simp only [hM']
      rw [if_pos ht]
      exact term j hj ht)
  have hg : R.Mag (t.env.g a) (R.val (t.env.g a)) (sz (R.val (t.env.g a))) (152 + 2 * (t.neighbors i).length) 300 :=
    (Rounding.Upto.mag (hP.g a) (by norm_num)).mono (le_refl _) (by omega) (le_refl _) (Rounding.Upto.mag (hP.g a) (by norm_num)).hi
  have hsum : ∑ j ∈ t.taken i, M' j = ∑ j ∈ t.taken i, M j := by
    apply Finset.sum_congr rfl
    intro j hj
    unfold State.taken at hj
    rw [List.mem_toFinset, List.mem_filter] at hj
    simp only [hM']
    rw [if_pos hj.2]
  rw [hsum] at key
  -- the virtual neighbour adds an underflow at most
  have key : R.Mag (t.accumulate cfg i (0 : Vec F D) (t.viscFunc cfg i) a) (∑ j ∈ t.taken i, T j) (1 / 2 ^ 800 + ∑ j ∈ t.taken i, M j + 1 / 2 ^ 800)
      (152 + 2 * (t.neighbors i).length) 801 := by
    have hi' : 1 / 2 ^ 800 + ∑ j ∈ t.taken i, M j + 1 / 2 ^ 800 ≤ 2 ^ 801 :=
      (add_le_add key.hi ((inv_le_one 800).trans (one_le_pow₀ (n := 800) (by norm_num)))).trans (pow_add_le (by norm_num) (by norm_num))
    rcases hnv with e | ⟨w, e, hw⟩
    · rw [e]
      exact key.mono (le_add_of_nonneg_right (by positivity)) (by omega) (by norm_num) hi'
    · rw [e]
      have mw : R.Mag (w a) 0 (1 / 2 ^ 800) (150 + 2 * (t.neighbors i).length) 800 := by
        refine ⟨(hw a).1, by rw [abs_zero]; positivity, ?_, le_refl _, (inv_le_one 800).trans (one_le_pow₀ (by norm_num))⟩
        rw [sub_zero]
        refine (hw a).2.trans (hW.η_le.trans ?_)
        have h1 : (1 : ℝ) / 2 ^ 960 ≤ 1 * e50 * (1 / 2 ^ 800) := by
          unfold e50
          rw [one_mul, div_mul_div_comm, one_mul, ← pow_add]
          exact two_pow_inv_le (by norm_num)
        refine h1.trans ?_
        apply mul_le_mul_of_nonneg_right _ (by positivity)
        apply mul_le_mul_of_nonneg_right _ e50_pos.le
        push_cast
        have : (0 : ℝ) ≤ (t.neighbors i).length := Nat.cast_nonneg _
        linarith
      have := key.add hR hW mw (b' := 801) (by norm_num at hlen ⊢; omega) (by norm_num) hi' (by norm_num)
      exact (this.cast (add_zero _) rfl).mono (le_refl _) (by omega) (le_refl _) hi'
  have k2 := key.add hR hW hg (b' := 804) (by norm_num at hlen ⊢; omega) (by norm_num) ((add_le_add key.hi hg.hi).trans (pow_add_le (by norm_num) (by norm_num))) (by norm_num)
  have hTs : ∑ j ∈ t.taken i, T j + R.val (t.env.g a) = R.trueAcceleration cfg t i (t.taken i) a := by
    unfold Rounding.trueAcceleration
    simp only [hT]
    rw [Finset.mul_sum, Finset.sum_filter]
  have hMs : 1 / 2 ^ 800 + ∑ j ∈ t.taken i, M j + 1 / 2 ^ 800 + sz (R.val (t.env.g a)) ≤ R.accelerationSize cfg t i (t.taken i) a := by
    unfold Rounding.accelerationSize
    simp only [hM]
    rw [sum_small, Finset.mul_sum]
    have hc := t.taken_card i (fun j => ¬ (t.ps j).ty ≠ .dummy) hlen
    have h1 : (((t.taken i).filter (fun j => ¬ (t.ps j).ty ≠ .dummy)).card : ℝ) * (1 / 2 ^ 770) ≤ 1 / 2 ^ 302 := by
      refine (mul_le_mul_of_nonneg_right hc (by positivity)).trans ?_
      rw [mul_one_div, div_le_div_iff₀ (by positivity) (by positivity), ← pow_add, one_mul]
      exact pow_le_pow_right₀ (by norm_num) (by norm_num)
    have h3 : (1 : ℝ) / 2 ^ 301 + 1 / 2 ^ 302 ≤ 1 / 2 ^ 300 := by norm_num
    have h4 : (1 : ℝ) / 2 ^ 800 + 1 / 2 ^ 800 ≤ 1 / 2 ^ 301 := inv_add_le (by norm_num) (by norm_num)
    generalize (1 : ℝ) / 2 ^ 301 = p4 at *
    generalize (1 : ℝ) / 2 ^ 800 = p1 at *
    generalize (1 : ℝ) / 2 ^ 302 = p2 at *
    generalize (1 : ℝ) / 2 ^ 300 = p3 at *
    linarith
  have hfin := k2.cast hTs rfl
  refine hfin.mono hMs (by omega) (by norm_num) ?_
  have h1 : R.accelerationSize cfg t i (t.taken i) a ≤ 1 / 2 ^ 800 + ∑ j ∈ t.taken i, M j + 1 / 2 ^ 800 + sz (R.val (t.env.g a)) + 1 / 2 ^ 300 := by
    unfold Rounding.accelerationSize
    simp only [hM]
    rw [sum_small, Finset.mul_sum]
    have h1 : (0 : ℝ) ≤ (((t.taken i).filter (fun j => ¬ (t.ps j).ty ≠ .dummy)).card : ℝ) * (1 / 2 ^ 770) := by positivity
    have h2 : (0 : ℝ) < 1 / 2 ^ 800 := by positivity
    generalize (1 : ℝ) / 2 ^ 800 = p1 at *
    generalize (1 : ℝ) / 2 ^ 770 = p2 at *
    linarith
  exact h1.trans ((add_le_add k2.hi ((inv_le_one 300).trans (one_le_pow₀ (n := 804) (by norm_num)))).trans (pow_add_le (by norm_num) (by norm_num)))

theorem Rounding.Mag.result {R : Rounding F} {x : F} {t m : ℝ} {k b : ℕ} (h : R.Mag x t m k b) : R.finite x ∧ |R.val x - t| ≤ k / 2 ^ 50 * m := by
  refine ⟨h.fin, h.err.trans (le_of_eq ?_)⟩
  unfold e50
  ring

/-- The first stage if the virtual neighbour is harmless. -/
theorem Rounding.first_stage {R : Rounding F} (hR : R.DoubleLike) (hW : R.Wide) (hE : R.Exact) (hD : D ≤ 3) {ℓ : F} (P : Params F D ω)
    (t : State F D ω) (hl : R.Lengths ℓ t.env.re) (hℓ : 1 / 2 ^ 30 ≤ R.val ℓ) (hP : R.Plain t.env) (i : ℕ) (hi : i < t.n)
    (hty : (t.ps i).ty = .incompressibleNewton) (h : R.Row ℓ t i) (hcg : P.cfg.centralGravity = false) (hnv : R.Harmless P.cfg t i)
    (hx : ∀ a, R.Upto 60 ((t.ps i).x a)) (hui : ∀ a, R.Upto 30 ((t.ps i).u a)) (huj : ∀ j ∈ t.neighbors i, ∀ a, R.Upto 30 ((t.ps j).u a))
    (sch1 sch2 : List Ev) (hv1 : ValidSched t.n sch1) (hv2 : ValidSched t.n sch2) :
    ∃ N, R.Within t i N ∧ ∀ a,
      R.finite (((t.computeExplicit P sch1 sch2).ps i).u a) ∧ R.finite (((t.computeExplicit P sch1 sch2).ps i).x a) ∧
      |R.val (((t.computeExplicit P sch1 sch2).ps i).u a) - (R.val ((t.ps i).u a) + R.val t.env.dt * R.trueAcceleration P.cfg t i N a)| ≤
        (2 * (t.neighbors i).length + 200) / 2 ^ 50 * (sz (R.val ((t.ps i).u a)) + R.val t.env.dt * R.accelerationSize P.cfg t i N a) ∧
      |R.val (((t.computeExplicit P sch1 sch2).ps i).x a) -
          (R.val ((t.ps i).x a) + R.val t.env.dt * R.val (((t.computeExplicit P sch1 sch2).ps i).u a))| ≤
        8 / 2 ^ 50 * (sz (R.val ((t.ps i).x a)) + R.val t.env.dt * sz (R.val (((t.computeExplicit P sch1 sch2).ps i).u a))) := by
  refine ⟨t.taken i, h.within hR hD hl, ?_⟩
  intro a
  have hlen := h.length
  rw [computeExplicit_eq P t sch1 sch2 hv1 hv2]
  have dt0 := hP.dt.pos
  set acc := t.accumulate P.cfg i (0 : Vec F D) (t.viscFunc P.cfg i) + t.gravity P.cfg i with hacc
  set t1 := (t.duC (State.accelCompute P.cfg)).preC P.walls with ht1
  have hdu : t1.du i = acc := by
    change (if i < t.n then (t.accelCompute P.cfg i).getD (t.du i) else t.du i) = acc
    rw [if_pos hi]
    unfold State.accelCompute
    rw [if_pos hty]
    rfl
  have hmv : (t1.moveC P.walls).ps i =
      { t.ps i with x := (t.ps i).x + vmul ((t.ps i).u + vmul acc t.env.dt) t.env.dt, u := (t.ps i).u + vmul acc t.env.dt } := by
    have e1 : (t1.moveC P.walls).ps i = { t1.ps i with x := (t1.moveCompute P.walls i).1, u := (t1.moveCompute P.walls i).2 } := by
      change (if i < t1.n then _ else _) = _
      rw [if_pos (show i < t1.n from hi)]
    rw [e1]
    unfold State.moveCompute
    have e2 : (t1.ps i).ty = .incompressibleNewton := hty
    simp only [e2, if_true, hdu]
    rw [hty]
    rfl
  rw [hmv]
  simp only
  have m1 := h.acceleration hR hW hE hD hl hℓ hP P.cfg hcg hnv a (hui a) (fun j hj => huj j hj a)
  rw [← hacc] at m1
  have m2 := m1.mul hR hW hP.dt.mag (by norm_num at hlen ⊢; omega) (by norm_num) (by norm_num) (by norm_num)
  have mu := Rounding.Upto.mag (hui a) (by norm_num)
  have mu' := mu.mono (le_refl _) (show 0 ≤ 154 + 2 * (t.neighbors i).length + 0 + 3 by omega) (le_refl _) mu.hi
  have m3 := mu'.add hR hW m2 (b' := 840) (by norm_num at hlen ⊢; omega) (by norm_num)
    ((add_le_add mu.hi m2.hi).trans (pow_add_le (by norm_num) (by norm_num))) (by norm_num)
  obtain ⟨r1, r2⟩ := m3.result
  have hu3 : |R.val (((t.ps i).u + vmul acc t.env.dt) a)| ≤ 2 ^ 841 := by
    have hk := small_k (k := 154 + 2 * (t.neighbors i).length + 0 + 3 + 2) (by norm_num at hlen ⊢; omega)
    have h1 := m3.val_le
    have h2 := mul_le_mul_of_nonneg_right hk m3.pos.le
    have h3 : sz (R.val ((t.ps i).u a)) + R.accelerationSize P.cfg t i (t.taken i) a * |R.val t.env.dt| ≤ 2 ^ 840 := m3.hi
    rw [show (2 : ℝ) ^ 841 = 2 * 2 ^ 840 by rw [show (841 : ℕ) = 840 + 1 from rfl, pow_succ']]
    have h4 := m3.pos
    generalize (2 : ℝ) ^ 840 = q at *
    refine h1.trans ?_
    have h5 : (1 : ℝ) / 2 ^ 28 * (sz (R.val ((t.ps i).u a)) + R.accelerationSize P.cfg t i (t.taken i) a * |R.val t.env.dt|) ≤
        1 * (sz (R.val ((t.ps i).u a)) + R.accelerationSize P.cfg t i (t.taken i) a * |R.val t.env.dt|) :=
      mul_le_mul_of_nonneg_right (by norm_num) h4.le
    linarith
  have mu2 : R.Mag (((t.ps i).u + vmul acc t.env.dt) a) _ (sz (R.val (((t.ps i).u + vmul acc t.env.dt) a))) 0 842 :=
    Rounding.Mag.exact r1 hu3 (two_pow_inv_le (by norm_num)) (inv_le_one 300) (by norm_num)
  have m4 := mu2.mul hR hW hP.dt.mag (by norm_num) (by norm_num) (by norm_num) (by norm_num)
  have mx := Rounding.Upto.mag (hx a) (by norm_num)
  have mx' := mx.mono (le_refl _) (show 0 ≤ 0 + 0 + 3 by omega) (le_refl _) mx.hi
  have m5 := mx'.add hR hW m4 (b' := 880) (by norm_num) (by norm_num)
    ((add_le_add mx.hi m4.hi).trans (pow_add_le (by norm_num) (by norm_num))) (by norm_num)
  obtain ⟨q1, q2⟩ := m5.result
  rw [abs_of_pos dt0] at r2 q2
  have s1 := sz_pos (R.val ((t.ps i).u a))
  have A0 := m1.pos
  refine ⟨r1, q1, ?_, ?_⟩
  · rw [mul_comm (R.val t.env.dt) (R.trueAcceleration _ _ _ _ _), mul_comm (R.val t.env.dt) (R.accelerationSize _ _ _ _ _)]
    refine r2.trans ?_
    apply mul_le_mul_of_nonneg_right _ (by positivity)
    apply div_le_div_of_nonneg_right _ (by positivity)
    push_cast
    linarith
  · rw [mul_comm (R.val t.env.dt) (R.val _), mul_comm (R.val t.env.dt) (sz _)]
    refine q2.trans ?_
    have s2 := sz_pos (R.val ((t.ps i).x a))
    have s3 := sz_pos (R.val (((t.ps i).u + vmul acc t.env.dt) a))
    apply mul_le_mul_of_nonneg_right _ (by positivity)
    apply div_le_div_of_nonneg_right _ (by positivity)
    norm_num

/-- **C71.**  Rounding does not spoil the first stage of a step.  In every arithmetic as accurate as `double`, for every row of the neighbour table
that is fit for use and constants and velocities that are not absurd: whatever order the threads work in, the new velocity of a fluid particle without
virtual neighbour is the old one plus `dt` times the exact acceleration at the stored numbers - viscosity (HL or standard) and gravity, the interacting
particles being those closer than `r_e`, where rounding may only decide about distances that are `r_e` up to 13 digits - with an error of at most
`(2k+200) / 2^50` times the sum of the sizes of all contributions, `k` being the number of neighbours; and the new position is the old one plus
`dt` times the new velocity up to three roundings. -/
theorem C71_first_stage_is_accurate (R : Rounding F) (hR : R.DoubleLike) (hW : R.Wide) (hE : R.Exact) (hD : D ≤ 3) {ℓ : F} (P : Params F D ω)
    (t : State F D ω) (hl : R.Lengths ℓ t.env.re) (hℓ : 1 / 2 ^ 30 ≤ R.val ℓ) (hP : R.Plain t.env) (i : ℕ) (hi : i < t.n)
    (hty : (t.ps i).ty = .incompressibleNewton) (h : R.Row ℓ t i) (hcg : P.cfg.centralGravity = false) (hnv : R.NoVirtual P.cfg t i)
    (hx : ∀ a, R.Upto 60 ((t.ps i).x a)) (hui : ∀ a, R.Upto 30 ((t.ps i).u a)) (huj : ∀ j ∈ t.neighbors i, ∀ a, R.Upto 30 ((t.ps j).u a))
    (sch1 sch2 : List Ev) (hv1 : ValidSched t.n sch1) (hv2 : ValidSched t.n sch2) :
    ∃ N, R.Within t i N ∧ ∀ a,
      R.finite (((t.computeExplicit P sch1 sch2).ps i).u a) ∧ R.finite (((t.computeExplicit P sch1 sch2).ps i).x a) ∧
      |R.val (((t.computeExplicit P sch1 sch2).ps i).u a) - (R.val ((t.ps i).u a) + R.val t.env.dt * R.trueAcceleration P.cfg t i N a)| ≤
        (2 * (t.neighbors i).length + 200) / 2 ^ 50 * (sz (R.val ((t.ps i).u a)) + R.val t.env.dt * R.accelerationSize P.cfg t i N a) ∧
      |R.val (((t.computeExplicit P sch1 sch2).ps i).x a) -
          (R.val ((t.ps i).x a) + R.val t.env.dt * R.val (((t.computeExplicit P sch1 sch2).ps i).u a))| ≤
        8 / 2 ^ 50 * (sz (R.val ((t.ps i).x a)) + R.val t.env.dt * sz (R.val (((t.computeExplicit P sch1 sch2).ps i).u a))) :=
  Rounding.first_stage hR hW hE hD P t hl hℓ hP i hi hty h hcg (Or.inl (hnv.accumulate _ _)) hx hui huj sch1 sch2 hv1 hv2

/-- The sum of the pressure forces. -/
theorem Rounding.Row.forces {R : Rounding F} (hR : R.DoubleLike) (hW : R.Wide) (hD : D ≤ 3) {ℓ : F} {t : State F D ω}
    (hl : R.Lengths ℓ t.env.re) (hℓ : 1 / 2 ^ 30 ≤ R.val ℓ) (hP : R.Plain t.env) {i : ℕ}
    (h : R.Row ℓ t i) (cfg : Config) (hnv : R.NoVirtual cfg t i) (a : Fin D)
    (hxi : R.Upto 60 ((t.ps i).x a)) (hpi : R.Upto 60 (t.ps i).p)
    (hj : ∀ j ∈ t.neighbors i, R.Upto 60 ((t.ps j).x a) ∧ R.Upto 60 (t.ps j).p) :
    R.Mag (t.accumulate cfg i (0 : Vec F D) (t.gradFunc i) a)
      (∑ j ∈ (t.taken i).filter (fun j => (t.ps j).ty ≠ .dummy),
        (R.val (t.ps j).p + R.val (t.ps i).p) / R.trueDist (t.ps i).x (t.ps j).x ^ 2 *
          Ref.weight (R.val t.env.re) (R.trueDist (t.ps i).x (t.ps j).x) * (R.val ((t.ps j).x a) - R.val ((t.ps i).x a)))
      (∑ j ∈ (t.taken i).filter (fun j => (t.ps j).ty ≠ .dummy),
        sz (R.val (t.ps j).p + R.val (t.ps i).p) / R.trueDist (t.ps i).x (t.ps j).x ^ 2 *
          (Ref.weight (R.val t.env.re) (R.trueDist (t.ps i).x (t.ps j).x) + 2) * sz (R.val ((t.ps j).x a) - R.val ((t.ps i).x a)) + 1 / 2 ^ 300)
      (190 + 2 * (t.neighbors i).length) 716 := by
  have hlen := h.length
  rw [hnv.accumulate]
  classical
  set T : ℕ → ℝ := fun j => if (t.ps j).ty ≠ .dummy then
    (R.val (t.ps j).p + R.val (t.ps i).p) / R.trueDist (t.ps i).x (t.ps j).x ^ 2 *
      Ref.weight (R.val t.env.re) (R.trueDist (t.ps i).x (t.ps j).x) * (R.val ((t.ps j).x a) - R.val ((t.ps i).x a)) else 0 with hT
  set M : ℕ → ℝ := fun j => if (t.ps j).ty ≠ .dummy then
    sz (R.val (t.ps j).p + R.val (t.ps i).p) / R.trueDist (t.ps i).x (t.ps j).x ^ 2 *
      (Ref.weight (R.val t.env.re) (R.trueDist (t.ps i).x (t.ps j).x) + 2) * sz (R.val ((t.ps j).x a) - R.val ((t.ps i).x a))
    else 1 / 2 ^ 690 with hM
  set M' : ℕ → ℝ := fun j => if t.takes i j = true then M j else 0 with hM'
  have term : ∀ j ∈ t.neighbors i, t.takes i j = true → R.Mag (t.gradFunc i (j : Int) (t.ps j) a) (T j) (M j) 190 690 := by
    intro j hj' ht
    simp only [hT, hM]
    by_cases hd : (t.ps j).ty ≠ .dummy
    · rw [if_pos hd, if_pos hd]
      exact h.grad hR hW hD hl hℓ hP a hxi hpi hj' (hj j hj').1 (hj j hj').2 ht hd
    · rw [if_neg hd, if_neg hd]
      unfold State.gradFunc
      rw [if_neg hd]
      refine ⟨R.zero.1, by rw [abs_zero]; positivity, ?_, le_refl _, ?_⟩
      · change |R.val 0 - 0| ≤ _
        rw [R.zero.2, sub_zero, abs_zero]
        have := e50_pos
        positivity
      · exact (inv_le_one 690).trans (one_le_pow₀ (by norm_num))
  have key := h.acc hR hW (t.gradFunc i) a T M' (K := 190) (c := 690) (B := 715) (by norm_num) (by norm_num) (by norm_num)
    (by
      intro j hj
      simp only [hM']
      split
      · rename_i ht
        exact ⟨(term j hj ht).pos.le, (term j hj ht).hi⟩
      · exact ⟨le_refl _, by positivity⟩)
    (by
      intro j hj ht
      simp only [hM']
      rw [if_pos ht]
      exact term j hj ht)
  have hsum : ∑ j ∈ t.taken i, M' j = ∑ j ∈ t.taken i, M j := by
    apply Finset.sum_congr rfl
    intro j hj
    unfold State.taken at hj
    rw [List.mem_toFinset, List.mem_filter] at hj
    simp only [hM']
    rw [if_pos hj.2]
  rw [hsum] at key
  have hfin := key.cast (show ∑ j ∈ t.taken i, T j = ∑ j ∈ (t.taken i).filter (fun j => (t.ps j).ty ≠ .dummy), _ by
    simp only [hT]; rw [Finset.sum_filter]) rfl
  have hs := sum_small (t.taken i) (fun j => (t.ps j).ty ≠ .dummy) (fun j =>
    sz (R.val (t.ps j).p + R.val (t.ps i).p) / R.trueDist (t.ps i).x (t.ps j).x ^ 2 *
      (Ref.weight (R.val t.env.re) (R.trueDist (t.ps i).x (t.ps j).x) + 2) * sz (R.val ((t.ps j).x a) - R.val ((t.ps i).x a))) (δ := 1 / 2 ^ 690)
  have hs' : ∑ j ∈ t.taken i, M j = _ := hs
  rw [hs'] at hfin
  have hc := t.taken_card i (fun j => ¬ (t.ps j).ty ≠ .dummy) hlen
  have h0 : (0 : ℝ) ≤ (((t.taken i).filter (fun j => ¬ (t.ps j).ty ≠ .dummy)).card : ℝ) * (1 / 2 ^ 690) := by positivity
  refine hfin.mono ?_ (le_refl _) (by norm_num) ?_
  · have h1 : (((t.taken i).filter (fun j => ¬ (t.ps j).ty ≠ .dummy)).card : ℝ) * (1 / 2 ^ 690) ≤ 1 / 2 ^ 302 := by
      refine (mul_le_mul_of_nonneg_right hc (by positivity)).trans ?_
      rw [mul_one_div, div_le_div_iff₀ (by positivity) (by positivity), ← pow_add, one_mul]
      exact pow_le_pow_right₀ (by norm_num) (by norm_num)
    have h3 : (1 : ℝ) / 2 ^ 715 + 1 / 2 ^ 302 ≤ 1 / 2 ^ 300 := inv_add_le (by norm_num) (by norm_num)
    generalize (1 : ℝ) / 2 ^ 715 = p1 at *
    generalize (1 : ℝ) / 2 ^ 302 = p2 at *
    generalize (1 : ℝ) / 2 ^ 300 = p3 at *
    linarith
  · have h4 := hfin.hi
    have h5 : (0 : ℝ) < 1 / 2 ^ 715 := by positivity
    refine le_trans (add_le_add (b := (2 : ℝ) ^ 715) ?_ ((inv_le_one 300).trans (one_le_pow₀ (n := 715) (by norm_num)))) (pow_add_le (by norm_num) (by norm_num))
    refine le_trans ?_ h4
    rw [add_comm, add_assoc]
    exact le_add_of_nonneg_right (add_nonneg h0 h5.le)

/-- **C71**, pressure gradient (without the gradient correction).  On the same conditions: the pressure gradient changes velocity and position of a
fluid particle without virtual neighbour by the exact change at the stored numbers and by `dt` times this change, with an error of at most
`(2k+220) / 2^50` times the sum of the sizes of all contributions. -/
theorem C71_pressure_gradient_is_accurate (R : Rounding F) (hR : R.DoubleLike) (hW : R.Wide) (hE : R.Exact) (hD : D ≤ 3) {ℓ : F} (cfg : Config)
    (hgc : cfg.gc = false) (t : State F D ω) (hl : R.Lengths ℓ t.env.re) (hℓ : 1 / 2 ^ 30 ≤ R.val ℓ) (hP : R.Plain t.env) (i : ℕ) (hi : i < t.n)
    (hty : (t.ps i).ty = .incompressibleNewton) (h : R.Row ℓ t i) (hnv : R.NoVirtual cfg t i)
    (hx : ∀ a, R.Upto 60 ((t.ps i).x a)) (hu : ∀ a, R.Upto 60 ((t.ps i).u a)) (hp : R.Upto 60 (t.ps i).p)
    (hj : ∀ j ∈ t.neighbors i, (∀ a, R.Upto 60 ((t.ps j).x a)) ∧ R.Upto 60 (t.ps j).p)
    (sch1 sch2 : List Ev) (hv1 : ValidSched t.n sch1) (hv2 : ValidSched t.n sch2) :
    ∃ N, R.Within t i N ∧ ∀ a,
      R.finite (((t.modifyByGradient cfg sch1 sch2).ps i).u a) ∧ R.finite (((t.modifyByGradient cfg sch1 sch2).ps i).x a) ∧
      |R.val (((t.modifyByGradient cfg sch1 sch2).ps i).u a) - (R.val ((t.ps i).u a) + R.truePush t i N a)| ≤
        (2 * (t.neighbors i).length + 220) / 2 ^ 50 * (sz (R.val ((t.ps i).u a)) + R.pushSize t i N a) ∧
      |R.val (((t.modifyByGradient cfg sch1 sch2).ps i).x a) - (R.val ((t.ps i).x a) + R.val t.env.dt * R.truePush t i N a)| ≤
        (2 * (t.neighbors i).length + 220) / 2 ^ 50 * (sz (R.val ((t.ps i).x a)) + R.val t.env.dt * R.pushSize t i N a) := by
  refine ⟨t.taken i, h.within hR hD hl, ?_⟩
  intro a
  have hD0 : 0 < D := Nat.pos_of_ne_zero (fun h => by subst h; exact a.elim0)
  have hlen := h.length
  rw [modifyByGradient_eq cfg t sch1 sch2 hv1 hv2]
  have dt0 := hP.dt.pos
  have rho0 := hP.rho.pos
  have n00 := hP.n0.pos
  have hDr : (0 : ℝ) < D := by exact_mod_cast hD0
  set du := smul (-t.env.dt / t.env.rho * Scalar.ofInt (D : Int) / t.env.n0) (t.accumulate cfg i (0 : Vec F D) (t.gradFunc i)) with hdu
  have hdui : (t.duC (State.gradCompute cfg)).du i = du := by
    change (if i < t.n then (t.gradCompute cfg i).getD (t.du i) else t.du i) = du
    rw [if_pos hi]
    unfold State.gradCompute
    rw [if_pos hty]
    simp only [hgc, Bool.false_eq_true, if_false]
    rfl
  have hpush : (t.gradC cfg).ps i = { t.ps i with x := (t.ps i).x + vmul du t.env.dt, u := (t.ps i).u + du } := by
    unfold State.gradC State.pushC
    simp only
    rw [if_pos ⟨hi, hty⟩, hdui]
    rfl
  rw [hpush]
  simp only
  have m0 := h.forces hR hW hD hl hℓ hP cfg hnv a (hx a) hp (fun j hj' => ⟨(hj j hj').1 a, (hj j hj').2⟩)
  have m1 := (hP.dt.mag.neg hE).div hR hW hP.rho.mag (by norm_num) (by norm_num) (by norm_num)
  have m2 := m1.mul hR hW (hE.mag (k := D) (by omega) hD0) (by norm_num) (by norm_num) (by norm_num) (by norm_num)
  have m3 := m2.div hR hW hP.n0.mag (by norm_num) (by norm_num) (by norm_num)
  have m4 := m3.mul hR hW m0 (by norm_num) (by norm_num at hlen ⊢; omega) (by norm_num at hlen ⊢; omega) (by norm_num)
  have m5 : R.Mag (du a) (R.truePush t i (t.taken i) a) (R.pushSize t i (t.taken i) a) (202 + 2 * (t.neighbors i).length) 809 := by
    have m5 := m4.cast (t' := R.truePush t i (t.taken i) a) (m' := R.pushSize t i (t.taken i) a) (by
      unfold Rounding.truePush
      congr 1
      field_simp) (by
      unfold Rounding.pushSize
      rw [abs_of_pos dt0, abs_of_pos rho0, abs_of_pos hDr, abs_of_pos n00]
      congr 1
      field_simp)
    exact m5.mono (le_refl _) (by omega) (by norm_num) m5.hi
  have mdt := m5.mul hR hW hP.dt.mag (by norm_num at hlen ⊢; omega) (by norm_num) (by norm_num) (by norm_num)
  have mu := Rounding.Upto.mag (hu a) (by norm_num)
  have mu' := mu.mono (le_refl _) (show 0 ≤ 202 + 2 * (t.neighbors i).length by omega) (le_refl _) mu.hi
  have m6 := mu'.add hR hW m5 (b' := 815) (by norm_num at hlen ⊢; omega) (by norm_num)
    ((add_le_add mu.hi m5.hi).trans (pow_add_le (by norm_num) (by norm_num))) (by norm_num)
  have mx := Rounding.Upto.mag (hx a) (by norm_num)
  have mx' := mx.mono (le_refl _) (show 0 ≤ 202 + 2 * (t.neighbors i).length + 0 + 3 by omega) (le_refl _) mx.hi
  have m7 := mx'.add hR hW mdt (b' := 845) (by norm_num at hlen ⊢; omega) (by norm_num)
    ((add_le_add mx.hi mdt.hi).trans (pow_add_le (by norm_num) (by norm_num))) (by norm_num)
  obtain ⟨r1, r2⟩ := m6.result
  obtain ⟨q1, q2⟩ := m7.result
  rw [abs_of_pos dt0] at q2
  have s1 := sz_pos (R.val ((t.ps i).u a))
  have s2 := sz_pos (R.val ((t.ps i).x a))
  have P0 := m5.pos
  refine ⟨r1, q1, r2.trans ?_, ?_⟩
  · apply mul_le_mul_of_nonneg_right _ (by positivity)
    apply div_le_div_of_nonneg_right _ (by positivity)
    push_cast
    linarith
  · rw [mul_comm (R.val t.env.dt) (R.truePush _ _ _ _), mul_comm (R.val t.env.dt) (R.pushSize _ _ _ _)]
    refine q2.trans ?_
    apply mul_le_mul_of_nonneg_right _ (by positivity)
    apply div_le_div_of_nonneg_right _ (by positivity)
    push_cast
    linarith

/-- **C71**, equation of state.  In the explicit mode the computed pressure of every particle is `c^2` times the excess of the mass density, with a
relative error of `2^-45` of `c^2 rho (n / n_0 + 2)`. -/
theorem C71_equation_of_state_is_accurate (R : Rounding F) (hR : R.DoubleLike) (hW : R.Wide) (hE : R.Exact) (t : State F D ω) (hP : R.Plain t.env)
    (hc : R.Sized 30 t.env.c) (i : ℕ) (hi : i < t.n) (hn : R.Upto 30 (t.ps i).n) (hn0 : 0 ≤ R.val (t.ps i).n)
    (sch : List Ev) (hv : ValidSched t.n sch) :
    R.finite ((parLoop State.eosCompute State.presCommit sch t).ps i).p ∧
    |R.val ((parLoop State.eosCompute State.presCommit sch t).ps i).p - R.trueEos t i| ≤
      1 / 2 ^ 45 * (R.val t.env.c ^ 2 * R.val t.env.rho * (R.val (t.ps i).n / R.val t.env.n0 + 2)) := by
  rw [eosLoop_eq t sch hv]
  have rho0 := hP.rho.pos
  have n00 := hP.n0.pos
  have c0 := hc.pos
  set N := R.val (t.ps i).n with hN
  have e0 := e50_pos
  have m1 := hP.rho.mag.div hR hW hP.n0.mag (by norm_num) (by norm_num) (by norm_num)
  have m2 := m1.mul hR hW (Rounding.Upto.mag hn (by norm_num)) (by norm_num) (by norm_num) (by norm_num) (by norm_num)
  have mr := hP.rho.mag.mono (le_refl _) (show 0 ≤ 0 + 0 + 3 + 0 + 3 by norm_num) (le_refl _) hP.rho.mag.hi
  have m3 := m2.sub hR hW mr (b' := 380) (by norm_num) (by norm_num) ((add_le_add m2.hi mr.hi).trans (pow_add_le (by norm_num) (by norm_num))) (by norm_num)
  have mc := hc.mag.mul hR hW hc.mag (by norm_num) (by norm_num) (by norm_num) (by norm_num)
  have m4 := mc.mul hR hW m3 (by norm_num) (by norm_num) (by norm_num) (by norm_num)
  have hst : ({ t with ps := fun i => if i < t.n then { t.ps i with p := (t.eosCompute i).getD (t.ps i).p } else t.ps i } : State F D ω).ps i =
      { t.ps i with p := (t.eosCompute i).getD (t.ps i).p } := if_pos hi
  change R.finite (({ t with ps := fun i => if i < t.n then { t.ps i with p := (t.eosCompute i).getD (t.ps i).p } else t.ps i } : State F D ω).ps i).p ∧
    |R.val (({ t with ps := fun i => if i < t.n then { t.ps i with p := (t.eosCompute i).getD (t.ps i).p } else t.ps i } : State F D ω).ps i).p - _| ≤ _
  rw [hst]
  simp only
  unfold State.eosCompute
  simp only [Option.getD_some]
  set ρ := R.val t.env.rho with hρ
  set C := R.val t.env.c with hC
  set n0 := R.val t.env.n0 with hn00
  have hsz : sz N ≤ N + n0 := by
    unfold sz
    rw [abs_of_nonneg hn0]
    have : (1 : ℝ) / 2 ^ 300 ≤ 1 / 2 ^ 30 := two_pow_inv_le (by norm_num)
    have h2 : (1 : ℝ) / 2 ^ 30 ≤ n0 := hP.n0.2.1
    exact add_le_add (le_refl _) (this.trans h2)
  have hsize : |ρ| / |n0| * sz N + |ρ| ≤ ρ * (N / n0 + 2) := by
    rw [abs_of_pos rho0, abs_of_pos n00]
    have : ρ / n0 * sz N ≤ ρ / n0 * (N + n0) := mul_le_mul_of_nonneg_left hsz (by positivity)
    have e : ρ / n0 * (N + n0) = ρ * (N / n0 + 1) := by field_simp
    rw [e] at this
    linarith
  have hS : 0 < ρ * (N / n0 + 2) := by positivity
  have hmax : R.trueEos t i = C ^ 2 * max (ρ / n0 * N - ρ) 0 := by
    unfold Rounding.trueEos
    rw [show ρ / n0 * N - ρ = ρ * N / n0 - ρ by ring]
  rw [hmax]
  by_cases hle : Scalar.le (t.env.rho / t.env.n0 * (t.ps i).n) t.env.rho = true
  · rw [if_pos hle, R.zero.2]
    refine ⟨R.zero.1, ?_⟩
    have h1 := (hE.le m2.fin hP.rho.1).mp hle
    have h2 := m2.err
    rw [abs_le] at h2
    have h3 : ρ / n0 * N - ρ ≤ 1 / 2 ^ 45 * (ρ * (N / n0 + 2)) := by
      have h4 : ((0 + 0 + 3 + 0 + 3 : ℕ) : ℝ) * e50 * (|ρ| / |n0| * sz N) ≤ 1 / 2 ^ 45 * (ρ * (N / n0 + 2)) := by
        have h5 : |ρ| / |n0| * sz N ≤ ρ * (N / n0 + 2) := by linarith [abs_nonneg ρ]
        have h6 : ((0 + 0 + 3 + 0 + 3 : ℕ) : ℝ) * e50 ≤ 1 / 2 ^ 45 := by unfold e50; norm_num
        exact mul_le_mul h6 h5 m2.pos.le (by positivity)
      linarith [h2.1]
    rw [zero_sub, abs_neg, abs_of_nonneg (by positivity)]
    have h7 : max (ρ / n0 * N - ρ) 0 ≤ 1 / 2 ^ 45 * (ρ * (N / n0 + 2)) := max_le h3 (by positivity)
    calc C ^ 2 * max (ρ / n0 * N - ρ) 0 ≤ C ^ 2 * (1 / 2 ^ 45 * (ρ * (N / n0 + 2))) := mul_le_mul_of_nonneg_left h7 (by positivity)
      _ = _ := by ring
  · rw [if_neg hle]
    refine ⟨m4.fin, ?_⟩
    have h1 : ¬ R.val (t.env.rho / t.env.n0 * (t.ps i).n) ≤ ρ := fun hc => hle ((hE.le m2.fin hP.rho.1).mpr hc)
    push Not at h1
    have h2 := m2.err
    rw [abs_le] at h2
    have h4 : ((0 + 0 + 3 + 0 + 3 : ℕ) : ℝ) * e50 * (|ρ| / |n0| * sz N) ≤ 6 * e50 * (ρ * (N / n0 + 2)) := by
      have h5 : |ρ| / |n0| * sz N ≤ ρ * (N / n0 + 2) := by linarith [abs_nonneg ρ]
      norm_num
      exact mul_le_mul_of_nonneg_left h5 (by positivity)
    have h3 : -(6 * e50 * (ρ * (N / n0 + 2))) ≤ ρ / n0 * N - ρ := by linarith [h2.2]
    have h7 : |max (ρ / n0 * N - ρ) 0 - (ρ / n0 * N - ρ)| ≤ 6 * e50 * (ρ * (N / n0 + 2)) := by
      rcases le_total (ρ / n0 * N - ρ) 0 with hh | hh
      · rw [max_eq_right hh, zero_sub, abs_neg, abs_of_nonpos hh]; linarith
      · rw [max_eq_left hh, sub_self, abs_zero]; positivity
    have h8 := m4.err
    have h9 : ((0 + 0 + 3 + (0 + 0 + 3 + 0 + 3 + 2) + 3 : ℕ) : ℝ) * e50 * (|C| * |C| * (|ρ| / |n0| * sz N + |ρ|)) ≤
        14 * e50 * (C ^ 2 * (ρ * (N / n0 + 2))) := by
      rw [abs_mul_abs_self, ← sq]
      norm_num
      apply mul_le_mul_of_nonneg_left _ (by positivity)
      exact mul_le_mul_of_nonneg_left hsize (by positivity)
    have h10 : C ^ 2 * |max (ρ / n0 * N - ρ) 0 - (ρ / n0 * N - ρ)| ≤ C ^ 2 * (6 * e50 * (ρ * (N / n0 + 2))) :=
      mul_le_mul_of_nonneg_left h7 (by positivity)
    have h11 : ∀ v : ℝ, |v - C ^ 2 * max (ρ / n0 * N - ρ) 0| ≤ |v - C * C * (ρ / n0 * N - ρ)| +
        C ^ 2 * |max (ρ / n0 * N - ρ) 0 - (ρ / n0 * N - ρ)| := by
      intro v
      have e : v - C ^ 2 * max (ρ / n0 * N - ρ) 0 = (v - C * C * (ρ / n0 * N - ρ)) + -(C ^ 2 * (max (ρ / n0 * N - ρ) 0 - (ρ / n0 * N - ρ))) := by ring
      rw [e]
      refine (abs_add_le _ _).trans ?_
      rw [abs_neg, abs_mul, abs_of_nonneg (show 0 ≤ C ^ 2 by positivity)]
    refine (h11 _).trans ((add_le_add (h8.trans h9) h10).trans ?_)
    have h12 : 14 * e50 * (C ^ 2 * (ρ * (N / n0 + 2))) + C ^ 2 * (6 * e50 * (ρ * (N / n0 + 2))) = 20 * e50 * (C ^ 2 * ρ * (N / n0 + 2)) := by ring
    rw [h12]
    apply mul_le_mul_of_nonneg_right _ (by positivity)
    unfold e50
    norm_num

/-- **C71**, walls.  The velocity of a particle that follows the callback is the way to its new position divided by `dt`, up to four roundings. -/
theorem C71_wall_velocity_is_accurate (R : Rounding F) (hR : R.DoubleLike) (hW : R.Wide) (P : Params F D ω) (t : State F D ω)
    (hdt : R.Sized 30 t.env.dt) (i : ℕ) (hi : i < t.n) (hty : (t.ps i).ty ≠ .incompressibleNewton)
    (sch1 sch2 : List Ev) (hv1 : ValidSched t.n sch1) (hv2 : ValidSched t.n sch2) (hx : ∀ a, R.Upto 60 ((t.ps i).x a))
    (hnew : ∀ a, R.Upto 60 (P.walls.pos (P.walls.pre t.world t.env.t t.env.dt) i t.env.t t.env.dt a)) :
    ((t.computeExplicit P sch1 sch2).ps i).x = P.walls.pos (P.walls.pre t.world t.env.t t.env.dt) i t.env.t t.env.dt ∧ ∀ a,
    R.finite (((t.computeExplicit P sch1 sch2).ps i).u a) ∧
    |R.val (((t.computeExplicit P sch1 sch2).ps i).u a) -
        (R.val (((t.computeExplicit P sch1 sch2).ps i).x a) - R.val ((t.ps i).x a)) / R.val t.env.dt| ≤
      4 / 2 ^ 50 * (sz (R.val (((t.computeExplicit P sch1 sch2).ps i).x a) - R.val ((t.ps i).x a)) / R.val t.env.dt) := by
  rw [computeExplicit_eq P t sch1 sch2 hv1 hv2]
  set t1 := (t.duC (State.accelCompute P.cfg)).preC P.walls with ht1
  set X := P.walls.pos (P.walls.pre t.world t.env.t t.env.dt) i t.env.t t.env.dt with hX
  have hmv : (t1.moveC P.walls).ps i = { t.ps i with x := X, u := vdiv (X - (t.ps i).x) t.env.dt } := by
    have e1 : (t1.moveC P.walls).ps i = { t1.ps i with x := (t1.moveCompute P.walls i).1, u := (t1.moveCompute P.walls i).2 } := by
      change (if i < t1.n then _ else _) = _
      rw [if_pos (show i < t1.n from hi)]
    rw [e1]
    unfold State.moveCompute
    have e2 : ¬ (t1.ps i).ty = .incompressibleNewton := hty
    simp only [e2, if_false]
    rfl
  rw [hmv]
  refine ⟨rfl, ?_⟩
  intro a
  have m1 := Rounding.Mag.sub_exact hR hW (hnew a).1 (hx a).1 (hnew a).2 (hx a).2 (b := 300) (le_refl _) (inv_le_one 300) (by norm_num) (by norm_num)
  have m2 := m1.div hR hW hdt.mag (by norm_num) (by norm_num) (by norm_num)
  obtain ⟨r1, r2⟩ := m2.result
  rw [abs_of_pos hdt.pos] at r2
  refine ⟨r1, ?_⟩
  have e : ((1 + 0 + 3 : ℕ) : ℝ) = 4 := by norm_num
  rw [e] at r2
  exact r2

end OpenMps
