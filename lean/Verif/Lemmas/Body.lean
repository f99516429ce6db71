import Verif.Lemmas.Accuracy
import Verif.Props.ReferenceStep

set_option linter.unusedSectionVars false

/-! # A body that moves uniformly (towards C60) -/

namespace OpenMps

open Ref

variable {D : Nat}

/-- Conjugate gradients keep zeros: a block without source stays zero. -/
theorem conjugate_zero {n : ℕ} {L : (ℕ → ℝ) → ℕ → ℝ} {Z : ℕ → Prop} (hL : ∀ y : ℕ → ℝ, (∀ i, Z i → y i = 0) → ∀ i, Z i → L y i = 0) {tol : ℝ} :
    ∀ (k : ℕ) (y r d : ℕ → ℝ), (∀ i, Z i → y i = 0) → (∀ i, Z i → r i = 0) → (∀ i, Z i → d i = 0) →
      ∀ z, conjugate n L tol k y r d = some z → ∀ i, Z i → z i = 0 := by
  intro k
  induction k with
  | zero => intro y r d _ _ _ z h; cases h
  | succ k ih =>
    intro y r d hy hr hd z h
    unfold conjugate at h
    simp only at h
    have h1 : ∀ c : ℝ, ∀ i, Z i → (y + c • d) i = 0 := fun c i hi => by simp [hy i hi, hd i hi]
    have h2 : ∀ c : ℝ, ∀ i, Z i → (r - c • L d) i = 0 := fun c i hi => by simp [hr i hi, hL d hd i hi]
    split at h
    · cases h; exact h1 _
    · exact ih _ _ _ (h1 _) (h2 _) (fun i hi => by
        rw [Pi.add_apply, h2 _ i hi, Pi.smul_apply, hd i hi, smul_zero, add_zero]) z h

theorem solve_zero {n : ℕ} {L : (ℕ → ℝ) → ℕ → ℝ} {Z : ℕ → Prop} (hL : ∀ y : ℕ → ℝ, (∀ i, Z i → y i = 0) → ∀ i, Z i → L y i = 0) {b y z : ℕ → ℝ} {eps : ℝ}
    (hb : ∀ i, Z i → b i = 0) (hy : ∀ i, Z i → y i = 0) (h : solve n L b y eps = some z) : ∀ i, Z i → z i = 0 := by
  unfold solve at h
  simp only at h
  split at h
  · cases h; exact hy
  · have hr : ∀ i, Z i → (b - L y) i = 0 := fun i hi => by rw [Pi.sub_apply, hb i hi, hL y hy i hi, sub_zero]
    exact conjugate_zero hL _ _ _ _ hy hr hr z h

/-- With residual zero everywhere the solver stops at once. -/
theorem solve_some {n : ℕ} {L : (ℕ → ℝ) → ℕ → ℝ} {b y : ℕ → ℝ} {eps : ℝ} (h : ∀ i, i < n → b i = L y i) : solve n L b y eps = some y := by
  unfold solve
  simp only
  rw [if_pos]
  have : Ref.inner n (b - L y) (b - L y) = 0 := by
    unfold Ref.inner
    refine Finset.sum_eq_zero (fun i hi => ?_)
    rw [Pi.sub_apply, h i (Finset.mem_range.mp hi), sub_self, mul_zero]
  rw [this, zero_mul]

variable {S : Setting D} {b : Scene D} {B : ℕ → Prop} {U V : Fin D → ℝ}

/-- A body at the beginning of a step: separated from the other particles, in uniform motion, without pressure; its walls go along. -/
structure Calm (S : Setting D) (b : Scene D) (B : ℕ → Prop) (U V : Fin D → ℝ) : Prop where
  start : b.x = S.start
  apart : ∀ i j, i < S.n → j < S.n → B i → ¬ B j → S.ty i ≠ .disabled → S.ty j ≠ .disabled → S.env.neighborLength ≤ len (S.start j - S.start i)
  vel : ∀ i, i < S.n → B i → S.ty i ≠ .disabled → b.u i = U
  pres : ∀ i, i < S.n → B i → S.Active i → b.p i = 0
  grav : S.cfg.centralGravity = false
  fall : V = U + S.env.dt • S.env.g
  wall : ∀ i, i < S.n → B i → S.ty i ≠ .disabled → ¬ S.Fluid i → (S.predict b).u i = V ∧ (S.predict b).x i = b.x i + S.env.dt • V
  n0 : 0 < S.env.n0
  rho : S.cfg.explicit = true → 0 ≤ S.env.rho
  quiet : if S.cfg.explicit then ∀ i, i < S.n → B i → S.Active i → (S.predict b).dens i ≤ S.env.n0
    else S.cfg.hs = true ∨ ∀ i, i < S.n → B i → S.Active i → (S.predict b).dens i = S.env.n0

namespace Calm

variable (h : Calm S b B U V)
include h

theorem near_body {x : ℕ → Fin D → ℝ} {i j : ℕ} (hi : i < S.n) (hB : B i) (hd : S.ty i ≠ .disabled) (hj : j ∈ S.near x i) : B j ∧ S.ty j ≠ .disabled ∧ j < S.n := by
  rw [mem_near_ref] at hj
  refine ⟨?_, hj.2.2.1, hj.1⟩
  by_contra hc
  exact absurd hj.2.2.2.1 (not_lt.mpr (h.apart i j hi hj.1 hB hc hd hj.2.2.1))

theorem mid {i : ℕ} (hi : i < S.n) (hB : B i) (hd : S.ty i ≠ .disabled) : (S.predict b).u i = V ∧ (S.predict b).x i = b.x i + S.env.dt • V := by
  classical
  by_cases hf : S.Fluid i
  · have ha : S.acceleration b.x b.u i = S.env.g := by
      unfold Setting.acceleration
      rw [Finset.sum_eq_zero, smul_zero, zero_add]
      · unfold Setting.gravity; rw [if_neg (by rw [h.grav]; decide)]
      · intro j hj
        obtain ⟨h1, h2, h3⟩ := h.near_body hi hB hd (mem_nearSolid.mp hj).1
        rw [h.vel j h3 h1 h2, h.vel i hi hB hd, sub_self, smul_zero]
    have hu : (S.predict b).u i = V := by
      unfold Setting.predict
      simp only
      rw [if_pos hf, ha, h.vel i hi hB hd, h.fall]
    refine ⟨hu, ?_⟩
    have : (S.predict b).x i = b.x i + S.env.dt • (S.predict b).u i := by
      unfold Setting.predict
      simp only
      rw [if_pos hf]
    rw [this, hu]
  · exact h.wall i hi hB hd hf

theorem rel {i j : ℕ} (hi : i < S.n) (hB : B i) (hd : S.ty i ≠ .disabled) (hj : j < S.n) (hBj : B j) (hdj : S.ty j ≠ .disabled) :
    (S.predict b).x j - (S.predict b).x i = b.x j - b.x i := by
  rw [(h.mid hi hB hd).2, (h.mid hj hBj hdj).2]; abel

theorem near_mid {i : ℕ} (hi : i < S.n) (hB : B i) (hd : S.ty i ≠ .disabled) : S.near (S.predict b).x i = S.near b.x i := by
  ext j
  by_cases hc : j < S.n ∧ j ≠ i ∧ S.ty j ≠ .disabled ∧ len (S.start j - S.start i) < S.env.neighborLength
  · have hBj : B j := by
      by_contra hn
      exact absurd hc.2.2.2 (not_lt.mpr (h.apart i j hi hc.1 hB hn hd hc.2.2.1))
    rw [mem_near_ref, mem_near_ref, h.rel hi hB hd hc.1 hBj hc.2.2.1]
  · rw [mem_near_ref, mem_near_ref]
    tauto

theorem density_mid {i : ℕ} (hi : i < S.n) (hB : B i) (hd : S.ty i ≠ .disabled) : S.density (S.predict b).x i = S.density b.x i := by
  unfold Setting.density
  rw [h.near_mid hi hB hd]
  refine Finset.sum_congr rfl (fun j hj => ?_)
  obtain ⟨h1, h2, h3⟩ := h.near_body hi hB hd hj
  rw [h.rel hi hB hd h3 h1 h2]

theorem reported_mid {i : ℕ} (hi : i < S.n) (hB : B i) (hd : S.Active i) : (S.predict b).dens i = S.reported b.x b.dens i := by
  change S.reported (S.predict b).x b.dens i = _
  unfold Setting.reported
  rw [if_pos hd, if_pos hd, h.density_mid hi hB hd.2]

theorem source_zero {i : ℕ} (he : S.cfg.explicit = false) (hi : i < S.n) (hB : B i) (hA : S.Active i) : S.source b (S.predict b) i = 0 := by
  classical
  have hq := h.quiet
  rw [if_neg (by rw [he]; decide)] at hq
  have h1 : S.rate (S.predict b).x (S.predict b).u (S.predict b).dens i = 0 := by
    unfold Setting.rate
    split
    · split
      · rfl
      · rw [Finset.sum_eq_zero, mul_zero]
        intro j hj
        obtain ⟨k1, k2, k3⟩ := h.near_body hi hB hA.2 hj
        rw [(h.mid k3 k1 k2).1, (h.mid hi hB hA.2).1, sub_self]
        simp [prod]
    · rename_i hs
      rcases hq with hq | hq
      · exact absurd hq hs
      · rw [hq i hi hB hA, sub_self, zero_div]
  have h2 : S.rate b.x b.u (S.reported b.x b.dens) i = 0 := by
    unfold Setting.rate
    split
    · split
      · rfl
      · rw [Finset.sum_eq_zero, mul_zero]
        intro j hj
        obtain ⟨k1, k2, k3⟩ := h.near_body hi hB hA.2 hj
        rw [h.vel j k3 k1 k2, h.vel i hi hB hA.2, sub_self]
        simp [prod]
    · rename_i hs
      rcases hq with hq | hq
      · exact absurd hq hs
      · rw [← h.reported_mid hi hB hA, hq i hi hB hA, sub_self, zero_div]
  have h3 : S.compensation b.x b.u (S.reported b.x b.dens) i = 0 := by
    unfold Setting.compensation
    split
    · rw [h2]; simp
    · rfl
  unfold Setting.source
  split
  · rw [h1, h3]; simp
  · rfl

theorem operator_zero {y : ℕ → ℝ} (hy : ∀ i, i < S.n ∧ B i ∧ S.Active i → y i = 0) (i : ℕ) (hi : i < S.n ∧ B i ∧ S.Active i) :
    S.operator (S.predict b) y i = 0 := by
  classical
  unfold Setting.operator
  split
  · unfold Setting.laplacian
    rw [Finset.sum_eq_zero, zero_add]
    · rw [hy i hi]; simp
    · intro j hj
      obtain ⟨k1, k2⟩ := mem_nearSolid.mp hj
      obtain ⟨k3, k4, k5⟩ := h.near_body hi.1 hi.2.1 hi.2.2.2 k1
      rw [hy i hi, hy j ⟨k5, k3, k2, k4⟩, ite_self, sub_zero, mul_zero]
  · exact hy i hi

theorem guess_zero {i : ℕ} (hi : i < S.n) (hB : B i) (hA : S.Active i) : S.guess (S.predict b) i = 0 := by
  unfold Setting.guess
  split
  · exact h.pres i hi hB hA
  · rfl

theorem pressure_zero {eps : ℝ} {p : ℕ → ℝ} (hp : S.pressure eps b (S.predict b) = some p) {i : ℕ} (hi : i < S.n) (hB : B i) (hA : S.Active i) : p i = 0 := by
  classical
  unfold Setting.pressure at hp
  split at hp
  · rename_i he
    cases hp
    have hq := h.quiet
    rw [if_pos he] at hq
    have := hq i hi hB hA
    unfold Setting.eos
    rw [max_eq_right, mul_zero]
    have h2 : S.env.rho * (S.predict b).dens i / S.env.n0 ≤ S.env.rho := by
      rw [div_le_iff₀ h.n0]
      exact mul_le_mul_of_nonneg_left this (h.rho (by simpa using he))
    linarith
  · rename_i he
    cases hs : solve S.n (S.operator (S.predict b)) (S.source b (S.predict b)) (S.guess (S.predict b)) eps with
    | none => rw [hs] at hp; cases hp
    | some y =>
      rw [hs] at hp
      cases hp
      simp only
      have hz := solve_zero (Z := fun i => i < S.n ∧ B i ∧ S.Active i) (fun y hy i hi => h.operator_zero hy i hi)
        (fun i hi => h.source_zero (by simpa using he) hi.1 hi.2.1 hi.2.2) (fun i hi => h.guess_zero hi.1 hi.2.1 hi.2.2) hs i ⟨hi, hB, hA⟩
      rw [if_pos hA, hz, max_self, ite_self]

theorem push_zero {p : ℕ → ℝ} (hp : ∀ i, i < S.n → B i → S.Active i → p i = 0) {i : ℕ} (hi : i < S.n) (hB : B i) (hA : S.Active i) :
    S.push { S.predict b with p := p } i = 0 := by
  classical
  have hpi := hp i hi hB hA
  have hpj : ∀ j ∈ S.nearSolid (S.predict b).x i, p j = 0 := by
    intro j hj
    obtain ⟨k1, k2⟩ := mem_nearSolid.mp hj
    obtain ⟨k3, k4, k5⟩ := h.near_body hi hB hA.2 k1
    exact hp j k5 k3 ⟨k2, k4⟩
  unfold Setting.push
  split
  · rw [show S.forceGc { S.predict b with p := p } i = 0 from ?_, smul_zero]
    unfold Setting.forceGc
    simp only
    rw [hpi, Finset.sum_eq_zero, zero_add]
    · simp
    · intro j hj
      rw [hpj j hj]; simp
  · rw [show S.force { S.predict b with p := p } i = 0 from ?_, smul_zero]
    unfold Setting.force
    simp only
    rw [hpi, Finset.sum_eq_zero, zero_add]
    · simp
    · intro j hj
      rw [hpj j hj]; simp

/-- The rest of the step changes nothing. -/
theorem finish_id {p : ℕ → ℝ} (hp : ∀ i, i < S.n → B i → S.Active i → p i = 0)
    (hds : S.cfg.ds = true → ∀ i j, i < S.n → j < S.n → B i → B j → S.Fluid i → S.Active j → i ≠ j →
      (S.env.l0 - S.env.maxDx) ^ 2 ≤ len (b.x j - b.x i) ^ 2) {i : ℕ} (hi : i < S.n) (hB : B i) (hd : S.ty i ≠ .disabled) :
    (S.finish { S.predict b with p := p }).u i = V := by
  classical
  have hm := h.mid hi hB hd
  by_cases hf : S.Fluid i
  · have hA : S.Active i := ⟨by rw [hf]; decide, hd⟩
    have h0 := h.push_zero hp hi hB hA
    set q : Scene D := { S.predict b with p := p } with hq
    have hk : ∀ j, j < S.n → B j → S.Active j → (S.kick (S.push q) q).x j = (S.predict b).x j ∧ (S.kick (S.push q) q).u j = (S.predict b).u j := by
      intro j hj hBj hAj
      have hj0 := h.push_zero hp hj hBj hAj
      unfold Setting.kick
      simp only
      rw [hj0]
      simp [hq]
    unfold Setting.finish
    simp only
    split
    · rename_i hdd
      have hz : S.stabilise q.x (S.kick (S.push q) q) i = 0 := by
        unfold Setting.stabilise
        simp only
        rw [Finset.sum_eq_zero, smul_zero]
        intro j hj
        obtain ⟨k1, k2⟩ := mem_nearSolid.mp hj
        obtain ⟨k3, k4, k5⟩ := h.near_body hi hB hd k1
        have hne : j ≠ i := (mem_near_ref.mp k1).2.1
        rw [if_neg]
        rw [(hk j k5 k3 ⟨k2, k4⟩).1, (hk i hi hB hA).1, h.rel hi hB hd k5 k3 k4]
        exact not_lt.mpr (hds hdd i j hi k5 hB k3 hf ⟨k2, k4⟩ (Ne.symm hne))
      have kk : ∀ (dv : ℕ → Fin D → ℝ) (s : Scene D), dv i = 0 → (S.kick dv s).u i = s.u i := by
        intro dv s h0
        unfold Setting.kick
        simp only
        rw [if_pos hf, h0, add_zero]
      rw [kk _ _ hz, (hk i hi hB hA).2, hm.1]
    · rw [(hk i hi hB hA).2, hm.1]
  · have e : ∀ (dv : ℕ → Fin D → ℝ) (s : Scene D), (S.kick dv s).u i = s.u i := by
      intro dv s
      unfold Setting.kick
      simp only
      rw [if_neg hf]
    unfold Setting.finish
    simp only
    split
    · rw [e, e]; exact hm.1
    · rw [e]; exact hm.1

/-- The whole scene calm: the solver has nothing to do. -/
theorem solved (hall : ∀ i, i < S.n → B i) (eps : ℝ) : ∃ p, S.pressure eps b (S.predict b) = some p := by
  classical
  unfold Setting.pressure
  split
  · exact ⟨_, rfl⟩
  · rename_i he
    rw [solve_some]
    · exact ⟨_, rfl⟩
    · intro i hi
      by_cases hA : S.Active i
      · rw [h.source_zero (by simpa using he) hi (hall i hi) hA,
          h.operator_zero (fun i hi => h.guess_zero hi.1 hi.2.1 hi.2.2) i ⟨hi, hall i hi, hA⟩]
      · unfold Setting.source Setting.operator Setting.guess
        rw [if_neg (fun k => hA k.1), if_neg (fun k => hA k.1), if_neg (fun k => hA k.1)]

end Calm

end OpenMps
