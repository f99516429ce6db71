import Verif.Spec.Reference
import Verif.Props.Ppe

/-! # Lemmas for C42: the model computes the reference formulas -/

set_option linter.unusedSectionVars false

namespace OpenMps.Ref

open OpenMps

variable {D : Nat} {ω : Type}

theorem prod_eq (v w : Fin D → ℝ) : prod v w = dot (F := ℝ) v w := (dot_real v w).symm

theorem len_eq (v : Fin D → ℝ) : len v = norm2 (F := ℝ) v := by
  rw [norm2_real, dot_real]; unfold len; congr 1; exact Finset.sum_congr rfl (fun a _ => sq _)

theorem len_sq (v : Fin D → ℝ) : len v ^ 2 = dot (F := ℝ) v v := by
  rw [len_eq, norm2_real, Real.sq_sqrt (dot_self_nonneg _)]

theorem len_sub (x y : Fin D → ℝ) : len (x - y) = dist (F := ℝ) x y := by
  rw [len_eq]; exact norm2_sub x y

theorem len_sub_comm (x y : Fin D → ℝ) : len (x - y) = len (y - x) := by rw [len_sub, len_sub, dist_comm']

theorem weight_eq (re r : ℝ) : weight re r = W (F := ℝ) r re := (W_real r re).symm

/-- The state `t` occurs in the step of the setting `S`. -/
structure Tbl (S : Setting D) (t : State ℝ D ω) : Prop where
  n : t.n = S.n
  env : t.env = S.env
  ok : NbrOK t
  ty : ∀ i, i < S.n → (t.ps i).ty = S.ty i
  nbr : ∀ i, i < S.n → S.ty i ≠ .disabled → ∀ j, j ∈ t.neighbors i ↔
    j < S.n ∧ S.ty j ≠ .disabled ∧ j ≠ i ∧ len (S.start j - S.start i) < S.env.neighborLength

/-- The particles of `t` are those of the scene. -/
structure Agree (S : Setting D) (t : State ℝ D ω) (c : Scene D) : Prop where
  x : ∀ i, i < S.n → (t.ps i).x = c.x i
  u : ∀ i, i < S.n → (t.ps i).u = c.u i
  p : ∀ i, i < S.n → (t.ps i).p = c.p i
  dens : ∀ i, i < S.n → (t.ps i).n = c.dens i

theorem Tbl.congr {S : Setting D} {t t' : State ℝ D ω} (h : Tbl S t) (hn : t'.n = t.n) (he : t'.env = t.env) (hb : t'.nbr = t.nbr)
    (hty : ∀ i, (t'.ps i).ty = (t.ps i).ty) : Tbl S t' where
  n := by rw [hn, h.n]
  env := by rw [he, h.env]
  ok := h.ok.congr hn hb hty
  ty := fun i hi => by rw [hty, h.ty i hi]
  nbr := fun i hi hd j => by
    have : t'.neighbors i = t.neighbors i := by unfold State.neighbors; rw [hb]
    rw [this]; exact h.nbr i hi hd j

section
variable {S : Setting D} {t : State ℝ D ω} {c : Scene D} {i : ℕ}

theorem near_lt {x : ℕ → Fin D → ℝ} {j : ℕ} (h : j ∈ S.near x i) : j < S.n := by
  unfold Setting.near at h; exact Finset.mem_range.mp (Finset.mem_filter.mp h).1

theorem near_eq (h : Tbl S t) (hx : ∀ j, j < S.n → (t.ps j).x = c.x j) (hi : i < S.n) (hd : S.ty i ≠ .disabled) :
    t.near i = S.near c.x i := by
  ext j
  rw [mem_near]
  unfold Setting.near
  rw [Finset.mem_filter, Finset.mem_range, h.n, h.nbr i hi hd j]
  constructor
  · rintro ⟨h1, ⟨-, h2, h3, h4⟩, h5⟩
    rw [hx j h1, hx i hi, h.env] at h5
    exact ⟨h1, h3, h2, h4, by rw [len_sub]; exact h5⟩
  · rintro ⟨h1, h3, h2, h4, h5⟩
    refine ⟨h1, ⟨h1, h2, h3, h4⟩, ?_⟩
    rw [hx j h1, hx i hi, h.env]
    rw [len_sub] at h5; exact h5

theorem nearSolid_eq (h : Tbl S t) (hx : ∀ j, j < S.n → (t.ps j).x = c.x j) (hi : i < S.n) (hd : S.ty i ≠ .disabled) :
    (t.near i).filter (fun k => (t.ps k).ty ≠ .dummy) = S.nearSolid c.x i := by
  rw [near_eq h hx hi hd]
  unfold Setting.nearSolid
  ext j
  simp only [Finset.mem_filter]
  constructor
  · rintro ⟨h1, h2⟩; rw [h.ty j (near_lt h1)] at h2; exact ⟨h1, h2⟩
  · rintro ⟨h1, h2⟩; rw [← h.ty j (near_lt h1)] at h2; exact ⟨h1, h2⟩

theorem density_eq (h : Tbl S t) (hx : ∀ j, j < S.n → (t.ps j).x = c.x j) (hi : i < S.n) (hd : S.ty i ≠ .disabled) :
    t.nearDensity i = S.density c.x i := by
  unfold State.nearDensity Setting.density
  rw [near_eq h hx hi hd]
  apply Finset.sum_congr rfl
  intro j hj
  rw [hx j (near_lt hj), hx i hi, h.env, weight_eq, len_sub, dist_comm']

theorem offset_eq (h : Tbl S t) (hx : ∀ j, j < S.n → (t.ps j).x = c.x j) (hi : i < S.n) (hd : S.ty i ≠ .disabled) :
    vdiv (F := ℝ) (t.dxg i) S.env.n0 = S.offset c.x i := by
  have e : vdiv (F := ℝ) (t.dxg i) S.env.n0 = (1 / S.env.n0) • t.dxg i := by
    funext a; change t.dxg i a / S.env.n0 = 1 / S.env.n0 * t.dxg i a; ring
  rw [e]
  unfold State.dxg Setting.offset
  rw [near_eq h hx hi hd]
  congr 1
  apply Finset.sum_congr rfl
  intro j hj
  rw [hx j (near_lt hj), hx i hi, h.env, weight_eq, len_sub]
  rfl

/-- The virtual particle as a particle. -/
noncomputable def ghost (S : Setting D) (c : Scene D) (i : ℕ) : Particle ℝ D :=
  { x := c.x i + S.virtual c.x i, u := c.u i, p := 0, n := 0, ty := .incompressibleNewton }

open Classical in
theorem sppTerm_eq {A : Type} [AddCommMonoid A] (h : Tbl S t) (hx : ∀ j, j < S.n → (t.ps j).x = c.x j) (hu : (t.ps i).u = c.u i)
    (hi : i < S.n) (hd : S.ty i ≠ .disabled)
    (hbuf : S.cfg.spp = true → t.nNoSpp i = S.density c.x i) (func : Int → Particle ℝ D → A) :
    t.sppTerm S.cfg i func = if S.HasVirtual c.x i then func (-1) (ghost S c i) else 0 := by
  unfold State.sppTerm
  cases hs : S.cfg.spp with
  | false =>
    rw [if_neg (by decide), if_neg]
    intro hc; rw [hc.1] at hs; cases hs
  | true =>
    rw [if_pos rfl]
    have hb := hbuf hs
    have e3 : (Scalar.epsilon : ℝ) = 2⁻¹ ^ 52 := by change (1 : ℝ) / 2 ^ 52 = _; norm_num
    have e : t.sppParticle i (t.dxg i) = if S.HasVirtual c.x i then some (ghost S c i) else none := by
      unfold State.sppParticle
      simp only
      rw [h.env, hb, offset_eq h hx hi hd]
      have hl : (Scalar.sqrt (dot (S.offset c.x i) (S.offset c.x i)) : ℝ) = len (S.offset c.x i) := by
        rw [len_eq, norm2_real]; rfl
      rw [hl]
      by_cases h1 : S.density c.x i < S.env.n0
      · rw [if_pos (lt_real_iff.mpr h1)]
        by_cases h2 : (2⁻¹ : ℝ) ^ 52 < len (S.offset c.x i)
        · rw [if_pos (by rw [lt_real_iff, e3]; exact h2), if_pos ⟨hs, h1, h2⟩]
          unfold ghost
          rw [hu, hx i hi]
          congr 2
        · rw [if_neg (by rw [lt_real_iff, e3]; exact h2), if_neg (fun hc => h2 hc.2.2)]
      · rw [if_neg (by rw [lt_real_iff]; exact h1), if_neg (fun hc => h1 hc.2.1)]
    rw [e]
    by_cases hv : S.HasVirtual c.x i
    · rw [if_pos hv, if_pos hv]
    · rw [if_neg hv, if_neg hv]

open Classical in
theorem accumulate_eq {A : Type} [AddCommMonoid A] (h : Tbl S t) (hre : 0 ≤ S.env.re) (hx : ∀ j, j < S.n → (t.ps j).x = c.x j)
    (hu : (t.ps i).u = c.u i) (hi : i < S.n) (hd : S.ty i ≠ .disabled)
    (hbuf : S.cfg.spp = true → t.nNoSpp i = S.density c.x i) (func : Int → Particle ℝ D → A) :
    t.accumulate S.cfg i (0 : A) func =
      ∑ j ∈ S.near c.x i, func (j : Int) (t.ps j) + (if S.HasVirtual c.x i then func (-1) (ghost S c i) else 0) := by
  rw [accumulate_real S.cfg i func (by rw [h.env]; exact hre) h.ok (by rw [h.n]; exact hi) (by rw [h.ty i hi]; exact hd),
    sppTerm_eq h hx hu hi hd hbuf, near_eq h hx hi hd]

theorem active_iff (h : Tbl S t) (hi : i < S.n) : (t.ps i).ty.active = true ↔ S.Active i := by
  unfold PType.active Setting.Active
  rw [h.ty i hi]
  simp

theorem rate_eq (h : Tbl S t) (hre : 0 ≤ S.env.re) (ha : Agree S t c) (hi : i < S.n) (hd : S.ty i ≠ .disabled)
    (hbuf : S.cfg.spp = true → t.nNoSpp i = S.density c.x i) : t.densitySpeed S.cfg i = S.rate c.x c.u c.dens i := by
  unfold State.densitySpeed Setting.rate
  split
  · by_cases hs : S.cfg.spp = true ∧ S.density c.x i < S.env.n0
    · rw [if_pos hs, if_pos]
      rw [hs.1, Bool.true_and, lt_real_iff, hbuf hs.1, h.env]; exact hs.2
    · rw [if_neg hs, if_neg]
      · rw [accumulate_eq h hre ha.x (ha.u i hi) hi hd hbuf, if_neg (fun hc => hs ⟨hc.1, hc.2.1⟩), add_zero, h.env]
        congr 1
        apply Finset.sum_congr rfl
        intro j hj
        simp only
        rw [ha.x j (near_lt hj), ha.x i hi, ha.u j (near_lt hj), ha.u i hi, ← len_eq, ← prod_eq]
        have : ∀ r : ℝ, r * r * r = r ^ 3 := fun r => by ring
        exact congrArg _ (this _)
      · intro hc
        rw [Bool.and_eq_true, lt_real_iff] at hc
        rw [h.env, hbuf hc.1] at hc
        exact hs hc
  · rw [ha.dens i hi, h.env]

theorem coef_eq (h : Tbl S t) (hD : D < 5) (r : ℝ) : t.coef S.cfg r = S.laplace r := by
  unfold State.coef Setting.laplace
  split
  · rw [ofInt_real]
    have : (((5 - D : Nat) : Int) : ℝ) = 5 - (D : ℝ) := by
      rw [Int.cast_natCast, Nat.cast_sub (by omega)]; norm_num
    rw [this, h.env]
    change (5 - (D : ℝ)) * S.env.re / S.env.n0 / (r * r * r) = _
    rw [div_div]; congr 2; ring
  · rw [ofInt_real, ← weight_eq, h.env]
    have : (((2 * D : Nat) : Int) : ℝ) = 2 * (D : ℝ) := by push_cast; ring
    rw [this]
    change (2 * (D : ℝ)) / S.env.lambda / S.env.n0 * weight S.env.re r = _
    rw [div_div]

theorem gravity_eq (h : Tbl S t) (hx : (t.ps i).x = c.x i) : t.gravity S.cfg i = S.gravity (c.x i) := by
  unfold State.gravity Setting.gravity
  split
  · simp only
    rw [hx, h.env, ← len_eq]
    have e : S.env.l0 * (Scalar.ofInt 1 / Scalar.ofInt 100) = S.env.l0 / 100 := by
      rw [ofInt_real, ofInt_real]
      push_cast; ring
    rw [e]
    have hg : ((List.finRange D).foldl (fun z a => if a.val + 1 = D then S.env.g a else z) (0 : ℝ))
        = if h : 0 < D then S.env.g ⟨D - 1, by omega⟩ else 0 := by
      cases D with
      | zero => rfl
      | succ d =>
        rw [List.finRange_succ_last, List.foldl_append, dif_pos (Nat.succ_pos d)]
        simp only [List.foldl_cons, List.foldl_nil, Fin.val_last, if_true]
        rfl
    by_cases hl : len (c.x i) < S.env.l0 / 100
    · rw [if_pos hl, if_pos (lt_real_iff.mpr hl)]
      funext a
      exact mul_zero _
    · rw [if_neg hl, if_neg (by rw [lt_real_iff]; exact hl)]
      funext a
      refine Eq.trans (congrArg (· * (c.x i a / len (c.x i))) hg) ?_
      obtain ⟨G, hG⟩ : ∃ G : ℝ, G = if h : 0 < D then S.env.g ⟨D - 1, by omega⟩ else 0 := ⟨_, rfl⟩
      rw [← hG]
      change G * (c.x i a / len (c.x i)) = (G / len (c.x i)) * c.x i a
      ring
  · rw [h.env]

open Classical in
theorem acceleration_eq (h : Tbl S t) (hre : 0 ≤ S.env.re) (hD : D < 5) (ha : Agree S t c) (hi : i < S.n) (hf : S.Fluid i)
    (hbuf : S.cfg.spp = true → t.nNoSpp i = S.density c.x i) : t.accelCompute S.cfg i = some (S.acceleration c.x c.u i) := by
  have hd : S.ty i ≠ .disabled := by rw [hf]; decide
  unfold State.accelCompute
  rw [if_pos (by rw [h.ty i hi]; exact hf), gravity_eq h (ha.x i hi)]
  congr 1
  unfold Setting.acceleration
  congr 1
  rw [accumulate_eq h hre ha.x (ha.u i hi) hi hd hbuf]
  have hterm : ∀ (j : Int) (q : Particle ℝ D), q.ty ≠ .dummy →
      t.viscFunc S.cfg i j q = (S.env.nu * S.laplace (len (q.x - c.x i))) • (q.u - c.u i) := by
    intro j q hq
    unfold State.viscFunc
    rw [if_pos hq, ha.x i hi, ha.u i hi, h.env]
    simp only
    have hr : dist (c.x i) q.x = len (q.x - c.x i) := by rw [len_sub, dist_comm']
    rw [hr]
    unfold Setting.laplace
    split
    · have : (Scalar.ofInt ((5 - D : Nat) : Int) : ℝ) = 5 - (D : ℝ) := by
        rw [ofInt_real, Int.cast_natCast, Nat.cast_sub (by omega)]; norm_num
      rw [this]
      funext a
      change (S.env.nu * (5 - (D : ℝ)) * S.env.re / S.env.n0 / _) * _ = (S.env.nu * _) * _
      congr 1
      generalize len (q.x - c.x i) = r
      rw [div_div, show S.env.n0 * (r * r * r) = S.env.n0 * r ^ 3 by ring]
      ring
    · have e2 : (Scalar.ofInt 2 : ℝ) = 2 := by rw [ofInt_real]; norm_num
      have eD : (Scalar.ofInt (D : Int) : ℝ) = (D : ℝ) := by rw [ofInt_real]; norm_num
      rw [e2, eD, ← weight_eq]
      funext a
      change (S.env.nu * 2 * (D : ℝ) / S.env.lambda / S.env.n0 * _) * _ = (S.env.nu * (2 * (D : ℝ) / (S.env.lambda * S.env.n0) * _)) * _
      rw [div_div]
      ring
  have hv : (if S.HasVirtual c.x i then t.viscFunc S.cfg i (-1) (ghost S c i) else 0) = 0 := by
    split
    · rw [hterm _ _ (show PType.incompressibleNewton ≠ .dummy by decide)]
      unfold ghost
      simp
    · rfl
  rw [hv, add_zero, Finset.smul_sum]
  unfold Setting.nearSolid
  rw [Finset.sum_filter]
  apply Finset.sum_congr rfl
  intro j hj
  by_cases hq : S.ty j ≠ .dummy
  · rw [if_pos hq, hterm _ _ (by rw [h.ty j (near_lt hj)]; exact hq), ha.x j (near_lt hj), ha.u j (near_lt hj), smul_smul]
  · rw [if_neg hq]
    unfold State.viscFunc
    rw [if_neg (by rw [h.ty j (near_lt hj)]; exact hq)]

theorem surface_iff (h : Tbl S t) (ha : Agree S t c) (hi : i < S.n) :
    t.isSurface S.cfg (t.ps i).n = true ↔ S.Surface c.dens i := by
  unfold State.isSurface Setting.Surface
  rw [h.env, ha.dens i hi, Bool.and_eq_true, lt_real_iff]
  cases S.cfg.spp <;> simp

theorem fixed_iff (h : Tbl S t) (ha : Agree S t c) (hi : i < S.n) :
    t.fixedRow S.cfg i = false ↔ S.Active i ∧ ¬ S.Surface c.dens i := by
  unfold State.fixedRow
  rw [← surface_iff h ha hi, Bool.or_eq_false_iff, Bool.or_eq_false_iff, decide_eq_false_iff_not, decide_eq_false_iff_not, h.ty i hi]
  unfold Setting.Active
  simp

open Classical in
theorem laplacian_eq (h : Tbl S t) (hre : 0 ≤ S.env.re) (hD : D < 5) (ha : Agree S t c) (hi : i < S.n)
    (hbuf : S.cfg.spp = true → t.nNoSpp i = S.density c.x i) (hf : S.Active i ∧ ¬ S.Surface c.dens i) (y : ℕ → ℝ) :
    applyMat S.n (t.ppeC S.cfg).ppe.A y i = S.laplacian c y i := by
  have hd : S.ty i ≠ .disabled := hf.1.2
  have hv : ValidSched t.n (serial t.n) := validSched_serial t.n
  have hfix := (fixed_iff h ha hi).mpr hf
  have hit : i < t.n := by rw [h.n]; exact hi
  have key := applyMat_free (cfg := S.cfg) (s := t) h.ok (by rw [h.env]; exact hre) hv hv y (mem_eqs.mpr ⟨hit, hfix⟩)
  rw [setPpe_eq _ _ _ _ hv hv, h.n] at key
  rw [key]
  unfold Setting.laplacian
  have hspp : t.sppWeight S.cfg i = if S.HasVirtual c.x i then S.laplace (len (S.virtual c.x i)) else 0 := by
    unfold State.sppWeight
    rw [sppTerm_eq h ha.x (ha.u i hi) hi hd hbuf]
    split
    · rw [coef_eq h hD, ha.x i hi]
      congr 1
      unfold ghost
      rw [dist_comm', ← len_sub]
      congr 1
      exact add_sub_cancel_left _ _
    · rfl
  have hdist : ∀ j, j < S.n → dist (t.ps i).x (t.ps j).x = len (c.x j - c.x i) := by
    intro j hj
    rw [ha.x i hi, ha.x j hj, len_sub, dist_comm']
  unfold State.anchor State.nearEqs
  rw [hspp, near_eq h ha.x hi hd]
  unfold Setting.nearSolid
  rw [Finset.sum_filter, Finset.sum_filter, Finset.sum_filter, add_mul, Finset.sum_mul, sub_add_eq_sub_sub, ← Finset.sum_sub_distrib]
  rw [sub_eq_add_neg]
  congr 1
  · apply Finset.sum_congr rfl
    intro j hj
    have hjn := near_lt hj
    rw [hdist j hjn, coef_eq h hD, h.ty j hjn]
    have hjd : S.ty j ≠ .disabled := by
      unfold Setting.near at hj; exact (Finset.mem_filter.mp hj).2.2.1
    have hfj := fixed_iff h ha hjn
    by_cases hq : S.ty j = .dummy
    · have : ¬ t.fixedRow S.cfg j = false := fun hc => (hfj.mp hc).1.1 hq
      rw [if_neg this, if_neg (fun hc => hc.1 hq), if_neg (fun hc => hc hq)]; ring
    · rw [if_pos (show S.ty j ≠ .dummy from hq)]
      by_cases hs : S.Surface c.dens j
      · have h1 : t.fixedRow S.cfg j = true := by
          rw [← Bool.not_eq_false]; exact fun hc => (hfj.mp hc).2 hs
        rw [if_pos hs, if_neg (by rw [h1]; decide), if_pos ⟨hq, h1⟩]; ring
      · have h1 := hfj.mpr ⟨⟨hq, hjd⟩, hs⟩
        rw [if_neg hs, if_pos h1, if_neg (fun hc => by rw [h1] at hc; cases hc.2)]; ring
  · split <;> ring

/-- The buffers of the first stage at the pressure computation. -/
structure Buf (S : Setting D) (t : State ℝ D ω) (b c : Scene D) : Prop where
  dens : ∀ i, i < S.n → S.Active i → S.cfg.spp = true → t.nNoSpp i = S.density c.x i
  ecs : ∀ i, i < S.n → S.Active i → S.cfg.ecs = true → t.ecs i = S.compensation b.x b.u (S.reported b.x b.dens) i

theorem residual_eq {b : Scene D} (h : Tbl S t) (hre : 0 ≤ S.env.re) (hD : D < 5) (ha : Agree S t c) (hb : Buf S t b c) (y : ℕ → ℝ) :
    residualSq S.n (t.ppeC S.cfg).ppe.A (t.ppeC S.cfg).ppe.b y = S.residual b c y := by
  unfold residualSq Setting.residual
  apply Finset.sum_congr rfl
  intro i hi
  have hi := Finset.mem_range.mp hi
  have hit : i < t.n := by rw [h.n]; exact hi
  have hb1 : (t.ppeC S.cfg).ppe.b i = (t.rhsCompute S.cfg i).1 := if_pos hit
  rw [hb1]
  unfold State.rhsCompute
  by_cases hf : S.Active i ∧ ¬ S.Surface c.dens i
  · have h1 := (fixed_iff h ha hi).mpr hf
    rw [if_pos hf, laplacian_eq h hre hD ha hi (hb.dens i hi hf.1) hf, if_neg (by rw [h1]; decide)]
    simp only
    rw [rate_eq h hre ha hi hf.1.2 (hb.dens i hi hf.1), h.env]
    congr 2
    by_cases he : S.cfg.ecs = true
    · rw [if_pos he, hb.ecs i hi hf.1 he]
    · rw [if_neg he]
      unfold Setting.compensation
      rw [if_neg he, add_zero]
  · have h1 : t.fixedRow S.cfg i = true := by
      rw [← Bool.not_eq_false]; exact fun hc => hf ((fixed_iff h ha hi).mp hc)
    have hv : ValidSched t.n (serial t.n) := validSched_serial t.n
    have key := applyMat_fixed (cfg := S.cfg) (s := t) hv hv y hit h1
    rw [setPpe_eq _ _ _ _ hv hv, h.n] at key
    rw [if_neg hf, key, if_pos h1]
    change (0 - y i) ^ 2 = _
    ring

theorem guess_eq (h : Tbl S t) (ha : Agree S t c) (hi : i < S.n) : (t.ppeC S.cfg).ppe.x i = S.guess c i := by
  have hit : i < t.n := by rw [h.n]; exact hi
  have hb1 : (t.ppeC S.cfg).ppe.x i = (t.rhsCompute S.cfg i).2 := if_pos hit
  rw [hb1]
  unfold State.rhsCompute Setting.guess
  by_cases hf : S.Active i ∧ ¬ S.Surface c.dens i
  · rw [if_pos hf, if_neg (by rw [(fixed_iff h ha hi).mpr hf]; decide)]
    exact ha.p i hi
  · have h1 : t.fixedRow S.cfg i = true := by
      rw [← Bool.not_eq_false]; exact fun hc => hf ((fixed_iff h ha hi).mp hc)
    rw [if_neg hf, if_pos h1]

theorem residual_congr {b : Scene D} {y z : ℕ → ℝ} (hyz : ∀ i, i < S.n → y i = z i) : S.residual b c y = S.residual b c z := by
  unfold Setting.residual
  apply Finset.sum_congr rfl
  intro i hi
  have hi := Finset.mem_range.mp hi
  have hl : S.laplacian c y i = S.laplacian c z i := by
    unfold Setting.laplacian
    rw [hyz i hi]
    congr 1
    apply Finset.sum_congr rfl
    intro j hj
    have hjn : j < S.n := by
      unfold Setting.nearSolid at hj; exact near_lt (Finset.mem_filter.mp hj).1
    rw [hyz j hjn]
  rw [hl, hyz i hi]

/-- With tolerance zero the solver returns its initial guess. -/
theorem cgSolve_zero (n : ℕ) (A : Sparse ℝ) (b x : ℕ → ℝ) : (cgSolve n A b x 0).1 = x := by
  have hc : (cgInit n A b x 0).1.conv = true := by
    change Scalar.eq (cgInit n A b x 0).2 0 = true
    rw [eq_real, decide_eq_true_eq, cgInit_res0]; simp
  unfold cgSolve
  simp only
  cases n with
  | zero => rfl
  | succ n => unfold cgLoop; rw [if_pos hc]; rfl

theorem pressure_eq {P : Params ℝ D ω} {b : Scene D} {t' : State ℝ D ω} (hP : P.cfg = S.cfg) (h : Tbl S t) (hre : 0 ≤ S.env.re)
    (hD : D < 5) (ha : Agree S t c) (hb : Buf S t b c) (hp : t.pressureC P = .ok t') :
    S.IsPressure P.eps b c (fun i => (t'.ps i).p) := by
  unfold Setting.IsPressure
  rcases pressureC_ok hp with ⟨he, rfl⟩ | ⟨he, s1, hs, rfl⟩
  · rw [if_pos (by rw [← hP]; exact he)]
    intro i hi
    have hit : i < t.n := by rw [h.n]; exact hi
    unfold State.presC
    simp only
    rw [if_pos hit]
    unfold State.eosCompute Setting.eos
    simp only [Option.getD_some]
    rw [h.env, ha.dens i hi, le_real]
    have e : S.env.rho / S.env.n0 * c.dens i = S.env.rho * c.dens i / S.env.n0 := by ring
    rw [e]
    by_cases hc : S.env.rho * c.dens i / S.env.n0 ≤ S.env.rho
    · rw [if_pos (by rw [decide_eq_true_eq]; exact hc), max_eq_right (by linarith)]
      exact (mul_zero _).symm
    · rw [if_neg (by rw [decide_eq_true_eq]; exact hc), max_eq_left (by linarith)]
      change S.env.c * S.env.c * _ = _
      rw [sq]
  · rw [if_neg (by rw [← hP, he]; decide)]
    have hs2 := solvePpe_ok hs
    unfold State.solvePpe at hs
    simp only at hs
    have hsz : (t.ppeC P.cfg).ppe.size = S.n := h.n
    rw [hsz] at hs
    have hconv : (cgSolve S.n (t.ppeC P.cfg).ppe.A (t.ppeC P.cfg).ppe.b (t.ppeC P.cfg).ppe.x P.eps).2 = true := by
      by_contra hc
      rw [if_neg hc] at hs; cases hs
    rw [if_pos hconv] at hs
    injection hs with hs
    rw [hP] at hs hconv
    refine ⟨(cgSolve S.n (t.ppeC S.cfg).ppe.A (t.ppeC S.cfg).ppe.b (t.ppeC S.cfg).ppe.x P.eps).1, ?_, ?_, ?_⟩
    · intro hne
      have := cgSolve_converged (x' := (cgSolve S.n (t.ppeC S.cfg).ppe.A (t.ppeC S.cfg).ppe.b (t.ppeC S.cfg).ppe.x P.eps).1) hne
        (Prod.ext rfl hconv)
      rw [residual_eq h hre hD ha hb, residual_eq h hre hD ha hb] at this
      rw [residual_congr (y := S.guess c) (z := (t.ppeC S.cfg).ppe.x) (fun i hi => (guess_eq h ha hi).symm)]
      exact this
    · intro hz i hi
      rw [hz, cgSolve_zero]
      exact guess_eq h ha hi
    · intro i hi
      have hit : i < t.n := by rw [h.n]; exact hi
      rw [← hs, hP]
      unfold State.presC
      simp only
      rw [if_pos (show i < (t.ppeC S.cfg).n from hit)]
      simp only
      unfold State.presCompute
      simp only
      rw [show ((t.ppeC S.cfg).ps i) = t.ps i from rfl]
      by_cases hA : S.Active i
      · rw [if_pos ((active_iff h hi).mpr hA), if_pos hA, Option.getD_some]
        have hsf : State.isSurface S.cfg { t.ppeC S.cfg with ppe := { (t.ppeC S.cfg).ppe with x :=
          (cgSolve S.n (t.ppeC S.cfg).ppe.A (t.ppeC S.cfg).ppe.b (t.ppeC S.cfg).ppe.x P.eps).1 } } (t.ps i).n = true
            ↔ S.Surface c.dens i := by
          rw [← surface_iff h ha hi]; rfl
        by_cases hS : S.Surface c.dens i
        · rw [if_pos hS, if_pos]
          rw [Bool.or_eq_true]; exact Or.inr (hsf.mpr hS)
        · rw [if_neg hS]
          by_cases hy : (cgSolve S.n (t.ppeC S.cfg).ppe.A (t.ppeC S.cfg).ppe.b (t.ppeC S.cfg).ppe.x P.eps).1 i < 0
          · rw [max_eq_right hy.le, if_pos]
            rw [Bool.or_eq_true, lt_real_iff]; exact Or.inl hy
          · rw [max_eq_left (not_lt.mp hy), if_neg]
            rw [Bool.or_eq_true, lt_real_iff]
            rintro (k | k)
            · exact hy k
            · exact hS (hsf.mp k)
      · rw [if_neg (fun hc => hA ((active_iff h hi).mp hc)), if_neg hA]
        exact ha.p i hi

theorem ghost_sub : (ghost S c i).x - c.x i = S.virtual c.x i := add_sub_cancel_left _ _

theorem sqrt_dot (v : Fin D → ℝ) : (Scalar.sqrt (dot (F := ℝ) v v) : ℝ) = len v := by rw [len_eq, norm2_real]; rfl

open Classical in
theorem force_eq (h : Tbl S t) (hre : 0 ≤ S.env.re) (ha : Agree S t c) (hi : i < S.n) (hf : S.Fluid i)
    (hbuf : S.cfg.spp = true → t.nNoSpp i = S.density c.x i) :
    t.accumulate S.cfg i (0 : Vec ℝ D) (t.gradFunc i) = S.force c i := by
  have hd : S.ty i ≠ .disabled := by rw [hf]; decide
  rw [accumulate_eq h hre ha.x (ha.u i hi) hi hd hbuf]
  have hterm : ∀ (j : Int) (q : Particle ℝ D), q.ty ≠ .dummy →
      t.gradFunc i j q = ((q.p + c.p i) / len (q.x - c.x i) ^ 2 * weight S.env.re (len (q.x - c.x i))) • (q.x - c.x i) := by
    intro j q hq
    unfold State.gradFunc
    rw [if_pos hq, ha.x i hi, ha.p i hi, h.env]
    simp only
    rw [sqrt_dot, ← len_sq, ← weight_eq]
    rfl
  unfold Setting.force
  congr 1
  · unfold Setting.nearSolid
    rw [Finset.sum_filter]
    apply Finset.sum_congr rfl
    intro j hj
    by_cases hq : S.ty j ≠ .dummy
    · rw [if_pos hq, hterm _ _ (by rw [h.ty j (near_lt hj)]; exact hq), ha.x j (near_lt hj), ha.p j (near_lt hj)]
    · rw [if_neg hq]
      unfold State.gradFunc
      rw [if_neg (by rw [h.ty j (near_lt hj)]; exact hq)]
  · split
    · rw [hterm _ _ (show PType.incompressibleNewton ≠ .dummy by decide), ghost_sub]
      congr 3
      exact zero_add _
    · rfl

open Classical in
theorem moment_eq (h : Tbl S t) (hre : 0 ≤ S.env.re) (ha : Agree S t c) (hi : i < S.n) (hf : S.Fluid i)
    (hbuf : S.cfg.spp = true → t.nNoSpp i = S.density c.x i) :
    Matrix.of (t.accumulate S.cfg i (0 : Mat ℝ D) (t.gcMatFunc i)) = S.moment c i := by
  have hd : S.ty i ≠ .disabled := by rw [hf]; decide
  rw [accumulate_eq h hre ha.x (ha.u i hi) hi hd hbuf]
  have hterm : ∀ (j : Int) (q : Particle ℝ D) (a b : Fin D), t.gcMatFunc i j q a b =
      ((weight S.env.re (len (q.x - c.x i)) / len (q.x - c.x i) ^ 2) • Matrix.vecMulVec (q.x - c.x i) (q.x - c.x i)) a b := by
    intro j q a b
    rw [Matrix.smul_apply, Matrix.vecMulVec_apply, weight_eq, len_sq, len_sub]
    unfold State.gcMatFunc msmul outer
    rw [ha.x i hi, h.env]
    rfl
  unfold Setting.moment
  ext a b
  rw [Matrix.add_apply, Matrix.sum_apply, Matrix.of_apply, Pi.add_apply, Pi.add_apply, Finset.sum_apply, Finset.sum_apply]
  congr 1
  · apply Finset.sum_congr rfl
    intro j hj
    rw [hterm, ha.x j (near_lt hj)]
  · split
    · rw [hterm, ghost_sub]
    · rfl

theorem invert_eq (hD : D = 2 ∨ D = 3) (m : Mat ℝ D) (hsym : (Matrix.of m).IsSymm) (n0 : ℝ) :
    Matrix.of (invertMatrix m ((D : ℝ) / n0)) = if (Matrix.of m).det = 0 then ((D : ℝ) / n0) • (1 : Matrix (Fin D) (Fin D) ℝ) else (Matrix.of m)⁻¹ := by
  have hsc : ∀ (k : ℕ) (v : ℝ), Matrix.scalar (Fin k) v = v • (1 : Matrix (Fin k) (Fin k) ℝ) := by
    intro k v; rw [Matrix.smul_one_eq_diagonal]; rfl
  rcases hD with rfl | rfl
  · obtain ⟨h1, h2⟩ := C38_invert_2x2 m (((2 : ℕ) : ℝ) / n0)
    by_cases hd : (Matrix.of m).det = 0
    · rw [if_pos hd, h2 hd, hsc]
    · rw [if_neg hd]; exact (Matrix.inv_eq_left_inv (h1 hd).1).symm
  · obtain ⟨-, h1, h2⟩ := C38_invert_3x3 m (((3 : ℕ) : ℝ) / n0)
    by_cases hd : (Matrix.of m).det = 0
    · rw [if_pos hd, h2 hd, hsc]
    · rw [if_neg hd]; exact (Matrix.inv_eq_left_inv (h1 hd hsym).1).symm

open Classical in
theorem correction_eq (h : Tbl S t) (hre : 0 ≤ S.env.re) (hD : D = 2 ∨ D = 3) (ha : Agree S t c) (hi : i < S.n) (hf : S.Fluid i)
    (hbuf : S.cfg.spp = true → t.nNoSpp i = S.density c.x i) :
    Matrix.of (invertMatrix (t.accumulate S.cfg i (0 : Mat ℝ D) (t.gcMatFunc i)) (Scalar.ofInt (D : Int) / t.env.n0)) = S.correction c i := by
  have eD : (Scalar.ofInt (D : Int) : ℝ) = (D : ℝ) := by rw [ofInt_real]; norm_num
  have hs := C38_correction_matrix_is_symmetric S.cfg t i
  rw [eD, h.env]
  refine (invert_eq hD _ hs S.env.n0).trans ?_
  rw [moment_eq h hre ha hi hf hbuf]
  unfold Setting.correction
  split <;> rfl

theorem matVec_eq (m : Mat ℝ D) (v : Vec ℝ D) : matVec m v = (Matrix.of m).mulVec v := by
  funext a
  unfold matVec
  rw [foldl_add_sum (fun j => m a j * v j), finRange_sum]
  exact zero_add _

open Classical in
theorem forceGc_eq (h : Tbl S t) (hre : 0 ≤ S.env.re) (ha : Agree S t c) (hi : i < S.n) (hf : S.Fluid i)
    (hbuf : S.cfg.spp = true → t.nNoSpp i = S.density c.x i) (C : Mat ℝ D) (hC : Matrix.of C = S.correction c i) :
    t.accumulate S.cfg i (0 : Vec ℝ D) (t.gcFunc S.cfg i C) = S.forceGc c i := by
  have hd : S.ty i ≠ .disabled := by rw [hf]; decide
  rw [accumulate_eq h hre ha.x (ha.u i hi) hi hd hbuf]
  have hterm : ∀ (j : Int) (q : Particle ℝ D), q.ty ≠ .dummy →
      t.gcFunc S.cfg i C j q = ((if S.cfg.midpoint then q.p + c.p i else q.p - c.p i) / len (q.x - c.x i) ^ 2 *
        weight S.env.re (len (q.x - c.x i))) • (S.correction c i).mulVec (q.x - c.x i) := by
    intro j q hq
    unfold State.gcFunc
    rw [if_pos hq, ha.x i hi, ha.p i hi, h.env]
    simp only
    rw [← len_sub, ← len_sq, ← weight_eq, matVec_eq, hC]
    rfl
  unfold Setting.forceGc
  simp only
  congr 1
  · unfold Setting.nearSolid
    rw [Finset.sum_filter]
    apply Finset.sum_congr rfl
    intro j hj
    by_cases hq : S.ty j ≠ .dummy
    · rw [if_pos hq, hterm _ _ (by rw [h.ty j (near_lt hj)]; exact hq), ha.x j (near_lt hj), ha.p j (near_lt hj)]
    · rw [if_neg hq]
      unfold State.gcFunc
      rw [if_neg (by rw [h.ty j (near_lt hj)]; exact hq)]
  · split
    · rw [hterm _ _ (show PType.incompressibleNewton ≠ .dummy by decide), ghost_sub]
      rfl
    · rfl

theorem push_eq (h : Tbl S t) (hre : 0 ≤ S.env.re) (hD : D = 2 ∨ D = 3) (ha : Agree S t c) (hi : i < S.n) (hf : S.Fluid i)
    (hbuf : S.cfg.spp = true → t.nNoSpp i = S.density c.x i) : t.gradCompute S.cfg i = some (S.push c i) := by
  unfold State.gradCompute Setting.push
  rw [if_pos (by rw [h.ty i hi]; exact hf)]
  simp only
  have eD : (Scalar.ofInt (D : Int) : ℝ) = (D : ℝ) := by rw [ofInt_real]; norm_num
  split
  · have hC := correction_eq h hre hD ha hi hf hbuf
    rw [forceGc_eq h hre ha hi hf hbuf _ hC, ha.dens i hi, h.env]
    congr 1
    funext a
    change (-S.env.dt * c.dens i / (S.env.rho * S.env.n0)) * _ = -(S.env.dt * c.dens i / (S.env.rho * S.env.n0)) * _
    ring
  · rw [force_eq h hre ha hi hf hbuf, h.env, eD]
    congr 1
    funext a
    change (-S.env.dt / S.env.rho * (D : ℝ) / S.env.n0) * _ = -(S.env.dt / S.env.rho * ((D : ℝ) / S.env.n0)) * _
    ring

open Classical in
theorem stabilise_eq {old : ℕ → Fin D → ℝ} (h : Tbl S t) (hre : 0 ≤ S.env.re) (ha : Agree S t c) (hi : i < S.n) (hf : S.Fluid i)
    (hold : ∀ j, j < S.n → S.Active j → t.origX j = old j) : t.dsCompute S.cfg i = some (S.stabilise old c i) := by
  have hd : S.ty i ≠ .disabled := by rw [hf]; decide
  unfold State.dsCompute Setting.stabilise
  rw [if_pos (by rw [h.ty i hi]; exact hf)]
  simp only
  have hnear : ∀ j ∈ S.near c.x i, S.ty j ≠ .disabled := by
    intro j hj
    unfold Setting.near at hj; exact (Finset.mem_filter.mp hj).2.2.1
  have hacc : t.accumulate S.cfg i (0 : Vec ℝ D) (t.dsFunc S.cfg i ((S.env.l0 - S.env.maxDx) * (S.env.l0 - S.env.maxDx)))
      = ∑ j ∈ S.near c.x i, t.dsFunc S.cfg i ((S.env.l0 - S.env.maxDx) * (S.env.l0 - S.env.maxDx)) (j : Int) (t.ps j) := by
    rw [accumulate_real S.cfg i _ (by rw [h.env]; exact hre) h.ok (by rw [h.n]; exact hi) (by rw [h.ty i hi]; exact hd),
      near_eq h ha.x hi hd]
    have h0 : t.sppTerm S.cfg i (t.dsFunc S.cfg i ((S.env.l0 - S.env.maxDx) * (S.env.l0 - S.env.maxDx))) = 0 := by
      unfold State.sppTerm
      split
      · rename_i hs
        split
        · unfold State.dsFunc
          rw [if_neg]
          rintro ⟨-, k | k⟩
          · rw [hs] at k; cases k
          · exact absurd k (by decide)
        · rfl
      · rfl
    rw [h0, add_zero]
  rw [h.env, hacc]
  congr 1
  have hsum : ∑ j ∈ S.near c.x i, t.dsFunc S.cfg i ((S.env.l0 - S.env.maxDx) * (S.env.l0 - S.env.maxDx)) (j : Int) (t.ps j)
      = ∑ j ∈ S.nearSolid c.x i,
        (if len (c.x j - c.x i) ^ 2 < (S.env.l0 - S.env.maxDx) ^ 2 then
          (√((S.env.l0 - S.env.maxDx) ^ 2 - len (c.x j - c.x i - prod (c.x j - c.x i) ((1 / len (old j - old i)) • (old j - old i)) •
              ((1 / len (old j - old i)) • (old j - old i))) ^ 2) - prod (c.x j - c.x i) ((1 / len (old j - old i)) • (old j - old i))) •
            ((1 / len (old j - old i)) • (old j - old i))
         else 0) := by
    unfold Setting.nearSolid
    rw [Finset.sum_filter]
    apply Finset.sum_congr rfl
    intro j hj
    have hjn := near_lt hj
    unfold State.dsFunc
    by_cases hq : S.ty j ≠ .dummy
    · rw [if_pos hq, if_pos ⟨by rw [h.ty j hjn]; exact hq, Or.inr (Int.natCast_nonneg j)⟩]
      simp only
      rw [Int.toNat_natCast, hold j hjn ⟨hq, hnear j hj⟩, hold i hi ⟨by rw [hf]; decide, hd⟩, ha.x j hjn, ha.x i hi]
      have e1 : vdiv (F := ℝ) (old j - old i) (norm2 (F := ℝ) (old j - old i)) = (1 / len (old j - old i)) • (old j - old i) := by
        rw [len_eq]
        funext a
        change (old j - old i) a / norm2 (F := ℝ) (old j - old i) = 1 / norm2 (F := ℝ) (old j - old i) * (old j - old i) a
        ring
      rw [e1, ← len_sq, lt_real]
      have e2 : (S.env.l0 - S.env.maxDx) * (S.env.l0 - S.env.maxDx) = (S.env.l0 - S.env.maxDx) ^ 2 := (sq _).symm
      rw [e2]
      by_cases hlt : len (c.x j - c.x i) ^ 2 < (S.env.l0 - S.env.maxDx) ^ 2
      · rw [if_pos hlt, if_pos (by rw [decide_eq_true_eq]; exact hlt), ← len_sq, ← prod_eq]
        rfl
      · rw [if_neg hlt, if_neg (by rw [decide_eq_true_eq]; exact hlt)]
    · rw [if_neg hq, if_neg]
      rw [h.ty j hjn]
      exact fun hc => hq hc.1
  rw [hsum]
  have e2 : (Scalar.ofInt 2 : ℝ) = 2 := by rw [ofInt_real]; norm_num
  rw [e2]
  funext a
  change (-(1 : ℝ) / (2 * S.env.dt * S.env.n0)) * _ = -(1 / (2 * S.env.dt * S.env.n0)) * _
  rw [neg_div]

end

end OpenMps.Ref
