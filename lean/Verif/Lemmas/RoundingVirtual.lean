import Verif.Lemmas.RoundingTerms
import Verif.Lemmas.RoundingPpe
import Verif.Lemmas.RoundingRun
import Verif.Props.RoundingForces
import Verif.Spec.RoundingVirtual

/-! # The virtual neighbour in rounded arithmetic: its distance is finite and of the size of the radius of influence -/

set_option linter.unusedSectionVars false
set_option exponentiation.threshold 2000

namespace OpenMps

variable {F : Type} [Scalar F] {D : Nat} {ω : Type}

theorem trueLength_sq (R : Rounding F) (u : Vec F D) : R.trueLength u ^ 2 = ∑ a, R.val (u a) ^ 2 :=
  Real.sq_sqrt (Finset.sum_nonneg (fun _ _ => sq_nonneg _))

/-- The computed length of a vector whose length is neither tiny nor huge. -/
theorem Rounding.length_accurate {R : Rounding F} (hR : R.DoubleLike) (hW : R.Wide) (hD : D ≤ 3) {u : Vec F D} (hu : ∀ a, R.finite (u a))
    (lo : 1 / 2 ^ 110 ≤ R.trueLength u) (hi : R.trueLength u ≤ 2 ^ 400) :
    R.finite (Scalar.sqrt (dot u u)) ∧ |R.val (Scalar.sqrt (dot u u)) - R.trueLength u| ≤ 12 * e50 * R.trueLength u := by
  have hΩ : (2 : ℝ) ^ 910 ≤ R.Ω := hW.Ω_ge
  have hL2 : R.trueLength u ^ 2 ≤ 2 ^ 800 := (pow_le_pow_left₀ (Real.sqrt_nonneg _) hi 2).trans (le_of_eq (by rw [← pow_mul]))
  have h8 : (2 : ℝ) ^ 800 ≤ 2 ^ 910 / 4 := by norm_num
  obtain ⟨f, p, g⟩ := R.dot_self hR hD ((one_le_pow₀ (by norm_num)).trans hΩ) u hu (by linarith)
  have l0 : 0 < R.trueLength u := lt_of_lt_of_le (by positivity) lo
  have hlo2 : (1 / 2 ^ 110 : ℝ) ^ 2 ≤ R.trueLength u ^ 2 := pow_le_pow_left₀ (by positivity) lo 2
  have hη := hW.η_le
  have h9 : 9 * ((1 : ℝ) / 2 ^ 960) ≤ e50 * (1 / 2 ^ 110) ^ 2 := by unfold e50; norm_num
  have e0 := e50_pos
  have h10 := mul_le_mul_of_nonneg_left hlo2 e0.le
  have := Rounding.sqrt_mag hR (c := 10) (by norm_num) l0 f (by push_cast; linarith)
  norm_num at this ⊢
  exact this

/-- If the computed length exceeds `2^-60`, the vector is not tiny. -/
theorem Rounding.length_lower {R : Rounding F} (hR : R.DoubleLike) (hW : R.Wide) (hD : D ≤ 3) {u : Vec F D} (hu : ∀ a, R.finite (u a))
    (h : 1 / 2 ^ 60 < R.val (Scalar.sqrt (dot u u))) : 1 / 2 ^ 110 ≤ R.trueLength u := by
  by_contra hc
  rw [not_le] at hc
  have hΩ : (2 : ℝ) ^ 910 ≤ R.Ω := hW.Ω_ge
  have h2 : R.trueLength u ^ 2 ≤ (1 / 2 ^ 110) ^ 2 := pow_le_pow_left₀ (Real.sqrt_nonneg _) hc.le 2
  have h8 : (1 / 2 ^ 110 : ℝ) ^ 2 ≤ 2 ^ 910 / 4 := by norm_num
  obtain ⟨f, p, g⟩ := R.dot_self hR hD ((one_le_pow₀ (by norm_num)).trans hΩ) u hu (by linarith)
  have hη := hW.η_le
  have e1 := e50_small
  have e0 := e50_pos
  have e2 : 9 * e50 * R.trueLength u ^ 2 ≤ 1 * (1 / 2 ^ 110) ^ 2 :=
    mul_le_mul (by norm_num at e1 ⊢; linarith) h2 (sq_nonneg _) (by norm_num)
  have h3 : R.val (dot u u) ≤ (1 / 2 ^ 90) ^ 2 := by
    have := (abs_le.mp g).2
    norm_num at *
    linarith
  obtain ⟨-, δ, hδ, e⟩ := R.sqrt f p
  have hs : Real.sqrt (R.val (dot u u)) ≤ 1 / 2 ^ 90 := by
    rw [Real.sqrt_le_left (by positivity)]; exact h3
  have hδ := (abs_le.mp (hδ.trans hR.ε_le)).2
  have h4 : Real.sqrt (R.val (dot u u)) * (1 + δ) ≤ 1 / 2 ^ 90 * 2 := by
    refine mul_le_mul hs ?_ ?_ (by positivity)
    · norm_num at hδ ⊢; linarith
    · have := (abs_le.mp (‹|δ| ≤ R.ε›.trans hR.ε_le)).1
      norm_num at this; linarith
  rw [e] at h
  norm_num at h h4
  linarith

/-- What the loop over the neighbours adds to the centre of gravity. -/
def State.pull (t : State F D ω) (i : ℕ) (_j : Int) (q : Particle F D) : Vec F D :=
  smul (W (Scalar.sqrt (dot (q.x - (t.ps i).x) (q.x - (t.ps i).x))) t.env.re) (q.x - (t.ps i).x)

theorem State.accLoop_snd (t : State F D ω) (i : ℕ) {A : Type} [Add A] (z : A) (f : Int → Particle F D → A) :
    (t.accLoop i z f).2 = (t.accLoop i (0 : Vec F D) (t.pull i)).1 := by
  unfold State.accLoop
  simp only
  have key : ∀ (l : List ℕ) (a : A) (v w : Vec F D),
      (l.foldl (fun (acc : A × Vec F D) j => if j ≠ i then
        if Scalar.lt (dot ((t.ps j).x - (t.ps i).x) ((t.ps j).x - (t.ps i).x)) (t.env.re * t.env.re) = true then
          (acc.1 + f (j : Int) (t.ps j), acc.2 + smul (W (Scalar.sqrt (dot ((t.ps j).x - (t.ps i).x) ((t.ps j).x - (t.ps i).x))) t.env.re)
            ((t.ps j).x - (t.ps i).x)) else acc else acc) (a, v)).2 =
      (l.foldl (fun (acc : Vec F D × Vec F D) j => if j ≠ i then
        if Scalar.lt (dot ((t.ps j).x - (t.ps i).x) ((t.ps j).x - (t.ps i).x)) (t.env.re * t.env.re) = true then
          (acc.1 + t.pull i (j : Int) (t.ps j), acc.2 + smul (W (Scalar.sqrt (dot ((t.ps j).x - (t.ps i).x) ((t.ps j).x - (t.ps i).x))) t.env.re)
            ((t.ps j).x - (t.ps i).x)) else acc else acc) (v, w)).1 := by
    intro l
    induction l with
    | nil => intro a v w; rfl
    | cons j l ih =>
      intro a v w
      rw [List.foldl_cons, List.foldl_cons]
      split
      · split
        · exact ih _ _ _
        · exact ih _ _ _
      · exact ih _ _ _
  exact key _ _ _ _

/-- The weighted sum of the displacements. -/
theorem Rounding.Row.pull_mag {R : Rounding F} (hR : R.DoubleLike) (hW : R.Wide) (hD : D ≤ 3) {ℓ : F} {t : State F D ω}
    (hl : R.Lengths ℓ t.env.re) (hP : R.Plain t.env) {i : ℕ}
    (h : R.Row ℓ t i) (a : Fin D) (hxi : R.Upto 60 ((t.ps i).x a)) :
    R.Mag ((t.accLoop i (0 : Vec F D) (t.pull i)).1 a)
      (∑ j ∈ t.taken i, Ref.weight (R.val t.env.re) (R.trueDist (t.ps i).x (t.ps j).x) * (R.val ((t.ps j).x a) - R.val ((t.ps i).x a)))
      (1 / 2 ^ 342 + ∑ j ∈ t.taken i, (Ref.weight (R.val t.env.re) (R.trueDist (t.ps i).x (t.ps j).x) + 2) *
        sz (R.val ((t.ps j).x a) - R.val ((t.ps i).x a))) (150 + 2 * (t.neighbors i).length) 342 := by
  have hlen := h.length
  have hℓ2 : R.val ℓ ≤ 2 ^ 30 := hl.le.trans hP.re.2.2
  classical
  set T : ℕ → ℝ := fun j => Ref.weight (R.val t.env.re) (R.trueDist (t.ps i).x (t.ps j).x) * (R.val ((t.ps j).x a) - R.val ((t.ps i).x a)) with hT
  set M : ℕ → ℝ := fun j => (Ref.weight (R.val t.env.re) (R.trueDist (t.ps i).x (t.ps j).x) + 2) *
    sz (R.val ((t.ps j).x a) - R.val ((t.ps i).x a)) with hM
  have term : ∀ j ∈ t.neighbors i, R.Mag (t.pull i (j : Int) (t.ps j) a) (T j) (M j) 150 321 := by
    intro j hj
    obtain ⟨-, -, ⟨d3, d4⟩⟩ := h.dist_mag hR hD hl hj
    obtain ⟨f1, -, p2, p3⟩ := h.pair j hj
    have hxj : |R.val ((t.ps j).x a)| ≤ 2 ^ 61 := by
      have h1 := abs_le.mp (p2 a)
      have h2 := abs_le.mp hxi.2
      rw [abs_le]
      norm_num at *
      constructor <;> linarith
    have hΔ : R.Mag ((t.ps j).x a - (t.ps i).x a) (R.val ((t.ps j).x a) - R.val ((t.ps i).x a))
        (sz (R.val ((t.ps j).x a) - R.val ((t.ps i).x a))) 1 300 :=
      Rounding.Mag.sub_exact hR hW (f1 a) hxi.1 hxj (hxi.2.trans (by norm_num)) (le_refl _)
        (by rw [div_le_one (by positivity)]; exact one_le_pow₀ (by norm_num)) (by norm_num) (by norm_num)
    have mw := Rounding.weight_mag hR hl p3 d3 d4
    have m := mw.mul hR hW hΔ (by norm_num) (by norm_num) (by norm_num) (by norm_num)
    simp only [hT, hM]
    exact m.mono (le_refl _) (by norm_num) (by norm_num) m.hi
  exact h.acc hR hW (t.pull i) a T M (K := 150) (c := 321) (B := 342) (by norm_num) (by norm_num) (by norm_num)
    (fun j hj => ⟨(term j hj).pos.le, (term j hj).hi⟩) (fun j hj _ => term j hj)

/-- The centre of gravity is finite. -/
theorem Rounding.Row.pull {R : Rounding F} (hR : R.DoubleLike) (hW : R.Wide) (hD : D ≤ 3) {ℓ : F} {t : State F D ω}
    (hl : R.Lengths ℓ t.env.re) (hP : R.Plain t.env) {i : ℕ}
    (h : R.Row ℓ t i) (a : Fin D) (hxi : R.Upto 60 ((t.ps i).x a)) :
    R.Upto 361 ((t.accLoop i (0 : Vec F D) (t.pull i)).1 a) := by
  have hlen := h.length
  have key := h.pull_mag hR hW hD hl hP a hxi
  refine ⟨key.fin, key.val_le.trans ?_⟩
  have hk := small_k (k := 150 + 2 * (t.neighbors i).length) (by norm_num at hlen ⊢; omega)
  have h1 := mul_le_mul_of_nonneg_right hk key.pos.le
  have h2 := key.hi
  have h3 : (2 : ℝ) ^ 361 = 2 ^ 19 * 2 ^ 342 := by rw [← pow_add]
  have h4 := key.pos
  rw [h3]
  have h5 : (1 : ℝ) / 2 ^ 28 * (1 / 2 ^ 342 + ∑ j ∈ t.taken i, (Ref.weight (R.val t.env.re) (R.trueDist (t.ps i).x (t.ps j).x) + 2) *
      sz (R.val ((t.ps j).x a) - R.val ((t.ps i).x a))) ≤ 1 * (1 / 2 ^ 342 + ∑ j ∈ t.taken i, (Ref.weight (R.val t.env.re) (R.trueDist (t.ps i).x (t.ps j).x) + 2) *
      sz (R.val ((t.ps j).x a) - R.val ((t.ps i).x a))) :=
    mul_le_mul_of_nonneg_right (by norm_num) h4.le
  have h6 : (2 : ℝ) * 2 ^ 342 ≤ 2 ^ 19 * 2 ^ 342 := mul_le_mul_of_nonneg_right (by norm_num) (by positivity)
  linarith

/-- The distance at which the virtual neighbour is to lie. -/
theorem Rounding.virtual_distance {R : Rounding F} (hR : R.DoubleLike) (hW : R.Wide) {re n0 n : F} (hre : R.Sized 30 re) (hn0 : R.finite n0)
    (h10 : R.val n0 ≤ 2 ^ 10) (hn : R.finite n) (h0 : -1 ≤ R.val n) (hlt : R.val n < R.val n0) :
    R.finite (re / (n0 - n + 1)) ∧ 1 / 2 ^ 13 * R.val re ≤ R.val (re / (n0 - n + 1)) ∧ R.val (re / (n0 - n + 1)) ≤ 3 * R.val re ∧
      |R.val (re / (n0 - n + 1)) - R.val re / (R.val n0 - R.val n + 1)| ≤ 1 / 2 ^ 28 * R.val re := by
  have hΩ : (2 : ℝ) ^ 910 ≤ R.Ω := hW.Ω_ge
  have hΩ' : (2 : ℝ) ^ 40 ≤ R.Ω := (pow_le_pow_right₀ (by norm_num) (by norm_num)).trans hΩ
  have hη : R.η ≤ 1 / 2 ^ 60 := hW.η_le.trans (two_pow_inv_le (by norm_num))
  have re0 := hre.pos
  have re1 := hre.2.1
  have re2 := hre.2.2
  have hw : R.finite (n0 - n) ∧ 0 ≤ R.val (n0 - n) ∧ R.val (n0 - n) ≤ 2 ^ 11 + 2 ∧
      |R.val (n0 - n) - (R.val n0 - R.val n)| ≤ 1 / 2 ^ 32 * (R.val n0 - R.val n) := by
    have hd : |R.val n0 - R.val n| ≤ 2 ^ 10 + 1 := by rw [abs_of_pos (by linarith)]; linarith
    obtain ⟨f, δ, hδ, e⟩ := R.sub hn0 hn (hd.trans (le_trans (by norm_num) hΩ'))
    obtain ⟨δ1, δ2⟩ := abs_le.mp (hδ.trans hR.ε_le)
    norm_num at δ1 δ2
    rw [abs_of_pos (by linarith)] at hd
    refine ⟨f, ?_, ?_, ?_⟩
    · rw [e]; exact _root_.mul_nonneg (by linarith) (by linarith)
    · rw [e]
      refine (mul_le_mul hd (show 1 + δ ≤ 2 by linarith) (by linarith) (by positivity)).trans (by norm_num)
    · rw [e, show (R.val n0 - R.val n) * (1 + δ) - (R.val n0 - R.val n) = δ * (R.val n0 - R.val n) by ring, abs_mul,
        abs_of_pos (show 0 < R.val n0 - R.val n by linarith)]
      refine mul_le_mul_of_nonneg_right ?_ (by linarith)
      rw [abs_le]
      norm_num
      constructor <;> linarith
  have hw1 : R.finite (n0 - n + 1) ∧ 1 / 2 ≤ R.val (n0 - n + 1) ∧ R.val (n0 - n + 1) ≤ 2 ^ 12 ∧
      |R.val (n0 - n + 1) - (R.val n0 - R.val n + 1)| ≤ 1 / 2 ^ 31 * (R.val n0 - R.val n + 1) := by
    obtain ⟨f1, v1⟩ := R.one
    have hd : |R.val (n0 - n) + R.val 1| ≤ 2 ^ 11 + 3 := by rw [v1, abs_of_nonneg (by linarith)]; linarith
    obtain ⟨f, g⟩ := R.add hw.1 f1 (hd.trans (le_trans (by norm_num) hΩ'))
    have g := g.bounds hR.ε_le
    rw [v1] at g hd
    have h1 := mul_le_mul_of_nonneg_left hd e50_pos.le
    have h2 : e50 * (2 ^ 11 + 3) ≤ 1 / 2 ^ 32 := by unfold e50; norm_num
    have g := abs_le.mp (g.trans (h1.trans h2))
    have hw4 := abs_le.mp hw.2.2.2
    refine ⟨f, by norm_num at g ⊢; linarith, ?_, by rw [abs_le]; norm_num at g hw4 ⊢; constructor <;> linarith⟩
    have g := And.intro g.1 (g.2.trans (inv_le_one 32))
    have h3 : (2 : ℝ) ^ 12 = 2 ^ 11 + 2 ^ 11 := by norm_num
    have h4 : (4 : ℝ) ≤ 2 ^ 11 := by norm_num
    linarith
  set w := R.val (n0 - n + 1) with hw'
  have w0 : 0 < w := by linarith
  have q1 : R.val re / w ≤ 2 * R.val re := by rw [div_le_iff₀ w0]; nlinarith
  have q2 : 1 / 2 ^ 12 * R.val re ≤ R.val re / w := by
    rw [le_div_iff₀ w0]
    have := mul_le_mul_of_nonneg_left hw1.2.2.1 (show 0 ≤ 1 / 2 ^ 12 * R.val re by positivity)
    refine this.trans (le_of_eq ?_)
    field_simp
  have q0 : 0 ≤ R.val re / w := by positivity
  obtain ⟨f, g⟩ := R.div hre.1 hw1.1 w0.ne' (by rw [abs_of_nonneg q0]; refine q1.trans (le_trans ?_ hΩ'); norm_num at re2 ⊢; linarith)
  have g := g.bounds hR.ε_le
  rw [abs_of_nonneg q0] at g
  have h1 := mul_le_mul_of_nonneg_left q1 e50_pos.le
  have h2 : e50 * (2 * R.val re) + R.η ≤ 1 / 2 ^ 29 * R.val re := by
    have h3 : (1 : ℝ) / 2 ^ 60 = 1 / 2 ^ 30 * (1 / 2 ^ 30) := by norm_num
    have h4 := mul_le_mul_of_nonneg_left re1 (show (0 : ℝ) ≤ 1 / 2 ^ 30 by positivity)
    unfold e50
    norm_num at *
    linarith
  have g := abs_le.mp (show |R.val (re / (n0 - n + 1)) - R.val re / R.val (n0 - n + 1)| ≤ 1 / 2 ^ 29 * R.val re by linarith)
  refine ⟨f, ?_, ?_, ?_⟩
  · norm_num at q2 g ⊢; linarith
  · norm_num at q1 g ⊢; linarith
  · have x0 : 0 < R.val n0 - R.val n + 1 := by linarith
    have k1 : |R.val re / w - R.val re / (R.val n0 - R.val n + 1)| ≤ 1 / 2 ^ 30 * R.val re := by
      rw [div_sub_div _ _ w0.ne' x0.ne', show R.val re * (R.val n0 - R.val n + 1) - w * R.val re = R.val re * ((R.val n0 - R.val n + 1) - w) by ring, abs_div, abs_mul, abs_of_pos re0, abs_of_pos (mul_pos w0 x0), abs_sub_comm, div_le_iff₀ (mul_pos w0 x0)]
      have k2 := mul_le_mul_of_nonneg_left hw1.2.2.2 re0.le
      refine k2.trans ?_
      have k3 : 0 ≤ R.val re * (R.val n0 - R.val n + 1) := by positivity
      have k4 := mul_le_mul_of_nonneg_left hw1.2.1 k3
      norm_num at k4 ⊢
      nlinarith
    have k5 := abs_le.mp k1
    rw [abs_le]
    norm_num at g k5 ⊢
    constructor <;> linarith

/-- The displacement of the virtual neighbour. -/
theorem Rounding.displacement {R : Rounding F} (hR : R.DoubleLike) (hW : R.Wide) {re ρ rg d : F} {L : ℝ} (hre : R.Sized 30 re) (hρ : R.finite ρ)
    (ρ0 : 0 < R.val ρ) (ρhi : R.val ρ ≤ 3 * R.val re) (hrg : R.finite rg) (hrgε : 1 / 2 ^ 60 ≤ R.val rg) (L0 : 0 < L) (hL : L ≤ 2 ^ 400)
    (hrgL : |R.val rg - L| ≤ 12 * e50 * L) (hd : R.finite d) (hc : |R.val d| ≤ L) :
    R.finite (ρ / rg * d) ∧ |R.val (ρ / rg * d) - R.val ρ * R.val d / L| ≤ 1 / 2 ^ 35 * R.val re := by
  have hΩ : (2 : ℝ) ^ 910 ≤ R.Ω := hW.Ω_ge
  have hΩ' : (2 : ℝ) ^ 100 ≤ R.Ω := (pow_le_pow_right₀ (by norm_num) (by norm_num)).trans hΩ
  have hη : R.η ≤ 1 / 2 ^ 100 := hW.η_le.trans (two_pow_inv_le (by norm_num))
  have re0 := hre.pos
  have re1 := hre.2.1
  have re2 := hre.2.2
  have e0 := e50_pos
  have hrg0 := abs_le.mp hrgL
  have h12 : 12 * e50 ≤ 1 / 2 ^ 40 := by unfold e50; norm_num
  have h12L := mul_le_mul_of_nonneg_right h12 L0.le
  have rgp : 0 < R.val rg := lt_of_lt_of_le (by positivity) hrgε
  have rgL : L / 2 ≤ R.val rg := by norm_num at h12L; linarith
  set k := ρ / rg with hk
  have kq : R.val ρ / R.val rg ≤ 2 ^ 100 := by
    rw [div_le_iff₀ rgp]
    have h1 : (2 : ℝ) ^ 100 * (1 / 2 ^ 60) ≤ 2 ^ 100 * R.val rg := mul_le_mul_of_nonneg_left hrgε (by positivity)
    have h2 : (2 : ℝ) ^ 100 * (1 / 2 ^ 60) = 2 ^ 40 := by norm_num
    have h3 : (3 : ℝ) * 2 ^ 30 ≤ 2 ^ 40 := by norm_num
    linarith
  have kq0 : 0 < R.val ρ / R.val rg := div_pos ρ0 rgp
  obtain ⟨kf, kg⟩ := R.div hρ hrg rgp.ne' (by rw [abs_of_pos kq0]; exact kq.trans hΩ')
  have kg := kg.bounds hR.ε_le
  rw [abs_of_pos kq0] at kg
  have p0 := div_pos ρ0 L0
  set p := R.val ρ / L with hp
  have hk1 : |R.val k - p| ≤ 1 / 2 ^ 38 * p + R.η := by
    have e : R.val ρ / R.val rg - p = p * ((L - R.val rg) / R.val rg) := by rw [hp]; field_simp
    have h1 : |(L - R.val rg) / R.val rg| ≤ 1 / 2 ^ 39 := by
      rw [abs_div, abs_of_pos rgp, div_le_iff₀ rgp, abs_sub_comm]
      refine hrgL.trans (h12L.trans ?_)
      have := mul_le_mul_of_nonneg_left rgL (show (0 : ℝ) ≤ 1 / 2 ^ 39 by positivity)
      refine le_trans (le_of_eq ?_) this
      norm_num
      ring
    have h2 : |R.val ρ / R.val rg - p| ≤ p * (1 / 2 ^ 39) := by
      rw [e, abs_mul, abs_of_pos p0]
      exact mul_le_mul_of_nonneg_left h1 p0.le
    have h3 := abs_le.mp h2
    have h5 := abs_add_le (R.val k - R.val ρ / R.val rg) (R.val ρ / R.val rg - p)
    rw [sub_add_sub_cancel] at h5
    have h6 : e50 * (R.val ρ / R.val rg) ≤ 1 / 2 ^ 50 * (2 * p) := by
      unfold e50
      apply mul_le_mul_of_nonneg_left _ (by positivity)
      norm_num at h3
      linarith
    norm_num at h2 h6 ⊢
    linarith
  have hkb : |R.val k| ≤ 2 * p + R.η := by
    have h5 := abs_add_le (R.val k - p) p
    rw [sub_add_cancel, abs_of_pos p0] at h5
    norm_num at hk1
    linarith
  have hηL : R.η * L ≤ 1 / 2 ^ 500 := by
    refine (mul_le_mul hW.η_le hL L0.le (by positivity)).trans ?_
    norm_num
  have hηL : R.η * L ≤ 1 / 2 ^ 100 := hηL.trans (two_pow_inv_le (by norm_num))
  have hρL : p * L = R.val ρ := by rw [hp]; field_simp
  have τ : (1 : ℝ) / 2 ^ 100 ≤ 1 / 2 ^ 70 * R.val re := by
    have := mul_le_mul_of_nonneg_left re1 (show (0 : ℝ) ≤ 1 / 2 ^ 70 by positivity)
    refine le_trans (le_of_eq ?_) this
    norm_num
  have h7 : |R.val k * R.val d| ≤ 7 * R.val re := by
    rw [abs_mul]
    refine (mul_le_mul hkb hc (abs_nonneg _) (by have := R.η_nonneg; linarith)).trans ?_
    rw [add_mul, mul_assoc, hρL]
    norm_num at τ hηL ⊢
    linarith
  obtain ⟨f, g⟩ := R.mul kf hd (h7.trans (le_trans (by
    have : (7 : ℝ) * 2 ^ 30 ≤ 2 ^ 100 := by norm_num
    linarith) hΩ'))
  have g := g.bounds hR.ε_le
  have g2 := mul_le_mul_of_nonneg_left h7 e0.le
  refine ⟨f, ?_⟩
  have e : R.val ρ * R.val d / L = p * R.val d := by rw [hp]; ring
  rw [e]
  have h8 := abs_add_le (R.val (k * d) - R.val k * R.val d) (R.val k * R.val d - p * R.val d)
  rw [sub_add_sub_cancel, ← sub_mul, abs_mul] at h8
  have h9 : |R.val k - p| * |R.val d| ≤ 1 / 2 ^ 38 * R.val ρ + R.η * L := by
    refine (mul_le_mul hk1 hc (abs_nonneg _) (by have := R.η_nonneg; positivity)).trans ?_
    rw [add_mul, mul_assoc, hρL]
  have t4 : e50 * (7 * R.val re) = 7 / 2 ^ 50 * R.val re := by unfold e50; ring
  rw [t4] at g2
  norm_num at τ hηL hη h9 ⊢
  norm_num [abs_mul] at g2 g h8
  linarith

/-- What the difference of the positions comes out as. -/
theorem Rounding.difference {R : Rounding F} (hR : R.DoubleLike) (hW : R.Wide) {re x v : F} {p : ℝ} (hre : R.Sized 30 re) (hx : R.finite x)
    (hxb : |R.val x| ≤ 2 ^ 20 * R.val re) (vf : R.finite v) (hp : |p| ≤ 3 * R.val re) (vb : |R.val v - p| ≤ 1 / 2 ^ 35 * R.val re) :
    R.finite (x - v) ∧ R.finite (x - (x - v)) ∧ |R.val (x - (x - v)) - p| ≤ 1 / 2 ^ 27 * R.val re := by
  have hΩ : (2 : ℝ) ^ 910 ≤ R.Ω := hW.Ω_ge
  have hΩ' : (2 : ℝ) ^ 60 ≤ R.Ω := (pow_le_pow_right₀ (by norm_num) (by norm_num)).trans hΩ
  have re0 := hre.pos
  have re2 := hre.2.2
  have e0 := e50_pos
  have v1 : |R.val v| ≤ 4 * R.val re := by
    have h5 := abs_add_le (R.val v - p) p
    rw [sub_add_cancel] at h5
    norm_num at vb
    linarith
  have d1 : |R.val x - R.val v| ≤ 2 ^ 21 * R.val re := by
    refine (abs_sub _ _).trans ?_
    norm_num at hxb ⊢
    linarith
  obtain ⟨f1, g1⟩ := R.sub hx vf (d1.trans (le_trans (by norm_num at re2 ⊢; linarith) hΩ'))
  have g1 := g1.bounds hR.ε_le
  have g1' := g1.trans (mul_le_mul_of_nonneg_left d1 e0.le)
  have t1 : e50 * (2 ^ 21 * R.val re) = 2 ^ 21 / 2 ^ 50 * R.val re := by unfold e50; ring
  rw [t1] at g1'
  have d2 : |R.val x - R.val (x - v)| ≤ 5 * R.val re := by
    have b1 := abs_le.mp g1'
    have b2 := abs_le.mp v1
    rw [abs_le]
    norm_num at b1
    constructor <;> linarith
  obtain ⟨f2, g2⟩ := R.sub hx f1 (d2.trans (le_trans (by norm_num at re2 ⊢; linarith) hΩ'))
  have g2 := g2.bounds hR.ε_le
  have g2' := g2.trans (mul_le_mul_of_nonneg_left d2 e0.le)
  have t2 : e50 * (5 * R.val re) = 5 / 2 ^ 50 * R.val re := by unfold e50; ring
  rw [t2] at g2'
  refine ⟨f1, f2, ?_⟩
  have b1 := abs_le.mp g1'
  have b2 := abs_le.mp g2'
  have b3 := abs_le.mp vb
  rw [abs_le]
  norm_num at b1 b2 b3 ⊢
  constructor <;> linarith

/-- The length of a vector close to another one. -/
theorem Rounding.length_close {R : Rounding F} (hD : D ≤ 3) {w : Vec F D} {p : Fin D → ℝ} {P r : ℝ} (hr : 0 < r) (hS : ∑ a, p a ^ 2 = P ^ 2)
    (lo : 1 / 2 ^ 13 * r ≤ P) (hi : P ≤ 3 * r) (h : ∀ a, |R.val (w a) - p a| ≤ 1 / 2 ^ 27 * r) :
    1 / 2 ^ 14 * r * (1 + 1 / 2 ^ 10) ≤ R.trueLength w ∧ R.trueLength w ≤ 7 / 2 * r ∧ |R.trueLength w - P| ≤ 1 / 2 ^ 26 * r := by
  have hDr : (D : ℝ) ≤ 3 := by exact_mod_cast hD
  have hP : 0 < P := lt_of_lt_of_le (by positivity) lo
  have hL : 0 ≤ R.trueLength w := Real.sqrt_nonneg _
  have h3 : (D : ℝ) * (1 / 2 ^ 27 * r) ^ 2 ≤ 3 * (1 / 2 ^ 27 * r) ^ 2 := mul_le_mul_of_nonneg_right hDr (sq_nonneg _)
  have r2 : 0 ≤ r ^ 2 := sq_nonneg _
  have hd : ∀ a, (R.val (w a) - p a) ^ 2 ≤ (1 / 2 ^ 27 * r) ^ 2 := fun a => sq_le_sq' (abs_le.mp (h a)).1 (abs_le.mp (h a)).2
  refine ⟨?_, ?_, ?_⟩
  · refine abs_le_of_sq_le_sq' ?_ hL |>.2
    rw [trueLength_sq]
    have h1 : ∀ a ∈ (Finset.univ : Finset (Fin D)), p a ^ 2 / 2 - (1 / 2 ^ 27 * r) ^ 2 ≤ R.val (w a) ^ 2 := by
      intro a _
      have := hd a
      nlinarith [sq_nonneg (2 * R.val (w a) - p a)]
    have h2 := Finset.sum_le_sum h1
    rw [Finset.sum_sub_distrib, ← Finset.sum_div, hS, Finset.sum_const, Finset.card_univ, Fintype.card_fin, nsmul_eq_mul] at h2
    have h4 := pow_le_pow_left₀ (show (0 : ℝ) ≤ 1 / 2 ^ 13 * r by positivity) lo 2
    ring_nf at h4 h2 h3 ⊢
    linarith
  · refine abs_le_of_sq_le_sq' ?_ (by positivity) |>.2
    rw [trueLength_sq]
    have h1 : ∀ a ∈ (Finset.univ : Finset (Fin D)), R.val (w a) ^ 2 ≤ 5 / 4 * p a ^ 2 + 5 * (1 / 2 ^ 27 * r) ^ 2 := by
      intro a _
      have := hd a
      nlinarith [sq_nonneg (4 * R.val (w a) - 5 * p a)]
    have h2 := Finset.sum_le_sum h1
    rw [Finset.sum_add_distrib, ← Finset.mul_sum, hS, Finset.sum_const, Finset.card_univ, Fintype.card_fin, nsmul_eq_mul] at h2
    have h4 := pow_le_pow_left₀ hP.le hi 2
    ring_nf at h4 h2 h3 ⊢
    linarith
  · let u : EuclideanSpace ℝ (Fin D) := WithLp.toLp 2 (fun a => R.val (w a))
    let v : EuclideanSpace ℝ (Fin D) := WithLp.toLp 2 p
    have e1 : R.trueLength w = ‖u‖ := by
      rw [EuclideanSpace.norm_eq]
      unfold Rounding.trueLength
      congr 1
      exact Finset.sum_congr rfl (fun a _ => by rw [Real.norm_eq_abs, sq_abs])
    have e2 : P = ‖v‖ := by
      rw [EuclideanSpace.norm_eq, ← Real.sqrt_sq hP.le, ← hS]
      congr 1
      exact Finset.sum_congr rfl (fun a _ => by rw [Real.norm_eq_abs, sq_abs])
    have e3 : ‖u - v‖ ^ 2 ≤ (1 / 2 ^ 26 * r) ^ 2 := by
      rw [EuclideanSpace.norm_sq_eq]
      have h2 := Finset.sum_le_sum (fun a (_ : a ∈ (Finset.univ : Finset (Fin D))) => hd a)
      rw [Finset.sum_const, Finset.card_univ, Fintype.card_fin, nsmul_eq_mul] at h2
      have e4 : ∑ a, ‖(u - v) a‖ ^ 2 = ∑ a, (R.val (w a) - p a) ^ 2 := Finset.sum_congr rfl (fun a _ => by rw [Real.norm_eq_abs, sq_abs]; rfl)
      rw [e4]
      ring_nf at h2 h3 ⊢
      linarith
    rw [e1, e2]
    exact (abs_norm_sub_norm_le u v).trans (abs_le_of_sq_le_sq' e3 (by positivity)).2

/-- The virtual neighbour, if there is one: same velocity, finite position, its distance neither absurdly small nor absurdly large. -/
theorem Rounding.Row.virtual {R : Rounding F} (hR : R.DoubleLike) (hW : R.Wide) (hD : D ≤ 3) {ℓ : F} {t : State F D ω}
    (hl : R.Lengths ℓ t.env.re) (hP : R.Plain t.env) {i : ℕ}
    (h : R.Row ℓ t i) (hv : R.Surroundings t i) {q : Particle F D}
    (hq : t.sppParticle i (t.accLoop i (0 : Vec F D) (t.pull i)).1 = some q) :
    q.u = (t.ps i).u ∧ q.ty = .incompressibleNewton ∧ q.p = 0 ∧ (∀ a, R.finite (q.x a)) ∧ R.finite (dist (t.ps i).x q.x) ∧
      1 / 2 ^ 14 * R.val t.env.re ≤ R.val (dist (t.ps i).x q.x) ∧ R.val (dist (t.ps i).x q.x) ≤ 4 * R.val t.env.re ∧
      R.val (t.nNoSpp i) < R.val t.env.n0 ∧
      |R.val (dist (t.ps i).x q.x) - R.val t.env.re / (R.val t.env.n0 - R.val (t.nNoSpp i) + 1)| ≤ R.val t.env.re / 2 ^ 25 := by
  obtain ⟨⟨ε1, ε2⟩, hn, hn0, h10, hx⟩ := hv
  have re0 := hP.re.pos
  have re1 := hP.re.2.1
  have re2 := hP.re.2.2
  have n00 := hP.n0.pos
  have n01 := hP.n0.2.1
  have hxi : ∀ a, R.Upto 60 ((t.ps i).x a) := fun a => ⟨h.this a, (hx a).trans (by norm_num at re2 ⊢; linarith)⟩
  have hΩ : (2 : ℝ) ^ 910 ≤ R.Ω := hW.Ω_ge
  have hη := hW.η_le
  have e1 := e50_small
  set s := (t.accLoop i (0 : Vec F D) (t.pull i)).1 with hs
  have hsf : ∀ a, R.Upto 361 (s a) := fun a => h.pull hR hW hD hl hP a (hxi a)
  have hg : ∀ a, R.Upto 395 (vdiv s t.env.n0 a) := by
    intro a
    have hq : |R.val (s a) / R.val t.env.n0| ≤ 2 ^ 391 := by
      rw [abs_div, abs_of_pos n00, div_le_iff₀ n00]
      refine (hsf a).2.trans ?_
      have : (2 : ℝ) ^ 361 = 2 ^ 391 * (1 / 2 ^ 30) := by norm_num
      rw [this]
      exact mul_le_mul_of_nonneg_left n01 (by positivity)
    obtain ⟨f, g⟩ := R.div (hsf a).1 hP.n0.1 n00.ne' (hq.trans (le_trans (by norm_num) hΩ))
    have g := g.bounds hR.ε_le
    refine ⟨f, ?_⟩
    change |R.val (s a / t.env.n0)| ≤ _
    have := abs_add_le (R.val (s a / t.env.n0) - R.val (s a) / R.val t.env.n0) (R.val (s a) / R.val t.env.n0)
    rw [sub_add_cancel] at this
    have h2 : e50 * |R.val (s a) / R.val t.env.n0| ≤ 1 * 2 ^ 391 := mul_le_mul (by norm_num at e1 ⊢; linarith) hq (abs_nonneg _) (by norm_num)
    have h3 : (2 : ℝ) ^ 391 + 2 ^ 391 + 1 / 2 ^ 960 ≤ 2 ^ 395 := by norm_num
    linarith
  unfold State.sppParticle at hq
  simp only at hq
  set dxg := vdiv s t.env.n0 with hdxg
  set rg := Scalar.sqrt (dot dxg dxg) with hrg
  split at hq
  swap
  · exact absurd hq (by simp)
  rename_i hlt
  split at hq
  swap
  · exact absurd hq (by simp)
  rename_i heps
  have hlt := (R.lt hn hP.n0.1).mp hlt
  set L := R.trueLength dxg with hL
  have hLhi : L ≤ 2 ^ 400 := by
    refine abs_le_of_sq_le_sq' (b := (2 : ℝ) ^ 400) ?_ (by positivity) |>.2
    rw [trueLength_sq]
    have : ∀ a ∈ (Finset.univ : Finset (Fin D)), R.val (dxg a) ^ 2 ≤ (2 ^ 395) ^ 2 := by
      intro a _
      rw [← sq_abs]
      exact pow_le_pow_left₀ (abs_nonneg _) (hg a).2 2
    have h1 := Finset.sum_le_sum this
    rw [Finset.sum_const, Finset.card_univ, Fintype.card_fin, nsmul_eq_mul] at h1
    have hDr : (D : ℝ) ≤ 3 := by exact_mod_cast hD
    have h2 : (D : ℝ) * (2 ^ 395) ^ 2 ≤ 3 * (2 ^ 395) ^ 2 := mul_le_mul_of_nonneg_right hDr (by positivity)
    have h3 : (3 : ℝ) * (2 ^ 395) ^ 2 ≤ (2 ^ 400) ^ 2 := by norm_num
    linarith
  have hrgf : R.finite rg := by
    have hL2 : R.trueLength dxg ^ 2 ≤ 2 ^ 800 := (pow_le_pow_left₀ (Real.sqrt_nonneg _) hLhi 2).trans (le_of_eq (by rw [← pow_mul]))
    have h8 : (2 : ℝ) ^ 800 ≤ 2 ^ 910 / 4 := by norm_num
    obtain ⟨f, p, -⟩ := R.dot_self hR hD ((one_le_pow₀ (by norm_num)).trans hΩ) dxg (fun a => (hg a).1) (by linarith)
    exact (R.sqrt f p).1
  have heps := (R.lt ε1 hrgf).mp heps
  have hLlo : 1 / 2 ^ 110 ≤ L := Rounding.length_lower hR hW hD (fun a => (hg a).1) (lt_of_le_of_lt ε2 heps)
  obtain ⟨-, hrgL⟩ := Rounding.length_accurate hR hW hD (fun a => (hg a).1) hLlo hLhi
  have L0 : 0 < L := lt_of_lt_of_le (by positivity) hLlo
  obtain ⟨ρf, ρlo, ρhi, ρe⟩ := Rounding.virtual_distance hR hW hP.re hP.n0.1 h10 hn hn0 hlt
  set ρ := t.env.re / (t.env.n0 - t.nNoSpp i + 1) with hρ
  have ρ0 : 0 < R.val ρ := lt_of_lt_of_le (by positivity) ρlo
  have hcomp : ∀ a, |R.val (dxg a)| ≤ L := fun a => abs_le_of_sq_le_sq (R.comp_le dxg a) L0.le
  have hvb : ∀ a, R.finite (ρ / rg * dxg a) ∧ |R.val (ρ / rg * dxg a) - R.val ρ * R.val (dxg a) / L| ≤ 1 / 2 ^ 35 * R.val t.env.re :=
    fun a => Rounding.displacement hR hW hP.re ρf ρ0 ρhi hrgf (ε2.trans heps.le) L0 hLhi hrgL (hg a).1 (hcomp a)
  have hp : ∀ a, |R.val ρ * R.val (dxg a) / L| ≤ 3 * R.val t.env.re := by
    intro a
    refine le_trans ?_ ρhi
    rw [abs_div, abs_mul, abs_of_pos ρ0, abs_of_pos L0, div_le_iff₀ L0]
    exact mul_le_mul_of_nonneg_left (hcomp a) ρ0.le
  have hdx := fun a => Rounding.difference hR hW hP.re (h.this a) (hx a) (hvb a).1 (hp a) (hvb a).2
  have hS : ∑ a, (R.val ρ * R.val (dxg a) / L) ^ 2 = R.val ρ ^ 2 := by
    have : ∀ a ∈ (Finset.univ : Finset (Fin D)), (R.val ρ * R.val (dxg a) / L) ^ 2 = R.val ρ ^ 2 / L ^ 2 * R.val (dxg a) ^ 2 := by
      intro a _; ring
    rw [Finset.sum_congr rfl this, ← Finset.mul_sum, ← trueLength_sq, ← hL]
    field_simp
  obtain ⟨l1, l2, l3⟩ := Rounding.length_close (R := R) hD (w := (t.ps i).x - ((t.ps i).x - smul (ρ / rg) dxg)) re0 hS ρlo ρhi (fun a => (hdx a).2.2)
  have b1 : 1 / 2 ^ 44 ≤ 1 / 2 ^ 14 * R.val t.env.re := by
    have := mul_le_mul_of_nonneg_left re1 (show (0 : ℝ) ≤ 1 / 2 ^ 14 by positivity)
    refine le_trans (le_of_eq ?_) this
    norm_num
  obtain ⟨d1, d2⟩ := Rounding.length_accurate hR hW hD (u := (t.ps i).x - ((t.ps i).x - smul (ρ / rg) dxg)) (fun a => (hdx a).2.1)
    ((two_pow_inv_le (show 44 ≤ 110 by norm_num)).trans (b1.trans (le_trans (le_mul_of_one_le_right (by positivity) (by norm_num)) l1)))
    (l2.trans (le_trans (show 7 / 2 * R.val t.env.re ≤ 2 ^ 40 by norm_num at re2 ⊢; linarith) (pow_le_pow_right₀ (by norm_num) (by norm_num))))
  obtain rfl := Option.some.inj hq
  refine ⟨rfl, rfl, rfl, fun a => (hdx a).1, d1, ?_, ?_, hlt, ?_⟩
  · have h12 : 12 * e50 ≤ 1 / 2 ^ 40 := by unfold e50; norm_num
    have := abs_le.mp (d2.trans (mul_le_mul_of_nonneg_right h12 (Real.sqrt_nonneg _)))
    change _ ≤ R.val (Scalar.sqrt (dot ((t.ps i).x - ((t.ps i).x - smul (ρ / rg) dxg)) ((t.ps i).x - ((t.ps i).x - smul (ρ / rg) dxg))))
    generalize R.trueLength ((t.ps i).x - ((t.ps i).x - smul (ρ / rg) dxg)) = ll at *
    norm_num at this l1 ⊢
    linarith
  · have h12 : 12 * e50 ≤ 1 / 2 ^ 40 := by unfold e50; norm_num
    have := abs_le.mp (d2.trans (mul_le_mul_of_nonneg_right h12 (Real.sqrt_nonneg _)))
    change R.val (Scalar.sqrt (dot ((t.ps i).x - ((t.ps i).x - smul (ρ / rg) dxg)) ((t.ps i).x - ((t.ps i).x - smul (ρ / rg) dxg)))) ≤ _
    generalize R.trueLength ((t.ps i).x - ((t.ps i).x - smul (ρ / rg) dxg)) = ll at *
    norm_num at this l2 ⊢
    linarith
  · have h12 : 12 * e50 ≤ 1 / 2 ^ 40 := by unfold e50; norm_num
    have := abs_le.mp (d2.trans (mul_le_mul_of_nonneg_right h12 (Real.sqrt_nonneg _)))
    change |R.val (Scalar.sqrt (dot ((t.ps i).x - ((t.ps i).x - smul (ρ / rg) dxg)) ((t.ps i).x - ((t.ps i).x - smul (ρ / rg) dxg)))) - _| ≤ _
    generalize R.trueLength ((t.ps i).x - ((t.ps i).x - smul (ρ / rg) dxg)) = ll at *
    have l3 := abs_le.mp l3
    have ρe := abs_le.mp ρe
    rw [abs_le]
    norm_num at this l2 l3 ρe ⊢
    constructor <;> linarith

end OpenMps
