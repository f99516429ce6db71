import Verif.Spec.Rounding
import Verif.Model.Grid
import Mathlib.Tactic.Linarith
import Mathlib.Tactic.NormNum
import Mathlib.Tactic.Positivity

/-! # The neighbour search in rounded arithmetic: error bounds -/

namespace OpenMps

variable {F : Type} [Scalar F] {D : Nat}

/-- The reference accuracy. -/
noncomputable def e50 : ℝ := 1 / 2 ^ 50

theorem RelErr.bounds {ε a b : ℝ} (h : RelErr ε a b) (he : ε ≤ e50) : |a - b| ≤ e50 * |b| := by
  obtain ⟨δ, hδ, rfl⟩ := h
  have : b * (1 + δ) - b = δ * b := by ring
  rw [this, abs_mul]
  exact mul_le_mul_of_nonneg_right (hδ.trans he) (abs_nonneg _)

theorem RelAbsErr.bounds {ε η a b : ℝ} (h : RelAbsErr ε η a b) (he : ε ≤ e50) : |a - b| ≤ e50 * |b| + η := by
  obtain ⟨δ, u, hδ, hu, rfl⟩ := h
  have : b * (1 + δ) + u - b = δ * b + u := by ring
  rw [this]
  refine (abs_add_le _ _).trans ?_
  rw [abs_mul]
  exact add_le_add (mul_le_mul_of_nonneg_right (hδ.trans he) (abs_nonneg _)) hu

/-- The computed block coordinate is within `2^-28` of the exact one. -/
theorem Rounding.coord (R : Rounding F) (hR : R.DoubleLike) {L : F} (hL : R.GoodLength L) {x o : F}
    (hx : R.finite x ∧ |R.val x| ≤ R.Ω / 8 ∧ |R.val x| ≤ R.Ω / 8 * R.val L)
    (ho : R.finite o ∧ |R.val o| ≤ R.Ω / 8 ∧ |R.val o| ≤ R.Ω / 8 * R.val L) {k : Int}
    (hk : Scalar.floorIdx ((x - o) / L) = some k) (h0 : 0 ≤ k) (h1 : k < 2 ^ 20) :
    ∃ q : ℝ, k = ⌊q⌋ ∧ |q - (R.val x - R.val o) / R.val L| ≤ 1 / 2 ^ 28 := by
  have hp := hL.pos
  have he : e50 = 1 / 2 ^ 50 := rfl
  have hΩ : 0 ≤ R.Ω := le_trans (by positivity) hL.Ω_ge
  obtain ⟨f1, g1⟩ := R.sub hx.1 ho.1 (by
    refine (abs_sub _ _).trans ?_
    linarith [hx.2.1, ho.2.1])
  have g1 := g1.bounds hR.ε_le
  have b1 : |R.val x - R.val o| ≤ R.Ω / 4 * R.val L := (abs_sub _ _).trans (by linarith [hx.2.2, ho.2.2])
  have b2 : |R.val (x - o)| ≤ R.Ω * R.val L := by
    have : |R.val (x - o)| ≤ |R.val (x - o) - (R.val x - R.val o)| + |R.val x - R.val o| := by
      have := abs_add_le (R.val (x - o) - (R.val x - R.val o)) (R.val x - R.val o)
      simpa using this
    have h3 : 0 ≤ R.Ω * R.val L := _root_.mul_nonneg hΩ hp.le
    have : e50 * |R.val x - R.val o| ≤ |R.val x - R.val o| := by
      have : e50 ≤ 1 := by rw [he]; norm_num
      nlinarith [abs_nonneg (R.val x - R.val o)]
    linarith
  obtain ⟨f2, g2⟩ := R.div f1 hL.finite hp.ne' (by
    rw [abs_div, abs_of_pos hp, div_le_iff₀ hp]; exact b2)
  have g2 := g2.bounds hR.ε_le
  refine ⟨R.val ((x - o) / L), R.floor f2 hk, ?_⟩
  have hk' := R.floor f2 hk
  set q := R.val ((x - o) / L) with hq
  have q0 : 0 ≤ q := by
    have : (0 : ℤ) ≤ ⌊q⌋ := hk' ▸ h0
    exact Int.floor_nonneg.mp this
  have q1 : q < 2 ^ 20 := by
    have : ⌊q⌋ < (2 ^ 20 : ℤ) := hk' ▸ h1
    have := Int.floor_lt.mp this
    norm_num at this ⊢
    exact this
  set t := (R.val x - R.val o) / R.val L with ht
  set d := R.val (x - o) / R.val L with hd
  have g1' : |d - t| ≤ e50 * |t| := by
    rw [hd, ht, ← sub_div, abs_div, abs_div, abs_of_pos hp, ← mul_div_assoc]
    exact div_le_div_of_nonneg_right g1 hp.le
  have hη := hR.η_le
  rw [← he] at hη
  have e0 : 0 < e50 := by rw [he]; positivity
  -- sizes
  have d1 : |d| ≤ 2 ^ 20 + 1 / 2 := by
    have h1 : |d| ≤ |q - d| + |q| := by
      have := abs_sub q (q - d)
      have h2 : q - (q - d) = d := by ring
      rw [h2] at this
      linarith
    rw [abs_of_nonneg q0] at h1
    have : |d| * (1 - e50) ≤ 2 ^ 20 + e50 := by linarith
    rw [he] at this
    norm_num at this ⊢
    linarith
  have t1 : |t| ≤ 2 ^ 20 + 1 := by
    have h1 : |t| ≤ |d - t| + |d| := by
      have := abs_sub d (d - t)
      have h2 : d - (d - t) = t := by ring
      rw [h2] at this
      linarith
    have : |t| * (1 - e50) ≤ 2 ^ 20 + 1 / 2 := by linarith
    rw [he] at this
    norm_num at this ⊢
    linarith
  have : |q - t| ≤ |q - d| + |d - t| := abs_sub_le _ _ _
  rw [he] at g2 g1' hη
  norm_num at *
  linarith

/-- Particles whose coordinates differ by at most `(1 - 2^-27) L` are in the same or adjacent blocks. -/
theorem Rounding.coord_close (R : Rounding F) (hR : R.DoubleLike) {L : F} (hL : R.GoodLength L) {x y o : F}
    (hx : R.finite x ∧ |R.val x| ≤ R.Ω / 8 ∧ |R.val x| ≤ R.Ω / 8 * R.val L)
    (hy : R.finite y ∧ |R.val y| ≤ R.Ω / 8 ∧ |R.val y| ≤ R.Ω / 8 * R.val L)
    (ho : R.finite o ∧ |R.val o| ≤ R.Ω / 8 ∧ |R.val o| ≤ R.Ω / 8 * R.val L) {k l : Int}
    (hk : Scalar.floorIdx ((x - o) / L) = some k) (k0 : 0 ≤ k) (k1 : k < 2 ^ 20)
    (hl : Scalar.floorIdx ((y - o) / L) = some l) (l0 : 0 ≤ l) (l1 : l < 2 ^ 20)
    (hxy : |R.val x - R.val y| ≤ (1 - 1 / 2 ^ 27) * R.val L) : |l - k| ≤ 1 := by
  have hp := hL.pos
  obtain ⟨p, rfl, hp1⟩ := R.coord hR hL hx ho hk k0 k1
  obtain ⟨q, rfl, hq1⟩ := R.coord hR hL hy ho hl l0 l1
  have h1 : |(R.val x - R.val o) / R.val L - (R.val y - R.val o) / R.val L| ≤ 1 - 1 / 2 ^ 27 := by
    rw [← sub_div, abs_div, abs_of_pos hp, div_le_iff₀ hp]
    have : R.val x - R.val o - (R.val y - R.val o) = R.val x - R.val y := by ring
    rw [this]; exact hxy
  rw [abs_le] at hp1 hq1 h1
  have a1 : p ≤ q + 1 := by norm_num at *; linarith
  have a2 : q ≤ p + 1 := by norm_num at *; linarith
  have b1 : ⌊p⌋ ≤ ⌊q⌋ + 1 := by rw [← Int.floor_add_one]; exact Int.floor_le_floor a1
  have b2 : ⌊q⌋ ≤ ⌊p⌋ + 1 := by rw [← Int.floor_add_one]; exact Int.floor_le_floor a2
  rw [abs_le]; omega

/-- Two particles in the grid are at most `2^21 + 4` block lengths apart on each axis. -/
theorem Rounding.coord_far (R : Rounding F) (hR : R.DoubleLike) {L : F} (hL : R.GoodLength L) {x y o : F}
    (hx : R.finite x ∧ |R.val x| ≤ R.Ω / 8 ∧ |R.val x| ≤ R.Ω / 8 * R.val L)
    (hy : R.finite y ∧ |R.val y| ≤ R.Ω / 8 ∧ |R.val y| ≤ R.Ω / 8 * R.val L)
    (ho : R.finite o ∧ |R.val o| ≤ R.Ω / 8 ∧ |R.val o| ≤ R.Ω / 8 * R.val L) {k l : Int}
    (hk : Scalar.floorIdx ((x - o) / L) = some k) (k0 : 0 ≤ k) (k1 : k < 2 ^ 20)
    (hl : Scalar.floorIdx ((y - o) / L) = some l) (l0 : 0 ≤ l) (l1 : l < 2 ^ 20) :
    |R.val x - R.val y| ≤ 2 ^ 22 * R.val L := by
  have hp := hL.pos
  obtain ⟨p, rfl, hp1⟩ := R.coord hR hL hx ho hk k0 k1
  obtain ⟨q, rfl, hq1⟩ := R.coord hR hL hy ho hl l0 l1
  have p0 : 0 ≤ p := Int.floor_nonneg.mp k0
  have q0 : 0 ≤ q := Int.floor_nonneg.mp l0
  have p1 : p < 2 ^ 20 := by have := Int.floor_lt.mp k1; norm_num at this ⊢; exact this
  have q1 : q < 2 ^ 20 := by have := Int.floor_lt.mp l1; norm_num at this ⊢; exact this
  have : R.val x - R.val y = ((R.val x - R.val o) / R.val L - (R.val y - R.val o) / R.val L) * R.val L := by
    field_simp; ring
  rw [this, abs_mul, abs_of_pos hp]
  refine mul_le_mul_of_nonneg_right ?_ hp.le
  rw [abs_le] at hp1 hq1 ⊢
  constructor <;> (norm_num at *; linarith)

/-- One squared difference. -/
theorem Rounding.sqDiff (R : Rounding F) (hR : R.DoubleLike) {L : F} (hL : R.GoodLength L) (x y : F)
    (hx : R.finite x) (hy : R.finite y) (hΩ' : |R.val x - R.val y| ≤ R.Ω)
    (da : |R.val x - R.val y| ≤ 2 ^ 22 * R.val L) :
    R.finite ((x - y) * (x - y)) ∧ 0 ≤ R.val ((x - y) * (x - y)) ∧
    |R.val ((x - y) * (x - y)) - (R.val x - R.val y) ^ 2| ≤ 4 * e50 * (R.val x - R.val y) ^ 2 + e50 * R.val L ^ 2 := by
  have hp := hL.pos
  have he : e50 = 1 / 2 ^ 50 := rfl
  have e0 : 0 < e50 := by rw [he]; positivity
  have hΩ := hL.Ω_ge
  have hLL : 0 < R.val L ^ 2 := by positivity
  set d := R.val x - R.val y with hdd
  have dsq : d ^ 2 ≤ 2 ^ 44 * R.val L ^ 2 := by
    have := pow_le_pow_left₀ (abs_nonneg d) da 2
    rw [sq_abs] at this
    calc d ^ 2 ≤ _ := this
      _ = _ := by ring
  obtain ⟨f1, g1⟩ := R.sub hx hy hΩ'
  have g1 := g1.bounds hR.ε_le
  rw [← hdd] at g1
  set dd := R.val (x - y) with hdd'
  have hη := hL.η_le
  have hη' : R.η ≤ e50 * R.val L ^ 2 := by rw [he]; linarith
  have e1 : e50 ≤ 1 / 2 ^ 50 := le_of_eq he
  have esmall : e50 ≤ 1 / 1000 := by rw [he]; norm_num
  have k1 : |dd ^ 2 - d ^ 2| ≤ (2 + e50) * e50 * d ^ 2 := by
    have : dd ^ 2 - d ^ 2 = (dd - d) * (dd - d + 2 * d) := by ring
    rw [this, abs_mul]
    have h2 : |dd - d + 2 * d| ≤ (2 + e50) * |d| := by
      refine (abs_add_le _ _).trans ?_
      rw [abs_mul, abs_two]
      linarith
    calc |dd - d| * |dd - d + 2 * d| ≤ (e50 * |d|) * ((2 + e50) * |d|) :=
          mul_le_mul g1 h2 (abs_nonneg _) (by positivity)
      _ = (2 + e50) * e50 * (|d| ^ 2) := by ring
      _ = _ := by rw [sq_abs]
  have hd2 : 0 ≤ d ^ 2 := sq_nonneg d
  have k2 : dd ^ 2 ≤ (1 + 3 * e50) * d ^ 2 := by
    have := (abs_le.mp k1).2
    nlinarith
  have k3 : dd ^ 2 ≤ 2 * d ^ 2 := by nlinarith
  obtain ⟨f2, g2⟩ := R.mul f1 f1 (by
    rw [← hdd', ← sq, abs_of_nonneg (sq_nonneg _)]
    nlinarith)
  have p0 := R.mul_nonneg f1 f1 (by
    rw [← hdd', ← sq, abs_of_nonneg (sq_nonneg _)]
    nlinarith) (by rw [← sq]; exact sq_nonneg _)
  have g2 := g2.bounds hR.ε_le
  rw [← hdd', ← sq, abs_of_nonneg (sq_nonneg dd)] at g2
  set p := R.val ((x - y) * (x - y)) with hpp
  refine ⟨f2, p0, ?_⟩
  have k4 : |p - d ^ 2| ≤ 4 * e50 * d ^ 2 + e50 * R.val L ^ 2 := by
    have := abs_sub_le p (dd ^ 2) (d ^ 2)
    have h7 : e50 * dd ^ 2 ≤ e50 * ((1 + 3 * e50) * d ^ 2) := mul_le_mul_of_nonneg_left k2 e0.le
    have h8 : e50 * (1 + 3 * e50) * d ^ 2 + (2 + e50) * e50 * d ^ 2 ≤ 4 * e50 * d ^ 2 := by
      have : (4 * e50 - (e50 * (1 + 3 * e50) + (2 + e50) * e50)) * d ^ 2 ≥ 0 := by
        apply _root_.mul_nonneg _ hd2
        nlinarith
      linarith
    linarith
  exact k4

/-- One addition. -/
theorem Rounding.addStep (R : Rounding F) (hR : R.DoubleLike) {L : F} (hL : R.GoodLength L) (s P : F) (c : ℕ) (S Q : ℝ)
    (h1 : R.finite s) (h2 : 0 ≤ R.val s) (h3 : 0 ≤ S) (h4 : |R.val s - S| ≤ c * e50 * (S + R.val L ^ 2))
    (h5 : c ≤ 100) (f2 : R.finite P) (p0 : 0 ≤ R.val P) (hd2 : 0 ≤ Q)
    (k4 : |R.val P - Q| ≤ 4 * e50 * Q + e50 * R.val L ^ 2) (h6 : S + Q ≤ 2 ^ 47 * R.val L ^ 2) :
    R.finite (s + P) ∧ 0 ≤ R.val (s + P) ∧ |R.val (s + P) - (S + Q)| ≤ ((c + 6 : ℕ) : ℝ) * e50 * ((S + Q) + R.val L ^ 2) := by
  have hp := hL.pos
  have he : e50 = 1 / 2 ^ 50 := rfl
  have e0 : 0 < e50 := by rw [he]; positivity
  have hΩ := hL.Ω_ge
  have hLL : 0 < R.val L ^ 2 := by positivity
  set p := R.val P with hpp
  have hc : (c : ℝ) ≤ 100 := by
    exact_mod_cast h5
  have hc0 : (0 : ℝ) ≤ c := Nat.cast_nonneg c
  have hSL : 0 ≤ S + R.val L ^ 2 := by linarith
  have k5 : |R.val s + p - (S + Q)| ≤ c * e50 * (S + R.val L ^ 2) + 4 * e50 * Q + e50 * R.val L ^ 2 := by
    have : R.val s + p - (S + Q) = (R.val s - S) + (p - Q) := by ring
    rw [this]
    refine (abs_add_le _ _).trans ?_
    linarith
  have hce : (c : ℝ) * e50 ≤ 1 / 10 := by
    rw [he]; norm_num; linarith
  have k6 : R.val s + p ≤ 2 * (S + Q) + R.val L ^ 2 := by
    have := (abs_le.mp k5).2
    nlinarith
  obtain ⟨f3, g3⟩ := R.add h1 f2 (by
    rw [abs_of_nonneg (add_nonneg h2 p0)]
    nlinarith)
  have g3' : 0 ≤ R.val (s + P) := by
    obtain ⟨δ, hδ, hv⟩ := g3
    rw [hv]
    apply _root_.mul_nonneg (add_nonneg h2 p0)
    have := (abs_le.mp hδ).1
    have := hR.ε_le
    norm_num at this
    linarith
  have g3 := g3.bounds hR.ε_le
  rw [← hpp, abs_of_nonneg (add_nonneg h2 p0)] at g3
  have k7 : |R.val (s + P) - (S + Q)| ≤ ((c + 6 : ℕ) : ℝ) * e50 * ((S + Q) + R.val L ^ 2) := by
    have h8 := abs_sub_le (R.val (s + P)) (R.val s + p) (S + Q)
    have h9 : e50 * (R.val s + p) ≤ e50 * (2 * (S + Q) + R.val L ^ 2) := mul_le_mul_of_nonneg_left k6 e0.le
    push_cast
    have h10 : 0 ≤ (c : ℝ) * e50 * Q := by positivity
    have h11 : 0 ≤ e50 * S := by positivity
    have h12 : 0 ≤ e50 * R.val L ^ 2 := by positivity
    have h13 : 0 ≤ e50 * Q := by positivity
    nlinarith
  exact ⟨f3, g3', k7⟩

/-- The accumulation of the squared distance. -/
theorem Rounding.fold (R : Rounding F) (hR : R.DoubleLike) {L : F} (hL : R.GoodLength L) (x y : Vec F D)
    (hx : ∀ a, R.finite (x a)) (hy : ∀ a, R.finite (y a)) (hΩ' : ∀ a, |R.val (x a) - R.val (y a)| ≤ R.Ω)
    (hd : ∀ a, |R.val (x a) - R.val (y a)| ≤ 2 ^ 22 * R.val L) :
    ∀ (l : List (Fin D)) (s : F) (c : ℕ) (S : ℝ), R.finite s → 0 ≤ R.val s → 0 ≤ S →
      |R.val s - S| ≤ c * e50 * (S + R.val L ^ 2) → c + 6 * l.length ≤ 100 →
      S + (l.map (fun a => (R.val (x a) - R.val (y a)) ^ 2)).sum ≤ 2 ^ 47 * R.val L ^ 2 →
      let r := l.foldl (fun s a => s + (x - y) a * (x - y) a) s
      let T := S + (l.map (fun a => (R.val (x a) - R.val (y a)) ^ 2)).sum
      R.finite r ∧ 0 ≤ R.val r ∧ |R.val r - T| ≤ ((c + 6 * l.length : ℕ) : ℝ) * e50 * (T + R.val L ^ 2)
  | [], s, c, S, h1, h2, h3, h4, _, _ => by simpa using ⟨h1, h2, h4⟩
  | a :: l, s, c, S, h1, h2, h3, h4, h5, h6 => by
    set d := R.val (x a) - R.val (y a) with hdd
    have hsum : 0 ≤ (l.map (fun a => (R.val (x a) - R.val (y a)) ^ 2)).sum := by
      apply List.sum_nonneg
      intro v hv
      rw [List.mem_map] at hv
      obtain ⟨a, -, rfl⟩ := hv
      positivity
    have hcons : S + ((a :: l).map (fun a => (R.val (x a) - R.val (y a)) ^ 2)).sum
        = (S + d ^ 2) + (l.map (fun a => (R.val (x a) - R.val (y a)) ^ 2)).sum := by
      rw [List.map_cons, List.sum_cons, add_assoc]
    rw [hcons] at h6
    simp only [hcons]
    obtain ⟨f2, p0, k4⟩ := R.sqDiff hR hL (x a) (y a) (hx a) (hy a) (hΩ' a) (hd a)
    obtain ⟨f3, g3', k7⟩ := R.addStep hR hL s ((x a - y a) * (x a - y a)) c S (d ^ 2) h1 h2 h3 h4
      (by omega) f2 p0 (sq_nonneg _) k4 (by linarith)
    have := Rounding.fold R hR hL x y hx hy hΩ' hd l (s + (x - y) a * (x - y) a) (c + 6) (S + d ^ 2) f3 g3' (by positivity) k7
      (by rw [List.length_cons] at h5; omega) h6
    rw [List.foldl_cons]
    have hlen : c + 6 * (a :: l).length = c + 6 + 6 * l.length := by rw [List.length_cons]; omega
    rw [hlen]
    exact this

/-- The computed distance is finite, and comparing it with `L` is right up to a relative tolerance of `2^-26`. -/
theorem Rounding.dist_lt (R : Rounding F) (hR : R.DoubleLike) {L : F} (hL : R.GoodLength L) (hD : D ≤ 3) (x y : Vec F D)
    (hx : ∀ a, R.finite (x a)) (hy : ∀ a, R.finite (y a)) (hΩ' : ∀ a, |R.val (x a) - R.val (y a)| ≤ R.Ω)
    (hd : ∀ a, |R.val (x a) - R.val (y a)| ≤ 2 ^ 22 * R.val L) :
    (R.trueDist x y ≤ (1 - 1 / 2 ^ 26) * R.val L → Scalar.lt (dist x y) L = true) ∧
    (Scalar.lt (dist x y) L = true → R.trueDist x y < (1 + 1 / 2 ^ 26) * R.val L) := by
  have hp := hL.pos
  have he : e50 = 1 / 2 ^ 50 := rfl
  have hLL : 0 < R.val L ^ 2 := by positivity
  have hlen : (List.finRange D).length = D := List.length_finRange
  have hS : ((List.finRange D).map (fun a => (R.val (x a) - R.val (y a)) ^ 2)).sum = ∑ a, (R.val (x a) - R.val (y a)) ^ 2 := by
    rw [← List.ofFn_eq_map, List.sum_ofFn]
  set S := ∑ a, (R.val (x a) - R.val (y a)) ^ 2 with hSdef
  have S0 : 0 ≤ S := Finset.sum_nonneg (fun a _ => sq_nonneg _)
  have hSle : S ≤ 2 ^ 47 * R.val L ^ 2 := by
    have : S ≤ ∑ a : Fin D, (2 ^ 44 * R.val L ^ 2) := by
      apply Finset.sum_le_sum
      intro a _
      have := pow_le_pow_left₀ (abs_nonneg _) (hd a) 2
      rw [sq_abs] at this
      calc _ ≤ _ := this
        _ = _ := by ring
    rw [Finset.sum_const, Finset.card_univ, Fintype.card_fin, nsmul_eq_mul] at this
    have hD' : (D : ℝ) ≤ 3 := by exact_mod_cast hD
    nlinarith
  obtain ⟨f1, p1, g1⟩ := R.fold hR hL x y hx hy hΩ' hd (List.finRange D) 0 0 0 R.zero.1 (by rw [R.zero.2]) le_rfl
    (by rw [R.zero.2]; simp) (by rw [hlen]; omega) (by rw [hS, zero_add]; exact hSle)
  rw [hS, zero_add, zero_add, hlen] at g1
  change R.finite (dot (x - y) (x - y)) at f1
  change 0 ≤ R.val (dot (x - y) (x - y)) at p1
  change |R.val (dot (x - y) (x - y)) - S| ≤ _ at g1
  set v := R.val (dot (x - y) (x - y)) with hv
  have g1 : |v - S| ≤ 18 * e50 * (S + R.val L ^ 2) := by
    refine g1.trans ?_
    have : ((6 * D : ℕ) : ℝ) ≤ 18 := by
      have : 6 * D ≤ 18 := by omega
      exact_mod_cast this
    have h0 : 0 ≤ e50 * (S + R.val L ^ 2) := by rw [he]; positivity
    nlinarith
  obtain ⟨f2, δ, hδ, g2⟩ := R.sqrt f1 p1
  unfold dist
  rw [R.lt f2 hL.finite, g2, ← hv]
  have hδ' : |δ| ≤ e50 := hδ.trans hR.ε_le
  rw [abs_le] at hδ' g1
  have hT : R.trueDist x y = Real.sqrt S := rfl
  rw [hT]
  have s0 := Real.sqrt_nonneg v
  have hsq := Real.sq_sqrt p1
  have hSq := Real.sq_sqrt S0
  constructor
  · intro h
    have h1 : S ≤ ((1 - 1 / 2 ^ 26) * R.val L) ^ 2 := by
      rw [← hSq]; exact pow_le_pow_left₀ (Real.sqrt_nonneg S) h 2
    have h2 : v ≤ ((1 - 1 / 2 ^ 27) * R.val L) ^ 2 := by
      rw [mul_pow] at h1 ⊢
      rw [he] at g1
      norm_num at g1 h1 ⊢
      linarith
    have h3 : Real.sqrt v ≤ (1 - 1 / 2 ^ 27) * R.val L := Real.sqrt_le_iff.mpr ⟨by norm_num; linarith, h2⟩
    have h4 : Real.sqrt v * (1 + δ) ≤ Real.sqrt v * (1 + e50) := mul_le_mul_of_nonneg_left (by linarith) s0
    rw [he] at h4
    norm_num at h3 h4 ⊢
    linarith
  · intro h
    have h1 : Real.sqrt v * (1 - e50) < R.val L :=
      lt_of_le_of_lt (mul_le_mul_of_nonneg_left (by linarith) s0) h
    have h2 : Real.sqrt v < (1 + 1 / 2 ^ 49) * R.val L := by
      rw [he] at h1
      norm_num at h1 ⊢
      linarith
    have h3 : v < ((1 + 1 / 2 ^ 49) * R.val L) ^ 2 := by
      rw [← hsq]; exact pow_lt_pow_left₀ h2 s0 (by norm_num)
    rw [Real.sqrt_lt' (by positivity)]
    rw [mul_pow] at h3 ⊢
    rw [he] at g1
    norm_num at g1 h3 ⊢
    linarith

end OpenMps
