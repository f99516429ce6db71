import Verif.Props.Accuracy

/-! # Property C57: when the step succeeds, in terms of the reference -/

set_option linter.unusedSectionVars false

namespace OpenMps

open Ref

variable {D : Nat} {ω : Type}

section
variable {S : Setting D} {t : State ℝ D ω} {c : Scene D}

theorem virtual_of_ref (h : Tbl S t) (ha : Agree S t c) {i : ℕ} (hi : i < S.n) (hd : S.ty i ≠ .disabled) (hV : S.HasVirtual c.x i) : OpenMps.HasVirtual t i := by
  obtain ⟨-, h1, h2⟩ := hV
  refine ⟨?_, ?_⟩
  · have := density_eq h ha.x hi hd
    unfold State.nearDensity at this
    rw [← this, ← h.env] at h1
    exact h1
  · rw [len_eq] at h2
    have e : (1 / t.env.n0) • ∑ j ∈ t.near i, W (dist (t.ps i).x (t.ps j).x) t.env.re • ((t.ps j).x - (t.ps i).x) = S.offset c.x i := by
      unfold Setting.offset
      rw [near_eq h ha.x hi hd, h.env]
      congr 1
      apply Finset.sum_congr rfl
      intro j hj
      rw [ha.x j (near_lt hj), ha.x i hi, weight_eq, len_sub, dist_comm']
    rw [e]
    exact h2

theorem separated_of (h : Tbl S t) (ha : Agree S t c) (hs : S.Distinct c) : Separated t := by
  intro i j hi hj hij h1 h2
  rw [h.n] at hi hj
  rw [ha.x i hi, ha.x j hj]
  exact hs i j hi hj hij (by rw [← h.ty i hi]; exact h1) (by rw [← h.ty j hj]; exact h2)

theorem surface_of (h : Tbl S t) (ha : Agree S t c) (hw : ∀ i, S.Equation c i → S.Wet c i ∨ S.Lone i) : EveryBodyHasSurface S.cfg t := by
  intro i hi
  have hE := (equation_iff h ha i).mp hi
  rcases hw i hE with ⟨k, hp, -, hEk, hT⟩ | ⟨h1, h2⟩
  · right
    refine ⟨k, ?_, (equation_iff h ha k).mpr hEk, ?_⟩
    · refine Relation.ReflTransGen.mono (r := S.Joined c) ?_ i k hp
      rintro a b ⟨q1, q2, q3⟩
      refine ⟨(equation_iff h ha a).mpr q1, (equation_iff h ha b).mpr q2, ?_⟩
      rw [near_eq h ha.x q1.1 q1.2.1.2]
      exact (mem_nearSolid.mp q3).1
    · rcases hT with hV | ⟨j, hj, hS⟩
      · exact Or.inl ⟨hV.1, virtual_of_ref h ha hEk.1 hEk.2.1.2 hV⟩
      · obtain ⟨hj1, hj2⟩ := mem_nearSolid.mp hj
        refine Or.inr ⟨hS.1, j, ?_, ?_, ?_⟩
        · rw [near_eq h ha.x hEk.1 hEk.2.1.2]; exact hj1
        · rw [h.ty j (near_lt hj1)]; exact hj2
        · rw [ha.dens j (near_lt hj1), h.env]; exact hS.2
  · left
    refine ⟨h1, ?_⟩
    rw [List.eq_nil_iff_forall_not_mem]
    intro j hj
    obtain ⟨k1, k2, k3, k4⟩ := (h.nbr i hE.1 hE.2.1.2 j).mp hj
    exact absurd k4 (not_lt.mpr (h2 j k1 k3 k2))

end

/-- **C57.**  An implicit step succeeds if no block of the grid overflows, no two enabled particles are predicted at the same place, and every particle whose pressure is determined by
an equation belongs to a body of fluid with a free surface or is a single drop. -/
theorem C57_step_succeeds {P : Params ℝ D ω} {env : Env ℝ D} {w : ω} {s0 s : State ℝ D ω} {dts : List ℝ}
    (hD : D = 2 ∨ D = 3) (hnew : State.new? env w = some s0) (hist : Hist P s0 dts s) (hok : s0.grid.ClearOK) (hL : 0 < env.neighborLength)
    (hpos : env.Positive) (sch : Schedule) (hv : sch.Valid s.n) (dt : ℝ) (hc : ¬ Crowded s)
    (hd : (setting P s dt).Distinct ((setting P s dt).predict (scene s)))
    (hw : ∀ i, (setting P s dt).Equation ((setting P s dt).predict (scene s)) i →
      (setting P s dt).Wet ((setting P s dt).predict (scene s)) i ∨ (setting P s dt).Lone i) :
    ∃ s', s.forwardTime P sch dt = .ok s' := by
  rcases search_outcome hnew hist hok hL sch hv dt with ⟨h, -⟩ | ⟨-, s1, hs1⟩
  · exact absurd h hc
  · obtain ⟨-, T, A, -⟩ := step_mid (P := P) hD hnew hist hok hL hpos.re.le sch hv dt hs1
    exact (C27_pressure_equation_solvable hD hnew hist hok hL hpos sch hv dt (beforePressure_of_search hv hs1) (separated_of T A hd) (surface_of T A hw)).1

end OpenMps
