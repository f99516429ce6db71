import Verif.Lemmas.Step
import Verif.Spec.Step

/-! # The state at the pressure computation, for every schedule -/

namespace OpenMps

variable {F : Type} [Scalar F] {D : Nat} {ω : Type}

theorem beforePressure_eq (P : Params F D ω) (sch : Schedule) (dt : F) (s : State F D ω) (hv : sch.Valid s.n) :
    s.beforePressure P sch dt = ((s.start dt).searchNeighbor (sch 0)).andThen (fun s1 => .ok (s1.midC P)) := by
  unfold State.beforePressure
  simp only
  have h0 : ({ s with env := ({ s.env with dt := dt } : Env F D).setNextT } : State F D ω) = s.start dt := rfl
  rw [h0]
  cases hs : (s.start dt).searchNeighbor (sch 0) with
  | exn e s1 => rfl
  | ub => rfl
  | ok s1 =>
    have hn : s1.n = s.n := searchNeighbor_n (s.start dt) s1 _ (hv 0) hs
    have hv1 : sch.Valid s1.n := by rw [hn]; exact hv
    simp only [Res.andThen, Res.bind]
    rw [computeDensities_C P.cfg s1 _ (hv1 1), computeEcs_C P.cfg _ _ (by exact hv1 2),
      computeExplicit_eq P _ _ _ (by exact hv1 3) (by exact hv1 4),
      computeDensities_C P.cfg _ _ (by exact hv1 5)]
    rfl

theorem beforePressure_midC {P : Params F D ω} {sch : Schedule} {dt : F} {s t : State F D ω} (hv : sch.Valid s.n)
    (h : s.beforePressure P sch dt = .ok t) : ∃ s1, (s.start dt).searchNeighbor (sch 0) = .ok s1 ∧ t = s1.midC P := by
  rw [beforePressure_eq P sch dt s hv] at h
  cases hs : (s.start dt).searchNeighbor (sch 0) with
  | exn e s1 => rw [hs] at h; cases h
  | ub => rw [hs] at h; cases h
  | ok s1 =>
    rw [hs] at h
    simp only [Res.andThen, Res.bind] at h
    injection h with h
    exact ⟨s1, rfl, h.symm⟩

theorem beforePressure_of_search {P : Params F D ω} {sch : Schedule} {dt : F} {s s1 : State F D ω} (hv : sch.Valid s.n)
    (h : (s.start dt).searchNeighbor (sch 0) = .ok s1) : s.beforePressure P sch dt = .ok (s1.midC P) := by
  rw [beforePressure_eq P sch dt s hv, h]; rfl

end OpenMps
