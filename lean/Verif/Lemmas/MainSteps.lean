import Verif.Lemmas.Main

/-! # The steps made by a run that has not finished -/

namespace OpenMps

variable {F : Type} [Scalar F] {D : Nat}

/-- State `j` exists and an output time up to number `N` is still ahead of it. -/
def Pending (P : Params F D Unit) (sch : Nat → Schedule) (interval : F) (N : Nat) (s0 : State F D Unit) (j : Nat) : Prop :=
  ∃ s, s0.afterSteps P sch j = .ok s ∧ ∃ k, 0 < k ∧ k ≤ N ∧ Scalar.lt s.env.t (outTime interval k) = true

theorem innerLoop_pending (P : Params F D Unit) (sch : Nat → Schedule) (interval : F) (N k : Nat) (hk0 : 0 < k) (hk : k ≤ N) (s0 : State F D Unit) :
    ∀ (fuel : Nat) (s : State F D Unit) (it : Nat), s0.afterSteps P sch it = .ok s → (∀ j, j < it → Pending P sch interval N s0 j) →
      match innerLoop P sch (outTime interval k) fuel s it with
      | .reached s' it' => s0.afterSteps P sch it' = .ok s' ∧ ∀ j, j < it' → Pending P sch interval N s0 j
      | .running => ∀ j, j ≤ it + fuel → Pending P sch interval N s0 j
      | _ => ∃ it', (∀ j, j ≤ it' → Pending P sch interval N s0 j) ∧ ∀ s, s0.afterSteps P sch (it' + 1) ≠ .ok s
  | 0, s, it, h, hp => by
    unfold innerLoop
    by_cases hl : Scalar.lt s.env.t (outTime interval k) = true
    · rw [if_pos hl]
      show ∀ j, j ≤ it + 0 → _
      intro j hj
      rcases Nat.lt_or_ge j it with h1 | h1
      · exact hp j h1
      · have : j = it := by omega
        subst this; exact ⟨s, h, k, hk0, hk, hl⟩
    · rw [if_neg hl]; exact ⟨h, hp⟩
  | fuel + 1, s, it, h, hp => by
    unfold innerLoop
    have hstep : s0.afterSteps P sch (it + 1) = s.forwardTimeAuto P (sch it) := by
      show (s0.afterSteps P sch it).andThen _ = _
      rw [h]; rfl
    by_cases hl : Scalar.lt s.env.t (outTime interval k) = true
    · rw [if_pos hl]
      have hp' : ∀ j, j ≤ it → Pending P sch interval N s0 j := by
        intro j hj
        rcases Nat.lt_or_ge j it with h1 | h1
        · exact hp j h1
        · have : j = it := by omega
          subst this; exact ⟨s, h, k, hk0, hk, hl⟩
      cases hr : s.forwardTimeAuto P (sch it) with
      | ok s' =>
        rw [hr] at hstep
        have ih := innerLoop_pending P sch interval N k hk0 hk s0 fuel s' (it + 1) hstep (fun j hj => hp' j (by omega))
        simp only
        revert ih
        generalize innerLoop P sch (outTime interval k) fuel s' (it + 1) = r
        cases r with
        | reached s'' it'' => exact fun ih => ih
        | solverError t it'' => exact fun ih => ih
        | terminated => exact fun ih => ih
        | undefined => exact fun ih => ih
        | running =>
          intro ih
          show ∀ j, j ≤ it + (fuel + 1) → _
          exact fun j hj => ih j (by omega)
      | exn e s' =>
        rw [hr] at hstep
        cases e with
        | gridFull => exact ⟨it, hp', fun t ht => by rw [hstep] at ht; cases ht⟩
        | solver => exact ⟨it, hp', fun t ht => by rw [hstep] at ht; cases ht⟩
      | ub =>
        rw [hr] at hstep
        exact ⟨it, hp', fun t ht => by rw [hstep] at ht; cases ht⟩
    · rw [if_neg hl]; exact ⟨h, hp⟩

theorem outerLoop_pending (P : Params F D Unit) (sch : Nat → Schedule) (pr : Printer F) (cond : Condition F) (offset fuel N : Nat)
    (s0 : State F D Unit) :
    ∀ (m k : Nat) (s : State F D Unit) (it : Nat) (outs : List (OutRec F)), k + m = N → s0.afterSteps P sch it = .ok s →
      (∀ j, j < it → Pending P sch cond.outputInterval N s0 j) →
      (outerLoop P sch pr cond offset fuel m (k + 1) (outTime cond.outputInterval k) s it outs).ending = .finished ∨
      ∃ it', (∀ j, j ≤ it' → Pending P sch cond.outputInterval N s0 j) ∧ (fuel ≤ it' ∨ ∀ s, s0.afterSteps P sch (it' + 1) ≠ .ok s)
  | 0, k, s, it, outs, _, _, _ => Or.inl rfl
  | m + 1, k, s, it, outs, hkm, hs, hp => by
    unfold outerLoop
    simp only
    have hT : outTime cond.outputInterval k + cond.outputInterval = outTime cond.outputInterval (k + 1) := rfl
    rw [hT]
    have hi := innerLoop_pending P sch cond.outputInterval N (k + 1) (by omega) (by omega) s0 fuel s it hs hp
    revert hi
    generalize innerLoop P sch (outTime cond.outputInterval (k + 1)) fuel s it = r
    cases r with
    | reached s' it' =>
      rintro ⟨h1, h2⟩
      exact outerLoop_pending P sch pr cond offset fuel N s0 m (k + 1) s' it' _ (by omega) h1 h2
    | solverError t it' => rintro ⟨i, h1, h2⟩; exact Or.inr ⟨i, h1, Or.inr h2⟩
    | terminated => rintro ⟨i, h1, h2⟩; exact Or.inr ⟨i, h1, Or.inr h2⟩
    | undefined => rintro ⟨i, h1, h2⟩; exact Or.inr ⟨i, h1, Or.inr h2⟩
    | running => intro h; exact Or.inr ⟨it + fuel, h, Or.inl (by omega)⟩

/-- A run that has not finished: all states up to some step are before the last output time, and the run is watched no further or fails. -/
theorem runLoop_pending (P : Params F D Unit) (sch : Nat → Schedule) (pr : Printer F) (cond : Condition F) (fuel : Nat) (s0 : State F D Unit)
    {offset N : Nat} (h1 : toSize (cond.startTime / cond.outputInterval) = some offset)
    (h2 : toSize ((cond.endTime - cond.startTime) / cond.outputInterval) = some N) :
    (runLoop P sch pr cond fuel s0).ending = .finished ∨
    ∃ it, (∀ j, j ≤ it → Pending P sch cond.outputInterval N s0 j) ∧ (fuel ≤ it ∨ ∀ s, s0.afterSteps P sch (it + 1) ≠ .ok s) := by
  unfold runLoop
  simp only [h1, h2]
  exact outerLoop_pending P sch pr cond offset fuel N s0 N 0 s0 0 _ (by omega) rfl (fun j hj => by omega)

end OpenMps
