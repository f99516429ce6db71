import Verif.Spec.Main

/-! # Lemmas about the output loop -/

namespace OpenMps

variable {F : Type} [Scalar F] {D : Nat}

/-- What the loops guarantee about the outputs: `outs[k]` is the state after `iteration` steps; each is the first state not before
its output time. -/
structure OutsOK (P : Params F D Unit) (sch : Nat → Schedule) (pr : Printer F) (cond : Condition F) (offset : Nat) (s0 : State F D Unit)
    (outs : List (OutRec F)) : Prop where
  each : ∀ (k : Nat) rec, outs[k]? = some rec → rec.number = offset + k ∧ ∃ s, s0.afterSteps P sch rec.iteration = .ok s ∧
    rec.text = outputToCsv pr s.particles ∧ rec.count = enabledCount s.particles ∧
    rec.time = (if k = 0 then cond.startTime else s.env.t + cond.startTime) ∧
    (0 < k → Scalar.lt s.env.t (outTime cond.outputInterval k) = false)
  next : ∀ (k : Nat) rec rec', outs[k]? = some rec → outs[k + 1]? = some rec' → rec.iteration ≤ rec'.iteration ∧
    ∀ it, rec.iteration ≤ it → it < rec'.iteration → ∃ s, s0.afterSteps P sch it = .ok s ∧
      Scalar.lt s.env.t (outTime cond.outputInterval (k + 1)) = true
  first : ∀ rec, outs[0]? = some rec → rec.iteration = 0

/-- The inner loop. -/
theorem innerLoop_spec (P : Params F D Unit) (sch : Nat → Schedule) (nextT : F) (s0 : State F D Unit) :
    ∀ (fuel : Nat) (s : State F D Unit) (it : Nat), s0.afterSteps P sch it = .ok s →
      match innerLoop P sch nextT fuel s it with
      | .reached s' it' => it ≤ it' ∧ s0.afterSteps P sch it' = .ok s' ∧ Scalar.lt s'.env.t nextT = false ∧
          ∀ j, it ≤ j → j < it' → ∃ sj, s0.afterSteps P sch j = .ok sj ∧ Scalar.lt sj.env.t nextT = true
      | .solverError t it' => ∃ s1 s2, s0.afterSteps P sch it' = .ok s1 ∧ s1.env.t = t ∧ s0.afterSteps P sch (it' + 1) = .exn .solver s2
      | .terminated => ∃ it' s1 s2, s0.afterSteps P sch it' = .ok s1 ∧ s0.afterSteps P sch (it' + 1) = .exn .gridFull s2
      | .undefined => ∃ it' s1, s0.afterSteps P sch it' = .ok s1 ∧ s0.afterSteps P sch (it' + 1) = .ub
      | .running => ∃ s', s0.afterSteps P sch (it + fuel) = .ok s' ∧ Scalar.lt s'.env.t nextT = true
  | 0, s, it, h => by
    unfold innerLoop
    by_cases hl : Scalar.lt s.env.t nextT = true
    · rw [if_pos hl]; exact ⟨s, h, hl⟩
    · rw [if_neg hl]
      exact ⟨le_refl _, h, by simpa using hl, fun j h1 h2 => by omega⟩
  | fuel + 1, s, it, h => by
    unfold innerLoop
    have hstep : s0.afterSteps P sch (it + 1) = s.forwardTimeAuto P (sch it) := by
      show (s0.afterSteps P sch it).andThen _ = _
      rw [h]; rfl
    by_cases hl : Scalar.lt s.env.t nextT = true
    · rw [if_pos hl]
      cases hr : s.forwardTimeAuto P (sch it) with
      | ok s' =>
        rw [hr] at hstep
        have ih := innerLoop_spec P sch nextT s0 fuel s' (it + 1) hstep
        simp only
        revert ih
        generalize innerLoop P sch nextT fuel s' (it + 1) = r
        cases r with
        | reached s'' it'' =>
          rintro ⟨h1, h2, h3, h4⟩
          refine ⟨by omega, h2, h3, fun j hj1 hj2 => ?_⟩
          by_cases hj : j = it
          · subst hj; exact ⟨s, h, hl⟩
          · exact h4 j (by omega) hj2
        | solverError t it'' => exact fun ih => ih
        | terminated => exact fun ih => ih
        | undefined => exact fun ih => ih
        | running =>
          rintro ⟨s'', h'', hl''⟩
          exact ⟨s'', by rw [← h'']; congr 1; omega, hl''⟩
      | exn e s' =>
        rw [hr] at hstep
        cases e with
        | gridFull => exact ⟨it, s, s', h, hstep⟩
        | solver => exact ⟨s, s', h, rfl, hstep⟩
      | ub =>
        rw [hr] at hstep
        exact ⟨it, s, h, hstep⟩
    · rw [if_neg hl]
      exact ⟨le_refl _, h, by simpa using hl, fun j h1 h2 => by omega⟩

/-- What the end of the program says about the steps. -/
def EndOK (P : Params F D Unit) (sch : Nat → Schedule) (interval : F) (offset endCount fuel : Nat) (s0 : State F D Unit) (r : MainRes F) : Prop :=
  match r.ending with
  | .finished => r.outs.length = endCount + 1
  | .solverError t it num => r.outs.length ≤ endCount ∧ num = offset + r.outs.length ∧
      ∃ s1 s2, s0.afterSteps P sch it = .ok s1 ∧ s1.env.t = t ∧ s0.afterSteps P sch (it + 1) = .exn .solver s2
  | .terminated => r.outs.length ≤ endCount ∧
      ∃ it s1 s2, s0.afterSteps P sch it = .ok s1 ∧ s0.afterSteps P sch (it + 1) = .exn .gridFull s2
  | .undefined => r.outs.length ≤ endCount ∧ ∃ it s1, s0.afterSteps P sch it = .ok s1 ∧ s0.afterSteps P sch (it + 1) = .ub
  | .running => r.outs.length ≤ endCount ∧ ∃ it s', fuel ≤ it ∧ s0.afterSteps P sch it = .ok s' ∧
      Scalar.lt s'.env.t (outTime interval r.outs.length) = true

theorem outerLoop_spec (P : Params F D Unit) (sch : Nat → Schedule) (pr : Printer F) (cond : Condition F) (offset fuel : Nat)
    (s0 : State F D Unit) :
    ∀ (m k : Nat) (s : State F D Unit) (it : Nat) (outs : List (OutRec F)) (last : OutRec F), outs.length = k + 1 →
      OutsOK P sch pr cond offset s0 outs → outs[k]? = some last → last.iteration = it → s0.afterSteps P sch it = .ok s →
      OutsOK P sch pr cond offset s0 (outerLoop P sch pr cond offset fuel m (k + 1) (outTime cond.outputInterval k) s it outs).outs ∧
      outs <+: (outerLoop P sch pr cond offset fuel m (k + 1) (outTime cond.outputInterval k) s it outs).outs ∧
      EndOK P sch cond.outputInterval offset (k + m) fuel s0 (outerLoop P sch pr cond offset fuel m (k + 1) (outTime cond.outputInterval k) s it outs)
  | 0, k, s, it, outs, last, hlen, hok, _, _, _ => ⟨hok, List.prefix_refl _, hlen⟩
  | m + 1, k, s, it, outs, last, hlen, hok, hlast, hit, hs => by
    unfold outerLoop
    simp only
    have hT : outTime cond.outputInterval k + cond.outputInterval = outTime cond.outputInterval (k + 1) := rfl
    rw [hT]
    have hi := innerLoop_spec P sch (outTime cond.outputInterval (k + 1)) s0 fuel s it hs
    revert hi
    generalize innerLoop P sch (outTime cond.outputInterval (k + 1)) fuel s it = r
    cases r with
    | reached s' it' =>
      rintro ⟨h1, h2, h3, h4⟩
      simp only
      have hok' : OutsOK P sch pr cond offset s0 (outs ++ [mkOut pr (k + 1 + offset) (s'.env.t + cond.startTime) it' s']) := by
        refine ⟨?_, ?_, ?_⟩
        · intro j rec hj
          rcases Nat.lt_trichotomy j (k + 1) with hjk | hjk | hjk
          · rw [List.getElem?_append_left (by omega)] at hj
            exact hok.each j rec hj
          · subst hjk
            rw [List.getElem?_append_right (by omega), hlen] at hj
            simp only [Nat.sub_self, List.getElem?_cons_zero, Option.some.injEq] at hj
            subst hj
            refine ⟨?_, s', h2, rfl, rfl, ?_, fun _ => h3⟩
            · show k + 1 + offset = offset + (k + 1)
              omega
            · rw [if_neg (by omega)]; rfl
          · rw [List.getElem?_eq_none (by simp; omega)] at hj; cases hj
        · intro j rec rec' hj hj'
          rcases Nat.lt_trichotomy j k with hjk | hjk | hjk
          · rw [List.getElem?_append_left (by omega)] at hj hj'
            exact hok.next j rec rec' hj hj'
          · subst hjk
            rw [List.getElem?_append_left (by omega)] at hj
            rw [List.getElem?_append_right (by omega), hlen] at hj'
            simp only [Nat.sub_self, List.getElem?_cons_zero, Option.some.injEq] at hj'
            subst hj'
            rw [hlast] at hj
            cases hj
            subst hit
            exact ⟨h1, h4⟩
          · rw [List.getElem?_eq_none (by simp; omega)] at hj'; cases hj'
        · intro rec hrec
          rw [List.getElem?_append_left (by omega)] at hrec
          exact hok.first rec hrec
      have ih := outerLoop_spec P sch pr cond offset fuel s0 m (k + 1) s' it' _
        (mkOut pr (k + 1 + offset) (s'.env.t + cond.startTime) it' s') (by simp [hlen]) hok'
        (by rw [List.getElem?_append_right (by omega), hlen]; simp) rfl h2
      refine ⟨ih.1, (List.prefix_append _ _).trans ih.2.1, ?_⟩
      have : k + 1 + m = k + (m + 1) := by omega
      rw [← this]
      exact ih.2.2
    | solverError t it' =>
      intro h
      exact ⟨hok, List.prefix_refl _, by show outs.length ≤ _; omega, by show _ = offset + outs.length; omega, h⟩
    | terminated =>
      intro h
      exact ⟨hok, List.prefix_refl _, by show outs.length ≤ _; omega, h⟩
    | undefined =>
      intro h
      exact ⟨hok, List.prefix_refl _, by show outs.length ≤ _; omega, h⟩
    | running =>
      intro h
      exact ⟨hok, List.prefix_refl _, by show outs.length ≤ _; omega, it + fuel, h.choose, by omega, h.choose_spec.1,
        by show Scalar.lt _ (outTime _ outs.length) = true; rw [hlen]; exact h.choose_spec.2⟩

/-- The whole loop of `main`. -/
theorem runLoop_spec (P : Params F D Unit) (sch : Nat → Schedule) (pr : Printer F) (cond : Condition F) (fuel : Nat) (s0 : State F D Unit)
    {offset endCount : Nat} (h1 : toSize (cond.startTime / cond.outputInterval) = some offset)
    (h2 : toSize ((cond.endTime - cond.startTime) / cond.outputInterval) = some endCount) :
    OutsOK P sch pr cond offset s0 (runLoop P sch pr cond fuel s0).outs ∧
    EndOK P sch cond.outputInterval offset endCount fuel s0 (runLoop P sch pr cond fuel s0) ∧ 0 < (runLoop P sch pr cond fuel s0).outs.length := by
  unfold runLoop
  simp only [h1, h2]
  have h := outerLoop_spec P sch pr cond offset fuel s0 endCount 0 s0 0 [mkOut pr offset cond.startTime 0 s0]
    (mkOut pr offset cond.startTime 0 s0) rfl
    ⟨fun k rec hk => by
        match k with
        | 0 =>
          simp only [List.getElem?_cons_zero, Option.some.injEq] at hk
          subst hk
          exact ⟨rfl, s0, rfl, rfl, rfl, rfl, fun h => absurd h (by omega)⟩
        | k + 1 => simp at hk,
      fun k rec rec' hk hk' => by simp at hk',
      fun rec hrec => by
        simp only [List.getElem?_cons_zero, Option.some.injEq] at hrec
        subst hrec; rfl⟩
    rfl rfl rfl
  simp only [Nat.zero_add] at h
  refine ⟨h.1, h.2.2, ?_⟩
  exact lt_of_lt_of_le (by simp) h.2.1.length_le

/-- After the first step that does not return there are no more states. -/
theorem afterSteps_stuck (P : Params F D Unit) (sch : Nat → Schedule) (s0 : State F D Unit) {k : Nat}
    (h : ∀ s, s0.afterSteps P sch k ≠ .ok s) : ∀ j, k ≤ j → s0.afterSteps P sch j = s0.afterSteps P sch k := by
  intro j hj
  induction j, hj using Nat.le_induction with
  | base => rfl
  | succ j _ ih =>
    show (s0.afterSteps P sch j).andThen _ = _
    rw [ih]
    cases hk : s0.afterSteps P sch k with
    | ok s => exact absurd hk (h s)
    | exn e s => rfl
    | ub => rfl

/-- The step that fails is unique. -/
theorem afterSteps_unique (P : Params F D Unit) (sch : Nat → Schedule) (s0 : State F D Unit) {i j : Nat} {s t : State F D Unit}
    (hi : s0.afterSteps P sch i = .ok s) (hi' : ∀ s, s0.afterSteps P sch (i + 1) ≠ .ok s)
    (hj : s0.afterSteps P sch j = .ok t) (hj' : ∀ s, s0.afterSteps P sch (j + 1) ≠ .ok s) : i = j := by
  rcases Nat.lt_trichotomy i j with h | h | h
  · exact absurd (by rw [← afterSteps_stuck P sch s0 hi' j h]; exact hj) (hi' t)
  · exact h
  · exact absurd (by rw [← afterSteps_stuck P sch s0 hj' i h]; exact hi) (hj' s)

end OpenMps
