import Verif.Lemmas.FineWithin
import Verif.Spec.Toy

/-!
# C19 at the level of single memory accesses
-/

set_option linter.unusedSectionVars false

namespace OpenMps

variable {F : Type} {D : Nat} {ω : Type}

theorem seqRun_ro {body : Nat → Prog F D Unit} (L : List Nat) (s : State F D ω) : (seqRun body L s).ro = s.ro := by
  induction L generalizing s with
  | nil => rfl
  | cons i L ih => rw [seqRun_cons, ih, run_ro]

theorem within_no_race {own : Loc → Option Nat} {n : Nat} {c : Running F D ω} (h : Disciplined own n c) : ¬ c.Race n := by
  rintro ⟨i, j, l, hi, hj, hij, ⟨v, k, h1⟩, h2⟩
  have a := h i hi
  rw [h1] at a
  have b := h j hj
  rcases h2 with ⟨v', k', h2⟩ | ⟨k', h2⟩
  · rw [h2] at b
    exact hij (Option.some.inj (a.1.symm.trans b.1))
  · rw [h2] at b
    rcases b.1 with hb | hb
    · rw [a.1] at hb; cases hb
    · exact hij (Option.some.inj (a.1.symm.trans hb))

variable [Scalar F]

/-- **C19.**  No parallel loop of a step has a data race: whatever the memory contents, in no interleaving of the memory
accesses of its iterations do two iterations come to make conflicting accesses to the same cell. -/
theorem C19_no_data_race (P : Params F D ω) (ro : Ro F D ω) {body : Nat → Prog F D Unit} (hb : body ∈ loopBodies P ro)
    (n : Nat) (s : State F D ω) (c : Running F D ω) (h : Accesses n ⟨s, body⟩ c) : ¬ c.Race n := by
  obtain ⟨own, hw⟩ := bodies_within P ro hb
  exact within_no_race (accesses_inv (own := own) (fun i _ => hw i) h).1

/-- **C19.**  Every parallel loop of a step ends: there is no infinite sequence of memory accesses, and from every
point the iterations can run on until all are finished. -/
theorem C19_loops_end (P : Params F D ω) (ro : Ro F D ω) {body : Nat → Prog F D Unit} (hb : body ∈ loopBodies P ro)
    (n : Nat) (s : State F D ω) :
    (¬ ∃ run : Nat → Running F D ω, run 0 = ⟨s, body⟩ ∧ ∀ k, Access n (run k) (run (k + 1))) ∧
    (∀ c, Accesses n ⟨s, body⟩ c → ∃ c', Accesses n c c' ∧ c'.Finished n) := by
  obtain ⟨own, hw⟩ := bodies_within P ro hb
  constructor
  · rintro ⟨run, h0, hstep⟩
    have : ∀ k, Disciplined own n (run k) ∧ work n (run 0) = work n (run k) + k := by
      intro k
      induction k with
      | zero => exact ⟨by rw [h0]; exact fun i _ => hw i, rfl⟩
      | succ k ih =>
        have := access_inv ih.1 (hstep k)
        exact ⟨this.1, by have := this.2.2; omega⟩
    have := (this (work n (run 0) + 1)).2
    omega
  · intro c hc
    exact can_finish n c (accesses_inv (own := own) (fun i _ => hw i) hc).1

/-! ## The whole step -/

section
variable {own : Loc → Option Nat} {body : Nat → Prog F D Unit} {s t : State F D ω}

theorem parFor_iff_seq (hw : ∀ i, (body i).Within own i) : ParFor body s t ↔ t = seqRun body (List.range s.n) s := by
  constructor
  · exact parFor_eq hw
  · rintro rfl
    obtain ⟨t, ht⟩ := parFor_exists s hw
    have := parFor_eq hw ht
    rw [← this]
    exact ht

theorem parFor_iff {R : Type} {compute : State F D ω → Nat → R} {commit : Nat → R → State F D ω → State F D ω}
    (hw : ∀ i, (body i).Within own i)
    (h : ∀ (t : State F D ω) i, t.ro = s.ro → ((body i).run t).1 = commit i (compute t i) t) :
    ParFor body s t ↔ t = parLoop compute commit (serial s.n) s := by
  rw [parFor_iff_seq hw, seqRun_parLoop h s.n s rfl]

end

theorem run_keeps_ub {A : Type} (p : Prog F D A) (s : State F D ω) (h : s.ub = true) : (p.run s).1.ub = true := by
  have e : s = { s with ub := true } := by cases s; simp_all
  rw [e, (run_ub p s).1]

theorem rowCommit_keeps_ub (i : Nat) (r : RowRes) (s : State F D ω) (h : s.ub = true) : (State.rowCommit i r s).ub = true := by
  cases r <;> simp [State.rowCommit, h]

theorem row_loop (ro : Ro F D ω) (L : List Nat) (a b : State F D ω) (h : (a = b ∧ a.ro = ro) ∨ (a.ub = true ∧ b.ub = true)) :
    seqRun (rowBody ro) L a = L.foldl (fun t i => State.rowCommit i (t.rowCompute i) t) b ∨
    ((seqRun (rowBody ro) L a).ub = true ∧ (L.foldl (fun t i => State.rowCommit i (t.rowCompute i) t) b).ub = true) := by
  induction L generalizing a b with
  | nil =>
    rcases h with ⟨rfl, _⟩ | h
    · exact .inl rfl
    · exact .inr h
  | cons i L ih =>
    rw [seqRun_cons, List.foldl_cons]
    apply ih
    rcases h with ⟨rfl, hr⟩ | h
    · rcases run_rowBody (t := a) (i := i) hr with ⟨r, h1, _, h2⟩ | ⟨h1, h2⟩
      · left
        rw [h1]
        exact ⟨h2, (run_ro _ _).trans hr⟩
      · right
        refine ⟨h2, ?_⟩
        rw [h1]
        rfl
    · exact .inr ⟨run_keeps_ub _ _ h.1, rowCommit_keeps_ub _ _ _ h.2⟩

theorem searchRuns_iff (s : State F D ω) (r : Res (State F D ω)) :
    SearchRuns s r ↔ r = s.searchNeighbor (serial s.n) := by
  unfold SearchRuns State.searchNeighbor
  cases s.grid.clear? with
  | none => exact Iff.rfl
  | some g =>
    simp only
    have hn : ∀ (L : List Nat) (u t : State F D ω), State.storeAll L u = .ok t → t.n = u.n := by
      intro L
      induction L with
      | nil => intro u t h; simp only [State.storeAll, Res.ok.injEq] at h; rw [h]
      | cons i L ih =>
        intro u t h
        simp only [State.storeAll, Res.andThen, Res.bind] at h
        cases hs : u.storeOne i with
        | ub => rw [hs] at h; cases h
        | exn e v => rw [hs] at h; cases h
        | ok v =>
          rw [hs] at h
          have h1 := ih v t h
          have h2 : v.n = u.n := by
            unfold State.storeOne at hs
            split at hs
            · cases hs; rfl
            · split at hs <;> cases hs <;> rfl
          rw [h1, h2]
    cases ht : State.storeAll (List.range s.n) { s with grid := g } with
    | ub => exact Iff.rfl
    | exn e t => exact Iff.rfl
    | ok t =>
      have htn : t.n = s.n := hn (List.range s.n) { s with grid := g } t ht
      simp only [Res.andThen, Res.bind]
      have hw : ∀ i, (rowBody t.ro i).Within ownNbr i := fun _ => within_rowBody
      have hser : parLoop State.rowCompute State.rowCommit (serial s.n) t
          = (List.range s.n).foldl (fun t i => State.rowCommit i (t.rowCompute i) t) t := by
        unfold parLoop serial
        rw [parRun_serial]
      rw [hser]
      have hkey : (∃ t', ParFor (rowBody t.ro) t t' ∧ r = if t'.ub then .ub else .ok t') ↔
          r = if (seqRun (rowBody t.ro) (List.range s.n) t).ub then .ub
            else .ok (seqRun (rowBody t.ro) (List.range s.n) t) := by
        constructor
        · rintro ⟨t', h1, h2⟩
          have := (parFor_iff_seq hw).mp h1
          rw [htn] at this
          rw [← this]
          exact h2
        · intro h
          exact ⟨_, (parFor_iff_seq hw).mpr rfl, by rw [htn]; exact h⟩
      rw [hkey]
      rcases row_loop t.ro (List.range s.n) t t (.inl ⟨rfl, rfl⟩) with h | h
      · rw [h]
      · rw [if_pos h.1, if_pos h.2]

section
variable {cfg : Config} {s t : State F D ω}

theorem parFor_dens : ParFor (densBody cfg s.ro) s t ↔ t = s.computeDensities cfg (serial s.n) :=
  parFor_iff (own := ownDens) (fun _ => within_densBody) (fun _ _ h => run_densBody h)

theorem parFor_ecs : ParFor (ecsBody cfg s.ro) s t ↔ t = parLoop (State.ecsCompute cfg) State.ecsCommit (serial s.n) s :=
  parFor_iff (own := ownEcs) (fun _ => within_ecsBody) (fun _ _ h => run_ecsBody h)

theorem parFor_accel : ParFor (accelBody cfg s.ro) s t ↔ t = parLoop (State.accelCompute cfg) State.duCommit (serial s.n) s :=
  parFor_iff (own := ownDu) (fun _ => within_accelBody) (fun _ _ h => run_accelBody h)

theorem parFor_move (w : Walls F D ω) :
    ParFor (moveBody w s.ro) s t ↔ t = parLoop (State.moveCompute w) State.moveCommit (serial s.n) s :=
  parFor_iff (own := ownXU) (fun _ => within_moveBody w) (fun _ _ h => run_moveBody w h)

theorem parFor_eos : ParFor (eosBody s.ro) s t ↔ t = parLoop State.eosCompute State.presCommit (serial s.n) s :=
  parFor_iff (own := ownP) (fun _ => within_eosBody) (fun _ _ h => run_eosBody h)

theorem parFor_rhs : ParFor (rhsBody cfg s.ro) s t ↔ t = parLoop (State.rhsCompute cfg) State.rhsCommit (serial s.n) s :=
  parFor_iff (own := ownRhs) (fun _ => within_rhsBody) (fun _ _ h => run_rhsBody h)

theorem parFor_mat : ParFor (matBody cfg s.ro) s t ↔ t = parLoop (State.matCompute cfg) State.matCommit (serial s.n) s :=
  parFor_iff (own := ownRows) (fun _ => within_matBody) (fun _ _ h => run_matBody h)

theorem parFor_pres : ParFor (presBody cfg s.ro) s t ↔ t = parLoop (State.presCompute cfg) State.presCommit (serial s.n) s :=
  parFor_iff (own := ownP) (fun _ => within_presBody) (fun _ _ h => run_presBody h)

theorem parFor_grad : ParFor (gradBody cfg s.ro) s t ↔ t = parLoop (State.gradCompute cfg) State.duCommit (serial s.n) s :=
  parFor_iff (own := ownDu) (fun _ => within_gradBody) (fun _ _ h => run_gradBody h)

theorem parFor_push : ParFor (pushBody s.ro) s t ↔ t = parLoop State.pushCompute State.pushCommit (serial s.n) s :=
  parFor_iff (own := ownXU) (fun _ => within_pushBody) (fun _ _ h => run_pushBody h)

theorem parFor_ds : ParFor (dsBody cfg s.ro) s t ↔ t = parLoop (State.dsCompute cfg) State.duCommit (serial s.n) s :=
  parFor_iff (own := ownDu) (fun _ => within_dsBody) (fun _ _ h => run_dsBody h)

end

/-- The serial execution of a loop keeps the constants. -/
theorem parLoop_n {R : Type} {compute : State F D ω → Nat → R} {commit : Nat → R → State F D ω → State F D ω}
    {body : Ro F D ω → Nat → Prog F D Unit}
    (h : ∀ (t : State F D ω) i, ((body t.ro i).run t).1 = commit i (compute t i) t) (m : Nat) (s : State F D ω) :
    (parLoop compute commit (serial m) s).n = s.n := by
  rw [← seqRun_parLoop (body := body s.ro) (ro := s.ro) (fun t i ht => by rw [← ht]; exact h t i) m s rfl]
  exact congrArg Ro.n (seqRun_ro _ _)

theorem pressureRuns_iff (P : Params F D ω) (s : State F D ω) (r : Res (State F D ω)) (m : Nat) (hm : s.n = m) :
    (∃ r2, PressureRuns P s r2 ∧
      match r2 with
      | .ub => r = .ub
      | .exn e t => r = .exn e t
      | .ok s7 => ∃ s8 s9,
          ParFor (gradBody P.cfg s7.ro) s7 s8 ∧ ParFor (pushBody s8.ro) s8 s9 ∧
          if P.cfg.ds then
            ∃ s10 s11, ParFor (dsBody P.cfg s9.ro) s9 s10 ∧ ParFor (pushBody s10.ro) s10 s11 ∧ r = .ok s11
          else r = .ok s9) ↔
    r = (s.computeImplicit P (Schedule.serial m)).andThen
      (fun s => .ok (s.dynamicStabilize P.cfg (serial m) (serial m))) := by
  have hn1 : ∀ u : State F D ω, (parLoop (State.gradCompute P.cfg) State.duCommit (serial m) u).n = u.n :=
    parLoop_n (body := gradBody P.cfg) (fun _ _ => run_gradBody rfl) m
  have hn2 : ∀ u : State F D ω, (parLoop State.pushCompute State.pushCommit (serial m) u).n = u.n :=
    parLoop_n (body := pushBody) (fun _ _ => run_pushBody rfl) m
  have hn3 : ∀ u : State F D ω, (parLoop (State.dsCompute P.cfg) State.duCommit (serial m) u).n = u.n :=
    parLoop_n (body := dsBody P.cfg) (fun _ _ => run_dsBody rfl) m
  have hn4 : ∀ u : State F D ω, (parLoop State.eosCompute State.presCommit (serial m) u).n = u.n :=
    parLoop_n (body := eosBody) (fun _ _ => run_eosBody rfl) m
  have hn5 : ∀ u : State F D ω, (parLoop (State.rhsCompute P.cfg) State.rhsCommit (serial m) u).n = u.n :=
    parLoop_n (body := rhsBody P.cfg) (fun _ _ => run_rhsBody rfl) m
  have hn6 : ∀ u : State F D ω, (parLoop (State.matCompute P.cfg) State.matCommit (serial m) u).n = u.n :=
    parLoop_n (body := matBody P.cfg) (fun _ _ => run_matBody rfl) m
  have hn7 : ∀ u : State F D ω, (parLoop (State.presCompute P.cfg) State.presCommit (serial m) u).n = u.n :=
    parLoop_n (body := presBody P.cfg) (fun _ _ => run_presBody rfl) m
  have tail : ∀ s7 : State F D ω, s7.n = m →
      ((∃ s8 s9, ParFor (gradBody P.cfg s7.ro) s7 s8 ∧ ParFor (pushBody s8.ro) s8 s9 ∧
          if P.cfg.ds then
            ∃ s10 s11, ParFor (dsBody P.cfg s9.ro) s9 s10 ∧ ParFor (pushBody s10.ro) s10 s11 ∧ r = .ok s11
          else r = .ok s9) ↔
        r = .ok ((s7.modifyByGradient P.cfg (serial m) (serial m)).dynamicStabilize P.cfg (serial m) (serial m))) := by
    intro s7 h7
    simp only [parFor_grad, parFor_push, parFor_ds]
    unfold State.modifyByGradient State.dynamicStabilize
    simp only
    constructor
    · rintro ⟨s8, s9, rfl, rfl, h⟩
      rw [h7] at h
      rw [hn1, h7] at h
      by_cases hd : P.cfg.ds
      · rw [if_pos hd] at h ⊢
        obtain ⟨s10, s11, rfl, rfl, h⟩ := h
        rw [hn2, hn1, h7, hn3, hn2, hn1, h7] at h
        exact h
      · rw [if_neg hd] at h ⊢
        exact h
    · intro h
      refine ⟨_, _, rfl, rfl, ?_⟩
      rw [h7, hn1, h7]
      by_cases hd : P.cfg.ds
      · rw [if_pos hd] at h ⊢
        refine ⟨_, _, rfl, rfl, ?_⟩
        rw [hn2, hn1, h7, hn3, hn2, hn1, h7]
        exact h
      · rw [if_neg hd] at h ⊢
        exact h
  unfold PressureRuns State.computeImplicit
  simp only
  by_cases he : P.cfg.explicit
  · simp only [he, if_true, parFor_eos, Res.andThen, Res.bind]
    constructor
    · rintro ⟨r2, ⟨t, rfl, rfl⟩, h⟩
      rw [hm] at h
      exact (tail _ ((hn4 s).trans hm)).mp h
    · intro h
      refine ⟨_, ⟨_, rfl, rfl⟩, ?_⟩
      rw [hm]
      exact (tail _ ((hn4 s).trans hm)).mpr h
  · simp only [he, Bool.false_eq_true, if_false]
    have e0 : ∀ t1 : State F D ω, ParFor (rhsBody P.cfg s.ro) { s with ppe := { s.ppe with size := s.n } } t1 ↔
        t1 = parLoop (State.rhsCompute P.cfg) State.rhsCommit (serial m) { s with ppe := { s.ppe with size := s.n } } := by
      intro t1
      rw [← hm]
      exact parFor_rhs (s := { s with ppe := { s.ppe with size := s.n } })
    unfold State.setPpe
    have hser : ∀ k, Schedule.serial m k = serial m := fun _ => rfl
    simp only [e0, parFor_mat, hser]
    have hs1 : (parLoop (State.rhsCompute P.cfg) State.rhsCommit (serial m)
        { s with ppe := { s.ppe with size := s.n } }).n = m := (hn5 _).trans hm
    generalize parLoop (State.rhsCompute P.cfg) State.rhsCommit (serial m)
      { s with ppe := { s.ppe with size := s.n } } = u1 at hs1
    have hs2 : (parLoop (State.matCompute P.cfg) State.matCommit (serial m) u1).n = m := (hn6 _).trans hs1
    have fin : ∀ (u2 : State F D ω), u2.n = m →
        ((∃ r2 : Res (State F D ω), (match State.solvePpe P.eps { u2 with ppe := { u2.ppe with A := assemble u2.n u2.ppe.rows } } with
          | .ub => r2 = .ub
          | .exn e t => r2 = .exn e t
          | .ok t3 => ∃ t4, ParFor (presBody P.cfg t3.ro) t3 t4 ∧ r2 = .ok t4) ∧
          match r2 with
          | .ub => r = .ub
          | .exn e t => r = .exn e t
          | .ok s7 => ∃ s8 s9,
              ParFor (gradBody P.cfg s7.ro) s7 s8 ∧ ParFor (pushBody s8.ro) s8 s9 ∧
              if P.cfg.ds then
                ∃ s10 s11, ParFor (dsBody P.cfg s9.ro) s9 s10 ∧ ParFor (pushBody s10.ro) s10 s11 ∧ r = .ok s11
              else r = .ok s9) ↔
        r = (((State.solvePpe P.eps { u2 with ppe := { u2.ppe with A := assemble u2.n u2.ppe.rows } }).andThen
            (fun s => .ok (parLoop (State.presCompute P.cfg) State.presCommit (serial m) s))).andThen
            (fun s => .ok (s.modifyByGradient P.cfg (serial m) (serial m)))).andThen
            (fun s => .ok (s.dynamicStabilize P.cfg (serial m) (serial m)))) := by
      intro u2 hu2
      have hsolve : ∀ (v t3 : State F D ω), State.solvePpe P.eps v = .ok t3 → t3.n = v.n := by
        intro v t3 h
        unfold State.solvePpe at h
        simp only at h
        split at h
        · cases h; rfl
        · cases h
      cases hsol : State.solvePpe P.eps { u2 with ppe := { u2.ppe with A := assemble u2.n u2.ppe.rows } } with
      | ub => simp [Res.andThen, Res.bind]
      | exn e t => simp [Res.andThen, Res.bind]
      | ok t3 =>
        have h3 : t3.n = m := (hsolve _ _ hsol).trans hu2
        simp only [parFor_pres, Res.andThen, Res.bind]
        constructor
        · rintro ⟨r2, ⟨t4, rfl, rfl⟩, h⟩
          rw [h3] at h
          exact (tail _ ((hn7 t3).trans h3)).mp h
        · intro h
          refine ⟨_, ⟨_, rfl, rfl⟩, ?_⟩
          rw [h3]
          exact (tail _ ((hn7 t3).trans h3)).mpr h
    constructor
    · rintro ⟨r2, ⟨t1, t2, rfl, rfl, h2⟩, h⟩
      rw [hs1] at h2
      exact (fin _ hs2).mp ⟨r2, h2, h⟩
    · intro h
      obtain ⟨r2, h2, h3⟩ := (fin _ hs2).mpr h
      refine ⟨r2, ⟨_, _, rfl, rfl, ?_⟩, h3⟩
      rw [hs1]
      exact h2

/-- **C19.**  However the single memory accesses of the iterations of all parallel loops of `ForwardTime(dt)` are
interleaved, the step ends with the outcome and the complete state of the serial execution, bit for bit; and
the serial outcome is a possible outcome. -/
theorem C19_every_interleaving_of_memory_accesses (P : Params F D ω) (s : State F D ω) (dt : F) (r : Res (State F D ω)) :
    StepRuns P dt s r ↔ r = s.forwardTime P (Schedule.serial s.n) dt := by
  unfold StepRuns State.forwardTime
  simp only [searchRuns_iff]
  have hser : ∀ k, Schedule.serial s.n k = serial s.n := fun _ => rfl
  simp only [hser, exists_eq_left]
  show (match State.searchNeighbor (serial s.n) { s with env := { s.env with dt := dt }.setNextT } with
    | .ub => r = .ub
    | .exn e t => r = .exn e t
    | .ok s1 => _) ↔ r = (State.searchNeighbor (serial s.n) { s with env := { s.env with dt := dt }.setNextT }).andThen _
  have hnS : ∀ s1, State.searchNeighbor (serial s.n) { s with env := { s.env with dt := dt }.setNextT } = .ok s1 → s1.n = s.n := by
    intro s1 h
    unfold State.searchNeighbor at h
    simp only at h
    cases hg : s.grid.clear? with
    | none => rw [hg] at h; cases h
    | some g =>
      rw [hg] at h
      simp only [Res.andThen, Res.bind] at h
      have hn : ∀ (L : List Nat) (u t : State F D ω), State.storeAll L u = .ok t → t.n = u.n := by
        intro L
        induction L with
        | nil => intro u t h; simp only [State.storeAll, Res.ok.injEq] at h; rw [h]
        | cons i L ih =>
          intro u t h
          simp only [State.storeAll, Res.andThen, Res.bind] at h
          cases hs : u.storeOne i with
          | ub => rw [hs] at h; cases h
          | exn e v => rw [hs] at h; cases h
          | ok v =>
            rw [hs] at h
            have h1 := ih v t h
            have h2 : v.n = u.n := by
              unfold State.storeOne at hs
              split at hs
              · cases hs; rfl
              · split at hs <;> cases hs <;> rfl
            rw [h1, h2]
      cases ht : State.storeAll (List.range s.n) ({ s with env := { s.env with dt := dt }.setNextT, grid := g } : State F D ω) with
      | ub => rw [ht] at h; cases h
      | exn e v => rw [ht] at h; cases h
      | ok v =>
        rw [ht] at h
        simp only at h
        have hv : v.n = s.n := hn (List.range s.n) { s with env := { s.env with dt := dt }.setNextT, grid := g } v ht
        have hrow : (parLoop State.rowCompute State.rowCommit (serial s.n) v).n = v.n := by
          have hser : parLoop State.rowCompute State.rowCommit (serial s.n) v
              = (List.range s.n).foldl (fun t i => State.rowCommit i (t.rowCompute i) t) v := by
            unfold parLoop serial
            rw [parRun_serial]
          rw [hser]
          generalize List.range s.n = L
          clear h hser hv ht
          induction L generalizing v with
          | nil => rfl
          | cons i L ih =>
            rw [List.foldl_cons, ih]
            cases v.rowCompute i <;> rfl
        split at h
        · cases h
        · cases h
          exact hrow.trans hv
  cases hS : State.searchNeighbor (serial s.n) { s with env := { s.env with dt := dt }.setNextT } with
  | ub => exact Iff.rfl
  | exn e t => exact Iff.rfl
  | ok s1 =>
    have h1 := hnS s1 hS
    clear hS hnS
    simp only [Res.andThen, Res.bind]
    generalize hm : s.n = m at h1
    clear hm
    have hd : ∀ u : State F D ω, (u.computeDensities P.cfg (serial m)).n = u.n :=
      parLoop_n (body := densBody P.cfg) (fun _ _ => run_densBody rfl) m
    have he : ∀ u : State F D ω, (parLoop (State.ecsCompute P.cfg) State.ecsCommit (serial m) u).n = u.n :=
      parLoop_n (body := ecsBody P.cfg) (fun _ _ => run_ecsBody rfl) m
    have ha : ∀ u : State F D ω, (parLoop (State.accelCompute P.cfg) State.duCommit (serial m) u).n = u.n :=
      parLoop_n (body := accelBody P.cfg) (fun _ _ => run_accelBody rfl) m
    have hv : ∀ u : State F D ω, (parLoop (State.moveCompute P.walls) State.moveCommit (serial m) u).n = u.n :=
      parLoop_n (body := moveBody P.walls) (fun _ _ => run_moveBody P.walls rfl) m
    have e2 : ∀ t, ParFor (densBody P.cfg s1.ro) s1 t ↔ t = s1.computeDensities P.cfg (serial m) := by
      intro t; rw [← h1]; exact parFor_dens
    have h2 : (s1.computeDensities P.cfg (serial m)).n = m := (hd _).trans h1
    generalize s1.computeDensities P.cfg (serial m) = s2 at e2 h2
    have e3 : ∀ t, (if P.cfg.ecs then ParFor (ecsBody P.cfg s2.ro) s2 t else t = s2) ↔ t = s2.computeEcs P.cfg (serial m) := by
      intro t
      unfold State.computeEcs
      by_cases hc : P.cfg.ecs
      · rw [if_pos hc, if_pos hc, ← h2]; exact parFor_ecs
      · rw [if_neg hc, if_neg hc]
    have h3 : (s2.computeEcs P.cfg (serial m)).n = m := by
      unfold State.computeEcs
      split
      · exact (he _).trans h2
      · exact h2
    generalize s2.computeEcs P.cfg (serial m) = s3 at e3 h3
    have e4 : ∀ t, ParFor (accelBody P.cfg s3.ro) s3 t ↔ t = parLoop (State.accelCompute P.cfg) State.duCommit (serial m) s3 := by
      intro t; rw [← h3]; exact parFor_accel
    have h4 := (ha s3).trans h3
    unfold State.computeExplicit
    simp only
    generalize parLoop (State.accelCompute P.cfg) State.duCommit (serial m) s3 = s4 at e4 h4
    have e5 : ∀ t, ParFor (moveBody P.walls ({ s4 with world := P.walls.pre s4.world s4.env.t s4.env.dt } : State F D ω).ro)
        { s4 with world := P.walls.pre s4.world s4.env.t s4.env.dt } t ↔
        t = parLoop (State.moveCompute P.walls) State.moveCommit (serial m)
          { s4 with world := P.walls.pre s4.world s4.env.t s4.env.dt } := by
      intro t; rw [← h4]
      exact parFor_move (s := { s4 with world := P.walls.pre s4.world s4.env.t s4.env.dt }) P.walls
    have h5 : (parLoop (State.moveCompute P.walls) State.moveCommit (serial m)
          { s4 with world := P.walls.pre s4.world s4.env.t s4.env.dt }).n = m := (hv _).trans h4
    generalize parLoop (State.moveCompute P.walls) State.moveCommit (serial m)
          { s4 with world := P.walls.pre s4.world s4.env.t s4.env.dt } = s5 at e5 h5
    have e6 : ∀ t, ParFor (densBody P.cfg s5.ro) s5 t ↔ t = s5.computeDensities P.cfg (serial m) := by
      intro t; rw [← h5]; exact parFor_dens
    have h6 := (hd s5).trans h5
    generalize s5.computeDensities P.cfg (serial m) = s6 at e6 h6
    have h7 : (s6.saveX P.cfg).n = m := by
      unfold State.saveX
      split
      · exact h6
      · exact h6
    have key := pressureRuns_iff P (s6.saveX P.cfg) r m h7
    constructor
    · rintro ⟨t2, t3, t4, t5, t6, q2, q3, q4, q5, q6, q⟩
      rw [e2] at q2; subst q2
      rw [e3] at q3; subst q3
      rw [e4] at q4; subst q4
      have q5' := (e5 t5).mp q5; subst q5'
      rw [e6] at q6; subst q6
      exact key.mp q
    · intro h
      exact ⟨s2, s3, s4, s5, s6, (e2 _).mpr rfl, (e3 _).mpr rfl, (e4 _).mpr rfl, (e5 _).mpr rfl, (e6 _).mpr rfl, key.mpr h⟩

/-! ## Non-vacuity -/

/-- The discipline is not automatic: a loop whose iterations all add into one cell (a sum without
reduction clause) has a race ... -/
example (s : State F D ω) : ∃ c, Accesses 2 ⟨s, fun _ => do let a ← rd (.p 0); wr (.p 0) (a + 1)⟩ c ∧ c.Race 2 := by
  refine ⟨_, Relation.ReflTransGen.single (Access.load (i := 0) (by decide) rfl), 0, 1, .p 0, by decide, by decide, by decide,
    ⟨_, _, rfl⟩, Or.inr ⟨_, rfl⟩⟩

section
attribute [local instance] instScalarInt

/-- ... and its result depends on the interleaving: an update can get lost. -/
example : ∃ t1 t2 : State Int 2 Nat, let body : Nat → Prog Int 2 Unit := fun _ => do
      let a ← rd (.p 0); wr (.p 0) (a + 1)
    ParFor body { toyNew with n := 2 } t1 ∧ ParFor body { toyNew with n := 2 } t2 ∧ (t1.ps 0).p = 2 ∧ (t2.ps 0).p = 1 := by
  refine ⟨_, _, ⟨_, ((((Relation.ReflTransGen.refl.tail (Access.load (i := 0) (by decide) rfl)).tail
      (Access.store (i := 0) (by decide) rfl)).tail (Access.load (i := 1) (by decide) rfl)).tail
      (Access.store (i := 1) (by decide) rfl)), ?_, rfl⟩,
    ⟨_, ((((Relation.ReflTransGen.refl.tail (Access.load (i := 0) (by decide) rfl)).tail
      (Access.load (i := 1) (by decide) rfl)).tail (Access.store (i := 0) (by decide) rfl)).tail
      (Access.store (i := 1) (by decide) rfl)), ?_, rfl⟩, ?_, ?_⟩
  · intro i hi
    have hi : i < 2 := hi
    obtain rfl | rfl : i = 0 ∨ i = 1 := by omega
    · rfl
    · rfl
  · intro i hi
    have hi : i < 2 := hi
    obtain rfl | rfl : i = 0 ∨ i = 1 := by omega
    · rfl
    · rfl
  · rfl
  · rfl

/-- A step with neighbours, a wall and a particle outside the box can be run access by access. -/
example : ∃ s', StepRuns (toyP 0) 1 toyState (.ok s') ∧ (s'.ps 3).ty = .disabled ∧ (s'.ps 0).u = ![-4, 3] ∧ (s'.ps 2).p = 5 := by
  obtain ⟨s', h1, h2⟩ := Res.check_ok (r := toyState.forwardTime (toyP 0) (Schedule.serial toyState.n) 1)
    (f := fun s' => decide ((s'.ps 3).ty = .disabled ∧ (s'.ps 0).u = ![-4, 3] ∧ (s'.ps 2).p = 5)) (by decide +kernel)
  exact ⟨s', (C19_every_interleaving_of_memory_accesses _ _ _ _).mpr h1.symm, of_decide_eq_true h2⟩

end

end OpenMps
