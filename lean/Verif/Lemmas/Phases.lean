import Verif.Model.Computer
import Verif.Lemmas.Par

/-! Closed (snapshot) forms of the parallel loops: for every valid schedule. -/

set_option linter.unusedSectionVars false
set_option linter.unnecessarySeqFocus false

namespace OpenMps

theorem foldl_range_closed {S : Type} (f : S → Nat → S) (s0 : S) (P : Nat → S) (h0 : P 0 = s0)
    (hs : ∀ k, f (P k) k = P (k + 1)) (n : Nat) : (List.range n).foldl f s0 = P n := by
  induction n with
  | zero => simp [h0]
  | succ n ih => rw [List.range_succ, List.foldl_append, ih]; simp [hs]

variable {F : Type} [Scalar F] {D : Nat} {ω : Type}

@[simp] theorem upd_same {α : Type} (f : Nat → α) (i : Nat) (v : α) : upd f i v i = v := by simp [upd]

theorem upd_ne {α : Type} (f : Nat → α) {i j : Nat} (v : α) (h : j ≠ i) : upd f i v j = f j := by
  simp [upd, h]

theorem upd_comm {α : Type} (f : Nat → α) {i j : Nat} (v w : α) (h : i ≠ j) :
    upd (upd f i v) j w = upd (upd f j w) i v := by
  funext k; simp only [upd]; grind

/-! ### Congruence of the interaction sums -/

/-- `accumulate` reads positions, the interaction function at the particles themselves, `nNoSpp i`, the velocity
of `i` and the neighbour row of `i`. -/
theorem accumulate_congr {A : Type} [Add A] (cfg : Config) (s s' : State F D ω) (i : Nat) (zero : A)
    (func func' : Int → Particle F D → A)
    (henv : s.env = s'.env) (hnbr : s.nbr i = s'.nbr i)
    (hx : ∀ j, (s.ps j).x = (s'.ps j).x) (hu : (s.ps i).u = (s'.ps i).u)
    (hn : s.nNoSpp i = s'.nNoSpp i)
    (hf : ∀ j : Nat, func (j : Int) (s.ps j) = func' (j : Int) (s'.ps j))
    (hspp : ∀ q, func (-1) q = func' (-1) q) :
    s.accumulate cfg i zero func = s'.accumulate cfg i zero func' := by
  have hl : s.accLoop i zero func = s'.accLoop i zero func' := by
    unfold State.accLoop State.neighbors
    simp only [henv, hnbr, hx, hf]
  unfold State.accumulate
  rw [hl]
  have hs : ∀ v, s.sppParticle i v = s'.sppParticle i v := by
    intro v
    unfold State.sppParticle
    simp only [henv, hx, hu, hn]
  simp only [hs, hspp]

/-! ### Densities -/

theorem densCompute_commit (cfg : Config) (s : State F D ω) (i j : Nat) (r : F × Option F) (h : i ≠ j) :
    State.densCompute cfg (State.densCommit cfg j r s) i = State.densCompute cfg s i := by
  have hps : ∀ k, ((State.densCommit cfg j r s).ps k).x = (s.ps k).x := by
    intro k
    unfold State.densCommit
    cases r.2 with
    | none => rfl
    | some v => simp only [upd]; split <;> simp_all
  have hpi : (State.densCommit cfg j r s).ps i = s.ps i := by
    unfold State.densCommit
    cases r.2 with
    | none => rfl
    | some v => simp [upd_ne _ _ h]
  unfold State.densCompute
  simp only [hpi]
  have henv : (State.densCommit cfg j r s).env = s.env := rfl
  rw [henv]
  split
  · refine Prod.ext ?_ ?_
    · apply accumulate_congr
      · split <;> rfl
      · split <;> rfl
      · intro k; split <;> exact hps k
      · split <;> simp [hpi]
      · split <;> simp_all [State.densCommit, upd]
      · intro k; cases cfg.spp <;> simp [hps]
      · intro q; rfl
    · simp only
      congr 2
      · congr 1
        apply accumulate_congr
        · split <;> rfl
        · split <;> rfl
        · intro k; split <;> exact hps k
        · split <;> simp [hpi]
        · split <;> simp_all [State.densCommit, upd]
        · intro k; cases cfg.spp <;> simp [hps]
        · intro q; rfl
      · apply accumulate_congr
        · split <;> rfl
        · split <;> rfl
        · intro k; split <;> exact hps k
        · split <;> simp [hpi]
        · split <;> simp_all [State.densCommit, upd]
        · intro k; cases cfg.spp <;> simp [hps]
        · intro q; rfl
  · rfl

theorem densCommit_comm (cfg : Config) (s : State F D ω) (i j : Nat) (r r' : F × Option F) (h : i ≠ j) :
    State.densCommit cfg i r (State.densCommit cfg j r' s)
      = State.densCommit cfg j r' (State.densCommit cfg i r s) := by
  unfold State.densCommit
  cases hr : r.2 <;> cases hr' : r'.2 <;> simp only [upd_ne _ _ h, upd_ne _ _ (Ne.symm h)] <;>
    congr 1 <;> first
    | (split <;> first | rfl | exact upd_comm _ _ _ (Ne.symm h))
    | exact upd_comm _ _ _ (Ne.symm h)

/-- Closed form of `ComputeNeighborDensities`. -/
theorem computeDensities_eq (cfg : Config) (s : State F D ω) (sch : List Ev) (hv : ValidSched s.n sch) :
    s.computeDensities cfg sch =
      { s with
        nNoSpp := if cfg.spp then (fun i => if i < s.n then (s.densCompute cfg i).1 else s.nNoSpp i)
          else s.nNoSpp
        ps := fun i => if i < s.n then
            (match (s.densCompute cfg i).2 with
              | some v => { s.ps i with n := v }
              | none => s.ps i)
          else s.ps i } := by
  unfold State.computeDensities
  rw [parLoop_eq hv (densCompute_commit cfg) (densCommit_comm cfg)]
  refine foldl_range_closed _ _ (fun k => { s with
        nNoSpp := if cfg.spp then (fun i => if i < k then (s.densCompute cfg i).1 else s.nNoSpp i)
          else s.nNoSpp
        ps := fun i => if i < k then
            (match (s.densCompute cfg i).2 with
              | some v => { s.ps i with n := v }
              | none => s.ps i)
          else s.ps i }) ?_ ?_ s.n
  · simp
  · intro k
    unfold State.densCommit
    simp only [lt_irrefl, if_false]
    congr 1
    · funext i
      cases hk : (s.densCompute cfg k).2 with
      | none =>
        simp only
        by_cases h : i = k
        · subst h; simp [hk]
        · have : i < k + 1 ↔ i < k := by omega
          simp [this]
      | some v =>
        simp only [upd]
        by_cases h : i = k
        · subst h; simp [hk]
        · have : i < k + 1 ↔ i < k := by omega
          simp [this, h]
    · split
      · funext i
        simp only [upd]
        by_cases h : i = k
        · subst h; simp
        · have : i < k + 1 ↔ i < k := by omega
          simp [this, h]
      · rfl

/-! ### ECS -/

theorem computeEcs_eq (cfg : Config) (s : State F D ω) (sch : List Ev) (hv : ValidSched s.n sch) :
    s.computeEcs cfg sch =
      { s with ecs := if cfg.ecs then
          (fun i => if i < s.n then (s.ecsCompute cfg i).getD (s.ecs i) else s.ecs i) else s.ecs } := by
  unfold State.computeEcs
  split
  · rw [parLoop_eq hv]
    · refine foldl_range_closed _ _ (fun k => { s with
          ecs := fun i => if i < k then (s.ecsCompute cfg i).getD (s.ecs i) else s.ecs i }) ?_ ?_ s.n
      · simp
      intro k
      cases hk : s.ecsCompute cfg k with
      | none =>
        simp only [State.ecsCommit]
        congr 1
        funext i
        by_cases h : i = k
        · subst h; simp [hk]
        · have : i < k + 1 ↔ i < k := by omega
          simp [this]
      | some v =>
        simp only [State.ecsCommit]
        congr 1
        funext i
        simp only [upd]
        by_cases h : i = k
        · subst h; simp [hk]
        · have : i < k + 1 ↔ i < k := by omega
          simp [this, h]
    · intro s i j r _
      cases r <;> rfl
    · intro s i j r r' h
      cases r <;> cases r' <;> simp only [State.ecsCommit] <;> congr 1
      exact upd_comm _ _ _ (Ne.symm h)
  · rfl

/-! ### `du` loops -/

theorem duCommit_comm (s : State F D ω) (i j : Nat) (r r' : Option (Vec F D)) (h : i ≠ j) :
    State.duCommit i r (State.duCommit j r' s) = State.duCommit j r' (State.duCommit i r s) := by
  cases r <;> cases r' <;> simp only [State.duCommit] <;> congr 1
  exact upd_comm _ _ _ (Ne.symm h)

theorem duLoop_eq (compute : State F D ω → Nat → Option (Vec F D))
    (hc : ∀ s i j r, i ≠ j → compute (State.duCommit j r s) i = compute s i)
    (s : State F D ω) (sch : List Ev) (hv : ValidSched s.n sch) :
    parLoop compute State.duCommit sch s =
      { s with du := fun i => if i < s.n then (compute s i).getD (s.du i) else s.du i } := by
  rw [parLoop_eq hv hc duCommit_comm]
  refine foldl_range_closed _ _ (fun k => { s with
      du := fun i => if i < k then (compute s i).getD (s.du i) else s.du i }) ?_ ?_ s.n
  · simp
  intro k
  cases hk : compute s k with
  | none =>
    simp only [State.duCommit]
    congr 1
    funext i
    by_cases h : i = k
    · subst h; simp [hk]
    · have : i < k + 1 ↔ i < k := by omega
      simp [this]
  | some v =>
    simp only [State.duCommit]
    congr 1
    funext i
    simp only [upd]
    by_cases h : i = k
    · subst h; simp [hk]
    · have : i < k + 1 ↔ i < k := by omega
      simp [this, h]

theorem accelLoop_eq (cfg : Config) (s : State F D ω) (sch : List Ev) (hv : ValidSched s.n sch) :
    parLoop (State.accelCompute cfg) State.duCommit sch s =
      { s with du := fun i => if i < s.n then (s.accelCompute cfg i).getD (s.du i) else s.du i } := by
  apply duLoop_eq _ _ _ _ hv
  intro s i j r _; cases r <;> rfl

theorem gradLoop_eq (cfg : Config) (s : State F D ω) (sch : List Ev) (hv : ValidSched s.n sch) :
    parLoop (State.gradCompute cfg) State.duCommit sch s =
      { s with du := fun i => if i < s.n then (s.gradCompute cfg i).getD (s.du i) else s.du i } := by
  apply duLoop_eq _ _ _ _ hv
  intro s i j r _; cases r <;> rfl

theorem dsLoop_eq (cfg : Config) (s : State F D ω) (sch : List Ev) (hv : ValidSched s.n sch) :
    parLoop (State.dsCompute cfg) State.duCommit sch s =
      { s with du := fun i => if i < s.n then (s.dsCompute cfg i).getD (s.du i) else s.du i } := by
  apply duLoop_eq _ _ _ _ hv
  intro s i j r _; cases r <;> rfl

/-! ### Loops that update particle `i` from particle `i` -/

theorem moveLoop_eq (w : Walls F D ω) (s : State F D ω) (sch : List Ev) (hv : ValidSched s.n sch) :
    parLoop (State.moveCompute w) State.moveCommit sch s =
      { s with ps := fun i => if i < s.n then
          { s.ps i with x := (s.moveCompute w i).1, u := (s.moveCompute w i).2 } else s.ps i } := by
  rw [parLoop_eq hv]
  · refine foldl_range_closed _ _ (fun k => { s with ps := fun i => if i < k then
          { s.ps i with x := (s.moveCompute w i).1, u := (s.moveCompute w i).2 } else s.ps i })
        ?_ ?_ s.n
    · simp
    intro k
    simp only [State.moveCommit]
    congr 1
    funext i
    simp only [upd]
    by_cases h : i = k
    · subst h; simp
    · have : i < k + 1 ↔ i < k := by omega
      simp [this, h]
  · intro s i j r h
    simp only [State.moveCompute, State.moveCommit, upd_ne _ _ h]
  · intro s i j r r' h
    simp only [State.moveCommit, upd_ne _ _ h, upd_ne _ _ (Ne.symm h)]
    congr 1
    exact upd_comm _ _ _ (Ne.symm h)

theorem pushLoop_eq (s : State F D ω) (sch : List Ev) (hv : ValidSched s.n sch) :
    parLoop State.pushCompute State.pushCommit sch s =
      { s with ps := fun i => if i < s.n ∧ (s.ps i).ty = PType.incompressibleNewton then
          { s.ps i with x := (s.ps i).x + vmul (s.du i) s.env.dt, u := (s.ps i).u + s.du i } else s.ps i } := by
  rw [parLoop_eq hv]
  · refine foldl_range_closed _ _ (fun k => { s with ps := fun i =>
        if i < k ∧ (s.ps i).ty = PType.incompressibleNewton then
          { s.ps i with x := (s.ps i).x + vmul (s.du i) s.env.dt, u := (s.ps i).u + s.du i } else s.ps i })
        ?_ ?_ s.n
    · simp
    intro k
    by_cases hk : (s.ps k).ty = .incompressibleNewton
    · simp only [State.pushCompute, hk, if_true, State.pushCommit]
      congr 1
      funext i
      simp only [upd]
      by_cases h : i = k
      · subst h; simp [hk]
      · have : i < k + 1 ↔ i < k := by omega
        simp [this, h]
    · simp only [State.pushCompute, hk, if_false, State.pushCommit]
      congr 1
      funext i
      by_cases h : i = k
      · subst h; simp [hk]
      · have : i < k + 1 ↔ i < k := by omega
        simp [this]
  · intro s i j r h
    cases r with
    | none => rfl
    | some v => simp only [State.pushCompute, State.pushCommit, upd_ne _ _ h]
  · intro s i j r r' h
    cases r <;> cases r' <;> simp only [State.pushCommit, upd_ne _ _ h, upd_ne _ _ (Ne.symm h)]
    congr 1
    exact upd_comm _ _ _ (Ne.symm h)

theorem presCommit_comm (s : State F D ω) (i j : Nat) (r r' : Option F) (h : i ≠ j) :
    State.presCommit i r (State.presCommit j r' s) = State.presCommit j r' (State.presCommit i r s) := by
  cases r <;> cases r' <;> simp only [State.presCommit, upd_ne _ _ h, upd_ne _ _ (Ne.symm h)]
  congr 1
  exact upd_comm _ _ _ (Ne.symm h)

theorem presLoop_gen (compute : State F D ω → Nat → Option F)
    (hc : ∀ s i j r, i ≠ j → compute (State.presCommit j r s) i = compute s i)
    (s : State F D ω) (sch : List Ev) (hv : ValidSched s.n sch) :
    parLoop compute State.presCommit sch s =
      { s with ps := fun i => if i < s.n then
          { s.ps i with p := (compute s i).getD (s.ps i).p } else s.ps i } := by
  rw [parLoop_eq hv hc presCommit_comm]
  refine foldl_range_closed _ _ (fun k => { s with ps := fun i => if i < k then
          { s.ps i with p := (compute s i).getD (s.ps i).p } else s.ps i }) ?_ ?_ s.n
  · simp
  intro k
  cases hk : compute s k with
  | none =>
    simp only [State.presCommit]
    congr 1
    funext i
    by_cases h : i = k
    · subst h; simp [hk]
    · have : i < k + 1 ↔ i < k := by omega
      simp [this]
  | some v =>
    simp only [State.presCommit]
    congr 1
    funext i
    simp only [upd]
    by_cases h : i = k
    · subst h; simp [hk]
    · have : i < k + 1 ↔ i < k := by omega
      simp [this, h]

theorem presLoop_eq (cfg : Config) (s : State F D ω) (sch : List Ev) (hv : ValidSched s.n sch) :
    parLoop (State.presCompute cfg) State.presCommit sch s =
      { s with ps := fun i => if i < s.n then
          { s.ps i with p := (s.presCompute cfg i).getD (s.ps i).p } else s.ps i } := by
  apply presLoop_gen _ _ _ _ hv
  intro s i j r h
  cases r with
  | none => rfl
  | some v => simp only [State.presCompute, State.presCommit, upd_ne _ _ h]; rfl

theorem eosLoop_eq (s : State F D ω) (sch : List Ev) (hv : ValidSched s.n sch) :
    parLoop State.eosCompute State.presCommit sch s =
      { s with ps := fun i => if i < s.n then
          { s.ps i with p := (s.eosCompute i).getD (s.ps i).p } else s.ps i } := by
  apply presLoop_gen _ _ _ _ hv
  intro s i j r h
  cases r with
  | none => rfl
  | some v => simp only [State.eosCompute, State.presCommit, upd_ne _ _ h]

/-! ### Linear system -/

theorem rhsLoop_eq (cfg : Config) (s : State F D ω) (sch : List Ev) (hv : ValidSched s.n sch) :
    parLoop (State.rhsCompute cfg) State.rhsCommit sch s =
      { s with ppe := { s.ppe with
          b := fun i => if i < s.n then (s.rhsCompute cfg i).1 else s.ppe.b i
          x := fun i => if i < s.n then (s.rhsCompute cfg i).2 else s.ppe.x i } } := by
  rw [parLoop_eq hv]
  · refine foldl_range_closed _ _ (fun k => { s with ppe := { s.ppe with
          b := fun i => if i < k then (s.rhsCompute cfg i).1 else s.ppe.b i
          x := fun i => if i < k then (s.rhsCompute cfg i).2 else s.ppe.x i } }) ?_ ?_ s.n
    · simp
    intro k
    simp only [State.rhsCommit]
    congr 2 <;>
    · funext i
      simp only [upd]
      by_cases h : i = k
      · subst h; simp
      · have : i < k + 1 ↔ i < k := by omega
        simp [this, h]
  · intro s i j r _; rfl
  · intro s i j r r' h
    simp only [State.rhsCommit]
    congr 2 <;> exact upd_comm _ _ _ (Ne.symm h)

theorem matLoop_eq (cfg : Config) (s : State F D ω) (sch : List Ev) (hv : ValidSched s.n sch) :
    parLoop (State.matCompute cfg) State.matCommit sch s =
      { s with ppe := { s.ppe with
          rows := fun i => if i < s.n then s.matCompute cfg i else s.ppe.rows i } } := by
  rw [parLoop_eq hv]
  · refine foldl_range_closed _ _ (fun k => { s with ppe := { s.ppe with
          rows := fun i => if i < k then s.matCompute cfg i else s.ppe.rows i } }) ?_ ?_ s.n
    · simp
    intro k
    simp only [State.matCommit]
    congr 2
    funext i
    simp only [upd]
    by_cases h : i = k
    · subst h; simp
    · have : i < k + 1 ↔ i < k := by omega
      simp [this, h]
  · intro s i j r _; rfl
  · intro s i j r r' h
    simp only [State.matCommit]
    congr 2
    exact upd_comm _ _ _ (Ne.symm h)

/-- Result of the transfer loop: the last entry of row `i` for column `j`. -/
theorem assemble_eq (n : Nat) (rows : Nat → List (Nat × F)) :
    assemble n rows = fun i j => if i < n then
      (((rows i).reverse.find? (fun e => e.1 = j)).map (·.2)) else none := by
  have hrow : ∀ (l : List (Nat × F)) (A : Sparse F) (i : Nat),
      l.foldl (fun A e => upd A i (upd (A i) e.1 (some e.2))) A
        = upd A i (fun j => match l.reverse.find? (fun e => e.1 = j) with
            | some e => some e.2
            | none => A i j) := by
    intro l
    induction l with
    | nil => intro A i; funext k; simp only [List.foldl_nil, upd]; split <;> simp_all
    | cons e l ih =>
      intro A i
      rw [List.foldl_cons, ih]
      funext k
      by_cases hk : k = i
      · subst hk
        simp only [upd_same, List.reverse_cons, List.find?_append]
        funext j
        cases hf : l.reverse.find? (fun e => decide (e.1 = j)) with
        | some v => simp
        | none =>
          simp only [Option.none_or, List.find?_cons, List.find?_nil, upd]
          by_cases hj : j = e.1
          · subst hj; simp
          · simp [hj, Ne.symm hj]
      · simp [upd, hk]
  unfold assemble
  refine foldl_range_closed _ _ (fun k => fun i j => if i < k then
      (((rows i).reverse.find? (fun e => e.1 = j)).map (·.2)) else none) ?_ ?_ n
  · simp
  intro k
  rw [hrow]
  funext i j
  by_cases h : i = k
  · subst h
    simp only [upd_same, lt_irrefl, if_false, Nat.lt_succ_self, if_true]
    cases (rows i).reverse.find? (fun e => decide (e.1 = j)) <;> rfl
  · have : i < k + 1 ↔ i < k := by omega
    simp [upd, h, this]

/-! ### Neighbour rows -/

/-- Closed form of the second loop of `SearchNeighbor`. -/
theorem rowLoop_eq (s : State F D ω) (sch : List Ev) (hv : ValidSched s.n sch) :
    parLoop State.rowCompute State.rowCommit sch s =
      { s with
        nbr := fun i => if i < s.n then
            (match s.rowCompute i with
              | .row l => fun c => if c = 0 then l.length else l.getD (c - 1) (s.nbr i c)
              | _ => s.nbr i) else s.nbr i
        ub := s.ub || (List.range s.n).any (fun i => match s.rowCompute i with | .bad => true | _ => false) } := by
  rw [parLoop_eq hv]
  · refine foldl_range_closed _ _ (fun k => { s with
        nbr := fun i => if i < k then
            (match s.rowCompute i with
              | .row l => fun c => if c = 0 then l.length else l.getD (c - 1) (s.nbr i c)
              | _ => s.nbr i) else s.nbr i
        ub := s.ub || (List.range k).any (fun i => match s.rowCompute i with | .bad => true | _ => false) })
      ?_ ?_ s.n
    · simp
    intro k
    have hne : ∀ i, i ≠ k → (i < k + 1 ↔ i < k) := by intros; omega
    cases hk : s.rowCompute k with
    | skip =>
      simp only [State.rowCommit]
      congr 1
      · funext i
        by_cases h : i = k
        · subst h; simp [hk]
        · simp [hne i h]
      · simp [List.range_succ, hk]
    | bad =>
      simp only [State.rowCommit]
      congr 1
      · funext i
        by_cases h : i = k
        · subst h; simp [hk]
        · simp [hne i h]
      · simp [List.range_succ, hk]
    | row l =>
      simp only [State.rowCommit]
      congr 1
      · funext i
        by_cases h : i = k
        · subst h; simp [hk]
        · simp [hne i h, upd, h]
      · simp [List.range_succ, hk]
  · intro s i j r _; cases r <;> rfl
  · intro s i j r r' h
    cases r <;> cases r' <;> simp only [State.rowCommit, upd_ne _ _ h, upd_ne _ _ (Ne.symm h)]
    congr 1
    exact upd_comm _ _ _ (Ne.symm h)

end OpenMps
