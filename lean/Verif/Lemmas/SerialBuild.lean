import Verif.Lemmas.Step
import Verif.Model.SerialBuild

set_option linter.unusedSectionVars false

/-! The build without OpenMP, phase by phase. -/

namespace OpenMps

variable {F : Type} [Scalar F] {D : Nat} {ω : Type}

/-- A plain loop is the parallel loop executed in order. -/
theorem forLoop_eq {S R : Type} (compute : S → Nat → R) (commit : Nat → R → S → S) (n : Nat) (s : S) :
    forLoop compute commit n s = parLoop compute commit (serial n) s := by
  unfold forLoop parLoop serial
  generalize List.range n = l
  suffices h : ∀ (l : List Nat) (s : S) (loc : Nat → Option R),
      l.foldl (fun s i => commit i (compute s i) s) s = parRun compute commit (l.flatMap (fun i => [.rd i, .wr i])) s loc by
    exact h l s _
  intro l
  induction l with
  | nil => intro s loc; rfl
  | cons i l ih =>
    intro s loc
    rw [List.foldl_cons, ih _ (upd loc i (some (compute s i)))]
    simp only [List.flatMap_cons, List.cons_append, List.nil_append, parRun, upd_same]

/-- The state with another contents of the buffer `a_ij`. -/
def State.withBuffer (r : Nat → List (Nat × F)) (s : State F D ω) : State F D ω := { s with ppe := { s.ppe with rows := r } }

/-- Apply a function to the state of an outcome. -/
def Res.mapState {S T : Type} (f : S → T) : Res S → Res T
  | .ok s => .ok (f s)
  | .exn e s => .exn e (f s)
  | .ub => .ub

theorem Res.mapState_andThen {S : Type} (f : S → S) (r : Res S) (g h : S → Res S) (hg : ∀ s, g (f s) = (h s).mapState f) :
    (r.mapState f).andThen g = (r.andThen h).mapState f := by
  cases r with
  | ok s => exact hg s
  | exn e s => rfl
  | ub => rfl

/-! ### The matrix -/

theorem accumulateFx_eq (cfg : Config) (s : State F D ω) (i : Nat) (A : Sparse F) :
    s.accumulateFx cfg i (0 : F) A (s.rowFuncSerial cfg i)
      = ((s.accumulate cfg i ({ sum := 0, entries := [] } : RowAcc F) (s.rowFunc cfg i)).sum,
         (s.accumulate cfg i ({ sum := 0, entries := [] } : RowAcc F) (s.rowFunc cfg i)).entries.foldl
           (fun A e => A.set i e.1 e.2) A) := by
  have hstep : ∀ (j : Int) (q : Particle F D) (es : List (Nat × F)),
      s.rowFuncSerial cfg i j q (es.foldl (fun A e => A.set i e.1 e.2) A)
        = ((s.rowFunc cfg i j q).sum, (es ++ (s.rowFunc cfg i j q).entries).foldl (fun A e => A.set i e.1 e.2) A) := by
    intro j q es
    unfold State.rowFuncSerial State.rowFunc
    split
    · simp only [List.foldl_append]
      generalize (if cfg.spp = true then decide (0 ≤ j) else !s.isSurface cfg q.n) = b
      cases b <;> rfl
    · simp
  have hloop : ∀ (l : List Nat) (acc : RowAcc F × Vec F D) ,
      l.foldl (fun (acc : (F × Vec F D) × Sparse F) j =>
          if j ≠ i then
            if Scalar.lt (dot ((s.ps j).x - (s.ps i).x) ((s.ps j).x - (s.ps i).x)) (s.env.re * s.env.re) then
              ((acc.1.1 + (s.rowFuncSerial cfg i (j : Int) (s.ps j) acc.2).1,
                acc.1.2 + smul (W (Scalar.sqrt (dot ((s.ps j).x - (s.ps i).x) ((s.ps j).x - (s.ps i).x))) s.env.re)
                  ((s.ps j).x - (s.ps i).x)),
                (s.rowFuncSerial cfg i (j : Int) (s.ps j) acc.2).2)
            else acc
          else acc) ((acc.1.sum, acc.2), acc.1.entries.foldl (fun A e => A.set i e.1 e.2) A)
        = (fun r : RowAcc F × Vec F D => ((r.1.sum, r.2), r.1.entries.foldl (fun A e => A.set i e.1 e.2) A))
            (l.foldl (fun (acc : RowAcc F × Vec F D) j =>
              if j ≠ i then
                if Scalar.lt (dot ((s.ps j).x - (s.ps i).x) ((s.ps j).x - (s.ps i).x)) (s.env.re * s.env.re) then
                  (acc.1 + s.rowFunc cfg i (j : Int) (s.ps j),
                    acc.2 + smul (W (Scalar.sqrt (dot ((s.ps j).x - (s.ps i).x) ((s.ps j).x - (s.ps i).x))) s.env.re)
                      ((s.ps j).x - (s.ps i).x))
                else acc
              else acc) acc) := by
    intro l
    induction l with
    | nil => intro acc; rfl
    | cons j l ih =>
      intro acc
      rw [List.foldl_cons, List.foldl_cons]
      by_cases hj : j ≠ i
      · by_cases hr : Scalar.lt (dot ((s.ps j).x - (s.ps i).x) ((s.ps j).x - (s.ps i).x)) (s.env.re * s.env.re) = true
        · simp only [if_pos hj, if_pos hr, hstep]
          exact ih (acc.1 + s.rowFunc cfg i (j : Int) (s.ps j), _)
        · simp only [if_pos hj, if_neg hr]
          exact ih acc
      · simp only [if_neg hj]
        exact ih acc
  unfold State.accumulateFx State.accumulate
  simp only
  have h0 := hloop (s.neighbors i) ({ sum := 0, entries := [] }, 0)
  simp only [List.foldl_nil] at h0
  rw [h0]
  have hacc : s.accLoop i ({ sum := 0, entries := [] } : RowAcc F) (s.rowFunc cfg i) =
      (s.neighbors i).foldl (fun (acc : RowAcc F × Vec F D) j =>
              if j ≠ i then
                if Scalar.lt (dot ((s.ps j).x - (s.ps i).x) ((s.ps j).x - (s.ps i).x)) (s.env.re * s.env.re) then
                  (acc.1 + s.rowFunc cfg i (j : Int) (s.ps j),
                    acc.2 + smul (W (Scalar.sqrt (dot ((s.ps j).x - (s.ps i).x) ((s.ps j).x - (s.ps i).x))) s.env.re)
                      ((s.ps j).x - (s.ps i).x))
                else acc
              else acc) ({ sum := 0, entries := [] }, 0) := rfl
  rw [← hacc]
  cases cfg.spp with
  | false => rfl
  | true =>
    simp only [if_true]
    cases s.sppParticle i (s.accLoop i ({ sum := 0, entries := [] } : RowAcc F) (s.rowFunc cfg i)).2 with
    | none => rfl
    | some q => simp only [hstep]; rfl

theorem matSerial_eq (cfg : Config) (s : State F D ω) (rows : Nat → List (Nat × F)) (n : Nat)
    (hr : ∀ i, i < n → rows i = s.matCompute cfg i) :
    (List.range n).foldl (s.matRowSerial cfg) (fun _ _ => none) = assemble n rows := by
  unfold assemble
  have : ∀ (l : List Nat), (∀ i ∈ l, rows i = s.matCompute cfg i) → ∀ A : Sparse F,
      l.foldl (s.matRowSerial cfg) A
        = l.foldl (fun A i => (rows i).foldl (fun A e => upd A i (upd (A i) e.1 (some e.2))) A) A := by
    intro l
    induction l with
    | nil => intro _ A; rfl
    | cons i l ih =>
      intro hl A
      rw [List.foldl_cons, List.foldl_cons, ← ih (fun k hk => hl k (List.mem_cons_of_mem _ hk))]
      congr 1
      rw [hl i List.mem_cons_self]
      unfold State.matRowSerial State.matCompute
      split
      · rfl
      · simp only [accumulateFx_eq, List.foldl_append, List.foldl_cons, List.foldl_nil]
        rfl
  exact this _ (fun i hi => hr i (by simpa using hi)) _

theorem setPpeSerial_eq (cfg : Config) (s : State F D ω) (r : Nat → List (Nat × F)) :
    (s.withBuffer r).setPpeSerial cfg = (s.ppeC cfg).withBuffer r := by
  unfold State.setPpeSerial
  simp only [forLoop_eq]
  have h := rhsLoop_eq cfg { s.withBuffer r with ppe := { (s.withBuffer r).ppe with size := (s.withBuffer r).n } } _
    (validSched_serial s.n)
  change parLoop (State.rhsCompute cfg) State.rhsCommit (serial (s.withBuffer r).n) _ = _ at h
  rw [h]
  unfold State.ppeC State.withBuffer
  congr 2
  exact matSerial_eq cfg _ _ s.n (fun i hi => by rw [if_pos hi]; rfl)

/-! ### The other phases -/

theorem storeAll_withBuffer (r : Nat → List (Nat × F)) (is : List Nat) : ∀ s : State F D ω,
    State.storeAll is (s.withBuffer r) = (State.storeAll is s).mapState (State.withBuffer r) := by
  induction is with
  | nil => intro s; rfl
  | cons i is ih =>
    intro s
    unfold State.storeAll
    have h1 : (s.withBuffer r).storeOne i = (s.storeOne i).mapState (State.withBuffer r) := by
      unfold State.storeOne
      change (if (s.ps i).ty = .disabled then _ else _) = _
      split
      · rfl
      · change (match s.grid.store (s.ps i).x i with
          | .ub => _ | .full g => _ | .stored g => _ | .outside g => _) = _
        cases s.grid.store (s.ps i).x i <;> rfl
    rw [h1]
    exact Res.mapState_andThen _ _ _ _ (fun s => ih s)

theorem searchSerial_eq (s : State F D ω) (r : Nat → List (Nat × F)) {sch : List Ev} (hv : ValidSched s.n sch) :
    (s.withBuffer r).searchSerial = (s.searchNeighbor sch).mapState (State.withBuffer r) := by
  unfold State.searchSerial State.searchNeighbor
  change (match s.grid.clear? with | none => _ | some g => _) = _
  cases hg : s.grid.clear? with
  | none => rfl
  | some g =>
    simp only
    have h := storeAll_withBuffer r (List.range s.n) { s with grid := g }
    have h' : State.storeAll (List.range (s.withBuffer r).n) { s.withBuffer r with grid := g }
        = (State.storeAll (List.range s.n) { s with grid := g }).mapState (State.withBuffer r) := h
    rw [h']
    cases hs : State.storeAll (List.range s.n) { s with grid := g } with
    | exn e s1 => rfl
    | ub => rfl
    | ok s1 =>
      have hn := storeAll_n _ _ s1 (Or.inl hs)
      simp only [Res.mapState, Res.andThen, Res.bind, forLoop_eq]
      rw [rowLoop_eq s1 sch (by rw [hn]; exact hv), rowLoop_eq (s1.withBuffer r) _ (validSched_serial _)]
      change (if _ then _ else _) = _
      split
      · rename_i h1
        rw [if_pos (by exact h1)]
      · rename_i h1
        rw [if_neg (by exact h1)]
        rfl

theorem midSerial_eq (P : Params F D ω) (s : State F D ω) (r : Nat → List (Nat × F)) :
    (((((s.withBuffer r).densitiesSerial P.cfg).ecsSerial P.cfg).explicitSerial P).densitiesSerial P.cfg).saveX P.cfg
      = (s.midC P).withBuffer r := by
  have hd : ∀ t : State F D ω, t.densitiesSerial P.cfg = t.densC P.cfg := by
    intro t; unfold State.densitiesSerial; rw [forLoop_eq]; exact computeDensities_C _ _ _ (validSched_serial _)
  have he : ∀ t : State F D ω, t.ecsSerial P.cfg = t.ecsC P.cfg := by
    intro t
    have := computeEcs_C P.cfg t _ (validSched_serial t.n)
    unfold State.computeEcs at this
    unfold State.ecsSerial
    rw [forLoop_eq]; exact this
  have hx : ∀ t : State F D ω, t.explicitSerial P = ((t.duC (State.accelCompute P.cfg)).preC P.walls).moveC P.walls := by
    intro t
    have := computeExplicit_eq P t _ _ (validSched_serial t.n) (validSched_serial t.n)
    unfold State.computeExplicit at this
    unfold State.explicitSerial
    simp only [forLoop_eq] at this ⊢
    rw [← this]
    have hn : (parLoop (State.accelCompute P.cfg) State.duCommit (serial t.n) t).n = t.n := by
      rw [accelLoop_eq _ _ _ (validSched_serial _)]
    rw [hn]
  rw [hd, he, hx, hd]
  unfold State.midC
  have e0 : ∀ (t : State F D ω) (i : Nat), (t.withBuffer r).densCompute P.cfg i = t.densCompute P.cfg i := by
    intro t i
    unfold State.densCompute
    cases P.cfg.spp <;> rfl
  have e1 : ∀ t : State F D ω, (t.withBuffer r).densC P.cfg = (t.densC P.cfg).withBuffer r := by
    intro t
    unfold State.densC
    simp only [e0]
    rfl
  have e2 : ∀ t : State F D ω, (t.withBuffer r).ecsC P.cfg = (t.ecsC P.cfg).withBuffer r := by
    intro t; unfold State.ecsC; split <;> rfl
  have e3 : ∀ t : State F D ω, (t.withBuffer r).saveX P.cfg = (t.saveX P.cfg).withBuffer r := by
    intro t; unfold State.saveX; split <;> rfl
  rw [e1, e2, ← e3, ← e1]
  rfl

theorem gradientSerial_eq (cfg : Config) (s : State F D ω) (r : Nat → List (Nat × F)) :
    (s.withBuffer r).gradientSerial cfg = (s.gradC cfg).withBuffer r := by
  unfold State.gradientSerial
  simp only [forLoop_eq]
  rw [gradLoop_eq cfg _ _ (validSched_serial _), pushLoop_eq _ _ (validSched_serial _)]
  rfl

theorem stabilizeSerial_eq (cfg : Config) (s : State F D ω) (r : Nat → List (Nat × F)) :
    (s.withBuffer r).stabilizeSerial cfg = (s.dsC cfg).withBuffer r := by
  unfold State.stabilizeSerial State.dsC
  split
  · simp only [forLoop_eq]
    rw [dsLoop_eq cfg _ _ (validSched_serial _), pushLoop_eq _ _ (validSched_serial _)]
    rfl
  · rfl

theorem implicitSerial_eq (P : Params F D ω) (s : State F D ω) (r : Nat → List (Nat × F)) :
    (s.withBuffer r).implicitSerial P
      = ((s.pressureC P).andThen (fun s => .ok (s.gradC P.cfg))).mapState (State.withBuffer r) := by
  unfold State.implicitSerial State.pressureC
  simp only
  refine (?_ : _ = ((Res.mapState (State.withBuffer r) _).andThen _)).trans
    (Res.mapState_andThen _ _ (fun s => .ok (s.gradientSerial P.cfg)) _ (fun t => by rw [gradientSerial_eq]; rfl))
  congr 1
  split
  · rw [forLoop_eq, eosLoop_eq _ _ (validSched_serial _)]
    rfl
  · rw [setPpeSerial_eq]
    have hsolve : ((s.ppeC P.cfg).withBuffer r).solvePpe P.eps = ((s.ppeC P.cfg).solvePpe P.eps).mapState (State.withBuffer r) := by
      generalize s.ppeC P.cfg = t
      unfold State.solvePpe
      change (if (cgSolve t.ppe.size t.ppe.A t.ppe.b t.ppe.x P.eps).2 then _ else _) = _
      simp only
      split <;> rfl
    rw [hsolve]
    refine Res.mapState_andThen _ _ _ _ (fun t => ?_)
    rw [forLoop_eq, presLoop_eq _ _ _ (validSched_serial _)]
    rfl

theorem forwardTimeSerial_eq (P : Params F D ω) (s : State F D ω) (r : Nat → List (Nat × F)) (dt : F) (sch : Schedule)
    (hv : sch.Valid s.n) :
    (s.withBuffer r).forwardTimeSerial P dt = (s.forwardTime P sch dt).mapState (State.withBuffer r) := by
  rw [forwardTime_eq P sch dt s hv]
  unfold State.forwardTimeSerial
  simp only
  have h0 := searchSerial_eq (s.start dt) r (hv 0 : ValidSched (s.start dt).n (sch 0))
  have h1 : ({ s.withBuffer r with env := ({ (s.withBuffer r).env with dt := dt } : Env F D).setNextT } : State F D ω)
      = (s.start dt).withBuffer r := rfl
  rw [h1, h0]
  refine Res.mapState_andThen _ _ _ _ (fun t => ?_)
  rw [midSerial_eq, implicitSerial_eq]
  unfold State.afterSearch
  cases hp : (t.midC P).pressureC P with
  | ok a =>
    simp only [Res.andThen, Res.bind, Res.mapState]
    rw [stabilizeSerial_eq]
  | exn e a => rfl
  | ub => rfl

end OpenMps
