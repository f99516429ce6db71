import Verif.Lemmas.FineBodies
import Verif.Spec.Race

set_option linter.unusedSectionVars false

namespace OpenMps

variable {F : Type} {D : Nat} {ω : Type}

/-! ## Who owns what in which loop -/

/-- Search loop: row `i` of the neighbour table. -/
def ownNbr : Loc → Option Nat
  | .nbr i _ => some i
  | _ => none

/-- Density loop. -/
def ownDens : Loc → Option Nat
  | .nNoSpp i => some i
  | .n i => some i
  | _ => none

/-- Loop of the error correction. -/
def ownEcs : Loc → Option Nat
  | .ecs i => some i
  | _ => none

/-- Loops that compute accelerations. -/
def ownDu : Loc → Option Nat
  | .du i => some i
  | _ => none

/-- Loops that move particles. -/
def ownXU : Loc → Option Nat
  | .x i => some i
  | .u i => some i
  | _ => none

/-- Right-hand side loop. -/
def ownRhs : Loc → Option Nat
  | .pb i => some i
  | .px i => some i
  | _ => none

/-- Matrix loop. -/
def ownRows : Loc → Option Nat
  | .rows i => some i
  | _ => none

/-- Pressure loops. -/
def ownP : Loc → Option Nat
  | .p i => some i
  | _ => none

theorem within_ite {A : Type} {own : Loc → Option Nat} {i : Nat} {c : Prop} [Decidable c] {p q : Prog F D A}
    (hp : p.Within own i) (hq : q.Within own i) : (if c then p else q).Within own i := by
  split
  · exact hp
  · exact hq

variable [Scalar F]

theorem within_fetch {own : Loc → Option Nat} {i j : Nat} {f : Fields} (hx : f.x = true → own (.x j) = none)
    (hu : f.u = true → own (.u j) = none) (hp : f.p = true → own (.p j) = none) (hn : f.n = true → own (.n j) = none)
    (ht : f.ty = true → own (.ty j) = none) : (fetch f j : Prog F D _).Within own i := by
  obtain ⟨a, b, c, d, e⟩ := f
  unfold fetch
  cases a <;> cases b <;> cases c <;> cases d <;> cases e <;>
    simp_all [Prog.Within, rd, pure, bind, Prog.bind]

section
variable {A : Type} [Add A] {own : Loc → Option Nat} {cfg : Config} {ro : Ro F D ω} {i : Nat} {f : Fields} {zero : A}
  {func : Int → Particle F D → Prog F D A}

theorem within_pRounds (hnbr : ∀ c, own (.nbr i c) = none) (hx : ∀ j, own (.x j) = none)
    (hu : f.u = true → ∀ j, own (.u j) = none) (hp : f.p = true → ∀ j, own (.p j) = none)
    (hn : f.n = true → ∀ j, own (.n j) = none) (ht : f.ty = true → ∀ j, own (.ty j) = none)
    (hf : ∀ j q, (func j q).Within own i) (thisX : Vec F D) (L : List Nat) (acc : A × Vec F D) :
    (pRounds ro i f func thisX L acc).Within own i := by
  induction L generalizing acc with
  | nil => exact within_pure _
  | cons idx L ih =>
    unfold pRounds
    refine within_bind ?_ (fun a => ih a)
    unfold pRound
    refine within_bind (within_rd (.inl (hnbr _))) (fun j => ?_)
    refine within_ite ?_ (within_pure _)
    refine within_bind (within_rd (.inl (hx _))) (fun xj => ?_)
    refine within_ite ?_ (within_pure _)
    refine within_bind (within_fetch (fun _ => hx _) (fun h => hu h _) (fun h => hp h _) (fun h => hn h _)
      (fun h => ht h _)) (fun q => ?_)
    exact within_bind (hf _ _) (fun v => within_pure _)

theorem within_pAccumulate (hnbr : ∀ c, own (.nbr i c) = none) (hx : ∀ j, own (.x j) = none)
    (hu : f.u = true → ∀ j, own (.u j) = none) (hp : f.p = true → ∀ j, own (.p j) = none)
    (hn : f.n = true → ∀ j, own (.n j) = none) (ht : f.ty = true → ∀ j, own (.ty j) = none)
    (hns : own (.nNoSpp i) = none ∨ own (.nNoSpp i) = some i) (hui : own (.u i) = none)
    (hf : ∀ j q, (func j q).Within own i) : (pAccumulate cfg ro i zero f func).Within own i := by
  unfold pAccumulate
  refine within_bind (within_rd (.inl (hnbr _))) (fun n => ?_)
  refine within_bind (within_rd (.inl (hx _))) (fun thisX => ?_)
  refine within_bind (within_pRounds hnbr hx hu hp hn ht hf _ _ _) (fun acc => ?_)
  refine within_ite ?_ (within_pure _)
  refine within_bind (within_rd hns) (fun thisN => ?_)
  refine within_ite (within_ite ?_ (within_pure _)) (within_pure _)
  refine within_bind (within_rd (.inl hui)) (fun u => ?_)
  exact within_bind (hf _ _) (fun v => within_pure _)

end

section
variable {cfg : Config} {ro : Ro F D ω} {i : Nat}

theorem within_pVisit (L : List Nat) (idx : Nat) : (pVisit ro i L idx).Within ownNbr i := by
  induction L generalizing idx with
  | nil => exact within_pure _
  | cons j L ih =>
    unfold pVisit
    refine within_ite trivial (within_ite (ih _) ?_)
    refine within_bind (within_rd (.inl rfl)) (fun t => ?_)
    refine within_ite (ih _) ?_
    refine within_bind (within_rd (.inl rfl)) (fun xi => ?_)
    refine within_bind (within_rd (.inl rfl)) (fun xj => ?_)
    refine within_ite (within_ite trivial ?_) (ih _)
    exact within_bind (within_wr rfl) (fun _ => ih _)

theorem within_rowBody : (rowBody ro i).Within ownNbr i := by
  unfold rowBody
  refine within_bind (within_rd (.inl rfl)) (fun t => ?_)
  refine within_ite (within_pure _) ?_
  refine within_bind (within_rd (.inl rfl)) (fun xi => ?_)
  split
  · exact within_bind (within_pVisit _ _) (fun idx => within_wr rfl)
  · trivial

theorem within_densBody : (densBody cfg ro i).Within ownDens i := by
  unfold densBody
  have rest : (do
      let t ← rd (.ty i)
      if t.active then
        let thisN ← pAccumulate cfg ro i (0 : F) { x := true } (fun j q => do
          if cfg.spp && decide (j < 0) then pure 0
          else
            let thisX ← rd (.x i)
            pure (W (dist thisX q.x) ro.env.re))
        if cfg.spp then
          wr (.nNoSpp i) thisN
          wr (.n i) (stdMax thisN ro.env.n0)
        else wr (.n i) thisN
      else pure () : Prog F D Unit).Within ownDens i := by
    refine within_bind (within_rd (.inl rfl)) (fun t => ?_)
    refine within_ite ?_ (within_pure _)
    refine within_bind (within_pAccumulate (fun _ => rfl) (fun _ => rfl) (by simp) (by simp) (by simp) (by simp) (.inr rfl) rfl
      (fun j q => ?_)) (fun thisN => ?_)
    · exact within_ite (within_pure _) (within_bind (within_rd (.inl rfl)) (fun _ => within_pure _))
    · exact within_ite (within_bind (within_wr rfl) (fun _ => within_wr rfl)) (within_wr rfl)
  exact within_ite (within_bind (within_wr rfl) (fun _ => rest)) rest

theorem within_pSpeed {own : Loc → Option Nat} (hnbr : ∀ c, own (.nbr i c) = none) (hx : ∀ j, own (.x j) = none)
    (hu : ∀ j, own (.u j) = none) (hns : own (.nNoSpp i) = none) (hn : own (.n i) = none) :
    (pSpeed cfg ro i).Within own i := by
  unfold pSpeed
  refine within_ite ?_ (within_bind (within_rd (.inl hn)) (fun _ => within_pure _))
  have rest : ∀ low : Bool, (if low then pure 0
    else do
      let a ← pAccumulate cfg ro i (0 : F) { x := true, u := true } (fun _ q => do
        let thisX ← rd (.x i)
        let thisU ← rd (.u i)
        let dx := q.x - thisX
        let du := q.u - thisU
        let r := norm2 dx
        pure (dot dx du / (r * r * r)))
      pure (-ro.env.re * a) : Prog F D F).Within own i := by
    intro low
    refine within_ite (within_pure _) ?_
    refine within_bind (within_pAccumulate hnbr hx (fun _ => hu) (by simp) (by simp) (by simp) (.inl hns) (hu i)
      (fun j q => ?_)) (fun a => within_pure _)
    exact within_bind (within_rd (.inl (hx i))) (fun _ => within_bind (within_rd (.inl (hu i))) (fun _ => within_pure _))
  refine within_ite ?_ ?_
  · exact within_bind (within_bind (within_rd (.inl hns)) (fun _ => within_pure _)) rest
  · exact within_bind (within_pure _) rest

theorem within_ecsBody : (ecsBody cfg ro i).Within ownEcs i := by
  unfold ecsBody
  refine within_bind (within_rd (.inl rfl)) (fun t => within_ite ?_ (within_pure _))
  refine within_bind (within_rd (.inl rfl)) (fun thisN => ?_)
  exact within_bind (within_pSpeed (fun _ => rfl) (fun _ => rfl) (fun _ => rfl) rfl rfl) (fun speed => within_wr rfl)

theorem within_accelBody : (accelBody cfg ro i).Within ownDu i := by
  unfold accelBody
  refine within_bind (within_rd (.inl rfl)) (fun t => within_ite ?_ (within_pure _))
  refine within_bind (within_pAccumulate (fun _ => rfl) (fun _ => rfl) (fun _ _ => rfl) (fun _ _ => rfl) (fun _ _ => rfl)
    (fun _ _ => rfl) (.inl rfl) rfl (fun j q => ?_)) (fun vis => ?_)
  · refine within_ite ?_ (within_pure _)
    refine within_bind (within_rd (.inl rfl)) (fun _ => within_bind (within_rd (.inl rfl)) (fun _ => ?_))
    exact within_ite (within_pure _) (within_pure _)
  · refine within_bind (within_wr rfl) (fun _ => within_ite ?_ ?_)
    · exact within_bind (within_rd (.inl rfl)) (fun _ => within_bind (within_rd (.inr rfl)) (fun _ => within_wr rfl))
    · exact within_bind (within_rd (.inr rfl)) (fun _ => within_wr rfl)

theorem within_moveBody (w : Walls F D ω) : (moveBody w ro i).Within ownXU i := by
  unfold moveBody
  refine within_bind (within_rd (.inl rfl)) (fun t => within_ite ?_ ?_)
  · refine within_bind (within_rd (.inr rfl)) (fun _ => within_bind (within_rd (.inl rfl)) (fun _ => ?_))
    refine within_bind (within_wr rfl) (fun _ => within_bind (within_rd (.inr rfl)) (fun _ => ?_))
    exact within_bind (within_rd (.inr rfl)) (fun _ => within_wr rfl)
  · refine within_bind (within_rd (.inr rfl)) (fun _ => ?_)
    exact within_bind (within_wr rfl) (fun _ => within_wr rfl)

theorem within_pushBody : (pushBody ro i).Within ownXU i := by
  unfold pushBody
  refine within_bind (within_rd (.inl rfl)) (fun t => within_ite ?_ (within_pure _))
  refine within_bind (within_rd (.inl rfl)) (fun _ => within_bind (within_rd (.inr rfl)) (fun _ => ?_))
  exact within_bind (within_wr rfl) (fun _ => within_bind (within_rd (.inr rfl)) (fun _ => within_wr rfl))

theorem within_pFixed {own : Loc → Option Nat} (ht : own (.ty i) = none) (hn : own (.n i) = none) :
    (pFixed cfg ro i).Within own i := by
  unfold pFixed
  refine within_bind (within_rd (.inl ht)) (fun t => within_ite (within_pure _) (within_ite (within_pure _) ?_))
  exact within_bind (within_rd (.inl hn)) (fun _ => within_pure _)

theorem within_rhsBody : (rhsBody cfg ro i).Within ownRhs i := by
  unfold rhsBody
  refine within_bind (within_pFixed rfl rfl) (fun fixed => within_ite ?_ ?_)
  · exact within_bind (within_wr rfl) (fun _ => within_wr rfl)
  · refine within_bind (within_pSpeed (fun _ => rfl) (fun _ => rfl) (fun _ => rfl) rfl rfl) (fun speed => ?_)
    have rest : (do
        let xi ← rd (.p i)
        wr (.px i) xi : Prog F D Unit).Within ownRhs i :=
      within_bind (within_rd (.inl rfl)) (fun _ => within_wr rfl)
    refine within_ite ?_ ?_
    · exact within_bind (within_rd (.inl rfl)) (fun _ => within_bind (within_wr rfl) (fun _ => rest))
    · exact within_bind (within_wr rfl) (fun _ => rest)

theorem within_pPush (e : Nat × F) : (pPush i e : Prog F D _).Within ownRows i :=
  within_bind (within_rd (.inr rfl)) (fun _ => within_wr rfl)

theorem within_matBody : (matBody cfg ro i).Within ownRows i := by
  unfold matBody
  refine within_bind (within_wr rfl) (fun _ => within_bind (within_pFixed rfl rfl) (fun fixed => ?_))
  refine within_ite (within_pPush _) ?_
  refine within_bind (within_pAccumulate (fun _ => rfl) (fun _ => rfl) (fun _ _ => rfl) (fun _ _ => rfl) (fun _ _ => rfl)
    (fun _ _ => rfl) (.inl rfl) rfl (fun j q => ?_)) (fun aii => within_pPush _)
  refine within_ite ?_ (within_pure _)
  refine within_bind (within_rd (.inl rfl)) (fun _ => ?_)
  exact within_ite (within_bind (within_pPush _) (fun _ => within_pure _)) (within_pure _)

theorem within_presBody : (presBody cfg ro i).Within ownP i := by
  unfold presBody
  refine within_bind (within_rd (.inl rfl)) (fun t => within_ite ?_ (within_pure _))
  refine within_bind (within_rd (.inl rfl)) (fun p => within_ite (within_wr rfl) (within_ite (within_wr rfl) ?_))
  exact within_bind (within_rd (.inl rfl)) (fun _ => within_wr rfl)

theorem within_eosBody : (eosBody ro i).Within ownP i := by
  unfold eosBody
  exact within_bind (within_rd (.inl rfl)) (fun _ => within_wr rfl)

theorem within_gradBody : (gradBody cfg ro i).Within ownDu i := by
  unfold gradBody
  refine within_bind (within_rd (.inl rfl)) (fun t => within_ite ?_ (within_pure _))
  refine within_ite ?_ ?_
  · refine within_bind (within_pAccumulate (fun _ => rfl) (fun _ => rfl) (fun _ _ => rfl) (fun _ _ => rfl) (fun _ _ => rfl)
      (fun _ _ => rfl) (.inl rfl) rfl (fun j q => within_bind (within_rd (.inl rfl)) (fun _ => within_pure _))) (fun invC => ?_)
    refine within_bind (within_rd (.inl rfl)) (fun n => ?_)
    refine within_bind (within_pAccumulate (fun _ => rfl) (fun _ => rfl) (fun _ _ => rfl) (fun _ _ => rfl) (fun _ _ => rfl)
      (fun _ _ => rfl) (.inl rfl) rfl (fun j q => within_ite ?_ (within_pure _))) (fun a => within_wr rfl)
    exact within_bind (within_rd (.inl rfl)) (fun _ => within_bind (within_rd (.inl rfl)) (fun _ => within_pure _))
  · refine within_bind (within_pAccumulate (fun _ => rfl) (fun _ => rfl) (fun _ _ => rfl) (fun _ _ => rfl) (fun _ _ => rfl)
      (fun _ _ => rfl) (.inl rfl) rfl (fun j q => within_ite ?_ (within_pure _))) (fun a => within_wr rfl)
    exact within_bind (within_rd (.inl rfl)) (fun _ => within_bind (within_rd (.inl rfl)) (fun _ => within_pure _))

theorem within_dsBody : (dsBody cfg ro i).Within ownDu i := by
  unfold dsBody
  refine within_bind (within_rd (.inl rfl)) (fun t => within_ite ?_ (within_pure _))
  refine within_bind (within_pAccumulate (fun _ => rfl) (fun _ => rfl) (fun _ _ => rfl) (fun _ _ => rfl) (fun _ _ => rfl)
      (fun _ _ => rfl) (.inl rfl) rfl (fun j q => within_ite ?_ (within_pure _))) (fun a => within_wr rfl)
  refine within_bind (within_rd (.inl rfl)) (fun _ => within_ite ?_ (within_pure _))
  exact within_bind (within_rd (.inl rfl)) (fun _ => within_bind (within_rd (.inl rfl)) (fun _ => within_pure _))

end

/-- Every loop has an ownership discipline. -/
theorem bodies_within (P : Params F D ω) (ro : Ro F D ω) {body : Nat → Prog F D Unit} (h : body ∈ loopBodies P ro) :
    ∃ own : Loc → Option Nat, ∀ i, (body i).Within own i := by
  simp only [loopBodies, List.mem_cons, List.not_mem_nil, or_false] at h
  rcases h with rfl | rfl | rfl | rfl | rfl | rfl | rfl | rfl | rfl | rfl | rfl | rfl
  · exact ⟨_, fun _ => within_rowBody⟩
  · exact ⟨_, fun _ => within_densBody⟩
  · exact ⟨_, fun _ => within_ecsBody⟩
  · exact ⟨_, fun _ => within_accelBody⟩
  · exact ⟨_, fun _ => within_moveBody _⟩
  · exact ⟨_, fun _ => within_eosBody⟩
  · exact ⟨_, fun _ => within_rhsBody⟩
  · exact ⟨_, fun _ => within_matBody⟩
  · exact ⟨_, fun _ => within_presBody⟩
  · exact ⟨_, fun _ => within_gradBody⟩
  · exact ⟨_, fun _ => within_pushBody⟩
  · exact ⟨_, fun _ => within_dsBody⟩

end OpenMps
