import Verif.Model.Fine

/-!
# Data races

Two iterations of a parallel loop race if both are about to access the same memory cell and at least one of the accesses
is a store.
-/

namespace OpenMps

variable {F : Type} {D : Nat} {ω : Type}

/-- The next access is a store into `l`. -/
def Prog.StoresNext {A : Type} (p : Prog F D A) (l : Loc) : Prop := ∃ v k, p = .store l v k

/-- The next access is a load from `l`. -/
def Prog.LoadsNext {A : Type} (p : Prog F D A) (l : Loc) : Prop := ∃ k, p = .load l k

/-- Two of the `n` iterations are about to make conflicting accesses. -/
def Running.Race (n : Nat) (c : Running F D ω) : Prop :=
  ∃ i j l, i < n ∧ j < n ∧ i ≠ j ∧ (c.rest i).StoresNext l ∧ ((c.rest j).StoresNext l ∨ (c.rest j).LoadsNext l)

/-- The bodies of all parallel loops of a step, in the order of their execution. -/
def loopBodies [Scalar F] (P : Params F D ω) (ro : Ro F D ω) : List (Nat → Prog F D Unit) :=
  [rowBody ro, densBody P.cfg ro, ecsBody P.cfg ro, accelBody P.cfg ro, moveBody P.walls ro, eosBody ro,
   rhsBody P.cfg ro, matBody P.cfg ro, presBody P.cfg ro, gradBody P.cfg ro, pushBody ro, dsBody P.cfg ro]

end OpenMps
