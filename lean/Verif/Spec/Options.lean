import Verif.Spec.History
import Verif.Spec.ReferenceStep

/-! # Specification for options that are without effect -/

namespace OpenMps

variable {F : Type} [Scalar F] {D : Nat} {ω : Type}

/-- Two selections of options that differ at most in options that are not consulted: HS and ECS belong to the pressure equation, which the
explicit mode does not solve; the midpoint option belongs to GC. -/
structure Config.Alike (c c' : Config) : Prop where
  explicit : c'.explicit = c.explicit
  hl : c'.hl = c.hl
  gc : c'.gc = c.gc
  ds : c'.ds = c.ds
  spp : c'.spp = c.spp
  centralGravity : c'.centralGravity = c.centralGravity
  hs : c.explicit = false → c'.hs = c.hs
  ecs : c.explicit = false → c'.ecs = c.ecs
  midpoint : c.gc = true → c'.midpoint = c.midpoint

/-- Everything a user can observe except the number densities `N()`. -/
structure SameMotion (s t : State F D ω) : Prop where
  n : t.n = s.n
  env : t.env = s.env
  world : t.world = s.world
  ty : ∀ i, i < s.n → (t.ps i).ty = (s.ps i).ty
  x : ∀ i, i < s.n → (t.ps i).x = (s.ps i).x
  u : ∀ i, i < s.n → (t.ps i).u = (s.ps i).u
  p : ∀ i, i < s.n → (t.ps i).p = (s.ps i).p

/-- Steps of given lengths one after the other, all of them successful. -/
inductive Steps (P : Params F D ω) : List F → State F D ω → State F D ω → Prop
  | done {s} : Steps P [] s s
  | step {dts s s' s''} (sch : Schedule) (dt : F) : sch.Valid s.n → s.forwardTime P sch dt = .ok s' → Steps P dts s' s'' →
      Steps P (dt :: dts) s s''

end OpenMps
