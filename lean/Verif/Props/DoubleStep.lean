import Verif.Props.DoublePpe
import Verif.Props.RoundingStep

/-! # C71 for a whole step in `double` -/

set_option linter.unusedSectionVars false
set_option exponentiation.threshold 2000

namespace OpenMps

variable {D : Nat} {ω : Type}

/-- **C71**, a whole step in `double`.  No parameter left: the arithmetic is that of IEEE 754 binary64. -/
theorem C71_step_in_double (hD : D ≤ 3) {ℓ : Double}
    {P : Params Double D ω} {cfg : Config} {e : EnvArgs Double D} {env : Env Double D} {w : ω} {s0 s s1 t s' : State Double D ω} {dts : List Double}
    (hmk : Env.mk? cfg e = some env) (hc : e.courant.isFinite = true ∧ 1 / 2 ^ 20 ≤ e.courant.val ∧ e.courant.val ≤ 1)
    (hℓ : ℓ.Sized 30) (hre : env.re.Sized 30) (hL : env.neighborLength.Sized 30)
    (h1 : ℓ.val ≤ env.re.val) (h2 : env.re.val ≤ 2 ^ 20 * ℓ.val) (h3 : env.neighborLength.val ≤ 2 ^ 21 * ℓ.val)
    (hn0 : env.n0.Sized 30) (hla : env.lambda.Sized 60) (hrho : env.rho.Sized 30) (hnu : env.nu.Upto 30) (hnu0 : 0 ≤ env.nu.val)
    (hg : ∀ a, (env.g a).Upto 30)
    (hnew : State.new? env w = some s0) (hist : Hist P s0 dts s) (hok : s0.grid.ClearOK)
    (hsize : ∀ a, s0.grid.size a ≤ 2 ^ 20) (hmin : ∀ a, (env.minX a).Upto 500)
    (hpos : ∀ i, i < s.n → (s.ps i).ty ≠ .disabled → ∀ a, ((s.ps i).x a).Upto 60 ∧ ((s.ps i).u a).Upto 30)
    (hsep0 : ∀ i j, i < s.n → j < s.n → j ≠ i → (s.ps i).ty ≠ .disabled → (s.ps j).ty ≠ .disabled → ℓ.val ≤ Double.trueDist (s.ps i).x (s.ps j).x)
    (sch : Schedule) (hv : sch.Valid s.n) (dt : Double) (hdt : dt.Sized 30)
    (hcg : P.cfg.centralGravity = false) (hgc : P.cfg.gc = false) (hds : P.cfg.ds = false)
    (h : (s.start dt).searchNeighbor (sch 0) = .ok s1) (ht : s.beforePressure P sch dt = .ok t) (hs' : s.forwardTime P sch dt = .ok s')
    {m : ℝ} (hm : env.re.val + 2 * m ≤ (1 - 1 / 2 ^ 26) * env.neighborLength.val)
    (hmove : ∀ j, j < s.n → (t.ps j).ty ≠ .disabled → Double.trueDist (s.ps j).x (t.ps j).x ≤ m ∧ (s'.ps j).p.Upto 60 ∧
      ∀ a, ((t.ps j).x a).Upto 60 ∧ ((t.ps j).u a).Upto 60)
    (hsep : ∀ i j, i < s.n → j < s.n → j ≠ i → (t.ps i).ty ≠ .disabled → (t.ps j).ty ≠ .disabled → ℓ.val ≤ Double.trueDist (t.ps i).x (t.ps j).x)
    (i : Nat) (hi : i < s.n) (hty : (s1.ps i).ty = .incompressibleNewton) (hk : (s1.neighbors i).length ≤ 2 ^ 20)
    (hN : P.cfg.spp = true →
      env.n0.val + ((s1.neighbors i).length + 1) * (doubleRounding.trueDensity s1 i + 1) / 2 ^ 41 ≤ doubleRounding.trueDensity s1 i ∧
      env.n0.val + ((s1.neighbors i).length + 1) * (doubleRounding.trueDensity t i + 1) / 2 ^ 41 ≤ doubleRounding.trueDensity t i) :
    ∃ N N', doubleRounding.Within s1 i N ∧ doubleRounding.Within t i N' ∧ ∀ a, ((s'.ps i).u a).isFinite = true ∧ ((s'.ps i).x a).isFinite = true ∧
      |((s'.ps i).u a).val - (((s.ps i).u a).val + dt.val * doubleRounding.trueAcceleration P.cfg s1 i N a +
          doubleRounding.truePush (t.withPressures s') i N' a)| ≤
        (2 * (s1.neighbors i).length + 220) / 2 ^ 50 * (sz ((s.ps i).u a).val + dt.val * doubleRounding.accelerationSize P.cfg s1 i N a +
          sz ((t.ps i).u a).val + doubleRounding.pushSize (t.withPressures s') i N' a) ∧
      |((s'.ps i).x a).val - (((s.ps i).x a).val + dt.val * ((s'.ps i).u a).val)| ≤
        (2 * (s1.neighbors i).length + 220) / 2 ^ 50 * (sz ((s.ps i).x a).val + sz ((t.ps i).x a).val +
          2 * dt.val * (sz ((t.ps i).u a).val + doubleRounding.pushSize (t.withPressures s') i N' a)) := by
  have hl := double_lengths hℓ hre h1 h2
  have hL' := hL.mono (show 30 ≤ 400 by norm_num)
  have henv : (s.start dt).env = { env with t := (s.start dt).env.t, dt := dt } := by
    have : s.env = { env with t := s.env.t, dt := s.env.dt } := by
      refine Hist.rec' (Q := fun _ s => s.env = { env with t := s.env.t, dt := s.env.dt }) ?_ ?_ ?_ hist
      · unfold State.new? at hnew
        split at hnew
        · cases hnew
        · injection hnew with hnew; rw [← hnew]
      · intro _ _ _ _ h; exact h
      · intro _ _ _ _ _ _ h hv hl
        rw [(step_frame hv hl).2.1]
        rw [h]
    change { s.env with dt := dt, t := s.env.t + dt } = { env with t := s.env.t + dt, dt := dt }
    conv_lhs => rw [this]
  have hP : doubleRounding.Plain (s.start dt).env := by
    rw [henv]
    exact ⟨hre, hn0, hla, hrho, hdt, hnu, hnu0, hg⟩
  exact C71_step_is_accurate doubleRounding dd.1 dd.2.1 dd.2.2.1 hD hmk hc hl hℓ.2.1 hnew hist hok hL'.goodLength h3 hsize (Double.Upto.inRange hL' hmin)
    (fun i hi hd => ⟨Double.Upto.inRange hL' (fun a => (hpos i hi hd a).1.mono (by norm_num)), hpos i hi hd⟩) hsep0 sch hv dt hP hcg hgc hds h ht hs' hm
    (fun j hj hd => ⟨(hmove j hj hd).1, Double.Upto.inRange hL' (fun a => ((hmove j hj hd).2.2 a).1.mono (by norm_num)), (hmove j hj hd).2.1, (hmove j hj hd).2.2⟩)
    hsep i hi hty hk hN

end OpenMps
