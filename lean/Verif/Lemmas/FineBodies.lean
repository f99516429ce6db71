import Verif.Lemmas.Fine
import Verif.Lemmas.Par

set_option linter.unusedSectionVars false

namespace OpenMps

variable {F : Type} {D : Nat} {ω : Type}

theorem run_ro {A : Type} (p : Prog F D A) (s : State F D ω) : (p.run s).1.ro = s.ro := by
  induction p generalizing s with
  | ret a => rfl
  | load l k ih => exact ih _ _
  | store l v k ih => exact (ih _).trans (ro_set s l v)
  | crash => rfl

theorem upd_at {α : Type} (f : Nat → α) (i : Nat) (v : α) : upd f i v i = v := if_pos rfl

theorem ro_env (s : State F D ω) : s.ro.env = s.env := rfl

theorem parRun_serial {S R : Type} (compute : S → Nat → R) (commit : Nat → R → S → S) (L : List Nat) (s : S)
    (loc : Nat → Option R) :
    parRun compute commit (L.flatMap (fun i => [.rd i, .wr i])) s loc
      = L.foldl (fun t i => commit i (compute t i) t) s := by
  induction L generalizing s loc with
  | nil => rfl
  | cons i L ih =>
    simp only [List.flatMap_cons, List.cons_append, List.nil_append, parRun, upd, if_true, List.foldl_cons]
    exact ih _ _

theorem seqRun_parLoop {R : Type} {compute : State F D ω → Nat → R} {commit : Nat → R → State F D ω → State F D ω}
    {body : Nat → Prog F D Unit} {ro : Ro F D ω}
    (h : ∀ (t : State F D ω) i, t.ro = ro → ((body i).run t).1 = commit i (compute t i) t) (n : Nat) (s : State F D ω)
    (hs : s.ro = ro) : seqRun body (List.range n) s = parLoop compute commit (serial n) s := by
  unfold parLoop serial
  rw [parRun_serial]
  generalize List.range n = L
  induction L generalizing s with
  | nil => rfl
  | cons i L ih =>
    rw [seqRun_cons, List.foldl_cons, ih _ ((run_ro _ _).trans hs), h s i hs]

variable [Scalar F]

/-- The fields an interaction function has asked for; the others at their default. -/
def Particle.mask (f : Fields) (q : Particle F D) : Particle F D :=
  { x := if f.x then q.x else 0, u := if f.u then q.u else 0, p := if f.p then q.p else 0
    n := if f.n then q.n else 0, ty := if f.ty then q.ty else .dummy }

/-! ## Rules for running -/

theorem run_ite {A : Type} (c : Prop) [Decidable c] (p q : Prog F D A) (s : State F D ω) :
    (if c then p else q).run s = if c then p.run s else q.run s := by
  split <;> rfl

theorem run_rd_bind {B : Type} (l : Loc) (f : Val F D l → Prog F D B) (s : State F D ω) :
    ((rd l : Prog F D _) >>= f).run s = (f (s.get l)).run s := rfl

theorem run_wr_bind {B : Type} (l : Loc) (v : Val F D l) (f : Unit → Prog F D B) (s : State F D ω) :
    ((wr l v : Prog F D _) >>= f).run s = (f ()).run (s.set l v) := rfl

theorem run_pure_bind {A B : Type} (a : A) (f : A → Prog F D B) (s : State F D ω) :
    ((pure a : Prog F D A) >>= f).run s = (f a).run s := rfl

theorem run_fetch (f : Fields) (j : Nat) (s : State F D ω) :
    (fetch f j : Prog F D _).run s = (s, some ((s.ps j).mask f)) := by
  obtain ⟨a, b, c, d, e⟩ := f
  cases a <;> cases b <;> cases c <;> cases d <;> cases e <;> rfl

section
variable {A B : Type} [Add A] [Add B] {cfg : Config} {s : State F D ω} {ro : Ro F D ω} {i : Nat} {f : Fields}
  {func : Int → Particle F D → Prog F D A} {g : Int → Particle F D → B} {E : B → State F D ω} {π : B → A}

theorem run_pRound (hro : s.ro = ro) (hE : ∀ b l, l ≠ .rows i → (E b).get l = s.get l)
    (hfunc : ∀ j q b, (func j q).run (E b) = (E (b + g j q), some (π (g j q))))
    (hπ : ∀ b c, π (b + c) = π b + π c) (hmask : ∀ j q, g j (q.mask f) = g j q) (acc : B × Vec F D) (idx : Nat) :
    (pRound ro i f func (s.ps i).x (π acc.1, acc.2) idx).run (E acc.1)
      = (let a := (fun (acc : B × Vec F D) j =>
          if j ≠ i then
            let dx := (s.ps j).x - (s.ps i).x
            let r2 := dot dx dx
            if Scalar.lt r2 (s.env.re * s.env.re) then
              (acc.1 + g (j : Int) (s.ps j), acc.2 + smul (W (Scalar.sqrt r2) s.env.re) dx)
            else acc
          else acc) acc (s.nbr i (1 + idx))
        (E a.1, some (π a.1, a.2))) := by
  subst hro
  unfold pRound
  rw [run_rd_bind, hE _ _ (by simp), show s.get (Loc.nbr i (1 + idx)) = s.nbr i (1 + idx) from rfl]
  generalize s.nbr i (1 + idx) = j
  simp only
  by_cases h1 : j ≠ i
  · rw [if_pos h1, if_pos h1, run_rd_bind, hE _ _ (by simp), show s.get (Loc.x j) = (s.ps j).x from rfl]
    show (if Scalar.lt (dot ((s.ps j).x - (s.ps i).x) ((s.ps j).x - (s.ps i).x))
      (s.env.re * s.env.re) then _ else _ : Prog F D _).run _ = _
    by_cases h2 : Scalar.lt (dot ((s.ps j).x - (s.ps i).x) ((s.ps j).x - (s.ps i).x))
      (s.env.re * s.env.re)
    · rw [if_pos h2, if_pos h2, run_bind, run_fetch]
      simp only
      have hm : ((E acc.1).ps j).mask f = (s.ps j).mask f := by
        have e1 : ((E acc.1).ps j).x = (s.ps j).x := hE acc.1 (.x _) (by simp)
        have e2 : ((E acc.1).ps j).u = (s.ps j).u := hE acc.1 (.u _) (by simp)
        have e3 : ((E acc.1).ps j).p = (s.ps j).p := hE acc.1 (.p _) (by simp)
        have e4 : ((E acc.1).ps j).n = (s.ps j).n := hE acc.1 (.n _) (by simp)
        have e5 : ((E acc.1).ps j).ty = (s.ps j).ty := hE acc.1 (.ty _) (by simp)
        unfold Particle.mask
        rw [e1, e2, e3, e4, e5]
      rw [hm, run_bind, hfunc, hmask]
      simp only
      rw [run_pure, hπ]
      rfl
    · rw [if_neg h2, if_neg h2]
      rfl
  · rw [if_neg h1, if_neg h1]
    rfl

theorem run_pRounds (hro : s.ro = ro) (hE : ∀ b l, l ≠ .rows i → (E b).get l = s.get l)
    (hfunc : ∀ j q b, (func j q).run (E b) = (E (b + g j q), some (π (g j q))))
    (hπ : ∀ b c, π (b + c) = π b + π c) (hmask : ∀ j q, g j (q.mask f) = g j q) (L : List Nat) (acc : B × Vec F D) :
    (pRounds ro i f func (s.ps i).x L (π acc.1, acc.2)).run (E acc.1)
      = (let a := (L.map (fun idx => s.nbr i (1 + idx))).foldl (fun (acc : B × Vec F D) j =>
          if j ≠ i then
            let dx := (s.ps j).x - (s.ps i).x
            let r2 := dot dx dx
            if Scalar.lt r2 (s.env.re * s.env.re) then
              (acc.1 + g (j : Int) (s.ps j), acc.2 + smul (W (Scalar.sqrt r2) s.env.re) dx)
            else acc
          else acc) acc
        (E a.1, some (π a.1, a.2))) := by
  induction L generalizing acc with
  | nil => rfl
  | cons idx L ih =>
    unfold pRounds
    rw [run_bind, run_pRound hro hE hfunc hπ hmask]
    simp only [List.map_cons, List.foldl_cons]
    exact ih _

theorem run_pAccumulate (hro : s.ro = ro) (hE : ∀ b l, l ≠ .rows i → (E b).get l = s.get l)
    (hfunc : ∀ j q b, (func j q).run (E b) = (E (b + g j q), some (π (g j q))))
    (hπ : ∀ b c, π (b + c) = π b + π c) (hmask : ∀ j q, g j (q.mask f) = g j q) (b0 : B) :
    (pAccumulate cfg ro i (π b0) f func).run (E b0)
      = (E (s.accumulate cfg i b0 g), some (π (s.accumulate cfg i b0 g))) := by
  have hro' := hro
  subst hro'
  unfold pAccumulate
  rw [run_rd_bind, run_rd_bind, hE _ _ (by simp), hE _ _ (by simp)]
  show (pRounds s.ro i f func (s.ps i).x (List.range (s.nbr i 0)) (π b0, 0) >>= _ : Prog F D _).run _ = _
  rw [run_bind, run_pRounds rfl hE hfunc hπ hmask (List.range (s.nbr i 0)) (b0, 0)]
  simp only
  unfold State.accumulate
  have hacc : (List.map (fun idx => s.nbr i (1 + idx)) (List.range (s.nbr i 0))).foldl (fun (acc : B × Vec F D) j =>
          if j ≠ i then
            let dx := (s.ps j).x - (s.ps i).x
            let r2 := dot dx dx
            if Scalar.lt r2 (s.env.re * s.env.re) then
              (acc.1 + g (j : Int) (s.ps j), acc.2 + smul (W (Scalar.sqrt r2) s.env.re) dx)
            else acc
          else acc) (b0, 0) = s.accLoop i b0 g := rfl
  simp only at hacc
  rw [hacc]
  generalize s.accLoop i b0 g = acc
  simp only
  rw [run_ite]
  by_cases hs : cfg.spp
  · rw [if_pos hs, if_pos hs, run_rd_bind, hE _ _ (by simp)]
    show (if Scalar.lt (s.nNoSpp i) s.env.n0 then _ else _ : Prog F D _).run _ = _
    unfold State.sppParticle
    simp only
    by_cases h1 : Scalar.lt (s.nNoSpp i) s.env.n0
    · rw [if_pos h1, if_pos h1]
      show (if Scalar.lt Scalar.epsilon (Scalar.sqrt (dot (vdiv acc.2 s.env.n0) (vdiv acc.2 s.env.n0))) then _ else _ : Prog F D _).run _ = _
      by_cases h2 : Scalar.lt Scalar.epsilon (Scalar.sqrt (dot (vdiv acc.2 s.env.n0) (vdiv acc.2 s.env.n0)))
      · rw [if_pos h2, if_pos h2, run_rd_bind, hE _ _ (by simp), run_bind, hfunc]
        simp only
        rw [run_pure, hπ]
        rfl
      · rw [if_neg h2, if_neg h2]
        rfl
    · rw [if_neg h1, if_neg h1]
      rfl
  · rw [if_neg hs, if_neg hs]
    rfl

end

/-- The case of an interaction function that only reads. -/
theorem run_pAccumulate_pure {A : Type} [Add A] {cfg : Config} {s : State F D ω} {ro : Ro F D ω} {i : Nat} {f : Fields}
    {func : Int → Particle F D → Prog F D A} {g : Int → Particle F D → A} {zero : A} (hro : s.ro = ro)
    (hfunc : ∀ j q, (func j q).run s = (s, some (g j q))) (hmask : ∀ j q, g j (q.mask f) = g j q) :
    (pAccumulate cfg ro i zero f func).run s = (s, some (s.accumulate cfg i zero g)) :=
  run_pAccumulate (E := fun _ => s) (π := id) hro (fun _ _ _ => rfl) (fun j q _ => hfunc j q) (fun _ _ => rfl) hmask zero

/-! ## The bodies -/

section
variable {cfg : Config} {t : State F D ω} {ro : Ro F D ω} {i : Nat}

theorem set_nNoSpp (t : State F D ω) (i : Nat) (v : F) :
    t.set (.nNoSpp i) v = { t with nNoSpp := upd t.nNoSpp i v } := rfl

theorem upd_upd {α : Type} (h : Nat → α) (i : Nat) (v w : α) : upd (upd h i v) i w = upd h i w := by
  funext j
  simp only [upd]
  split <;> rfl

theorem run_densBody (h : t.ro = ro) : ((densBody cfg ro i).run t).1 = State.densCommit cfg i (t.densCompute cfg i) t := by
  subst h
  unfold densBody State.densCommit State.densCompute
  simp only [ro_env]
  by_cases hs : cfg.spp
  · simp only [hs, if_true]
    rw [run_wr_bind, set_nNoSpp, run_rd_bind]
    show ((if (t.ps i).ty.active then _ else _ : Prog F D _).run _).1 = _
    by_cases ha : (t.ps i).ty.active
    · rw [if_pos ha, if_pos ha, run_bind]
      rw [run_pAccumulate_pure (ro := t.ro) (s := { t with nNoSpp := upd t.nNoSpp i t.env.n0 })
        (g := fun j q' => if true && decide (j < 0) then (0 : F) else W (dist (t.ps i).x q'.x) t.env.re) rfl]
      · simp only
        rw [run_wr_bind]
        simp only [run_wr, State.set]
        rw [upd_upd]
      · intro j q
        by_cases hj : j < 0
        · simp [hj]
        · simp only [Bool.true_and, decide_eq_true_eq, hj, if_false]
          rfl
      · intro j q; rfl
    · rw [if_neg ha, if_neg ha]
      rfl
  · have hs' : cfg.spp = false := by simpa using hs
    simp only [hs', Bool.false_eq_true, if_false]
    rw [run_rd_bind]
    show ((if (t.ps i).ty.active then _ else _ : Prog F D _).run _).1 = _
    by_cases ha : (t.ps i).ty.active
    · rw [if_pos ha, if_pos ha, run_bind]
      rw [run_pAccumulate_pure (s := t)
        (g := fun j q' => if false && decide (j < 0) then (0 : F) else W (dist (t.ps i).x q'.x) t.env.re) rfl]
      · simp only [run_wr, State.set]
      · intro j q; rfl
      · intro j q; rfl
    · rw [if_neg ha, if_neg ha]
      rfl

theorem run_pSpeed (h : t.ro = ro) : (pSpeed cfg ro i).run t = (t, some (t.densitySpeed cfg i)) := by
  subst h
  unfold pSpeed State.densitySpeed
  by_cases hh : cfg.hs
  · rw [if_pos hh, if_pos hh]
    have key : (pAccumulate cfg t.ro i (0 : F) { x := true, u := true } (fun _ q => do
        let thisX ← rd (.x i)
        let thisU ← rd (.u i)
        let dx := q.x - thisX
        let du := q.u - thisU
        let r := norm2 dx
        pure (dot dx du / (r * r * r)))).run t = (t, some (t.accumulate cfg i (0 : F) (fun _ q =>
      let dx := q.x - (t.ps i).x
      let du := q.u - (t.ps i).u
      let r := norm2 dx
      dot dx du / (r * r * r)))) :=
      run_pAccumulate_pure rfl (fun _ _ => rfl) (fun _ _ => rfl)
    by_cases hs : cfg.spp
    · simp only [hs, if_true, Bool.true_and]
      rw [run_bind, run_rd_bind]
      simp only [run_pure]
      show (if Scalar.lt (t.nNoSpp i) t.env.n0 then _ else _ : Prog F D _).run _ = _
      by_cases hl : Scalar.lt (t.nNoSpp i) t.env.n0
      · rw [if_pos hl, if_pos hl]; rfl
      · rw [if_neg hl, if_neg hl, run_bind, key]
        rfl
    · have hs' : cfg.spp = false := by simpa using hs
      simp only [hs', Bool.false_eq_true, if_false, Bool.false_and]
      rw [run_pure_bind]
      simp only [Bool.false_eq_true, if_false]
      rw [run_bind, key]
      rfl
  · rw [if_neg hh, if_neg hh]
    rfl

theorem run_ecsBody (h : t.ro = ro) : ((ecsBody cfg ro i).run t).1 = State.ecsCommit i (t.ecsCompute cfg i) t := by
  have h' := h
  subst h'
  unfold ecsBody State.ecsCompute
  rw [run_rd_bind]
  show ((if (t.ps i).ty.active then _ else _ : Prog F D _).run _).1 = _
  by_cases ha : (t.ps i).ty.active
  · rw [if_pos ha, if_pos ha, run_rd_bind, run_bind, run_pSpeed rfl]
    rfl
  · rw [if_neg ha, if_neg ha]; rfl

theorem run_moveBody (w : Walls F D ω) (h : t.ro = ro) :
    ((moveBody w ro i).run t).1 = State.moveCommit i (t.moveCompute w i) t := by
  subst h
  unfold moveBody State.moveCompute
  rw [run_rd_bind]
  simp only
  show ((if (t.ps i).ty = .incompressibleNewton then _ else _ : Prog F D _).run _).1 = _
  by_cases ha : (t.ps i).ty = .incompressibleNewton
  · rw [if_pos ha, if_pos ha]
    generalize hv : (t.ps i).u + vmul (t.du i) t.env.dt = v
    have e : ∀ v', v' = v → (t.set (.u i) v').set (.x i) ((t.set (.u i) v').get (.x i)
        + vmul ((t.set (.u i) v').get (.u i)) t.env.dt) = State.moveCommit i ((t.ps i).x + vmul v t.env.dt, v) t := by
      rintro v' rfl
      rw [get_set_ne _ (by simp), get_set_same]
      simp only [State.get, State.set, upd_upd, upd_at, State.moveCommit]
    exact e _ hv
  · rw [if_neg ha, if_neg ha]
    show (t.set (.x i) (w.pos t.world i t.env.t t.env.dt)).set (.u i)
      (vdiv (w.pos t.world i t.env.t t.env.dt - (t.ps i).x) t.env.dt) = _
    simp only [State.set, upd_upd, upd_at, State.moveCommit]

theorem run_pushBody (h : t.ro = ro) :
    ((pushBody ro i).run t).1 = State.pushCommit i (t.pushCompute i) t := by
  subst h
  unfold pushBody State.pushCompute
  rw [run_rd_bind]
  show ((if (t.ps i).ty = .incompressibleNewton then _ else _ : Prog F D _).run _).1 = _
  by_cases ha : (t.ps i).ty = .incompressibleNewton
  · rw [if_pos ha, if_pos ha]
    show (t.set (.u i) ((t.ps i).u + t.du i)).set (.x i) ((t.set (.u i) ((t.ps i).u + t.du i)).get (.x i)
        + vmul (t.du i) t.env.dt) = _
    rw [get_set_ne _ (by simp)]
    simp only [State.get, State.set, upd_upd, upd_at, State.pushCommit]
  · rw [if_neg ha, if_neg ha]
    rfl

theorem run_eosBody (h : t.ro = ro) : ((eosBody ro i).run t).1 = State.presCommit i (t.eosCompute i) t := by
  subst h
  rfl

theorem run_presBody (h : t.ro = ro) : ((presBody cfg ro i).run t).1 = State.presCommit i (t.presCompute cfg i) t := by
  subst h
  unfold presBody State.presCompute
  rw [run_rd_bind]
  show ((if (t.ps i).ty.active then _ else _ : Prog F D _).run _).1 = _
  by_cases ha : (t.ps i).ty.active
  · rw [if_pos ha, if_pos ha, run_rd_bind]
    simp only
    show ((if Scalar.lt (t.ppe.x i) 0 then _ else _ : Prog F D _).run _).1 = _
    by_cases hp : Scalar.lt (t.ppe.x i) 0
    · rw [if_pos hp]
      simp only [hp, Bool.true_or, if_true]
      rfl
    · rw [if_neg hp]
      have hp' : Scalar.lt (t.ppe.x i) 0 = false := by simpa using hp
      simp only [hp', Bool.false_or]
      by_cases hs : cfg.spp
      · simp only [hs, if_true, State.isSurface, Bool.not_true, Bool.false_and, Bool.false_eq_true, if_false]
        rfl
      · have hs' : cfg.spp = false := by simpa using hs
        simp only [hs', Bool.false_eq_true, if_false, State.isSurface, Bool.not_false, Bool.true_and]
        rfl
  · rw [if_neg ha, if_neg ha]; rfl

theorem run_pFixed (h : t.ro = ro) : (pFixed cfg ro i).run t = (t, some (t.fixedRow cfg i)) := by
  subst h
  unfold pFixed State.fixedRow
  rw [run_rd_bind]
  show (if (t.ps i).ty = .dummy ∨ (t.ps i).ty = .disabled then _ else _ : Prog F D _).run _ = _
  by_cases h1 : (t.ps i).ty = .dummy ∨ (t.ps i).ty = .disabled
  · rw [if_pos h1]
    have : (decide ((t.ps i).ty = .dummy) || decide ((t.ps i).ty = .disabled)) = true := by
      rcases h1 with h | h <;> simp [h]
    rw [this]; rfl
  · rw [if_neg h1]
    have : (decide ((t.ps i).ty = .dummy) || decide ((t.ps i).ty = .disabled)) = false := by
      simpa using h1
    rw [this]
    by_cases hs : cfg.spp
    · simp only [hs, if_true, State.isSurface]; rfl
    · have hs' : cfg.spp = false := by simpa using hs
      simp only [hs', State.isSurface]
      rfl

theorem run_rhsBody (h : t.ro = ro) : ((rhsBody cfg ro i).run t).1 = State.rhsCommit i (t.rhsCompute cfg i) t := by
  have h' := h
  subst h'
  unfold rhsBody State.rhsCompute
  rw [run_bind, run_pFixed rfl]
  simp only
  by_cases hf : t.fixedRow cfg i
  · rw [if_pos hf, if_pos hf]; rfl
  · rw [if_neg hf, if_neg hf, run_bind, run_pSpeed rfl]
    simp only
    by_cases he : cfg.ecs
    · simp only [he, if_true]; rfl
    · have he' : cfg.ecs = false := by simpa using he
      simp only [he', Bool.false_eq_true, if_false]
      rfl

theorem run_accelBody (h : t.ro = ro) : ((accelBody cfg ro i).run t).1 = State.duCommit i (t.accelCompute cfg i) t := by
  have h' := h
  subst h'
  unfold accelBody State.accelCompute
  rw [run_rd_bind]
  show ((if (t.ps i).ty = .incompressibleNewton then _ else _ : Prog F D _).run _).1 = _
  by_cases ha : (t.ps i).ty = .incompressibleNewton
  · rw [if_pos ha, if_pos ha, run_bind, run_pAccumulate_pure (s := t) (g := t.viscFunc cfg i) rfl]
    · simp only
      rw [run_wr_bind]
      have e : ∀ v w : Vec F D, (t.set (.du i) v).set (.du i) ((t.set (.du i) v).get (.du i) + w)
          = State.duCommit i (some (v + w)) t := by
        intro v w
        rw [get_set_same]
        simp only [State.set, upd_upd, State.duCommit]
      unfold State.gravity
      by_cases hc : cfg.centralGravity
      · rw [if_pos hc, if_pos hc]
        exact e _ _
      · rw [if_neg hc, if_neg hc]
        exact e _ _
    · intro j q
      unfold State.viscFunc
      by_cases hd : q.ty ≠ .dummy
      · rw [if_pos hd, if_pos hd]
        by_cases hl : cfg.hl
        · simp only [hl, if_true]; rfl
        · simp only [hl]; rfl
      · rw [if_neg hd, if_neg hd]; rfl
    · intro j q; rfl
  · rw [if_neg ha, if_neg ha]; rfl

theorem run_gradBody (h : t.ro = ro) : ((gradBody cfg ro i).run t).1 = State.duCommit i (t.gradCompute cfg i) t := by
  have h' := h
  subst h'
  unfold gradBody State.gradCompute
  rw [run_rd_bind]
  show ((if (t.ps i).ty = .incompressibleNewton then _ else _ : Prog F D _).run _).1 = _
  by_cases ha : (t.ps i).ty = .incompressibleNewton
  · rw [if_pos ha, if_pos ha]
    simp only
    by_cases hg : cfg.gc
    · rw [if_pos hg, if_pos hg, run_bind, run_pAccumulate_pure (s := t) (g := t.gcMatFunc i) rfl (fun _ _ => rfl)
        (fun _ _ => by unfold State.gcMatFunc; rfl)]
      simp only
      rw [run_rd_bind, run_bind, run_pAccumulate_pure (s := t)
        (g := t.gcFunc cfg i (invertMatrix (t.accumulate cfg i (0 : Mat F D) (t.gcMatFunc i)) (Scalar.ofInt (D : Int) / t.env.n0))) rfl]
      · rfl
      · intro j q
        unfold State.gcFunc
        by_cases hd : q.ty ≠ .dummy
        · rw [if_pos hd, if_pos hd]; rfl
        · rw [if_neg hd, if_neg hd]; rfl
      · intro j q; rfl
    · rw [if_neg hg, if_neg hg, run_bind, run_pAccumulate_pure (s := t) (g := t.gradFunc i) rfl]
      · rfl
      · intro j q
        unfold State.gradFunc
        by_cases hd : q.ty ≠ .dummy
        · rw [if_pos hd, if_pos hd]; rfl
        · rw [if_neg hd, if_neg hd]; rfl
      · intro j q; rfl
  · rw [if_neg ha, if_neg ha]; rfl

theorem run_dsBody (h : t.ro = ro) : ((dsBody cfg ro i).run t).1 = State.duCommit i (t.dsCompute cfg i) t := by
  have h' := h
  subst h'
  unfold dsBody State.dsCompute
  rw [run_rd_bind]
  show ((if (t.ps i).ty = .incompressibleNewton then _ else _ : Prog F D _).run _).1 = _
  by_cases ha : (t.ps i).ty = .incompressibleNewton
  · rw [if_pos ha, if_pos ha]
    simp only
    rw [run_bind, run_pAccumulate_pure (s := t)
      (g := t.dsFunc cfg i ((t.env.l0 - t.env.maxDx) * (t.env.l0 - t.env.maxDx))) rfl]
    · rfl
    · intro j q
      unfold State.dsFunc
      by_cases hd : q.ty ≠ .dummy ∧ (cfg.spp = false ∨ 0 ≤ j)
      · rw [if_pos hd, if_pos hd, run_rd_bind]
        simp only
        show (if Scalar.lt (dot (q.x - (t.ps i).x) (q.x - (t.ps i).x)) ((t.env.l0 - t.env.maxDx) * (t.env.l0 - t.env.maxDx))
          then _ else _ : Prog F D _).run _ = _
        by_cases hl : Scalar.lt (dot (q.x - (t.ps i).x) (q.x - (t.ps i).x)) ((t.env.l0 - t.env.maxDx) * (t.env.l0 - t.env.maxDx))
        · rw [if_pos hl, if_pos hl]; rfl
        · rw [if_neg hl, if_neg hl]; rfl
      · rw [if_neg hd, if_neg hd]; rfl
    · intro j q; rfl
  · rw [if_neg ha, if_neg ha]; rfl

theorem run_pPush (e : Nat × F) (es : List (Nat × F)) :
    (pPush i e : Prog F D _).run (t.set (.rows i) es) = (t.set (.rows i) (es ++ [e]), some ()) := by
  unfold pPush
  rw [run_rd_bind, get_set_same]
  show ((t.set (.rows i) es).set (.rows i) (es ++ [e]), some ()) = _
  simp only [State.set, upd_upd]

theorem run_matBody (h : t.ro = ro) : ((matBody cfg ro i).run t).1 = State.matCommit i (t.matCompute cfg i) t := by
  have h' := h
  subst h'
  unfold matBody State.matCompute
  rw [run_wr_bind, run_bind, run_pFixed (ro_set t (.rows i) [])]
  simp only
  have hf' : (t.set (.rows i) []).fixedRow cfg i = t.fixedRow cfg i := rfl
  rw [hf']
  by_cases hf : t.fixedRow cfg i
  · rw [if_pos hf, if_pos hf, run_pPush]
    rfl
  · rw [if_neg hf, if_neg hf, run_bind]
    have key := run_pAccumulate (A := F) (B := RowAcc F) (cfg := cfg) (s := t) (ro := t.ro) (i := i)
      (f := { n := !cfg.spp, x := true, ty := true })
      (func := fun j q =>
        if q.ty ≠ .dummy then do
          let thisX ← rd (.x i)
          let r := dist thisX q.x
          let aij : F :=
            if cfg.hl then Scalar.ofInt ((5 - D : Nat) : Int) * t.ro.env.re / t.ro.env.n0 / (r * r * r)
            else (Scalar.ofInt ((2 * D : Nat) : Int) / t.ro.env.lambda / t.ro.env.n0) * W r t.ro.env.re
          let off : Bool :=
            if cfg.spp then decide (0 ≤ j) else !Scalar.lt (q.n / t.ro.env.n0) t.ro.env.surfaceRatio
          if off then pPush i (j.toNat, aij) else pure ()
          pure (-aij)
        else pure 0)
      (g := t.rowFunc cfg i) (E := fun b => t.set (.rows i) b.entries) (π := RowAcc.sum) rfl
      (fun b l hl => get_set_ne t hl _) ?_ (fun _ _ => rfl) ?_ { sum := 0, entries := [] }
    · erw [key]
      simp only
      rw [run_pPush]
      rfl
    · intro j q b
      unfold State.rowFunc
      by_cases hd : q.ty ≠ .dummy
      · rw [if_pos hd, if_pos hd, run_rd_bind, get_set_ne t (by simp)]
        simp only
        have e1 : (if cfg.spp then decide (0 ≤ j) else !t.isSurface cfg q.n)
            = (if cfg.spp then decide (0 ≤ j) else !Scalar.lt (q.n / t.ro.env.n0) t.ro.env.surfaceRatio) := by
          by_cases hs : cfg.spp
          · rw [if_pos hs, if_pos hs]
          · rw [if_neg hs, if_neg hs]
            have hs' : cfg.spp = false := by simpa using hs
            simp only [State.isSurface, hs', Bool.not_false, Bool.true_and]
            rfl
        rw [e1]
        generalize (if cfg.spp then decide (0 ≤ j) else !Scalar.lt (q.n / t.ro.env.n0) t.ro.env.surfaceRatio) = off
        cases off
        · simp only [Bool.false_eq_true, if_false]
          show (t.set (.rows i) b.entries, some _) = (t.set (.rows i) (b.entries ++ []), some _)
          rw [List.append_nil]
          rfl
        · simp only [if_true]
          rw [run_bind, run_pPush]
          rfl
      · rw [if_neg hd, if_neg hd]
        show (t.set (.rows i) b.entries, some _) = (t.set (.rows i) (b.entries ++ []), some _)
        rw [List.append_nil]
    · intro j q
      unfold State.rowFunc
      have e1 : (if cfg.spp then decide (0 ≤ j) else !t.isSurface cfg (q.mask { n := !cfg.spp, x := true, ty := true }).n)
          = (if cfg.spp then decide (0 ≤ j) else !t.isSurface cfg q.n) := by
        by_cases hs : cfg.spp
        · rw [if_pos hs, if_pos hs]
        · rw [if_neg hs, if_neg hs]
          have hs' : cfg.spp = false := by simpa using hs
          simp [Particle.mask, hs']
      show (if q.ty ≠ .dummy then _ else _) = _
      by_cases hd : q.ty ≠ .dummy
      · rw [if_pos hd, if_pos hd]
        simp only
        rw [e1]
        rfl
      · rw [if_neg hd, if_neg hd]

/-- The neighbour test of the search loop. -/
def State.keep (t : State F D ω) (i : Nat) (j : Nat) : Bool :=
  decide (j ≠ i) && decide ((t.ps j).ty ≠ .disabled) && Scalar.lt (dist (t.ps i).x (t.ps j).x) t.env.neighborLength

theorem run_pVisit_good (h : t.ro = ro) (L : List Nat) (idx : Nat) (hn : ∀ j ∈ L, j < t.n)
    (hcap : idx + (L.filter (t.keep i)).length ≤ t.rowCap) :
    (pVisit ro i L idx).run t
      = ({ t with nbr := upd t.nbr i (fun c =>
            if idx + 1 ≤ c then (L.filter (t.keep i)).getD (c - (idx + 1)) (t.nbr i c) else t.nbr i c) },
          some (idx + (L.filter (t.keep i)).length)) := by
  induction L generalizing t idx with
  | nil =>
    unfold pVisit
    show (t, some idx) = _
    simp only [List.filter_nil, List.length_nil, Nat.add_zero, List.getD_nil, ite_self]
    have : upd t.nbr i (fun c => t.nbr i c) = t.nbr := by
      funext j c
      simp only [upd]
      split
      · rename_i hh; rw [hh]
      · rfl
    rw [this]
  | cons j L ih =>
    have hj : ¬ ro.n ≤ j := by
      have := hn j (by simp)
      rw [← h]
      show ¬ t.n ≤ j
      omega
    have hn' : ∀ k ∈ L, k < t.n := fun k hk => hn k (by simp [hk])
    unfold pVisit
    rw [if_neg hj]
    by_cases hji : j = i
    · have hk : t.keep i j = false := by simp [State.keep, hji]
      rw [if_pos hji]
      rw [List.filter_cons_of_neg (by simp [hk])] at hcap ⊢
      exact ih h idx hn' hcap
    · rw [if_neg hji, run_rd_bind]
      show (if (t.ps j).ty = .disabled then _ else _ : Prog F D _).run _ = _
      by_cases hd : (t.ps j).ty = .disabled
      · have hk : t.keep i j = false := by simp [State.keep, hd]
        rw [if_pos hd]
        rw [List.filter_cons_of_neg (by simp [hk])] at hcap ⊢
        exact ih h idx hn' hcap
      · rw [if_neg hd, run_rd_bind, run_rd_bind]
        have hro : ro.env = t.env := by rw [← h]; rfl
        rw [hro]
        show (if Scalar.lt (dist (t.ps i).x (t.ps j).x) t.env.neighborLength then _ else _ : Prog F D _).run _ = _
        by_cases hl : Scalar.lt (dist (t.ps i).x (t.ps j).x) t.env.neighborLength
        · have hk : t.keep i j = true := by simp [State.keep, hd, hji, hl]
          rw [if_pos hl]
          rw [List.filter_cons_of_pos hk] at hcap ⊢
          simp only [List.length_cons] at hcap ⊢
          have hc : ¬ ro.grid.cap * lastNeighbor D ≤ idx := by
            rw [← h]
            show ¬ t.rowCap ≤ idx
            omega
          rw [if_neg hc, run_wr_bind]
          have hkeep : (t.set (.nbr i (1 + idx)) j).keep i = t.keep i := rfl
          have := ih (t := t.set (.nbr i (1 + idx)) j) h (idx + 1) hn' (by
            rw [hkeep]
            show _ ≤ t.rowCap
            omega)
          rw [this, hkeep]
          refine Prod.ext ?_ (by simp only; congr 1; omega)
          simp only [State.set, upd_upd, upd_at]
          congr 2
          funext c
          by_cases h1 : idx + 1 + 1 ≤ c
          · rw [if_pos h1, if_pos (by omega), upd]
            rw [if_neg (by omega)]
            have : c - (idx + 1) = (c - (idx + 1 + 1)) + 1 := by omega
            rw [this, List.getD_cons_succ]
          · rw [if_neg h1]
            by_cases h2 : idx + 1 ≤ c
            · have : c = 1 + idx := by omega
              rw [if_pos h2, this, upd_at]
              have e0 : 1 + idx - (idx + 1) = 0 := by omega
              rw [e0]
              rfl
            · rw [if_neg h2, upd, if_neg (by omega)]
        · have hk : t.keep i j = false := by
            simp only [Bool.not_eq_true] at hl
            simp [State.keep, hl]
          rw [if_neg hl]
          rw [List.filter_cons_of_neg (by simp [hk])] at hcap ⊢
          exact ih h idx hn' hcap

theorem run_pVisit_bad (h : t.ro = ro) (L : List Nat) (idx : Nat)
    (hbad : (∃ j ∈ L, t.n ≤ j) ∨ t.rowCap < idx + (L.filter (t.keep i)).length) (hidx : idx ≤ t.rowCap) :
    ∃ t', (pVisit ro i L idx).run t = (t', none) ∧ t'.ub = true := by
  induction L generalizing t idx with
  | nil =>
    rcases hbad with ⟨j, hj, _⟩ | hb
    · simp at hj
    · simp at hb; omega
  | cons j L ih =>
    unfold pVisit
    by_cases hj : ro.n ≤ j
    · rw [if_pos hj]
      exact ⟨_, rfl, rfl⟩
    · rw [if_neg hj]
      have hj' : ¬ t.n ≤ j := by rw [← h] at hj; exact hj
      have hbad' : ∀ x : Nat, (t.keep i j = true → x = idx + 1) → (t.keep i j = false → x = idx) →
          (∃ j ∈ L, t.n ≤ j) ∨ t.rowCap < x + (L.filter (t.keep i)).length := by
        intro x h1 h2
        rcases hbad with ⟨k, hk, hkn⟩ | hb
        · rcases List.mem_cons.mp hk with rfl | hk
          · exact absurd hkn hj'
          · exact .inl ⟨k, hk, hkn⟩
        · right
          by_cases hk : t.keep i j = true
          · rw [List.filter_cons_of_pos hk] at hb
            simp only [List.length_cons] at hb
            rw [h1 hk]; omega
          · have hk' : t.keep i j = false := by simpa using hk
            rw [List.filter_cons_of_neg hk] at hb
            rw [h2 hk']; exact hb
      by_cases hji : j = i
      · have hk : t.keep i j = false := by simp [State.keep, hji]
        rw [if_pos hji]
        exact ih h idx (hbad' idx (by simp [hk]) (fun _ => rfl)) hidx
      · rw [if_neg hji, run_rd_bind]
        show ∃ t', (if (t.ps j).ty = .disabled then _ else _ : Prog F D _).run _ = _ ∧ _
        by_cases hd : (t.ps j).ty = .disabled
        · have hk : t.keep i j = false := by simp [State.keep, hd]
          rw [if_pos hd]
          exact ih h idx (hbad' idx (by simp [hk]) (fun _ => rfl)) hidx
        · rw [if_neg hd, run_rd_bind, run_rd_bind]
          have hro : ro.env = t.env := by rw [← h]; rfl
          rw [hro]
          show ∃ t', (if Scalar.lt (dist (t.ps i).x (t.ps j).x) t.env.neighborLength then _ else _ : Prog F D _).run _ = _ ∧ _
          by_cases hl : Scalar.lt (dist (t.ps i).x (t.ps j).x) t.env.neighborLength
          · have hk : t.keep i j = true := by simp [State.keep, hd, hji, hl]
            rw [if_pos hl]
            by_cases hc : ro.grid.cap * lastNeighbor D ≤ idx
            · rw [if_pos hc]
              exact ⟨_, rfl, rfl⟩
            · rw [if_neg hc, run_wr_bind]
              have hc' : ¬ t.rowCap ≤ idx := by rw [← h] at hc; exact hc
              exact ih (t := t.set (.nbr i (1 + idx)) j) h (idx + 1)
                (hbad' (idx + 1) (fun _ => rfl) (by simp [hk])) (by show idx + 1 ≤ t.rowCap; omega)
          · have hk : t.keep i j = false := by
              simp only [Bool.not_eq_true] at hl
              simp [State.keep, hl]
            rw [if_neg hl]
            exact ih h idx (hbad' idx (by simp [hk]) (fun _ => rfl)) hidx

/-- The body of the search loop: either it does what the coarse model does, or both report undefined behaviour. -/
theorem run_rowBody (h : t.ro = ro) :
    (∃ r, t.rowCompute i = r ∧ r ≠ .bad ∧ ((rowBody ro i).run t).1 = State.rowCommit i r t) ∨
    (t.rowCompute i = .bad ∧ ((rowBody ro i).run t).1.ub = true) := by
  unfold rowBody State.rowCompute
  rw [run_rd_bind]
  show (∃ r, _ ∧ _ ∧ ((if (t.ps i).ty = .disabled then _ else _ : Prog F D _).run _).1 = _) ∨
    (_ ∧ ((if (t.ps i).ty = .disabled then _ else _ : Prog F D _).run _).1.ub = true)
  by_cases hd : (t.ps i).ty = .disabled
  · rw [if_pos hd, if_pos hd]
    exact .inl ⟨_, rfl, by simp, rfl⟩
  · rw [if_neg hd, if_neg hd, run_rd_bind]
    have hg : ro.grid.visit (t.get (.x i)) = t.grid.visit (t.ps i).x := by rw [← h]; rfl
    simp only [hg]
    cases hv : t.grid.visit (t.ps i).x with
    | done l =>
      simp only
      rw [run_bind]
      by_cases ha : l.any (fun j => decide (t.n ≤ j))
      · rw [if_pos ha]
        right
        refine ⟨rfl, ?_⟩
        simp only [List.any_eq_true, decide_eq_true_eq] at ha
        obtain ⟨t', h1, h2⟩ := run_pVisit_bad (i := i) h l 0 (.inl ha) (Nat.zero_le _)
        rw [h1]
        exact h2
      · rw [if_neg ha]
        simp only [List.any_eq_true, decide_eq_true_eq, not_exists, not_and, not_le] at ha
        by_cases hc : t.rowCap < (l.filter (t.keep i)).length
        · right
          refine ⟨if_pos hc, ?_⟩
          obtain ⟨t', h1, h2⟩ := run_pVisit_bad (i := i) h l 0 (.inr (by omega)) (Nat.zero_le _)
          rw [h1]
          exact h2
        · left
          refine ⟨_, if_neg hc, by simp, ?_⟩
          rw [run_pVisit_good h l 0 ha (by omega)]
          simp only [run_wr, State.set, upd_upd, upd_at, State.rowCommit]
          congr 2
          funext c
          by_cases h0 : c = 0
          · rw [h0, upd_at, if_pos rfl, Nat.zero_add]; rfl
          · rw [upd, if_neg h0, if_neg h0, if_pos (by omega)]
            rfl
    | ub => exact .inr ⟨rfl, rfl⟩
    | outOfFuel => exact .inr ⟨rfl, rfl⟩

end

end OpenMps
