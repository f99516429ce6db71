import Verif.Model.Locks
import Verif.Lemmas.Machine
import Verif.Props.Machine

/-! # C50, second part: every lock which `Store` uses has been initialised -/

set_option linter.unusedSectionVars false

namespace OpenMps

variable {F : Type} [Scalar F] {D : Nat} {g : Grid F D}

/-- The array of locks can be allocated. -/
def Grid.LocksFit (g : Grid F D) : Prop := (List.ofFn g.size).prod * 8 < 2 ^ 63

theorem lockAddr_eq (hA : g.LocksFit) {is : List Int} (h : InB (List.ofFn g.size) is) :
    g.lockAddr? is = some (flat (List.ofFn g.size) is).toNat :=
  addr_eq (A := { extents := List.ofFn g.size, mem := fun _ => 0 }) hA h

theorem flat_toNat_inj {es is js : List Int} (h : InB es is) (h' : InB es js) (he : (flat es is).toNat = (flat es js).toNat) : is = js := by
  have := flat_bounds h
  have := flat_bounds h'
  exact flat_inj h h' (by omega)

theorem loopIdx_nodup : ∀ ns : List Int, (loopIdx ns).Nodup := by
  intro ns
  induction ns with
  | nil => simp [loopIdx]
  | cons n ns ih =>
    unfold loopIdx
    rw [List.nodup_flatMap]
    refine ⟨fun i _ => ih.map (fun a b h => (List.cons.inj h).2), ?_⟩
    refine List.nodup_range.imp ?_
    intro i j hij
    simp only [Function.onFun, List.disjoint_left, List.mem_map, not_exists, not_and]
    rintro a ⟨is, -, rfl⟩ js - h
    exact hij (by have := (List.cons.inj h).1; omega)

/-- A loop that changes each of the locks `l` once. -/
theorem lock_fold {before after : LockState} {step : (Nat → LockState) → List Int → Option (Nat → LockState)}
    (hstep : ∀ m is, step m is = (g.lockAddr? is).bind (fun o => if m o = before then some (upd m o after) else none)) (hA : g.LocksFit) :
    ∀ (l : List (List Int)) (m : Nat → LockState), l.Nodup → (∀ is ∈ l, InB (List.ofFn g.size) is) →
      (∀ is ∈ l, m (flat (List.ofFn g.size) is).toNat = before) →
      ∃ m', l.foldlM step m = some m' ∧ (∀ is ∈ l, m' (flat (List.ofFn g.size) is).toNat = after) ∧
        ∀ o, (∀ is ∈ l, o ≠ (flat (List.ofFn g.size) is).toNat) → m' o = m o := by
  intro l
  induction l with
  | nil => intro m _ _ _; exact ⟨m, rfl, by simp, fun _ _ => rfl⟩
  | cons is l ih =>
    intro m hnd hin hm
    have hne' : ∀ js ∈ l, (flat (List.ofFn g.size) js).toNat ≠ (flat (List.ofFn g.size) is).toNat := by
      intro js hj he
      have := flat_toNat_inj (hin js (by simp [hj])) (hin is (by simp)) he
      rw [this] at hj
      exact (List.nodup_cons.1 hnd).1 hj
    obtain ⟨m', h1, h2, h3⟩ := ih (upd m (flat (List.ofFn g.size) is).toNat after) (List.nodup_cons.1 hnd).2
      (fun js hj => hin js (by simp [hj])) (fun js hj => by
        rw [upd, if_neg (hne' js hj)]; exact hm js (by simp [hj]))
    refine ⟨m', ?_, ?_, ?_⟩
    · rw [List.foldlM_cons, hstep, lockAddr_eq hA (hin is (by simp)), Option.bind_some, if_pos (hm is (by simp))]
      exact h1
    · intro js hj
      rcases List.mem_cons.1 hj with rfl | hj
      · rw [h3 _ (fun k hk => (hne' k hk).symm), upd, if_pos rfl]
      · exact h2 js hj
    · intro o ho
      rw [h3 o (fun k hk => ho k (by simp [hk])), upd, if_neg (ho is (by simp))]

/-- **C50.**  With locks (`ATOMIC_LOCK`), in 2-D and in 3-D boxes with as many blocks along `y` as along `x`: the constructor initialises every lock exactly
once, each call of `Store` for a block of the grid finds an initialised lock, different blocks have different locks, and the destructor destroys
every lock exactly once. -/
theorem C50_locks_are_initialized (hok : g.ClearOK) (hA : g.LocksFit) : ∃ m, g.initLocks? = some m ∧
    (∀ b, g.inRange b = true → ∃ o, g.useLock? m b = some o) ∧
    (∀ b c o, g.inRange b = true → g.inRange c = true → g.useLock? m b = some o → g.useLock? m c = some o → b = c) ∧
    g.destroyLocks? m = some (fun _ => .uninitialized) := by
  have hb : g.clearBound = g.size := funext (clearBound_eq hok)
  have hin : ∀ is ∈ loopIdx (List.ofFn g.size), InB (List.ofFn g.size) is := fun is h => mem_loopIdx.1 h
  obtain ⟨m, h1, h2, h3⟩ := lock_fold (before := .uninitialized) (after := .ready) (step := g.initLock?) (fun _ _ => rfl) hA
    (loopIdx (List.ofFn g.size)) (fun _ => .uninitialized) (loopIdx_nodup _) hin (fun _ _ => rfl)
  have hmem : ∀ b, g.inRange b = true → InB (List.ofFn g.size) (List.ofFn b) := fun b h => forall2_ofFn (inRange_iff.1 h)
  have huse : ∀ b, g.inRange b = true → g.useLock? m b = some (flat (List.ofFn g.size) (List.ofFn b)).toNat := by
    intro b h
    unfold Grid.useLock?
    rw [lockAddr_eq hA (hmem b h), Option.bind_some, if_pos (h2 _ (mem_loopIdx.2 (hmem b h)))]
  refine ⟨m, by unfold Grid.initLocks?; rw [hb]; exact h1, fun b h => ⟨_, huse b h⟩, ?_, ?_⟩
  · intro b c o h k e1 e2
    rw [huse b h] at e1
    rw [huse c k] at e2
    exact List.ofFn_injective (flat_toNat_inj (hmem b h) (hmem c k) (by
      injection e1 with e1; injection e2 with e2; rw [e1, e2]))
  · obtain ⟨m', k1, k2, k3⟩ := lock_fold (before := .ready) (after := .uninitialized) (step := g.destroyLock?) (fun _ _ => rfl) hA
      (loopIdx (List.ofFn g.size)) m (loopIdx_nodup _) hin h2
    unfold Grid.destroyLocks?
    rw [hb, k1]
    congr 1
    funext o
    by_cases h : ∃ is ∈ loopIdx (List.ofFn g.size), o = (flat (List.ofFn g.size) is).toNat
    · obtain ⟨is, hi, rfl⟩ := h
      exact k2 is hi
    · have h' : ∀ is ∈ loopIdx (List.ofFn g.size), o ≠ (flat (List.ofFn g.size) is).toNat := fun is hi he => h ⟨is, hi, he⟩
      rw [k3 o h', h3 o h']

/-- **C50**, defect: in a 3-D box with fewer blocks along `x` than along `y`, the constructor leaves locks uninitialised, and `Store` uses them: those of
all blocks whose number along `y` is at least the number of blocks along `x`. -/
theorem C50_locks_3d_left_uninitialized {g : Grid F 3} (hA : g.LocksFit) (hxy : g.size 0 < g.size 1) : ∃ m, g.initLocks? = some m ∧
    ∀ b, g.inRange b = true → (g.useLock? m b = none ↔ g.size 0 ≤ b 1) := by
  have hb : List.ofFn g.clearBound = [g.size 0, g.size 0, g.size 2] := by
    simp only [List.ofFn_succ, List.ofFn_zero]
    rfl
  have hs : List.ofFn g.size = [g.size 0, g.size 1, g.size 2] := by
    simp only [List.ofFn_succ, List.ofFn_zero]
    rfl
  have hin : ∀ is ∈ loopIdx (List.ofFn g.clearBound), InB (List.ofFn g.size) is := by
    intro is h
    have := mem_loopIdx.1 h
    rw [hb] at this
    rw [hs]
    cases this with
    | cons h1 t =>
      cases t with
      | cons h2 t =>
        exact .cons h1 (.cons ⟨h2.1, by omega⟩ t)
  obtain ⟨m, h1, h2, h3⟩ := lock_fold (before := .uninitialized) (after := .ready) (step := g.initLock?) (fun _ _ => rfl) hA
    (loopIdx (List.ofFn g.clearBound)) (fun _ => .uninitialized) (loopIdx_nodup _) hin (fun _ _ => rfl)
  refine ⟨m, h1, fun b hbr => ?_⟩
  have hmem : InB (List.ofFn g.size) (List.ofFn b) := forall2_ofFn (inRange_iff.1 hbr)
  have hbl : List.ofFn b = [b 0, b 1, b 2] := by
    simp only [List.ofFn_succ, List.ofFn_zero]
    rfl
  have hr := inRange_iff.1 hbr
  unfold Grid.useLock?
  rw [lockAddr_eq hA hmem, Option.bind_some]
  constructor
  · intro h
    by_contra hc
    have hl : List.ofFn b ∈ loopIdx (List.ofFn g.clearBound) := by
      rw [mem_loopIdx, hb, hbl]
      exact .cons (hr 0) (.cons ⟨(hr 1).1, by omega⟩ (.cons (hr 2) .nil))
    rw [if_pos (h2 _ hl)] at h
    cases h
  · intro hle
    have : m (flat (List.ofFn g.size) (List.ofFn b)).toNat = .uninitialized := by
      rw [h3]
      intro is hi he
      have e := flat_toNat_inj hmem (hin is hi) he
      have hi := mem_loopIdx.1 hi
      rw [← e, hb, hbl] at hi
      cases hi with
      | cons _ t =>
        cases t with
        | cons h2 _ => omega
    rw [this, if_neg (by decide)]

/-- **C50**, defect: in a 3-D box with more blocks along `x` than along `y` the constructor is undefined (it initialises locks twice and leaves the array). -/
theorem C50_locks_3d_leave_the_array {g : Grid F 3} (hpos : 0 < g.size 1 ∧ 0 < g.size 2) (hxy : g.size 1 < g.size 0) :
    g.initLocks? = none := by
  have hb : List.ofFn g.clearBound = [g.size 0, g.size 0, g.size 2] := by
    simp only [List.ofFn_succ, List.ofFn_zero]
    rfl
  have hs : List.ofFn g.size = [g.size 0, g.size 1, g.size 2] := by
    simp only [List.ofFn_succ, List.ofFn_zero]
    rfl
  have hbad : g.lockAddr? [g.size 0 - 1, g.size 1, 0] = none := by
    unfold Grid.lockAddr? MArray.addr? MArray.len
    simp only
    rw [hs]
    cases ho : offset? 0 (strides [g.size 0, g.size 1, g.size 2]) [g.size 0 - 1, g.size 1, 0] with
    | none => rfl
    | some o =>
      rw [Option.bind_some, if_neg]
      have := offset_sum _ _ _ _ ho
      simp only [strides, List.zipWith_cons_cons, List.zipWith_nil_left, List.sum_cons, List.sum_nil, List.prod_cons, List.prod_nil] at this ⊢
      intro hlt
      have h2 := hlt.2
      rw [this] at h2
      ring_nf at h2
      omega
  have hl : [g.size 0 - 1, g.size 1, 0] ∈ loopIdx (List.ofFn g.clearBound) := by
    rw [mem_loopIdx, hb]
    exact .cons ⟨by omega, by omega⟩ (.cons ⟨by omega, by omega⟩ (.cons ⟨le_refl _, by omega⟩ .nil))
  unfold Grid.initLocks?
  generalize (fun _ => LockState.uninitialized : Nat → LockState) = m
  generalize loopIdx (List.ofFn g.clearBound) = l at hl
  induction l generalizing m with
  | nil => cases hl
  | cons js l ih =>
    rw [List.foldlM_cons]
    rcases List.mem_cons.1 hl with h | h
    · rw [← h]
      unfold Grid.initLock?
      rw [hbad]; rfl
    · cases g.initLock? m js with
      | none => rfl
      | some m' => exact ih m' h

section
attribute [local instance] instScalarInt

/-- A grid with 2 by 3 by 2 blocks: fewer along `x`. -/
def lockGrid (nx ny nz : Int) : Grid Int 3 :=
  { blockLength := 4, origin := ![0, 0, 0], size := ![nx, ny, nz], cap := 2, count := fun _ => 0, slot := fun _ _ => 0 }

example : (lockGrid 2 3 2).LocksFit ∧ (lockGrid 2 3 2).inRange ![1, 2, 1] = true ∧ (lockGrid 2 3 2).size 0 ≤ (![1, 2, 1] : Blk 3) 1 ∧
    (lockGrid 3 2 2).LocksFit ∧ (lockGrid 3 3 2).ClearOK ∧ (lockGrid 3 3 2).LocksFit ∧ (lockGrid 3 3 2).inRange ![1, 2, 1] = true := by
  refine ⟨by unfold Grid.LocksFit; decide, by decide, by decide, by unfold Grid.LocksFit; decide, ?_, by unfold Grid.LocksFit; decide, by decide⟩
  intro _ a b ha hb
  have : a = 0 := Fin.ext ha
  have : b = 1 := Fin.ext hb
  subst a b
  rfl

end

end OpenMps
