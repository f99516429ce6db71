import Verif.Model.Fine
import Mathlib.Algebra.BigOperators.Group.Finset.Basic

set_option linter.unusedSectionVars false

namespace OpenMps

variable {F : Type} {D : Nat} {ω : Type}

/-! ## Memory -/

theorem get_set_same (s : State F D ω) (l : Loc) (v : Val F D l) : (s.set l v).get l = v := by
  cases l <;> simp [State.get, State.set, upd]

theorem get_set_ne (s : State F D ω) {l l' : Loc} (h : l ≠ l') (v : Val F D l') : (s.set l' v).get l = s.get l := by
  cases l <;> cases l' <;> simp only [State.get, State.set, upd] <;> try grind
  case nbr.nbr i c i' c' =>
    by_cases hi : i = i'
    · subst hi
      have : c ≠ c' := fun e => h (by rw [e])
      simp [upd, this]
    · simp [hi]

theorem get_ub (s : State F D ω) (b : Bool) (l : Loc) : ({ s with ub := b } : State F D ω).get l = s.get l := by
  cases l <;> rfl

theorem set_ub (s : State F D ω) (b : Bool) (l : Loc) (v : Val F D l) :
    ({ s with ub := b } : State F D ω).set l v = { s.set l v with ub := b } := by
  cases l <;> rfl

theorem ub_set (s : State F D ω) (l : Loc) (v : Val F D l) : (s.set l v).ub = s.ub := by
  cases l <;> rfl

theorem ro_set (s : State F D ω) (l : Loc) (v : Val F D l) : (s.set l v).ro = s.ro := by
  cases l <;> rfl

/-- The members which are not cells. -/
def State.frame (s : State F D ω) : Nat × Env F D × Grid F D × ω × Bool × Nat × Sparse F :=
  (s.n, s.env, s.grid, s.world, s.ub, s.ppe.size, s.ppe.A)

theorem frame_set (s : State F D ω) (l : Loc) (v : Val F D l) : (s.set l v).frame = s.frame := by
  cases l <;> rfl

theorem state_ext {s t : State F D ω} (hf : s.frame = t.frame) (hg : ∀ l, s.get l = t.get l) : s = t := by
  obtain ⟨n, ps, env, grid, nbr, ppe, du, ecs, origX, nNoSpp, world, ub⟩ := s
  obtain ⟨n', ps', env', grid', nbr', ppe', du', ecs', origX', nNoSpp', world', ub'⟩ := t
  obtain ⟨sz, x, b, rows, A⟩ := ppe
  obtain ⟨sz', x', b', rows', A'⟩ := ppe'
  simp only [State.frame, Prod.mk.injEq] at hf
  obtain ⟨rfl, rfl, rfl, rfl, rfl, rfl, rfl⟩ := hf
  have e1 : ps = ps' := by
    funext i
    have h1 := hg (.x i); have h2 := hg (.u i); have h3 := hg (.p i); have h4 := hg (.n i); have h5 := hg (.ty i)
    simp only [State.get] at h1 h2 h3 h4 h5
    cases h : ps i; cases h' : ps' i
    simp_all
  have e2 : nbr = nbr' := by funext i c; exact hg (.nbr i c)
  have e3 : du = du' := by funext i; exact hg (.du i)
  have e4 : ecs = ecs' := by funext i; exact hg (.ecs i)
  have e5 : origX = origX' := by funext i; exact hg (.origX i)
  have e6 : nNoSpp = nNoSpp' := by funext i; exact hg (.nNoSpp i)
  have e7 : x = x' := by funext i; exact hg (.px i)
  have e8 : b = b' := by funext i; exact hg (.pb i)
  have e9 : rows = rows' := by funext i; exact hg (.rows i)
  subst e1 e2 e3 e4 e5 e6 e7 e8 e9
  rfl

theorem set_comm (s : State F D ω) {l l' : Loc} (h : l ≠ l') (v : Val F D l) (v' : Val F D l') :
    (s.set l' v').set l v = (s.set l v).set l' v' := by
  apply state_ext
  · rw [frame_set, frame_set, frame_set, frame_set]
  · intro m
    by_cases h1 : m = l
    · subst h1
      rw [get_set_same, get_set_ne _ h, get_set_same]
    · rw [get_set_ne _ h1]
      by_cases h2 : m = l'
      · subst h2
        rw [get_set_same, get_set_same]
      · rw [get_set_ne _ h2, get_set_ne _ h2, get_set_ne _ h1]

/-! ## Running a program alone -/

/-- Execute a program without interruption; the result is `none` after a crash. -/
def Prog.run {A : Type} : Prog F D A → State F D ω → State F D ω × Option A
  | .ret a, s => (s, some a)
  | .load l k, s => (k (s.get l)).run s
  | .store l v k, s => k.run (s.set l v)
  | .crash, s => ({ s with ub := true }, none)

/-- Number of accesses when run alone. -/
def Prog.cost {A : Type} : Prog F D A → State F D ω → Nat
  | .ret _, _ => 0
  | .load l k, s => (k (s.get l)).cost s + 1
  | .store l v k, s => k.cost (s.set l v) + 1
  | .crash, _ => 1

/-- All accesses obey an ownership discipline: `own l = some i` means that only iteration `i` may access cell `l`;
`own l = none` means that the cell is only read. -/
def Prog.Within {A : Type} (own : Loc → Option Nat) (i : Nat) : Prog F D A → Prop
  | .ret _ => True
  | .load l k => (own l = none ∨ own l = some i) ∧ ∀ v, (k v).Within own i
  | .store l _ k => own l = some i ∧ k.Within own i
  | .crash => True

theorem run_bind {A B : Type} (p : Prog F D A) (f : A → Prog F D B) (s : State F D ω) :
    (p >>= f).run s = match p.run s with
      | (t, some a) => (f a).run t
      | (t, none) => (t, none) := by
  show (p.bind f).run s = _
  induction p generalizing s with
  | ret a => rfl
  | load l k ih => exact ih _ _
  | store l v k ih => exact ih _
  | crash => rfl

@[simp] theorem run_pure {A : Type} (a : A) (s : State F D ω) : (pure a : Prog F D A).run s = (s, some a) := rfl

@[simp] theorem run_rd (l : Loc) (s : State F D ω) : (rd l : Prog F D _).run s = (s, some (s.get l)) := rfl

@[simp] theorem run_wr (l : Loc) (v : Val F D l) (s : State F D ω) : (wr l v : Prog F D _).run s = (s.set l v, some ()) := rfl

theorem within_bind {A B : Type} {own : Loc → Option Nat} {i : Nat} {p : Prog F D A} {f : A → Prog F D B}
    (hp : p.Within own i) (hf : ∀ a, (f a).Within own i) : (p >>= f).Within own i := by
  show (p.bind f).Within own i
  induction p with
  | ret a => exact hf a
  | load l k ih => exact ⟨hp.1, fun v => ih v (hp.2 v)⟩
  | store l v k ih => exact ⟨hp.1, ih hp.2⟩
  | crash => trivial

theorem within_pure {A : Type} {own : Loc → Option Nat} {i : Nat} (a : A) : (pure a : Prog F D A).Within own i := trivial

theorem within_rd {own : Loc → Option Nat} {i : Nat} {l : Loc} (h : own l = none ∨ own l = some i) :
    (rd l : Prog F D _).Within own i := ⟨h, fun _ => trivial⟩

theorem within_wr {own : Loc → Option Nat} {i : Nat} {l : Loc} {v : Val F D l} (h : own l = some i) :
    (wr l v : Prog F D _).Within own i := ⟨h, trivial⟩

section
variable {own : Loc → Option Nat}

/-- A program of another iteration does not change the cells of iteration `i` and the read-only cells. -/
theorem run_get {A : Type} {j : Nat} {p : Prog F D A} (hp : p.Within own j) {l : Loc} (hl : own l ≠ some j)
    (s : State F D ω) : (p.run s).1.get l = s.get l := by
  induction p generalizing s with
  | ret a => rfl
  | load m k ih => exact ih _ (hp.2 _) _
  | store m v k ih =>
    have : l ≠ m := fun h => hl (h ▸ hp.1)
    exact (ih hp.2 _).trans (get_set_ne s this v)
  | crash => exact get_ub s true l

theorem run_set {A : Type} {i j : Nat} (hij : i ≠ j) {p : Prog F D A} (hp : p.Within own j) {l : Loc} (hl : own l = some i)
    (v : Val F D l) (s : State F D ω) :
    p.run (s.set l v) = (((p.run s).1).set l v, (p.run s).2) ∧ p.cost (s.set l v) = p.cost s := by
  induction p generalizing s with
  | ret a => exact ⟨rfl, rfl⟩
  | load m k ih =>
    have hm : m ≠ l := by
      rintro rfl
      rcases hp.1 with h | h
      · rw [h] at hl; cases hl
      · rw [h] at hl; exact hij (Option.some.inj hl).symm
    simp only [Prog.run, Prog.cost]
    rw [get_set_ne s hm v]
    exact ⟨(ih _ (hp.2 _) s).1, by rw [(ih _ (hp.2 _) s).2]⟩
  | store m w k ih =>
    have hm : l ≠ m := by
      rintro rfl
      rw [hp.1] at hl; exact hij (Option.some.inj hl).symm
    simp only [Prog.run, Prog.cost]
    rw [← set_comm s hm v w]
    exact ⟨(ih hp.2 _).1, by rw [(ih hp.2 _).2]⟩
  | crash =>
    refine ⟨?_, rfl⟩
    cases l <;> rfl

theorem run_ub {A : Type} (p : Prog F D A) (s : State F D ω) :
    p.run { s with ub := true } = ({ (p.run s).1 with ub := true }, (p.run s).2)
      ∧ p.cost { s with ub := true } = p.cost s := by
  induction p generalizing s with
  | ret a => exact ⟨rfl, rfl⟩
  | load m k ih =>
    simp only [Prog.run, Prog.cost]
    rw [get_ub]
    exact ⟨(ih _ s).1, by rw [(ih _ s).2]⟩
  | store m w k ih =>
    simp only [Prog.run, Prog.cost]
    rw [set_ub]
    exact ⟨(ih _).1, by rw [(ih _).2]⟩
  | crash => exact ⟨rfl, rfl⟩

/-- Running the remaining programs of the given iterations one after the other. -/
def seqRun (rest : Nat → Prog F D Unit) (L : List Nat) (s : State F D ω) : State F D ω :=
  L.foldl (fun s i => ((rest i).run s).1) s

theorem seqRun_cons (rest : Nat → Prog F D Unit) (j : Nat) (L : List Nat) (s : State F D ω) :
    seqRun rest (j :: L) s = seqRun rest L ((rest j).run s).1 := rfl

theorem seqRun_get {rest : Nat → Prog F D Unit} {i : Nat} {L : List Nat} (hi : i ∉ L)
    (hw : ∀ j ∈ L, (rest j).Within own j) {l : Loc} (hl : own l = none ∨ own l = some i) (s : State F D ω) :
    (seqRun rest L s).get l = s.get l := by
  induction L generalizing s with
  | nil => rfl
  | cons j L ih =>
    have hj : own l ≠ some j := by
      rcases hl with h | h
      · rw [h]; simp
      · rw [h]; intro e; exact hi (by simp [Option.some.inj e])
    rw [seqRun_cons]
    rw [ih (fun h => hi (by simp [h])) (fun k hk => hw k (by simp [hk])), run_get (hw j (by simp)) hj]

theorem seqRun_set {rest : Nat → Prog F D Unit} {i : Nat} {L : List Nat} (hi : i ∉ L)
    (hw : ∀ j ∈ L, (rest j).Within own j) {l : Loc} (hl : own l = some i) (v : Val F D l) (s : State F D ω) :
    seqRun rest L (s.set l v) = (seqRun rest L s).set l v := by
  induction L generalizing s with
  | nil => rfl
  | cons j L ih =>
    have hij : i ≠ j := fun e => hi (by simp [e])
    rw [seqRun_cons, seqRun_cons]
    rw [← ih (fun h => hi (by simp [h])) (fun k hk => hw k (by simp [hk])), (run_set hij (hw j (by simp)) hl v s).1]

theorem seqRun_ub {rest : Nat → Prog F D Unit} {L : List Nat} (s : State F D ω) :
    seqRun rest L { s with ub := true } = { seqRun rest L s with ub := true } := by
  induction L generalizing s with
  | nil => rfl
  | cons j L ih =>
    rw [seqRun_cons, seqRun_cons, ← ih, (run_ub (rest j) s).1]

theorem seqRun_congr {rest rest' : Nat → Prog F D Unit} {L : List Nat} (h : ∀ i ∈ L, rest i = rest' i) (s : State F D ω) :
    seqRun rest L s = seqRun rest' L s := by
  induction L generalizing s with
  | nil => rfl
  | cons j L ih =>
    rw [seqRun_cons, seqRun_cons]
    rw [ih (fun i hi => h i (by simp [hi])), h j (by simp)]

theorem seqRun_append {rest : Nat → Prog F D Unit} (L M : List Nat) (s : State F D ω) :
    seqRun rest (L ++ M) s = seqRun rest M (seqRun rest L s) := List.foldl_append ..

/-- The discipline for all iterations. -/
def Disciplined (own : Loc → Option Nat) (n : Nat) (c : Running F D ω) : Prop := ∀ i, i < n → (c.rest i).Within own i

theorem range_split {n i : Nat} (hi : i < n) :
    List.range n = List.range i ++ i :: (List.range (n - (i + 1))).map (fun k => i + 1 + k) := by
  have h1 : n = i + (n - i) := by omega
  have h2 : n - i = (n - (i + 1)) + 1 := by omega
  conv_lhs => rw [h1, List.range_add, h2, List.range_succ_eq_map]
  simp only [List.map_cons, Nat.add_zero, List.map_map]
  congr 2
  apply List.map_congr_left
  intro k _
  simp only [Function.comp]
  omega

/-- Total number of accesses still to be made. -/
def work (n : Nat) (c : Running F D ω) : Nat := ∑ i ∈ Finset.range n, (c.rest i).cost c.mem

theorem access_inv {n : Nat} {c c' : Running F D ω} (hd : Disciplined own n c) (h : Access n c c') :
    Disciplined own n c' ∧ seqRun c'.rest (List.range n) c'.mem = seqRun c.rest (List.range n) c.mem
      ∧ work n c = work n c' + 1 := by
  have key : ∀ (i : Nat) (mem' : State F D ω) (q : Prog F D Unit), i < n → q.Within own i →
      (∀ L : List Nat, i ∉ L → (∀ j ∈ L, j < n) →
        (q.run (seqRun c.rest L mem')).1 = ((c.rest i).run (seqRun c.rest L c.mem)).1) →
      ((c.rest i).cost c.mem = q.cost mem' + 1) →
      (∀ j, j < n → j ≠ i → (c.rest j).cost mem' = (c.rest j).cost c.mem) →
      Disciplined own n ⟨mem', upd c.rest i q⟩ ∧
      seqRun (upd c.rest i q) (List.range n) mem' = seqRun c.rest (List.range n) c.mem ∧
      work n c = work n ⟨mem', upd c.rest i q⟩ + 1 := by
    intro i mem' q hi hq hrun hcost hother
    refine ⟨?_, ?_, ?_⟩
    · intro j hj
      by_cases hji : j = i
      · subst hji; simpa [upd] using hq
      · simpa [upd, hji] using hd j hj
    · rw [range_split hi, seqRun_append, seqRun_append]
      have hnot : i ∉ List.range i := by simp
      rw [seqRun_congr (rest := upd c.rest i q) (rest' := c.rest) (L := List.range i)
        (fun j hj => by
          have : j ≠ i := by simp at hj; omega
          simp [upd, this])]
      show seqRun (upd c.rest i q) _ (((upd c.rest i q) i).run _).1 = seqRun c.rest _ ((c.rest i).run _).1
      have e : (upd c.rest i q) i = q := by simp [upd]
      rw [e, hrun (List.range i) hnot (fun j hj => by simp at hj; omega)]
      apply seqRun_congr
      intro j hj
      have : j ≠ i := by
        simp at hj
        omega
      simp [upd, this]
    · unfold work
      rw [← Finset.sum_erase_add _ (fun x => (c.rest x).cost c.mem) (Finset.mem_range.mpr hi),
        ← Finset.sum_erase_add _ (fun x => (upd c.rest i q x).cost mem') (Finset.mem_range.mpr hi)]
      simp only [upd, if_true]
      rw [hcost]
      have : ∑ x ∈ (Finset.range n).erase i, (c.rest x).cost c.mem
          = ∑ x ∈ (Finset.range n).erase i, (if x = i then q else c.rest x).cost mem' := by
        apply Finset.sum_congr rfl
        intro x hx
        have hx1 := Finset.ne_of_mem_erase hx
        have hx2 := Finset.mem_range.mp (Finset.mem_of_mem_erase hx)
        rw [if_neg hx1, hother x hx2 hx1]
      rw [this]
      rfl
  cases h with
  | @load i l k hi he =>
    have hw := hd i hi
    rw [he] at hw
    apply key i c.mem _ hi (hw.2 _)
    · intro L hL hLn
      rw [he]
      simp only [Prog.run]
      rw [seqRun_get hL (fun j hj => hd j (hLn j hj)) hw.1]
    · rw [he]; rfl
    · intro j _ _; rfl
  | @store i l v k hi he =>
    have hw := hd i hi
    rw [he] at hw
    apply key i _ _ hi hw.2
    · intro L hL hLn
      rw [he]
      simp only [Prog.run]
      rw [seqRun_set hL (fun j hj => hd j (hLn j hj)) hw.1]
    · rw [he]; rfl
    · intro j hj hji
      exact (run_set (fun e => hji e.symm) (hd j hj) hw.1 v c.mem).2
  | @crash i hi he =>
    apply key i _ _ hi (show (Prog.ret () : Prog F D Unit).Within own i from trivial)
    · intro L hL hLn
      rw [he]
      simp only [Prog.run]
      rw [seqRun_ub]
    · rw [he]; rfl
    · intro j _ _
      exact (run_ub (c.rest j) c.mem).2

theorem accesses_inv {n : Nat} {c c' : Running F D ω} (hd : Disciplined own n c) (h : Accesses n c c') :
    Disciplined own n c' ∧ seqRun c'.rest (List.range n) c'.mem = seqRun c.rest (List.range n) c.mem := by
  induction h with
  | refl => exact ⟨hd, rfl⟩
  | tail _ h ih =>
    have := access_inv ih.1 h
    exact ⟨this.1, this.2.1.trans ih.2⟩

theorem seqRun_finished {n : Nat} {c : Running F D ω} (h : c.Finished n) : seqRun c.rest (List.range n) c.mem = c.mem := by
  have : ∀ (L : List Nat) (s : State F D ω), (∀ i ∈ L, i < n) → seqRun c.rest L s = s := by
    intro L
    induction L with
    | nil => intros; rfl
    | cons i L ih =>
      intro s hL
      rw [seqRun_cons, h i (hL i (by simp))]
      exact ih s (fun j hj => hL j (by simp [hj]))
  exact this _ _ (fun i hi => by simpa using hi)

/-- Every complete interleaving has the effect of running the bodies one after the other. -/
theorem parFor_eq {body : Nat → Prog F D Unit} {s t : State F D ω} (hw : ∀ i, (body i).Within own i) (h : ParFor body s t) :
    t = seqRun body (List.range s.n) s := by
  obtain ⟨c, h1, h2, rfl⟩ := h
  have := (accesses_inv (own := own) (c := ⟨s, body⟩) (fun i _ => hw i) h1).2
  rw [seqRun_finished h2] at this
  exact this

/-- From every point of an interleaving the loop can be finished. -/
theorem can_finish (n : Nat) (c : Running F D ω) (hd : Disciplined own n c) :
    ∃ c', Accesses n c c' ∧ c'.Finished n := by
  have : ∀ (w : Nat) (c : Running F D ω), Disciplined own n c → work n c = w → ∃ c', Accesses n c c' ∧ c'.Finished n := by
    intro w
    induction w with
    | zero =>
      intro c hd hw
      refine ⟨c, Relation.ReflTransGen.refl, ?_⟩
      intro i hi
      have h0 : (c.rest i).cost c.mem = 0 :=
        (Finset.sum_eq_zero_iff.mp hw) i (Finset.mem_range.mpr hi)
      cases h : c.rest i with
      | ret a => rfl
      | load l k => rw [h] at h0; simp [Prog.cost] at h0
      | store l v k => rw [h] at h0; simp [Prog.cost] at h0
      | crash => rw [h] at h0; simp [Prog.cost] at h0
    | succ w ih =>
      intro c hd hw
      have hex : ∃ c1, Access n c c1 := by
        by_contra hno
        have : ∀ i ∈ Finset.range n, (c.rest i).cost c.mem = 0 := by
          intro i hi
          have hi' := Finset.mem_range.mp hi
          cases h : c.rest i with
          | ret a => rfl
          | load l k => exact absurd ⟨_, Access.load hi' h⟩ hno
          | store l v k => exact absurd ⟨_, Access.store hi' h⟩ hno
          | crash => exact absurd ⟨_, Access.crash hi' h⟩ hno
        have : work n c = 0 := Finset.sum_eq_zero this
        omega
      obtain ⟨c1, h1⟩ := hex
      have hi := access_inv hd h1
      obtain ⟨c', h2, h3⟩ := ih c1 hi.1 (by omega)
      exact ⟨c', Relation.ReflTransGen.head h1 h2, h3⟩
  exact this _ c hd rfl

theorem parFor_exists {body : Nat → Prog F D Unit} (s : State F D ω) (hw : ∀ i, (body i).Within own i) :
    ∃ t, ParFor body s t := by
  obtain ⟨c, h1, h2⟩ := can_finish (own := own) s.n ⟨s, body⟩ (fun i _ => hw i)
  exact ⟨c.mem, c, h1, h2, rfl⟩

end

end OpenMps
