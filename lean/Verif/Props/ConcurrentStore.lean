import Verif.Lemmas.ConcurrentStore
import Verif.Spec.Grid
import Verif.Model.Instances

/-! # Concurrent calls of `Store` (C50)

`progs t` are the calls that thread `t` makes, one after the other.  Every interleaving of the single memory accesses and lock operations of the
threads is considered, with `omp atomic capture` and with locks (`ATOMIC_LOCK`). -/

set_option linter.unusedSectionVars false

namespace OpenMps

variable {F : Type} [Scalar F] {D : Nat} {mode : Counting} {g : Grid F D} {progs : Nat → List (Vec F D × Nat)}

/-- C50: concurrent calls of `Store` are linearizable.  Whenever all threads are between two calls (state `c'`), the grid and the result of every
call (`true`, `false` or exception) are those of making the finished calls one after the other in some order.  The order keeps the order of each
thread's calls; and, for every earlier moment `c` of the execution, all calls that had ended by then come before all calls that had not begun by
then: the first part `ord` contains the ended calls of each thread, and of those not ended at most the one in progress. -/
theorem C50_stores_are_linearizable {c c' : Conc F D} (h1 : Conc.Reach mode (Conc.start g progs) c) (h2 : Conc.Reach mode c c')
    (hidle : ∀ t, (c'.th t).stage = .idle) :
    ∃ ord ext outs, g.storeCalls (ord ++ ext) = some (c'.grid, outs) ∧
      (∀ t, ofThread t (ord ++ ext) ++ (c'.th t).todo = progs t ∧ ofThread t outs = (c'.th t).results) ∧
      (∀ t, (c.th t).results.length ≤ (ofThread t ord).length ∧
        (ofThread t ord).length ≤ (c.th t).results.length + (match (c.th t).stage with | .idle => 0 | _ => 1)) := by
  obtain ⟨ord, a, outs0, i0⟩ := (CInv.start mode g progs).reach h1
  rw [List.nil_append] at i0
  obtain ⟨ext, a', outs, i1⟩ := i0.reach h2
  have hg : a' = c'.grid := by
    have e1 := i1.geom
    have e2 := i1.count
    have e3 : c'.grid.slot = a'.slot := by
      funext b k
      rcases i1.slot b k with h | ⟨t, h, -⟩
      · exact h
      · rw [hidle t] at h; cases h
    obtain ⟨f1, f2, f3, f4⟩ := e1
    cases hc : c'.grid
    cases a'
    rw [hc] at f1 f2 f3 f4 e2 e3
    simp only at f1 f2 f3 f4 e2 e3
    subst f1 f2 f3 f4 e2 e3
    rfl
  refine ⟨ord, ext, outs, by rw [← hg]; exact i1.run, ?_, ?_⟩
  · intro t
    have h3 := i1.calls t
    have h4 := i1.results t
    unfold Thread.rest at h3
    unfold Stage.result at h4
    rw [hidle t] at h3 h4
    simp only [Stage.pend, List.append_nil] at h3 h4
    exact ⟨h3, h4⟩
  · intro t
    have hlen : (ofThread t ord).length = (ofThread t outs0).length := by
      have hgen : ∀ (l : List (Nat × Vec F D × Nat)) (g a : Grid F D) (o : List (Nat × Outcome)), g.storeCalls l = some (a, o) → l.map (·.1) = o.map (·.1) := by
        intro l
        induction l with
        | nil =>
          intro g a o h
          simp only [Grid.storeCalls, Option.some.injEq, Prod.mk.injEq] at h
          rw [← h.2]; rfl
        | cons e l ih =>
          obtain ⟨t0, x0, p0⟩ := e
          intro g a o h
          simp only [Grid.storeCalls] at h
          split at h
          · cases h
          all_goals
            rw [Option.map_eq_some_iff] at h
            obtain ⟨⟨a', o'⟩, h1, h2⟩ := h
            simp only [Prod.mk.injEq] at h2
            rw [← h2.2, List.map_cons, List.map_cons, ih _ _ _ h1]
      have hg := hgen ord g a outs0 i0.run
      have hcount : ∀ {α : Type} (l : List (Nat × α)), (ofThread t l).length = (l.map (·.1)).countP (· == t) := by
        intro α l
        unfold ofThread
        rw [List.length_map, List.countP_map, List.countP_eq_length_filter]
        rfl
      rw [hcount, hcount, hg]
    rw [hlen, i0.results t, List.length_append]
    refine ⟨by omega, ?_⟩
    have : (Stage.result a.cap (c.th t).stage).length ≤ (match (c.th t).stage with | .idle => 0 | _ => 1) := by
      cases (c.th t).stage <;> simp [Stage.result, Stage.pend] <;> split <;> simp
    omega

/-- C50: no data race.  Accesses to a counter that are not atomic are protected by its lock, and no two threads write the same slot. -/
theorem C50_stores_do_not_race {c : Conc F D} (h : Conc.Reach mode (Conc.start g progs) c) : ¬ c.Race := by
  obtain ⟨ord, a, outs, i⟩ := (CInv.start mode g progs).reach h
  rintro ⟨t, t', cell, w, hne, h1, h2⟩
  have holds : ∀ t b w, c.access t = some (.count b, w) → (c.th t).stage.holds = some b := by
    intro t b w h
    unfold Conc.access at h
    cases hs : (c.th t).stage with
    | idle => rw [hs] at h; cases h
    | locked b' => rw [hs] at h; simp only [Option.some.injEq, Prod.mk.injEq, Cell.count.injEq] at h; rw [h.1]; rfl
    | loaded b' l => rw [hs] at h; simp only [Option.some.injEq, Prod.mk.injEq, Cell.count.injEq] at h; rw [h.1]; rfl
    | written b' l => rw [hs] at h; cases h
    | counted b' l => rw [hs] at h; simp only at h; split at h <;> simp at h
  have pends : ∀ t b l w, c.access t = some (.slot b l, w) → (c.th t).stage.pend = some (b, l) := by
    intro t b l w h
    unfold Conc.access at h
    cases hs : (c.th t).stage with
    | idle => rw [hs] at h; cases h
    | locked b' => rw [hs] at h; simp at h
    | loaded b' l => rw [hs] at h; simp at h
    | written b' l => rw [hs] at h; cases h
    | counted b' l' =>
      rw [hs] at h
      simp only at h
      split at h
      · cases h
      · simp only [Option.some.injEq, Prod.mk.injEq, Cell.slot.injEq] at h
        rw [h.1.1, h.1.2]; rfl
  cases cell with
  | count b =>
    have o1 := i.own t b (holds t b _ h1)
    have o2 := i.own t' b (holds t' b _ h2)
    rw [o1] at o2
    injection o2 with o2
    exact hne o2
  | slot b l => exact hne (i.uniq t t' b l (pends t b l _ h1) (pends t' b l _ h2))

/-- C50: no deadlock.  As long as a thread has calls to make, some thread can make a step (provided the positions have block numbers). -/
theorem C50_stores_do_not_deadlock {c : Conc F D} (h : Conc.Reach mode (Conc.start g progs) c)
    (hdef : ∀ t, ∀ e ∈ progs t, g.block? e.1 ≠ none) {t : Nat} (ht : (c.th t).todo ≠ []) : ∃ t' c', c.step mode t' = some c' := by
  obtain ⟨ord, a, outs, i⟩ := (CInv.start mode g progs).reach h
  have hga : SameGeom g c.grid := (storeCalls_spec ord g (by simpa using i.run)).1.trans i.geom
  have busy : ∀ t', (c.th t').stage ≠ .idle → ∃ c', c.step mode t' = some c' := by
    intro t' hne
    have hb : ∃ b, (c.th t').stage.block = some b := by
      cases hs : (c.th t').stage with
      | idle => exact absurd hs hne
      | locked b => exact ⟨b, rfl⟩
      | loaded b l => exact ⟨b, rfl⟩
      | written b l => exact ⟨b, rfl⟩
      | counted b l => exact ⟨b, rfl⟩
    obtain ⟨b, hb⟩ := hb
    obtain ⟨e, es, h1, h2, h3⟩ := i.head t' b hb
    unfold Conc.step
    rw [h1]
    cases hs : (c.th t').stage with
    | idle => exact absurd hs hne
    | locked b => exact ⟨_, rfl⟩
    | loaded b l => exact ⟨_, rfl⟩
    | written b l => exact ⟨_, rfl⟩
    | counted b l =>
      simp only
      split <;> exact ⟨_, rfl⟩
  by_cases hs : (c.th t).stage = .idle
  · cases htd : (c.th t).todo with
    | nil => exact absurd htd ht
    | cons e es =>
      have hmem : e ∈ progs t := by
        rw [← i.calls t]
        unfold Thread.rest
        rw [hs, htd]
        simp [Stage.pend]
      cases hb : c.grid.block? e.1 with
      | none => rw [hga.block] at hb; exact absurd hb (hdef t e hmem)
      | some b =>
        by_cases hr : c.grid.inRange b = true
        · cases mode with
          | atomic =>
            refine ⟨t, (c.setCount b (c.grid.count b + 1)).goto t (.counted b (c.grid.count b)), ?_⟩
            unfold Conc.step
            rw [htd, hs]
            simp only
            rw [hb]
            simp only
            rw [if_pos hr]
          | lock =>
            cases ho : c.owner b with
            | none =>
              refine ⟨t, (c.setOwner b (some t)).goto t (.locked b), ?_⟩
              unfold Conc.step
              rw [htd, hs]
              simp only
              rw [hb]
              simp only
              rw [if_pos hr, if_pos ho]
            | some t' =>
              obtain ⟨c', hc'⟩ := busy t' (by
                intro h0
                have := i.owned t' b ho
                rw [h0] at this; cases this)
              exact ⟨t', c', hc'⟩
        · refine ⟨t, c.finish t .outside, ?_⟩
          unfold Conc.step
          rw [htd, hs]
          simp only
          rw [hb]
          simp only
          rw [if_neg hr]
  · obtain ⟨c', hc'⟩ := busy t hs
    exact ⟨t, c', hc'⟩

/-- C50: what `T` threads leave in a cleared grid after all their calls, in whatever order: each block has counted its calls; if they fit, it holds
their numbers, each as often as it was stored; and some call has thrown exactly if some block got more calls than it can hold. -/
theorem C50_contents_after_concurrent_stores {c : Conc F D} (h : Conc.Reach mode (Conc.start g progs) c) (hempty : ∀ b, g.count b = 0) {T : Nat}
    (hT : ∀ t, T ≤ t → progs t = []) (hend : ∀ t, (c.th t).stage = .idle ∧ (c.th t).todo = []) :
    (∀ b, g.inRange b = true → c.grid.count b = (callsIn g b ((List.range T).flatMap progs)).length ∧
      ((callsIn g b ((List.range T).flatMap progs)).length ≤ g.cap →
        (c.grid.contents b).Perm (callsIn g b ((List.range T).flatMap progs)))) ∧
    ((∃ t, .full ∈ (c.th t).results) ↔ ∃ b, g.inRange b = true ∧ g.cap < (callsIn g b ((List.range T).flatMap progs)).length) := by
  obtain ⟨ord, ext, outs, h1, h2, -⟩ := C50_stores_are_linearizable (c := Conc.start g progs) (Conc.Reach.refl _) h (fun t => (hend t).1)
  set l := ord ++ ext with hl
  have hth : ∀ t, ofThread t l = progs t := by
    intro t
    have := (h2 t).1
    rw [(hend t).2, List.append_nil] at this
    exact this
  have hperm : (l.map (·.2)).Perm ((List.range T).flatMap progs) := by
    have := perm_of_threads l T (by
      intro e he
      by_contra hc
      have h3 := hth e.1
      rw [hT e.1 (by omega)] at h3
      have : e.2 ∈ ofThread e.1 l := by
        unfold ofThread
        exact List.mem_map.mpr ⟨e, List.mem_filter.mpr ⟨he, by simp⟩, rfl⟩
      rw [h3] at this; cases this)
    simpa only [hth] using this
  have hci : ∀ b, (callsIn g b (l.map (·.2))).Perm (callsIn g b ((List.range T).flatMap progs)) := by
    intro b
    exact (hperm.filter _).map _
  obtain ⟨s1, s2, s3, s4, s5⟩ := storeCalls_spec l g h1
  refine ⟨?_, ?_⟩
  · intro b hb
    have hc : c.grid.count b = (callsIn g b (l.map (·.2))).length := by rw [s2 b hb, hempty]; omega
    refine ⟨by rw [hc, (hci b).length_eq], ?_⟩
    intro hcap
    rw [← (hci b).length_eq] at hcap
    refine List.Perm.trans (List.Perm.of_eq ?_) (hci b)
    unfold Grid.contents
    rw [hc]
    apply List.ext_getElem
    · simp
    · intro k k1 k2
      have := s4 b hb k k2 (by rw [hempty]; omega)
      rw [hempty, Nat.zero_add] at this
      simp only [List.getElem_map, List.getElem_range]
      rw [this, List.getD_eq_getElem?_getD, List.getElem?_eq_getElem k2, Option.getD_some]
  · have hfull : (∃ t, .full ∈ (c.th t).results) ↔ ∃ t, (t, Outcome.full) ∈ outs := by
      constructor
      · rintro ⟨t, ht⟩
        rw [← (h2 t).2] at ht
        unfold ofThread at ht
        obtain ⟨⟨t', o⟩, he, rfl⟩ := List.mem_map.mp ht
        exact ⟨t', (List.mem_filter.mp he).1⟩
      · rintro ⟨t, ht⟩
        refine ⟨t, ?_⟩
        rw [← (h2 t).2]
        exact List.mem_map.mpr ⟨(t, .full), List.mem_filter.mpr ⟨ht, by simp⟩, rfl⟩
    rw [hfull, s5]
    apply exists_congr
    intro b
    apply and_congr_right
    intro _
    rw [hempty, Nat.zero_add, (hci b).length_eq]
    constructor
    · exact fun h => h.2
    · intro h
      refine ⟨?_, h⟩
      intro h0
      have := (hci b).length_eq
      rw [h0] at this
      simp at this
      omega

/-! ### A concrete execution

Three threads store four particles, three of them in the same block (with room for two), one outside. -/

/-- The execution in which the threads make steps in the order `ts`. -/
def Conc.run (mode : Counting) : List Nat → Conc F D → Option (Conc F D)
  | [], c => some c
  | t :: ts, c =>
    match c.step mode t with
    | none => none
    | some c' => c'.run mode ts

theorem Conc.run_reach : ∀ (ts : List Nat) {c0 c c' : Conc F D}, Conc.Reach mode c0 c → c.run mode ts = some c' → Conc.Reach mode c0 c' := by
  intro ts
  induction ts with
  | nil => intro c0 c c' h hr; simp only [Conc.run, Option.some.injEq] at hr; rw [← hr]; exact h
  | cons t ts ih =>
    intro c0 c c' h hr
    unfold Conc.run at hr
    split at hr
    · cases hr
    · rename_i c1 h1
      exact ih (h.step t h1) hr

section
attribute [local instance] instScalarInt

/-- A grid of 3 by 3 blocks of length 4 with room for two particles each. -/
def concGrid : Grid Int 2 := { blockLength := 4, origin := ![0, 0], size := ![3, 3], cap := 2, count := fun _ => 0, slot := fun _ _ => 0 }

/-- The calls. -/
def concProgs : Nat → List (Vec Int 2 × Nat)
  | 0 => [(![1, 1], 10), (![50, 1], 11)]
  | 1 => [(![2, 2], 20)]
  | 2 => [(![3, 3], 30)]
  | _ => []

/-- Counted in the order 1, 2, 0 (thread 2 writes its slot first, thread 0 throws); with locks and without. -/
example : ∃ c c', Conc.Reach .atomic (Conc.start concGrid concProgs) c ∧ Conc.Reach .lock (Conc.start concGrid concProgs) c' ∧
    (∀ t, t < 3 → (c.th t).todo = [] ∧ (c'.th t).todo = []) ∧ c.grid.contents 0 = [20, 30, 0] ∧ c'.grid.contents 0 = [20, 30, 0] ∧
    (c.th 0).results = [.full, .outside] ∧ (c'.th 0).results = [.full, .outside] ∧ c.grid.cap = 2 := by
  have key : ∀ mode : Counting, ∀ ts : List Nat,
      (match (Conc.start concGrid concProgs).run mode ts with
        | some c => decide (∀ t : Fin 3, (c.th t.val).todo = []) && decide (c.grid.contents 0 = [20, 30, 0]) &&
            decide ((c.th 0).results = [.full, .outside]) && decide (c.grid.cap = 2)
        | none => false) = true →
      ∃ c, Conc.Reach mode (Conc.start concGrid concProgs) c ∧ (∀ t, t < 3 → (c.th t).todo = []) ∧ c.grid.contents 0 = [20, 30, 0] ∧
        (c.th 0).results = [.full, .outside] ∧ c.grid.cap = 2 := by
    intro mode ts h
    split at h
    · rename_i c hc
      simp only [Bool.and_eq_true, decide_eq_true_eq] at h
      exact ⟨c, Conc.run_reach ts (Conc.Reach.refl _) hc, fun t ht => h.1.1.1 ⟨t, ht⟩, h.1.1.2, h.1.2, h.2⟩
    · cases h
  obtain ⟨c, h1, h2, h3, h4, h5⟩ := key .atomic [1, 2, 0, 2, 1, 0, 0] (by decide +kernel)
  obtain ⟨c', k1, k2, k3, k4, -⟩ := key .lock [1, 1, 1, 1, 2, 2, 2, 2, 0, 2, 0, 1, 0, 0, 0, 0] (by decide +kernel)
  exact ⟨c, c', h1, k1, fun t ht => ⟨h2 t ht, k2 t ht⟩, h3, k3, h4, k4, h5⟩

end

end OpenMps
