import Verif.Props.ContractDistance

/-! # C75: the neighbour search with contracted distances -/

namespace OpenMps

open Double

variable {D : ℕ} {ω : Type}

/-- What the second loop of the search reads and writes for one particle. -/
theorem searchNeighbor_row {F : Type} [Scalar F] {s s1 : State F D ω} {sch : List Ev} (hv : ValidSched s.n sch) (hok : s.grid.ClearOK) (hub : s.ub = false)
    (h : s.searchNeighbor sch = .ok s1) {i : ℕ} (hi : i < s.n) (hd : (s1.ps i).ty ≠ .disabled) :
    ∃ l, s1.grid.visit (s1.ps i).x = .done l ∧ l.length ≤ s1.rowCap ∧ (∀ j ∈ l, j < s.n) ∧
      s1.neighbors i = l.filter (fun j => decide (j ≠ i) && decide ((s1.ps j).ty ≠ .disabled) && Scalar.lt (dist (s1.ps i).x (s1.ps j).x) s1.env.neighborLength) := by
  rcases searchNeighbor_spec s sch hv hok hub with ⟨g, h1, h2, h3⟩ | ⟨j, g, g', -, -, -, -, -, h3⟩ | ⟨j, -, -, -, h3⟩
  · rw [h3, Res.ok.injEq] at h
    subst h
    obtain ⟨hg, f1, f2, f3⟩ := marked_facts s g h1 h2
    change ((State.marked { s with grid := s.grid.cleared } (List.range s.n) g).ps i).ty ≠ .disabled at hd
    have hr := rowCompute_eq _ f1 f2 f3 i hi hd
    have hnb := neighbors_withRows (State.marked { s with grid := s.grid.cleared } (List.range s.n) g) i hi hd
    have hn : (State.marked { s with grid := s.grid.cleared } (List.range s.n) g).n = s.n := rfl
    rw [hnb]
    clear hnb
    generalize State.marked { s with grid := s.grid.cleared } (List.range s.n) g = m at *
    obtain ⟨b, hb, hin⟩ := f2 i (by rw [hn]; exact hi) hd
    have hvis := visit_eq m.grid f1 _ b hb hin
    unfold State.rowCompute at hr
    rw [if_neg hd, hvis] at hr
    simp only at hr
    refine ⟨_, hvis, ?_, ?_, ?_⟩
    · have h4 := contFrom_length m.grid b f1 0
      have h5 : m.withRows.rowCap = 3 ^ D * m.grid.cap := by
        unfold State.rowCap lastNeighbor State.withRows; ring
      rw [h5]
      simpa using h4
    · intro j hj
      split at hr
      · cases hr
      · rename_i h6
        rw [Bool.not_eq_true, List.any_eq_false] at h6
        have := h6 j hj
        rw [hn] at this
        simpa using this
    · split at hr
      · cases hr
      · split at hr
        · cases hr
        · injection hr with hr
          exact hr.symm
  · rw [h3] at h; cases h
  · rw [h3] at h; cases h

/-- **C75**, the neighbour search (`/repo/src/OpenMps/Computer.hpp:730-754`).  Whatever the compiler contracts in each of the distances (`res j`), the row that the second
loop writes for a particle fits into the table, holds every other enabled particle within the radius of influence, and none beyond the search radius by more than `2^-26`. -/
theorem C75_contracted_search_loses_no_neighbour (hD : D ≤ 3)
    {P : Params Double D ω} {cfg : Config} {e : EnvArgs Double D} {env : Env Double D} {w : ω} {s0 s s1 : State Double D ω} {dts : List Double}
    (hmk : Env.mk? cfg e = some env) (hc : e.courant.isFinite = true ∧ 1 / 2 ^ 20 ≤ e.courant.val ∧ e.courant.val ≤ 1)
    (hre : env.re.Sized 400) (hL : env.neighborLength.Sized 400)
    (hnew : State.new? env w = some s0) (hist : Hist P s0 dts s) (hok : s0.grid.ClearOK)
    (hsize : ∀ a, s0.grid.size a ≤ 2 ^ 20) (hmin : ∀ a, (env.minX a).Upto 490)
    (hpos : ∀ i, i < s.n → (s.ps i).ty ≠ .disabled → ∀ a, ((s.ps i).x a).Upto 490)
    (sch : Schedule) (hv : sch.Valid s.n) (dt : Double) (h : (s.start dt).searchNeighbor (sch 0) = .ok s1)
    (i : ℕ) (hi : i < s.n) (hdi : (s1.ps i).ty ≠ .disabled)
    (res : ℕ → Double) (hres : ∀ j, (Expr.sqrt (Expr.sqDist (s1.ps i).x (s1.ps j).x)).Eval (res j)) :
    ∃ l row, s1.grid.visit (s1.ps i).x = .done l ∧
      row = l.filter (fun j => decide (j ≠ i) && decide ((s1.ps j).ty ≠ .disabled) && Scalar.lt (res j) s1.env.neighborLength) ∧
      row.length ≤ s1.rowCap ∧
      (∀ j, j < s.n → j ≠ i → (s1.ps j).ty ≠ .disabled → trueDist (s.ps i).x (s.ps j).x ≤ env.re.val → j ∈ row) ∧
      (∀ j ∈ row, j < s.n ∧ j ≠ i ∧ (s1.ps j).ty ≠ .disabled ∧ trueDist (s.ps i).x (s.ps j).x < (1 + 1 / 2 ^ 26) * env.neighborLength.val) := by
  obtain ⟨-, h2, -⟩ := hist.frame
  obtain ⟨b0, -, -, b3, -⟩ := hist.geometry hnew
  have hok' : (s.start dt).grid.ClearOK := h2.clearOK.mpr hok
  obtain ⟨l, l1, l2, l3, l4⟩ := searchNeighbor_row (s := s.start dt) (hv 0) hok' b0 h hi hdi
  obtain ⟨n1, -⟩ := neighbors_iff (s := s.start dt) (hv 0) hok' b0 h
  obtain ⟨g0, g, nb, -, -, k3, -, -⟩ := searchNeighbor_ok_frame (s := s.start dt) (hv 0) h
  have hx : ∀ j, (s1.ps j).x = (s.ps j).x := fun j => by
    rw [k3]; exact (marked_ps { s.start dt with grid := g0 } (List.range (s.start dt).n) g j).1
  have hE : s1.env.neighborLength = env.neighborLength := by rw [k3]; exact b3
  have hen : ∀ j, j < s.n → (s1.ps j).ty ≠ .disabled → (s.ps j).ty ≠ .disabled := fun j hj hd => (n1 j hj hd).1
  have test : ∀ j, j < s.n → (s1.ps j).ty ≠ .disabled →
      (trueDist (s.ps i).x (s.ps j).x ≤ (1 - 1 / 2 ^ 26) * env.neighborLength.val → Scalar.lt (res j) s1.env.neighborLength = true) ∧
      ((1 + 1 / 2 ^ 26) * env.neighborLength.val ≤ trueDist (s.ps i).x (s.ps j).x → Scalar.lt (res j) s1.env.neighborLength = false) := by
    intro j hj hd
    have hr := hres j
    rw [hx, hx] at hr
    rw [hE]
    exact C75_search_test hD hL _ _ (hpos i hi (hen i hi hdi)) (hpos j hj (hen j hj hd)) hr
  have r4 : 4 * doubleRounding.val env.re ≤ doubleRounding.Ω := by
    refine (mul_le_mul_of_nonneg_left hre.2.2 (by norm_num)).trans ?_
    rw [show (4 : ℝ) = 2 ^ 2 by norm_num, ← pow_add]
    exact le_double_Ω (by norm_num)
  have margin : env.re.val ≤ (1 - 1 / 2 ^ 26) * env.neighborLength.val :=
    searchRadius_margin doubleRounding dd.1 hmk hL.goodLength hc ⟨hre.1, hre.pos.le, r4⟩ (by
      rw [show (4 : ℝ) = 2 ^ 2 by norm_num]; exact le_double_Ω (by norm_num))
  refine ⟨l, _, l1, rfl, (List.length_filter_le _ _).trans l2, ?_, ?_⟩
  · intro j hj hij hd hdist
    have hin := (C72_no_neighbour_lost_in_double hD hmk hc hre hL hnew hist hok hsize (fun a => (hmin a).mono (by norm_num))
      (fun i hi hd a => (hpos i hi hd a).mono (by norm_num)) sch hv dt h i j hi hj hij hdi hd).1 hdist
    rw [l4, List.mem_filter] at hin
    rw [List.mem_filter, (test j hj hd).1 (hdist.trans margin)]
    simp only [Bool.and_true, Bool.and_eq_true, decide_eq_true_eq]
    exact ⟨hin.1, hij, hd⟩
  · intro j hj
    rw [List.mem_filter] at hj
    simp only [Bool.and_eq_true, decide_eq_true_eq] at hj
    obtain ⟨j1, ⟨j2, j3⟩, j4⟩ := hj
    have hj := l3 j j1
    refine ⟨hj, j2, j3, ?_⟩
    by_contra hc
    rw [(test j hj j3).2 (not_lt.mp hc)] at j4
    cases j4

end OpenMps
