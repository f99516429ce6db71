import Verif.Lemmas.Evaluate
import Verif.Lemmas.Real
import Verif.Props.Main
import Verif.Props.BenchmarkDensity

/-! # The evaluation scripts of the benchmarks: C69 -/

set_option linter.unusedSectionVars false

namespace OpenMps

theorem toInt_typeOfNumber {t : PType} {k : Int} (h : t = typeOfNumber k) : t.toInt = k ∧ t = PType.ofInt k := by
  rw [← ofInt_eq] at h
  subst h
  refine ⟨?_, rfl⟩
  unfold PType.ofInt
  split
  · simp_all [PType.toInt]
  · split
    · simp_all [PType.toInt]
    · split
      · simp_all [PType.toInt]
      · split <;> simp_all [PType.toInt]

theorem toInt_zero_iff {t : PType} (h : ∃ k, t = typeOfNumber k) : t.toInt = 0 ↔ t = .incompressibleNewton := by
  obtain ⟨k, hk⟩ := h
  obtain ⟨h1, h2⟩ := toInt_typeOfNumber hk
  constructor
  · intro h0
    rw [h2, ← h1, h0]; rfl
  · rintro rfl; rfl

theorem toInt_one_iff {t : PType} (h : ∃ k, t = typeOfNumber k) : t.toInt = 1 ↔ t = .wall := by
  obtain ⟨k, hk⟩ := h
  obtain ⟨h1, h2⟩ := toInt_typeOfNumber hk
  constructor
  · intro h0
    rw [h2, ← h1, h0]; rfl
  · rintro rfl; rfl

section
variable {pr : Printer ℝ} {cv : Conv ℝ} {rt : ℝ → ℝ}

/-- **C69.**  `koshizukaoka1996_edge.py` computes from a file the largest `x` coordinate of the fluid particles (as printed); it fails exactly if there are none. -/
theorem C69_edge_of_file (hpr : pr.Clean) (hint : ∀ k, cv.int (pr.int k) = some k) (hnum : ∀ v, cv.num (pr.num v) = some (rt v))
    (ps : List (Particle ℝ 2)) (hty : TypesFromFiles ps) :
    ((∃ q ∈ ps, q.ty = .incompressibleNewton) → ∃ e, edgeOfFile cv (outputToCsv pr ps) = .ok e) ∧
    (∀ e, edgeOfFile cv (outputToCsv pr ps) = .ok e → IsGreatest (fluidX rt ps) e) ∧
    ((∀ q ∈ ps, q.ty ≠ .incompressibleNewton) → edgeOfFile cv (outputToCsv pr ps) = .error .emptyMax) := by
  have hdata : edgeOfFile cv (outputToCsv pr ps) = maxOf (((ps.map (fun q => (rt (q.x 0), q.ty.toInt))).filter (fun d => d.2 == 0)).map Prod.fst) := by
    unfold edgeOfFile
    rw [pyRows_output hpr ps]
    have : pyMap (fun r => do
        let x ← pyFloat cv ['x'] r
        let k ← pyInt cv colType r
        return (x, k)) (ps.map (fun q name => dictCell name (columns 2) (particleFields pr q))) = .ok (ps.map (fun q => (rt (q.x 0), q.ty.toInt))) := by
      clear hty
      induction ps with
      | nil => rfl
      | cons q ps ih =>
        obtain ⟨c1, -, -, -, c5⟩ := row_values hint hnum q
        rw [List.map_cons, pyMap, c1, c5, ih]
        rfl
    rw [this]
    rfl
  have hmem : ∀ v, v ∈ ((ps.map (fun q => (rt (q.x 0), q.ty.toInt))).filter (fun d => d.2 == 0)).map Prod.fst ↔ v ∈ fluidX rt ps := by
    intro v
    unfold fluidX
    simp only [List.mem_map, List.mem_filter, beq_iff_eq, Set.mem_ofPred_eq]
    constructor
    · rintro ⟨d, ⟨⟨q, hq, rfl⟩, hz⟩, rfl⟩
      exact ⟨q, hq, (toInt_zero_iff (hty q hq)).1 hz, rfl⟩
    · rintro ⟨q, hq, hz, rfl⟩
      exact ⟨_, ⟨⟨q, hq, rfl⟩, (toInt_zero_iff (hty q hq)).2 hz⟩, rfl⟩
  rw [hdata]
  refine ⟨?_, ?_, ?_⟩
  · rintro ⟨q, hq, hz⟩
    exact maxOf_ok (List.ne_nil_of_mem ((hmem (rt (q.x 0))).2 ⟨q, hq, hz, rfl⟩))
  · intro e he
    have := maxOf_spec he
    exact (show {w | w ∈ ((ps.map (fun q => (rt (q.x 0), q.ty.toInt))).filter (fun d => d.2 == 0)).map Prod.fst} = fluidX rt ps from Set.ext hmem) ▸ this
  · intro hno
    have : ((ps.map (fun q => (rt (q.x 0), q.ty.toInt))).filter (fun d => d.2 == 0)).map Prod.fst = [] := by
      rw [List.eq_nil_iff_forall_not_mem]
      intro v hv
      obtain ⟨q, hq, hz, -⟩ := (hmem v).1 hv
      exact hno q hq hz
    rw [this]
    rfl

/-- **C69.**  The edge that the script finds differs from the true one by no more than printing and reading change the coordinates. -/
theorem C69_edge_is_accurate {δ : ℝ} (hpr : pr.Clean) (hint : ∀ k, cv.int (pr.int k) = some k) (hnum : ∀ v, cv.num (pr.num v) = some (rt v))
    (ps : List (Particle ℝ 2)) (hty : TypesFromFiles ps) (hrt : ∀ q ∈ ps, |rt (q.x 0) - q.x 0| ≤ δ) {e E : ℝ}
    (he : edgeOfFile cv (outputToCsv pr ps) = .ok e) (hE : IsGreatest (fluidX id ps) E) : |e - E| ≤ δ := by
  obtain ⟨⟨q, hq, hz, rfl⟩, h2⟩ := (C69_edge_of_file hpr hint hnum ps hty).2.1 e he
  obtain ⟨⟨q', hq', hz', rfl⟩, h2'⟩ := hE
  have a1 := abs_le.1 (hrt q hq)
  have a2 := abs_le.1 (hrt q' hq')
  have b1 : rt (q'.x 0) ≤ rt (q.x 0) := h2 ⟨q', hq', hz', rfl⟩
  have b2 : q.x 0 ≤ q'.x 0 := h2' ⟨q, hq, hz, rfl⟩
  rw [abs_le]
  simp only [id]
  constructor <;> linarith

theorem thousandths_real (a : Int) : (thousandths a : ℝ) = (a : ℝ) / 1000 := by
  unfold thousandths
  simp [ofInt_real]

theorem zhouRows_output (hpr : pr.Clean) (hint : ∀ k, cv.int (pr.int k) = some k) (hnum : ∀ v, cv.num (pr.num v) = some (rt v))
    (ps : List (Particle ℝ 2)) : pyMap (fun r => do
    let x ← pyFloat cv ['x'] r
    let z ← pyFloat cv ['z'] r
    let p ← pyFloat cv ['p'] r
    let n ← pyFloat cv ['n'] r
    let k ← pyInt cv colType r
    return (⟨x, z, p, n, k⟩ : ZhouRow ℝ)) (pyRows (outputToCsv pr ps)) = .ok (ps.map (fun q => ⟨rt (q.x 0), rt (q.x 1), rt q.p, rt q.n, q.ty.toInt⟩)) := by
  rw [pyRows_output hpr ps]
  induction ps with
  | nil => rfl
  | cons q ps ih =>
    obtain ⟨c1, c2, c3, c4, c5⟩ := row_values hint hnum q
    rw [List.map_cons, pyMap, c1, c2, c3, c4, c5, ih]
    rfl

theorem zhouHeight_spec (l0 minN X : ℝ) (ps : List (Particle ℝ 2)) :
    ∃ h, zhouHeight l0 minN X (ps.map (fun q => ⟨rt (q.x 0), rt (q.x 1), rt q.p, rt q.n, q.ty.toInt⟩)) = .ok h ∧ IsGreatest (columnHeights rt l0 minN X ps) h := by
  unfold zhouHeight
  obtain ⟨h, hh⟩ := maxOf_ok (F := ℝ) (l := 0 :: ((ps.map (fun q => (⟨rt (q.x 0), rt (q.x 1), rt q.p, rt q.n, q.ty.toInt⟩ : ZhouRow ℝ))).filter
    (fun d => Scalar.lt (Scalar.abs (d.x - X)) (l0 / Scalar.ofInt 2) && Scalar.lt minN d.n)).map ZhouRow.z) (by simp)
  refine ⟨h, hh, ?_⟩
  have := maxOf_spec hh
  convert this using 1
  ext v
  unfold columnHeights
  simp only [Set.mem_ofPred_eq, List.mem_cons, List.mem_map, List.mem_filter, Bool.and_eq_true, ofInt_real, Scalar.lt, Scalar.abs, decide_eq_true_eq, Int.cast_ofNat]
  refine or_congr Iff.rfl ?_
  constructor
  · rintro ⟨q, hq, h1, h2, rfl⟩
    exact ⟨_, ⟨⟨q, hq, rfl⟩, h1, h2⟩, rfl⟩
  · rintro ⟨d, ⟨⟨q, hq, rfl⟩, h1, h2⟩, rfl⟩
    exact ⟨q, hq, h1, h2, rfl⟩

theorem zhouPressure_eq (ps : List (Particle ℝ 2)) (hty : TypesFromFiles ps) :
    zhouPressure (ps.map (fun q => ⟨rt (q.x 0), rt (q.x 1), rt q.p, rt q.n, q.ty.toInt⟩)) =
      pyMean ((sensorParticles rt ps).map (fun q => rt q.p)) := by
  classical
  unfold zhouPressure sensorParticles
  congr 1
  rw [List.filter_map, List.map_map]
  have : ps.filter ((fun d : ZhouRow ℝ => Scalar.lt d.x 0 && d.number == 1 && Scalar.lt (Scalar.abs (d.z - thousandths 160)) (thousandths 90 / Scalar.ofInt 2)) ∘
      fun q => (⟨rt (q.x 0), rt (q.x 1), rt q.p, rt q.n, q.ty.toInt⟩ : ZhouRow ℝ)) =
      ps.filter (fun q => decide (rt (q.x 0) < 0 ∧ q.ty = .wall ∧ |rt (q.x 1) - 0.16| < 0.045)) := by
    apply List.filter_congr
    intro q hq
    have h1 : ((160 : ℤ) : ℝ) / 1000 = 0.16 := by norm_num
    have h2 : ((90 : ℤ) : ℝ) / 1000 / ((2 : ℤ) : ℝ) = 0.045 := by norm_num
    simp only [Function.comp, thousandths_real, ofInt_real, Scalar.lt, Scalar.abs, h1, h2]
    rw [Bool.eq_iff_iff]
    simp only [Bool.and_eq_true, decide_eq_true_eq, beq_iff_eq, toInt_one_iff (hty q hq), and_assoc]
  rw [this]
  rfl

/-- **C69.**  `zhouetal1999.py` computes from a file: the largest height (at least 0) of the particles with `n > minN` within half a particle distance of the two water gauges, which are at `x = 0.495` and
`x = 0.992`, and the mean pressure of the particles of the left wall within 45 mm of the height 160 mm; it fails exactly if there are none of these. -/
theorem C69_zhou_of_file (hpr : pr.Clean) (hint : ∀ k, cv.int (pr.int k) = some k) (hnum : ∀ v, cv.num (pr.num v) = some (rt v))
    (ps : List (Particle ℝ 2)) (hty : TypesFromFiles ps) (l0 minN : ℝ) :
    (sensorParticles rt ps ≠ [] → ∃ h1 h2, zhouOfFile cv l0 minN (outputToCsv pr ps) =
        .ok (h1, h2, ((sensorParticles rt ps).map (fun q => rt q.p)).sum / (sensorParticles rt ps).length) ∧
      IsGreatest (columnHeights rt l0 minN 0.495 ps) h1 ∧ IsGreatest (columnHeights rt l0 minN 0.992 ps) h2) ∧
    (sensorParticles rt ps = [] → zhouOfFile cv l0 minN (outputToCsv pr ps) = .error .emptyMean) := by
  have e1 : (thousandths 2020 - thousandths 1525 : ℝ) = 0.495 := by rw [thousandths_real, thousandths_real]; norm_num
  have e2 : (thousandths 2020 - thousandths 1028 : ℝ) = 0.992 := by rw [thousandths_real, thousandths_real]; norm_num
  obtain ⟨h1, f1, g1⟩ := zhouHeight_spec (rt := rt) l0 minN 0.495 ps
  obtain ⟨h2, f2, g2⟩ := zhouHeight_spec (rt := rt) l0 minN 0.992 ps
  have key : zhouOfFile cv l0 minN (outputToCsv pr ps) = (pyMean ((sensorParticles rt ps).map (fun q => rt q.p))).bind (fun p => .ok (h1, h2, p)) := by
    unfold zhouOfFile
    rw [zhouRows_output hpr hint hnum ps, e1, e2]
    simp only [bind, Except.bind]
    rw [f1, f2]
    simp only
    rw [zhouPressure_eq ps hty]
    rfl
  rw [key]
  constructor
  · intro hne
    refine ⟨h1, h2, ?_, g1, g2⟩
    unfold pyMean
    rw [if_neg (by simpa using hne)]
    simp only [Except.bind]
    have := foldl_add_sum (fun v : ℝ => v) ((sensorParticles rt ps).map (fun q => rt q.p)) 0
    rw [this, List.map_id', zero_add, ofInt_real, List.length_map]
    push_cast
    rfl
  · intro h0
    rw [h0]
    rfl

theorem checkRows_output (hpr : pr.Clean) (hnum : ∀ v, cv.num (pr.num v) = some (rt v)) (ps : List (Particle ℝ 2)) : pyMap (fun r => do
    let x ← pyFloat cv ['x'] r
    let z ← pyFloat cv ['z'] r
    let p ← pyFloat cv ['p'] r
    let n ← pyFloat cv ['n'] r
    return (⟨Scalar.sqrt (x * x + z * z), p, n⟩ : CheckRow ℝ)) (pyRows (outputToCsv pr ps)) = .ok (ps.map (fun q => ⟨centreDist rt q, rt q.p, rt q.n⟩)) := by
  rw [pyRows_output hpr ps]
  induction ps with
  | nil => rfl
  | cons q ps ih =>
    obtain ⟨c1, c2, c3, c4⟩ := row_floats hnum q
    rw [List.map_cons, pyMap, c1, c2, c3, c4, ih]
    simp only [bind, Except.bind, pure, Except.pure, List.map_cons, centreDist, pow_two]
    rfl

/-- **C69.**  `check_result.py` computes from a file of the program (named as the program names it) the roundness `100 (1 - (rMax - rMin) / R)`, where `rMax` and `rMin` are the largest and
the least distance from the centre among the particles with `n < beta n0`, and the pressure of a particle with the least distance from the centre; it fails exactly if there is no
particle with `n < beta n0`. -/
theorem C69_check_of_file (hpr : pr.Clean) (hnum : ∀ v, cv.num (pr.num v) = some (rt v)) {name : List Char} {num : Int}
    (hname : cv.int ((name.drop 10).take 5) = some num) {re n0 : ℝ} (hn0 : calculateN0 re = some n0) (beta R : ℝ) (ps : List (Particle ℝ 2)) (hne : ps ≠ []) :
    ((∃ q ∈ ps, rt q.n < n0 * beta) → ∃ rMax rMin, ∃ q ∈ ps, checkOfFile cv re beta R name (outputToCsv pr ps) = .ok (100 * (1 - (rMax - rMin) / R), rt q.p) ∧
      IsGreatest (surfaceDists rt (n0 * beta) ps) rMax ∧ IsLeast (surfaceDists rt (n0 * beta) ps) rMin ∧ ∀ q' ∈ ps, centreDist rt q ≤ centreDist rt q') ∧
    ((∀ q ∈ ps, n0 * beta ≤ rt q.n) → checkOfFile cv re beta R name (outputToCsv pr ps) = .error .emptyMax) := by
  obtain ⟨q0, ps', rfl⟩ := List.exists_cons_of_ne_nil hne
  let row : Particle ℝ 2 → CheckRow ℝ := fun q => ⟨centreDist rt q, rt q.p, rt q.n⟩
  let surf : List ℝ := (((q0 :: ps').map row).filter (fun d => Scalar.lt d.n (n0 * beta))).map CheckRow.r
  have key : checkOfFile cv re beta R name (outputToCsv pr (q0 :: ps')) = (maxOf surf).bind (fun rMax => (minOf surf).bind (fun rMin =>
      .ok ((1 - (rMax - rMin) / R) * Scalar.ofInt 100, (nearestRow (row q0) (ps'.map row)).p))) := by
    unfold checkOfFile
    rw [checkRows_output hpr hnum (q0 :: ps'), hname]
    simp only [bind, Except.bind, List.map_cons, hn0]
    rfl
  have hmem : ∀ v, v ∈ surf ↔ v ∈ surfaceDists rt (n0 * beta) (q0 :: ps') := by
    intro v
    show v ∈ (((q0 :: ps').map row).filter (fun d => Scalar.lt d.n (n0 * beta))).map CheckRow.r ↔ _
    unfold surfaceDists
    simp only [List.mem_map, List.mem_filter, Scalar.lt, decide_eq_true_eq, Set.mem_ofPred_eq]
    constructor
    · rintro ⟨d, ⟨⟨q, hq, rfl⟩, hz⟩, rfl⟩
      exact ⟨q, hq, hz, rfl⟩
    · rintro ⟨q, hq, hz, rfl⟩
      exact ⟨_, ⟨⟨q, hq, rfl⟩, hz⟩, rfl⟩
  have hset : {w | w ∈ surf} = surfaceDists rt (n0 * beta) (q0 :: ps') := Set.ext hmem
  rw [key]
  constructor
  · rintro ⟨q, hq, hz⟩
    have hsne : surf ≠ [] := List.ne_nil_of_mem ((hmem _).2 ⟨q, hq, hz, rfl⟩)
    obtain ⟨rMax, e1⟩ := maxOf_ok hsne
    obtain ⟨rMin, e2⟩ := minOf_ok hsne
    obtain ⟨n1, n2⟩ := nearestRow_spec (ps'.map row) (row q0)
    rw [← List.map_cons] at n1 n2
    obtain ⟨qc, hqc, eqc⟩ := List.mem_map.1 n1
    refine ⟨rMax, rMin, qc, hqc, ?_, hset ▸ maxOf_spec e1, hset ▸ minOf_spec e2, ?_⟩
    · rw [e1, e2, ← eqc]
      simp only [Except.bind, ofInt_real, row]
      congr 2
      push_cast
      ring
    · intro q' hq'
      have := n2 (row q') (List.mem_map.2 ⟨q', hq', rfl⟩)
      rw [← eqc] at this
      exact this
  · intro hno
    have : surf = [] := by
      rw [List.eq_nil_iff_forall_not_mem]
      intro v hv
      obtain ⟨q, hq, hz, -⟩ := (hmem v).1 hv
      exact absurd hz (not_lt.2 (hno q hq))
    rw [this]
    rfl

end

end OpenMps
