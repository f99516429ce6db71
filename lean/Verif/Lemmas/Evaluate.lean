import Verif.Spec.Evaluate
import Verif.Props.Csv
import Verif.Props.Text

/-! # Lemmas about the evaluation scripts -/

namespace OpenMps

theorem splitChar_commaSep : ∀ {ts : List (List Char)} {t : List Char}, (∀ s ∈ t :: ts, ',' ∉ s) →
    splitChar ',' (commaSep (t :: ts)) = t :: ts.map (fun s => ' ' :: s)
  | [], t, h => by
    unfold commaSep
    exact splitChar_none (h t (by simp))
  | s :: ts, t, h => by
    have ih := splitChar_commaSep (ts := ts) (t := s) (fun r hr => h r (List.mem_cons_of_mem _ hr))
    show splitChar ',' (t ++ [',', ' '] ++ commaSep (s :: ts)) = _
    rw [List.append_assoc]
    show splitChar ',' (t ++ ',' :: (' ' :: commaSep (s :: ts))) = _
    rw [splitChar_append (h t (by simp))]
    congr 1
    rw [splitChar, if_neg (by decide), ih]
    rfl

theorem dropWhile_clean {t : List Char} (h : ' ' ∉ t) : t.dropWhile (· == ' ') = t := by
  cases t with
  | nil => rfl
  | cons c t =>
    rw [List.dropWhile_cons_of_neg]
    simp only [List.mem_cons, not_or] at h
    simpa using fun hc => h.1 hc.symm

theorem pyFields_commaSep {ts : List (List Char)} {t : List Char} (h : ∀ s ∈ t :: ts, ∀ c ∈ s, c ≠ ',' ∧ c ≠ ' ' ∧ c ≠ '\t' ∧ c ≠ '\n') (hne : t ≠ []) :
    pyFields (commaSep (t :: ts)) = t :: ts := by
  have hline : commaSep (t :: ts) ≠ [] := by
    cases ts with
    | nil => simpa [commaSep] using hne
    | cons s ts => simp [commaSep]
  unfold pyFields
  rw [if_neg hline, splitChar_commaSep (fun s hs hc => (h s hs _ hc).1 rfl), List.map_cons, List.map_map,
    dropWhile_clean (fun hc => (h t (by simp) _ hc).2.1 rfl)]
  congr 1
  conv_rhs => rw [← List.map_id ts]
  apply List.map_congr_left
  intro s hs
  show List.dropWhile (fun x => x == ' ') (' ' :: s) = s
  rw [List.dropWhile_cons_of_pos (by rfl)]
  exact dropWhile_clean (fun hc => (h s (List.mem_cons_of_mem _ hs) _ hc).2.1 rfl)

/-- What the scripts see of a file: one row per particle. -/
theorem pyRows_output {F : Type} {D : Nat} {pr : Printer F} (hp : pr.Clean) (ps : List (Particle F D)) :
    pyRows (outputToCsv pr ps) = ps.map (fun q name => dictCell name (columns D) (particleFields pr q)) := by
  have hlines : splitChar '\n' (outputToCsv pr ps) = commaSep (columns D) :: (ps.map (fun q => commaSep (particleFields pr q)) ++ [[]]) := by
    have e : outputToCsv pr ps = joinWith '\n' (commaSep (columns D) :: (ps.map (fun q => commaSep (particleFields pr q)) ++ [[]])) := by
      unfold outputToCsv
      rw [joinWith_cons _ _ (by simp), List.append_assoc]
      congr 1
      show '\n' :: _ = _
      congr 1
      induction ps with
      | nil => rfl
      | cons q ps ih =>
        rw [List.flatMap_cons, List.map_cons, List.cons_append, joinWith_cons _ _ (by simp), ← ih]
        simp
    rw [e]
    apply splitChar_join (by simp)
    intro t ht
    simp only [List.mem_cons, List.mem_append, List.mem_map, List.not_mem_nil, or_false] at ht
    rcases ht with rfl | ⟨q, _, rfl⟩ | rfl
    · exact (commaSep_line (columns_clean D)).1
    · exact (commaSep_line (fields_clean hp q)).1
    · simp
  unfold pyRows
  rw [hlines]
  simp only
  have hh : pyFields (commaSep (columns D)) = columns D := pyFields_commaSep (columns_clean D) (by decide)
  have hf : ∀ q, pyFields (commaSep (particleFields pr q)) = particleFields pr q := fun q : Particle F D => pyFields_commaSep (fields_clean hp q) (hp.int_ne _)
  rw [hh, List.map_append, List.map_map, List.filter_append]
  have h1 : ((fun line => pyFields line) ∘ fun q => commaSep (particleFields pr q)) = fun q : Particle F D => particleFields pr q := by
    funext q; exact hf q
  have h2 : List.map (pyFields ∘ fun q => commaSep (particleFields pr q)) ps = ps.map (particleFields pr) := by
    apply List.map_congr_left; intro q _; exact hf q
  rw [h2, List.filter_eq_self.2 (by
    intro row hrow
    obtain ⟨q, _, rfl⟩ := List.mem_map.1 hrow
    rfl)]
  have h3 : List.filter (fun row : List (List Char) => !row.isEmpty) (List.map pyFields [[]]) = [] := by decide
  rw [h3, List.append_nil, List.map_map]
  rfl

theorem pyMap_ok {α β : Type} {f : α → Except PyErr β} {g : α → β} : ∀ {l : List α}, (∀ a ∈ l, f a = .ok (g a)) → pyMap f l = .ok (l.map g)
  | [], _ => rfl
  | a :: l, h => by
    unfold pyMap
    rw [h a (by simp), pyMap_ok (fun b hb => h b (List.mem_cons_of_mem _ hb))]
    rfl

theorem pyMap_spec {α β : Type} {f : α → Except PyErr β} : ∀ {l : List α} {m : List β}, pyMap f l = .ok m → m.length = l.length ∧ ∀ (k : Nat) a, l[k]? = some a → ∃ b, m[k]? = some b ∧ f a = .ok b
  | [], m, h => by
    cases h
    exact ⟨rfl, fun k a hk => by simp at hk⟩
  | a :: l, m, h => by
    unfold pyMap at h
    cases ha : f a with
    | error e => rw [ha] at h; cases h
    | ok b =>
      rw [ha] at h
      cases hl : pyMap f l with
      | error e => rw [hl] at h; cases h
      | ok bs =>
        rw [hl] at h
        cases h
        obtain ⟨e1, e2⟩ := pyMap_spec hl
        refine ⟨by simp [e1], ?_⟩
        rintro (_ | k) c hk
        · simp only [List.getElem?_cons_zero, Option.some.injEq] at hk
          subst hk
          exact ⟨b, rfl, ha⟩
        · exact e2 k c hk

theorem pyMap_exists {α β : Type} {f : α → Except PyErr β} : ∀ {l : List α}, (∀ a ∈ l, ∃ b, f a = .ok b) → ∃ m, pyMap f l = .ok m
  | [], _ => ⟨[], rfl⟩
  | a :: l, h => by
    obtain ⟨b, hb⟩ := h a (by simp)
    obtain ⟨m, hm⟩ := pyMap_exists (l := l) (fun c hc => h c (List.mem_cons_of_mem _ hc))
    exact ⟨b :: m, by unfold pyMap; rw [hb, hm]; rfl⟩

theorem pyMap_error {α β : Type} {f : α → Except PyErr β} {a : α} {e : PyErr} : ∀ {l r : List α}, (∀ c ∈ l, ∃ b, f c = .ok b) → f a = .error e → pyMap f (l ++ a :: r) = .error e
  | [], r, _, h => by
    show pyMap f (a :: r) = _
    unfold pyMap; rw [h]; rfl
  | c :: l, r, hl, h => by
    obtain ⟨b, hb⟩ := hl c (by simp)
    show pyMap f (c :: (l ++ a :: r)) = _
    unfold pyMap; rw [hb, pyMap_error (fun c hc => hl c (List.mem_cons_of_mem _ hc)) h]; rfl

theorem pyMap_error_mem {α β : Type} {f : α → Except PyErr β} : ∀ {l : List α}, (∃ a ∈ l, ∃ e, f a = .error e) → ∃ e, pyMap f l = .error e
  | [], h => by simp at h
  | c :: l, h => by
    unfold pyMap
    cases hc : f c with
    | error e => exact ⟨e, rfl⟩
    | ok b =>
      obtain ⟨a, ha, e, he⟩ := h
      rcases List.mem_cons.1 ha with rfl | ha
      · rw [hc] at he; cases he
      · obtain ⟨e', he'⟩ := pyMap_error_mem (l := l) ⟨a, ha, e, he⟩
        exact ⟨e', by rw [he']; rfl⟩

section
variable {F : Type} {pr : Printer F} {cv : Conv F} {rt : F → F}

theorem cells_two (q : Particle F 2) :
    dictCell ['x'] (columns 2) (particleFields pr q) = some (pr.num (q.x 0)) ∧
    dictCell ['z'] (columns 2) (particleFields pr q) = some (pr.num (q.x 1)) ∧
    dictCell ['p'] (columns 2) (particleFields pr q) = some (pr.num q.p) ∧
    dictCell ['n'] (columns 2) (particleFields pr q) = some (pr.num q.n) ∧
    dictCell colType (columns 2) (particleFields pr q) = some (pr.int q.ty.toInt) :=
  ⟨rfl, rfl, rfl, rfl, rfl⟩

theorem pyFloat_some {name : List Char} {r : PyRow} {v : F} (hnum : ∀ v, cv.num (pr.num v) = some (rt v)) (h : r name = some (pr.num v)) :
    pyFloat cv name r = .ok (rt v) := by
  unfold pyFloat
  rw [h]
  simp only [hnum]

theorem pyInt_some {name : List Char} {r : PyRow} {k : Int} (hint : ∀ k, cv.int (pr.int k) = some k) (h : r name = some (pr.int k)) :
    pyInt cv name r = .ok k := by
  unfold pyInt
  rw [h]
  simp only [hint]

theorem row_values (hint : ∀ k, cv.int (pr.int k) = some k) (hnum : ∀ v, cv.num (pr.num v) = some (rt v)) (q : Particle F 2) :
    pyFloat cv ['x'] (fun name => dictCell name (columns 2) (particleFields pr q)) = .ok (rt (q.x 0)) ∧
    pyFloat cv ['z'] (fun name => dictCell name (columns 2) (particleFields pr q)) = .ok (rt (q.x 1)) ∧
    pyFloat cv ['p'] (fun name => dictCell name (columns 2) (particleFields pr q)) = .ok (rt q.p) ∧
    pyFloat cv ['n'] (fun name => dictCell name (columns 2) (particleFields pr q)) = .ok (rt q.n) ∧
    pyInt cv colType (fun name => dictCell name (columns 2) (particleFields pr q)) = .ok q.ty.toInt := by
  obtain ⟨c1, c2, c3, c4, c5⟩ := cells_two (pr := pr) q
  exact ⟨pyFloat_some (r := fun name => dictCell name (columns 2) (particleFields pr q)) hnum c1,
    pyFloat_some (r := fun name => dictCell name (columns 2) (particleFields pr q)) hnum c2,
    pyFloat_some (r := fun name => dictCell name (columns 2) (particleFields pr q)) hnum c3,
    pyFloat_some (r := fun name => dictCell name (columns 2) (particleFields pr q)) hnum c4,
    pyInt_some (r := fun name => dictCell name (columns 2) (particleFields pr q)) hint c5⟩

theorem row_floats (hnum : ∀ v, cv.num (pr.num v) = some (rt v)) (q : Particle F 2) :
    pyFloat cv ['x'] (fun name => dictCell name (columns 2) (particleFields pr q)) = .ok (rt (q.x 0)) ∧
    pyFloat cv ['z'] (fun name => dictCell name (columns 2) (particleFields pr q)) = .ok (rt (q.x 1)) ∧
    pyFloat cv ['p'] (fun name => dictCell name (columns 2) (particleFields pr q)) = .ok (rt q.p) ∧
    pyFloat cv ['n'] (fun name => dictCell name (columns 2) (particleFields pr q)) = .ok (rt q.n) := by
  obtain ⟨c1, c2, c3, c4, -⟩ := cells_two (pr := pr) q
  exact ⟨pyFloat_some (r := fun name => dictCell name (columns 2) (particleFields pr q)) hnum c1,
    pyFloat_some (r := fun name => dictCell name (columns 2) (particleFields pr q)) hnum c2,
    pyFloat_some (r := fun name => dictCell name (columns 2) (particleFields pr q)) hnum c3,
    pyFloat_some (r := fun name => dictCell name (columns 2) (particleFields pr q)) hnum c4⟩

end

/-! ## Maximum and minimum -/

theorem foldl_max : ∀ (l : List ℝ) (v : ℝ), IsGreatest {w | w ∈ v :: l} (l.foldl (fun m v => if Scalar.lt m v then v else m) v)
  | [], v => by simp [IsGreatest, upperBounds]
  | a :: l, v => by
    obtain ⟨h1, h2⟩ := foldl_max l (if Scalar.lt v a then a else v)
    rw [List.foldl_cons]
    refine ⟨?_, ?_⟩
    · rcases List.mem_cons.1 h1 with h | h
      · show _ ∈ _
        rw [h]; split <;> simp
      · exact List.mem_cons_of_mem _ (List.mem_cons_of_mem _ h)
    · intro w hw
      have hc : v ≤ (if Scalar.lt v a then a else v) ∧ a ≤ (if Scalar.lt v a then a else v) := by
        by_cases h : v < a
        · rw [if_pos (by simpa [Scalar.lt] using h)]; exact ⟨h.le, le_refl _⟩
        · rw [if_neg (by simpa [Scalar.lt] using h)]; exact ⟨le_refl _, not_lt.1 h⟩
      have hb := h2 (List.mem_cons_self)
      rcases List.mem_cons.1 hw with rfl | hw
      · exact hc.1.trans hb
      · rcases List.mem_cons.1 hw with rfl | hw
        · exact hc.2.trans hb
        · exact h2 (List.mem_cons_of_mem _ hw)

theorem foldl_min : ∀ (l : List ℝ) (v : ℝ), IsLeast {w | w ∈ v :: l} (l.foldl (fun m v => if Scalar.lt v m then v else m) v)
  | [], v => by simp [IsLeast, lowerBounds]
  | a :: l, v => by
    obtain ⟨h1, h2⟩ := foldl_min l (if Scalar.lt a v then a else v)
    rw [List.foldl_cons]
    refine ⟨?_, ?_⟩
    · rcases List.mem_cons.1 h1 with h | h
      · show _ ∈ _
        rw [h]; split <;> simp
      · exact List.mem_cons_of_mem _ (List.mem_cons_of_mem _ h)
    · intro w hw
      have hc : (if Scalar.lt a v then a else v) ≤ v ∧ (if Scalar.lt a v then a else v) ≤ a := by
        by_cases h : a < v
        · rw [if_pos (by simpa [Scalar.lt] using h)]; exact ⟨h.le, le_refl _⟩
        · rw [if_neg (by simpa [Scalar.lt] using h)]; exact ⟨le_refl _, not_lt.1 h⟩
      have hb := h2 (List.mem_cons_self)
      rcases List.mem_cons.1 hw with rfl | hw
      · exact hb.trans hc.1
      · rcases List.mem_cons.1 hw with rfl | hw
        · exact hb.trans hc.2
        · exact h2 (List.mem_cons_of_mem _ hw)

theorem maxOf_spec {l : List ℝ} {e : ℝ} (h : maxOf l = .ok e) : IsGreatest {w | w ∈ l} e := by
  cases l with
  | nil => cases h
  | cons v l => cases h; exact foldl_max l v

theorem minOf_spec {l : List ℝ} {e : ℝ} (h : minOf l = .ok e) : IsLeast {w | w ∈ l} e := by
  cases l with
  | nil => cases h
  | cons v l => cases h; exact foldl_min l v

theorem maxOf_ok {F : Type} [Scalar F] {l : List F} (h : l ≠ []) : ∃ e, maxOf l = .ok e := by
  cases l with
  | nil => exact absurd rfl h
  | cons v l => exact ⟨_, rfl⟩

theorem minOf_ok {F : Type} [Scalar F] {l : List F} (h : l ≠ []) : ∃ e, minOf l = .ok e := by
  cases l with
  | nil => exact absurd rfl h
  | cons v l => exact ⟨_, rfl⟩

theorem nearestRow_spec : ∀ (l : List (CheckRow ℝ)) (d : CheckRow ℝ), nearestRow d l ∈ d :: l ∧ ∀ e ∈ d :: l, (nearestRow d l).r ≤ e.r
  | [], d => by simp [nearestRow]
  | a :: l, d => by
    obtain ⟨h1, h2⟩ := nearestRow_spec l (if Scalar.lt a.r d.r then a else d)
    unfold nearestRow
    have hc : (if Scalar.lt a.r d.r then a else d).r ≤ d.r ∧ (if Scalar.lt a.r d.r then a else d).r ≤ a.r := by
      by_cases h : a.r < d.r
      · rw [if_pos (by simpa [Scalar.lt] using h)]; exact ⟨h.le, le_refl _⟩
      · rw [if_neg (by simpa [Scalar.lt] using h)]; exact ⟨le_refl _, not_lt.1 h⟩
    refine ⟨?_, ?_⟩
    · rcases List.mem_cons.1 h1 with h | h
      · rw [h]; split <;> simp
      · exact List.mem_cons_of_mem _ (List.mem_cons_of_mem _ h)
    · intro e he
      have hb := h2 _ (List.mem_cons_self)
      rcases List.mem_cons.1 he with rfl | he
      · exact hb.trans hc.1
      · rcases List.mem_cons.1 he with rfl | he
        · exact hb.trans hc.2
        · exact h2 _ (List.mem_cons_of_mem _ he)

/-! ## Order of the files -/

/-- Name of a file in the directory. -/
theorem baseName_eq (k : Nat) : (fileName k).drop "result/".toList.length = "particles_".toList ++ padZeros 5 (natChars k) ++ ".csv".toList := by
  unfold fileName
  rw [List.append_assoc, List.append_assoc]
  rfl

theorem baseName_lt {a b : Nat} (hab : a < b) (hb : b < 100000) :
    (fileName a).drop "result/".toList.length < (fileName b).drop "result/".toList.length := by
  obtain ⟨l, l1, l2, l3, -, l5⟩ := padZeros_spec 5 a
  obtain ⟨r, r1, r2, r3, -, r5⟩ := padZeros_spec 5 b
  rw [baseName_eq, baseName_eq, l1, r1, List.append_assoc, List.append_assoc]
  exact prefix_lex _ (digits_lex l2 r2 (by rw [l5 (by omega) (by omega), r5 (by omega) (by omega)]) (by rw [l3, r3]; exact hab) _)

/-- The sorted directory lists the files in the order in which they were written. -/
theorem sortedFiles_result {F : Type} {outs : List (OutRec F)} {offset : Nat} (hnum : ∀ (k : Nat) rec, outs[k]? = some rec → rec.number = offset + k)
    (hmax : offset + outs.length ≤ 100000) {dir : List DirFile} (hdir : dir.Perm (resultDir outs)) : sortedFiles dir = resultDir outs := by
  have hsorted : (resultDir outs).Pairwise (fun a b => a.name < b.name) := by
    unfold resultDir
    rw [List.pairwise_map, List.pairwise_iff_getElem]
    intro i j hi hj hij
    rw [hnum i _ (List.getElem?_eq_getElem hi), hnum j _ (List.getElem?_eq_getElem hj)]
    exact baseName_lt (by omega) (by omega)
  have hle : (resultDir outs).Pairwise (fun a b => a.name ≤ b.name) := hsorted.imp (fun h => List.le_of_lt h)
  have hinj : ∀ a ∈ resultDir outs, ∀ b ∈ resultDir outs, a.name = b.name → a = b := by
    intro a ha b hb hab
    obtain ⟨i, hi, rfl⟩ := List.getElem_of_mem ha
    obtain ⟨j, hj, rfl⟩ := List.getElem_of_mem hb
    rw [List.pairwise_iff_getElem] at hsorted
    rcases Nat.lt_trichotomy i j with h | h | h
    · exact absurd (hab ▸ hsorted i j hi hj h) (List.lt_irrefl _)
    · subst h; rfl
    · exact absurd (hab ▸ hsorted j i hj hi h) (List.lt_irrefl _)
  have hp : (sortedFiles dir).Perm (resultDir outs) := (List.mergeSort_perm _ _).trans hdir
  have hs : (sortedFiles dir).Pairwise (fun a b => a.name ≤ b.name) := by
    have := List.pairwise_mergeSort (le := fun a b : DirFile => decide (a.name ≤ b.name)) (fun a b c => by simpa using fun h1 h2 => List.le_trans h1 h2)
      (fun a b => by simpa using List.le_total a.name b.name) dir
    exact this.imp (fun h => by simpa using h)
  exact hp.eq_of_pairwise (fun a b ha hb h1 h2 => hinj a (hp.mem_iff.1 ha) b hb (List.le_antisymm h1 h2)) hs hle

theorem evaluateAll_spec {F : Type} [Scalar F] {α : Type} {f : DirFile → Except PyErr α} {dt : F} {dir : List DirFile} {pts : List (F × α)} (h : evaluateAll f dt dir = .ok pts) :
    pts.length = (sortedFiles dir).length ∧ ∀ (k : Nat) a, (sortedFiles dir)[k]? = some a → ∃ v, f a = .ok v ∧ pts[k]? = some (Scalar.ofInt (k : Int) * dt, v) := by
  unfold evaluateAll at h
  cases hm : pyMap f (sortedFiles dir) with
  | error e => rw [hm] at h; cases h
  | ok m =>
    rw [hm] at h
    obtain ⟨h1, h2⟩ := pyMap_spec hm
    have hpts : pts = timeAxis dt m := by
      cases m with
      | nil => cases h
      | cons a m => cases h; rfl
    subst hpts
    refine ⟨by simp [timeAxis, h1], ?_⟩
    intro k a hk
    obtain ⟨b, hb, hf⟩ := h2 k a hk
    refine ⟨b, hf, ?_⟩
    unfold timeAxis
    rw [List.getElem?_map, List.getElem?_zipIdx, hb]
    simp

theorem evaluateAll_ok {F : Type} [Scalar F] {α : Type} {f : DirFile → Except PyErr α} {dt : F} {dir : List DirFile} (hne : dir ≠ []) (h : ∀ a ∈ dir, ∃ v, f a = .ok v) :
    ∃ pts, evaluateAll f dt dir = .ok pts := by
  have hp : (sortedFiles dir).Perm dir := List.mergeSort_perm _ _
  obtain ⟨m, hm⟩ := pyMap_exists (l := sortedFiles dir) (fun a ha => h a (hp.mem_iff.1 ha))
  have hl := (pyMap_spec hm).1
  unfold evaluateAll
  rw [hm]
  cases m with
  | nil =>
    rw [hp.length_eq] at hl
    exact absurd (List.length_eq_zero_iff.1 hl.symm) hne
  | cons a m => exact ⟨_, rfl⟩

theorem evaluateAll_error {F : Type} [Scalar F] {α : Type} {f : DirFile → Except PyErr α} {dt : F} {dir : List DirFile} (h : ∃ a ∈ dir, ∃ e, f a = .error e) :
    ∃ e, evaluateAll f dt dir = .error e := by
  have hp : (sortedFiles dir).Perm dir := List.mergeSort_perm _ _
  obtain ⟨a, ha, e, he⟩ := h
  obtain ⟨e', he'⟩ := pyMap_error_mem (l := sortedFiles dir) ⟨a, hp.mem_iff.2 ha, e, he⟩
  exact ⟨e', by unfold evaluateAll; rw [he']; rfl⟩

end OpenMps
