import Verif.Model.Benchmark
import Mathlib.Data.List.Nodup
import Mathlib.Tactic

/-! # Lemmas about the generators of the benchmarks -/

namespace OpenMps

theorem mem_pyRange {a b k : Int} : k ∈ pyRange a b ↔ a ≤ k ∧ k < b := by
  unfold pyRange
  rw [List.mem_map]
  constructor
  · rintro ⟨n, hn, rfl⟩
    rw [List.mem_range] at hn
    omega
  · rintro ⟨h1, h2⟩
    exact ⟨(k - a).toNat, by rw [List.mem_range]; omega, by omega⟩

theorem nodup_pyRange (a b : Int) : (pyRange a b).Nodup := by
  unfold pyRange
  refine List.Nodup.map ?_ List.nodup_range
  intro m n h
  simp only at h
  omega

theorem nodup_flatMap_key {α β : Type} {l : List α} (hl : l.Nodup) {f : α → List β} (key : β → α) (hf : ∀ a ∈ l, (f a).Nodup)
    (hk : ∀ a ∈ l, ∀ b ∈ f a, key b = a) : (l.flatMap f).Nodup := by
  rw [List.nodup_flatMap]
  refine ⟨hf, ?_⟩
  refine List.Pairwise.imp_of_mem ?_ hl
  intro a b ha hb hab
  rw [Function.onFun, List.disjoint_left]
  intro x hx hy
  exact hab ((hk a ha x hx).symm.trans (hk b hb x hy))

theorem mem_floorSites {w : Int} {s : Site} : s ∈ floorSites w ↔ -1 ≤ s.i ∧ s.i ≤ w ∧ (s.number = 1 ∧ s.k = -1 ∨ s.number = 2 ∧ -4 ≤ s.k ∧ s.k ≤ -2) := by
  obtain ⟨n, i, k⟩ := s
  unfold floorSites
  simp only [List.mem_flatMap, mem_pyRange, List.mem_cons, Site.mk.injEq, List.not_mem_nil, or_false, numWall, numDummy]
  constructor
  · rintro ⟨a, h1, h2⟩; omega
  · intro h; exact ⟨i, by omega, by omega⟩

theorem mem_leftSites {m : Int} {s : Site} : s ∈ leftSites m ↔ 0 ≤ s.k ∧ s.k < m ∧ (s.number = 1 ∧ s.i = -1 ∨ s.number = 2 ∧ -4 ≤ s.i ∧ s.i ≤ -2) := by
  obtain ⟨n, i, k⟩ := s
  unfold leftSites
  simp only [List.mem_flatMap, mem_pyRange, List.mem_cons, Site.mk.injEq, List.not_mem_nil, or_false, numWall, numDummy]
  constructor
  · rintro ⟨a, h1, h2⟩; omega
  · intro h; exact ⟨k, by omega, by omega⟩

theorem mem_rightSites {w m : Int} {s : Site} :
    s ∈ rightSites w m ↔ 0 ≤ s.k ∧ s.k < m ∧ (s.number = 1 ∧ s.i = w ∨ s.number = 2 ∧ w + 1 ≤ s.i ∧ s.i ≤ w + 3) := by
  obtain ⟨n, i, k⟩ := s
  unfold rightSites
  simp only [List.mem_flatMap, mem_pyRange, List.mem_cons, Site.mk.injEq, List.not_mem_nil, or_false, numWall, numDummy]
  constructor
  · rintro ⟨a, h1, h2⟩; omega
  · intro h; exact ⟨k, by omega, by omega⟩

theorem mem_topSites {w h : Int} {s : Site} :
    s ∈ topSites w h ↔ s.number = 1 ∧ s.k = h - 1 ∧ (-4 ≤ s.i ∧ s.i ≤ -1 ∨ w ≤ s.i ∧ s.i ≤ w + 3) := by
  obtain ⟨n, i, k⟩ := s
  unfold topSites
  simp only [List.mem_flatMap, mem_pyRange, List.mem_cons, Site.mk.injEq, List.not_mem_nil, or_false, numWall]
  constructor
  · rintro ⟨a, h1, h2⟩; omega
  · rintro ⟨h1, h2, h3 | h3⟩
    · exact ⟨-i - 1, by omega, by omega⟩
    · exact ⟨i - w, by omega, by omega⟩

theorem mem_cornerSites {w : Int} {s : Site} :
    s ∈ cornerSites w ↔ s.number = 2 ∧ -4 ≤ s.k ∧ s.k ≤ -1 ∧ (-4 ≤ s.i ∧ s.i ≤ -2 ∨ w + 1 ≤ s.i ∧ s.i ≤ w + 3) := by
  obtain ⟨n, i, k⟩ := s
  unfold cornerSites
  simp only [List.mem_flatMap, mem_pyRange, List.mem_cons, Site.mk.injEq, List.not_mem_nil, or_false, numDummy]
  constructor
  · rintro ⟨a, h1, b, h2, h3⟩; omega
  · rintro ⟨h1, h2, h3, h4 | h4⟩
    · exact ⟨-1 - i, by omega, k, by omega, by omega⟩
    · exact ⟨i - w, by omega, k, by omega, by omega⟩

theorem nodup_floorSites (w : Int) : (floorSites w).Nodup := by
  unfold floorSites
  refine nodup_flatMap_key (nodup_pyRange _ _) Site.i (fun a _ => ?_) (fun a _ b hb => ?_)
  · simp [numWall, numDummy]
  · simp only [List.mem_cons, List.not_mem_nil, or_false] at hb
    rcases hb with rfl | rfl | rfl | rfl <;> rfl

theorem nodup_leftSites (m : Int) : (leftSites m).Nodup := by
  unfold leftSites
  refine nodup_flatMap_key (nodup_pyRange _ _) Site.k (fun a _ => ?_) (fun a _ b hb => ?_)
  · simp [numWall, numDummy]
  · simp only [List.mem_cons, List.not_mem_nil, or_false] at hb
    rcases hb with rfl | rfl | rfl | rfl <;> rfl

theorem nodup_rightSites (w m : Int) : (rightSites w m).Nodup := by
  unfold rightSites
  refine nodup_flatMap_key (nodup_pyRange _ _) Site.k (fun a _ => ?_) (fun a _ b hb => ?_)
  · simp [numWall, numDummy]
  · simp only [List.mem_cons, List.not_mem_nil, or_false] at hb
    rcases hb with rfl | rfl | rfl | rfl <;> rfl

theorem nodup_topSites {w : Int} (hw : 0 ≤ w) (h : Int) : (topSites w h).Nodup := by
  unfold topSites
  refine nodup_flatMap_key (nodup_pyRange _ _) (fun s => if s.i < 0 then -s.i - 1 else s.i - w) (fun a ha => ?_) (fun a ha b hb => ?_)
  · rw [mem_pyRange] at ha
    simp only [List.nodup_cons, List.mem_singleton, Site.mk.injEq, List.not_mem_nil, not_false_eq_true, List.nodup_nil, and_true]
    omega
  · rw [mem_pyRange] at ha
    simp only [List.mem_cons, List.not_mem_nil, or_false] at hb
    rcases hb with rfl | rfl
    · simp only; rw [if_pos (by omega)]; omega
    · simp only; rw [if_neg (by omega)]; omega

theorem nodup_cornerSites {w : Int} (hw : 0 ≤ w) : (cornerSites w).Nodup := by
  unfold cornerSites
  refine nodup_flatMap_key (nodup_pyRange _ _) (fun s => if s.i < 0 then -1 - s.i else s.i - w) (fun a ha => ?_) (fun a ha b hb => ?_)
  · rw [mem_pyRange] at ha
    refine nodup_flatMap_key (nodup_pyRange _ _) Site.k (fun c _ => ?_) (fun c _ d hd => ?_)
    · simp only [List.nodup_cons, List.mem_singleton, Site.mk.injEq, List.not_mem_nil, not_false_eq_true, List.nodup_nil, and_true]
      omega
    · simp only [List.mem_cons, List.not_mem_nil, or_false] at hd
      rcases hd with rfl | rfl <;> rfl
  · rw [mem_pyRange] at ha
    simp only [List.mem_flatMap, List.mem_cons, List.not_mem_nil, or_false] at hb
    obtain ⟨c, -, rfl | rfl⟩ := hb
    · simp only; rw [if_pos (by omega)]; omega
    · simp only; rw [if_neg (by omega)]; omega

/-- A block of water. -/
theorem mem_water {f : Int → Int} {A B C D : Int} {s : Site} :
    s ∈ (pyRange A B).flatMap (fun i => (pyRange C D).map (fun j => (⟨numNewton, f i, j⟩ : Site))) ↔
      s.number = 0 ∧ (∃ i, A ≤ i ∧ i < B ∧ f i = s.i) ∧ C ≤ s.k ∧ s.k < D := by
  obtain ⟨n, i, k⟩ := s
  simp only [List.mem_flatMap, mem_pyRange, List.mem_map, Site.mk.injEq, numNewton]
  constructor
  · rintro ⟨a, h1, b, h2, h3, h4, h5⟩; exact ⟨h3.symm, ⟨a, h1.1, h1.2, h4⟩, by omega, by omega⟩
  · rintro ⟨h1, ⟨a, h2, h3, h4⟩, h5, h6⟩; exact ⟨a, ⟨h2, h3⟩, k, ⟨h5, h6⟩, h1.symm, h4, rfl⟩

theorem nodup_water {f g : Int → Int} (hg : ∀ i, g (f i) = i) (A B C D : Int) :
    ((pyRange A B).flatMap (fun i => (pyRange C D).map (fun j => (⟨numNewton, f i, j⟩ : Site)))).Nodup := by
  refine nodup_flatMap_key (nodup_pyRange _ _) (fun s => g s.i) (fun a _ => ?_) (fun a _ b hb => ?_)
  · refine (nodup_pyRange _ _).map ?_
    intro x y h
    simp only [Site.mk.injEq] at h
    exact h.2.2
  · rw [List.mem_map] at hb
    obtain ⟨j, -, rfl⟩ := hb
    exact hg a

theorem mem_staticPressure {w h : Int} (hw : 0 ≤ w) {s : Site} : s ∈ staticPressureSites w h ↔
    (s.number = 0 ∧ 0 ≤ s.i ∧ s.i < w ∧ 0 ≤ s.k ∧ s.k < h) ∨
    (s.number = 1 ∧ (s.k = -1 ∧ -1 ≤ s.i ∧ s.i ≤ w ∨ (s.i = -1 ∨ s.i = w) ∧ 0 ≤ s.k ∧ s.k ≤ h)) ∨
    (s.number = 2 ∧ (-4 ≤ s.i ∧ s.i ≤ w + 3 ∧ -4 ≤ s.k ∧ s.k ≤ max h (-1)) ∧ ¬ (-1 ≤ s.i ∧ s.i ≤ w ∧ -1 ≤ s.k)) := by
  unfold staticPressureSites
  rw [List.mem_append, List.mem_append, List.mem_append, List.mem_append, mem_water (f := fun i => i), mem_floorSites, mem_leftSites,
    mem_rightSites, mem_cornerSites]
  have e : (∃ i, 0 ≤ i ∧ i < w ∧ i = s.i) ↔ 0 ≤ s.i ∧ s.i < w := ⟨fun ⟨i, h1, h2, h3⟩ => by omega, fun h => ⟨s.i, h.1, h.2, rfl⟩⟩
  rw [e]
  omega

theorem nodup_staticPressure {w h : Int} (hw : 0 ≤ w) : (staticPressureSites w h).Nodup := by
  unfold staticPressureSites
  refine List.Nodup.append (List.Nodup.append (List.Nodup.append (List.Nodup.append
    (nodup_water (f := fun i => i) (g := fun i => i) (fun _ => rfl) _ _ _ _) (nodup_floorSites w) ?_) (nodup_leftSites _) ?_) (nodup_rightSites _ _) ?_)
    (nodup_cornerSites hw) ?_
  all_goals
    rw [List.disjoint_left]
    intro s h1 h2
    simp only [List.mem_append, mem_water (f := fun i => i), mem_floorSites, mem_leftSites, mem_rightSites, mem_cornerSites] at h1 h2
    omega

theorem mem_koshizuka {l h w : Int} (hw : 0 ≤ w) (hh : 1 ≤ h) {s : Site} : s ∈ koshizukaSites l h w ↔
    (s.number = 0 ∧ 0 ≤ s.i ∧ s.i < l ∧ 0 ≤ s.k ∧ s.k < h) ∨
    (s.number = 1 ∧ (s.k = -1 ∧ -1 ≤ s.i ∧ s.i ≤ w ∨ (s.i = -1 ∨ s.i = w) ∧ 0 ≤ s.k ∧ s.k ≤ h - 1 ∨
      s.k = h - 1 ∧ (-4 ≤ s.i ∧ s.i ≤ -1 ∨ w ≤ s.i ∧ s.i ≤ w + 3))) ∨
    (s.number = 2 ∧ (-4 ≤ s.i ∧ s.i ≤ w + 3 ∧ -4 ≤ s.k ∧ s.k ≤ max (h - 2) (-1)) ∧ ¬ (-1 ≤ s.i ∧ s.i ≤ w ∧ -1 ≤ s.k)) := by
  unfold koshizukaSites
  rw [List.mem_append, List.mem_append, List.mem_append, List.mem_append, List.mem_append, mem_water (f := fun i => i), mem_floorSites, mem_leftSites,
    mem_rightSites, mem_topSites, mem_cornerSites]
  have e : (∃ i, 0 ≤ i ∧ i < l ∧ i = s.i) ↔ 0 ≤ s.i ∧ s.i < l := ⟨fun ⟨i, h1, h2, h3⟩ => by omega, fun h => ⟨s.i, h.1, h.2, rfl⟩⟩
  rw [e]
  omega

theorem nodup_koshizuka {l h w : Int} (hw : 0 ≤ w) (hh : 1 ≤ h) : (koshizukaSites l h w).Nodup := by
  unfold koshizukaSites
  refine List.Nodup.append (List.Nodup.append (List.Nodup.append (List.Nodup.append (List.Nodup.append
    (nodup_water (f := fun i => i) (g := fun i => i) (fun _ => rfl) _ _ _ _) (nodup_floorSites w) ?_) (nodup_leftSites _) ?_) (nodup_rightSites _ _) ?_)
    (nodup_topSites hw h) ?_) (nodup_cornerSites hw) ?_
  all_goals
    rw [List.disjoint_left]
    intro s h1 h2
    simp only [List.mem_append, mem_water (f := fun i => i), mem_floorSites, mem_leftSites, mem_rightSites, mem_cornerSites, mem_topSites] at h1 h2
    omega

set_option maxHeartbeats 1000000 in
theorem mem_zhou {H W h w : Int} (hw : 0 ≤ W) (hh : 1 ≤ H) {s : Site} : s ∈ zhouSites H W h w ↔
    (s.number = 0 ∧ W - w ≤ s.i ∧ s.i < W ∧ 0 ≤ s.k ∧ s.k < h) ∨
    (s.number = 1 ∧ (s.k = -1 ∧ -1 ≤ s.i ∧ s.i ≤ W ∨ (s.i = -1 ∨ s.i = W) ∧ 0 ≤ s.k ∧ s.k ≤ H - 1 ∨
      s.k = H - 1 ∧ (-4 ≤ s.i ∧ s.i ≤ -1 ∨ W ≤ s.i ∧ s.i ≤ W + 3))) ∨
    (s.number = 2 ∧ (-4 ≤ s.i ∧ s.i ≤ W + 3 ∧ -4 ≤ s.k ∧ s.k ≤ max (H - 2) (-1)) ∧ ¬ (-1 ≤ s.i ∧ s.i ≤ W ∧ -1 ≤ s.k)) := by
  unfold zhouSites
  rw [List.mem_append, List.mem_append, List.mem_append, List.mem_append, List.mem_append, mem_water (f := fun i => W - i - 1), mem_floorSites,
    mem_leftSites, mem_rightSites, mem_topSites, mem_cornerSites]
  have e : (∃ i, 0 ≤ i ∧ i < w ∧ W - i - 1 = s.i) ↔ W - w ≤ s.i ∧ s.i < W :=
    ⟨fun ⟨i, h1, h2, h3⟩ => by omega, fun h => ⟨W - s.i - 1, by omega, by omega, by omega⟩⟩
  rw [e]
  omega

theorem nodup_zhou {H W h w : Int} (hw : 0 ≤ W) (hh : 1 ≤ H) : (zhouSites H W h w).Nodup := by
  unfold zhouSites
  refine List.Nodup.append (List.Nodup.append (List.Nodup.append (List.Nodup.append (List.Nodup.append
    (nodup_water (f := fun i => W - i - 1) (g := fun i => W - i - 1) (fun i => by omega) _ _ _ _) (nodup_floorSites W) ?_) (nodup_leftSites _) ?_)
    (nodup_rightSites _ _) ?_) (nodup_topSites hw H) ?_) (nodup_cornerSites hw) ?_
  all_goals
    rw [List.disjoint_left]
    intro s h1 h2
    simp only [List.mem_append, mem_water (f := fun i => W - i - 1), mem_floorSites, mem_leftSites, mem_rightSites, mem_cornerSites, mem_topSites] at h1 h2
    omega

theorem mem_centralGravity {w h : Int} {s : Site} : s ∈ centralGravitySites w h ↔ s.number = 0 ∧ -w ≤ s.i ∧ s.i ≤ w ∧ -h ≤ s.k ∧ s.k ≤ h := by
  unfold centralGravitySites
  rw [mem_water (f := fun i => i)]
  have e : (∃ i, -w ≤ i ∧ i < w + 1 ∧ i = s.i) ↔ -w ≤ s.i ∧ s.i ≤ w := ⟨fun ⟨i, h1, h2, h3⟩ => by omega, fun h => ⟨s.i, h.1, by omega, rfl⟩⟩
  rw [e]
  omega

theorem nodup_centralGravity (w h : Int) : (centralGravitySites w h).Nodup :=
  nodup_water (f := fun i => i) (g := fun i => i) (fun _ => rfl) _ _ _ _

end OpenMps
