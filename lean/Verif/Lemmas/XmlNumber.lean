import Verif.Lemmas.XmlRead

set_option linter.unusedSectionVars false

namespace OpenMps

/-! ## Numbers in attributes -/

theorem spaces_isSpace {w : List Char} (h : Spaces w) : ∀ c ∈ w, isSpace c = true := by
  intro c hc
  have := h c hc
  simp only [List.mem_cons, List.not_mem_nil, or_false] at this
  rcases this with rfl | rfl | rfl | rfl | rfl | rfl <;> decide

theorem isSpace_spaces {w : List Char} (h : ∀ c ∈ w, isSpace c = true) : Spaces w := by
  intro c hc
  have := h c hc
  simp only [isSpace, isBlank, Bool.or_eq_true, beq_iff_eq] at this
  simp only [List.mem_cons, List.not_mem_nil, or_false]
  tauto

/-- A word in white space. -/
theorem oneWord_iff {t s : List Char} : oneWord t = some s ↔ ∃ w w', t = w ++ s ++ w' ∧ Spaces w ∧ Spaces w' ∧ (∀ c ∈ s, isSpace c = false) ∧ (s = [] → w' = []) := by
  constructor
  · intro h
    unfold oneWord at h
    simp only at h
    split at h
    · rename_i h1
      simp only [Option.some.injEq] at h
      refine ⟨t.takeWhile isSpace, (t.dropWhile isSpace).dropWhile (fun c => !isSpace c), ?_, ?_, ?_, ?_, ?_⟩
      · rw [← h, List.append_assoc, List.takeWhile_append_dropWhile, List.takeWhile_append_dropWhile]
      · exact isSpace_spaces (fun c hc => takeWhile_mem hc)
      · refine isSpace_spaces (fun c hc => ?_)
        rw [List.all_eq_true] at h1
        exact h1 c hc
      · intro c hc
        rw [← h] at hc
        simpa using takeWhile_mem hc
      · intro e
        rw [e] at h
        cases hd : t.dropWhile isSpace with
        | nil => rfl
        | cons c r =>
          have hc : isSpace c = false := by
            have := List.head_dropWhile_not isSpace (l := t) (by rw [hd]; simp)
            simpa [hd] using this
          rw [hd, List.takeWhile_cons] at h
          simp [hc] at h
    · cases h
  · rintro ⟨w, w', rfl, h1, h2, h3, h4⟩
    have hs : Stops isSpace (s ++ w') := by
      intro c hc
      cases s with
      | nil => rw [h4 rfl] at hc; cases hc
      | cons a s => simp only [List.cons_append, List.head?_cons, Option.some.injEq] at hc; rw [← hc]; exact h3 a (by simp)
    have hw : Stops (fun c => !isSpace c) w' := by
      intro c hc
      have : c ∈ w' := List.mem_of_mem_head? hc
      simp [spaces_isSpace h2 c this]
    unfold oneWord
    simp only
    rw [List.append_assoc, (span_stop (spaces_isSpace h1) hs).2]
    obtain ⟨e1, e2⟩ := span_stop (p := fun c => !isSpace c) (a := s) (r := w') (fun c hc => by simp [h3 c hc]) hw
    rw [e1, e2, if_pos]
    rw [List.all_eq_true]
    exact spaces_isSpace h2

theorem digitChar_small {d : Nat} (h : d < 10) : Nat.digitChar d = digitChar d := by interval_cases d <;> rfl

theorem map_digitChar {l : List Nat} (h : IsDigits l) : l.map Nat.digitChar = l.map digitChar :=
  List.map_congr_left (fun d hd => digitChar_small (h d hd))

theorem spanDigits_inv (s : List Char) : s = (spanDigits s).1.map Nat.digitChar ++ (spanDigits s).2 ∧ IsDigits (spanDigits s).1 ∧ NoDigit (spanDigits s).2 := by
  induction s with
  | nil => exact ⟨rfl, (by intro d hd; cases hd), noDigit_nil⟩
  | cons c s ih =>
    obtain ⟨h1, h2, h3⟩ := ih
    unfold spanDigits
    split
    · rename_i hc
      have hd : c.toNat - 48 < 10 := by omega
      refine ⟨?_, ?_, h3⟩
      · have : Nat.digitChar (c.toNat - 48) = c := by
          rw [digitChar_small hd]
          unfold digitChar
          rw [show 48 + (c.toNat - 48) = c.toNat by omega, Char.ofNat_toNat]
        show c :: s = Nat.digitChar (c.toNat - 48) :: _
        rw [this]
        congr 1
      · intro d hm
        rcases List.mem_cons.1 hm with rfl | hm
        · exact hd
        · exact h2 d hm
    · rename_i hc
      refine ⟨rfl, (by intro d hd; cases hd), ?_⟩
      rintro c' r' e
      simp only [List.cons.injEq] at e
      rw [← e.1]; exact hc

theorem natOf_digits (l : List Nat) : natOf l = Nat.ofDigits 10 l.reverse := foldl_digits 10 l

theorem readSign_inv (t : List Char) : ∃ sg : Option Bool, t = signText sg ++ (readSign t).2 ∧ ((readSign t).1 = true ↔ sg = some true) := by
  unfold readSign
  split
  · exact ⟨some true, rfl, by simp⟩
  · exact ⟨some false, rfl, by simp⟩
  · exact ⟨none, rfl, by simp⟩

theorem readSign_sign (sg : Option Bool) {r : List Char} (hr : ∀ c ∈ r.head?, c ≠ '-' ∧ c ≠ '+') : readSign (signText sg ++ r) = (decide (sg = some true), r) := by
  match sg with
  | some true => rfl
  | some false => rfl
  | none =>
    rw [signText, List.nil_append]
    unfold readSign
    split
    · exact absurd rfl (hr '-' rfl).1
    · exact absurd rfl (hr '+' rfl).2
    · rfl

theorem digits_head {l : List Nat} (h : IsDigits l) {r : List Char} (hr : ∀ c ∈ r.head?, c ≠ '-' ∧ c ≠ '+') :
    ∀ c ∈ (l.map Nat.digitChar ++ r).head?, c ≠ '-' ∧ c ≠ '+' := by
  cases l with
  | nil => exact hr
  | cons d l =>
    intro c hc
    simp only [List.map_cons, List.cons_append, List.head?_cons, Option.mem_some_iff] at hc
    have := h d (by simp)
    rw [← hc]
    interval_cases d <;> decide

theorem spanDigits_digits {l : List Nat} (h : IsDigits l) {r : List Char} (hr : NoDigit r) : spanDigits (l.map Nat.digitChar ++ r) = (l, r) := by
  rw [map_digitChar h, spanDigits_map h hr]

section
variable {K : Type} [Field K] [LinearOrder K] [IsStrictOrderedRing K] [FloorRing K]

theorem readExp_part {ex : Option (Bool × Option Bool × List Nat)} (he : ∀ c s l, ex = some (c, s, l) → IsDigits l ∧ l ≠ []) :
    readExp (exponentPart ex) = exponentValue ex := by
  match ex with
  | none => rfl
  | some (cap, sg, l) =>
    obtain ⟨h1, h2⟩ := he cap sg l rfl
    have e1 : readSign (signText sg ++ l.map Nat.digitChar) = (decide (sg = some true), l.map Nat.digitChar) := by
      refine readSign_sign sg ?_
      have := digits_head h1 (r := []) (by intro c hc; cases hc)
      rwa [List.append_nil] at this
    have e2 : spanDigits (l.map Nat.digitChar) = (l, []) := by
      have := spanDigits_digits h1 (r := []) noDigit_nil
      rwa [List.append_nil] at this
    have hc : (if cap then 'E' else 'e') = 'e' ∨ (if cap then 'E' else 'e') = 'E' := by cases cap <;> simp
    simp only [exponentPart, readExp]
    rw [if_pos hc]
    simp only [e1, e2, h2, if_false]
    rw [natOf_digits]
    match sg with
    | some true => simp [exponentValue, Nat.coe_ofDigits]
    | some false => simp [exponentValue, Nat.coe_ofDigits]
    | none => simp [exponentValue, Nat.coe_ofDigits]

theorem part_head (ex : Option (Bool × Option Bool × List Nat)) : NoDigit (exponentPart ex) ∧ (exponentPart ex).head? ≠ some '.' ∧
    ∀ c ∈ (exponentPart ex).head?, c ≠ '-' ∧ c ≠ '+' := by
  match ex with
  | none => exact ⟨noDigit_nil, by simp [exponentPart], by intro c hc; cases hc⟩
  | some (cap, sg, l) =>
    refine ⟨?_, ?_, ?_⟩
    · rintro c r' e
      simp only [exponentPart, List.cons.injEq] at e
      rw [← e.1]
      cases cap <;> decide
    · cases cap <;> simp [exponentPart]
    · intro c hc
      simp only [exponentPart, List.head?_cons, Option.mem_some_iff] at hc
      rw [← hc]
      cases cap <;> decide

theorem noDigit_point {r : List Char} : NoDigit ('.' :: r) := by
  rintro c r' e
  simp only [List.cons.injEq] at e
  rw [← e.1]
  decide

/-- The parts of a number. -/
theorem number_parts {sg : Option Bool} {ip fp : List Nat} {pt : Bool} {ex : Option (Bool × Option Bool × List Nat)} {t : List Char}
    (ht : t = signText sg ++ ip.map Nat.digitChar ++ (if pt then '.' :: fp.map Nat.digitChar else []) ++ exponentPart ex)
    (h1 : IsDigits ip) (h2 : IsDigits fp) (h3 : pt = false → fp = []) :
    (readSign t).1 = decide (sg = some true) ∧ (spanDigits (readSign t).2).1 = ip ∧
    readFrac (spanDigits (readSign t).2).2 = (fp, exponentPart ex) := by
  obtain ⟨p1, p2, p3⟩ := part_head ex
  have e : t = signText sg ++ (ip.map Nat.digitChar ++ ((if pt then '.' :: fp.map Nat.digitChar else []) ++ exponentPart ex)) := by rw [ht]; simp
  have hh : ∀ c ∈ ((if pt then '.' :: fp.map Nat.digitChar else []) ++ exponentPart ex).head?, c ≠ '-' ∧ c ≠ '+' := by
    cases pt with
    | false => simpa using p3
    | true => intro c hc; simp only [if_true, List.cons_append, List.head?_cons, Option.mem_some_iff] at hc; rw [← hc]; decide
  have hn : NoDigit ((if pt then '.' :: fp.map Nat.digitChar else []) ++ exponentPart ex) := by
    cases pt with
    | false => simpa using p1
    | true => exact noDigit_point
  have e1 := readSign_sign sg (digits_head h1 hh)
  rw [← e] at e1
  rw [e1]
  simp only
  rw [spanDigits_digits h1 hn]
  refine ⟨trivial, rfl, ?_⟩
  cases pt with
  | true =>
    show spanDigits (fp.map Nat.digitChar ++ exponentPart ex) = _
    exact spanDigits_digits h2 p1
  | false =>
    rw [h3 rfl]
    simp only [Bool.false_eq_true, if_false, List.nil_append]
    unfold readFrac
    split
    · rename_i r hr
      rw [hr] at p2
      exact absurd rfl p2
    · rfl

theorem number_value {t : List Char} {x : K} (h : NumberText t x) : wholeDecimal t = true ∧ readDecimal t = some x := by
  obtain ⟨sg, ip, fp, pt, ex, ht, h1, h2, h3, h4, h5, hx⟩ := h
  obtain ⟨e1, e2, e3⟩ := number_parts ht h1 h2 h4
  have hne : (ip ++ fp).isEmpty = false := by simpa using h3
  constructor
  · unfold wholeDecimal
    simp only [e2, e3]
    rw [hne]
    simp only [Bool.not_false, Bool.true_and]
    match ex with
    | none => rfl
    | some (cap, s, l) =>
      obtain ⟨h6, h7⟩ := h5 cap s l rfl
      have hl : l.map Nat.digitChar = l.map Nat.digitChar ++ [] := by simp
      have e4 : readSign (signText s ++ l.map Nat.digitChar) = (decide (s = some true), l.map Nat.digitChar) := by
        refine readSign_sign s ?_
        rw [hl]
        exact digits_head h6 (by intro c hc; cases hc)
      have e5 : spanDigits (l.map Nat.digitChar) = (l, []) := by rw [hl]; exact spanDigits_digits h6 noDigit_nil
      have hl2 : l.isEmpty = false := by simpa using h7
      simp only [exponentPart, e4, e5, hl2]
      cases cap <;> decide
  · unfold readDecimal readUnsigned
    simp only [e1, e2, e3]
    rw [if_neg h3, readExp_part h5, natOf_digits]
    simp only [Option.map_some, Option.some.injEq]
    rw [hx]
    by_cases hs : sg = some true
    · simp [hs]
    · simp [hs]

theorem readFrac_inv (r : List Char) : ∃ pt : Bool, r = (if pt then '.' :: (readFrac r).1.map Nat.digitChar else []) ++ (readFrac r).2 ∧
    IsDigits (readFrac r).1 ∧ (pt = false → (readFrac r).1 = []) := by
  unfold readFrac
  split
  · rename_i r
    obtain ⟨a1, a2, -⟩ := spanDigits_inv r
    refine ⟨true, ?_, a2, by intro h; cases h⟩
    simp only [if_true, List.cons_append]
    rw [← a1]
  · exact ⟨false, rfl, (by intro d hd; cases hd), fun _ => rfl⟩

theorem whole_number {t : List Char} (h : wholeDecimal t = true) : ∃ x : K, NumberText t x := by
  unfold wholeDecimal at h
  simp only [Bool.and_eq_true, Bool.not_eq_true'] at h
  obtain ⟨h1, h2⟩ := h
  obtain ⟨sg, hs1, -⟩ := readSign_inv t
  obtain ⟨hd1, hd2, -⟩ := spanDigits_inv (readSign t).2
  obtain ⟨pt, hpt, hf, hfp⟩ := readFrac_inv (spanDigits (readSign t).2).2
  generalize hip : (spanDigits (readSign t).2).1 = ip at *
  generalize hr1 : (spanDigits (readSign t).2).2 = r1 at *
  generalize hfpd : (readFrac r1).1 = fp at *
  generalize hr2 : (readFrac r1).2 = r2 at *
  obtain ⟨ex, he, hex⟩ : ∃ ex : Option (Bool × Option Bool × List Nat), r2 = exponentPart ex ∧ ∀ c s l, ex = some (c, s, l) → IsDigits l ∧ l ≠ [] := by
    cases hr : r2 with
    | nil => exact ⟨none, rfl, by intro c s l h; cases h⟩
    | cons c r =>
      rw [hr] at h2
      simp only [Bool.and_eq_true, Bool.or_eq_true, beq_iff_eq, Bool.not_eq_true'] at h2
      obtain ⟨⟨hc, h3⟩, h4⟩ := h2
      obtain ⟨s, hs, -⟩ := readSign_inv r
      obtain ⟨a1, a2, -⟩ := spanDigits_inv (readSign r).2
      have h4' : (spanDigits (readSign r).2).2 = [] := by simpa using h4
      have h3' : (spanDigits (readSign r).2).1 ≠ [] := by simpa using h3
      rw [h4', List.append_nil] at a1
      refine ⟨some (decide (c = 'E'), s, (spanDigits (readSign r).2).1), ?_, ?_⟩
      · show c :: r = (if decide (c = 'E') then 'E' else 'e') :: (signText s ++ (spanDigits (readSign r).2).1.map Nat.digitChar)
        rw [← a1, ← hs]
        congr 1
        rcases hc with rfl | rfl <;> decide
      · intro c' s' l' e
        simp only [Option.some.injEq, Prod.mk.injEq] at e
        rw [← e.2.2]
        exact ⟨a2, h3'⟩
  refine ⟨_, sg, ip, fp, pt, ex, ?_, hd2, hf, by simpa using h1, hfp, hex, rfl⟩
  rw [← he, List.append_assoc, ← hpt, List.append_assoc, ← hd1]
  exact hs1

theorem number_word {t : List Char} {x : K} (h : NumberText t x) : (∀ c ∈ t, isSpace c = false) ∧ t ≠ [] := by
  obtain ⟨sg, ip, fp, pt, ex, ht, h1, h2, h3, h4, h5, -⟩ := h
  have hd : ∀ l : List Nat, IsDigits l → ∀ c ∈ l.map Nat.digitChar, isSpace c = false := by
    intro l hl c hc
    obtain ⟨d, hm, rfl⟩ := List.mem_map.1 hc
    have := hl d hm
    interval_cases d <;> decide
  have hsg : ∀ s : Option Bool, ∀ c ∈ signText s, isSpace c = false := by
    intro s c hc
    match s with
    | some true => simp only [signText, List.mem_singleton] at hc; subst hc; decide
    | some false => simp only [signText, List.mem_singleton] at hc; subst hc; decide
    | none => simp [signText] at hc
  constructor
  · intro c hc
    rw [ht] at hc
    simp only [List.mem_append] at hc
    rcases hc with ((hc | hc) | hc) | hc
    · exact hsg _ _ hc
    · exact hd _ h1 _ hc
    · cases pt with
      | false => simp at hc
      | true =>
        simp only [if_true, List.mem_cons] at hc
        rcases hc with rfl | hc
        · decide
        · exact hd _ h2 _ hc
    · match ex with
      | none => simp [exponentPart] at hc
      | some (cap, s, l) =>
        simp only [exponentPart, List.mem_cons, List.mem_append] at hc
        rcases hc with rfl | hc | hc
        · cases cap <;> decide
        · exact hsg _ _ hc
        · exact hd _ (h5 _ _ _ rfl).1 _ hc
  · intro e
    rw [e] at ht
    have ht' := ht.symm
    simp only [List.append_eq_nil_iff, List.map_eq_nil_iff] at ht'
    obtain ⟨⟨⟨-, a⟩, b⟩, -⟩ := ht'
    cases pt with
    | false => exact h3 (by rw [a, h4 rfl]; rfl)
    | true => simp at b

theorem ptreeDouble_iff (st : Strtod K) (t : List Char) (v : K) :
    ptreeDouble st t = some v ↔ ∃ w s w' x, t = w ++ s ++ w' ∧ Spaces w ∧ Spaces w' ∧ NumberText s x ∧ st.inRange x = true ∧ v = st.rd x := by
  unfold ptreeDouble
  rw [Option.bind_eq_some_iff]
  constructor
  · rintro ⟨s, h1, h2⟩
    obtain ⟨w, w', ht, hw, hw', -, -⟩ := oneWord_iff.1 h1
    split at h2
    · rename_i hwd
      obtain ⟨x, hx⟩ := whole_number (K := K) hwd
      unfold stod at h2
      rw [(number_value hx).2, Option.bind_some] at h2
      split at h2
      · rename_i hr
        simp only [Option.some.injEq] at h2
        exact ⟨w, s, w', x, ht, hw, hw', hx, hr, h2.symm⟩
      · cases h2
    · cases h2
  · rintro ⟨w, s, w', x, ht, hw, hw', hx, hr, hv⟩
    obtain ⟨h1, h2⟩ := number_word hx
    refine ⟨s, oneWord_iff.2 ⟨w, w', ht, hw, hw', h1, fun e => absurd e h2⟩, ?_⟩
    obtain ⟨h3, h4⟩ := number_value hx
    rw [if_pos h3]
    unfold stod
    rw [h4, Option.bind_some, if_pos hr, hv]

end

theorem ptreeSize_iff (t : List Char) (m : Nat) :
    ptreeSize t = some m ↔ ∃ w s w' neg n, t = w ++ s ++ w' ∧ Spaces w ∧ Spaces w' ∧ WholeText s neg n ∧ n < 2 ^ 64 ∧
      m = if neg then (2 ^ 64 - n) % 2 ^ 64 else n := by
  unfold ptreeSize
  rw [Option.bind_eq_some_iff]
  constructor
  · rintro ⟨s, h1, h2⟩
    obtain ⟨w, w', ht, hw, hw', -, -⟩ := oneWord_iff.1 h1
    simp only at h2
    split at h2
    · cases h2
    · rename_i hc
      simp only [Bool.or_eq_true, List.isEmpty_iff, Bool.not_eq_true', not_or, Bool.not_eq_false] at hc
      split at h2
      · cases h2
      · rename_i hlt
        simp only [Option.some.injEq] at h2
        obtain ⟨sg, hs1, hs2⟩ := readSign_inv s
        obtain ⟨a1, a2, -⟩ := spanDigits_inv (readSign s).2
        rw [hc.2, List.append_nil] at a1
        refine ⟨w, s, w', (readSign s).1, natOf (spanDigits (readSign s).2).1, ht, hw, hw',
          ⟨sg, (spanDigits (readSign s).2).1, ?_, a2, hc.1, natOf_digits _, hs2⟩, by omega, h2.symm⟩
        rw [← a1]; exact hs1
  · rintro ⟨w, s, w', neg, n, ht, hw, hw', ⟨sg, l, hs, hl, hne, hn, hneg⟩, hlt, hm⟩
    have hx : (∀ c ∈ s, isSpace c = false) ∧ s ≠ [] := by
      refine number_word (K := ℚ) (x := _) ⟨sg, l, [], false, none, ?_, hl, ?_, ?_, ?_, ?_, rfl⟩
      · simp [hs, exponentPart]
      · intro d hd; cases hd
      · simpa using hne
      · simp
      · intro c s l h; cases h
    refine ⟨s, oneWord_iff.2 ⟨w, w', ht, hw, hw', hx.1, fun e => absurd e hx.2⟩, ?_⟩
    have hl0 : l.map Nat.digitChar = l.map Nat.digitChar ++ [] := by simp
    have e4 : readSign s = (decide (sg = some true), l.map Nat.digitChar) := by
      rw [hs]
      refine readSign_sign sg ?_
      rw [hl0]
      exact digits_head hl (by intro c hc; cases hc)
    have e5 : spanDigits (l.map Nat.digitChar) = (l, []) := by rw [hl0]; exact spanDigits_digits hl noDigit_nil
    have hl2 : l.isEmpty = false := by simpa using hne
    simp only [e4, e5, hl2, natOf_digits, ← hn]
    rw [if_neg (by simp), if_neg (by omega), hm]
    by_cases hsg : sg = some true
    · simp [hsg, hneg.2 hsg]
    · have : neg = false := by
        cases neg with
        | false => rfl
        | true => exact absurd (hneg.1 rfl) hsg
      simp [hsg, this]

end OpenMps
