import Verif.Lemmas.DoubleText

/-! # C73: `double` in files -/

namespace OpenMps

set_option exponentiation.threshold 2000
set_option linter.unusedSectionVars false

namespace Double

/-! ## Texts -/

theorem readSign_digit {a : ℕ} (ha : a < 10) (l : List Char) : readSign (digitChar a :: l) = (false, digitChar a :: l) := by
  have hne : digitChar a ≠ '-' ∧ digitChar a ≠ '+' := by interval_cases a <;> decide
  unfold readSign
  split
  · rename_i h; injection h with h _; exact absurd h hne.1
  · rename_i h; injection h with h _; exact absurd h hne.2
  · rfl

theorem digit_not_word {a : ℕ} (ha : a < 10) (l : List Char) : beginsWith "inf" (digitChar a :: l) = false ∧ beginsWith "nan" (digitChar a :: l) = false := by
  have h1 : (digitChar a).toLower ≠ 'i' ∧ (digitChar a).toLower ≠ 'n' := by interval_cases a <;> decide
  unfold beginsWith
  constructor
  · rw [show "inf".toList = ['i', 'n', 'f'] from rfl, beq_eq_false_iff_ne]
    intro h
    simp only [List.length_cons, List.length_nil, List.take_succ_cons, List.map_cons] at h
    injection h with h _
    exact h1.1 h
  · rw [show "nan".toList = ['n', 'a', 'n'] from rfl, beq_eq_false_iff_ne]
    intro h
    simp only [List.length_cons, List.length_nil, List.take_succ_cons, List.map_cons] at h
    injection h with h _
    exact h1.2 h

/-- A decimal text begins with a minus sign or a digit. -/
theorem decimal_begin {neg : Bool} {ip fp : List ℕ} {ex : Option (Bool × List ℕ)} (h1 : ∀ d ∈ ip, d < 10) (h2 : ip ≠ []) :
    ∃ a l, a < 10 ∧ decimalText neg ip fp ex = (if neg then '-' :: digitChar a :: l else digitChar a :: l) ∧ readSign (decimalText neg ip fp ex) = (neg, digitChar a :: l) := by
  cases ip with
  | nil => exact absurd rfl h2
  | cons a r =>
    have ha := h1 a (by simp)
    refine ⟨a, r.map Nat.digitChar ++ (if fp = [] then [] else '.' :: fp.map Nat.digitChar) ++ exponentText ex, ha, ?_, ?_⟩
    · have : Nat.digitChar a = digitChar a := by
        have := digitChar_eq (l := [a]) (by simpa using ha)
        simpa using this
      unfold decimalText
      cases neg <;> simp [this]
    · have : Nat.digitChar a = digitChar a := by
        have := digitChar_eq (l := [a]) (by simpa using ha)
        simpa using this
      unfold decimalText
      cases neg
      · have h3 := readSign_digit ha (r.map Nat.digitChar ++ (if fp = [] then [] else '.' :: fp.map Nat.digitChar) ++ exponentText ex)
        simpa [this] using h3
      · simp [this, readSign]

/-- Reading a decimal text. -/
theorem read_shows {t : List Char} {v : ℚ} (h : Shows t v) : ∃ z : Bool, read t = fromDecimal v z ∧ (z = true ↔ t.head? = some '-') ∧ (v ≠ 0 → z = decide (v < 0)) := by
  have hd := C53_decimal_texts_are_read h
  obtain ⟨neg, ip, fp, ex, rfl, h1, h2, h3, h4, hv⟩ := h
  obtain ⟨a, l, ha, e1, e2⟩ := decimal_begin (neg := neg) (fp := fp) (ex := ex) h1 h2
  refine ⟨neg, ?_, ?_, ?_⟩
  · unfold read
    simp only
    rw [e2, hd]
    simp only
    rw [(digit_not_word ha l).1, (digit_not_word ha l).2]
    simp
  · rw [e1]
    cases neg
    · have hne : digitChar a ≠ '-' := by interval_cases a <;> decide
      simp [hne]
    · simp
  · intro h0
    have hx : (0 : ℚ) ≤ (Nat.ofDigits (10 : ℚ) (ip ++ fp).reverse) * (10 : ℚ) ^ (exponentOf ex - fp.length) := by
      rw [ofDigits_natOf]; positivity
    cases neg
    · rw [if_neg (by simp), one_mul] at hv
      rw [hv]
      exact (decide_eq_false_iff_not.2 (not_lt.2 hx)).symm
    · rw [if_pos rfl, neg_one_mul, neg_mul] at hv
      have : v < 0 := lt_of_le_of_ne (by rw [hv]; exact neg_nonpos.2 hx) h0
      exact (decide_eq_true this).symm

/-- **C73.**  `std::stod` reads a decimal text as the nearest `double` (ties to even) with the sign of the text.  It throws exactly for numbers that are too large, and for numbers below the normal range that are not exactly a `double`. -/
theorem _root_.OpenMps.C73_texts_are_read_correctly_rounded {t : List Char} {v : ℚ} (h : Shows t v) :
    (∀ y, read t = some y → y.isFinite = true ∧ RoundsTo v y ∧ (y.neg = true ↔ t.head? = some '-')) ∧
    (read t = none ↔ 2 ^ 1024 - 2 ^ 970 ≤ |(v : ℝ)| ∨ (|(v : ℝ)| < 1 / 2 ^ 1022 - 1 / 2 ^ 1076 ∧ ∀ y : Double, y.isFinite = true → y.val ≠ v)) := by
  obtain ⟨z, hz, hz1, hz2⟩ := read_shows h
  obtain ⟨e, m, hR⟩ := round_rnd v z
  have hT := hR.roundsTo
  have hneg : (round v z).neg = z := by
    by_cases h0 : v = 0
    · unfold round; rw [mk'_neg, if_pos h0]
    · rw [round_neg_eq z h0, hz2 h0]
  have hcast : |v| < 1 / 2 ^ 1022 - 1 / 2 ^ 1076 ↔ |(v : ℝ)| < 1 / 2 ^ 1022 - 1 / 2 ^ 1076 := by
    have : ((|v| : ℚ) : ℝ) < ((1 / 2 ^ 1022 - 1 / 2 ^ 1076 : ℚ) : ℝ) ↔ |v| < 1 / 2 ^ 1022 - 1 / 2 ^ 1076 := Rat.cast_lt
    rw [← this]
    push_cast
    exact Iff.rfl
  have hval : (round v z).value = v ↔ (round v z).val = (v : ℝ) := by
    change _ ↔ (((round v z).value : ℚ) : ℝ) = _
    exact Rat.cast_inj.symm
  rw [hz]
  unfold fromDecimal
  simp only
  by_cases hi : (round v z).isInf = true
  · rw [if_pos hi]
    exact ⟨fun y hy => (by cases hy), fun _ => Or.inl (hT.overflow.1 hi), fun _ => rfl⟩
  · rw [if_neg hi]
    have hlt : |(v : ℝ)| < 2 ^ 1024 - 2 ^ 970 := by
      by_contra hc
      exact hi (hT.overflow.2 (not_lt.1 hc))
    have hf := hT.finite hlt
    by_cases hc : |v| < 1 / 2 ^ 1022 - 1 / 2 ^ 1076 ∧ (round v z).value ≠ v
    · rw [if_pos hc]
      refine ⟨fun y hy => (by cases hy), fun _ => Or.inr ⟨hcast.1 hc.1, fun y hy he => ?_⟩, fun _ => rfl⟩
      have := hT.nearest hf y hy
      rw [he, sub_self, abs_zero, abs_nonpos_iff, sub_eq_zero] at this
      exact hc.2 (hval.2 this)
    · rw [if_neg hc]
      refine ⟨fun y hy => ?_, fun h => (by cases h), fun h => ?_⟩
      · cases hy
        exact ⟨hf, hT, by rw [hneg]; exact hz1⟩
      · exfalso
        rcases h with h | ⟨h3, h4⟩
        · exact absurd h (not_le.2 hlt)
        · exact hc ⟨hcast.2 h3, fun he => h4 _ hf (hval.1 he)⟩

/-- **C73.**  The other texts that stand for numbers: `inf` and `nan` in any case, with or without a sign, possibly with further letters (`infinity`). -/
theorem _root_.OpenMps.C73_infinite_and_nan_texts (t : List Char) :
    (beginsWith "inf" t = true → read t = some (inf false) ∧ read ('+' :: t) = some (inf false) ∧ read ('-' :: t) = some (inf true)) ∧
    (beginsWith "nan" t = true → ∀ s, s = t ∨ s = '+' :: t ∨ s = '-' :: t → ∃ y, read s = some y ∧ y.isNan = true ∧ (y.neg = true ↔ s = '-' :: t)) := by
  have key : ∀ w : String, w = "inf" ∨ w = "nan" → beginsWith w t = true → readSign t = (false, t) ∧ t.head? ≠ some '-' := by
    intro w hw h
    cases t with
    | nil => exact ⟨rfl, by simp⟩
    | cons c l =>
      have hne : c ≠ '-' ∧ c ≠ '+' := by
        rcases hw with rfl | rfl <;> constructor <;> rintro rfl <;> (unfold beginsWith at h; simp at h)
      constructor
      · unfold readSign
        split
        · rename_i h; injection h with h _; exact absurd h hne.1
        · rename_i h; injection h with h _; exact absurd h hne.2
        · rfl
      · simpa using hne.1
  constructor
  · intro h
    have h1 := (key "inf" (Or.inl rfl) h).1
    refine ⟨?_, ?_, ?_⟩
    · unfold read; simp only; rw [h1]; simp [h]
    · unfold read; simp only [readSign]; simp [h]
    · unfold read; simp only [readSign]; simp [h]
  · intro h
    obtain ⟨h1, h1'⟩ := key "nan" (Or.inr rfl) h
    have h2 : beginsWith "inf" t = false := by
      unfold beginsWith at h ⊢
      rw [beq_iff_eq] at h
      rw [show "inf".toList.length = "nan".toList.length from rfl, h]
      decide
    have hnan : ∀ b, (mk' b (infCode + 2 ^ 51)).isNan = true := by
      intro b; cases b <;> decide +kernel
    rintro s (rfl | rfl | rfl)
    · refine ⟨mk' false (infCode + 2 ^ 51), ?_, hnan _, ?_⟩
      · unfold read; simp only; rw [h1]; simp [h, h2]
      · rw [mk'_neg]
        refine ⟨fun h => (by cases h), fun h => absurd (congrArg List.length h) (by simp)⟩
    · refine ⟨mk' false (infCode + 2 ^ 51), ?_, hnan _, ?_⟩
      · unfold read; simp only [readSign]; simp [h, h2]
      · rw [mk'_neg]
        simp
    · refine ⟨mk' true (infCode + 2 ^ 51), ?_, hnan _, ?_⟩
      · unfold read; simp only [readSign]; simp [h, h2]
      · rw [mk'_neg]
        simp

/-! ## Numbers -/

theorem value_zero {x : Double} (h : x.code = 0) : x.value = 0 := by
  unfold value; rw [h, mag_zero]; simp

theorem value_ne_zero {x : Double} (h : x.code ≠ 0) : x.value ≠ 0 := by
  intro h0
  apply h
  rw [← val_eq_zero]
  unfold val
  rw [h0]
  simp

theorem value_neg {x : Double} (h : x.code ≠ 0) : decide (x.value < 0) = x.neg := by
  have h0 := value_ne_zero h
  have := mag_nonneg x.code
  unfold value at h0 ⊢
  cases hb : x.neg
  · simp only [hb, Bool.false_eq_true, if_false] at h0 ⊢
    exact decide_eq_false_iff_not.2 (not_lt.2 this)
  · simp only [hb, if_true] at h0 ⊢
    refine decide_eq_true (lt_of_le_of_ne (by linarith) h0)

/-- A finite number other than zero is shown like its value. -/
theorem print_finite {x : Double} (h : x.isFinite = true) (h0 : x.code ≠ 0) : print x = numChars x.value := by
  obtain ⟨h1, h2⟩ := not_nan_of_finite h
  unfold print
  rw [h1, h2, if_neg (by simp), if_neg (by simp), if_neg h0]

theorem print_zero {x : Double} (h0 : x.code = 0) : print x = (if x.neg then "-0" else "0").toList := by
  have h : x.isFinite = true := by rw [isFinite_iff, h0]; unfold infCode; norm_num
  obtain ⟨h1, h2⟩ := not_nan_of_finite h
  unfold print
  rw [h1, h2, if_neg (by simp), if_neg (by simp), if_pos h0]

/-- **C73.**  The text of a finite number is a decimal text with at most six significant digits, no such decimal is nearer to the number, and the text begins with a minus sign exactly if the sign bit is set (also for zero). -/
theorem _root_.OpenMps.C73_text_shows_a_nearest_six_digit_decimal {x : Double} (h : x.isFinite = true) :
    ∃ s : ℚ, Shows (print x) s ∧ SixDigitDecimal s ∧ (∀ y : ℚ, SixDigitDecimal y → |(s : ℝ) - x.val| ≤ |(y : ℝ) - x.val|) ∧
      ((print x).head? = some '-' ↔ x.neg = true) := by
  by_cases h0 : x.code = 0
  · refine ⟨0, ?_, ⟨0, 0, by norm_num, by simp⟩, ?_, ?_⟩
    · rw [print_zero h0]
      exact ⟨x.neg, [0], [], none, by cases x.neg <;> rfl, by simp, by simp, by simp, by simp, by simp [Nat.ofDigits]⟩
    · intro y _
      rw [val_eq_zero.2 h0]
      simp
    · rw [print_zero h0]
      cases x.neg <;> decide
  · obtain ⟨s, h1, h2, h3⟩ := C53_text_shows_a_nearest_six_digit_decimal x.value
    refine ⟨s, by rw [print_finite h h0]; exact h1, h2, fun y hy => ?_, ?_⟩
    · have := h3 y hy
      have : ((|s - x.value| : ℚ) : ℝ) ≤ ((|y - x.value| : ℚ) : ℝ) := by exact_mod_cast this
      push_cast at this
      exact this
    · obtain ⟨z, -, hz1, hz2⟩ := read_shows h1
      rw [print_finite h h0, ← hz1]
      have hv0 := value_ne_zero h0
      have hs0 : s ≠ 0 := by
        rintro rfl
        have e := C53_decimal_texts_are_read h1
        rw [readDecimal_numChars] at e
        have e' := Option.some.inj e
        have herr := shown_error x.value
        rw [e', zero_sub, abs_neg] at herr
        have := abs_pos.2 hv0
        linarith
      rw [hz2 hs0, ← value_neg h0]
      have e := C53_decimal_texts_are_read h1
      rw [readDecimal_numChars] at e
      have e' : shown x.value = s := Option.some.inj e
      have herr := shown_error x.value
      rw [e'] at herr
      rw [decide_eq_true_iff, decide_eq_true_iff]
      constructor
      · intro hs
        by_contra hc
        rw [abs_of_nonneg (not_lt.1 hc), abs_le] at herr
        have := lt_of_le_of_ne (not_lt.1 hc) (Ne.symm hv0)
        linarith [herr.1]
      · intro hv
        rw [abs_of_neg hv, abs_le] at herr
        linarith [herr.2]

theorem read_print_finite {x : Double} (h : x.isFinite = true) (h0 : x.code ≠ 0) : read (print x) = fromDecimal (shown x.value) x.neg := by
  have hS := numChars_shows x.value
  obtain ⟨z, hz, hz1, hz2⟩ := read_shows hS
  rw [print_finite h h0, hz]
  obtain ⟨s, h1, -, -, h4⟩ := C73_text_shows_a_nearest_six_digit_decimal h
  rw [print_finite h h0] at h4
  have : z = x.neg := by
    have := hz1.trans h4
    cases z <;> cases hb : x.neg <;> simp_all
  rw [this]

theorem shown_abs (v : ℚ) : |shown v| = shown |v| := by
  have hpos : ∀ w : ℚ, 0 < w → 0 ≤ shown w := by
    intro w hw
    rw [shown_pos hw]; positivity
  rcases lt_trichotomy v 0 with h | h | h
  · rw [abs_of_neg h, shown_neg, abs_of_nonpos]
    have := hpos _ (neg_pos.2 h)
    rw [shown_neg] at this
    linarith
  · subst h; simp [shown]
  · rw [abs_of_pos h, abs_of_nonneg (hpos v h)]

theorem abs_value_le {x : Double} (h : x.isFinite = true) : |x.value| ≤ 2 ^ 1024 - 2 ^ 971 := by
  have h1 : |x.val| ≤ 2 ^ 1024 - 2 ^ 971 := by
    rw [abs_val, ← Double.largest]
    refine mag_strictMono.monotone ?_
    have := isFinite_iff.1 h
    omega
  have : ((|x.value| : ℚ) : ℝ) ≤ ((2 ^ 1024 - 2 ^ 971 : ℚ) : ℝ) := by
    rw [cast_max]
    push_cast
    exact h1
  exact_mod_cast this

theorem lost_iff {x : Double} : Lost x ↔ x.isFinite = true ∧ x.code ≠ 0 ∧ |x.value| < 2225075 / 10 ^ 314 := by
  unfold Lost
  rw [Ne, val_eq_zero]
  have : |x.val| < 2225075 / 10 ^ 314 ↔ |x.value| < 2225075 / 10 ^ 314 := by
    rw [← Rat.cast_lt (K := ℝ)]
    push_cast
    exact Iff.rfl
  rw [this]

/-- **C73.**  Every number that is written can be read back — with the same sign, NaN and infinity as such, a finite number within `5 * 10^-6` — and would be written as the same text again; except numbers below
`2.225075 * 10^-308`: the program cannot read these (`std::stod` throws). -/
theorem _root_.OpenMps.C73_numbers_survive_files (x : Double) :
    (¬ x.Lost → ∃ y, read (print x) = some y ∧ Kept x y ∧ print y = print x) ∧ (x.Lost → read (print x) = none) := by
  constructor
  · intro hL
    rcases trichotomy' x with hf | hn | hi
    · by_cases h0 : x.code = 0
      · refine ⟨x, ?_, ⟨rfl, rfl, rfl, fun _ => by rw [sub_self, abs_zero]; positivity⟩, rfl⟩
        rw [print_zero h0]
        have hx : x = mk' x.neg 0 := ext' rfl (by rw [h0]; rfl)
        cases hb : x.neg
        · rw [hx, hb]; decide +kernel
        · rw [hx, hb]; decide +kernel
      · have hv0 := value_ne_zero h0
        have hbig : 2225075 / 10 ^ 314 < |x.value| := by
          rcases lt_trichotomy |x.value| (2225075 / 10 ^ 314) with h | h | h
          · exact absurd (lost_iff.2 ⟨hf, h0, h⟩) hL
          · exact absurd h (not_limit x)
          · exact h
        have h1 : 222508 / 10 ^ 313 ≤ |shown x.value| := by rw [shown_abs]; exact shown_not_tiny hbig
        have h2 : |shown x.value| ≤ 2 ^ 1024 - 2 ^ 971 := by rw [shown_abs]; exact shown_upper (abs_pos.2 hv0) (abs_value_le hf)
        obtain ⟨k1, k2, k3, k4⟩ := fromDecimal_normal x.neg h1 h2
        have herr := shown_error x.value
        have hsign : decide (shown x.value < 0) = x.neg := by
          rw [← value_neg h0]
          have hvp := abs_pos.2 hv0
          by_cases hv : x.value < 0
          · rw [abs_of_neg hv, abs_le] at herr
            rw [decide_eq_true hv, decide_eq_true_iff]
            linarith [herr.2]
          · rw [abs_of_nonneg (not_lt.1 hv)] at herr hvp
            rw [abs_le] at herr
            rw [decide_eq_false hv, decide_eq_false_iff_not]
            linarith [herr.1]
        rw [hsign] at k4
        have hy0 : (round (shown x.value) x.neg).code ≠ 0 := by
          intro hc
          have : (round (shown x.value) x.neg).value = 0 := value_zero hc
          rw [this, zero_sub, abs_neg] at k3
          have : 0 < |shown x.value| := lt_of_lt_of_le (by positivity) h1
          norm_num at k3
          linarith
        obtain ⟨n1, n2⟩ := not_nan_of_finite hf
        obtain ⟨m1, m2⟩ := not_nan_of_finite k2
        refine ⟨round (shown x.value) x.neg, by rw [read_print_finite hf h0, k1], ⟨k4, by rw [m1, n1], by rw [m2, n2], fun _ => ?_⟩, ?_⟩
        · have h3 : |shown x.value| ≤ |shown x.value - x.value| + |x.value| := by
            have := abs_add_le (shown x.value - x.value) x.value
            rwa [sub_add_cancel] at this
          have h4 : |(round (shown x.value) x.neg).value - x.value| ≤ |(round (shown x.value) x.neg).value - shown x.value| + |shown x.value - x.value| := abs_sub_le _ _ _
          have h5 : |(round (shown x.value) x.neg).value - x.value| ≤ (1 / 200000 + 1 / 2 ^ 51) * |x.value| := by
            norm_num at k3 ⊢
            linarith [abs_nonneg x.value]
          have h6 : ((|(round (shown x.value) x.neg).value - x.value| : ℚ) : ℝ) ≤ (((1 / 200000 + 1 / 2 ^ 51) * |x.value| : ℚ) : ℝ) := by exact_mod_cast h5
          push_cast at h6
          exact h6
        · rw [print_finite k2 hy0, print_finite hf h0]
          refine numChars_near (k3.trans (mul_le_mul_of_nonneg_right ?_ (abs_nonneg _)))
          norm_num
    · refine ⟨mk' x.neg (infCode + 2 ^ 51), ?_, ?_, ?_⟩
      · unfold print; rw [hn, if_pos rfl]
        cases x.neg <;> decide +kernel
      · have : x.isFinite = false := by
          by_contra hc
          rw [Bool.not_eq_false] at hc
          rw [(not_nan_of_finite hc).1] at hn
          cases hn
        have hni : x.isInf = false := by
          by_contra hc
          rw [Bool.not_eq_false] at hc
          rw [inf_not_nan hc] at hn
          cases hn
        refine ⟨rfl, ?_, ?_, fun h => by rw [this] at h; cases h⟩
        · rw [hn]; cases x.neg <;> decide +kernel
        · rw [hni]; cases x.neg <;> decide +kernel
      · unfold print; rw [hn, if_pos rfl]
        cases x.neg <;> decide +kernel
    · have hx : x = inf x.neg := ext' rfl (by rw [inf_code hi]; rfl)
      refine ⟨x, ?_, ⟨rfl, rfl, rfl, fun _ => by rw [sub_self, abs_zero]; positivity⟩, rfl⟩
      rw [hx]
      cases x.neg <;> decide +kernel
  · intro hL
    obtain ⟨hf, h0, hlt⟩ := lost_iff.1 hL
    rw [read_print_finite hf h0]
    have hv0 := value_ne_zero h0
    have h1 := shown_tiny (abs_pos.2 hv0) hlt
    have hT : shown |x.value| < 1 / 2 ^ 1022 - 1 / 2 ^ 1076 := by
      refine h1.trans_lt ?_
      norm_num
    have hT' : shown |x.value| < 1 / 2 ^ 1022 := by
      refine hT.trans ?_
      norm_num
    unfold fromDecimal
    simp only
    split
    · rfl
    · rw [if_pos]
      refine ⟨by rw [shown_abs]; exact hT, fun he => ?_⟩
      refine shown_inexact (abs_pos.2 hv0) hT' (round (shown x.value) x.neg) ?_
      rw [he, shown_abs]

/-! ## Files -/

theorem doublePrinter_clean : doublePrinter.Clean := by
  have h := libPrinter_clean (K := ℚ)
  refine ⟨h.int_ne, h.int, fun x => ?_⟩
  change CleanText (print x)
  unfold print
  split
  · cases x.neg <;> simp [CleanText]
  · split
    · cases x.neg <;> simp [CleanText]
    · split
      · cases x.neg <;> simp [CleanText]
      · exact h.num _

variable {D : ℕ}

theorem particle_survives {q : Particle Double D} (h : Keepable q) : ∃ q' : Particle Double D, ParticleKept q q' ∧
    (q'.ty = q.ty ∧ (∀ a, read (print (q.x a)) = some (q'.x a)) ∧ (∀ a, read (print (q.u a)) = some (q'.u a)) ∧ read (print q.p) = some q'.p ∧ read (print q.n) = some q'.n) ∧
    (q'.ty = q.ty ∧ (∀ a, print (q'.x a) = print (q.x a)) ∧ (∀ a, print (q'.u a) = print (q.u a)) ∧ print q'.p = print q.p ∧ print q'.n = print q.n) := by
  obtain ⟨hx, hu, hp, hn⟩ := h
  choose x x1 x2 x3 using fun a => (C73_numbers_survive_files (q.x a)).1 (hx a)
  choose u u1 u2 u3 using fun a => (C73_numbers_survive_files (q.u a)).1 (hu a)
  obtain ⟨p, p1, p2, p3⟩ := (C73_numbers_survive_files q.p).1 hp
  obtain ⟨n, n1, n2, n3⟩ := (C73_numbers_survive_files q.n).1 hn
  exact ⟨{ x := x, u := u, p := p, n := n, ty := q.ty }, ⟨rfl, x2, u2, p2, n2⟩, ⟨rfl, x1, u1, p1, n1⟩, rfl, x3, u3, p3, n3⟩

/-- The cells of a written row. -/
theorem fields_cells {F : Type} (hD : D = 2 ∨ D = 3) (pr : Printer F) (q : Particle F D) :
    (∀ a, CellIs (columns D) (particleFields pr q) (colX D a) (pr.num (q.x a))) ∧ (∀ a, CellIs (columns D) (particleFields pr q) (colU D a) (pr.num (q.u a))) ∧
    CellIs (columns D) (particleFields pr q) ['p'] (pr.num q.p) ∧ CellIs (columns D) (particleFields pr q) ['n'] (pr.num q.n) := by
  rcases hD with rfl | rfl
  · refine ⟨fun a => ?_, fun a => ?_, cellIs_columns (.inl rfl) 5 rfl rfl, cellIs_columns (.inl rfl) 6 rfl rfl⟩
    · match a with
      | 0 => exact cellIs_columns (.inl rfl) 1 rfl rfl
      | 1 => exact cellIs_columns (.inl rfl) 2 rfl rfl
    · match a with
      | 0 => exact cellIs_columns (.inl rfl) 3 rfl rfl
      | 1 => exact cellIs_columns (.inl rfl) 4 rfl rfl
  · refine ⟨fun a => ?_, fun a => ?_, cellIs_columns (.inr rfl) 7 rfl rfl, cellIs_columns (.inr rfl) 8 rfl rfl⟩
    · match a with
      | 0 => exact cellIs_columns (.inr rfl) 1 rfl rfl
      | 1 => exact cellIs_columns (.inr rfl) 2 rfl rfl
      | 2 => exact cellIs_columns (.inr rfl) 3 rfl rfl
    · match a with
      | 0 => exact cellIs_columns (.inr rfl) 4 rfl rfl
      | 1 => exact cellIs_columns (.inr rfl) 5 rfl rfl
      | 2 => exact cellIs_columns (.inr rfl) 6 rfl rfl

theorem cellIs_unique {header row : List (List Char)} {name t t' : List Char} (h : CellIs header row name t) (h' : CellIs header row name t') : t = t' := by
  obtain ⟨k, h1, h2, h3⟩ := h
  obtain ⟨k', h1', h2', h3'⟩ := h'
  rcases lt_trichotomy k k' with hk | hk | hk
  · exact absurd h1' (h2 k' hk)
  · subst hk
    rw [h3] at h3'
    exact Option.some.inj h3'
  · exact absurd h1 (h2' k hk)

/-- **C73.**  A file that the program wrote can be read exactly if no number in it is below `2.225075 * 10^-308` (other than zero).  Then the same particles come back in the same order with the same types, every number kept (up to six digits),
and writing them again gives the same text. -/
theorem _root_.OpenMps.C73_files_in_double (hD : D = 2 ∨ D = 3) (ps : List (Particle Double D)) (hty : ∀ q ∈ ps, ∃ k, q.ty = typeOfNumber k) :
    ((∀ q ∈ ps, Keepable q) → ∃ ps', inputFromCsv doubleConv (outputToCsv doublePrinter ps) = .ok ps' ∧ List.Forall₂ ParticleKept ps ps' ∧
      outputToCsv doublePrinter ps' = outputToCsv doublePrinter ps) ∧
    ((∃ q ∈ ps, ¬ Keepable q) → ∃ e, inputFromCsv (D := D) doubleConv (outputToCsv doublePrinter ps) = .error e) := by
  constructor
  · intro hr
    have key : ∀ ps : List (Particle Double D), (∀ q ∈ ps, Keepable q) → ∃ ps' : List (Particle Double D), List.Forall₂ ParticleKept ps ps' ∧
        List.Forall₂ (fun q q' => q'.ty = q.ty ∧ (∀ a, read (print (q.x a)) = some (q'.x a)) ∧ (∀ a, read (print (q.u a)) = some (q'.u a)) ∧
          read (print q.p) = some q'.p ∧ read (print q.n) = some q'.n) ps ps' ∧
        List.Forall₂ (fun q q' => q'.ty = q.ty ∧ (∀ a, print (q'.x a) = print (q.x a)) ∧ (∀ a, print (q'.u a) = print (q.u a)) ∧
          print q'.p = print q.p ∧ print q'.n = print q.n) ps ps' := by
      intro ps
      induction ps with
      | nil => exact fun _ => ⟨[], .nil, .nil, .nil⟩
      | cons q ps ih =>
        intro hr
        obtain ⟨ps', i1, i2, i3⟩ := ih (fun q' hq' => hr q' (by simp [hq']))
        obtain ⟨q', j1, j2, j3⟩ := particle_survives (hr q (by simp))
        exact ⟨q' :: ps', .cons j1 i1, .cons j2 i2, .cons j3 i3⟩
    obtain ⟨ps', k1, k2, k3⟩ := key ps hr
    refine ⟨ps', ?_, k1, output_congr (pr := doublePrinter) k3⟩
    refine file_read_back (pr := doublePrinter) (cv := doubleConv) hD doublePrinter_clean stoi_intChars (fun q hq => ?_) k2
    obtain ⟨k, hk⟩ := hty q hq
    exact ⟨k, by rw [hk, ofInt_eq]⟩
  · rintro ⟨q, hq, hk⟩
    cases hres : inputFromCsv (D := D) doubleConv (outputToCsv doublePrinter ps) with
    | error e => exact ⟨e, rfl⟩
    | ok ps' =>
      exfalso
      rw [reads_named_columns doubleConv (output_isText doublePrinter_clean ps) (fun c hc => hc) (fun c hc => hc)] at hres
      simp only at hres
      have : ∃ q' : Particle Double D, RowIsM doubleConv (columns D) (particleFields doublePrinter q) q' := by
        clear hty
        generalize hrows : ps.map (particleFields doublePrinter) = rows at hres
        have hmem : particleFields doublePrinter q ∈ rows := by rw [← hrows]; exact List.mem_map.2 ⟨q, hq, rfl⟩
        clear hrows
        induction hres with
        | nil => cases hmem
        | cons h _ ih =>
          rcases List.mem_cons.1 hmem with e | e
          · rw [e]; exact ⟨_, h⟩
          · exact ih e
      obtain ⟨q', hrow⟩ := this
      obtain ⟨c1, c2, c3, c4⟩ := fields_cells hD doublePrinter q
      have nope : ∀ {x y : Double} {t name : List Char}, CellIs (columns D) (particleFields doublePrinter q) name t → doubleConv.num t = some y →
          CellIs (columns D) (particleFields doublePrinter q) name (doublePrinter.num x) → ¬ Lost x := by
        intro x y t name h1 h2 h3 h4
        rw [cellIs_unique h1 h3] at h2
        change read (print x) = some y at h2
        rw [(C73_numbers_survive_files x).2 h4] at h2
        cases h2
      refine hk ⟨fun a => ?_, fun a => ?_, ?_, ?_⟩
      · obtain ⟨t, h1, h2⟩ := hrow.x a
        exact nope h1 h2 (c1 a)
      · obtain ⟨t, h1, h2⟩ := hrow.u a
        exact nope h1 h2 (c2 a)
      · obtain ⟨t, h1, h2⟩ := hrow.p
        exact nope h1 h2 c3
      · obtain ⟨t, h1, h2⟩ := hrow.n
        exact nope h1 h2 c4

/-! ## Restarts -/

/-- **C73.**  In `double`: the program started again with one of its files begins by writing the same file again, character for character — also if the run had produced infinities or NaN — provided no number was below `2.225075 * 10^-308`.  (If one was, the
program writes nothing.) -/
theorem _root_.OpenMps.C73_restart_begins_with_the_same_file (hD : D = 2 ∨ D = 3)
    {cfg : Config} {sch sch' : Nat → Schedule} {cond cond' : Condition Double} {a : EnvArgs Double D} {m : Nat} {csv : List Char} {P : Params Double D Unit}
    {s0 : State Double D Unit} (h : mainStart cfg doubleConv cond a m csv P s0) (hv : ∀ k, (sch k).Valid s0.n) (hI : cond'.outputInterval = cond.outputInterval)
    {offset N offset' : Nat} (h1 : toSize (cond.startTime / cond.outputInterval) = some offset) (h2 : toSize ((cond.endTime - cond.startTime) / cond.outputInterval) = some N)
    (h1' : toSize (cond'.startTime / cond'.outputInterval) = some offset') {fuel : Nat}
    {rec : OutRec Double} (hrec : rec ∈ (mainProgram cfg doubleConv doublePrinter sch cond a m csv fuel).outs) (fuel' : Nat) :
    ∃ s, s0.afterSteps P sch rec.iteration = .ok s ∧
      ((∀ q ∈ s.particles, Keepable q) →
        ∃ rec', (mainProgram cfg doubleConv doublePrinter sch' cond' a m rec.text fuel').outs[0]? = some rec' ∧ rec'.text = rec.text ∧ rec'.count = rec.count ∧
          rec'.time = cond'.startTime ∧ rec'.number = offset') ∧
      ((∃ q ∈ s.particles, ¬ Keepable q) → (mainProgram cfg doubleConv doublePrinter sch' cond' a m rec.text fuel').outs = []) := by
  obtain ⟨k, hk, rfl⟩ := List.getElem_of_mem hrec
  obtain ⟨-, -, s, hs, htext, hcnt⟩ := C33_written_files_are_in_place h h1 h2 fuel (List.getElem?_eq_getElem hk)
  generalize (mainProgram cfg doubleConv doublePrinter sch cond a m csv fuel).outs[k] = rec at *
  have hty := run_types h hv hs
  have hfile := C73_files_in_double hD s.particles (fun q hq => by
    obtain ⟨k, hk⟩ := hty q hq
    exact ⟨k, by rw [hk, ofInt_eq]⟩)
  obtain ⟨env, ps, n0, f1, f2, f3, rfl, rfl⟩ := h
  refine ⟨s, hs, fun hr => ?_, fun hr => ?_⟩
  · obtain ⟨ps', e1, e2, e3⟩ := hfile.1 hr
    have hps : (n0.addParticles ps').particles = ps' := by
      rw [C09_add_appends]; simp [State.particles, new_n f3]
    have hcount : enabledCount ps' = enabledCount s.particles := by
      clear e1 e3 hty htext hr hcnt hps hfile
      generalize s.particles = l at e2
      unfold enabledCount
      induction e2 with
      | nil => rfl
      | cons hq _ ih =>
        simp only [List.filter_cons, hq.ty]
        split
        · simp only [List.length_cons, ih]
        · exact ih
    unfold mainProgram
    rw [hI, f1, htext]
    simp only
    rw [e1]
    simp only
    rw [f3]
    simp only
    unfold runLoop
    rw [h1']
    simp only
    refine ⟨mkOut doublePrinter offset' cond'.startTime 0 (n0.addParticles ps'), ?_, ?_, ?_, rfl, rfl⟩
    · cases toSize ((cond'.endTime - cond'.startTime) / cond'.outputInterval) with
      | none => rfl
      | some e =>
        simp only
        obtain ⟨l, hl⟩ := outerLoop_prefix _ sch' doublePrinter cond' _ fuel' e 1 (0 : Double) (n0.addParticles ps') 0 _
        rw [hl]
        rfl
    · show outputToCsv doublePrinter (n0.addParticles ps').particles = _
      rw [hps, e3]
    · show enabledCount (n0.addParticles ps').particles = _
      rw [hps, hcount, hcnt, enabledCount_particles]
  · obtain ⟨e, he⟩ := hfile.2 hr
    unfold mainProgram
    rw [hI, f1, htext]
    simp only
    rw [he]
    cases e <;> rfl

end Double

end OpenMps
