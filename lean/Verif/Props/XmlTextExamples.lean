import Verif.Props.XmlText
import Verif.Props.BenchmarkExamples
import Verif.Props.TextExamples

/-! # Property C70, examples -/

set_option linter.unusedSectionVars false

namespace OpenMps

/-! ## A file with everything in it -/

/-- Declaration, document type, comments, both kinds of quotation marks, references, `CDATA`, a byte that is not ASCII, white space in tags. -/
def trickyText : List Char :=
  "<?xml version=\"1.0\"?>\n<!DOCTYPE openmps>\n<!-- a > b -->\n<openmps lang = 'ja'\t>\n <b value=\" 0.5\" c='&lt;&#65;&quot;'/> <!-- 開始 -->--> text<![CDATA[<x>]]></openmps \n>\n".toList

def trickyDoc : List XNode :=
  [.comment " a > b ".toList,
   .elem "openmps" [("lang", "ja".toList)]
    [.elem "b" [("value", " 0.5".toList), ("c", "<A\"".toList)] [], .comment " 開始 ".toList, .text "--> text".toList, .text "<x>".toList]]

theorem blank_check {w : List Char} (h : w.all (fun c => c == ' ' || c == '\n' || c == '\r' || c == '\t') = true) : Blank w := by
  intro c hc
  rw [List.all_eq_true] at h
  have := h c hc
  simpa only [Bool.or_eq_true, beq_iff_eq, or_assoc, List.mem_cons, List.not_mem_nil, or_false] using this

/-- Texts without `&` stand for themselves. -/
theorem enc_self {q : Char} : ∀ {s : List Char}, q ∉ s → '&' ∉ s → EncText q s s
  | [], _, _ => .nil
  | c :: s, h1, h2 => by
    simp only [List.mem_cons, not_or] at h1 h2
    exact .cons (t := [c]) (.self c (Ne.symm h2.1)) (by simpa using h1.1) (enc_self h1.2 h2.2)

theorem not_infix_check {p s : List Char} {n : Nat} (h : (List.range n).all (fun k => !p.isPrefixOf (s.drop k)) = true) (hn : s.length < n) : ¬ p <:+: s := by
  rintro ⟨a, b, rfl⟩
  rw [List.all_eq_true] at h
  have := h a.length (List.mem_range.2 (by simp only [List.length_append] at hn; omega))
  rw [List.append_assoc, List.drop_left'] at this
  · rw [List.isPrefixOf_iff_prefix.2 (List.prefix_append p b)] at this
    cases this
  · rfl

theorem Writes.cast {E : List Char → List Char → Prop} {b : Bool} {xs : List XNode} {t t' : List Char} (h : Writes E b xs t) (e : t = t') : Writes E b xs t' := e ▸ h

theorem tricky_file : XmlFile trickyDoc trickyText := by
  have a1 : AttrsText [("value", " 0.5".toList), ("c", "<A\"".toList)] " value=\" 0.5\" c='&lt;&#65;&quot;'".toList := by
    have e1 : EncText '\'' "<A\"".toList "&lt;&#65;&quot;".toList :=
      .cons .lt (by decide) (.cons (.decimal 'A' [6, 5] (by decide) (by decide) (by decide)) (by decide) (.cons .quot (by decide) .nil))
    have h1 := AttrsText.cons (w := [' ']) (n := ['c']) (w1 := []) (w2 := []) (by decide) (blank_check rfl) (nameText_check (by decide)) (blank_check rfl) (blank_check rfl)
      (.inr rfl) e1 .nil
    exact AttrsText.cons (w := [' ']) (n := "value".toList) (w1 := []) (w2 := []) (q := '"') (t := " 0.5".toList) (by decide) (blank_check rfl) (nameText_check (by decide)) (blank_check rfl) (blank_check rfl)
      (.inl rfl) (enc_self (by decide) (by decide)) h1
  have a2 : AttrsText [("lang", "ja".toList)] " lang = 'ja'".toList :=
    AttrsText.cons (w := [' ']) (n := "lang".toList) (w1 := [' ']) (w2 := [' ']) (q := '\'') (t := "ja".toList) (by decide) (blank_check rfl) (nameText_check (by decide)) (blank_check rfl) (blank_check rfl)
      (.inr rfl) (enc_self (by decide) (by decide)) .nil
  have b4 : Writes (fun n m => m = n) false [.text "<x>".toList] "<![CDATA[<x>]]>".toList :=
    .cdata (s := "<x>".toList) (not_infix_check (n := 4) (by decide) (by decide)) (.blank (w := []) (blank_check rfl) .nil)
  have b3 : Writes (fun n m => m = n) true [.text "--> text".toList, .text "<x>".toList] "--> text<![CDATA[<x>]]>".toList :=
    .text (t := "--> text".toList) (enc_self (by decide) (by decide)) (by intro h; exact absurd (h '-' (by decide)) (by decide)) b4
  have b2 : Writes (fun n m => m = n) true [.comment " 開始 ".toList, .text "--> text".toList, .text "<x>".toList] " <!-- 開始 -->--> text<![CDATA[<x>]]>".toList :=
    .blank (w := [' ']) (blank_check rfl) (.comment (s := " 開始 ".toList) (not_infix_check (n := 5) (by decide) (by decide)) b3)
  have b1 : Writes (fun n m => m = n) true [.elem "b" [("value", " 0.5".toList), ("c", "<A\"".toList)] [], .comment " 開始 ".toList, .text "--> text".toList, .text "<x>".toList]
      "\n <b value=\" 0.5\" c='&lt;&#65;&quot;'/> <!-- 開始 -->--> text<![CDATA[<x>]]>".toList :=
    (Writes.blank (w := ['\n', ' ']) (blank_check rfl) (Writes.empty (n := ['b']) (w := []) (nameText_check (by decide)) a1 (blank_check rfl) b2)).cast (by decide +kernel)
  have t1 : Writes (fun n m => m = n) true [.elem "openmps" [("lang", "ja".toList)] _]
      "\n<openmps lang = 'ja'\t>\n <b value=\" 0.5\" c='&lt;&#65;&quot;'/> <!-- 開始 -->--> text<![CDATA[<x>]]></openmps \n>\n".toList :=
    (Writes.blank (w := ['\n']) (blank_check rfl) (Writes.elem (n := "openmps".toList) (w := ['\t']) (w' := [' ', '\n']) (nameText_check (by decide)) a2 (blank_check rfl) b1 rfl (blank_check rfl)
      (Writes.blank (w := ['\n']) (blank_check rfl) .nil))).cast (by decide +kernel)
  refine ⟨?_, ?_, by decide +kernel⟩
  · have t2 := Writes.instruction (s := "xml version=\"1.0\"".toList) (not_infix_check (n := 20) (by decide) (by decide))
      (Writes.blank (w := ['\n']) (blank_check rfl) (Writes.doctype (s := "openmps".toList) (by decide)
        (Writes.blank (w := ['\n']) (blank_check rfl) (Writes.comment (s := " a > b ".toList) (not_infix_check (n := 8) (by decide) (by decide)) t1))))
    exact (Writes.blank (w := []) (blank_check rfl) t2).cast (by decide +kernel)
  · intro x hx
    simp only [trickyDoc, List.mem_cons, List.not_mem_nil, or_false] at hx
    rcases hx with rfl | rfl <;> simp [XNode.isText]

/-- It is read as that document. -/
example : parseXml trickyText = some trickyDoc ∧ elemNames trickyDoc = ["openmps"] ∧ StartedText 0 ["openmps", "in.xml"] (fun _ => some trickyText) trickyText ∧
    Started 0 ["openmps", "in.xml"] (fun _ => some trickyDoc) trickyDoc :=
  ⟨(parseXml_spec tricky_file.sloppy).1, rfl, ⟨by decide, "in.xml", by decide, rfl⟩, ⟨by decide, "in.xml", by decide, rfl⟩⟩

/-- A file with a wrong end tag that the program reads: not XML in the sense of `XmlFile`. -/
def wrongEnd : List Char := "<openmps><condition></environment></xyz>".toList

def wrongEndDoc : List XNode := [.elem "openmps" [] [.elem "condition" [] []]]

theorem wrongEnd_sloppy : SloppyXmlFile wrongEndDoc wrongEnd := by
  refine ⟨?_, ?_, by decide⟩
  · exact .blank (w := []) (blank_check rfl) (.elem (n := "openmps".toList) (m := "xyz".toList) (t := []) (w := []) (w' := []) (nameText_check (by decide)) .nil (blank_check rfl)
      (.blank (w := []) (blank_check rfl) (.elem (n := "condition".toList) (m := "environment".toList) (t := []) (w := []) (w' := []) (b := []) (nameText_check (by decide)) .nil (blank_check rfl)
        (.blank (w := []) (blank_check rfl) .nil) (by decide) (blank_check rfl) (.blank (w := []) (blank_check rfl) .nil)))
      (by decide) (blank_check rfl) (.blank (w := []) (blank_check rfl) .nil))
  · intro x hx
    simp only [wrongEndDoc, List.mem_cons, List.not_mem_nil, or_false] at hx
    subst hx
    simp [XNode.isText]

/-- The hypotheses of `C70_a_file_without_its_end_is_refused`: a declaration and a comment before the element. -/
example : ∃ misc pre b : List Char, ∃ mdoc body, XmlFile mdoc pre ∧ elemNames mdoc = [] ∧ Writes (fun n m => m = n) true body b ∧
    NameText "openmps".toList ∧ misc = pre ++ "<".toList ++ "openmps".toList ++ [] ++ [] ++ ">".toList ++ b ++ "</".toList ++ "openmps".toList ++ [] ++ ">".toList ∧
    misc = "<?xml version=\"1.0\"?><!-- c --><openmps>--> text<![CDATA[<x>]]></openmps>".toList := by
  refine ⟨_, "<?xml version=\"1.0\"?><!-- c -->".toList, "--> text<![CDATA[<x>]]>".toList, [.comment " c ".toList], [.text "--> text".toList, .text "<x>".toList], ⟨?_, ?_, by decide⟩, rfl,
    ?_, nameText_check (by decide), rfl, by decide⟩
  · exact .blank (w := []) (blank_check rfl) (.instruction (s := "xml version=\"1.0\"".toList) (not_infix_check (n := 20) (by decide) (by decide))
      (.blank (w := []) (blank_check rfl) (.comment (s := " c ".toList) (not_infix_check (n := 4) (by decide) (by decide)) (.blank (w := []) (blank_check rfl) .nil))))
  · intro x hx
    simp only [List.mem_cons, List.not_mem_nil, or_false] at hx
    subst hx
    simp [XNode.isText]
  · exact .text (t := "--> text".toList) (enc_self (by decide) (by decide)) (by intro h; exact absurd (h '-' (by decide)) (by decide))
      (.cdata (s := "<x>".toList) (not_infix_check (n := 4) (by decide) (by decide)) (.blank (w := []) (blank_check rfl) .nil))

/-! ## Numbers -/

example : ptreeDouble (exactStrtod ℚ) " 0.584".toList = some (584 / 1000) ∧ ptreeDouble (exactStrtod ℚ) "1.004e-6 \n".toList = some (1004 / 10 ^ 9) ∧
    ptreeDouble (exactStrtod ℚ) "0.5m".toList = none ∧ ptreeDouble (exactStrtod ℚ) "1 2".toList = none ∧ ptreeDouble (exactStrtod ℚ) "".toList = none ∧
    ptreeSize "100".toList = some 100 ∧ ptreeSize "-1".toList = some 18446744073709551615 ∧ ptreeSize "1e2".toList = none ∧ ptreeSize "18446744073709551616".toList = none := by
  decide +kernel

/-- In the table of particles `0.5m` is the number `0.5`. -/
example : (libConv (exactStrtod ℚ)).num "0.5m".toList = some (1 / 2) := by decide +kernel

/-- `0,5` and `0.5m` are no settings. -/
example {K : Type} [Field K] [LinearOrder K] [IsStrictOrderedRing K] [FloorRing K] (t : List Char) (ht : t = "0,5".toList ∨ t = "0.5m".toList) :
    ∀ w s w' x, t = w ++ s ++ w' → Spaces w → Spaces w' → NumberText s x → (exactStrtod K).inRange x = false := by
  intro w s w' x e hw hw' hx
  have h := (ptreeDouble_iff (exactStrtod K) t x).2 ⟨w, s, w', x, e, hw, hw', hx, rfl, rfl⟩
  have h2 : ∀ u, oneWord u = some u → wholeDecimal u = false → ptreeDouble (exactStrtod K) u = none := by
    intro u h1 h2
    unfold ptreeDouble
    rw [h1, Option.bind_some, if_neg (by rw [h2]; decide)]
  rcases ht with rfl | rfl <;> rw [h2 _ (by decide) (by decide)] at h <;> cases h

/-! ## The files of the generators with the conversions of the program -/

section
variable {K : Type} [Field K] [LinearOrder K] [IsStrictOrderedRing K] [FloorRing K]

theorem shows_number {t : List Char} {x : K} (h : Shows t x) : NumberText t x := by
  obtain ⟨neg, ip, fp, ex, rfl, h1, h2, h3, h4, rfl⟩ := h
  refine ⟨if neg then some true else none, ip, fp, !fp.isEmpty, ex.map (fun p => (false, some p.1, p.2)), ?_, h1, h3, ?_, ?_, ?_, ?_⟩
  · unfold decimalText
    have e1 : (if neg = true then ['-'] else []) = signText (if neg then some true else none) := by cases neg <;> rfl
    have e2 : (if fp = [] then [] else '.' :: fp.map Nat.digitChar) = (if (!fp.isEmpty) = true then '.' :: fp.map Nat.digitChar else []) := by cases fp <;> simp
    have e3 : exponentText ex = exponentPart (ex.map (fun p => (false, some p.1, p.2))) := by
      match ex with
      | none => rfl
      | some (b, l) => cases b <;> simp [exponentText, exponentPart, signText]
    rw [e1, e2, e3]
  · simp [h2]
  · cases fp <;> simp
  · intro c s l e
    match ex with
    | none => cases e
    | some (b, l') =>
      simp only [Option.map_some, Option.some.injEq, Prod.mk.injEq] at e
      rw [← e.2.2]
      exact h4 b l' rfl
  · have e1 : exponentOf ex = exponentValue (ex.map (fun p => (false, some p.1, p.2))) := by
      match ex with
      | none => rfl
      | some (b, l) => cases b <;> rfl
    rw [e1]
    have e2 : ((if neg = true then some true else none) = some true) ↔ neg = true := by cases neg <;> simp
    simp only [e2, Nat.coe_ofDigits, Nat.cast_ofNat]

theorem spaces_nil : Spaces [] := by intro c hc; cases hc

/-- Numbers with six digits go through a setting unchanged. -/
theorem setting_six_digits {v : K} (h : SixDigitDecimal v) : (libXConv (exactStrtod K)).num (numChars v) = some v :=
  (C70_numbers_in_settings _ _ _).2 ⟨[], numChars v, [], v, by simp, spaces_nil, spaces_nil, shows_number (C53_six_digit_numbers_are_shown_exactly h), rfl, rfl⟩

theorem table_six_digits {v : K} (h : SixDigitDecimal v) : (libConv (exactStrtod K)).num (numChars v) = some v := by
  show stod _ _ = _
  unfold stod
  rw [C53_decimal_texts_are_read (C53_six_digit_numbers_are_shown_exactly h)]
  rfl

theorem setting_steps {n : Nat} (h : n < 2 ^ 64) : ptreeSize (intChars n) = some n := by
  obtain ⟨l, h1, h2, h3, h4, -⟩ := natChars_spec n
  refine (ptreeSize_iff _ _).2 ⟨[], intChars n, [], false, n, by simp, spaces_nil, spaces_nil, ⟨none, l, ?_, h2, h4, ?_, by simp⟩, h, rfl⟩
  · unfold intChars
    rw [if_neg (by omega), Int.natAbs_natCast, h1, map_digitChar h2]
    rfl
  · rw [← natOf_digits, h3]

theorem digits_no_nul {l : List Nat} (h : ∀ d ∈ l, d < 10) : '\x00' ∉ l.map Nat.digitChar := by
  intro hm
  obtain ⟨d, hd, e⟩ := List.mem_map.1 hm
  have := h d hd
  interval_cases d <;> exact absurd e (by decide)

theorem numChars_no_nul (v : K) : '\x00' ∉ numChars v := by
  obtain ⟨neg, ip, fp, ex, e, h1, h2, h3, h4, -⟩ := numChars_shows v
  rw [e]
  unfold decimalText
  simp only [List.mem_append, not_or]
  refine ⟨⟨⟨?_, digits_no_nul h1⟩, ?_⟩, ?_⟩
  · cases neg <;> decide
  · split
    · simp
    · simp only [List.mem_cons, not_or]; exact ⟨by decide, digits_no_nul h3⟩
  · match ex with
    | none => simp [exponentText]
    | some (b, l) =>
      simp only [exponentText, List.mem_cons, not_or]
      refine ⟨by decide, ?_, digits_no_nul (h4 b l rfl).1⟩
      cases b <;> decide

theorem intChars_no_nul (k : Int) : '\x00' ∉ intChars k := by
  obtain ⟨l, h1, h2, -⟩ := natChars_spec k.natAbs
  unfold intChars
  rw [h1, ← map_digitChar h2]
  split
  · simp only [List.mem_cons, not_or]; exact ⟨by decide, digits_no_nul h2⟩
  · exact digits_no_nul h2

end

/-- With the library's conversions the program understands the shipped file of `StaticPressure` (exact arithmetic), for every list of particles near the origin, in every
range with six digits. -/
theorem shipped_readsBack {lo hi : Vec ℝ 2} (hlo : ∀ a, SixDigitDecimal (lo a)) (hhi : ∀ a, SixDigitDecimal (hi a)) {sites : List Site}
    (hs : ∀ s ∈ sites, |s.i| < 1000000 ∧ |s.k| < 1000000) :
    ReadsBack libPrinter (libXConv (exactStrtod ℝ)) (libConv (exactStrtod ℝ)) { shipped with lo := lo, hi := hi } sites where
  clean := libPrinter_clean
  num := by
    intro v hv
    refine setting_six_digits ?_
    have six : ∀ (d e : ℤ) (x : ℝ), |d| < 1000000 → x = (d : ℝ) * (10 : ℝ) ^ e → SixDigitDecimal x := fun d e x h1 h2 => ⟨d, e, h1, h2⟩
    simp only [BenchParams.numbers, shipped, List.mem_cons, List.not_mem_nil, or_false] at hv
    rcases hv with rfl | rfl | rfl | rfl | rfl | rfl | rfl | rfl | rfl | rfl | rfl | rfl | rfl | rfl | rfl
    · exact six 0 0 _ (by norm_num) (by norm_num)
    · exact six 5 (-1) _ (by norm_num) (by norm_num)
    · exact six 5 (-4) _ (by norm_num) (by norm_num)
    · exact six 1 (-10) _ (by norm_num) (by norm_num)
    · exact six 1 (-3) _ (by norm_num) (by norm_num)
    · exact six 1 (-1) _ (by norm_num) (by norm_num)
    · exact six 98 (-1) _ (by norm_num) (by norm_num)
    · exact six 9982 (-1) _ (by norm_num) (by norm_num)
    · exact six 1004 (-9) _ (by norm_num) (by norm_num)
    · exact six 24 (-1) _ (by norm_num) (by norm_num)
    · exact six 95 (-2) _ (by norm_num) (by norm_num)
    · exact hlo 0
    · exact hlo 1
    · exact hhi 0
    · exact hhi 1
  size := by
    have := setting_steps (n := shipped.steps) (by simp [shipped])
    simp only [libXConv, libPrinter]
    convert this
  int := fun k _ _ => stoi_intChars k
  pos := by
    intro s hm a
    refine table_six_digits ?_
    obtain ⟨h1, h2⟩ := hs s hm
    match a with
    | 0 => exact ⟨s.i, -3, h1, by show (s.i : ℝ) * (1 / 1000) = _; norm_num⟩
    | 1 => exact ⟨s.k, -3, h2, by show (s.k : ℝ) * (1 / 1000) = _; norm_num⟩
  zero := by
    have : numChars (0 : ℝ) = ['0'] := by simp [numChars]
    rw [← this]
    exact table_six_digits ⟨0, 0, by norm_num, by norm_num⟩

/-- The characters of the shipped file of `StaticPressure` are read (the sizes are variables so that the list of particles is not evaluated; range from -4 l_0 to 100 l_0). -/
example {w h : ℤ} (hw : w = 50) (hh : h = 100) (fuel : Nat) : ∃ (b : BenchParams ℝ) (env : Env ℝ 2) (s0 s : State ℝ 2 Unit),
    b = { shipped with lo := ![-4 / 1000, -4 / 1000], hi := ![53 / 1000, 100 / 1000] } ∧ BenchStart Config.default b (staticPressureSites w h) env s0 s ∧
    programFromFiles 2 Config.default (libXConv (exactStrtod ℝ)) (libConv (exactStrtod ℝ)) libPrinter (fun _ => Schedule.serial s.n) 0 ["openmps", "test.xml"]
      (fun _ => some (benchFile libPrinter b (staticPressureSites w h))) fuel =
      runLoop (benchParams Config.default b (staticPressureSites w h)) (fun _ => Schedule.serial s.n) libPrinter b.condition fuel s := by
  obtain ⟨env, s0, s, hst⟩ := benchStart_exists Config.default { shipped with lo := ![-4 / 1000, -4 / 1000], hi := ![53 / 1000, 100 / 1000] } (staticPressureSites w h)
  refine ⟨_, env, s0, s, rfl, hst, ?_⟩
  have hr := shipped_readsBack (lo := ![-4 / 1000, -4 / 1000]) (hi := ![53 / 1000, 100 / 1000]) (sites := staticPressureSites w h)
    (fun a => by match a with
      | 0 => exact ⟨-4, -3, by norm_num, by norm_num⟩
      | 1 => exact ⟨-4, -3, by norm_num, by norm_num⟩)
    (fun a => by match a with
      | 0 => exact ⟨53, -3, by norm_num, by norm_num⟩
      | 1 => exact ⟨100, -3, by norm_num, by norm_num⟩)
    (by
      intro t ht
      rw [mem_staticPressure (by omega)] at ht
      simp only [abs_lt]
      omega)
  rw [(C70_generated_files_are_read hr numChars_no_nul intChars_no_nul (by
    intro t ht
    rw [mem_staticPressure (by omega)] at ht
    omega) (cfg := Config.default) rfl ⟨le_refl _, "test.xml", by simp [inputFile], rfl⟩ fuel hst.1 hst.2.1).2, hst.2.2]
  rfl

end OpenMps
