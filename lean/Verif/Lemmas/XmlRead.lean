import Verif.Lemmas.XmlParse

namespace OpenMps

/-! ## Every way of writing a document is read as that document -/

theorem writes_head {E : List Char → List Char → Prop} {xs : List XNode} {t : List Char} (h : Writes E false xs t) : t = [] ∨ ∃ r, t = '<' :: r := by
  cases h with
  | nil => exact .inl rfl
  | comment _ _ => exact .inr ⟨_, rfl⟩
  | cdata _ _ => exact .inr ⟨_, rfl⟩
  | instruction _ _ => exact .inr ⟨_, rfl⟩
  | doctype _ _ => exact .inr ⟨_, rfl⟩
  | empty _ _ _ _ => exact .inr ⟨_, rfl⟩
  | elem _ _ _ _ _ _ _ => exact .inr ⟨_, rfl⟩

theorem parseClose_spec {m w r : List Char} (hm : ∀ c ∈ m, isNodeName c = true) (hw : Blank w) : parseClose (m ++ (w ++ '>' :: r)) = some r := by
  unfold parseClose
  rw [(span_stop hm (blank_stops (fun c hc => by simp [isNodeName, hc]) hw (stops_cons (by decide)))).2, skipBlank_stop hw (stops_cons (by decide))]
  rfl

theorem attrs_stop {as : List (String × List Char)} {t v : List Char} (h : AttrsText as t) (hv : Stops isNodeName v) : Stops isNodeName (t ++ v) := by
  cases h with
  | nil => exact hv
  | cons hne hw _ _ _ _ _ _ =>
    rename_i w _ _ _ _ _ _ _ _
    obtain ⟨c, w', rfl⟩ := List.exists_cons_of_ne_nil hne
    simp only [List.cons_append]
    have := blank_isBlank hw c (by simp)
    exact stops_cons (by simp [isNodeName, this])

theorem element_open {n t w : List Char} {as : List (String × List Char)} (hn : NameText n) (ht : AttrsText as t) (hw : Blank w)
    (rec : List Char → Option (List XNode × List Char)) (v : List Char) :
    parseElement rec (n ++ (t ++ (w ++ '>' :: v))) = (rec v).map (fun p => (some (.elem (String.ofList n) as p.1), p.2)) ∧
    parseElement rec (n ++ (t ++ (w ++ '/' :: '>' :: v))) = some (some (.elem (String.ofList n) as []), v) := by
  have key : ∀ c r, (c = '>' ∨ c = '/') →
      (n ++ (t ++ (w ++ c :: r))).takeWhile isNodeName = n ∧
      parseAttrs (n ++ (t ++ (w ++ c :: r))).length (skipBlank ((n ++ (t ++ (w ++ c :: r))).dropWhile isNodeName)) = some (as, c :: r) := by
    intro c r hc
    obtain ⟨h1, h2⟩ := span_stop (p := isNodeName) (a := n) (r := t ++ (w ++ c :: r)) (name_isNodeName hn)
      (attrs_stop ht (blank_stops (fun c hc => by simp [isNodeName, hc]) hw (stops_cons (by rcases hc with rfl | rfl <;> decide))))
    refine ⟨h1, ?_⟩
    rw [h2]
    exact parseAttrs_spec ht hw ⟨c, r, rfl, hc⟩ (by rw [List.length_append (as := n)]; omega)
  have hne : n.isEmpty = false := by simpa using hn.1
  constructor
  · obtain ⟨h1, h2⟩ := key '>' v (.inl rfl)
    unfold parseElement
    simp only [h1]
    rw [hne, if_neg (by simp), h2]
    rfl
  · obtain ⟨h1, h2⟩ := key '/' ('>' :: v) (.inr rfl)
    unfold parseElement
    simp only [h1]
    rw [hne, if_neg (by simp), h2]
    rfl

theorem name_head {n v : List Char} (hn : NameText n) : (n ++ v).head? ≠ some '/' ∧ (n ++ v).head? ≠ some '?' ∧ (n ++ v).head? ≠ some '!' := by
  obtain ⟨c, n', rfl⟩ := List.exists_cons_of_ne_nil hn.1
  have := hn.2 c (by simp)
  rw [nameText_chars] at this
  simp only [List.mem_cons, not_or] at this
  simp [this]

theorem skipBlank_text {t v : List Char} (h : ¬ Blank t) : ∃ c r, skipBlank (t ++ v) = c :: r ∧ c ∈ t := by
  obtain ⟨x, hx, hb⟩ := not_blank h
  clear h
  induction t with
  | nil => cases hx
  | cons a t ih =>
    by_cases ha : isBlank a
    · rcases List.mem_cons.1 hx with rfl | hx'
      · rw [hb] at ha; cases ha
      · obtain ⟨c, r, h1, h2⟩ := ih hx'
        refine ⟨c, r, ?_, by simp [h2]⟩
        rw [List.cons_append, skipBlank, List.dropWhile_cons, if_pos ha]
        exact h1
    · exact ⟨a, t ++ v, by rw [List.cons_append, skipBlank, List.dropWhile_cons, if_neg ha], by simp⟩

/-- The nodes which are not elements, after `<`. -/
theorem node_misc (rec : List Char → Option (List XNode × List Char)) {s : List Char} (v : List Char) :
    (¬ "-->".toList <:+: s → parseNode rec ("!--".toList ++ s ++ "-->".toList ++ v) = some (some (.comment s), v)) ∧
    (¬ "]]>".toList <:+: s → parseNode rec ("![CDATA[".toList ++ s ++ "]]>".toList ++ v) = some (some (.text s), v)) ∧
    (¬ "?>".toList <:+: s → parseNode rec ("?".toList ++ s ++ "?>".toList ++ v) = some (none, v)) ∧
    ((∀ c ∈ s, c ∉ ['[', ']', '>']) → parseNode rec ("!DOCTYPE ".toList ++ s ++ ">".toList ++ v) = some (none, v)) := by
  refine ⟨fun h => ?_, fun h => ?_, fun h => ?_, fun h => ?_⟩
  · show parseBang ('-' :: '-' :: (s ++ ("--".toList ++ ['>']) ++ v)) = _
    rw [parseBang, if_pos (by simp)]
    show (cutAt ("--".toList ++ ['>']) (s ++ ("--".toList ++ ['>']) ++ v)).map _ = _
    rw [cutAt_spec (by decide) h]
    rfl
  · show parseBang ('[' :: 'C' :: 'D' :: 'A' :: 'T' :: 'A' :: '[' :: (s ++ ("]]".toList ++ ['>']) ++ v)) = _
    rw [parseBang, if_neg (by simp), if_pos (by simp)]
    show (cutAt ("]]".toList ++ ['>']) (s ++ ("]]".toList ++ ['>']) ++ v)).map _ = _
    rw [cutAt_spec (by decide) h]
    rfl
  · show (cutAt ("?".toList ++ ['>']) (s ++ ("?".toList ++ ['>']) ++ v)).map _ = _
    rw [cutAt_spec (by decide) h]
    rfl
  · have e : "!DOCTYPE ".toList ++ s ++ ">".toList ++ v = '!' :: 'D' :: 'O' :: 'C' :: 'T' :: 'Y' :: 'P' :: 'E' :: ' ' :: (s ++ '>' :: v) := by simp
    rw [e, parseNode, parseBang, if_neg (by simp), if_neg (by simp), if_pos (by simp [isBlank])]
    show (skipDoctype 0 (s ++ '>' :: v)).map _ = _
    rw [skipDoctype_spec h]
    rfl

/-- Contents of an element, up to the end tag. -/
theorem writes_contents {E : List Char → List Char → Prop} (hE : ∀ n m, E n m → ∀ c ∈ m, isNodeName c = true) {b : Bool} {xs : List XNode} {t : List Char}
    (h : Writes E b xs t) : ∀ {m w : List Char} (rest : List Char), (∀ c ∈ m, isNodeName c = true) → Blank w → ∀ n,
      (t ++ '<' :: '/' :: (m ++ (w ++ '>' :: rest))).length ≤ n + 1 →
      (b = true → parseContents (n + 1) (t ++ '<' :: '/' :: (m ++ (w ++ '>' :: rest))) = some (xs, rest)) ∧
      (b = false → afterData (parseContents n) (t ++ '<' :: '/' :: (m ++ (w ++ '>' :: rest))) = some (xs, rest)) := by
  have misc : ∀ {r : List Char} {ys : List XNode} {pre : List Char} {x : Option XNode} {m w rest : List Char} {n : Nat},
      (∀ rec v, parseNode rec (pre ++ v) = some (x, v)) → pre.head? = some '!' ∨ pre.head? = some '?' →
      ('<' :: pre ++ (r ++ '<' :: '/' :: (m ++ (w ++ '>' :: rest)))).length ≤ n + 1 →
      (∀ k, (r ++ '<' :: '/' :: (m ++ (w ++ '>' :: rest))).length ≤ k + 1 →
        parseContents (k + 1) (r ++ '<' :: '/' :: (m ++ (w ++ '>' :: rest))) = some (ys, rest)) →
      afterData (parseContents n) ('<' :: pre ++ (r ++ '<' :: '/' :: (m ++ (w ++ '>' :: rest)))) = some (x.toList ++ ys, rest) := by
    intro r ys pre x m w rest n h1 h2 h3 h4
    have hpre : pre ≠ [] := by rintro rfl; simp at h2
    rw [List.cons_append, afterData_open]
    · rw [h1]
      simp only
      have hl := List.length_pos_iff.2 hpre
      have hl2 : 0 < (r ++ '<' :: '/' :: (m ++ (w ++ '>' :: rest))).length := by simp
      rw [List.length_append, List.length_cons] at h3
      obtain ⟨k, rfl⟩ : ∃ k, n = k + 1 := ⟨n - 1, by omega⟩
      rw [h4 k (by omega)]
      rfl
    · rw [List.head?_append_of_ne_nil _ hpre]
      rcases h2 with h2 | h2 <;> rw [h2] <;> decide
  induction h with
  | nil =>
    intro m w rest hm hw n _
    refine ⟨fun h => absurd h (by decide), fun _ => ?_⟩
    rw [List.nil_append, afterData, parseClose_spec hm hw]
    rfl
  | blank hb hr ih =>
    rename_i w0 r xs
    intro m w rest hm hw n hn
    refine ⟨fun _ => ?_, fun h => absurd h (by decide)⟩
    have e : w0 ++ r ++ '<' :: '/' :: (m ++ (w ++ '>' :: rest)) = w0 ++ (r ++ '<' :: '/' :: (m ++ (w ++ '>' :: rest))) := by simp
    have hh : (r ++ '<' :: '/' :: (m ++ (w ++ '>' :: rest))).head? = some '<' := by
      rcases writes_head hr with rfl | ⟨r', rfl⟩ <;> simp
    rw [e] at hn ⊢
    rw [parseContents, skipBlank_stop hb (by intro c hc; rw [hh] at hc; cases hc; decide), hh, if_pos (by simp)]
    exact (ih rest hm hw n (by rw [List.length_append (as := w0)] at hn; omega)).2 rfl
  | text henc hnb hr ih =>
    rename_i s t r xs
    intro m w rest hm hw n hn
    refine ⟨fun _ => ?_, fun h => absurd h (by decide)⟩
    have e : t ++ r ++ '<' :: '/' :: (m ++ (w ++ '>' :: rest)) = t ++ (r ++ '<' :: '/' :: (m ++ (w ++ '>' :: rest))) := by simp
    obtain ⟨v, hv⟩ : ∃ v, r ++ '<' :: '/' :: (m ++ (w ++ '>' :: rest)) = '<' :: v := by
      rcases writes_head hr with rfl | ⟨r', rfl⟩
      · exact ⟨_, rfl⟩
      · exact ⟨_, rfl⟩
    have hi := (ih rest hm hw n (by rw [e, List.length_append (as := t)] at hn; omega)).2 rfl
    rw [e, hv] at hn ⊢
    rw [hv] at hi
    obtain ⟨c, u, h1, h2⟩ := skipBlank_text (v := '<' :: v) hnb
    have hc : c ≠ '<' := by rintro rfl; exact enc_avoids henc h2
    obtain ⟨h3, h4⟩ := takeWhile_ne (r := v) (enc_avoids henc)
    rw [parseContents, h1, if_neg (by simp [hc]), h3, h4, hi, decode_spec henc (by simp)]
  | comment hs _ ih =>
    rename_i s r xs _
    intro m w rest hm hw n hn
    refine ⟨fun h => absurd h (by decide), fun _ => ?_⟩
    have e : "<!--".toList ++ s ++ "-->".toList ++ r ++ '<' :: '/' :: (m ++ (w ++ '>' :: rest)) =
        '<' :: ("!--".toList ++ s ++ "-->".toList) ++ (r ++ '<' :: '/' :: (m ++ (w ++ '>' :: rest))) := by simp
    rw [e] at hn ⊢
    exact misc (x := some (.comment s)) (fun rec v => (node_misc rec v).1 hs) (.inl rfl) hn (fun k hk => (ih rest hm hw k hk).1 rfl)
  | cdata hs _ ih =>
    rename_i s r xs _
    intro m w rest hm hw n hn
    refine ⟨fun h => absurd h (by decide), fun _ => ?_⟩
    have e : "<![CDATA[".toList ++ s ++ "]]>".toList ++ r ++ '<' :: '/' :: (m ++ (w ++ '>' :: rest)) =
        '<' :: ("![CDATA[".toList ++ s ++ "]]>".toList) ++ (r ++ '<' :: '/' :: (m ++ (w ++ '>' :: rest))) := by simp
    rw [e] at hn ⊢
    exact misc (x := some (.text s)) (fun rec v => (node_misc rec v).2.1 hs) (.inl rfl) hn (fun k hk => (ih rest hm hw k hk).1 rfl)
  | instruction hs _ ih =>
    rename_i s r xs _
    intro m w rest hm hw n hn
    refine ⟨fun h => absurd h (by decide), fun _ => ?_⟩
    have e : "<?".toList ++ s ++ "?>".toList ++ r ++ '<' :: '/' :: (m ++ (w ++ '>' :: rest)) =
        '<' :: ("?".toList ++ s ++ "?>".toList) ++ (r ++ '<' :: '/' :: (m ++ (w ++ '>' :: rest))) := by simp
    rw [e] at hn ⊢
    exact misc (x := none) (fun rec v => (node_misc rec v).2.2.1 hs) (.inr rfl) hn (fun k hk => (ih rest hm hw k hk).1 rfl)
  | doctype hs _ ih =>
    rename_i s r xs _
    intro m w rest hm hw n hn
    refine ⟨fun h => absurd h (by decide), fun _ => ?_⟩
    have e : "<!DOCTYPE ".toList ++ s ++ ">".toList ++ r ++ '<' :: '/' :: (m ++ (w ++ '>' :: rest)) =
        '<' :: ("!DOCTYPE ".toList ++ s ++ ">".toList) ++ (r ++ '<' :: '/' :: (m ++ (w ++ '>' :: rest))) := by simp
    rw [e] at hn ⊢
    exact misc (x := none) (fun rec v => (node_misc rec v).2.2.2 hs) (.inl rfl) hn (fun k hk => (ih rest hm hw k hk).1 rfl)
  | empty hnm hat hb _ ih =>
    rename_i n0 t w0 r as xs _
    intro m w rest hm hw n hn
    refine ⟨fun h => absurd h (by decide), fun _ => ?_⟩
    have e : "<".toList ++ n0 ++ t ++ w0 ++ "/>".toList ++ r ++ '<' :: '/' :: (m ++ (w ++ '>' :: rest)) =
        '<' :: (n0 ++ (t ++ (w0 ++ '/' :: '>' :: (r ++ '<' :: '/' :: (m ++ (w ++ '>' :: rest)))))) := by simp
    rw [e] at hn ⊢
    obtain ⟨a1, a2, a3⟩ := name_head (v := t ++ (w0 ++ '/' :: '>' :: (r ++ '<' :: '/' :: (m ++ (w ++ '>' :: rest))))) hnm
    rw [afterData_open _ a1, parseNode_elem _ a2 a3, (element_open hnm hat hb _ _).2]
    simp only [List.length_cons, List.length_append] at hn
    obtain ⟨k, rfl⟩ : ∃ k, n = k + 1 := ⟨n - 1, by omega⟩
    simp only
    rw [(ih rest hm hw k (by simp only [List.length_cons, List.length_append]; omega)).1 rfl]
    rfl
  | elem hnm hat hb _ hE' hb' _ ih1 ih2 =>
    rename_i n0 m0 t w0 w1 b0 r as body xs _ _
    intro m w rest hm hw n hn
    refine ⟨fun h => absurd h (by decide), fun _ => ?_⟩
    have e : "<".toList ++ n0 ++ t ++ w0 ++ ">".toList ++ b0 ++ "</".toList ++ m0 ++ w1 ++ ">".toList ++ r ++ '<' :: '/' :: (m ++ (w ++ '>' :: rest)) =
        '<' :: (n0 ++ (t ++ (w0 ++ '>' :: (b0 ++ '<' :: '/' :: (m0 ++ (w1 ++ '>' :: (r ++ '<' :: '/' :: (m ++ (w ++ '>' :: rest))))))))) := by simp
    rw [e] at hn ⊢
    obtain ⟨a1, a2, a3⟩ := name_head (v := t ++ (w0 ++ '>' :: (b0 ++ '<' :: '/' :: (m0 ++ (w1 ++ '>' :: (r ++ '<' :: '/' :: (m ++ (w ++ '>' :: rest)))))))) hnm
    rw [afterData_open _ a1, parseNode_elem _ a2 a3, (element_open hnm hat hb _ _).1]
    simp only [List.length_cons, List.length_append] at hn
    obtain ⟨k, rfl⟩ : ∃ k, n = k + 1 := ⟨n - 1, by omega⟩
    rw [(ih1 (r ++ '<' :: '/' :: (m ++ (w ++ '>' :: rest))) (hE _ _ hE') hb' k (by simp only [List.length_cons, List.length_append]; omega)).1 rfl]
    simp only [Option.map_some]
    rw [(ih2 rest hm hw k (by simp only [List.length_cons, List.length_append]; omega)).1 rfl]
    rfl

/-- Nodes outside of elements, followed by something else. -/
theorem writes_top {E : List Char → List Char → Prop} (hE : ∀ n m, E n m → ∀ c ∈ m, isNodeName c = true) {b : Bool} {xs : List XNode} {t : List Char}
    (h : Writes E b xs t) : (∀ x ∈ xs, ¬ x.isText) → ∀ rest, Stops isBlank rest → ∀ n, (t ++ rest).length ≤ n →
      parseTop n (t ++ rest) = (parseTop rest.length rest).map (fun ys => xs ++ ys) := by
  have misc : ∀ {r rest : List Char} {ys : List XNode} {pre : List Char} {x : Option XNode} {n : Nat},
      (∀ rec, parseNode rec (pre ++ (r ++ rest)) = some (x, r ++ rest)) → ('<' :: (pre ++ (r ++ rest))).length ≤ n →
      (∀ k, (r ++ rest).length ≤ k → parseTop k (r ++ rest) = (parseTop rest.length rest).map (fun zs => ys ++ zs)) →
      parseTop n ('<' :: (pre ++ (r ++ rest))) = (parseTop rest.length rest).map (fun zs => x.toList ++ ys ++ zs) := by
    intro r rest ys pre x n h1 h3 h4
    simp only [List.length_cons, List.length_append (as := pre)] at h3
    obtain ⟨k, rfl⟩ : ∃ k, n = k + 1 := ⟨n - 1, by omega⟩
    rw [parseTop, skipBlank_id (stops_cons (by decide))]
    simp only
    rw [h1]
    simp only
    rw [h4 k (by omega)]
    cases parseTop rest.length rest <;> simp
  induction h with
  | nil =>
    intro _ rest _ n hn
    rw [List.nil_append] at hn ⊢
    rw [parseTop_fuel hn (le_refl _)]
    cases parseTop rest.length rest <;> simp
  | blank hb hr ih =>
    rename_i w0 r xs
    intro hx rest hrest n hn
    have e : w0 ++ r ++ rest = w0 ++ (r ++ rest) := by simp
    rw [e] at hn ⊢
    have hi := ih hx rest hrest n (by rw [List.length_append (as := w0)] at hn; omega)
    have hs : Stops isBlank (r ++ rest) := by
      rcases writes_head hr with rfl | ⟨r', rfl⟩
      · exact hrest
      · exact stops_cons (by decide)
    cases n with
    | zero =>
      rw [parseTop] at hi ⊢
      rw [skipBlank_id hs] at hi
      rw [skipBlank_stop hb hs]
      exact hi
    | succ n =>
      rw [parseTop] at hi ⊢
      rw [skipBlank_id hs] at hi
      rw [skipBlank_stop hb hs]
      exact hi
  | text _ _ _ _ => intro hx; exact (hx _ List.mem_cons_self trivial).elim
  | cdata _ _ _ => intro hx; exact (hx _ List.mem_cons_self trivial).elim
  | comment hs _ ih =>
    rename_i s r xs _
    intro hx rest hrest n hn
    have e : "<!--".toList ++ s ++ "-->".toList ++ r ++ rest = '<' :: (("!--".toList ++ s ++ "-->".toList) ++ (r ++ rest)) := by simp
    rw [e] at hn ⊢
    exact misc (x := some (.comment s)) (fun rec => (node_misc rec _).1 hs) hn (fun k hk => ih (fun x hm => hx x (by simp [hm])) rest hrest k hk)
  | instruction hs _ ih =>
    rename_i s r xs _
    intro hx rest hrest n hn
    have e : "<?".toList ++ s ++ "?>".toList ++ r ++ rest = '<' :: (("?".toList ++ s ++ "?>".toList) ++ (r ++ rest)) := by simp
    rw [e] at hn ⊢
    exact misc (x := none) (fun rec => (node_misc rec _).2.2.1 hs) hn (fun k hk => ih hx rest hrest k hk)
  | doctype hs _ ih =>
    rename_i s r xs _
    intro hx rest hrest n hn
    have e : "<!DOCTYPE ".toList ++ s ++ ">".toList ++ r ++ rest = '<' :: (("!DOCTYPE ".toList ++ s ++ ">".toList) ++ (r ++ rest)) := by simp
    rw [e] at hn ⊢
    exact misc (x := none) (fun rec => (node_misc rec _).2.2.2 hs) hn (fun k hk => ih hx rest hrest k hk)
  | empty hnm hat hb _ ih =>
    rename_i n0 t w0 r as xs _
    intro hx rest hrest n hn
    have e : "<".toList ++ n0 ++ t ++ w0 ++ "/>".toList ++ r ++ rest = '<' :: ((n0 ++ (t ++ (w0 ++ ['/', '>']))) ++ (r ++ rest)) := by simp
    rw [e] at hn ⊢
    refine misc (x := some (.elem (String.ofList n0) as [])) (fun rec => ?_) hn (fun k hk => ih (fun x hm => hx x (by simp [hm])) rest hrest k hk)
    obtain ⟨a1, a2, a3⟩ := name_head (v := t ++ (w0 ++ '/' :: '>' :: (r ++ rest))) hnm
    have e2 : n0 ++ (t ++ (w0 ++ ['/', '>'])) ++ (r ++ rest) = n0 ++ (t ++ (w0 ++ '/' :: '>' :: (r ++ rest))) := by simp
    rw [e2, parseNode_elem _ a2 a3, (element_open hnm hat hb _ _).2]
  | elem hnm hat hb hbody hE' hb' _ _ ih2 =>
    rename_i n0 m0 t w0 w1 b0 r as body xs _ _
    intro hx rest hrest n hn
    have e : "<".toList ++ n0 ++ t ++ w0 ++ ">".toList ++ b0 ++ "</".toList ++ m0 ++ w1 ++ ">".toList ++ r ++ rest =
        '<' :: (n0 ++ (t ++ (w0 ++ '>' :: (b0 ++ '<' :: '/' :: (m0 ++ (w1 ++ '>' :: (r ++ rest))))))) := by simp
    rw [e] at hn ⊢
    simp only [List.length_cons, List.length_append] at hn
    obtain ⟨k, rfl⟩ : ∃ k, n = k + 1 := ⟨n - 1, by omega⟩
    obtain ⟨j, rfl⟩ : ∃ j, k = j + 1 := ⟨k - 1, by omega⟩
    obtain ⟨a1, a2, a3⟩ := name_head (v := t ++ (w0 ++ '>' :: (b0 ++ '<' :: '/' :: (m0 ++ (w1 ++ '>' :: (r ++ rest)))))) hnm
    rw [parseTop, skipBlank_id (stops_cons (by decide))]
    simp only
    rw [parseNode_elem _ a2 a3, (element_open hnm hat hb _ _).1,
      (writes_contents hE hbody (r ++ rest) (hE _ _ hE') hb' j (by simp only [List.length_cons, List.length_append]; omega)).1 rfl]
    simp only [Option.map_some]
    rw [ih2 (fun x hm => hx x (by simp [hm])) rest hrest _ (by simp only [List.length_append]; omega)]
    cases parseTop rest.length rest <;> simp

theorem takeWhile_all {p : Char → Bool} {s : List Char} (h : ∀ c ∈ s, p c = true) : s.takeWhile p = s := by
  have := (span_stop (p := p) (a := s) (r := []) h (by intro c hc; cases hc)).1
  simpa using this

theorem no_nul {s : List Char} (h : '\x00' ∉ s) : s.takeWhile (fun c => c != '\x00') = s := by
  refine takeWhile_all (fun c hc => ?_)
  simp only [bne_iff_ne, ne_eq]
  rintro rfl
  exact h hc

theorem writes_first {E : List Char → List Char → Prop} {xs : List XNode} {t : List Char} (h : Writes E true xs t) (hx : ∀ x ∈ xs, ¬ x.isText) :
    t.head? ≠ some '\uFEFF' := by
  cases h with
  | blank hb hr =>
    rename_i w r
    cases w with
    | nil =>
      rcases writes_head hr with rfl | ⟨r', rfl⟩
      · simp
      · rw [List.nil_append, List.head?_cons]
        decide
    | cons c w =>
      have := blank_isBlank hb c (by simp)
      intro e
      simp only [List.cons_append, List.head?_cons, Option.some.injEq] at e
      rw [e] at this
      exact absurd this (by decide)
  | text _ _ _ => exact (hx _ List.mem_cons_self trivial).elim

theorem parseXml_eq {s : List Char} (h : '\x00' ∉ s) (hb : s.head? ≠ some '\uFEFF') : parseXml s = parseTop s.length s := by
  unfold parseXml
  simp only [no_nul h]
  rw [if_neg hb]

theorem parseXml_bom {s : List Char} (h : '\x00' ∉ s) : parseXml ('\uFEFF' :: s) = parseTop s.length s := by
  have h' : '\x00' ∉ '\uFEFF' :: s := by
    simp only [List.mem_cons, not_or]
    exact ⟨by decide, h⟩
  unfold parseXml
  simp only [no_nul h']
  rw [if_pos (by simp)]
  rfl

theorem sloppy_names {m : List Char} (h : ∀ c ∈ m, c ∉ " \n\r\t/>?".toList) : ∀ c ∈ m, isNodeName c = true := by
  intro c hc
  have := h c hc
  rw [show " \n\r\t/>?".toList = [' ', '\n', '\r', '\t', '/', '>', '?'] by decide] at this
  simp only [List.mem_cons, not_or] at this
  simp [isNodeName, isBlank, this]

theorem parseXml_spec {doc : List XNode} {file : List Char} (h : SloppyXmlFile doc file) : parseXml file = some doc ∧ parseXml ('\uFEFF' :: file) = some doc := by
  obtain ⟨h1, h2, h3⟩ := h
  have := writes_top (fun n m hm => sloppy_names hm) h1 h2 [] (by intro c hc; cases hc) file.length (by simp)
  rw [List.append_nil] at this
  simp only [List.length_nil, parseTop, skipBlank, List.dropWhile_nil, List.isEmpty_nil, if_true, Option.map_some, List.append_nil] at this
  exact ⟨by rw [parseXml_eq h3 (writes_first h1 h2), this], by rw [parseXml_bom h3, this]⟩

theorem writes_mono {E E' : List Char → List Char → Prop} (hE : ∀ n m, NameText n → E n m → E' n m) {b : Bool} {xs : List XNode} {t : List Char}
    (h : Writes E b xs t) : Writes E' b xs t := by
  induction h with
  | nil => exact .nil
  | blank h1 _ ih => exact .blank h1 ih
  | text h1 h2 _ ih => exact .text h1 h2 ih
  | comment h1 _ ih => exact .comment h1 ih
  | cdata h1 _ ih => exact .cdata h1 ih
  | instruction h1 _ ih => exact .instruction h1 ih
  | doctype h1 _ ih => exact .doctype h1 ih
  | empty h1 h2 h3 _ ih => exact .empty h1 h2 h3 ih
  | elem h1 h2 h3 _ h4 h5 _ ih1 ih2 => exact .elem h1 h2 h3 ih1 (hE _ _ h1 h4) h5 ih2

theorem XmlFile.sloppy {doc : List XNode} {file : List Char} (h : XmlFile doc file) : SloppyXmlFile doc file := by
  refine ⟨writes_mono (fun n m hn e c hc => ?_) h.1, h.2.1, h.2.2⟩
  subst e
  have := hn.2 c hc
  rw [nameText_chars] at this
  rw [show " \n\r\t/>?".toList = [' ', '\n', '\r', '\t', '/', '>', '?'] by decide]
  simp only [List.mem_cons, not_or, List.not_mem_nil, not_false_eq_true, and_true] at this ⊢
  tauto

/-! ## Names that the parser finds -/

def ProperResult (rec : List Char → Option (List XNode × List Char)) : Prop := ∀ s xs t, rec s = some (xs, t) → properDoc xs

theorem takeWhile_mem {p : Char → Bool} {s : List Char} {c : Char} (h : c ∈ s.takeWhile p) : p c = true := by
  induction s with
  | nil => cases h
  | cons a s ih =>
    rw [List.takeWhile_cons] at h
    split at h
    · rcases List.mem_cons.1 h with rfl | h
      · assumption
      · exact ih h
    · cases h

theorem parseNode_proper {rec : List Char → Option (List XNode × List Char)} (hr : ProperResult rec) {s t : List Char} {x : XNode}
    (h : parseNode rec s = some (some x, t)) : x.proper := by
  have hname : String.ofList (s.takeWhile isNodeName) ≠ "<xmlattr>" := by
    intro e
    have e2 : s.takeWhile isNodeName = "<xmlattr>".toList := by rw [← e, String.toList_ofList]
    have : '>' ∈ s.takeWhile isNodeName := by rw [e2]; decide
    exact absurd (takeWhile_mem this) (by decide)
  unfold parseNode at h
  split at h
  · rename_i r
    cases hc : cutAt "?>".toList r with
    | none => rw [hc] at h; cases h
    | some p => rw [hc] at h; simp at h
  · rename_i r
    unfold parseBang at h
    split_ifs at h
    · cases hc : cutAt "-->".toList (r.drop 2) with
      | none => rw [hc] at h; cases h
      | some p =>
        rw [hc] at h
        simp only [Option.map_some, Option.some.injEq, Prod.mk.injEq] at h
        rw [← h.1]; trivial
    · cases hc : cutAt "]]>".toList (r.drop 7) with
      | none => rw [hc] at h; cases h
      | some p =>
        rw [hc] at h
        simp only [Option.map_some, Option.some.injEq, Prod.mk.injEq] at h
        rw [← h.1]; trivial
    · cases hc : skipDoctype 0 (r.drop 8) with
      | none => rw [hc] at h; cases h
      | some p => rw [hc] at h; simp at h
    · cases hc : cutAt ">".toList r with
      | none => rw [hc] at h; cases h
      | some p => rw [hc] at h; simp at h
  · unfold parseElement at h
    simp only at h
    split at h
    · cases h
    · split at h
      · rename_i as v hv
        cases hc : rec v with
        | none => rw [hc] at h; cases h
        | some p =>
          rw [hc] at h
          simp only [Option.map_some, Option.some.injEq, Prod.mk.injEq] at h
          rw [← h.1]
          exact ⟨hname, hr _ _ _ hc⟩
      · simp only [Option.some.injEq, Prod.mk.injEq] at h
        rw [← h.1]
        exact ⟨hname, trivial⟩
      · cases h

theorem properDoc_append {xs ys : List XNode} (h1 : properDoc xs) (h2 : properDoc ys) : properDoc (xs ++ ys) := by
  induction xs with
  | nil => exact h2
  | cons x xs ih => exact ⟨h1.1, ih h1.2⟩

theorem parseContents_proper : ∀ n, ProperResult (parseContents n)
  | 0, _, _, _, h => by simp [parseContents] at h
  | n + 1, s, xs, t, h => by
    have key : ∀ v ys u, afterData (parseContents n) v = some (ys, u) → properDoc ys := by
      intro v ys u h1
      unfold afterData at h1
      split at h1
      · rename_i r
        cases hc : parseClose r with
        | none => rw [hc] at h1; cases h1
        | some p =>
          rw [hc] at h1
          simp only [Option.map_some, Option.some.injEq, Prod.mk.injEq] at h1
          rw [← h1.1]; trivial
      · split at h1
        · cases h1
        · rename_i x w hw
          cases hc : parseContents n w with
          | none => rw [hc] at h1; cases h1
          | some p =>
            rw [hc] at h1
            simp only [Option.map_some, Option.some.injEq, Prod.mk.injEq] at h1
            rw [← h1.1]
            refine properDoc_append ?_ (parseContents_proper n _ _ _ hc)
            cases x with
            | none => trivial
            | some x => exact ⟨parseNode_proper (parseContents_proper n) hw, trivial⟩
      · cases h1
    rw [parseContents] at h
    split at h
    · exact key _ _ _ h
    · split at h
      · rename_i v ys u h1 h2
        simp only [Option.some.injEq, Prod.mk.injEq] at h
        rw [← h.1]
        exact ⟨trivial, key _ _ _ h2⟩
      · cases h

theorem parseTop_proper : ∀ {n : Nat} {s : List Char} {doc : List XNode}, parseTop n s = some doc → properDoc doc
  | 0, s, doc, h => by
    rw [parseTop] at h
    split at h
    · simp only [Option.some.injEq] at h; rw [← h]; trivial
    · cases h
  | n + 1, s, doc, h => by
    rw [parseTop] at h
    split at h
    · simp only [Option.some.injEq] at h; rw [← h]; trivial
    · split at h
      · cases h
      · rename_i x v hv
        cases hc : parseTop n v with
        | none => rw [hc] at h; cases h
        | some ys =>
          rw [hc] at h
          simp only [Option.map_some, Option.some.injEq] at h
          rw [← h]
          refine properDoc_append ?_ (parseTop_proper hc)
          cases x with
          | none => trivial
          | some x => exact ⟨parseNode_proper (parseContents_proper n) hv, trivial⟩
    · cases h

theorem parseXml_proper {file : List Char} {doc : List XNode} (h : parseXml file = some doc) : properDoc doc := parseTop_proper h

/-! ## Texts that are cut off -/

theorem takeWhile_prefix_of_prefix (p : Char → Bool) {s f : List Char} (h : s <+: f) : s.takeWhile p <+: f.takeWhile p := by
  obtain ⟨u, rfl⟩ := h
  induction s with
  | nil => exact List.nil_prefix
  | cons c s ih =>
    rw [List.cons_append, List.takeWhile_cons, List.takeWhile_cons]
    split
    · exact (List.prefix_cons_inj c).2 ih
    · exact List.prefix_refl _

theorem parseXml_prefix {file part : List Char} {doc doc' : List XNode} (hp : part <+: file) (h : parseXml file = some doc) (h' : parseXml part = some doc') :
    doc' <+: doc := by
  unfold parseXml at h h'
  simp only at h h'
  have hq := takeWhile_prefix_of_prefix (fun c => c != '\x00') hp
  set a := part.takeWhile (fun c => c != '\x00')
  set f := file.takeWhile (fun c => c != '\x00')
  have key : ∀ x y : List Char, x <+: y → parseTop y.length y = some doc → parseTop x.length x = some doc' → doc' <+: doc := by
    rintro x y ⟨u, rfl⟩ h1 h2
    refine parseTop_prefix u (n := (x ++ u).length) ?_ h1
    rw [← h2]
    exact parseTop_fuel (by simp) (le_refl _)
  by_cases ha : a = []
  · rw [ha] at h'
    simp [parseTop, skipBlank] at h'
    rw [h']; exact List.nil_prefix
  · obtain ⟨c, a', e⟩ := List.exists_cons_of_ne_nil ha
    obtain ⟨u, hu⟩ := hq
    rw [e, List.cons_append] at hu
    rw [e] at h'
    rw [← hu] at h
    by_cases hc : c = '\uFEFF'
    · rw [if_pos (by simp [hc])] at h h'
      exact key _ _ (List.prefix_append ..) h h'
    · rw [if_neg (by simp [hc])] at h h'
      refine key _ _ ?_ h h'
      rw [← List.cons_append]; exact List.prefix_append ..

end OpenMps
