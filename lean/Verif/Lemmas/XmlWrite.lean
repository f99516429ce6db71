import Verif.Lemmas.XmlRead

set_option linter.unusedSectionVars false

namespace OpenMps

/-! ## What the generators write is an XML file -/

theorem escapeChar_text (c : Char) : CharText c (escapeChar c) ∧ '<' ∉ escapeChar c ∧ '"' ∉ escapeChar c := by
  unfold escapeChar
  split
  · rename_i h; subst h; exact ⟨.amp, by decide, by decide⟩
  split
  · rename_i h; subst h; exact ⟨.lt, by decide, by decide⟩
  split
  · rename_i h; subst h; exact ⟨.quot, by decide, by decide⟩
  split
  · rename_i h; subst h; exact ⟨.gt, by decide, by decide⟩
  · rename_i h1 h2 h3 h4
    exact ⟨.self c h1, by simp [Ne.symm h2], by simp [Ne.symm h3]⟩

theorem escapeText_enc {q : Char} (hq : q = '<' ∨ q = '"') (s : List Char) : EncText q s (escapeText s) := by
  induction s with
  | nil => exact .nil
  | cons c s ih =>
    obtain ⟨h1, h2, h3⟩ := escapeChar_text c
    refine .cons h1 ?_ ih
    rcases hq with rfl | rfl
    · exact h2
    · exact h3

theorem escapeText_blank {s : List Char} (h : Blank (escapeText s)) : Blank s := by
  intro c hc
  by_cases hb : c ∈ [' ', '\n', '\r', '\t']
  · exact hb
  · have hex : ∃ d ∈ escapeChar c, d ∉ [' ', '\n', '\r', '\t'] := by
      unfold escapeChar
      split
      · exact ⟨'&', by decide, by decide⟩
      split
      · exact ⟨'&', by decide, by decide⟩
      split
      · exact ⟨'&', by decide, by decide⟩
      split
      · exact ⟨'&', by decide, by decide⟩
      · exact ⟨c, by simp, hb⟩
    obtain ⟨d, hd, hn⟩ := hex
    exact absurd (h d (List.mem_flatMap.2 ⟨c, hc, hd⟩)) hn

theorem writeAttrs_text : ∀ {as : List (String × List Char)}, (∀ p ∈ as, NameText p.1.toList) → AttrsText as (writeAttrs as)
  | [], _ => .nil
  | (k, v) :: as, h => by
    have h1 := AttrsText.cons (w := [' ']) (n := k.toList) (w1 := []) (w2 := []) (q := '"') (by simp) (by intro c hc; simp at hc; simp [hc]) (h (k, v) (by simp))
      (by intro c hc; cases hc) (by intro c hc; cases hc) (.inl rfl) (escapeText_enc (.inr rfl) v) (writeAttrs_text (as := as) (fun p hp => h p (by simp [hp])))
    rw [String.ofList_toList] at h1
    convert h1 using 1
    simp [writeAttrs]

theorem after_blank {xs : List XNode} {w r : List Char} (hw : Blank w) (h : Writes (fun n m => m = n) false xs r) : Writes (fun n m => m = n) true xs (w ++ r) := .blank hw h

theorem blank_tabs (d : Nat) : Blank (List.replicate d '\t') := by
  intro c hc
  rw [List.eq_of_mem_replicate hc]
  decide

/-- Nodes, perhaps with white space before them. -/
def WrittenB (xs : List XNode) (r : List Char) : Prop := ∃ w r', r = w ++ r' ∧ Blank w ∧ Writes (fun n m => m = n) false xs r'

theorem WrittenB.writes {xs : List XNode} {r : List Char} (h : WrittenB xs r) : Writes (fun n m => m = n) true xs r := by
  obtain ⟨w, r', rfl, h1, h2⟩ := h
  exact .blank h1 h2

theorem WrittenB.line {xs : List XNode} {r : List Char} (h : WrittenB xs r) : WrittenB xs ('\n' :: r) := by
  obtain ⟨w, r', rfl, h1, h2⟩ := h
  refine ⟨'\n' :: w, r', rfl, ?_, h2⟩
  intro c hc
  rcases List.mem_cons.1 hc with rfl | hc
  · decide
  · exact h1 c hc

theorem WrittenB.nil {w : List Char} (h : Blank w) : WrittenB [] w := ⟨w, [], by simp, h, .nil⟩

theorem writtenB_tabs {xs : List XNode} {r : List Char} (d : Nat) (h : Writes (fun n m => m = n) false xs r) : WrittenB xs (List.replicate d '\t' ++ r) :=
  ⟨_, r, rfl, blank_tabs d, h⟩

theorem writeNode_block {name : String} {as : List (String × List Char)} {body : List XNode} (h1 : body ≠ []) (h2 : ∀ s, body ≠ [.text s]) (d : Nat) :
    writeNode d (.elem name as body) = List.replicate d '\t' ++ '<' :: name.toList ++ writeAttrs as ++ ">\n".toList ++ writeNodes (d + 1) body ++
      List.replicate d '\t' ++ "</".toList ++ name.toList ++ ">\n".toList := by
  match body with
  | [] => exact absurd rfl h1
  | [.text s] => exact absurd rfl (h2 s)
  | [.comment s] => simp only [writeNode]
  | [.elem _ _ _] => simp only [writeNode]
  | .text s :: y :: l => simp only [writeNode]
  | .comment s :: y :: l => simp only [writeNode]
  | .elem n a b :: y :: l => simp only [writeNode]

theorem blank_nil : Blank [] := by intro c hc; cases hc

mutual
theorem writeNode_spec : ∀ (x : XNode) (d : Nat) {xs : List XNode} {r : List Char}, x.plain → WrittenB xs r → WrittenB (x :: xs) (writeNode d x ++ r)
  | .text s, d, xs, r, hx, hr => by simp [XNode.plain] at hx
  | .comment s, d, xs, r, hx, hr => by
    simp only [XNode.plain] at hx
    have := writtenB_tabs d (Writes.comment hx hr.line.writes)
    convert this using 1
    simp [writeNode]
  | .elem name as body, d, xs, r, hx, hr => by
    simp only [XNode.plain] at hx
    obtain ⟨h1, h2, h3⟩ := hx
    by_cases hb : body = []
    · subst hb
      have := writtenB_tabs d (Writes.empty h1 (writeAttrs_text h2) blank_nil hr.line.writes)
      rw [String.ofList_toList] at this
      convert this using 1
      simp [writeNode]
    · rcases h3 with ⟨s, rfl, hs⟩ | h3
      · have hbody : Writes (fun n m => m = n) true [.text s] (escapeText s) := by
          have := Writes.text (E := fun n m => m = n) (escapeText_enc (.inl rfl) s) (fun h => hs (escapeText_blank h)) .nil
          rwa [List.append_nil] at this
        have := writtenB_tabs d (Writes.elem h1 (writeAttrs_text h2) blank_nil hbody rfl blank_nil hr.line.writes)
        rw [String.ofList_toList] at this
        convert this using 1
        simp [writeNode]
      · have hne : ∀ s, body ≠ [.text s] := by
          rintro s rfl
          simp [plainAll, XNode.plain] at h3
        have hbody := (writeNodes_spec body (d + 1) (r := List.replicate d '\t') (xs := []) h3 (WrittenB.nil (blank_tabs d))).line.writes
        rw [List.append_nil] at hbody
        have := writtenB_tabs d (Writes.elem h1 (writeAttrs_text h2) blank_nil hbody rfl blank_nil hr.line.writes)
        rw [String.ofList_toList] at this
        rw [writeNode_block hb hne]
        convert this using 1
        simp
theorem writeNodes_spec : ∀ (ys : List XNode) (d : Nat) {xs : List XNode} {r : List Char}, plainAll ys → WrittenB xs r → WrittenB (ys ++ xs) (writeNodes d ys ++ r)
  | [], d, xs, r, _, hr => by simpa [writeNodes] using hr
  | y :: ys, d, xs, r, hy, hr => by
    simp only [plainAll] at hy
    have := writeNode_spec y d hy.1 (writeNodes_spec ys d hy.2 hr)
    rw [writeNodes, List.append_assoc]
    exact this
end

theorem toPrettyXml_file {x : XNode} (hx : x.plain) (hn : '\x00' ∉ toPrettyXml x) : XmlFile [x] (toPrettyXml x) := by
  refine ⟨?_, ?_, hn⟩
  · have h := (writeNode_spec x 0 (r := []) (xs := []) hx (WrittenB.nil blank_nil)).line.writes
    rw [List.append_nil] at h
    have e : toPrettyXml x = [] ++ ("<?".toList ++ "xml version=\"1.0\" ".toList ++ "?>".toList ++ '\n' :: writeNode 0 x) := by
      unfold toPrettyXml
      generalize writeNode 0 x = t
      rw [show "<?xml version=\"1.0\" ?>\n".toList = "<?".toList ++ "xml version=\"1.0\" ".toList ++ "?>".toList ++ ['\n'] by decide]
      simp only [List.append_assoc, List.nil_append, List.cons_append]
    rw [e]
    refine after_blank blank_nil (Writes.instruction ?_ h)
    rintro ⟨a, b, e⟩
    have : '?' ∈ "xml version=\"1.0\" ".toList := by rw [← e]; simp
    exact absurd this (by decide)
  · intro y hy
    simp only [List.mem_singleton] at hy
    subst hy
    cases y with
    | text s => simp [XNode.plain] at hx
    | comment s => simp [XNode.isText]
    | elem n as b => simp [XNode.isText]

end OpenMps
