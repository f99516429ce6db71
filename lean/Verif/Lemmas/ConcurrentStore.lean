import Verif.Spec.ConcurrentStore
import Verif.Lemmas.Store

/-! # Lemmas about concurrent calls of `Store` -/

set_option linter.unusedSectionVars false

namespace OpenMps

variable {F : Type} [Scalar F] {D : Nat}

/-- The counter has been incremented, the slot is not yet written. -/
def Stage.pend : Stage D → Option (Blk D × Nat)
  | .written b l => some (b, l)
  | .counted b l => some (b, l)
  | _ => none

/-- The lock that is held. -/
def Stage.holds : Stage D → Option (Blk D)
  | .locked b => some b
  | .loaded b _ => some b
  | .written b _ => some b
  | _ => none

/-- The block of the call in progress. -/
def Stage.block : Stage D → Option (Blk D)
  | .idle => none
  | .locked b => some b
  | .loaded b _ => some b
  | .written b _ => some b
  | .counted b _ => some b

/-- The result of a pending call. -/
def Stage.result (cap : Nat) (st : Stage D) : List Outcome :=
  match st.pend with
  | none => []
  | some (_, l) => if l ≥ cap then [.full] else [.stored]

/-- The calls that are not yet counted. -/
def Thread.rest (th : Thread F D) : List (Vec F D × Nat) :=
  match th.stage.pend with
  | none => th.todo
  | some _ => th.todo.tail

theorem storeCalls_append (ord : List (Nat × Vec F D × Nat)) : ∀ (g : Grid F D) (t : Nat) (x : Vec F D) (pid : Nat) {a : Grid F D}
    {outs : List (Nat × Outcome)}, g.storeCalls ord = some (a, outs) →
    g.storeCalls (ord ++ [(t, x, pid)]) = match a.store x pid with
      | .ub => none
      | .outside g' => some (g', outs ++ [(t, .outside)])
      | .full g' => some (g', outs ++ [(t, .full)])
      | .stored g' => some (g', outs ++ [(t, .stored)]) := by
  induction ord with
  | nil =>
    intro g t x pid a outs h
    simp only [Grid.storeCalls, Option.some.injEq, Prod.mk.injEq] at h
    obtain ⟨rfl, rfl⟩ := h
    simp only [List.nil_append, Grid.storeCalls]
    cases g.store x pid <;> rfl
  | cons e ord ih =>
    obtain ⟨t0, x0, p0⟩ := e
    intro g t x pid a outs h
    simp only [List.cons_append, Grid.storeCalls] at h ⊢
    split at h
    · cases h
    all_goals
      rename_i g' hg
      rw [Option.map_eq_some_iff] at h
      obtain ⟨⟨a', o'⟩, h1, h2⟩ := h
      simp only [Prod.mk.injEq] at h2
      obtain ⟨rfl, rfl⟩ := h2
      rw [ih g' t x pid h1]
      cases a'.store x pid <;> simp

theorem ofThread_append {α : Type} (t : Nat) (l k : List (Nat × α)) : ofThread t (l ++ k) = ofThread t l ++ ofThread t k := by
  simp [ofThread]

theorem ofThread_self {α : Type} (t : Nat) (a : α) : ofThread t [(t, a)] = [a] := by simp [ofThread]

theorem ofThread_other {α : Type} {t t' : Nat} (h : t ≠ t') (a : α) : ofThread t' [(t, a)] = [] := by simp [ofThread, h]

/-- The invariant: `ord` are the calls counted so far, `a` and `outs` the result of making them one after the other. -/
structure CInv (mode : Counting) (g0 : Grid F D) (progs : Nat → List (Vec F D × Nat)) (c : Conc F D) (ord : List (Nat × Vec F D × Nat))
    (a : Grid F D) (outs : List (Nat × Outcome)) : Prop where
  run : g0.storeCalls ord = some (a, outs)
  geom : SameGeom a c.grid
  count : c.grid.count = a.count
  slot : ∀ b k, c.grid.slot b k = a.slot b k ∨ ∃ t, (c.th t).stage.pend = some (b, k) ∧ k < a.cap
  pslot : ∀ t b l e es, (c.th t).stage.pend = some (b, l) → (c.th t).todo = e :: es → l < a.cap → a.slot b l = e.2
  own : ∀ t b, (c.th t).stage.holds = some b → c.owner b = some t
  owned : ∀ t b, c.owner b = some t → (c.th t).stage.holds = some b
  noLock : mode = .atomic → ∀ t, (c.th t).stage.holds = none
  loaded : ∀ t b l, (c.th t).stage = .loaded b l → a.count b = l
  fresh : ∀ t b l, (c.th t).stage.pend = some (b, l) → l < a.count b
  uniq : ∀ t t' b l, (c.th t).stage.pend = some (b, l) → (c.th t').stage.pend = some (b, l) → t = t'
  head : ∀ t b, (c.th t).stage.block = some b → ∃ e es, (c.th t).todo = e :: es ∧ a.block? e.1 = some b ∧ a.inRange b = true
  calls : ∀ t, ofThread t ord ++ (c.th t).rest = progs t
  results : ∀ t, ofThread t outs = (c.th t).results ++ (c.th t).stage.result a.cap

variable {mode : Counting} {g0 : Grid F D} {progs : Nat → List (Vec F D × Nat)} {c : Conc F D} {ord : List (Nat × Vec F D × Nat)}
  {a : Grid F D} {outs : List (Nat × Outcome)}

theorem CInv.start (mode : Counting) (g : Grid F D) (progs : Nat → List (Vec F D × Nat)) :
    CInv mode g progs (Conc.start g progs) [] g [] where
  run := rfl
  geom := SameGeom.refl _
  count := rfl
  slot := fun _ _ => Or.inl rfl
  pslot := fun _ _ _ _ _ h => by cases h
  own := fun _ _ h => by cases h
  owned := fun _ _ h => by cases h
  noLock := fun _ _ => rfl
  loaded := fun _ _ _ h => by cases h
  fresh := fun _ _ _ h => by cases h
  uniq := fun _ _ _ _ h => by cases h
  head := fun _ _ h => by cases h
  calls := fun _ => rfl
  results := fun _ => rfl

/-- Steps on the locks and the load: nothing is counted. -/
theorem CInv.silent (h : CInv mode g0 progs c ord a outs) {t : Nat} {st : Stage D} {owner' : Blk D → Option Nat}
    (hp : st.pend = (c.th t).stage.pend)
    (hown : ∀ t' b, (if t' = t then st else (c.th t').stage).holds = some b ↔ owner' b = some t')
    (hno : mode = .atomic → st.holds = none)
    (hl : ∀ b l, st = .loaded b l → a.count b = l)
    (hh : ∀ b, st.block = some b → ∃ e es, (c.th t).todo = e :: es ∧ a.block? e.1 = some b ∧ a.inRange b = true) :
    CInv mode g0 progs { c with owner := owner', th := upd c.th t { c.th t with stage := st } } ord a outs := by
  have hpe : ∀ t', (upd c.th t { c.th t with stage := st } t').stage.pend = (c.th t').stage.pend := by
    intro t'
    unfold upd
    split
    · rename_i e; rw [e]; exact hp
    · rfl
  have htodo : ∀ t', (upd c.th t { c.th t with stage := st } t').todo = (c.th t').todo := by
    intro t'
    unfold upd
    split
    · rename_i e; rw [e]
    · rfl
  have hres : ∀ t', (upd c.th t { c.th t with stage := st } t').results = (c.th t').results := by
    intro t'
    unfold upd
    split
    · rename_i e; rw [e]
    · rfl
  have hst : ∀ t', (upd c.th t { c.th t with stage := st } t').stage = if t' = t then st else (c.th t').stage := by
    intro t'
    unfold upd
    split <;> rfl
  refine ⟨h.run, h.geom, h.count, ?_, ?_, ?_, ?_, ?_, ?_, ?_, ?_, ?_, ?_, ?_⟩
  · intro b k
    rcases h.slot b k with h1 | ⟨t', h1, h2⟩
    · exact Or.inl h1
    · exact Or.inr ⟨t', by simp only [hpe]; exact h1, h2⟩
  · intro t' b l e es h1 h2
    simp only [hpe] at h1
    simp only [htodo] at h2
    exact h.pslot t' b l e es h1 h2
  · intro t' b h1
    simp only [hst] at h1
    exact (hown t' b).mp h1
  · intro t' b h1
    simp only [hst]
    exact (hown t' b).mpr h1
  · intro hm t'
    simp only [hst]
    split
    · exact hno hm
    · exact h.noLock hm t'
  · intro t' b l h1
    simp only [hst] at h1
    split at h1
    · exact hl b l h1
    · exact h.loaded t' b l h1
  · intro t' b l h1
    simp only [hpe] at h1
    exact h.fresh t' b l h1
  · intro t' t'' b l h1 h2
    simp only [hpe] at h1 h2
    exact h.uniq t' t'' b l h1 h2
  · intro t' b h1
    simp only [hst] at h1
    simp only [htodo]
    split at h1
    · rename_i e; rw [e]; exact hh b h1
    · exact h.head t' b h1
  · intro t'
    have := h.calls t'
    unfold Thread.rest at this ⊢
    simp only [hpe, htodo]
    exact this
  · intro t'
    have := h.results t'
    unfold Stage.result at this ⊢
    simp only [hpe, hres]
    exact this

/-- The increment of a counter. -/
theorem CInv.increment (h : CInv mode g0 progs c ord a outs) {t : Nat} {e : Vec F D × Nat} {es : List (Vec F D × Nat)} {b : Blk D} {st : Stage D}
    (htodo : (c.th t).todo = e :: es) (hpn : (c.th t).stage.pend = none) (hb : a.block? e.1 = some b) (hr : a.inRange b = true)
    (hp : st.pend = some (b, a.count b)) (hh : st.block = some b) (hholds : st.holds = (c.th t).stage.holds)
    (hex : ∀ t' l, t' ≠ t → (c.th t').stage ≠ .loaded b l) (hnl : ∀ b l, st ≠ .loaded b l) :
    ∃ a' outs', CInv mode g0 progs ((c.setCount b (a.count b + 1)).goto t st) (ord ++ [(t, e)]) a' outs' := by
  set a1 : Grid F D := { a with count := fun b' => if b' = b then a.count b + 1 else a.count b' } with ha1
  have hst : ∀ t', (((c.setCount b (a.count b + 1)).goto t st).th t').stage = if t' = t then st else (c.th t').stage := by
    intro t'
    change (upd c.th t _ t').stage = _
    unfold upd
    split <;> rfl
  have htd : ∀ t', (((c.setCount b (a.count b + 1)).goto t st).th t').todo = (c.th t').todo := by
    intro t'
    change (upd c.th t _ t').todo = _
    unfold upd
    split
    · rename_i e; rw [e]; rfl
    · rfl
  have hrs : ∀ t', (((c.setCount b (a.count b + 1)).goto t st).th t').results = (c.th t').results := by
    intro t'
    change (upd c.th t _ t').results = _
    unfold upd
    split
    · rename_i e; rw [e]; rfl
    · rfl
  -- the part common to both outcomes
  have key : ∀ (a' : Grid F D) (o : Outcome), SameGeom a1 a' → a'.count = a1.count →
      (∀ b' k, a'.slot b' k = if b' = b ∧ k = a.count b ∧ a.count b < a.cap then e.2 else a.slot b' k) →
      (st.result a.cap = [o]) →
      g0.storeCalls (ord ++ [(t, e)]) = some (a', outs ++ [(t, o)]) →
      CInv mode g0 progs ((c.setCount b (a.count b + 1)).goto t st) (ord ++ [(t, e)]) a' (outs ++ [(t, o)]) := by
    intro a' o hgeo hcnt hslot hres hrun
    have hcap : a'.cap = a.cap := hgeo.cap
    refine ⟨hrun, ?_, ?_, ?_, ?_, ?_, ?_, ?_, ?_, ?_, ?_, ?_, ?_, ?_⟩
    · exact ⟨h.geom.bl.trans hgeo.bl.symm, h.geom.origin.trans hgeo.origin.symm, h.geom.size.trans hgeo.size.symm, h.geom.cap.trans hgeo.cap.symm⟩
    · rw [hcnt]
      funext b'
      change (if b' = b then a.count b + 1 else c.grid.count b') = if b' = b then a.count b + 1 else a.count b'
      rw [h.count]
    · intro b' k
      rw [hslot b' k, hcap]
      change c.grid.slot b' k = _ ∨ _
      by_cases hc : b' = b ∧ k = a.count b ∧ a.count b < a.cap
      · obtain ⟨rfl, rfl, h3⟩ := hc
        exact Or.inr ⟨t, by rw [hst, if_pos rfl]; exact hp, h3⟩
      · rw [if_neg hc]
        rcases h.slot b' k with h1 | ⟨t', h1, h2⟩
        · exact Or.inl h1
        · refine Or.inr ⟨t', ?_, h2⟩
          rw [hst, if_neg]
          · exact h1
          · rintro rfl; rw [hpn] at h1; cases h1
    · intro t' b' l e' es' h1 h2 h3
      rw [hst] at h1
      rw [htd] at h2
      rw [hcap] at h3
      rw [hslot b' l]
      split at h1
      · rename_i ht
        subst ht
        rw [hp] at h1
        simp only [Option.some.injEq, Prod.mk.injEq] at h1
        obtain ⟨rfl, rfl⟩ := h1
        rw [if_pos ⟨rfl, rfl, h3⟩]
        rw [htodo] at h2
        injection h2 with h2 _
        rw [h2]
      · have := h.fresh t' b' l h1
        rw [if_neg]
        · exact h.pslot t' b' l e' es' h1 h2 h3
        · rintro ⟨rfl, rfl, -⟩; omega
    · intro t' b' h1
      rw [hst] at h1
      change c.owner b' = some t'
      split at h1
      · rename_i ht; subst ht; rw [hholds] at h1; exact h.own _ _ h1
      · exact h.own _ _ h1
    · intro t' b' h1
      have := h.owned t' b' h1
      rw [hst]
      split
      · rename_i ht; subst ht; rw [hholds]; exact this
      · exact this
    · intro hm t'
      rw [hst]
      split
      · rw [hholds]; exact h.noLock hm t
      · exact h.noLock hm t'
    · intro t' b' l h1
      rw [hst] at h1
      split at h1
      · exact absurd h1 (hnl b' l)
      · rename_i ht
        rw [hcnt]
        change (if b' = b then a.count b + 1 else a.count b') = l
        rw [if_neg]
        · exact h.loaded t' b' l h1
        · rintro rfl; exact hex t' l ht h1
    · intro t' b' l h1
      rw [hst] at h1
      rw [hcnt]
      change l < if b' = b then a.count b + 1 else a.count b'
      split at h1
      · rw [hp] at h1
        simp only [Option.some.injEq, Prod.mk.injEq] at h1
        obtain ⟨rfl, rfl⟩ := h1
        rw [if_pos rfl]; omega
      · have := h.fresh t' b' l h1
        split
        · rename_i hb'; subst hb'; omega
        · exact this
    · intro t' t'' b' l h1 h2
      rw [hst] at h1 h2
      split at h1
      · rename_i ht
        split at h2
        · rename_i ht'; rw [ht, ht']
        · exfalso
          rw [hp] at h1
          simp only [Option.some.injEq, Prod.mk.injEq] at h1
          obtain ⟨rfl, rfl⟩ := h1
          have := h.fresh t'' _ _ h2
          omega
      · split at h2
        · exfalso
          rw [hp] at h2
          simp only [Option.some.injEq, Prod.mk.injEq] at h2
          obtain ⟨rfl, rfl⟩ := h2
          have := h.fresh t' _ _ h1
          omega
        · exact h.uniq _ _ _ _ h1 h2
    · intro t' b' h1
      rw [hst] at h1
      rw [htd, hgeo.inRange]
      simp only [hgeo.block]
      split at h1
      · rename_i ht; subst ht
        rw [hh] at h1
        injection h1 with h1
        subst h1
        exact ⟨e, es, htodo, hb, hr⟩
      · exact h.head t' b' h1
    · intro t'
      have := h.calls t'
      unfold Thread.rest at this ⊢
      rw [ofThread_append, htd, hst]
      split_ifs with ht
      · subst ht
        rw [hpn] at this
        rw [hp, ofThread_self]
        simp only at this ⊢
        rw [← this, htodo]
        simp
      · rw [ofThread_other (Ne.symm ht)]
        simpa using this
    · intro t'
      have := h.results t'
      rw [ofThread_append, hrs, hst, hcap]
      split_ifs with ht
      · subst ht
        rw [hres, ofThread_self, this]
        simp [Stage.result, hpn]
      · rw [ofThread_other (Ne.symm ht)]
        simpa using this
  have hstore : a.store e.1 e.2 = if a.count b ≥ a.cap then .full a1
      else .stored { a1 with slot := fun b' => if b' = b then upd (a.slot b) (a.count b) e.2 else a.slot b' } := by
    unfold Grid.store
    rw [hb]
    simp only
    rw [if_pos hr]
  have happ := storeCalls_append ord g0 t e.1 e.2 h.run
  rw [hstore] at happ
  by_cases hc : a.count b ≥ a.cap
  · rw [if_pos hc] at happ
    refine ⟨_, _, key a1 .full (SameGeom.refl _) rfl ?_ ?_ happ⟩
    · intro b' k
      rw [if_neg (by omega)]
    · unfold Stage.result; rw [hp]; simp only; rw [if_pos hc]
  · rw [if_neg hc] at happ
    refine ⟨_, _, key { a1 with slot := fun b' => if b' = b then upd (a.slot b) (a.count b) e.2 else a.slot b' } .stored
      ⟨rfl, rfl, rfl, rfl⟩ rfl ?_ ?_ happ⟩
    · intro b' k
      change (if b' = b then upd (a.slot b) (a.count b) e.2 else a.slot b') k = _
      by_cases hb' : b' = b
      · subst hb'
        simp only [if_true, upd]
        by_cases hk : k = a.count b'
        · rw [if_pos hk, if_pos ⟨trivial, hk, by omega⟩]
        · rw [if_neg hk, if_neg (fun z => hk z.2.1)]
      · rw [if_neg hb', if_neg (fun z => hb' z.1)]
    · unfold Stage.result; rw [hp]; simp only; rw [if_neg hc]

/-- A call outside the grid. -/
theorem CInv.outside (h : CInv mode g0 progs c ord a outs) {t : Nat} {e : Vec F D × Nat} {es : List (Vec F D × Nat)} {b : Blk D}
    (htodo : (c.th t).todo = e :: es) (hidle : (c.th t).stage = .idle) (hb : a.block? e.1 = some b) (hr : ¬ a.inRange b = true) :
    CInv mode g0 progs (c.finish t .outside) (ord ++ [(t, e)]) a (outs ++ [(t, .outside)]) := by
  have hpn : (c.th t).stage.pend = none := by rw [hidle]; rfl
  have hst : ∀ t', ((c.finish t .outside).th t').stage = (c.th t').stage := by
    intro t'
    change (upd c.th t _ t').stage = _
    unfold upd
    split
    · rename_i e; rw [e, hidle]
    · rfl
  have hoth : ∀ t', t' ≠ t → (c.finish t .outside).th t' = c.th t' := by
    intro t' ht
    change upd c.th t _ t' = _
    simp [upd, ht]
  have hself : (c.finish t .outside).th t = { todo := (c.th t).todo.tail, stage := .idle, results := (c.th t).results ++ [.outside] } := by
    change upd c.th t _ t = _
    simp [upd]
  have hrun : g0.storeCalls (ord ++ [(t, e)]) = some (a, outs ++ [(t, .outside)]) := by
    have := storeCalls_append ord g0 t e.1 e.2 h.run
    rw [this]
    unfold Grid.store
    rw [hb]
    simp only
    rw [if_neg hr]
  refine ⟨hrun, h.geom, h.count, ?_, ?_, ?_, ?_, ?_, ?_, ?_, ?_, ?_, ?_, ?_⟩
  · intro b' k; simp only [hst]; exact h.slot b' k
  · intro t' b' l e' es' h1 h2
    rw [hst] at h1
    have ht : t' ≠ t := by rintro rfl; rw [hpn] at h1; cases h1
    rw [hoth t' ht] at h2
    exact h.pslot t' b' l e' es' h1 h2
  · intro t' b' h1; rw [hst] at h1; exact h.own t' b' h1
  · intro t' b' h1; rw [hst]; exact h.owned t' b' h1
  · intro hm t'; rw [hst]; exact h.noLock hm t'
  · intro t' b' l h1; rw [hst] at h1; exact h.loaded t' b' l h1
  · intro t' b' l h1; rw [hst] at h1; exact h.fresh t' b' l h1
  · intro t' t'' b' l h1 h2; rw [hst] at h1 h2; exact h.uniq t' t'' b' l h1 h2
  · intro t' b' h1
    rw [hst] at h1
    have ht : t' ≠ t := by rintro rfl; rw [hidle] at h1; cases h1
    rw [hoth t' ht]
    exact h.head t' b' h1
  · intro t'
    have := h.calls t'
    rw [ofThread_append]
    by_cases ht : t' = t
    · subst ht
      rw [hself, ofThread_self]
      unfold Thread.rest at this ⊢
      rw [hpn] at this
      simp only [Stage.pend] at this ⊢
      rw [← this, htodo]; simp
    · rw [hoth t' ht, ofThread_other (Ne.symm ht)]
      simpa using this
  · intro t'
    have := h.results t'
    rw [ofThread_append]
    by_cases ht : t' = t
    · subst ht
      rw [hself, ofThread_self, this, hidle]
      simp [Stage.result, Stage.pend]
    · rw [hoth t' ht, ofThread_other (Ne.symm ht)]
      simpa using this

/-- A counted call ends. -/
theorem CInv.finish (h : CInv mode g0 progs c ord a outs) {t : Nat} {e : Vec F D × Nat} {es : List (Vec F D × Nat)} {b : Blk D} {l : Nat}
    (htodo : (c.th t).todo = e :: es) (hs : (c.th t).stage = .counted b l) {c1 : Conc F D} {o : Outcome}
    (hth : c1.th = c.th) (howner : c1.owner = c.owner) (hgeo : SameGeom c.grid c1.grid) (hcnt : c1.grid.count = c.grid.count)
    (hslot : ∀ b' k, c1.grid.slot b' k = if b' = b ∧ k = l ∧ l < a.cap then e.2 else c.grid.slot b' k)
    (ho : Stage.result a.cap (.counted b l) = [o]) :
    CInv mode g0 progs (c1.finish t o) ord a outs := by
  have hp : (c.th t).stage.pend = some (b, l) := by rw [hs]; rfl
  have hoth : ∀ t', t' ≠ t → (c1.finish t o).th t' = c.th t' := by
    intro t' ht
    change upd c1.th t _ t' = _
    simp [upd, ht, hth]
  have hself : (c1.finish t o).th t = { todo := (c.th t).todo.tail, stage := .idle, results := (c.th t).results ++ [o] } := by
    change upd c1.th t _ t = _
    simp [upd, hth]
  have hne : ∀ t' b' k, ((c1.finish t o).th t').stage.pend = some (b', k) → t' ≠ t ∧ (c.th t').stage.pend = some (b', k) := by
    intro t' b' k h1
    have ht : t' ≠ t := by rintro rfl; rw [hself] at h1; cases h1
    rw [hoth t' ht] at h1
    exact ⟨ht, h1⟩
  refine ⟨h.run, h.geom.trans hgeo, hcnt.trans h.count, ?_, ?_, ?_, ?_, ?_, ?_, ?_, ?_, ?_, ?_, ?_⟩
  · intro b' k
    change c1.grid.slot b' k = _ ∨ _
    rw [hslot b' k]
    by_cases hc : b' = b ∧ k = l ∧ l < a.cap
    · rw [if_pos hc]
      obtain ⟨rfl, rfl, h3⟩ := hc
      exact Or.inl (h.pslot t _ _ e es hp htodo h3).symm
    · rw [if_neg hc]
      rcases h.slot b' k with h1 | ⟨t', h1, h2⟩
      · exact Or.inl h1
      · refine Or.inr ⟨t', ?_, h2⟩
        rw [hoth]
        · exact h1
        · rintro rfl
          rw [hp] at h1
          simp only [Option.some.injEq, Prod.mk.injEq] at h1
          exact hc ⟨h1.1.symm, h1.2.symm, by omega⟩
  · intro t' b' k e' es' h1 h2
    obtain ⟨ht, h1⟩ := hne t' b' k h1
    rw [hoth t' ht] at h2
    exact h.pslot t' b' k e' es' h1 h2
  · intro t' b' h1
    change c1.owner b' = _
    rw [howner]
    have ht : t' ≠ t := by rintro rfl; rw [hself] at h1; cases h1
    rw [hoth t' ht] at h1
    exact h.own t' b' h1
  · intro t' b' h1
    change c1.owner b' = _ at h1
    rw [howner] at h1
    have h2 := h.owned t' b' h1
    have ht : t' ≠ t := by rintro rfl; rw [hs] at h2; cases h2
    rw [hoth t' ht]; exact h2
  · intro hm t'
    by_cases ht : t' = t
    · subst ht; rw [hself]; rfl
    · rw [hoth t' ht]; exact h.noLock hm t'
  · intro t' b' k h1
    have ht : t' ≠ t := by rintro rfl; rw [hself] at h1; cases h1
    rw [hoth t' ht] at h1
    exact h.loaded t' b' k h1
  · intro t' b' k h1
    exact h.fresh t' b' k (hne t' b' k h1).2
  · intro t' t'' b' k h1 h2
    exact h.uniq t' t'' b' k (hne t' b' k h1).2 (hne t'' b' k h2).2
  · intro t' b' h1
    have ht : t' ≠ t := by rintro rfl; rw [hself] at h1; cases h1
    rw [hoth t' ht] at h1 ⊢
    exact h.head t' b' h1
  · intro t'
    have := h.calls t'
    by_cases ht : t' = t
    · subst ht
      rw [hself]
      unfold Thread.rest at this ⊢
      rw [hp] at this
      exact this
    · rw [hoth t' ht]; exact this
  · intro t'
    have := h.results t'
    by_cases ht : t' = t
    · subst ht
      rw [hself, this, hs, ho]
      simp [Stage.result, Stage.pend]
    · rw [hoth t' ht]; exact this

/-- Every step preserves the invariant and appends at most one call, of the thread that makes the step. -/
theorem CInv.step (h : CInv mode g0 progs c ord a outs) {t : Nat} {c' : Conc F D} (hs : c.step mode t = some c') :
    ∃ ext a' outs', CInv mode g0 progs c' (ord ++ ext) a' outs' := by
  unfold Conc.step at hs
  split at hs
  · cases hs
  rename_i e es htodo
  split at hs
  · rename_i hidle
    have hblk : c.grid.block? e.1 = a.block? e.1 := h.geom.block e.1
    split at hs
    · cases hs
    rename_i b hb
    rw [hblk] at hb
    rw [h.geom.inRange] at hs
    split at hs
    · rename_i hr
      split at hs
      · injection hs with hs
        rw [← hs, h.count]
        obtain ⟨a', outs', hh⟩ := h.increment (t := t) (st := .counted b (a.count b)) htodo (by rw [hidle]; rfl) hb hr rfl rfl
          (by rw [hidle]; rfl)
          (fun t' l _ hl => by have := h.noLock rfl t'; rw [hl] at this; cases this) (fun _ _ hl => by cases hl)
        exact ⟨_, _, _, hh⟩
      · split at hs
        · rename_i hfree
          injection hs with hs
          rw [← hs]
          refine ⟨[], a, outs, ?_⟩
          rw [List.append_nil]
          refine h.silent (t := t) (st := .locked b) (by rw [hidle]; rfl) ?_ (fun hm => by cases hm) (fun _ _ hl => by cases hl) ?_
          · intro t' b'
            change _ ↔ (if b' = b then some t else c.owner b') = some t'
            by_cases ht : t' = t
            · subst ht
              rw [if_pos rfl]
              constructor
              · intro h1; injection h1 with h1; rw [if_pos h1.symm]
              · intro h1
                split at h1
                · rename_i hb'; rw [hb']; rfl
                · have := h.owned _ _ h1; rw [hidle] at this; cases this
            · rw [if_neg ht]
              constructor
              · intro h1
                have := h.own _ _ h1
                rw [if_neg]
                · exact this
                · rintro rfl; rw [hfree] at this; cases this
              · intro h1
                split at h1
                · injection h1 with h1; exact absurd h1.symm ht
                · exact h.owned _ _ h1
          · intro b' h1
            injection h1 with h1
            subst h1
            exact ⟨e, es, htodo, hb, hr⟩
        · cases hs
    · rename_i hr
      injection hs with hs
      rw [← hs]
      exact ⟨_, _, _, h.outside htodo hidle hb hr⟩
  · rename_i b hst
    injection hs with hs
    rw [← hs]
    refine ⟨[], a, outs, ?_⟩
    rw [List.append_nil]
    refine h.silent (t := t) (st := .loaded b (c.grid.count b)) (owner' := c.owner) (by rw [hst]; rfl) ?_ ?_ ?_ ?_
    · intro t' b'
      have : ((if t' = t then (.loaded b (c.grid.count b) : Stage D) else (c.th t').stage).holds = some b') ↔ (c.th t').stage.holds = some b' := by
        split
        · rename_i ht; subst ht; rw [hst]; rfl
        · rfl
      rw [this]
      exact ⟨h.own t' b', h.owned t' b'⟩
    · intro hm; have := h.noLock hm t; rw [hst] at this; cases this
    · intro b' l hl
      injection hl with h1 h2
      subst h1 h2
      rw [h.count]
    · intro b' hb'
      have := h.head t b' (by rw [hst]; exact hb')
      exact this
  · rename_i b l hst
    injection hs with hs
    obtain ⟨e', es', h1, h2, h3⟩ := h.head t b (by rw [hst]; rfl)
    have hl := h.loaded t b l hst
    obtain ⟨a', outs', hh⟩ := h.increment (t := t) (st := .written b (a.count b)) h1 (by rw [hst]; rfl) h2 h3 rfl rfl
      (by rw [hst]; rfl) (fun t' l' hne hl' => by
        have o1 := h.own t b (by rw [hst]; rfl)
        have o2 := h.own t' b (by rw [hl']; rfl)
        rw [o1] at o2
        injection o2 with o2
        exact hne o2.symm) (fun _ _ hl => by cases hl)
    rw [hl] at hh
    rw [← hs]
    exact ⟨_, _, _, hh⟩
  · rename_i b l hst
    injection hs with hs
    rw [← hs]
    refine ⟨[], a, outs, ?_⟩
    rw [List.append_nil]
    have ho := h.own t b (by rw [hst]; rfl)
    refine h.silent (t := t) (st := .counted b l) (by rw [hst]; rfl) ?_ (fun _ => rfl) (fun _ _ hl => by cases hl) ?_
    · intro t' b'
      change _ ↔ (if b' = b then none else c.owner b') = some t'
      by_cases ht : t' = t
      · subst ht
        rw [if_pos rfl]
        constructor
        · intro h1; cases h1
        · intro h1
          split at h1
          · cases h1
          · have := h.owned _ _ h1
            rw [hst] at this
            injection this with this
            rename_i hne
            exact absurd this.symm hne
      · rw [if_neg ht]
        constructor
        · intro h1
          have := h.own _ _ h1
          rw [if_neg]
          · exact this
          · rintro rfl
            rw [ho] at this
            injection this with this
            exact ht this.symm
        · intro h1
          split at h1
          · cases h1
          · exact h.owned _ _ h1
    · intro b' hb'
      exact h.head t b' (by rw [hst]; exact hb')
  · rename_i b l hst
    have hcap : c.grid.cap = a.cap := h.geom.cap
    rw [hcap] at hs
    refine ⟨[], a, outs, ?_⟩
    rw [List.append_nil]
    split at hs
    · rename_i hc
      injection hs with hs
      rw [← hs]
      refine h.finish htodo hst rfl rfl (SameGeom.refl _) rfl ?_ ?_
      · intro b' k; rw [if_neg (by omega)]
      · unfold Stage.result; simp only [Stage.pend]; rw [if_pos hc]
    · rename_i hc
      injection hs with hs
      rw [← hs]
      refine h.finish htodo hst rfl rfl ⟨rfl, rfl, rfl, rfl⟩ rfl ?_ ?_
      · intro b' k
        change (if b' = b then upd (c.grid.slot b) l e.2 else c.grid.slot b') k = _
        by_cases hb' : b' = b
        · subst hb'
          simp only [if_true, upd]
          by_cases hk : k = l
          · rw [if_pos hk, if_pos ⟨trivial, hk, by omega⟩]
          · rw [if_neg hk, if_neg (fun z => hk z.2.1)]
        · rw [if_neg hb', if_neg (fun z => hb' z.1)]
      · unfold Stage.result; simp only [Stage.pend]; rw [if_neg hc]

theorem CInv.reach (h : CInv mode g0 progs c ord a outs) {c' : Conc F D} (hr : Conc.Reach mode c c') :
    ∃ ext a' outs', CInv mode g0 progs c' (ord ++ ext) a' outs' := by
  induction hr with
  | refl => exact ⟨[], a, outs, by rw [List.append_nil]; exact h⟩
  | step t _ hs ih =>
    obtain ⟨ext, a', outs', hh⟩ := ih
    obtain ⟨ext', a'', outs'', hh'⟩ := hh.step hs
    exact ⟨ext ++ ext', a'', outs'', by rw [← List.append_assoc]; exact hh'⟩

/-! ### What the calls leave in the grid -/

theorem callsIn_geom {g g' : Grid F D} (h : SameGeom g g') (b : Blk D) (calls : List (Vec F D × Nat)) : callsIn g' b calls = callsIn g b calls := by
  unfold callsIn
  simp only [h.block]

/-- What the calls `ord` do to `g`. -/
def CallsDone (g : Grid F D) (ord : List (Nat × Vec F D × Nat)) (a : Grid F D) (outs : List (Nat × Outcome)) : Prop :=
    SameGeom g a ∧
    (∀ b, g.inRange b = true → a.count b = g.count b + (callsIn g b (ord.map (·.2))).length) ∧
    (∀ b, g.inRange b = true → ∀ k, k < g.count b → a.slot b k = g.slot b k) ∧
    (∀ b, g.inRange b = true → ∀ k, k < (callsIn g b (ord.map (·.2))).length → g.count b + k < g.cap →
      a.slot b (g.count b + k) = (callsIn g b (ord.map (·.2))).getD k 0) ∧
    ((∃ t, (t, Outcome.full) ∈ outs) ↔ ∃ b, g.inRange b = true ∧ callsIn g b (ord.map (·.2)) ≠ [] ∧
      g.cap < g.count b + (callsIn g b (ord.map (·.2))).length)

theorem storeCalls_spec (ord : List (Nat × Vec F D × Nat)) : ∀ (g : Grid F D) {a : Grid F D} {outs : List (Nat × Outcome)},
    g.storeCalls ord = some (a, outs) → CallsDone g ord a outs := by
  induction ord with
  | nil =>
    intro g a outs h
    simp only [Grid.storeCalls, Option.some.injEq, Prod.mk.injEq] at h
    obtain ⟨rfl, rfl⟩ := h
    refine ⟨SameGeom.refl _, fun _ _ => by simp [callsIn], fun _ _ _ _ => rfl, fun _ _ _ hk => by simp [callsIn] at hk, ?_⟩
    simp [callsIn]
  | cons e ord ih =>
    obtain ⟨t0, x0, p0⟩ := e
    intro g a outs h
    simp only [Grid.storeCalls] at h
    cases hb : g.block? x0 with
    | none =>
      have : g.store x0 p0 = .ub := by unfold Grid.store; rw [hb]
      rw [this] at h; cases h
    | some b0 =>
      have hcons : ∀ b, callsIn g b (((t0, x0, p0) :: ord).map (·.2)) = if b = b0 then p0 :: callsIn g b (ord.map (·.2)) else callsIn g b (ord.map (·.2)) := by
        intro b
        unfold callsIn
        rw [List.map_cons, List.filter_cons]
        simp only [hb, Option.some.injEq]
        by_cases hbb : b = b0
        · subst hbb; simp
        · rw [if_neg hbb, if_neg (by simpa using fun k => hbb k.symm)]
      by_cases hr : g.inRange b0 = true
      · set g1 : Grid F D := { g with count := fun b' => if b' = b0 then g.count b0 + 1 else g.count b' } with hg1
        have main : ∀ (g' : Grid F D) (o : Outcome), SameGeom g g' → g'.count = g1.count →
            (∀ b k, g'.slot b k = if b = b0 ∧ k = g.count b0 ∧ g.count b0 < g.cap then p0 else g.slot b k) →
            (o = .full ↔ g.cap ≤ g.count b0) →
            (g'.storeCalls ord).map (fun r => (r.1, (t0, o) :: r.2)) = some (a, outs) →
            CallsDone g ((t0, x0, p0) :: ord) a outs := by
          intro g' o hgeo hcnt hslot ho hrun
          rw [Option.map_eq_some_iff] at hrun
          obtain ⟨⟨a', o'⟩, h1, h2⟩ := hrun
          simp only [Prod.mk.injEq] at h2
          obtain ⟨rfl, rfl⟩ := h2
          obtain ⟨i1, i2, i3, i4, i5⟩ := ih g' h1
          have hc : ∀ b, g'.count b = if b = b0 then g.count b0 + 1 else g.count b := fun b => by rw [hcnt]
          have hci : ∀ b, callsIn g' b (ord.map (·.2)) = callsIn g b (ord.map (·.2)) := fun b => callsIn_geom hgeo b _
          refine ⟨hgeo.trans i1, ?_, ?_, ?_, ?_⟩
          · intro b hbr
            rw [i2 b (by rw [hgeo.inRange]; exact hbr), hci, hc, hcons]
            split
            · rename_i e; subst e; rw [List.length_cons]; omega
            · rfl
          · intro b hbr k hk
            rw [i3 b (by rw [hgeo.inRange]; exact hbr) k (by rw [hc]; split <;> [(rename_i e; subst e; omega); exact hk]), hslot, if_neg]
            rintro ⟨rfl, rfl, -⟩; omega
          · intro b hbr k hk hcap
            rw [hcons] at hk ⊢
            by_cases hbb : b = b0
            · subst hbb
              rw [if_pos rfl] at hk ⊢
              cases k with
              | zero =>
                rw [Nat.add_zero, i3 b (by rw [hgeo.inRange]; exact hbr) _ (by rw [hc, if_pos rfl]; omega), hslot, if_pos ⟨rfl, rfl, by omega⟩]
                rfl
              | succ k =>
                rw [List.length_cons] at hk
                have := i4 b (by rw [hgeo.inRange]; exact hbr) k (by rw [hci]; omega) (by rw [hc, if_pos rfl, hgeo.cap]; omega)
                rw [hc, if_pos rfl, hci] at this
                rw [List.getD_cons_succ, ← this]
                congr 1; omega
            · rw [if_neg hbb] at hk ⊢
              have := i4 b (by rw [hgeo.inRange]; exact hbr) k (by rw [hci]; omega) (by rw [hc, if_neg hbb, hgeo.cap]; omega)
              rw [hc, if_neg hbb, hci] at this
              exact this
          · constructor
            · rintro ⟨t, ht⟩
              rcases List.mem_cons.mp ht with ht | ht
              · injection ht with _ ht
                have := ho.mp ht.symm
                refine ⟨b0, hr, ?_, ?_⟩
                · rw [hcons, if_pos rfl]; simp
                · rw [hcons, if_pos rfl, List.length_cons]; omega
              · obtain ⟨b, hbr, hne, hlt⟩ := i5.mp ⟨t, ht⟩
                rw [hci] at hne hlt
                rw [hgeo.cap, hc] at hlt
                rw [hgeo.inRange] at hbr
                refine ⟨b, hbr, ?_, ?_⟩
                · rw [hcons]; split
                  · simp
                  · exact hne
                · rw [hcons]
                  split at hlt
                  · rename_i e; subst e; rw [if_pos rfl, List.length_cons]; omega
                  · rename_i e; rw [if_neg e]; exact hlt
            · rintro ⟨b, hbr, hne, hlt⟩
              rw [hcons] at hne hlt
              by_cases hf : g.cap ≤ g.count b0
              · exact ⟨t0, by rw [ho.mpr hf]; simp⟩
              · by_cases hbb : b = b0
                · subst hbb
                  rw [if_pos rfl, List.length_cons] at hlt
                  have hne' : callsIn g b (ord.map (·.2)) ≠ [] := by
                    intro h0
                    rw [h0] at hlt
                    simp at hlt; omega
                  obtain ⟨t, ht⟩ := i5.mpr ⟨b, by rw [hgeo.inRange]; exact hbr, by rw [hci]; exact hne', by rw [hgeo.cap, hc, if_pos rfl, hci]; omega⟩
                  exact ⟨t, by simp [ht]⟩
                · rw [if_neg hbb] at hne hlt
                  obtain ⟨t, ht⟩ := i5.mpr ⟨b, by rw [hgeo.inRange]; exact hbr, by rw [hci]; exact hne, by rw [hgeo.cap, hc, if_neg hbb, hci]; omega⟩
                  exact ⟨t, by simp [ht]⟩
        by_cases hfull : g.count b0 ≥ g.cap
        · have hst : g.store x0 p0 = .full g1 := by
            unfold Grid.store; rw [hb]; simp only; rw [if_pos hr, if_pos hfull]
          rw [hst] at h
          refine main g1 .full ⟨rfl, rfl, rfl, rfl⟩ rfl ?_ ?_ h
          · intro b k; rw [if_neg (by omega)]
          · simpa using hfull
        · have hst : g.store x0 p0 = .stored { g1 with slot := fun b' => if b' = b0 then upd (g.slot b0) (g.count b0) p0 else g.slot b' } := by
            unfold Grid.store; rw [hb]; simp only; rw [if_pos hr, if_neg hfull]
          rw [hst] at h
          refine main { g1 with slot := fun b' => if b' = b0 then upd (g.slot b0) (g.count b0) p0 else g.slot b' } .stored
            ⟨rfl, rfl, rfl, rfl⟩ rfl ?_ ?_ h
          · intro b k
            change (if b = b0 then upd (g.slot b0) (g.count b0) p0 else g.slot b) k = _
            by_cases hbb : b = b0
            · subst hbb
              simp only [if_true, upd]
              by_cases hk : k = g.count b
              · rw [if_pos hk, if_pos ⟨trivial, hk, by omega⟩]
              · rw [if_neg hk, if_neg (fun z => hk z.2.1)]
            · rw [if_neg hbb, if_neg (fun z => hbb z.1)]
          · simp only [reduceCtorEq, false_iff]; omega
      · have hst : g.store x0 p0 = .outside g := by
          unfold Grid.store; rw [hb]; simp only; rw [if_neg hr]
        rw [hst] at h
        simp only at h
        rw [Option.map_eq_some_iff] at h
        obtain ⟨⟨a', o'⟩, h1, h2⟩ := h
        simp only [Prod.mk.injEq] at h2
        obtain ⟨rfl, rfl⟩ := h2
        have hcons' : ∀ b, g.inRange b = true → callsIn g b (((t0, x0, p0) :: ord).map (·.2)) = callsIn g b (ord.map (·.2)) := by
          intro b hbr
          rw [hcons, if_neg]
          rintro rfl; exact hr hbr
        obtain ⟨i1, i2, i3, i4, i5⟩ := ih g h1
        refine ⟨i1, ?_, i3, ?_, ?_⟩
        · intro b hbr; rw [hcons' b hbr]; exact i2 b hbr
        · intro b hbr; rw [hcons' b hbr]; exact i4 b hbr
        · have : (∃ t, (t, Outcome.full) ∈ (t0, Outcome.outside) :: o') ↔ ∃ t, (t, Outcome.full) ∈ o' := by simp
          rw [this, i5]
          apply exists_congr
          intro b
          apply and_congr_right
          intro hbr
          rw [hcons' b hbr]

theorem flatMap_insert {α : Type} {f f' : Nat → List α} {t : Nat} {a : α} (hf : f' t = a :: f t) (hf' : ∀ s, s ≠ t → f' s = f s) :
    ∀ (ts : List Nat), ts.Nodup → t ∈ ts → (ts.flatMap f').Perm (a :: ts.flatMap f) := by
  intro ts
  induction ts with
  | nil => intro _ h; cases h
  | cons s ts ih =>
    intro hn hm
    rw [List.flatMap_cons, List.flatMap_cons]
    by_cases hs : s = t
    · subst hs
      have : ts.flatMap f' = ts.flatMap f := by
        have hnot := (List.nodup_cons.mp hn).1
        apply List.flatMap_congr
        intro k hk
        exact hf' k (by rintro rfl; exact hnot hk)
      rw [hf, this, List.cons_append]
    · rw [hf' s hs]
      have := ih (List.nodup_cons.mp hn).2 (by simpa [Ne.symm hs] using hm)
      exact (List.Perm.append_left _ this).trans List.perm_middle

theorem perm_of_threads {α : Type} (l : List (Nat × α)) (T : Nat) (h : ∀ e ∈ l, e.1 < T) :
    (l.map (·.2)).Perm ((List.range T).flatMap (fun t => ofThread t l)) := by
  induction l with
  | nil => simp [ofThread]
  | cons e l ih =>
    obtain ⟨t, a⟩ := e
    rw [List.map_cons]
    refine List.Perm.trans (List.Perm.cons _ (ih (fun e he => h e (by simp [he])))) ?_
    refine (flatMap_insert (f := fun t => ofThread t l) (t := t) ?_ ?_ _ List.nodup_range ?_).symm
    · simp [ofThread]
    · intro s hs; simp [ofThread, Ne.symm hs]
    · simpa using h (t, a) (by simp)

end OpenMps
