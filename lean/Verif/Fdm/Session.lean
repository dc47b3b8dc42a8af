import Verif.Fdm.PropsAsm
/-!
# Sessions: settings changed between the steps of one solution

`Sess` adds calls of `set_well` and `set_boundaries` after compiling to the calls of `solve` and `run` of `Hist`. The constructors carry the conditions under which such
a call takes effect (`WellTakes`, `BoundsTake`); without them it does not, see `PropsSession`.
-/
set_option linter.unusedSectionVars false
namespace RF.Fdm
open RF RF.Dims Finset

variable {K : Type} [Field K] [LinearOrder K] [IsStrictOrderedRing K]

/-! ### `set_boundaries` on a compiled model -/

/-- The solution after `set_boundaries`: rows of earlier steps are kept, and of the present one all cells in `keep`. -/
structure Rewritten (keep : ℕ → Prop) (s s' : Sol K) : Prop where
  eq : ∃ p r, s' = { s with press := p, rates := r }
  plen : s'.press.length = s.press.length
  rlen : s'.rates.length = s.rates.length
  past : ∀ t, t ≠ s.tstep → rowAt s'.press t none = rowAt s.press t none ∧ rowAt s'.rates t 0 = rowAt s.rates t 0
  now : ∀ k, keep k → rowAt s'.press s.tstep none k = rowAt s.press s.tstep none k ∧ rowAt s'.rates s.tstep 0 k = rowAt s.rates s.tstep 0 k
  zero : s.tstep = 0 → s' = s

lemma Rewritten.refl (keep : ℕ → Prop) (s : Sol K) : Rewritten keep s s :=
  ⟨⟨s.press, s.rates, rfl⟩, rfl, rfl, fun _ _ => ⟨rfl, rfl⟩, fun _ _ => ⟨rfl, rfl⟩, fun _ => rfl⟩

lemma Rewritten.tstep {keep : ℕ → Prop} {s s' : Sol K} (h : Rewritten keep s s') : s'.tstep = s.tstep := by
  obtain ⟨p, r, rfl⟩ := h.eq; rfl

lemma Rewritten.trans {keep keep' : ℕ → Prop} {s s' s'' : Sol K} (h : Rewritten keep s s') (h' : Rewritten keep' s' s'') : Rewritten (fun k => keep k ∧ keep' k) s s'' := by
  have ht := h.tstep
  refine ⟨?_, h'.plen.trans h.plen, h'.rlen.trans h.rlen, fun t hn => ?_, fun k hk => ?_, fun h0 => ?_⟩
  · obtain ⟨p, r, rfl⟩ := h.eq; obtain ⟨p', r', rfl⟩ := h'.eq; exact ⟨p', r', rfl⟩
  · exact ⟨(h'.past t (by rw [ht]; exact hn)).1.trans (h.past t hn).1, (h'.past t (by rw [ht]; exact hn)).2.trans (h.past t hn).2⟩
  · have h2 := h'.now k hk.2
    rw [ht] at h2
    exact ⟨h2.1.trans (h.now k hk.1).1, h2.2.trans (h.now k hk.1).2⟩
  · rw [h'.zero (by rw [ht]; exact h0), h.zero h0]

lemma Rewritten.mono {keep keep' : ℕ → Prop} {s s' : Sol K} (h : Rewritten keep s s') (hk : ∀ k, keep' k → keep k) : Rewritten keep' s s' :=
  ⟨h.eq, h.plen, h.rlen, h.past, fun k hk' => h.now k (hk k hk'), h.zero⟩

lemma rowAt_modify_ne {α : Type} {l : List (ℕ → α)} {f : (ℕ → α) → ℕ → α} {n t : ℕ} (h : t ≠ n) (z : α) : rowAt (l.modify n f) t z = rowAt l t z := by
  unfold rowAt; rw [List.getD_eq_getElem?_getD, List.getD_eq_getElem?_getD, List.getElem?_modify_ne _ _ (Ne.symm h)]

lemma rowAt_modify_eq {α : Type} {l : List (ℕ → α)} {f : (ℕ → α) → ℕ → α} {t : ℕ} (h : t < l.length) (z : α) : rowAt (l.modify t f) t z = f (rowAt l t z) := by
  unfold rowAt
  rw [List.getD_eq_getElem?_getD, List.getD_eq_getElem?_getD, List.getElem?_modify_eq, List.getElem?_eq_getElem h]; rfl

/-- What setting one condition does to a compiled model. -/
structure BoundSet (lower : String → String) (e : Env K) (id : ℕ) (cond : String) (v : K) (m m' : Mdl K) (s s' : Sol K) : Prop where
  mdl : m'.bdict = m.bdict ∧ m'.bUpdate = m.bUpdate ∧ m'.wells = m.wells ∧ m'.wPress = m.wPress ∧ m'.terms = m.terms
  sol : Rewritten (· ≠ id) s s'
  rate : kindOf (lower cond) = some .rate → s.tstep ≠ 0 → rowAt s'.rates s.tstep 0 id = v
  grad : kindOf (lower cond) = some .gradient → s.tstep ≠ 0 → gradientRate e id v = .ok (rowAt s'.rates s.tstep 0 id)
  known : kindOf (lower cond) ≠ none
  press : kindOf (lower cond) = some .pressure → rowAt s'.rates s.tstep 0 id = rowAt s.rates s.tstep 0 id

lemma setRate_live {m : Mdl K} {s : Sol K} (hr : s.rates.length = s.tstep + 1) (id : ℕ) (v : K) :
    ∃ m' s', setRate m (some s) id v = (m', some s') ∧ (m'.bdict = m.bdict ∧ m'.bUpdate = m.bUpdate ∧ m'.wells = m.wells ∧ m'.wPress = m.wPress ∧ m'.terms = m.terms) ∧
      Rewritten (· ≠ id) s s' ∧ (s.tstep ≠ 0 → rowAt s'.rates s.tstep 0 id = v) := by
  unfold setRate
  dsimp only
  split_ifs with h0
  · exact ⟨_, s, rfl, ⟨rfl, rfl, rfl, rfl, rfl⟩, .refl _ s, fun h => absurd h0 h⟩
  · refine ⟨_, _, rfl, ⟨rfl, rfl, rfl, rfl, rfl⟩, ⟨⟨_, _, rfl⟩, rfl, by simp, fun t ht => ⟨rfl, rowAt_modify_ne ht _⟩, fun k hk => ⟨rfl, ?_⟩, fun h => absurd h h0⟩, fun _ => ?_⟩
    · rw [rowAt_modify_eq (by omega)]; exact Function.update_of_ne hk _ _
    · rw [rowAt_modify_eq (by omega)]; exact Function.update_self _ _ _

lemma setPressure_live {m : Mdl K} {s : Sol K} (hp : s.press.length = s.tstep + 1) (id : ℕ) (v : K) :
    ∃ m' s', setPressure m (some s) id v = (m', some s') ∧ (m'.bdict = m.bdict ∧ m'.bUpdate = m.bUpdate ∧ m'.wells = m.wells ∧ m'.wPress = m.wPress ∧ m'.terms = m.terms) ∧
      Rewritten (· ≠ id) s s' ∧ s'.rates = s.rates := by
  unfold setPressure
  dsimp only
  split_ifs with h0
  · exact ⟨_, s, rfl, ⟨rfl, rfl, rfl, rfl, rfl⟩, .refl _ s, rfl⟩
  · refine ⟨_, _, rfl, ⟨rfl, rfl, rfl, rfl, rfl⟩, ⟨⟨_, _, rfl⟩, by simp, rfl, fun t ht => ⟨rowAt_modify_ne ht _, rfl⟩, fun k hk => ⟨?_, rfl⟩, fun h => absurd h h0⟩, rfl⟩
    rw [rowAt_modify_eq (by omega)]; exact Function.update_of_ne hk _ _

lemma setBoundary_live {lower : String → String} {e : Env K} {m m' : Mdl K} {s : Sol K} (hp : s.press.length = s.tstep + 1) (hr : s.rates.length = s.tstep + 1) {id : ℕ}
    {cond : String} {v : K} {o : Option (Sol K)} (h : setBoundary lower e m (some s) id cond v = ((m', o), .ok ())) :
    ∃ s', o = some s' ∧ BoundSet lower e id cond v m m' s s' := by
  unfold setBoundary at h
  split_ifs at h with h1 h2 h3
  · obtain ⟨m1, s1, a1, a2, a3, a4⟩ := setRate_live (m := m) hr id v
    rw [a1] at h
    simp only [Prod.mk.injEq, and_true] at h
    obtain ⟨rfl, rfl⟩ := h
    have hk : kindOf (lower cond) = some .rate := by unfold kindOf; rw [if_pos h1]
    exact ⟨s1, rfl, a2, a3, fun _ => a4, by rw [hk]; simp, by rw [hk]; simp, by rw [hk]; simp⟩
  · obtain ⟨m1, s1, a1, a2, a3, a4⟩ := setPressure_live (m := m) hp id v
    rw [a1] at h
    simp only [Prod.mk.injEq, and_true] at h
    obtain ⟨rfl, rfl⟩ := h
    have hk : kindOf (lower cond) = some .pressure := by unfold kindOf; rw [if_neg h1, if_pos h2]
    exact ⟨s1, rfl, a2, a3, by rw [hk]; simp, by rw [hk]; simp, by rw [hk]; simp, fun _ => by rw [a4]⟩
  · split at h
    · rename_i q hq
      obtain ⟨m1, s1, a1, a2, a3, a4⟩ := setRate_live (m := m) hr id q
      rw [a1] at h
      simp only [Prod.mk.injEq, and_true] at h
      obtain ⟨rfl, rfl⟩ := h
      have hk : kindOf (lower cond) = some .gradient := by unfold kindOf; rw [if_neg h1, if_neg h2, if_pos h3]
      exact ⟨s1, rfl, a2, a3, by rw [hk]; simp, fun _ h0 => by rw [hq, a4 h0], by rw [hk]; simp, by rw [hk]; simp⟩
    · simp at h
  · simp at h

/-- What setting conditions does to a compiled model. -/
structure BoundsSet (lower : String → String) (e : Env K) (b : List (ℕ × String × K)) (m m' : Mdl K) (s s' : Sol K) : Prop where
  mdl : m'.wells = m.wells ∧ m'.wPress = m.wPress ∧ m'.terms = m.terms
  mem : ∀ x, x ∈ b → x.1 ∈ e.bnd
  sol : Rewritten (fun k => k ∉ b.map (·.1)) s s'
  rate : s.tstep ≠ 0 → ∀ x, x ∈ b → kindOf (lower x.2.1) = some .rate → rowAt s'.rates s.tstep 0 x.1 = x.2.2
  grad : s.tstep ≠ 0 → ∀ x, x ∈ b → kindOf (lower x.2.1) = some .gradient → gradientRate e x.1 x.2.2 = .ok (rowAt s'.rates s.tstep 0 x.1)
  known : ∀ x, x ∈ b → kindOf (lower x.2.1) ≠ none

lemma boundaryLoop_live {lower : String → String} {e : Env K} (l : List (ℕ × String × K)) {m m' : Mdl K} {s : Sol K} (hp : s.press.length = s.tstep + 1)
    (hr : s.rates.length = s.tstep + 1) {o : Option (Sol K)} (hk : (l.map (·.1)).Nodup) (h : setBoundaryLoop lower e m (some s) l = ((m', o), .ok ())) :
    ∃ s', o = some s' ∧ m'.bdict = m.bdict ∧ m'.bUpdate = m.bUpdate ∧ BoundsSet lower e l m m' s s' := by
  induction l generalizing m s with
  | nil =>
    simp only [setBoundaryLoop, Prod.mk.injEq, and_true] at h
    obtain ⟨rfl, rfl⟩ := h
    exact ⟨s, rfl, rfl, rfl, ⟨rfl, rfl, rfl⟩, by simp, (Rewritten.refl (fun _ => True) s).mono (by simp), by simp, by simp, by simp⟩
  | cons x l ih =>
    obtain ⟨id, cond, v⟩ := x
    rw [List.map_cons, List.nodup_cons] at hk
    unfold setBoundaryLoop at h
    split_ifs at h with hb
    · split at h
      · rename_i m1 o1 h1
        obtain ⟨s1, rfl, a⟩ := setBoundary_live hp hr h1
        have ht := a.sol.tstep
        obtain ⟨s2, rfl, b1, b2, b⟩ := ih (by rw [a.sol.plen, ht]; exact hp) (by rw [a.sol.rlen, ht]; exact hr) hk.2 h
        obtain ⟨c1, c2, c3, c4, c5⟩ := a.mdl
        obtain ⟨d1, d2, d3⟩ := b.mdl
        have hid := b.sol.now id hk.1
        rw [ht] at hid
        refine ⟨s2, rfl, b1.trans c1, b2.trans c2, ⟨d1.trans c3, d2.trans c4, d3.trans c5⟩, ?_, ?_, ?_, ?_, ?_⟩
        · rintro y hy
          rcases List.mem_cons.1 hy with rfl | hy
          · exact hb
          · exact b.mem y hy
        · refine (a.sol.trans b.sol).mono fun k hk' => ?_
          simpa only [List.map_cons, List.mem_cons, not_or] using hk'
        · intro h0 y hy hky
          rcases List.mem_cons.1 hy with rfl | hy
          · dsimp only; rw [hid.2]; exact a.rate hky h0
          · rw [← ht]; exact b.rate (by rw [ht]; exact h0) y hy hky
        · intro h0 y hy hky
          rcases List.mem_cons.1 hy with rfl | hy
          · dsimp only; rw [hid.2]; exact a.grad hky h0
          · rw [← ht]; exact b.grad (by rw [ht]; exact h0) y hy hky
        · intro y hy
          rcases List.mem_cons.1 hy with rfl | hy
          · exact a.known
          · exact b.known y hy
      · simp at h
    · simp at h

lemma setBoundaries_live {lower : String → String} {e : Env K} {b : List (ℕ × String × K)} {m m' : Mdl K} {s : Sol K} (hp : s.press.length = s.tstep + 1)
    (hr : s.rates.length = s.tstep + 1) {o : Option (Sol K)} (hk : (b.map (·.1)).Nodup) (h : setBoundaries lower e m (some s) b = ((m', o), .ok ())) :
    ∃ s', o = some s' ∧ m'.bdict = b ∧ m'.bUpdate = (b.filter fun x => decide (x.2.1 = "pressure")).map (·.1) ∧ BoundsSet lower e b m m' s s' := by
  unfold setBoundaries at h
  split at h
  · rename_i m1 s1 h1
    obtain ⟨s', rfl, a1, a2, a⟩ := boundaryLoop_live b hp hr hk h1
    simp only [Prod.mk.injEq, and_true] at h
    obtain ⟨rfl, rfl⟩ := h
    exact ⟨s', rfl, a1, rfl, a.mdl, a.mem, a.sol, a.rate, a.grad, a.known⟩
  · rename_i x hx
    rw [h] at hx
    exact absurd rfl (hx m' o)

/-! ### sessions -/

/-- No step was attempted yet. -/
def Sol.Unsolved (s : Sol K) : Prop := s.As.length = 1

/-- Calls of `set_well` that take effect on a solution that uses one assembler only: before the first step; with the vectorised one, on a new well or one under rate
constraint, or on one that is under pressure constraint before and after with the same well index; with the symbolic one, on an existing well that is under pressure
constraint afterwards. -/
def WellTakes (vect : Bool) (m m' : Mdl K) (s : Sol K) (id : ℕ) : Prop :=
  s.Unsolved ∨
  (vect = true ∧ ((∀ w, dictGet m.wells id = some w → w.con = some .q) ∨
    ∃ w w', dictGet m.wells id = some w ∧ dictGet m'.wells id = some w' ∧ w'.con = some .pwf ∧ w'.G = w.G ∧ w.pwfsp ≠ some 0 ∧ w'.pwfsp ≠ some 0)) ∨
  (vect = false ∧ ∃ w w', dictGet m.wells id = some w ∧ dictGet m'.wells id = some w' ∧ w'.con = some .pwf)

/-- The pressure conditions among `b`. -/
def pressures (b : List (ℕ × String × K)) : List (ℕ × String × K) := b.filter fun x => decide (x.2.1 = "pressure")

/-- Calls of `set_boundaries` that take effect: with the symbolic assembler, before the first step; with the vectorised one, changes of pressure conditions before the
first step and changes of other conditions after it. -/
def BoundsTake (vect : Bool) (m : Mdl K) (s : Sol K) (b : List (ℕ × String × K)) : Prop :=
  if vect then (s.Unsolved ∨ pressures b = pressures m.bdict) ∧ (s.tstep ≠ 0 ∨ ∀ x, x ∈ b → x.2.1 ≠ "pressure" → x ∈ m.bdict) else s.Unsolved

/-- The states reachable from the model `m0` by calls of `solve` and `run` with one of the assemblers, without a well leaving its limit, and calls of `set_well` and
`set_boundaries` in between that take effect. -/
inductive Sess (c : Ctx K) (vect : Bool) (m0 : Mdl K) : Mdl K → Sol K → Prop
  | start : Sess c vect m0 m0 (Sol.init m0)
  | step {m s m' s'} (h : Sess c vect m0 m s) (ha : attempt c vect m s = .ok (m', s', false)) (hp : Calm vect m m') : Sess c vect m0 m' s'
  | again {m s m' s'} (h : Sess c vect m0 m s) (ha : attempt c vect m s = .ok (m', s', true)) (hp : Calm vect m m') : Sess c vect m0 m' s'.back
  | clock {m s} (n : ℕ) (t : K) (h : Sess c vect m0 m s) : Sess c vect m0 m { s with nsteps := n, ctime := t }
  | well {m s m'} {id : ℕ} {a : WellArgs K} (h : Sess c vect m0 m s) (hs : setWell c.e m (some s) (some id) a = (m', .ok ())) (ht : WellTakes vect m m' s id)
      (hw : ∀ w, dictGet m'.wells id = some w → w.con ≠ none ∧ ∀ G, w.G = some G → 0 < G) : Sess c vect m0 m' s
  | bounds {m s m' s'} {b : List (ℕ × String × K)} (h : Sess c vect m0 m s) (hb : (b.map (·.1)).Nodup)
      (hs : setBoundaries c.lower c.e m (some s) b = ((m', some s'), .ok ())) (ht : BoundsTake vect m s b)
      (hc : ∀ x, x ∈ b → (c.lower x.2.1 ∈ ["pressure", "press", "p"] ↔ x.2.1 = "pressure")) : Sess c vect m0 m' s'

/-- The rate a condition that is not a pressure condition imposes. -/
def Imposed (lower : String → String) (e : Env K) (x : ℕ × String × K) (q : K) : Prop :=
  (kindOf (lower x.2.1) = some .rate → q = x.2.2) ∧ (kindOf (lower x.2.1) = some .gradient → GradientFlow e x.1 x.2.2 q)

/-- What sessions keep. -/
structure Live (c : Ctx K) (vect : Bool) (m : Mdl K) (s : Sol K) : Prop where
  core : Core c.e m m s
  q : QInv c.lower c.e m s
  keys : s.vA ≠ none → ∀ k, s.resolve k = true → k ∈ m.wells.map (·.1)
  onlyV : vect = true → m.terms = [] ∧ s.sM = none
  onlyS : vect = false → s.vA = none
  fresh : s.Unsolved → s.vA = none ∧ m.terms = []
  As : s.As ≠ []
  rates : vect = true → ∀ x, x ∈ m.bdict → x.2.1 ≠ "pressure" → Imposed c.lower c.e x (rowAt s.rates s.tstep 0 x.1)

lemma Core.rebase {e : Env K} {m0 m : Mdl K} {s : Sol K} (h : Core e m0 m s) : Core e m m s := ⟨.refl _, h.mdl, h.plen, h.rlen, h.kept⟩

lemma onPwf_mem {ws : List (ℕ × Well K)} {k : ℕ} (h : onPwf ws k = true) : k ∈ ws.map (·.1) := by
  unfold onPwf at h
  simp only [List.any_eq_true] at h
  obtain ⟨x, hx, h⟩ := h
  simp only [decide_eq_true_eq] at h
  exact List.mem_map.2 ⟨x, hx, h.1.symm⟩

lemma Ready.imposed {c : Ctx K} {m0 : Mdl K} (hr : Ready c m0) : ∀ x, x ∈ m0.bdict → x.2.1 ≠ "pressure" → Imposed c.lower c.e x (m0.initR x.1) := by
  intro x hx _
  refine ⟨fun hk => ?_, fun hk => gradientRate_ok (hr.setup.gradient x hx hk)⟩
  have key : ∀ {m : Mdl K}, Setup c.lower c.e m → ∀ x, x ∈ m.bdict → kindOf (c.lower x.2.1) = some .rate → m.initR x.1 = x.2.2 := by
    intro m h
    induction h with
    | init pi => simp [Mdl.init]
    | bounds _ hb hs _ =>
      obtain ⟨-, a1, -, -, -, -, -, -, a8⟩ := setBoundaries_ok hb hs
      intro b hb' hk
      rw [a1] at hb'
      refine (a8 b hb').1 ?_
      by_contra h1
      unfold kindOf at hk
      rw [if_neg h1] at hk
      split_ifs at hk <;> simp at hk
    | well _ hs ih =>
      obtain ⟨k, req, r, G, w', wp, rfl, hk, -, -, -, rfl, hw'⟩ := setWell_ok hs
      exact ih
  exact key hr.setup x hx hk

lemma Live.start {c : Ctx K} {m0 : Mdl K} (hr : Ready c m0) (vect : Bool) : Live c vect m0 (Sol.init m0) := by
  refine ⟨(Inv.start hr.started.mdl).toCore, .start hr.started, by simp [Sol.init], fun _ => ⟨hr.started.terms, rfl⟩, fun _ => rfl, fun _ => ⟨rfl, hr.started.terms⟩,
    by simp [Sol.init], fun _ => hr.imposed⟩

lemma Live.attempt {c : Ctx K} (hc : CtxOK c) {vect again : Bool} {m m' : Mdl K} {s s' : Sol K} (h : Live c vect m s) (ha : Fdm.attempt c vect m s = .ok (m', s', again))
    (hp : Calm vect m m') : Live c vect m' s' := by
  obtain ⟨m1, s1, A, d, x, p, r', ps, hat⟩ := h.core.attempted hc.lower hc.wf ha
  have hq := h.q.attempt hc h.core hat hp.1
  have hkeys := hat.same.wells.keys
  have hAs : s'.As ≠ [] ∧ ¬ s'.Unsolved := by
    rw [hat.As]
    refine ⟨by simp, ?_⟩
    unfold Sol.Unsolved
    rw [hat.As, List.length_append, List.length_singleton]
    have := List.length_pos_of_ne_nil h.As
    omega
  refine ⟨hat.core.rebase, hq, ?_, ?_, ?_, fun h => absurd h hAs.2, hAs.1, ?_⟩
  · intro hv k hk
    rw [hat.vA] at hv
    rw [hat.resolve] at hk
    rw [hkeys]
    cases vect
    · have : s1.vA = s.vA ∧ s1.resolve = s.resolve := by
        have h1 := hat.asm
        unfold assemble matricesSymb at h1
        simp only [Bool.false_eq_true, if_false] at h1
        rw [ok_bind] at h1
        obtain ⟨⟨m2, eqs⟩, -, h1⟩ := h1
        simp only [ok_pure, Prod.mk.injEq] at h1
        obtain ⟨-, rfl, -, -⟩ := h1
        exact ⟨rfl, rfl⟩
      rw [this.1] at hv; rw [this.2] at hk
      exact h.keys hv k hk
    · obtain ⟨bV, res, hs1, -, hres, -⟩ := matricesVect_ok hc.lower hc.wf h.core.mdl h.core.vinv (assemble_vect hat.asm).2
      rw [hs1] at hk
      dsimp only at hk
      rw [hres, Bool.or_eq_true] at hk
      rcases hk with hk | hk
      · unfold flags at hk
        split_ifs at hk with h1
        exact h.keys (fun h2 => h1 (Or.inl h2)) k hk
      · exact onPwf_mem hk
  · rintro rfl
    obtain ⟨bV, res, hs1, -⟩ := matricesVect_ok hc.lower hc.wf h.core.mdl h.core.vinv (assemble_vect hat.asm).2
    rw [hat.terms, hat.sM, (assemble_vect hat.asm).1, hs1]
    exact h.onlyV rfl
  · rintro rfl
    have h1 := hat.asm
    unfold assemble matricesSymb at h1
    simp only [Bool.false_eq_true, if_false] at h1
    rw [ok_bind] at h1
    obtain ⟨⟨m2, eqs⟩, -, h1⟩ := h1
    simp only [ok_pure, Prod.mk.injEq] at h1
    obtain ⟨-, rfl, -, -⟩ := h1
    rw [hat.vA]; exact h.onlyS rfl
  · intro hv x hx hp
    rw [hat.same.bdict] at hx
    rw [hat.rates, hat.tstep, rowAt_append_eq h.core.rlen, hat.keep x.1 (mem_bdict_not_upd h.core.mdl hx hp) (mem_bdict_not_well hc.wf h.core.mdl hx)]
    exact h.rates hv x hx hp

lemma Live.again {c : Ctx K} (hc : CtxOK c) {vect : Bool} {m m' : Mdl K} {s s' : Sol K} (h : Live c vect m s) (ha : Fdm.attempt c vect m s = .ok (m', s', true))
    (hp : Calm vect m m') : Live c vect m' s'.back := by
  have h' := h.attempt hc ha hp
  obtain ⟨m1, s1, A, d, x, p, r', ps, hat⟩ := h.core.attempted hc.lower hc.wf ha
  refine ⟨h'.core.back (by rw [hat.tstep]; omega), ⟨h'.q.cfg, h'.q.canon, h'.q.tinv, h'.q.sinv, h'.q.stale, h'.q.tame⟩, h'.keys, h'.onlyV, h'.onlyS, h'.fresh, h'.As, ?_⟩
  intro hv x hx hp
  rw [hat.same.bdict] at hx
  have : rowAt s'.back.rates s'.back.tstep 0 x.1 = rowAt s.rates s.tstep 0 x.1 := by
    show rowAt (s'.rates.take s'.tstep) (s'.tstep - 1) 0 x.1 = _
    rw [hat.rates, hat.tstep, Nat.add_sub_cancel, rowAt_take (by omega), rowAt_append_lt (by rw [h.core.rlen]; omega)]
  rw [this]
  exact h.rates hv x hx hp


lemma leakW_get {e : Env K} {ws : List (ℕ × Well K)} (hk : (ws.map (·.1)).Nodup) (res : ℕ → Bool) (i : ℕ) :
    leakW e ws res i = ((dictGet ws (e.at i)).map fun w => if res (e.at i) = true then wCond e w else 0).getD 0 := by
  unfold leakW
  induction ws with
  | nil => rfl
  | cons y ws ih =>
    rw [List.map_cons, List.nodup_cons] at hk
    rw [List.map_cons, List.sum_cons, ih hk.2]
    by_cases hy : y.1 = e.at i
    · have h1 : dictGet ws (e.at i) = none := dictGet_none (by rw [← hy]; exact hk.1)
      have h2 : dictGet (y :: ws) (e.at i) = some y.2 := by unfold dictGet; rw [List.find?_cons]; simp [hy]
      rw [h1, h2, hy]
      simp
    · have h2 : dictGet (y :: ws) (e.at i) = dictGet ws (e.at i) := by unfold dictGet; rw [List.find?_cons]; simp [hy]
      rw [h2]
      simp [hy]

lemma merged_ok {e : Env K} {m m' : Mdl K} {s : Option (Sol K)} {id : ℕ} {a : WellArgs K} (hs : setWell e m s (some id) a = (m', .ok ())) (hm : MdlOK e m)
    {w' : Well K} (hw' : dictGet m'.wells id = some w') (hG : ∀ G, w'.G = some G → 0 < G)
    (ht : ∀ x, x ∈ m.wells → x.2.con = some .q → x.2.q = x.2.qsp) : WellOK w' ∧ (w'.con = some .q → w'.q = w'.qsp) := by
  obtain ⟨-, -, -, -, -, -, -, w2, h1, h2⟩ := C27_merge_partial hs
  rw [hw'] at h1
  simp only [Option.some.injEq] at h1
  subst h1
  obtain ⟨a1, a2, a3, a4, a5, a6, a7, req, r, G, a8, a9, a10, a11, a12⟩ := h2 _ rfl
  rcases hg : dictGet m.wells id with _ | w
  · rw [hg] at a1 a2 a3 a4 a7
    simp only [Option.getD_none] at a1 a2 a3 a4 a7
    refine ⟨⟨⟨G, a12, hG G a12⟩, ?_, ?_, ?_, ?_, ?_, ?_⟩, ?_⟩
    · rw [a3]; cases a.pwf <;> simp
    · rw [a4]; cases a.pwf <;> simp
    · rw [a7, a1]; cases a.q <;> cases a.pwf <;> simp
    · rw [a3, a4]; cases a.pwf <;> simp
    · rw [a1, a2]; cases a.q <;> simp
    · rw [a2, a3, a4, a7]; cases a.q <;> cases a.pwf <;> simp
    · rw [a1, a2]; simp
  · have hok := hm.well _ (mem_of_dictGet hg)
    have htw := ht _ (mem_of_dictGet hg)
    rw [hg] at a1 a2 a3 a4 a7
    simp only [Option.getD_some] at a1 a2 a3 a4 a7
    dsimp only at hok htw
    obtain ⟨p, hp⟩ := hok.pwf
    obtain ⟨ps, hps⟩ := hok.sp
    refine ⟨⟨⟨G, a12, hG G a12⟩, ?_, ?_, ?_, ?_, ?_, ?_⟩, ?_⟩
    · rw [a3, hp]; cases a.pwf <;> simp
    · rw [a4, hp, hps]; cases a.pwf <;> simp
    · rw [a7, a1]
      intro hc
      cases hq : a.q
      · rw [hq] at hc
        cases hpw : a.pwf
        · simp only [hpw, Option.isSome_none, Bool.false_eq_true, if_false, Bool.false_and] at hc
          simpa using hok.q hc
        · rw [hpw] at hc
          cases hwq : w.q
          · simp [hwq] at hc
          · simp
      · simp
    · rw [a7, a3, a4, hp]
      intro hc
      cases hpw : a.pwf
      · rw [hpw] at hc
        cases hq : a.q
        · simp only [hq, Option.isSome_none, Bool.false_eq_true, if_false, Bool.false_and] at hc
          have := hok.lim hc
          rw [hp] at this
          simpa using this
        · simp [hq] at hc
      · simp
    · rw [a1, a2]
      intro qs hqs
      cases hq : a.q
      · rw [hq] at hqs
        simp only [Option.orElse_eq_orElse, Option.orElse_none] at hqs ⊢
        simpa using hok.tgt qs (by simpa using hqs)
      · simp
    · rw [a2, a3, a4, a7]
      intro hn
      cases hq : a.q
      · rw [hq] at hn
        have hn : w.qsp = none := by simpa using hn
        obtain ⟨f1, f2⟩ := hok.free hn
        cases hpw : a.pwf
        · rw [hp] at f1 ⊢
          simpa using ⟨f1, f2⟩
        · cases hwq : w.q
          · simp
          · simpa using f2
      · simp [hq] at hn
    · rw [a7, a1, a2]
      intro hc
      cases hq : a.q
      · rw [hq] at hc
        have : w.con = some .q := by
          cases hpw : a.pwf <;> cases hwq : w.q <;> simp_all
        simpa using htw this
      · simp

lemma Live.well {c : Ctx K} {vect : Bool} {m m' : Mdl K} {s : Sol K} (h : Live c vect m s) {id : ℕ} {a : WellArgs K}
    (hs : setWell c.e m (some s) (some id) a = (m', .ok ())) (ht : WellTakes vect m m' s id)
    (hw : ∀ w, dictGet m'.wells id = some w → w.con ≠ none ∧ ∀ G, w.G = some G → 0 < G) : Live c vect m' s := by
  obtain ⟨k, req, r, G, w', wp, hk, hid, -, -, -, hm', -⟩ := setWell_ok hs
  cases hk
  have hget : dictGet m'.wells id = some w' := by rw [hm']; dsimp only; rw [dictGet_set, if_pos rfl]
  have hget' : ∀ k, k ≠ id → dictGet m'.wells k = dictGet m.wells k := by
    intro k hk; rw [hm']; dsimp only; rw [dictGet_set, if_neg (Ne.symm hk)]
  obtain ⟨hcon, hG⟩ := hw w' hget
  obtain ⟨hok, htame⟩ := merged_ok hs h.core.mdl hget hG h.q.tame
  obtain ⟨k1, k2⟩ := dictSet_keys m.wells id w' h.core.mdl.wkeys
  have ewells : m'.wells = dictSet m.wells id w' := by rw [hm']
  have hmem : ∀ x, x ∈ m'.wells → x = (id, w') ∨ (x ∈ m.wells ∧ x.1 ≠ id) := by rw [ewells]; exact k2
  have eb : m'.bdict = m.bdict ∧ m'.bUpdate = m.bUpdate ∧ m'.terms = m.terms := by rw [hm']; exact ⟨rfl, rfl, rfl⟩
  have hkeys' : ∀ k, k ∈ m.wells.map (·.1) → k ∈ m'.wells.map (·.1) := by
    intro k hk
    by_cases hki : k = id
    · rw [hki]; exact List.mem_map.2 ⟨(id, w'), mem_of_dictGet hget, rfl⟩
    · obtain ⟨x, hx, rfl⟩ := List.mem_map.1 hk
      have := dictGet_of_mem h.core.mdl.wkeys hx
      rw [← hget' x.1 hki] at this
      exact List.mem_map.2 ⟨(x.1, x.2), mem_of_dictGet this, rfl⟩
  -- what the kept matrix says about this well
  have hleak : s.vA ≠ none → ((∃ w, dictGet m.wells id = some w ∧ wCond c.e w' = wCond c.e w) ∨ s.resolve id = false) ∧ (s.resolve id = true → w'.con = some .pwf) := by
    intro hv
    have hno : (∀ w, dictGet m.wells id = some w → w.con = some .q) → s.resolve id = false := by
      intro hq
      by_contra hr
      rw [Bool.not_eq_false] at hr
      obtain ⟨x, hx, hxi⟩ := List.mem_map.1 (h.keys hv id hr)
      have h1 := h.q.stale hv x hx (by rw [hxi]; exact hr)
      have h2 := dictGet_of_mem h.core.mdl.wkeys hx
      rw [hxi] at h2
      rw [hq _ h2] at h1
      simp at h1
    rcases ht with ht | ⟨hv', ht | ⟨w, w2, b1, b2, b3, b4, b5, b6⟩⟩ | ⟨hv', -⟩
    · exact absurd (h.fresh ht).1 hv
    · exact ⟨Or.inr (hno ht), fun hr => by rw [hno ht] at hr; simp at hr⟩
    · rw [hget] at b2
      simp only [Option.some.injEq] at b2
      subst b2
      refine ⟨Or.inl ⟨w, b1, ?_⟩, fun _ => b3⟩
      unfold wCond windex
      rw [if_neg b5, if_neg b6, b4]
    · exact absurd (h.onlyS hv') hv
  refine ⟨⟨.refl _, ⟨?_, ?_, ?_, ?_, ?_, ?_⟩, h.core.plen, h.core.rlen, ?_⟩, ⟨?_, ?_, ?_, h.q.sinv, ?_, ?_⟩, ?_, ?_, h.onlyS, ?_, h.As, ?_⟩
  · rw [eb.1]; exact h.core.mdl.bkeys
  · rw [eb.1]; exact h.core.mdl.bmem
  · rw [eb.1, eb.2.1]; exact h.core.mdl.upd
  · rw [ewells]; exact k1
  · intro x hx
    rcases hmem x hx with rfl | ⟨hx, -⟩
    · exact hid
    · exact h.core.mdl.wmem x hx
  · intro x hx
    rcases hmem x hx with rfl | ⟨hx, -⟩
    · exact hok
    · exact h.core.mdl.well x hx
  · intro A hA
    have hkept := h.core.kept A hA
    refine ⟨fun i j hi hj => ?_, by rw [eb.1, eb.2.1]; exact hkept.bv⟩
    rw [hkept.mat i j hi hj]
    have : leakW c.e m'.wells s.resolve i = leakW c.e m.wells s.resolve i := by
      rw [leakW_get (by rw [ewells]; exact k1), leakW_get h.core.mdl.wkeys]
      by_cases hi' : c.e.at i = id
      · rw [hi', hget]
        rcases (hleak (by rw [hA]; simp)).1 with ⟨w, b1, b2⟩ | hr
        · rw [b1]; simp [b2]
        · rw [hr]; cases dictGet m.wells id <;> simp
      · rw [hget' _ hi']
    rw [this]
    unfold leakB
    rw [eb.2.1]
  · intro x hx
    rcases hmem x hx with rfl | ⟨hx, -⟩
    · exact hcon
    · exact h.q.cfg x hx
  · intro x hx; rw [eb.1] at hx; exact h.q.canon x hx
  · intro k t hkt
    rw [eb.2.2] at hkt
    obtain ⟨⟨wp', f1, f2, f3⟩, fa⟩ := h.q.tinv k t hkt
    by_cases hki : k = id
    · subst hki
      rcases ht with ht | ⟨hv', -⟩ | ⟨-, w, w2, b1, b2, b3⟩
      · rw [(h.fresh ht).2] at hkt; simp [dictGet] at hkt
      · rw [(h.onlyV hv').1] at hkt; simp [dictGet] at hkt
      · rw [hget] at b2
        simp only [Option.some.injEq] at b2
        subst b2
        refine ⟨⟨wp', by rw [eb.1]; exact f1, by rw [hget]; simp, fun w1 hw1 => ?_⟩, fa⟩
        rw [hget] at hw1
        simp only [Option.some.injEq] at hw1
        subst hw1
        obtain ⟨y, hy, -⟩ := f3 w b1
        exact ⟨y, hy, fun hq => by rw [b3] at hq; simp at hq⟩
    · exact ⟨⟨wp', by rw [eb.1]; exact f1, by rw [hget' k hki]; exact f2, by rw [hget' k hki]; exact f3⟩, fa⟩
  · intro hv x hx hr
    rcases hmem x hx with rfl | ⟨hx, -⟩
    · exact (hleak hv).2 hr
    · exact h.q.stale hv x hx hr
  · intro x hx hq
    rcases hmem x hx with rfl | ⟨hx, -⟩
    · exact htame hq
    · exact h.q.tame x hx hq
  · exact fun hv k hk => hkeys' k (h.keys hv k hk)
  · rw [eb.2.2]; exact h.onlyV
  · rw [eb.2.2]; exact h.fresh
  · rw [eb.1]; exact h.rates

lemma Live.bounds_core {c : Ctx K} {vect : Bool} {m m' : Mdl K} {s s' : Sol K} (h : Live c vect m s) {b : List (ℕ × String × K)} (hb : (b.map (·.1)).Nodup)
    (hs : setBoundaries c.lower c.e m (some s) b = ((m', some s'), .ok ())) (hp : s.Unsolved ∨ (vect = true ∧ pressures b = pressures m.bdict))
    (hc : ∀ x, x ∈ b → (c.lower x.2.1 ∈ ["pressure", "press", "p"] ↔ x.2.1 = "pressure")) : Core c.e m' m' s' ∧ QInv c.lower c.e m' s' := by
  obtain ⟨s2, e2, a1, a2, a⟩ := setBoundaries_live h.core.plen h.core.rlen hb hs
  simp only [Option.some.injEq] at e2
  subst e2
  obtain ⟨w1, w2, w3⟩ := a.mdl
  have est := a.sol.tstep
  obtain ⟨pr, rt, esol⟩ := a.sol.eq
  have f : s'.vA = s.vA ∧ s'.resolve = s.resolve ∧ s'.sM = s.sM ∧ s'.bV = s.bV := by rw [esol]; exact ⟨rfl, rfl, rfl, rfl⟩
  obtain ⟨f1, f2, f3, f5⟩ := f
  have hterms : m.terms = [] := by
    rcases hp with hp | ⟨hp, -⟩
    · exact (h.fresh hp).2
    · exact (h.onlyV hp).1
  refine ⟨⟨.refl _, ⟨by rw [a1]; exact hb, by rw [a1]; exact a.mem, by rw [a1, a2], by rw [w1]; exact h.core.mdl.wkeys, by rw [w1]; exact h.core.mdl.wmem,
      by rw [w1]; exact h.core.mdl.well⟩, by rw [a.sol.plen, est]; exact h.core.plen, by rw [a.sol.rlen, est]; exact h.core.rlen, ?_⟩,
    ⟨by unfold Configured; rw [w1]; exact h.q.cfg, by unfold Canonical; rw [a1]; exact hc, ?_, by rw [f3]; exact h.q.sinv, by rw [f1, f2, w1]; exact h.q.stale,
      by rw [w1]; exact h.q.tame⟩⟩
  · intro A hA
    rw [f1] at hA
    rw [f2, f5]
    have hkept := h.core.kept A hA
    have hp : pressures b = pressures m.bdict := by
      rcases hp with hp | ⟨-, hp⟩
      · rw [(h.fresh hp).1] at hA; simp at hA
      · exact hp
    have hup : m'.bUpdate = m.bUpdate := by rw [a2, h.core.mdl.upd]; exact congrArg _ hp
    refine ⟨fun i j hi hj => ?_, fun x hx v hv => ?_⟩
    · rw [hkept.mat i j hi hj, w1]; unfold leakB; rw [hup]
    · rw [hup] at hx
      refine hkept.bv x hx v ?_
      rw [a1] at hv
      have : (x, "pressure", v) ∈ pressures b := by
        unfold pressures
        rw [List.mem_filter]
        exact ⟨mem_of_dictGet hv, by simp⟩
      rw [hp] at this
      exact dictGet_of_mem h.core.mdl.bkeys (List.mem_filter.1 this).1
  · intro k t hkt; rw [w3, hterms] at hkt; simp [dictGet] at hkt

lemma Live.bounds {c : Ctx K} {vect : Bool} {m m' : Mdl K} {s s' : Sol K} (h : Live c vect m s) {b : List (ℕ × String × K)} (hb : (b.map (·.1)).Nodup)
    (hs : setBoundaries c.lower c.e m (some s) b = ((m', some s'), .ok ())) (ht : BoundsTake vect m s b)
    (hc : ∀ x, x ∈ b → (c.lower x.2.1 ∈ ["pressure", "press", "p"] ↔ x.2.1 = "pressure")) : Live c vect m' s' := by
  have hcore := h.bounds_core hb hs (by
    cases vect
    · exact Or.inl ht
    · exact ht.1.imp id fun h => ⟨rfl, h⟩) hc
  obtain ⟨s2, e2, a1, a2, a⟩ := setBoundaries_live h.core.plen h.core.rlen hb hs
  simp only [Option.some.injEq] at e2
  subst e2
  obtain ⟨w1, w2, w3⟩ := a.mdl
  have est := a.sol.tstep
  obtain ⟨pr, rt, esol⟩ := a.sol.eq
  have f : s'.vA = s.vA ∧ s'.resolve = s.resolve ∧ s'.sM = s.sM ∧ s'.As = s.As := by rw [esol]; exact ⟨rfl, rfl, rfl, rfl⟩
  obtain ⟨f1, f2, f3, f4⟩ := f
  refine ⟨hcore.1, hcore.2, by rw [f1, f2, w1]; exact h.keys, by rw [w3, f3]; exact h.onlyV, by rw [f1]; exact h.onlyS,
    by unfold Sol.Unsolved; rw [f1, f4, w3]; exact h.fresh, by rw [f4]; exact h.As, ?_⟩
  rintro rfl x hx hpx
  rw [a1] at hx
  rw [est]
  by_cases h0 : s.tstep = 0
  · rw [a.sol.zero h0]
    exact h.rates rfl x (ht.2.resolve_left (fun h => h h0) x hx hpx) hpx
  · exact ⟨fun hk => a.rate h0 x hx hk, fun hk => gradientRate_ok (a.grad h0 x hx hk)⟩

theorem Sess.live {c : Ctx K} {vect : Bool} {m0 m : Mdl K} {s : Sol K} (hr : Ready c m0) (h : Sess c vect m0 m s) : Live c vect m s := by
  induction h with
  | start => exact .start hr vect
  | step _ ha hp ih => exact ih.attempt hr.ctx ha hp
  | again _ ha hp ih => exact ih.again hr.ctx ha hp
  | clock n t _ ih => exact ⟨⟨ih.core.same, ih.core.mdl, ih.core.plen, ih.core.rlen, ih.core.kept⟩, ⟨ih.q.cfg, ih.q.canon, ih.q.tinv, ih.q.sinv, ih.q.stale, ih.q.tame⟩, ih.keys,
      ih.onlyV, ih.onlyS, ih.fresh, ih.As, ih.rates⟩
  | well _ hs ht hw ih => exact ih.well hs ht hw
  | bounds _ hb hs ht hc ih => exact ih.bounds hb hs ht hc

end RF.Fdm
