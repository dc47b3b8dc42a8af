import Verif.Fdm.Session
/-!
# C58, C59: settings changed after compiling

`C59_takes_effect_partial` and `C58_takes_effect_partial` say when a call of `set_well` or `set_boundaries` between steps takes effect; the other theorems say that in the
remaining cases it does not: the symbolic assembler never looks at the boundary conditions or a well's rate again, the vectorised one keeps its matrix and the right-hand
sides of pressure conditions.
-/
set_option linter.unusedSectionVars false
namespace RF.Fdm
open RF RF.Dims Finset

section
variable {K : Type} [Field K] [LinearOrder K] [IsStrictOrderedRing K]

/-- **C59**, partial: in every session, after a call of `set_well` that is one of `WellTakes` the well has the given rate and pressure, and the next step balances every
cell with it, for new and existing wells. Missing: the other calls (`C59_symbolic_rate_fails`, `C59_released_well`, `C59_new_well_symbolic`, `C59_changed_index`), steps
without an exact solver, with a well leaving its limit, with gravity (vectorised) and with wells at pressure 0 (vectorised). -/
theorem C59_takes_effect_partial {c : Ctx K} {vect again : Bool} {m0 m m' m'' : Mdl K} {s s'' : Sol K} (hr : Ready c m0) (hx : Exact c.lin) (h : Sess c vect m0 m s)
    {id : ℕ} {a : WellArgs K} (hs : setWell c.e m (some s) (some id) a = (m', .ok ())) (ht : WellTakes vect m m' s id)
    (hw : ∀ w, dictGet m'.wells id = some w → w.con ≠ none ∧ ∀ G, w.G = some G → 0 < G) (hf : vect = true → c.e.Flat ∧ NoZeroPwf m')
    (ha : attempt c vect m' s = .ok (m'', s'', again)) :
    (∃ w', dictGet m'.wells id = some w' ∧ (∀ q, a.q = some q → w'.q = some q ∧ w'.qsp = some q ∧ w'.con = some .q) ∧
      (∀ p, a.pwf = some p → w'.pwf = some p ∧ w'.pwfsp = some p) ∧ (a.q = none → a.pwf.isSome → (dictGet m.wells id).bind (·.q) = none → w'.con = some .pwf)) ∧
    (∀ k, k ≠ id → dictGet m'.wells k = dictGet m.wells k) ∧
    ∀ i, i < c.e.n → excess c.e (c.e.trans vect) m' (usedRate vect m' s) (s.inner c.e s.tstep) (s''.inner c.e s''.tstep) i = 0 := by
  have hl := (h.live hr).well hs ht hw
  obtain ⟨-, h1, -, -, -, -, -, w', h2, h3⟩ := C27_merge_partial hs
  obtain ⟨a1, a2, a3, a4, a5, a6, a7, -⟩ := h3 _ rfl
  refine ⟨⟨w', h2, fun q hq => ?_, fun p hp => ?_, fun hq hp hn => ?_⟩, fun k hk => (h1 k hk).1, core_balance hr.ctx hx hl.core hl.q (fun hv => (hf hv).1) (fun hv => (hf hv).2) ha⟩
  · rw [a1, a2, a7, hq]; exact ⟨rfl, rfl, rfl⟩
  · rw [a3, a4, hp]; exact ⟨rfl, rfl⟩
  · have : ((dictGet m.wells id).getD {}).q = none := by
      rcases hg : dictGet m.wells id with _ | w
      · rfl
      · rw [hg] at hn; simpa using hn
    rw [a7, hq, hp, this]; rfl

/-- **C58**, partial: in every session, after a call of `set_boundaries` that is one of `BoundsTake` the given conditions are the model's, and the next step balances
every cell with them: boundary pressures, rates, and the rates of gradients. Missing: the other calls (`C58_symbolic_fails`, `C58_first_rates_fails`,
`C58_pressures_kept`, `C58_new_pressure_fails`), gradients with the symbolic assembler (`C29`), and what is missing in C59. -/
theorem C58_takes_effect_partial {c : Ctx K} {vect again : Bool} {m0 m m' m'' : Mdl K} {s s' s'' : Sol K} (hr : Ready c m0) (hx : Exact c.lin) (h : Sess c vect m0 m s)
    {b : List (ℕ × String × K)} (hb : (b.map (·.1)).Nodup) (hs : setBoundaries c.lower c.e m (some s) b = ((m', some s'), .ok ())) (ht : BoundsTake vect m s b)
    (hc : ∀ x, x ∈ b → (c.lower x.2.1 ∈ ["pressure", "press", "p"] ↔ x.2.1 = "pressure")) (hg : vect = false → ∀ x, x ∈ b → kindOf (c.lower x.2.1) ≠ some .gradient)
    (hf : vect = true → c.e.Flat ∧ NoZeroPwf m') (ha : attempt c vect m' s' = .ok (m'', s'', again)) :
    m'.bdict = b ∧ ∃ rate : ℕ → K, (∀ x, x ∈ b → x.2.1 ≠ "pressure" → Imposed c.lower c.e x (rate x.1)) ∧
    ∀ i, i < c.e.n → excess c.e (c.e.trans vect) m' rate (s'.inner c.e s'.tstep) (s''.inner c.e s''.tstep) i = 0 := by
  have h0 := h.live hr
  have hl := h0.bounds hb hs ht hc
  obtain ⟨_, -, a1, -, -⟩ := setBoundaries_live h0.core.plen h0.core.rlen hb hs
  refine ⟨a1, usedRate vect m' s', fun x hx hp => ?_, core_balance hr.ctx ‹_› hl.core hl.q (fun hv => (hf hv).1) (fun hv => (hf hv).2) ha⟩
  cases vect
  · refine ⟨fun _ => ?_, fun hk => absurd hk (hg rfl x hx)⟩
    unfold usedRate givenRate
    rw [a1]
    simp only [Bool.false_eq_true, if_false]
    rw [dictGet_of_mem hb hx]; rfl
  · exact hl.rates rfl x (by rw [a1]; exact hx) hp

/-! ## What the symbolic assembler does not look at -/

/-- Two models and solutions the symbolic assembler cannot tell apart once it has terms of all cells. -/
structure SameSymb (e : Env K) (m m' : Mdl K) (s s' : Sol K) : Prop where
  known : ∀ id, id ∈ e.ids → dictGet m.terms id ≠ none
  terms : m'.terms = m.terms
  fresh : ∀ id t, refreshWell e m' id t = refreshWell e m id t
  press : ∀ id, id ∈ e.ids → rowAt s'.press s'.tstep none id = rowAt s.press s.tstep none id
  tstep : s'.tstep = s.tstep
  sM : s'.sM = s.sM

lemma SameSymb.cellEq {lower : String → String} {scale : (ℕ → K) → K → K} {e : Env K} {m m' : Mdl K} {s s' : Sol K} (h : SameSymb e m m' s s') {id : ℕ} (hid : id ∈ e.ids) :
    (Fdm.cellEq lower scale e m' s' id).map (·.2) = (Fdm.cellEq lower scale e m s id).map (·.2) ∧
    ∀ x x', Fdm.cellEq lower scale e m s id = .ok x → Fdm.cellEq lower scale e m' s' id = .ok x' → SameSymb e x.1 x'.1 s s' := by
  obtain ⟨t, ht⟩ := Option.ne_none_iff_exists'.1 (h.known id hid)
  have hc : cellTerms lower e m' s' id = cellTerms lower e m s id := by
    unfold cellTerms
    rw [h.terms, ht]
    dsimp only
    unfold refreshTerms
    rw [h.fresh]
    have ha : aTerm e s' id = aTerm e s id := by unfold aTerm; rw [h.press id hid]
    simp only [ha]
  constructor
  · unfold Fdm.cellEq
    rw [hc]
    cases cellTerms lower e m s id with
    | error x => rfl
    | ok t =>
      simp only [bind_ok]
      cases eqRow scale e.ids (Aff.sum t.f) t.a <;> rfl
  · intro x x' h1 h2
    unfold Fdm.cellEq at h1 h2
    rw [ok_bind] at h1 h2
    obtain ⟨t1, a1, h1⟩ := h1
    obtain ⟨t2, b1, h2⟩ := h2
    rw [hc, a1] at b1
    simp only [Except.ok.injEq] at b1
    subst b1
    rw [ok_bind] at h1 h2
    obtain ⟨r1, -, h1⟩ := h1
    obtain ⟨r2, -, h2⟩ := h2
    rw [ok_pure] at h1 h2
    subst h1 h2
    refine ⟨fun k hk => ?_, by dsimp only; rw [h.terms], fun k t => h.fresh k t, h.press, h.tstep, h.sM⟩
    dsimp only
    rw [dictGet_set]
    split_ifs
    · simp
    · exact h.known k hk

lemma SameSymb.matrices {c : Ctx K} {m m' : Mdl K} {s s' : Sol K} (h : SameSymb c.e m m' s s') :
    (assemble c false m' s').map (·.2.2) = (assemble c false m s).map (·.2.2) := by
  have key : ∀ (l : List ℕ) (m m' : Mdl K) (r : List (ℕ × (ℕ → K) × K)), SameSymb c.e m m' s s' → (∀ id, id ∈ l → id ∈ c.e.ids) →
      Except.map (fun x : Mdl K × List (ℕ × (ℕ → K) × K) => x.2) (l.foldlM (fun (acc : Mdl K × List (ℕ × (ℕ → K) × K)) id => do
        let (m, row) ← Fdm.cellEq c.lower c.scale c.e acc.1 s' id
        pure (m, acc.2 ++ [(id, row)])) (m', r)) =
      Except.map (fun x : Mdl K × List (ℕ × (ℕ → K) × K) => x.2) (l.foldlM (fun (acc : Mdl K × List (ℕ × (ℕ → K) × K)) id => do
        let (m, row) ← Fdm.cellEq c.lower c.scale c.e acc.1 s id
        pure (m, acc.2 ++ [(id, row)])) (m, r)) := by
    intro l
    induction l with
    | nil => intros; rfl
    | cons id l ih =>
      intro m m' r hs hl
      rw [List.foldlM_cons, List.foldlM_cons]
      obtain ⟨h1, h2⟩ := hs.cellEq (lower := c.lower) (scale := c.scale) (hl id (by simp))
      dsimp only
      cases e1 : Fdm.cellEq c.lower c.scale c.e m s id with
      | error x =>
        cases e2 : Fdm.cellEq c.lower c.scale c.e m' s' id with
        | error y => rw [e1, e2] at h1; simp only [Except.map, Except.error.injEq] at h1; subst h1; rfl
        | ok y => rw [e1, e2] at h1; simp [Except.map] at h1
      | ok x =>
        cases e2 : Fdm.cellEq c.lower c.scale c.e m' s' id with
        | error y => rw [e1, e2] at h1; simp [Except.map] at h1
        | ok y =>
          have h3 := h2 x y e1 e2
          rw [e1, e2] at h1
          simp only [Except.map, Except.ok.injEq] at h1
          obtain ⟨x1, x2⟩ := x
          obtain ⟨y1, y2⟩ := y
          dsimp only at h1 h3
          subst h1
          simp only [bind_ok, bind_pure']
          exact ih _ _ _ h3 fun k hk => hl k (by simp [hk])
  have hk : Except.map (fun x : Mdl K × List (ℕ × (ℕ → K) × K) => x.2) (cellsEq c.lower c.scale c.e m' s') =
    Except.map (fun x : Mdl K × List (ℕ × (ℕ → K) × K) => x.2) (cellsEq c.lower c.scale c.e m s) := key c.e.ids m m' [] h fun _ h => h
  have hst : symbStart s' = symbStart s := by unfold symbStart; rw [h.sM, h.tstep]
  unfold assemble matricesSymb
  simp only [Bool.false_eq_true, if_false]
  revert hk
  generalize cellsEq c.lower c.scale c.e m' s' = x'
  generalize cellsEq c.lower c.scale c.e m s = x
  intro hk
  rcases x with x | ⟨x1, x2⟩ <;> rcases x' with x' | ⟨x1', x2'⟩
  · simp only [Except.map, Except.error.injEq] at hk; subst hk; rfl
  · simp [Except.map] at hk
  · simp [Except.map] at hk
  · simp only [Except.map, Except.ok.injEq] at hk
    subst hk
    simp only [bind_ok, hst]
    rfl

/-- After a symbolic assembly the terms of all cells are known. -/
lemma symb_known {c : Ctx K} {m m' : Mdl K} {s s' : Sol K} {A : ℕ → ℕ → K} {d : ℕ → K} (h : assemble c false m s = .ok (m', s', A, d)) :
    ∀ id, id ∈ c.e.ids → dictGet m'.terms id ≠ none := by
  have key : ∀ (l : List ℕ) (acc acc' : Mdl K × List (ℕ × (ℕ → K) × K)), l.foldlM (fun acc id => do
        let (m, row) ← Fdm.cellEq c.lower c.scale c.e acc.1 s id
        pure (m, acc.2 ++ [(id, row)])) acc = .ok acc' → ∀ id, (id ∈ l ∨ dictGet acc.1.terms id ≠ none) → dictGet acc'.1.terms id ≠ none := by
    intro l
    induction l with
    | nil =>
      intro acc acc' h id hid
      rw [List.foldlM_nil, ok_pure] at h
      subst h
      simpa using hid
    | cons k l ih =>
      intro acc acc' h id hid
      rw [List.foldlM_cons, ok_bind] at h
      obtain ⟨a1, h1, h⟩ := h
      refine ih _ _ h id ?_
      rw [ok_bind] at h1
      obtain ⟨⟨m1, row⟩, h1, h2⟩ := h1
      rw [ok_pure] at h2
      subst h2
      unfold cellEq at h1
      rw [ok_bind] at h1
      obtain ⟨t, -, h1⟩ := h1
      rw [ok_bind] at h1
      obtain ⟨r, -, h1⟩ := h1
      simp only [ok_pure, Prod.mk.injEq] at h1
      obtain ⟨rfl, -⟩ := h1
      rw [List.mem_cons] at hid
      by_cases hk : id = k
      · right; dsimp only; rw [dictGet_set, if_pos hk.symm]; simp
      · rcases hid with (hid | hid) | hid
        · exact absurd hid hk
        · exact Or.inl hid
        · right; dsimp only; rw [dictGet_set, if_neg (Ne.symm hk)]; exact hid
  unfold assemble matricesSymb cellsEq at h
  simp only [Bool.false_eq_true, if_false] at h
  rw [ok_bind] at h
  obtain ⟨⟨m2, eqs⟩, h1, h⟩ := h
  simp only [ok_pure, Prod.mk.injEq] at h
  obtain ⟨rfl, -⟩ := h
  exact fun id hid => key _ _ _ h1 id (Or.inl hid)

/-- **C58 fails** with the symbolic assembler, in every model: after a step was solved, `set_boundaries` changes nothing in the assembled equations, whatever conditions it
is given. -/
theorem C58_symbolic_fails {c : Ctx K} {P : Bool → Mdl K → Mdl K → Prop} {m0 m1 m m' : Mdl K} {s1 s s' : Sol K} {again : Bool} (hr : Ready c m0) (h : Hist c P m0 m1 s1)
    (ha : attempt c false m1 s1 = .ok (m, s, again)) {b : List (ℕ × String × K)} (hb : (b.map (·.1)).Nodup)
    (hs : setBoundaries c.lower c.e m (some s) b = ((m', some s'), .ok ())) :
    m'.bdict = b ∧ (assemble c false m' s').map (·.2.2) = (assemble c false m s).map (·.2.2) := by
  have hi := hr.inv h
  obtain ⟨m2, s2, A, d, x, p, r', ps, h1⟩ := attempted hr.ctx.lower hr.ctx.wf hi ha
  obtain ⟨s3, e3, a1, a2, a⟩ := setBoundaries_live h1.core.plen h1.core.rlen hb hs
  simp only [Option.some.injEq] at e3
  subst e3
  refine ⟨a1, SameSymb.matrices ⟨fun id hid => by rw [h1.terms]; exact symb_known h1.asm id hid, a.mdl.2.2, fun id t => by unfold refreshWell; rw [a.mdl.1], fun id hid => ?_,
    a.sol.tstep, by obtain ⟨p, r, e⟩ := a.sol.eq; rw [e]⟩⟩
  rw [a.sol.tstep]
  refine (a.sol.now id fun hm => ?_).1
  obtain ⟨x, hx, rfl⟩ := List.mem_map.1 hm
  exact hr.ctx.wf.disj _ (a.mem x hx) hid

/-- **C59 fails** with the symbolic assembler, in every model: after a step was solved, `set_well` changes nothing in the assembled equations if the well is under rate
constraint afterwards, and was before or is new. -/
theorem C59_symbolic_rate_fails {c : Ctx K} {P : Bool → Mdl K → Mdl K → Prop} {m0 m1 m m' : Mdl K} {s1 s : Sol K} {again : Bool} (hr : Ready c m0) (h : Hist c P m0 m1 s1)
    (ha : attempt c false m1 s1 = .ok (m, s, again)) {id : ℕ} {a : WellArgs K} {q : K} (hs : setWell c.e m (some s) (some id) a = (m', .ok ())) (hq : a.q = some q)
    (hold : ∀ w, dictGet m.wells id = some w → w.con ≠ some .pwf) :
    (∃ w', dictGet m'.wells id = some w' ∧ w'.q = some q ∧ w'.con = some .q) ∧ (assemble c false m' s).map (·.2.2) = (assemble c false m s).map (·.2.2) := by
  have hi := hr.inv h
  obtain ⟨m2, s2, A, d, x, p, r', ps, h1⟩ := attempted hr.ctx.lower hr.ctx.wf hi ha
  obtain ⟨-, g1, -, -, -, -, g2, w', g3, g4⟩ := C27_merge_partial hs
  obtain ⟨a1, -, -, -, -, -, a7, -⟩ := g4 _ rfl
  rw [hq] at a1 a7
  have a7 : w'.con = some .q := a7
  refine ⟨⟨w', g3, a1, a7⟩, SameSymb.matrices ⟨fun k hk => by rw [h1.terms]; exact symb_known h1.asm k hk, g2, fun k t => ?_, fun _ _ => rfl, rfl, rfl⟩⟩
  by_cases hk : k = id
  · subst hk
    unfold refreshWell
    rw [g3]
    dsimp only
    rw [if_neg (by rw [a7]; simp)]
    split
    · rename_i w hw
      rw [if_neg (hold w hw)]
    · rfl
  · unfold refreshWell; rw [(g1 k hk).1]

/-! ## What the vectorised assembler does not look at -/

/-- **C58 fails** with the vectorised assembler, in every model: rates and gradients set after compiling and before the first step are ignored, the equations of the first
step are those with the rates set before compiling (0 where none were). -/
theorem C58_first_rates_fails {c : Ctx K} {m0 m' m'' : Mdl K} {s' s'' : Sol K} (hr : Ready c m0) {b : List (ℕ × String × K)} (hb : (b.map (·.1)).Nodup)
    (hs : setBoundaries c.lower c.e m0 (some (Sol.init m0)) b = ((m', some s'), .ok ()))
    (hc : ∀ x, x ∈ b → (c.lower x.2.1 ∈ ["pressure", "press", "p"] ↔ x.2.1 = "pressure")) (hf : c.e.Flat) (hz : NoZeroPwf m0) {A : ℕ → ℕ → K} {d : ℕ → K}
    (ha : assemble c true m' s' = .ok (m'', s'', A, d)) (x : ℕ → K) :
    m'.bdict = b ∧ (Solves c.e.n A d x ↔ ∀ i, i < c.e.n → excess c.e (c.e.trans true) m' m0.initR ((Sol.init m0).inner c.e 0) x i = 0) := by
  have h0 := Live.start hr true
  obtain ⟨hi, hq⟩ := h0.bounds_core hb hs (Or.inl rfl) hc
  obtain ⟨s3, e3, a1, a2, a⟩ := setBoundaries_live h0.core.plen h0.core.rlen hb hs
  simp only [Option.some.injEq] at e3
  subst e3
  have es := a.sol.zero rfl
  refine ⟨a1, ?_⟩
  rw [core_solves hr.ctx hi hq (fun _ => hf) (fun _ => by unfold NoZeroPwf; rw [a.mdl.1]; exact hz) ha x, es]
  rfl

lemma vReady_kept {lower : String → String} {e : Env K} {m : Mdl K} {s : Sol K} {A : ℕ → ℕ → K} (hv : s.vA = some A) (ht : s.tstep ≠ 0) :
    vReady lower e m s = .ok (A, s.bV, s.resolve) := by
  unfold vReady
  rw [hv]
  dsimp only
  rw [if_neg ht]

/-- Conditions at the same boundary cells, pressures where there were pressures. -/
def SameCells (b b0 : List (ℕ × String × K)) : Prop := List.Forall₂ (fun x y => x.1 = y.1 ∧ (x.2.1 = "pressure" ↔ y.2.1 = "pressure")) b b0

lemma vBd_fold {e : Env K} {s : Sol K} {bV : List (ℕ × K × K × ℕ)} {b b0 : List (ℕ × String × K)} (h : SameCells b b0) (d : ℕ → K) :
    b.foldlM (vBd e s bV) d = b0.foldlM (vBd e s bV) d := by
  induction h generalizing d with
  | nil => rfl
  | @cons x y l l' hxy _ ih =>
    rw [List.foldlM_cons, List.foldlM_cons]
    have : vBd e s bV d x = vBd e s bV d y := by
      unfold vBd
      rw [hxy.1]
      simp only [hxy.2]
    rw [this]
    congr 1
    funext d'
    exact ih d'

/-- **C58 fails** with the vectorised assembler, in every model: after a step was solved, `set_boundaries` with other pressures at the same boundary cells leaves the old
pressures in the equations (`m` on the right is the model before the call; rates are the new ones). -/
theorem C58_pressures_kept {c : Ctx K} {m0 m1 m m' m'' : Mdl K} {s1 s s' s'' : Sol K} (hr : Ready c m0) (h : Hist c Calm m0 m1 s1)
    (ha : attempt c true m1 s1 = .ok (m, s, false)) (hp : Calm true m1 m) {b : List (ℕ × String × K)} (hb : (b.map (·.1)).Nodup)
    (hs : setBoundaries c.lower c.e m (some s) b = ((m', some s'), .ok ())) (hk : SameCells b m.bdict) (hf : c.e.Flat) (hz : NoZeroPwf m) {A : ℕ → ℕ → K} {d : ℕ → K}
    (hA : assemble c true m' s' = .ok (m'', s'', A, d)) (x : ℕ → K) :
    m'.bdict = b ∧ (Solves c.e.n A d x ↔ ∀ i, i < c.e.n → excess c.e (c.e.trans true) m (rowAt s'.rates s'.tstep 0) (s.inner c.e s.tstep) x i = 0) := by
  obtain ⟨hi, hq⟩ := hr.calm (h.step ha hp)
  obtain ⟨hi1, -⟩ := hr.calm h
  obtain ⟨m2, s2, A2, d2, x2, p, r', ps, h1⟩ := attempted hr.ctx.lower hr.ctx.wf hi1 ha
  obtain ⟨s3, e3, a1, a2, a⟩ := setBoundaries_live hi.plen hi.rlen hb hs
  simp only [Option.some.injEq] at e3
  subst e3
  refine ⟨a1, ?_⟩
  have ht : s.tstep ≠ 0 := by rw [h1.tstep]; omega
  obtain ⟨bV, res, hs1, -⟩ := matricesVect_ok hr.ctx.lower hr.ctx.wf hi1.mdl hi1.toCore.vinv (assemble_vect h1.asm).2
  have hv : s.vA = some A2 := by rw [h1.vA, hs1]
  obtain ⟨pr, rt, esol⟩ := a.sol.eq
  have f : s'.vA = s.vA ∧ s'.bV = s.bV ∧ s'.resolve = s.resolve ∧ s'.sM = s.sM := by rw [esol]; exact ⟨rfl, rfl, rfl, rfl⟩
  obtain ⟨f1, f2, f3, f4⟩ := f
  obtain ⟨w1, w2, w3⟩ := a.mdl
  -- the equations are those of the old conditions
  have heq : assemble c true { m' with bdict := m.bdict, bUpdate := m.bUpdate } s' = .ok ({ m' with bdict := m.bdict, bUpdate := m.bUpdate }, s'', A, d) := by
    obtain ⟨g1, g2⟩ := assemble_vect hA
    unfold assemble
    simp only [if_true]
    have : matricesVect c.lower c.e { m' with bdict := m.bdict, bUpdate := m.bUpdate } s' = matricesVect c.lower c.e m' s' := by
      unfold matricesVect
      rw [vReady_kept (f1.trans hv) (by rw [a.sol.tstep]; exact ht), vReady_kept (f1.trans hv) (by rw [a.sol.tstep]; exact ht), a1]
      simp only [vBd_fold hk]
    rw [this, g2]; rfl
  have hc' : Core c.e { m' with bdict := m.bdict, bUpdate := m.bUpdate } { m' with bdict := m.bdict, bUpdate := m.bUpdate } s' := by
    refine ⟨.refl _, ⟨hi.mdl.bkeys, hi.mdl.bmem, hi.mdl.upd, by dsimp only; rw [w1]; exact hi.mdl.wkeys, by dsimp only; rw [w1]; exact hi.mdl.wmem, by dsimp only; rw [w1]; exact hi.mdl.well⟩,
      by rw [a.sol.plen, a.sol.tstep]; exact hi.plen, by rw [a.sol.rlen, a.sol.tstep]; exact hi.rlen, fun B hB => ?_⟩
    rw [f1] at hB
    have := hi.kept B hB
    rw [f2, f3]
    refine ⟨fun i j hi hj => ?_, this.bv⟩
    rw [this.mat i j hi hj]
    dsimp only
    rw [w1]; rfl
  have hq' : QInv c.lower c.e { m' with bdict := m.bdict, bUpdate := m.bUpdate } s' := by
    refine ⟨by unfold Configured; dsimp only; rw [w1]; exact hq.cfg, hq.canon, fun id t hid => ?_, by rw [f4]; exact hq.sinv, by dsimp only; rw [f1, f3, w1]; exact hq.stale,
      by dsimp only; rw [w1]; exact hq.tame⟩
    dsimp only at hid
    rw [w3] at hid
    obtain ⟨⟨wp, g1, g2, g3⟩, g4⟩ := hq.tinv id t hid
    exact ⟨⟨wp, g1, by dsimp only; rw [w1]; exact g2, by dsimp only; rw [w1]; exact g3⟩, g4⟩
  rw [core_solves hr.ctx hc' hq' (fun _ => hf) (fun _ => by unfold NoZeroPwf; dsimp only; rw [w1]; exact hz) heq x]
  refine forall₂_congr fun i hin => ?_
  have hold : s'.inner c.e s'.tstep i = s.inner c.e s.tstep i := by
    unfold Sol.inner
    rw [a.sol.tstep, (a.sol.now _ fun hm => ?_).1]
    obtain ⟨x, hx, hxe⟩ := List.mem_map.1 hm
    exact hr.ctx.wf.disj _ (a.mem x hx) (by rw [hxe]; exact at_mem c.e hin)
  unfold excess outsideIn
  rw [hold]
  dsimp only
  rw [w1]
  rfl

lemma foldlM_mem {α β : Type} {f : β → α → Except Err β} {l : List α} {b b' : β} {x : α} (hx : x ∈ l) (h : l.foldlM f b = .ok b') : ∃ d d', f d x = .ok d' := by
  induction l generalizing b with
  | nil => simp at hx
  | cons a l ih =>
    rw [List.foldlM_cons, ok_bind] at h
    obtain ⟨b1, h1, h⟩ := h
    rcases List.mem_cons.1 hx with rfl | hx
    · exact ⟨_, _, h1⟩
    · exact ih hx h

lemma vBound_keys {lower : String → String} {e : Env K} {m : Mdl K} (l : List ℕ) {acc acc' : (ℕ → ℕ → K) × List (ℕ × K × K × ℕ)}
    (h : l.foldlM (vBound lower e m) acc = .ok acc') : ∀ k, dictGet acc'.2 k ≠ none → k ∈ l ∨ dictGet acc.2 k ≠ none := by
  induction l generalizing acc with
  | nil => rw [List.foldlM_nil, ok_pure] at h; subst h; exact fun k hk => Or.inr hk
  | cons a l ih =>
    rw [List.foldlM_cons, ok_bind] at h
    obtain ⟨b1, h1, h⟩ := h
    intro k hk
    rcases ih h k hk with h2 | h2
    · exact Or.inl (by simp [h2])
    · unfold vBound at h1
      rw [ok_bind] at h1
      obtain ⟨t, -, h1⟩ := h1
      split at h1
      · split at h1
        · rw [ok_bind] at h1
          obtain ⟨i, -, h1⟩ := h1
          rw [ok_pure] at h1
          subst h1
          dsimp only at h2
          rw [dictGet_set] at h2
          split_ifs at h2 with h3
          · exact Or.inl (by simp [h3])
          · exact Or.inr h2
        · simp at h1
      · simp at h1

/-- The vectorised assembler remembers pressure conditions only of boundary cells that have them. -/
lemma matricesVect_keys {lower : String → String} {e : Env K} {m : Mdl K} {s s' : Sol K} {A : ℕ → ℕ → K} {d : ℕ → K} (h : matricesVect lower e m s = .ok (s', A, d))
    (hk : ∀ k, dictGet s.bV k ≠ none → k ∈ m.bUpdate) : ∀ k, dictGet s'.bV k ≠ none → k ∈ m.bUpdate := by
  unfold matricesVect at h
  rw [ok_bind] at h
  obtain ⟨⟨A0, bV, res⟩, h1, h⟩ := h
  simp only [ok_bind, ok_pure, Prod.mk.injEq] at h
  obtain ⟨d0, -, acc, -, d1, -, rfl, -, -⟩ := h
  dsimp only
  have key : ∀ {A0 bV res}, (do
      let (A, bV) ← m.bUpdate.foldlM (vBound lower e m) (initA e, [])
      pure (A, bV, fun _ => false) : Except Err ((ℕ → ℕ → K) × List (ℕ × K × K × ℕ) × (ℕ → Bool))) = .ok (A0, bV, res) → ∀ k, dictGet bV k ≠ none → k ∈ m.bUpdate := by
    intro A0 bV res h k hk
    rw [ok_bind] at h
    obtain ⟨⟨A1, bV1⟩, h2, h⟩ := h
    simp only [ok_pure, Prod.mk.injEq] at h
    obtain ⟨-, rfl, -⟩ := h
    rcases vBound_keys _ h2 k hk with h3 | h3
    · exact h3
    · simp [dictGet] at h3
  unfold vReady at h1
  split at h1
  · split_ifs at h1
    · exact key h1
    · simp only [Except.ok.injEq, Prod.mk.injEq] at h1
      obtain ⟨-, rfl, -⟩ := h1
      exact hk
  · exact key h1

lemma assemble_keys {c : Ctx K} {vect : Bool} {m m' : Mdl K} {s s' : Sol K} {A : ℕ → ℕ → K} {d : ℕ → K} (h : assemble c vect m s = .ok (m', s', A, d))
    (hk : ∀ k, dictGet s.bV k ≠ none → k ∈ m.bUpdate) : ∀ k, dictGet s'.bV k ≠ none → k ∈ m.bUpdate := by
  cases vect
  · unfold assemble matricesSymb at h
    simp only [Bool.false_eq_true, if_false] at h
    rw [ok_bind] at h
    obtain ⟨⟨m2, eqs⟩, -, h⟩ := h
    simp only [ok_pure, Prod.mk.injEq] at h
    obtain ⟨-, rfl, -, -⟩ := h
    exact hk
  · exact matricesVect_keys (assemble_vect h).2 hk

lemma Hist.keys {c : Ctx K} {P : Bool → Mdl K → Mdl K → Prop} {m0 m : Mdl K} {s : Sol K} (hr : Ready c m0) (h : Hist c P m0 m s) :
    ∀ k, dictGet s.bV k ≠ none → k ∈ m0.bUpdate := by
  have go : ∀ {m s vect m' s' again}, Hist c P m0 m s → attempt c vect m s = .ok (m', s', again) → (∀ k, dictGet s.bV k ≠ none → k ∈ m0.bUpdate) →
      ∀ k, dictGet s'.bV k ≠ none → k ∈ m0.bUpdate := by
    intro m s vect m' s' again hh ha ih
    have hi := hr.inv hh
    obtain ⟨m2, s2, A, d, x, p, r', ps, h1⟩ := attempted hr.ctx.lower hr.ctx.wf hi ha
    rw [h1.bV, ← hi.same.upd]
    exact assemble_keys h1.asm (by rw [hi.same.upd]; exact ih)
  induction h with
  | start => simp [Sol.init, dictGet]
  | step hh ha hp ih => exact go hh ha ih
  | again hh ha hp ih => intro k hk; exact go hh ha ih k hk
  | look hh ha ih =>
    have hi := hr.inv hh
    rw [← hi.same.upd]
    exact assemble_keys ha (by rw [hi.same.upd]; exact ih)
  | clock n t _ ih => exact ih

/-- **C58 fails** with the vectorised assembler, in every model: after a step was solved, a pressure condition at a boundary face that had none makes the next step raise
an exception. -/
theorem C58_new_pressure_fails {c : Ctx K} {P : Bool → Mdl K → Mdl K → Prop} {m0 m1 m m' : Mdl K} {s1 s s' : Sol K} (hr : Ready c m0) (h : Hist c P m0 m1 s1)
    (ha : attempt c true m1 s1 = .ok (m, s, false)) (hp : P true m1 m) {b : List (ℕ × String × K)} (hb : (b.map (·.1)).Nodup)
    (hs : setBoundaries c.lower c.e m (some s) b = ((m', some s'), .ok ())) {k id : ℕ} {v T : K} (hk : (k, "pressure", v) ∈ b) (hF : c.e.Face k id T)
    (hn : ∀ x, x ∈ m0.bdict → x.1 = k → x.2.1 ≠ "pressure") : ∃ x, attempt c true m' s' = .error x := by
  have hi := hr.inv h
  obtain ⟨m2, s2, A, d, x, p, r', ps, h1⟩ := attempted hr.ctx.lower hr.ctx.wf hi ha
  obtain ⟨s3, e3, a1, a2, a⟩ := setBoundaries_live h1.core.plen h1.core.rlen hb hs
  simp only [Option.some.injEq] at e3
  subst e3
  have ht : s.tstep ≠ 0 := by rw [h1.tstep]; omega
  obtain ⟨bV, res, hs1, -⟩ := matricesVect_ok hr.ctx.lower hr.ctx.wf hi.mdl hi.toCore.vinv (assemble_vect h1.asm).2
  have hv : s.vA = some A := by rw [h1.vA, hs1]
  obtain ⟨pr, rt, esol⟩ := a.sol.eq
  have f : s'.vA = s.vA ∧ s'.bV = s.bV := by rw [esol]; exact ⟨rfl, rfl⟩
  have hnone : dictGet s.bV k = none := by
    by_contra hc
    have := (h.step ha hp).keys hr k hc
    rw [hr.started.mdl.upd] at this
    obtain ⟨y, hy, hyk⟩ := List.mem_map.1 this
    rw [List.mem_filter] at hy
    exact hn y hy.1 hyk (by simpa using hy.2)
  rcases hat : attempt c true m' s' with e | ⟨m3, s3, again⟩
  · exact ⟨e, rfl⟩
  exfalso
  unfold attempt at hat
  rw [ok_bind] at hat
  obtain ⟨⟨m4, s4, A4, d4⟩, hA, -⟩ := hat
  have h2 := (assemble_vect hA).2
  unfold matricesVect at h2
  rw [vReady_kept (f.1.trans hv) (by rw [a.sol.tstep]; exact ht)] at h2
  simp only [bind_ok, ok_bind] at h2
  obtain ⟨d0, -, acc, -, d1, h3, -⟩ := h2
  rw [a1] at h3
  obtain ⟨d2, d3, h4⟩ := foldlM_mem hk h3
  unfold vBd at h4
  dsimp only at h4
  obtain ⟨N, hN, hNa⟩ := hr.ctx.wf.nbr k _ (a.mem _ hk) hF
  rw [hN, bind_ok, hNa] at h4
  simp only [List.map_cons, List.map_nil, if_true] at h4
  rw [ok_bind] at h4
  obtain ⟨i, -, h4⟩ := h4
  rw [f.2, hnone] at h4
  simp [need] at h4

end

/-! ## Instances -/

/-- Calls of a session. -/
inductive Cmd where
  | step
  | well (id : ℕ) (a : WellArgs ℚ)
  | bounds (b : List (ℕ × String × ℚ))

/-- `WellTakes`, computed. -/
def wellTakesB (vect : Bool) (m m' : Mdl ℚ) (s : Sol ℚ) (id : ℕ) : Bool :=
  decide (s.As.length = 1) ||
  match dictGet m.wells id, dictGet m'.wells id with
  | none, _ => vect
  | some w, some w' => if vect then decide (w.con = some .q ∨ (w'.con = some .pwf ∧ w'.G = w.G ∧ w.pwfsp ≠ some 0 ∧ w'.pwfsp ≠ some 0)) else decide (w'.con = some .pwf)
  | some _, none => false

lemma wellTakesB_ok {vect : Bool} {m m' : Mdl ℚ} {s : Sol ℚ} {id : ℕ} (h : wellTakesB vect m m' s id = true) : WellTakes vect m m' s id := by
  unfold wellTakesB at h
  rw [Bool.or_eq_true, decide_eq_true_eq] at h
  rcases h with h | h
  · exact Or.inl h
  · right
    rcases e1 : dictGet m.wells id with _ | w
    · rw [e1] at h
      exact Or.inl ⟨h, Or.inl (by simp)⟩
    · rcases e2 : dictGet m'.wells id with _ | w'
      · rw [e1, e2] at h; simp at h
      · rw [e1, e2] at h
        dsimp only at h
        cases vect
        · simp only [Bool.false_eq_true, if_false, decide_eq_true_eq] at h
          exact Or.inr ⟨rfl, w, w', rfl, rfl, h⟩
        · simp only [if_true, decide_eq_true_eq] at h
          refine Or.inl ⟨rfl, ?_⟩
          rcases h with h | ⟨h1, h2, h3, h4⟩
          · left; intro w1 hw1; simp only [Option.some.injEq] at hw1; rw [← hw1]; exact h
          · exact Or.inr ⟨w, w', rfl, rfl, h1, h2, h3, h4⟩

/-- `BoundsTake`, computed. -/
def boundsTakeB (vect : Bool) (m : Mdl ℚ) (s : Sol ℚ) (b : List (ℕ × String × ℚ)) : Bool :=
  if vect then (decide (s.As.length = 1) || decide (pressures b = pressures m.bdict)) && (decide (s.tstep ≠ 0) || b.all fun x => decide (x.2.1 ≠ "pressure" → x ∈ m.bdict))
  else decide (s.As.length = 1)

lemma boundsTakeB_ok {vect : Bool} {m : Mdl ℚ} {s : Sol ℚ} {b : List (ℕ × String × ℚ)} (h : boundsTakeB vect m s b = true) : BoundsTake vect m s b := by
  unfold boundsTakeB at h
  unfold BoundsTake
  split_ifs at h ⊢
  · simp only [Bool.and_eq_true, Bool.or_eq_true, decide_eq_true_eq, List.all_eq_true] at h
    exact h
  · exact of_decide_eq_true (p := s.As.length = 1) h

/-- The state after a call, if it is one a session may contain. -/
def runCmd (c : Ctx ℚ) (vect : Bool) (x : Mdl ℚ × Sol ℚ) : Cmd → Option (Mdl ℚ × Sol ℚ)
  | .step => match attempt c vect x.1 x.2 with
    | .ok (m', s', again) => if calmB vect x.1 m' then some (m', if again then s'.back else s') else none
    | .error _ => none
  | .well id a => match setWell c.e x.1 (some x.2) (some id) a with
    | (m', .ok ()) =>
      if wellTakesB vect x.1 m' x.2 id && (match dictGet m'.wells id with | some w => decide (w.con ≠ none) && (match w.G with | some G => decide (0 < G) | none => true) | none => true)
      then some (m', x.2) else none
    | _ => none
  | .bounds b => match setBoundaries c.lower c.e x.1 (some x.2) b with
    | ((m', some s'), .ok ()) =>
      if decide ((b.map (·.1)).Nodup) && boundsTakeB vect x.1 x.2 b && (b.all fun y => decide (c.lower y.2.1 ∈ ["pressure", "press", "p"] ↔ y.2.1 = "pressure"))
      then some (m', s') else none
    | _ => none

lemma runCmd_sess {c : Ctx ℚ} {vect : Bool} {m0 : Mdl ℚ} {x y : Mdl ℚ × Sol ℚ} {k : Cmd} (h : Sess c vect m0 x.1 x.2) (hk : runCmd c vect x k = some y) :
    Sess c vect m0 y.1 y.2 := by
  obtain ⟨m, s⟩ := x
  cases k with
  | step =>
    unfold runCmd at hk
    dsimp only at hk
    split at hk
    · rename_i m' s' again ha
      split_ifs at hk with h1 h2
      · simp only [Option.some.injEq] at hk; subst hk; rw [h2] at ha; exact .again h ha (calmB_calm h1)
      · simp only [Option.some.injEq] at hk; subst hk; rw [Bool.not_eq_true] at h2; rw [h2] at ha; exact .step h ha (calmB_calm h1)
    · simp at hk
  | well id a =>
    unfold runCmd at hk
    dsimp only at hk
    split at hk
    · rename_i m' hs
      split_ifs at hk with h1
      simp only [Option.some.injEq] at hk
      subst hk
      rw [Bool.and_eq_true] at h1
      refine .well h hs (wellTakesB_ok h1.1) fun w hw => ?_
      have h2 := h1.2
      rw [hw] at h2
      simp only [Bool.and_eq_true, decide_eq_true_eq] at h2
      refine ⟨h2.1, fun G hG => ?_⟩
      have h3 := h2.2
      rw [hG] at h3
      exact of_decide_eq_true h3
    · simp at hk
  | bounds b =>
    unfold runCmd at hk
    dsimp only at hk
    split at hk
    · rename_i m' s' hs
      split_ifs at hk with h1
      simp only [Option.some.injEq] at hk
      subst hk
      simp only [Bool.and_eq_true, decide_eq_true_eq, List.all_eq_true] at h1
      exact .bounds h h1.1.1 hs (boundsTakeB_ok h1.1.2) h1.2
    · simp at hk

/-- The state after several calls, if a session may contain them. -/
def runCmds (c : Ctx ℚ) (vect : Bool) (m0 : Mdl ℚ) (l : List Cmd) : Option (Mdl ℚ × Sol ℚ) := l.foldlM (runCmd c vect) (m0, Sol.init m0)

lemma runCmds_sess {c : Ctx ℚ} {vect : Bool} {m0 : Mdl ℚ} {l : List Cmd} {y : Mdl ℚ × Sol ℚ} (h : runCmds c vect m0 l = some y) : Sess c vect m0 y.1 y.2 := by
  unfold runCmds at h
  have key : ∀ (l : List Cmd) (x y : Mdl ℚ × Sol ℚ), Sess c vect m0 x.1 x.2 → l.foldlM (runCmd c vect) x = some y → Sess c vect m0 y.1 y.2 := by
    intro l
    induction l with
    | nil => intro x y hx h; simp only [List.foldlM_nil, Option.pure_def, Option.some.injEq] at h; subst h; exact hx
    | cons k l ih =>
      intro x y hx h
      rw [List.foldlM_cons, Option.bind_eq_bind, Option.bind_eq_some_iff] at h
      obtain ⟨z, hz, h⟩ := h
      exact ih z y (runCmd_sess hx hz) h
  exact key l _ y .start h

/-- The state at the end of a session. -/
def ranCmds (c : Ctx ℚ) (vect : Bool) (m0 : Mdl ℚ) (l : List Cmd) (h : (runCmds c vect m0 l).isSome = true) : Mdl ℚ × Sol ℚ := (runCmds c vect m0 l).get h

lemma ranCmds_sess {c : Ctx ℚ} {vect : Bool} {m0 : Mdl ℚ} {l : List Cmd} (h : (runCmds c vect m0 l).isSome = true) :
    Sess c vect m0 (ranCmds c vect m0 l h).1 (ranCmds c vect m0 l h).2 := runCmds_sess (Option.some_get h).symm

/-- A pressure of 10 on the left, a rate of 1 on the right, a producer with rate −2 in cell 2. -/
def exS : Mdl ℚ := exMdl true 0 [] (some 8) [(0, "pressure", 10), (3, "rate", 1)] [(2, { q := some (-2), pwf := some 1, r := some 1 })]

lemma exS_ready : Ready (exC true 0 []) exS := exMdl_ready (by decide +kernel)

/-- A session with the vectorised assembler: a well added, its pressure changed, another rate on the boundary, another target rate. -/
def exSV : List Cmd :=
  [.step, .well 1 { pwf := some 3, r := some 1 }, .step, .bounds [(0, "pressure", 10), (3, "rate", 2)], .step, .well 1 { pwf := some 4 }, .step, .well 2 { q := some (-1) }]

/-- One with the symbolic assembler: other conditions and another well before the first step, the pressure of that well changed after it. -/
def exSS : List Cmd := [.bounds [(0, "pressure", 11), (3, "rate", 2)], .well 1 { pwf := some 3, r := some 1 }, .step, .well 1 { pwf := some 4 }, .step]

lemma exSV_some : (runCmds (exC true 0 []) true exS exSV).isSome = true := by decide +kernel

lemma exSS_some : (runCmds (exC true 0 []) false exS exSS).isSome = true := by decide +kernel

/-- The state at the end of each. -/
def exSVr : Mdl ℚ × Sol ℚ := ranCmds _ _ _ _ exSV_some

def exSSr : Mdl ℚ × Sol ℚ := ranCmds _ _ _ _ exSS_some

/-- The hypotheses of `C59_takes_effect_partial` are met at the end of both sessions. -/
example : (Sess (exC true 0 []) true exS exSVr.1 exSVr.2 ∧ exSVr.2.tstep = 4 ∧ runCmd (exC true 0 []) true exSVr (.well 1 { pwf := some 5 }) ≠ none ∧ (exC true 0 []).e.Flat ∧
    NoZeroPwf exSVr.1 ∧ isOk (attempt (exC true 0 []) true exSVr.1 exSVr.2) = true) ∧
    Sess (exC true 0 []) false exS exSSr.1 exSSr.2 ∧ exSSr.2.tstep = 2 ∧ runCmd (exC true 0 []) false exSSr (.well 1 { pwf := some 5 }) ≠ none ∧
    isOk (attempt (exC true 0 []) false exSSr.1 exSSr.2) = true := by
  refine ⟨⟨ranCmds_sess _, by decide +kernel, ?_, Or.inl (by decide +kernel), noZeroB_ok (by decide +kernel), by decide +kernel⟩, ranCmds_sess _, by decide +kernel, ?_, by decide +kernel⟩ <;>
    exact fun h => absurd (congrArg Option.isSome h) (by decide +kernel)

/-- Those of `C58_takes_effect_partial` are met at the end of the first and the beginning of the second. -/
example : runCmd (exC true 0 []) true exSVr (.bounds [(0, "pressure", 10), (3, "gradient", 4)]) ≠ none ∧
    runCmd (exC true 0 []) false (exS, Sol.init exS) (.bounds [(0, "pressure", 11), (3, "rate", 2)]) ≠ none := by
  constructor <;> exact fun h => absurd (congrArg Option.isSome h) (by decide +kernel)

/-- A call of `set_well` after which the next step does not balance with the well's settings, although the solver is exact, nothing is deep and no pressure is 0. -/
def Unsettled (vect : Bool) (id : ℕ) (a : WellArgs ℚ) : Prop :=
  ∃ (c : Ctx ℚ) (m0 m m' m'' : Mdl ℚ) (s s'' : Sol ℚ) (again : Bool) (i : ℕ), Ready c m0 ∧ Exact c.lin ∧ c.e.Flat ∧ Sess c vect m0 m s ∧
    setWell c.e m (some s) (some id) a = (m', .ok ()) ∧ NoZeroPwf m' ∧ attempt c vect m' s = .ok (m'', s'', again) ∧ i < c.e.n ∧
    excess c.e (c.e.trans vect) m' (usedRate vect m' s) (s.inner c.e s.tstep) (s''.inner c.e s''.tstep) i ≠ 0

/-- What is checked for it. -/
def unsettledB (c : Ctx ℚ) (vect : Bool) (x : Mdl ℚ × Sol ℚ) (id : ℕ) (a : WellArgs ℚ) (i : ℕ) : Bool :=
  match setWell c.e x.1 (some x.2) (some id) a with
  | (m', .ok ()) => noZeroB m' && decide (i < c.e.n) && match attempt c vect m' x.2 with
    | .ok (_, s'', _) => decide (excess c.e (c.e.trans vect) m' (usedRate vect m' x.2) (x.2.inner c.e x.2.tstep) (s''.inner c.e s''.tstep) i ≠ 0)
    | .error _ => false
  | _ => false

lemma unsettled_of {c : Ctx ℚ} {vect : Bool} {m0 : Mdl ℚ} {l : List Cmd} (hr : Ready c m0) (hx : Exact c.lin) (hf : c.e.Flat) (hl : (runCmds c vect m0 l).isSome = true) {id : ℕ}
    {a : WellArgs ℚ} {i : ℕ} (h : unsettledB c vect (ranCmds c vect m0 l hl) id a i = true) : Unsettled vect id a := by
  unfold unsettledB at h
  split at h
  · rename_i m' hs
    rw [Bool.and_eq_true, Bool.and_eq_true, decide_eq_true_eq] at h
    obtain ⟨⟨h1, h2⟩, h3⟩ := h
    split at h3
    · rename_i m'' s'' again ha
      exact ⟨c, m0, _, m', m'', _, s'', again, i, hr, hx, hf, ranCmds_sess hl, hs, noZeroB_ok h1, ha, h2, of_decide_eq_true h3⟩
    · simp at h3
  · simp at h

/-- The reservoir with a well held at pressure 3 in cell 2. -/
def exSP : Mdl ℚ := exMdl true 0 [] (some 8) [(0, "pressure", 10), (3, "rate", 1)] [(2, { pwf := some 3, r := some 1 })]

lemma exSP_ready : Ready (exC true 0 []) exSP := exMdl_ready (by decide +kernel)

/-- **C59 fails** with the vectorised assembler for a well under pressure constraint that is given a rate: its index stays in the matrix. -/
theorem C59_released_well : Unsettled true 2 { q := some (-1) } :=
  unsettled_of (l := [.step]) (i := 1) exSP_ready cramer_exact (Or.inl (by decide +kernel)) (by decide +kernel) (by decide +kernel)

/-- **C59 fails** with the symbolic assembler for a well under pressure constraint that is given a rate: the pressure term stays in the equation. -/
theorem C59_released_well_symbolic : Unsettled false 2 { q := some (-1) } :=
  unsettled_of (l := [.step]) (i := 1) exSP_ready cramer_exact (Or.inl (by decide +kernel)) (by decide +kernel) (by decide +kernel)

/-- **C59 fails** with the symbolic assembler for a new well held at a pressure: its term replaces one of the flow terms. -/
theorem C59_new_well_symbolic : Unsettled false 1 { pwf := some 3, r := some 1 } :=
  unsettled_of (l := [.step]) (i := 0) exSP_ready cramer_exact (Or.inl (by decide +kernel)) (by decide +kernel) (by decide +kernel)

/-- **C59 fails** with the vectorised assembler for a well under pressure constraint whose radius changes: the old index stays in the matrix. -/
theorem C59_changed_index : Unsettled true 2 { r := some 2 } :=
  unsettled_of (l := [.step]) (i := 1) exSP_ready cramer_exact (Or.inl (by decide +kernel)) (by decide +kernel) (by decide +kernel)

/-- The hypotheses of `C59_symbolic_rate_fails` and `C58_symbolic_fails` are met: after a symbolic step the well in cell 2 is given another rate, the boundary other
conditions. -/
example : isOk (attempt (exC true 0 []) false exS (Sol.init exS)) = true ∧ ∀ h,
    isOk (setWell (exC true 0 []).e (exAtt (exC true 0 []) false (exS, Sol.init exS) h).1 (some (exAtt (exC true 0 []) false (exS, Sol.init exS) h).2.1) (some 2) { q := some (-1) }).2 = true ∧
    ((exAtt (exC true 0 []) false (exS, Sol.init exS) h).1.wells.all fun w => decide (w.2.con ≠ some .pwf)) = true ∧
    isOk (setBoundaries (exC true 0 []).lower (exC true 0 []).e (exAtt (exC true 0 []) false (exS, Sol.init exS) h).1 (some (exAtt (exC true 0 []) false (exS, Sol.init exS) h).2.1)
      [(0, "pressure", 20), (3, "pressure", 5)]).2 = true := ⟨by decide +kernel, by decide +kernel⟩

/-- Those of `C58_first_rates_fails`, `C58_pressures_kept` and `C58_new_pressure_fails` are met. -/
example : isOk (setBoundaries (exC true 0 []).lower (exC true 0 []).e exS (some (Sol.init exS)) [(0, "pressure", 10), (3, "rate", 2)]).2 = true ∧
    isOk (attempt (exC true 0 []) true exS (Sol.init exS)) = true ∧ ∀ h, (exAtt (exC true 0 []) true (exS, Sol.init exS) h).2.2 = false ∧
    calmB true exS (exAtt (exC true 0 []) true (exS, Sol.init exS) h).1 = true ∧
    (∀ b, b ∈ [[(0, "pressure", 20), (3, "rate", 2)], [(0, "pressure", 10), (3, "pressure", 5)]] →
      isOk (setBoundaries (exC true 0 []).lower (exC true 0 []).e (exAtt (exC true 0 []) true (exS, Sol.init exS) h).1 (some (exAtt (exC true 0 []) true (exS, Sol.init exS) h).2.1) b).2 = true) ∧
    (exC true 0 []).e.transC 3 false = .ok [(2, 1)] :=
  ⟨by decide +kernel, by decide +kernel, fun h => ⟨by revert h; decide +kernel, by revert h; decide +kernel, by revert h; decide +kernel, by
    have h : isOk ((exC true 0 []).e.transC 3 false) = true ∧ ∀ h, getOk ((exC true 0 []).e.transC 3 false) h = [(2, 1)] := ⟨by decide +kernel, by decide +kernel⟩
    rw [getOk_eq _ h.1, h.2]⟩⟩

end RF.Fdm
