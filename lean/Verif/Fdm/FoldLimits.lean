import Verif.Fdm.Limits
import Verif.Fdm.PropsFold
/-!
# C80 with wells that reach their limits

The theorems of `PropsFold` for runs in which wells may reach their pressure limits but do not leave them.
-/
set_option linter.unusedSectionVars false
namespace RF.Fdm
open RF RF.Dims RF.Spec Finset

variable {K : Type} [Field K] [LinearOrder K] [IsStrictOrderedRing K]

/-- The pressure limits of rate-controlled wells, too, do not differ between cells over the same cell, and their well indices go with the size of the cell. -/
def LimitsOver (M M' : GridModel K) (φ : Cell → Cell) (s : Cell → K) (e e' : Env K) (m m' : Mdl K) : Prop :=
  ∀ c w w', Interior M.g.nx M.g.ny M.g.nz c → (cellNumber M.g.nx M.g.ny c, w) ∈ m.wells → (cellNumber M'.g.nx M'.g.ny (φ c), w') ∈ m'.wells → w.con = some .q →
    w.pwfsp = w'.pwfsp ∧ windex e w = s c * windex e' w'

section
variable {M M' : GridModel K} {φ : Cell → Cell} {s : Cell → K} {c c' : Ctx K} {m m' : Mdl K}

lemma well_alone {e : Env K} {n : Mdl K} (hn : MdlOK e n) {i : ℕ} (hi : i ∈ e.ids) (F : ℕ × Well K → K) (hF : ∀ w, w.1 ≠ e.at (e.ids.idxOf i) → F w = 0) :
    (∀ w, (i, w) ∈ n.wells → (n.wells.map F).sum = F (i, w)) ∧ ((∀ w, (i, w) ∉ n.wells) → (n.wells.map F).sum = 0) := by
  classical
  rw [at_idx e hi] at hF
  rw [sum_of_keys hn.wkeys]
  refine ⟨fun w hw => sum_eq_single _ (fun x hx hne => hF x ?_) (fun H => absurd (List.mem_toFinset.2 hw) H), fun H => sum_eq_zero fun x hx => hF x ?_⟩
  · exact fun H => hne (key_unique hn.wkeys (List.mem_toFinset.1 hx) hw H)
  · rintro rfl
    exact H x.2 (List.mem_toFinset.1 hx)

lemma WellOver.wIn {t : K} {e e' : Env K} {w w' : Well K} (h : WellOver t e e' w w') {i j : ℕ} (p : K) :
    Fdm.wIn e p i (e.at i, w) = t * Fdm.wIn e' p j (e'.at j, w') := by
  unfold Fdm.wIn
  rw [if_pos rfl, if_pos rfl]
  dsimp only
  rw [← h.con]
  rcases hcon : w.con with _ | _ | _
  · rw [mul_zero]
  · dsimp only
    rw [h.rate hcon]
    rcases w'.qsp with _ | q <;> simp
  · dsimp only
    rw [(h.pwf hcon).1, (h.pwf hcon).2, mul_assoc]

lemma WellOver.topUp {t : K} (ht : 0 < t) {e e' : Env K} {w w' : Well K} (h : WellOver t e e' w w') (hl : w.con = some .q → w.pwfsp = w'.pwfsp ∧ windex e w = t * windex e' w') {i j : ℕ} (p : K) :
    Fdm.topUp e p i (e.at i, w) = t * Fdm.topUp e' p j (e'.at j, w') := by
  unfold Fdm.topUp
  rw [if_pos rfl, if_pos rfl]
  dsimp only
  rw [← h.con]
  rcases hcon : w.con with _ | _ | _
  · rw [mul_zero]
  · dsimp only
    rw [(hl hcon).1, (hl hcon).2, h.rate hcon, mul_max_of_nonneg _ _ ht.le, mul_zero]
    congr 1
    rcases w'.qsp with _ | q
    · simp only [Option.map_none, Option.getD_none]; ring
    · simp only [Option.map_some, Option.getD_some]; ring
  · rw [mul_zero]

theorem FoldModel.top {e e' : Env K} (hm : FoldModel M M' φ s e e' m m') (hl : LimitsOver M M' φ s e e' m m') (h : FoldLooks M M' φ s) (he : M.env = .ok e) (he' : M'.env = .ok e')
    (ho : MdlOK e m) (ho' : MdlOK e' m') : FoldsTop (renumber M.g M'.g φ) (fun a => s (M.g.dec a)) e e' m m' := by
  intro a p ha
  obtain ⟨e1, -⟩ := env_ok he
  obtain ⟨e1', -⟩ := env_ok he'
  have hid : Interior M.g.nx M.g.ny M.g.nz (M.g.dec a) := by rw [e1, mem_innerIds] at ha; exact ha
  have hnum : cellNumber M.g.nx M.g.ny (M.g.dec a) = a := M.g.num_dec a
  have hren : renumber M.g M'.g φ a ∈ e'.ids := by
    rw [e1', mem_innerIds, show M'.g.dec (renumber M.g M'.g φ a) = φ (M.g.dec a) from M'.g.dec_num (h.layout.inGrid _ (Interior.inGrid hid))]
    exact h.layout.inner _ hid
  obtain ⟨p1, p2⟩ := well_alone ho ha (topUp e p (e.ids.idxOf a)) fun w hw => by unfold topUp; rw [if_neg hw]
  obtain ⟨q1, q2⟩ := well_alone ho' hren (topUp e' p (e'.ids.idxOf (renumber M.g M'.g φ a))) fun w hw => by unfold topUp; rw [if_neg hw]
  by_cases hw : ∃ w, (a, w) ∈ m.wells
  · obtain ⟨w, hw⟩ := hw
    obtain ⟨w', hw', ho⟩ := hm.wellUp (M.g.dec a) w hid (by rw [hnum]; exact hw)
    rw [p1 w hw, q1 w' hw']
    have := ho.topUp (h.pos _ (Interior.inGrid hid)) (hl _ w w' hid (by rw [hnum]; exact hw) hw') (i := e.ids.idxOf a) (j := e'.ids.idxOf (renumber M.g M'.g φ a)) p
    rw [at_idx e ha, at_idx e' hren] at this
    exact this
  · push Not at hw
    rw [p2 hw, q2, mul_zero]
    intro w' hw'
    obtain ⟨w, hw2⟩ := hm.wellDown (M.g.dec a) w' hid hw'
    rw [hnum] at hw2
    exact hw w hw2

/-- **C80 with limits, partial.** As `C80_run_partial`, but wells may reach their pressure limits during the runs, at any step and in any order; the limits do not differ between cells over the
same cell either (`LimitsOver`). At every step each cell of `M` has the pressure of the cell of `M'` below it.

Missing: wells that leave their limits (`C80_limit_fails`), and what is missing in `C80_run_partial`. -/
theorem C80_limits_partial (hL : FoldLooks M M' φ s) (hM : M.Pos) (hM' : M'.Pos) (he : M.env = .ok c.e) (he' : M'.env = .ok c'.e) {vect : Bool}
    (hv : vect = true → M.g.getD ≠ 3 ∧ M'.g.getD ≠ 3 ∧ c.e.Flat ∧ c'.e.Flat ∧ RatesGiven m ∧ RatesGiven m') (hr : Ready c m) (hr' : Ready c' m') (hx : Exact c.lin) (hx' : Exact c'.lin)
    (han : Anchored c.e m) (h0 : FoldModel M M' φ s c.e c'.e m m') (hlim : LimitsOver M M' φ s c.e c'.e m m') {f f' N : ℕ} {t t' : K}
    (hP : RunAll c Calm f vect N m { Sol.init m with nsteps := (Sol.init m).nsteps + N }) (hP' : RunAll c' Calm f' vect N m' { Sol.init m' with nsteps := (Sol.init m').nsteps + N })
    (h : (run c f vect N t m (Sol.init m)).2 = .ok ()) (h' : (run c' f' vect N t' m' (Sol.init m')).2 = .ok ()) :
    (run c f vect N t m (Sol.init m)).1.2.tstep = N ∧ (run c' f' vect N t' m' (Sol.init m')).1.2.tstep = N ∧
    ∀ k, (0 < k ∨ M.comp = true) → k ≤ N → ∀ x, Interior M.g.nx M.g.ny M.g.nz x →
      rowAt (run c f vect N t m (Sol.init m)).1.2.press k none (cellNumber M.g.nx M.g.ny x) =
        rowAt (run c' f' vect N t' m' (Sol.init m')).1.2.press k none (cellNumber M'.g.nx M'.g.ny (φ x)) := by
  obtain ⟨e1, -, -, -, -, -, -, -, -, e10, -⟩ := env_ok he
  obtain ⟨t1, t2, key⟩ := fold_limited (el := t) (el' := t') (hL.folds hM hM' he he' (vect := vect) fun h => ⟨(hv h).1, (hv h).2.1⟩) (h0.folds hL hM hM' he he' hr.started.mdl hr'.started.mdl)
    (h0.top hlim hL he he' hr.started.mdl hr'.started.mdl) hr hr' hx hx' (fun h => (hv h).2.2.2.2) (fun h => ⟨(hv h).2.2.1, (hv h).2.2.2.1⟩) han hP hP' h h'
  refine ⟨t1, t2, fun k hk hkN x hx => ?_⟩
  have := key k (by rw [e10]; exact hk) hkN (cellNumber M.g.nx M.g.ny x)
    (by rw [e1, mem_innerIds, show M.g.dec (cellNumber M.g.nx M.g.ny x) = x from M.g.dec_num (Interior.inGrid hx)]; exact hx)
  rw [renumber_cell φ (Interior.inGrid hx)] at this
  exact this

/-- **C80 with limits, boundary inflow, partial.** In the situation of `C80_limits_partial`, the inflow recorded for a boundary cell `x` under a pressure condition is `s` times the inflow
recorded for the boundary cell below it. -/
theorem C80_limit_fluxes_partial (hL : FoldLooks M M' φ s) (hM : M.Pos) (hM' : M'.Pos) (he : M.env = .ok c.e) (he' : M'.env = .ok c'.e) {vect : Bool}
    (hv : vect = true → M.g.getD ≠ 3 ∧ M'.g.getD ≠ 3 ∧ c.e.Flat ∧ c'.e.Flat ∧ RatesGiven m ∧ RatesGiven m') (hr : Ready c m) (hr' : Ready c' m') (hx : Exact c.lin) (hx' : Exact c'.lin)
    (han : Anchored c.e m) (h0 : FoldModel M M' φ s c.e c'.e m m') (hlim : LimitsOver M M' φ s c.e c'.e m m') {f f' N : ℕ} {t t' : K}
    (hP : RunAll c Calm f vect N m { Sol.init m with nsteps := (Sol.init m).nsteps + N }) (hP' : RunAll c' Calm f' vect N m' { Sol.init m' with nsteps := (Sol.init m').nsteps + N })
    (h : (run c f vect N t m (Sol.init m)).2 = .ok ()) (h' : (run c' f' vect N t' m' (Sol.init m')).2 = .ok ()) {a : Axis} {x y : Cell} {v : K}
    (hxb : Boundary M.g.nx M.g.ny M.g.nz x) (hy : Interior M.g.nx M.g.ny M.g.nz y) (hxy : Adjacent a x y) (hb : (cellNumber M.g.nx M.g.ny x, "pressure", v) ∈ m.bdict) :
    ∀ k, 0 < k → k ≤ N → rowAt (run c f vect N t m (Sol.init m)).1.2.rates k 0 (cellNumber M.g.nx M.g.ny x) =
      s x * rowAt (run c' f' vect N t' m' (Sol.init m')).1.2.rates k 0 (cellNumber M'.g.nx M'.g.ny (φ x)) := by
  intro k h1 h2
  obtain ⟨t1, t2, key⟩ := C80_limits_partial (t := t) (t' := t') hL hM hM' he he' hv hr hr' hx hx' han h0 hlim hP hP' h h'
  obtain ⟨b1, b2, v', b3, b4⟩ := (h0.up a x y "pressure" v hxb hy hxy hb).resolve_left fun H => H.1 rfl
  rw [overValue, if_pos rfl] at b4
  subst b4
  obtain ⟨iso, hiso, hisoS⟩ := isIsotropic_eq hM.rock
  obtain ⟨iso', hiso', hisoS'⟩ := isIsotropic_eq hM'.rock
  have hii : iso' = iso := by rw [Bool.eq_iff_iff, hisoS, hisoS', hL.iso]
  subst hii
  have hf := bound_flow b1 (hL.layout.inner y hy) b2
  have r1 := run_fluxes hr hP h k h1 (by omega) _ _ _ _ hb (grid_face hM he hiso hxb hy (bound_flow hxb hy hxy) hxy)
  have r2 := run_fluxes hr' hP' h' k h1 (by omega) _ _ _ _ b3 (grid_face hM' he' hiso' b1 (hL.layout.inner y hy) hf b2)
  obtain ⟨-, -, -, -, -, -, -, -, -, -, -, e12, -, e14, -⟩ := env_ok he
  obtain ⟨-, -, -, -, -, -, -, -, -, -, -, e12', -, e14', -⟩ := env_ok he'
  have hw := hL.weight a x y hf hxb.1 (Interior.inGrid hy) hxy
  have hh := hL.head x y hxb.1 (Interior.inGrid hy)
  rw [r1, r2, key k (.inl h1) h2 y hy, hL.pairG hM' iso' hf hxb.1 (Interior.inGrid hy) hw, e12, e12', e14, e14, e14', e14', hh]
  ring

/-- **C80 with limits, well rates, partial.** In the situation of `C80_limits_partial`, the rate recorded for a well in cell `x` is `s` times the rate recorded for the well in the cell
below it. -/
theorem C80_limit_wells_partial (hL : FoldLooks M M' φ s) (hM : M.Pos) (hM' : M'.Pos) (he : M.env = .ok c.e) (he' : M'.env = .ok c'.e) {vect : Bool}
    (hv : vect = true → M.g.getD ≠ 3 ∧ M'.g.getD ≠ 3 ∧ c.e.Flat ∧ c'.e.Flat ∧ RatesGiven m ∧ RatesGiven m') (hr : Ready c m) (hr' : Ready c' m') (hx : Exact c.lin) (hx' : Exact c'.lin)
    (han : Anchored c.e m) (h0 : FoldModel M M' φ s c.e c'.e m m') (hlim : LimitsOver M M' φ s c.e c'.e m m') {f f' N : ℕ} {t t' : K}
    (hP : RunAll c Calm f vect N m { Sol.init m with nsteps := (Sol.init m).nsteps + N }) (hP' : RunAll c' Calm f' vect N m' { Sol.init m' with nsteps := (Sol.init m').nsteps + N })
    (h : (run c f vect N t m (Sol.init m)).2 = .ok ()) (h' : (run c' f' vect N t' m' (Sol.init m')).2 = .ok ()) {x : Cell} {w : Well K}
    (hxi : Interior M.g.nx M.g.ny M.g.nz x) (hw : (cellNumber M.g.nx M.g.ny x, w) ∈ m.wells) :
    ∀ k, 0 < k → k ≤ N → rowAt (run c f vect N t m (Sol.init m)).1.2.rates k 0 (cellNumber M.g.nx M.g.ny x) =
      s x * rowAt (run c' f' vect N t' m' (Sol.init m')).1.2.rates k 0 (cellNumber M'.g.nx M'.g.ny (φ x)) := by
  intro k h1 h2
  obtain ⟨t1, t2, key⟩ := C80_limits_partial (t := t) (t' := t') hL hM hM' he he' hv hr hr' hx hx' han h0 hlim hP hP' h h'
  obtain ⟨w', hw', ho⟩ := h0.wellUp x w hxi hw
  obtain ⟨b, n, -⟩ := run_limited hr hx (fun h => (hv h).2.2.2.2.1) (fun h => (hv h).2.2.1) hP h
  obtain ⟨b', n', -⟩ := run_limited hr' hx' (fun h => (hv h).2.2.2.2.2) (fun h => (hv h).2.2.2.1) hP' h'
  have hm := hr.started.mdl.wmem _ hw
  have hm' := hr'.started.mdl.wmem _ hw'
  have r := b.rates k h1 (by omega) _ hw
  have r' := b'.rates k h1 (by omega) _ hw'
  have hp := key k (.inl h1) h2 x hxi
  have a1 := n k h1 (by omega) _ (idx_lt c.e hm)
  have a2 := n' k h1 (by omega) _ (idx_lt c'.e hm')
  dsimp only at r r' hm hm' a1 a2
  rw [at_idx c.e hm] at a1
  rw [at_idx c'.e hm'] at a2
  rw [a1, a2, Option.some_inj] at hp
  have f1 := ho.wIn (i := c.e.ids.idxOf (cellNumber M.g.nx M.g.ny x)) (j := c'.e.ids.idxOf (cellNumber M'.g.nx M'.g.ny (φ x)))
    ((run c' f' vect N t' m' (Sol.init m')).1.2.inner c'.e k (c'.e.ids.idxOf (cellNumber M'.g.nx M'.g.ny (φ x))))
  have f2 := ho.topUp (hL.pos x (Interior.inGrid hxi)) (hlim x w w' hxi hw hw') (i := c.e.ids.idxOf (cellNumber M.g.nx M.g.ny x)) (j := c'.e.ids.idxOf (cellNumber M'.g.nx M'.g.ny (φ x)))
    ((run c' f' vect N t' m' (Sol.init m')).1.2.inner c'.e k (c'.e.ids.idxOf (cellNumber M'.g.nx M'.g.ny (φ x))))
  rw [at_idx c.e hm, at_idx c'.e hm'] at f1 f2
  rw [r, r', hp, f1, f2]
  ring

end

/-! ### The hypotheses are met -/

/-- The checks of `LimitsOver`. -/
def limitsOverB (M M' : GridModel ℚ) (φ : Cell → Cell) (s : Cell → ℚ) (e e' : Env ℚ) (m m' : Mdl ℚ) : Bool :=
  (allCells M.g).all fun c => m.wells.all fun w => m'.wells.all fun w' =>
    !decide (w.1 = cellNumber M.g.nx M.g.ny c) || !decide (w'.1 = cellNumber M'.g.nx M'.g.ny (φ c)) || decide (w.2.con = some .q → w.2.pwfsp = w'.2.pwfsp ∧ windex e w.2 = s c * windex e' w'.2)

lemma limitsOver_of {M M' : GridModel ℚ} {φ : Cell → Cell} {s : Cell → ℚ} {e e' : Env ℚ} {m m' : Mdl ℚ} (h : limitsOverB M M' φ s e e' m m' = true) : LimitsOver M M' φ s e e' m m' := by
  unfold limitsOverB at h
  simp only [List.all_eq_true, Bool.or_eq_true, decide_eq_true_eq, Bool.not_eq_true', decide_eq_false_iff_not] at h
  intro c w w' hc hw hw'
  exact (h c (mem_allCells (Interior.inGrid hc)) _ hw _ hw').resolve_left fun H => H.elim (fun H => H rfl) fun H => H rfl

/-- The solutions met by `exBothFall`. -/
def exBothFallX : List (List ℚ) := [[-1, -11, -11, -1], [194/31, 109/31, -161/31, 59/31], [8, 7, 7, 8], [7, 6, 6, 7]]

/-- A well and its image. Both ask for more than their limits allow, and are put on their limits one after the other. -/
def exBothFall : Mdl ℚ := mkMdl (ex4C exBothFallX) (some 9) [] [(2, { q := some (-30), pwf := some 4, r := some 1 }), (3, { q := some (-30), pwf := some 4, r := some 1 })]

/-- The near half. -/
def exOneFalls : Mdl ℚ := exMdl true 0 [] (some 9) [] [(2, { q := some (-30), pwf := some 4, r := some 1 })]

/-- Both wells of the whole and the well of the half reach their limits in the first step. -/
example (vect : Bool) : (run (ex4C exBothFallX) 10 vect 1 0 exBothFall (Sol.init exBothFall)).1.1.wells.map (fun w => w.2.con) = [some .pwf, some .pwf] ∧
    (run (exC true 0 []) 10 vect 1 0 exOneFalls (Sol.init exOneFalls)).1.1.wells.map (fun w => w.2.con) = [some .pwf] ∧ exBothFall.wells.map (fun w => w.2.con) = [some .q, some .q] := by
  cases vect <;> decide +kernel

/-- The half has the pressures of the whole. -/
example (vect : Bool) : ∀ k, k ≤ 2 → ∀ x, Interior 4 1 1 x →
    rowAt (run (ex4C exBothFallX) 10 vect 2 0 exBothFall (Sol.init exBothFall)).1.2.press k none (cellNumber 4 1 x) =
      rowAt (run (exC true 0 []) 10 vect 2 0 exOneFalls (Sol.init exOneFalls)).1.2.press k none (cellNumber 2 1 (half 2 .x x)) := by
  have := (C80_limits_partial (c := ex4C exBothFallX) (c' := exC true 0 []) (m := exBothFall) (m' := exOneFalls) (f := 10) (f' := 10) (N := 2) (t := 0) (t' := 0)
    (vect := vect) ex4_looks ex4M_pos (exM_pos _ _ _) (getOk_eq _ ex4M_ok) (exE_env _ _ _)
    (fun _ => ⟨by decide +kernel, by decide +kernel, .inl (by decide +kernel), ex_flat _, by decide +kernel, by decide +kernel⟩) (mkMdl_ready (ex4C_ok _) (fun _ => rfl) (by decide +kernel))
    (exMdl_ready (by decide +kernel)) (listLin_exact _) cramer_exact
    (.inl (by decide +kernel)) (foldModel_of (by decide +kernel)) (limitsOver_of (by decide +kernel)) (runCalmB_all (by cases vect <;> decide +kernel)) (runCalmB_all (by cases vect <;> decide +kernel))
    (isOk_unit (by cases vect <;> decide +kernel)) (isOk_unit (by cases vect <;> decide +kernel))).2.2
  exact fun k hk x hx => this k (.inr rfl) hk x hx

/-- The rate of the well in cell 3 is the rate of the well in cell 2 of the half. -/
example (vect : Bool) : ∀ k, 0 < k → k ≤ 2 →
    rowAt (run (ex4C exBothFallX) 10 vect 2 0 exBothFall (Sol.init exBothFall)).1.2.rates k 0 3 = 1 * rowAt (run (exC true 0 []) 10 vect 2 0 exOneFalls (Sol.init exOneFalls)).1.2.rates k 0 2 :=
  C80_limit_wells_partial (c := ex4C exBothFallX) (c' := exC true 0 []) (m := exBothFall) (m' := exOneFalls) (f := 10) (f' := 10) (N := 2) (t := 0) (t' := 0)
    (vect := vect) ex4_looks ex4M_pos (exM_pos _ _ _) (getOk_eq _ ex4M_ok) (exE_env _ _ _)
    (fun _ => ⟨by decide +kernel, by decide +kernel, .inl (by decide +kernel), ex_flat _, by decide +kernel, by decide +kernel⟩) (mkMdl_ready (ex4C_ok _) (fun _ => rfl) (by decide +kernel))
    (exMdl_ready (by decide +kernel)) (listLin_exact _) cramer_exact
    (.inl (by decide +kernel)) (foldModel_of (by decide +kernel)) (limitsOver_of (by decide +kernel)) (runCalmB_all (by cases vect <;> decide +kernel)) (runCalmB_all (by cases vect <;> decide +kernel))
    (isOk_unit (by cases vect <;> decide +kernel)) (isOk_unit (by cases vect <;> decide +kernel)) (x := (3, 0, 0)) (w := exBothFall.wells[1].2) (by decide +kernel) (by decide +kernel)

end RF.Fdm
