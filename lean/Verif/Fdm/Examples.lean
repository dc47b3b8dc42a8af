import Verif.Fdm.Ready
/-!
# Small models for showing that hypotheses can be met and that claims fail

Two cells in a row (ids 1 and 2, boundary cells 0 and 3), unit sizes and properties: all transmissibilities and accumulation
terms are 1, a well's index is its radius.
-/
namespace RF.Fdm
open RF RF.Dims RF.Spec Finset

/-- Cramer's rule for two equations. -/
def cramer : LinSolver ℚ := fun n A d =>
  if n = 2 ∧ A 0 0 * A 1 1 - A 0 1 * A 1 0 ≠ 0 then
    .ok fun i => if i = 0 then (d 0 * A 1 1 - A 0 1 * d 1) / (A 0 0 * A 1 1 - A 0 1 * A 1 0)
      else (A 0 0 * d 1 - d 0 * A 1 0) / (A 0 0 * A 1 1 - A 0 1 * A 1 0)
  else .error .value

lemma cramer_exact : Exact cramer := by
  intro n A d x h
  unfold cramer at h
  split_ifs at h with hn
  obtain ⟨rfl, hd⟩ := hn
  simp only [Except.ok.injEq] at h
  subst h
  intro i hi
  have hi' : i = 0 ∨ i = 1 := by omega
  have e1 : A 0 0 * ((d 0 * A 1 1 - A 0 1 * d 1) / (A 0 0 * A 1 1 - A 0 1 * A 1 0)) + A 0 1 * ((A 0 0 * d 1 - d 0 * A 1 0) / (A 0 0 * A 1 1 - A 0 1 * A 1 0)) = d 0 := by
    rw [mul_div_assoc', mul_div_assoc', ← add_div, div_eq_iff hd]; ring
  have e2 : A 1 0 * ((d 0 * A 1 1 - A 0 1 * d 1) / (A 0 0 * A 1 1 - A 0 1 * A 1 0)) + A 1 1 * ((A 0 0 * d 1 - d 0 * A 1 0) / (A 0 0 * A 1 1 - A 0 1 * A 1 0)) = d 1 := by
    rw [mul_div_assoc', mul_div_assoc', ← add_div, div_eq_iff hd]; ring
  rcases hi' with rfl | rfl
  · simpa [sum_range_succ] using e1
  · simpa [sum_range_succ] using e2

/-- Unit permeability along x. -/
def exRock : Rock ℚ := ⟨some [1, 1, 1, 1], none, none⟩

/-- Two cells in a row. -/
def exM (comp : Bool) (grav : ℚ) (depth : List ℚ) : GridModel ℚ :=
  { g := g2, sizes := s2, geom := q2, rock := exRock, β := 1, mu := 1, B := 1, grav := grav, depth := depth, comp := comp
    phi := [1, 1, 1, 1], ct := 1, vconv := 1, dt := 1, wellReq := fun _ => .ok 1, wellG := fun _ _ r _ => .ok r }

lemma g2_cell {c : Cell} (h : InGrid g2.nx g2.ny g2.nz c) : c = (0, 0, 0) ∨ c = (1, 0, 0) ∨ c = (2, 0, 0) ∨ c = (3, 0, 0) := by
  obtain ⟨i, j, k⟩ := c
  obtain ⟨h1, h2, h3⟩ := h
  simp [g2, padded] at h1 h2 h3
  subst h2 h3
  interval_cases i <;> simp

lemma exM_pos (comp : Bool) (grav : ℚ) (depth : List ℚ) : (exM comp grav depth).Pos := by
  refine ⟨q2_calc, s2_pos _, rock_g2 _ rfl, ?_, ?_, one_pos, one_pos, one_pos, one_pos, one_pos, ?_, fun _ => one_pos⟩
  · intro a ha c hc
    have ha' : a = .x := by cases a <;> simp [Flow, along, exM, g2] at ha ⊢
    subst ha'
    rcases g2_cell (Interior.inGrid hc) with rfl | rfl | rfl | rfl <;> show (0 : ℚ) < perm g2 exRock .x _ <;> decide +kernel
  · intro a c hc
    rcases g2_cell hc with rfl | rfl | rfl | rfl <;> cases a <;> show (0 : ℚ) ≤ perm g2 exRock _ _ <;> decide +kernel
  · intro c hc
    rcases g2_cell (Interior.inGrid hc) with rfl | rfl | rfl | rfl <;> show (0 : ℚ) < ([1, 1, 1, 1] : List ℚ).getD (cellNumber g2.nx g2.ny _) 0 <;> decide +kernel

/-- Whether a call succeeded. -/
def isOk {α : Type} : Except Err α → Bool | .ok _ => true | .error _ => false

/-- The result of a call that succeeded. -/
def getOk {α : Type} (x : Except Err α) (h : isOk x = true) : α := match x, h with | .ok v, _ => v

lemma getOk_eq {α : Type} (x : Except Err α) (h : isOk x = true) : x = .ok (getOk x h) := by
  cases x with
  | ok v => rfl
  | error e => simp [isOk] at h

lemma exM_ok (comp : Bool) (grav : ℚ) (depth : List ℚ) : isOk (exM comp grav depth).env = true := by
  have h1 : isOk (g2.getCellsId false) = true := by decide +kernel
  have h2 : isOk g2.getBoundariesId = true := by decide +kernel
  have h3 : isOk (cellsTransVect g2 q2 exRock 1 1 1) = true := by decide +kernel
  have h4 : isOk (RF.diag1 g2 q2 exRock 1 true) = true := by decide +kernel
  show isOk (Env.ofGrid g2 q2 exRock 1 1 1 grav depth comp (calcRHS comp q2.V [1, 1, 1, 1] 1 1 1 1) (fun _ => .ok 1) fun _ _ r _ => .ok r) = true
  unfold Env.ofGrid
  rw [getOk_eq _ h1, bind_ok, getOk_eq _ h2, bind_ok, getOk_eq _ h3, bind_ok, getOk_eq _ h4, bind_ok]
  rfl

/-- Its environment. -/
def exE (comp : Bool) (grav : ℚ) (depth : List ℚ) : Env ℚ := getOk _ (exM_ok comp grav depth)

lemma exE_grid (comp : Bool) (grav : ℚ) (depth : List ℚ) : FromGrid (exE comp grav depth) :=
  ⟨exM comp grav depth, exM_pos comp grav depth, getOk_eq _ (exM_ok comp grav depth)⟩

attribute [irreducible] exE

/-- With an exact solver and the letters of condition names left alone. -/
def exC (comp : Bool) (grav : ℚ) (depth : List ℚ) : Ctx ℚ := ⟨exE comp grav depth, fun s => s, fun _ _ => 1, cramer⟩

lemma exC_ok (comp : Bool) (grav : ℚ) (depth : List ℚ) : CtxOK (exC comp grav depth) := by
  refine ⟨⟨rfl, rfl⟩, exE_grid comp grav depth, ?_⟩
  intro a b; exact (one_ne_zero : (1 : ℚ) ≠ 0)

/-! ### building and checking models -/

/-- One `set_boundaries` and then `set_well` calls before compiling; the flag tells whether all of them succeeded. -/
def build {K : Type} [Field K] [DecidableEq K] (lower : String → String) (e : Env K) (pi : Option K) (b : List (ℕ × String × K)) (ws : List (ℕ × WellArgs K)) : Mdl K × Bool :=
  let x := setBoundaries lower e (Mdl.init e pi) none b
  ws.foldl (fun m w => let y := setWell e m.1 none (some w.1) w.2; (y.1, m.2 && isOk y.2)) (x.1.1, isOk x.2 && x.1.2.isNone)

lemma build_standard {K : Type} [Field K] [LinearOrder K] [IsStrictOrderedRing K] {lower : String → String} {e : Env K} {pi : Option K} {b : List (ℕ × String × K)}
    {ws : List (ℕ × WellArgs K)} (hb : (b.map (·.1)).Nodup) (h : (build lower e pi b ws).2 = true) : Standard lower e b (build lower e pi b ws).1 := by
  unfold build at h ⊢
  dsimp only at h ⊢
  have key : ∀ (ws : List (ℕ × WellArgs K)) (m : Mdl K × Bool), (m.2 = true → Standard lower e b m.1) →
      (ws.foldl (fun m w => let y := setWell e m.1 none (some w.1) w.2; (y.1, m.2 && isOk y.2)) m).2 = true →
      Standard lower e b (ws.foldl (fun m w => let y := setWell e m.1 none (some w.1) w.2; (y.1, m.2 && isOk y.2)) m).1 := by
    intro ws
    induction ws with
    | nil => exact fun m hm h => hm h
    | cons w ws ih =>
      intro m hm h
      refine ih _ (fun h' => ?_) h
      dsimp only at h' ⊢
      rw [Bool.and_eq_true] at h'
      refine Standard.well (m := m.1) (id := some w.1) (a := w.2) (hm h'.1) ?_
      refine Prod.ext rfl ?_
      dsimp only
      rw [getOk_eq _ h'.2]
  refine key ws _ (fun h' => ?_) h
  dsimp only at h' ⊢
  rw [Bool.and_eq_true] at h'
  refine Standard.bounds (pi := pi) hb (Prod.ext (Prod.ext rfl ?_) ?_)
  · dsimp only; exact Option.isNone_iff_eq_none.1 h'.2
  · dsimp only; rw [getOk_eq _ h'.1]

/-- The checks of `Ready` that are about the model. -/
def readyB (m : Mdl ℚ) : Bool :=
  (m.wells.all fun x => decide (x.2.con ≠ none) && match x.2.G with | some G => decide (0 < G) | none => true) &&
  m.bdict.all fun c => decide (c.2.1 ∈ ["pressure", "press", "p"] ↔ c.2.1 = "pressure")

/-- An example model. -/
def exMdl (comp : Bool) (grav : ℚ) (depth : List ℚ) (pi : Option ℚ) (b : List (ℕ × String × ℚ)) (ws : List (ℕ × WellArgs ℚ)) : Mdl ℚ :=
  (build (exC comp grav depth).lower (exC comp grav depth).e pi b ws).1

/-- All checks on an example model. -/
def exMdlB (comp : Bool) (grav : ℚ) (depth : List ℚ) (pi : Option ℚ) (b : List (ℕ × String × ℚ)) (ws : List (ℕ × WellArgs ℚ)) : Bool :=
  (build (exC comp grav depth).lower (exC comp grav depth).e pi b ws).2 && readyB (exMdl comp grav depth pi b ws) && decide ((b.map (·.1)).Nodup)

lemma exMdl_standard {comp : Bool} {grav : ℚ} {depth : List ℚ} {pi : Option ℚ} {b : List (ℕ × String × ℚ)} {ws : List (ℕ × WellArgs ℚ)}
    (h : exMdlB comp grav depth pi b ws = true) : Standard (exC comp grav depth).lower (exC comp grav depth).e b (exMdl comp grav depth pi b ws) := by
  unfold exMdlB at h
  simp only [Bool.and_eq_true, decide_eq_true_eq] at h
  exact build_standard h.2 h.1.1

lemma exMdl_ready {comp : Bool} {grav : ℚ} {depth : List ℚ} {pi : Option ℚ} {b : List (ℕ × String × ℚ)} {ws : List (ℕ × WellArgs ℚ)}
    (h : exMdlB comp grav depth pi b ws = true) : Ready (exC comp grav depth) (exMdl comp grav depth pi b ws) := by
  have hs := (exMdl_standard h).setup
  unfold exMdlB at h
  simp only [Bool.and_eq_true, decide_eq_true_eq] at h
  have h2 := h.1.2
  unfold readyB at h2
  rw [Bool.and_eq_true, List.all_eq_true, List.all_eq_true] at h2
  refine ⟨exC_ok _ _ _, hs, fun x G hx hG => ?_, fun x hx => ?_, fun x hx => ?_⟩
  · have := h2.1 x hx
    rw [hG] at this
    simp only [Bool.and_eq_true, decide_eq_true_eq] at this
    exact this.2
  · have := h2.1 x hx
    simp only [Bool.and_eq_true, decide_eq_true_eq] at this
    exact this.1
  · have := h2.2 x hx
    rw [decide_eq_true_eq] at this
    exact this

/-- `Calm`, computed. -/
def calmB (vect : Bool) (m m' : Mdl ℚ) : Bool :=
  (m.wells.all fun x => m'.wells.all fun y => decide (x.1 = y.1 → x.2.con = some .pwf → y.2.con = some .pwf)) &&
  (!vect || m.wells.all fun x => decide (x.2.con = some .pwf → x.2.pwfsp ≠ some 0))

lemma calmB_calm {vect : Bool} {m m' : Mdl ℚ} (h : calmB vect m m' = true) : Calm vect m m' := by
  unfold calmB at h
  simp only [Bool.and_eq_true, List.all_eq_true, decide_eq_true_eq, Bool.or_eq_true, Bool.not_eq_true'] at h
  refine ⟨fun x y hx hy => h.1 x hx y hy, fun hv x hx => ?_⟩
  rcases h.2 with h' | h'
  · rw [hv] at h'; simp at h'
  · exact h' x hx

/-- `NoZeroPwf`, computed. -/
def noZeroB (m : Mdl ℚ) : Bool := m.wells.all fun x => decide (x.2.con = some .pwf → x.2.pwfsp ≠ some 0)

lemma noZeroB_ok {m : Mdl ℚ} (h : noZeroB m = true) : NoZeroPwf m := by
  unfold noZeroB at h
  rw [List.all_eq_true] at h
  exact fun x hx => of_decide_eq_true (h x hx)

/-- `SolveAll c Calm`, computed. -/
def solveCalmB (c : Ctx ℚ) : ℕ → Bool → Mdl ℚ → Sol ℚ → Bool
  | 0, _, _, _ => true
  | fuel + 1, vect, m, s => match attempt c vect m s with
    | .error _ => true
    | .ok (m', s', again) => calmB vect m m' && (!again || solveCalmB c fuel vect m' s'.back)

lemma solveCalmB_all {c : Ctx ℚ} {fuel : ℕ} {vect : Bool} {m : Mdl ℚ} {s : Sol ℚ} (h : solveCalmB c fuel vect m s = true) : SolveAll c Calm fuel vect m s := by
  induction fuel generalizing m s with
  | zero => trivial
  | succ n ih =>
    intro m' s' again ha
    unfold solveCalmB at h
    rw [ha] at h
    simp only [Bool.and_eq_true, Bool.or_eq_true, Bool.not_eq_true'] at h
    refine ⟨calmB_calm h.1, fun hag => ih ?_⟩
    rcases h.2 with h' | h'
    · rw [hag] at h'; simp at h'
    · exact h'

/-- The state after `n` calls of `solve` (the last one that succeeded). -/
def exRun (c : Ctx ℚ) (vect : Bool) : ℕ → Mdl ℚ → Mdl ℚ × Sol ℚ
  | 0, m => (m, Sol.init m)
  | n + 1, m => match solve c 10 vect true (exRun c vect n m).1 (exRun c vect n m).2 with
    | .ok x => x
    | .error _ => exRun c vect n m

/-- All attempts of these calls are calm. -/
def exRunB (c : Ctx ℚ) (vect : Bool) : ℕ → Mdl ℚ → Bool
  | 0, _ => true
  | n + 1, m => exRunB c vect n m && solveCalmB c 10 vect (exRun c vect n m).1 (exRun c vect n m).2

lemma exRun_hist {c : Ctx ℚ} {m : Mdl ℚ} (hr : Ready c m) {vect : Bool} {n : ℕ} (h : exRunB c vect n m = true) :
    Hist c Calm m (exRun c vect n m).1 (exRun c vect n m).2 := by
  induction n with
  | zero => exact .start
  | succ n ih =>
    unfold exRunB at h
    rw [Bool.and_eq_true] at h
    unfold exRun
    rcases hs : solve c 10 vect true (exRun c vect n m).1 (exRun c vect n m).2 with x | ⟨m', s'⟩
    · exact ih h.1
    · exact (ih h.1).solve hr.ctx.lower hr.ctx.wf hr.started.mdl (solveCalmB_all h.2) hs

lemma exRun_any {c : Ctx ℚ} {m : Mdl ℚ} (hr : Ready c m) (vect : Bool) (n : ℕ) : Hist c Any m (exRun c vect n m).1 (exRun c vect n m).2 := by
  induction n with
  | zero => exact .start
  | succ n ih =>
    unfold exRun
    rcases hs : solve c 10 vect true (exRun c vect n m).1 (exRun c vect n m).2 with x | ⟨m', s'⟩
    · exact ih
    · exact ih.solve hr.ctx.lower hr.ctx.wf hr.started.mdl (solveAll_any c 10 vect _ _) hs

/-- A pressure of 10 on the left, a rate of 1 on the right, a producer in cell 2 with target rate −4 and limit 2. -/
def exA : Mdl ℚ := exMdl true 0 [] (some 8) [(0, "pressure", 10), (3, "rate", 1)] [(2, { q := some (-4), pwf := some 2, r := some 1 })]

lemma exA_ready : Ready (exC true 0 []) exA := exMdl_ready (by decide +kernel)

lemma exA_calm (vect : Bool) : Hist (exC true 0 []) Calm exA (exRun (exC true 0 []) vect 3 exA).1 (exRun (exC true 0 []) vect 3 exA).2 :=
  exRun_hist exA_ready (by cases vect <;> decide +kernel)

end RF.Fdm
