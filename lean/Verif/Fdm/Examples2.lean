import Verif.Fdm.PropsSetup
/-! # The small models with viscosity 2: all transmissibilities are 1/2 -/
namespace RF.Fdm
open RF RF.Dims RF.Spec Finset

/-- `exM` with viscosity 2. -/
def exN (comp : Bool) (grav : ℚ) (depth : List ℚ) : GridModel ℚ := { exM comp grav depth with mu := 2 }

lemma exN_pos (comp : Bool) (grav : ℚ) (depth : List ℚ) : (exN comp grav depth).Pos := by
  have h := exM_pos comp grav depth
  exact ⟨h.geom, h.sizes, h.rock, h.perm, h.permB, h.β, two_pos, h.B, h.vconv, h.dt, h.phi, h.ct⟩

lemma exN_ok (comp : Bool) (grav : ℚ) (depth : List ℚ) : isOk (exN comp grav depth).env = true := by
  have h1 : isOk (g2.getCellsId false) = true := by decide +kernel
  have h2 : isOk g2.getBoundariesId = true := by decide +kernel
  have h3 : isOk (cellsTransVect g2 q2 exRock 1 2 1) = true := by decide +kernel
  have h4 : isOk (RF.diag1 g2 q2 exRock 1 true) = true := by decide +kernel
  show isOk (Env.ofGrid g2 q2 exRock 1 2 1 grav depth comp (calcRHS comp q2.V [1, 1, 1, 1] 1 1 1 1) (fun _ => .ok 1) fun _ _ r _ => .ok r) = true
  unfold Env.ofGrid
  rw [getOk_eq _ h1, bind_ok, getOk_eq _ h2, bind_ok, getOk_eq _ h3, bind_ok, getOk_eq _ h4, bind_ok]
  rfl

/-- Its environment. -/
def exNE (comp : Bool) (grav : ℚ) (depth : List ℚ) : Env ℚ := getOk _ (exN_ok comp grav depth)

lemma exNE_grid (comp : Bool) (grav : ℚ) (depth : List ℚ) : FromGrid (exNE comp grav depth) :=
  ⟨exN comp grav depth, exN_pos comp grav depth, getOk_eq _ (exN_ok comp grav depth)⟩

attribute [irreducible] exNE

/-- With an exact solver. -/
def exNC (comp : Bool) (grav : ℚ) (depth : List ℚ) : Ctx ℚ := ⟨exNE comp grav depth, fun s => s, fun _ _ => 1, cramer⟩

lemma exNC_ok (comp : Bool) (grav : ℚ) (depth : List ℚ) : CtxOK (exNC comp grav depth) := by
  refine ⟨⟨rfl, rfl⟩, exNE_grid comp grav depth, ?_⟩
  intro a b; exact (one_ne_zero : (1 : ℚ) ≠ 0)

/-- A model of any context built before compiling. -/
def mkMdl (c : Ctx ℚ) (pi : Option ℚ) (b : List (ℕ × String × ℚ)) (ws : List (ℕ × WellArgs ℚ)) : Mdl ℚ := (build c.lower c.e pi b ws).1

/-- All checks on it. -/
def mkMdlB (c : Ctx ℚ) (pi : Option ℚ) (b : List (ℕ × String × ℚ)) (ws : List (ℕ × WellArgs ℚ)) : Bool :=
  (build c.lower c.e pi b ws).2 && readyB (mkMdl c pi b ws) && decide ((b.map (·.1)).Nodup)

lemma mkMdl_standard {c : Ctx ℚ} {pi : Option ℚ} {b : List (ℕ × String × ℚ)} {ws : List (ℕ × WellArgs ℚ)} (h : mkMdlB c pi b ws = true) :
    Standard c.lower c.e b (mkMdl c pi b ws) := by
  unfold mkMdlB at h
  simp only [Bool.and_eq_true, decide_eq_true_eq] at h
  exact build_standard h.2 h.1.1

lemma mkMdl_ready {c : Ctx ℚ} (hc : CtxOK c) (hlow : ∀ s, c.lower s = s) {pi : Option ℚ} {b : List (ℕ × String × ℚ)} {ws : List (ℕ × WellArgs ℚ)}
    (h : mkMdlB c pi b ws = true) : Ready c (mkMdl c pi b ws) := by
  have hs := (mkMdl_standard h).setup
  unfold mkMdlB at h
  simp only [Bool.and_eq_true, decide_eq_true_eq] at h
  have h2 := h.1.2
  unfold readyB at h2
  rw [Bool.and_eq_true, List.all_eq_true, List.all_eq_true] at h2
  refine ⟨hc, hs, fun x G hx hG => ?_, fun x hx => ?_, fun x hx => ?_⟩
  · have := h2.1 x hx
    rw [hG] at this
    simp only [Bool.and_eq_true, decide_eq_true_eq] at this
    exact this.2
  · have := h2.1 x hx
    simp only [Bool.and_eq_true, decide_eq_true_eq] at this
    exact this.1
  · have := h2.2 x hx
    rw [decide_eq_true_eq] at this
    rw [hlow]; exact this

end RF.Fdm
