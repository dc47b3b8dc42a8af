import Verif.Fdm.Look
/-! # Looking at the equations, and splitting a run (C64, C65) -/
set_option linter.unusedSectionVars false
namespace RF.Fdm
open RF RF.Dims Finset

section
variable {K : Type} [Field K] [LinearOrder K] [IsStrictOrderedRing K]

/-! ## C64 -/

/-- Calls between which a user may look at the system: a step with the chosen assembler, or `solve(update=False)` with either assembler. (fdm.py l.690-782) -/
inductive Op where
  | step
  | look (vect : Bool)
  deriving DecidableEq

/-- What a call leaves behind, whether it returns or raises an exception. (fdm.py l.690-782) -/
def perform (c : Ctx K) (fuel : ℕ) (vect : Bool) (x : Mdl K × Sol K) : Op → Mdl K × Sol K
  | .step => (solveE c fuel vect true x.1 x.2).1
  | .look v => (solveE c fuel v false x.1 x.2).1

/-- What the assembler that is not used for the steps keeps for itself. -/
structure Hidden (K : Type) where
  terms : List (ℕ × Terms K)
  sM : Option ((ℕ → ℕ → K) × (ℕ → K))
  vA : Option (ℕ → ℕ → K)
  bV : List (ℕ × K × K × ℕ)
  resolve : ℕ → Bool

/-- The model with other hidden parts. -/
def hideM (vect : Bool) (z : Hidden K) (m : Mdl K) : Mdl K := if vect then { m with terms := z.terms } else m

/-- The solution with other hidden parts. -/
def hideS (vect : Bool) (z : Hidden K) (s : Sol K) : Sol K := if vect then { s with sM := z.sM } else { s with vA := z.vA, bV := z.bV, resolve := z.resolve }

lemma assemble_hide (c : Ctx K) (vect : Bool) (z : Hidden K) (m : Mdl K) (s : Sol K) :
    assemble c vect (hideM vect z m) (hideS vect z s) = match assemble c vect m s with
      | .ok (m', s', A, d) => .ok (hideM vect z m', hideS vect z s', A, d)
      | .error x => .error x := by
  cases vect
  · unfold assemble
    simp only [Bool.false_eq_true, if_false, hideM, hideS]
    unfold matricesSymb
    rw [show cellsEq c.lower c.scale c.e m { s with vA := z.vA, bV := z.bV, resolve := z.resolve } = cellsEq c.lower c.scale c.e m s from rfl]
    rcases cellsEq c.lower c.scale c.e m s with x | ⟨m1, eqs⟩
    · rfl
    · rfl
  · unfold assemble
    simp only [if_true, hideM, hideS]
    unfold matricesVect
    rw [show vReady c.lower c.e { m with terms := z.terms } { s with sM := z.sM } = vReady c.lower c.e m s from rfl]
    rcases vReady c.lower c.e m s with x | ⟨A0, bV, res⟩
    · rfl
    simp only [bind_ok]
    rw [show initD c.e { s with sM := z.sM } = initD c.e s from rfl]
    rcases initD c.e s with x | d0
    · rfl
    simp only [bind_ok]
    rw [show m.wells.foldlM (vWell c.e { s with sM := z.sM }) ⟨A0, d0, res, false⟩ = m.wells.foldlM (vWell c.e s) ⟨A0, d0, res, false⟩ from rfl]
    rcases m.wells.foldlM (vWell c.e s) ⟨A0, d0, res, false⟩ with x | acc
    · rfl
    simp only [bind_ok]
    rw [show m.bdict.foldlM (vBd c.e { s with sM := z.sM } bV) acc.d = m.bdict.foldlM (vBd c.e s bV) acc.d from rfl]
    rcases m.bdict.foldlM (vBd c.e s bV) acc.d with x | d1
    · rfl
    · rfl

lemma hide_twice (vect : Bool) (z z' : Hidden K) (m : Mdl K) (s : Sol K) : hideM vect z (hideM vect z' m) = hideM vect z m ∧ hideS vect z (hideS vect z' s) = hideS vect z s := by
  cases vect <;> exact ⟨rfl, rfl⟩

/-- What an attempt does after its assembly. -/
def afterAsm (c : Ctx K) (x : Except Err (Mdl K × Sol K × (ℕ → ℕ → K) × (ℕ → K))) (m0 : Mdl K) (s0 : Sol K) : (Mdl K × Sol K) × Except Err Bool :=
  match x with
  | .error x => ((m0, s0), .error x)
  | .ok (m, s, A, d) => match c.lin c.e.n A d with
    | .error x => ((m, s), .error x)
    | .ok x =>
      let p := newRow c.e.ids (lastRow s.press none) x
      let s1 := fun r => { s with tstep := s.tstep + 1, press := s.press ++ [p], rates := s.rates ++ [r], As := s.As ++ [A], ds := s.ds ++ [d] }
      match updateBoundsE c.lower c.e m p m.bUpdate (lastRow s.rates 0) with
      | (r, .error x) => ((m, s1 r), .error x)
      | (r, .ok ()) => match updateWellsE c.e p m.wells r with
        | ((ws, r), .error x) => (({ m with wells := ws }, s1 r), .error x)
        | ((ws, r), .ok (ps, again)) =>
          (({ m with wells := ws, wPress := if again then m.wPress else ps.foldl (fun wp x => appendAt wp x.1 (some x.2)) m.wPress }, s1 r), .ok again)

lemma attemptE_after (c : Ctx K) (vect : Bool) (m : Mdl K) (s : Sol K) : attemptE c vect m s = afterAsm c (assemble c vect m s) m s := rfl

lemma bounds_hide (c : Ctx K) (vect : Bool) (z : Hidden K) (m : Mdl K) (p : ℕ → Option K) (l : List ℕ) (r : ℕ → K) :
    updateBoundsE c.lower c.e (hideM vect z m) p l r = updateBoundsE c.lower c.e m p l r := by
  have h : (hideM vect z m).bdict = m.bdict := by cases vect <;> rfl
  induction l generalizing r with
  | nil => rfl
  | cons b l ih =>
    unfold updateBoundsE
    rw [h]
    rcases c.e.transC b false with x | x
    · rfl
    · rcases x with _ | ⟨⟨id, T⟩, _ | ⟨y, x⟩⟩
      · rfl
      · exact ih _
      · rfl

lemma attemptE_hide (c : Ctx K) (vect : Bool) (z : Hidden K) (m : Mdl K) (s : Sol K) :
    attemptE c vect (hideM vect z m) (hideS vect z s) =
      ((hideM vect z (attemptE c vect m s).1.1, hideS vect z (attemptE c vect m s).1.2), (attemptE c vect m s).2) := by
  rw [attemptE_after, attemptE_after, assemble_hide]
  rcases assemble c vect m s with x | ⟨m1, s1, A, d⟩
  · rfl
  dsimp only [afterAsm]
  rcases c.lin c.e.n A d with x | x
  · rfl
  dsimp only
  have e1 : (hideS vect z s1).press = s1.press := by cases vect <;> rfl
  have e2 : (hideS vect z s1).rates = s1.rates := by cases vect <;> rfl
  have e3 : (hideM vect z m1).bUpdate = m1.bUpdate := by cases vect <;> rfl
  have e4 : (hideM vect z m1).wells = m1.wells := by cases vect <;> rfl
  rw [bounds_hide, e1, e2, e3, e4]
  rcases updateBoundsE c.lower c.e m1 (newRow c.e.ids (lastRow s1.press none) x) m1.bUpdate (lastRow s1.rates 0) with ⟨r, y | ⟨⟩⟩
  · cases vect <;> rfl
  dsimp only
  rcases updateWellsE c.e (newRow c.e.ids (lastRow s1.press none) x) m1.wells r with ⟨⟨ws, r'⟩, y | ⟨ps, again⟩⟩
  · cases vect <;> rfl
  · cases vect <;> rfl

lemma solveE_hide (c : Ctx K) (fuel : ℕ) (vect : Bool) (z : Hidden K) (m : Mdl K) (s : Sol K) :
    solveE c fuel vect true (hideM vect z m) (hideS vect z s) =
      ((hideM vect z (solveE c fuel vect true m s).1.1, hideS vect z (solveE c fuel vect true m s).1.2), (solveE c fuel vect true m s).2) := by
  induction fuel generalizing m s with
  | zero => rfl
  | succ n ih =>
    unfold solveE
    simp only [if_true]
    rw [attemptE_hide]
    rcases attemptE c vect m s with ⟨⟨m1, s1⟩, x | _ | _⟩
    · rfl
    · rfl
    · dsimp only
      have : (hideS vect z s1).back = hideS vect z s1.back := by cases vect <;> rfl
      rw [this]
      exact ih _ _

/-- After a look with the same assembler the next attempt does the same as without it. -/
lemma solveE_again {c : Ctx K} (hc : c.e.ids.Nodup) (fuel : ℕ) {vect : Bool} {m m' : Mdl K} {s s' : Sol K} {A : ℕ → ℕ → K} {d : ℕ → K} (hm : Tidy m)
    (h : assemble c vect m s = .ok (m', s', A, d)) : fuel ≠ 0 → solveE c fuel vect true m' s' = solveE c fuel vect true m s := by
  intro hf
  obtain ⟨n, rfl⟩ := Nat.exists_eq_succ_of_ne_zero hf
  unfold solveE
  simp only [if_true]
  rw [attemptE_after, attemptE_after, (assemble_again hc hm h).1, h]
  rfl

lemma tidy_attemptE {c : Ctx K} (hc : c.e.ids.Nodup) (vect : Bool) {m : Mdl K} (s : Sol K) (hm : Tidy m) : Tidy (attemptE c vect m s).1.1 := by
  rw [attemptE_after]
  rcases ha : assemble c vect m s with x | ⟨m1, s1, A, d⟩
  · exact hm
  have h1 : Tidy m1 := (assemble_again hc hm ha).2
  dsimp only [afterAsm]
  rcases c.lin c.e.n A d with x | x
  · exact h1
  dsimp only
  rcases updateBoundsE c.lower c.e m1 (newRow c.e.ids (lastRow s1.press none) x) m1.bUpdate (lastRow s1.rates 0) with ⟨r, y | ⟨⟩⟩
  · exact h1
  dsimp only
  rcases updateWellsE c.e (newRow c.e.ids (lastRow s1.press none) x) m1.wells r with ⟨⟨ws, r'⟩, y | ⟨ps, again⟩⟩
  · exact h1
  · exact h1

lemma tidy_solveE {c : Ctx K} (hc : c.e.ids.Nodup) (fuel : ℕ) (vect : Bool) {m : Mdl K} (s : Sol K) (hm : Tidy m) : Tidy (solveE c fuel vect true m s).1.1 := by
  induction fuel generalizing m s with
  | zero => exact hm
  | succ n ih =>
    unfold solveE
    simp only [if_true]
    have := tidy_attemptE hc vect s hm
    rcases hx : attemptE c vect m s with ⟨⟨m1, s1⟩, x | _ | _⟩
    · rw [hx] at this; exact this
    · rw [hx] at this; exact this
    · rw [hx] at this; exact ih _ this

/-- A state reached with looks `y` belongs to one reached without them `x`: up to hidden parts it is the same, or the same after an assembly. -/
def Belongs (c : Ctx K) (vect : Bool) (x y : Mdl K × Sol K) : Prop :=
  ∃ z, y = (hideM vect z x.1, hideS vect z x.2) ∨ ∃ m1 s1 A d, assemble c vect x.1 x.2 = .ok (m1, s1, A, d) ∧ y = (hideM vect z m1, hideS vect z s1)

lemma look_other {c : Ctx K} {vect : Bool} {m m' : Mdl K} {s s' : Sol K} {A : ℕ → ℕ → K} {d : ℕ → K} (h : assemble c (!vect) m s = .ok (m', s', A, d)) :
    ∃ z, m' = hideM vect z m ∧ s' = hideS vect z s := by
  cases vect
  · unfold assemble at h
    simp only [Bool.not_false, if_true] at h
    rw [ok_bind] at h
    obtain ⟨⟨s1, A1, d1⟩, h1, h⟩ := h
    simp only [ok_pure, Prod.mk.injEq] at h
    obtain ⟨rfl, rfl, rfl, rfl⟩ := h
    unfold matricesVect at h1
    rw [ok_bind] at h1
    obtain ⟨⟨A0, bV, res⟩, -, h1⟩ := h1
    dsimp only at h1
    rw [ok_bind] at h1
    obtain ⟨d0, -, h1⟩ := h1
    rw [ok_bind] at h1
    obtain ⟨acc, -, h1⟩ := h1
    rw [ok_bind] at h1
    obtain ⟨d2, -, h1⟩ := h1
    simp only [ok_pure, Prod.mk.injEq] at h1
    obtain ⟨rfl, -⟩ := h1
    exact ⟨⟨m.terms, s.sM, some acc.A, bV, acc.resolve⟩, rfl, rfl⟩
  · unfold assemble at h
    simp only [Bool.not_true, Bool.false_eq_true, if_false] at h
    unfold matricesSymb at h
    rw [ok_bind] at h
    obtain ⟨⟨m1, eqs⟩, h1, h⟩ := h
    simp only [ok_pure, Prod.mk.injEq] at h
    obtain ⟨rfl, rfl, rfl, rfl⟩ := h
    obtain ⟨⟨ts, f1⟩, -⟩ := eqSteps_frame c.e.ids (h1 : c.e.ids.foldlM (eqStep c.lower c.scale c.e s) (m, []) = .ok (m1, eqs))
    dsimp only at f1
    exact ⟨⟨ts, some (eqs.foldl (fun M x => writeRow c.e.ids M x.1 x.2) (symbStart s)), s.vA, s.bV, s.resolve⟩, f1, rfl⟩

/-- The state after a look: the assembled one if the assembly succeeds. -/
lemma look_cases (c : Ctx K) (fuel : ℕ) (v : Bool) (m : Mdl K) (s : Sol K) :
    (solveE c fuel v false m s).1 = (m, s) ∨ ∃ m1 s1 A d, assemble c v m s = .ok (m1, s1, A, d) ∧ (solveE c fuel v false m s).1 = (m1, s1) := by
  rcases fuel with _ | n
  · exact Or.inl rfl
  unfold solveE
  simp only [Bool.false_eq_true, if_false]
  rcases assemble c v m s with x | ⟨m1, s1, A, d⟩
  · exact Or.inl rfl
  · right
    refine ⟨m1, s1, A, d, rfl, ?_⟩
    dsimp only
    rcases c.lin c.e.n A d with x | x <;> rfl

lemma Belongs.refl (c : Ctx K) (vect : Bool) (x : Mdl K × Sol K) : Belongs c vect x x :=
  ⟨⟨x.1.terms, x.2.sM, x.2.vA, x.2.bV, x.2.resolve⟩, Or.inl (by cases vect <;> rfl)⟩

lemma Belongs.look {c : Ctx K} (hc : c.e.ids.Nodup) {fuel : ℕ} {vect : Bool} {x y : Mdl K × Sol K} (hx : Tidy x.1) (h : Belongs c vect x y) (v : Bool) :
    Belongs c vect x (perform c fuel vect y (.look v)) := by
  show Belongs c vect x (solveE c fuel v false y.1 y.2).1
  rcases look_cases c fuel v y.1 y.2 with h1 | ⟨m1, s1, A, d, h1, h2⟩
  · rw [h1]; exact h
  rw [h2]
  by_cases hv : v = vect
  · subst hv
    obtain ⟨z, rfl | ⟨m2, s2, A2, d2, h3, rfl⟩⟩ := h
    · rw [assemble_hide] at h1
      rcases ha : assemble c v x.1 x.2 with e | ⟨m2, s2, A2, d2⟩
      · rw [ha] at h1; cases h1
      · rw [ha] at h1
        simp only [Except.ok.injEq, Prod.mk.injEq] at h1
        obtain ⟨rfl, rfl, -, -⟩ := h1
        exact ⟨z, Or.inr ⟨_, _, _, _, ha, rfl⟩⟩
    · rw [assemble_hide, (assemble_again hc hx h3).1] at h1
      simp only [Except.ok.injEq, Prod.mk.injEq] at h1
      obtain ⟨rfl, rfl, -, -⟩ := h1
      exact ⟨z, Or.inr ⟨_, _, _, _, h3, rfl⟩⟩
  · have hv' : v = !vect := by cases v <;> cases vect <;> simp_all
    rw [hv'] at h1
    obtain ⟨z', rfl, rfl⟩ := look_other h1
    obtain ⟨z, rfl | ⟨m2, s2, A2, d2, h3, rfl⟩⟩ := h
    · exact ⟨z', Or.inl (Prod.ext (hide_twice vect z' z x.1 x.2).1 (hide_twice vect z' z x.1 x.2).2)⟩
    · exact ⟨z', Or.inr ⟨_, _, _, _, h3, Prod.ext (hide_twice vect z' z m2 s2).1 (hide_twice vect z' z m2 s2).2⟩⟩

lemma Belongs.step {c : Ctx K} (hc : c.e.ids.Nodup) {fuel : ℕ} {vect : Bool} {x y : Mdl K × Sol K} (hx : Tidy x.1) (h : Belongs c vect x y) :
    Belongs c vect (perform c fuel vect x .step) (perform c fuel vect y .step) ∧ (solveE c fuel vect true y.1 y.2).2 = (solveE c fuel vect true x.1 x.2).2 := by
  show Belongs c vect (solveE c fuel vect true x.1 x.2).1 (solveE c fuel vect true y.1 y.2).1 ∧ _
  rcases fuel with _ | n
  · exact ⟨h, rfl⟩
  obtain ⟨z, rfl | ⟨m2, s2, A2, d2, h3, rfl⟩⟩ := h
  · rw [solveE_hide]
    exact ⟨⟨z, Or.inl rfl⟩, rfl⟩
  · rw [solveE_hide, solveE_again hc (n + 1) hx h3 (Nat.succ_ne_zero n)]
    exact ⟨⟨z, Or.inl rfl⟩, rfl⟩

/-- What a user sees of model and solution. -/
structure SameSeen (x y : Mdl K × Sol K) : Prop where
  press : x.2.press = y.2.press
  rates : x.2.rates = y.2.rates
  tstep : x.2.tstep = y.2.tstep
  nsteps : x.2.nsteps = y.2.nsteps
  As : x.2.As = y.2.As
  ds : x.2.ds = y.2.ds
  wells : x.1.wells = y.1.wells
  wPress : x.1.wPress = y.1.wPress
  bdict : x.1.bdict = y.1.bdict

lemma Belongs.seen {c : Ctx K} {vect : Bool} {x y : Mdl K × Sol K} (h : Belongs c vect x y) : SameSeen y x := by
  have key : ∀ (z : Hidden K) (m : Mdl K) (s : Sol K), SameSeen (hideM vect z m, hideS vect z s) (m, s) := by
    intro z m s
    cases vect <;> exact ⟨rfl, rfl, rfl, rfl, rfl, rfl, rfl, rfl, rfl⟩
  obtain ⟨z, rfl | ⟨m2, s2, A2, d2, h3, rfl⟩⟩ := h
  · exact key z _ _
  · obtain ⟨⟨ts, h4⟩, vA, bV, res, sM, h5⟩ := assemble_frame h3
    obtain ⟨k1, k2, k3, k4, k5, k6, k7, k8, k9⟩ := key z m2 s2
    rw [h4, h5] at *
    exact ⟨k1, k2, k3, k4, k5, k6, k7, k8, k9⟩

lemma belongs_all {c : Ctx K} (hc : c.e.ids.Nodup) (fuel : ℕ) (vect : Bool) (ops : List Op) {x y : Mdl K × Sol K} (hx : Tidy x.1) (h : Belongs c vect x y) :
    Tidy (((ops.filter fun o => decide (o = .step)).foldl (perform c fuel vect) x).1) ∧
      Belongs c vect ((ops.filter fun o => decide (o = .step)).foldl (perform c fuel vect) x) (ops.foldl (perform c fuel vect) y) := by
  induction ops generalizing x y with
  | nil => exact ⟨hx, h⟩
  | cons o ops ih =>
    cases o with
    | step =>
      rw [List.filter_cons_of_pos (by simp), List.foldl_cons, List.foldl_cons]
      exact ih (tidy_solveE hc fuel vect x.2 hx) (h.step hc hx).1
    | look v =>
      rw [List.filter_cons_of_neg (by simp), List.foldl_cons]
      exact ih hx (h.look hc hx v)

/-- **C64** Looking does not change anything: put any number of `solve(update=False)` calls, with either assembler, between the steps of a simulation. What the
simulation stores is the same as without them, and the next step returns or raises the same. Any steps may raise exceptions (and be caught by the user). -/
theorem C64_looks {c : Ctx K} {m0 : Mdl K} (hr : Ready c m0) (fuel : ℕ) (vect : Bool) (ops : List Op) :
    SameSeen (ops.foldl (perform c fuel vect) (m0, Sol.init m0)) ((ops.filter fun o => decide (o = .step)).foldl (perform c fuel vect) (m0, Sol.init m0)) ∧
      (solveE c fuel vect true (ops.foldl (perform c fuel vect) (m0, Sol.init m0)).1 (ops.foldl (perform c fuel vect) (m0, Sol.init m0)).2).2 =
        (solveE c fuel vect true ((ops.filter fun o => decide (o = .step)).foldl (perform c fuel vect) (m0, Sol.init m0)).1
          ((ops.filter fun o => decide (o = .step)).foldl (perform c fuel vect) (m0, Sol.init m0)).2).2 := by
  have hc := hr.ctx.wf.nodup
  have ht : Tidy m0 := by unfold Tidy; rw [hr.started.terms]; simp
  obtain ⟨h1, h2⟩ := belongs_all hc fuel vect ops (x := (m0, Sol.init m0)) (y := (m0, Sol.init m0)) ht (.refl _ _ _)
  exact ⟨h2.seen, (h2.step hc h1).2⟩

/-! ## C65 -/

/-- The measured time is the only thing that may differ. -/
def SameButTime (x y : (Mdl K × Sol K) × Except Err Unit) : Prop := x.2 = y.2 ∧ x.1.1 = y.1.1 ∧ { x.1.2 with ctime := 0 } = { y.1.2 with ctime := 0 }

lemma runLoopE_split (c : Ctx K) (fuel : ℕ) (vect : Bool) (a b : ℕ) (m : Mdl K) (s : Sol K) :
    runLoopE c fuel vect (a + b) m s = match runLoopE c fuel vect a m s with
      | ((m, s), .ok ()) => runLoopE c fuel vect b m s
      | x => x := by
  induction a generalizing m s with
  | zero => rw [Nat.zero_add]; rfl
  | succ n ih =>
    rw [Nat.succ_add]
    simp only [runLoopE]
    rcases solveE c fuel vect true m s with ⟨⟨m1, s1⟩, x | ⟨⟩⟩
    · rfl
    · exact ih m1 s1

/-- The counters for the clock and for the requested steps play no part in a step. -/
lemma solveE_clock (c : Ctx K) (fuel : ℕ) (vect : Bool) (m : Mdl K) (s : Sol K) (n : ℕ) (t : K) :
    solveE c fuel vect true m { s with nsteps := n, ctime := t } =
      (((solveE c fuel vect true m s).1.1, { (solveE c fuel vect true m s).1.2 with nsteps := n, ctime := t }), (solveE c fuel vect true m s).2) := by
  have asm : ∀ (m : Mdl K) (s : Sol K), assemble c vect m { s with nsteps := n, ctime := t } = match assemble c vect m s with
      | .ok (m', s', A, d) => .ok (m', { s' with nsteps := n, ctime := t }, A, d)
      | .error x => .error x := by
    intro m s
    cases vect
    · unfold assemble
      simp only [Bool.false_eq_true, if_false]
      unfold matricesSymb
      rw [show cellsEq c.lower c.scale c.e m { s with nsteps := n, ctime := t } = cellsEq c.lower c.scale c.e m s from rfl]
      rcases cellsEq c.lower c.scale c.e m s with x | ⟨m1, eqs⟩ <;> rfl
    · unfold assemble
      simp only [if_true]
      unfold matricesVect
      rw [show vReady c.lower c.e m { s with nsteps := n, ctime := t } = vReady c.lower c.e m s from rfl]
      rcases vReady c.lower c.e m s with x | ⟨A0, bV, res⟩
      · rfl
      simp only [bind_ok]
      rw [show initD c.e { s with nsteps := n, ctime := t } = initD c.e s from rfl]
      rcases initD c.e s with x | d0
      · rfl
      simp only [bind_ok]
      rw [show m.wells.foldlM (vWell c.e { s with nsteps := n, ctime := t }) ⟨A0, d0, res, false⟩ = m.wells.foldlM (vWell c.e s) ⟨A0, d0, res, false⟩ from rfl]
      rcases m.wells.foldlM (vWell c.e s) ⟨A0, d0, res, false⟩ with x | acc
      · rfl
      simp only [bind_ok]
      rw [show m.bdict.foldlM (vBd c.e { s with nsteps := n, ctime := t } bV) acc.d = m.bdict.foldlM (vBd c.e s bV) acc.d from rfl]
      rcases m.bdict.foldlM (vBd c.e s bV) acc.d with x | d1 <;> rfl
  induction fuel generalizing m s with
  | zero => rfl
  | succ k ih =>
    unfold solveE
    simp only [if_true]
    have att : attemptE c vect m { s with nsteps := n, ctime := t } =
        (((attemptE c vect m s).1.1, { (attemptE c vect m s).1.2 with nsteps := n, ctime := t }), (attemptE c vect m s).2) := by
      rw [attemptE_after, attemptE_after, asm]
      rcases assemble c vect m s with x | ⟨m1, s1, A, d⟩
      · rfl
      dsimp only [afterAsm]
      rcases c.lin c.e.n A d with x | x
      · rfl
      dsimp only
      rcases updateBoundsE c.lower c.e m1 (newRow c.e.ids (lastRow s1.press none) x) m1.bUpdate (lastRow s1.rates 0) with ⟨r, y | ⟨⟩⟩
      · rfl
      dsimp only
      rcases updateWellsE c.e (newRow c.e.ids (lastRow s1.press none) x) m1.wells r with ⟨⟨ws, r'⟩, y | ⟨ps, again⟩⟩ <;> rfl
    rw [att]
    rcases attemptE c vect m s with ⟨⟨m1, s1⟩, x | _ | _⟩
    · rfl
    · rfl
    · exact ih m1 s1.back

lemma runLoopE_clock (c : Ctx K) (fuel : ℕ) (vect : Bool) (b : ℕ) (m : Mdl K) (s : Sol K) (n : ℕ) (t : K) :
    runLoopE c fuel vect b m { s with nsteps := n, ctime := t } =
      (((runLoopE c fuel vect b m s).1.1, { (runLoopE c fuel vect b m s).1.2 with nsteps := n, ctime := t }), (runLoopE c fuel vect b m s).2) := by
  induction b generalizing m s with
  | zero => rfl
  | succ k ih =>
    unfold runLoopE
    rw [solveE_clock]
    rcases solveE c fuel vect true m s with ⟨⟨m1, s1⟩, x | ⟨⟩⟩
    · rfl
    · exact ih _ _

/-- **C65** A run can be split: if `run(a)` returns, then `run(a + b)` and `run(a)` followed by `run(b)` end in the same way (return, or the same exception) with the same
model and the same solution, except for the measured time. Without exceptions the time is the sum. -/
theorem C65_split (c : Ctx K) (fuel : ℕ) (vect : Bool) (a b : ℕ) (t ta tb : K) (m : Mdl K) (s : Sol K) (h : (runE c fuel vect a ta m s).2 = .ok ()) :
    SameButTime (runE c fuel vect (a + b) t m s) (runE c fuel vect b tb (runE c fuel vect a ta m s).1.1 (runE c fuel vect a ta m s).1.2) ∧
      ((runE c fuel vect (a + b) (ta + tb) m s).2 = .ok () →
        runE c fuel vect (a + b) (ta + tb) m s = runE c fuel vect b tb (runE c fuel vect a ta m s).1.1 (runE c fuel vect a ta m s).1.2) := by
  have r0 : ∀ n, runLoopE c fuel vect n m { s with nsteps := s.nsteps + n } = (((runLoopE c fuel vect n m s).1.1,
      { (runLoopE c fuel vect n m s).1.2 with nsteps := s.nsteps + n, ctime := s.ctime }), (runLoopE c fuel vect n m s).2) := fun n =>
    runLoopE_clock c fuel vect n m s (s.nsteps + n) s.ctime
  have hloop := runLoopE_split c fuel vect a b m s
  unfold runE at h ⊢
  rw [r0] at h ⊢
  rw [r0]
  rcases ha : runLoopE c fuel vect a m s with ⟨⟨m1, s1⟩, x | ⟨⟩⟩
  · rw [ha] at h; cases h
  · rw [ha] at hloop h
    dsimp only at hloop ⊢
    rw [hloop]
    have r1 := runLoopE_clock c fuel vect b m1 s1 (s.nsteps + a + b) (s.ctime + ta)
    dsimp only at r1 ⊢
    rw [r1]
    rcases hb : runLoopE c fuel vect b m1 s1 with ⟨⟨m2, s2⟩, x | ⟨⟩⟩
    · refine ⟨⟨rfl, rfl, ?_⟩, fun h => ?_⟩
      · dsimp only; rw [Nat.add_assoc]
      · cases h
    · refine ⟨⟨rfl, rfl, ?_⟩, fun _ => ?_⟩
      · dsimp only; rw [Nat.add_assoc]
      · dsimp only; rw [Nat.add_assoc, add_assoc]

/-- **C65** `run(n)` is `n` calls of `solve()`, except for the two counters `nsteps` and `ctime`. -/
theorem C65_steps (c : Ctx K) (fuel : ℕ) (vect : Bool) (n : ℕ) (t : K) (m : Mdl K) (s : Sol K) (h : (runE c fuel vect n t m s).2 = .ok ()) :
    (runE c fuel vect n t m s).1.1 = ((fun x : Mdl K × Sol K => (solveE c fuel vect true x.1 x.2).1)^[n] (m, s)).1 ∧
      (runE c fuel vect n t m s).1.2 = { ((fun x : Mdl K × Sol K => (solveE c fuel vect true x.1 x.2).1)^[n] (m, s)).2 with nsteps := s.nsteps + n, ctime := s.ctime + t } := by
  have key : ∀ (n : ℕ) (m : Mdl K) (s : Sol K), (runLoopE c fuel vect n m s).2 = .ok () →
      (runLoopE c fuel vect n m s).1 = (fun x : Mdl K × Sol K => (solveE c fuel vect true x.1 x.2).1)^[n] (m, s) := by
    intro n
    induction n with
    | zero => intro m s _; rfl
    | succ k ih =>
      intro m s h
      rw [Function.iterate_succ_apply]
      unfold runLoopE at h ⊢
      dsimp only
      rcases hs : solveE c fuel vect true m s with ⟨⟨m1, s1⟩, x | ⟨⟩⟩
      · rw [hs] at h; cases h
      · rw [hs] at h
        exact ih m1 s1 h
  have r0 := runLoopE_clock c fuel vect n m s (s.nsteps + n) s.ctime
  unfold runE at h ⊢
  rw [show ({ s with nsteps := s.nsteps + n } : Sol K) = { s with nsteps := s.nsteps + n, ctime := s.ctime } from rfl, r0] at h ⊢
  rcases hs : runLoopE c fuel vect n m s with ⟨⟨m1, s1⟩, x | ⟨⟩⟩
  · rw [hs] at h; cases h
  · have := key n m s (by rw [hs])
    rw [hs] at this
    rw [← this]
    exact ⟨rfl, rfl⟩

end

/-! ## Instances -/

/-- A run in which a well reaches its limit, with looks in between by both assemblers. -/
example : Ready (exC true 0 []) exA ∧
    (let x := [Op.look true, .step, .look false, .look true, .step, .step, .look false].foldl (perform (exC true 0 []) 10 true) (exA, Sol.init exA)
     x.2.tstep = 3 ∧ x.1.terms.length = 2 ∧ isOk (solveE (exC true 0 []) 10 true true x.1 x.2).2 = true) :=
  ⟨exA_ready, by decide +kernel, by decide +kernel, by decide +kernel⟩

example : (runE (exC true 0 []) 10 true 2 0 exA (Sol.init exA)).2 = .ok () ∧ (runE (exC true 0 []) 10 true (2 + 3) 0 exA (Sol.init exA)).2 = .ok () :=
  ⟨isOk_unit (by decide +kernel), isOk_unit (by decide +kernel)⟩

end RF.Fdm
