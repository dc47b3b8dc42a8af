import Verif.Fdm.PropsHead
import Verif.Fdm.PropsEq
import Verif.Fdm.PropsPressure
/-!
# C49: what the vectorised assembler makes of depths

If no well has a target rate, depths and density enter the vectorised equations only through the heads between boundary cells with a given pressure and the cells behind them: the whole simulation,
exceptions included, is that of the levelled reservoir.
-/
set_option linter.unusedSectionVars false
namespace RF.Fdm
open RF RF.Dims RF.Spec Finset

variable {K : Type} [Field K] [LinearOrder K] [IsStrictOrderedRing K]

/-! ### specification -/

/-- The same reservoir with other depths and another density, the heads at the faces with a given pressure being the same. -/
def SameHeads (e : Env K) (z' : ℕ → K) (g' : K) (m : Mdl K) : Prop :=
  ∀ b id T, b ∈ m.bdict → b.2.1 = "pressure" → e.Face b.1 id T → g' * (z' b.1 - z' id) = e.grav * (e.z b.1 - e.z id)

/-! ### proof -/

/-- The reservoir with other depths and another density. -/
def Env.moved (e : Env K) (z' : ℕ → K) (g' : K) : Env K := { e with z := z', grav := g' }

def Ctx.moved (c : Ctx K) (z' : ℕ → K) (g' : K) : Ctx K := { c with e := c.e.moved z' g' }

/-- What stays as it is during a simulation without target rates. -/
structure HeldWells (m0 m : Mdl K) : Prop where
  bd : m.bdict = m0.bdict
  upd : m.bUpdate = m0.bUpdate
  wells : ∀ w, w ∈ m.wells → w.2.qsp = none ∧ w.2.pwf = w.2.pwfsp ∧ w.2.con ≠ some .q

lemma foldlM_same {A B : Type} {f g : B → A → Except Err B} {l : List A} (h : ∀ a, a ∈ l → ∀ b, f b a = g b a) (b : B) : l.foldlM f b = l.foldlM g b := by
  induction l generalizing b with
  | nil => rfl
  | cons a l ih =>
    rw [List.foldlM_cons, List.foldlM_cons, h a (List.mem_cons_self ..) b]
    exact bind_congr fun x => ih (fun a ha => h a (List.mem_cons_of_mem _ ha)) x

/-- The terms of the faces that are updated are the same. -/
def SameFaceTerms (lower : String → String) (e : Env K) (z' : ℕ → K) (g' : K) (m : Mdl K) : Prop :=
  ∀ b id T, b ∈ m.bUpdate → e.transC b false = .ok [(id, T)] → ∀ x, bTerm lower (e.moved z' g') m.bdict id b x T = bTerm lower e m.bdict id b x T

lemma SameHeads.terms {lower : String → String} {e : Env K} {z' : ℕ → K} {g' : K} {m : Mdl K} (hm : MdlOK e m) (h : SameHeads e z' g' m) : SameFaceTerms lower e z' g' m := by
  intro b id T hb hT x
  rw [hm.upd, List.mem_map] at hb
  obtain ⟨y, hy, rfl⟩ := hb
  obtain ⟨hy, hp⟩ := List.mem_filter.1 hy
  have := h y id T hy (of_decide_eq_true hp) hT
  unfold bTerm Env.moved
  dsimp only
  rw [this]

variable {lower : String → String} {e : Env K} {z' : ℕ → K} {g' : K} {m m0 : Mdl K}

lemma vReady_moved (h : SameFaceTerms lower e z' g' m) (s : Sol K) : vReady lower (e.moved z' g') m s = vReady lower e m s := by
  have : m.bUpdate.foldlM (vBound lower (e.moved z' g') m) (initA (e.moved z' g'), []) = m.bUpdate.foldlM (vBound lower e m) (initA e, []) := by
    refine foldlM_same (fun b hb acc => ?_) _
    unfold vBound
    show (e.transC b false >>= _) = (e.transC b false >>= _)
    rcases hT : e.transC b false with x | l
    · rfl
    · rcases l with _ | ⟨⟨id, T⟩, _ | _⟩
      · rfl
      · simp only [bind_ok]
        rw [h b id T hb hT]
        rfl
      · rfl
  unfold vReady
  rw [this]

lemma vWells_noZ {s : Sol K} (l : List (ℕ × Well K)) (hl : ∀ w, w ∈ l → w.2.con ≠ some .q) {acc acc' : VAcc K} (h : l.foldlM (vWell e s) acc = .ok acc') : acc'.updateZ = acc.updateZ := by
  induction l generalizing acc with
  | nil => cases h; rfl
  | cons w l ih =>
    rw [List.foldlM_cons, ok_bind] at h
    obtain ⟨a, h1, h2⟩ := h
    rw [ih (fun w hw => hl w (List.mem_cons_of_mem _ hw)) h2]
    have hc := hl w (List.mem_cons_self ..)
    unfold vWell at h1
    rcases hw : w.2.con with _ | _ | _
    · simp only [hw] at h1; cases h1; rfl
    · exact absurd hw hc
    · simp only [hw] at h1
      rw [ok_bind] at h1
      obtain ⟨t, -, h1⟩ := h1
      split at h1
      all_goals
        rw [ok_bind] at h1
        obtain ⟨v, -, h1⟩ := h1
        rw [ok_bind] at h1
        obtain ⟨i, -, h1⟩ := h1
        cases h1
        rfl

lemma matricesVect_moved (h : SameFaceTerms lower e z' g' m) (hw : ∀ w, w ∈ m.wells → w.2.con ≠ some .q) (s : Sol K) : matricesVect lower (e.moved z' g') m s = matricesVect lower e m s := by
  unfold matricesVect
  rw [vReady_moved h]
  refine bind_congr fun ⟨A, bV, res⟩ => ?_
  show (initD e s >>= _) = (initD e s >>= _)
  refine bind_congr fun d => ?_
  show (m.wells.foldlM (vWell e s) _ >>= _) = (m.wells.foldlM (vWell e s) _ >>= _)
  rcases ha : m.wells.foldlM (vWell e s) ⟨A, d, res, false⟩ with x | acc
  · rfl
  · have := vWells_noZ m.wells hw ha
    simp only [bind_ok, this]
    rfl

lemma updateWells_moved (p : ℕ → Option K) (l : List (ℕ × Well K)) (r : ℕ → K) : updateWells (e.moved z' g') p l r = updateWells e p l r := by
  induction l generalizing r with
  | nil => rfl
  | cons w l ih =>
    unfold updateWells
    simp only [ih]
    rfl

lemma updateBounds_moved (h : SameFaceTerms lower e z' g' m) (p : ℕ → Option K) (r : ℕ → K) : updateBounds lower (e.moved z' g') m p r = updateBounds lower e m p r := by
  unfold updateBounds
  refine foldlM_same (fun b hb acc => ?_) _
  show (e.transC b false >>= _) = (e.transC b false >>= _)
  rcases hT : e.transC b false with x | l
  · rfl
  · rcases l with _ | ⟨⟨id, T⟩, _ | _⟩
    · rfl
    · simp only [bind_ok]
      rw [h b id T hb hT]
    · rfl

/-- Wells without a target rate keep their bottom-hole pressure and ask for no repetition. -/
lemma updateWells_held {p : ℕ → Option K} {l l' : List (ℕ × Well K)} {r r' : ℕ → K} {ps : List (ℕ × K)} {again : Bool} (hl : ∀ w, w ∈ l → w.2.qsp = none ∧ w.2.pwf = w.2.pwfsp ∧ w.2.con ≠ some .q)
    (h : updateWells e p l r = .ok (l', r', ps, again)) : ∀ w, w ∈ l' → w.2.qsp = none ∧ w.2.pwf = w.2.pwfsp ∧ w.2.con ≠ some .q := by
  induction l generalizing r l' r' ps with
  | nil => cases h; simp
  | cons w l ih =>
    unfold updateWells at h
    obtain ⟨⟨w1, q1, p1, a1⟩, h1, h⟩ := ok_bind.1 h
    have hw := hl w (List.mem_cons_self ..)
    have k : w1.qsp = none ∧ w1.pwf = w1.pwfsp ∧ w1.con ≠ some .q := by
      unfold updateWell at h1
      obtain ⟨est, g1, h1⟩ := ok_bind.1 h1
      obtain ⟨sp, g2, h1⟩ := ok_bind.1 h1
      unfold estimate at g1
      rw [hw.1] at g1
      dsimp only at g1
      rw [hw.2.1, g2] at g1
      have hes : est = sp := (Except.ok.inj g1).symm
      rw [hes, if_neg (lt_irrefl _)] at h1
      have : w.2.pwfsp = some sp := by
        unfold need at g2
        rcases hsp : w.2.pwfsp with _ | x
        · rw [hsp] at g2; cases g2
        · rw [hsp] at g2; cases g2; rfl
      obtain ⟨ag, -, h1⟩ := ok_bind.1 h1
      obtain ⟨t, -, h1⟩ := ok_bind.1 h1
      cases h1
      exact ⟨hw.1, this.symm, by simp⟩
    dsimp only at h
    split_ifs at h
    · cases h
      intro x hx
      rcases List.mem_cons.1 hx with rfl | hx
      · exact k
      · exact hl x (List.mem_cons_of_mem _ hx)
    · obtain ⟨⟨l1, r1, ps1, a2⟩, h2, h⟩ := ok_bind.1 h
      cases h
      intro x hx
      rcases List.mem_cons.1 hx with rfl | hx
      · exact k
      · exact ih (fun w hw => hl w (List.mem_cons_of_mem _ hw)) h2 x hx

lemma SameFaceTerms.keep (h : SameFaceTerms lower e z' g' m0) (hm : HeldWells m0 m) : SameFaceTerms lower e z' g' m := by
  unfold SameFaceTerms
  rw [hm.bd, hm.upd]
  exact h

variable {c : Ctx K}

lemma attempt_moved (h : SameFaceTerms c.lower c.e z' g' m0) (hm : HeldWells m0 m) (s : Sol K) :
    attempt (c.moved z' g') true m s = attempt c true m s ∧ ∀ m' s' again, attempt c true m s = .ok (m', s', again) → HeldWells m0 m' := by
  have ht := h.keep hm
  have ha : assemble (c.moved z' g') true m s = assemble c true m s := by
    unfold assemble
    simp only [if_true]
    show (matricesVect c.lower (c.e.moved z' g') m s >>= _) = _
    rw [matricesVect_moved ht fun w hw => (hm.wells w hw).2.2]
  have same : ∀ m1 s1 A d, assemble c true m s = .ok (m1, s1, A, d) → m1 = m := fun m1 s1 A d hh => (assemble_vect hh).1
  constructor
  · unfold attempt
    rw [ha]
    rcases hh : assemble c true m s with x | ⟨m1, s1, A, d⟩
    · rfl
    · obtain rfl := same m1 s1 A d hh
      have p1 : (c.moved z' g').e = c.e.moved z' g' := rfl
      have p2 : (c.moved z' g').lin = c.lin := rfl
      have p3 : (c.moved z' g').lower = c.lower := rfl
      have p4 : (c.e.moved z' g').n = c.e.n := rfl
      have p5 : (c.e.moved z' g').ids = c.e.ids := rfl
      simp only [bind_ok, p1, p2, p3, p4, p5, updateBounds_moved ht, updateWells_moved]
  · intro m' s' again hh
    unfold attempt at hh
    obtain ⟨⟨m1, s1, A, d⟩, h1, k1⟩ := ok_bind.1 hh
    obtain ⟨x, -, k2⟩ := ok_bind.1 k1
    obtain ⟨r, -, k3⟩ := ok_bind.1 k2
    obtain ⟨⟨ws, r2, ps, a⟩, h2, k4⟩ := ok_bind.1 k3
    have e1 := same m1 s1 A d h1
    cases k4
    rw [e1] at h2 ⊢
    exact ⟨hm.bd, hm.upd, updateWells_held hm.wells h2⟩

lemma solve_moved (h : SameFaceTerms c.lower c.e z' g' m0) (f : ℕ) : ∀ {m : Mdl K} (s : Sol K), HeldWells m0 m →
    solve (c.moved z' g') f true true m s = solve c f true true m s ∧ ∀ m' s', solve c f true true m s = .ok (m', s') → HeldWells m0 m' := by
  induction f with
  | zero =>
    intro m s hm
    rw [solve, solve]
    exact ⟨rfl, fun m' s' h => by cases h⟩
  | succ f ih =>
    intro m s hm
    obtain ⟨h1, h2⟩ := attempt_moved h hm s
    rw [solve, solve]
    simp only [if_true]
    rw [h1]
    rcases ha : attempt c true m s with x | ⟨m1, s1, again⟩
    · simp only [bind, Except.bind]
      exact ⟨trivial, fun m' s' h => by cases h⟩
    · have hm1 := h2 m1 s1 again ha
      simp only [bind_ok]
      cases again
      · simp only [Bool.false_eq_true, if_false]
        exact ⟨trivial, fun m' s' h => by cases h; exact hm1⟩
      · simp only [if_true]
        exact ih s1.back hm1

lemma runLoop_moved (h : SameFaceTerms c.lower c.e z' g' m0) (f n : ℕ) : ∀ {m : Mdl K} (s : Sol K), HeldWells m0 m → runLoop (c.moved z' g') f true n m s = runLoop c f true n m s := by
  induction n with
  | zero => exact fun s hm => rfl
  | succ n ih =>
    intro m s hm
    obtain ⟨h1, h2⟩ := solve_moved h f s hm
    unfold runLoop
    rw [h1]
    rcases hs : solve c f true true m s with x | ⟨m1, s1⟩
    · rfl
    · exact ih s1 (h2 m1 s1 hs)

/-- The same grid, rock and fluid, but for depths and density. -/
def GridModel.moved (M : GridModel K) (depth : List K) (g' : K) : GridModel K := { M with depth := depth, grav := g' }

lemma moved_env {M : GridModel K} (he : M.env = .ok e) (depth : List K) (g' : K) : (M.moved depth g').env = .ok (e.moved (fun id => depth.getD id 0) g') := by
  unfold GridModel.env Env.ofGrid at he ⊢
  rw [ok_bind] at he
  obtain ⟨ids, h1, he⟩ := he
  rw [ok_bind] at he
  obtain ⟨bnd, h2, he⟩ := he
  rw [ok_bind] at he
  obtain ⟨T, h3, he⟩ := he
  rw [ok_bind] at he
  obtain ⟨dg, h4, he⟩ := he
  rw [ok_pure] at he
  subst he
  simp only [GridModel.moved, h1, h2, h3, h4, bind_ok]
  rfl

lemma Ready.held (hr : Ready c m0) (hw : ∀ w, w ∈ m0.wells → w.2.qsp = none) : HeldWells m0 m0 :=
  ⟨rfl, rfl, fun w h => ⟨hw w h, (hr.started.mdl.well w h).free (hw w h)⟩⟩

/-- **C49, vectorised.** For every grid, rock, fluid, boundary conditions and wells without target rates: give the cells any other depths and the fluid any other density, so that the heads at the faces
with a given pressure stay the same. Then the vectorised simulation is the same: every number it reports, every exception, for every number of steps. (Between cells gravity plays no part, C49_vectorised_fails.) -/
theorem C49_depths_ignored {M : GridModel K} {c' : Ctx K} (he : M.env = .ok c.e) (depth : List K) (g' : K) (he' : (M.moved depth g').env = .ok c'.e) (hl : c'.lower = c.lower) (hs : c'.scale = c.scale) (hx : c'.lin = c.lin)
    (hr : Ready c m0) (hw : ∀ w, w ∈ m0.wells → w.2.qsp = none) (hh : SameHeads c.e (fun id => depth.getD id 0) g' m0) (f n : ℕ) (t : K) :
    run c' f true n t m0 (Sol.init m0) = run c f true n t m0 (Sol.init m0) := by
  have hc : c' = c.moved (fun id => depth.getD id 0) g' := by
    have := he'.symm.trans (moved_env he depth g')
    cases c'
    cases this
    cases hl; cases hs; cases hx
    rfl
  rw [hc]
  unfold run
  rw [runLoop_moved (hh.terms hr.started.mdl) f n _ (hr.held hw)]

/-- The depths of the levelled reservoir: interior cells at 0, boundary cells as far below as they are below the cell behind them. -/
def levelled (M : GridModel K) (e : Env K) : List K :=
  (List.range (M.g.getN true)).map fun id => if id ∈ e.ids then 0 else match e.behind id with | some i => e.z id - e.z i | none => 0

lemma levelled_inner {M : GridModel K} (he : M.env = .ok e) {id : ℕ} (hid : id ∈ e.ids) : (levelled M e).getD id 0 = 0 := by
  unfold levelled
  rw [getD_map_range _ _ _ (innerIds_lt M.g (by rw [← (env_ok he).1]; exact hid)), if_pos hid]

lemma levelled_head {M : GridModel K} (hM : M.Pos) (he : M.env = .ok e) {b id : ℕ} {T : K} (hb : b ∈ e.bnd) (hf : e.Face b id T) : (levelled M e).getD b 0 - (levelled M e).getD id 0 = e.z b - e.z id := by
  have wf := FromGrid.wf ⟨M, hM, he⟩
  have hf' : e.transC b false = .ok [(id, T)] := hf
  have hid : id ∈ e.ids := by
    rcases wf.face b hb with h | ⟨id', T', h1, -, h2⟩
    · rw [hf'] at h; cases h
    · have h2' : e.transC b false = .ok [(id', T')] := h2
      rw [hf'] at h2'; cases h2'; exact h1
  rw [levelled_inner he hid, sub_zero]
  have hlt : b < M.g.getN true := by
    have := wf.lt b (.inr hb)
    rwa [(env_ok he).2.2.1] at this
  unfold levelled
  rw [getD_map_range _ _ _ hlt, if_neg (wf.disj b hb), behind_of_face hf]

/-- **C49, vectorised.** Every reservoir can be levelled: with all cells at one depth and the boundary cells moved with the cells behind them, the heads at all faces are the same. -/
theorem C49_levelled {M : GridModel K} (hM : M.Pos) (he : M.env = .ok e) (hm : MdlOK e m) : ∃ e', (M.moved (levelled M e) M.grav).env = .ok e' ∧ (M.moved (levelled M e) M.grav).Pos ∧
    (∀ id, id ∈ e'.ids → e'.z id = 0) ∧ SameHeads e e'.z e'.grav m := by
  refine ⟨_, moved_env he _ _, ⟨hM.geom, hM.sizes, hM.rock, hM.perm, hM.permB, hM.β, hM.mu, hM.B, hM.vconv, hM.dt, hM.phi, hM.ct⟩, fun id hid => levelled_inner he hid, fun b id T hb _ hf => ?_⟩
  have hg : e.grav = M.grav := (env_ok he).2.2.2.2.2.2.2.2.2.2.2.1
  show M.grav * ((levelled M e).getD b.1 0 - (levelled M e).getD id 0) = _
  rw [levelled_head hM he (hm.bmem b hb) hf, hg]

lemma setBoundaryLoop_moved (l : List (ℕ × String × K)) : ∀ (m : Mdl K) (s : Option (Sol K)), setBoundaryLoop lower (e.moved z' g') m s l = setBoundaryLoop lower e m s l := by
  induction l with
  | nil => exact fun _ _ => rfl
  | cons x l ih =>
    intro m s
    simp only [setBoundaryLoop, ih]
    rfl

lemma setBoundaries_moved (m : Mdl K) (s : Option (Sol K)) (l : List (ℕ × String × K)) : setBoundaries lower (e.moved z' g') m s l = setBoundaries lower e m s l := by
  unfold setBoundaries
  rw [setBoundaryLoop_moved]

lemma setup_moved {lower : String → String} (h : Setup lower e m) : Setup lower (e.moved z' g') m := by
  induction h with
  | init pi => exact .init pi
  | bounds _ hb hs ih => exact .bounds ih hb (by rw [setBoundaries_moved]; exact hs)
  | well _ hs ih => exact .well ih hs

lemma pressure_solveAll (hr : Ready c m0) (hw : PressureWells m0) (vect : Bool) (f : ℕ) : ∀ {m : Mdl K} {s : Sol K}, Hist c Any m0 m s → SolveAll c Calm f vect m s := by
  induction f with
  | zero => exact fun _ => trivial
  | succ f ih =>
    intro m s hh m' s' again ha
    have keep : PressureWells m := fun w hw' => by
      obtain ⟨x, hx, h1⟩ := (forall2_mem (hr.inv hh).same.wells).1 w hw'
      rw [h1.2.2.2, h1.2.2.1]; exact hw x hx
    have con : ∀ w, w ∈ m'.wells → w.2.con = some .pwf := by
      cases again
      · exact (Hist.pressureWells hr hw (.step hh ha trivial)).2
      · exact (Hist.pressureWells hr hw (.again hh ha trivial)).2
    refine ⟨⟨fun x y _ hy _ _ => con y hy, fun _ x hx _ => (keep x hx).2⟩, fun h => ?_⟩
    subst h
    exact ih (.again hh ha trivial)

lemma pressure_runAll (hr : Ready c m0) (hw : PressureWells m0) (vect : Bool) (f n : ℕ) : ∀ {m : Mdl K} {s : Sol K}, Hist c Any m0 m s → RunAll c Calm f vect n m s := by
  induction n with
  | zero => exact fun _ => trivial
  | succ n ih =>
    exact fun hh => ⟨pressure_solveAll hr hw vect f hh, fun m' s' hs => ih (hh.solve hr.ctx.lower hr.ctx.wf hr.started.mdl (solveAll_any _ _ _ _ _) hs)⟩

/-- **C49, vectorised.** What the vectorised assembler simulates: on every one- or two-dimensional grid, with wells that are given bottom-hole pressures (not 0) and conditions that are pressures or
rates, the vectorised simulation of the reservoir reports what the cell-by-cell assembler reports for the levelled reservoir. -/
theorem C49_simulates_level {M : GridModel K} {c' : Ctx K} (hM : M.Pos) (he : M.env = .ok c.e) (he' : (M.moved (levelled M c.e) M.grav).env = .ok c'.e) (hl : c'.lower = c.lower) (hs : c'.scale = c.scale)
    (hl' : c'.lin = c.lin) (h2 : M.g.getD ≠ 3) (hr : Ready c m0) (hw : PressureWells m0) (hg : RatesGiven m0) (han : Anchored c.e m0) (hx : Exact c.lin) (f f' n : ℕ) (t t' : K)
    (h : (run c f true n t m0 (Sol.init m0)).2 = .ok ()) (h' : (run c' f' false n t' m0 (Sol.init m0)).2 = .ok ()) :
    Twin (run c f true n t m0 (Sol.init m0)).1.1 (run c' f' false n t' m0 (Sol.init m0)).1.1 (run c f true n t m0 (Sol.init m0)).1.2 (run c' f' false n t' m0 (Sol.init m0)).1.2 := by
  obtain ⟨e', g1, g2, g3, g4⟩ := C49_levelled hM he hr.started.mdl
  obtain rfl : c'.e = e' := Except.ok.inj (he'.symm.trans g1)
  have hc : c'.e = c.e.moved (fun id => (levelled M c.e).getD id 0) M.grav := Except.ok.inj (he'.symm.trans (moved_env he _ _))
  have hr' : Ready c' m0 := ⟨⟨by rw [hl]; exact hr.ctx.lower, ⟨_, g2, he'⟩, by rw [hs]; exact hr.ctx.scale⟩, by rw [hl, hc]; exact setup_moved hr.setup, hr.G, hr.cfg, by rw [hl]; exact hr.canon⟩
  have same := C49_depths_ignored he _ M.grav he' hl hs hl' hr (fun w h => (hw w h).1) (by rw [hc] at g4; exact g4) f n t
  rw [← same] at h ⊢
  exact C32_run_partial hr' ⟨_, g2, he', h2⟩ (.inr fun i hi => by rw [g3 _ (at_mem c'.e hi), g3 _ (at_mem c'.e hr'.ctx.wf.pos)]) hg (by rw [hc]; exact han) (by rw [hl']; exact hx) f f' n t t' .start
    (pressure_runAll hr' hw true f n (.clock _ (Sol.init m0).ctime .start)) h h'

/-! ## Instances -/

lemma exC_env (comp : Bool) (grav : ℚ) (depth : List ℚ) : (exM comp grav depth).env = .ok (exC comp grav depth).e := by
  show _ = Except.ok (exE comp grav depth)
  unfold exE
  exact getOk_eq _ _

/-- A slope: boundary cells at depths 4 and 9, cells at depths 5 and 7; a pressure of 10 on the left, a closed face on the right, a well at bottom-hole pressure 2 in the deeper cell. -/
def exHill : Mdl ℚ := exMdl true 3 [4, 5, 7, 9] (some 8) [(0, "pressure", 10), (3, "rate", 0)] [(2, { pwf := some 2, r := some 1 })]

lemma exHill_ready : Ready (exC true 3 [4, 5, 7, 9]) exHill := exMdl_ready (by decide +kernel)

lemma exHill_levelled : levelled (exM true 3 [4, 5, 7, 9]) (exC true 3 [4, 5, 7, 9]).e = [-1, 0, 0, 2] := by decide +kernel

lemma exHill_env : ((exM true 3 [4, 5, 7, 9]).moved (levelled (exM true 3 [4, 5, 7, 9]) (exC true 3 [4, 5, 7, 9]).e) (exM true 3 [4, 5, 7, 9]).grav).env = .ok (exC true 3 [-1, 0, 0, 2]).e := by
  rw [exHill_levelled]
  exact exC_env true 3 [-1, 0, 0, 2]

lemma exHill_given : RatesGiven exHill := by
  have h : (exHill.bdict.all fun b => decide (b.2.1 ≠ "pressure" → exHill.initR b.1 = b.2.2)) = true := by decide +kernel
  exact all_of h

/-- The hypotheses of the theorems are met on a slope: both runs complete, they report the same pressures, and the cell-by-cell assembler reports others for the slope itself. -/
example : (exM true 3 [4, 5, 7, 9]).Pos ∧ (exM true 3 [4, 5, 7, 9]).env = .ok (exC true 3 [4, 5, 7, 9]).e ∧
    ((exM true 3 [4, 5, 7, 9]).moved (levelled (exM true 3 [4, 5, 7, 9]) (exC true 3 [4, 5, 7, 9]).e) (exM true 3 [4, 5, 7, 9]).grav).env = .ok (exC true 3 [-1, 0, 0, 2]).e ∧
    (exM true 3 [4, 5, 7, 9]).g.getD ≠ 3 ∧ Ready (exC true 3 [4, 5, 7, 9]) exHill ∧ PressureWells exHill ∧ RatesGiven exHill ∧ Anchored (exC true 3 [4, 5, 7, 9]).e exHill ∧
    Exact (exC true 3 [4, 5, 7, 9]).lin ∧ (run (exC true 3 [4, 5, 7, 9]) 10 true 2 0 exHill (Sol.init exHill)).2 = .ok () ∧
    (run (exC true 3 [-1, 0, 0, 2]) 10 false 2 0 exHill (Sol.init exHill)).2 = .ok () ∧
    rowAt (run (exC true 3 [4, 5, 7, 9]) 10 true 2 0 exHill (Sol.init exHill)).1.2.press 1 none 1 = rowAt (run (exC true 3 [-1, 0, 0, 2]) 10 false 2 0 exHill (Sol.init exHill)).1.2.press 1 none 1 ∧
    rowAt (run (exC true 3 [4, 5, 7, 9]) 10 true 2 0 exHill (Sol.init exHill)).1.2.press 1 none 1 ≠ rowAt (run (exC true 3 [4, 5, 7, 9]) 10 false 2 0 exHill (Sol.init exHill)).1.2.press 1 none 1 ∧
    rowAt (run (exC true 3 [4, 5, 7, 9]) 10 true 2 0 exHill (Sol.init exHill)).1.2.press 1 none 1 ≠ some 8 :=
  ⟨exM_pos _ _ _, exC_env _ _ _, exHill_env, by show g2.getD ≠ 3; decide +kernel, exHill_ready, all_of (p := fun w : ℕ × Well ℚ => w.2.qsp = none ∧ w.2.pwfsp ≠ some 0) (by decide +kernel),
    exHill_given, .inl (by decide +kernel), cramer_exact, isOk_unit (by decide +kernel), isOk_unit (by decide +kernel), by decide +kernel, by decide +kernel, by decide +kernel⟩

/-- With a well that has a target rate the depths of the cells do enter the vectorised equations. -/
theorem C49_target_rate_fails : ∃ (c c' : Ctx ℚ) (M : GridModel ℚ) (m0 : Mdl ℚ) (depth : List ℚ) (g' : ℚ), M.env = .ok c.e ∧ (M.moved depth g').env = .ok c'.e ∧ c'.lower = c.lower ∧ c'.scale = c.scale ∧ c'.lin = c.lin ∧
    Ready c m0 ∧ SameHeads c.e (fun id => depth.getD id 0) g' m0 ∧ run c' 10 true 1 0 m0 (Sol.init m0) ≠ run c 10 true 1 0 m0 (Sol.init m0) := by
  refine ⟨exC true 3 [5, 5, 7, 7], exC true 3 [], exM true 3 [5, 5, 7, 7], exShaft, [], 3, exC_env _ _ _, exC_env _ _ _, rfl, rfl, rfl, exShaft_ready, fun b id T hb => ?_, fun h => ?_⟩
  · rw [show exShaft.bdict = [] by decide +kernel] at hb
    simp at hb
  · have : rowAt (run (exC true 3 []) 10 true 1 0 exShaft (Sol.init exShaft)).1.2.press 1 none 1 = rowAt (run (exC true 3 [5, 5, 7, 7]) 10 true 1 0 exShaft (Sol.init exShaft)).1.2.press 1 none 1 := by rw [h]
    exact absurd this (by decide +kernel)

end RF.Fdm
