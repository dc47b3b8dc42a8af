import Verif.Fdm.Examples
/-!
# Changing the data of an existing model (C75)

Grid, fluid and time step can be changed while a model exists (`fluid.set_mu`, `grid.set_props`, `model.dt = …`, `model.set_comp`). What a later step uses of the new data is the question here: the
accumulation coefficients are computed once, in the constructor; everything else is read when it is needed, or remembered.
-/
set_option linter.unusedSectionVars false
namespace RF.Fdm
open RF RF.Dims RF.Spec Finset

variable {K : Type} [Field K] [LinearOrder K] [IsStrictOrderedRing K]

/-! ## The model -/

/-- What the grid, the fluid and the constructor argument `dt` hold. Equivalent radius and index of a well depend on the permeabilities (C26); they are parameters. (black_oil.py l.31-107) -/
structure Data (K : Type) where
  g : Dims
  geom : Geom K
  rock : Rock K
  β : K
  mu : K
  B : K
  grav : K
  depth : List K
  phi : List K
  fluidC : Comp K
  gridC : Comp K
  vconv : K
  dt : K
  wellReq : Rock K → ℕ → Except Err K
  wellG : Rock K → ℕ → K → K → Option K → Except Err K

/-- `fluid.set_mu`, `set_B`, `set_rho` (the gravity term), `set_comp` (single_phase.py l.88-130, fluid.py l.44-64); `grid.set_props` with permeabilities, `z`, `phi`, `comp`
(regular_cartesian.py l.2260-2339); assignment of `model.dt`. -/
inductive Change (K : Type) where
  | mu (v : K) | B (v : K) | grav (v : K) | fluidComp (v : K)
  | perm (r : Rock K) | depth (l : List K) | phi (l : List K) | gridComp (v : K)
  | dt (v : K)

/-- The data afterwards. A negative compressibility is stored before it is refused (C24). (single_phase.py l.92-125, regular_cartesian.py l.2260-2429) -/
def Data.change (d : Data K) : Change K → Data K
  | .mu v => { d with mu := v }
  | .B v => { d with B := v }
  | .grav v => { d with grav := v }
  | .fluidComp v => { d with fluidC := (setComp d.fluidC v).1 }
  | .perm r => { d with rock := r }
  | .depth l => { d with depth := l }
  | .phi l => { d with phi := l }
  | .gridComp v => { d with gridC := (setComp d.gridC v).1 }
  | .dt v => { d with dt := v }

/-- The data together with a model of it: `model.comp`, `model.comp_type`, `model.RHS`, the remembered answers of `get_cell_trans` (a cache without bound, black_oil.py l.268), boundary conditions and
wells, and the solution once compiled. -/
structure Bench (K : Type) where
  d : Data K
  comp : Comp K
  rhs : ℕ → K
  seen : List ((ℕ × Bool) × List (ℕ × K))
  m : Mdl K
  s : Option (Sol K)

/-- The constructor (black_oil.py l.84-103): compressibility and `RHS` are computed here and nowhere else. -/
def Data.create (d : Data K) (pi : Option K) : Except Err (Bench K) := do
  let ids ← d.g.getCellsId false
  match calcComp d.fluidC d.gridC with
  | (_, some x) => .error x
  | (c, none) => .ok ⟨d, c, calcRHS (decide (c.type = some .compressible)) d.geom.V d.phi c.comp d.vconv d.B d.dt, [],
      ⟨fun id => if id ∈ ids then pi else none, fun _ => 0, [], [], [], [], []⟩, none⟩

/-- What the model and its solution read at this moment: the data as they are now, except `RHS` and the remembered transmissibilities. (black_oil.py l.109-178, 268-298, 621-633) -/
def Bench.env (w : Bench K) : Except Err (Env K) := do
  let e ← Env.ofGrid w.d.g w.d.geom w.d.rock w.d.β w.d.mu w.d.B w.d.grav w.d.depth (decide (w.comp.type = some .compressible)) w.rhs (w.d.wellReq w.d.rock) (w.d.wellG w.d.rock)
  pure { e with transC := fun id b => match dictGet w.seen (id, b) with | some l => .ok l | none => e.transC id b }

/-- Calls. `asked` lists the questions `get_cell_trans(id, None, boundary)` that the call happens to ask; the theorems hold for all such lists. `model.set_comp` is restricted to values that it accepts. (black_oil.py l.453, 533, 577, fdm.py l.690) -/
inductive DEvent (K : Type) [Field K] [LinearOrder K] where
  | change (c : Change K)
  | comp (v : K) (h : 0 ≤ v)
  | bounds (b : List (ℕ × String × K)) (asked : List (ℕ × Bool))
  | well (id : ℕ) (a : WellArgs K)
  | compile
  | step (vect : Bool) (asked : List (ℕ × Bool))

/-- The answers that are remembered. (black_oil.py l.268-298) -/
def Bench.asked (w : Bench K) (e : Env K) (l : List (ℕ × Bool)) : List ((ℕ × Bool) × List (ℕ × K)) :=
  w.seen ++ l.filterMap fun k => match e.transC k.1 k.2 with | .ok v => some (k, v) | .error _ => none

/-- What does not change: `str.lower`, sympy's scaling, the linear solver, the recursion limit. (fdm.py l.690-782) -/
structure Tools (K : Type) where
  lower : String → String
  scale : (ℕ → K) → K → K
  lin : LinSolver K
  fuel : ℕ

/-- The context of an environment. (no line of the code) -/
def Tools.ctx (t : Tools K) (e : Env K) : Ctx K := ⟨e, t.lower, t.scale, t.lin⟩

/-- One call; the user may catch its exception. (black_oil.py l.268-633, fdm.py l.690-782) -/
def Bench.exec (t : Tools K) (w : Bench K) : DEvent K → Bench K × Except Err Unit
  | .change c => ({ w with d := w.d.change c }, .ok ())
  | .comp v _ => ({ w with comp := (setComp w.comp v).1 }, .ok ())
  | .compile => ({ w with s := some (Sol.init w.m) }, .ok ())
  | .bounds b l => match w.env with
    | .error x => (w, .error x)
    | .ok e => match setBoundaries t.lower e w.m w.s b with
      | ((m, s), r) => ({ w with m := m, s := s, seen := w.asked e l }, r)
  | .well id a => match w.env with
    | .error x => (w, .error x)
    | .ok e => match setWell e w.m w.s (some id) a with
      | (m, r) => ({ w with m := m }, r)
  | .step vect l => match w.s with
    | none => (w, .error .assertion)
    | some s => match w.env with
      | .error x => (w, .error x)
      | .ok e => match solve (t.ctx e) t.fuel vect true w.m s with
        | .error x => ({ w with seen := w.asked e l }, .error x)
        | .ok (m, s) => ({ w with m := m, s := some s, seen := w.asked e l }, .ok ())

/-- A sequence of calls. (no line of the code: a sequence of calls) -/
def Bench.session (t : Tools K) (w : Bench K) (es : List (DEvent K)) : Bench K := es.foldl (fun w e => (w.exec t e).1) w

/-- The pressure of a cell in the last recorded row. -/
def Bench.pressure (w : Bench K) (id : ℕ) : Option K := w.s.bind fun s => lastRow s.press none id

/-! ## Specification -/

/-- Changes that a model takes over as if it were created after them: viscosity, density, permeabilities and depths; for incompressible models also the volume factor, porosity and time step. -/
def Change.Honoured (incompressible : Prop) : Change K → Prop
  | .mu _ | .grav _ | .perm _ | .depth _ => True
  | .B _ | .phi _ | .dt _ => incompressible
  | .fluidComp _ | .gridComp _ => False

/-- Changes without any effect on an existing model. -/
def Change.ignored : Change K → Bool
  | .phi _ | .dt _ | .fluidComp _ | .gridComp _ => true
  | _ => false

def DEvent.ignored : DEvent K → Bool
  | .change c => c.ignored
  | _ => false

/-! ## Changes before everything else -/

lemma calcRHS_incompressible (V phi : List K) (ct vconv B dt : K) : calcRHS false V phi ct vconv B dt = fun _ => 0 := by
  funext id; unfold calcRHS; simp

lemma change_comps {d : Data K} {P : Prop} {c : Change K} (h : c.Honoured P) : (d.change c).fluidC = d.fluidC ∧ (d.change c).gridC = d.gridC := by
  cases c <;> first | exact ⟨rfl, rfl⟩ | exact h.elim

lemma create_data {d : Data K} {pi : Option K} {w : Bench K} (h : d.create pi = .ok w) : w.d = d := by
  unfold Data.create at h
  rw [ok_bind] at h
  obtain ⟨ids, -, h⟩ := h
  rcases hcc : calcComp d.fluidC d.gridC with ⟨c0, _ | x⟩
  · rw [hcc] at h; rw [← Except.ok.inj h]
  · rw [hcc] at h; cases h

/-- **C75**, partial: a model takes over changes of viscosity, density, permeabilities and depths made right after its creation: whatever is done with it afterwards, it does what a model created from
the changed data does. Incompressible models also take over volume factor, porosity and time step. Missing and false: `C75_ignored`, `C75_time_step_fails`, `C75_permeability_kept`. -/
theorem C75_fresh_partial {d : Data K} {pi : Option K} {w : Bench K} (h : d.create pi = .ok w) (cs : List (Change K))
    (hc : ∀ c, c ∈ cs → c.Honoured (d.fluidC.type = some .incompressible ∧ d.gridC.type = some .incompressible)) :
    ∃ w', (cs.foldl Data.change d).create pi = .ok w' ∧ ∀ (t : Tools K) (es : List (DEvent K)), w.session t (cs.map .change ++ es) = w'.session t es := by
  have key : ∀ (cs : List (Change K)) (d : Data K) (w : Bench K), d.create pi = .ok w →
      (∀ c, c ∈ cs → c.Honoured (d.fluidC.type = some .incompressible ∧ d.gridC.type = some .incompressible)) →
      ∃ w', (cs.foldl Data.change d).create pi = .ok w' ∧ ∀ t : Tools K, w.session t (cs.map .change) = w' := by
    intro cs
    induction cs with
    | nil => intro d w h _; exact ⟨w, h, fun _ => rfl⟩
    | cons c cs ih =>
      intro d w h hc
      obtain ⟨e1, e2⟩ := change_comps (d := d) (hc c (List.mem_cons_self ..))
      have hw : (d.change c).create pi = .ok { w with d := d.change c } := by
        have eg : (d.change c).g = d.g := by cases c <;> rfl
        have ev : (d.change c).geom = d.geom := by cases c <;> rfl
        have ec : (d.change c).vconv = d.vconv := by cases c <;> rfl
        unfold Data.create at h ⊢
        rw [ok_bind] at h
        obtain ⟨ids, hids, h⟩ := h
        rw [eg, hids, bind_ok, e1, e2]
        rcases hcc : calcComp d.fluidC d.gridC with ⟨c0, _ | x⟩
        · rw [hcc] at h
          dsimp only at h ⊢
          rw [← Except.ok.inj h]
          congr 1
          simp only [Bench.mk.injEq, true_and, and_true]
          rw [ev, ec]
          have hh := hc c (List.mem_cons_self ..)
          have hin : (d.fluidC.type = some .incompressible ∧ d.gridC.type = some .incompressible) → c0.type ≠ some .compressible := by
            rintro ⟨i1, i2⟩
            unfold calcComp at hcc
            rw [if_pos ⟨i1.trans i2.symm, i2⟩] at hcc
            unfold setComp at hcc
            rw [if_pos rfl] at hcc
            cases hcc; simp
          cases c with
          | mu v => rfl
          | grav v => rfl
          | perm v => rfl
          | depth v => rfl
          | B v => rw [decide_eq_false (hin hh), calcRHS_incompressible, calcRHS_incompressible]
          | phi v => rw [decide_eq_false (hin hh), calcRHS_incompressible, calcRHS_incompressible]
          | dt v => rw [decide_eq_false (hin hh), calcRHS_incompressible, calcRHS_incompressible]
          | fluidComp v => exact hh.elim
          | gridComp v => exact hh.elim
        · rw [hcc] at h; cases h
      obtain ⟨w', h1, h2⟩ := ih (d.change c) _ hw fun c' h' => by
        rw [e1, e2]; exact hc c' (List.mem_cons_of_mem _ h')
      refine ⟨w', h1, fun t => Eq.trans ?_ (h2 t)⟩
      show Bench.session t { w with d := w.d.change c } (cs.map .change) = _
      rw [create_data h]
  obtain ⟨w', h1, h2⟩ := key cs d w h hc
  refine ⟨w', h1, fun t es => ?_⟩
  unfold Bench.session at h2 ⊢
  rw [List.foldl_append, h2 t]

/-! ## Changes without effect -/

/-- The same model, data equal where the model still reads them. -/
structure SameModel (w w' : Bench K) : Prop where
  comp : w.comp = w'.comp
  rhs : w.rhs = w'.rhs
  seen : w.seen = w'.seen
  m : w.m = w'.m
  s : w.s = w'.s
  d : { w.d with phi := [], dt := 0, fluidC := ⟨0, none⟩, gridC := ⟨0, none⟩ } = { w'.d with phi := [], dt := 0, fluidC := ⟨0, none⟩, gridC := ⟨0, none⟩ }

lemma SameModel.env {w w' : Bench K} (h : SameModel w w') : w.env = w'.env := by
  have hd := h.d
  simp only [Data.mk.injEq, true_and, and_true] at hd
  obtain ⟨h1, h2, h3, h4, h5, h6, h7, h8, h9, h10, h11⟩ := hd
  unfold Bench.env
  rw [h.comp, h.rhs, h.seen, h1, h2, h3, h4, h5, h6, h7, h8, h10, h11]

lemma SameModel.exec {w w' : Bench K} (h : SameModel w w') (t : Tools K) (e : DEvent K) : SameModel (w.exec t e).1 (w'.exec t e).1 ∧ (w.exec t e).2 = (w'.exec t e).2 := by
  have he := h.env
  have ha : ∀ e l, w.asked e l = w'.asked e l := fun e l => by unfold Bench.asked; rw [h.seen]
  cases e with
  | change c =>
    refine ⟨⟨h.comp, h.rhs, h.seen, h.m, h.s, ?_⟩, rfl⟩
    have hd := h.d
    simp only [Data.mk.injEq, true_and, and_true] at hd
    obtain ⟨h1, h2, h3, h4, h5, h6, h7, h8, h9, h10, h11⟩ := hd
    show ({ w.d.change c with phi := [], dt := 0, fluidC := ⟨0, none⟩, gridC := ⟨0, none⟩ } : Data K) = { w'.d.change c with phi := [], dt := 0, fluidC := ⟨0, none⟩, gridC := ⟨0, none⟩ }
    cases c <;> simp [Data.change, *]
  | comp v hv => exact ⟨⟨by show (setComp w.comp v).1 = (setComp w'.comp v).1; rw [h.comp], h.rhs, h.seen, h.m, h.s, h.d⟩, rfl⟩
  | compile => exact ⟨⟨h.comp, h.rhs, h.seen, h.m, by show some (Sol.init w.m) = some (Sol.init w'.m); rw [h.m], h.d⟩, rfl⟩
  | bounds b l =>
    unfold Bench.exec
    rw [he, h.m, h.s]
    cases w'.env with
    | error x => exact ⟨h, rfl⟩
    | ok e => exact ⟨⟨h.comp, h.rhs, ha e l, rfl, rfl, h.d⟩, rfl⟩
  | well id a =>
    unfold Bench.exec
    rw [he, h.m, h.s]
    cases w'.env with
    | error x => exact ⟨h, rfl⟩
    | ok e => exact ⟨⟨h.comp, h.rhs, h.seen, rfl, rfl, h.d⟩, rfl⟩
  | step vect l =>
    unfold Bench.exec
    rw [he, h.m, h.s]
    rcases hs : w'.s with _ | s
    · exact ⟨h, rfl⟩
    · dsimp only
      cases w'.env with
      | error x => exact ⟨h, rfl⟩
      | ok e =>
        dsimp only
        rcases solve (t.ctx e) t.fuel vect true w'.m s with x | ⟨m, s'⟩
        · exact ⟨⟨h.comp, h.rhs, ha e l, rfl, rfl, h.d⟩, rfl⟩
        · exact ⟨⟨h.comp, h.rhs, ha e l, rfl, rfl, h.d⟩, rfl⟩

lemma SameModel.ignored (w : Bench K) (t : Tools K) {e : DEvent K} (he : e.ignored = true) : SameModel (w.exec t e).1 w := by
  cases e with
  | change c =>
    refine ⟨rfl, rfl, rfl, rfl, rfl, ?_⟩
    show ({ w.d.change c with phi := [], dt := 0, fluidC := ⟨0, none⟩, gridC := ⟨0, none⟩ } : Data K) = { w.d with phi := [], dt := 0, fluidC := ⟨0, none⟩, gridC := ⟨0, none⟩ }
    cases c <;> first | rfl | cases he
  | _ => cases he

/-- **C75 fails** for porosity, time step and the compressibilities of fluid and grid: changing them, at any time and any number of times, has no effect whatever on an existing model: pressures, rates,
wells and accumulation coefficients are those of the session without the changes. -/
theorem C75_ignored (t : Tools K) (w : Bench K) (es : List (DEvent K)) :
    (w.session t es).m = (w.session t (es.filter fun e => !e.ignored)).m ∧ (w.session t es).s = (w.session t (es.filter fun e => !e.ignored)).s ∧
      (w.session t es).rhs = (w.session t (es.filter fun e => !e.ignored)).rhs := by
  have key : ∀ (es : List (DEvent K)) (w w' : Bench K), SameModel w w' → SameModel (w.session t es) (w'.session t (es.filter fun e => !e.ignored)) := by
    intro es
    induction es with
    | nil => intro w w' h; exact h
    | cons e es ih =>
      intro w w' h
      rw [List.filter_cons]
      cases he : e.ignored with
      | true =>
        have k := SameModel.ignored w t he
        refine ih _ _ ⟨k.comp.trans h.comp, k.rhs.trans h.rhs, k.seen.trans h.seen, k.m.trans h.m, k.s.trans h.s, k.d.trans h.d⟩
      | false => exact ih _ _ (h.exec t e).1
  have k := key es w w ⟨rfl, rfl, rfl, rfl, rfl, rfl⟩
  exact ⟨k.m, k.s, k.rhs⟩

/-! ## Permeabilities after the first step -/

/-- The parts of the environment that a vectorised step after the first does not read. -/
def SameRest (e e' : Env K) : Prop := ∃ T C g1 wr wg, e' = { e with transV := T, transC := C, diag1 := g1, wellReq := wr, wellG := wg }

lemma attempt_kept {c : Ctx K} {e' : Env K} (h : SameRest c.e e') (hz : ∀ id, id ∈ c.e.ids → c.e.z id = c.e.z (c.e.ids.getD 0 0)) {m : Mdl K} {s : Sol K}
    (hb : m.bUpdate = []) {A : ℕ → ℕ → K} (hA : s.vA = some A) (ht : s.tstep ≠ 0) : attempt { c with e := e' } true m s = attempt c true m s := by
  obtain ⟨T, C, g1, wr, wg, rfl⟩ := h
  have hu : ∀ d : ℕ → K, updateZ { c.e with transV := T, transC := C, diag1 := g1, wellReq := wr, wellG := wg } d = updateZ c.e d := by
    intro d
    have hf : ((List.range c.e.n).all fun i => decide (c.e.z (c.e.ids.getD i 0) = c.e.z (c.e.ids.getD 0 0))) = true := by
      rw [List.all_eq_true]
      intro i hi
      rw [List.mem_range] at hi
      refine decide_eq_true (hz _ ?_)
      unfold Env.n at hi
      rw [List.getD_eq_getElem?_getD, List.getElem?_eq_getElem hi]; exact List.getElem_mem _
    exact (if_pos hf).trans (if_pos hf).symm
  have hm : matricesVect c.lower { c.e with transV := T, transC := C, diag1 := g1, wellReq := wr, wellG := wg } m s = matricesVect c.lower c.e m s := by
    unfold matricesVect vReady
    rw [hA]
    dsimp only
    rw [if_neg ht, if_neg ht]
    simp only [bind_ok, hu]
    rfl
  have huw : ∀ (p : ℕ → Option K) (ws : List (ℕ × Well K)) (r : ℕ → K), updateWells { c.e with transV := T, transC := C, diag1 := g1, wellReq := wr, wellG := wg } p ws r = updateWells c.e p ws r := by
    intro p ws
    induction ws with
    | nil => intro r; rfl
    | cons x ws ih =>
      intro r
      unfold updateWells
      simp only [ih]
      rfl
  have hub : ∀ (e : Env K) (p : ℕ → Option K) (r : ℕ → K), updateBounds c.lower e m p r = .ok r := fun e p r => by unfold updateBounds; rw [hb]; rfl
  unfold attempt assemble
  simp only [if_true]
  rw [hm]
  rcases hx : matricesVect c.lower c.e m s with x | ⟨s1, A1, d1⟩
  · rfl
  · simp only [bind_ok, pure_bind, hub, huw]
    rfl

lemma vect_parts {c : Ctx K} {m m1 : Mdl K} {s s1 : Sol K} {A : ℕ → ℕ → K} {d : ℕ → K} (h : assemble c true m s = .ok (m1, s1, A, d)) :
    m1 = m ∧ s1.vA = some A ∧ s1.tstep = s.tstep ∧ s1.press = s.press := by
  unfold assemble at h
  rw [if_pos rfl, ok_bind] at h
  obtain ⟨⟨s2, A2, d2⟩, h1, h⟩ := h
  simp only [ok_pure, Prod.mk.injEq] at h
  obtain ⟨rfl, rfl, rfl, rfl⟩ := h
  unfold matricesVect at h1
  rw [ok_bind] at h1
  obtain ⟨⟨A3, bV, res⟩, -, h1⟩ := h1
  dsimp only at h1
  rw [ok_bind] at h1
  obtain ⟨d3, -, h1⟩ := h1
  rw [ok_bind] at h1
  obtain ⟨acc, -, h1⟩ := h1
  rw [ok_bind] at h1
  obtain ⟨d4, -, h1⟩ := h1
  simp only [ok_pure, Prod.mk.injEq] at h1
  obtain ⟨rfl, rfl, -⟩ := h1
  exact ⟨rfl, rfl, rfl, rfl⟩

lemma solve_kept {c : Ctx K} {e' : Env K} (h : SameRest c.e e') (hz : ∀ id, id ∈ c.e.ids → c.e.z id = c.e.z (c.e.ids.getD 0 0)) (fuel : ℕ) {m : Mdl K} {s : Sol K}
    (hb : m.bUpdate = []) (hA : s.vA.isSome = true) (ht : s.tstep ≠ 0) : solve { c with e := e' } fuel true true m s = solve c fuel true true m s := by
  induction fuel generalizing m s with
  | zero => rfl
  | succ n ih =>
    obtain ⟨A, hA'⟩ := Option.isSome_iff_exists.1 hA
    unfold solve
    rw [if_pos rfl, if_pos rfl, attempt_kept h hz hb hA' ht]
    rcases ha : attempt c true m s with x | ⟨m', s', again⟩
    · rfl
    · simp only [bind_ok]
      cases again with
      | false => rfl
      | true =>
        simp only [if_true]
        obtain ⟨m1, s1, A1, d1, x, r, ws, r', ps, h1, -, -, -, rfl, rfl⟩ := attempt_parts ha
        obtain ⟨rfl, h2, h3, -⟩ := vect_parts h1
        exact ih (by exact hb) (by unfold Sol.back; dsimp only; rw [h2]; rfl) (by unfold Sol.back; dsimp only; omega)

/-- **C75 fails** for permeabilities after the first step: in a model whose cells are at one depth, with any wells and rate conditions, vectorised steps after the first use the permeabilities of the
first one: whatever is set in between, pressures, rates and wells come out the same. -/
theorem C75_permeability_kept (t : Tools K) (w : Bench K) {s : Sol K} (hs : w.s = some s) (hA : s.vA.isSome = true) (ht : s.tstep ≠ 0) (hb : w.m.bUpdate = [])
    {e e' : Env K} (he : w.env = .ok e) (hz : ∀ id, id ∈ e.ids → e.z id = e.z (e.ids.getD 0 0)) (r : Rock K) (he' : (w.exec t (.change (.perm r))).1.env = .ok e') (l : List (ℕ × Bool)) :
    ((w.exec t (.change (.perm r))).1.exec t (.step true l)).1.m = (w.exec t (.step true l)).1.m ∧
      ((w.exec t (.change (.perm r))).1.exec t (.step true l)).1.s = (w.exec t (.step true l)).1.s := by
  have hr : SameRest e e' := by
    unfold Bench.env at he he'
    rw [ok_bind] at he he'
    obtain ⟨e1, h1, h2⟩ := he
    obtain ⟨e1', h1', h2'⟩ := he'
    rw [ok_pure] at h2 h2'
    unfold Env.ofGrid at h1 h1'
    have e0 : (w.exec t (.change (.perm r))).1.d.g = w.d.g := rfl
    rw [e0] at h1'
    rw [getCellsId_false, bind_ok, getBoundariesId_eq, bind_ok, ok_bind] at h1 h1'
    obtain ⟨T, -, h1⟩ := h1
    obtain ⟨T', -, h1'⟩ := h1'
    rw [ok_bind] at h1 h1'
    obtain ⟨dg, -, h1⟩ := h1
    obtain ⟨dg', -, h1'⟩ := h1'
    rw [ok_pure] at h1 h1'
    subst h1 h1' h2 h2'
    exact ⟨_, _, _, _, _, rfl⟩
  have hk := solve_kept (c := t.ctx e) hr hz t.fuel (m := w.m) (s := s) hb hA ht
  have hs' : (w.exec t (.change (.perm r))).1.s = some s := hs
  have hm' : (w.exec t (.change (.perm r))).1.m = w.m := rfl
  generalize (w.exec t (.change (.perm r))).1 = w' at he' hs' hm' ⊢
  unfold Bench.exec
  rw [hs, hs']
  dsimp only
  rw [he, he', hm']
  dsimp only
  rw [show t.ctx e' = { t.ctx e with e := e' } from rfl, hk]
  rcases solve (t.ctx e) t.fuel true true w.m s with x | ⟨m, s1⟩
  · exact ⟨rfl, rfl⟩
  · exact ⟨rfl, rfl⟩

/-! ## `model.set_comp(0)` -/

lemma initA_sum (e : Env K) {i : ℕ} (hi : i < e.n) (hd : e.transV i i = 0) (x : ℕ → K) :
    ∑ j ∈ range e.n, initA e i j * x j = Net.inflow e.n e.transV (fun i => e.rhs (e.ids.getD i 0)) x i := by
  unfold initA Net.inflow
  rw [range_sum, ← Finset.add_sum_erase _ _ (mem_range.2 hi)]
  rw [if_pos rfl]
  have h1 : ∑ j ∈ (range e.n).erase i, (if i = j then -(∑ j ∈ range e.n, e.transV i j) - e.rhs (e.ids.getD i 0) else e.transV i j) * x j = ∑ j ∈ (range e.n).erase i, e.transV i j * x j := by
    refine sum_congr rfl fun j hj => ?_
    rw [if_neg (fun h => (mem_erase.1 hj).1 h.symm)]
  have h2 : ∑ j ∈ range e.n, e.transV i j * (x j - x i) = ∑ j ∈ (range e.n).erase i, e.transV i j * x j - (∑ j ∈ range e.n, e.transV i j) * x i := by
    simp only [mul_sub, sum_sub_distrib, ← sum_mul]
    rw [← Finset.add_sum_erase _ (fun j => e.transV i j * x j) (mem_range.2 hi), hd]
    ring
  rw [h1, h2]; ring

lemma drained {c : Ctx K} {e : Env K} (he : e.WF) (hc : e.comp = true) (hce : c.e = { e with comp := false }) (hx : Exact c.lin) {m m' : Mdl K} {s s' : Sol K} {again : Bool}
    (hw : m.wells = []) (hb : m.bdict = []) (hu : m.bUpdate = []) (hs : s.vA = none) (h : attempt c true m s = .ok (m', s', again)) :
    again = false ∧ ∀ id, id ∈ e.ids → lastRow s'.press none id = some 0 := by
  obtain ⟨m1, s1, A, d, x, r, ws, r', ps, h1, h2, -, h4, rfl, rfl⟩ := attempt_parts h
  obtain ⟨rfl, -, -, -⟩ := vect_parts h1
  unfold assemble at h1
  rw [if_pos rfl, ok_bind] at h1
  obtain ⟨⟨s2, A2, d2⟩, h1, h3⟩ := h1
  simp only [ok_pure, Prod.mk.injEq] at h3
  obtain ⟨-, rfl, rfl, rfl⟩ := h3
  have hM : A2 = initA c.e ∧ d2 = fun _ => 0 := by
    unfold matricesVect vReady initD at h1
    rw [hs, hw, hb, hu, hce] at h1
    simp only [List.foldlM_nil, pure_bind, bind_ok, Bool.false_eq_true, if_false, ok_pure, Prod.mk.injEq] at h1
    rw [hce]
    exact ⟨h1.2.1.symm, h1.2.2.symm⟩
  obtain ⟨rfl, rfl⟩ := hM
  refine ⟨?_, fun id hid => ?_⟩
  · rw [hw] at h4
    unfold updateWells at h4
    simp only [Except.ok.injEq, Prod.mk.injEq] at h4
    exact h4.2.2.2.symm
  have hsol := hx _ _ _ _ h2
  have hn : c.e.n = e.n := by rw [hce]; rfl
  have hT : c.e.transV = e.transV := by rw [hce]
  have hR : c.e.rhs = e.rhs := by rw [hce]
  have hI : c.e.ids = e.ids := by rw [hce]
  have hp : ∀ i, i < e.n → 0 < e.rhs (e.ids.getD i 0) := fun i hi => he.rhsC hc _ (by
    unfold Env.n at hi; rw [List.getD_eq_getElem?_getD, List.getElem?_eq_getElem hi]; exact List.getElem_mem _)
  have hl : Net.Leaky e.n e.transV fun i => e.rhs (e.ids.getD i 0) := he.network.leaky (fun i hi => (hp i hi).le) ⟨0, he.pos, hp 0 he.pos⟩
  have h0 : ∀ i, i < e.n → x i = 0 := Net.eq_of_inflow_eq hl (q := fun _ => 0) fun i hi => by
    have := hsol i (by rw [hn]; exact hi)
    rw [initA_sum c.e (by rw [hn]; exact hi) (by rw [hT]; exact he.diag i hi), hn, hT, hR, hI] at this
    rw [this]
    simp [Net.inflow]
  have : lastRow (s2.press ++ [newRow c.e.ids (lastRow s2.press none) x]) none = newRow c.e.ids (lastRow s2.press none) x := by
    unfold lastRow; rw [List.getLastD_concat]
  show lastRow (s2.press ++ [newRow c.e.ids (lastRow s2.press none) x]) none id = some 0
  rw [this]
  unfold newRow
  rw [hI, if_pos hid, h0 _ (List.idxOf_lt_length_of_mem hid)]

/-- The data of a grid model (`FromGrid`) with compressibilities of fluid and grid. -/
def GridModel.data (M : GridModel K) (fluidC gridC : Comp K) : Data K :=
  ⟨M.g, M.geom, M.rock, M.β, M.mu, M.B, M.grav, M.depth, M.phi, fluidC, gridC, M.vconv, M.dt, fun _ => M.wellReq, fun _ => M.wellG⟩

/-- **C75 fails** for `model.set_comp(0)`: on every compressible grid model without wells and boundary conditions, whatever its initial pressure, the next vectorised step sets the pressure of every cell
to zero: the accumulation coefficients stay in the matrix but are dropped from the right-hand side. -/
theorem C75_set_comp_zero {M : GridModel K} (hM : M.Pos) {e : Env K} (hE : M.env = .ok e) {fluidC gridC : Comp K} (hc : calcComp fluidC gridC = (⟨M.ct, some .compressible⟩, none)) (hcomp : M.comp = true)
    {pi : Option K} {w w' : Bench K} (h : (M.data fluidC gridC).create pi = .ok w) (t : Tools K) (hx : Exact t.lin) (l : List (ℕ × Bool))
    (hs : (w.session t [.comp 0 le_rfl, .compile]).exec t (.step true l) = (w', .ok ())) : ∀ id, id ∈ e.ids → w'.pressure id = some 0 := by
  have hw : w = { d := M.data fluidC gridC, comp := ⟨M.ct, some .compressible⟩, rhs := calcRHS true M.geom.V M.phi M.ct M.vconv M.B M.dt, seen := [], m := w.m, s := none } ∧
      w.m.wells = [] ∧ w.m.bdict = [] ∧ w.m.bUpdate = [] := by
    unfold Data.create at h
    rw [ok_bind] at h
    obtain ⟨ids, -, h⟩ := h
    rw [show (M.data fluidC gridC).fluidC = fluidC from rfl, show (M.data fluidC gridC).gridC = gridC from rfl, hc] at h
    rw [← Except.ok.inj h]
    exact ⟨rfl, rfl, rfl, rfl⟩
  obtain ⟨hw, k1, k2, k3⟩ := hw
  generalize w.m = m at hw k1 k2 k3
  subst hw
  have henv : (({ d := M.data fluidC gridC, comp := ⟨M.ct, some .compressible⟩, rhs := calcRHS true M.geom.V M.phi M.ct M.vconv M.B M.dt, seen := [], m := m, s := none } : Bench K).session t
      [.comp 0 le_rfl, .compile]).env = .ok { e with comp := false } := by
    unfold GridModel.env Env.ofGrid at hE
    rw [ok_bind] at hE
    obtain ⟨ids, i1, hE⟩ := hE
    rw [ok_bind] at hE
    obtain ⟨bs, i2, hE⟩ := hE
    rw [ok_bind] at hE
    obtain ⟨T, i3, hE⟩ := hE
    rw [ok_bind] at hE
    obtain ⟨dg, i4, hE⟩ := hE
    rw [ok_pure, hcomp] at hE
    subst hE
    unfold Bench.session Bench.env Env.ofGrid
    simp only [List.foldl_cons, List.foldl_nil, Bench.exec, GridModel.data]
    rw [i1, bind_ok, i2, bind_ok, i3, bind_ok, i4, bind_ok]
    simp only [setComp, if_true, dictGet]
    rfl
  have hss : (({ d := M.data fluidC gridC, comp := ⟨M.ct, some .compressible⟩, rhs := calcRHS true M.geom.V M.phi M.ct M.vconv M.B M.dt, seen := [], m := m, s := none } : Bench K).session t
      [.comp 0 le_rfl, .compile]).s = some (Sol.init m) := rfl
  have hmm : (({ d := M.data fluidC gridC, comp := ⟨M.ct, some .compressible⟩, rhs := calcRHS true M.geom.V M.phi M.ct M.vconv M.B M.dt, seen := [], m := m, s := none } : Bench K).session t
      [.comp 0 le_rfl, .compile]).m = m := rfl
  generalize Bench.session t _ _ = v at hs henv hss hmm
  unfold Bench.exec at hs
  rw [hss] at hs
  dsimp only at hs
  rw [henv, hmm] at hs
  dsimp only at hs
  rcases hr : solve (t.ctx { e with comp := false }) t.fuel true true m (Sol.init m) with x | ⟨m1, s1⟩
  · rw [hr] at hs; cases hs
  rw [hr] at hs
  cases hs
  have hG : FromGrid e := ⟨M, hM, hE⟩
  have hec : e.comp = true := by rw [(env_ok hE).2.2.2.2.2.2.2.2.2.1]; exact hcomp
  intro id hid
  cases hf : t.fuel with
  | zero => rw [hf] at hr; unfold solve at hr; cases hr
  | succ n =>
    rw [hf] at hr
    unfold solve at hr
    rw [if_pos rfl, ok_bind] at hr
    obtain ⟨⟨m2, s2, again⟩, ha, hr⟩ := hr
    obtain ⟨rfl, h0⟩ := drained (c := t.ctx { e with comp := false }) hG.wf hec rfl hx k1 k2 k3 rfl ha
    simp only [Bool.false_eq_true, if_false, ok_pure, Prod.mk.injEq] at hr
    obtain ⟨rfl, rfl⟩ := hr
    exact h0 id hid

/-! ## Examples -/

/-- Two cells in a row. -/
def exData (dt : ℚ) : Data ℚ := { (exM true 0 []).data ⟨1, some .compressible⟩ ⟨0, some .incompressible⟩ with dt := dt }

def exTools : Tools ℚ := ⟨fun s => s, fun _ _ => 1, cramer, 3⟩

lemma exData_ok (dt : ℚ) : isOk ((exData dt).create (some 8)) = true := by
  unfold Data.create
  have h1 : isOk (g2.getCellsId false) = true := by decide +kernel
  rw [show (exData dt).g = g2 from rfl, getOk_eq _ h1, bind_ok]
  have h2 : calcComp (exData dt).fluidC (exData dt).gridC = (⟨1, some .compressible⟩, none) := by
    show calcComp (⟨1, some .compressible⟩ : Comp ℚ) ⟨0, some .incompressible⟩ = _
    decide +kernel
  rw [h2]; rfl

/-- The model of these data. -/
def exBench (dt : ℚ) : Bench ℚ := getOk _ (exData_ok dt)

/-- A boundary pressure of 10 and one step with either assembler. -/
def exDataCalls (vect : Bool) : List (DEvent ℚ) := [.bounds [(0, "pressure", 10)] [], .compile, .step vect []]

/-- **C75 fails** for the time step: a model created with time step 1 whose `dt` is set to 2 does not do what a model created with time step 2 does; its reported times do use the new value. -/
theorem C75_time_step_fails (vect : Bool) : ((exBench 1).session exTools (.change (.dt 2) :: exDataCalls vect)).pressure 1 ≠ ((exBench 2).session exTools (exDataCalls vect)).pressure 1 ∧
    ((exBench 1).session exTools (.change (.dt 2) :: exDataCalls vect)).d.dt = 2 := by
  cases vect <;> decide +kernel

lemma exPhi_ok : isOk (((exData 1).change (.phi [2, 2, 2, 2])).create (some 8)) = true := by
  unfold Data.create
  have h1 : isOk (g2.getCellsId false) = true := by decide +kernel
  rw [show ((exData 1).change (.phi [2, 2, 2, 2])).g = g2 from rfl, getOk_eq _ h1, bind_ok]
  have h2 : calcComp ((exData 1).change (.phi [2, 2, 2, 2])).fluidC ((exData 1).change (.phi [2, 2, 2, 2])).gridC = (⟨1, some .compressible⟩, none) := by
    show calcComp (⟨1, some .compressible⟩ : Comp ℚ) ⟨0, some .incompressible⟩ = _
    decide +kernel
  rw [h2]; rfl

/-- The same for porosity. -/
theorem C75_porosity_fails (vect : Bool) :
    ((exBench 1).session exTools (.change (.phi [2, 2, 2, 2]) :: exDataCalls vect)).pressure 1 ≠ ((getOk _ exPhi_ok).session exTools (exDataCalls vect)).pressure 1 := by
  cases vect <;> decide +kernel

/-- A changed viscosity is taken over, and matters. -/
example (vect : Bool) : (∃ w', ((exData 1).change (.mu 2)).create (some 8) = .ok w' ∧
      (exBench 1).session exTools (.change (.mu 2) :: exDataCalls vect) = w'.session exTools (exDataCalls vect)) ∧
    ((exBench 1).session exTools (.change (.mu 2) :: exDataCalls vect)).pressure 1 ≠ ((exBench 1).session exTools (exDataCalls vect)).pressure 1 := by
  constructor
  · obtain ⟨w', h1, h2⟩ := C75_fresh_partial (getOk_eq _ (exData_ok 1)) [.mu 2] (by simp [Change.Honoured])
    exact ⟨w', h1, h2 exTools (exDataCalls vect)⟩
  · cases vect <;> decide +kernel

/-- A well in the second cell and one step. -/
def exDataWellCalls : List (DEvent ℚ) := [.well 2 { pwf := some 1, r := some 1 }, .compile, .step true []]

def exRock2 : Rock ℚ := ⟨some [3, 3, 3, 3], none, none⟩

/-- After a step, other permeabilities change nothing, although a model created with them gives other pressures. -/
example : (((exBench 1).session exTools exDataWellCalls).session exTools [.change (.perm exRock2), .step true []]).pressure 1 =
      (((exBench 1).session exTools exDataWellCalls).session exTools [.step true []]).pressure 1 ∧
    ((exBench 1).session exTools (.change (.perm exRock2) :: exDataWellCalls)).pressure 1 ≠ ((exBench 1).session exTools exDataWellCalls).pressure 1 := by
  decide +kernel

lemma exEnv_ok : isOk ((exBench 1).session exTools exDataWellCalls).env = true := by decide +kernel

example : ∃ s e e', ((exBench 1).session exTools exDataWellCalls).s = some s ∧ s.vA.isSome = true ∧ s.tstep ≠ 0 ∧ ((exBench 1).session exTools exDataWellCalls).m.bUpdate = [] ∧
    ((exBench 1).session exTools exDataWellCalls).env = .ok e ∧ (∀ id, id ∈ e.ids → e.z id = e.z (e.ids.getD 0 0)) ∧
    (((exBench 1).session exTools exDataWellCalls).exec exTools (.change (.perm exRock2))).1.env = .ok e' := by
  have h2 : isOk (((exBench 1).session exTools exDataWellCalls).exec exTools (.change (.perm exRock2))).1.env = true := by decide +kernel
  have h3 : ((exBench 1).session exTools exDataWellCalls).s.isSome = true := by decide +kernel
  obtain ⟨s, hs⟩ := Option.isSome_iff_exists.1 h3
  refine ⟨s, _, _, hs, ?_, ?_, by decide +kernel, getOk_eq _ exEnv_ok, ?_, getOk_eq _ h2⟩
  · have : (((exBench 1).session exTools exDataWellCalls).s.map fun s => s.vA.isSome) = some true := by decide +kernel
    rw [hs] at this; simpa using this
  · have : (((exBench 1).session exTools exDataWellCalls).s.map fun s => s.tstep) = some 1 := by decide +kernel
    rw [hs] at this; simp at this; omega
  · have : ∀ id, id ∈ (getOk _ exEnv_ok).ids → (getOk _ exEnv_ok).z id = (getOk _ exEnv_ok).z ((getOk _ exEnv_ok).ids.getD 0 0) := by decide +kernel
    exact this

/-- `model.set_comp(0)` before the first step: the pressures drop from 8 to 0. -/
example : ∃ w', ((exBench 1).session exTools [.comp 0 le_rfl, .compile]).exec exTools (.step true []) = (w', .ok ()) ∧ w'.pressure 1 = some 0 ∧ w'.pressure 2 = some 0 := by
  have h : ((exBench 1).session exTools [.comp 0 le_rfl, .compile]).exec exTools (.step true []) =
      ((((exBench 1).session exTools [.comp 0 le_rfl, .compile]).exec exTools (.step true [])).1, .ok ()) := by
    refine Prod.ext rfl ?_
    have k : isOk (((exBench 1).session exTools [.comp 0 le_rfl, .compile]).exec exTools (.step true [])).2 = true := by decide +kernel
    rw [getOk_eq _ k]
  have hz := C75_set_comp_zero (exM_pos true 0 []) (getOk_eq _ (exM_ok true 0 [])) (fluidC := ⟨1, some .compressible⟩) (gridC := ⟨0, some .incompressible⟩) (by decide +kernel) rfl
    (getOk_eq _ (exData_ok 1)) exTools cramer_exact [] h
  have hi : (1 : ℕ) ∈ (getOk _ (exM_ok true 0 [])).ids ∧ (2 : ℕ) ∈ (getOk _ (exM_ok true 0 [])).ids := by decide +kernel
  exact ⟨_, h, hz 1 hi.1, hz 2 hi.2⟩

end RF.Fdm
