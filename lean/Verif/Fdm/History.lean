import Verif.Fdm.Wells
/-!
# Histories of a simulation

`Setup` are the models a user can build before compiling, `Hist` the states that calls of `solve` and `run` can reach.
-/
set_option linter.unusedSectionVars false
namespace RF.Fdm
open RF RF.Dims Finset

variable {K : Type} [Field K] [LinearOrder K] [IsStrictOrderedRing K]

/-- Models made by `Mdl.init` followed by successful calls of `set_boundaries` (with a Python dictionary: distinct keys) and
`set_well`, in any order and number, before compiling. -/
inductive Setup (lower : String → String) (e : Env K) : Mdl K → Prop
  | init (pi : Option K) : Setup lower e (Mdl.init e pi)
  | bounds {m m' : Mdl K} {b : List (ℕ × String × K)} (h : Setup lower e m) (hb : (b.map (·.1)).Nodup)
      (hs : setBoundaries lower e m none b = ((m', none), .ok ())) : Setup lower e m'
  | well {m m' : Mdl K} {id : Option ℕ} {a : WellArgs K} (h : Setup lower e m) (hs : setWell e m none id a = (m', .ok ())) : Setup lower e m'

/-- No well leaves its bottom-hole pressure limit. -/
def NoRelease (m m' : Mdl K) : Prop :=
  ∀ x y, x ∈ m.wells → y ∈ m'.wells → x.1 = y.1 → x.2.con = some .pwf → y.2.con = some .pwf

/-- The states reachable from the model `m0` by calls of `solve` and `run` in any number and order and with either assembler, in
which every attempt satisfies `P` (assembler, model before, model after). `again`: the state in the middle of a call, when a step
is about to be repeated; `look`: `solve(update=False)`, or a call that failed in the linear solver; `clock`: the counters `run`
keeps. -/
inductive Hist (c : Ctx K) (P : Bool → Mdl K → Mdl K → Prop) (m0 : Mdl K) : Mdl K → Sol K → Prop
  | start : Hist c P m0 m0 (Sol.init m0)
  | step {m s vect m' s'} (h : Hist c P m0 m s) (ha : attempt c vect m s = .ok (m', s', false)) (hp : P vect m m') : Hist c P m0 m' s'
  | again {m s vect m' s'} (h : Hist c P m0 m s) (ha : attempt c vect m s = .ok (m', s', true)) (hp : P vect m m') : Hist c P m0 m' s'.back
  | look {m s vect m' s' A d} (h : Hist c P m0 m s) (ha : assemble c vect m s = .ok (m', s', A, d)) : Hist c P m0 m' s'
  | clock {m s} (n : ℕ) (t : K) (h : Hist c P m0 m s) : Hist c P m0 m { s with nsteps := n, ctime := t }

/-- All attempts of a call of `solve` satisfy `P`. -/
def SolveAll (c : Ctx K) (P : Bool → Mdl K → Mdl K → Prop) : ℕ → Bool → Mdl K → Sol K → Prop
  | 0, _, _, _ => True
  | fuel + 1, vect, m, s => ∀ m' s' again, attempt c vect m s = .ok (m', s', again) →
      P vect m m' ∧ (again = true → SolveAll c P fuel vect m' s'.back)

/-- All attempts of a call of `run` satisfy `P`. -/
def RunAll (c : Ctx K) (P : Bool → Mdl K → Mdl K → Prop) (fuel : ℕ) (vect : Bool) : ℕ → Mdl K → Sol K → Prop
  | 0, _, _ => True
  | n + 1, m, s => SolveAll c P fuel vect m s ∧ ∀ m' s', solve c fuel vect true m s = .ok (m', s') → RunAll c P fuel vect n m' s'

/-- Any attempt. -/
def Any : Bool → Mdl K → Mdl K → Prop := fun _ _ _ => True

lemma solveAll_any (c : Ctx K) (fuel : ℕ) (vect : Bool) (m : Mdl K) (s : Sol K) : SolveAll c Any fuel vect m s := by
  induction fuel generalizing m s with
  | zero => trivial
  | succ n ih => exact fun m' s' again _ => ⟨trivial, fun _ => ih m' s'.back⟩

/-- A solver that returns solutions only. -/
def Exact (lin : LinSolver K) : Prop := ∀ n A d x, lin n A d = .ok x → Solves n A d x

/-! ### taking attempts apart -/

lemma attempt_parts {c : Ctx K} {vect : Bool} {m m' : Mdl K} {s s' : Sol K} {again : Bool} (h : attempt c vect m s = .ok (m', s', again)) :
    ∃ m1 s1 A d x r ws r' ps, assemble c vect m s = .ok (m1, s1, A, d) ∧ c.lin c.e.n A d = .ok x ∧
      updateBounds c.lower c.e m1 (newRow c.e.ids (lastRow s1.press none) x) (lastRow s1.rates 0) = .ok r ∧
      updateWells c.e (newRow c.e.ids (lastRow s1.press none) x) m1.wells r = .ok (ws, r', ps, again) ∧
      m' = { m1 with wells := ws, wPress := if again then m1.wPress else ps.foldl (fun wp x => appendAt wp x.1 (some x.2)) m1.wPress } ∧
      s' = { s1 with tstep := s1.tstep + 1, press := s1.press ++ [newRow c.e.ids (lastRow s1.press none) x], rates := s1.rates ++ [r'], As := s1.As ++ [A], ds := s1.ds ++ [d] } := by
  unfold attempt at h
  rw [ok_bind] at h
  obtain ⟨⟨m1, s1, A, d⟩, h1, h⟩ := h
  dsimp only at h
  rw [ok_bind] at h
  obtain ⟨x, h2, h⟩ := h
  rw [ok_bind] at h
  obtain ⟨r, h3, h⟩ := h
  rw [ok_bind] at h
  obtain ⟨⟨ws, r', ps, ag⟩, h4, h⟩ := h
  simp only [ok_pure, Prod.mk.injEq] at h
  obtain ⟨rfl, rfl, rfl⟩ := h
  exact ⟨m1, s1, A, d, x, r, ws, r', ps, h1, h2, h3, h4, rfl, rfl⟩

lemma cellsEq_frame {lower : String → String} {scale : (ℕ → K) → K → K} {e : Env K} {s : Sol K} (l : List ℕ) (acc acc' : Mdl K × List (ℕ × (ℕ → K) × K))
    (h : l.foldlM (fun acc id => do
      let (m, row) ← cellEq lower scale e acc.1 s id
      pure (m, acc.2 ++ [(id, row)])) acc = .ok acc') : ∃ ts, acc'.1 = { acc.1 with terms := ts } := by
  induction l generalizing acc with
  | nil => rw [List.foldlM_nil, ok_pure] at h; subst h; exact ⟨_, rfl⟩
  | cons id l ih =>
    rw [List.foldlM_cons, ok_bind] at h
    obtain ⟨a1, h1, h⟩ := h
    rw [ok_bind] at h1
    obtain ⟨⟨m1, row⟩, h2, h1⟩ := h1
    simp only [ok_pure] at h1
    subst h1
    obtain ⟨ts, hts⟩ := ih _ h
    unfold cellEq at h2
    rw [ok_bind] at h2
    obtain ⟨t, -, h2⟩ := h2
    rw [ok_bind] at h2
    obtain ⟨row', -, h2⟩ := h2
    simp only [ok_pure, Prod.mk.injEq] at h2
    obtain ⟨rfl, -⟩ := h2
    exact ⟨ts, hts⟩

/-- An assembly changes only remembered terms and matrices. -/
lemma assemble_frame {c : Ctx K} {vect : Bool} {m m' : Mdl K} {s s' : Sol K} {A : ℕ → ℕ → K} {d : ℕ → K}
    (h : assemble c vect m s = .ok (m', s', A, d)) :
    (∃ ts, m' = { m with terms := ts }) ∧ ∃ vA bV res sM, s' = { s with vA := vA, bV := bV, resolve := res, sM := sM } := by
  unfold assemble at h
  split_ifs at h
  · rw [ok_bind] at h
    obtain ⟨⟨s1, A1, d1⟩, h1, h⟩ := h
    simp only [ok_pure, Prod.mk.injEq] at h
    obtain ⟨rfl, rfl, -, -⟩ := h
    refine ⟨⟨m.terms, rfl⟩, ?_⟩
    unfold matricesVect at h1
    rw [ok_bind] at h1
    obtain ⟨⟨_, _, _⟩, -, h1⟩ := h1
    rw [ok_bind] at h1
    obtain ⟨_, -, h1⟩ := h1
    rw [ok_bind] at h1
    obtain ⟨_, -, h1⟩ := h1
    rw [ok_bind] at h1
    obtain ⟨_, -, h1⟩ := h1
    simp only [ok_pure, Prod.mk.injEq] at h1
    obtain ⟨rfl, -, -⟩ := h1
    exact ⟨_, _, _, s.sM, rfl⟩
  · unfold matricesSymb at h
    rw [ok_bind] at h
    obtain ⟨⟨m1, eqs⟩, h1, h⟩ := h
    simp only [ok_pure, Prod.mk.injEq] at h
    obtain ⟨rfl, rfl, -, -⟩ := h
    obtain ⟨ts, hts⟩ := cellsEq_frame _ _ _ h1
    exact ⟨⟨ts, hts⟩, s.vA, s.bV, s.resolve, _, rfl⟩

/-! ### what every history keeps -/

/-- What never changes about wells. -/
def SameWells (l l' : List (ℕ × Well K)) : Prop :=
  List.Forall₂ (fun x y => y.1 = x.1 ∧ y.2.G = x.2.G ∧ y.2.pwfsp = x.2.pwfsp ∧ y.2.qsp = x.2.qsp) l l'

lemma SameWells.refl (l : List (ℕ × Well K)) : SameWells l l := List.forall₂_same.2 fun _ _ => ⟨rfl, rfl, rfl, rfl⟩

lemma SameWells.trans {l l' l'' : List (ℕ × Well K)} (h : SameWells l l') (h' : SameWells l' l'') : SameWells l l'' := by
  induction h generalizing l'' with
  | nil => exact h'
  | cons h1 _ ih =>
    cases h' with
    | cons g1 g2 => exact .cons ⟨g1.1.trans h1.1, g1.2.1.trans h1.2.1, g1.2.2.1.trans h1.2.2.1, g1.2.2.2.trans h1.2.2.2⟩ (ih g2)

lemma SameWells.keys {l l' : List (ℕ × Well K)} (h : SameWells l l') : l'.map (·.1) = l.map (·.1) := by
  induction h with
  | nil => rfl
  | cons h1 _ ih => simp [h1.1, ih]

lemma SameWells.leakW {e : Env K} {l l' : List (ℕ × Well K)} (h : SameWells l l') (res : ℕ → Bool) (i : ℕ) : leakW e l' res i = leakW e l res i := by
  unfold Fdm.leakW
  induction h with
  | nil => rfl
  | cons h1 _ ih =>
    rw [List.map_cons, List.map_cons, List.sum_cons, List.sum_cons, ih]
    congr 1
    obtain ⟨a, b, c, -⟩ := h1
    unfold wCond windex
    rw [a, b, c]

lemma forall2_mem {α β : Type} {R : α → β → Prop} {l : List α} {l' : List β} (h : List.Forall₂ R l l') :
    (∀ y, y ∈ l' → ∃ x, x ∈ l ∧ R x y) ∧ ∀ x, x ∈ l → ∃ y, y ∈ l' ∧ R x y := by
  induction h with
  | nil => simp
  | cons h1 _ ih =>
    refine ⟨fun y hy => ?_, fun x hx => ?_⟩
    · rcases List.mem_cons.1 hy with rfl | hy
      · exact ⟨_, by simp, h1⟩
      · obtain ⟨x, hx, h⟩ := ih.1 y hy; exact ⟨x, by simp [hx], h⟩
    · rcases List.mem_cons.1 hx with rfl | hx
      · exact ⟨_, by simp, h1⟩
      · obtain ⟨y, hy, h⟩ := ih.2 x hx; exact ⟨y, by simp [hy], h⟩

/-- What never changes about a model during a simulation. -/
structure SameMdl (m m' : Mdl K) : Prop where
  bdict : m'.bdict = m.bdict
  upd : m'.bUpdate = m.bUpdate
  initP : m'.initP = m.initP
  initR : m'.initR = m.initR
  wells : SameWells m.wells m'.wells

lemma SameMdl.refl (m : Mdl K) : SameMdl m m := ⟨rfl, rfl, rfl, rfl, .refl _⟩
lemma SameMdl.trans {m m' m'' : Mdl K} (h : SameMdl m m') (h' : SameMdl m' m'') : SameMdl m m'' :=
  ⟨h'.bdict.trans h.bdict, h'.upd.trans h.upd, h'.initP.trans h.initP, h'.initR.trans h.initR, h.wells.trans h'.wells⟩

lemma SameMdl.kept {e : Env K} {m m' : Mdl K} (h : SameMdl m m') {A : ℕ → ℕ → K} {bV : List (ℕ × K × K × ℕ)} {res : ℕ → Bool} (hk : VKept e m A bV res) :
    VKept e m' A bV res := by
  refine ⟨fun i j hi hj => ?_, fun b hb => ?_⟩
  · rw [hk.mat i j hi hj, h.wells.leakW]; unfold leakB; rw [h.upd]
  · rw [h.bdict]; rw [h.upd] at hb; exact hk.bv b hb

/-- What every history keeps, compared with the model at the start, except for the recorded rows. -/
structure Core (e : Env K) (m0 m : Mdl K) (s : Sol K) : Prop where
  same : SameMdl m0 m
  mdl : MdlOK e m
  plen : s.press.length = s.tstep + 1
  rlen : s.rates.length = s.tstep + 1
  kept : ∀ A, s.vA = some A → VKept e m A s.bV s.resolve

/-- What every history keeps, compared with the model at the start. -/
structure Inv (e : Env K) (m0 m : Mdl K) (s : Sol K) : Prop extends Core e m0 m s where
  row : ∀ t, t ≤ s.tstep → ∀ id, id ∉ m0.bUpdate → id ∉ m0.wells.map (·.1) → rowAt s.rates t 0 id = m0.initR id
  prow : ∀ t, t ≤ s.tstep → ∀ id, id ∉ e.ids → rowAt s.press t none id = m0.initP id

lemma Core.vinv {e : Env K} {m0 m : Mdl K} {s : Sol K} (h : Core e m0 m s) : VInv e m s := fun A hA _ => h.kept A hA

lemma lastRow_eq {α : Type} {l : List (ℕ → α)} {t : ℕ} (h : l.length = t + 1) (z : α) : lastRow l z = rowAt l t z := by
  unfold lastRow rowAt
  rw [List.getLastD_eq_getLast?, List.getLast?_eq_getElem?, h, List.getD_eq_getElem?_getD]; rfl

lemma rowAt_append_lt {α : Type} {l : List (ℕ → α)} {r : ℕ → α} {t : ℕ} (h : t < l.length) (z : α) : rowAt (l ++ [r]) t z = rowAt l t z := by
  unfold rowAt; rw [List.getD_eq_getElem?_getD, List.getD_eq_getElem?_getD, List.getElem?_append_left h]

lemma rowAt_append_eq {α : Type} {l : List (ℕ → α)} {r : ℕ → α} {t : ℕ} (h : l.length = t) (z : α) : rowAt (l ++ [r]) t z = r := by
  subst h; unfold rowAt; rw [List.getD_eq_getElem?_getD, List.getElem?_append_right le_rfl]; simp

lemma rowAt_take {α : Type} {l : List (ℕ → α)} {n t : ℕ} (h : t < n) (z : α) : rowAt (l.take n) t z = rowAt l t z := by
  unfold rowAt
  rw [List.getD_eq_getElem?_getD, List.getD_eq_getElem?_getD, List.getElem?_take_of_lt h]

lemma MdlOK.move {e : Env K} {m m' : Mdl K} (h : MdlOK e m) (hb : m'.bdict = m.bdict) (hu : m'.bUpdate = m.bUpdate)
    (hk : m'.wells.map (·.1) = m.wells.map (·.1)) (hw : ∀ x, x ∈ m'.wells → WellOK x.2) : MdlOK e m' :=
  ⟨by rw [hb]; exact h.bkeys, by rw [hb]; exact h.bmem, by rw [hb, hu]; exact h.upd, by rw [hk]; exact h.wkeys,
   fun x hx => by
    have : x.1 ∈ m.wells.map (·.1) := by rw [← hk]; exact List.mem_map.2 ⟨x, hx, rfl⟩
    obtain ⟨y, hy, hxy⟩ := List.mem_map.1 this
    rw [← hxy]; exact h.wmem y hy, hw⟩

lemma Core.assemble {c : Ctx K} (hl : LowerOK c.lower) (he : c.e.WF) {m0 m m' : Mdl K} {s s' : Sol K} (h : Core c.e m0 m s) {vect : Bool} {A : ℕ → ℕ → K}
    {d : ℕ → K} (ha : assemble c vect m s = .ok (m', s', A, d)) : Core c.e m0 m' s' := by
  obtain ⟨⟨ts, rfl⟩, vA, bV, res, sM, hs⟩ := assemble_frame ha
  have hk : ∀ A, s'.vA = some A → VKept c.e m A s'.bV s'.resolve := by
    unfold Fdm.assemble at ha
    split_ifs at ha
    · rw [ok_bind] at ha
      obtain ⟨⟨s1, A1, d1⟩, h1, ha⟩ := ha
      simp only [ok_pure, Prod.mk.injEq] at ha
      obtain ⟨-, rfl, -, -⟩ := ha
      obtain ⟨bV', res', rfl, h2, -, -⟩ := matricesVect_ok hl he h.mdl h.vinv h1
      intro A hA
      simp only [Option.some.injEq] at hA
      subst hA; exact h2
    · unfold matricesSymb at ha
      rw [ok_bind] at ha
      obtain ⟨⟨m1, eqs⟩, h1, ha⟩ := ha
      simp only [ok_pure, Prod.mk.injEq] at ha
      obtain ⟨-, rfl, -, -⟩ := ha
      exact h.kept
  have e1 : s'.press = s.press := by rw [hs]
  have e2 : s'.rates = s.rates := by rw [hs]
  have e3 : s'.tstep = s.tstep := by rw [hs]
  refine ⟨⟨h.same.bdict, h.same.upd, h.same.initP, h.same.initR, h.same.wells⟩, h.mdl.move rfl rfl rfl h.mdl.well, ?_, ?_, ?_⟩
  · rw [e1, e3]; exact h.plen
  · rw [e2, e3]; exact h.rlen
  · intro A hA; exact ⟨(hk A hA).mat, (hk A hA).bv⟩

lemma Inv.assemble {c : Ctx K} (hl : LowerOK c.lower) (he : c.e.WF) {m0 m m' : Mdl K} {s s' : Sol K} (h : Inv c.e m0 m s) {vect : Bool} {A : ℕ → ℕ → K}
    {d : ℕ → K} (ha : assemble c vect m s = .ok (m', s', A, d)) : Inv c.e m0 m' s' := by
  have hc := h.toCore.assemble hl he ha
  obtain ⟨-, vA, bV, res, sM, hs⟩ := assemble_frame ha
  have e1 : s'.press = s.press := by rw [hs]
  have e2 : s'.rates = s.rates := by rw [hs]
  have e3 : s'.tstep = s.tstep := by rw [hs]
  exact ⟨hc, by rw [e2, e3]; exact h.row, by rw [e1, e3]; exact h.prow⟩

/-- Everything an attempt from a proper state does. -/
structure Attempted (c : Ctx K) (vect : Bool) (m0 m m' : Mdl K) (s s' : Sol K) (again : Bool) (m1 : Mdl K) (s1 : Sol K) (A : ℕ → ℕ → K) (d x : ℕ → K)
    (p : ℕ → Option K) (r' : ℕ → K) (ps : List (ℕ × K)) : Prop where
  asm : assemble c vect m s = .ok (m1, s1, A, d)
  core1 : Core c.e m0 m1 s1
  lin : c.lin c.e.n A d = .ok x
  peq : p = newRow c.e.ids (rowAt s.press s.tstep none) x
  press : s'.press = s.press ++ [p]
  rates : s'.rates = s.rates ++ [r']
  tstep : s'.tstep = s.tstep + 1
  As : s'.As = s.As ++ [A]
  ds : s'.ds = s.ds ++ [d]
  vA : s'.vA = s1.vA
  bV : s'.bV = s1.bV
  resolve : s'.resolve = s1.resolve
  sM : s'.sM = s1.sM
  nsteps : s'.nsteps = s.nsteps
  ctime : s'.ctime = s.ctime
  same : SameMdl m m'
  wells : m1.wells = m.wells
  terms : m'.terms = m1.terms
  move : List.Forall₂ (fun x y => y.1 = x.1 ∧ WellMove c.e ((p x.1).getD 0) x.2 y.2) m.wells m'.wells
  done : again = false → List.Forall₂ (fun x y => y.1 = x.1 ∧ ∃ b, WellDone c.e ((p x.1).getD 0) x.2 y.2 (r' x.1) b) m.wells m'.wells ∧
    List.Forall₂ (fun x y => y.1 = x.1 ∧ ∃ w' q, WellDone c.e ((p x.1).getD 0) x.2 w' q y.2) m.wells ps
  more : again = true → ∃ l1 x l2 l1', m.wells = l1 ++ x :: l2 ∧ m'.wells = l1' ++ (x.1, atLimit c.e x.2 ((p x.1).getD 0)) :: l2 ∧
    WellAgain c.e ((p x.1).getD 0) x.2 ∧ List.Forall₂ (fun x y => y.1 = x.1 ∧ ∃ q b, WellDone c.e ((p x.1).getD 0) x.2 y.2 q b) l1 l1'
  keep : ∀ k, k ∉ m.bUpdate → k ∉ m.wells.map (·.1) → r' k = rowAt s.rates s.tstep 0 k
  bound : ∀ b, b ∈ m.bUpdate → ∃ id T, c.e.Face b id T ∧ r' b = (bTerm c.lower c.e m.bdict id b (Aff.c ((p id).getD 0)) T).const
  wPress : m'.wPress = if again then m.wPress else ps.foldl (fun wp x => appendAt wp x.1 (some x.2)) m.wPress
  core : Core c.e m0 m' s'

lemma Core.attempted {c : Ctx K} {m0 m m' : Mdl K} {s s' : Sol K} (h : Core c.e m0 m s) (hl : LowerOK c.lower) (he : c.e.WF) {vect again : Bool}
    (ha : attempt c vect m s = .ok (m', s', again)) :
    ∃ m1 s1 A d x p r' ps, Attempted c vect m0 m m' s s' again m1 s1 A d x p r' ps := by
  obtain ⟨m1, s1, A, d, x, r, ws, r', ps, a1, a2, a3, a4, rfl, rfl⟩ := attempt_parts ha
  have hi := h.assemble hl he a1
  obtain ⟨⟨ts, rfl⟩, vA, bV, res, sM, hs⟩ := assemble_frame a1
  have e1 : s1.press = s.press := by rw [hs]
  have e2 : s1.rates = s.rates := by rw [hs]
  have e3 : s1.tstep = s.tstep := by rw [hs]
  have e4 : s1.As = s.As := by rw [hs]
  have e5 : s1.ds = s.ds := by rw [hs]
  have e6 : s1.nsteps = s.nsteps := by rw [hs]
  have e7 : s1.ctime = s.ctime := by rw [hs]
  dsimp only at a3 a4
  have hp : newRow c.e.ids (lastRow s1.press none) x = newRow c.e.ids (rowAt s.press s.tstep none) x := by rw [e1, lastRow_eq h.plen]
  obtain ⟨b1, b2⟩ := updateBounds_ok _ _ _ _ a3
  obtain ⟨ws', r2, ps', ag, c1, c2, c3, c4, c5, c6⟩ := updateWells_ok (e := c.e) (newRow c.e.ids (lastRow s1.press none) x) m.wells h.mdl.well h.mdl.wkeys r
  have ceq := c1.symm.trans a4
  simp only [Except.ok.injEq, Prod.mk.injEq] at ceq
  obtain ⟨rfl, rfl, rfl, rfl⟩ := ceq
  rw [hp] at a3 a4 b2 c3 c5 c6
  have hsame : SameMdl m { m with terms := ts, wells := ws', wPress := if ag then m.wPress else ps'.foldl (fun wp x => appendAt wp x.1 (some x.2)) m.wPress } :=
    ⟨rfl, rfl, rfl, rfl, c3.imp fun x y h => ⟨h.1, h.2.same⟩⟩
  have hdisj : ∀ b, b ∈ m.bUpdate → b ∉ m.wells.map (·.1) := by
    intro b hb hw
    obtain ⟨y, hy, rfl⟩ := List.mem_map.1 hw
    obtain ⟨v, hv⟩ := upd_pressure h.mdl hb
    exact he.disj _ (h.mdl.bmem _ (mem_of_dictGet hv)) (h.mdl.wmem y hy)
  have hkeep : ∀ k, k ∉ m.bUpdate → k ∉ m.wells.map (·.1) → r2 k = rowAt s.rates s.tstep 0 k := by
    intro k hk hk'
    rw [c4 k hk', b1 k hk, e2, lastRow_eq h.rlen]
  refine ⟨{ m with terms := ts }, s1, A, d, x, newRow c.e.ids (rowAt s.press s.tstep none) x, r2, ps', ?_⟩
  refine { asm := a1, core1 := hi, lin := a2, peq := rfl, press := ?_, rates := ?_, tstep := ?_, As := ?_, ds := ?_, vA := rfl, bV := rfl, resolve := rfl, sM := rfl,
           nsteps := e6, ctime := e7, same := hsame, wells := rfl, terms := rfl, move := c3, done := c5, more := c6, keep := hkeep, bound := ?_, wPress := rfl, core := ?_ }
  · rw [e1, ← lastRow_eq h.plen]
  · rw [e2]
  · rw [e3]
  · rw [e4]
  · rw [e5]
  · intro b hb
    obtain ⟨id, T, g1, g2⟩ := b2 b hb
    exact ⟨id, T, g1, by rw [c4 b (hdisj b hb)]; exact g2⟩
  · refine ⟨h.same.trans hsame, h.mdl.move rfl rfl c2 ?_, ?_, ?_, ?_⟩
    · intro y hy
      obtain ⟨x, hx, h1⟩ := (forall2_mem c3).1 y hy
      exact h1.2.ok (h.mdl.well x hx)
    · simp only [List.length_append, List.length_singleton, e1, e3, h.plen]
    · simp only [List.length_append, List.length_singleton, e2, e3, h.rlen]
    · intro A' hA'
      have hk : VKept c.e m A' s1.bV s1.resolve := ⟨(hi.kept A' hA').mat, (hi.kept A' hA').bv⟩
      exact hsame.kept hk

lemma attempted {c : Ctx K} (hl : LowerOK c.lower) (he : c.e.WF) {m0 m m' : Mdl K} {s s' : Sol K} (h : Inv c.e m0 m s) {vect again : Bool}
    (ha : attempt c vect m s = .ok (m', s', again)) :
    ∃ m1 s1 A d x p r' ps, Attempted c vect m0 m m' s s' again m1 s1 A d x p r' ps := h.toCore.attempted hl he ha

lemma Attempted.inv {c : Ctx K} {vect again : Bool} {m0 m m' : Mdl K} {s s' : Sol K} {m1 s1 A d x p r' ps} (ha : Attempted c vect m0 m m' s s' again m1 s1 A d x p r' ps)
    (h : Inv c.e m0 m s) : Inv c.e m0 m' s' := by
  refine ⟨ha.core, ?_, ?_⟩
  · intro t ht id hid hid'
    rw [ha.tstep] at ht
    rw [ha.rates]
    rcases Nat.lt_or_ge t (s.tstep + 1) with h1 | h1
    · rw [rowAt_append_lt (by rw [h.rlen]; exact h1)]; exact h.row t (by omega) id hid hid'
    · rw [rowAt_append_eq (by rw [h.rlen]; omega)]
      rw [ha.keep id (by rw [h.same.upd]; exact hid) (by rw [h.same.wells.keys]; exact hid')]
      exact h.row _ le_rfl id hid hid'
  · intro t ht id hid
    rw [ha.tstep] at ht
    rw [ha.press]
    rcases Nat.lt_or_ge t (s.tstep + 1) with h1 | h1
    · rw [rowAt_append_lt (by rw [h.plen]; exact h1)]; exact h.prow t (by omega) id hid
    · rw [rowAt_append_eq (by rw [h.plen]; omega), ha.peq]
      unfold newRow
      rw [if_neg hid]
      exact h.prow _ le_rfl id hid

lemma Core.back {e : Env K} {m0 m : Mdl K} {s : Sol K} (h : Core e m0 m s) (ht : 0 < s.tstep) : Core e m0 m s.back := by
  refine ⟨h.same, h.mdl, ?_, ?_, h.kept⟩
  · show (s.press.take s.tstep).length = s.tstep - 1 + 1
    rw [List.length_take, h.plen]; omega
  · show (s.rates.take s.tstep).length = s.tstep - 1 + 1
    rw [List.length_take, h.rlen]; omega

lemma Inv.back {e : Env K} {m0 m : Mdl K} {s : Sol K} (h : Inv e m0 m s) (ht : 0 < s.tstep) : Inv e m0 m s.back := by
  have hb : s.back.tstep = s.tstep - 1 := rfl
  refine ⟨h.toCore.back ht, ?_, ?_⟩
  · intro t h1 id
    rw [hb] at h1
    show _ → _ → rowAt (s.rates.take s.tstep) t 0 id = _
    rw [rowAt_take (by omega)]
    exact h.row t (by omega) id
  · intro t h1 id
    rw [hb] at h1
    show _ → rowAt (s.press.take s.tstep) t none id = _
    rw [rowAt_take (by omega)]
    exact h.prow t (by omega) id

lemma Inv.start {e : Env K} {m0 : Mdl K} (h : MdlOK e m0) : Inv e m0 m0 (Sol.init m0) := by
  refine ⟨⟨.refl _, h, rfl, rfl, by simp [Sol.init]⟩, ?_, ?_⟩
  · intro t ht id _ _
    obtain rfl : t = 0 := by simpa [Sol.init] using ht
    rfl
  · intro t ht id _
    obtain rfl : t = 0 := by simpa [Sol.init] using ht
    rfl

theorem Hist.inv {c : Ctx K} (hl : LowerOK c.lower) (he : c.e.WF) {P : Bool → Mdl K → Mdl K → Prop} {m0 m : Mdl K} {s : Sol K} (h0 : MdlOK c.e m0)
    (h : Hist c P m0 m s) : Inv c.e m0 m s := by
  induction h with
  | start => exact .start h0
  | step _ ha _ ih =>
    obtain ⟨m1, s1, A, d, x, p, r', ps, h⟩ := attempted hl he ih ha
    exact h.inv ih
  | again _ ha _ ih =>
    obtain ⟨m1, s1, A, d, x, p, r', ps, h⟩ := attempted hl he ih ha
    exact (h.inv ih).back (by rw [h.tstep]; omega)
  | look _ ha ih => exact ih.assemble hl he ha
  | clock n t _ ih => exact ⟨⟨ih.same, ih.mdl, ih.plen, ih.rlen, ih.kept⟩, ih.row, ih.prow⟩

end RF.Fdm
