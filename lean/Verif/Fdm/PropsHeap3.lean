import Verif.Fdm.PropsHeap2
/-!
# Setters of placed well objects (C84)
-/
set_option linter.unusedSectionVars false
namespace RF.Fdm
open RF RF.Dims

variable {K : Type} [Field K] [LinearOrder K] [IsStrictOrderedRing K]

/-! ## Specification -/

/-- Calls that compute or change boundaries, and do not set wells. -/
def HEvent.runs : HEvent K → Prop
  | .compile _ | .step _ _ | .bounds _ _ => True
  | _ => False

/-! ## Wells that no equation can tell apart -/

/-- The two dictionaries agree in what the solver reads: either they differ in radius, skin and equivalent radius at most, or both are wells from objects under bottom-hole pressure control. -/
def Deaf (w w' : Well K) : Prop :=
  (∃ r s req, w' = { w with r := r, s := s, req := req }) ∨ ∃ G, ObjWell G w ∧ ObjWell G w' ∧ w.con = some .pwf ∧ w'.con = some .pwf

lemma Deaf.rfl' (w : Well K) : Deaf w w := .inl ⟨w.r, w.s, w.req, rfl⟩

lemma Deaf.symm {w w' : Well K} (h : Deaf w w') : Deaf w' w := by
  rcases h with ⟨r, s, req, rfl⟩ | ⟨G, h1, h2, h3, h4⟩
  · exact .inl ⟨w.r, w.s, w.req, rfl⟩
  · exact .inr ⟨G, h2, h1, h4, h3⟩

lemma Deaf.con {w w' : Well K} (h : Deaf w w') : w'.con = w.con := by
  rcases h with ⟨r, s, req, rfl⟩ | ⟨G, h1, h2, h3, h4⟩
  · rfl
  · rw [h3, h4]

lemma Deaf.term {w w' : Well K} (h : Deaf w w') (e : Env K) (x : Aff K) : wTerm e w' x = wTerm e w x := by
  rcases h with ⟨r, s, req, rfl⟩ | ⟨G, h1, h2, h3, h4⟩
  · rfl
  · obtain ⟨q, qsp, pwf, pwfsp, r, sk, req, G0, con⟩ := w
    obtain ⟨q', qsp', pwf', pwfsp', r', sk', req', G0', con'⟩ := w'
    obtain ⟨-, a2, -, a4⟩ := h1
    obtain ⟨-, b2, -, b4⟩ := h2
    dsimp only at a2 a4 b2 b4 h3 h4
    subst a2 a4 b2 b4 h3 h4
    unfold wTerm
    cases q <;> cases q' <;> rfl

lemma Deaf.update {w w' : Well K} (h : Deaf w w') {e : Env K} {p : K} {w1 : Well K} {q b : K} {ag : Bool} (hu : updateWell e p w = .ok (w1, q, b, ag)) :
    ∃ w1', updateWell e p w' = .ok (w1', q, b, ag) ∧ Deaf w1 w1' := by
  rcases h with ⟨r, s, req, rfl⟩ | ⟨G, h1, h2, h3, h4⟩
  · refine ⟨{ w1 with r := r, s := s, req := req }, ?_, .inl ⟨r, s, req, rfl⟩⟩
    unfold updateWell at hu ⊢
    rw [ok_bind] at hu ⊢
    obtain ⟨est, g1, hu⟩ := hu
    refine ⟨est, g1, ?_⟩
    rw [ok_bind] at hu ⊢
    obtain ⟨sp, g2, hu⟩ := hu
    refine ⟨sp, g2, ?_⟩
    split_ifs at hu ⊢
    · rw [ok_bind] at hu ⊢
      obtain ⟨t, g3, hu⟩ := hu
      refine ⟨t, g3, ?_⟩
      rw [ok_pure] at hu ⊢; cases hu; rfl
    · rw [ok_bind] at hu ⊢
      obtain ⟨ag1, g3, hu⟩ := hu
      refine ⟨ag1, g3, ?_⟩
      rw [ok_bind] at hu ⊢
      obtain ⟨t, g4, hu⟩ := hu
      refine ⟨t, g4, ?_⟩
      rw [ok_pure] at hu ⊢; cases hu; rfl
  · rw [updateWell_obj h1] at hu
    simp only [Except.ok.injEq, Prod.mk.injEq] at hu
    obtain ⟨rfl, rfl, rfl, rfl⟩ := hu
    refine ⟨_, updateWell_obj h2 p, .inr ⟨G, ?_, ?_, rfl, rfl⟩⟩
    · exact ⟨h1.1, rfl, h1.2.2.1, h1.2.2.2⟩
    · exact ⟨h2.1, rfl, h2.2.2.1, h2.2.2.2⟩

/-- Dictionaries that agree place by place. -/
def DeafH (h h' : ℕ → Well K) : Prop := ∀ o, Deaf (h o) (h' o)

lemma DeafH.get {h h' : ℕ → Well K} (hd : DeafH h h') (refs : List (ℕ × ℕ)) (k : ℕ) :
    (dictGet (look h refs) k = none ∧ dictGet (look h' refs) k = none) ∨ ∃ w w', dictGet (look h refs) k = some w ∧ dictGet (look h' refs) k = some w' ∧ Deaf w w' := by
  rw [lookH_get, lookH_get]
  rcases dictGet refs k with _ | o
  · exact .inl ⟨rfl, rfl⟩
  · exact .inr ⟨_, _, rfl, rfl, hd o⟩

lemma cellTerms_deaf (lower : String → String) (e : Env K) (m : Mdl K) (s : Sol K) {h h' : ℕ → Well K} (hd : DeafH h h') (refs : List (ℕ × ℕ)) (k : ℕ) (ts : List (ℕ × Terms K)) :
    cellTerms lower e { m with wells := look h' refs, terms := ts } s k = cellTerms lower e { m with wells := look h refs, terms := ts } s k := by
  unfold cellTerms
  dsimp only
  rcases dictGet ts k with _ | t
  · dsimp only
    unfold buildTerms
    dsimp only
    rcases hd.get refs k with ⟨h1, h2⟩ | ⟨w, w', h1, h2, hw⟩
    · rw [h1, h2]
    · rw [h1, h2]
      dsimp only
      rw [hw.term]
  · dsimp only
    unfold refreshTerms refreshWell
    dsimp only
    rcases hd.get refs k with ⟨h1, h2⟩ | ⟨w, w', h1, h2, hw⟩
    · rw [h1, h2]
    · rw [h1, h2]
      dsimp only
      rw [hw.con, hw.term]

lemma vWells_deaf (e : Env K) (s : Sol K) {h h' : ℕ → Well K} (hd : DeafH h h') (refs : List (ℕ × ℕ)) (acc : VAcc K) :
    (look h' refs).foldlM (vWell e s) acc = (look h refs).foldlM (vWell e s) acc := by
  unfold look
  induction refs generalizing acc with
  | nil => rfl
  | cons x l ih =>
    rw [List.map_cons, List.foldlM_cons, List.map_cons, List.foldlM_cons]
    have : vWell e s acc (x.1, h' x.2) = vWell e s acc (x.1, h x.2) := by
      unfold vWell
      dsimp only
      rw [(hd x.2).con]
      simp only [(hd x.2).term]
    rw [this]
    congr 1
    funext a
    exact ih a

lemma assemble_deaf {c : Ctx K} {vect : Bool} {m m1 : Mdl K} {s s1 : Sol K} {A : ℕ → ℕ → K} {d : ℕ → K} {h h' : ℕ → Well K} (hd : DeafH h h') {refs : List (ℕ × ℕ)}
    (ha : assemble c vect { m with wells := look h refs } s = .ok (m1, s1, A, d)) :
    assemble c vect { m with wells := look h' refs } s = .ok ({ m1 with wells := look h' refs }, s1, A, d) := by
  cases vect with
  | false =>
    obtain ⟨ts, h1, rfl, rfl⟩ := matricesSeq_ok.1 ha
    refine matricesSeq_ok.2 ⟨ts, ?_, rfl, rfl⟩
    have : cellRows c { m with wells := look h' refs } s = cellRows c { m with wells := look h refs } s := by
      unfold cellRows
      congr 1
      funext acc k
      rw [cellTerms_deaf c.lower c.e m s hd refs]
    unfold matricesSeq at h1 ⊢
    rw [this]; exact h1
  | true =>
    unfold assemble at ha ⊢
    rw [if_pos rfl] at ha ⊢
    have e1 : matricesVect c.lower c.e { m with wells := look h' refs } s = matricesVect c.lower c.e { m with wells := look h refs } s := by
      unfold matricesVect
      congr 1
      funext x
      obtain ⟨A, bV, res⟩ := x
      dsimp only
      congr 1
      funext d
      rw [vWells_deaf _ _ hd]
    rw [e1]
    rw [ok_bind] at ha ⊢
    obtain ⟨⟨s', A', d'⟩, h1, ha⟩ := ha
    simp only [ok_pure, Prod.mk.injEq] at ha
    obtain ⟨rfl, rfl, rfl, rfl⟩ := ha
    exact ⟨_, h1, rfl⟩

lemma updateWellsH_deaf {e : Env K} {p : ℕ → Option K} {refs : List (ℕ × ℕ)} {h h' h1 : ℕ → Well K} (hd : DeafH h h') {r r1 : ℕ → K} {ps : List (ℕ × K)} {again : Bool}
    (hh : updateWellsH e p refs h r = .ok (h1, r1, ps, again)) : ∃ h1', updateWellsH e p refs h' r = .ok (h1', r1, ps, again) ∧ DeafH h1 h1' := by
  induction refs generalizing h h' r h1 r1 ps again with
  | nil => cases hh; exact ⟨h', rfl, hd⟩
  | cons x t ih =>
    obtain ⟨id, o⟩ := x
    unfold updateWellsH at hh
    rw [ok_bind] at hh
    obtain ⟨⟨w, q, pwf, ag⟩, g1, hh⟩ := hh
    obtain ⟨w', g1', hw⟩ := (hd o).update g1
    have hd1 : DeafH (Function.update h o w) (Function.update h' o w') := by
      intro k
      by_cases hk : k = o
      · subst hk; rw [Function.update_self, Function.update_self]; exact hw
      · rw [Function.update_of_ne hk, Function.update_of_ne hk]; exact hd k
    dsimp only at hh
    unfold updateWellsH
    rw [g1', bind_ok]
    dsimp only
    cases ag with
    | true =>
      simp only [if_true, ok_pure] at hh
      cases hh
      exact ⟨_, rfl, hd1⟩
    | false =>
      simp only [Bool.false_eq_true, if_false] at hh ⊢
      rw [ok_bind] at hh
      obtain ⟨⟨h2, r2, ps2, ag2⟩, h3, hh⟩ := hh
      rw [ok_pure] at hh; cases hh
      obtain ⟨h2', g3, g4⟩ := ih hd1 h3
      rw [g3]
      exact ⟨h2', rfl, g4⟩

lemma attemptH_deaf {c : Ctx K} {vect again : Bool} {h h' h1 : ℕ → Well K} (hd : DeafH h h') {refs : List (ℕ × ℕ)} {m m1 : Mdl K} {s s1 : Sol K} (l : List (ℕ × Well K))
    (ha : attemptH c vect h refs m s = .ok (h1, m1, s1, again)) : ∃ h1' l', attemptH c vect h' refs { m with wells := l } s = .ok (h1', { m1 with wells := l' }, s1, again) ∧ DeafH h1 h1' := by
  obtain ⟨m2, s2, A, d, x, r, r', ps, k1, k2, k3, k4, rfl, rfl⟩ := attemptH_parts ha
  obtain ⟨h1', g1, g2⟩ := updateWellsH_deaf hd k4
  refine ⟨h1', look h1' refs, ?_, g2⟩
  have a1 := assemble_deaf hd k1
  unfold attemptH
  rw [ok_bind]
  refine ⟨_, a1, ?_⟩
  dsimp only
  rw [ok_bind]
  refine ⟨_, k2, ?_⟩
  rw [ok_bind]
  refine ⟨_, k3, ?_⟩
  rw [ok_bind]
  refine ⟨_, g1, ?_⟩
  rw [ok_pure]

lemma solveH_deaf {c : Ctx K} {fuel : ℕ} {vect : Bool} {h h' h1 : ℕ → Well K} (hd : DeafH h h') {refs : List (ℕ × ℕ)} {m m1 : Mdl K} {s s1 : Sol K} (l : List (ℕ × Well K))
    (ha : solveH c fuel vect h refs m s = .ok (h1, m1, s1)) : ∃ h1' l', solveH c fuel vect h' refs { m with wells := l } s = .ok (h1', { m1 with wells := l' }, s1) ∧ DeafH h1 h1' := by
  induction fuel generalizing h h' m s l with
  | zero => cases ha
  | succ k ih =>
    unfold solveH at ha
    rw [ok_bind] at ha
    obtain ⟨⟨h2, m2, s2, ag⟩, g1, ha⟩ := ha
    obtain ⟨h2', l2, g2, g3⟩ := attemptH_deaf hd l g1
    unfold solveH
    rw [g2, bind_ok]
    dsimp only at ha ⊢
    cases ag with
    | true =>
      simp only [if_true] at ha ⊢
      exact ih g3 l2 ha
    | false =>
      simp only [Bool.false_eq_true, if_false, ok_pure, Prod.mk.injEq] at ha ⊢
      obtain ⟨rfl, rfl, rfl⟩ := ha
      exact ⟨h2', l2, ⟨rfl, rfl, rfl⟩, g3⟩

lemma setBoundaries_deaf (lower : String → String) (e : Env K) (m : Mdl K) (l : List (ℕ × Well K)) (s : Option (Sol K)) (b : List (ℕ × String × K)) :
    setBoundaries lower e { m with wells := l } s b =
      (({ (setBoundaries lower e m s b).1.1 with wells := l }, (setBoundaries lower e m s b).1.2), (setBoundaries lower e m s b).2) := by
  have one : ∀ (m : Mdl K) s id cond v, setBoundary lower e { m with wells := l } s id cond v =
      (({ (setBoundary lower e m s id cond v).1.1 with wells := l }, (setBoundary lower e m s id cond v).1.2), (setBoundary lower e m s id cond v).2) := by
    intro m s id cond v
    have h1 : ∀ v, setRate { m with wells := l } s id v = ({ (setRate m s id v).1 with wells := l }, (setRate m s id v).2) := fun v => by
      unfold setRate
      split
      · rfl
      · split_ifs <;> rfl
    have h2 : setPressure { m with wells := l } s id v = ({ (setPressure m s id v).1 with wells := l }, (setPressure m s id v).2) := by
      unfold setPressure
      split
      · rfl
      · split_ifs <;> rfl
    unfold setBoundary
    split_ifs
    · rw [h1]
    · rw [h2]
    · split
      · rw [h1]
      · rfl
    · rfl
  have loop : ∀ (b : List (ℕ × String × K)) (m : Mdl K) s, setBoundaryLoop lower e { m with wells := l } s b =
      (({ (setBoundaryLoop lower e m s b).1.1 with wells := l }, (setBoundaryLoop lower e m s b).1.2), (setBoundaryLoop lower e m s b).2) := by
    intro b
    induction b with
    | nil => intro m s; rfl
    | cons x b ih =>
      intro m s
      obtain ⟨id, cond, v⟩ := x
      unfold setBoundaryLoop
      rw [one m s id cond v]
      split_ifs
      · rcases setBoundary lower e m s id cond v with ⟨⟨m1, s1⟩, y | ⟨⟩⟩
        · rfl
        · exact ih m1 s1
      · rfl
  unfold setBoundaries
  have := loop b { m with bdict := b } s
  dsimp only at this
  rw [this]
  rcases setBoundaryLoop lower e { m with bdict := b } s b with ⟨⟨m1, s1⟩, y | ⟨⟩⟩ <;> rfl

/-- Worlds that agree but for deaf dictionaries. -/
structure DeafW (w w' : World K) : Prop where
  heap : DeafH w.heap w'.heap
  refs : ∀ j, (w'.site j).refs = (w.site j).refs
  sol : ∀ j, (w'.site j).s = (w.site j).s
  mdl : ∀ j, ∃ l, (w'.site j).m = { (w.site j).m with wells := l }

lemma DeafW.symm {w w' : World K} (h : DeafW w w') : DeafW w' w :=
  ⟨fun o => (h.heap o).symm, fun j => (h.refs j).symm, fun j => (h.sol j).symm, fun j => by
    obtain ⟨l, hl⟩ := h.mdl j
    exact ⟨(w.site j).m.wells, by rw [hl]⟩⟩

lemma DeafW.set {w w' : World K} (h : DeafW w w') (i : ℕ) {g g' : ℕ → Well K} (hg : DeafH g g') {x x' : Site K} (h1 : x'.refs = x.refs) (h2 : x'.s = x.s)
    (h3 : ∃ l, x'.m = { x.m with wells := l }) : DeafW { w with heap := g, site := Function.update w.site i x } { w' with heap := g', site := Function.update w'.site i x' } := by
  refine ⟨hg, fun j => ?_, fun j => ?_, fun j => ?_⟩ <;> dsimp only <;> by_cases hj : j = i
  · subst hj; rw [Function.update_self, Function.update_self, h1]
  · rw [Function.update_of_ne hj, Function.update_of_ne hj, h.refs]
  · subst hj; rw [Function.update_self, Function.update_self, h2]
  · rw [Function.update_of_ne hj, Function.update_of_ne hj, h.sol]
  · subst hj; rw [Function.update_self, Function.update_self]; exact h3
  · rw [Function.update_of_ne hj, Function.update_of_ne hj]; exact h.mdl j

lemma DeafW.exec {cs : ℕ → Ctx K} {fuel : ℕ} {w w' : World K} (h : DeafW w w') {ev : HEvent K} (hev : ev.runs) :
    DeafW (w.exec cs fuel ev).1 (w'.exec cs fuel ev).1 ∧ isOk (w'.exec cs fuel ev).2 = isOk (w.exec cs fuel ev).2 := by
  cases ev with
  | create o => cases hev
  | assign o a => cases hev
  | place i id o => cases hev
  | keys i id a => cases hev
  | bounds i b =>
    obtain ⟨l, hl⟩ := h.mdl i
    have e1 : w'.mdl i = { w.mdl i with wells := look w'.heap (w.site i).refs } := by
      unfold World.mdl; rw [hl, h.refs]
    have e2 := setBoundaries_deaf (cs i).lower (cs i).e (w.mdl i) (look w'.heap (w.site i).refs) (w.site i).s b
    unfold World.exec
    dsimp only
    rw [e1, h.sol, e2]
    exact ⟨h.set i h.heap (h.refs i) rfl ⟨_, rfl⟩, rfl⟩
  | compile i =>
    obtain ⟨l, hl⟩ := h.mdl i
    unfold World.exec
    dsimp only
    refine ⟨h.set i h.heap (h.refs i) ?_ (h.mdl i), rfl⟩
    dsimp only
    unfold World.mdl Sol.init
    rw [hl]
  | step i vect =>
    obtain ⟨l, hl⟩ := h.mdl i
    unfold World.exec
    dsimp only
    rw [h.sol, h.refs, hl]
    rcases hs : (w.site i).s with _ | s
    · exact ⟨h, rfl⟩
    · dsimp only
      rcases hx : solveH (cs i) fuel vect w.heap (w.site i).refs (w.site i).m s with x | ⟨h1, m1, s1⟩
      · rcases hy : solveH (cs i) fuel vect w'.heap (w.site i).refs { (w.site i).m with wells := l } s with y | ⟨h2, m2, s2⟩
        · exact ⟨h, rfl⟩
        · exfalso
          obtain ⟨g1, l1, g2, g3⟩ := solveH_deaf (h' := w.heap) (fun o => (h.heap o).symm) (w.site i).m.wells hy
          change solveH (cs i) fuel vect w.heap (w.site i).refs (w.site i).m s = _ at g2
          rw [hx] at g2; cases g2
      · obtain ⟨g1, l1, g2, g3⟩ := solveH_deaf h.heap l hx
        rw [g2]
        exact ⟨h.set i g3 rfl rfl ⟨_, rfl⟩, rfl⟩

lemma DeafW.session {cs : ℕ → Ctx K} {fuel : ℕ} {es : List (HEvent K)} (hes : ∀ ev, ev ∈ es → ev.runs) {w w' : World K} (h : DeafW w w') :
    DeafW (w.session cs fuel es) (w'.session cs fuel es) := by
  induction es generalizing w w' with
  | nil => exact h
  | cons ev es ih => exact ih (fun x hx => hes x (List.mem_cons_of_mem _ hx)) (h.exec (hes ev List.mem_cons_self)).1

lemma DeafW.assign {cs : ℕ → Ctx K} {fuel : ℕ} {w : World K} {o : ℕ} {a : Assign K} (h : Deaf (w.heap o) (a.apply (w.heap o))) : DeafW w (w.exec cs fuel (.assign o a)).1 := by
  refine ⟨fun k => ?_, fun _ => rfl, fun _ => rfl, fun j => ⟨(w.site j).m.wells, rfl⟩⟩
  show Deaf (w.heap k) (Function.update w.heap o (a.apply (w.heap o)) k)
  by_cases hk : k = o
  · subst hk; rw [Function.update_self]; exact h
  · rw [Function.update_of_ne hk]; exact Deaf.rfl' _

/-- **C84 fails for radius and skin.** `well.set_r` and `well.set_s` on an object that is in a model change the entry of the model's well, but no result: whatever computations follow, in any model,
pressures, rates and time steps are those without the call. The well index was computed when the well was placed. -/
theorem C84_geometry_fails {cs : ℕ → Ctx K} {fuel : ℕ} (w : World K) (o : ℕ) (a : Assign K) (ha : (∃ v, a = .r v) ∨ ∃ v, a = .s v) {es : List (HEvent K)} (hes : ∀ ev, ev ∈ es → ev.runs) (j : ℕ) :
    ((w.session cs fuel (.assign o a :: es)).site j).s = ((w.session cs fuel es).site j).s := by
  have : Deaf (w.heap o) (a.apply (w.heap o)) := by
    rcases ha with ⟨v, rfl⟩ | ⟨v, rfl⟩
    · exact .inl ⟨v, (w.heap o).s, (w.heap o).req, rfl⟩
    · exact .inl ⟨(w.heap o).r, v, (w.heap o).req, rfl⟩
  exact ((DeafW.assign (cs := cs) (fuel := fuel) this).session hes).sol j

/-- **C84 fails for rates.** An object is placed in a model, the model is compiled and makes a step. From then on `well.set_q` on the object changes no result, in whatever computations follow. -/
theorem C84_rate_fails {cs : ℕ → Ctx K} {fuel : ℕ} {w w1 w2 : World K} (hw : Reach cs fuel w) {i id o : ℕ} (ho : Once w (.place i id o))
    (h1 : w.exec cs fuel (.place i id o) = (w1, .ok ())) {vect : Bool} (h2 : (w1.exec cs fuel (.compile i)).1.exec cs fuel (.step i vect) = (w2, .ok ()))
    (v : Option K) {es : List (HEvent K)} (hes : ∀ ev, ev ∈ es → ev.runs) (j : ℕ) :
    ((w2.session cs fuel (.assign o (.q v) :: es)).site j).s = ((w2.session cs fuel es).site j).s := by
  have hal := hw.alone
  obtain ⟨-, hd, -⟩ := ho
  have hp0 : (w.heap o).pwf = none := by rw [hd]; rfl
  have hq0 : (w.heap o).qsp = none := by rw [hd]; rfl
  obtain ⟨req1, r1, G1, wp1, a1, a2, a3, rfl, a5, a6, a7, -⟩ := place_ok h1
  rw [hp0] at a5
  simp only [Option.isSome_none, Bool.false_eq_true, if_false, Option.getD_none] at a5
  obtain ⟨w3, hw3⟩ : ∃ w3, w3 = (w1.exec cs fuel (.compile i)).1 := ⟨_, rfl⟩
  rw [← hw3] at h2
  have s3 : w3.site i = { w1.site i with s := some (Sol.init (w1.mdl i)) } := by rw [hw3]; exact Function.update_self _ _ _
  have hh3 : w3.heap = w1.heap := by rw [hw3]; rfl
  have hO : ObjWell G1 (w3.heap o) := by
    rw [hh3, a5, Function.update_self]
    exact ⟨hq0, rfl, rfl, rfl⟩
  have hm : (id, o) ∈ (w3.site i).refs := by rw [s3]; dsimp only; rw [a6]; exact dictSet_mem_self _ _ _
  have hk : ((w3.site i).refs.map (·.1)).Nodup := by rw [s3]; dsimp only; rw [a6]; exact (dictSet_keys _ _ _ (hal.keys i)).1
  have hAll : ObjAll (cs i) (w3.site i).refs o G1 (fun id => ((w1.mdl i).reported id).length) w3.heap (w3.site i).m (Sol.init (w1.mdl i)) := by
    refine ⟨hO, rfl, rfl, fun h => absurd h (lt_irrefl _), fun x _ _ t t1 t2 => absurd (t1.trans t2) (Nat.not_succ_le_zero 0), fun x _ => ?_⟩
    rw [s3]; rfl
  unfold World.exec at h2
  dsimp only at h2
  rw [s3] at h2
  dsimp only at h2
  rw [s3] at hAll hm hk
  dsimp only at hAll hm hk
  rcases hx : solveH (cs i) fuel vect w3.heap (w1.site i).refs (w1.site i).m (Sol.init (w1.mdl i)) with x | ⟨h', m', s'⟩
  · rw [hx] at h2; cases h2
  rw [hx] at h2
  obtain ⟨rfl, -⟩ := Prod.mk.inj h2
  have hf := hAll.solve hk hx
  have ht : 0 < s'.tstep := by
    obtain ⟨_, _, _, hl⟩ := solveH_last hx
    obtain ⟨m2, s2, A, d, x, r, r', ps, k1, k2, k3, k4, -, rfl⟩ := attemptH_parts hl
    exact Nat.succ_pos _
  have hD : Deaf (h' o) ((Assign.q v).apply (h' o)) :=
    .inr ⟨G1, hf.well, hf.well, hf.con ht ⟨id, hm⟩, hf.con ht ⟨id, hm⟩⟩
  exact ((DeafW.assign (cs := cs) (fuel := fuel) (a := .q v) hD).session hes).sol j

/-! ## Examples -/

/-- The well index of a cell is its number times the radius. -/
def exH : Ctx ℚ := { exC true 0 [] with e := { exE true 0 [] with wellG := fun id _ r _ => .ok (id * r) } }

/-- New models without wells. -/
def exW0 : World ℚ := ⟨fun _ => {}, 0, fun _ => ⟨[], exO, none⟩⟩

lemma exW0_empty : Empty exW0 := ⟨rfl, fun _ => ⟨rfl, rfl⟩⟩

/-- One object. -/
def exW1 : World ℚ := (exW0.exec (fun _ => exH) 5 (.create { cell := none, q := some (-2), r := some 1, con := some .q })).1

lemma exW1_reach : Reach (fun _ => exH) 5 exW1 := .next (.start exW0_empty) trivial

lemma exW1_once (i id : ℕ) : Once exW1 (.place i id 0) := ⟨Nat.zero_lt_one, rfl, fun _ _ hx => by cases hx⟩

lemma exW_ok (x : World ℚ × Except Err Unit) (h : isOk x.2 = true) : x = (x.1, .ok ()) := Prod.ext rfl (getOk_eq _ h)

/-- The object in cell 1 of model 0. -/
def exW2 : World ℚ := (exW1.exec (fun _ => exH) 5 (.place 0 1 0)).1

/-- And in cell 2. -/
def exW3 : World ℚ := (exW2.exec (fun _ => exH) 5 (.place 0 2 0)).1

lemma exW2_ok : exW1.exec (fun _ => exH) 5 (.place 0 1 0) = (exW2, .ok ()) := exW_ok _ (by decide +kernel)

lemma exW3_ok : exW2.exec (fun _ => exH) 5 (.place 0 2 0) = (exW3, .ok ()) := exW_ok _ (by decide +kernel)

/-- The hypotheses of `C84_shared_fails` are met by an object in the cells 1 and 2. A step succeeds, and the rate of the well in cell 1, whose index is 1, is twice what the index gives. -/
example (vect : Bool) : Reach (fun _ => exH) 5 exW1 ∧ Once exW1 (.place 0 1 0) ∧ exW1.exec (fun _ => exH) 5 (.place 0 1 0) = (exW2, .ok ()) ∧
    exW2.exec (fun _ => exH) 5 (.place 0 2 0) = (exW3, .ok ()) ∧
    ((exW3.session (fun _ => exH) 5 [.compile 0, .step 0 vect]).site 0).s.any (fun s => decide (s.tstep = 1 ∧ rowAt s.rates 1 0 1 = -2 * (rowAt s.press 1 none 1).getD 0 ∧ rowAt s.rates 1 0 1 ≠ 0)) = true :=
  ⟨exW1_reach, exW1_once 0 1, exW2_ok, exW3_ok, by cases vect <;> decide +kernel⟩

/-- The hypotheses of `C84_models_fail` are met by the object in cell 1 of model 0 and cell 2 of model 1, and the rate of model 0 is twice what its index gives. -/
example (vect : Bool) : isOk (exW2.exec (fun _ => exH) 5 (.place 1 2 0)).2 = true ∧
    ((exW2.session (fun _ => exH) 5 [.place 1 2 0, .compile 0, .step 0 vect]).site 0).s.any
      (fun s => decide (s.tstep = 1 ∧ rowAt s.rates 1 0 1 = -2 * (rowAt s.press 1 none 1).getD 0 ∧ rowAt s.rates 1 0 1 ≠ 0)) = true := by cases vect <;> decide +kernel

/-- The object in cell 1, after a step. -/
def exW4 (vect : Bool) : World ℚ := ((exW2.exec (fun _ => exH) 5 (.compile 0)).1.exec (fun _ => exH) 5 (.step 0 vect)).1

/-- The hypotheses of `C84_rate_fails` are met, and later steps succeed. -/
example (vect : Bool) : Reach (fun _ => exH) 5 exW1 ∧ Once exW1 (.place 0 1 0) ∧ exW1.exec (fun _ => exH) 5 (.place 0 1 0) = (exW2, .ok ()) ∧
    (exW2.exec (fun _ => exH) 5 (.compile 0)).1.exec (fun _ => exH) 5 (.step 0 vect) = (exW4 vect, .ok ()) ∧
    (((exW4 vect).session (fun _ => exH) 5 [.assign 0 (.q (some (-1))), .step 0 vect]).site 0).s.any (fun s => decide (s.tstep = 2)) = true :=
  ⟨exW1_reach, exW1_once 0 1, exW2_ok, exW_ok _ (by cases vect <;> decide +kernel), by cases vect <;> decide +kernel⟩

/-- What the setter leaves alone it would change if it came first: the index is computed with the radius at the time of the placement. -/
example : (exW2.heap 0).G = some 1 ∧ (((exW1.session (fun _ => exH) 5 [.assign 0 (.r (some 3)), .place 0 1 0]).heap 0).G = some 3) ∧
    (((exW1.session (fun _ => exH) 5 [.place 0 1 0, .assign 0 (.r (some 3))]).heap 0).G = some 1) := by decide +kernel

/-- Before the first step the rate of the object does count. -/
example (vect : Bool) : ((exW2.session (fun _ => exH) 5 [.assign 0 (.q (some (-1))), .compile 0, .step 0 vect]).site 0).s.map (fun s => rowAt s.press 1 none 2) ≠
    ((exW2.session (fun _ => exH) 5 [.compile 0, .step 0 vect]).site 0).s.map (fun s => rowAt s.press 1 none 2) := by cases vect <;> decide +kernel

lemma exW4_reach (vect : Bool) : Reach (fun _ => exH) 5 ((exW2.exec (fun _ => exH) 5 (.compile 0)).1) := by
  have h2 : exW2 = (exW1.exec (fun _ => exH) 5 (.place 0 1 0)).1 := rfl
  rw [h2]
  exact .next (.next exW1_reach (exW1_once 0 1)) trivial

/-- The hypotheses of `C84_shows_partial` and `C84_others_partial` are met: model 0 has the object, model 1 does not. -/
example (vect : Bool) : ∃ w : World ℚ, Reach (fun _ => exH) 5 w ∧ w.exec (fun _ => exH) 5 (.step 0 vect) = (exW4 vect, .ok ()) ∧ (1, 0) ∈ (w.site 0).refs ∧ Once w (.step 0 vect) ∧
    (HEvent.step 0 vect : HEvent ℚ).model ≠ some 1 :=
  ⟨_, exW4_reach vect, exW_ok _ (by cases vect <;> decide +kernel), by decide +kernel, trivial, by simp [HEvent.model]⟩

end RF.Fdm
