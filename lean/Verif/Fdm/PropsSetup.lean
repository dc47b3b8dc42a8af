import Verif.Fdm.Alike
/-! # Setting wells and boundary conditions (C27, C28, C30) -/
set_option linter.unusedSectionVars false
namespace RF.Fdm
open RF RF.Dims Finset

section
variable {K : Type} [Field K] [LinearOrder K] [IsStrictOrderedRing K]

/-! ## C27 -/

/-- **C27**: a call without a cell, or for a cell that is not in the reservoir, is refused and changes nothing. -/
theorem C27_refused (e : Env K) (m : Mdl K) (s : Option (Sol K)) (id : Option ℕ) (a : WellArgs K) (h : ∀ k, id = some k → k ∉ e.ids) :
    setWell e m s id a = (m, .error .assertion) := by
  unfold setWell
  split
  · rfl
  · rename_i k
    rw [if_neg (h k rfl)]

lemma finishWell_reported {e : Env K} {m m' : Mdl K} {s : Option (Sol K)} {id : ℕ} {w : Well K} (h : finishWell e m s id w = (m', .ok ())) {k : ℕ} (hk : k ≠ id) :
    m'.reported k = m.reported k := by
  unfold finishWell at h
  split at h
  · simp at h
  dsimp only at h
  split at h
  · simp at h
  split at h
  · simp at h
  split at h
  · simp only [Prod.mk.injEq, and_true] at h
    subst h; rfl
  · simp only [Prod.mk.injEq, and_true] at h
    subst h
    unfold Mdl.reported
    dsimp only
    rw [appendAt_get, if_neg hk]

lemma setWell_reported {e : Env K} {m m' : Mdl K} {s : Option (Sol K)} {id : ℕ} {a : WellArgs K} (hs : setWell e m s (some id) a = (m', .ok ())) {k : ℕ} (hk : k ≠ id) :
    m'.reported k = m.reported k := by
  unfold setWell at hs
  dsimp only at hs
  split_ifs at hs with hid
  · rw [finishWell_reported hs hk]
    cases a.pwf
    · rfl
    · unfold Mdl.reported
      dsimp only
      rw [appendAt_get, if_neg hk]
  · simp at hs

/-- **C27**, partial: a call that returns changes exactly the given fields of exactly that well: the others keep what they were, a missing bottom-hole pressure
becomes 0, the well index is computed from the new fields, and no other part of the model changes. Missing: calls that raise an exception later change the model
(`C27_missing_radius_fails`). -/
theorem C27_merge_partial {e : Env K} {m m' : Mdl K} {s : Option (Sol K)} {id : ℕ} {a : WellArgs K} (hs : setWell e m s (some id) a = (m', .ok ())) :
    id ∈ e.ids ∧ (∀ k, k ≠ id → dictGet m'.wells k = dictGet m.wells k ∧ m'.reported k = m.reported k) ∧
    m'.initP = m.initP ∧ m'.initR = m.initR ∧ m'.bdict = m.bdict ∧ m'.bUpdate = m.bUpdate ∧ m'.terms = m.terms ∧
    ∃ w', dictGet m'.wells id = some w' ∧ ∀ w, w = (dictGet m.wells id).getD {} →
      w'.q = (a.q <|> w.q) ∧ w'.qsp = (a.q <|> w.qsp) ∧ w'.pwf = (a.pwf <|> w.pwf <|> some 0) ∧
      w'.pwfsp = (a.pwf <|> if w.pwf.isSome then w.pwfsp else some 0) ∧ w'.r = (a.r <|> w.r) ∧ w'.s = (a.s <|> w.s) ∧
      w'.con = (if a.q.isSome then some .q else if a.pwf.isSome && w.q.isNone then some .pwf else w.con) ∧
      ∃ req r G, e.wellReq id = .ok req ∧ w'.req = some req ∧ w'.r = some r ∧ e.wellG id req r w'.s = .ok G ∧ w'.G = some G := by
  obtain ⟨k, req, r, G, w', wp, hk, hid, h1, h2, h3, hm, hw'⟩ := setWell_ok hs
  cases hk
  have hmg : (mergeArgs ((dictGet m.wells id).getD {}) a).q = (a.q <|> ((dictGet m.wells id).getD {}).q) ∧
      (mergeArgs ((dictGet m.wells id).getD {}) a).qsp = (a.q <|> ((dictGet m.wells id).getD {}).qsp) ∧
      (mergeArgs ((dictGet m.wells id).getD {}) a).pwf = (a.pwf <|> ((dictGet m.wells id).getD {}).pwf) ∧
      (mergeArgs ((dictGet m.wells id).getD {}) a).pwfsp = (a.pwf <|> ((dictGet m.wells id).getD {}).pwfsp) ∧
      (mergeArgs ((dictGet m.wells id).getD {}) a).r = (a.r <|> ((dictGet m.wells id).getD {}).r) ∧
      (mergeArgs ((dictGet m.wells id).getD {}) a).s = (a.s <|> ((dictGet m.wells id).getD {}).s) ∧
      (mergeArgs ((dictGet m.wells id).getD {}) a).con = (if a.q.isSome then some .q else if a.pwf.isSome && ((dictGet m.wells id).getD {}).q.isNone then some .pwf else ((dictGet m.wells id).getD {}).con) := by
    generalize (dictGet m.wells id).getD {} = w
    rcases a with ⟨q, p, r, s⟩
    unfold mergeArgs
    cases q <;> cases p <;> cases r <;> cases s <;> cases hwq : w.q <;> simp [hwq]
  obtain ⟨g1, g2, g3, g4, g5, g6, g7⟩ := hmg
  refine ⟨hid, fun k hk => ⟨?_, setWell_reported hs hk⟩, by rw [hm], by rw [hm], by rw [hm], by rw [hm], by rw [hm], w', ?_, ?_⟩
  · rw [hm]; dsimp only; rw [dictGet_set, if_neg (Ne.symm hk)]
  · rw [hm]; dsimp only; rw [dictGet_set, if_pos rfl]
  · rintro w rfl
    rw [hw']
    refine ⟨g1, g2, ?_, ?_, g5, g6, g7, req, r, G, h1, rfl, h2, h3, rfl⟩
    · dsimp only; rw [g3]
      cases a.pwf <;> cases ((dictGet m.wells id).getD {}).pwf <;> rfl
    · dsimp only; rw [g3, g4]
      cases a.pwf <;> cases ((dictGet m.wells id).getD {}).pwf <;> rfl

/-- Row 0 holds the initial pressures. -/
lemma Hist.first {c : Ctx K} {P : Bool → Mdl K → Mdl K → Prop} {m0 m : Mdl K} {s : Sol K} (hr : Ready c m0) (hh : Hist c P m0 m s) : rowAt s.press 0 none = m.initP := by
  have h : rowAt s.press 0 none = m0.initP ∧ Inv c.e m0 m s := by
    induction hh with
    | start => exact ⟨rfl, Hist.inv hr.ctx.lower hr.ctx.wf hr.started.mdl (P := P) .start⟩
    | step h ha hp ih =>
      obtain ⟨_, _, _, _, _, _, _, _, h1⟩ := attempted hr.ctx.lower hr.ctx.wf ih.2 ha
      exact ⟨by rw [h1.press, rowAt_append_lt (by rw [ih.2.plen]; omega), ih.1], Hist.inv hr.ctx.lower hr.ctx.wf hr.started.mdl (.step h ha hp)⟩
    | again h ha hp ih =>
      obtain ⟨_, _, _, _, _, _, _, _, h1⟩ := attempted hr.ctx.lower hr.ctx.wf ih.2 ha
      exact ⟨by rw [(back_attempted ih.2 h1).1, ih.1], Hist.inv hr.ctx.lower hr.ctx.wf hr.started.mdl (.again h ha hp)⟩
    | look h ha ih =>
      have := Hist.inv hr.ctx.lower hr.ctx.wf hr.started.mdl (.look h ha)
      obtain ⟨⟨ts, rfl⟩, vA, bV, res, sM, rfl⟩ := assemble_frame ha
      exact ⟨ih.1, this⟩
    | clock n t h ih => exact ⟨ih.1, Hist.inv hr.ctx.lower hr.ctx.wf hr.started.mdl (.clock n t h)⟩
  rw [h.1, h.2.same.initP]

lemma setWell_list {e : Env K} {m m' : Mdl K} {s : Option (Sol K)} {id : ℕ} {a : WellArgs K} (hs : setWell e m s (some id) a = (m', .ok ())) :
    m'.reported id = m.reported id ++ if a.pwf.isSome ∨ (dictGet m.wells id).bind (·.pwf) = none then [getPressure m s id] else [] := by
  have hid := (C27_merge_partial hs).1
  have fin : ∀ (m1 : Mdl K) (w : Well K), m1.initP = m.initP → finishWell e m1 s id w = (m', .ok ()) → m'.reported id = m1.reported id ++ if w.pwf = none then [getPressure m s id] else [] := by
    intro m1 w h0 h
    unfold finishWell at h
    split at h
    · simp at h
    · dsimp only at h
      split at h
      · simp at h
      · split at h
        · simp at h
        · split at h <;> rename_i hp
          · simp only [Prod.mk.injEq, and_true] at h
            rw [← h, hp]; simp [Mdl.reported]
          · simp only [Prod.mk.injEq, and_true] at h
            have hg : getPressure m1 s id = getPressure m s id := by unfold getPressure; rw [h0]
            rw [← h, hp]
            unfold Mdl.reported
            dsimp only
            rw [appendAt_get, if_pos rfl, if_pos rfl, hg]
  unfold setWell at hs
  dsimp only at hs
  rw [if_pos hid] at hs
  rcases hp : a.pwf with _ | v
  · rw [hp] at hs
    have := fin m _ rfl hs
    rw [this]
    congr 2
    have : (mergeArgs ((dictGet m.wells id).getD {}) a).pwf = ((dictGet m.wells id).getD {}).pwf := by
      unfold mergeArgs
      rw [hp]
      rcases a.q with _ | q <;> rcases a.r with _ | r <;> rcases a.s with _ | s <;> rfl
    rw [this]
    rcases dictGet m.wells id with _ | w <;> simp
  · rw [hp] at hs
    have h2 := fin { m with wPress := appendAt m.wPress id (getPressure m s id) } _ rfl hs
    have : (mergeArgs ((dictGet m.wells id).getD {}) a).pwf = some v := by
      unfold mergeArgs
      rw [hp]
      rcases a.q with _ | q <;> rcases a.r with _ | r <;> rcases a.s with _ | s <;> rfl
    rw [this] at h2
    rw [h2]
    unfold Mdl.reported
    dsimp only
    rw [appendAt_get, if_pos rfl]
    simp

/-- **C27**, the list of bottom-hole pressures: a call that gives a bottom-hole pressure, or is the first for a well without one, adds the present pressure of the cell to the list of
this well; any other call adds nothing. At any time of a simulation the present pressure is the last one stored. -/
theorem C27_reported {c : Ctx K} {P : Bool → Mdl K → Mdl K → Prop} {m0 m m' : Mdl K} {s : Sol K} (hr : Ready c m0) (hh : Hist c P m0 m s) {id : ℕ} {a : WellArgs K}
    (hs : setWell c.e m (some s) (some id) a = (m', .ok ())) :
    m'.reported id = m.reported id ++ if a.pwf.isSome ∨ (dictGet m.wells id).bind (·.pwf) = none then [rowAt s.press s.tstep none id] else [] := by
  rw [setWell_list hs]
  have : getPressure m (some s) id = rowAt s.press s.tstep none id := by
    unfold getPressure
    dsimp only
    split_ifs with h
    · rw [h, hh.first hr]
    · rfl
  rw [this]

/-- The same before the model is compiled: the present pressure is the initial one. -/
theorem C27_reported_before {e : Env K} {m m' : Mdl K} {id : ℕ} {a : WellArgs K} (hs : setWell e m none (some id) a = (m', .ok ())) :
    m'.reported id = m.reported id ++ if a.pwf.isSome ∨ (dictGet m.wells id).bind (·.pwf) = none then [m.initP id] else [] := setWell_list hs

/-- **C27 fails**: a call without a radius for a cell that has no well raises `KeyError` and leaves a new, unusable well behind, in every model. -/
theorem C27_missing_radius_fails (e : Env K) (m : Mdl K) (s : Option (Sol K)) {id : ℕ} (hid : id ∈ e.ids) (hw : dictGet m.wells id = none) (a : WellArgs K) (hr : a.r = none)
    (hreq : ∃ req, e.wellReq id = .ok req) :
    ∃ m' w, setWell e m s (some id) a = (m', .error .key) ∧ dictGet m'.wells id = some w ∧ w.G = none := by
  obtain ⟨req, hreq⟩ := hreq
  unfold setWell
  dsimp only
  rw [if_pos hid, hw]
  unfold finishWell
  rw [hreq]
  dsimp only
  have h1 : (mergeArgs (Option.getD none {}) a).r = none ∧ (mergeArgs (Option.getD none ({} : Well K)) a).G = none := by
    rcases a with ⟨q, p, r, s⟩
    dsimp only at hr
    subst hr
    unfold mergeArgs
    cases q <;> cases p <;> cases s <;> simp
  split
  · refine ⟨_, { mergeArgs (Option.getD none {}) a with req := some req }, rfl, ?_, h1.2⟩
    cases a.pwf <;> (dsimp only; rw [dictGet_set, if_pos rfl])
  · rename_i r hr'
    rw [h1.1] at hr'; simp at hr'

/-- The arguments of a second call over those of a first. -/
def WellArgs.over (a b : WellArgs K) : WellArgs K := ⟨b.q <|> a.q, b.pwf <|> a.pwf, b.r <|> a.r, b.s <|> a.s⟩

lemma dictSet_twice {α β : Type} [DecidableEq α] (d : List (α × β)) (k : α) (v v' : β) : dictSet (dictSet d k v) k v' = dictSet d k v' := by
  have h1 : ∀ d' : List (α × β), (d'.map fun e => if (if e.1 = k then (k, v) else e).1 = k then (k, v') else (if e.1 = k then (k, v) else e)) = d'.map fun e => if e.1 = k then (k, v') else e := by
    intro d'
    refine List.map_congr_left fun e _ => ?_
    by_cases he : e.1 = k <;> simp [he]
  unfold dictSet
  split_ifs with h h' h'
  · rw [List.map_map]; exact h1 d
  · exfalso
    apply h'
    simp only [List.any_eq_true, List.mem_map, decide_eq_true_eq] at h ⊢
    obtain ⟨e, he, hk⟩ := h
    exact ⟨(k, v), ⟨e, he, by rw [if_pos hk]⟩, rfl⟩
  · rw [List.map_append]
    congr 1
    · conv_rhs => rw [← List.map_id d]
      refine List.map_congr_left fun e he => ?_
      rw [if_neg]
      · rfl
      · intro hk
        apply h
        simp only [List.any_eq_true, decide_eq_true_eq]
        exact ⟨e, he, hk⟩
    · simp
  · exfalso
    apply h'
    simp

lemma Well.ext' {w w' : Well K} (h1 : w.q = w'.q) (h2 : w.qsp = w'.qsp) (h3 : w.pwf = w'.pwf) (h4 : w.pwfsp = w'.pwfsp) (h5 : w.r = w'.r) (h6 : w.s = w'.s)
    (h7 : w.req = w'.req) (h8 : w.G = w'.G) (h9 : w.con = w'.con) : w = w' := by
  cases w; cases w'; simp_all

/-- **C27**: two calls that return leave the same wells as one call with the fields of both, those of the second first; that call returns as well. -/
theorem C27_two_calls {e : Env K} {m m1 m2 : Mdl K} {s s' : Option (Sol K)} {id : ℕ} {a b : WellArgs K} (h1 : setWell e m s (some id) a = (m1, .ok ()))
    (h2 : setWell e m1 s' (some id) b = (m2, .ok ())) : ∃ m', setWell e m s (some id) (a.over b) = (m', .ok ()) ∧ ∀ k, dictGet m'.wells k = dictGet m2.wells k := by
  obtain ⟨hid, p1, -, -, -, -, -, w1, p2, p3⟩ := C27_merge_partial h1
  obtain ⟨-, q1, -, -, -, -, -, w2, q2, q3⟩ := C27_merge_partial h2
  obtain ⟨a1, a2, a3, a4, a5, a6, a7, req, r, G, a8, a9, a10, a11, a12⟩ := p3 _ rfl
  rw [p2] at q3
  obtain ⟨b1, b2, b3, b4, b5, b6, b7, req', r', G', b8, b9, b10, b11, b12⟩ := q3 w1 rfl
  have hmg : ∀ w : Well K, (mergeArgs w (a.over b)).r = ((a.over b).r <|> w.r) ∧ (mergeArgs w (a.over b)).s = ((a.over b).s <|> w.s) := by
    intro w
    generalize a.over b = x
    rcases x with ⟨q, p, r, s⟩
    unfold mergeArgs
    cases q <;> cases p <;> cases r <;> cases s <;> simp
  have assoc : ∀ {α : Type} (x y z : Option α), ((x <|> y) <|> z) = (x <|> (y <|> z)) := by
    intro α x y z; cases x <;> rfl
  have hok : (setWell e m s (some id) (a.over b)).2 = .ok () := by
    unfold setWell
    dsimp only
    rw [if_pos hid]
    unfold finishWell
    rw [b8]
    dsimp only
    have hr : (mergeArgs ((dictGet m.wells id).getD {}) (a.over b)).r = some r' := by
      rw [(hmg _).1, ← b10, b5, a5]
      exact assoc _ _ _
    have hs : (mergeArgs ((dictGet m.wells id).getD {}) (a.over b)).s = w2.s := by
      rw [(hmg _).2, b6, a6]
      exact assoc _ _ _
    rw [hr]
    dsimp only
    rw [hs, b11]
    dsimp only
    split <;> rfl
  rcases h3 : setWell e m s (some id) (a.over b) with ⟨m', x⟩
  rw [h3] at hok
  dsimp only at hok
  subst hok
  refine ⟨m', rfl, fun k => ?_⟩
  obtain ⟨-, r1, -, -, -, -, -, w3, r2, r3⟩ := C27_merge_partial h3
  by_cases hk : k = id
  · subst hk
    rw [r2, q2]
    congr 1
    obtain ⟨c1, c2, c3, c4, c5, c6, c7, req3, r3', G3, c8, c9, c10, c11, c12⟩ := r3 _ rfl
    generalize (dictGet m.wells k).getD {} = w at *
    have e5 : w3.r = w2.r := by rw [c5, b5, a5]; exact assoc _ _ _
    have e6 : w3.s = w2.s := by rw [c6, b6, a6]; exact assoc _ _ _
    have ereq : req3 = req' := by rw [c8] at b8; simpa using b8
    have er : r3' = r' := by rw [e5, b10] at c10; simpa using c10.symm
    refine Well.ext' ?_ ?_ ?_ ?_ e5 e6 (by rw [c9, b9, ereq]) ?_ ?_
    · rw [c1, b1, a1]; exact assoc _ _ _
    · rw [c2, b2, a2]; exact assoc _ _ _
    · rw [c3, b3, a3]; unfold WellArgs.over; dsimp only
      cases b.pwf <;> cases a.pwf <;> cases w.pwf <;> rfl
    · rw [c4, b4, a3, a4]; unfold WellArgs.over; dsimp only
      cases b.pwf <;> cases a.pwf <;> cases w.pwf <;> rfl
    · rw [c12, b12]
      rw [e6, ereq, er, b11] at c11
      simpa using c11.symm
    · rw [c7, b7, a7, a1]
      unfold WellArgs.over; dsimp only
      cases b.pwf <;> cases a.pwf <;> cases b.q <;> cases a.q <;> cases w.q <;> rfl
  · rw [(r1 k hk).1, (q1 k hk).1, (p1 k hk).1]

/-! ## C28 -/

/-- The three kinds of conditions. -/
inductive Kind where | rate | pressure | gradient
  deriving DecidableEq

/-- The kind a name stands for in the documentation of `set_boundary`; `none`: not accepted. -/
def kindOf (cond : String) : Option Kind :=
  if cond ∈ ["rate", "q"] then some .rate else if cond ∈ ["pressure", "press", "p"] then some .pressure
  else if cond ∈ ["gradient", "grad", "g"] then some .gradient else none

/-- The same conditions under other names: the same cells and values in the same order, the kinds are the same. -/
def Respelling (lower : String → String) (b b' : List (ℕ × String × K)) : Prop :=
  List.Forall₂ (fun x y => y.1 = x.1 ∧ y.2.2 = x.2.2 ∧ kindOf (lower y.2.1) = kindOf (lower x.2.1)) b b'

/-- A model with other conditions noted. -/
def Mdl.noting (m : Mdl K) (b : List (ℕ × String × K)) (u : List ℕ) : Mdl K := { m with bdict := b, bUpdate := u }

/-- The same for the result of a call. -/
def noted (x : (Mdl K × Option (Sol K)) × Except Err Unit) (b : List (ℕ × String × K)) (u : List ℕ) : (Mdl K × Option (Sol K)) × Except Err Unit :=
  ((x.1.1.noting b u, x.1.2), x.2)

lemma setBoundary_noting (lower : String → String) (e : Env K) (m : Mdl K) (s : Option (Sol K)) (id : ℕ) {c c' : String} (hc : kindOf (lower c') = kindOf (lower c)) (v : K)
    (b : List (ℕ × String × K)) (u : List ℕ) : setBoundary lower e (m.noting b u) s id c' v = noted (setBoundary lower e m s id c v) b u := by
  have hr : ∀ q, setRate (m.noting b u) s id q = ((setRate m s id q).1.noting b u, (setRate m s id q).2) := by
    intro q; unfold setRate; cases s with
    | none => rfl
    | some s => dsimp only; split_ifs <;> rfl
  have hp : ∀ q, setPressure (m.noting b u) s id q = ((setPressure m s id q).1.noting b u, (setPressure m s id q).2) := by
    intro q; unfold setPressure; cases s with
    | none => rfl
    | some s => dsimp only; split_ifs <;> rfl
  unfold kindOf at hc
  unfold setBoundary
  split_ifs at hc ⊢ <;> first | (rw [hr]; rfl) | (rw [hp]; rfl) | rfl | skip
  all_goals first | (cases gradientRate e id v <;> first | rfl | (dsimp only; rw [hr]; rfl)) | simp at hc

lemma setBoundaryLoop_noting (lower : String → String) (e : Env K) {l l' : List (ℕ × String × K)} (hl : Respelling lower l l') (m : Mdl K) (s : Option (Sol K))
    (b : List (ℕ × String × K)) (u : List ℕ) : setBoundaryLoop lower e (m.noting b u) s l' = noted (setBoundaryLoop lower e m s l) b u := by
  unfold Respelling at hl
  induction hl generalizing m s with
  | nil => rfl
  | @cons x y l l' hx _ ih =>
    obtain ⟨id, c, v⟩ := x
    obtain ⟨id', c', v'⟩ := y
    obtain ⟨h1, h2, h3⟩ := hx
    dsimp only at h1 h2 h3
    subst h1 h2
    unfold setBoundaryLoop
    split_ifs
    · rw [setBoundary_noting lower e m s id' h3]
      rcases setBoundary lower e m s id' c v' with ⟨⟨m1, s1⟩, x⟩
      cases x
      · rfl
      · exact ih m1 s1
    · rfl

/-- **C28**: whether `set_boundaries` accepts conditions, and what it writes to the tables, does not depend on the names; only the names themselves are noted, and
the list of cells whose name is exactly `"pressure"`. -/
theorem C28_set (lower : String → String) (e : Env K) (m : Mdl K) (s : Option (Sol K)) {b b' : List (ℕ × String × K)} (hb : Respelling lower b b') :
    (setBoundaries lower e m s b').2 = (setBoundaries lower e m s b).2 ∧ (setBoundaries lower e m s b').1.2 = (setBoundaries lower e m s b).1.2 ∧
    (setBoundaries lower e m s b').1.1.initP = (setBoundaries lower e m s b).1.1.initP ∧ (setBoundaries lower e m s b').1.1.initR = (setBoundaries lower e m s b).1.1.initR ∧
    (setBoundaries lower e m s b').1.1.wells = (setBoundaries lower e m s b).1.1.wells := by
  have h := setBoundaryLoop_noting lower e hb { m with bdict := b } s b' m.bUpdate
  have h' : setBoundaryLoop lower e { m with bdict := b' } s b' = noted (setBoundaryLoop lower e { m with bdict := b } s b) b' m.bUpdate := h
  unfold setBoundaries
  rw [h']
  rcases setBoundaryLoop lower e { m with bdict := b } s b with ⟨⟨m1, s1⟩, x⟩
  cases x <;> exact ⟨rfl, rfl, rfl, rfl, rfl⟩

/-- Two models set up with the same calls except for the names of conditions. -/
inductive Respelt (lower : String → String) (e : Env K) : Mdl K → Mdl K → Prop
  | init (pi : Option K) : Respelt lower e (Mdl.init e pi) (Mdl.init e pi)
  | bounds {m m' m1 m1' : Mdl K} {b b' : List (ℕ × String × K)} (h : Respelt lower e m m') (hb : (b.map (·.1)).Nodup) (hr : Respelling lower b b')
      (hs : setBoundaries lower e m none b = ((m1, none), .ok ())) (hs' : setBoundaries lower e m' none b' = ((m1', none), .ok ())) : Respelt lower e m1 m1'
  | well {m m' m1 m1' : Mdl K} {id : Option ℕ} {a : WellArgs K} (h : Respelt lower e m m') (hs : setWell e m none id a = (m1, .ok ())) (hs' : setWell e m' none id a = (m1', .ok ())) :
      Respelt lower e m1 m1'

lemma Respelling.keys {lower : String → String} {b b' : List (ℕ × String × K)} (h : Respelling lower b b') : b'.map (·.1) = b.map (·.1) := by
  unfold Respelling at h
  induction h with
  | nil => rfl
  | cons hx _ ih => rw [List.map_cons, List.map_cons, ih, hx.1]

lemma Respelt.setups {lower : String → String} {e : Env K} {m m' : Mdl K} (h : Respelt lower e m m') : Setup lower e m ∧ Setup lower e m' := by
  induction h with
  | init pi => exact ⟨.init pi, .init pi⟩
  | bounds _ hb hr hs hs' ih => exact ⟨.bounds ih.1 hb hs, .bounds ih.2 (by rw [hr.keys]; exact hb) hs'⟩
  | well _ hs hs' ih => exact ⟨.well ih.1 hs, .well ih.2 hs'⟩

lemma setWell_noting (e : Env K) (m : Mdl K) (id : Option ℕ) (a : WellArgs K) (b : List (ℕ × String × K)) (u : List ℕ) :
    setWell e (m.noting b u) none id a = ((setWell e m none id a).1.noting b u, (setWell e m none id a).2) := by
  unfold setWell
  cases id with
  | none => rfl
  | some id =>
    dsimp only
    split_ifs
    · have hf : ∀ (m : Mdl K) w, finishWell e (m.noting b u) none id w = ((finishWell e m none id w).1.noting b u, (finishWell e m none id w).2) := by
        intro m w
        unfold finishWell
        cases e.wellReq id
        · rfl
        · dsimp only
          cases w.r
          · rfl
          · dsimp only
            split
            · rfl
            · cases w.pwf <;> rfl
      rw [← hf]
      cases a.pwf <;> rfl
    · rfl

lemma Respelt.noting {lower : String → String} {e : Env K} {m m' : Mdl K} (h : Respelt lower e m m') :
    m' = m.noting m'.bdict m'.bUpdate ∧ Respelling lower m.bdict m'.bdict := by
  induction h with
  | init pi => exact ⟨rfl, .nil⟩
  | @bounds m m' m1 m1' b b' _ hb hr hs hs' ih =>
    obtain ⟨-, a1, a2, -⟩ := setBoundaries_ok hb hs
    obtain ⟨-, a1', a2', -⟩ := setBoundaries_ok (by rw [hr.keys]; exact hb) hs'
    refine ⟨?_, by rw [a1, a1']; exact hr⟩
    have h := setBoundaryLoop_noting lower e hr { m with bdict := b } none b' m'.bUpdate
    have h' : setBoundaryLoop lower e { m' with bdict := b' } none b' = noted (setBoundaryLoop lower e { m with bdict := b } none b) b' m'.bUpdate := by
      rw [← h]; congr 1; rw [ih.1]; rfl
    unfold setBoundaries at hs hs'
    rw [h'] at hs'
    revert hs hs'
    rcases setBoundaryLoop lower e { m with bdict := b } none b with ⟨⟨m2, s2⟩, x⟩
    cases x with
    | error => intro hs; simp at hs
    | ok =>
      intro hs hs'
      unfold noted at hs'
      simp only [Prod.mk.injEq, and_true] at hs hs'
      obtain ⟨rfl, rfl⟩ := hs
      obtain ⟨rfl, -⟩ := hs'
      rfl
  | @well m m' m1 m1' id a _ hs hs' ih =>
    rw [ih.1, setWell_noting, hs] at hs'
    simp only [Prod.mk.injEq, and_true] at hs'
    subst hs'
    refine ⟨rfl, ?_⟩
    obtain ⟨_, _, _, _, _, _, -, -, -, -, -, h, -⟩ := setWell_ok hs
    rw [h]
    exact ih.2

/-- **C28**: a call of `set_well` is accepted in both models or in none. -/
theorem C28_set_well {lower : String → String} {e : Env K} {m m' : Mdl K} (h : Respelt lower e m m') (id : Option ℕ) (a : WellArgs K) :
    (setWell e m' none id a).2 = (setWell e m none id a).2 := by
  rw [h.noting.1, setWell_noting]

lemma kind_pressure {lower : String → String} {c c' : String} (h : kindOf (lower c') = kindOf (lower c)) : lower c' ∈ pressureNames ↔ lower c ∈ pressureNames := by
  have key : ∀ x : String, x ∈ pressureNames ↔ kindOf x = some .pressure := by
    intro x
    unfold kindOf
    constructor
    · intro hx
      rw [if_neg, if_pos hx]
      simp only [pressureNames, List.mem_cons, List.not_mem_nil, or_false] at hx ⊢
      rcases hx with rfl | rfl | rfl <;> decide
    · intro hx
      split_ifs at hx with h1 h2 h3
      · simp at hx
      · exact h2
      · simp at hx
  rw [key, key, h]

lemma Respelt.alike {c : Ctx K} {m m' : Mdl K} (h : Respelt c.lower c.e m m') (strict : Bool)
    (hs : strict = true → List.Forall₂ (fun x y : ℕ × String × K => y.2.1 = "pressure" ↔ x.2.1 = "pressure") m.bdict m'.bdict) :
    Alike c strict m m' (Sol.init m) (Sol.init m') := by
  obtain ⟨h1, h2⟩ := h.noting
  obtain ⟨i1, i2⟩ := h.setups
  have u : ∀ {m : Mdl K}, SetupInv c.e m → ∀ b, b ∈ m.bUpdate → b ∈ c.e.bnd := by
    intro m hm b hb
    rw [hm.upd, List.mem_map] at hb
    obtain ⟨x, hx, rfl⟩ := hb
    exact hm.bmem _ (List.mem_filter.1 hx).1
  refine ⟨by rw [h1]; rfl, by rw [h1]; rfl, by rw [h1]; rfl, ?_, ?_, i1.inv.wmem, u i1.inv, u i2.inv, rfl, ?_, ?_, rfl, rfl, rfl, rfl⟩
  · intro hst
    rw [i1.inv.upd, i2.inv.upd]
    have h3 := hs hst
    unfold Respelling at h2
    clear hs h1 h i1 i2 u hst
    revert h2 h3
    generalize m.bdict = l
    generalize m'.bdict = l'
    intro h2 h3
    induction h2 with
    | nil => rfl
    | cons hx _ ih =>
      rcases h3 with _ | ⟨hy, h3⟩
      rw [List.filter_cons, List.filter_cons]
      split_ifs with p1 p2 p2
      · rw [List.map_cons, List.map_cons, ih h3, hx.1]
      · simp only [decide_eq_true_eq] at p1 p2; exact absurd (hy.1 p1) p2
      · simp only [decide_eq_true_eq] at p1 p2; exact absurd (hy.2 p2) p1
      · exact ih h3
  · unfold Respelling at h2
    clear h1 h i1 i2 u
    revert h2 hs
    generalize m.bdict = l
    generalize m'.bdict = l'
    intro hs h2
    induction h2 with
    | nil => exact .nil
    | cons hx _ ih =>
      refine .cons ⟨hx.1, hx.2.1, kind_pressure hx.2.2, fun hst => ?_⟩ (ih fun hst => ?_)
      · rcases hs hst with _ | ⟨hy, -⟩; exact hy
      · rcases hs hst with _ | ⟨-, hy⟩; exact hy
  · refine .cons (fun id _ => ?_) .nil
    rw [h1]; rfl
  · refine .cons (fun id _ => ?_) .nil
    rw [h1]; rfl

/-- **C28**, partial: with the symbolic assembler two runs that both finish report the same for the reservoir under all spellings. Missing: the vectorised assembler
(`C28_vectorised_fails`), a run that raises under one spelling only, and the rates recorded for boundary cells. -/
theorem C28_symbolic_partial {c : Ctx K} (he : c.e.WF) (hl : Local c.lin) {m m' : Mdl K} (h : Respelt c.lower c.e m m') (fuel n : ℕ) (t t' : K)
    (h1 : (run c fuel false n t m (Sol.init m)).2 = .ok ()) (h2 : (run c fuel false n t' m' (Sol.init m')).2 = .ok ()) :
    SameReports c.e (run c fuel false n t m (Sol.init m)).1.1 (run c fuel false n t' m' (Sol.init m')).1.1
      (run c fuel false n t m (Sol.init m)).1.2 (run c fuel false n t' m' (Sol.init m')).1.2 :=
  ((run_alike he (.inr rfl) hl fuel n t t' (h.alike false (by simp))).2 (.inr ⟨h1, h2⟩)).reports

/-- **C28**, partial: if the pressure conditions are spelled `"pressure"` the other names do not matter, with both assemblers: the runs report the same for the
reservoir and return or raise the same. -/
theorem C28_spellings_partial {c : Ctx K} (he : c.e.WF) (hl : Local c.lin) {m m' : Mdl K} (h : Respelt c.lower c.e m m')
    (hp : ∀ x, x ∈ m.bdict ∨ x ∈ m'.bdict → kindOf (c.lower x.2.1) = some .pressure → x.2.1 = "pressure") (hlow : c.lower "pressure" = "pressure")
    (vect : Bool) (fuel n : ℕ) (t t' : K) :
    (run c fuel vect n t' m' (Sol.init m')).2 = (run c fuel vect n t m (Sol.init m)).2 ∧
    SameReports c.e (run c fuel vect n t m (Sol.init m)).1.1 (run c fuel vect n t' m' (Sol.init m')).1.1
      (run c fuel vect n t m (Sol.init m)).1.2 (run c fuel vect n t' m' (Sol.init m')).1.2 := by
  have ha := h.alike true fun _ => by
    have h2 := h.noting.2
    unfold Respelling at h2
    clear h
    revert h2 hp
    generalize m.bdict = l
    generalize m'.bdict = l'
    intro hp h2
    have kp : kindOf (c.lower "pressure") = some .pressure := by rw [hlow]; decide
    induction h2 with
    | nil => exact .nil
    | @cons x y l l' hx _ ih =>
      refine .cons ⟨fun hy => ?_, fun hy => ?_⟩ (ih fun z hz => hp z (by rcases hz with hz | hz <;> simp [hz]))
      · refine hp x (by simp) ?_
        rw [← hx.2.2, hy, kp]
      · refine hp y (by simp) ?_
        rw [hx.2.2, hy, kp]
  obtain ⟨h1, h2⟩ := run_alike he (vect := vect) (.inl rfl) hl fuel n t t' ha
  exact ⟨h1 rfl, (h2 (.inl rfl)).reports⟩

/-! ## C30 -/

lemma setAll_loop (lower : String → String) (e : Env K) (cond : String) (v : K) (l : List ℕ) (hl : ∀ id, id ∈ l → id ∈ e.bnd) (m : Mdl K) (s : Option (Sol K)) :
    l.foldl (fun (acc : (Mdl K × Option (Sol K)) × Except Err Unit) id => match acc with | ((m, s), .ok ()) => setBoundary lower e m s id cond v | x => x) ((m, s), .ok ()) =
      setBoundaryLoop lower e m s (l.map fun id => (id, cond, v)) := by
  induction l generalizing m s with
  | nil => rfl
  | cons id l ih =>
    rw [List.foldl_cons, List.map_cons]
    unfold setBoundaryLoop
    dsimp only
    rw [if_pos (hl id (by simp))]
    rcases setBoundary lower e m s id cond v with ⟨⟨m1, s1⟩, x⟩
    cases x
    · clear ih hl
      dsimp only
      induction l with
      | nil => rfl
      | cons _ l ih => rw [List.foldl_cons]; exact ih
    · exact ih (fun k hk => hl k (by simp [hk])) m1 s1

lemma setAll_eq (lower : String → String) (e : Env K) (cond : String) (v : K) (m : Mdl K) (s : Option (Sol K)) :
    setAllBoundaries lower e m s cond v = setBoundaryLoop lower e m s (e.bnd.map fun id => (id, cond, v)) := by
  rw [← setAll_loop lower e cond v e.bnd fun _ h => h]; rfl

/-- **C30**, partial: `set_all_boundaries` returns or raises like `set_boundaries` with the condition for every boundary cell and writes the same to the tables.
Missing: it does not note the conditions, so the simulation never uses them (`C30_ignored`, `C30_fails`). -/
theorem C30_tables_partial (lower : String → String) (e : Env K) (m : Mdl K) (s : Option (Sol K)) (cond : String) (v : K) :
    (setAllBoundaries lower e m s cond v).2 = (setBoundaries lower e m s (e.bnd.map fun id => (id, cond, v))).2 ∧
    (setAllBoundaries lower e m s cond v).1.2 = (setBoundaries lower e m s (e.bnd.map fun id => (id, cond, v))).1.2 ∧
    (setAllBoundaries lower e m s cond v).1.1.initP = (setBoundaries lower e m s (e.bnd.map fun id => (id, cond, v))).1.1.initP ∧
    (setAllBoundaries lower e m s cond v).1.1.initR = (setBoundaries lower e m s (e.bnd.map fun id => (id, cond, v))).1.1.initR ∧
    (setAllBoundaries lower e m s cond v).1.1.wells = (setBoundaries lower e m s (e.bnd.map fun id => (id, cond, v))).1.1.wells := by
  have hl : ∀ b : List (ℕ × String × K), Respelling lower b b := fun b => forall2_self fun x _ => ⟨rfl, rfl, rfl⟩
  have h := setBoundaryLoop_noting lower e (hl (e.bnd.map fun id => (id, cond, v))) m s (e.bnd.map fun id => (id, cond, v)) m.bUpdate
  have h' : setBoundaryLoop lower e { m with bdict := e.bnd.map fun id => (id, cond, v) } s (e.bnd.map fun id => (id, cond, v)) = _ := h
  rw [setAll_eq]
  unfold setBoundaries
  rw [h']
  rcases setBoundaryLoop lower e m s (e.bnd.map fun id => (id, cond, v)) with ⟨⟨m1, s1⟩, x⟩
  cases x <;> exact ⟨rfl, rfl, rfl, rfl, rfl⟩

lemma setBoundaryLoop_frame {lower : String → String} {e : Env K} {l : List (ℕ × String × K)} {m : Mdl K} {x : (Mdl K × Option (Sol K)) × Except Err Unit}
    (h : setBoundaryLoop lower e m none l = x) :
    x.1.1.bdict = m.bdict ∧ x.1.1.bUpdate = m.bUpdate ∧ x.1.1.wells = m.wells ∧ x.1.1.wPress = m.wPress ∧ x.1.1.terms = m.terms ∧
      ∀ k, k ∉ e.bnd → x.1.1.initP k = m.initP k ∧ x.1.1.initR k = m.initR k := by
  subst h
  have key : ∀ (l : List (ℕ × String × K)) (m : Mdl K), ∃ ip ir, (setBoundaryLoop lower e m none l).1 = ({ m with initP := ip, initR := ir }, none) ∧
      ∀ k, k ∉ e.bnd → ip k = m.initP k ∧ ir k = m.initR k := by
    intro l
    induction l with
    | nil => intro m; exact ⟨m.initP, m.initR, rfl, fun _ _ => ⟨rfl, rfl⟩⟩
    | cons x l ih =>
      intro m
      obtain ⟨id, c, v⟩ := x
      unfold setBoundaryLoop
      split_ifs with hb
      · have hk : ∀ k, k ∉ e.bnd → k ≠ id := by rintro k hk rfl; exact hk hb
        have : ∃ ip ir, (setBoundary lower e m none id c v).1 = ({ m with initP := ip, initR := ir }, none) ∧ ∀ k, k ∉ e.bnd → ip k = m.initP k ∧ ir k = m.initR k := by
          unfold setBoundary setRate setPressure
          dsimp only
          split_ifs
          · exact ⟨_, _, rfl, fun k h => ⟨rfl, Function.update_of_ne (hk k h) _ _⟩⟩
          · exact ⟨_, _, rfl, fun k h => ⟨Function.update_of_ne (hk k h) _ _, rfl⟩⟩
          · cases gradientRate e id v
            · exact ⟨_, _, rfl, fun _ _ => ⟨rfl, rfl⟩⟩
            · exact ⟨_, _, rfl, fun k h => ⟨rfl, Function.update_of_ne (hk k h) _ _⟩⟩
          · exact ⟨_, _, rfl, fun _ _ => ⟨rfl, rfl⟩⟩
        obtain ⟨ip, ir, h1, h2⟩ := this
        rcases hx : setBoundary lower e m none id c v with ⟨⟨m1, s1⟩, x⟩
        rw [hx] at h1
        simp only [Prod.mk.injEq] at h1
        obtain ⟨rfl, rfl⟩ := h1
        cases x
        · exact ⟨ip, ir, rfl, h2⟩
        · obtain ⟨ip', ir', h3, h4⟩ := ih { m with initP := ip, initR := ir }
          exact ⟨ip', ir', h3, fun k hk => ⟨(h4 k hk).1.trans (h2 k hk).1, (h4 k hk).2.trans (h2 k hk).2⟩⟩
      · exact ⟨m.initP, m.initR, rfl, fun _ _ => ⟨rfl, rfl⟩⟩
  obtain ⟨ip, ir, h1, h2⟩ := key l m
  rw [h1]
  exact ⟨rfl, rfl, rfl, rfl, rfl, h2⟩

/-- **C30 fails** in general: a model without conditions simulates the same after `set_all_boundaries` as before, with both assemblers. -/
theorem C30_ignored {c : Ctx K} (hc : CtxOK c) (hl : Local c.lin) {m : Mdl K} (hm : Setup c.lower c.e m) (hb : m.bdict = []) (cond : String) (v : K)
    {m' : Mdl K} (hs : setAllBoundaries c.lower c.e m none cond v = ((m', none), .ok ())) (vect : Bool) (fuel n : ℕ) (t t' : K) :
    (run c fuel vect n t' m' (Sol.init m')).2 = (run c fuel vect n t m (Sol.init m)).2 ∧
    SameReports c.e (run c fuel vect n t m (Sol.init m)).1.1 (run c fuel vect n t' m' (Sol.init m')).1.1
      (run c fuel vect n t m (Sol.init m)).1.2 (run c fuel vect n t' m' (Sol.init m')).1.2 := by
  rw [setAll_eq] at hs
  obtain ⟨h1, h2, h3, h4, h5, h6⟩ := setBoundaryLoop_frame hs
  dsimp only at h1 h2 h3 h4 h5 h6
  have hu : m.bUpdate = [] := by rw [hm.inv.upd, hb]; rfl
  have hin : ∀ id, id ∈ c.e.ids → id ∉ c.e.bnd := fun id h1 h2 => hc.wf.disj id h2 h1
  have ha : Alike c true m m' (Sol.init m) (Sol.init m') := by
    refine ⟨h3, h4, h5, fun _ => h2, by rw [h1, hb]; exact .nil, hm.inv.wmem, by simp [hu], by simp [h2, hu], rfl, ?_, ?_, rfl, rfl, rfl, rfl⟩
    · exact .cons (fun id hid => (h6 id (hin id hid)).1) .nil
    · refine .cons (fun id hid => ?_) .nil
      rw [hb] at hid
      exact (h6 id (hin id (by simpa using hid))).2
  obtain ⟨k1, k2⟩ := run_alike hc.wf (vect := vect) (.inl rfl) hl fuel n t t' ha
  exact ⟨k1 rfl, (k2 (.inl rfl)).reports⟩

end
/-! ## Instances -/

/-- The well of `exA` given by two calls, the rate first: the limit of the second call joins it, and a third call changes only the rate. -/
example : ((exMdl true 0 [] (some 8) [] [(2, { q := some (-4), r := some 1 }), (2, { pwf := some 2 }), (2, { q := some (-3) })]).wells.map fun x => (x.1, x.2.q, x.2.pwf, x.2.con, x.2.G)) =
    [(2, some (-3), some 2, some .q, some 1)] := by decide +kernel

/-- After two steps a well is given another bottom-hole pressure: its list grows by the pressure of its cell at that time. -/
example (vect : Bool) : ∃ (m m' : Mdl ℚ) (s : Sol ℚ), Ready (exC true 0 []) exA ∧ Hist (exC true 0 []) Calm exA m s ∧ s.tstep = 2 ∧
    setWell (exC true 0 []).e m (some s) (some 2) { pwf := some 1 } = (m', .ok ()) ∧ m'.reported 2 = m.reported 2 ++ [rowAt s.press 2 none 2] ∧ rowAt s.press 2 none 2 ≠ m.initP 2 := by
  refine ⟨(run (exC true 0 []) 10 vect 2 0 exA (Sol.init exA)).1.1, (setWell (exC true 0 []).e (run (exC true 0 []) 10 vect 2 0 exA (Sol.init exA)).1.1 (some (run (exC true 0 []) 10 vect 2 0 exA (Sol.init exA)).1.2) (some 2) { pwf := some 1 }).1,
    (run (exC true 0 []) 10 vect 2 0 exA (Sol.init exA)).1.2, exA_ready, Hist.run exA_ready.ctx.lower exA_ready.ctx.wf exA_ready.started.mdl 2 0 .start (runCalmB_all (by cases vect <;> decide +kernel)), by cases vect <;> decide +kernel,
    Prod.ext rfl (isOk_unit (by cases vect <;> decide +kernel)), by cases vect <;> decide +kernel, by cases vect <;> decide +kernel⟩

/-- A first call without a radius raises `KeyError` and leaves a well that makes the next step raise `KeyError`. -/
theorem C27_missing_radius_breaks (vect : Bool) : ∃ m m' : Mdl ℚ, Ready (exC true 0 []) m ∧ setWell (exC true 0 []).e m none (some 1) { q := some (-1) } = (m', .error .key) ∧
    isOk (solve (exC true 0 []) 10 vect true m (Sol.init m)) = true ∧ solve (exC true 0 []) 10 vect true m' (Sol.init m') = .error .key := by
  have h : ∀ {α : Type} (x : Except Err α), (match x with | .error .key => true | _ => false) = true → x = .error .key := by
    intro α x
    cases x with
    | ok => simp
    | error e => cases e <;> simp
  exact ⟨exA, (setWell (exC true 0 []).e exA none (some 1) { q := some (-1) }).1, exA_ready, Prod.ext rfl (h _ (by decide +kernel)), by cases vect <;> decide +kernel, h _ (by cases vect <;> decide +kernel)⟩

lemma cramer_local : Local cramer := by
  intro n A d d' h
  unfold cramer
  by_cases hn : n = 2 ∧ A 0 0 * A 1 1 - A 0 1 * A 1 0 ≠ 0
  · rw [if_pos hn, if_pos hn, h 0 (by omega), h 1 (by omega)]
  · rw [if_neg hn, if_neg hn]

lemma build_respelt {K : Type} [Field K] [LinearOrder K] [IsStrictOrderedRing K] {lower : String → String} {e : Env K} {pi : Option K} {b b' : List (ℕ × String × K)}
    {ws : List (ℕ × WellArgs K)} (hb : (b.map (·.1)).Nodup) (hr : Respelling lower b b') (h : (build lower e pi b ws).2 = true) (h' : (build lower e pi b' ws).2 = true) :
    Respelt lower e (build lower e pi b ws).1 (build lower e pi b' ws).1 := by
  unfold build at h h' ⊢
  dsimp only at h h' ⊢
  have key : ∀ (ws : List (ℕ × WellArgs K)) (m m' : Mdl K × Bool), (m.2 = true → m'.2 = true → Respelt lower e m.1 m'.1) →
      (ws.foldl (fun m w => let y := setWell e m.1 none (some w.1) w.2; (y.1, m.2 && isOk y.2)) m).2 = true →
      (ws.foldl (fun m w => let y := setWell e m.1 none (some w.1) w.2; (y.1, m.2 && isOk y.2)) m').2 = true →
      Respelt lower e (ws.foldl (fun m w => let y := setWell e m.1 none (some w.1) w.2; (y.1, m.2 && isOk y.2)) m).1
        (ws.foldl (fun m w => let y := setWell e m.1 none (some w.1) w.2; (y.1, m.2 && isOk y.2)) m').1 := by
    intro ws
    induction ws with
    | nil => exact fun m m' hm h h' => hm h h'
    | cons w ws ih =>
      intro m m' hm h h'
      refine ih _ _ (fun g g' => ?_) h h'
      dsimp only at g g' ⊢
      rw [Bool.and_eq_true] at g g'
      refine Respelt.well (m := m.1) (m' := m'.1) (id := some w.1) (a := w.2) (hm g.1 g'.1) (Prod.ext rfl ?_) (Prod.ext rfl ?_)
      · dsimp only; rw [getOk_eq _ g.2]
      · dsimp only; rw [getOk_eq _ g'.2]
  refine key ws _ _ (fun g g' => ?_) h h'
  dsimp only at g g' ⊢
  rw [Bool.and_eq_true] at g g'
  refine Respelt.bounds (.init pi) hb hr (Prod.ext (Prod.ext rfl ?_) ?_) (Prod.ext (Prod.ext rfl ?_) ?_)
  · dsimp only; exact Option.isNone_iff_eq_none.1 g.2
  · dsimp only; rw [getOk_eq _ g.1]
  · dsimp only; exact Option.isNone_iff_eq_none.1 g'.2
  · dsimp only; rw [getOk_eq _ g'.1]

/-- `exA` with the pressure condition spelled `"p"` and the rate condition `"q"`. -/
def exSpelt : Mdl ℚ := exMdl true 0 [] (some 8) [(0, "p", 10), (3, "q", 1)] [(2, { q := some (-4), pwf := some 2, r := some 1 })]

lemma exA_respelling : Respelling (K := ℚ) (fun s => s) [(0, "pressure", 10), (3, "rate", 1)] [(0, "p", 10), (3, "q", 1)] :=
  .cons ⟨rfl, rfl, by decide⟩ (.cons ⟨rfl, rfl, by decide⟩ .nil)

lemma exA_respelt : Respelt (exC true 0 []).lower (exC true 0 []).e exA exSpelt :=
  build_respelt (by decide) exA_respelling (by decide +kernel) (by decide +kernel)

/-- A run is over without an exception. -/
def runOkB (c : Ctx ℚ) (vect : Bool) (n : ℕ) (m : Mdl ℚ) : Bool := isOk (run c 10 vect n 0 m (Sol.init m)).2

lemma runOkB_ok {c : Ctx ℚ} {vect : Bool} {n : ℕ} {m : Mdl ℚ} (h : runOkB c vect n m = true) : (run c 10 vect n 0 m (Sol.init m)).2 = .ok () := getOk_eq _ h

/-- The hypotheses of `C28_symbolic_partial` on a model with a well. -/
example : SameReports (exC true 0 []).e (run (exC true 0 []) 10 false 3 0 exA (Sol.init exA)).1.1 (run (exC true 0 []) 10 false 3 0 exSpelt (Sol.init exSpelt)).1.1
    (run (exC true 0 []) 10 false 3 0 exA (Sol.init exA)).1.2 (run (exC true 0 []) 10 false 3 0 exSpelt (Sol.init exSpelt)).1.2 :=
  C28_symbolic_partial (exC_ok _ _ _).wf cramer_local exA_respelt 10 3 0 0 (runOkB_ok (by decide +kernel)) (runOkB_ok (by decide +kernel))

/-- `exA` with the rate condition spelled `"q"`. -/
def exSpeltQ : Mdl ℚ := exMdl true 0 [] (some 8) [(0, "pressure", 10), (3, "q", 1)] [(2, { q := some (-4), pwf := some 2, r := some 1 })]

lemma exA_respeltQ : Respelt (exC true 0 []).lower (exC true 0 []).e exA exSpeltQ :=
  build_respelt (by decide) (.cons ⟨rfl, rfl, by decide⟩ (.cons ⟨rfl, rfl, by decide⟩ .nil)) (by decide +kernel) (by decide +kernel)

/-- The hypotheses of `C28_spellings_partial`. -/
example (vect : Bool) : (run (exC true 0 []) 10 vect 3 0 exSpeltQ (Sol.init exSpeltQ)).2 = (run (exC true 0 []) 10 vect 3 0 exA (Sol.init exA)).2 :=
  (C28_spellings_partial (exC_ok true 0 []).wf cramer_local exA_respeltQ
    (by
      have h1 : ∀ x, x ∈ exA.bdict → kindOf x.2.1 = some .pressure → x.2.1 = "pressure" :=
        all_of (p := fun x : ℕ × String × ℚ => kindOf x.2.1 = some .pressure → x.2.1 = "pressure") (by decide +kernel)
      have h2 : ∀ x, x ∈ exSpeltQ.bdict → kindOf x.2.1 = some .pressure → x.2.1 = "pressure" :=
        all_of (p := fun x : ℕ × String × ℚ => kindOf x.2.1 = some .pressure → x.2.1 = "pressure") (by decide +kernel)
      exact fun x hx => hx.elim (h1 x) (h2 x)) rfl vect 10 3 0 0).1

/-- **C28 fails**: with the vectorised assembler a pressure condition spelled `"p"` gives other pressures than one spelled `"pressure"`. -/
theorem C28_vectorised_fails : ∃ (c : Ctx ℚ) (m m' : Mdl ℚ), CtxOK c ∧ Exact c.lin ∧ Respelt c.lower c.e m m' ∧ (run c 10 true 1 0 m (Sol.init m)).2 = .ok () ∧
    (run c 10 true 1 0 m' (Sol.init m')).2 = .ok () ∧
    rowAt (run c 10 true 1 0 m' (Sol.init m')).1.2.press 1 none 1 ≠ rowAt (run c 10 true 1 0 m (Sol.init m)).1.2.press 1 none 1 :=
  ⟨exC true 0 [], exA, exSpelt, exC_ok _ _ _, cramer_exact, exA_respelt, runOkB_ok (by decide +kernel), runOkB_ok (by decide +kernel), by decide +kernel⟩

/-- A closed reservoir at pressure 8. -/
def exBare : Mdl ℚ := Mdl.init (exC true 0 []).e (some 8)

/-- `exBare` after `set_all_boundaries("pressure", 10)`. -/
def exAll : Mdl ℚ := (setAllBoundaries (exC true 0 []).lower (exC true 0 []).e exBare none "pressure" 10).1.1

/-- `exBare` after `set_boundaries` with `("pressure", 10)` for both boundary cells. -/
def exEach : Mdl ℚ := (setBoundaries (exC true 0 []).lower (exC true 0 []).e exBare none ((exC true 0 []).e.bnd.map fun id => (id, "pressure", 10))).1.1

lemma exAll_eq : setAllBoundaries (exC true 0 []).lower (exC true 0 []).e exBare none "pressure" 10 = ((exAll, none), .ok ()) := by
  refine Prod.ext (Prod.ext rfl ?_) (getOk_eq _ (by decide +kernel))
  exact Option.isNone_iff_eq_none.1 (by decide +kernel)

lemma exEach_eq : setBoundaries (exC true 0 []).lower (exC true 0 []).e exBare none ((exC true 0 []).e.bnd.map fun id => (id, "pressure", 10)) = ((exEach, none), .ok ()) := by
  refine Prod.ext (Prod.ext rfl ?_) (getOk_eq _ (by decide +kernel))
  exact Option.isNone_iff_eq_none.1 (by decide +kernel)

/-- The hypotheses of `C30_ignored`. -/
example (vect : Bool) : SameReports (exC true 0 []).e (run (exC true 0 []) 10 vect 3 0 exBare (Sol.init exBare)).1.1 (run (exC true 0 []) 10 vect 3 0 exAll (Sol.init exAll)).1.1
    (run (exC true 0 []) 10 vect 3 0 exBare (Sol.init exBare)).1.2 (run (exC true 0 []) 10 vect 3 0 exAll (Sol.init exAll)).1.2 :=
  (C30_ignored (exC_ok _ _ _) cramer_local (.init (some 8)) rfl "pressure" 10 exAll_eq vect 10 3 0 0).2

/-- **C30 fails**: a reservoir at pressure 8 keeps it under `set_all_boundaries("pressure", 10)`, but not under the same condition set for each boundary cell. -/
theorem C30_fails (vect : Bool) : ∃ (c : Ctx ℚ) (m m1 m2 : Mdl ℚ), CtxOK c ∧ Exact c.lin ∧ Setup c.lower c.e m ∧
    setAllBoundaries c.lower c.e m none "pressure" 10 = ((m1, none), .ok ()) ∧
    setBoundaries c.lower c.e m none (c.e.bnd.map fun id => (id, "pressure", 10)) = ((m2, none), .ok ()) ∧
    (run c 10 vect 1 0 m1 (Sol.init m1)).2 = .ok () ∧ (run c 10 vect 1 0 m2 (Sol.init m2)).2 = .ok () ∧
    rowAt (run c 10 vect 1 0 m1 (Sol.init m1)).1.2.press 1 none 1 = some 8 ∧ rowAt (run c 10 vect 1 0 m2 (Sol.init m2)).1.2.press 1 none 1 ≠ some 8 :=
  ⟨exC true 0 [], exBare, exAll, exEach, exC_ok _ _ _, cramer_exact, .init (some 8), exAll_eq, exEach_eq,
    runOkB_ok (by cases vect <;> decide +kernel), runOkB_ok (by cases vect <;> decide +kernel), by cases vect <;> decide +kernel, by cases vect <;> decide +kernel⟩

end RF.Fdm
