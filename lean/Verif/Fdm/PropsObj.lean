import Verif.Fdm.PropsThreads
/-!
# Well objects (C61)

`set_well(well=SingleCell(q=…, s=…, r=…, constrain="q"), cell_id=…)` against `set_well(cell_id=…, q=…, s=…, r=…)`.
-/
set_option linter.unusedSectionVars false
namespace RF.Fdm
open RF RF.Dims Finset

variable {K : Type} [Field K] [LinearOrder K] [IsStrictOrderedRing K]

/-! ### setting the well -/

/-- The well in cell `id`, if there is one, without a target rate. -/
def Mdl.untargeted (m : Mdl K) (id : ℕ) : Mdl K :=
  { m with wells := m.wells.map fun x => if x.1 = id then (x.1, { x.2 with qsp := none }) else x }

lemma dictSet_map {l : List (ℕ × Well K)} {id : ℕ} (h : dictGet l id = none) (w w' : Well K) (hw : { w with qsp := none } = w') :
    dictSet l id w' = (dictSet l id w).map fun x => if x.1 = id then (x.1, { x.2 with qsp := none }) else x := by
  have hk : id ∉ l.map (·.1) := fun hk => by
    obtain ⟨v, hv, -⟩ := dictGet_some_mem hk
    rw [h] at hv; cases hv
  have h1 : ¬ l.any fun e => decide (e.1 = id) := by
    rw [List.any_eq_true]
    rintro ⟨x, hx, he⟩
    exact hk (List.mem_map.2 ⟨x, hx, of_decide_eq_true he⟩)
  unfold dictSet
  rw [if_neg h1, if_neg h1, List.map_append]
  congr 1
  · symm
    conv_rhs => rw [← List.map_id l]
    refine List.map_congr_left fun x hx => ?_
    have : x.1 ≠ id := fun he => hk (List.mem_map.2 ⟨x, hx, he⟩)
    rw [if_neg this]; rfl
  · simp [hw]

lemma finishWell_untargeted (e : Env K) (m : Mdl K) (s : Option (Sol K)) {id : ℕ} (h : dictGet m.wells id = none) (w : Well K) :
    finishWell e m s id { w with qsp := none } = ((finishWell e m s id w).1.untargeted id, (finishWell e m s id w).2) := by
  have key : ∀ w w' : Well K, { w with qsp := none } = w' → ∀ wp, ({ m with wells := dictSet m.wells id w', wPress := wp } : Mdl K) =
      Mdl.untargeted { m with wells := dictSet m.wells id w, wPress := wp } id := by
    intro w w' hw wp
    unfold Mdl.untargeted
    rw [dictSet_map h w w' hw]
  obtain ⟨q, qsp, pwf, pwfsp, r, sk, req0, G0, con⟩ := w
  unfold finishWell
  dsimp only
  rcases e.wellReq id with x | req
  · exact Prod.ext (key ⟨q, qsp, pwf, pwfsp, r, sk, req0, G0, con⟩ ⟨q, none, pwf, pwfsp, r, sk, req0, G0, con⟩ rfl m.wPress) rfl
  dsimp only
  rcases r with _ | r
  · exact Prod.ext (key ⟨q, qsp, pwf, pwfsp, none, sk, some req, G0, con⟩ ⟨q, none, pwf, pwfsp, none, sk, some req, G0, con⟩ rfl m.wPress) rfl
  dsimp only
  rcases e.wellG id req r sk with x | G
  · exact Prod.ext (key ⟨q, qsp, pwf, pwfsp, some r, sk, some req, G0, con⟩ ⟨q, none, pwf, pwfsp, some r, sk, some req, G0, con⟩ rfl m.wPress) rfl
  dsimp only
  rcases pwf with _ | p
  · exact Prod.ext (key ⟨q, qsp, some 0, some 0, some r, sk, some req, some G, con⟩ ⟨q, none, some 0, some 0, some r, sk, some req, some G, con⟩ rfl
      (appendAt m.wPress id (getPressure m s id))) rfl
  · exact Prod.ext (key ⟨q, qsp, some p, pwfsp, some r, sk, some req, some G, con⟩ ⟨q, none, some p, pwfsp, some r, sk, some req, some G, con⟩ rfl m.wPress) rfl

/-- C61, what is true: placing a rate-controlled well object in a cell without a well is the keyword call with the object's
values — same outcome, same model, in the set-up phase and during a simulation — except that the well has no target rate.
The values must be non-zero, since the object drops zeros. -/
theorem C61_set_partial (e : Env K) (m : Mdl K) (s0 : Option (Sol K)) {id : ℕ} (hw : dictGet m.wells id = none) (cid : Option ℕ)
    {q r : K} (hq : q ≠ 0) (hr : r ≠ 0) {sk : Option K} (hs : sk ≠ some 0) :
    setWellObj e m s0 (some id) (mkObj cid (some q) sk (some r) (some .q)) =
      ((setWell e m s0 (some id) { q := some q, s := sk, r := some r }).1.untargeted id, (setWell e m s0 (some id) { q := some q, s := sk, r := some r }).2) := by
  have e1 : mkObj cid (some q) sk (some r) (some .q) = { cell := cid.filter (· ≠ 0), q := some q, s := sk, r := some r, con := some .q } := by
    unfold mkObj
    rcases sk with _ | v
    · simp [Option.filter, hq, hr]
    · have : v ≠ 0 := fun h => hs (by rw [h])
      simp [Option.filter, hq, hr, this]
  rw [e1]
  unfold setWellObj setWell
  dsimp only
  rw [hw]
  split_ifs with hi
  · have e2 : mergeArgs (Option.getD none ({} : Well K)) { q := some q, s := sk, r := some r } = { q := some q, qsp := some q, con := some .q, r := some r, s := sk } := by
      rcases sk with _ | v <;> rfl
    rw [e2]
    exact finishWell_untargeted e m s0 hw { q := some q, qsp := some q, con := some .q, r := some r, s := sk }
  · refine Prod.ext ?_ rfl
    show m = Mdl.untargeted m id
    unfold Mdl.untargeted
    have : (m.wells.map fun x => if x.1 = id then (x.1, { x.2 with qsp := none }) else x) = m.wells := by
      conv_rhs => rw [← List.map_id m.wells]
      refine List.map_congr_left fun x hx => ?_
      have : x.1 ≠ id := fun he => by
        obtain ⟨v, hv, -⟩ := dictGet_some_mem (List.mem_map.2 ⟨x, hx, he⟩ : id ∈ m.wells.map (·.1))
        rw [hw] at hv; cases hv
      rw [if_neg this]; rfl
    rw [this]

/-! ### the equations do not look at target rates -/

lemma untargeted_get (m : Mdl K) (id k : ℕ) :
    dictGet (m.untargeted id).wells k = (dictGet m.wells k).map fun w => if k = id then { w with qsp := none } else w := by
  unfold Mdl.untargeted dictGet
  dsimp only
  induction m.wells with
  | nil => rfl
  | cons x l ih =>
    rw [List.map_cons, List.find?_cons, List.find?_cons]
    by_cases hx : x.1 = id
    · rw [if_pos hx]
      dsimp only
      by_cases hk : x.1 = k
      · have : k = id := hk.symm.trans hx
        simp [hk, this]
      · simp only [hk, decide_false]
        exact ih
    · rw [if_neg hx]
      by_cases hk : x.1 = k
      · have : ¬ k = id := fun h => hx (hk.trans h)
        simp [hk, this]
      · simp only [hk, decide_false]
        exact ih

lemma wTerm_untargeted (e : Env K) (w : Well K) (x : Aff K) : wTerm e { w with qsp := none } x = wTerm e w x := rfl

lemma cellTerms_untargeted (lower : String → String) (e : Env K) (m : Mdl K) (s : Sol K) (id k : ℕ) (ts : List (ℕ × Terms K)) :
    cellTerms lower e { m.untargeted id with terms := ts } s k = cellTerms lower e { m with terms := ts } s k := by
  have hg := untargeted_get m id k
  unfold cellTerms
  show (match dictGet ts k with
    | none => buildTerms lower e { m.untargeted id with terms := ts } s k
    | some t => refreshTerms e { m.untargeted id with terms := ts } s k t) = match dictGet ts k with
    | none => buildTerms lower e { m with terms := ts } s k
    | some t => refreshTerms e { m with terms := ts } s k t
  rcases dictGet ts k with _ | t
  · dsimp only
    unfold buildTerms
    dsimp only
    rw [hg]
    rcases dictGet m.wells k with _ | w
    · rfl
    · rw [Option.map_some]
      dsimp only
      split_ifs <;> rfl
  · dsimp only
    unfold refreshTerms refreshWell
    dsimp only
    rw [hg]
    rcases dictGet m.wells k with _ | w
    · rfl
    · rw [Option.map_some]
      dsimp only
      by_cases hk : k = id
      · rw [if_pos hk]; rfl
      · rw [if_neg hk]

lemma vWells_untargeted (e : Env K) (s : Sol K) (id : ℕ) (l : List (ℕ × Well K)) (acc : VAcc K) :
    (l.map fun x => if x.1 = id then (x.1, { x.2 with qsp := none }) else x).foldlM (vWell e s) acc = l.foldlM (vWell e s) acc := by
  induction l generalizing acc with
  | nil => rfl
  | cons x l ih =>
    rw [List.map_cons, List.foldlM_cons, List.foldlM_cons]
    have : vWell e s acc (if x.1 = id then (x.1, { x.2 with qsp := none }) else x) = vWell e s acc x := by
      split_ifs <;> rfl
    rw [this]
    congr 1
    funext a
    exact ih a

lemma assemble_untargeted {c : Ctx K} {vect : Bool} {m m1 : Mdl K} {s s1 : Sol K} {A : ℕ → ℕ → K} {d : ℕ → K} (id : ℕ)
    (h : assemble c vect m s = .ok (m1, s1, A, d)) : assemble c vect (m.untargeted id) s = .ok (m1.untargeted id, s1, A, d) := by
  cases vect with
  | false =>
    obtain ⟨ts, h1, rfl, rfl⟩ := matricesSeq_ok.1 h
    refine matricesSeq_ok.2 ⟨ts, ?_, rfl, rfl⟩
    have : cellRows c (m.untargeted id) s = cellRows c m s := by
      unfold cellRows
      congr 1
      funext acc k
      rw [cellTerms_untargeted]
    unfold matricesSeq at h1 ⊢
    rw [this]; exact h1
  | true =>
    unfold assemble at h ⊢
    rw [if_pos rfl] at h ⊢
    have e1 : matricesVect c.lower c.e (m.untargeted id) s = matricesVect c.lower c.e m s := by
      unfold matricesVect
      congr 1
      funext x
      obtain ⟨A, bV, res⟩ := x
      dsimp only
      congr 1
      funext d
      rw [show (m.untargeted id).wells = m.wells.map fun x => if x.1 = id then (x.1, { x.2 with qsp := none }) else x from rfl, vWells_untargeted]
      rfl
    rw [e1]
    rw [ok_bind] at h ⊢
    obtain ⟨⟨s', A', d'⟩, h1, h⟩ := h
    simp only [ok_pure, Prod.mk.injEq] at h
    obtain ⟨rfl, rfl, rfl, rfl⟩ := h
    exact ⟨_, h1, rfl⟩

/-! ### a well without target rate and limit -/

/-- The well of an object: no target rate, bottom-hole pressure and its limit zero, factor `G`. -/
def ObjWell (G : K) (w : Well K) : Prop := w.qsp = none ∧ w.pwf = some 0 ∧ w.pwfsp = some 0 ∧ w.G = some G

lemma updateWell_obj {e : Env K} {G : K} {w : Well K} (h : ObjWell G w) (p : K) :
    updateWell e p w = .ok ({ w with con := some .pwf, pwf := some 0, q := some (-G / (e.B * e.mu) * p) }, -G / (e.B * e.mu) * p, 0, false) := by
  obtain ⟨q, qsp, pwf, pwfsp, r, sk, req, G0, con⟩ := w
  obtain ⟨h1, h2, h3, h4⟩ := h
  dsimp only at h1 h2 h3 h4
  subst h1 h2 h3 h4
  have e3 : (Aff.smul (-G / (e.B * e.mu)) ((Aff.c p).sub (Aff.c 0))).const = -G / (e.B * e.mu) * p := by
    show -G / (e.B * e.mu) * (p - 0) = _
    rw [sub_zero]
  have : wTerm e ⟨q, none, some 0, some 0, r, sk, req, some G, some .pwf⟩ (Aff.c p) = .ok (Aff.smul (-G / (e.B * e.mu)) ((Aff.c p).sub (Aff.c 0))) := by
    unfold wTerm
    rcases q with _ | q <;> rfl
  unfold updateWell estimate
  simp only [need, bind_ok, gt_iff_lt, lt_irrefl, if_false, wantsAgain]
  rw [this, bind_ok, e3]
  rfl

lemma updateWells_other {e : Env K} {p : ℕ → Option K} {l ws : List (ℕ × Well K)} {r r' : ℕ → K} {ps : List (ℕ × K)} {again : Bool}
    (h : updateWells e p l r = .ok (ws, r', ps, again)) : ws.map (·.1) = l.map (·.1) ∧ ∀ k, k ∉ l.map (·.1) → r' k = r k := by
  induction l generalizing r ws r' ps again with
  | nil =>
    simp only [updateWells, Except.ok.injEq, Prod.mk.injEq] at h
    obtain ⟨rfl, rfl, -, -⟩ := h
    exact ⟨rfl, fun _ _ => rfl⟩
  | cons x l ih =>
    obtain ⟨k, w⟩ := x
    unfold updateWells at h
    rw [ok_bind] at h
    obtain ⟨⟨w1, q1, b1, ag1⟩, h1, h⟩ := h
    dsimp only at h
    split_ifs at h with ha
    · simp only [ok_pure, Prod.mk.injEq] at h
      obtain ⟨rfl, rfl, -, -⟩ := h
      refine ⟨rfl, fun k' hk' => ?_⟩
      rw [Function.update_of_ne]
      rintro rfl
      exact hk' (by simp)
    · rw [ok_bind] at h
      obtain ⟨⟨t2, r2, ps2, ag2⟩, h2, h⟩ := h
      simp only [ok_pure, Prod.mk.injEq] at h
      obtain ⟨rfl, rfl, -, -⟩ := h
      obtain ⟨i1, i2⟩ := ih h2
      refine ⟨by simp only [List.map_cons, i1], fun k' hk' => ?_⟩
      rw [List.map_cons, List.mem_cons, not_or] at hk'
      rw [i2 k' hk'.2, Function.update_of_ne hk'.1]

lemma dictGet_cons {α β : Type} [DecidableEq α] (k : α) (v : β) (l : List (α × β)) (id : α) : dictGet ((k, v) :: l) id = if k = id then some v else dictGet l id := by
  unfold dictGet
  rw [List.find?_cons]
  by_cases h : k = id <;> simp [h]

lemma updateWells_obj {e : Env K} {p : ℕ → Option K} {G : K} {id : ℕ} {l ws : List (ℕ × Well K)} {r r' : ℕ → K} {ps : List (ℕ × K)} {again : Bool} {w : Well K}
    (hk : (l.map (·.1)).Nodup) (hw : dictGet l id = some w) (ho : ObjWell G w) (h : updateWells e p l r = .ok (ws, r', ps, again)) :
    ws.map (·.1) = l.map (·.1) ∧ ∃ w', dictGet ws id = some w' ∧ ObjWell G w' ∧ (w'.con = some .pwf ∨ w' = w) ∧
      (again = false → w'.con = some .pwf ∧ r' id = -G / (e.B * e.mu) * ((p id).getD 0)) := by
  refine ⟨(updateWells_other h).1, ?_⟩
  induction l generalizing r ws r' ps again with
  | nil => cases hw
  | cons x l ih =>
    obtain ⟨k, v⟩ := x
    rw [List.map_cons, List.nodup_cons] at hk
    unfold updateWells at h
    rw [ok_bind] at h
    obtain ⟨⟨w1, q1, b1, ag1⟩, h1, h⟩ := h
    dsimp only at h
    rw [dictGet_cons] at hw
    by_cases he : k = id
    · rw [if_pos he] at hw
      obtain rfl : v = w := Option.some.inj hw
      rw [updateWell_obj ho] at h1
      simp only [Except.ok.injEq, Prod.mk.injEq] at h1
      obtain ⟨rfl, rfl, rfl, rfl⟩ := h1
      simp only [Bool.false_eq_true, if_false] at h
      rw [ok_bind] at h
      obtain ⟨⟨t2, r2, ps2, ag2⟩, h2, h⟩ := h
      simp only [ok_pure, Prod.mk.injEq] at h
      obtain ⟨rfl, rfl, -, -⟩ := h
      subst he
      refine ⟨_, (dictGet_cons ..).trans (if_pos rfl), ⟨ho.1, rfl, ho.2.2.1, ho.2.2.2⟩, .inl rfl, fun _ => ⟨rfl, ?_⟩⟩
      rw [(updateWells_other h2).2 k hk.1, Function.update_self]
    · rw [if_neg he] at hw
      split_ifs at h with ha
      · simp only [ok_pure, Prod.mk.injEq] at h
        obtain ⟨rfl, -, -, rfl⟩ := h
        exact ⟨w, by rw [dictGet_cons, if_neg he, hw], ho, .inr rfl, fun h => by cases h⟩
      · rw [ok_bind] at h
        obtain ⟨⟨t2, r2, ps2, ag2⟩, h2, h⟩ := h
        simp only [ok_pure, Prod.mk.injEq] at h
        obtain ⟨rfl, rfl, -, rfl⟩ := h
        obtain ⟨w', i1, i2⟩ := ih hk.2 hw h2
        exact ⟨w', by rw [dictGet_cons, if_neg he, i1], i2⟩

/-- The state of a model with the well of an object in cell `id`. -/
def HasObj (m : Mdl K) (id : ℕ) (G : K) : Prop := (m.wells.map (·.1)).Nodup ∧ ∃ w, dictGet m.wells id = some w ∧ ObjWell G w

/-- The well in cell `id` is operated at its bottom-hole pressure. -/
def OnPwf (m : Mdl K) (id : ℕ) : Prop := ∃ w, dictGet m.wells id = some w ∧ w.con = some .pwf

lemma attempt_obj {c : Ctx K} {vect again : Bool} {m m' : Mdl K} {s s' : Sol K} {id : ℕ} {G : K} (hm : HasObj m id G) (h : attempt c vect m s = .ok (m', s', again)) :
    HasObj m' id G ∧ (again = false ∨ OnPwf m id → OnPwf m' id) ∧ ∃ p r, s'.tstep = s.tstep + 1 ∧ s'.press = s.press ++ [p] ∧ s'.rates = s.rates ++ [r] ∧
      (again = false → r id = -G / (c.e.B * c.e.mu) * ((p id).getD 0)) := by
  obtain ⟨m1, s1, A, d, x, r, ws, r', ps, h1, h2, h3, h4, rfl, rfl⟩ := attempt_parts h
  obtain ⟨⟨ts, rfl⟩, vA, bV, res, sM, rfl⟩ := assemble_frame h1
  obtain ⟨hk, w, hw, ho⟩ := hm
  obtain ⟨i1, w', i2, i3, i4, i5⟩ := updateWells_obj (l := m.wells) hk hw ho h4
  refine ⟨⟨by show (ws.map (·.1)).Nodup; rw [i1]; exact hk, w', i2, i3⟩, fun ha => ⟨w', i2, ?_⟩, _, _, rfl, rfl, rfl, fun ha => (i5 ha).2⟩
  rcases ha with ha | ⟨w2, hw2, hc⟩
  · exact (i5 ha).1
  · rcases i4 with i4 | i4
    · exact i4
    · obtain rfl := Option.some.inj (hw.symm.trans hw2)
      rw [i4]; exact hc

lemma setWellObj_has {e : Env K} {m m' : Mdl K} {s0 : Option (Sol K)} {id : ℕ} {o : WellObj K} (hn : (m.wells.map (·.1)).Nodup)
    (h : setWellObj e m s0 (some id) o = (m', .ok ())) : ∃ G, HasObj m' id G ∧ ∃ req r, o.r = some r ∧ e.wellReq id = .ok req ∧ e.wellG id req r o.s = .ok G := by
  unfold setWellObj finishWell at h
  dsimp only at h
  split_ifs at h with hi
  · rcases hq : e.wellReq id with x | req <;> rw [hq] at h
    · cases h
    dsimp only at h
    rcases hr : o.r with _ | r <;> rw [hr] at h
    · cases h
    dsimp only at h
    rcases hG : e.wellG id req r o.s with x | G <;> rw [hG] at h
    · cases h
    obtain ⟨rfl, -⟩ := Prod.mk.inj h
    refine ⟨G, ⟨(dictSet_keys _ _ _ hn).1, _, by rw [dictGet_set, if_pos rfl], rfl, rfl, rfl, rfl⟩, req, r, rfl, rfl, hG⟩
  · cases h

/-- What is known along a history. -/
structure ObjHist (c : Ctx K) (id : ℕ) (G : K) (m : Mdl K) (s : Sol K) : Prop where
  has : HasObj m id G
  lp : s.press.length = s.tstep + 1
  lr : s.rates.length = s.tstep + 1
  con : 0 < s.tstep → OnPwf m id
  rate : ∀ t, 1 ≤ t → t ≤ s.tstep → rowAt s.rates t 0 id = -G / (c.e.B * c.e.mu) * ((rowAt s.press t none id).getD 0)

lemma Hist.obj {c : Ctx K} {P : Bool → Mdl K → Mdl K → Prop} {m0 m : Mdl K} {s : Sol K} {id : ℕ} {G : K} (h0 : HasObj m0 id G) (h : Hist c P m0 m s) : ObjHist c id G m s := by
  induction h with
  | start => exact ⟨h0, rfl, rfl, fun h => absurd h (lt_irrefl 0), fun t h1 h2 => by have : t ≤ 0 := h2; omega⟩
  | @step m s vect m' s' h ha hp ih =>
    obtain ⟨j1, j2, p, r, e1, e2, e3, j3⟩ := attempt_obj ih.has ha
    refine ⟨j1, by rw [e2, e1, List.length_append, ih.lp]; rfl, by rw [e3, e1, List.length_append, ih.lr]; rfl, fun _ => j2 (.inl rfl), fun t h1 h2 => ?_⟩
    rw [e2, e3]
    rw [e1] at h2
    rcases Nat.lt_or_ge s.tstep t with ht | ht
    · obtain rfl : t = s.tstep + 1 := by omega
      rw [rowAt_append_eq ih.lp, rowAt_append_eq ih.lr]
      exact j3 rfl
    · rw [rowAt_append_lt (by rw [ih.lr]; omega), rowAt_append_lt (by rw [ih.lp]; omega)]
      exact ih.rate t h1 ht
  | @again m s vect m' s' h ha hp ih =>
    obtain ⟨j1, j2, p, r, e1, e2, e3, j3⟩ := attempt_obj ih.has ha
    have b1 : s'.back.press = s.press := by
      show s'.press.take s'.tstep = s.press
      rw [e1, e2, ← ih.lp, List.take_left']; rfl
    have b2 : s'.back.rates = s.rates := by
      show s'.rates.take s'.tstep = s.rates
      rw [e1, e3, ← ih.lr, List.take_left']; rfl
    have b3 : s'.back.tstep = s.tstep := by
      show s'.tstep - 1 = s.tstep
      rw [e1]; rfl
    exact ⟨j1, by rw [b1, b3]; exact ih.lp, by rw [b2, b3]; exact ih.lr, fun ht => j2 (.inr (ih.con (b3 ▸ ht))), fun t h1 h2 => by rw [b1, b2]; exact ih.rate t h1 (b3 ▸ h2)⟩
  | look h ha ih =>
    obtain ⟨⟨ts, rfl⟩, vA, bV, res, sM, rfl⟩ := assemble_frame ha
    exact ⟨ih.has, ih.lp, ih.lr, ih.con, ih.rate⟩
  | clock n t h ih => exact ⟨ih.has, ih.lp, ih.lr, ih.con, ih.rate⟩

/-- C61 fails: the rate of a well object is never kept. Whatever object `set_well` places in a cell, with whatever rate, and
whatever is simulated then, every recorded step has the rate the well would have with a bottom-hole pressure of zero, and the
well is operated at that pressure from the first step on. -/
theorem C61_object_rate {c : Ctx K} {m m' : Mdl K} {id : ℕ} {o : WellObj K} (hn : (m.wells.map (·.1)).Nodup) (h : setWellObj c.e m none (some id) o = (m', .ok ())) :
    ∃ G req r, o.r = some r ∧ c.e.wellReq id = .ok req ∧ c.e.wellG id req r o.s = .ok G ∧
      ∀ m1 s1, Hist c Any m' m1 s1 → (0 < s1.tstep → OnPwf m1 id) ∧
        ∀ t, 1 ≤ t → t ≤ s1.tstep → rowAt s1.rates t 0 id = -G / (c.e.B * c.e.mu) * ((rowAt s1.press t none id).getD 0) := by
  obtain ⟨G, h1, req, r, h2, h3, h4⟩ := setWellObj_has hn h
  exact ⟨G, req, r, h2, h3, h4, fun m1 s1 hh => ⟨(hh.obj h1).con, (hh.obj h1).rate⟩⟩

/-! ### the first step -/

lemma updateWells_one {e : Env K} {p : ℕ → Option K} {id : ℕ} {l ws : List (ℕ × Well K)} {r r' : ℕ → K} {ps : List (ℕ × K)} {w : Well K}
    (hk : (l.map (·.1)).Nodup) (hw : dictGet l id = some w) (h : updateWells e p l r = .ok (ws, r', ps, false)) :
    ∃ w' q b, updateWell e ((p id).getD 0) w = .ok (w', q, b, false) ∧ dictGet ws id = some w' ∧ r' id = q := by
  induction l generalizing r ws r' ps with
  | nil => cases hw
  | cons x l ih =>
    obtain ⟨k, v⟩ := x
    rw [List.map_cons, List.nodup_cons] at hk
    unfold updateWells at h
    rw [ok_bind] at h
    obtain ⟨⟨w1, q1, b1, ag1⟩, h1, h⟩ := h
    dsimp only at h
    split_ifs at h with ha
    · simp only [ok_pure, Prod.mk.injEq] at h
      simp at h
    · rw [ok_bind] at h
      obtain ⟨⟨t2, r2, ps2, ag2⟩, h2, h⟩ := h
      simp only [ok_pure, Prod.mk.injEq] at h
      obtain ⟨rfl, rfl, -, rfl⟩ := h
      rw [dictGet_cons] at hw
      by_cases he : k = id
      · rw [if_pos he] at hw
        obtain rfl : v = w := Option.some.inj hw
        subst he
        refine ⟨w1, q1, b1, by rw [h1]; simpa using ha, (dictGet_cons ..).trans (if_pos rfl), ?_⟩
        rw [(updateWells_other h2).2 k hk.1, Function.update_self]
      · rw [if_neg he] at hw
        obtain ⟨w', q, b, i1, i2, i3⟩ := ih hk.2 hw h2
        exact ⟨w', q, b, i1, by rw [dictGet_cons, if_neg he, i2], i3⟩

lemma updateWells_untargeted {e : Env K} {p : ℕ → Option K} {id : ℕ} {G : K} {l ws : List (ℕ × Well K)} {r r1 r' : ℕ → K} {ps : List (ℕ × K)}
    (hl : ∀ x, x ∈ l → x.1 = id → ObjWell G { x.2 with qsp := none }) (hr : ∀ k, k ≠ id → r1 k = r k) (h : updateWells e p l r = .ok (ws, r', ps, false)) :
    ∃ ws2 r2 ps2, updateWells e p (l.map fun x => if x.1 = id then (x.1, { x.2 with qsp := none }) else x) r1 = .ok (ws2, r2, ps2, false) ∧
      ∀ k, k ≠ id → r2 k = r' k := by
  induction l generalizing r r1 ws r' ps with
  | nil =>
    simp only [updateWells, Except.ok.injEq, Prod.mk.injEq] at h
    obtain ⟨rfl, rfl, -, -⟩ := h
    exact ⟨[], r1, [], rfl, hr⟩
  | cons x l ih =>
    obtain ⟨k, v⟩ := x
    unfold updateWells at h
    rw [ok_bind] at h
    obtain ⟨⟨w1, q1, b1, ag1⟩, h1, h⟩ := h
    dsimp only at h
    split_ifs at h with ha
    · simp only [ok_pure, Prod.mk.injEq] at h
      simp at h
    · rw [ok_bind] at h
      obtain ⟨⟨t2, r2, ps2, ag2⟩, h2, h⟩ := h
      simp only [ok_pure, Prod.mk.injEq] at h
      obtain ⟨rfl, rfl, -, rfl⟩ := h
      have hag : ag1 = false := by simpa using ha
      subst hag
      rw [List.map_cons]
      by_cases he : k = id
      · rw [if_pos he]
        obtain ⟨ws3, r3, ps3, i1, i2⟩ := ih (fun y hy => hl y (List.mem_cons_of_mem _ hy)) (r1 := Function.update r1 k (-G / (e.B * e.mu) * ((p k).getD 0)))
          (fun k' hk' => by rw [Function.update_of_ne (fun h => hk' (h.trans he)), Function.update_of_ne (fun h => hk' (h.trans he))]; exact hr k' hk') h2
        refine ⟨(k, { v with qsp := none, con := some .pwf, pwf := some 0, q := some (-G / (e.B * e.mu) * ((p k).getD 0)) }) :: ws3, r3, (k, 0) :: ps3, ?_, i2⟩
        unfold updateWells
        dsimp only
        rw [updateWell_obj (hl (k, v) (by simp) he), bind_ok]
        simp only [Bool.false_eq_true, if_false]
        rw [i1, bind_ok]
        rfl
      · rw [if_neg he]
        obtain ⟨ws3, r3, ps3, i1, i2⟩ := ih (fun y hy => hl y (List.mem_cons_of_mem _ hy)) (r1 := Function.update r1 k q1)
          (fun k' hk' => by
            by_cases hkk : k' = k
            · subst hkk; rw [Function.update_self, Function.update_self]
            · rw [Function.update_of_ne hkk, Function.update_of_ne hkk]; exact hr k' hk') h2
        refine ⟨(k, w1) :: ws3, r3, (k, b1) :: ps3, ?_, i2⟩
        unfold updateWells
        rw [h1, bind_ok]
        simp only [Bool.false_eq_true, if_false]
        rw [i1, bind_ok]
        rfl

lemma setWell_kw {e : Env K} {m m' : Mdl K} {s0 : Option (Sol K)} {id : ℕ} (hw : dictGet m.wells id = none) {q r : K} {sk : Option K}
    (h : setWell e m s0 (some id) { q := some q, s := sk, r := some r } = (m', .ok ())) :
    ∃ req G, e.wellReq id = .ok req ∧ e.wellG id req r sk = .ok G ∧ m'.wells = dictSet m.wells id ⟨some q, some q, some 0, some 0, some r, sk, some req, some G, some .q⟩ := by
  have e2 : mergeArgs (Option.getD none ({} : Well K)) { q := some q, s := sk, r := some r } = { q := some q, qsp := some q, con := some .q, r := some r, s := sk } := by
    rcases sk with _ | v <;> rfl
  unfold setWell at h
  dsimp only at h
  rw [hw, e2] at h
  unfold finishWell at h
  split_ifs at h with hi
  · rcases hq : e.wellReq id with x | req <;> rw [hq] at h
    · cases h
    dsimp only at h
    rcases hG : e.wellG id req r sk with x | G <;> rw [hG] at h
    · cases h
    obtain ⟨rfl, -⟩ := Prod.mk.inj h
    exact ⟨req, G, rfl, hG, rfl⟩
  · cases h

lemma attempt_of {c : Ctx K} {vect again : Bool} {m m1 : Mdl K} {s s1 : Sol K} {A : ℕ → ℕ → K} {d x r r' : ℕ → K} {ws : List (ℕ × Well K)} {ps : List (ℕ × K)}
    (h1 : assemble c vect m s = .ok (m1, s1, A, d)) (h2 : c.lin c.e.n A d = .ok x)
    (h3 : updateBounds c.lower c.e m1 (newRow c.e.ids (lastRow s1.press none) x) (lastRow s1.rates 0) = .ok r)
    (h4 : updateWells c.e (newRow c.e.ids (lastRow s1.press none) x) m1.wells r = .ok (ws, r', ps, again)) :
    attempt c vect m s = .ok ({ m1 with wells := ws, wPress := if again then m1.wPress else ps.foldl (fun wp x => appendAt wp x.1 (some x.2)) m1.wPress },
      { s1 with tstep := s1.tstep + 1, press := s1.press ++ [newRow c.e.ids (lastRow s1.press none) x], rates := s1.rates ++ [r'], As := s1.As ++ [A], ds := s1.ds ++ [d] },
      again) := by
  unfold attempt
  rw [h1, bind_ok]
  dsimp only
  rw [h2, bind_ok, h3, bind_ok, h4, bind_ok]
  rfl

/-- C61, what is true of the first step: if the keyword well meets its rate in the first step, both simulations have the same
pressures after it, and the same rates except in the well's cell. -/
theorem C61_first_step_partial {c : Ctx K} {vect : Bool} {m mk m1 : Mdl K} {s1 : Sol K} {id : ℕ} (hn : (m.wells.map (·.1)).Nodup) (hw : dictGet m.wells id = none)
    (cid : Option ℕ) {q r : K} (hq : q ≠ 0) (hr : r ≠ 0) {sk : Option K} (hs : sk ≠ some 0)
    (hk : setWell c.e m none (some id) { q := some q, s := sk, r := some r } = (mk, .ok ())) (h : attempt c vect mk (Sol.init mk) = .ok (m1, s1, false)) :
    ∃ mo m2 s2, setWellObj c.e m none (some id) (mkObj cid (some q) sk (some r) (some .q)) = (mo, .ok ()) ∧
      attempt c vect mo (Sol.init mo) = .ok (m2, s2, false) ∧ s2.press = s1.press ∧ ∀ t k, k ≠ id → rowAt s2.rates t 0 k = rowAt s1.rates t 0 k := by
  have ho := C61_set_partial c.e m none hw cid hq hr hs
  rw [hk] at ho
  dsimp only at ho
  refine ⟨mk.untargeted id, ?_⟩
  obtain ⟨req, G, -, -, hws⟩ := setWell_kw hw hk
  obtain ⟨ma, sa, A, d, x, rb, ws, r', ps, h1, h2, h3, h4, rfl, rfl⟩ := attempt_parts h
  have h1' := assemble_untargeted id h1
  obtain ⟨⟨ts, rfl⟩, vA, bV, res, sM, rfl⟩ := assemble_frame h1
  have hl : ∀ y, y ∈ mk.wells → y.1 = id → ObjWell G { y.2 with qsp := none } := by
    intro y hy hyi
    rw [hws] at hy
    rcases (dictSet_keys _ _ _ hn).2 y hy with rfl | ⟨-, h'⟩
    · exact ⟨rfl, rfl, rfl, rfl⟩
    · exact absurd hyi h'
  obtain ⟨ws2, r2, ps2, h4', hr2⟩ := updateWells_untargeted (l := mk.wells) (r1 := rb) hl (fun _ _ => rfl) h4
  refine ⟨_, _, ho, attempt_of h1' h2 h3 h4', rfl, fun t k hk' => ?_⟩
  rcases Nat.lt_trichotomy t 1 with ht | rfl | ht
  · rw [rowAt_append_lt (show t < (Sol.init mk).rates.length from ht), rowAt_append_lt (show t < (Sol.init mk).rates.length from ht)]
  · rw [rowAt_append_eq (show (Sol.init mk).rates.length = 1 from rfl), rowAt_append_eq (show (Sol.init mk).rates.length = 1 from rfl)]
    exact hr2 k hk'
  · have hlen : ∀ r : ℕ → K, ((Sol.init mk).rates ++ [r])[t]? = none := fun r => List.getElem?_eq_none (by show 2 ≤ t; omega)
    unfold rowAt
    rw [List.getD_eq_getElem?_getD, List.getD_eq_getElem?_getD, hlen, hlen]

/-- C61 fails from the first step on, for every model: whenever the keyword well meets its rate in the first step, the rate
recorded for the well object is another one. -/
theorem C61_rates_differ {c : Ctx K} (hB : c.e.B ≠ 0) (hmu : c.e.mu ≠ 0) {vect : Bool} {m mk m1 : Mdl K} {s1 : Sol K} {id : ℕ} (hn : (m.wells.map (·.1)).Nodup)
    (hw : dictGet m.wells id = none) (hG : ∀ req r s G, c.e.wellG id req r s = .ok G → G ≠ 0)
    (cid : Option ℕ) {q r : K} (hq : q ≠ 0) (hr : r ≠ 0) {sk : Option K} (hs : sk ≠ some 0)
    (hk : setWell c.e m none (some id) { q := some q, s := sk, r := some r } = (mk, .ok ())) (h : attempt c vect mk (Sol.init mk) = .ok (m1, s1, false))
    (hmeets : ∃ w, dictGet m1.wells id = some w ∧ w.con = some .q) {mo m2 : Mdl K} {s2 : Sol K}
    (ho : setWellObj c.e m none (some id) (mkObj cid (some q) sk (some r) (some .q)) = (mo, .ok ())) (h2 : attempt c vect mo (Sol.init mo) = .ok (m2, s2, false)) :
    rowAt s1.rates 1 0 id = q ∧ rowAt s2.rates 1 0 id ≠ q := by
  obtain ⟨req, G, hreq, hG1, hws⟩ := setWell_kw hw hk
  obtain ⟨mo', m2', s2', ho', h2', hp, -⟩ := C61_first_step_partial hn hw cid hq hr hs hk h
  obtain rfl : mo' = mo := (Prod.mk.inj (ho'.symm.trans ho)).1
  obtain ⟨rfl, rfl⟩ : m2' = m2 ∧ s2' = s2 := by
    have := Except.ok.inj (h2'.symm.trans h2)
    exact ⟨(Prod.mk.inj this).1, (Prod.mk.inj (Prod.mk.inj this).2).1⟩
  obtain ⟨G', req', r', o1, o2, o3, o4⟩ := C61_object_rate (c := c) hn ho
  obtain rfl : req' = req := Except.ok.inj (o2.symm.trans hreq)
  have e1 : mkObj cid (some q) sk (some r) (some .q) = { cell := cid.filter (· ≠ 0), q := some q, s := sk, r := some r, con := some .q } := by
    unfold mkObj
    rcases sk with _ | v
    · simp [Option.filter, hq, hr]
    · have : v ≠ 0 := fun h => hs (by rw [h])
      simp [Option.filter, hq, hr, this]
  rw [e1] at o1 o3
  obtain rfl : r = r' := Option.some.inj o1
  obtain rfl : G = G' := Except.ok.inj (hG1.symm.trans o3)
  have hGne := hG _ _ _ _ hG1
  have ob := (o4 m2' s2' (.step .start h2 trivial)).2 1 le_rfl (by
    obtain ⟨ma, sa, A, d, x, rb, ws, r', ps, a1, -, -, -, rfl, rfl⟩ := attempt_parts h2
    obtain ⟨-, vA, bV, res, sM, rfl⟩ := assemble_frame a1
    exact le_rfl)
  rw [ob, hp]
  obtain ⟨ma, sa, A, d, x, rb, ws, r', ps, a1, -, -, a4, rfl, rfl⟩ := attempt_parts h
  obtain ⟨⟨ts, rfl⟩, vA, bV, res, sM, rfl⟩ := assemble_frame a1
  have hkn : (mk.wells.map (·.1)).Nodup := by rw [hws]; exact (dictSet_keys _ _ _ hn).1
  have hgw : dictGet mk.wells id = some ⟨some q, some q, some 0, some 0, some r, sk, some req', some G, some .q⟩ := by rw [hws, dictGet_set, if_pos rfl]
  obtain ⟨w', q', b', u1, u2, u3⟩ := updateWells_one (l := mk.wells) hkn hgw a4
  rw [rowAt_append_eq (show (Sol.init mk).rates.length = 1 from rfl), rowAt_append_eq (show (Sol.init mk).press.length = 1 from rfl), u3]
  set p : K := (newRow c.e.ids (lastRow (Sol.init mk).press none) x id).getD 0 with hpdef
  obtain ⟨w2, hw2, hc⟩ := hmeets
  obtain rfl := Option.some.inj (u2.symm.trans hw2)
  have u1' : updateWell c.e p ⟨some q, some q, some 0, some 0, some r, sk, some req', some G, some .q⟩ = .ok (w', q', b', false) := u1
  unfold updateWell estimate at u1'
  simp only [need, bind_ok, bind_pure'] at u1'
  split_ifs at u1' with hest
  · rw [ok_bind] at u1'
    obtain ⟨t, t1, t2⟩ := u1'
    obtain rfl : Aff.c q = t := Except.ok.inj t1
    simp only [ok_pure, Prod.mk.injEq] at t2
    obtain ⟨-, rfl, -, -⟩ := t2
    refine ⟨rfl, fun hbad => ?_⟩
    have hb : p = -(q * c.e.B * c.e.mu / G) := by
      have : q = -G / (c.e.B * c.e.mu) * p := hbad.symm
      field_simp at this ⊢
      linarith
    rw [hb, neg_add_cancel] at hest
    exact lt_irrefl _ hest
  · exfalso
    rw [ok_bind] at u1'
    obtain ⟨ag, -, u1'⟩ := u1'
    rw [ok_bind] at u1'
    obtain ⟨t, -, u1'⟩ := u1'
    simp only [ok_pure, Prod.mk.injEq] at u1'
    obtain ⟨rfl, -⟩ := u1'
    cases hc

/-! ### an example -/

/-- A model without wells. -/
def exO : Mdl ℚ := exMdl true 0 [] (some 8) [(0, "pressure", 10), (3, "rate", 1)] []

/-- A rate of 2 out of cell 2, by keywords. -/
def exOk : Mdl ℚ := (setWell (exC true 0 []).e exO none (some 2) { q := some (-2), r := some 1 }).1

/-- The same with an object. -/
def exOo : Mdl ℚ := (setWellObj (exC true 0 []).e exO none (some 2) (mkObj none (some (-2)) none (some 1) (some .q))).1

lemma exOk_set : setWell (exC true 0 []).e exO none (some 2) { q := some (-2), s := none, r := some 1 } = (exOk, .ok ()) := by
  have h : isOk (setWell (exC true 0 []).e exO none (some 2) { q := some (-2), s := none, r := some 1 }).2 = true := by decide +kernel
  exact Prod.ext rfl (getOk_eq _ h)

lemma exOo_set : setWellObj (exC true 0 []).e exO none (some 2) (mkObj none (some (-2)) none (some 1) (some .q)) = (exOo, .ok ()) := by
  have h : isOk (setWellObj (exC true 0 []).e exO none (some 2) (mkObj none (some (-2)) none (some 1) (some .q))).2 = true := by decide +kernel
  exact Prod.ext rfl (getOk_eq _ h)

example : dictGet exO.wells 2 = none ∧ (exO.wells.map (·.1)).Nodup := by decide +kernel

lemma exOk_step (vect : Bool) : isOk (attempt (exC true 0 []) vect exOk (Sol.init exOk)) = true ∧ isOk (attempt (exC true 0 []) vect exOo (Sol.init exOo)) = true := by
  cases vect <;> decide +kernel

/-- The hypotheses of `C61_rates_differ` are met. -/
example (vect : Bool) : ∃ m1 s1 m2 s2, attempt (exC true 0 []) vect exOk (Sol.init exOk) = .ok (m1, s1, false) ∧
    (∃ w, dictGet m1.wells 2 = some w ∧ w.con = some .q) ∧ attempt (exC true 0 []) vect exOo (Sol.init exOo) = .ok (m2, s2, false) ∧
    rowAt s1.rates 1 0 2 = -2 ∧ rowAt s2.rates 1 0 2 < -7 := by
  have h1 := getOk_eq _ (exOk_step vect).1
  have h2 := getOk_eq _ (exOk_step vect).2
  have k1 : (getOk _ (exOk_step vect).1).2.2 = false ∧ ((dictGet (getOk _ (exOk_step vect).1).1.wells 2).map (·.con)) = some (some .q) ∧
      rowAt (getOk _ (exOk_step vect).1).2.1.rates 1 0 2 = -2 := by cases vect <;> decide +kernel
  have k2 : (getOk _ (exOk_step vect).2).2.2 = false ∧ rowAt (getOk _ (exOk_step vect).2).2.1.rates 1 0 2 < -7 := by cases vect <;> decide +kernel
  refine ⟨(getOk _ (exOk_step vect).1).1, (getOk _ (exOk_step vect).1).2.1, (getOk _ (exOk_step vect).2).1, (getOk _ (exOk_step vect).2).2.1, ?_, ?_, ?_, k1.2.2, k2.2⟩
  · exact h1.trans <| congrArg Except.ok (Prod.ext rfl (Prod.ext rfl k1.1))
  · obtain ⟨w, hw, hc⟩ := Option.map_eq_some_iff.1 k1.2.1
    exact ⟨w, hw, hc⟩
  · exact h2.trans <| congrArg Except.ok (Prod.ext rfl (Prod.ext rfl k2.1))

/-- C61 fails in the simulated pressures too: a well object for a rate of 2 and the same well by keywords, two steps. -/
theorem C61_pressures_differ : ∃ (c : Ctx ℚ) (m mk mo : Mdl ℚ) (fuel : ℕ), CtxOK c ∧ Exact c.lin ∧ Setup c.lower c.e m ∧
    setWell c.e m none (some 2) { q := some (-2), r := some 1 } = (mk, .ok ()) ∧
    setWellObj c.e m none (some 2) (mkObj none (some (-2)) none (some 1) (some .q)) = (mo, .ok ()) ∧
    ∀ vect, (runLoop c fuel vect 2 mk (Sol.init mk)).2 = .ok () ∧ (runLoop c fuel vect 2 mo (Sol.init mo)).2 = .ok () ∧
      rowAt (runLoop c fuel vect 2 mk (Sol.init mk)).1.2.press 2 none 2 ≠ rowAt (runLoop c fuel vect 2 mo (Sol.init mo)).1.2.press 2 none 2 := by
  refine ⟨exC true 0 [], exO, exOk, exOo, 10, exC_ok _ _ _, cramer_exact, (exMdl_ready (by decide +kernel : exMdlB true 0 [] (some 8) [(0, "pressure", 10), (3, "rate", 1)] [] = true)).setup, exOk_set, exOo_set, fun vect => ⟨?_, ?_, ?_⟩⟩
  · have h : isOk (runLoop (exC true 0 []) 10 vect 2 exOk (Sol.init exOk)).2 = true := by cases vect <;> decide +kernel
    exact getOk_eq _ h
  · have h : isOk (runLoop (exC true 0 []) 10 vect 2 exOo (Sol.init exOo)).2 = true := by cases vect <;> decide +kernel
    exact getOk_eq _ h
  · cases vect <;> decide +kernel

/-! ### shut-in wells -/

/-- A shut-in well in cell 2 by keywords. -/
def exSk : Mdl ℚ := (setWell (exC true 0 []).e exO none (some 2) { q := some 0, r := some 1 }).1

/-- The same with an object. -/
def exSo : Mdl ℚ := (setWellObj (exC true 0 []).e exO none (some 2) (mkObj none (some 0) none (some 1) (some .q))).1

lemma exSk_set : isOk (setWell (exC true 0 []).e exO none (some 2) { q := some 0, r := some 1 }).2 = true := by decide +kernel

lemma exSo_set : isOk (setWellObj (exC true 0 []).e exO none (some 2) (mkObj none (some 0) none (some 1) (some .q))).2 = true := by decide +kernel

/-- C61 fails for shut-in wells from the first step on: the object drops the rate 0 and produces as if its bottom-hole pressure were 0. -/
theorem C61_shut_in_fails : ∃ (c : Ctx ℚ) (m mk mo : Mdl ℚ) (fuel : ℕ), CtxOK c ∧ Exact c.lin ∧ Setup c.lower c.e m ∧
    setWell c.e m none (some 2) { q := some 0, r := some 1 } = (mk, .ok ()) ∧
    setWellObj c.e m none (some 2) (mkObj none (some 0) none (some 1) (some .q)) = (mo, .ok ()) ∧
    ∀ vect, (runLoop c fuel vect 1 mk (Sol.init mk)).2 = .ok () ∧ (runLoop c fuel vect 1 mo (Sol.init mo)).2 = .ok () ∧
      rowAt (runLoop c fuel vect 1 mo (Sol.init mo)).1.2.press 1 none 2 ≠ rowAt (runLoop c fuel vect 1 mk (Sol.init mk)).1.2.press 1 none 2 := by
  refine ⟨exC true 0 [], exO, exSk, exSo, 10, exC_ok _ _ _, cramer_exact, (exMdl_ready (by decide +kernel : exMdlB true 0 [] (some 8) [(0, "pressure", 10), (3, "rate", 1)] [] = true)).setup,
    Prod.ext rfl (getOk_eq _ exSk_set), Prod.ext rfl (getOk_eq _ exSo_set), fun vect => ⟨?_, ?_, ?_⟩⟩
  · have h : isOk (runLoop (exC true 0 []) 10 vect 1 exSk (Sol.init exSk)).2 = true := by cases vect <;> decide +kernel
    exact getOk_eq _ h
  · have h : isOk (runLoop (exC true 0 []) 10 vect 1 exSo (Sol.init exSo)).2 = true := by cases vect <;> decide +kernel
    exact getOk_eq _ h
  · cases vect <;> decide +kernel

end RF.Fdm
