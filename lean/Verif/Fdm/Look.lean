import Verif.Fdm.PropsHistory
/-!
# Assembling twice

An assembly of an unchanged state gives the same system again and leaves the same state.
-/
set_option linter.unusedSectionVars false
namespace RF.Fdm
open RF RF.Dims Finset

variable {K : Type} [Field K] [LinearOrder K] [IsStrictOrderedRing K]

/-! ### vectorised -/

lemma vWell_resolve {e : Env K} {s : Sol K} {acc acc' : VAcc K} {x : ℕ × Well K} (h : vWell e s acc x = .ok acc') :
    (∀ k, acc.resolve k = true → acc'.resolve k = true) ∧ (x.2.con = some .pwf → acc'.resolve x.1 = true) := by
  obtain ⟨id, w⟩ := x
  unfold vWell at h
  dsimp only at h ⊢
  rcases hc : w.con with _ | _ | _
  · rw [hc] at h; simp only [ok_pure] at h; subst h; simp
  · rw [hc] at h
    dsimp only at h
    rw [ok_bind] at h; obtain ⟨t, -, h⟩ := h
    rw [ok_bind] at h; obtain ⟨i, -, h⟩ := h
    rw [ok_pure] at h; subst h; simp
  · rw [hc] at h
    dsimp only at h
    rw [ok_bind] at h; obtain ⟨t, -, h⟩ := h
    have key : ∀ v0 v1, (do
        let i ← cellIndex e.ids id
        pure { acc with
          d := subEntry acc.d i v0
          A := if acc.resolve id then acc.A else addEntry acc.A i i v1
          resolve := Function.update acc.resolve id true } : Except Err (VAcc K)) = .ok acc' →
        (∀ k, acc.resolve k = true → acc'.resolve k = true) ∧ (some Con.pwf = some .pwf → acc'.resolve id = true) := by
      intro v0 v1 h
      rw [ok_bind] at h; obtain ⟨i, -, h⟩ := h
      rw [ok_pure] at h; subst h
      refine ⟨fun k hk => ?_, fun _ => by simp⟩
      by_cases hk' : k = id
      · subst hk'; simp
      · simp [Function.update_of_ne hk', hk]
    rcases hv : t.values id with _ | ⟨v0, _ | ⟨v1, _ | ⟨v2, l⟩⟩⟩
    · rw [hv] at h; cases h
    · rw [hv] at h; exact key _ _ h
    · rw [hv] at h; exact key _ _ h
    · rw [hv] at h; cases h

lemma vWells_resolve {e : Env K} {s : Sol K} (l : List (ℕ × Well K)) {acc acc' : VAcc K} (h : l.foldlM (vWell e s) acc = .ok acc') :
    (∀ k, acc.resolve k = true → acc'.resolve k = true) ∧ ∀ x, x ∈ l → x.2.con = some .pwf → acc'.resolve x.1 = true := by
  induction l generalizing acc with
  | nil =>
    rw [List.foldlM_nil, ok_pure] at h
    subst h
    exact ⟨fun k hk => hk, by simp⟩
  | cons x l ih =>
    rw [List.foldlM_cons, ok_bind] at h
    obtain ⟨a1, h1, h⟩ := h
    obtain ⟨i1, i2⟩ := ih h
    obtain ⟨j1, j2⟩ := vWell_resolve h1
    refine ⟨fun k hk => i1 k (j1 k hk), fun y hy hc => ?_⟩
    rcases List.mem_cons.1 hy with rfl | hy
    · exact i1 _ (j2 hc)
    · exact i2 y hy hc

lemma vWells_again {e : Env K} {s : Sol K} (l : List (ℕ × Well K)) {acc acc' : VAcc K} (h : l.foldlM (vWell e s) acc = .ok acc') (A : ℕ → ℕ → K) (res : ℕ → Bool)
    (hr : ∀ x, x ∈ l → x.2.con = some .pwf → res x.1 = true) :
    l.foldlM (vWell e s) ⟨A, acc.d, res, acc.updateZ⟩ = .ok ⟨A, acc'.d, res, acc'.updateZ⟩ := by
  induction l generalizing acc with
  | nil =>
    rw [List.foldlM_nil, ok_pure] at h
    subst h
    rfl
  | cons x l ih =>
    rw [List.foldlM_cons, ok_bind] at h
    obtain ⟨a1, h1, h⟩ := h
    have ih' := ih h (fun y hy => hr y (by simp [hy]))
    have hx := hr x (by simp)
    rw [List.foldlM_cons]
    have e1 : vWell e s ⟨A, acc.d, res, acc.updateZ⟩ x = .ok ⟨A, a1.d, res, a1.updateZ⟩ := by
      obtain ⟨id, w⟩ := x
      unfold vWell at h1 ⊢
      dsimp only at h1 hx ⊢
      rcases hc : w.con with _ | _ | _
      · rw [hc] at h1; simp only [ok_pure] at h1; subst h1; rfl
      · rw [hc] at h1
        dsimp only at h1 ⊢
        rw [ok_bind] at h1; obtain ⟨t, ht, h1⟩ := h1
        rw [ok_bind] at h1; obtain ⟨i, hi, h1⟩ := h1
        rw [ok_pure] at h1; subst h1
        rw [ht, bind_ok, hi, bind_ok]; rfl
      · rw [hc] at h1
        dsimp only at h1 ⊢
        rw [ok_bind] at h1; obtain ⟨t, ht, h1⟩ := h1
        rw [ht, bind_ok]
        have this : Function.update res id true = res := by
          funext k
          by_cases hk : k = id
          · subst hk; simp [hx hc]
          · simp [Function.update_of_ne hk]
        have key : ∀ v0 v1, (do
            let i ← cellIndex e.ids id
            pure { acc with
              d := subEntry acc.d i v0
              A := if acc.resolve id then acc.A else addEntry acc.A i i v1
              resolve := Function.update acc.resolve id true } : Except Err (VAcc K)) = .ok a1 →
            (do
            let i ← cellIndex e.ids id
            pure { A := if res id then A else addEntry A i i v1
                   d := subEntry acc.d i v0
                   resolve := Function.update res id true
                   updateZ := acc.updateZ } : Except Err (VAcc K)) = .ok ⟨A, a1.d, res, a1.updateZ⟩ := by
          intro v0 v1 h1
          rw [ok_bind] at h1; obtain ⟨i, hi, h1⟩ := h1
          rw [ok_pure] at h1; subst h1
          rw [hi, bind_ok, if_pos (hx hc), this]; rfl
        rcases hv : t.values id with _ | ⟨v0, _ | ⟨v1, _ | ⟨v2, l⟩⟩⟩
        · rw [hv] at h1; cases h1
        · rw [hv] at h1; exact key _ _ h1
        · rw [hv] at h1; exact key _ _ h1
        · rw [hv] at h1; cases h1
    rw [e1, bind_ok]
    exact ih'

lemma matricesVect_again {lower : String → String} {e : Env K} {m : Mdl K} {s s' : Sol K} {A : ℕ → ℕ → K} {d : ℕ → K} (h : matricesVect lower e m s = .ok (s', A, d)) :
    matricesVect lower e m s' = .ok (s', A, d) := by
  unfold matricesVect at h
  rw [ok_bind] at h
  obtain ⟨⟨A0, bV, res⟩, hv, h⟩ := h
  dsimp only at h
  rw [ok_bind] at h
  obtain ⟨d0, hd, h⟩ := h
  rw [ok_bind] at h
  obtain ⟨acc, hw, h⟩ := h
  rw [ok_bind] at h
  obtain ⟨d1, hb, h⟩ := h
  simp only [ok_pure, Prod.mk.injEq] at h
  obtain ⟨rfl, rfl, rfl⟩ := h
  have w1 : ∀ acc x, vWell e { s with vA := some acc.A, bV := bV, resolve := acc.resolve } acc x = vWell e s acc x := fun _ _ => rfl
  by_cases ht : s.tstep = 0
  · -- everything is made anew
    have hv' : vReady lower e m { s with vA := some acc.A, bV := bV, resolve := acc.resolve } = .ok (A0, bV, res) := by
      rw [← hv]
      unfold vReady
      dsimp only
      rw [if_pos ht]
      rcases s.vA with _ | B
      · rfl
      · dsimp only; rw [if_pos ht]
    unfold matricesVect
    rw [hv', bind_ok]
    dsimp only
    rw [show initD e { s with vA := some acc.A, bV := bV, resolve := acc.resolve } = initD e s from rfl, hd, bind_ok]
    rw [show m.wells.foldlM (vWell e { s with vA := some acc.A, bV := bV, resolve := acc.resolve }) ⟨A0, d0, res, false⟩ = m.wells.foldlM (vWell e s) ⟨A0, d0, res, false⟩ from rfl, hw, bind_ok]
    rw [show m.bdict.foldlM (vBd e { s with vA := some acc.A, bV := bV, resolve := acc.resolve } bV) acc.d = m.bdict.foldlM (vBd e s bV) acc.d from rfl, hb, bind_ok]
    rfl
  · have hv' : vReady lower e m { s with vA := some acc.A, bV := bV, resolve := acc.resolve } = .ok (acc.A, bV, acc.resolve) := by
      unfold vReady
      dsimp only
      rw [if_neg ht]
    unfold matricesVect
    rw [hv', bind_ok]
    dsimp only
    rw [show initD e { s with vA := some acc.A, bV := bV, resolve := acc.resolve } = initD e s from rfl, hd, bind_ok]
    rw [show m.wells.foldlM (vWell e { s with vA := some acc.A, bV := bV, resolve := acc.resolve }) ⟨acc.A, d0, acc.resolve, false⟩ = m.wells.foldlM (vWell e s) ⟨acc.A, d0, acc.resolve, false⟩ from rfl,
      vWells_again m.wells hw acc.A acc.resolve (vWells_resolve m.wells hw).2, bind_ok]
    dsimp only
    rw [show m.bdict.foldlM (vBd e { s with vA := some acc.A, bV := bV, resolve := acc.resolve } bV) acc.d = m.bdict.foldlM (vBd e s bV) acc.d from rfl, hb, bind_ok]
    rfl

/-! ### symbolic -/

lemma refreshWell_again {e : Env K} {m : Mdl K} {id : ℕ} {t t' : Terms K} (h : refreshWell e m id t = .ok t') : refreshWell e m id t' = .ok t' := by
  unfold refreshWell at h ⊢
  rcases hd : dictGet m.wells id with _ | w
  · rfl
  · rw [hd] at h
    dsimp only at h ⊢
    split_ifs at h ⊢ with hc
    · rw [ok_bind] at h
      obtain ⟨x, hx, h⟩ := h
      rw [ok_pure] at h
      subst h
      rw [hx, bind_ok]
      simp only [ok_pure, List.dropLast_concat]
    · rfl

lemma refreshTerms_again {e : Env K} {m : Mdl K} {s : Sol K} {id : ℕ} {t t' : Terms K} (h : refreshTerms e m s id t = .ok t') : refreshTerms e m s id t' = .ok t' := by
  unfold refreshTerms at h ⊢
  rw [ok_bind] at h
  obtain ⟨t1, h1, h⟩ := h
  have h2 := refreshWell_again h1
  split_ifs at h ⊢ with hc
  · rw [ok_bind] at h
    obtain ⟨a, ha, h⟩ := h
    rw [ok_pure] at h
    subst h
    have h3 : refreshWell e m id { t1 with a := a } = .ok { t1 with a := a } := by
      unfold refreshWell at h2 ⊢
      rcases hd : dictGet m.wells id with _ | w
      · rfl
      · rw [hd] at h2
        dsimp only at h2 ⊢
        split_ifs at h2 ⊢ with hc
        · rw [ok_bind] at h2
          obtain ⟨x, hx, h2⟩ := h2
          rw [ok_pure] at h2
          rw [hx, bind_ok, ok_pure]
          obtain ⟨f, b⟩ := t1
          simp only [Terms.mk.injEq, and_true] at h2 ⊢
          exact h2
        · rfl
    rw [h3, bind_ok, ha, bind_ok]; rfl
  · rw [ok_pure] at h
    subst h
    rw [h2, bind_ok]; rfl

lemma buildTerms_settled {lower : String → String} {e : Env K} {m : Mdl K} {s : Sol K} {id : ℕ} {t : Terms K} (h : buildTerms lower e m s id = .ok t) :
    refreshTerms e m s id t = .ok t := by
  by_cases hid : id ∈ e.ids
  swap
  · unfold buildTerms at h
    rw [if_pos hid] at h
    cases h
  · unfold buildTerms at h
    rw [if_neg (not_not.2 hid)] at h
    rw [ok_bind] at h; obtain ⟨ns, -, h⟩ := h
    rw [ok_bind] at h; obtain ⟨bs, -, h⟩ := h
    rw [ok_bind] at h; obtain ⟨T, -, h⟩ := h
    rw [ok_bind] at h; obtain ⟨fn, -, h⟩ := h
    rw [ok_bind] at h; obtain ⟨fb, -, h⟩ := h
    have key : ∀ fw a, aTerm e s id = .ok a → (∀ w, dictGet m.wells id = some w → w.con = some .pwf → ∃ x, wTerm e w (Aff.p id) = .ok x ∧ fw = [x]) →
        refreshTerms e m s id ⟨fn ++ fb ++ fw, a⟩ = .ok ⟨fn ++ fb ++ fw, a⟩ := by
      intro fw a ha hw
      have h1 : refreshWell e m id ⟨fn ++ fb ++ fw, a⟩ = .ok ⟨fn ++ fb ++ fw, a⟩ := by
        unfold refreshWell
        rcases hd : dictGet m.wells id with _ | w
        · rfl
        · dsimp only
          split_ifs with hc
          · obtain ⟨x, hx, rfl⟩ := hw w hd hc
            rw [hx, bind_ok, ok_pure, List.dropLast_concat]
          · rfl
      unfold refreshTerms
      rw [h1, bind_ok]
      split_ifs with hc
      · rw [ha, bind_ok]; rfl
      · rfl
    rcases hd : dictGet m.wells id with _ | w
    · rw [hd] at h
      dsimp only at h
      rw [bind_pure', ok_bind] at h
      obtain ⟨a, ha, h⟩ := h
      rw [ok_pure] at h
      subst h
      exact key [] a ha (by rw [hd]; simp)
    · rw [hd] at h
      dsimp only at h
      rw [ok_bind] at h
      obtain ⟨x, hx, h⟩ := h
      rw [bind_pure', ok_bind] at h
      obtain ⟨a, ha, h⟩ := h
      rw [ok_pure] at h
      subst h
      refine key [x] a ha fun w' hw' _ => ⟨x, ?_, rfl⟩
      rw [hd] at hw'; cases hw'; exact hx

lemma dictSet_self {α β : Type} [DecidableEq α] {d : List (α × β)} {k : α} {v : β} (hk : (d.map (·.1)).Nodup) (h : dictGet d k = some v) : dictSet d k v = d := by
  have hmem : (k, v) ∈ d := by
    by_cases hm : k ∈ d.map (·.1)
    · obtain ⟨v', h1, h2⟩ := dictGet_some_mem hm
      rw [h] at h1; cases h1; exact h2
    · rw [dictGet_none hm] at h; cases h
  unfold dictSet
  rw [if_pos (by rw [List.any_eq_true]; exact ⟨_, hmem, by simp⟩)]
  conv_rhs => rw [← List.map_id d]
  refine List.map_congr_left fun x hx => ?_
  split_ifs with hx1
  · have := dictGet_of_mem hk hx
    rw [hx1, h] at this
    cases this
    rw [← hx1]; rfl
  · rfl

/-- One turn of the loop over all equations. -/
def eqStep (lower : String → String) (scale : (ℕ → K) → K → K) (e : Env K) (s : Sol K) (acc : Mdl K × List (ℕ × (ℕ → K) × K)) (id : ℕ) : Except Err (Mdl K × List (ℕ × (ℕ → K) × K)) := do
  let (m, row) ← cellEq lower scale e acc.1 s id
  pure (m, acc.2 ++ [(id, row)])

lemma eqStep_ok {lower : String → String} {scale : (ℕ → K) → K → K} {e : Env K} {s : Sol K} {acc acc' : Mdl K × List (ℕ × (ℕ → K) × K)} {id : ℕ} (h : eqStep lower scale e s acc id = .ok acc') :
    ∃ t row, cellTerms lower e acc.1 s id = .ok t ∧ eqRow scale e.ids (Aff.sum t.f) t.a = .ok row ∧ refreshTerms e acc.1 s id t = .ok t ∧
      acc' = ({ acc.1 with terms := dictSet acc.1.terms id t }, acc.2 ++ [(id, row)]) := by
  unfold eqStep cellEq at h
  rw [ok_bind] at h
  obtain ⟨⟨m1, row⟩, h1, h⟩ := h
  rw [ok_bind] at h1
  obtain ⟨t, ht, h1⟩ := h1
  rw [ok_bind] at h1
  obtain ⟨row', hr, h1⟩ := h1
  simp only [ok_pure, Prod.mk.injEq] at h1 h
  obtain ⟨rfl, rfl⟩ := h1
  refine ⟨t, row', ht, hr, ?_, h.symm⟩
  unfold cellTerms at ht
  rcases hd : dictGet acc.1.terms id with _ | t0
  · rw [hd] at ht; exact buildTerms_settled ht
  · rw [hd] at ht; exact refreshTerms_again ht

lemma eqSteps_frame {lower : String → String} {scale : (ℕ → K) → K → K} {e : Env K} {s : Sol K} (l : List ℕ) {acc acc' : Mdl K × List (ℕ × (ℕ → K) × K)}
    (h : l.foldlM (eqStep lower scale e s) acc = .ok acc') :
    (∃ ts, acc'.1 = { acc.1 with terms := ts }) ∧ (∀ k, k ∉ l → dictGet acc'.1.terms k = dictGet acc.1.terms k) ∧
      acc'.2.map (·.1) = acc.2.map (·.1) ++ l ∧ ((acc.1.terms.map (·.1)).Nodup → (acc'.1.terms.map (·.1)).Nodup) := by
  induction l generalizing acc with
  | nil =>
    rw [List.foldlM_nil, ok_pure] at h
    subst h
    exact ⟨⟨_, rfl⟩, fun _ _ => rfl, by simp, id⟩
  | cons k l ih =>
    rw [List.foldlM_cons, ok_bind] at h
    obtain ⟨a1, h1, h⟩ := h
    obtain ⟨t, row, -, -, -, rfl⟩ := eqStep_ok h1
    obtain ⟨⟨ts, i1⟩, i2, i3, i4⟩ := ih h
    refine ⟨⟨ts, i1⟩, fun k' hk' => ?_, by rw [i3]; simp, fun hn => i4 (dictSet_keys _ _ _ hn).1⟩
    rw [List.mem_cons, not_or] at hk'
    rw [i2 k' hk'.2]
    dsimp only
    rw [dictGet_set, if_neg (Ne.symm hk'.1)]

lemma eqSteps_again {lower : String → String} {scale : (ℕ → K) → K → K} {e : Env K} {s : Sol K} (l : List ℕ) (hl : l.Nodup) {acc acc' : Mdl K × List (ℕ × (ℕ → K) × K)}
    (h : l.foldlM (eqStep lower scale e s) acc = .ok acc') {M : Mdl K} (hw : M.wells = acc.1.wells) (hM : (M.terms.map (·.1)).Nodup)
    (ht : ∀ id, id ∈ l → dictGet M.terms id = dictGet acc'.1.terms id) : l.foldlM (eqStep lower scale e s) (M, acc.2) = .ok (M, acc'.2) := by
  induction l generalizing acc with
  | nil =>
    rw [List.foldlM_nil, ok_pure] at h
    subst h
    rfl
  | cons k l ih =>
    rw [List.foldlM_cons, ok_bind] at h
    obtain ⟨a1, h1, h⟩ := h
    obtain ⟨t, row, e1, e2, e3, rfl⟩ := eqStep_ok h1
    rw [List.nodup_cons] at hl
    have hk : dictGet M.terms k = some t := by
      rw [ht k (by simp), (eqSteps_frame l h).2.1 k hl.1]
      dsimp only
      rw [dictGet_set, if_pos rfl]
    have e3' : refreshTerms e M s k t = .ok t := by
      rw [← e3]; unfold refreshTerms refreshWell; rw [hw]
    have step : eqStep lower scale e s (M, acc.2) k = .ok (M, acc.2 ++ [(k, row)]) := by
      unfold eqStep cellEq cellTerms
      dsimp only
      rw [hk]
      dsimp only
      rw [e3', bind_ok, e2, bind_ok, dictSet_self hM hk]
      rfl
    rw [List.foldlM_cons, step, bind_ok]
    exact ih hl.2 h hw (fun id hid => ht id (by simp [hid]))

lemma writeRow_twice (ids : List ℕ) (M : (ℕ → ℕ → K) × (ℕ → K)) (id : ℕ) (row : (ℕ → K) × K) : writeRow ids (writeRow ids M id row) id row = writeRow ids M id row := by
  unfold writeRow
  refine Prod.ext ?_ ?_
  · funext a b
    dsimp only
    split_ifs with ha
    · rcases ids[b]? with _ | j
      · rfl
      · dsimp only; split_ifs <;> rfl
    · rfl
  · funext a
    dsimp only
    split_ifs <;> rfl

lemma writeRow_comm {ids : List ℕ} {M : (ℕ → ℕ → K) × (ℕ → K)} {id id' : ℕ} {row row' : (ℕ → K) × K} (h : ids.idxOf id ≠ ids.idxOf id') :
    writeRow ids (writeRow ids M id row) id' row' = writeRow ids (writeRow ids M id' row') id row := by
  unfold writeRow
  refine Prod.ext ?_ ?_
  · funext a b
    dsimp only
    by_cases h1 : a = ids.idxOf id
    · subst h1; simp only [if_true, if_neg h]
    · by_cases h2 : a = ids.idxOf id'
      · subst h2; simp only [if_true, if_neg h.symm]
      · simp only [if_neg h1, if_neg h2]
  · funext a
    dsimp only
    by_cases h1 : a = ids.idxOf id
    · subst h1; simp only [if_true, if_neg h]
    · by_cases h2 : a = ids.idxOf id'
      · subst h2; simp only [if_true, if_neg h.symm]
      · simp only [if_neg h1, if_neg h2]

lemma writeRows_again {ids : List ℕ} (l : List (ℕ × (ℕ → K) × K)) (hl : (l.map fun x => ids.idxOf x.1).Nodup) (M : (ℕ → ℕ → K) × (ℕ → K)) :
    l.foldl (fun M x => writeRow ids M x.1 x.2) (l.foldl (fun M x => writeRow ids M x.1 x.2) M) = l.foldl (fun M x => writeRow ids M x.1 x.2) M := by
  induction l generalizing M with
  | nil => rfl
  | cons x l ih =>
    rw [List.map_cons, List.nodup_cons] at hl
    have comm : ∀ (l' : List (ℕ × (ℕ → K) × K)) (M : (ℕ → ℕ → K) × (ℕ → K)), ids.idxOf x.1 ∉ l'.map (fun x => ids.idxOf x.1) →
        writeRow ids (l'.foldl (fun M x => writeRow ids M x.1 x.2) M) x.1 x.2 = l'.foldl (fun M x => writeRow ids M x.1 x.2) (writeRow ids M x.1 x.2) := by
      intro l'
      induction l' with
      | nil => intro M _; rfl
      | cons y l' ih' =>
        intro M hx
        rw [List.map_cons, List.mem_cons, not_or] at hx
        rw [List.foldl_cons, List.foldl_cons, ih' _ hx.2, writeRow_comm (Ne.symm hx.1)]
    rw [List.foldl_cons, List.foldl_cons, comm l _ hl.1, writeRow_twice, ih hl.2]

/-- Terms are remembered once per cell. -/
def Tidy (m : Mdl K) : Prop := (m.terms.map (·.1)).Nodup

lemma matricesSymb_again {lower : String → String} {scale : (ℕ → K) → K → K} {e : Env K} (he : e.ids.Nodup) {m m' : Mdl K} {s s' : Sol K} {A : ℕ → ℕ → K} {d : ℕ → K} (hm : Tidy m)
    (h : matricesSymb lower scale e m s = .ok (m', s', A, d)) : matricesSymb lower scale e m' s' = .ok (m', s', A, d) ∧ Tidy m' := by
  unfold matricesSymb at h
  rw [ok_bind] at h
  obtain ⟨⟨m1, eqs⟩, h1, h⟩ := h
  simp only [ok_pure, Prod.mk.injEq] at h
  obtain ⟨rfl, rfl, rfl, rfl⟩ := h
  have h1' : e.ids.foldlM (eqStep lower scale e s) (m, []) = .ok (m1, eqs) := h1
  obtain ⟨⟨ts, f1⟩, f2, f3, f4⟩ := eqSteps_frame e.ids h1'
  have f5 : Tidy m1 := f4 hm
  have hn : (eqs.map fun x => e.ids.idxOf x.1).Nodup := by
    have : (eqs.map fun x => e.ids.idxOf x.1) = (eqs.map (·.1)).map fun k => e.ids.idxOf k := by rw [List.map_map]; rfl
    dsimp only at f3
    rw [this, f3, List.map_nil, List.nil_append]
    refine (List.nodup_map_iff_inj_on he).2 fun a ha b hb hab => ?_
    have := congrArg (fun n => e.ids[n]?) hab
    simpa [List.getElem?_eq_getElem, List.idxOf_lt_length_iff.2 ha, List.idxOf_lt_length_iff.2 hb] using this
  refine ⟨?_, f5⟩
  generalize hM : eqs.foldl (fun M x => writeRow e.ids M x.1 x.2) (symbStart s) = M
  have h2 : cellsEq lower scale e m1 { s with sM := some M } = .ok (m1, eqs) := by
    refine (?_ : e.ids.foldlM (eqStep lower scale e s) (m1, []) = .ok (m1, eqs))
    exact eqSteps_again e.ids he h1' (by dsimp only at f1; rw [f1]) f5 fun _ _ => rfl
  unfold matricesSymb
  rw [h2, bind_ok]
  dsimp only
  have h3 : eqs.foldl (fun M x => writeRow e.ids M x.1 x.2) (symbStart { s with sM := some M }) = M := by
    unfold symbStart
    dsimp only
    split_ifs with ht
    · rw [← hM]; unfold symbStart
      rcases s.sM with _ | B
      · rfl
      · dsimp only; rw [if_pos ht]
    · rw [← hM]; exact writeRows_again eqs hn _
  rw [h3]; rfl

/-- A second assembly of the same state gives the same system and the same state. -/
lemma assemble_again {c : Ctx K} (hc : c.e.ids.Nodup) {vect : Bool} {m m' : Mdl K} {s s' : Sol K} {A : ℕ → ℕ → K} {d : ℕ → K} (hm : Tidy m)
    (h : assemble c vect m s = .ok (m', s', A, d)) : assemble c vect m' s' = .ok (m', s', A, d) ∧ Tidy m' := by
  cases vect
  · unfold assemble at h ⊢
    simp only [Bool.false_eq_true, if_false] at h ⊢
    exact matricesSymb_again hc hm h
  · unfold assemble at h ⊢
    simp only [if_true] at h ⊢
    rw [ok_bind] at h
    obtain ⟨⟨s1, A1, d1⟩, h1, h⟩ := h
    simp only [ok_pure, Prod.mk.injEq] at h
    obtain ⟨rfl, rfl, rfl, rfl⟩ := h
    rw [matricesVect_again h1, bind_ok]
    exact ⟨rfl, hm⟩

end RF.Fdm
