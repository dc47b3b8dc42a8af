import Verif.Fdm.Assemble
/-! # The vectorised assembly in closed form: wells, right-hand side, the whole -/
set_option linter.unusedSectionVars false
namespace RF.Fdm
open RF Finset

variable {K : Type} [Field K] [LinearOrder K] [IsStrictOrderedRing K]

/-! ### wells -/

/-- What the vectorised assembly takes from the diagonal for a pressure-constrained well (nothing at bottom-hole pressure 0). -/
def wCond (e : Env K) (w : Well K) : K := if w.pwfsp = some 0 then 0 else windex e w

/-- What the vectorised assembly takes from the right-hand side for a well. -/
def wellNum (e : Env K) (w : Well K) : K :=
  match w.con with
  | some .q => w.q.getD 0
  | some .pwf => if w.pwfsp = some 0 then -windex e w else windex e w * w.pwfsp.getD 0
  | none => 0

lemma windex_pos {e : Env K} (hB : 0 < e.B) (hm : 0 < e.mu) {w : Well K} (hw : WellOK w) : 0 < windex e w := by
  obtain ⟨G, hG, hp⟩ := hw.G
  unfold windex; rw [hG]; exact div_pos hp (mul_pos hB hm)

lemma wTerm_q {e : Env K} {w : Well K} (hw : WellOK w) (h : w.con = some .q) (x : Aff K) : wTerm e w x = .ok (Aff.c (w.q.getD 0)) := by
  obtain ⟨q, hq⟩ := hw.q h
  unfold wTerm; rw [hq, h]; rfl

lemma wTerm_pwf {e : Env K} {w : Well K} (hw : WellOK w) (h : w.con ≠ some .q) (x : Aff K) :
    wTerm e w x = .ok (Aff.smul (-windex e w) (x.sub (Aff.c (w.pwf.getD 0)))) := by
  obtain ⟨G, hG, -⟩ := hw.G
  obtain ⟨p, hp⟩ := hw.pwf
  unfold wTerm windex
  rw [hG, hp]
  split
  · rename_i q _ hc; exact absurd hc h
  · simp [need, bind, Except.bind, pure, Except.pure, neg_div]

/-- One well of the vectorised assembly. -/
lemma vWell_ok {e : Env K} (hB : 0 < e.B) (hm : 0 < e.mu) (hn : e.ids.Nodup) (s : Sol K) (acc : VAcc K) {id : ℕ} {w : Well K} (hw : WellOK w) (hid : id ∈ e.ids) :
    ∃ acc', vWell e s acc (id, w) = .ok acc' ∧
      (∀ i, i < e.n → acc'.d i = acc.d i - if id = e.at i then wellNum e w else 0) ∧
      (∀ i j, i < e.n → j < e.n → acc'.A i j = acc.A i j -
        if i = j then (if id = e.at i ∧ w.con = some .pwf ∧ acc.resolve id = false then wCond e w else 0) else 0) ∧
      (∀ k, acc'.resolve k = (acc.resolve k || decide (k = id ∧ w.con = some .pwf))) ∧
      acc'.updateZ = (acc.updateZ || decide (w.con = some .q)) := by
  have hi : cellIndex e.ids id = .ok (e.ids.idxOf id) := cellIndex_ok.2 ⟨hid, rfl⟩
  have hsub : ∀ (d : ℕ → K) (v : K) i, i < e.n → subEntry d (e.ids.idxOf id) v i = d i - if id = e.at i then v else 0 := by
    intro d v i hi'
    unfold subEntry
    simp only [eq_comm (a := i) (b := e.ids.idxOf id), idx_iff e hn hi' hid]
    split_ifs <;> simp
  rcases hc : w.con with _ | _ | _
  · refine ⟨acc, by unfold vWell; simp only [hc]; rfl, ?_, ?_, ?_, ?_⟩ <;> simp [wellNum, hc]
  · refine ⟨{ acc with d := subEntry acc.d (e.ids.idxOf id) (w.q.getD 0), updateZ := true }, ?_, ?_, ?_, ?_, ?_⟩
    · unfold vWell; simp only [hc, wTerm_q hw hc, hi, bind, Except.bind]; rfl
    · intro i hi'; simp only [hsub _ _ i hi', wellNum, hc]
    · simp
    · simp
    · simp
  · have ht := wTerm_pwf (e := e) hw (by rw [hc]; simp) (Aff.p id)
    obtain ⟨p, hp⟩ := hw.pwf
    have hsp : w.pwfsp = some p := (hw.lim hc) ▸ hp
    have hx := ne_of_gt (windex_pos hB hm hw)
    by_cases h0 : p = 0
    · subst h0
      refine ⟨{ acc with d := subEntry acc.d (e.ids.idxOf id) (-windex e w), A := if acc.resolve id then acc.A else addEntry acc.A (e.ids.idxOf id) (e.ids.idxOf id) 0, resolve := Function.update acc.resolve id true }, ?_, ?_, ?_, ?_, ?_⟩
      · have hv : (Aff.smul (-windex e w) ((Aff.p id).sub (Aff.c (w.pwf.getD 0)))).values id = [-windex e w] := by
          simp [Aff.values, Aff.smul, Aff.sub, Aff.p, Aff.c, hp, hx]
        unfold vWell; simp only [hc, ht, hi, bind, Except.bind, hv]; rfl
      · intro i hi'; simp only [hsub _ _ i hi', wellNum, hc, hsp, if_true]
      · intro i j _ _; simp only [wCond, hsp, if_true]; split_ifs <;> simp [addEntry_diag]
      · intro k; by_cases hk : k = id
        · subst hk; simp
        · simp [hk]
      · simp
    · refine ⟨{ acc with d := subEntry acc.d (e.ids.idxOf id) (windex e w * p), A := if acc.resolve id then acc.A else addEntry acc.A (e.ids.idxOf id) (e.ids.idxOf id) (-windex e w), resolve := Function.update acc.resolve id true }, ?_, ?_, ?_, ?_, ?_⟩
      · have hv : (Aff.smul (-windex e w) ((Aff.p id).sub (Aff.c (w.pwf.getD 0)))).values id = [windex e w * p, -windex e w] := by
          rw [values_two]
          simp [Aff.smul, Aff.sub, Aff.p, Aff.c, hp, hx, h0]
        unfold vWell; simp only [hc, ht, hi, bind, Except.bind, hv]; rfl
      · intro i hi'; simp [hsub _ _ i hi', wellNum, hc, hsp, h0]
      · intro i j hi' _
        have : wCond e w = windex e w := by simp [wCond, hsp, h0]
        simp only [this]
        cases hr : acc.resolve id
        · simp only [Bool.false_eq_true, if_false, addEntry_diag, eq_comm (a := i) (b := e.ids.idxOf id), idx_iff e hn hi' hid, and_true, true_and]
          by_cases hij : i = j
          · subst hij; simp only [true_and, if_true]; split_ifs <;> ring
          · simp [hij]
        · simp
      · intro k; by_cases hk : k = id
        · subst hk; simp
        · simp [hk]
      · simp

/-- The loop over wells of the vectorised assembly. -/
lemma wells_ok {e : Env K} (hB : 0 < e.B) (hm : 0 < e.mu) (hn : e.ids.Nodup) (s : Sol K) (ws : List (ℕ × Well K)) (hk : (ws.map (·.1)).Nodup)
    (hws : ∀ x, x ∈ ws → WellOK x.2 ∧ x.1 ∈ e.ids) (acc : VAcc K) :
    ∃ acc', ws.foldlM (vWell e s) acc = .ok acc' ∧
      (∀ i, i < e.n → acc'.d i = acc.d i - (ws.map fun x => if x.1 = e.at i then wellNum e x.2 else 0).sum) ∧
      (∀ i j, i < e.n → j < e.n → acc'.A i j = acc.A i j - if i = j then
        (ws.map fun x => if x.1 = e.at i ∧ x.2.con = some .pwf ∧ acc.resolve x.1 = false then wCond e x.2 else 0).sum else 0) ∧
      (∀ k, acc'.resolve k = (acc.resolve k || ws.any fun x => decide (k = x.1 ∧ x.2.con = some .pwf))) ∧
      acc'.updateZ = (acc.updateZ || ws.any fun x => decide (x.2.con = some .q)) := by
  induction ws generalizing acc with
  | nil => exact ⟨acc, rfl, by simp, by simp, by simp, by simp⟩
  | cons x ws ih =>
    obtain ⟨id, w⟩ := x
    obtain ⟨a, h0, h1, h2, h3, h4⟩ := vWell_ok hB hm hn s acc (hws (id, w) (by simp)).1 (hws (id, w) (by simp)).2
    rw [List.map_cons, List.nodup_cons] at hk
    obtain ⟨a', i0, i1, i2, i3, i4⟩ := ih hk.2 (fun x hx => hws x (by simp [hx])) a
    refine ⟨a', by rw [List.foldlM_cons, h0]; exact i0, ?_, ?_, ?_, ?_⟩
    · intro i hi; rw [i1 i hi, h1 i hi, List.map_cons, List.sum_cons]; ring
    · intro i j hi hj
      rw [i2 i j hi hj, h2 i j hi hj, List.map_cons, List.sum_cons]
      have : (ws.map fun x => if x.1 = e.at i ∧ x.2.con = some .pwf ∧ a.resolve x.1 = false then wCond e x.2 else 0) =
          ws.map fun x => if x.1 = e.at i ∧ x.2.con = some .pwf ∧ acc.resolve x.1 = false then wCond e x.2 else 0 := by
        refine List.map_congr_left fun x hx => ?_
        have hne : x.1 ≠ id := by
          intro h; exact hk.1 (List.mem_map.2 ⟨x, hx, h⟩)
        rw [h3]; simp [hne]
      rw [this]
      split_ifs <;> ring
    · intro k; rw [i3, h3]; simp [Bool.or_assoc]
    · rw [i4, h4]; simp [Bool.or_assoc]

/-! ### boundary conditions on the right-hand side -/

lemma vBd_ok {e : Env K} (he : e.WF) (s : Sol K) {bV : List (ℕ × K × K × ℕ)} (d : ℕ → K) {x : ℕ × String × K} (hb : x.1 ∈ e.bnd)
    (hV : x.2.1 = "pressure" → ∃ id T c, e.Face x.1 id T ∧ id ∈ e.ids ∧ dictGet bV x.1 = some (2 * T * (x.2.2 - e.grav * (e.z x.1 - e.z id)), c, id)) :
    ∃ d', vBd e s bV d x = .ok d' ∧ ∀ i, i < e.n → d' i = d i - boundaryIn e (rowAt s.rates s.tstep 0) 0 i x := by
  rcases he.face x.1 hb with hF | ⟨id, T, hid, hT, hF⟩
  · obtain ⟨N, hN, hl⟩ := he.nbr x.1 [] hb hF
    refine ⟨d, ?_, fun i hi => by unfold boundaryIn; rw [hF]; simp⟩
    unfold vBd; rw [hN]; simp only [bind, Except.bind]
    rw [show N.all = [] by simpa using hl]; rfl
  · obtain ⟨N, hN, hl⟩ := he.nbr x.1 _ hb hF
    have hi : cellIndex e.ids id = .ok (e.ids.idxOf id) := cellIndex_ok.2 ⟨hid, rfl⟩
    have hsub : ∀ (d : ℕ → K) (v : K) i, i < e.n → subEntry d (e.ids.idxOf id) v i = d i - if id = e.at i then v else 0 := by
      intro d v i hi'
      unfold subEntry
      simp only [eq_comm (a := i) (b := e.ids.idxOf id), idx_iff e he.nodup hi' hid]
      split_ifs <;> simp
    unfold vBd; rw [hN]; simp only [bind, Except.bind]
    rw [show N.all = [id] by simpa using hl]
    simp only [hi]
    by_cases hp : x.2.1 = "pressure"
    · obtain ⟨id', T', c, hF', hid', hbV⟩ := hV hp
      have : id' = id ∧ T' = T := by
        have := (show e.transC x.1 false = _ from hF).symm.trans hF'
        simpa [eq_comm] using this
      obtain ⟨rfl, rfl⟩ := this
      rw [if_pos hp, hbV]
      refine ⟨_, rfl, fun i hi' => ?_⟩
      rw [hsub _ _ i hi']
      unfold boundaryIn
      rw [show e.transC x.1 false = _ from hF]
      simp only [if_pos hp, sub_zero]
    · rw [if_neg hp]
      refine ⟨_, rfl, fun i hi' => ?_⟩
      rw [hsub _ _ i hi']
      unfold boundaryIn
      rw [show e.transC x.1 false = _ from hF]
      simp only [if_neg hp]

lemma bds_ok {e : Env K} (he : e.WF) (s : Sol K) {bV : List (ℕ × K × K × ℕ)} (bd : List (ℕ × String × K)) (hb : ∀ x, x ∈ bd → x.1 ∈ e.bnd)
    (hV : ∀ x, x ∈ bd → x.2.1 = "pressure" → ∃ id T c, e.Face x.1 id T ∧ id ∈ e.ids ∧ dictGet bV x.1 = some (2 * T * (x.2.2 - e.grav * (e.z x.1 - e.z id)), c, id))
    (d : ℕ → K) :
    ∃ d', bd.foldlM (vBd e s bV) d = .ok d' ∧
      ∀ i, i < e.n → d' i = d i - (bd.map (boundaryIn e (rowAt s.rates s.tstep 0) 0 i)).sum := by
  induction bd generalizing d with
  | nil => exact ⟨d, rfl, by simp⟩
  | cons x bd ih =>
    obtain ⟨d1, h1, h2⟩ := vBd_ok he s (bV := bV) d (hb x (by simp)) (hV x (by simp))
    obtain ⟨d2, h3, h4⟩ := ih (fun y hy => hb y (by simp [hy])) (fun y hy => hV y (by simp [hy])) d1
    refine ⟨d2, by rw [List.foldlM_cons, h1]; exact h3, fun i hi => ?_⟩
    rw [h4 i hi, h2 i hi, List.map_cons, List.sum_cons]; ring

/-! ### the whole assembly -/

/-- What pressure conditions take from the diagonal of position `i`. -/
def leakB (e : Env K) (m : Mdl K) (i : ℕ) : K := (m.bUpdate.map (faceLeak e i)).sum

/-- What the wells flagged in `res` take from the diagonal of position `i`. -/
def leakW (e : Env K) (ws : List (ℕ × Well K)) (res : ℕ → Bool) (i : ℕ) : K :=
  (ws.map fun x => if x.1 = e.at i ∧ res x.1 = true then wCond e x.2 else 0).sum

/-- The matrix kept by the vectorised assembly when the wells in `res` have been entered. -/
def VMat (e : Env K) (m : Mdl K) (res : ℕ → Bool) (A : ℕ → ℕ → K) : Prop :=
  ∀ i j, i < e.n → j < e.n → A i j =
    if i = j then -(∑ k ∈ range e.n, e.transV i k) - e.rhs (e.at i) - leakB e m i - leakW e m.wells res i else e.transV i j

/-- What `A_` and `bdict_v` hold once they exist. -/
structure VKept (e : Env K) (m : Mdl K) (A : ℕ → ℕ → K) (bV : List (ℕ × K × K × ℕ)) (res : ℕ → Bool) : Prop where
  mat : VMat e m res A
  bv : ∀ b, b ∈ m.bUpdate → BoundV e m.bdict bV b

/-- The invariant of the vectorised assembly's attributes between calls. -/
def VInv (e : Env K) (m : Mdl K) (s : Sol K) : Prop := ∀ A, s.vA = some A → s.tstep ≠ 0 → VKept e m A s.bV s.resolve

/-- The wells entered in the matrix at the start of an assembly. -/
def flags (s : Sol K) : ℕ → Bool := if s.vA = none ∨ s.tstep = 0 then fun _ => false else s.resolve

lemma dictGet_of_mem {α β : Type} [DecidableEq α] {d : List (α × β)} (hk : (d.map (·.1)).Nodup) {x : α × β} (hx : x ∈ d) :
    dictGet d x.1 = some x.2 := by
  induction d with
  | nil => simp at hx
  | cons y d ih =>
    rw [List.map_cons, List.nodup_cons] at hk
    unfold dictGet
    rw [List.find?_cons]
    rcases List.mem_cons.1 hx with rfl | hx
    · simp
    · have : y.1 ≠ x.1 := fun h => hk.1 (h ▸ List.mem_map_of_mem (f := fun z : α × β => z.1) hx)
      simp only [this, decide_false]
      exact ih hk.2 hx

lemma mem_of_dictGet {α β : Type} [DecidableEq α] {d : List (α × β)} {k : α} {v : β} (h : dictGet d k = some v) : (k, v) ∈ d := by
  unfold dictGet at h
  rw [Option.map_eq_some_iff] at h
  obtain ⟨a, ha, rfl⟩ := h
  have h1 := List.find?_some ha
  have h2 := List.mem_of_find?_eq_some ha
  simp at h1; subst h1; exact h2

lemma upd_pressure {e : Env K} {m : Mdl K} (hm : MdlOK e m) {b : ℕ} (hb : b ∈ m.bUpdate) : ∃ v, dictGet m.bdict b = some ("pressure", v) := by
  rw [hm.upd, List.mem_map] at hb
  obtain ⟨x, hx, rfl⟩ := hb
  rw [List.mem_filter] at hx
  refine ⟨x.2.2, ?_⟩
  rw [dictGet_of_mem hm.bkeys hx.1]
  simp at hx; rw [← hx.2]

lemma upd_of_mem {e : Env K} {m : Mdl K} (hm : MdlOK e m) {x : ℕ × String × K} (hx : x ∈ m.bdict) (hp : x.2.1 = "pressure") : x.1 ∈ m.bUpdate := by
  rw [hm.upd, List.mem_map]
  exact ⟨x, List.mem_filter.2 ⟨hx, by simp [hp]⟩, rfl⟩

lemma vReady_ok {lower : String → String} (hl : LowerOK lower) {e : Env K} (he : e.WF) {m : Mdl K} (hm : MdlOK e m) {s : Sol K} (hv : VInv e m s)
    {A : ℕ → ℕ → K} {bV : List (ℕ × K × K × ℕ)} {res : ℕ → Bool} (h : vReady lower e m s = .ok (A, bV, res)) :
    VKept e m A bV res ∧ res = flags s := by
  have fresh : ∀ A bV (res : ℕ → Bool), (do
      let (A, bV) ← m.bUpdate.foldlM (vBound lower e m) (initA e, [])
      pure (A, bV, fun _ => false) : Except Err ((ℕ → ℕ → K) × List (ℕ × K × K × ℕ) × (ℕ → Bool))) = .ok (A, bV, res) →
      VKept e m A bV res ∧ res = fun _ => false := by
    intro A bV res h
    rw [ok_bind] at h
    obtain ⟨⟨A', bV'⟩, h, h'⟩ := h
    simp only [ok_pure, Prod.mk.injEq] at h'
    obtain ⟨rfl, rfl, rfl⟩ := h'
    obtain ⟨h1, h2, -⟩ := bounds_ok hl he.nodup m.bUpdate (fun b hb => upd_pressure hm hb) _ _ h
    refine ⟨⟨fun i j hi hj => ?_, fun b hb => h2 b (Or.inl hb)⟩, rfl⟩
    refine (h1 i j hi hj).trans ?_
    unfold initA
    by_cases hij : i = j
    · subst hij
      simp only [if_true, range_sum]
      have : leakW e m.wells (fun _ => false) i = 0 := by simp [leakW]
      rw [this, sub_zero]; rfl
    · simp [hij]
  unfold vReady at h
  split at h
  · rename_i A' hA
    split_ifs at h with ht
    · obtain ⟨h1, h2⟩ := fresh A bV res h
      exact ⟨h1, by rw [h2]; unfold flags; rw [if_pos (Or.inr ht)]⟩
    · simp only [Except.ok.injEq, Prod.mk.injEq] at h
      obtain ⟨rfl, rfl, rfl⟩ := h
      refine ⟨hv _ hA ht, ?_⟩
      unfold flags; rw [if_neg (by simp [hA, ht])]
  · rename_i hA
    obtain ⟨h1, h2⟩ := fresh A bV res h
    exact ⟨h1, by rw [h2]; unfold flags; rw [if_pos (Or.inl hA)]⟩

lemma initD_ok {e : Env K} (he : e.WF) {s : Sol K} {d : ℕ → K} (h : initD e s = .ok d) (i : ℕ) :
    d i = -(e.rhs (e.at i) * s.inner e s.tstep i) := by
  unfold initD at h
  cases hc : e.comp
  · simp only [hc, Bool.false_eq_true, if_false, Except.ok.injEq] at h
    subst h; simp [he.rhsI hc]
  · simp only [hc, if_true] at h
    split_ifs at h
    simp only [Except.ok.injEq] at h
    subst h; simp [Sol.inner, Env.at]

/-- The wells that are pressure-constrained. -/
def onPwf (ws : List (ℕ × Well K)) (k : ℕ) : Bool := ws.any fun x => decide (k = x.1 ∧ x.2.con = some .pwf)

lemma onPwf_iff {ws : List (ℕ × Well K)} (hk : (ws.map (·.1)).Nodup) {x : ℕ × Well K} (hx : x ∈ ws) :
    onPwf ws x.1 = true ↔ x.2.con = some .pwf := by
  unfold onPwf
  rw [List.any_eq_true]
  constructor
  · rintro ⟨y, hy, h⟩
    simp only [decide_eq_true_eq] at h
    have := dictGet_of_mem hk hx
    rw [h.1, dictGet_of_mem hk hy] at this
    simp only [Option.some.injEq] at this
    rw [← this]; exact h.2
  · intro h; exact ⟨x, hx, by simp [h]⟩

/-- What `updateZ` adds to the right-hand side of the cell at position `i`. -/
def zHead (e : Env K) (i : ℕ) : K :=
  if (List.range e.n).all fun i => decide (e.z (e.at i) = e.z (e.at 0)) then 0
  else e.diag1 i * (if i + 1 < e.n then e.grav * (e.z (e.at (i + 1)) - e.z (e.at i)) else 0) +
    e.diag1 i * (if 0 < i then e.grav * (e.z (e.at (i - 1)) - e.z (e.at i)) else 0)

/-- What the vectorised assembler enters for gravity between cells: nothing unless some well is under rate constraint. -/
def entered (e : Env K) (m : Mdl K) (i : ℕ) : K := if (m.wells.any fun x => decide (x.2.con = some .q)) then zHead e i else 0

lemma updateZ_eq (e : Env K) (d : ℕ → K) (i : ℕ) : updateZ e d i = d i + zHead e i := by
  unfold updateZ zHead Env.at
  dsimp only
  by_cases h : ((List.range e.n).all fun i => decide (e.z (e.ids.getD i 0) = e.z (e.ids.getD 0 0))) = true
  · rw [if_pos h, if_pos h, add_zero]
  · rw [if_neg h, if_neg h]

lemma zHead_flat {e : Env K} (h : e.Flat) (i : ℕ) : zHead e i = 0 := by
  unfold zHead
  rcases h with hg | hf
  · simp only [hg, zero_mul, ite_self, mul_zero, add_zero]
  · rw [if_pos]
    rw [List.all_eq_true]
    intro k hk
    rw [List.mem_range] at hk
    simpa using hf k hk

/-- The vectorised assembly: the matrix with all wells entered so far and the right-hand side. -/
theorem matricesVect_exact {lower : String → String} (hl : LowerOK lower) {e : Env K} (he : e.WF) {m : Mdl K} (hm : MdlOK e m) {s s' : Sol K} (hv : VInv e m s)
    {A : ℕ → ℕ → K} {d : ℕ → K} (h : matricesVect lower e m s = .ok (s', A, d)) :
    ∃ bV res, s' = { s with vA := some A, bV := bV, resolve := res } ∧ VKept e m A bV res ∧
      (∀ k, res k = (flags s k || onPwf m.wells k)) ∧
      (∀ i, i < e.n →
        d i = -(e.rhs (e.at i) * s.inner e s.tstep i)
          - (m.wells.map fun x => if x.1 = e.at i then wellNum e x.2 else 0).sum
          - (m.bdict.map (boundaryIn e (rowAt s.rates s.tstep 0) 0 i)).sum + entered e m i) := by
  unfold matricesVect at h
  rw [ok_bind] at h
  obtain ⟨⟨A0, bV, res0⟩, h0, h⟩ := h
  obtain ⟨hk, hres⟩ := vReady_ok hl he hm hv h0
  simp only at h
  rw [ok_bind] at h
  obtain ⟨d0, h1, h⟩ := h
  have hd0 := initD_ok he h1
  obtain ⟨acc, a0, a1, a2, a3, a4⟩ := wells_ok he.B he.mu he.nodup s m.wells hm.wkeys (fun x hx => ⟨hm.well x hx, hm.wmem x hx⟩) ⟨A0, d0, res0, false⟩
  rw [a0, ok_bind] at h
  obtain ⟨acc', hacc, h⟩ := h
  simp only [Except.ok.injEq] at hacc; subst hacc
  obtain ⟨d1, b0, b1⟩ := bds_ok he s (bV := bV) m.bdict hm.bmem (fun x hx hp => by
    obtain ⟨id, T, c, hF, hid, -, hg⟩ := hk.bv x.1 (upd_of_mem hm hx hp) x.2.2 (by rw [dictGet_of_mem hm.bkeys hx, ← hp])
    exact ⟨id, T, c, hF, hid, hg⟩) acc.d
  rw [b0, ok_bind] at h
  obtain ⟨d1', hd1, h⟩ := h
  simp only [Except.ok.injEq] at hd1; subst hd1
  simp only [ok_pure, Prod.mk.injEq] at h
  obtain ⟨rfl, rfl, rfl⟩ := h
  refine ⟨bV, acc.resolve, rfl, ⟨fun i j hi hj => ?_, hk.bv⟩, fun k => ?_, fun i hi => ?_⟩
  · rw [a2 i j hi hj]
    dsimp only
    rw [hk.mat i j hi hj]
    by_cases hij : i = j
    · subst hij
      simp only [if_true]
      have : leakW e m.wells acc.resolve i = leakW e m.wells res0 i +
          (m.wells.map fun x => if x.1 = e.at i ∧ x.2.con = some .pwf ∧ res0 x.1 = false then wCond e x.2 else 0).sum := by
        unfold leakW
        rw [← List.sum_map_add]
        congr 1
        refine List.map_congr_left fun x hx => ?_
        have := onPwf_iff hm.wkeys hx
        unfold onPwf at this
        simp only [a3, Bool.or_eq_true, this]
        by_cases g1 : x.1 = e.at i <;> by_cases g2 : x.2.con = some .pwf <;> cases g3 : res0 x.1 <;> simp [g1, g2]
      rw [this]; ring
    · simp [hij]
  · rw [a3]; simp only [hres]; rfl
  · have hz' : (if acc.updateZ then updateZ e d1 else d1) i = d1 i + entered e m i := by
      unfold entered
      have a4' : acc.updateZ = m.wells.any fun x => decide (x.2.con = some .q) := by rw [a4]; simp
      rw [a4']
      split_ifs with hu
      · exact updateZ_eq e d1 i
      · rw [add_zero]
    rw [hz', b1 i hi, a1 i hi]
    dsimp only
    rw [hd0]

/-- The same where gravity plays no part between cells. -/
theorem matricesVect_ok {lower : String → String} (hl : LowerOK lower) {e : Env K} (he : e.WF) {m : Mdl K} (hm : MdlOK e m) {s s' : Sol K} (hv : VInv e m s)
    {A : ℕ → ℕ → K} {d : ℕ → K} (h : matricesVect lower e m s = .ok (s', A, d)) :
    ∃ bV res, s' = { s with vA := some A, bV := bV, resolve := res } ∧ VKept e m A bV res ∧
      (∀ k, res k = (flags s k || onPwf m.wells k)) ∧
      (∀ i, i < e.n → (e.Flat ∨ ∀ x, x ∈ m.wells → x.2.con ≠ some .q) →
        d i = -(e.rhs (e.at i) * s.inner e s.tstep i)
          - (m.wells.map fun x => if x.1 = e.at i then wellNum e x.2 else 0).sum
          - (m.bdict.map (boundaryIn e (rowAt s.rates s.tstep 0) 0 i)).sum) := by
  obtain ⟨bV, res, h1, h2, h3, h4⟩ := matricesVect_exact hl he hm hv h
  refine ⟨bV, res, h1, h2, h3, fun i hi hz => ?_⟩
  rw [h4 i hi]
  have : entered e m i = 0 := by
    unfold entered
    split_ifs with hu
    · rcases hz with hf | hq
      · exact zHead_flat hf i
      · simp only [List.any_eq_true, decide_eq_true_eq] at hu
        obtain ⟨x, hx, hc⟩ := hu
        exact absurd hc (hq x hx)
    · rfl
  rw [this, add_zero]
end RF.Fdm
