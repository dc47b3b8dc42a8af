import Verif.Fdm.History
/-!
# Histories in which no well leaves its pressure limit: every accepted step balances every cell
-/
set_option linter.unusedSectionVars false
namespace RF.Fdm
open RF RF.Dims Finset

variable {K : Type} [Field K] [LinearOrder K] [IsStrictOrderedRing K]

/-- What is assumed of the surroundings: Python's `lower`, a grid with positive data, sympy divides equations by nonzero numbers. -/
structure CtxOK (c : Ctx K) : Prop where
  lower : LowerOK c.lower
  grid : FromGrid c.e
  scale : ∀ a b, c.scale a b ≠ 0

lemma CtxOK.wf {c : Ctx K} (h : CtxOK c) : c.e.WF := h.grid.wf

/-- The attempts for which the equations are right: no well leaves its pressure limit, and the vectorised assembler is not used
with a well held at bottom-hole pressure zero. -/
def Calm : Bool → Mdl K → Mdl K → Prop := fun vect m m' => NoRelease m m' ∧ (vect = true → NoZeroPwf m)

/-- What is assumed of the model at the start (`Setup` gives all of it but the signs of the well indices, that every well was given
a rate or a pressure, and the spelling of pressure conditions; see `Verif/Fdm/SetupOK.lean`). -/
structure Started (lower : String → String) (e : Env K) (m : Mdl K) : Prop where
  mdl : MdlOK e m
  cfg : Configured m
  canon : Canonical lower m
  terms : m.terms = []
  tame : ∀ x, x ∈ m.wells → x.2.con = some .q → x.2.q = x.2.qsp

/-- What calm histories keep in addition to `Inv`. -/
structure QInv (lower : String → String) (e : Env K) (m : Mdl K) (s : Sol K) : Prop where
  cfg : Configured m
  canon : Canonical lower m
  tinv : TInv lower e m
  sinv : ∀ M, s.sM = some M → ∀ i j, i < e.n → j < e.n → j ≠ i → e.transS i j = 0 → M.1 i j = 0
  stale : s.vA ≠ none → ∀ x, x ∈ m.wells → s.resolve x.1 = true → x.2.con = some .pwf
  tame : ∀ x, x ∈ m.wells → x.2.con = some .q → x.2.q = x.2.qsp

lemma QInv.noStale {lower : String → String} {e : Env K} {m : Mdl K} {s : Sol K} (h : QInv lower e m s) : NoStale m s := by
  intro x hx hf
  unfold flags at hf
  split_ifs at hf with h1
  exact h.stale (fun h2 => h1 (Or.inl h2)) x hx hf

lemma QInv.symb {lower : String → String} {e : Env K} {m : Mdl K} {s : Sol K} (h : QInv lower e m s) : SInv e s := fun M hM _ => h.sinv M hM

lemma QInv.start {lower : String → String} {e : Env K} {m : Mdl K} (h : Started lower e m) : QInv lower e m (Sol.init m) :=
  ⟨h.cfg, h.canon, by intro id t ht; rw [h.terms] at ht; simp [dictGet] at ht, by simp [Sol.init], by simp [Sol.init], h.tame⟩

lemma QInv.assemble {c : Ctx K} (hc : CtxOK c) {m0 m m' : Mdl K} {s s' : Sol K} (hi : Core c.e m0 m s) (h : QInv c.lower c.e m s) {vect : Bool}
    {A : ℕ → ℕ → K} {d : ℕ → K} (ha : Fdm.assemble c vect m s = .ok (m', s', A, d)) : QInv c.lower c.e m' s' := by
  unfold Fdm.assemble at ha
  split_ifs at ha
  · rw [ok_bind] at ha
    obtain ⟨⟨s1, A1, d1⟩, h1, ha⟩ := ha
    simp only [ok_pure, Prod.mk.injEq] at ha
    obtain ⟨rfl, rfl, -, -⟩ := ha
    obtain ⟨bV', res', rfl, h2, h3, -⟩ := matricesVect_ok hc.lower hc.wf hi.mdl hi.vinv h1
    refine ⟨h.cfg, h.canon, h.tinv, h.sinv, fun _ x hx hr => ?_, h.tame⟩
    dsimp only at hr
    rw [h3, Bool.or_eq_true, onPwf_iff hi.mdl.wkeys hx] at hr
    exact hr.elim (h.noStale x hx) id
  · obtain ⟨⟨ts, rfl⟩, h2, ⟨M, rfl, h3⟩, -⟩ := symb_residual hc.scale hc.wf hc.grid.sym hc.grid.networkS hi.mdl h.canon h.cfg h.tinv h.symb ha
    refine ⟨h.cfg, h.canon, h2, ?_, h.stale, h.tame⟩
    intro M' hM'
    simp only [Option.some.injEq] at hM'
    subst hM'; exact h3

lemma mem_unique {α : Type} {l : List (ℕ × α)} (hk : (l.map (·.1)).Nodup) {x y : ℕ × α} (hx : x ∈ l) (hy : y ∈ l) (h : x.1 = y.1) : x = y := by
  have h1 := dictGet_of_mem hk hx
  rw [h, dictGet_of_mem hk hy] at h1
  simp only [Option.some.injEq] at h1
  exact Prod.ext h h1.symm

lemma dictGet_move {R : ℕ → Well K → Well K → Prop} {l l' : List (ℕ × Well K)} (h : List.Forall₂ (fun x y => y.1 = x.1 ∧ R x.1 x.2 y.2) l l') (id : ℕ) :
    (dictGet l id = none ∧ dictGet l' id = none) ∨ ∃ w w', dictGet l id = some w ∧ dictGet l' id = some w' ∧ R id w w' := by
  induction h with
  | nil => exact Or.inl ⟨rfl, rfl⟩
  | @cons x y _ _ h1 _ ih =>
    obtain ⟨a, b⟩ := h1
    by_cases hid : x.1 = id
    · refine Or.inr ⟨x.2, y.2, ?_, ?_, hid ▸ b⟩
      · simp [dictGet, hid]
      · simp [dictGet, a, hid]
    · unfold dictGet at ih ⊢
      rw [List.find?_cons_of_neg (by simpa using hid), List.find?_cons_of_neg (by simpa [a] using hid)]
      exact ih

lemma QInv.attempt {c : Ctx K} (hc : CtxOK c) {m0 m m' : Mdl K} {s s' : Sol K} (hi : Core c.e m0 m s) (h : QInv c.lower c.e m s) {vect again : Bool}
    {m1 s1 A d x p r' ps} (ha : Attempted c vect m0 m m' s s' again m1 s1 A d x p r' ps) (hr : NoRelease m m') : QInv c.lower c.e m' s' := by
  have h1 := h.assemble hc hi ha.asm
  have hw := ha.wells
  obtain ⟨⟨ts, rfl⟩, -⟩ := assemble_frame ha.asm
  have hcon : ∀ x y, x ∈ m.wells → y ∈ m'.wells → y.1 = x.1 → WellMove c.e ((p x.1).getD 0) x.2 y.2 → y.2.con = some .q → x.2.con = some .q ∧ y.2.q = x.2.q := by
    intro x y hx hy hxy hm hq
    have hx1 : x.2.con = some .q := by
      rcases hcx : x.2.con with _ | _ | _
      · exact absurd hcx (h.cfg x hx)
      · rfl
      · have := hr x y hx hy hxy.symm hcx
        rw [this] at hq; simp at hq
    refine ⟨hx1, ?_⟩
    rcases hm with hm | hm | ⟨qs, -, -, hm⟩
    · rw [hm]
    · rw [hm] at hq; simp [atLimit] at hq
    · rw [hm]; rfl
  refine ⟨?_, ?_, ?_, ?_, ?_, ?_⟩
  · intro y hy
    obtain ⟨x, hx, hxy, hm⟩ := (forall2_mem ha.move).1 y hy
    rcases hm with hm | hm | ⟨qs, -, -, hm⟩
    · rw [hm]; exact h.cfg x hx
    · rw [hm]; simp [atLimit]
    · rw [hm]; simp [atTarget]
  · intro b hb; rw [ha.same.bdict] at hb; exact h.canon b hb
  · intro id t ht
    rw [ha.terms] at ht
    obtain ⟨⟨wp, f1, f2, f3⟩, fa⟩ := h1.tinv id t ht
    refine ⟨⟨wp, ?_, ?_, ?_⟩, fa⟩
    · rw [f1, ha.same.bdict]
    · intro hn
      rcases dictGet_move (R := fun k w w' => WellMove c.e ((p k).getD 0) w w') ha.move id with ⟨g1, -⟩ | ⟨w, w', g1, g2, -⟩
      · exact f2 g1
      · rw [g2] at hn; simp at hn
    · intro w' hw'
      rcases dictGet_move (R := fun k w w' => WellMove c.e ((p k).getD 0) w w') ha.move id with ⟨-, g2⟩ | ⟨w, w'', g1, g2, hm⟩
      · rw [g2] at hw'; simp at hw'
      · rw [g2] at hw'; cases hw'
        obtain ⟨y, k1, k2⟩ := f3 w g1
        refine ⟨y, k1, fun hq => ?_⟩
        obtain ⟨j1, j2⟩ := hcon (id, w) (id, w') (mem_of_dictGet g1) (mem_of_dictGet g2) rfl hm hq
        rw [k2 j1, j2]
  · rw [ha.sM]; exact h1.sinv
  · rw [ha.vA, ha.resolve]
    intro hv y hy hry
    obtain ⟨x, hx, hxy, hm⟩ := (forall2_mem ha.move).1 y hy
    rw [hxy] at hry
    exact hr x y hx hy hxy.symm (h1.stale hv x hx hry)
  · intro y hy hq
    obtain ⟨x, hx, hxy, hm⟩ := (forall2_mem ha.move).1 y hy
    obtain ⟨j1, j2⟩ := hcon x y hx hy hxy hm hq
    rw [j2, hm.same.2.2]; exact h.tame x hx j1

theorem Hist.calm {c : Ctx K} (hc : CtxOK c) {P : Bool → Mdl K → Mdl K → Prop} (hP : ∀ v m m', P v m m' → NoRelease m m') {m0 m : Mdl K} {s : Sol K}
    (h0 : Started c.lower c.e m0) (h : Hist c P m0 m s) : Inv c.e m0 m s ∧ QInv c.lower c.e m s := by
  induction h with
  | start => exact ⟨.start h0.mdl, .start h0⟩
  | step _ ha hp ih =>
    obtain ⟨m1, s1, A, d, x, p, r', ps, h⟩ := attempted hc.lower hc.wf ih.1 ha
    exact ⟨h.inv ih.1, ih.2.attempt hc ih.1.toCore h (hP _ _ _ hp)⟩
  | again _ ha hp ih =>
    obtain ⟨m1, s1, A, d, x, p, r', ps, h⟩ := attempted hc.lower hc.wf ih.1 ha
    have q := ih.2.attempt hc ih.1.toCore h (hP _ _ _ hp)
    exact ⟨(h.inv ih.1).back (by rw [h.tstep]; omega), ⟨q.cfg, q.canon, q.tinv, q.sinv, q.stale, q.tame⟩⟩
  | look _ ha ih => exact ⟨ih.1.assemble hc.lower hc.wf ha, ih.2.assemble hc ih.1.toCore ha⟩
  | clock n t _ ih => exact ⟨⟨⟨ih.1.same, ih.1.mdl, ih.1.plen, ih.1.rlen, ih.1.kept⟩, ih.1.row, ih.1.prow⟩, ⟨ih.2.cfg, ih.2.canon, ih.2.tinv, ih.2.sinv, ih.2.stale, ih.2.tame⟩⟩

/-! ### the balance of an attempt -/

/-- Transmissibilities used by an assembler. -/
def Env.trans (e : Env K) (vect : Bool) : ℕ → ℕ → K := if vect then e.transV else e.transS

lemma FromGrid.network {e : Env K} (h : FromGrid e) (vect : Bool) : Network e.n (e.trans vect) := by
  cases vect
  · exact h.networkS
  · exact h.wf.network

/-- Boundary rates used by an assembler. -/
def usedRate (vect : Bool) (m : Mdl K) (s : Sol K) : ℕ → K := if vect then rowAt s.rates s.tstep 0 else givenRate m

/-- Every row of the assembled system is a multiple of the balance of its cell (the balance itself with the vectorised assembler, with the symbolic one possibly divided by
a number taken out by sympy). -/
theorem core_residual_scale {c : Ctx K} (hc : CtxOK c) {m0 m m' : Mdl K} {s s' : Sol K} (hi : Core c.e m0 m s) (hq : QInv c.lower c.e m s) {vect : Bool}
    (hf : vect = true → c.e.Flat) (hz : vect = true → NoZeroPwf m) {A : ℕ → ℕ → K} {d : ℕ → K} (ha : assemble c vect m s = .ok (m', s', A, d)) {i : ℕ} (hin : i < c.e.n) :
    ∃ k, k ≠ 0 ∧ (vect = true → k = 1) ∧ (k = 1 ∨ ∃ a b, k = (c.scale a b)⁻¹) ∧ ∀ x, ∑ j ∈ range c.e.n, A i j * x j - d i =
      k * excess c.e (c.e.trans vect) m (usedRate vect m s) (s.inner c.e s.tstep) x i := by
  unfold assemble at ha
  cases vect
  · simp only [Bool.false_eq_true, if_false] at ha
    obtain ⟨k, hk, hks, h⟩ := (symb_residual hc.scale hc.wf hc.grid.sym hc.grid.networkS hi.mdl hq.canon hq.cfg hq.tinv hq.symb ha).2.2.2 i hin
    exact ⟨k, hk, by simp, hks, h⟩
  · simp only [if_true] at ha
    rw [ok_bind] at ha
    obtain ⟨⟨s1, A1, d1⟩, h1, ha⟩ := ha
    simp only [ok_pure, Prod.mk.injEq] at ha
    obtain ⟨-, -, rfl, rfl⟩ := ha
    exact ⟨1, one_ne_zero, fun _ => rfl, .inl rfl, fun x => by rw [one_mul]; exact vect_residual hc.lower hc.wf (hf rfl) hi.mdl (hz rfl) hi.vinv hq.noStale h1 x hin⟩

theorem core_residual {c : Ctx K} (hc : CtxOK c) {m0 m m' : Mdl K} {s s' : Sol K} (hi : Core c.e m0 m s) (hq : QInv c.lower c.e m s) {vect : Bool}
    (hf : vect = true → c.e.Flat) (hz : vect = true → NoZeroPwf m) {A : ℕ → ℕ → K} {d : ℕ → K} (ha : assemble c vect m s = .ok (m', s', A, d)) {i : ℕ} (hin : i < c.e.n) :
    ∃ k, k ≠ 0 ∧ (vect = true → k = 1) ∧ ∀ x, ∑ j ∈ range c.e.n, A i j * x j - d i =
      k * excess c.e (c.e.trans vect) m (usedRate vect m s) (s.inner c.e s.tstep) x i :=
  let ⟨k, hk, h1, _, h⟩ := core_residual_scale hc hi hq hf hz ha hin
  ⟨k, hk, h1, h⟩

/-- The assembled system says that every cell balances. -/
theorem core_solves {c : Ctx K} (hc : CtxOK c) {m0 m m' : Mdl K} {s s' : Sol K} (hi : Core c.e m0 m s) (hq : QInv c.lower c.e m s) {vect : Bool}
    (hf : vect = true → c.e.Flat) (hz : vect = true → NoZeroPwf m) {A : ℕ → ℕ → K} {d : ℕ → K} (ha : assemble c vect m s = .ok (m', s', A, d)) (x : ℕ → K) :
    Solves c.e.n A d x ↔ ∀ i, i < c.e.n → excess c.e (c.e.trans vect) m (usedRate vect m s) (s.inner c.e s.tstep) x i = 0 := by
  unfold Solves
  refine forall₂_congr fun i hin => ?_
  obtain ⟨k, hk, -, h⟩ := core_residual hc hi hq hf hz ha hin
  rw [← sub_eq_zero, h x, mul_eq_zero]
  simp [hk]

lemma newRow_at {e : Env K} (hn : e.ids.Nodup) (last : ℕ → Option K) (x : ℕ → K) {i : ℕ} (hi : i < e.n) : newRow e.ids last x (e.at i) = some (x i) := by
  unfold newRow; rw [if_pos (at_mem e hi), idx_at e hn hi]

lemma newRow_mem {e : Env K} {last : ℕ → Option K} {x : ℕ → K} {id : ℕ} (hid : id ∈ e.ids) : newRow e.ids last x id = some (x (e.ids.idxOf id)) := by
  unfold newRow; rw [if_pos hid]

lemma Attempted.inner' {c : Ctx K} (he : c.e.WF) {vect again : Bool} {m0 m m' : Mdl K} {s s' : Sol K} {m1 s1 A d x p r' ps} (hi : Core c.e m0 m s)
    (ha : Attempted c vect m0 m m' s s' again m1 s1 A d x p r' ps) {i : ℕ} (h : i < c.e.n) : s'.inner c.e s'.tstep i = x i := by
  unfold Sol.inner
  rw [ha.press, ha.tstep, rowAt_append_eq hi.plen, ha.peq, newRow_at he.nodup _ _ h]; rfl

lemma excess_congr {e : Env K} {T : ℕ → ℕ → K} {m : Mdl K} {rate old x y : ℕ → K} (h : ∀ i, i < e.n → x i = y i) {i : ℕ} (hi : i < e.n) :
    excess e T m rate old x i = excess e T m rate old y i := by
  unfold excess
  rw [h i hi, sum_congr rfl fun j hj => by rw [h j (mem_range.1 hj)]]

/-- **Balance of a step**, with the conditions in force before it. -/
theorem core_balance {c : Ctx K} (hc : CtxOK c) (hx : Exact c.lin) {m0 m m' : Mdl K} {s s' : Sol K} {vect again : Bool} (hi : Core c.e m0 m s)
    (hq : QInv c.lower c.e m s) (hf : vect = true → c.e.Flat) (hz : vect = true → NoZeroPwf m) (ha : attempt c vect m s = .ok (m', s', again)) :
    ∀ i, i < c.e.n → excess c.e (c.e.trans vect) m (usedRate vect m s) (s.inner c.e s.tstep) (s'.inner c.e s'.tstep) i = 0 := by
  obtain ⟨m1, s1, A, d, x, p, r', ps, h⟩ := hi.attempted hc.lower hc.wf ha
  intro i hin
  rw [excess_congr (fun j hj => h.inner' hc.wf hi hj) hin]
  exact (core_solves hc hi hq hf hz h.asm x).1 (hx _ _ _ _ h.lin) i hin

/-! ### the same for states of ordinary histories -/

theorem assemble_residual {c : Ctx K} (hc : CtxOK c) {m0 m m' : Mdl K} {s s' : Sol K} (hi : Inv c.e m0 m s) (hq : QInv c.lower c.e m s) {vect : Bool}
    (hf : vect = true → c.e.Flat) (hz : vect = true → NoZeroPwf m) {A : ℕ → ℕ → K} {d : ℕ → K} (ha : assemble c vect m s = .ok (m', s', A, d)) {i : ℕ} (hin : i < c.e.n) :
    ∃ k, k ≠ 0 ∧ (vect = true → k = 1) ∧ ∀ x, ∑ j ∈ range c.e.n, A i j * x j - d i =
      k * excess c.e (c.e.trans vect) m (usedRate vect m s) (s.inner c.e s.tstep) x i := core_residual hc hi.toCore hq hf hz ha hin

theorem assemble_solves {c : Ctx K} (hc : CtxOK c) {m0 m m' : Mdl K} {s s' : Sol K} (hi : Inv c.e m0 m s) (hq : QInv c.lower c.e m s) {vect : Bool}
    (hf : vect = true → c.e.Flat) (hz : vect = true → NoZeroPwf m) {A : ℕ → ℕ → K} {d : ℕ → K} (ha : assemble c vect m s = .ok (m', s', A, d)) (x : ℕ → K) :
    Solves c.e.n A d x ↔ ∀ i, i < c.e.n → excess c.e (c.e.trans vect) m (usedRate vect m s) (s.inner c.e s.tstep) x i = 0 :=
  core_solves hc hi.toCore hq hf hz ha x

lemma Attempted.inner {c : Ctx K} (he : c.e.WF) {vect again : Bool} {m0 m m' : Mdl K} {s s' : Sol K} {m1 s1 A d x p r' ps} (hi : Inv c.e m0 m s)
    (ha : Attempted c vect m0 m m' s s' again m1 s1 A d x p r' ps) {i : ℕ} (h : i < c.e.n) : s'.inner c.e s'.tstep i = x i := ha.inner' he hi.toCore h

theorem step_balance {c : Ctx K} (hc : CtxOK c) (hx : Exact c.lin) {m0 m m' : Mdl K} {s s' : Sol K} {vect again : Bool} (hi : Inv c.e m0 m s)
    (hq : QInv c.lower c.e m s) (hf : vect = true → c.e.Flat) (hz : vect = true → NoZeroPwf m) (ha : attempt c vect m s = .ok (m', s', again)) :
    ∀ i, i < c.e.n → excess c.e (c.e.trans vect) m (usedRate vect m s) (s.inner c.e s.tstep) (s'.inner c.e s'.tstep) i = 0 :=
  core_balance hc hx hi.toCore hq hf hz ha

end RF.Fdm
