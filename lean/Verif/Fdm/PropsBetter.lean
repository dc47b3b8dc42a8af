import Verif.Fdm.Energy
import Verif.Fdm.PropsCoeff
import Verif.Fdm.PropsTrend
import Verif.Fdm.PropsDarcy
import Verif.Fdm.PropsReciprocal
/-!
# C94: better rock and more openings never lower the flow

A steady (incompressible) reservoir is held at one head in some places (boundary cells of given pressure, wells of given bottom-hole pressure) and at a lower head in others. Raising permeabilities
anywhere, lowering viscosity or formation volume factor, opening further boundary cells or wells at one of the two heads: none of it lowers the flow from the higher to the lower head.
-/
set_option linter.unusedSectionVars false
namespace RF.Fdm
open RF RF.Dims RF.Spec Finset

variable {K : Type} [Field K] [LinearOrder K] [IsStrictOrderedRing K]

/-! ### Specification -/

/-- The same grid, sizes, depths and density; permeabilities not smaller, viscosity and formation volume factor not larger. -/
structure BetterRock (M M' : GridModel K) : Prop where
  grid : M'.g = M.g
  sizes : M'.sizes = M.sizes
  depth : M'.depth = M.depth
  grav : M'.grav = M.grav
  β : M'.β = M.β
  perm : ∀ a c, InGrid M.g.nx M.g.ny M.g.nz c → perm M.g M.rock a c ≤ perm M'.g M'.rock a c
  mu : M'.mu ≤ M.mu
  B : M'.B ≤ M.B

/-- Every pressure condition and every well of the first model is one of the second, the well with no smaller factor; the second may have more of them. -/
structure MoreOpen (m n : Mdl K) : Prop where
  bd : ∀ b, b ∈ m.bdict → b.2.1 = "pressure" → b ∈ n.bdict
  well : ∀ w, w ∈ m.wells → ∃ w', w' ∈ n.wells ∧ w'.1 = w.1 ∧ w'.2.pwfsp = w.2.pwfsp ∧ w.2.G.getD 0 ≤ w'.2.G.getD 0

/-- Given pressures and bottom-hole pressures have one of two heads, given rates are zero, no well has a target rate. -/
structure TwoHeads (e : Env K) (H L : K) (m : Mdl K) : Prop where
  bd : ∀ b, b ∈ m.bdict → b.2.1 = "pressure" → e.head b.1 b.2.2 = H ∨ e.head b.1 b.2.2 = L
  rate : ∀ b, b ∈ m.bdict → b.2.1 ≠ "pressure" → b.2.2 = 0 ∧ m.initR b.1 = 0
  well : ∀ w, w ∈ m.wells → w.2.qsp = none ∧ (e.head w.1 (w.2.pwfsp.getD 0) = H ∨ e.head w.1 (w.2.pwfsp.getD 0) = L)

/-- What is recorded at step `t` as entering the reservoir where the head is `H`. -/
def feed (e : Env K) (H : K) (m : Mdl K) (s : Sol K) (t : ℕ) : K :=
  (m.bdict.map fun b => if b.2.1 = "pressure" ∧ e.head b.1 b.2.2 = H then rowAt s.rates t 0 b.1 else 0).sum +
    (m.wells.map fun w => if e.head w.1 (w.2.pwfsp.getD 0) = H then rowAt s.rates t 0 w.1 else 0).sum

/-- One assembler throughout, the vectorised one not with gravity between cells (C32) or with a well at bottom-hole pressure zero (C48). -/
def Single (e : Env K) (vect : Bool) : Bool → Mdl K → Mdl K → Prop := fun v m _ => v = vect ∧ (vect = true → e.Flat ∧ NoZeroPwf m)

/-! ### conductances of better rock -/

lemma halfResistance_anti {d A k k' : K} (hd : 0 < d) (hA : 0 < A) (hk : 0 < k) (h : k ≤ k') : halfResistance d A k' ≤ halfResistance d A k := by
  unfold halfResistance
  exact div_le_div_of_nonneg_left (by positivity) (by positivity) (mul_le_mul_of_nonneg_left h hA.le)

lemma series_mono {β d1 A1 k1 d2 A2 k2 k1' k2' : K} (hβ : 0 ≤ β) (hd1 : 0 < d1) (hA1 : 0 < A1) (hd2 : 0 < d2) (hA2 : 0 < A2) (h1 : 0 ≤ k1) (h2 : 0 ≤ k2) (l1 : k1 ≤ k1') (l2 : k2 ≤ k2') :
    series β d1 A1 k1 d2 A2 k2 ≤ series β d1 A1 k1' d2 A2 k2' := by
  by_cases h : k1 = 0 ∨ k2 = 0
  · have : series β d1 A1 k1 d2 A2 k2 = 0 := by unfold series; rw [if_pos h]
    rw [this]
    exact series_nonneg hβ hd1 hA1 hd2 hA2 (h1.trans l1) (h2.trans l2)
  · push Not at h
    have p1 : 0 < k1 := lt_of_le_of_ne h1 (Ne.symm h.1)
    have p2 : 0 < k2 := lt_of_le_of_ne h2 (Ne.symm h.2)
    have q1 := lt_of_lt_of_le p1 l1
    have q2 := lt_of_lt_of_le p2 l2
    unfold series
    rw [if_neg (by push Not; exact h), if_neg (by push Not; exact ⟨q1.ne', q2.ne'⟩)]
    have r : ∀ {d A k : K}, 0 < d → 0 < A → 0 < k → 0 < halfResistance d A k := fun hd hA hk => by unfold halfResistance; positivity
    exact div_le_div_of_nonneg_left hβ (add_pos (r hd1 hA1 q1) (r hd2 hA2 q2)) (add_le_add (halfResistance_anti hd1 hA1 p1 l1) (halfResistance_anti hd2 hA2 p2 l2))

/-- Larger conductances between the same cells. -/
structure MoreFlow (vect : Bool) (e e' : Env K) : Prop where
  ids : e'.ids = e.ids
  bnd : e'.bnd = e.bnd
  trans : ∀ i j, i < e.n → j < e.n → e.trans vect i j ≤ e'.trans vect i j
  face : ∀ b, b ∈ e.bnd → (e.transC b false = .ok [] ∧ e'.transC b false = .ok []) ∨ ∃ id T T', id ∈ e.ids ∧ e.Face b id T ∧ e'.Face b id T' ∧ 0 ≤ T ∧ T ≤ T'
  head : e'.head = e.head
  fluid : e'.B * e'.mu ≤ e.B * e.mu

section
variable {M M' : GridModel K}

lemma BetterRock.pairG (h : BetterRock M M') (hM : M.Pos) (hM' : M'.Pos) (hp : PlainEdge M) (hp' : PlainEdge M') {iso iso' : Bool} (hiso : iso = true ↔ IsoSpec M.g M.rock)
    (hiso' : iso' = true ↔ IsoSpec M'.g M'.rock) {a : Axis} {c d : Cell} (hc : InGrid M.g.nx M.g.ny M.g.nz c) (hd : Interior M.g.nx M.g.ny M.g.nz d) (had : Adjacent a c d) :
    pairG M.g M.sizes M.rock M.β iso a c d / (M.mu * M.B) ≤ pairG M'.g M'.sizes M'.rock M'.β iso' a c d / (M'.mu * M'.B) := by
  rw [plain_pair hM hp hiso hc hd had, plain_pair hM' hp' hiso' (by rw [h.grid]; exact hc) (by rw [h.grid]; exact hd) had]
  have i2 := Interior.inGrid hd
  have d1 := along_pos hM.sizes hc a; have A1 := area_pos hM.sizes hc a; have d2 := along_pos hM.sizes i2 a; have A2 := area_pos hM.sizes i2 a
  have k1 := hM.permB a c hc; have k2 := hM.permB a d i2
  have h1 : RF.Spec.face M.g M.sizes M.rock M.β a c d ≤ RF.Spec.face M'.g M'.sizes M'.rock M'.β a c d := by
    unfold RF.Spec.face
    rw [h.sizes, h.β]
    exact series_mono hM.β.le d1 A1 d2 A2 k1 k2 (h.perm a c hc) (h.perm a d i2)
  have h0 : 0 ≤ RF.Spec.face M.g M.sizes M.rock M.β a c d := series_nonneg hM.β.le d1 A1 d2 A2 k1 k2
  have := hM'.mu; have := hM'.B
  exact div_le_div₀ (h0.trans h1) h1 (by positivity) (mul_le_mul h.mu h.B hM'.B.le hM.mu.le)

/-- Better rock conducts better, between any two cells and over any face. -/
theorem BetterRock.env (h : BetterRock M M') (hM : M.Pos) (hM' : M'.Pos) (hp : PlainEdge M) (hp' : PlainEdge M') {e e' : Env K} (he : M.env = .ok e) (he' : M'.env = .ok e')
    {vect : Bool} (hv : vect = true → M.g.getD ≠ 3) : MoreFlow vect e e' := by
  have hD := env_dim he
  have wf := FromGrid.wf ⟨M, hM, he⟩
  obtain ⟨e1, e2, -, -, e5, -, -, e8, e9, e10, e11, e12, -, e14, -⟩ := env_ok he
  obtain ⟨e1', e2', -, -, e5', -, -, e8', e9', e10', e11', e12', -, e14', -⟩ := env_ok he'
  obtain ⟨iso, hiso, hisoS⟩ := isIsotropic_eq hM.rock
  obtain ⟨iso', hiso', hisoS'⟩ := isIsotropic_eq hM'.rock
  have gids : e'.ids = e.ids := by rw [e1, e1', h.grid]
  have gbnd : e'.bnd = e.bnd := by rw [e2, e2', h.grid]
  have hn : e.n = M.g.getN false := by unfold Env.n; rw [e1, length_innerIds, getN_false]
  have hn' : e'.n = e.n := by unfold Env.n; rw [gids]
  have hid : ∀ a, a ∈ e.ids → Interior M.g.nx M.g.ny M.g.nz (M.g.dec a) := fun a ha => by rw [e1, mem_innerIds] at ha; exact ha
  have hbd : ∀ a, a ∈ e.bnd → Boundary M.g.nx M.g.ny M.g.nz (M.g.dec a) := fun a ha => by rw [e2, M.g.mem_boundIds hD] at ha; exact ha
  have transS : ∀ i j, i < e.n → j < e.n → e.transS i j ≤ e'.transS i j := fun i j hi hj => by
    rw [hn] at hi hj
    obtain ⟨t1, t2⟩ := transS_val hM he hiso hi hj
    obtain ⟨t1', t2'⟩ := transS_val hM' he' hiso' (i := i) (j := j) (by rw [h.grid]; exact hi) (by rw [h.grid]; exact hj)
    by_cases hx : ∃ x, Adjacent x (pcell M.g false i) (pcell M.g false j)
    · obtain ⟨x, hx⟩ := hx
      rw [t1 x hx, t1' x (by rw [h.grid]; exact hx)]
      have := h.pairG hM hM' hp hp' hisoS hisoS' (Interior.inGrid (pcell_inner M.g hi)) (pcell_inner M.g hj) hx
      rw [h.grid] at this ⊢
      exact this
    · push Not at hx
      rw [t2 hx, t2' (by rw [h.grid]; exact hx)]
  refine ⟨gids, gbnd, fun i j hi hj => ?_, fun b hb => ?_, ?_, ?_⟩
  · cases vect
    · exact transS i j hi hj
    · have := transS i j hi hj
      rw [trans_agree hM he (hv rfl) hi hj, trans_agree hM' he' (by rw [h.grid]; exact hv rfl) (by rw [hn']; exact hi) (by rw [hn']; exact hj)] at this
      exact this
  · have hbi := (hbd b hb).1
    have T : e.transC b false = .ok (transItems M iso b false) := by rw [e5]; exact cellTrans_false hM hiso hbi
    have T' : e'.transC b false = .ok (transItems M' iso' b false) := by rw [e5']; exact cellTrans_false hM' hiso' (by rw [h.grid]; exact hbi)
    have keys : (transItems M' iso' b false).map (·.1) = (transItems M iso b false).map (·.1) := by rw [keys_transItems, keys_transItems, h.grid]
    rcases wf.face b hb with hF | ⟨id, x, hid1, hx, hF⟩
    · refine .inl ⟨hF, ?_⟩
      rw [T, Except.ok.injEq] at hF
      rw [hF, List.map_nil, List.map_eq_nil_iff] at keys
      rw [T', keys]
    · refine .inr ?_
      have hF2 := hF
      rw [Env.Face, T, Except.ok.injEq] at hF
      rw [hF] at keys
      obtain ⟨⟨id', x'⟩, hq⟩ : ∃ q, transItems M' iso' b false = [q] := by
        rw [← List.length_eq_one_iff, ← List.length_map (f := (·.1)), keys]; rfl
      rw [hq] at keys
      simp only [List.map_cons, List.map_nil, List.cons.injEq, and_true] at keys
      subst keys
      refine ⟨id', x, x', hid1, hF2, by rw [Env.Face, T', hq], hx, ?_⟩
      obtain ⟨a, m1, rfl⟩ := mem_transItems.1 (show (id', x) ∈ transItems M iso b false by rw [hF]; simp)
      obtain ⟨a', m2, rfl⟩ := mem_transItems.1 (show (id', x') ∈ transItems M' iso' b false by rw [hq]; simp)
      have adj : ∀ y, id' ∈ (M.g.nbrs (b : ℤ) false).get y → Adjacent y (M.g.dec b) (M.g.dec id') := fun y hy => by
        have h2 : id' ∈ (M.g.nbrs ((M.g.num (M.g.dec b) : ℕ) : ℤ) false).get y := by rw [M.g.num_dec]; exact hy
        rw [M.g.mem_nbrs_false _ hbi] at h2
        obtain ⟨-, d, hd1, hadj, hd2⟩ := h2
        rw [hd2, M.g.dec_num (Interior.inGrid hd1)]; exact hadj
      have ha1 := adj a m1
      have ha2 := adj a' (by rw [h.grid] at m2; exact m2)
      have : a' = a := adj_unique ha2 ha1
      subst this
      have := h.pairG hM hM' hp hp' hisoS hisoS' hbi (hid id' hid1) ha1
      rw [h.grid] at this ⊢
      exact this
  · funext id p
    unfold Env.head
    rw [e12, e12', e14, e14', h.grav, h.depth]
  · rw [e8, e9, e8', e9']
    first
    | exact mul_le_mul h.B h.mu hM'.mu.le hM.B.le
    | (have := mul_le_mul h.mu h.B hM'.B.le hM.mu.le; linarith)

end

/-! ### the steady balances of a history -/

/-- Conductance from the cell at position `i` to boundary cells and wells whose head satisfies `P`. -/
def toHead (e : Env K) (P : K → Prop) [DecidablePred P] (m : Mdl K) (i : ℕ) : K :=
  (m.bdict.map fun b => if b.2.1 = "pressure" ∧ P (e.head b.1 b.2.2) then faceLeak e i b.1 else 0).sum +
    (m.wells.map fun w => if P (e.head w.1 (w.2.pwfsp.getD 0)) then (if w.1 = e.at i then windex e w.2 else 0) else 0).sum

lemma sum_map_mul_right {α : Type} (l : List α) (f : α → K) (k : K) : (l.map fun x => f x * k).sum = (l.map f).sum * k := by
  induction l with
  | nil => simp
  | cons a l ih => simp only [List.map_cons, List.sum_cons, ih, add_mul]

lemma outside_heads {e : Env K} {H L : K} {m : Mdl K} (ht : TwoHeads e H L m) (rate : ℕ → K) (hrate : ∀ b, b ∈ m.bdict → b.2.1 ≠ "pressure" → rate b.1 = 0)
    (hw : ∀ w, w ∈ m.wells → w.2.con = some .pwf ∧ w.2.pwf = w.2.pwfsp) (p : K) (i : ℕ) :
    outsideIn e m rate p i = toHead e (· = H) m i * (H - e.head (e.at i) p) + toHead e (· ≠ H) m i * (L - e.head (e.at i) p) := by
  unfold outsideIn toHead
  rw [add_mul, add_mul, ← sum_map_mul_right, ← sum_map_mul_right, ← sum_map_mul_right, ← sum_map_mul_right]
  have e1 : (m.bdict.map (boundaryIn e rate p i)).sum = (m.bdict.map fun b => (if b.2.1 = "pressure" ∧ e.head b.1 b.2.2 = H then faceLeak e i b.1 else 0) * (H - e.head (e.at i) p)).sum +
      (m.bdict.map fun b => (if b.2.1 = "pressure" ∧ e.head b.1 b.2.2 ≠ H then faceLeak e i b.1 else 0) * (L - e.head (e.at i) p)).sum := by
    rw [← List.sum_map_add]
    refine congrArg List.sum (List.map_congr_left fun b hb => ?_)
    have key : b.2.1 = "pressure" → boundaryIn e rate p i b = faceLeak e i b.1 * (e.head b.1 b.2.2 - e.head (e.at i) p) := fun hk => by
      unfold boundaryIn faceLeak Env.head
      split
      · rename_i id T _
        split_ifs with hid
        · rw [hid]; ring
        · ring
      · ring
    by_cases hk : b.2.1 = "pressure"
    · rw [key hk]
      by_cases hH : e.head b.1 b.2.2 = H
      · rw [if_pos ⟨hk, hH⟩, if_neg (by simp [hH]), hH]; ring
      · rw [if_neg (by simp [hH]), if_pos ⟨hk, hH⟩, (ht.bd b hb hk).resolve_left hH]; ring
    · rw [if_neg (by simp [hk]), if_neg (by simp [hk])]
      unfold boundaryIn
      split
      · rw [if_neg hk, hrate b hb hk]; simp
      · simp
  have e2 : (m.wells.map (wellIn e p i)).sum = (m.wells.map fun w => (if e.head w.1 (w.2.pwfsp.getD 0) = H then (if w.1 = e.at i then windex e w.2 else 0) else 0) * (H - e.head (e.at i) p)).sum +
      (m.wells.map fun w => (if e.head w.1 (w.2.pwfsp.getD 0) ≠ H then (if w.1 = e.at i then windex e w.2 else 0) else 0) * (L - e.head (e.at i) p)).sum := by
    rw [← List.sum_map_add]
    refine congrArg List.sum (List.map_congr_left fun w h => ?_)
    obtain ⟨c1, c2⟩ := hw w h
    have key : wellIn e p i w = (if w.1 = e.at i then windex e w.2 else 0) * (e.head w.1 (w.2.pwfsp.getD 0) - e.head (e.at i) p) := by
      unfold wellIn wellFlow windex Env.head
      split_ifs with hid
      · rw [c1, c2, hid]; ring
      · ring
    rw [key]
    by_cases hH : e.head w.1 (w.2.pwfsp.getD 0) = H
    · rw [if_pos hH, if_neg (not_not.2 hH), hH]; ring
    · rw [if_neg hH, if_pos hH, ((ht.well w h).2).resolve_left hH]; ring
  rw [e1, e2]; ring

lemma toHead_same {e : Env K} (P : K → Prop) [DecidablePred P] {m m' : Mdl K} (h : SameMdl m m') (i : ℕ) : toHead e P m' i = toHead e P m i := by
  unfold toHead
  rw [h.bdict]
  congr 1
  have : ∀ {l l' : List (ℕ × Well K)}, SameWells l l' → (l'.map fun w => if P (e.head w.1 (w.2.pwfsp.getD 0)) then (if w.1 = e.at i then windex e w.2 else 0) else 0).sum =
      (l.map fun w => if P (e.head w.1 (w.2.pwfsp.getD 0)) then (if w.1 = e.at i then windex e w.2 else 0) else 0).sum := fun h => by
    induction h with
    | nil => rfl
    | @cons x y _ _ hxy _ ih =>
      simp only [List.map_cons, List.sum_cons, ih]
      unfold windex
      rw [hxy.1, hxy.2.1, hxy.2.2.1]
  exact this h.wells

section
variable {c : Ctx K} {m0 m : Mdl K} {s : Sol K} {vect : Bool} {H L : K}

/-- Wells without target rates stay at their bottom-hole pressures. -/
lemma held_calm (hr : Ready c m0) (ht : TwoHeads c.e H L m0) (hh : Hist c (Single c.e vect) m0 m s) : Hist c Calm m0 m s := by
  induction hh with
  | start => exact .start
  | @step m s v m' s' hh hat hp ih =>
    refine .step ih hat ⟨?_, fun hv => (hp.2 (hp.1 ▸ hv)).2⟩
    have hi := hr.inv ih
    obtain ⟨_, _, _, _, _, p, r', _, h1⟩ := attempted hr.ctx.lower hr.ctx.wf hi hat
    intro x y hx hy hxy hc
    obtain ⟨x', hx', h2, h3⟩ := (forall2_mem h1.move).1 y hy
    have := mem_unique hi.mdl.wkeys hx hx' (by rw [hxy, h2])
    subst this
    rcases h3 with h3 | h3 | ⟨qs, h3, -, -⟩
    · rw [h3]; exact hc
    · rw [h3]; rfl
    · obtain ⟨w, hw, h4⟩ := (forall2_mem hi.same.wells).1 x hx
      rw [h4.2.2.2, (ht.well w hw).1] at h3
      cases h3
  | @again m s v m' s' hh hat hp ih =>
    refine .again ih hat ⟨?_, fun hv => (hp.2 (hp.1 ▸ hv)).2⟩
    have hi := hr.inv ih
    obtain ⟨_, _, _, _, _, p, r', _, h1⟩ := attempted hr.ctx.lower hr.ctx.wf hi hat
    intro x y hx hy hxy hc
    obtain ⟨x', hx', h2, h3⟩ := (forall2_mem h1.move).1 y hy
    have := mem_unique hi.mdl.wkeys hx hx' (by rw [hxy, h2])
    subst this
    rcases h3 with h3 | h3 | ⟨qs, h3, -, -⟩
    · rw [h3]; exact hc
    · rw [h3]; rfl
    · obtain ⟨w, hw, h4⟩ := (forall2_mem hi.same.wells).1 x hx
      rw [h4.2.2.2, (ht.well w hw).1] at h3
      cases h3
  | look hh ha ih => exact .look ih ha
  | clock n t hh ih => exact .clock n t ih

/-- Every completed step of an incompressible reservoir satisfies the steady balances, in terms of heads. -/
lemma held_balance (hr : Ready c m0) (hx : Exact c.lin) (ht : TwoHeads c.e H L m0) (hc : c.e.comp = false) (hh : Hist c (Single c.e vect) m0 m s) :
    ∀ t, 0 < t → t ≤ s.tstep → ∀ i, i < c.e.n →
      ∑ j ∈ range c.e.n, c.e.trans vect i j * (c.e.head (c.e.at j) (s.inner c.e t j) - c.e.head (c.e.at i) (s.inner c.e t i)) +
        toHead c.e (· = H) m0 i * (H - c.e.head (c.e.at i) (s.inner c.e t i)) + toHead c.e (· ≠ H) m0 i * (L - c.e.head (c.e.at i) (s.inner c.e t i)) = 0 := by
  induction hh with
  | start => exact fun t h0 ht => absurd ht (by show ¬ t ≤ 0; omega)
  | @step m s v m' s' hh hat hp ih =>
    have hcalm := held_calm hr ht hh
    obtain ⟨hi, hq⟩ := hr.calm hcalm
    obtain ⟨_, _, _, _, x, p, r', _, h1⟩ := attempted hr.ctx.lower hr.ctx.wf hi hat
    obtain ⟨rfl, hpv⟩ := hp
    intro t h0 htt i hin
    by_cases ht' : t = s'.tstep
    · have hbal := step_balance hr.ctx hx hi hq (fun hv => (hpv hv).1) (fun hv => (hpv hv).2) hat i hin
      have tm : TwoHeads c.e H L m := by
        refine ⟨by rw [hi.same.bdict]; exact ht.bd, by rw [hi.same.bdict, hi.same.initR]; exact ht.rate, fun w hw => ?_⟩
        obtain ⟨w0, hw0, h4⟩ := (forall2_mem hi.same.wells).1 w hw
        rw [h4.1, h4.2.2.1, h4.2.2.2]; exact ht.well w0 hw0
      have hw : ∀ w, w ∈ m.wells → w.2.con = some .pwf ∧ w.2.pwf = w.2.pwfsp := fun w hw => by
        obtain ⟨f1, f2⟩ := (hi.mdl.well w hw).free (tm.well w hw).1
        refine ⟨?_, f1⟩
        rcases hcw : w.2.con with _ | _ | _
        · exact absurd hcw (hq.cfg w hw)
        · exact absurd hcw f2
        · rfl
      have hrate : ∀ b, b ∈ m.bdict → b.2.1 ≠ "pressure" → usedRate v m s b.1 = 0 := fun b hb hk => by
        have hb0 : b ∈ m0.bdict := by rw [← hi.same.bdict]; exact hb
        rw [usedRate_eq hr.ctx.wf hr.started.mdl hi v hb0 hk, (ht.rate b hb0 hk).1, (ht.rate b hb0 hk).2, ite_self]
      unfold excess at hbal
      rw [outside_heads tm _ hrate hw, hr.ctx.wf.rhsI hc, toHead_same _ hi.same, toHead_same _ hi.same] at hbal
      subst ht'
      rw [← hbal]
      have : ∀ j, c.e.trans v i j * (c.e.head (c.e.at j) (s'.inner c.e s'.tstep j) - c.e.head (c.e.at i) (s'.inner c.e s'.tstep i)) =
          c.e.trans v i j * (s'.inner c.e s'.tstep j - s'.inner c.e s'.tstep i - c.e.grav * (c.e.z (c.e.at j) - c.e.z (c.e.at i))) := fun j => by unfold Env.head; ring
      rw [sum_congr rfl fun j _ => this j]; ring
    · rw [h1.tstep] at htt ht'
      have : s'.inner c.e t = s.inner c.e t := by
        funext j; unfold Sol.inner; rw [h1.press, rowAt_append_lt (by rw [hi.plen]; omega)]
      rw [this]
      exact ih t h0 (by omega) i hin
  | @again m s v m' s' hh hat hp ih =>
    have hi := hr.inv hh
    obtain ⟨m1, s1, A, d, x, p, r', ps, h1⟩ := attempted hr.ctx.lower hr.ctx.wf hi hat
    obtain ⟨b1, b2, b3⟩ := back_attempted hi h1
    unfold Sol.inner at ih ⊢
    rw [b1, b3]; exact ih
  | look hh hat ih =>
    obtain ⟨-, vA, bV, res, sM, rfl⟩ := assemble_frame hat
    exact ih
  | clock n t hh ih => exact ih

/-- The rates recorded for boundary cells under pressure conditions follow from the recorded pressures. -/
lemma hist_fluxes {P : Bool → Mdl K → Mdl K → Prop} (hr : Ready c m0) (hh : Hist c P m0 m s) : Fluxes c m0 s ∧ ∀ b v, (b, "pressure", v) ∈ m0.bdict → 0 < s.tstep → ∃ id T, c.e.Face b id T := by
  induction hh with
  | start => exact ⟨fun k h0 hk => absurd hk (by show ¬ k ≤ 0; omega), fun b v _ h => absurd h (by show ¬ 0 < 0; omega)⟩
  | @step m s v m' s' hh hat hp ih =>
    have hi := hr.inv hh
    obtain ⟨_, _, _, _, _, p, r', _, h1⟩ := attempted hr.ctx.lower hr.ctx.wf hi hat
    refine ⟨fun k h0 hk b v id T hbm hF => ?_, fun b v hbm _ => ?_⟩
    · by_cases hk' : k = s'.tstep
      · have hbm' : (b, "pressure", v) ∈ m.bdict := by rw [hi.same.bdict]; exact hbm
        obtain ⟨id', T', hF', hrr⟩ := h1.bound b (upd_of_mem hi.mdl hbm' rfl)
        have := (show c.e.transC b false = _ from hF).symm.trans hF'
        simp only [Except.ok.injEq, List.cons.injEq, Prod.mk.injEq, and_true] at this
        obtain ⟨rfl, rfl⟩ := this
        rw [hk', h1.rates, h1.press, h1.tstep, rowAt_append_eq hi.rlen, rowAt_append_eq hi.plen, hrr, bTerm_pressure hr.ctx.lower (v := v) (by rw [dictGet_of_mem hi.mdl.bkeys hbm'])]
        simp only [Aff.smul, Aff.sub, Aff.c]; ring
      · rw [h1.tstep] at hk hk'
        rw [h1.rates, h1.press, rowAt_append_lt (by rw [hi.rlen]; omega), rowAt_append_lt (by rw [hi.plen]; omega)]
        exact ih.1 k h0 (by omega) b v id T hbm hF
    · have hbm' : (b, "pressure", v) ∈ m.bdict := by rw [hi.same.bdict]; exact hbm
      obtain ⟨id', T', hF', -⟩ := h1.bound b (upd_of_mem hi.mdl hbm' rfl)
      exact ⟨id', T', hF'⟩
  | @again m s v m' s' hh hat hp ih =>
    have hi := hr.inv hh
    obtain ⟨m1, s1, A, d, x, p, r', ps, h1⟩ := attempted hr.ctx.lower hr.ctx.wf hi hat
    obtain ⟨b1, b2, b3⟩ := back_attempted hi h1
    unfold Fluxes at ih ⊢
    rw [b1, b2, b3]; exact ih
  | look hh hat ih =>
    obtain ⟨-, vA, bV, res, sM, rfl⟩ := assemble_frame hat
    exact ih
  | clock n t hh ih => exact ih

/-- What is recorded as entering is the flow through the conductances to the higher head. -/
lemma feed_flow (hr : Ready c m0) (ht : TwoHeads c.e H L m0) (hh : Hist c (Single c.e vect) m0 m s) {t : ℕ} (h0 : 0 < t) (htt : t ≤ s.tstep) :
    feed c.e H m0 s t = ∑ i ∈ range c.e.n, toHead c.e (· = H) m0 i * (H - c.e.head (c.e.at i) (s.inner c.e t i)) := by
  obtain ⟨f1, f2⟩ := hist_fluxes hr hh
  have hb := hist_best hr (held_calm hr ht hh) t h0 htt
  have he := hr.ctx.wf
  have hmd := hr.started.mdl
  set y : ℕ → K := fun id => H - c.e.head id ((rowAt s.press t none id).getD 0) with hy
  have hyi : ∀ i, H - c.e.head (c.e.at i) (s.inner c.e t i) = y (c.e.at i) := fun i => rfl
  have one : ∀ {id : ℕ} (k : K), id ∈ c.e.ids → ∑ i ∈ range c.e.n, (if id = c.e.at i then k else 0) * y (c.e.at i) = k * y id := fun k hid => sum_at_id he y hid k
  unfold feed toHead
  simp only [hyi, add_mul, sum_add_distrib]
  congr 1
  · have sw : ∀ l : List (ℕ × String × K), ∑ i ∈ range c.e.n, (l.map fun b => if b.2.1 = "pressure" ∧ c.e.head b.1 b.2.2 = H then faceLeak c.e i b.1 else 0).sum * y (c.e.at i) =
        (l.map fun b => ∑ i ∈ range c.e.n, (if b.2.1 = "pressure" ∧ c.e.head b.1 b.2.2 = H then faceLeak c.e i b.1 else 0) * y (c.e.at i)).sum := fun l => by
      induction l with
      | nil => simp
      | cons a l ih => simp only [List.map_cons, List.sum_cons, add_mul, sum_add_distrib, ih]
    rw [sw]
    refine congrArg List.sum (List.map_congr_left fun b hbm => ?_)
    by_cases hk : b.2.1 = "pressure" ∧ c.e.head b.1 b.2.2 = H
    · rw [if_pos hk]
      simp only [if_pos hk]
      obtain ⟨b1, b2, b3⟩ := b
      obtain ⟨rfl, hH⟩ := hk
      dsimp only at hH ⊢
      obtain ⟨id, T, hF⟩ := f2 b1 b3 hbm (by omega)
      have hid : id ∈ c.e.ids := by
        rcases he.face b1 (hmd.bmem _ hbm) with h | ⟨id', T', h', -, hF'⟩
        · rw [show c.e.transC b1 false = _ from hF] at h; cases h
        · have := (show c.e.transC b1 false = _ from hF).symm.trans hF'
          simp only [Except.ok.injEq, List.cons.injEq, Prod.mk.injEq, and_true] at this
          rw [this.1]; exact h'
      have : ∀ i, faceLeak c.e i b1 = if id = c.e.at i then 2 * T else 0 := fun i => by
        unfold faceLeak; rw [show c.e.transC b1 false = _ from hF]
      simp only [this]
      rw [one _ hid, f1 t h0 htt b1 b3 id T hbm hF, hy]
      dsimp only
      rw [← hH]; unfold Env.head; ring
    · rw [if_neg hk]
      simp only [if_neg hk, zero_mul, sum_const_zero]
  · have sw : ∀ l : List (ℕ × Well K), ∑ i ∈ range c.e.n, (l.map fun w => if c.e.head w.1 (w.2.pwfsp.getD 0) = H then (if w.1 = c.e.at i then windex c.e w.2 else 0) else 0).sum * y (c.e.at i) =
        (l.map fun w => ∑ i ∈ range c.e.n, (if c.e.head w.1 (w.2.pwfsp.getD 0) = H then (if w.1 = c.e.at i then windex c.e w.2 else 0) else 0) * y (c.e.at i)).sum := fun l => by
      induction l with
      | nil => simp
      | cons a l ih => simp only [List.map_cons, List.sum_cons, add_mul, sum_add_distrib, ih]
    rw [sw]
    refine congrArg List.sum (List.map_congr_left fun w hw => ?_)
    by_cases hk : c.e.head w.1 (w.2.pwfsp.getD 0) = H
    · rw [if_pos hk]
      simp only [if_pos hk]
      rw [one _ (hmd.wmem w hw), hb w hw, hy]
      dsimp only
      unfold bestRate
      rw [(ht.well w hw).1]
      dsimp only
      rw [← hk]; unfold Env.head Sol.at; ring
    · rw [if_neg hk]
      simp only [if_neg hk, zero_mul, sum_const_zero]

end

/-! ### comparison -/

/-- A sum over a list of keyed items is at most another one if every item that matters has a counterpart under the same key. -/
lemma sum_le_cover {α : Type} {f f' : ℕ × α → K} {l l' : List (ℕ × α)} (hk : (l.map (·.1)).Nodup) (h0 : ∀ x, x ∈ l' → 0 ≤ f' x)
    (h : ∀ x, x ∈ l → f x ≤ 0 ∨ ∃ x', x' ∈ l' ∧ x'.1 = x.1 ∧ f x ≤ f' x') : (l.map f).sum ≤ (l'.map f').sum := by
  induction l generalizing l' with
  | nil => exact sum_nonneg' h0
  | cons x l ih =>
    simp only [List.map_cons, List.nodup_cons, List.mem_map, not_exists, not_and] at hk
    rw [List.map_cons, List.sum_cons]
    rcases h x (by simp) with h1 | ⟨x', hx', h2, h3⟩
    · have := ih hk.2 h0 fun y hy => h y (by simp [hy])
      linarith
    · obtain ⟨u, v, rfl⟩ := List.append_of_mem hx'
      have := ih (l' := u ++ v) hk.2 (fun y hy => h0 y (by simp only [List.mem_append, List.mem_cons] at hy ⊢; tauto)) fun y hy => by
        rcases h y (by simp [hy]) with h4 | ⟨y', hy', h5, h6⟩
        · exact .inl h4
        · refine .inr ⟨y', ?_, h5, h6⟩
          simp only [List.mem_append, List.mem_cons] at hy' ⊢
          rcases hy' with hy' | hy' | hy'
          · exact .inl hy'
          · rw [hy', h2] at h5
            exact absurd h5.symm (hk.1 y hy)
          · exact .inr hy'
      simp only [List.map_append, List.map_cons, List.sum_append, List.sum_cons] at this ⊢
      linarith

lemma toHead_nonneg {e : Env K} (he : e.WF) {m : Mdl K} (hm : MdlOK e m) (P : K → Prop) [DecidablePred P] (i : ℕ) : 0 ≤ toHead e P m i := by
  refine add_nonneg (sum_nonneg' fun b hb => ?_) (sum_nonneg' fun w hw => ?_)
  · split_ifs
    · exact faceLeak_nonneg he i (hm.bmem b hb)
    · exact le_rfl
  · split_ifs
    · exact (windex_pos he.B he.mu (hm.well w hw)).le
    · exact le_rfl
    · exact le_rfl

lemma MoreFlow.at {vect : Bool} {e e' : Env K} (h : MoreFlow vect e e') : e'.at = e.at := by funext i; unfold Env.at; rw [h.ids]
lemma MoreFlow.card {vect : Bool} {e e' : Env K} (h : MoreFlow vect e e') : e'.n = e.n := by unfold Env.n; rw [h.ids]

lemma toHead_mono {vect : Bool} {e e' : Env K} (h : MoreFlow vect e e') (he' : e'.WF) {m n : Mdl K} (hm : MdlOK e m) (hn : MdlOK e' n) (ho : MoreOpen m n) (P : K → Prop) [DecidablePred P] (i : ℕ) :
    toHead e P m i ≤ toHead e' P n i := by
  refine add_le_add (sum_le_cover hm.bkeys (fun b hb => ?_) fun b hb => ?_) (sum_le_cover hm.wkeys (fun w hw => ?_) fun w hw => ?_)
  · split_ifs
    · exact faceLeak_nonneg he' i (hn.bmem b hb)
    · exact le_rfl
  · by_cases hk : b.2.1 = "pressure" ∧ P (e.head b.1 b.2.2)
    · refine .inr ⟨b, ho.bd b hb hk.1, rfl, ?_⟩
      rw [if_pos hk, h.head, if_pos hk]
      unfold faceLeak
      rcases h.face b.1 (hm.bmem b hb) with ⟨h1, h2⟩ | ⟨id, T, T', hid, h1, h2, h3, h4⟩
      · rw [h1, h2]
      · rw [show e.transC b.1 false = _ from h1, show e'.transC b.1 false = _ from h2, h.at]
        dsimp only
        split_ifs
        · linarith
        · exact le_rfl
    · rw [if_neg hk]; exact .inl le_rfl
  · split_ifs
    · exact (windex_pos he'.B he'.mu (hn.well w hw)).le
    · exact le_rfl
    · exact le_rfl
  · obtain ⟨w', hw', h1, h2, h3⟩ := ho.well w hw
    refine .inr ⟨w', hw', h1, ?_⟩
    rw [h.head, h.at, h1, h2]
    split_ifs
    · unfold windex
      have g0 : 0 ≤ w.2.G.getD 0 := by obtain ⟨G, hG, hG0⟩ := (hm.well w hw).G; rw [hG]; exact hG0.le
      exact div_le_div₀ (g0.trans h3) h3 (mul_pos he'.B he'.mu) h.fluid
    · exact le_rfl
    · exact le_rfl

/-- **C94** (partial): two incompressible reservoirs on the same grid between the same two heads; rock and fluid of the second are not worse, and the second has at least the openings of the first. Then
whatever was done with the two models, what any completed step of the second records as entering at the higher head is not less than what any completed step of the first does, and neither is
negative. -/
theorem C94_flow_partial {M M' : GridModel K} (hM : M.Pos) (hM' : M'.Pos) (hd : BetterRock M M') (hp : PlainEdge M) (hp' : PlainEdge M') {vect : Bool} (hv : vect = true → M.g.getD ≠ 3) {c c' : Ctx K}
    (he : M.env = .ok c.e) (he' : M'.env = .ok c'.e) {m0 n0 : Mdl K} (hr : Ready c m0) (hr' : Ready c' n0) (hx : Exact c.lin) (hx' : Exact c'.lin) (hc : c.e.comp = false) (hc' : c'.e.comp = false)
    (ho : MoreOpen m0 n0) {H L : K} (hHL : L < H) (ht : TwoHeads c.e H L m0) (ht' : TwoHeads c'.e H L n0) {m n : Mdl K} {s s' : Sol K} (hh : Hist c (Single c.e vect) m0 m s)
    (hh' : Hist c' (Single c'.e vect) n0 n s') {t t' : ℕ} (h0 : 0 < t) (htt : t ≤ s.tstep) (h0' : 0 < t') (htt' : t' ≤ s'.tstep) :
    0 ≤ feed c.e H m0 s t ∧ feed c.e H m0 s t ≤ feed c'.e H n0 s' t' := by
  have hf := hd.env hM hM' hp hp' he he' hv
  have b1 := held_balance hr hx ht hc hh t h0 htt
  have b2 := held_balance hr' hx' ht' hc' hh' t' h0' htt'
  have T1 := hr.ctx.grid.network vect
  have T2 := hr'.ctx.grid.network vect
  have wf := hr.ctx.wf
  have wf' := hr'.ctx.wf
  rw [feed_flow hr ht hh h0 htt, feed_flow hr' ht' hh' h0' htt']
  rw [hf.card] at b2 T2 ⊢
  exact Net.flow_mono T1.symm T2.symm T1.nonneg hf.trans (fun i _ => toHead_nonneg wf hr.started.mdl _ i) (fun i _ => toHead_nonneg wf hr.started.mdl _ i)
    (fun i _ => toHead_mono hf wf' hr.started.mdl hr'.started.mdl ho _ i) (fun i _ => toHead_mono hf wf' hr.started.mdl hr'.started.mdl ho _ i) hHL b1 b2

end RF.Fdm
