import Verif.Fdm.Fold
/-!
# Folded reservoirs on grids

`FoldLayout`: the cells of a grid lie over the cells of a smaller grid with the same axes. `FoldLooks`: the data of a cell are those of the cell below, apart from a factor by which
the faces and the volume of the cell are larger. `FoldModel`: conditions, wells and initial pressures of a cell are those of the cell below.
-/
set_option linter.unusedSectionVars false
set_option linter.constructorNameAsVariable false
namespace RF.Fdm
open RF RF.Dims RF.Spec Finset

variable {K : Type} [Field K] [LinearOrder K] [IsStrictOrderedRing K]

/-- The cell `c` of the first grid lies over the cell `φ c` of the second. -/
structure FoldLayout (g g' : Dims) (φ : Cell → Cell) : Prop where
  inGrid : ∀ c, InGrid g.nx g.ny g.nz c → InGrid g'.nx g'.ny g'.nz (φ c)
  inner : ∀ c, Interior g.nx g.ny g.nz c → Interior g'.nx g'.ny g'.nz (φ c)
  flow : ∀ a, Flow g'.nx g'.ny g'.nz a → Flow g.nx g.ny g.nz a
  /-- neighbours lie over the same cell or over neighbours -/
  nbr : ∀ a c d, Interior g.nx g.ny g.nz c → Interior g.nx g.ny g.nz d → Adjacent a c d → φ d = φ c ∨ Adjacent a (φ c) (φ d)
  /-- over every neighbour of the cell below there is a neighbour -/
  lift : ∀ a c d', Interior g.nx g.ny g.nz c → Interior g'.nx g'.ny g'.nz d' → Adjacent a (φ c) d' → ∃ d, Interior g.nx g.ny g.nz d ∧ Adjacent a c d ∧ φ d = d'
  /-- and only one -/
  once : ∀ a c d1 d2, Interior g.nx g.ny g.nz c → InGrid g.nx g.ny g.nz d1 → InGrid g.nx g.ny g.nz d2 → Adjacent a c d1 → Adjacent a c d2 → φ d1 = φ d2 → φ d1 ≠ φ c → d1 = d2

/-- The data of the cells of `M` are those of the cells of `M'` below, apart from the faces and pore volumes of the cell `c` being `s c` times as large. -/
structure FoldLooks (M M' : GridModel K) (φ : Cell → Cell) (s : Cell → K) : Prop where
  layout : FoldLayout M.g M'.g φ
  pos : ∀ c, InGrid M.g.nx M.g.ny M.g.nz c → 0 < s c
  weight : ∀ a c d, Flow M'.g.nx M'.g.ny M'.g.nz a → InGrid M.g.nx M.g.ny M.g.nz c → InGrid M.g.nx M.g.ny M.g.nz d → Adjacent a c d → s d = s c
  perm : ∀ a c, Flow M'.g.nx M'.g.ny M'.g.nz a → InGrid M.g.nx M.g.ny M.g.nz c → perm M.g M.rock a c = perm M'.g M'.rock a (φ c)
  along : ∀ a c, Flow M'.g.nx M'.g.ny M'.g.nz a → InGrid M.g.nx M.g.ny M.g.nz c → M.sizes.along c a = M'.sizes.along (φ c) a
  area : ∀ a c, Flow M'.g.nx M'.g.ny M'.g.nz a → InGrid M.g.nx M.g.ny M.g.nz c → M.sizes.area c a = s c * M'.sizes.area (φ c) a
  iso : IsoSpec M.g M.rock ↔ IsoSpec M'.g M'.rock
  β : M'.β = M.β
  mu : M'.mu = M.mu
  B : M'.B = M.B
  comp : M'.comp = M.comp
  storage : M.comp = true → ∀ c, Interior M.g.nx M.g.ny M.g.nz c → storageCoef M c = s c * storageCoef M' (φ c)
  head : ∀ c d, InGrid M.g.nx M.g.ny M.g.nz c → InGrid M.g.nx M.g.ny M.g.nz d →
    M'.grav * (M'.depth.getD (cellNumber M'.g.nx M'.g.ny (φ c)) 0 - M'.depth.getD (cellNumber M'.g.nx M'.g.ny (φ d)) 0) =
      M.grav * (M.depth.getD (cellNumber M.g.nx M.g.ny c) 0 - M.depth.getD (cellNumber M.g.nx M.g.ny d) 0)

/-- Nothing flows over the face: a rate of zero. -/
def ClosedFace (k : String) (v : K) : Prop := k ≠ "pressure" ∧ v = 0

/-- The value of a condition over the condition with value `v`: pressures are the same, rates go with the size of the cell. -/
def overValue (s : K) (k : String) (v : K) : K := if k = "pressure" then v else s * v

/-- A well over a well: the same constraint; an imposed rate goes with the size of the cell; an imposed pressure is the same, and then the well index goes with the size of the cell. -/
structure WellOver (s : K) (e e' : Env K) (w w' : Well K) : Prop where
  con : w.con = w'.con
  rate : w.con = some .q → w.qsp = w'.qsp.map (s * ·)
  pwf : w.con = some .pwf → w.pwfsp = w'.pwfsp ∧ windex e w = s * windex e' w'

/-- Conditions, wells and initial pressures of the first model are those of the second, in all cells over a cell of the second. -/
structure FoldModel (M M' : GridModel K) (φ : Cell → Cell) (s : Cell → K) (e e' : Env K) (m m' : Mdl K) : Prop where
  /-- a face of the first model is closed or lies over a face of the second with the same condition -/
  up : ∀ a x c k v, Boundary M.g.nx M.g.ny M.g.nz x → Interior M.g.nx M.g.ny M.g.nz c → Adjacent a x c → (cellNumber M.g.nx M.g.ny x, k, v) ∈ m.bdict →
    ClosedFace k v ∨ (Boundary M'.g.nx M'.g.ny M'.g.nz (φ x) ∧ Adjacent a (φ x) (φ c) ∧ ∃ v', (cellNumber M'.g.nx M'.g.ny (φ x), k, v') ∈ m'.bdict ∧ v = overValue (s c) k v')
  /-- a face of the second model is closed or lies below faces with the same condition -/
  down : ∀ a x' c k v', Boundary M'.g.nx M'.g.ny M'.g.nz x' → Interior M.g.nx M.g.ny M.g.nz c → Adjacent a x' (φ c) → (cellNumber M'.g.nx M'.g.ny x', k, v') ∈ m'.bdict →
    ClosedFace k v' ∨ ∃ x, Boundary M.g.nx M.g.ny M.g.nz x ∧ Adjacent a x c ∧ φ x = x' ∧ (cellNumber M.g.nx M.g.ny x, k, overValue (s c) k v') ∈ m.bdict
  /-- a well of the first model is over a well of the second -/
  wellUp : ∀ c w, Interior M.g.nx M.g.ny M.g.nz c → (cellNumber M.g.nx M.g.ny c, w) ∈ m.wells → ∃ w', (cellNumber M'.g.nx M'.g.ny (φ c), w') ∈ m'.wells ∧ WellOver (s c) e e' w w'
  /-- every cell over a well has a well -/
  wellDown : ∀ c w', Interior M.g.nx M.g.ny M.g.nz c → (cellNumber M'.g.nx M'.g.ny (φ c), w') ∈ m'.wells → ∃ w, (cellNumber M.g.nx M.g.ny c, w) ∈ m.wells
  init : M.comp = true → ∀ c, Interior M.g.nx M.g.ny M.g.nz c → m.initP (cellNumber M.g.nx M.g.ny c) = m'.initP (cellNumber M'.g.nx M'.g.ny (φ c))

/-! ### helpers -/

lemma adjacent_ne {a : Axis} {c d : Cell} (h : Adjacent a c d) : c ≠ d := by
  rintro rfl
  cases a <;> simp only [Adjacent, near] at h <;> omega

lemma adjacent_symm {a : Axis} {c d : Cell} (h : Adjacent a c d) : Adjacent a d c := by
  cases a <;> simp only [Adjacent, near] at h ⊢ <;> omega

lemma adjacent_axis {a b : Axis} {c d : Cell} (h : Adjacent a c d) (h' : Adjacent b c d) : a = b := by
  cases a <;> cases b <;> simp only [Adjacent, near] at h h' <;> first | rfl | omega

section
variable {M M' : GridModel K} {φ : Cell → Cell} {s : Cell → K}

lemma FoldLooks.pairG (h : FoldLooks M M' φ s) (hM' : M'.Pos) (v : Bool) {a : Axis} (ha : Flow M'.g.nx M'.g.ny M'.g.nz a) {c d : Cell}
    (hc : InGrid M.g.nx M.g.ny M.g.nz c) (hd : InGrid M.g.nx M.g.ny M.g.nz d) (hs : s d = s c) :
    pairG M.g M.sizes M.rock M.β v a c d / (M.mu * M.B) = s c * (pairG M'.g M'.sizes M'.rock M'.β v a (φ c) (φ d) / (M'.mu * M'.B)) := by
  unfold RF.pairG
  have := gForm_scale (v := v) (β := M'.β) (β' := M'.β) (sk := 1) (sA := s c) (sd := 1) hM'.β one_pos (h.pos c hc) one_pos (RF.Spec.perm M'.g M'.rock a (φ c)) (M'.sizes.area (φ c) a) (M'.sizes.along (φ c) a)
    (RF.Spec.perm M'.g M'.rock a (φ d)) (M'.sizes.area (φ d) a) (M'.sizes.along (φ d) a)
  simp only [one_mul, div_one, div_self hM'.β.ne'] at this
  rw [h.perm a c ha hc, h.perm a d ha hd, h.along a c ha hc, h.along a d ha hd, h.area a c ha hc, h.area a d ha hd, hs, ← h.β, this, ← h.mu, ← h.B, mul_div_assoc]

/-- The two reservoirs as the solvers see them. -/
theorem FoldLooks.folds (h : FoldLooks M M' φ s) (hM : M.Pos) (hM' : M'.Pos) {e e' : Env K} (he : M.env = .ok e) (he' : M'.env = .ok e') {vect : Bool}
    (hv : vect = true → M.g.getD ≠ 3 ∧ M'.g.getD ≠ 3) : Folds (renumber M.g M'.g φ) (fun a => s (M.g.dec a)) vect e e' := by
  have wf := FromGrid.wf ⟨M, hM, he⟩
  have wf' := FromGrid.wf ⟨M', hM', he'⟩
  obtain ⟨e1, e2, -, -, e5, -, -, e8, e9, e10, e11, e12, -, e14, -⟩ := env_ok he
  obtain ⟨e1', e2', -, -, e5', -, -, e8', e9', e10', e11', e12', -, e14', -⟩ := env_ok he'
  obtain ⟨iso, hiso, hisoS⟩ := isIsotropic_eq hM.rock
  obtain ⟨iso', hiso', hisoS'⟩ := isIsotropic_eq hM'.rock
  have hii : iso' = iso := by rw [Bool.eq_iff_iff, hisoS, hisoS', h.iso]
  subst hii
  have hid : ∀ a, a ∈ e.ids → Interior M.g.nx M.g.ny M.g.nz (M.g.dec a) := fun a ha => by rw [e1, mem_innerIds] at ha; exact ha
  have hid' : ∀ a, a ∈ e'.ids → Interior M'.g.nx M'.g.ny M'.g.nz (M'.g.dec a) := fun a ha => by rw [e1', mem_innerIds] at ha; exact ha
  have hdec : ∀ a, a ∈ e.ids → M'.g.dec (renumber M.g M'.g φ a) = φ (M.g.dec a) := fun a ha => M'.g.dec_num (h.layout.inGrid _ (Interior.inGrid (hid a ha)))
  have hmem : ∀ a, a ∈ e.ids → renumber M.g M'.g φ a ∈ e'.ids := fun a ha => by
    rw [e1', mem_innerIds, hdec a ha]; exact h.layout.inner _ (hid a ha)
  have hpc : ∀ (N : GridModel K) (f : Env K), f.ids = N.g.innerIds → ∀ a, a ∈ f.ids → f.ids.idxOf a < N.g.getN false ∧ pcell N.g false (f.ids.idxOf a) = N.g.dec a := by
    intro N f h1 a ha
    have hlt : f.ids.idxOf a < N.g.getN false := by rw [getN_false, ← length_innerIds, ← h1]; exact List.idxOf_lt_length_of_mem ha
    refine ⟨hlt, ?_⟩
    have h2 := innerIds_get N.g hlt
    rw [← h1, List.getElem?_eq_getElem (List.idxOf_lt_length_of_mem ha), List.getElem_idxOf, Option.some.injEq] at h2
    rw [← N.g.dec_num (Interior.inGrid (pcell_inner N.g hlt)), ← h2]
  have transS : ∀ a k, a ∈ e.ids → k ∈ e'.ids → k ≠ renumber M.g M'.g φ a →
      ∑ j ∈ range e.n, (if renumber M.g M'.g φ (e.at j) = k then e.transS (e.ids.idxOf a) j else 0) =
        s (M.g.dec a) * e'.transS (e'.ids.idxOf (renumber M.g M'.g φ a)) (e'.ids.idxOf k) := by
    intro a k ha hk hne
    obtain ⟨l1, p1⟩ := hpc M e e1 a ha
    obtain ⟨l1', p1'⟩ := hpc M' e' e1' _ (hmem a ha)
    obtain ⟨l2', p2'⟩ := hpc M' e' e1' k hk
    obtain ⟨t1', t2'⟩ := transS_val hM' he' hiso' l1' l2'
    rw [p1', p2', hdec a ha] at t1' t2'
    -- a cell over `k` that exchanges with `a` is a neighbour over a neighbour
    have over : ∀ j, j < e.n → renumber M.g M'.g φ (e.at j) = k → ∀ x, Adjacent x (M.g.dec a) (M.g.dec (e.at j)) → Adjacent x (φ (M.g.dec a)) (M'.g.dec k) := by
      intro j hj hjk x hx
      have hj' := at_mem e hj
      rw [← hjk, hdec _ hj']
      refine (h.layout.nbr x _ _ (hid a ha) (hid _ hj') hx).resolve_left fun H => hne ?_
      rw [← hjk]; unfold renumber; rw [H]
    have val : ∀ j, j < e.n → (∀ x, Adjacent x (M.g.dec a) (M.g.dec (e.at j)) → e.transS (e.ids.idxOf a) j = RF.pairG M.g M.sizes M.rock M.β iso' x (M.g.dec a) (M.g.dec (e.at j)) / (M.mu * M.B)) ∧
        ((∀ x, ¬ Adjacent x (M.g.dec a) (M.g.dec (e.at j))) → e.transS (e.ids.idxOf a) j = 0) := by
      intro j hj
      obtain ⟨l2, p2⟩ := hpc M e e1 _ (at_mem e hj)
      have := transS_val hM he hiso l1 l2
      rw [p1, p2, idx_at e wf.nodup hj] at this
      exact this
    by_cases hx : ∃ x, Adjacent x (φ (M.g.dec a)) (M'.g.dec k)
    · obtain ⟨x, hx⟩ := hx
      obtain ⟨d, hd, hadj, hdk⟩ := h.layout.lift x _ _ (hid a ha) (hid' k hk) hx
      have hdm : M.g.num d ∈ e.ids := by rw [e1, mem_innerIds, M.g.dec_num (Interior.inGrid hd)]; exact hd
      have hfl := adj_flow (h.layout.inner _ (hid a ha)) (hid' k hk) hx
      rw [sum_eq_single (e.ids.idxOf (M.g.num d))]
      · rw [at_idx e hdm, if_pos, t1' x hx, ← hdk]
        · have := (val _ (idx_lt e hdm)).1 x (by rw [at_idx e hdm, M.g.dec_num (Interior.inGrid hd)]; exact hadj)
          rw [this, at_idx e hdm, M.g.dec_num (Interior.inGrid hd)]
          exact h.pairG hM' iso' hfl (Interior.inGrid (hid a ha)) (Interior.inGrid hd) (h.weight x _ _ hfl (Interior.inGrid (hid a ha)) (Interior.inGrid hd) hadj)
        · unfold renumber
          rw [M.g.dec_num (Interior.inGrid hd), hdk]; exact M'.g.num_dec k
      · intro j hj hne2
        have hj' := mem_range.1 hj
        split_ifs with hjk
        · refine (val j hj').2 fun y hy => hne2 ?_
          have hya := adjacent_axis (over j hj' hjk y hy) hx
          subst hya
          have hjd : φ (M.g.dec (e.at j)) = φ d := by rw [hdk, ← hjk, hdec _ (at_mem e hj')]
          have := h.layout.once y _ _ _ (hid a ha) (Interior.inGrid (hid _ (at_mem e hj'))) (Interior.inGrid hd) hy hadj hjd
            (by rw [hjd, hdk]; exact (adjacent_ne hx).symm)
          rw [← this, show M.g.num (M.g.dec (e.at j)) = e.at j from M.g.num_dec _, idx_at e wf.nodup hj']
        · rfl
      · intro H; exact absurd (mem_range.2 (idx_lt e hdm)) H
    · push Not at hx
      rw [t2' hx, mul_zero]
      refine sum_eq_zero fun j hj => ?_
      split_ifs with hjk
      · exact (val j (mem_range.1 hj)).2 fun y hy => hx y (over j (mem_range.1 hj) hjk y hy)
      · rfl
  refine ⟨hmem, by rw [e10, e10', h.comp], fun a k ha hk hne => ?_, fun a ha => ?_, fun a b ha hb => ?_⟩
  · cases vect
    · exact transS a k ha hk hne
    · obtain ⟨d1, d2⟩ := hv rfl
      have := transS a k ha hk hne
      rw [trans_agree hM' he' d2 (idx_lt e' (hmem a ha)) (idx_lt e' hk)] at this
      rw [show e'.trans true = e'.transV from rfl, ← this]
      refine sum_congr rfl fun j hj => ?_
      rw [trans_agree hM he d1 (idx_lt e ha) (mem_range.1 hj)]
      rfl
  · rw [e11, e11']
    unfold calcRHS
    rw [h.comp]
    split_ifs with hc
    · have hst := h.storage hc _ (hid a ha)
      have V : ∀ (N : GridModel K), N.Pos → ∀ c, InGrid N.g.nx N.g.ny N.g.nz c → N.geom.V.getD (cellNumber N.g.nx N.g.ny c) 0 = N.sizes.volume c := by
        intro N hN c hc
        rw [(geomOf_of_calc hN.geom).V_eq, List.getD_eq_getElem?_getD, List.getElem?_map, List.getElem?_range (show cellNumber N.g.nx N.g.ny c < _ from N.g.num_lt hc)]
        simp only [Option.map_some, Option.getD_some]
        rw [show N.g.dec (cellNumber N.g.nx N.g.ny c) = c from N.g.dec_num hc]
      have v1 := V M hM _ (Interior.inGrid (hid a ha))
      have v2 := V M' hM' _ (h.layout.inGrid _ (Interior.inGrid (hid a ha)))
      unfold storageCoef at hst
      rw [← v1, ← v2, show cellNumber M.g.nx M.g.ny (M.g.dec a) = a from M.g.num_dec a] at hst
      exact hst
    · rw [mul_zero]
  · have := h.head _ _ (Interior.inGrid (hid a ha)) (Interior.inGrid (hid b hb))
    rw [e12, e12', e14, e14, e14', e14']
    rw [show cellNumber M.g.nx M.g.ny (M.g.dec a) = a from M.g.num_dec a, show cellNumber M.g.nx M.g.ny (M.g.dec b) = b from M.g.num_dec b] at this
    exact this

/-! ### faces -/

/-- The interior cell behind a boundary cell and the transmissibility between them. -/
lemma face_grid (hM : M.Pos) {e : Env K} (he : M.env = .ok e) {iso : Bool} (hiso : isIsotropic M.g M.rock = .ok iso) {b id : ℕ} {T : K} (hb : b ∈ e.bnd) :
    e.Face b id T → Boundary M.g.nx M.g.ny M.g.nz (M.g.dec b) ∧ Interior M.g.nx M.g.ny M.g.nz (M.g.dec id) ∧
      ∃ a, Flow M.g.nx M.g.ny M.g.nz a ∧ Adjacent a (M.g.dec b) (M.g.dec id) ∧ T = pairG M.g M.sizes M.rock M.β iso a (M.g.dec b) (M.g.dec id) / (M.mu * M.B) := by
  intro hF
  have hD := env_dim he
  obtain ⟨e1, e2, -, -, e5, -⟩ := env_ok he
  have hbb : Boundary M.g.nx M.g.ny M.g.nz (M.g.dec b) := by rw [e2, M.g.mem_boundIds hD] at hb; exact hb
  have T' : e.transC b false = .ok (transItems M iso b false) := by rw [e5]; exact cellTrans_false hM hiso hbb.1
  rw [Env.Face, T', Except.ok.injEq] at hF
  have hm : (id, T) ∈ transItems M iso b false := by rw [hF]; simp
  obtain ⟨a, h1, h2⟩ := mem_transItems.1 hm
  have h3 : id ∈ (M.g.nbrs ((M.g.num (M.g.dec b) : ℕ) : ℤ) false).get a := by rw [M.g.num_dec]; exact h1
  rw [M.g.mem_nbrs_false _ hbb.1] at h3
  obtain ⟨hf, d, hd, hadj, rfl⟩ := h3
  rw [M.g.dec_num (Interior.inGrid hd)] at h2 ⊢
  exact ⟨hbb, hd, a, hf, hadj, h2⟩

/-- Conversely. -/
lemma grid_face (hM : M.Pos) {e : Env K} (he : M.env = .ok e) {iso : Bool} (hiso : isIsotropic M.g M.rock = .ok iso) {a : Axis} {x c : Cell} (hx : Boundary M.g.nx M.g.ny M.g.nz x)
    (hc : Interior M.g.nx M.g.ny M.g.nz c) (hf : Flow M.g.nx M.g.ny M.g.nz a) (h : Adjacent a x c) :
    e.Face (cellNumber M.g.nx M.g.ny x) (cellNumber M.g.nx M.g.ny c) (pairG M.g M.sizes M.rock M.β iso a x c / (M.mu * M.B)) := by
  have hD := env_dim he
  have wf := FromGrid.wf ⟨M, hM, he⟩
  obtain ⟨e1, e2, -, -, e5, -⟩ := env_ok he
  have hb : cellNumber M.g.nx M.g.ny x ∈ e.bnd := by rw [e2, M.g.mem_boundIds hD, show M.g.dec (cellNumber M.g.nx M.g.ny x) = x from M.g.dec_num hx.1]; exact hx
  have T : e.transC (cellNumber M.g.nx M.g.ny x) false = .ok (transItems M iso (cellNumber M.g.nx M.g.ny x) false) := by
    rw [e5]; exact cellTrans_false hM hiso (by rw [show M.g.dec (cellNumber M.g.nx M.g.ny x) = x from M.g.dec_num hx.1]; exact hx.1)
  have hm : (cellNumber M.g.nx M.g.ny c, pairG M.g M.sizes M.rock M.β iso a x c / (M.mu * M.B)) ∈ transItems M iso (cellNumber M.g.nx M.g.ny x) false := by
    refine mem_transItems.2 ⟨a, (M.g.mem_nbrs_false x hx.1 a (M.g.num c)).2 ⟨hf, c, hc, h, rfl⟩, ?_⟩
    rw [show M.g.dec (cellNumber M.g.nx M.g.ny x) = x from M.g.dec_num hx.1, show M.g.dec (cellNumber M.g.nx M.g.ny c) = c from M.g.dec_num (Interior.inGrid hc)]
  rcases wf.face _ hb with hF | ⟨id, y, -, -, hF⟩
  · rw [T, Except.ok.injEq] at hF; rw [hF] at hm; simp at hm
  · have hF' := hF
    rw [Env.Face, T, Except.ok.injEq] at hF
    rw [hF, List.mem_singleton] at hm
    rw [Prod.mk.injEq] at hm
    rw [hm.1, hm.2]; exact hF'

/-- The axis between a boundary cell and an interior cell carries flow. -/
lemma bound_flow {g : Dims} {a : Axis} {x c : Cell} (hx : Boundary g.nx g.ny g.nz x) (hc : Interior g.nx g.ny g.nz c) (h : Adjacent a x c) : Flow g.nx g.ny g.nz a := by
  obtain ⟨⟨h1, h2, h3⟩, -⟩ := hx
  obtain ⟨c1, c2, c3⟩ := hc
  have key : ∀ n i j, i < padded n → innerCoord n j → near i j → 1 < n := by
    intro n i j h1 h2 h3
    unfold padded innerCoord near at *
    split_ifs at * <;> omega
  cases a
  · exact key _ _ _ h1 c1 h.1
  · exact key _ _ _ h2 c2 h.2.1
  · exact key _ _ _ h3 c3 h.2.2

lemma sum_of_keys {A : Type} [DecidableEq A] {l : List (ℕ × A)} (hl : (l.map (·.1)).Nodup) (f : ℕ × A → K) : (l.map f).sum = ∑ b ∈ l.toFinset, f b :=
  (List.sum_toFinset f (List.Nodup.of_map _ hl)).symm

lemma key_unique {A : Type} {l : List (ℕ × A)} (hl : (l.map (·.1)).Nodup) {x y : ℕ × A} (hx : x ∈ l) (hy : y ∈ l) (h : x.1 = y.1) : x = y :=
  List.inj_on_of_nodup_map hl hx hy h

/-- The conditions and wells as the solvers see them. -/
theorem FoldModel.folds {m m' : Mdl K} {e e' : Env K} (hm : FoldModel M M' φ s e e' m m') (h : FoldLooks M M' φ s) (hM : M.Pos) (hM' : M'.Pos) (he : M.env = .ok e) (he' : M'.env = .ok e')
    (ho : MdlOK e m) (ho' : MdlOK e' m') : FoldsMdl (renumber M.g M'.g φ) (fun a => s (M.g.dec a)) e e' m m' := by
  classical
  have hD := env_dim he
  have hD' := env_dim he'
  obtain ⟨e1, e2, -, -, e5, -, -, e8, e9, e10, e11, e12, -, e14, -⟩ := env_ok he
  obtain ⟨e1', e2', -, -, e5', -, -, e8', e9', e10', e11', e12', -, e14', -⟩ := env_ok he'
  obtain ⟨iso, hiso, hisoS⟩ := isIsotropic_eq hM.rock
  obtain ⟨iso', hiso', hisoS'⟩ := isIsotropic_eq hM'.rock
  have hii : iso' = iso := by rw [Bool.eq_iff_iff, hisoS, hisoS', h.iso]
  subst hii
  have hid : ∀ a, a ∈ e.ids → Interior M.g.nx M.g.ny M.g.nz (M.g.dec a) := fun a ha => by rw [e1, mem_innerIds] at ha; exact ha
  have hren : ∀ a, a ∈ e.ids → renumber M.g M'.g φ a ∈ e'.ids := fun a ha => by
    rw [e1', mem_innerIds]
    unfold renumber
    rw [show M'.g.dec (cellNumber M'.g.nx M'.g.ny (φ (M.g.dec a))) = _ from M'.g.dec_num (h.layout.inGrid _ (Interior.inGrid (hid a ha)))]
    exact h.layout.inner _ (hid a ha)
  have hnum : ∀ (g : Dims) b, cellNumber g.nx g.ny (g.dec b) = b := fun g b => g.num_dec b
  have hdn : ∀ (g : Dims) c, InGrid g.nx g.ny g.nz c → g.dec (cellNumber g.nx g.ny c) = c := fun g c hc => g.dec_num hc
  refine ⟨fun a p ha => ?_, fun a p ha => ?_, fun hc a ha => ?_⟩
  · rw [sum_of_keys ho.bkeys, sum_of_keys ho'.bkeys, mul_sum]
    -- the flow over a face in front of the cell, in terms of cells
    have flow : ∀ x v k, Boundary M.g.nx M.g.ny M.g.nz x → ∀ y, Adjacent y x (M.g.dec a) → Boundary M'.g.nx M'.g.ny M'.g.nz (φ x) → Adjacent y (φ x) (φ (M.g.dec a)) →
        bIn e p (e.ids.idxOf a) (cellNumber M.g.nx M.g.ny x, k, overValue (s (M.g.dec a)) k v) =
          s (M.g.dec a) * bIn e' p (e'.ids.idxOf (renumber M.g M'.g φ a)) (cellNumber M'.g.nx M'.g.ny (φ x), k, v) := by
      intro x v k hx y hy hx' hy'
      have hf' := bound_flow hx' (h.layout.inner _ (hid a ha)) hy'
      have F := grid_face hM he hiso hx (hid a ha) (bound_flow hx (hid a ha) hy) hy
      have F' := grid_face hM' he' hiso' hx' (h.layout.inner _ (hid a ha)) hf' hy'
      rw [hnum] at F
      simp only [Env.Face] at F F'
      have hh := h.head x (M.g.dec a) hx.1 (Interior.inGrid (hid a ha))
      rw [hnum] at hh
      have hsx : s x = s (M.g.dec a) := (h.weight y x _ hf' hx.1 (Interior.inGrid (hid a ha)) hy).symm
      have hT := h.pairG hM' iso' hf' hx.1 (Interior.inGrid (hid a ha)) hsx.symm
      unfold bIn boundaryIn
      simp only [F, F']
      rw [at_idx e ha, at_idx e' (hren a ha), if_pos rfl, if_pos (show cellNumber M'.g.nx M'.g.ny (φ (M.g.dec a)) = renumber M.g M'.g φ a from rfl), e12, e12', e14, e14, e14', e14', ← hh, hT, hsx]
      unfold overValue
      split_ifs
      · ring
      · rfl
    -- what a contributing condition is
    have what : ∀ (N : GridModel K) (f : Env K) (n : Mdl K), N.Pos → N.env = .ok f → MdlOK f n → ∀ i, i ∈ f.ids → ∀ b, b ∈ n.bdict → bIn f p (f.ids.idxOf i) b ≠ 0 →
        Boundary N.g.nx N.g.ny N.g.nz (N.g.dec b.1) ∧ (∃ y, Adjacent y (N.g.dec b.1) (N.g.dec i)) ∧ ¬ ClosedFace b.2.1 b.2.2 := by
      intro N f n hN hf hn i hi b hb h0
      obtain ⟨isoN, hisoN, -⟩ := isIsotropic_eq hN.rock
      rcases (FromGrid.wf ⟨N, hN, hf⟩).face _ (hn.bmem b hb) with hF | ⟨id, T, -, -, hF⟩
      · exact absurd (by unfold bIn boundaryIn; simp only [hF]) h0
      · obtain ⟨g1, g2, y, -, g3, -⟩ := face_grid hN hf hisoN (hn.bmem b hb) hF
        simp only [Env.Face] at hF
        unfold bIn boundaryIn at h0
        simp only [hF] at h0
        rw [at_idx f hi] at h0
        have hidi : id = i := by by_contra H; rw [if_neg H] at h0; exact h0 rfl
        subst hidi
        refine ⟨g1, ⟨y, g3⟩, fun hcl => h0 ?_⟩
        rw [if_pos rfl, if_neg hcl.1, hcl.2]
    have up : ∀ b, b ∈ m.bdict.toFinset → bIn e p (e.ids.idxOf a) b ≠ 0 → Boundary M.g.nx M.g.ny M.g.nz (M.g.dec b.1) ∧ ∃ y, Adjacent y (M.g.dec b.1) (M.g.dec a) ∧
        Boundary M'.g.nx M'.g.ny M'.g.nz (φ (M.g.dec b.1)) ∧ Adjacent y (φ (M.g.dec b.1)) (φ (M.g.dec a)) ∧
        ∃ b', b' ∈ m'.bdict ∧ b'.1 = cellNumber M'.g.nx M'.g.ny (φ (M.g.dec b.1)) ∧ b'.2.1 = b.2.1 ∧ b.2.2 = overValue (s (M.g.dec a)) b.2.1 b'.2.2 := by
      intro b hb h0
      rw [List.mem_toFinset] at hb
      obtain ⟨g1, ⟨y, g2⟩, g3⟩ := what M e m hM he ho a ha b hb h0
      obtain ⟨u1, u2, v', u3, u4⟩ := (hm.up y (M.g.dec b.1) (M.g.dec a) b.2.1 b.2.2 g1 (hid a ha) g2 (by rw [hnum]; exact hb)).resolve_left g3
      exact ⟨g1, y, g2, u1, u2, _, u3, rfl, rfl, u4⟩
    choose! g1 y g2 u1 u2 b' u3 u4 u5 u6 using up
    refine sum_bij_ne_zero (fun b _ _ => b' b) (fun b hb h0 => List.mem_toFinset.2 (u3 b hb h0)) ?_ ?_ ?_
    · intro b1 hb1 h1 b2 hb2 h2 heq
      have k1 := u4 b1 hb1 h1
      have k2 := u4 b2 hb2 h2
      rw [heq, k2] at k1
      have hφ : φ (M.g.dec b2.1) = φ (M.g.dec b1.1) := by
        have := congrArg M'.g.dec k1
        rw [hdn _ _ (u1 b1 hb1 h1).1, hdn _ _ (u1 b2 hb2 h2).1] at this
        exact this
      have hya : y b1 hb1 h1 = y b2 hb2 h2 := adjacent_axis (u2 b1 hb1 h1) (by rw [← hφ]; exact u2 b2 hb2 h2)
      have := h.layout.once (y b1 hb1 h1) (M.g.dec a) _ _ (hid a ha) (g1 b1 hb1 h1).1 (g1 b2 hb2 h2).1 (adjacent_symm (g2 b1 hb1 h1)) (by rw [hya]; exact adjacent_symm (g2 b2 hb2 h2)) hφ.symm
        (adjacent_ne (u2 b1 hb1 h1))
      refine key_unique ho.bkeys (List.mem_toFinset.1 hb1) (List.mem_toFinset.1 hb2) ?_
      rw [← M.g.num_dec b1.1, ← M.g.num_dec b2.1, this]
    · intro d hd h0
      rw [List.mem_toFinset] at hd
      have h0' : bIn e' p (e'.ids.idxOf (renumber M.g M'.g φ a)) d ≠ 0 := fun H => h0 (by rw [H, mul_zero])
      obtain ⟨k1, ⟨z, k2⟩, k3⟩ := what M' e' m' hM' he' ho' _ (hren a ha) d hd h0'
      have hda : M'.g.dec (renumber M.g M'.g φ a) = φ (M.g.dec a) := hdn _ _ (h.layout.inGrid _ (Interior.inGrid (hid a ha)))
      rw [hda] at k2
      obtain ⟨x, w1, w2, w3, w4⟩ := (hm.down z (M'.g.dec d.1) (M.g.dec a) d.2.1 d.2.2 k1 (hid a ha) k2 (by rw [hnum]; exact hd)).resolve_left k3
      have hfl := flow x d.2.2 d.2.1 w1 z w2 (by rw [w3]; exact k1) (by rw [w3]; exact k2)
      have hd' : (cellNumber M'.g.nx M'.g.ny (φ x), d.2.1, d.2.2) = d := by rw [w3, hnum]
      rw [hd'] at hfl
      have hne : bIn e p (e.ids.idxOf a) (cellNumber M.g.nx M.g.ny x, d.2.1, overValue (s (M.g.dec a)) d.2.1 d.2.2) ≠ 0 := by rw [hfl]; exact h0
      refine ⟨_, List.mem_toFinset.2 w4, hne, key_unique ho'.bkeys (u3 _ (List.mem_toFinset.2 w4) hne) hd ?_⟩
      rw [u4 _ (List.mem_toFinset.2 w4) hne]
      dsimp only
      rw [hdn _ _ w1.1, w3, hnum]
    · intro b hb h0
      have hfl := flow (M.g.dec b.1) (b' b).2.2 b.2.1 (g1 b hb h0) (y b hb h0) (g2 b hb h0) (u1 b hb h0) (u2 b hb h0)
      rw [← u6 b hb h0, hnum, ← u4 b hb h0] at hfl
      rw [hfl]; congr 2
      exact Prod.ext rfl (Prod.ext (u5 b hb h0).symm rfl)
  · rw [sum_of_keys ho.wkeys, sum_of_keys ho'.wkeys]
    have single : ∀ (f : Env K) (n : Mdl K), MdlOK f n → ∀ i, i ∈ f.ids → (∀ w, (i, w) ∈ n.wells → ∑ x ∈ n.wells.toFinset, wIn f p (f.ids.idxOf i) x = wIn f p (f.ids.idxOf i) (i, w)) ∧
        ((∀ w, (i, w) ∉ n.wells) → ∑ x ∈ n.wells.toFinset, wIn f p (f.ids.idxOf i) x = 0) := by
      intro f n hn i hi
      refine ⟨fun w hw => sum_eq_single _ (fun x hx hne => ?_) (fun H => absurd (List.mem_toFinset.2 hw) H), fun H => sum_eq_zero fun x hx => ?_⟩
      · unfold wIn
        rw [if_neg]
        rw [at_idx f hi]
        exact fun H => hne (key_unique hn.wkeys (List.mem_toFinset.1 hx) hw H)
      · unfold wIn
        rw [if_neg]
        rw [at_idx f hi]
        rintro rfl
        exact H x.2 (List.mem_toFinset.1 hx)
    obtain ⟨p1, p2⟩ := single e m ho a ha
    obtain ⟨q1, q2⟩ := single e' m' ho' _ (hren a ha)
    by_cases hw : ∃ w, (a, w) ∈ m.wells
    · obtain ⟨w, hw⟩ := hw
      obtain ⟨w', hw', ho⟩ := hm.wellUp (M.g.dec a) w (hid a ha) (by rw [hnum]; exact hw)
      rw [p1 w hw, q1 w' hw']
      unfold wIn
      rw [if_pos (at_idx e ha).symm, if_pos (at_idx e' (hren a ha)).symm]
      dsimp only
      rw [← ho.con]
      rcases hcon : w.con with _ | _ | _
      · rw [mul_zero]
      · dsimp only
        rw [ho.rate hcon]
        rcases w'.qsp with _ | q <;> simp
      · dsimp only
        rw [(ho.pwf hcon).1, (ho.pwf hcon).2, mul_assoc]
    · push Not at hw
      rw [p2 hw, q2, mul_zero]
      intro w' hw'
      obtain ⟨w, hw2⟩ := hm.wellDown (M.g.dec a) w' (hid a ha) hw'
      rw [hnum] at hw2
      exact hw w hw2
  · have := hm.init (by rw [← e10]; exact hc) _ (hid a ha)
    rw [hnum] at this
    exact this

end
end RF.Fdm
