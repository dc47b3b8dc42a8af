import Verif.Fdm.Similar
/-!
# The same reservoir on another grid

`Layout`: the cells of a second grid are those of the first, seen differently (mirrored, axes exchanged, …). `Looks`: the second reservoir has, in corresponding cells,
the data of the first, up to constant factors.
-/
set_option linter.unusedSectionVars false
namespace RF.Fdm
open RF RF.Dims RF.Spec Finset

variable {K : Type} [Field K] [LinearOrder K] [IsStrictOrderedRing K]

/-- The cell `φ c` of the second grid takes the place of the cell `c` of the first, the axis `π a` the place of the axis `a`. -/
structure Layout (g g' : Dims) (φ : Cell → Cell) (π : Axis → Axis) : Prop where
  inGrid : ∀ c, InGrid g.nx g.ny g.nz c → InGrid g'.nx g'.ny g'.nz (φ c)
  inner : ∀ c, InGrid g.nx g.ny g.nz c → (Interior g'.nx g'.ny g'.nz (φ c) ↔ Interior g.nx g.ny g.nz c)
  inj : ∀ c d, InGrid g.nx g.ny g.nz c → InGrid g.nx g.ny g.nz d → φ c = φ d → c = d
  surj : ∀ c', InGrid g'.nx g'.ny g'.nz c' → ∃ c, InGrid g.nx g.ny g.nz c ∧ φ c = c'
  axes : Function.Surjective π
  flow : ∀ a, Flow g'.nx g'.ny g'.nz (π a) ↔ Flow g.nx g.ny g.nz a
  adj : ∀ a c d, InGrid g.nx g.ny g.nz c → InGrid g.nx g.ny g.nz d → (Adjacent (π a) (φ c) (φ d) ↔ Adjacent a c d)

/-- Pore volume times compressibility of a cell per unit of volume conversion, formation volume factor and time step. -/
def storageCoef (M : GridModel K) (c : Cell) : K :=
  M.sizes.volume c * M.phi.getD (cellNumber M.g.nx M.g.ny c) 0 * M.ct / (M.vconv * M.B * M.dt)

/-- By what all conductances are multiplied when permeabilities are multiplied by `sk`, face areas by `sA`, cell lengths by `sd`. -/
def condScale (M M' : GridModel K) (sk sA sd : K) : K := M'.β / M.β * (sk * sA / sd) * (M.mu * M.B / (M'.mu * M'.B))

/-- The second reservoir is the first, laid out differently, with permeabilities, face areas and lengths multiplied by constants, gravity heads by `α`, storage by the same
factor as conductances. -/
structure Looks (M M' : GridModel K) (φ : Cell → Cell) (π : Axis → Axis) (α sk sA sd : K) : Prop where
  layout : Layout M.g M'.g φ π
  stored : ∀ a, M'.rock.k (π a) = none ↔ M.rock.k a = none
  perm : ∀ a c, InGrid M.g.nx M.g.ny M.g.nz c → perm M'.g M'.rock (π a) (φ c) = sk * perm M.g M.rock a c
  along : ∀ a c, Flow M.g.nx M.g.ny M.g.nz a → InGrid M.g.nx M.g.ny M.g.nz c → M'.sizes.along (φ c) (π a) = sd * M.sizes.along c a
  area : ∀ a c, Flow M.g.nx M.g.ny M.g.nz a → InGrid M.g.nx M.g.ny M.g.nz c → M'.sizes.area (φ c) (π a) = sA * M.sizes.area c a
  comp : M'.comp = M.comp
  storage : M.comp = true → ∀ c, Interior M.g.nx M.g.ny M.g.nz c → storageCoef M' (φ c) = condScale M M' sk sA sd * storageCoef M c
  head : ∀ c d, InGrid M.g.nx M.g.ny M.g.nz c → InGrid M.g.nx M.g.ny M.g.nz d →
    M'.grav * (M'.depth.getD (cellNumber M'.g.nx M'.g.ny (φ c)) 0 - M'.depth.getD (cellNumber M'.g.nx M'.g.ny (φ d)) 0) =
      α * (M.grav * (M.depth.getD (cellNumber M.g.nx M.g.ny c) 0 - M.depth.getD (cellNumber M.g.nx M.g.ny d) 0))

/-- The number, in the second grid, of the cell that takes the place of the cell numbered `id`. -/
def renumber (g g' : Dims) (φ : Cell → Cell) (id : ℕ) : ℕ := cellNumber g'.nx g'.ny (φ (g.dec id))

lemma renumber_cell {g g' : Dims} (φ : Cell → Cell) {c : Cell} (hc : InGrid g.nx g.ny g.nz c) : renumber g g' φ (cellNumber g.nx g.ny c) = cellNumber g'.nx g'.ny (φ c) := by
  unfold renumber
  rw [show g.dec (cellNumber g.nx g.ny c) = c from g.dec_num hc]

/-! ### geometric factors -/

lemma gForm_scale {v : Bool} {β β' sk sA sd : K} (hβ : 0 < β) (hk : 0 < sk) (hA : 0 < sA) (hd : 0 < sd) (k1 A1 d1 k2 A2 d2 : K) :
    gForm v β' (sk * k1) (sA * A1) (sd * d1) (sk * k2) (sA * A2) (sd * d2) = β' / β * (sk * sA / sd) * gForm v β k1 A1 d1 k2 A2 d2 := by
  have hk' := hk.ne'; have hA' := hA.ne'; have hd' := hd.ne'; have hβ' := hβ.ne'
  unfold gForm
  cases v
  · simp only [Bool.false_eq_true, if_false]
    unfold gHarm
    have z : ∀ A k : K, sA * A * (sk * k) = 0 ↔ A * k = 0 := fun A k => by
      rw [show sA * A * (sk * k) = sA * sk * (A * k) by ring, mul_eq_zero]
      exact ⟨fun h => h.resolve_left (mul_ne_zero hA' hk'), .inr⟩
    simp only [z]
    split_ifs with h
    · rw [mul_zero]
    · push Not at h
      have e : ∀ d A k : K, sd * d / (sA * A * (sk * k)) = sd / (sk * sA) * (d / (A * k)) := fun d A k => by
        rw [show sA * A * (sk * k) = sk * sA * (A * k) by ring, mul_div_mul_comm]
      rw [e, e, ← mul_add]
      generalize d1 / (A1 * k1) + d2 / (A2 * k2) = D
      by_cases hD : D = 0
      · rw [hD]; simp
      · field_simp
  · simp only [if_true]
    unfold gArith
    rw [← mul_add, ← mul_add, ← mul_add]
    generalize k1 + k2 = k
    generalize A1 + A2 = A
    generalize d1 + d2 = d
    by_cases hD : d = 0
    · rw [hD]; simp
    · field_simp

section
variable {M M' : GridModel K} {φ : Cell → Cell} {π : Axis → Axis} {α sk sA sd : K}

lemma Looks.iso (h : Looks M M' φ π α sk sA sd) (hk : 0 < sk) : IsoSpec M'.g M'.rock ↔ IsoSpec M.g M.rock := by
  unfold IsoSpec
  constructor
  · intro H a ha c d hc hd
    have hc' := Interior.inGrid hc
    have hd' := Interior.inGrid hd
    have := H (π a) (fun hn => ha ((h.stored a).1 hn)) (φ c) (φ d) ((h.layout.inner c hc').2 hc) ((h.layout.inner d hd').2 hd)
    rw [h.perm a c hc', h.perm a d hd'] at this
    exact mul_left_cancel₀ hk.ne' this
  · intro H a' ha' c' d' hc hd
    obtain ⟨a, rfl⟩ := h.layout.axes a'
    obtain ⟨c, hc1, rfl⟩ := h.layout.surj c' (Interior.inGrid hc)
    obtain ⟨d, hd1, rfl⟩ := h.layout.surj d' (Interior.inGrid hd)
    rw [h.perm a c hc1, h.perm a d hd1, H a (fun hn => ha' ((h.stored a).2 hn)) c d ((h.layout.inner c hc1).1 hc) ((h.layout.inner d hd1).1 hd)]

lemma Looks.pairG (h : Looks M M' φ π α sk sA sd) (hM : M.Pos) (hM' : M'.Pos) (hk : 0 < sk) (hA : 0 < sA) (hd : 0 < sd) (v : Bool) {a : Axis} (ha : Flow M.g.nx M.g.ny M.g.nz a) {c d : Cell}
    (hc : InGrid M.g.nx M.g.ny M.g.nz c) (hdd : InGrid M.g.nx M.g.ny M.g.nz d) :
    pairG M'.g M'.sizes M'.rock M'.β v (π a) (φ c) (φ d) / (M'.mu * M'.B) = condScale M M' sk sA sd * (pairG M.g M.sizes M.rock M.β v a c d / (M.mu * M.B)) := by
  unfold RF.pairG condScale
  rw [h.perm a c hc, h.perm a d hdd, h.along a c ha hc, h.along a d ha hdd, h.area a c ha hc, h.area a d ha hdd, gForm_scale (β := M.β) hM.β hk hA hd]
  generalize gForm v M.β _ _ _ _ _ _ = G
  have := hM.mu.ne'; have := hM.B.ne'; have := hM'.mu.ne'; have := hM'.B.ne'; have := hM.β.ne'; have := hd.ne'
  field_simp

lemma condScale_pos (hM : M.Pos) (hM' : M'.Pos) (hk : 0 < sk) (hA : 0 < sA) (hd : 0 < sd) : 0 < condScale M M' sk sA sd := by
  unfold condScale
  have := hM.mu; have := hM.B; have := hM'.mu; have := hM'.B; have := hM.β; have := hM'.β
  positivity

/-- A reservoir laid out differently is similar to the original, whatever assembler is used, except that the vectorised one must not be used on three-dimensional grids. -/
theorem Looks.similar (h : Looks M M' φ π α sk sA sd) (hM : M.Pos) (hM' : M'.Pos) (hk : 0 < sk) (hA : 0 < sA) (hd : 0 < sd) {e e' : Env K} (he : M.env = .ok e) (he' : M'.env = .ok e') {vect : Bool}
    (hv : vect = true → M.g.getD ≠ 3 ∧ M'.g.getD ≠ 3) : Similar (renumber M.g M'.g φ) α (condScale M M' sk sA sd) vect e e' := by
  have hD := env_dim he
  have hD' := env_dim he'
  have wf := FromGrid.wf ⟨M, hM, he⟩
  have wf' := FromGrid.wf ⟨M', hM', he'⟩
  obtain ⟨e1, e2, -, -, e5, -, -, e8, e9, e10, e11, e12, -, e14, -⟩ := env_ok he
  obtain ⟨e1', e2', -, -, e5', -, -, e8', e9', e10', e11', e12', -, e14', -⟩ := env_ok he'
  obtain ⟨iso, hiso, hisoS⟩ := isIsotropic_eq hM.rock
  obtain ⟨iso', hiso', hisoS'⟩ := isIsotropic_eq hM'.rock
  have hii : iso' = iso := by
    rw [Bool.eq_iff_iff, hisoS, hisoS', h.iso hk]
  subst hii
  have hid : ∀ a, a ∈ e.ids → Interior M.g.nx M.g.ny M.g.nz (M.g.dec a) := fun a ha => by rw [e1, mem_innerIds] at ha; exact ha
  have hbd : ∀ a, a ∈ e.bnd → Boundary M.g.nx M.g.ny M.g.nz (M.g.dec a) := fun a ha => by rw [e2, M.g.mem_boundIds hD] at ha; exact ha
  have hin : ∀ a, (a ∈ e.ids ∨ a ∈ e.bnd) → InGrid M.g.nx M.g.ny M.g.nz (M.g.dec a) := fun a ha => ha.elim (fun ha => Interior.inGrid (hid a ha)) fun ha => (hbd a ha).1
  have hdec : ∀ a, (a ∈ e.ids ∨ a ∈ e.bnd) → M'.g.dec (renumber M.g M'.g φ a) = φ (M.g.dec a) := fun a ha => M'.g.dec_num (h.layout.inGrid _ (hin a ha))
  have hinj : ∀ a b, (a ∈ e.ids ∨ a ∈ e.bnd) → (b ∈ e.ids ∨ b ∈ e.bnd) → renumber M.g M'.g φ a = renumber M.g M'.g φ b → a = b := by
    intro a b ha hb hab
    have h1 := congrArg M'.g.dec hab
    rw [hdec a ha, hdec b hb] at h1
    have h2 := h.layout.inj _ _ (hin a ha) (hin b hb) h1
    rw [← M.g.num_dec a, ← M.g.num_dec b, h2]
  have hmem : ∀ a, a ∈ e.ids → renumber M.g M'.g φ a ∈ e'.ids := fun a ha => by
    rw [e1', mem_innerIds, hdec a (.inl ha)]
    exact (h.layout.inner _ (hin a (.inl ha))).2 (hid a ha)
  have hmemb : ∀ a, a ∈ e.bnd → renumber M.g M'.g φ a ∈ e'.bnd := fun a ha => by
    rw [e2', M'.g.mem_boundIds hD', hdec a (.inr ha)]
    exact ⟨h.layout.inGrid _ (hin a (.inr ha)), fun H => (hbd a ha).2 ((h.layout.inner _ (hin a (.inr ha))).1 H)⟩
  have hback : ∀ k', k' ∈ e'.ids → ∃ k, k ∈ e.ids ∧ renumber M.g M'.g φ k = k' := by
    intro k' hk'
    rw [e1', mem_innerIds] at hk'
    obtain ⟨c, hc, hc2⟩ := h.layout.surj _ (Interior.inGrid hk')
    refine ⟨M.g.num c, ?_, ?_⟩
    · rw [e1, mem_innerIds, M.g.dec_num hc]
      rw [← hc2] at hk'
      exact (h.layout.inner c hc).1 hk'
    · unfold renumber
      rw [M.g.dec_num hc, hc2]; exact M'.g.num_dec k'
  -- position of a cell
  have hpc : ∀ (N : GridModel K) (f : Env K), f.ids = N.g.innerIds → ∀ a, a ∈ f.ids → f.ids.idxOf a < N.g.getN false ∧ pcell N.g false (f.ids.idxOf a) = N.g.dec a := by
    intro N f h1 a ha
    have hlt : f.ids.idxOf a < N.g.getN false := by rw [getN_false, ← length_innerIds, ← h1]; exact List.idxOf_lt_length_of_mem ha
    refine ⟨hlt, ?_⟩
    have h2 := innerIds_get N.g hlt
    rw [← h1, List.getElem?_eq_getElem (List.idxOf_lt_length_of_mem ha), List.getElem_idxOf, Option.some.injEq] at h2
    rw [← N.g.dec_num (Interior.inGrid (pcell_inner N.g hlt)), ← h2]
  have transS : ∀ a b, a ∈ e.ids → b ∈ e.ids → e'.transS (e'.ids.idxOf (renumber M.g M'.g φ a)) (e'.ids.idxOf (renumber M.g M'.g φ b)) =
      condScale M M' sk sA sd * e.transS (e.ids.idxOf a) (e.ids.idxOf b) := by
    intro a b ha hb
    obtain ⟨l1, p1⟩ := hpc M e e1 a ha
    obtain ⟨l2, p2⟩ := hpc M e e1 b hb
    obtain ⟨l1', p1'⟩ := hpc M' e' e1' _ (hmem a ha)
    obtain ⟨l2', p2'⟩ := hpc M' e' e1' _ (hmem b hb)
    obtain ⟨t1, t2⟩ := transS_val hM he hiso l1 l2
    obtain ⟨t1', t2'⟩ := transS_val hM' he' hiso' l1' l2'
    rw [p1, p2] at t1 t2
    rw [p1', p2', hdec a (.inl ha), hdec b (.inl hb)] at t1' t2'
    by_cases hx : ∃ x, Adjacent x (M.g.dec a) (M.g.dec b)
    · obtain ⟨x, hx⟩ := hx
      rw [t1 x hx, t1' (π x) ((h.layout.adj x _ _ (hin a (.inl ha)) (hin b (.inl hb))).2 hx)]
      exact h.pairG hM hM' hk hA hd iso' (adj_flow (hid a ha) (hid b hb) hx) (hin a (.inl ha)) (hin b (.inl hb))
    · push Not at hx
      rw [t2 hx, t2', mul_zero]
      intro x' hx'
      obtain ⟨x, rfl⟩ := h.layout.axes x'
      exact hx x ((h.layout.adj x _ _ (hin a (.inl ha)) (hin b (.inl hb))).1 hx')
  refine ⟨?_, hinj, by rw [e10, e10', h.comp], ?_, ?_, ?_, ?_⟩
  · refine (List.perm_ext_iff_of_nodup wf'.nodup (wf.nodup.map_on fun a ha b hb => hinj a b (.inl ha) (.inl hb))).2 fun k => ?_
    rw [List.mem_map]
    exact ⟨fun hk => hback k hk, fun ⟨a, ha, hk⟩ => hk ▸ hmem a ha⟩
  · intro a b ha hb
    cases vect
    · exact transS a b ha hb
    · obtain ⟨d1, d2⟩ := hv rfl
      have := transS a b ha hb
      rw [trans_agree hM he d1 (idx_lt e ha) (idx_lt e hb), trans_agree hM' he' d2 (idx_lt e' (hmem a ha)) (idx_lt e' (hmem b hb))] at this
      exact this
  · intro b l hb hl
    have hbi := (hbd b hb).1
    have T : e.transC b false = .ok (transItems M iso' b false) := by rw [e5]; exact cellTrans_false hM hiso hbi
    have T' : e'.transC (renumber M.g M'.g φ b) false = .ok (transItems M' iso' (renumber M.g M'.g φ b) false) := by
      rw [e5']; exact cellTrans_false hM' hiso' (by rw [hdec b (.inr hb)]; exact h.layout.inGrid _ hbi)
    have key : ∀ k' x', (k', x') ∈ transItems M' iso' (renumber M.g M'.g φ b) false → ∃ k x, (k, x) ∈ transItems M iso' b false ∧ k' = renumber M.g M'.g φ k ∧ x' = condScale M M' sk sA sd * x := by
      intro k' x' hkx
      obtain ⟨a', h1, rfl⟩ := mem_transItems.1 hkx
      have h2 : k' ∈ (M'.g.nbrs ((M'.g.num (φ (M.g.dec b)) : ℕ) : ℤ) false).get a' := h1
      rw [M'.g.mem_nbrs_false _ (h.layout.inGrid _ hbi)] at h2
      obtain ⟨hf, d', hd1, hadj, rfl⟩ := h2
      obtain ⟨a, rfl⟩ := h.layout.axes a'
      obtain ⟨d, hdg, rfl⟩ := h.layout.surj d' (Interior.inGrid hd1)
      have hfa := (h.layout.flow a).1 hf
      have hdi := (h.layout.inner d hdg).1 hd1
      refine ⟨M.g.num d, RF.pairG M.g M.sizes M.rock M.β iso' a (M.g.dec b) (M.g.dec (M.g.num d)) / (M.mu * M.B), mem_transItems.2 ⟨a, ?_, rfl⟩, ?_, ?_⟩
      · have := (M.g.mem_nbrs_false (M.g.dec b) hbi a (M.g.num d)).2 ⟨hfa, d, hdi, (h.layout.adj a _ _ hbi hdg).1 hadj, rfl⟩
        rw [M.g.num_dec] at this; exact this
      · unfold renumber; rw [M.g.dec_num hdg]; rfl
      · rw [hdec b (.inr hb), M.g.dec_num hdg, M'.g.dec_num (h.layout.inGrid _ hdg)]
        exact h.pairG hM hM' hk hA hd iso' hfa hbi hdg
    have key2 : ∀ k x, (k, x) ∈ transItems M iso' b false → ∃ x', (renumber M.g M'.g φ k, x') ∈ transItems M' iso' (renumber M.g M'.g φ b) false := by
      intro k x hkx
      obtain ⟨a, h1, rfl⟩ := mem_transItems.1 hkx
      have h2 : k ∈ (M.g.nbrs ((M.g.num (M.g.dec b) : ℕ) : ℤ) false).get a := by rw [M.g.num_dec]; exact h1
      rw [M.g.mem_nbrs_false _ hbi] at h2
      obtain ⟨hf, d, hd1, hadj, rfl⟩ := h2
      have hdg := Interior.inGrid hd1
      refine ⟨_, mem_transItems.2 ⟨π a, ?_, rfl⟩⟩
      have := (M'.g.mem_nbrs_false (φ (M.g.dec b)) (h.layout.inGrid _ hbi) (π a) (M'.g.num (φ d))).2
        ⟨(h.layout.flow a).2 hf, φ d, (h.layout.inner d hdg).2 hd1, (h.layout.adj a _ _ hbi hdg).2 hadj, rfl⟩
      unfold renumber
      rw [M.g.dec_num hdg]; exact this
    rw [hl, Except.ok.injEq] at T
    subst T
    rw [T', Except.ok.injEq]
    rcases wf.face b hb with hF | ⟨id, x, hid1, -, hF⟩
    · rw [hl, Except.ok.injEq] at hF
      rw [hF, List.map_nil, List.eq_nil_iff_forall_not_mem]
      rintro ⟨k', x'⟩ hkx
      obtain ⟨k, x, h1, -⟩ := key k' x' hkx
      rw [hF] at h1; simp at h1
    · rw [Env.Face, hl, Except.ok.injEq] at hF
      rw [hF, List.map_cons, List.map_nil]
      obtain ⟨x', hx'⟩ := key2 id x (by rw [hF]; simp)
      rcases wf'.face _ (hmemb b hb) with hF' | ⟨id', y', -, -, hF'⟩
      · rw [T', Except.ok.injEq] at hF'; rw [hF'] at hx'; simp at hx'
      · rw [Env.Face, T', Except.ok.injEq] at hF'
        obtain ⟨k, x1, h1, h2, h3⟩ := key id' y' (by rw [hF']; simp)
        rw [hF] at h1
        simp only [List.mem_singleton, Prod.mk.injEq] at h1
        rw [hF', h2, h3, h1.1, h1.2]
  · intro id hi
    rw [e11, e11']
    unfold calcRHS
    rw [h.comp]
    split_ifs with hc
    · have hst := h.storage hc _ (hid id hi)
      have V : ∀ (N : GridModel K), N.Pos → ∀ c, InGrid N.g.nx N.g.ny N.g.nz c → N.geom.V.getD (cellNumber N.g.nx N.g.ny c) 0 = N.sizes.volume c := by
        intro N hN c hc
        rw [(geomOf_of_calc hN.geom).V_eq, List.getD_eq_getElem?_getD, List.getElem?_map, List.getElem?_range (show cellNumber N.g.nx N.g.ny c < _ from N.g.num_lt hc)]
        simp only [Option.map_some, Option.getD_some]
        rw [show N.g.dec (cellNumber N.g.nx N.g.ny c) = c from N.g.dec_num hc]
      have v1 := V M hM _ (hin id (.inl hi))
      have v2 := V M' hM' _ (h.layout.inGrid _ (hin id (.inl hi)))
      unfold storageCoef at hst
      rw [← v1, ← v2, show cellNumber M.g.nx M.g.ny (M.g.dec id) = id from M.g.num_dec id] at hst
      exact hst
    · rw [mul_zero]
  · intro a b ha hb
    have := h.head _ _ (hin a ha) (hin b hb)
    rw [e12, e12', e14, e14, e14', e14']
    rw [show cellNumber M.g.nx M.g.ny (M.g.dec a) = a from M.g.num_dec a, show cellNumber M.g.nx M.g.ny (M.g.dec b) = b from M.g.num_dec b] at this
    exact this

end
end RF.Fdm
