import Verif.Fdm.Assemble2
import Verif.Trans.Props
/-! # Environments made from grids are well-formed -/
set_option linter.unusedSectionVars false
namespace RF.Fdm
open RF RF.Spec RF.Dims

variable {K : Type} [Field K] [LinearOrder K] [IsStrictOrderedRing K]

/-- The grids, rocks and fluids the properties of the solution range over: any Cartesian grid, cell sizes positive,
permeabilities positive inside and not negative in boundary cells, viscosity, volume factor, conversion factors, time step,
porosity and (when compressible) compressibility positive. (black_oil.py l.31-178) -/
structure GridModel (K : Type) [Field K] [LinearOrder K] where
  g : Dims
  sizes : Sizes K
  geom : Geom K
  rock : Rock K
  β : K
  mu : K
  B : K
  grav : K
  depth : List K
  comp : Bool
  phi : List K
  ct : K
  vconv : K
  dt : K
  wellReq : ℕ → Except Err K
  wellG : ℕ → K → K → Option K → Except Err K

/-- The environment the code builds. (black_oil.py l.109-178) -/
def GridModel.env (M : GridModel K) : Except Err (Env K) :=
  Env.ofGrid M.g M.geom M.rock M.β M.mu M.B M.grav M.depth M.comp (calcRHS M.comp M.geom.V M.phi M.ct M.vconv M.B M.dt)
    M.wellReq M.wellG

/-- Positive data, as the properties assume. -/
structure GridModel.Pos (M : GridModel K) : Prop where
  geom : Geom.calc M.g M.sizes.x M.sizes.y M.sizes.z = .ok M.geom
  sizes : PosSizes M.g M.sizes
  rock : RockSet M.g M.rock
  perm : PosPerm M.g M.rock
  permB : NonnegPerm M.g M.rock
  β : 0 < M.β
  mu : 0 < M.mu
  B : 0 < M.B
  vconv : 0 < M.vconv
  dt : 0 < M.dt
  phi : ∀ c, Interior M.g.nx M.g.ny M.g.nz c → 0 < M.phi.getD (cellNumber M.g.nx M.g.ny c) 0
  ct : M.comp = true → 0 < M.ct

/-- `e` is the environment of a grid with positive data. -/
def FromGrid (e : Env K) : Prop := ∃ M : GridModel K, M.Pos ∧ M.env = .ok e

/-! ### transmissibilities of any cell towards interior cells -/

lemma cellG_false {g : Dims} {s : Sizes K} {q : Geom K} {r : Rock K} (hq : GeomOf g s q) (h : RockSet g r) (β : K)
    {iso : Bool} (hiso : isIsotropic g r = .ok iso) {c : Cell} (hc : InGrid g.nx g.ny g.nz c) :
    cellG g q r β (g.num c : ℕ) false = .ok (g.getFdir.flatMap fun a =>
      ((g.nbrs (g.num c) false).get a).map fun n => (n, pairG g s r β iso a c (g.dec n))) := by
  unfold cellG
  have hb : g.neighborsId (g.num c : ℕ) false = .ok (g.nbrs (g.num c) false) := by
    rw [neighborsId_eq, if_neg]; simp
  rw [hb, bind_ok, hiso, bind_ok,
    mapM_ok _ (fun a => ((g.nbrs (g.num c) false).get a).map fun n => (n, pairG g s r β iso a c (g.dec n))) _
      (fun a ha => cellGDir_eq hq h β iso ((mem_fdir g a).1 ha) hc _ fun n hn => nbrs_inGrid hn), bind_ok]
  rw [List.flatMap_def]; rfl

lemma nbrs_noflow (g : Dims) (id : ℤ) (b : Bool) {a : Axis} (ha : ¬ Flow g.nx g.ny g.nz a) : (g.nbrs id b).get a = [] := by
  rw [List.eq_nil_iff_forall_not_mem]
  intro m hm
  exact ha ((g.mem_nbrs id b a m).1 hm).1

lemma flatMap_nbrs (g : Dims) (id : ℤ) (b : Bool) : (g.getFdir.flatMap fun a => (g.nbrs id b).get a) = (g.nbrs id b).all := by
  have hx := nbrs_noflow g id b (a := .x)
  have hy := nbrs_noflow g id b (a := .y)
  have hz := nbrs_noflow g id b (a := .z)
  simp only [Flow, along, ByAxis.get] at hx hy hz
  rw [getFdir_eq]
  unfold ByAxis.all
  split_ifs with h1 h2 h3 h3 h2 h3 h3 <;> simp_all [ByAxis.get]

lemma pairG_nonneg {g : Dims} {s : Sizes K} {r : Rock K} (hs : PosSizes g s) (hr : NonnegPerm g r) {β : K} (hβ : 0 < β) (v : Bool)
    (a : Axis) {c c' : Cell} (hc : InGrid g.nx g.ny g.nz c) (hc' : InGrid g.nx g.ny g.nz c') : 0 ≤ pairG g s r β v a c c' := by
  have k1 := hr a c hc
  have k2 := hr a c' hc'
  have A1 := area_pos hs hc a
  have A2 := area_pos hs hc' a
  have d1 := along_pos hs hc a
  have d2 := along_pos hs hc' a
  unfold pairG gForm gArith gHarm
  split_ifs <;> positivity

lemma pairG_pos {g : Dims} {s : Sizes K} {r : Rock K} (hs : PosSizes g s) (hr : PosPerm g r) {β : K} (hβ : 0 < β) (v : Bool)
    {a : Axis} (ha : Flow g.nx g.ny g.nz a) {c c' : Cell} (hc : Interior g.nx g.ny g.nz c) (hc' : Interior g.nx g.ny g.nz c') :
    0 < pairG g s r β v a c c' :=
  gForm_pos v hβ (along_pos hs (Interior.inGrid hc) a) (area_pos hs (Interior.inGrid hc) a) (hr a ha c hc)
    (along_pos hs (Interior.inGrid hc') a) (area_pos hs (Interior.inGrid hc') a) (hr a ha c' hc')

/-! ### positions are connected -/

/-- Every position but the first has an adjacent cell at a smaller position. -/
lemma exists_lower (g : Dims) {p : ℕ} (h0 : 0 < p) (hp : p < g.getN false) :
    ∃ p' a, p' < p ∧ Adjacent a (pcell g false p') (pcell g false p) := by
  have hp' := hp
  rw [getN_false] at hp'
  obtain ⟨d1, d2, d3⟩ := decode_lt hp'
  have e := number_decode g.nx g.ny p
  set c := decode g.nx g.ny p with hc
  obtain ⟨i, j, k⟩ := c
  simp only at d1 d2 d3
  have hx := g.hx; have hy := g.hy
  have key : ∀ c' : Cell, c'.1 < g.nx → c'.2.1 < g.ny → c'.2.2 < g.nz → pcell g false (number g.nx g.ny c') =
      (c'.1 + sh false g.nx, c'.2.1 + sh false g.ny, c'.2.2 + sh false g.nz) := by
    intro c' h1 h2 h3
    simp only [pcell, shape_false]
    rw [decode_number h1 h2]
  have self := key (i, j, k) d1 d2 d3
  rw [e] at self
  by_cases hi : 0 < i
  · refine ⟨number g.nx g.ny (i - 1, j, k), .x, ?_, ?_⟩
    · rw [← e]; simp only [number]; omega
    · rw [self, key (i - 1, j, k) (by simp; omega) d2 d3]
      refine ⟨Or.inl ?_, rfl, rfl⟩; simp only; omega
  by_cases hj : 0 < j
  · refine ⟨number g.nx g.ny (i, j - 1, k), .y, ?_, ?_⟩
    · rw [← e]; simp only [number]
      have : g.nx * (j - 1 + g.ny * k) < g.nx * (j + g.ny * k) := Nat.mul_lt_mul_of_pos_left (by omega) hx
      omega
    · rw [self, key (i, j - 1, k) d1 (by simp; omega) d3]
      refine ⟨rfl, Or.inl ?_, rfl⟩; simp only; omega
  by_cases hk : 0 < k
  · refine ⟨number g.nx g.ny (i, j, k - 1), .z, ?_, ?_⟩
    · rw [← e]; simp only [number]
      have h1 : g.ny * (k - 1) < g.ny * k := Nat.mul_lt_mul_of_pos_left (by omega) hy
      have : g.nx * (j + g.ny * (k - 1)) < g.nx * (j + g.ny * k) := Nat.mul_lt_mul_of_pos_left (by omega) hx
      omega
    · rw [self, key (i, j, k - 1) d1 d2 (by simp; omega)]
      refine ⟨rfl, rfl, Or.inl ?_⟩; simp only; omega
  · exfalso
    have : i = 0 ∧ j = 0 ∧ k = 0 := by omega
    obtain ⟨rfl, rfl, rfl⟩ := this
    simp [number] at e; omega

lemma connected {n : ℕ} {T : ℕ → ℕ → K} (hs : ∀ i j, T i j = T j i) (h : ∀ p, 0 < p → p < n → ∃ p', p' < p ∧ 0 < T p' p)
    (i j : ℕ) (hi : i < n) (hj : j < n) : Relation.ReflTransGen (Net.Link n T) i j := by
  have down : ∀ p, p < n → Relation.ReflTransGen (Net.Link n T) p 0 ∧ Relation.ReflTransGen (Net.Link n T) 0 p := by
    intro p
    induction p using Nat.strong_induction_on with
    | _ p ih =>
      intro hp
      by_cases h0 : 0 < p
      · obtain ⟨p', h1, h2⟩ := h p h0 hp
        obtain ⟨i1, i2⟩ := ih p' h1 (by omega)
        exact ⟨Relation.ReflTransGen.head ⟨by omega, by rw [hs]; exact h2⟩ i1, Relation.ReflTransGen.tail i2 ⟨hp, h2⟩⟩
      · obtain rfl : p = 0 := by omega
        exact ⟨.refl, .refl⟩
  exact (down i hi).1.trans (down j hj).2

/-! ### the whole -/

/-- A grid environment in closed form. -/
lemma env_ok {M : GridModel K} {e : Env K} (h : M.env = .ok e) :
    e.ids = M.g.innerIds ∧ e.bnd = M.g.boundIds ∧ e.nAll = M.g.getN true ∧
      (∃ G, cellsG M.g M.geom M.rock M.β false = .ok G ∧ e.transV = fun i j => G i j / (M.mu * M.B)) ∧
      (∀ id b, e.transC id b = cellTrans M.g M.geom M.rock M.β M.mu M.B (id : ℤ) b) ∧
      (∀ id, e.nbrs id = M.g.neighborsId (id : ℤ) false) ∧ (∀ id, e.bnds id = M.g.cellBoundariesId (id : ℤ)) ∧
      e.mu = M.mu ∧ e.B = M.B ∧ e.comp = M.comp ∧ e.rhs = calcRHS M.comp M.geom.V M.phi M.ct M.vconv M.B M.dt ∧
      e.grav = M.grav ∧ (∀ a id, e.size a id = (M.geom.d a).getD id 0) ∧ (∀ id, e.z id = M.depth.getD id 0) ∧
      e.wellReq = M.wellReq ∧ e.wellG = M.wellG := by
  unfold GridModel.env Env.ofGrid at h
  rw [getCellsId_false, bind_ok, getBoundariesId_eq, bind_ok, ok_bind] at h
  obtain ⟨T, hT, h⟩ := h
  rw [ok_bind] at h
  obtain ⟨dg, hdg, h⟩ := h
  rw [ok_pure] at h
  subst h
  unfold cellsTransVect at hT
  rw [ok_bind] at hT
  obtain ⟨G, hG, hT⟩ := hT
  rw [ok_pure] at hT
  exact ⟨rfl, rfl, rfl, ⟨G, hG, hT.symm⟩, fun _ _ => rfl, fun _ => rfl, fun _ => rfl, rfl, rfl, rfl, rfl, rfl, fun _ _ => rfl,
    fun _ => rfl, rfl, rfl⟩

/-- A model with an environment has at least one flow direction. -/
lemma env_dim {M : GridModel K} {e : Env K} (h : M.env = .ok e) : 1 ≤ M.g.getD := by
  obtain ⟨-, -, -, ⟨G, hG, -⟩, -⟩ := env_ok h
  by_contra hD
  unfold cellsG at hG
  rw [if_pos (by omega)] at hG
  simp [throw, throwThe, MonadExceptOf.throw, bind, Except.bind] at hG

/-- Transmissibilities of a boundary cell: one interior cell or none. -/
lemma boundary_trans {M : GridModel K} (hM : M.Pos) {b : ℕ} (hD : 1 ≤ M.g.getD) (hb : b ∈ M.g.boundIds) :
    ∃ l : List (ℕ × K), cellTrans M.g M.geom M.rock M.β M.mu M.B (b : ℤ) false = .ok l ∧
      l.map (·.1) = (M.g.nbrs (b : ℤ) false).all ∧ (l = [] ∨ ∃ id T, id ∈ M.g.innerIds ∧ 0 ≤ T ∧ l = [(id, T)]) := by
  have hbd := (M.g.mem_boundIds hD b).1 hb
  obtain ⟨iso, hiso, -⟩ := isIsotropic_eq hM.rock
  have hc := cellG_false (geomOf_of_calc hM.geom) hM.rock M.β hiso hbd.1
  rw [M.g.num_dec] at hc
  refine ⟨_, by unfold cellTrans; rw [hc, bind_ok]; rfl, ?_, ?_⟩
  · rw [List.map_map, ← flatMap_nbrs, List.map_flatMap]
    simp [Function.comp_def]
  · obtain ⟨n, hn, hl⟩ := C11_boundary_one_interior M.g _ hbd
    have hcn : cellNumber M.g.nx M.g.ny (M.g.dec b) = b := M.g.num_dec b
    rw [hcn, neighborsId_eq, if_neg (by simp)] at hn
    simp only [Except.ok.injEq] at hn
    subst hn
    have hlen : ((M.g.getFdir.flatMap fun a => ((M.g.nbrs (b : ℤ) false).get a).map fun n =>
        (n, pairG M.g M.sizes M.rock M.β iso a (M.g.dec b) (M.g.dec n))).map fun p => (p.1, p.2 / (M.mu * M.B))).length ≤ 1 := by
      rw [List.length_map]
      have : (M.g.getFdir.flatMap fun a => ((M.g.nbrs (b : ℤ) false).get a).map fun n =>
        (n, pairG M.g M.sizes M.rock M.β iso a (M.g.dec b) (M.g.dec n))).length = (M.g.nbrs (b : ℤ) false).all.length := by
        rw [← flatMap_nbrs]; simp [List.length_flatMap]
      rw [this, hl]; split_ifs <;> omega
    rcases hL : ((M.g.getFdir.flatMap fun a => ((M.g.nbrs (b : ℤ) false).get a).map fun n =>
        (n, pairG M.g M.sizes M.rock M.β iso a (M.g.dec b) (M.g.dec n))).map fun p => (p.1, p.2 / (M.mu * M.B))) with _ | ⟨⟨id, T⟩, t⟩
    · exact Or.inl hL
    · rw [hL] at hlen
      have ht : t = [] := by simpa using hlen
      subst ht
      refine Or.inr ⟨id, T, ?_⟩
      have hm : (id, T) ∈ ((M.g.getFdir.flatMap fun a => ((M.g.nbrs (b : ℤ) false).get a).map fun n =>
        (n, pairG M.g M.sizes M.rock M.β iso a (M.g.dec b) (M.g.dec n))).map fun p => (p.1, p.2 / (M.mu * M.B))) := by rw [hL]; simp
      rw [List.mem_map] at hm
      obtain ⟨⟨id', v⟩, hm, he⟩ := hm
      simp only [Prod.mk.injEq] at he
      obtain ⟨rfl, rfl⟩ := he
      rw [List.mem_flatMap] at hm
      obtain ⟨a, ha, hm⟩ := hm
      rw [List.mem_map] at hm
      obtain ⟨n, hn, he⟩ := hm
      simp only [Prod.mk.injEq] at he
      obtain ⟨rfl, rfl⟩ := he
      have hn' := hn
      rw [mem_nbrs] at hn'
      refine ⟨hn'.2.1, ?_, hL⟩
      exact div_nonneg (pairG_nonneg hM.sizes hM.permB hM.β iso a hbd.1 (nbrs_inGrid hn)) (mul_pos hM.mu hM.B).le

lemma calcRHS_pos {M : GridModel K} (hM : M.Pos) (hc : M.comp = true) {id : ℕ} (hid : id ∈ M.g.innerIds) :
    0 < calcRHS M.comp M.geom.V M.phi M.ct M.vconv M.B M.dt id := by
  have hi := (M.g.mem_innerIds id).1 hid
  have hlt := M.g.innerIds_lt hid
  unfold calcRHS
  rw [if_pos hc]
  have hV : 0 < M.geom.V.getD id 0 := by
    rw [(geomOf_of_calc hM.geom).V_eq, List.getD_eq_getElem?_getD, List.getElem?_map, List.getElem?_range hlt]
    obtain ⟨h1, h2, h3⟩ := Interior.inGrid hi
    obtain ⟨p1, p2, p3⟩ := hM.sizes
    exact mul_pos (mul_pos (p1 _ h1) (p2 _ h2)) (p3 _ h3)
  have hp := hM.phi _ hi
  rw [show cellNumber M.g.nx M.g.ny (M.g.dec id) = id from M.g.num_dec id] at hp
  exact div_pos (mul_pos (mul_pos hV hp) (hM.ct hc)) (mul_pos (mul_pos hM.vconv hM.B) hM.dt)

/-- Every grid with positive data gives a well-formed environment. -/
theorem FromGrid.wf {e : Env K} (h : FromGrid e) : e.WF := by
  obtain ⟨M, hM, h⟩ := h
  have hD := env_dim h
  obtain ⟨e1, e2, e3, ⟨G, hG, e4⟩, e5, e6, e7, e8, e9, e10, e11, -⟩ := env_ok h
  have hgeo := geomOf_of_calc hM.geom
  obtain ⟨G', hG', hsym, hval⟩ := matrix_values (r := M.rock) M.β hgeo hM.sizes hM.rock hD
  rw [hG] at hG'; simp only [Except.ok.injEq] at hG'; subst hG'
  obtain ⟨v, hv, -⟩ := arithFlag_eq hgeo hM.rock
  obtain ⟨G', hG', -, hdiag, -⟩ := cellsG_eq hgeo hM.rock hv M.β false hD
  rw [hG] at hG'; simp only [Except.ok.injEq] at hG'; subst hG'
  have hn : e.n = M.g.getN false := by
    unfold Env.n; rw [e1, length_innerIds, getN_false]
  have hmb := mul_pos hM.mu hM.B
  obtain ⟨ids', bs', i1, i2, i3, i4, i5, i6, -⟩ := C05_boundary_partition M.g hD
  rw [getCellsId_false] at i1; simp only [Except.ok.injEq] at i1; subst i1
  rw [getBoundariesId_eq] at i2; simp only [Except.ok.injEq] at i2; subst i2
  have hGn : ∀ i j, i < e.n → j < e.n → 0 ≤ G i j := by
    intro i j hi hj
    rw [hn] at hi hj
    obtain ⟨v1, v2, v3⟩ := hval i j hi hj
    obtain ⟨w1, w2, w3⟩ := hval j i hj hi
    have pi := pcell_inner M.g hi
    have pj := pcell_inner M.g hj
    by_cases ha : ∃ a, Adjacent a (pcell M.g false i) (pcell M.g false j)
    · obtain ⟨a, ha⟩ := ha
      rw [v1 a ha]; exact (face_pos hM.sizes hM.perm hM.β (adj_flow pi pj ha) pi pj).le
    · push Not at ha
      by_cases hw : M.g.getD = 3 ∧ (Wraps M.g (pcell M.g false i) (pcell M.g false j) ∨ Wraps M.g (pcell M.g false j) (pcell M.g false i))
      · rcases hw with ⟨h3, hw | hw⟩
        · obtain ⟨v', hv'⟩ := v3 h3 hw
          rw [hv']; split_ifs
          · exact le_refl 0
          · exact pairG_nonneg hM.sizes hM.permB hM.β _ _ (Interior.inGrid pi) (Interior.inGrid pj)
        · obtain ⟨v', hv'⟩ := w3 h3 hw
          rw [hsym, hv']; split_ifs
          · exact le_refl 0
          · exact pairG_nonneg hM.sizes hM.permB hM.β _ _ (Interior.inGrid pj) (Interior.inGrid pi)
      · rw [v2 ha hw]
  exact {
    nodup := by rw [e1]; exact innerIds_nodup _
    pos := by
      have := M.g.hx; have := M.g.hy; have := M.g.hz
      rw [hn, getN_false]; positivity
    symm := fun i j => by rw [e4]; simp only [hsym i j]
    diag := fun i _ => by rw [e4]; simp [hdiag]
    nonneg := fun i j hi hj => by rw [e4]; exact div_nonneg (hGn i j hi hj) hmb.le
    conn := by
      refine connected (fun i j => by rw [e4]; simp only [hsym i j]) fun p h0 hp => ?_
      rw [hn] at hp
      obtain ⟨p', a, h1, h2⟩ := exists_lower M.g h0 hp
      refine ⟨p', h1, ?_⟩
      rw [e4]
      have pi := pcell_inner M.g (h1.trans hp)
      have pj := pcell_inner M.g hp
      simp only [(hval p' p (h1.trans hp) hp).1 a h2]
      exact div_pos (face_pos hM.sizes hM.perm hM.β (adj_flow pi pj h2) pi pj) hmb
    bnodup := by rw [e2]; exact (boundIds_sorted _ hD).imp Nat.ne_of_lt
    disj := fun b hb hi => i6 b ⟨e1 ▸ hi, e2 ▸ hb⟩
    lt := fun id hid => by rw [e3]; exact (i5 id).2 (e1 ▸ e2 ▸ hid)
    face := fun b hb => by
      obtain ⟨l, h1, h2, h3⟩ := boundary_trans hM hD (e2 ▸ hb)
      unfold Env.Face
      rw [e5, h1, e1]
      rcases h3 with rfl | ⟨id, T, h4, h5, rfl⟩
      · exact Or.inl rfl
      · exact Or.inr ⟨id, T, h4, h5, rfl⟩
    nbr := fun b l hb hl => by
      obtain ⟨l', h1, h2, -⟩ := boundary_trans hM hD (e2 ▸ hb)
      rw [e5, h1] at hl
      simp only [Except.ok.injEq] at hl
      subst hl
      exact ⟨_, by rw [e6, neighborsId_eq, if_neg (by simp)], h2.symm⟩
    mu := by rw [e8]; exact hM.mu
    B := by rw [e9]; exact hM.B
    rhsC := fun hc id hid => by rw [e11]; exact calcRHS_pos hM (e10 ▸ hc) (e1 ▸ hid)
    rhsI := fun hc id => by rw [e11, calcRHS, if_neg]; rw [← e10, hc]; simp }

end RF.Fdm
