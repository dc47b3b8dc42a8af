import Verif.Fdm.Symb
/-! # What the symbolic assembly reads from a grid -/
set_option linter.unusedSectionVars false
namespace RF.Fdm
open RF RF.Spec RF.Dims

variable {K : Type} [Field K] [LinearOrder K] [IsStrictOrderedRing K]

/-- The transmissibilities of a cell, from the geometric factors. -/
def transItems (M : GridModel K) (iso : Bool) (id : ℕ) (b : Bool) : List (ℕ × K) :=
  (M.g.getFdir.flatMap fun a => ((M.g.nbrs (id : ℤ) b).get a).map fun n =>
    (n, pairG M.g M.sizes M.rock M.β iso a (M.g.dec id) (M.g.dec n))).map fun p => (p.1, p.2 / (M.mu * M.B))

lemma mem_transItems {M : GridModel K} {iso : Bool} {id : ℕ} {b : Bool} {k : ℕ} {T : K} :
    (k, T) ∈ transItems M iso id b ↔ ∃ a, k ∈ (M.g.nbrs (id : ℤ) b).get a ∧
      T = pairG M.g M.sizes M.rock M.β iso a (M.g.dec id) (M.g.dec k) / (M.mu * M.B) := by
  unfold transItems
  simp only [List.mem_map, List.mem_flatMap, Prod.mk.injEq, Prod.exists]
  constructor
  · rintro ⟨k', v, ⟨a, ha, n, hn, rfl, rfl⟩, rfl, rfl⟩; exact ⟨a, hn, rfl⟩
  · rintro ⟨a, hk, rfl⟩
    exact ⟨k, _, ⟨a, (mem_fdir M.g a).2 ((M.g.mem_nbrs _ _ a k).1 hk).1, k, hk, rfl, rfl⟩, rfl, rfl⟩

lemma keys_transItems (M : GridModel K) (iso : Bool) (id : ℕ) (b : Bool) :
    (transItems M iso id b).map (·.1) = (M.g.nbrs (id : ℤ) b).all := by
  unfold transItems
  rw [List.map_map, ← flatMap_nbrs, List.map_flatMap]
  simp [Function.comp_def]

lemma cellTrans_false {M : GridModel K} (hM : M.Pos) {iso : Bool} (hiso : isIsotropic M.g M.rock = .ok iso) {id : ℕ}
    (hid : InGrid M.g.nx M.g.ny M.g.nz (M.g.dec id)) :
    cellTrans M.g M.geom M.rock M.β M.mu M.B (id : ℤ) false = .ok (transItems M iso id false) := by
  have hc := cellG_false (geomOf_of_calc hM.geom) hM.rock M.β hiso hid
  rw [M.g.num_dec] at hc
  unfold cellTrans; rw [hc, bind_ok]; rfl

lemma cellTrans_true {M : GridModel K} (hM : M.Pos) (hD : 1 ≤ M.g.getD) {iso : Bool} (hiso : isIsotropic M.g M.rock = .ok iso) {id : ℕ}
    (hid : Interior M.g.nx M.g.ny M.g.nz (M.g.dec id)) :
    cellTrans M.g M.geom M.rock M.β M.mu M.B (id : ℤ) true = .ok (transItems M iso id true) := by
  have hc := cellG_eq (geomOf_of_calc hM.geom) hM.rock M.β hiso hid true (Or.inl hD)
  rw [M.g.num_dec] at hc
  unfold cellTrans; rw [hc, bind_ok]; rfl

lemma mem_all {d : ByAxis ℕ} {k : ℕ} : k ∈ d.all ↔ ∃ a, k ∈ d.get a := by
  unfold ByAxis.all
  constructor
  · intro h
    simp only [List.mem_append] at h
    rcases h with (h | h) | h
    exacts [⟨.x, h⟩, ⟨.y, h⟩, ⟨.z, h⟩]
  · rintro ⟨a, h⟩
    cases a <;> simp only [ByAxis.get] at h <;> simp [h]

lemma nbrs_true_of {g : Dims} {c : Cell} (hc : Interior g.nx g.ny g.nz c) {a : Axis} {d : Cell} (hd : InGrid g.nx g.ny g.nz d)
    (hf : Flow g.nx g.ny g.nz a) (had : Adjacent a c d) : g.num d ∈ (g.nbrs (g.num c) true).get a :=
  (g.mem_nbrs_true c hc a _).2 ⟨hf, d, hd, had, rfl⟩

lemma adj_irrefl (a : Axis) (c : Cell) : ¬ Adjacent a c c := by
  cases a <;> simp only [Adjacent, near] <;> omega

theorem FromGrid.sym {e : Env K} (h : FromGrid e) : e.Sym := by
  obtain ⟨M, hM, h⟩ := h
  have hD := env_dim h
  obtain ⟨e1, e2, -, -, e5, e6, e7, -⟩ := env_ok h
  obtain ⟨iso, hiso, -⟩ := isIsotropic_eq hM.rock
  refine ⟨fun id hid => ?_⟩
  rw [e1] at hid
  have hc := (M.g.mem_innerIds id).1 hid
  have hnum : M.g.num (M.g.dec id) = id := M.g.num_dec id
  have hnb : id ∉ M.g.boundIds := fun hb => ((M.g.mem_boundIds hD id).1 hb).2 hc
  have nod : ∀ b, (M.g.nbrs (id : ℤ) b).all.Nodup := by
    intro b
    have := items_nodup (K := K) hc b fun _ _ => 0
    rw [hnum, List.map_flatMap] at this
    simp only [List.map_map, Function.comp_def, List.map_id'] at this
    rwa [flatMap_nbrs] at this
  have hBall : ∀ k, k ∈ (⟨(M.g.nbrs (id : ℤ) true).x.filter (· ∈ M.g.boundIds), (M.g.nbrs (id : ℤ) true).y.filter (· ∈ M.g.boundIds),
        (M.g.nbrs (id : ℤ) true).z.filter (· ∈ M.g.boundIds)⟩ : ByAxis ℕ).all ↔ k ∈ (M.g.nbrs (id : ℤ) true).all ∧ k ∈ M.g.boundIds := by
    intro k
    simp only [ByAxis.all, List.mem_append, List.mem_filter, decide_eq_true_eq]; tauto
  have memF : ∀ k, k ∈ (M.g.nbrs (id : ℤ) false).all ↔ ∃ a d, Flow M.g.nx M.g.ny M.g.nz a ∧ Interior M.g.nx M.g.ny M.g.nz d ∧ Adjacent a (M.g.dec id) d ∧ k = M.g.num d := by
    intro k
    rw [mem_all]
    constructor
    · rintro ⟨a, ha⟩
      rw [← hnum, M.g.mem_nbrs_false _ (Interior.inGrid hc)] at ha
      obtain ⟨hf, d, hd, had, rfl⟩ := ha
      exact ⟨a, d, hf, hd, had, rfl⟩
    · rintro ⟨a, d, hf, hd, had, rfl⟩
      refine ⟨a, ?_⟩
      rw [← hnum, M.g.mem_nbrs_false _ (Interior.inGrid hc)]
      exact ⟨hf, d, hd, had, rfl⟩
  have memT : ∀ k, k ∈ (M.g.nbrs (id : ℤ) true).all ↔ ∃ a d, Flow M.g.nx M.g.ny M.g.nz a ∧ InGrid M.g.nx M.g.ny M.g.nz d ∧ Adjacent a (M.g.dec id) d ∧ k = M.g.num d := by
    intro k
    rw [mem_all]
    constructor
    · rintro ⟨a, ha⟩
      rw [← hnum, M.g.mem_nbrs_true _ hc] at ha
      obtain ⟨hf, d, hd, had, rfl⟩ := ha
      exact ⟨a, d, hf, hd, had, rfl⟩
    · rintro ⟨a, d, hf, hd, had, rfl⟩
      refine ⟨a, ?_⟩
      rw [← hnum, M.g.mem_nbrs_true _ hc]
      exact ⟨hf, d, hd, had, rfl⟩
  refine ⟨_, _, transItems M iso id true, by rw [e6, neighborsId_eq, if_neg (by simp)],
    by rw [e7, cellBoundariesId_eq, if_neg (by simpa using hnb)], by rw [e5]; exact cellTrans_true hM hD hiso hc, ?_, nod false, ?_, fun k hk => ?_,
    fun k hk => ?_, fun k => ?_, fun b T hb => ?_⟩
  · rw [keys_transItems]; exact nod true
  · have : (⟨(M.g.nbrs (id : ℤ) true).x.filter (· ∈ M.g.boundIds), (M.g.nbrs (id : ℤ) true).y.filter (· ∈ M.g.boundIds),
        (M.g.nbrs (id : ℤ) true).z.filter (· ∈ M.g.boundIds)⟩ : ByAxis ℕ).all = (M.g.nbrs (id : ℤ) true).all.filter (· ∈ M.g.boundIds) := by
      simp [ByAxis.all, List.filter_append]
    rw [this]; exact (nod true).filter _
  · obtain ⟨a, d, -, hd, had, rfl⟩ := (memF k).1 hk
    rw [e1]
    refine ⟨(M.g.mem_innerIds _).2 (by rwa [M.g.dec_num (Interior.inGrid hd)]), fun h => ?_⟩
    have : d = M.g.dec id := by rw [← h, M.g.dec_num (Interior.inGrid hd)]
    rw [this] at had
    exact adj_irrefl _ _ had
  · rw [e2]; exact ((hBall k).1 hk).2
  · rw [keys_transItems, hBall, memT, memF]
    constructor
    · rintro ⟨a, d, hf, hd, had, rfl⟩
      by_cases hi : Interior M.g.nx M.g.ny M.g.nz d
      · exact Or.inl ⟨a, d, hf, hi, had, rfl⟩
      · exact Or.inr ⟨⟨a, d, hf, hd, had, rfl⟩, (M.g.mem_boundIds hD _).2 (by rw [M.g.dec_num hd]; exact ⟨hd, hi⟩)⟩
    · rintro (⟨a, d, hf, hd, had, rfl⟩ | ⟨h, -⟩)
      · exact ⟨a, d, hf, Interior.inGrid hd, had, rfl⟩
      · exact h
  · rw [e2] at hb
    have hbd := (M.g.mem_boundIds hD b).1 hb
    have hbn : M.g.num (M.g.dec b) = b := M.g.num_dec b
    have key : ∀ T, (id, T) ∈ transItems M iso b false ↔ (b, T) ∈ transItems M iso id true := by
      intro T
      rw [mem_transItems, mem_transItems]
      refine exists_congr fun a => ?_
      rw [pairG_symm, ← hbn, ← hnum, M.g.mem_nbrs_false _ hbd.1, M.g.mem_nbrs_true _ hc, hbn, hnum]
      refine and_congr_left fun _ => and_congr_right fun _ => ?_
      constructor
      · rintro ⟨d, hd, had, hid⟩
        have : d = M.g.dec id := by rw [hid, M.g.dec_num (Interior.inGrid hd)]
        subst this
        exact ⟨M.g.dec b, hbd.1, (adj_symm a _ _).1 had, hbn.symm⟩
      · rintro ⟨d, hd, had, hid⟩
        have : d = M.g.dec b := by rw [hid, M.g.dec_num hd]
        subst this
        exact ⟨M.g.dec id, hc, (adj_symm a _ _).1 had, hnum.symm⟩
    have hct := cellTrans_false hM hiso (id := b) hbd.1
    unfold Env.Face
    rw [e5, hct, ← key]
    simp only [Except.ok.injEq]
    constructor
    · intro h; rw [h]; simp
    · intro h
      obtain ⟨l, l1, -, l3⟩ := boundary_trans hM hD hb
      rw [hct] at l1
      simp only [Except.ok.injEq] at l1
      rw [l1] at h ⊢
      rcases l3 with rfl | ⟨id', T', -, -, rfl⟩
      · simp at h
      · simp only [List.mem_singleton, Prod.mk.injEq] at h
        rw [h.1, h.2]

/-- The transmissibility of two positions as reported cell by cell. -/
lemma transS_val {M : GridModel K} (hM : M.Pos) {e : Env K} (h : M.env = .ok e) {iso : Bool} (hiso : isIsotropic M.g M.rock = .ok iso)
    {i j : ℕ} (hi : i < M.g.getN false) (hj : j < M.g.getN false) :
    (∀ a, Adjacent a (pcell M.g false i) (pcell M.g false j) →
      e.transS i j = pairG M.g M.sizes M.rock M.β iso a (pcell M.g false i) (pcell M.g false j) / (M.mu * M.B)) ∧
      ((∀ a, ¬ Adjacent a (pcell M.g false i) (pcell M.g false j)) → e.transS i j = 0) := by
  have hD := env_dim h
  obtain ⟨e1, -, -, -, e5, -⟩ := env_ok h
  have hat : ∀ k, k < M.g.getN false → e.at k = M.g.num (pcell M.g false k) := by
    intro k hk
    unfold Env.at
    rw [e1, List.getD_eq_getElem?_getD, innerIds_get M.g hk]; rfl
  have ci := pcell_inner M.g hi
  have cj := pcell_inner M.g hj
  have di := M.g.dec_num (Interior.inGrid ci)
  have dj := M.g.dec_num (Interior.inGrid cj)
  have hS : e.transS i j = (dictGet (transItems M iso (M.g.num (pcell M.g false i)) true) (M.g.num (pcell M.g false j))).getD 0 := by
    unfold Env.transS
    rw [hat i hi, hat j hj, e5, cellTrans_true hM hD hiso (by rw [di]; exact ci)]
  have nod : ((transItems M iso (M.g.num (pcell M.g false i)) true).map (·.1)).Nodup := by
    rw [keys_transItems]
    have := items_nodup (K := K) ci true fun _ _ => 0
    rw [List.map_flatMap] at this
    simp only [List.map_map, Function.comp_def, List.map_id'] at this
    rwa [flatMap_nbrs] at this
  constructor
  · intro a had
    have hm : (M.g.num (pcell M.g false j), pairG M.g M.sizes M.rock M.β iso a (pcell M.g false i) (pcell M.g false j) / (M.mu * M.B)) ∈
        transItems M iso (M.g.num (pcell M.g false i)) true := by
      rw [mem_transItems]
      exact ⟨a, nbrs_true_of ci (Interior.inGrid cj) (adj_flow ci cj had) had, by rw [di, dj]⟩
    rw [hS]
    have := dictGet_of_mem nod hm
    dsimp only at this
    rw [this]; rfl
  · intro hno
    rw [hS, dictGet_none]
    · rfl
    · rw [keys_transItems, mem_all]
      rintro ⟨a, ha⟩
      rw [M.g.mem_nbrs_true _ ci] at ha
      obtain ⟨-, d, hd, had, hk⟩ := ha
      have : d = pcell M.g false j := by
        have := congrArg M.g.dec hk
        rw [dj, M.g.dec_num hd] at this; exact this.symm
      subst this
      exact hno a had

theorem FromGrid.networkS {e : Env K} (h : FromGrid e) : Network e.n e.transS := by
  obtain ⟨M, hM, h⟩ := h
  obtain ⟨e1, -⟩ := env_ok h
  obtain ⟨iso, hiso, -⟩ := isIsotropic_eq hM.rock
  have hn : e.n = M.g.getN false := by unfold Env.n; rw [e1, length_innerIds, getN_false]
  have hmb := mul_pos hM.mu hM.B
  have symm : ∀ i j, i < e.n → j < e.n → e.transS i j = e.transS j i := by
    intro i j hi hj
    rw [hn] at hi hj
    obtain ⟨a1, a2⟩ := transS_val hM h hiso hi hj
    obtain ⟨b1, b2⟩ := transS_val hM h hiso hj hi
    by_cases hx : ∃ a, Adjacent a (pcell M.g false i) (pcell M.g false j)
    · obtain ⟨a, ha⟩ := hx
      rw [a1 a ha, b1 a ((adj_symm a _ _).1 ha), pairG_symm]
    · push Not at hx
      rw [a2 hx, b2 fun a ha => hx a ((adj_symm a _ _).1 ha)]
  have pos : ∀ i j a, i < e.n → j < e.n → Adjacent a (pcell M.g false i) (pcell M.g false j) → 0 < e.transS i j := by
    intro i j a hi hj ha
    rw [hn] at hi hj
    rw [(transS_val hM h hiso hi hj).1 a ha]
    have ci := pcell_inner M.g hi
    have cj := pcell_inner M.g hj
    exact div_pos (pairG_pos hM.sizes hM.perm hM.β iso (adj_flow ci cj ha) ci cj) hmb
  refine ⟨symm, fun i hi => ?_, fun i j hi hj => ?_, ?_⟩
  · rw [hn] at hi
    exact (transS_val hM h hiso hi hi).2 fun a => adj_irrefl a _
  · by_cases hx : ∃ a, Adjacent a (pcell M.g false i) (pcell M.g false j)
    · obtain ⟨a, ha⟩ := hx; exact (pos i j a hi hj ha).le
    · push Not at hx
      rw [hn] at hi hj
      rw [(transS_val hM h hiso hi hj).2 hx]
  · have lower : ∀ p, 0 < p → p < e.n → ∃ p', p' < p ∧ 0 < e.transS p' p := by
      intro p h0 hp
      obtain ⟨p', a, h1, h2⟩ := exists_lower M.g h0 (hn ▸ hp)
      exact ⟨p', h1, pos p' p a (h1.trans hp) hp h2⟩
    intro i j hi hj
    have down : ∀ p, p < e.n → Relation.ReflTransGen (Net.Link e.n e.transS) p 0 ∧ Relation.ReflTransGen (Net.Link e.n e.transS) 0 p := by
      intro p
      induction p using Nat.strong_induction_on with
      | _ p ih =>
        intro hp
        by_cases h0 : 0 < p
        · obtain ⟨p', h1, h2⟩ := lower p h0 hp
          obtain ⟨i1, i2⟩ := ih p' h1 (by omega)
          exact ⟨Relation.ReflTransGen.head ⟨by omega, by rw [symm p p' hp (by omega)]; exact h2⟩ i1, Relation.ReflTransGen.tail i2 ⟨hp, h2⟩⟩
        · obtain rfl : p = 0 := by omega
          exact ⟨.refl, .refl⟩
    exact (down i hi).1.trans (down j hj).2

/-- On one- and two-dimensional grids the two assemblies use the same transmissibilities. -/
theorem trans_agree {M : GridModel K} (hM : M.Pos) {e : Env K} (h : M.env = .ok e) (h3 : M.g.getD ≠ 3) {i j : ℕ} (hi : i < e.n) (hj : j < e.n) :
    e.transS i j = e.transV i j := by
  have hD := env_dim h
  obtain ⟨e1, -, -, ⟨G, hG, e4⟩, -⟩ := env_ok h
  obtain ⟨iso, hiso, k2⟩ := isIsotropic_eq hM.rock
  have hn : e.n = M.g.getN false := by unfold Env.n; rw [e1, length_innerIds, getN_false]
  rw [hn] at hi hj
  have hgeo := geomOf_of_calc hM.geom
  obtain ⟨G', hG', hsym, hval⟩ := matrix_values (r := M.rock) M.β hgeo hM.sizes hM.rock hD
  rw [hG] at hG'; simp only [Except.ok.injEq] at hG'; subst hG'
  obtain ⟨a1, a2, -⟩ := hval i j hi hj
  obtain ⟨b1, b2⟩ := transS_val hM h hiso hi hj
  have ip := pcell_inner M.g hi
  have ip' := pcell_inner M.g hj
  rw [e4]
  dsimp only
  by_cases hx : ∃ a, Adjacent a (pcell M.g false i) (pcell M.g false j)
  · obtain ⟨a, ha⟩ := hx
    rw [a1 a ha, b1 a ha, pairG_face hM.sizes M.β iso (Interior.inGrid ip) (Interior.inGrid ip') ha fun hh =>
      k2.1 hh a (hM.rock.2 a (adj_flow ip ip' ha)) _ _ ip ip']
  · push Not at hx
    rw [a2 hx (by omega), b2 hx]; simp

end RF.Fdm
