import Verif.Plot.Props
/-!
# C96: volumes and centres measured on the mesh

`get_cells_V`, `get_Vt` and `get_cells_center` with `pyvista=True` build the mesh and let pyvista measure it. They give what the built-in calculations give.
-/
set_option linter.unusedSectionVars false
namespace RF
open Dims Spec

/-! ## Model -/

section
variable {K : Type} [Field K] [LinearOrder K]

/-- Volume of a tetrahedron. -/
def tetra (p q r t : K × K × K) : K :=
  let a := q - p; let b := r - p; let c := t - p
  |a.1 * (b.2.1 * c.2.2 - b.2.2 * c.2.1) - a.2.1 * (b.1 * c.2.2 - b.2.2 * c.1) + a.2.2 * (b.1 * c.2.1 - b.2.1 * c.1)| / 6

/-- Volume of a cell with eight corners, cut into five tetrahedra. (external code: `compute_cell_sizes()["Volume"]`, called at regular_cartesian.py l.1988) -/
def hexVolume (c : ℕ → ℕ → ℕ → K × K × K) : K :=
  tetra (c 0 0 0) (c 1 0 0) (c 0 1 0) (c 0 0 1) + tetra (c 1 0 0) (c 0 0 1) (c 1 0 1) (c 1 1 1) + tetra (c 1 0 0) (c 0 0 1) (c 1 1 1) (c 0 1 0) +
    tetra (c 1 0 0) (c 0 1 0) (c 1 1 1) (c 1 1 0) + tetra (c 0 1 0) (c 1 1 1) (c 0 1 1) (c 0 0 1)

/-- Mean of the eight corners. (external code: `cell_centers().points`, called at regular_cartesian.py l.2072) -/
def hexCenter (c : ℕ → ℕ → ℕ → K × K × K) : K × K × K :=
  let t := c 0 0 0 + c 1 0 0 + c 0 1 0 + c 1 1 0 + c 0 0 1 + c 1 0 1 + c 0 1 1 + c 1 1 1
  (t.1 / 8, t.2.1 / 8, t.2.2 / 8)

/-- The corners of a mesh cell; missing points are an error. (external code, called at regular_cartesian.py l.2163) -/
def Mesh.hex (M : Mesh K) (m : ℕ) : Except Err (ℕ → ℕ → ℕ → K × K × K) :=
  match M.corner m 0 0 0, M.corner m 1 0 0, M.corner m 0 1 0, M.corner m 1 1 0, M.corner m 0 0 1, M.corner m 1 0 1, M.corner m 0 1 1, M.corner m 1 1 1 with
  | some p000, some p100, some p010, some p110, some p001, some p101, some p011, some p111 => .ok fun a b c => match a, b, c with
    | 0, 0, 0 => p000 | 1, 0, 0 => p100 | 0, 1, 0 => p010 | 1, 1, 0 => p110 | 0, 0, 1 => p001 | 1, 0, 1 => p101 | 0, 1, 1 => p011 | _, _, _ => p111
  | _, _, _, _, _, _, _, _ => .error .index

/-- One number or point per mesh cell, in the order of the mesh. (external code, called at regular_cartesian.py l.1956, 1988, 2072) -/
def Mesh.measure {α : Type} (M : Mesh K) (f : (ℕ → ℕ → ℕ → K × K × K) → α) : Except Err (List α) :=
  (List.range (M.shape.1 * M.shape.2.1 * M.shape.2.2)).mapM fun m => do return f (← M.hex m)

variable [FloorRing K]

/-- `get_cells_V(boundary, False, pyvista=True)` (regular_cartesian.py l.1986-1993). -/
def meshVolumes (g : Dims) (q : Geom K) (boundary : Bool) : Except Err (List K) := do
  let M ← pyvistaGrid g q true
  let v ← M.measure hexVolume
  Geom.cells g v boundary

/-- `get_Vt(boundary, pyvista=True)` (regular_cartesian.py l.1955-1956): the volume of the mesh is the sum over its cells. -/
def meshVt (g : Dims) (q : Geom K) (boundary : Bool) : Except Err K := do
  let M ← pyvistaGrid g q boundary
  return (← M.measure hexVolume).sum

/-- `get_cells_center(boundary, False, pyvista=True)` (regular_cartesian.py l.2070-2072, 2089-2090). -/
def meshCenters (g : Dims) (q : Geom K) (boundary : Bool) : Except Err (List (K × K × K)) := do
  let M ← pyvistaGrid g q true
  let v ← M.measure hexCenter
  Geom.cells g v boundary

end

/-! ## Lemmas -/

section
variable {K : Type} [Field K] [LinearOrder K] [IsStrictOrderedRing K]

/-- The corners of the box with one corner at `o` and edges `d`. -/
def boxCorner (o d : K × K × K) (a b c : ℕ) : K × K × K := (o.1 + a * d.1, o.2.1 + b * d.2.1, o.2.2 + c * d.2.2)

lemma hexVolume_box (o d : K × K × K) (h1 : 0 ≤ d.1) (h2 : 0 ≤ d.2.1) (h3 : 0 ≤ d.2.2) : hexVolume (boxCorner o d) = d.1 * d.2.1 * d.2.2 := by
  obtain ⟨x, y, z⟩ := o
  obtain ⟨u, v, w⟩ := d
  have hp : 0 ≤ u * v * w := mul_nonneg (mul_nonneg h1 h2) h3
  unfold hexVolume tetra boxCorner
  simp only [Prod.mk_sub_mk, Nat.cast_zero, Nat.cast_one, zero_mul, one_mul, add_zero, sub_self, add_sub_cancel_left]
  have k : ∀ e s : K, 0 ≤ s → e = s * (u * v * w) ∨ e = -(s * (u * v * w)) → |e| = s * (u * v * w) := fun e s hs he => by
    rcases he with rfl | rfl
    · exact abs_of_nonneg (mul_nonneg hs hp)
    · rw [abs_neg]; exact abs_of_nonneg (mul_nonneg hs hp)
  rw [k _ 1 zero_le_one (by first | (left; ring) | (right; ring)), k _ 1 zero_le_one (by first | (left; ring; done) | (right; ring; done)), k _ 2 zero_le_two (by first | (left; ring; done) | (right; ring; done)),
    k _ 1 zero_le_one (by first | (left; ring; done) | (right; ring; done)), k _ 1 zero_le_one (by first | (left; ring; done) | (right; ring; done))]
  ring

lemma hexCenter_box (o d : K × K × K) : hexCenter (boxCorner o d) = (o.1 + d.1 / 2, o.2.1 + d.2.1 / 2, o.2.2 + d.2.2 / 2) := by
  unfold hexCenter boxCorner
  simp only [Prod.mk_add_mk, Nat.cast_zero, Nat.cast_one, zero_mul, one_mul, add_zero]
  refine Prod.ext ?_ (Prod.ext ?_ ?_) <;> simp only <;> ring

/-- The box of a cell. -/
def cellBox (s : Sizes K) (c : Cell) : ℕ → ℕ → ℕ → K × K × K :=
  boxCorner (offset s.x c.1, offset s.y c.2.1, offset s.z c.2.2) (size s.x c.1, size s.y c.2.1, size s.z c.2.2)

lemma hex_draws {M : Mesh K} {s : Sizes K} {m : ℕ} {c : Cell} (h : M.Draws s m c) : ∃ f, M.hex m = .ok f ∧ ∀ a b e, a < 2 → b < 2 → e < 2 → f a b e = cellBox s c a b e := by
  have o : ∀ (d : DArg K) (i a : ℕ), a < 2 → offset d (i + a) = offset d i + a * size d i := fun d i a ha => by
    obtain rfl | rfl : a = 0 ∨ a = 1 := by omega
    · simp
    · unfold offset; rw [Finset.sum_range_succ]; simp
  have key : ∀ a b e, a < 2 → b < 2 → e < 2 → M.corner m a b e = some (cellBox s c a b e) := fun a b e ha hb he => by
    rw [h a b e ha hb he, o _ _ _ ha, o _ _ _ hb, o _ _ _ he]; rfl
  unfold Mesh.hex
  rw [key 0 0 0 (by omega) (by omega) (by omega), key 1 0 0 (by omega) (by omega) (by omega), key 0 1 0 (by omega) (by omega) (by omega), key 1 1 0 (by omega) (by omega) (by omega),
    key 0 0 1 (by omega) (by omega) (by omega), key 1 0 1 (by omega) (by omega) (by omega), key 0 1 1 (by omega) (by omega) (by omega), key 1 1 1 (by omega) (by omega) (by omega)]
  refine ⟨_, rfl, fun a b e ha hb he => ?_⟩
  have two : ∀ {n : ℕ}, n < 2 → n = 0 ∨ n = 1 := fun h => by omega
  rcases two ha with rfl | rfl <;> rcases two hb with rfl | rfl <;> rcases two he with rfl | rfl <;> rfl

variable [FloorRing K]

/-- Measuring a mesh gives the measure of the box of every shown cell, in the order of the cells. -/
lemma measure_eq {α : Type} (f : (ℕ → ℕ → ℕ → K × K × K) → α) (hf : ∀ u v : ℕ → ℕ → ℕ → K × K × K, (∀ a b e, a < 2 → b < 2 → e < 2 → u a b e = v a b e) → f u = f v) (g : Dims) (s : Sizes K) (q : Geom K)
    (hq : Geom.calc g s.x s.y s.z = .ok q) (h0 : ∀ a, ¬ Flow g.nx g.ny g.nz a → s.along (0, 0, 0) a ≠ 0) (b : Bool) :
    ∃ M, pyvistaGrid g q b = .ok M ∧ M.measure f = .ok ((g.cellsOf b).map fun id => f (cellBox s (g.dec id))) := by
  obtain ⟨M, h1, h2, h3⟩ := mesh_ok g s q hq h0 b
  refine ⟨M, h1, ?_⟩
  have hN : M.shape.1 * M.shape.2.1 * M.shape.2.2 = g.getN b := by rw [h2]; rfl
  have key : ∀ m, m < g.getN b → (do return f (← M.hex m) : Except Err α) = .ok (f (cellBox s (g.dec ((g.cellsOf b).getD m 0)))) := fun m hm => by
    obtain ⟨p, hp, rfl⟩ := place_of g b hm
    obtain ⟨u, hu, hv⟩ := hex_draws (h3 p hp)
    rw [hu]
    have : (g.cellsOf b).getD (placeNo g b p) 0 = g.num (placed g b p) := by rw [List.getD_eq_getElem?_getD, cellsOf_get g b hp]; rfl
    have hin : InGrid g.nx g.ny g.nz (placed g b p) := by
      have := placed_shown g b hp
      unfold Shown at this
      split_ifs at this
      · exact this
      · exact Interior.inGrid this
    rw [this, g.dec_num hin]
    show Except.ok (f u) = _
    rw [hf _ _ hv]
  have all : ∀ l : List ℕ, (∀ m, m ∈ l → m < g.getN b) → l.mapM (fun m => (do return f (← M.hex m) : Except Err α)) = .ok (l.map fun m => f (cellBox s (g.dec ((g.cellsOf b).getD m 0)))) := fun l => by
    induction l with
    | nil => intro _; rfl
    | cons a l ih =>
      intro h
      rw [List.mapM_cons, key a (h a (by simp)), ih fun m hm => h m (by simp [hm])]
      rfl
  unfold Mesh.measure
  rw [hN, all _ fun m hm => List.mem_range.1 hm]
  congr 1
  refine List.ext_getElem? fun i => ?_
  rw [List.getElem?_map, List.getElem?_map]
  by_cases hi : i < g.getN b
  · have hi' : i < (g.cellsOf b).length := by rw [cellsOf_length]; exact hi
    rw [List.getElem?_range hi, List.getElem?_eq_getElem hi', Option.map_some, Option.map_some, List.getD_eq_getElem?_getD, List.getElem?_eq_getElem hi']
    rfl
  · rw [List.getElem?_eq_none (by simpa using hi), List.getElem?_eq_none (by rw [cellsOf_length]; omega)]
    rfl

end

/-! ## The property -/

section
variable {K : Type} [Field K] [LinearOrder K] [IsStrictOrderedRing K] [FloorRing K]

lemma hexVolume_congr (u v : ℕ → ℕ → ℕ → K × K × K) (h : ∀ a b e, a < 2 → b < 2 → e < 2 → u a b e = v a b e) : hexVolume u = hexVolume v := by
  unfold hexVolume
  simp only [h 0 0 0 (by omega) (by omega) (by omega), h 1 0 0 (by omega) (by omega) (by omega), h 0 1 0 (by omega) (by omega) (by omega), h 1 1 0 (by omega) (by omega) (by omega),
    h 0 0 1 (by omega) (by omega) (by omega), h 1 0 1 (by omega) (by omega) (by omega), h 0 1 1 (by omega) (by omega) (by omega), h 1 1 1 (by omega) (by omega) (by omega)]

lemma hexCenter_congr (u v : ℕ → ℕ → ℕ → K × K × K) (h : ∀ a b e, a < 2 → b < 2 → e < 2 → u a b e = v a b e) : hexCenter u = hexCenter v := by
  unfold hexCenter
  simp only [h 0 0 0 (by omega) (by omega) (by omega), h 1 0 0 (by omega) (by omega) (by omega), h 0 1 0 (by omega) (by omega) (by omega), h 1 1 0 (by omega) (by omega) (by omega),
    h 0 0 1 (by omega) (by omega) (by omega), h 1 0 1 (by omega) (by omega) (by omega), h 0 1 1 (by omega) (by omega) (by omega), h 1 1 1 (by omega) (by omega) (by omega)]

/-- **C96**: for every grid with positive cell sizes, the volumes of the cells, the total volume and the centres that pyvista measures are those of the built-in calculations, with boundary cells and
without. -/
theorem C96_measured (g : Dims) (s : Sizes K) (q : Geom K) (hq : Geom.calc g s.x s.y s.z = .ok q) (hpos : ∀ c, InGrid g.nx g.ny g.nz c → ∀ a, 0 < s.along c a) (b : Bool) :
    ∃ (v : List K) (c : List (K × K × K)), meshVolumes g q b = .ok v ∧ Geom.cells g q.V b = .ok v ∧ meshVt g q b = .ok v.sum ∧ q.getVt g b = .ok v.sum ∧
      meshCenters g q b = .ok c ∧ Geom.cells g (q.centers g) b = .ok c := by
  have z0 : InGrid g.nx g.ny g.nz (0, 0, 0) := ⟨padded_pos' g.hx, padded_pos' g.hy, padded_pos' g.hz⟩
  have h0 : ∀ a, ¬ Flow g.nx g.ny g.nz a → s.along (0, 0, 0) a ≠ 0 := fun a _ => (hpos _ z0 a).ne'
  have vol : ∀ id, id < g.getN true → hexVolume (cellBox s (g.dec id)) = s.volume (g.dec id) := fun id hid => by
    have hin := g.dec_inGrid hid
    exact hexVolume_box _ _ (hpos _ hin .x).le (hpos _ hin .y).le (hpos _ hin .z).le
  have cen : ∀ id, hexCenter (cellBox s (g.dec id)) = s.center (g.dec id) := fun id => hexCenter_box _ _
  obtain ⟨hx, hy, hz⟩ := calc_inv g s q hq
  obtain ⟨q', h1, h2⟩ := calc_ok g s hx hy hz
  rw [hq] at h1; cases h1
  have mv : ∀ b, ∃ M, pyvistaGrid g q b = .ok M ∧ M.measure hexVolume = .ok ((g.cellsOf b).map fun id => s.volume (g.dec id)) := fun b => by
    obtain ⟨M, m1, m2⟩ := measure_eq hexVolume hexVolume_congr g s q hq h0 b
    refine ⟨M, m1, m2.trans ?_⟩
    congr 1
    exact List.map_congr_left fun id hid => vol id (g.cellsOf_lt b id hid)
  obtain ⟨cs, c1, -, -, c2⟩ := C13_listings g s q hq b
  obtain ⟨cs', c1', c2'⟩ := (C15_centers g s q hq).2 b
  rw [c1] at c1'; cases c1'
  rw [g.getCellsCoords_eq] at c1
  have ecs : cs = (g.cellsOf b).map g.dec := by
    simp only [Except.ok.injEq] at c1
    rw [← c1]; unfold cellsOf; cases b <;> rfl
  refine ⟨_, _, ?_, c2, ?_, (C14_total_volume g s q hq).2.2 b _ c2, ?_, c2'⟩
  · obtain ⟨M, m1, m2⟩ := mv true
    have e : ((g.cellsOf true).map fun id => s.volume (g.dec id)) = q.V := by rw [h2.V_eq]; rfl
    unfold meshVolumes
    rw [m1, bind_ok, m2, bind_ok, e, c2]
  · obtain ⟨M, m1, m2⟩ := mv b
    unfold meshVt
    rw [m1, bind_ok, m2, bind_ok, ecs, List.map_map]
    rfl
  · obtain ⟨M, m1, m2⟩ := measure_eq hexCenter hexCenter_congr g s q hq h0 true
    have e : ((g.cellsOf true).map fun id => hexCenter (cellBox s (g.dec id))) = q.centers g := by rw [h2.centers_eq]; exact List.map_congr_left fun id _ => cen id
    unfold meshCenters
    rw [m1, bind_ok, m2, bind_ok, e, c2']

end

/-! ### Instances -/

/-- Every grid with positive sizes that fit has built-in calculations: the hypotheses are met, here by a 3 by 2 by 1 grid of unequal cells. -/
example (b : Bool) : ∃ (q : Geom ℚ) (v : List ℚ), Geom.calc g321 s321.x s321.y s321.z = .ok q ∧ meshVolumes g321 q b = .ok v ∧ Geom.cells g321 q.V b = .ok v := by
  obtain ⟨q, hq, -⟩ := calc_ok g321 s321 rfl trivial trivial
  obtain ⟨v, c, h1, h2, -⟩ := C96_measured g321 s321 q hq (fun c hc a => by
    obtain ⟨i, j, k⟩ := c
    obtain ⟨hi, hj, hk⟩ := hc
    simp [g321, padded] at hi hj hk
    cases a
    · exact (by decide +kernel : ∀ i, i < 5 → 0 < size s321.x i) i hi
    · exact (by norm_num : (0 : ℚ) < 5)
    · exact (by norm_num : (0 : ℚ) < 2)) b
  exact ⟨q, v, hq, h1, h2⟩

end RF
