import Verif.Geom.Lemmas2
import Verif.Grid.Props
import Mathlib.Data.Rat.Floor
/-!
# Properties C13–C16: sizes, areas, volumes, centres, corners
-/
set_option linter.unusedSimpArgs false
namespace RF
open Spec Dims

variable {K : Type} [Field K]

/-- **C13** Sizes, face areas and volumes looked up for a cell are those of the box cut out by the user's layer sizes; by
id always, by coordinates always on unified or 3D grids and for interior cells otherwise. Interior listings agree with
the per-cell values. -/
theorem C13_cell_lookups (g : Dims) (s : Sizes K) (hx : Fits g.nx s.x) (hy : Fits g.ny s.y) (hz : Fits g.nz s.z) :
    ∃ q, Geom.calc g s.x s.y s.z = .ok q ∧ ∀ c, InGrid g.nx g.ny g.nz c →
      (∀ a o, q.cellD g a (some (cellNumber g.nx g.ny c : ℕ)) o = .ok (s.along c a)) ∧
      (∀ a o, q.cellA g a (some (cellNumber g.nx g.ny c : ℕ)) o = .ok (s.area c a)) ∧
      (∀ o, q.cellV g (some (cellNumber g.nx g.ny c : ℕ)) o = .ok (s.volume c)) ∧
      (g.unify = true ∨ g.getD = 3 ∨ Interior g.nx g.ny g.nz c →
        (∀ a, q.cellD g a none (some ((c.1 : ℤ), (c.2.1 : ℤ), (c.2.2 : ℤ))) = .ok (s.along c a)) ∧
        (∀ a, q.cellA g a none (some ((c.1 : ℤ), (c.2.1 : ℤ), (c.2.2 : ℤ))) = .ok (s.area c a)) ∧
        q.cellV g none (some ((c.1 : ℤ), (c.2.1 : ℤ), (c.2.2 : ℤ))) = .ok (s.volume c)) := by
  obtain ⟨q, h1, h2⟩ := calc_ok g s hx hy hz
  refine ⟨q, h1, fun c hc => ?_⟩
  have hd : g.dec (g.num c) = c := g.dec_num hc
  refine ⟨fun a o => ?_, fun a o => ?_, fun o => ?_, fun h => ?_⟩
  · rw [Geom.cellD, h2.d_eq]; exact (lookup_id g c hc _ o).trans (by rw [hd])
  · rw [Geom.cellA, h2.A_eq]; exact (lookup_id g c hc _ o).trans (by rw [hd])
  · rw [Geom.cellV, h2.V_eq]; exact (lookup_id g c hc _ o).trans (by rw [hd])
  · have key : ∀ {α : Type} (f : ℕ → α), g.lookup ((List.range (g.getN true)).map f) none
        (some ((c.1 : ℤ), (c.2.1 : ℤ), (c.2.2 : ℤ))) = .ok (f (g.num c)) := by
      intro α f
      rcases h with h | h | h
      · exact lookup_coords3 g c hc (Or.inl h) f
      · exact lookup_coords3 g c hc (Or.inr h) f
      · exact lookup_coords_inner g c h f
    refine ⟨fun a => ?_, fun a => ?_, ?_⟩
    · rw [Geom.cellD, h2.d_eq, key, hd]
    · rw [Geom.cellA, h2.A_eq, key, hd]
    · rw [Geom.cellV, h2.V_eq, key, hd]

/-- C13, listings: the lists of all cells and of interior cells carry the per-cell values in cell order. -/
theorem C13_listings (g : Dims) (s : Sizes K) (q : Geom K) (hq : Geom.calc g s.x s.y s.z = .ok q) (b : Bool) :
    ∃ cs, g.getCellsCoords b = .ok cs ∧
      (∀ a, Geom.cells g (q.d a) b = .ok (cs.map (s.along · a))) ∧
      (∀ a, Geom.cells g (q.A a) b = .ok (cs.map (s.area · a))) ∧
      Geom.cells g q.V b = .ok (cs.map s.volume) := by
  obtain ⟨hx, hy, hz⟩ := calc_inv g s q hq
  obtain ⟨q', h1, h2⟩ := calc_ok g s hx hy hz
  rw [hq] at h1; cases h1
  refine ⟨_, g.getCellsCoords_eq b, ?_⟩
  cases b
  · simp only [h2.d_eq, h2.A_eq, h2.V_eq, cells_false]
    simp [List.map_map, Function.comp_def]
  · simp only [h2.d_eq, h2.A_eq, h2.V_eq, Geom.cells]
    simp [List.map_map, Function.comp_def]

/-- C13, refusals: the constructor accepts exactly fitting size arguments; ids past the end are an `IndexError`, and
neither id nor coordinates is a `ValueError`; coordinates outside the grid are refused. -/
theorem C13_refusals (g : Dims) (s : Sizes K) :
    ((∃ q, Geom.calc g s.x s.y s.z = .ok q) ↔ Fits g.nx s.x ∧ Fits g.ny s.y ∧ Fits g.nz s.z) ∧
    (∀ q, Geom.calc g s.x s.y s.z = .ok q →
      (∀ (id : ℤ) o, (g.getN true : ℤ) ≤ id → q.cellV g (some id) o = .error .index ∧
        ∀ a, q.cellD g a (some id) o = .error .index) ∧
      (q.cellV g none none = .error .value ∧ ∀ a, q.cellD g a none none = .error .value) ∧
      (∀ i j k : ℤ, (i < 0 ∨ j < 0 ∨ k < 0 ∨ (padded g.nx : ℤ) ≤ i ∨ (padded g.ny : ℤ) ≤ j ∨ (padded g.nz : ℤ) ≤ k) →
        q.cellV g none (some (i, j, k)) = .error .assertion)) := by
  refine ⟨⟨fun ⟨q, h⟩ => calc_inv g s q h, fun h => ?_⟩, fun q hq => ?_⟩
  · obtain ⟨q, h1, -⟩ := calc_ok g s h.1 h.2.1 h.2.2; exact ⟨q, h1⟩
  · obtain ⟨hx, hy, hz⟩ := calc_inv g s q hq
    obtain ⟨q', h1, h2⟩ := calc_ok g s hx hy hz
    rw [hq] at h1; cases h1
    have key : ∀ {α : Type} (f : ℕ → α) (id : ℤ) o, (g.getN true : ℤ) ≤ id →
        g.lookup ((List.range (g.getN true)).map f) (some id) o = .error .index := by
      intro α f id o h
      simp only [lookup, Geom.pyGet]
      rw [if_neg (show ¬ id < 0 by omega), if_pos (by omega), List.getElem?_eq_none (by simp; omega)]
    refine ⟨fun id o h => ⟨?_, fun a => ?_⟩, ⟨rfl, fun a => rfl⟩, fun i j k h => ?_⟩
    · rw [Geom.cellV, h2.V_eq]; exact key _ _ _ h
    · rw [Geom.cellD, h2.d_eq]; exact key _ _ _ h
    · unfold Geom.cellV lookup; simp only; rw [icoords_outside g i j k h]; rfl

/-- C13 cannot be extended to boundary cells of non-unified 1D/2D grids: a lookup by coordinates of a cell with a zero
coordinate along a flow axis is refused, although the cell exists. -/
theorem C13_coords_refused (g : Dims) (s : Sizes K) (q : Geom K) (c : Cell) (hc : InGrid g.nx g.ny g.nz c)
    (hu : g.unify = false) (hD : g.getD ≤ 2)
    (h0 : (1 < g.nx ∧ c.1 = 0) ∨ (1 < g.ny ∧ c.2.1 = 0) ∨ (1 < g.nz ∧ c.2.2 = 0)) :
    q.cellV g none (some ((c.1 : ℤ), (c.2.1 : ℤ), (c.2.2 : ℤ))) = .error .assertion := by
  have hl : ([c.2.2, c.2.1, c.1].filter (0 < ·)).length ≠ g.getD := by
    have e : ∀ n x, 1 ≤ n → x < padded n → n = 1 ∨ 1 < n ∧ (n = 1 → x = 0) := fun n x h1 h2 => by
      unfold padded at h2; split_ifs at h2 <;> omega
    have z : ∀ n x, n = 1 → x < padded n → x = 0 := fun n x h1 h2 => by subst h1; simp [padded] at h2; exact h2
    obtain ⟨g1, g2, g3⟩ := hc
    have f : ∀ n x, 1 ≤ n → x < padded n → (if 0 < x then 1 else 0) ≤ (if 1 < n then 1 else 0) := by
      intro n x h1 h2; unfold padded at h2; split_ifs at * <;> omega
    have f1 := f _ _ g.hx g1; have f2 := f _ _ g.hy g2; have f3 := f _ _ g.hz g3
    have len : ([c.2.2, c.2.1, c.1].filter (0 < ·)).length =
        (if 0 < c.2.2 then 1 else 0) + (if 0 < c.2.1 then 1 else 0) + (if 0 < c.1 then 1 else 0) := by
      by_cases h1 : 0 < c.2.2 <;> by_cases h2 : 0 < c.2.1 <;> by_cases h3 : 0 < c.1 <;> simp [h1, h2, h3]
    rw [len, getD_cases]
    rcases h0 with ⟨h1, h2⟩ | ⟨h1, h2⟩ | ⟨h1, h2⟩ <;> simp only [h1, h2, if_true, lt_irrefl, if_false] at * <;> omega
  unfold Geom.cellV lookup
  simp only
  rw [icoords_eq g c hc, if_pos ⟨hu, hD⟩, if_neg hl]; rfl

/-- A 3×2×1 grid with layer sizes 10,20,30,40,50 along x, 5 along y and 2 along z. -/
def s321 : Sizes ℚ := ⟨.list [10, 20, 30, 40, 50], .scalar 5, .scalar 2⟩
/-- C13 on a concrete grid: cell 7 = (2,1,0) is 30×5×2. -/
example : ∃ q, Geom.calc g321 s321.x s321.y s321.z = .ok q ∧ q.cellV g321 (some 7) none = .ok 300 ∧
    q.cellV g321 none (some (2, 1, 0)) = .ok 300 ∧ q.cellA g321 .x (some 7) none = .ok 10 := by
  obtain ⟨q, h1, h2⟩ := C13_cell_lookups g321 s321 rfl trivial trivial
  obtain ⟨h3, h4, h5, h6⟩ := h2 (2, 1, 0) (by decide)
  refine ⟨q, h1, (h5 none).trans ?_, (h6 (by decide)).2.2.trans ?_, (h4 .x none).trans ?_⟩ <;>
    (congr 1; simp [Sizes.volume, Sizes.area, size, s321]; try norm_num)
/-- A boundary cell of a non-unified column cannot be looked up by coordinates. -/
example : g141.unify = false ∧ g141.getD ≤ 2 ∧ InGrid 1 4 1 (0, 0, 0) ∧ 1 < g141.ny := by decide

/-- **C14** The total volume is the product of the three axis lengths, with boundary cells or without. -/
theorem C14_total_volume (g : Dims) (s : Sizes K) (q : Geom K) (hq : Geom.calc g s.x s.y s.z = .ok q) :
    q.getVt g true = .ok ((∑ i ∈ Finset.range (padded g.nx), size s.x i) *
      (∑ j ∈ Finset.range (padded g.ny), size s.y j) * (∑ k ∈ Finset.range (padded g.nz), size s.z k)) ∧
    q.getVt g false = .ok ((∑ i ∈ (Finset.range (padded g.nx)).filter (innerCoord g.nx), size s.x i) *
      (∑ j ∈ (Finset.range (padded g.ny)).filter (innerCoord g.ny), size s.y j) *
      (∑ k ∈ (Finset.range (padded g.nz)).filter (innerCoord g.nz), size s.z k)) ∧
    (∀ b l, Geom.cells g q.V b = .ok l → q.getVt g b = .ok l.sum) := by
  obtain ⟨hx, hy, hz⟩ := calc_inv g s q hq
  obtain ⟨q', h1, h2⟩ := calc_ok g s hx hy hz
  rw [hq] at h1; cases h1
  have hfalse : q.getVt g false = .ok (g.innerIds.map fun id => s.volume (g.dec id)).sum := by
    unfold Geom.getVt
    rw [if_neg (by simp)]
    obtain ⟨r, hr1, hr2⟩ := g.removeBoundaries_data (NdArr.ofList q.V) (Or.inl rfl) (by simp [NdArr.ofList, h2.V_eq])
    rw [hr1]
    simp only
    rw [hr2]
    congr 2
    rw [h2.V_eq]
    have : ∀ l : List ℕ, (∀ i ∈ l, i < g.getN true) → l.filterMap (fun x => (NdArr.ofList ((List.range (g.getN true)).map
        fun id => s.volume (g.dec id))).data[x]?) = l.map fun id => s.volume (g.dec id) := by
      intro l hl
      induction l with
      | nil => rfl
      | cons a t ih =>
        rw [List.filterMap_cons_some (b := s.volume (g.dec a)) (by simp [NdArr.ofList, hl a (by simp)]), List.map_cons,
          ih fun i hi => hl i (by simp [hi])]
    exact this _ fun i hi => g.innerIds_lt hi
  refine ⟨?_, ?_, ?_⟩
  · unfold Geom.getVt
    rw [if_pos rfl, h2.V_eq, getN_true, ← boxIds_range]
    congr 1
    simp only [← sum_range_list]
    exact sum_boxIds _ _ _ _ _ (size s.x) (size s.y) (size s.z) (by simp) (by simp)
  · rw [hfalse, ← sum_innerList g.hx, ← sum_innerList g.hy, ← sum_innerList g.hz]
    congr 1
    exact sum_boxIds _ _ _ _ _ (size s.x) (size s.y) (size s.z) (fun i hi => innerList_lt g.hx hi)
      (fun i hi => innerList_lt g.hy hi)
  · intro b l hl
    cases b
    · rw [h2.V_eq, cells_false] at hl; cases hl; exact hfalse
    · cases hl; rfl

example : ∃ q, Geom.calc g321 s321.x s321.y s321.z = .ok q ∧ q.getVt g321 false = .ok (90 * 10 * 2) := by
  obtain ⟨q, h1, -⟩ := C13_cell_lookups g321 s321 rfl trivial trivial
  refine ⟨q, h1, (C14_total_volume g321 s321 q h1).2.1.trans ?_⟩
  have e3 : (Finset.range (padded 3)).filter (innerCoord 3) = {1, 2, 3} := by decide
  have e2 : (Finset.range (padded 2)).filter (innerCoord 2) = {1, 2} := by decide
  have e1 : (Finset.range (padded 1)).filter (innerCoord 1) = {0} := by decide
  change Except.ok ((∑ i ∈ (Finset.range (padded 3)).filter (innerCoord 3), size s321.x i) *
    (∑ i ∈ (Finset.range (padded 2)).filter (innerCoord 2), size s321.y i) *
    (∑ i ∈ (Finset.range (padded 1)).filter (innerCoord 1), size s321.z i)) = _
  rw [e1, e2, e3]
  congr 1
  simp [size, s321]; norm_num

/-- **C15** The centre of every cell is the midpoint of its box: the sizes of the layers before it plus half its own, on
each axis; the lookup by id and by coordinates and the listings agree. -/
theorem C15_centers (g : Dims) (s : Sizes K) (q : Geom K) (hq : Geom.calc g s.x s.y s.z = .ok q) :
    (∀ c, InGrid g.nx g.ny g.nz c →
      (∀ o, q.cellCenter g (some (cellNumber g.nx g.ny c : ℕ)) o = .ok (s.center c)) ∧
      (g.unify = true ∨ g.getD = 3 ∨ Interior g.nx g.ny g.nz c →
        q.cellCenter g none (some ((c.1 : ℤ), (c.2.1 : ℤ), (c.2.2 : ℤ))) = .ok (s.center c))) ∧
    (∀ b, ∃ cs, g.getCellsCoords b = .ok cs ∧ Geom.cells g (q.centers g) b = .ok (cs.map s.center)) := by
  obtain ⟨hx, hy, hz⟩ := calc_inv g s q hq
  obtain ⟨q', h1, h2⟩ := calc_ok g s hx hy hz
  rw [hq] at h1; cases h1
  refine ⟨fun c hc => ⟨fun o => ?_, fun h => ?_⟩, fun b => ⟨_, g.getCellsCoords_eq b, ?_⟩⟩
  · rw [Geom.cellCenter, h2.centers_eq]
    exact (lookup_id g c hc _ o).trans (by rw [g.dec_num hc])
  · rw [Geom.cellCenter, h2.centers_eq]
    rcases h with h | h | h
    · exact (lookup_coords3 g c hc (Or.inl h) _).trans (by rw [g.dec_num hc])
    · exact (lookup_coords3 g c hc (Or.inr h) _).trans (by rw [g.dec_num hc])
    · exact (lookup_coords_inner g c h _).trans (by rw [g.dec_num hc])
  · rw [h2.centers_eq]
    cases b
    · rw [cells_false]; simp [List.map_map, Function.comp_def]
    · simp [Geom.cells, List.map_map, Function.comp_def]

example : ∃ q, Geom.calc g321 s321.x s321.y s321.z = .ok q ∧ q.cellCenter g321 (some 7) none = .ok (45, 15 / 2, 1) := by
  obtain ⟨q, h1, -⟩ := C13_cell_lookups g321 s321 rfl trivial trivial
  refine ⟨q, h1, (((C15_centers g321 s321 q h1).1 (2, 1, 0) (by decide)).1 none).trans ?_⟩
  congr 1
  simp [Sizes.center, offset, size, s321, Finset.sum_range_succ]; norm_num

section corners
variable [LinearOrder K] [IsStrictOrderedRing K] [FloorRing K]

lemma edges_ok {n : ℕ} (hn : 1 ≤ n) (d_ : List K) (d : DArg K) (b : Bool)
    (h_ : d_.take (padded n) = (List.range (padded n)).map (size d))
    (hf : 1 < n → d_ = (List.range (padded n)).map (size d)) (h0 : n = 1 → size d 0 ≠ 0) :
    Geom.edges (decide (1 < n)) n d_ b = .ok ((List.range ((if b then padded n else n) + 1)).map fun t =>
      offset d (t + if b = false ∧ 1 < n then 1 else 0)) := by
  unfold Geom.edges
  by_cases h : 1 < n
  · have hd := hf h
    have hl : d_.length = padded n := by rw [hd]; simp
    have hcum : (0 :: Geom.cumsum d_ 0 : List K) = (List.range (padded n + 1)).map (offset d) := by
      apply List.ext_getElem?
      intro i
      cases i with
      | zero => simp [offset]
      | succ i =>
        by_cases hi : i < padded n
        · rw [List.getElem?_cons_succ, cumsum_get _ _ _ (by omega), List.getElem?_map, List.getElem?_range (by omega)]
          simp only [zero_add, Option.map_some]
          congr 1
          rw [hd, ← List.map_take, List.take_range, Nat.min_eq_left (by omega), sum_range_list]; rfl
        · rw [List.getElem?_eq_none (by simp [cumsum_length]; omega), List.getElem?_eq_none (by simp; omega)]
    have hp : padded n = n + 2 := by simp [padded, h]
    simp only [h, decide_true, if_true, hcum, bind_pure']
    cases b
    · simp only [Bool.not_true, Bool.or_self, Bool.false_eq_true, if_false, and_self, if_true]
      refine congrArg Except.ok ?_
      apply List.ext_getElem?
      intro i
      by_cases hi : i < n + 1
      · rw [List.getElem?_dropLast, if_pos (by simp [hp]; omega), List.getElem?_drop, List.getElem?_map, List.getElem?_map,
          List.getElem?_range (by omega), List.getElem?_range hi, Nat.add_comm 1 i]; rfl
      · rw [List.getElem?_eq_none (by simp [hp]; omega), List.getElem?_eq_none (by simp; omega)]
    · simp; rfl
  · have e : n = 1 := by omega
    subst e
    have hne := h0 rfl
    simp only [padded, lt_irrefl, if_false] at h_
    cases d_ with
    | nil => simp at h_
    | cons d0 t =>
      simp at h_
      simp only [lt_irrefl, decide_false, Bool.false_eq_true, if_false, and_false]
      have : Geom.arange ((((1 : ℕ) : K) + 1) * d0) d0 = .ok [0, d0] := by
        have hd0 : d0 ≠ 0 := h_ ▸ hne
        unfold Geom.arange
        rw [if_neg hd0, mul_div_assoc, div_self hd0, mul_one]
        have : ⌈((1 : ℕ) : K) + 1⌉ = 2 := by
          rw [show ((1 : ℕ) : K) + 1 = ((2 : ℤ) : K) by push_cast; norm_num, Int.ceil_intCast]
        rw [this]; simp [List.range_succ]
      rw [this, bind_ok]
      have hb : (if b = true then padded 1 else 1) = 1 := by cases b <;> rfl
      rw [hb]
      simp [List.range_succ, offset, h_]
      rfl

/-- **C16** Corner points handed to the mesh builder: eight per cell, and the corner of cell `(i,j,k)` on the sides
`(a,b,c)` (0 near, 1 far) is the corner of its box, so that neighbouring cells share their faces exactly. Without boundary
cells, cell `(i,j,k)` is the interior cell shifted past the boundary layer. -/
theorem C16_corners (g : Dims) (s : Sizes K) (q : Geom K) (hq : Geom.calc g s.x s.y s.z = .ok q)
    (h0 : ∀ a, ¬ Flow g.nx g.ny g.nz a → s.along (0, 0, 0) a ≠ 0) (bd : Bool) (X Y Z : ℕ)
    (hX : X = if bd then padded g.nx else g.nx) (hY : Y = if bd then padded g.ny else g.ny)
    (hZ : Z = if bd then padded g.nz else g.nz) :
    ∃ pts, q.corners g bd = .ok pts ∧ pts.length = 8 * (X * Y * Z) ∧
      ∀ i j k a b c : ℕ, i < X → j < Y → k < Z → a < 2 → b < 2 → c < 2 →
        pts[number (2 * X) (2 * Y) (2 * i + a, 2 * j + b, 2 * k + c)]? =
          some (offset s.x (i + a + if bd = false ∧ 1 < g.nx then 1 else 0),
            offset s.y (j + b + if bd = false ∧ 1 < g.ny then 1 else 0),
            offset s.z (k + c + if bd = false ∧ 1 < g.nz then 1 else 0)) := by
  obtain ⟨hx, hy, hz⟩ := calc_inv g s q hq
  obtain ⟨q', h1, h2⟩ := calc_ok g s hx hy hz
  rw [hq] at h1; cases h1
  have ex := edges_ok g.hx q.dx_ s.x bd h2.x_ h2.xf (fun h => h0 .x (by simp [Flow, along, h]))
  have ey := edges_ok g.hy q.dy_ s.y bd h2.y_ h2.yf (fun h => h0 .y (by simp [Flow, along, h]))
  have ez := edges_ok g.hz q.dz_ s.z bd h2.z_ h2.zf (fun h => h0 .z (by simp [Flow, along, h]))
  rw [← hX] at ex; rw [← hY] at ey; rw [← hZ] at ez
  have pl : ∀ n, (n + if (bd && decide (1 < n)) = true then 2 else 0) = if bd then padded n else n := by
    intro n; cases bd <;> simp [padded]; split_ifs <;> omega
  have hp : ∀ n, 1 ≤ n → 1 ≤ padded n := fun n h => by unfold padded; split_ifs <;> omega
  have hX1 : 1 ≤ X := by rw [hX]; split_ifs; exacts [hp _ g.hx, g.hx]
  have hY1 : 1 ≤ Y := by rw [hY]; split_ifs; exacts [hp _ g.hy, g.hy]
  have hZ1 : 1 ≤ Z := by rw [hZ]; split_ifs; exacts [hp _ g.hz, g.hz]
  generalize hfx : (fun t => offset s.x (t + if bd = false ∧ 1 < g.nx then 1 else 0)) = fx at ex
  generalize hfy : (fun t => offset s.y (t + if bd = false ∧ 1 < g.ny then 1 else 0)) = fy at ey
  generalize hfz : (fun t => offset s.z (t + if bd = false ∧ 1 < g.nz then 1 else 0)) = fz at ez
  unfold Geom.corners
  rw [fdir_x, fdir_y, fdir_z, ex, ey, ez]
  simp only [bind_ok, pl]
  rw [← hX, ← hY, ← hZ]
  have lx : (Geom.doubled ((List.range (X + 1)).map fx)).length = 2 * X := by rw [doubled_length]; simp; omega
  have ly : (Geom.doubled ((List.range (Y + 1)).map fy)).length = 2 * Y := by rw [doubled_length]; simp; omega
  have lz : (Geom.doubled ((List.range (Z + 1)).map fz)).length = 2 * Z := by rw [doubled_length]; simp; omega
  have l1 : (Geom.tile (Geom.doubled ((List.range (X + 1)).map fx)) (4 * Y * Z)).length = 8 * (X * Y * Z) := by
    rw [tile_length, lx]; ring
  have l2 : (Geom.repeat_ (Geom.tile (Geom.doubled ((List.range (Y + 1)).map fy)) (2 * Z)) (2 * X)).length =
      8 * (X * Y * Z) := by rw [repeat_length, tile_length, ly]; ring
  have l3 : (Geom.repeat_ (Geom.doubled ((List.range (Z + 1)).map fz)) (4 * X * Y)).length = 8 * (X * Y * Z) := by
    rw [repeat_length, lz]; ring
  rw [if_pos ⟨l1.trans l2.symm, l2.trans l3.symm⟩]
  refine ⟨_, rfl, by simp [l1, l2, l3], ?_⟩
  intro i j k a b c hi hj hk ha hb hc
  have hA : 2 * i + a < 2 * X := by omega
  have hB : 2 * j + b < 2 * Y := by omega
  have hC : 2 * k + c < 2 * Z := by omega
  have dn := decode_number (c := (2 * i + a, 2 * j + b, 2 * k + c)) hA hB
  have hlt : number (2 * X) (2 * Y) (2 * i + a, 2 * j + b, 2 * k + c) < 8 * (X * Y * Z) := by
    have := number_lt (c := (2 * i + a, 2 * j + b, 2 * k + c)) hA hB hC
    calc _ < _ := this
      _ = _ := by ring
  generalize number (2 * X) (2 * Y) (2 * i + a, 2 * j + b, 2 * k + c) = p at dn hlt
  simp only [decode, Prod.mk.injEq] at dn
  obtain ⟨d1, d2, d3⟩ := dn
  rw [List.getElem?_zipWith, List.getElem?_zipWith, tile_get _ _ _ (by rw [lx]; calc p < _ := hlt
    _ = _ := by ring), lx, d1, repeat_get _ _ _ (by omega), repeat_get _ _ _ (by positivity)]
  have p2 : p / (2 * X) < 2 * Z * (2 * Y) := by
    rw [Nat.div_lt_iff_lt_mul (by omega)]; calc p < _ := hlt
      _ = _ := by ring
  rw [tile_get _ _ _ (by rw [ly]; exact p2), ly, d2]
  have d3' : p / (4 * X * Y) = 2 * k + c := by
    rw [← d3, Nat.div_div_eq_div_mul]; congr 1; ring
  rw [d3']
  have half : ∀ (t u N : ℕ) (f : ℕ → K), t < N → u < 2 →
      (Geom.doubled ((List.range (N + 1)).map f))[2 * t + u]? = some (f (t + u)) := by
    intro t u N f ht hu
    rw [doubled_get _ _ (by simp; omega), List.getElem?_map, List.getElem?_range (by omega)]
    have : (2 * t + u + 1) / 2 = t + u := by omega
    rw [this]; rfl
  rw [half i a X fx hi ha, half j b Y fy hj hb, half k c Z fz hk hc, ← hfx, ← hfy, ← hfz]

/-- C16 on the 3×2×1 example: the hypotheses hold and cell (1,0,0) without boundaries starts at x = 10+20. -/
example : ∃ q, Geom.calc g321 s321.x s321.y s321.z = .ok q ∧
    (∀ a, ¬ Flow g321.nx g321.ny g321.nz a → s321.along (0, 0, 0) a ≠ 0) ∧
    ∃ pts, q.corners g321 false = .ok pts ∧ pts[2]? = some (30, 5, 0) := by
  obtain ⟨q, h1, -⟩ := C13_cell_lookups g321 s321 rfl trivial trivial
  have h0 : ∀ a, ¬ Flow g321.nx g321.ny g321.nz a → s321.along (0, 0, 0) a ≠ 0 := by
    intro a h; cases a
    · exact absurd (by decide) h
    · exact absurd (by decide) h
    · simp [Sizes.along, s321, size]
  obtain ⟨pts, p1, -, p2⟩ := C16_corners g321 s321 q h1 h0 false 3 2 1 rfl rfl rfl
  refine ⟨q, h1, h0, pts, p1, ?_⟩
  have := p2 1 0 0 0 0 0 (by omega) (by omega) (by omega) (by omega) (by omega) (by omega)
  have e : number (2 * 3) (2 * 2) (2 * 1 + 0, 2 * 0 + 0, 2 * 0 + 0) = 2 := by decide
  rw [e] at this
  rw [this]
  simp [g321, s321, offset, size, Finset.sum_range_succ]; norm_num

end corners

end RF
