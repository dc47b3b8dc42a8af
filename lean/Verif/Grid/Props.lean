import Verif.Grid.Lemmas6
/-!
# Properties C01–C12: numbering, interior/boundary, neighbours

Only the specification (`Verif/Grid/Spec.lean`) and the modelled API functions occur in the statements.
-/
namespace RF
open Spec Dims

/-- A 3×2×1 grid (flow in x and y) used as a running example. -/
def g321 : Dims := ⟨3, 2, 1, true, by decide, by decide, by decide⟩
/-- A 2×3×4 grid, not unified. -/
def g234 : Dims := ⟨2, 3, 4, false, by decide, by decide, by decide⟩
/-- A single cell. -/
def g111 : Dims := ⟨1, 1, 1, true, by decide, by decide, by decide⟩
/-- A 4-cell column along y, not unified. -/
def g141 : Dims := ⟨1, 4, 1, false, by decide, by decide, by decide⟩

/-- The constructor accepts exactly positive sizes and keeps them. -/
theorem C01_sizes_accepted (nx ny nz : ℤ) (u : Bool) :
    (∀ g, Dims.init nx ny nz u = .ok g → (g.nx : ℤ) = nx ∧ (g.ny : ℤ) = ny ∧ (g.nz : ℤ) = nz ∧ g.unify = u ∧
      1 ≤ nx ∧ 1 ≤ ny ∧ 1 ≤ nz) ∧
    (1 ≤ nx → 1 ≤ ny → 1 ≤ nz → ∃ g, Dims.init nx ny nz u = .ok g) ∧
    ((nx < 1 ∨ ny < 1 ∨ nz < 1) → Dims.init nx ny nz u = .error .assertion) := by
  unfold Dims.init
  refine ⟨fun g h => ?_, fun h1 h2 h3 => ⟨_, dif_pos ⟨h1, h2, h3⟩⟩, fun h => dif_neg (by omega)⟩
  split_ifs at h with h1
  cases h
  refine ⟨?_, ?_, ?_, rfl, h1⟩ <;> simp only <;> omega

/-- **C01** Cell numbering is a bijection between `0..n-1` and the box of coordinates, with `i` fastest; everything
outside is refused. `X`, `Y`, `Z` are the sizes with or without boundary cells. -/
theorem C01_numbering_bijection (g : Dims) (b : Bool) (X Y Z : ℕ)
    (hX : X = if b then padded g.nx else g.nx) (hY : Y = if b then padded g.ny else g.ny)
    (hZ : Z = if b then padded g.nz else g.nz) :
    g.getN b = X * Y * Z ∧
    (∀ id : ℕ, id < X * Y * Z → ∃ c : Cell, g.getCellCoords id b = .ok c ∧ c.1 < X ∧ c.2.1 < Y ∧ c.2.2 < Z ∧
      g.getCellId (c.1, c.2.1, c.2.2) b = some id) ∧
    (∀ c : Cell, c.1 < X → c.2.1 < Y → c.2.2 < Z →
      g.getCellId (c.1, c.2.1, c.2.2) b = some (number X Y c) ∧ number X Y c < X * Y * Z ∧
      g.getCellCoords (number X Y c) b = .ok c) ∧
    (∀ id : ℤ, (id < 0 ∨ (X * Y * Z : ℕ) ≤ id) → g.getCellCoords id b = .error .type) ∧
    (∀ i j k : ℤ, (i < 0 ∨ j < 0 ∨ k < 0 ∨ (X : ℤ) ≤ i ∨ (Y : ℤ) ≤ j ∨ (Z : ℤ) ≤ k) →
      g.getCellId (i, j, k) b = none) := by
  have hs : g.getShape b = (X, Y, Z) := by
    subst hX hY hZ
    cases b
    · simp [getShape]
    · simp [getShape_true]
  have hn : g.getN b = X * Y * Z := by simp [getN, hs]
  have hcoords : ∀ id : ℕ, id < X * Y * Z → g.getCellCoords id b = .ok (decode X Y id) := by
    intro id h
    unfold getCellCoords pvCellCoords
    rw [hs, if_pos (by simp; exact_mod_cast h)]
    rfl
  have hid : ∀ c : Cell, c.1 < X → c.2.1 < Y → c.2.2 < Z →
      g.getCellId (c.1, c.2.1, c.2.2) b = some (number X Y c) := by
    intro c h1 h2 h3
    unfold getCellId pvCellId
    rw [hs, if_pos (by simp; omega)]
    simp [number]
  refine ⟨hn, ?_, ?_, ?_, ?_⟩
  · intro id h
    obtain ⟨h1, h2, h3⟩ := decode_lt h
    exact ⟨_, hcoords id h, h1, h2, h3, by rw [hid _ h1 h2 h3, number_decode]⟩
  · intro c h1 h2 h3
    have h4 := number_lt h1 h2 h3
    exact ⟨hid c h1 h2 h3, h4, by rw [hcoords _ h4, decode_number h1 h2]⟩
  · intro id h
    unfold getCellCoords pvCellCoords
    rw [hs, if_neg (by push_cast at *; omega)]
  · intro i j k h
    unfold getCellId pvCellId
    rw [hs, if_neg (by simp only; omega)]

/-- C01 on a concrete grid: cell 13 of the padded 3×2×1 grid is (3, 2, 0). -/
example : g321.getCellCoords 13 true = .ok (3, 2, 0) ∧ g321.getCellId (3, 2, 0) true = some 13 := by decide

/-- **C02** Flow directions are exactly the axes with more than one cell, `D` counts them, boundary cells are added
exactly along them, and `get_fdir` gives the same answer whichever shape is remembered in `self.shape`. -/
theorem C02_flow_directions (g : Dims) :
    g.getFdir = [Axis.x, Axis.y, Axis.z].filter (fun a => decide (Flow g.nx g.ny g.nz a)) ∧
    g.getD = ([Axis.x, Axis.y, Axis.z].filter (fun a => decide (Flow g.nx g.ny g.nz a))).length ∧
    g.getShape true = (padded g.nx, padded g.ny, padded g.nz) ∧
    g.getShape false = (g.nx, g.ny, g.nz) ∧
    (∀ b, Dims.fdirFrom g.getD [(g.getShape b).1, (g.getShape b).2.1, (g.getShape b).2.2] = g.getFdir) := by
  refine ⟨?_, ?_, g.getShape_true, by simp [getShape], ?_⟩
  · rw [getFdir_eq]; refine g.cases8 ?_ ?_ ?_ ?_ ?_ ?_ ?_ ?_ <;> intro h1 h2 h3 <;> simp [Flow, along, h1, h2, h3]
  · rw [getD_cases]; refine g.cases8 ?_ ?_ ?_ ?_ ?_ ?_ ?_ ?_ <;> intro h1 h2 h3 <;> simp [Flow, along, h1, h2, h3]
  · intro b
    rw [getFdir_eq]
    refine fdirFrom_eq g.nx g.ny g.nz g.hx g.hy g.hz _ ?_
    cases b
    · left; simp [getShape]
    · right; simp [getShape_true]

example : g234.getFdir = [.x, .y, .z] ∧ g234.getShape true = (4, 5, 6) ∧ g321.getFdir = [.x, .y] ∧
    g321.getShape true = (5, 4, 1) := by decide

/-- `get_n_max` is the largest number of cells along an axis. -/
theorem C02_n_max (g : Dims) (b : Bool) :
    g.getNMax b = max (g.getShape b).1 (max (g.getShape b).2.1 (g.getShape b).2.2) ∧
    (∀ a, (if b then padded (along g.nx g.ny g.nz a) else along g.nx g.ny g.nz a) ≤ g.getNMax b) := by
  refine ⟨rfl, fun a => ?_⟩
  unfold getNMax
  cases b
  · cases a <;> simp [getShape, along]
  · rw [getShape_true]; cases a <;> simp [along]

/-- **C03** The flow shape has room for exactly the cells, so reshaping to it always succeeds and flattening gives the
array back; it has three axes when unified and `max D 1` axes otherwise, each the size of the grid along that axis. -/
theorem C03_flow_shape (g : Dims) (b : Bool) :
    (g.getFshape b).prod = g.getN b ∧
    (g.unify = true → (g.getFshape b).length = 3) ∧
    (g.unify = false → (g.getFshape b).length = max g.getD 1) ∧
    (∀ {α : Type} (l : List α), l.length = g.getN b →
      ∃ a, (NdArr.ofList l).reshape (g.getFshape b) = .ok a ∧ a.shape = g.getFshape b ∧ a.flatten.data = l) ∧
    (∀ {α : Type} (l : List α), l.length ≠ g.getN b →
      (NdArr.ofList l).reshape (g.getFshape b) = .error .value) := by
  refine ⟨g.prod_fshape b, ?_, ?_, ?_, ?_⟩
  · intro hu
    refine g.cases8 ?_ ?_ ?_ ?_ ?_ ?_ ?_ ?_ <;> intro h1 h2 h3 <;>
      simp [getFshape, getFdir_eq, hu, h1, h2, h3]
  · intro hu
    refine g.cases8 ?_ ?_ ?_ ?_ ?_ ?_ ?_ ?_ <;> intro h1 h2 h3 <;>
      simp [getFshape, getFdir_eq, getD_cases, hu, h1, h2, h3]
  · intro α l hl
    exact ⟨⟨g.getFshape b, l⟩, by simp [NdArr.reshape, NdArr.ofList, prod_fshape, hl], rfl, rfl⟩
  · intro α l hl
    simp [NdArr.reshape, NdArr.ofList, prod_fshape, Ne.symm hl]

example : g321.getFshape true = [1, 4, 5] ∧ g234.getFshape false = [4, 3, 2] ∧ g141.getFshape true = [6] := by decide

/-- **C04** The interior listing is exact, increasing, free of repetitions and has `nx*ny*nz` entries. -/
theorem C04_interior_listing (g : Dims) : ∃ ids, g.getCellsId false = .ok ids ∧
    ids.Pairwise (· < ·) ∧
    (∀ c, InGrid g.nx g.ny g.nz c → (cellNumber g.nx g.ny c ∈ ids ↔ Interior g.nx g.ny g.nz c)) ∧
    (∀ id ∈ ids, id < g.getN true) ∧
    ids.length = g.nx * g.ny * g.nz := by
  refine ⟨_, g.getCellsId_false, g.innerIds_sorted, fun c hc => ?_, fun id h => g.innerIds_lt h, g.length_innerIds⟩
  rw [mem_innerIds]
  have : g.dec (cellNumber g.nx g.ny c) = c := g.dec_num hc
  rw [this]

example : g321.getCellsId false = .ok [6, 7, 8, 11, 12, 13] := by decide

/-- **C05** With at least one flow axis, `get_boundaries` lists exactly the cells that are not interior, increasing and
without repetitions: interior and boundary cells partition the grid. -/
theorem C05_boundary_partition (g : Dims) (hD : 1 ≤ g.getD) :
    ∃ ids bs, g.getCellsId false = .ok ids ∧ g.getBoundariesId = .ok bs ∧
    bs.Pairwise (· < ·) ∧
    (∀ c, InGrid g.nx g.ny g.nz c → (cellNumber g.nx g.ny c ∈ bs ↔ Boundary g.nx g.ny g.nz c)) ∧
    (∀ id, id < g.getN true ↔ (id ∈ ids ∨ id ∈ bs)) ∧
    (∀ id, ¬ (id ∈ ids ∧ id ∈ bs)) ∧
    ids.length + bs.length = g.getN true := by
  have hpart : ∀ id, id < g.getN true ↔ (id ∈ g.innerIds ∨ id ∈ g.boundIds) := by
    intro id
    rw [mem_innerIds, g.mem_boundIds hD, lt_iff_inGrid]
    constructor
    · intro h
      by_cases h1 : Interior g.nx g.ny g.nz (g.dec id)
      · exact Or.inl h1
      · exact Or.inr ⟨h, h1⟩
    · rintro (h | h)
      · exact Interior.inGrid h
      · exact h.1
  have hdisj : ∀ id, ¬ (id ∈ g.innerIds ∧ id ∈ g.boundIds) := by
    intro id
    rw [mem_innerIds, g.mem_boundIds hD]
    exact fun h => h.2.2 h.1
  refine ⟨_, _, g.getCellsId_false, g.getBoundariesId_eq, g.boundIds_sorted hD, fun c hc => ?_, hpart, hdisj, ?_⟩
  · rw [g.mem_boundIds hD]
    have : g.dec (cellNumber g.nx g.ny c) = c := g.dec_num hc
    rw [this]
  · have hn : (g.innerIds ++ g.boundIds).Nodup := by
      rw [List.nodup_append']
      refine ⟨g.innerIds_sorted.imp Nat.ne_of_lt, (g.boundIds_sorted hD).imp Nat.ne_of_lt, ?_⟩
      intro id h1 h2; exact hdisj id ⟨h1, h2⟩
    have hp : (g.innerIds ++ g.boundIds).Perm (List.range (g.getN true)) := by
      rw [List.perm_ext_iff_of_nodup hn List.nodup_range]
      intro id; rw [List.mem_append, ← hpart, List.mem_range]
    have := hp.length_eq
    simpa using this

example : g321.getBoundariesId = .ok [0, 1, 2, 3, 4, 5, 9, 10, 14, 15, 16, 17, 18, 19] ∧ 1 ≤ g321.getD := by decide

/-- C05 needs a flow axis: on a single-cell grid the only cell is listed both as interior and as boundary. -/
theorem C05_single_cell_fails : ∃ g : Dims, g.getD = 0 ∧ g.getCellsId false = .ok [0] ∧ g.getBoundariesId = .ok [0] :=
  ⟨g111, by decide⟩

lemma filterMap_getElem_range {α : Type} (d : List α) : (List.range d.length).filterMap (d[·]?) = d := by
  induction d with
  | nil => rfl
  | cons a t ih =>
    rw [List.length_cons, List.range_succ_eq_map, List.filterMap_cons_some (b := a) (by simp), List.filterMap_map]
    congr 1

/-- **C06** For any array of one value per cell (flat or in flow shape), `remove_boundaries` returns the values of the
interior cells in cell order, `extract_boundaries` the values of the boundary cells, and together they rearrange the
input. -/
theorem C06_split_lossless {α : Type} (g : Dims) (hD : 1 ≤ g.getD) (d : List α) (hd : d.length = g.getN true)
    (shape : List ℕ) (hs : shape = [d.length] ∨ shape = g.getFshape true) :
    ∃ ids r e, g.getCellsId false = .ok ids ∧ g.removeBoundaries ⟨shape, d⟩ = .ok r ∧
      g.extractBoundaries ⟨shape, d⟩ = .ok e ∧
      r.data.map some = ids.map (d[·]?) ∧
      (r.data ++ e).Perm d := by
  obtain ⟨r, h1, h2⟩ := g.removeBoundaries_data ⟨shape, d⟩ hs hd
  refine ⟨_, r, _, g.getCellsId_false, h1, g.extractBoundaries_data ⟨shape, d⟩ hd, ?_, ?_⟩
  · rw [h2]
    have : ∀ l : List ℕ, (∀ i ∈ l, i < d.length) → (l.filterMap (d[·]?)).map some = l.map (d[·]?) := by
      intro l hl
      induction l with
      | nil => rfl
      | cons a t ih =>
        have ha := hl a (by simp)
        rw [List.filterMap_cons_some (b := d[a]) (by simp [ha]), List.map_cons, List.map_cons,
          ih fun i hi => hl i (by simp [hi])]
        simp [ha]
    exact this _ fun i hi => by rw [hd]; exact g.innerIds_lt hi
  · rw [h2, ← List.filterMap_append]
    have hn : (g.innerIds ++ g.extractPositions).Nodup := by
      rw [List.nodup_append']
      refine ⟨g.innerIds_sorted.imp Nat.ne_of_lt, g.nodup_extractPositions hD, fun id h1 h2 => ?_⟩
      rw [g.mem_innerIds] at h1; rw [g.mem_extractPositions hD] at h2; exact h2.2 h1
    have hp : (g.innerIds ++ g.extractPositions).Perm (List.range (g.getN true)) := by
      rw [List.perm_ext_iff_of_nodup hn List.nodup_range]
      intro id
      rw [List.mem_append, List.mem_range, mem_innerIds, g.mem_extractPositions hD, lt_iff_inGrid]
      constructor
      · rintro (h | h)
        · exact Interior.inGrid h
        · exact h.1
      · intro h
        by_cases h1 : Interior g.nx g.ny g.nz (g.dec id)
        · exact Or.inl h1
        · exact Or.inr ⟨h, h1⟩
    have hr : (List.range (g.getN true)).filterMap (d[·]?) = d := by
      rw [← hd]; exact filterMap_getElem_range d
    exact (hp.filterMap _).trans (by rw [hr])

/-- Arrays of a wrong size are refused with `ValueError`. -/
theorem C06_wrong_size_refused {α : Type} (g : Dims) (d : List α) (hd : d.length ≠ g.getN true) (shape : List ℕ)
    (hs : shape.prod = d.length) :
    g.removeBoundaries ⟨shape, d⟩ = .error .value ∧ g.extractBoundaries ⟨shape, d⟩ = .error .value := by
  have h1 : shape ≠ g.getFshape true := by rintro rfl; rw [prod_fshape] at hs; exact hd hs.symm
  have h2 : (NdArr.mk shape d).reshape (g.getFshape true) = .error .value := by
    simp [NdArr.reshape, prod_fshape, Ne.symm hd]
  constructor
  · unfold removeBoundaries; simp only; rw [if_neg h1, h2]
  · unfold extractBoundaries; simp only; rw [if_neg h1, h2]

/-- An array of scalars is never mistaken for an array of points: no flow shape with boundary cells ends in an axis of
length three (`ispoints` tests exactly that). -/
theorem C06_scalars_not_points (g : Dims) : (g.getFshape true).getLast? ≠ some 3 := by
  have hu : g.unify = true ∨ g.unify = false := by cases g.unify <;> simp
  have := g.hx; have := g.hy; have := g.hz
  refine g.cases8 ?_ ?_ ?_ ?_ ?_ ?_ ?_ ?_ <;> intro h1 h2 h3 <;> rcases hu with hu | hu <;>
    simp [getFshape, getFdir_eq, getShape_true, padded, hu, h1, h2, h3] <;> omega

example : ∃ r, g321.removeBoundaries ⟨[20], List.range 20⟩ = .ok r ∧ r.data = [6, 7, 8, 11, 12, 13] :=
  ⟨_, rfl, by decide⟩

/-- **C07** Listings of ids and of coordinates describe the same cells in the same order; boundary listings describe the
same cells (ids sorted, coordinates in slice order). -/
theorem C07_listings_aligned (g : Dims) (b : Bool) :
    (∃ ids cs, g.getCellsId b = .ok ids ∧ g.getCellsCoords b = .ok cs ∧
      List.Forall₂ (fun (id : ℕ) c => g.getCellCoords id true = .ok c ∧
        g.getCellId (c.1, c.2.1, c.2.2) true = some id) ids cs) ∧
    (∃ bs cs, g.getBoundariesId = .ok bs ∧ g.getBoundariesCoords = .ok cs ∧
      bs.Perm (cs.map (cellNumber g.nx g.ny)) ∧ (∀ c ∈ cs, InGrid g.nx g.ny g.nz c)) ∧
    g.getCellsI b = List.range (g.getN b) := by
  refine ⟨⟨_, _, g.getCellsId_eq b, g.getCellsCoords_eq b, ?_⟩,
    ⟨_, _, g.getBoundariesId_eq, g.getBoundariesCoords_eq, ?_, ?_⟩, rfl⟩
  · rw [show (if b then List.range (g.getN true) else g.innerIds) = g.cellsOf b from rfl,
      List.forall₂_map_right_iff, List.forall₂_same]
    intro id hid
    have hlt := g.cellsOf_lt b id hid
    refine ⟨g.getCellCoords_true hlt, ?_⟩
    have h := (C01_numbering_bijection g true _ _ _ rfl rfl rfl).2.2.1 (g.dec id)
    obtain ⟨h1, h2, h3⟩ := g.dec_inGrid hlt
    have := (h h1 h2 h3).1
    rw [this]
    congr 1
    exact g.num_dec id
  · rw [List.map_map]
    have : (cellNumber g.nx g.ny ∘ g.dec) = id := by funext m; exact g.num_dec m
    rw [this, List.map_id]
    exact g.boundIds_perm
  · intro c hc
    obtain ⟨m, hm, rfl⟩ := List.mem_map.1 hc
    exact g.dec_inGrid (g.extractPositions_lt hm)

example : g321.getCellsCoords false = .ok [(1, 1, 0), (2, 1, 0), (3, 1, 0), (1, 2, 0), (2, 2, 0), (3, 2, 0)] := by decide

/-- `get_order` refuses unknown orderings. -/
theorem C07_order_types (g : Dims) (t : String) (b : Bool) :
    (t = "natural" → g.getOrderOf t b = g.getCellsId b) ∧ (t ≠ "natural" → g.getOrderOf t b = .error .value) :=
  ⟨fun h => by simp [getOrderOf, h, getCellsId], fun h => by simp [getOrderOf, h]⟩

/-- **C08** The neighbours of an interior cell are exactly the cells sharing a face with it along a flow axis: all of
them when boundaries are asked for, the interior ones otherwise; each is listed once, under its axis. -/
theorem C08_neighbors_exact (g : Dims) (c : Cell) (hc : Interior g.nx g.ny g.nz c) (hD : 1 ≤ g.getD) :
    (∃ n, g.neighborsId (cellNumber g.nx g.ny c) false = .ok n ∧ ∀ a, (n.get a).Pairwise (· < ·) ∧
      ∀ m, m ∈ n.get a ↔ Flow g.nx g.ny g.nz a ∧
        ∃ d, Interior g.nx g.ny g.nz d ∧ Adjacent a c d ∧ m = cellNumber g.nx g.ny d) ∧
    (∃ n, g.neighborsId (cellNumber g.nx g.ny c) true = .ok n ∧ ∀ a, (n.get a).Pairwise (· < ·) ∧
      ∀ m, m ∈ n.get a ↔ Flow g.nx g.ny g.nz a ∧
        ∃ d, InGrid g.nx g.ny g.nz d ∧ Adjacent a c d ∧ m = cellNumber g.nx g.ny d) := by
  refine ⟨⟨_, (g.neighborsId_eq _ _).trans (if_neg (by simp)), fun a => ⟨g.nbrs_sorted _ _ _, fun m =>
    g.mem_nbrs_false c (Interior.inGrid hc) a m⟩⟩, ⟨_, (g.neighborsId_eq _ _).trans (if_neg ?_), fun a =>
    ⟨g.nbrs_sorted _ _ _, fun m => g.mem_nbrs_true c hc a m⟩⟩⟩
  rintro ⟨⟨-, h⟩, -⟩
  rw [Int.toNat_natCast, g.mem_boundIds hD] at h
  have : g.dec (cellNumber g.nx g.ny c) = c := g.dec_num (Interior.inGrid hc)
  rw [this] at h
  exact h.2 hc

/-- Boundary cells have no neighbours with boundaries (`AssertionError`), and ids outside the grid have no interior
neighbours. -/
theorem C08_refused (g : Dims) :
    (∀ c, Boundary g.nx g.ny g.nz c → 1 ≤ g.getD → g.neighborsId (cellNumber g.nx g.ny c) true = .error .assertion) ∧
    (∀ id : ℤ, (id < 0 ∨ (g.getN true : ℤ) ≤ id) → ∃ n, g.neighborsId id false = .ok n ∧ ∀ a, n.get a = []) ∧
    (∀ b, g.getCellNeighbors none none b = .error .value) := by
  refine ⟨fun c hc hD => (g.neighborsId_eq _ _).trans (if_pos ?_), fun id h =>
    ⟨_, (g.neighborsId_eq _ _).trans (if_neg (by simp)), g.nbrs_false_outside id h⟩, fun b => rfl⟩
  refine ⟨⟨by omega, ?_⟩, rfl⟩
  rw [Int.toNat_natCast, g.mem_boundIds hD]
  have : g.dec (cellNumber g.nx g.ny c) = c := g.dec_num hc.1
  rwa [this]

example : g321.neighborsId 7 false = .ok ⟨[6, 8], [12], []⟩ ∧ g321.neighborsId 7 true = .ok ⟨[6, 8], [2, 12], []⟩ ∧
    Interior 3 2 1 (2, 1, 0) ∧ cellNumber 3 2 (2, 1, 0) = 7 := by decide

lemma adjacent_symm (a : Axis) (c d : Cell) : Adjacent a c d ↔ Adjacent a d c := by
  cases a <;> simp only [Adjacent, near] <;> omega

/-- **C09** Being neighbours is symmetric (axis by axis), a cell is never its own neighbour, and an interior cell has
exactly two neighbours per flow axis when boundary cells are counted (so `2·D` in total) and at most two otherwise. -/
theorem C09_symmetric_degree (g : Dims) (c d : Cell) (hc : Interior g.nx g.ny g.nz c) (hd : Interior g.nx g.ny g.nz d)
    (b : Bool) (n m : ByAxis ℕ) (hn : g.neighborsId (cellNumber g.nx g.ny c) b = .ok n)
    (hm : g.neighborsId (cellNumber g.nx g.ny d) b = .ok m) :
    (∀ a, cellNumber g.nx g.ny d ∈ n.get a ↔ cellNumber g.nx g.ny c ∈ m.get a) ∧
    (∀ a, cellNumber g.nx g.ny c ∉ n.get a) ∧
    (∀ a, (n.get a).length ≤ 2) ∧
    (b = true → n.all.length = 2 * g.getD ∧ ∀ a, (n.get a).length = if Flow g.nx g.ny g.nz a then 2 else 0) := by
  have key : ∀ c : Cell, Interior g.nx g.ny g.nz c → ∀ n, g.neighborsId (cellNumber g.nx g.ny c) b = .ok n →
      n = g.nbrs (g.num c) b := by
    intro c hc n hn
    rw [neighborsId_eq] at hn
    split_ifs at hn
    cases hn; rfl
  have h1 := key c hc n hn
  have h2 := key d hd m hm
  subst h1 h2
  have mem : ∀ c : Cell, Interior g.nx g.ny g.nz c → ∀ d : Cell, Interior g.nx g.ny g.nz d → ∀ a,
      g.num d ∈ (g.nbrs (g.num c) b).get a ↔ Flow g.nx g.ny g.nz a ∧ Adjacent a c d := by
    intro c hc d hd a
    cases b
    · rw [g.mem_nbrs_false c (Interior.inGrid hc)]
      refine and_congr_right fun _ => ⟨?_, fun h => ⟨d, hd, h, rfl⟩⟩
      rintro ⟨e, he, h3, h4⟩
      rwa [g.num_inj (Interior.inGrid hd) (Interior.inGrid he) h4]
    · rw [g.mem_nbrs_true c hc]
      refine and_congr_right fun _ => ⟨?_, fun h => ⟨d, Interior.inGrid hd, h, rfl⟩⟩
      rintro ⟨e, he, h3, h4⟩
      rwa [g.num_inj (Interior.inGrid hd) he h4]
  refine ⟨fun a => ?_, fun a => ?_, fun a => ?_, ?_⟩
  · exact (mem c hc d hd a).trans ((and_congr_right fun _ => adjacent_symm a c d).trans (mem d hd c hc a).symm)
  · refine fun h => ?_
    have := ((mem c hc c hc a).1 h).2
    cases a <;> simp [Adjacent, near] at this
  · cases a <;> simp only [nbrs, ByAxis.get] <;> split_ifs <;> simp [keepIn] <;>
      (refine (List.length_filterMap_le _ _).trans ?_; simp)
  · rintro rfl
    have hl : ∀ a, ((g.nbrs (g.num c) true).get a).length = if Flow g.nx g.ny g.nz a then 2 else 0 := by
      intro a
      split_ifs with hf
      · rw [(g.nbrs_true_eq c hc a hf).1]; rfl
      · cases a <;> simp only [nbrs, ByAxis.get, Flow, along] at * <;> simp [hf]
    refine ⟨?_, hl⟩
    have hx := hl .x; have hy := hl .y; have hz := hl .z
    simp only [ByAxis.get, Flow, along] at hx hy hz
    simp only [ByAxis.all, List.length_append, hx, hy, hz, getD]
    by_cases h1 : 1 < g.nx <;> by_cases h2 : 1 < g.ny <;> by_cases h3 : 1 < g.nz <;> simp [h1, h2, h3]

/-- **C10** Asking by id and asking by coordinates give the same neighbours, in the same order, and refuse the same
cells. -/
theorem C10_id_coords_agree (g : Dims) (c : Cell) (b : Bool) (hc : InGrid g.nx g.ny g.nz c) (hD : 1 ≤ g.getD) :
    (∃ n m, g.neighborsId (cellNumber g.nx g.ny c) b = .ok n ∧
      g.neighborsCoords ((c.1 : ℤ), (c.2.1 : ℤ), (c.2.2 : ℤ)) b = .ok m ∧
      ∀ a, (m.get a).map (cellNumber g.nx g.ny) = n.get a ∧ ∀ d ∈ m.get a, InGrid g.nx g.ny g.nz d) ∨
    (g.neighborsId (cellNumber g.nx g.ny c) b = .error .assertion ∧
      g.neighborsCoords ((c.1 : ℤ), (c.2.1 : ℤ), (c.2.2 : ℤ)) b = .error .assertion) := by
  have e : (0 ≤ ((cellNumber g.nx g.ny c : ℕ) : ℤ) ∧ ((cellNumber g.nx g.ny c : ℕ) : ℤ).toNat ∈ g.boundIds) ↔
      c ∈ g.extractPositions.map g.dec := by
    rw [g.mem_map_dec hc, Int.toNat_natCast, g.boundIds_perm.mem_iff]
    simp [num]
  rw [neighborsId_eq, neighborsCoords_eq]
  by_cases h : c ∈ g.extractPositions.map g.dec ∧ b = true
  · right; rw [if_pos h, if_pos ⟨e.2 h.1, h.2⟩]; exact ⟨rfl, rfl⟩
  · left
    rw [if_neg h, if_neg fun h' => h ⟨e.1 h'.1, h'.2⟩]
    refine ⟨_, _, rfl, rfl, fun a => ⟨g.nbrsC_map c b ?_ a, fun d hd => ?_⟩⟩
    · cases b
      · exact hc
      · simp only [and_true] at h
        rw [g.mem_map_dec hc, g.mem_extractPositions hD] at h
        have h' : ¬ Boundary g.nx g.ny g.nz (g.dec (g.num c)) := h
        rw [g.dec_num hc] at h'
        simp only [if_true]
        by_contra h2; exact h' ⟨hc, h2⟩
    · obtain ⟨m, hm, rfl⟩ := List.mem_map.1 ((g.mem_nbrsC c b a d).1 hd).2.1
      exact g.dec_inGrid (g.cellsOf_lt b m hm)

/-- The coordinate along the axis is the only one in a boundary layer. -/
def OnlyOuter (g : Dims) (c : Cell) : Axis → Prop
  | .x => ¬ innerCoord g.nx c.1 ∧ innerCoord g.ny c.2.1 ∧ innerCoord g.nz c.2.2
  | .y => innerCoord g.nx c.1 ∧ ¬ innerCoord g.ny c.2.1 ∧ innerCoord g.nz c.2.2
  | .z => innerCoord g.nx c.1 ∧ innerCoord g.ny c.2.1 ∧ ¬ innerCoord g.nz c.2.2

instance (g : Dims) (c : Cell) (a : Axis) : Decidable (OnlyOuter g c a) := by
  cases a <;> (unfold OnlyOuter; infer_instance)

lemma near_inner {n c : ℕ} (hc : c < padded n) (h : ¬ innerCoord n c) :
    1 < n ∧ ∃ v, innerCoord n v ∧ near c v ∧ ∀ w, innerCoord n w → near c w → w = v := by
  unfold innerCoord padded near at *
  split_ifs at * with h1
  · exact ⟨h1, if c = 0 then 1 else n, by split_ifs <;> omega, by split_ifs <;> omega, fun w => by split_ifs <;> omega⟩
  · exact absurd hc h

/-- The interior cells a boundary cell touches along one axis. -/
lemma boundary_nbrs (g : Dims) (c : Cell) (hc : Boundary g.nx g.ny g.nz c) (a : Axis) :
    ((g.nbrs (g.num c) false).get a).length = if OnlyOuter g c a then 1 else 0 := by
  have hmem := fun m => g.mem_nbrs_false c hc.1 a m
  have hsort := g.nbrs_sorted (g.num c) false a
  obtain ⟨i, j, k⟩ := c
  split_ifs with h
  · have : ∃ d, Interior g.nx g.ny g.nz d ∧ Flow g.nx g.ny g.nz a ∧ Adjacent a (i, j, k) d ∧
        ∀ e, Interior g.nx g.ny g.nz e → Adjacent a (i, j, k) e → e = d := by
      obtain ⟨⟨g1, g2, g3⟩, -⟩ := hc
      cases a <;> obtain ⟨q1, q2, q3⟩ := h
      · obtain ⟨hn, v, v1, v2, v3⟩ := near_inner g1 q1
        exact ⟨(v, j, k), ⟨v1, q2, q3⟩, hn, ⟨v2, rfl, rfl⟩, fun ⟨_, _, _⟩ ⟨e1, _, _⟩ ⟨a1, a2, a3⟩ =>
          Prod.ext (v3 _ e1 a1) (Prod.ext a2.symm a3.symm)⟩
      · obtain ⟨hn, v, v1, v2, v3⟩ := near_inner g2 q2
        exact ⟨(i, v, k), ⟨q1, v1, q3⟩, hn, ⟨rfl, v2, rfl⟩, fun ⟨_, _, _⟩ ⟨_, e1, _⟩ ⟨a1, a2, a3⟩ =>
          Prod.ext a1.symm (Prod.ext (v3 _ e1 a2) a3.symm)⟩
      · obtain ⟨hn, v, v1, v2, v3⟩ := near_inner g3 q3
        exact ⟨(i, j, v), ⟨q1, q2, v1⟩, hn, ⟨rfl, rfl, v2⟩, fun ⟨_, _, _⟩ ⟨_, _, e1⟩ ⟨a1, a2, a3⟩ =>
          Prod.ext a1.symm (Prod.ext a2.symm (v3 _ e1 a3))⟩
    obtain ⟨d, h1, h2, h3, h4⟩ := this
    have : (g.nbrs (g.num (i, j, k)) false).get a = [g.num d] := by
      refine sorted_ext hsort (by simp) fun m => ?_
      rw [hmem, List.mem_singleton]
      constructor
      · rintro ⟨-, e, he1, he2, rfl⟩; rw [h4 e he1 he2]
      · rintro rfl; exact ⟨h2, d, h1, h3, rfl⟩
    rw [this]; rfl
  · rw [List.length_eq_zero_iff, List.eq_nil_iff_forall_not_mem]
    intro m hm
    obtain ⟨-, d, h1, h2, -⟩ := (hmem m).1 hm
    apply h
    have h3 := hc.2
    obtain ⟨i', j', k'⟩ := d
    cases a <;> simp only [Interior, Adjacent, OnlyOuter] at * <;> obtain ⟨q1, q2, q3⟩ := h2
    · subst q2 q3; tauto
    · subst q1 q3; tauto
    · subst q1 q2; tauto

/-- **C11** A boundary cell touches at most one interior cell: exactly one if it lies on a face (one coordinate in a
boundary layer), none if it lies on an edge or corner (two or more). -/
theorem C11_boundary_one_interior (g : Dims) (c : Cell) (hc : Boundary g.nx g.ny g.nz c) :
    ∃ n, g.neighborsId (cellNumber g.nx g.ny c) false = .ok n ∧
      n.all.length = if (if innerCoord g.nx c.1 then 0 else 1) + (if innerCoord g.ny c.2.1 then 0 else 1) +
        (if innerCoord g.nz c.2.2 then 0 else 1) = 1 then 1 else 0 := by
  refine ⟨_, (g.neighborsId_eq _ _).trans (if_neg (by simp)), ?_⟩
  have hx := boundary_nbrs g c hc .x
  have hy := boundary_nbrs g c hc .y
  have hz := boundary_nbrs g c hc .z
  have hi := hc.2
  simp only [ByAxis.get, num, OnlyOuter] at hx hy hz
  simp only [ByAxis.all, List.length_append, hx, hy, hz]
  simp only [Interior] at hi
  by_cases h1 : innerCoord g.nx c.1 <;> by_cases h2 : innerCoord g.ny c.2.1 <;> by_cases h3 : innerCoord g.nz c.2.2 <;>
    simp [h1, h2, h3]

/-- A face cell and a corner cell of the 3×2×1 grid. -/
example : Boundary 3 2 1 (1, 0, 0) ∧ Boundary 3 2 1 (0, 0, 0) ∧
    g321.neighborsId (cellNumber 3 2 (1, 0, 0)) false = .ok ⟨[], [6], []⟩ ∧
    g321.neighborsId (cellNumber 3 2 (0, 0, 0)) false = .ok ⟨[], [], []⟩ := by decide

/-- **C12** For an interior cell, the boundary cells it touches and its interior neighbours split, axis by axis, the
neighbours counted with boundaries; by id and by coordinates alike. Boundary cells themselves are refused. -/
theorem C12_boundaries_split (g : Dims) (c : Cell) (hD : 1 ≤ g.getD) :
    (Interior g.nx g.ny g.nz c → ∃ bd n m bdc, g.cellBoundariesId (cellNumber g.nx g.ny c) = .ok bd ∧
      g.neighborsId (cellNumber g.nx g.ny c) false = .ok n ∧ g.neighborsId (cellNumber g.nx g.ny c) true = .ok m ∧
      g.cellBoundariesCoords ((c.1 : ℤ), (c.2.1 : ℤ), (c.2.2 : ℤ)) = .ok bdc ∧
      ∀ a, (∀ v, v ∈ m.get a ↔ v ∈ bd.get a ∨ v ∈ n.get a) ∧ (∀ v, ¬ (v ∈ bd.get a ∧ v ∈ n.get a)) ∧
        (∀ v, v ∈ bd.get a ↔ Flow g.nx g.ny g.nz a ∧
          ∃ d, Boundary g.nx g.ny g.nz d ∧ Adjacent a c d ∧ v = cellNumber g.nx g.ny d) ∧
        (bd.get a).length + (n.get a).length = (m.get a).length ∧
        (bdc.get a).map (cellNumber g.nx g.ny) = bd.get a) ∧
    (Boundary g.nx g.ny g.nz c → g.cellBoundariesId (cellNumber g.nx g.ny c) = .error .assertion ∧
      g.cellBoundariesCoords ((c.1 : ℤ), (c.2.1 : ℤ), (c.2.2 : ℤ)) = .error .assertion) := by
  have eB : InGrid g.nx g.ny g.nz c → ((0 ≤ ((cellNumber g.nx g.ny c : ℕ) : ℤ) ∧
      ((cellNumber g.nx g.ny c : ℕ) : ℤ).toNat ∈ g.boundIds) ↔ Boundary g.nx g.ny g.nz c) := by
    intro hc
    have : g.dec (cellNumber g.nx g.ny c) = c := g.dec_num hc
    rw [Int.toNat_natCast, g.mem_boundIds hD, this]; simp
  have eC : InGrid g.nx g.ny g.nz c → (c ∈ g.extractPositions.map g.dec ↔ Boundary g.nx g.ny g.nz c) := by
    intro hc
    rw [g.mem_map_dec hc, g.mem_extractPositions hD]
    have : g.dec (g.num c) = c := g.dec_num hc
    unfold dec at this
    rw [this]
  constructor
  · intro hc
    have hg := Interior.inGrid hc
    have hnb : ¬ Boundary g.nx g.ny g.nz c := fun h => h.2 hc
    refine ⟨_, _, _, _, (g.cellBoundariesId_eq _).trans (if_neg fun h => hnb ((eB hg).1 h)),
      (g.neighborsId_eq _ _).trans (if_neg (by simp)),
      (g.neighborsId_eq _ _).trans (if_neg fun h => hnb ((eB hg).1 h.1)),
      (g.cellBoundariesCoords_eq _).trans (if_neg fun h => hnb ((eC hg).1 h)), fun a => ?_⟩
    have hbd : ∀ (n : ByAxis ℕ) (p : ℕ → Bool), (ByAxis.mk (n.x.filter p) (n.y.filter p) (n.z.filter p)).get a =
        (n.get a).filter p := by intro n p; cases a <;> rfl
    have hbdc : ∀ (n : ByAxis Cell) (p : Cell → Bool), (ByAxis.mk (n.x.filter p) (n.y.filter p) (n.z.filter p)).get a =
        (n.get a).filter p := by intro n p; cases a <;> rfl
    rw [hbd, hbdc]
    have hm := fun v => g.mem_nbrs_true c hc a v
    have hn := fun v => g.mem_nbrs_false c hg a v
    simp only [num] at hm hn
    have hd : ∀ d, InGrid g.nx g.ny g.nz d → (cellNumber g.nx g.ny d ∈ g.boundIds ↔ Boundary g.nx g.ny g.nz d) := by
      intro d hd
      have : g.dec (cellNumber g.nx g.ny d) = d := g.dec_num hd
      rw [g.mem_boundIds hD, this]
    have hn' : (g.nbrs (cellNumber g.nx g.ny c : ℕ) false).get a =
        ((g.nbrs (cellNumber g.nx g.ny c : ℕ) true).get a).filter (fun v => !decide (v ∈ g.boundIds)) := by
      refine sorted_ext (g.nbrs_sorted _ _ _) ((g.nbrs_sorted _ _ _).filter _) fun v => ?_
      rw [hn, List.mem_filter, hm]
      constructor
      · rintro ⟨hf, d, h1, h2, rfl⟩
        refine ⟨⟨hf, d, Interior.inGrid h1, h2, rfl⟩, ?_⟩
        simp only [Bool.not_eq_true', decide_eq_false_iff_not, hd d (Interior.inGrid h1)]
        exact fun h => h.2 h1
      · rintro ⟨⟨hf, d, h1, h2, rfl⟩, h3⟩
        simp only [Bool.not_eq_true', decide_eq_false_iff_not, hd d h1] at h3
        exact ⟨hf, d, by by_contra h4; exact h3 ⟨h1, h4⟩, h2, rfl⟩
    refine ⟨?_, ?_, ?_, ?_, ?_⟩
    · intro v
      rw [hn', List.mem_filter, List.mem_filter]
      by_cases hv : v ∈ g.boundIds <;> simp [hv]
    · intro v
      rw [hn', List.mem_filter, List.mem_filter]
      by_cases hv : v ∈ g.boundIds <;> simp [hv]
    · intro v
      rw [List.mem_filter, hm]
      constructor
      · rintro ⟨⟨hf, d, h1, h2, rfl⟩, h3⟩
        simp only [decide_eq_true_eq, hd d h1] at h3
        exact ⟨hf, d, h3, h2, rfl⟩
      · rintro ⟨hf, d, h1, h2, rfl⟩
        exact ⟨⟨hf, d, h1.1, h2, rfl⟩, by simp only [decide_eq_true_eq, hd d h1.1]; exact h1⟩
    · rw [hn', ← List.countP_eq_length_filter, ← List.countP_eq_length_filter,
        List.length_eq_countP_add_countP (fun v => decide (v ∈ g.boundIds))]
      simp
    · have := g.nbrsC_map c true (by simpa using hc) a
      simp only [num] at this
      rw [← this, List.filter_map]
      congr 1
      apply List.filter_congr
      intro d hdm
      obtain ⟨m, hm, rfl⟩ := List.mem_map.1 ((g.mem_nbrsC c true a d).1 hdm).2.1
      have hin := g.dec_inGrid (g.cellsOf_lt true m hm)
      rw [Function.comp_apply, decide_eq_decide, g.mem_map_dec hin, g.boundIds_perm.mem_iff]
  · intro hc
    exact ⟨(g.cellBoundariesId_eq _).trans (if_pos ((eB hc.1).2 hc)),
      (g.cellBoundariesCoords_eq _).trans (if_pos ((eC hc.1).2 hc))⟩

example : g321.cellBoundariesId 8 = .ok ⟨[9], [3], []⟩ ∧ Interior 3 2 1 (3, 1, 0) ∧ cellNumber 3 2 (3, 1, 0) = 8 := by
  decide

end RF
