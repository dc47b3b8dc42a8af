import Verif.Geom.Props
/-!
# `remove_boundaries` with `remove`, dictionaries, and lookups by any index (C06, C08, C13)
-/
namespace RF
namespace Dims
open Spec

/-! ## Specification -/

/-- What stays along an axis with `n` cells: axes without flow are not touched, `left` drops the first layer, `right` the last, `both` both. -/
def stays (s : Side) (n c : ℕ) : Prop := 1 < n → (s ≠ .right → c ≠ 0) ∧ (s ≠ .left → c ≠ n + 1)

/-! ## Proofs -/

/-- Positions kept along one axis. -/
def sideList (s : Side) (n : ℕ) : List ℕ :=
  if 1 < n then (match s with | .both => List.range' 1 n | .left => List.range' 1 (n + 1) | .right => List.range (n + 1)) else [0]

lemma positions_left (n : ℕ) : (Ix.slice 1 false).positions (n + 2) = List.range' 1 (n + 1) := by
  refine List.ext_getElem ?_ fun i h1 h2 => ?_ <;> simp [Ix.positions]

lemma positions_right (n : ℕ) : (Ix.slice 0 true).positions (n + 2) = List.range (n + 1) := by
  refine List.ext_getElem ?_ fun i h1 h2 => ?_ <;> simp [Ix.positions]

lemma positions_side (s : Side) {n : ℕ} (hn : 1 < n) : s.ix.positions (n + 2) = sideList s n := by
  cases s <;> simp [Side.ix, sideList, hn, positions_inner, positions_left, positions_right]

lemma sideList_one (s : Side) {n : ℕ} (hn : n = 1) : sideList s n = [0] := by simp [sideList, hn]

lemma mem_sideList {s : Side} {n c : ℕ} (hn : 1 ≤ n) : c ∈ sideList s n ↔ c < padded n ∧ stays s n c := by
  unfold sideList stays padded
  by_cases h : 1 < n
  · cases s <;> simp [h, List.mem_range'_1] <;> omega
  · simp [h]; omega

lemma sideList_sorted (s : Side) (n : ℕ) : (sideList s n).Pairwise (· < ·) := by
  unfold sideList
  split_ifs
  · cases s
    · exact List.pairwise_lt_range'
    · exact List.pairwise_lt_range'
    · exact List.pairwise_lt_range
  · simp

/-- The positions kept by `remove_boundaries(remove=…)`. -/
lemma sidePositions (g : Dims) (s : Side) : selPositions (g.getFshape true) (g.removeIx s) =
    boxIds (padded g.nx) (padded g.ny) (sideList s g.nz) (sideList s g.ny) (sideList s g.nx) := by
  have hu : g.unify = true ∨ g.unify = false := by cases g.unify <;> simp
  refine g.cases8 ?_ ?_ ?_ ?_ ?_ ?_ ?_ ?_ <;> intro h1 h2 h3 <;> rcases hu with hu | hu <;>
    simp [getFshape, removeIx, getFdir_eq, getD_cases, getShape_true, padded, hu, h1, h2, h3, sideList_one,
      sel3, sel2, sel1 _ 1, positions_side, positions_full, boxIds_xz, boxIds_yz]

/-- **C06** (one side): with `remove="left"` the first layer along every flow axis is taken away, with `remove="right"` the last one; the other values stay in cell order. -/
theorem C06_sides {α : Type} (g : Dims) (s : Side) (d : List α) (hd : d.length = g.getN true)
    (shape : List ℕ) (hs : shape = [d.length] ∨ shape = g.getFshape true) :
    ∃ (ids : List ℕ) (r : NdArr α), g.removeBoundaries ⟨shape, d⟩ s = .ok r ∧ r.data.map some = ids.map (d[·]?) ∧ ids.Pairwise (· < ·) ∧
      ∀ id, id ∈ ids ↔ ∃ c, InGrid g.nx g.ny g.nz c ∧ id = cellNumber g.nx g.ny c ∧ stays s g.nx c.1 ∧ stays s g.ny c.2.1 ∧ stays s g.nz c.2.2 := by
  let ids := boxIds (padded g.nx) (padded g.ny) (sideList s g.nz) (sideList s g.ny) (sideList s g.nx)
  have hx : ∀ i ∈ sideList s g.nx, i < padded g.nx := fun i hi => ((mem_sideList g.hx).1 hi).1
  have hy : ∀ i ∈ sideList s g.ny, i < padded g.ny := fun i hi => ((mem_sideList g.hy).1 hi).1
  have hmem : ∀ id, id ∈ ids ↔ ∃ c, InGrid g.nx g.ny g.nz c ∧ id = cellNumber g.nx g.ny c ∧ stays s g.nx c.1 ∧ stays s g.ny c.2.1 ∧ stays s g.nz c.2.2 := by
    intro id
    simp only [ids]
    rw [mem_boxIds]
    constructor
    · rintro ⟨c, h1, h2, h3, rfl⟩
      rw [mem_sideList g.hz] at h1
      rw [mem_sideList g.hy] at h2
      rw [mem_sideList g.hx] at h3
      exact ⟨c, ⟨h3.1, h2.1, h1.1⟩, rfl, h3.2, h2.2, h1.2⟩
    · rintro ⟨c, ⟨h3, h2, h1⟩, rfl, k3, k2, k1⟩
      exact ⟨c, (mem_sideList g.hz).2 ⟨h1, k1⟩, (mem_sideList g.hy).2 ⟨h2, k2⟩, (mem_sideList g.hx).2 ⟨h3, k3⟩, rfl⟩
  have hlt : ∀ i ∈ ids, i < d.length := by
    intro i hi
    obtain ⟨c, hc, rfl, -⟩ := (hmem i).1 hi
    rw [hd, lt_iff_inGrid]
    have : decode (padded g.nx) (padded g.ny) (cellNumber g.nx g.ny c) = c := g.dec_num hc
    rw [this]; exact hc
  have key : ∀ l : List ℕ, (∀ i ∈ l, i < d.length) → (l.filterMap (d[·]?)).map some = l.map (d[·]?) := by
    intro l hl
    induction l with
    | nil => rfl
    | cons a t ih =>
      have ha := hl a (by simp)
      rw [List.filterMap_cons_some (b := d[a]) (by simp [ha]), List.map_cons, List.map_cons, ih fun i hi => hl i (by simp [hi])]
      simp [ha]
  have hr : ∃ r, g.removeBoundaries ⟨shape, d⟩ s = .ok r ∧ r.data = ids.filterMap (d[·]?) := by
    unfold removeBoundaries
    simp only
    split_ifs with h
    · exact ⟨_, rfl, by simp only [NdArr.select, h, sidePositions]; rfl⟩
    · have : NdArr.reshape ⟨shape, d⟩ (g.getFshape true) = .ok ⟨g.getFshape true, d⟩ := by simp [NdArr.reshape, prod_fshape, hd]
      rw [this]
      exact ⟨_, rfl, by simp only [NdArr.select, NdArr.flatten, sidePositions]; rfl⟩
  obtain ⟨r, h1, h2⟩ := hr
  exact ⟨ids, r, h1, by rw [h2, key ids hlt], sorted_boxIds (sideList_sorted s _) (sideList_sorted s _) (sideList_sorted s _) hx hy, hmem⟩

/-- The 5 by 4 cells of a padded 3 by 2 grid without the first, without the last layers. -/
example : (∃ r, g321.removeBoundaries ⟨[20], List.range 20⟩ .left = .ok r ∧ r.data = [6, 7, 8, 9, 11, 12, 13, 14, 16, 17, 18, 19]) ∧
    ∃ r, g321.removeBoundaries ⟨[20], List.range 20⟩ .right = .ok r ∧ r.data = [0, 1, 2, 3, 5, 6, 7, 8, 10, 11, 12, 13] :=
  ⟨⟨_, rfl, by decide⟩, _, rfl, by decide⟩

/-! ## Dictionaries -/

/-- `remove_boundaries(in_data, remove=…)` for a dictionary (l.1108-1112): the values are replaced one after the other, with `remove="both"`; the `remove` given is not looked at. The first component
is the dictionary of the caller afterwards. -/
def removeDict {κ α : Type} (g : Dims) (d : List (κ × NdArr α)) (s : Side) : List (κ × NdArr α) × Except Err Unit :=
  match d with
  | [] => ([], .ok ())
  | (k, v) :: l => match g.removeBoundaries v .both with
    | .error e => ((k, v) :: l, .error e)
    | .ok r => let x := removeDict g l s; ((k, r) :: x.1, x.2)

/-- **C06** (dictionaries): if all arrays have one value per cell, the call succeeds and leaves under every key what `remove_boundaries` gives for its array, in the dictionary that was handed over. -/
theorem C06_dict {κ α : Type} (g : Dims) (d : List (κ × NdArr α)) (s : Side) (hd : ∀ x ∈ d, x.2.data.length = g.getN true ∧ (x.2.shape = [x.2.data.length] ∨ x.2.shape = g.getFshape true)) :
    (g.removeDict d s).2 = .ok () ∧ List.Forall₂ (fun x y => x.1 = y.1 ∧ g.removeBoundaries x.2 = .ok y.2) d (g.removeDict d s).1 := by
  induction d with
  | nil => exact ⟨rfl, .nil⟩
  | cons x d ih =>
    obtain ⟨k, v⟩ := x
    obtain ⟨h1, h2⟩ := hd (k, v) (by simp)
    obtain ⟨r, hr, -⟩ := g.removeBoundaries_data v h2 h1
    obtain ⟨k1, k2⟩ := ih fun x hx => hd x (by simp [hx])
    unfold removeDict
    rw [hr]
    exact ⟨k1, .cons ⟨rfl, hr⟩ k2⟩

/-- **C06 fails** for dictionaries with `remove="left"`: both layers are taken away. -/
theorem C06_dict_side_fails : ∃ (g : Dims) (v : NdArr ℕ) (r r' : NdArr ℕ), v.data.length = g.getN true ∧ g.removeBoundaries v .left = .ok r ∧
    g.removeDict [("V", v)] .left = ([("V", r')], .ok ()) ∧ r'.data ≠ r.data :=
  ⟨g321, ⟨[20], List.range 20⟩, _, _, by decide, rfl, rfl, by decide⟩

/-- **C06 fails** to leave the input alone when it refuses: the arrays before the bad one have already been replaced. -/
theorem C06_dict_refused_mutates : ∃ (g : Dims) (v w r : NdArr ℕ), g.removeDict [("a", v), ("b", w)] .both = ([("a", r), ("b", w)], .error .value) ∧ r.data ≠ v.data :=
  ⟨g321, ⟨[20], List.range 20⟩, ⟨[3], [1, 2, 3]⟩, _, rfl, by decide⟩

/-! ## Arguments of lookups -/

/-- **C08** (arguments): if both `id` and `coords` are given, `id` counts; with `coords` alone the neighbours are given by their coordinates. -/
theorem C08_arguments (g : Dims) (b : Bool) :
    (∀ (i : ℤ) co, g.getCellNeighbors (some i) co b = (g.neighborsId i b).map .inl) ∧ ∀ c, g.getCellNeighbors none (some c) b = (g.neighborsCoords c b).map .inr :=
  ⟨fun _ _ => rfl, fun _ => rfl⟩

/-- **C13** (indices): if both `id` and `coords` are given, `id` counts; ids from `-n` to `-1` name the cells from the last to the first, and ids below are an `IndexError`. -/
theorem C13_index {K : Type} [Field K] (g : Dims) (s : Sizes K) (q : Geom K) (hq : Geom.calc g s.x s.y s.z = .ok q) :
    (∀ id : ℤ, 0 ≤ id → id < g.getN true → ∀ o, q.cellV g (some id) o = q.cellV g (some (id - g.getN true)) none ∧
      ∀ a, q.cellD g a (some id) o = q.cellD g a (some (id - g.getN true)) none ∧ q.cellA g a (some id) o = q.cellA g a (some (id - g.getN true)) none) ∧
    ∀ id : ℤ, id < -(g.getN true : ℤ) → ∀ o, q.cellV g (some id) o = .error .index ∧ ∀ a, q.cellD g a (some id) o = .error .index ∧ q.cellA g a (some id) o = .error .index := by
  obtain ⟨hx, hy, hz⟩ := calc_inv g s q hq
  obtain ⟨q', h1, h2⟩ := calc_ok g s hx hy hz
  rw [hq] at h1; cases h1
  have k1 : ∀ {α : Type} (f : ℕ → α) (id : ℤ) o, 0 ≤ id → id < g.getN true →
      g.lookup ((List.range (g.getN true)).map f) (some id) o = g.lookup ((List.range (g.getN true)).map f) (some (id - g.getN true)) none := by
    intro α f id o h0 h
    simp only [lookup, Geom.pyGet]
    rw [if_neg (show ¬ id < 0 by omega), if_pos (show id - (g.getN true : ℤ) < 0 by omega)]
    simp
  have k2 : ∀ {α : Type} (f : ℕ → α) (id : ℤ) o, id < -(g.getN true : ℤ) → g.lookup ((List.range (g.getN true)).map f) (some id) o = .error .index := by
    intro α f id o h
    simp only [lookup, Geom.pyGet]
    rw [if_pos (show id < 0 by omega), if_neg (by simp; omega)]
  refine ⟨fun id h0 h o => ⟨?_, fun a => ⟨?_, ?_⟩⟩, fun id h o => ⟨?_, fun a => ⟨?_, ?_⟩⟩⟩
  · rw [Geom.cellV, h2.V_eq]; exact k1 _ _ _ h0 h
  · rw [Geom.cellD, h2.d_eq]; exact k1 _ _ _ h0 h
  · rw [Geom.cellA, h2.A_eq]; exact k1 _ _ _ h0 h
  · rw [Geom.cellV, h2.V_eq]; exact k2 _ _ _ h
  · rw [Geom.cellD, h2.d_eq]; exact k2 _ _ _ h
  · rw [Geom.cellA, h2.A_eq]; exact k2 _ _ _ h

/-! ## Shapes -/

/-- Layers, rows and columns of an array with one value per interior cell; without `unify` only the axes with more than one cell are kept. -/
def innerShape (g : Dims) : List ℕ :=
  if g.unify then [g.nz, g.ny, g.nx] else if g.nx = 1 ∧ g.ny = 1 ∧ g.nz = 1 then [1] else [g.nz, g.ny, g.nx].filter (1 < ·)

/-- The same with one layer of boundary cells on both sides of every axis that has more than one cell. -/
def outerShape (g : Dims) : List ℕ :=
  if g.unify then [padded g.nz, padded g.ny, padded g.nx] else if g.nx = 1 ∧ g.ny = 1 ∧ g.nz = 1 then [1]
  else [padded g.nz, padded g.ny, padded g.nx].filter (1 < ·)

lemma fshape_outer (g : Dims) : g.getFshape true = g.outerShape := by
  have hu : g.unify = true ∨ g.unify = false := by cases g.unify <;> simp
  refine g.cases8 ?_ ?_ ?_ ?_ ?_ ?_ ?_ ?_ <;> intro h1 h2 h3 <;> rcases hu with hu | hu <;>
    simp [getFshape, outerShape, getFdir_eq, getShape_true, padded, hu, h1, h2, h3, List.filter] <;> omega

lemma removed_shape (g : Dims) : List.zipWith (fun n ix => (Ix.positions n ix).length) (g.getFshape true) (g.removeIx .both) = g.innerShape := by
  have hu : g.unify = true ∨ g.unify = false := by cases g.unify <;> simp
  refine g.cases8 ?_ ?_ ?_ ?_ ?_ ?_ ?_ ?_ <;> intro h1 h2 h3 <;> rcases hu with hu | hu <;>
    simp [getFshape, removeIx, innerShape, getFdir_eq, getD_cases, getShape_true, padded, hu, h1, h2, h3, Side.ix, positions_inner, positions_full, List.filter] <;> omega

/-- **C06** (shapes): an array in the shape of the grid with boundaries loses one layer on both sides of every flow axis and keeps its axes; every other array of one value per cell comes back flat, with
one value per interior cell. -/
theorem C06_shape {α : Type} (g : Dims) (d : List α) (hd : d.length = g.getN true) (shape : List ℕ) (r : NdArr α) (hr : g.removeBoundaries ⟨shape, d⟩ = .ok r) :
    (shape = g.outerShape → r.shape = g.innerShape) ∧ (shape ≠ g.outerShape → r.shape = [g.nx * g.ny * g.nz]) := by
  rw [← fshape_outer]
  unfold removeBoundaries at hr
  simp only at hr
  split_ifs at hr with h
  · cases hr
    exact ⟨fun _ => by simp only [NdArr.select, h]; exact g.removed_shape, fun h' => absurd h h'⟩
  · have hs : NdArr.reshape ⟨shape, d⟩ (g.getFshape true) = .ok ⟨g.getFshape true, d⟩ := by
      simp [NdArr.reshape, prod_fshape, hd]
    rw [hs] at hr
    cases hr
    refine ⟨fun h' => absurd h' h, fun _ => ?_⟩
    obtain ⟨r', h1, h2⟩ := g.removeBoundaries_data ⟨g.getFshape true, d⟩ (Or.inr rfl) hd
    unfold removeBoundaries at h1
    rw [if_pos rfl] at h1
    cases h1
    simp only [NdArr.flatten, h2]
    rw [← g.length_innerIds, List.length_filterMap_eq_countP, List.countP_eq_length.2 fun i hi => by simp [hd, g.innerIds_lt hi]]

/-- A 3×2 layer: flow-shaped arrays of 4×5 values become 2×3, flat ones of 20 values become 6 values. -/
example : (Dims.mk 3 2 1 false (by decide) (by decide) (by decide)).outerShape = [4, 5] ∧ (Dims.mk 3 2 1 false (by decide) (by decide) (by decide)).innerShape = [2, 3] ∧
    ((Dims.mk 3 2 1 false (by decide) (by decide) (by decide)).removeBoundaries ⟨[4, 5], List.range 20⟩).toOption.map (·.shape) = some [2, 3] ∧
    ((Dims.mk 3 2 1 false (by decide) (by decide) (by decide)).removeBoundaries ⟨[20], List.range 20⟩).toOption.map (·.shape) = some [6] := by decide +kernel

end Dims
end RF
