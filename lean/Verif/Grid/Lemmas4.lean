import Verif.Grid.Lemmas3
import Mathlib.Algebra.BigOperators.Group.List.Basic
/-! # The listing functions in closed form -/
set_option linter.unusedSimpArgs false
namespace RF
namespace Dims
open Spec

/-- Decoding of the number of a cell of the padded grid. -/
def dec (g : Dims) (id : ℕ) : Cell := decode (padded g.nx) (padded g.ny) id

lemma select_map {α β} (f : α → β) (s : List ℕ) (l : List α) (ixs : List Ix) :
    (NdArr.select ⟨s, l.map f⟩ ixs).data = (NdArr.select ⟨s, l⟩ ixs).data.map f := by
  simp [NdArr.select, List.map_filterMap]

lemma filterMap_range {n : ℕ} {l : List ℕ} (h : ∀ i ∈ l, i < n) : l.filterMap ((List.range n)[·]?) = l := by
  induction l with
  | nil => rfl
  | cons a t ih =>
    have ha := h a (by simp)
    rw [List.filterMap_cons_some (b := a)]
    · rw [ih fun i hi => h i (by simp [hi])]
    · simp [ha]

lemma prod_fshape (g : Dims) (b : Bool) : (g.getFshape b).prod = g.getN b := by
  have hu : g.unify = true ∨ g.unify = false := by cases g.unify <;> simp
  have hb : b = true ∨ b = false := by cases b <;> simp
  rcases hb with rfl | rfl <;>
  refine g.cases8 ?_ ?_ ?_ ?_ ?_ ?_ ?_ ?_ <;> intro h1 h2 h3 <;> rcases hu with hu | hu <;>
    simp [getFshape, getN, getFdir_eq, getShape_true, padded, hu, h1, h2, h3, getShape] <;> ring

/-- Interior cell numbers. -/
def innerIds (g : Dims) : List ℕ :=
  boxIds (padded g.nx) (padded g.ny) (innerList g.nz) (innerList g.ny) (innerList g.nx)

lemma mem_innerIds (g : Dims) (id : ℕ) : id ∈ g.innerIds ↔ Interior g.nx g.ny g.nz (g.dec id) := by
  unfold innerIds
  rw [mem_boxIds' (fun i hi => innerList_lt g.hx hi) (fun i hi => innerList_lt g.hy hi)]
  simp only [mem_innerList g.hx, mem_innerList g.hy, mem_innerList g.hz, Interior, dec]
  tauto

lemma Interior.inGrid {g : Dims} {c : Cell} (h : Interior g.nx g.ny g.nz c) : InGrid g.nx g.ny g.nz c :=
  ⟨innerList_lt g.hx ((mem_innerList g.hx).2 h.1), innerList_lt g.hy ((mem_innerList g.hy).2 h.2.1),
    innerList_lt g.hz ((mem_innerList g.hz).2 h.2.2)⟩

lemma innerIds_lt (g : Dims) {id : ℕ} (h : id ∈ g.innerIds) : id < g.getN true := by
  rw [lt_iff_inGrid]; exact Interior.inGrid ((g.mem_innerIds id).1 h)

lemma innerIds_sorted (g : Dims) : g.innerIds.Pairwise (· < ·) :=
  sorted_boxIds (innerList_sorted _) (innerList_sorted _) (innerList_sorted _)
    (fun _ hi => innerList_lt g.hx hi) (fun _ hi => innerList_lt g.hy hi)

lemma length_innerList {n : ℕ} (h : 1 ≤ n) : (innerList n).length = n := by
  unfold innerList; split_ifs
  · simp
  · simp; omega

lemma length_innerIds (g : Dims) : g.innerIds.length = g.nx * g.ny * g.nz := by
  simp [innerIds, boxIds, List.length_flatMap, length_innerList g.hx, length_innerList g.hy, length_innerList g.hz]
  ring

/-- `remove_boundaries` in closed form, flow-shaped or flat input. -/
lemma removeBoundaries_data {α} (g : Dims) (a : NdArr α) (hs : a.shape = [a.data.length] ∨ a.shape = g.getFshape true)
    (hl : a.data.length = g.getN true) :
    ∃ r, g.removeBoundaries a .both = .ok r ∧ r.data = g.innerIds.filterMap (a.data[·]?) := by
  obtain ⟨s, d⟩ := a
  unfold removeBoundaries
  simp only at *
  split_ifs with h
  · refine ⟨_, rfl, ?_⟩
    simp only [NdArr.select, h, removePositions]; rfl
  · have : NdArr.reshape ⟨s, d⟩ (g.getFshape true) = .ok ⟨g.getFshape true, d⟩ := by
      simp [NdArr.reshape, prod_fshape, hl]
    rw [this]
    refine ⟨_, rfl, ?_⟩
    simp only [NdArr.select, NdArr.flatten, removePositions]; rfl

lemma getCellsId_false (g : Dims) : g.getCellsId false = .ok g.innerIds := by
  unfold getCellsId getOrder
  obtain ⟨r, h1, h2⟩ := g.removeBoundaries_data (NdArr.ofList (List.range (g.getN true))) (Or.inl rfl)
    (by simp [NdArr.ofList])
  simp only [Bool.false_eq_true, if_false]
  rw [h1]
  simp only [Except.map, NdArr.ofList] at *
  rw [h2, filterMap_range fun i hi => g.innerIds_lt hi]

lemma getCellsId_true (g : Dims) : g.getCellsId true = .ok (List.range (g.getN true)) := by
  simp [getCellsId, getOrder, NdArr.ofList]

lemma extractPositions_lt (g : Dims) {id : ℕ} (h : id ∈ g.extractPositions) : id < g.getN true := by
  by_cases hD : 1 ≤ g.getD
  · rw [lt_iff_inGrid]; exact ((g.mem_extractPositions hD id).1 h).1
  · have e : g.nx = 1 ∧ g.ny = 1 ∧ g.nz = 1 := by
      have := g.hx; have := g.hy; have := g.hz
      rw [getD_cases] at hD; split_ifs at hD <;> omega
    obtain ⟨h1, h2, h3⟩ := e
    cases hu : g.unify <;>
    simp [extractPositions, getFshape, extractIx, getFdir_eq, getD_cases, getShape_true, padded, hu, h1, h2, h3,
        sel3, sel2, sel1 _ 1, positions_inner, positions_full, ends_eq, boxIds, number] at h <;>
    simp [getN_true, padded, h1, h2, h3, h]

/-- `extract_boundaries` in closed form, flow-shaped or flat input. -/
lemma extractBoundaries_data {α} (g : Dims) (a : NdArr α) (hl : a.data.length = g.getN true) :
    g.extractBoundaries a = .ok (g.extractPositions.filterMap (a.data[·]?)) := by
  have key : ∀ d : List α, (g.extractIx.flatMap fun ixs => (NdArr.select ⟨g.getFshape true, d⟩ ixs).data) =
      g.extractPositions.filterMap (d[·]?) := by
    intro d; simp only [NdArr.select, extractPositions, List.filterMap_flatMap]
  obtain ⟨s, d⟩ := a
  unfold extractBoundaries
  simp only at *
  split_ifs with h
  · subst h; exact congrArg _ (key d)
  · have : NdArr.reshape ⟨s, d⟩ (g.getFshape true) = .ok ⟨g.getFshape true, d⟩ := by
      simp [NdArr.reshape, prod_fshape, hl]
    rw [this]; exact congrArg _ (key d)

/-- Sorted boundary cell numbers. -/
def boundIds (g : Dims) : List ℕ := g.extractPositions.insertionSort (· ≤ ·)

lemma getBoundariesId_eq (g : Dims) : g.getBoundariesId = .ok g.boundIds := by
  unfold getBoundariesId
  have : (NdArr.ofList (List.range (g.getN true))).reshape (g.getFshape true) =
      .ok ⟨g.getFshape true, List.range (g.getN true)⟩ := by
    simp [NdArr.reshape, prod_fshape, NdArr.ofList]
  rw [this]
  simp only [extractBoundariesSorted]
  rw [extractBoundaries_data _ _ (by simp)]
  simp only [Except.map]
  rw [filterMap_range fun i hi => g.extractPositions_lt hi]
  rfl

lemma boundIds_perm (g : Dims) : g.boundIds.Perm g.extractPositions := List.perm_insertionSort _ _

lemma mem_boundIds (g : Dims) (hD : 1 ≤ g.getD) (id : ℕ) :
    id ∈ g.boundIds ↔ Boundary g.nx g.ny g.nz (g.dec id) := by
  rw [(g.boundIds_perm).mem_iff]; exact g.mem_extractPositions hD id

lemma boundIds_sorted (g : Dims) (hD : 1 ≤ g.getD) : g.boundIds.Pairwise (· < ·) := by
  have h1 : g.boundIds.Pairwise (· ≤ ·) := by
    exact List.pairwise_insertionSort _ _
  have h2 : g.boundIds.Nodup := (g.boundIds_perm).nodup_iff.2 (g.nodup_extractPositions hD)
  exact (h1.and h2).imp fun h => by omega

lemma getCellCoords_true (g : Dims) {id : ℕ} (h : id < g.getN true) : g.getCellCoords id true = .ok (g.dec id) := by
  unfold getCellCoords pvCellCoords
  rw [getN_true] at h
  rw [getShape_true]
  rw [if_pos (by simp; exact_mod_cast h)]
  rfl

lemma mapM_ok {α β} (f : α → Except Err β) (h : α → β) (l : List α) (hf : ∀ a ∈ l, f a = .ok (h a)) :
    l.mapM f = .ok (l.map h) := by
  induction l with
  | nil => rfl
  | cons a t ih =>
    rw [List.mapM_cons, hf a (by simp), ih fun b hb => hf b (by simp [hb])]; rfl

lemma getCellsCoords_eq (g : Dims) (b : Bool) :
    g.getCellsCoords b = .ok ((if b then List.range (g.getN true) else g.innerIds).map g.dec) := by
  unfold getCellsCoords
  cases b
  · rw [getCellsId_false]; exact mapM_ok (fun id : ℕ => g.getCellCoords (id : ℤ) true) _ _ fun a ha => g.getCellCoords_true (g.innerIds_lt ha)
  · rw [getCellsId_true]; exact mapM_ok (fun id : ℕ => g.getCellCoords (id : ℤ) true) _ _ fun a ha => g.getCellCoords_true (by simpa using ha)

lemma getBoundariesCoords_eq (g : Dims) : g.getBoundariesCoords = .ok (g.extractPositions.map g.dec) := by
  unfold getBoundariesCoords
  rw [getCellsCoords_eq]
  simp only [if_true]
  have : (NdArr.ofList ((List.range (g.getN true)).map g.dec)).reshape (g.getFshape true) =
      .ok ⟨g.getFshape true, (List.range (g.getN true)).map g.dec⟩ := by
    simp [NdArr.reshape, prod_fshape, NdArr.ofList]
  rw [this]
  simp only
  rw [extractBoundaries_data _ _ (by simp)]
  congr 1
  have e : (fun x : ℕ => ((List.range (g.getN true)).map g.dec)[x]?) =
      fun x => (((List.range (g.getN true))[x]?).map g.dec) := by
    funext x; simp only [List.getElem?_map]
  simp only [e]
  rw [← List.map_filterMap, filterMap_range fun i hi => g.extractPositions_lt hi]

end Dims
end RF
