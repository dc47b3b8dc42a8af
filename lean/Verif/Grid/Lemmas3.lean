import Verif.Grid.Lemmas2
/-! # Lemmas about the boundary selection -/
set_option linter.unusedSimpArgs false
namespace RF
namespace Dims
open Spec

lemma lt_iff_inGrid (g : Dims) (id : ℕ) :
    id < g.getN true ↔ InGrid g.nx g.ny g.nz (decode (padded g.nx) (padded g.ny) id) := by
  rw [getN_true]
  constructor
  · exact fun h => decode_lt h
  · rintro ⟨h1, h2, h3⟩
    have := number_lt h1 h2 h3
    rwa [number_decode] at this

/-- The positions kept by `extract_boundaries`. -/
def extractPositions (g : Dims) : List ℕ := g.extractIx.flatMap (selPositions (g.getFshape true))

lemma bE (n : ℕ) : ∀ i ∈ [0, n + 1], i < n + 2 := by simp
lemma bF (n : ℕ) : ∀ i ∈ List.range n, i < n := by simp
lemma bI (n : ℕ) : ∀ i ∈ List.range' 1 n, i < n + 2 := by simp; omega
lemma b0 : ∀ i ∈ [0], i < 1 := by simp
lemma ends_eq (n : ℕ) : Ix.ends.positions (n + 2) = [0, n + 1] := rfl

/-- The concatenation that `extract_boundaries` builds, in coordinates. -/
lemma extractPositions_cases (g : Dims) (hD : 1 ≤ g.getD) :
    ∃ parts : List (List ℕ × List ℕ × List ℕ),
      g.extractPositions = parts.flatMap (fun p => boxIds (padded g.nx) (padded g.ny) p.1 p.2.1 p.2.2) ∧
      (∀ p ∈ parts, p.1.Pairwise (· < ·) ∧ p.2.1.Pairwise (· < ·) ∧ p.2.2.Pairwise (· < ·) ∧
        (∀ i ∈ p.2.2, i < padded g.nx) ∧ (∀ j ∈ p.2.1, j < padded g.ny) ∧ (∀ k ∈ p.1, k < padded g.nz)) ∧
      (∀ c : Cell, Boundary g.nx g.ny g.nz c ↔ ∃ p ∈ parts, c.2.2 ∈ p.1 ∧ c.2.1 ∈ p.2.1 ∧ c.1 ∈ p.2.2) ∧
      parts.Pairwise (fun p q => ∀ c : Cell, (c.2.2 ∈ p.1 ∧ c.2.1 ∈ p.2.1 ∧ c.1 ∈ p.2.2) →
        (c.2.2 ∈ q.1 ∧ c.2.1 ∈ q.2.1 ∧ c.1 ∈ q.2.2) → False) := by
  have hu : g.unify = true ∨ g.unify = false := by cases g.unify <;> simp
  have R : ∀ n m : ℕ, m ∈ List.range' 1 n ↔ 1 ≤ m ∧ m < 1 + n := fun n m => List.mem_range'_1
  refine g.cases8 ?_ ?_ ?_ ?_ ?_ ?_ ?_ ?_ <;> intro h1 h2 h3
  · simp [getD_cases, h1, h2, h3] at hD
  · refine ⟨[([0], [0], [0, g.nx + 1])], ?_, ?_, ?_, ?_⟩
    · rcases hu with hu | hu <;>
      simp [extractPositions, getFshape, extractIx, getFdir_eq, getD_cases, getShape_true, padded, hu, h1, h2, h3,
        sel3, sel2, sel1 _ 1, positions_inner, positions_full, ends_eq, boxIds_xz, boxIds_yz]
    · simp [padded, h1, h2, h3]
    · rintro ⟨i, j, k⟩
      simp [Boundary, InGrid, Interior, innerCoord, padded, h1, h2, h3]; omega
    · simp
  · refine ⟨[([0], [0, g.ny + 1], [0])], ?_, ?_, ?_, ?_⟩
    · rcases hu with hu | hu <;>
      simp [extractPositions, getFshape, extractIx, getFdir_eq, getD_cases, getShape_true, padded, hu, h1, h2, h3,
        sel3, sel2, sel1 _ 1, positions_inner, positions_full, ends_eq, boxIds_xz, boxIds_yz]
    · simp [padded, h1, h2, h3]
    · rintro ⟨i, j, k⟩
      simp [Boundary, InGrid, Interior, innerCoord, padded, h1, h2, h3]; omega
    · simp
  · refine ⟨[([0, g.nz + 1], [0], [0])], ?_, ?_, ?_, ?_⟩
    · rcases hu with hu | hu <;>
      simp [extractPositions, getFshape, extractIx, getFdir_eq, getD_cases, getShape_true, padded, hu, h1, h2, h3,
        sel3, sel2, sel1 _ 1, positions_inner, positions_full, ends_eq, boxIds_xz, boxIds_yz]
    · simp [padded, h1, h2, h3]
    · rintro ⟨i, j, k⟩
      simp [Boundary, InGrid, Interior, innerCoord, padded, h1, h2, h3]; omega
    · simp
  · refine ⟨[([0], [0, g.ny + 1], List.range (g.nx + 2)), ([0], List.range' 1 g.ny, [0, g.nx + 1])], ?_, ?_, ?_, ?_⟩
    · rcases hu with hu | hu <;>
      simp [extractPositions, getFshape, extractIx, getFdir_eq, getD_cases, getShape_true, padded, hu, h1, h2, h3,
        sel3, sel2, sel1 _ 1, positions_inner, positions_full, ends_eq, boxIds_xz, boxIds_yz]
    · simp [padded, h1, h2, h3, List.pairwise_lt_range, List.pairwise_lt_range']; omega
    · rintro ⟨i, j, k⟩
      simp [Boundary, InGrid, Interior, innerCoord, padded, h1, h2, h3, R]; omega
    · simp [R]; omega
  · refine ⟨[([0, g.nz + 1], [0], List.range (g.nx + 2)), (List.range' 1 g.nz, [0], [0, g.nx + 1])], ?_, ?_, ?_, ?_⟩
    · rcases hu with hu | hu <;>
      simp [extractPositions, getFshape, extractIx, getFdir_eq, getD_cases, getShape_true, padded, hu, h1, h2, h3,
        sel3, sel2, sel1 _ 1, positions_inner, positions_full, ends_eq, boxIds_xz, boxIds_yz]
    · simp [padded, h1, h2, h3, List.pairwise_lt_range, List.pairwise_lt_range']; omega
    · rintro ⟨i, j, k⟩
      simp [Boundary, InGrid, Interior, innerCoord, padded, h1, h2, h3, R]; omega
    · simp [R]; omega
  · refine ⟨[([0, g.nz + 1], List.range (g.ny + 2), [0]), (List.range' 1 g.nz, [0, g.ny + 1], [0])], ?_, ?_, ?_, ?_⟩
    · rcases hu with hu | hu <;>
      simp [extractPositions, getFshape, extractIx, getFdir_eq, getD_cases, getShape_true, padded, hu, h1, h2, h3,
        sel3, sel2, sel1 _ 1, positions_inner, positions_full, ends_eq, boxIds_xz, boxIds_yz]
    · simp [padded, h1, h2, h3, List.pairwise_lt_range, List.pairwise_lt_range']; omega
    · rintro ⟨i, j, k⟩
      simp [Boundary, InGrid, Interior, innerCoord, padded, h1, h2, h3, R]; omega
    · simp [R]; omega
  · refine ⟨[(List.range (g.nz + 2), [0, g.ny + 1], List.range (g.nx + 2)),
      (List.range (g.nz + 2), List.range' 1 g.ny, [0, g.nx + 1]),
      ([0, g.nz + 1], List.range' 1 g.ny, List.range' 1 g.nx)], ?_, ?_, ?_, ?_⟩
    · rcases hu with hu | hu <;>
      simp [extractPositions, getFshape, extractIx, getFdir_eq, getD_cases, getShape_true, padded, hu, h1, h2, h3,
        sel3, sel2, sel1 _ 1, positions_inner, positions_full, ends_eq, boxIds_xz, boxIds_yz]
    · simp [padded, h1, h2, h3, List.pairwise_lt_range, List.pairwise_lt_range']
      constructorm* _ ∧ _ <;> intros <;> omega
    · rintro ⟨i, j, k⟩
      simp [Boundary, InGrid, Interior, innerCoord, padded, h1, h2, h3, R]; omega
    · simp [R]; constructorm* _ ∧ _ <;> intros <;> omega

lemma mem_extractPositions (g : Dims) (hD : 1 ≤ g.getD) (id : ℕ) : id ∈ g.extractPositions ↔
    Boundary g.nx g.ny g.nz (decode (padded g.nx) (padded g.ny) id) := by
  obtain ⟨parts, h1, h2, h3, -⟩ := g.extractPositions_cases hD
  rw [h1, h3, List.mem_flatMap]
  refine exists_congr fun p => and_congr_right fun hp => ?_
  obtain ⟨-, -, -, hi, hj, -⟩ := h2 p hp
  exact mem_boxIds' hi hj

lemma nodup_extractPositions (g : Dims) (hD : 1 ≤ g.getD) : g.extractPositions.Nodup := by
  obtain ⟨parts, h1, h2, -, h4⟩ := g.extractPositions_cases hD
  rw [h1, List.nodup_flatMap]
  refine ⟨fun p hp => ?_, h4.imp_of_mem fun {p q} hp hq hpq x hx hy => ?_⟩
  · obtain ⟨a, b, c, hi, hj, -⟩ := h2 p hp
    exact (sorted_boxIds a b c hi hj).imp Nat.ne_of_lt
  · obtain ⟨-, -, -, hi, hj, -⟩ := h2 p hp
    obtain ⟨-, -, -, hi', hj', -⟩ := h2 q hq
    rw [mem_boxIds' hi hj] at hx; rw [mem_boxIds' hi' hj'] at hy
    exact hpq _ hx hy

end Dims
end RF
