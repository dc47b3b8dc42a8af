import Verif.Grid.Lemmas
/-! # Lemmas about slicing, interior and boundary selections -/
namespace RF
namespace Dims
open Spec

/-- Numbers of the cells with coordinates taken from three lists, in natural order. -/
def boxIds (X Y : ℕ) (Ks Js Is : List ℕ) : List ℕ :=
  Ks.flatMap fun k => Js.flatMap fun j => Is.map fun i => number X Y (i, j, k)

lemma sel3 (Z Y X : ℕ) (a b c : Ix) :
    selPositions [Z, Y, X] [a, b, c] = boxIds X Y (a.positions Z) (b.positions Y) (c.positions X) := by
  simp only [selPositions, List.zipWith_cons_cons, List.zipWith_nil_left, cart, boxIds, number, List.map_flatMap,
    List.map_cons, List.map_nil]
  refine List.flatMap_congr fun k _ => List.flatMap_congr fun j _ => ?_
  rw [List.map_eq_flatMap]
  refine List.flatMap_congr fun i _ => ?_
  simp only [flatIdx]; congr 1; ring

lemma sel2 (Y X : ℕ) (b c : Ix) :
    selPositions [Y, X] [b, c] = boxIds X Y [0] (b.positions Y) (c.positions X) := by
  simp only [selPositions, List.zipWith_cons_cons, List.zipWith_nil_left, cart, boxIds, number, List.map_flatMap,
    List.map_cons, List.map_nil, List.flatMap_cons, List.flatMap_nil, List.append_nil]
  refine List.flatMap_congr fun j _ => ?_
  rw [List.map_eq_flatMap]
  refine List.flatMap_congr fun i _ => ?_
  simp only [flatIdx]; congr 1; ring

lemma sel1 (X Y : ℕ) (c : Ix) :
    selPositions [X] [c] = boxIds X Y [0] [0] (c.positions X) := by
  simp only [selPositions, List.zipWith_cons_cons, List.zipWith_nil_left, cart, boxIds, number, List.map_flatMap,
    List.map_cons, List.map_nil, List.flatMap_cons, List.flatMap_nil, List.append_nil]
  rw [List.map_eq_flatMap]
  refine List.flatMap_congr fun i _ => ?_
  simp only [flatIdx]; congr 1; ring

lemma boxIds_xz (X Z : ℕ) (Ks Is : List ℕ) : boxIds X Z [0] Ks Is = boxIds X 1 Ks [0] Is := by
  simp only [boxIds, number, List.flatMap_cons, List.flatMap_nil, List.append_nil]
  refine List.flatMap_congr fun k _ => List.map_congr_left fun i _ => ?_; ring

lemma boxIds_yz (Y : ℕ) (Ks Js : List ℕ) : boxIds Y 1 Ks [0] Js = boxIds 1 Y Ks Js [0] := by
  simp only [boxIds, number, List.flatMap_cons, List.flatMap_nil, List.append_nil, List.map_cons, List.map_nil]
  refine List.flatMap_congr fun k _ => ?_
  rw [List.map_eq_flatMap]; refine List.flatMap_congr fun i _ => ?_; congr 1; ring

lemma mem_boxIds {X Y : ℕ} {Ks Js Is : List ℕ} {id : ℕ} :
    id ∈ boxIds X Y Ks Js Is ↔ ∃ c : Cell, c.2.2 ∈ Ks ∧ c.2.1 ∈ Js ∧ c.1 ∈ Is ∧ number X Y c = id := by
  simp only [boxIds, List.mem_flatMap, List.mem_map, Prod.exists]
  constructor
  · rintro ⟨k, hk, j, hj, i, hi, e⟩; exact ⟨i, j, k, hk, hj, hi, e⟩
  · rintro ⟨i, j, k, hk, hj, hi, e⟩; exact ⟨k, hk, j, hj, i, hi, e⟩

/-- Membership in a box selection, read off the decoded coordinates. -/
lemma mem_boxIds' {X Y : ℕ} {Ks Js Is : List ℕ} {id : ℕ} (hi : ∀ i ∈ Is, i < X) (hj : ∀ j ∈ Js, j < Y) :
    id ∈ boxIds X Y Ks Js Is ↔
      (decode X Y id).2.2 ∈ Ks ∧ (decode X Y id).2.1 ∈ Js ∧ (decode X Y id).1 ∈ Is := by
  rw [mem_boxIds]
  constructor
  · rintro ⟨c, h1, h2, h3, rfl⟩
    rw [decode_number (hi _ h3) (hj _ h2)]; exact ⟨h1, h2, h3⟩
  · rintro ⟨h1, h2, h3⟩; exact ⟨_, h1, h2, h3, number_decode X Y id⟩

lemma positions_inner (n : ℕ) : (Ix.slice 1 true).positions (n + 2) = List.range' 1 n := by
  refine List.ext_getElem ?_ fun i h1 h2 => ?_
  · simp [Ix.positions]
  · simp [Ix.positions]

lemma positions_full (n : ℕ) : Ix.full.positions n = List.range n := rfl
lemma positions_ends (n : ℕ) : Ix.ends.positions n = [0, n - 1] := rfl

lemma sorted_boxIds {X Y : ℕ} {Ks Js Is : List ℕ} (hK : Ks.Pairwise (· < ·)) (hJ : Js.Pairwise (· < ·))
    (hI : Is.Pairwise (· < ·)) (hi : ∀ i ∈ Is, i < X) (hj : ∀ j ∈ Js, j < Y) :
    (boxIds X Y Ks Js Is).Pairwise (· < ·) := by
  unfold boxIds
  rw [List.pairwise_flatMap]
  refine ⟨fun k _ => ?_, ?_⟩
  · rw [List.pairwise_flatMap]
    refine ⟨fun j _ => ?_, ?_⟩
    · rw [List.pairwise_map]
      exact hI.imp fun h => by simp only [number]; omega
    · refine hJ.imp_of_mem fun {a b} ha hb hab x hx y hy => ?_
      simp only [List.mem_map] at hx hy
      obtain ⟨i, hi1, rfl⟩ := hx; obtain ⟨i', hi2, rfl⟩ := hy
      have := hi i hi1
      have h2 : X * (a + Y * k + 1) ≤ X * (b + Y * k) := Nat.mul_le_mul_left _ (by omega)
      rw [Nat.mul_add] at h2
      simp only [number]; omega
  · refine hK.imp_of_mem fun {a b} ha hb hab x hx y hy => ?_
    simp only [List.mem_flatMap, List.mem_map] at hx hy
    obtain ⟨j, hj1, i, hi1, rfl⟩ := hx; obtain ⟨j', hj2, i', hi2, rfl⟩ := hy
    have h1 := hi i hi1; have h2 := hj j hj1
    have h3 : Y * (a + 1) ≤ Y * b := Nat.mul_le_mul_left _ hab
    rw [Nat.mul_add] at h3
    have h2 : X * (j + Y * a + 1) ≤ X * (j' + Y * b) := Nat.mul_le_mul_left _ (by omega)
    rw [Nat.mul_add] at h2
    simp only [number]; omega

/-- Two strictly increasing lists with the same members are equal. -/
lemma sorted_ext {l m : List ℕ} (hl : l.Pairwise (· < ·)) (hm : m.Pairwise (· < ·)) (h : ∀ a, a ∈ l ↔ a ∈ m) :
    l = m := by
  have p : l.Perm m := (List.perm_ext_iff_of_nodup (hl.imp Nat.ne_of_lt) (hm.imp Nat.ne_of_lt)).2 h
  exact p.eq_of_pairwise (fun a b _ _ h1 h2 => by omega) hl hm

/-- Positions of the interior along one axis. -/
def innerList (n : ℕ) : List ℕ := if 1 < n then List.range' 1 n else [0]

lemma mem_innerList {n c : ℕ} (hn : 1 ≤ n) : c ∈ innerList n ↔ innerCoord n c := by
  unfold innerList innerCoord
  split_ifs <;> simp <;> omega

lemma innerList_sorted (n : ℕ) : (innerList n).Pairwise (· < ·) := by
  unfold innerList; split_ifs
  · exact List.pairwise_lt_range'
  · simp

lemma innerList_lt {n c : ℕ} (hn : 1 ≤ n) (h : c ∈ innerList n) : c < padded n := by
  rw [mem_innerList hn] at h; unfold innerCoord at h; unfold padded; split_ifs at * <;> omega

lemma getD_cases (g : Dims) : g.getD = (if 1 < g.nx then 1 else 0) + (if 1 < g.ny then 1 else 0) +
    (if 1 < g.nz then 1 else 0) := rfl

/-- The positions kept by `remove_boundaries`. -/
lemma removePositions (g : Dims) : selPositions (g.getFshape true) (g.removeIx .both) =
    boxIds (padded g.nx) (padded g.ny) (innerList g.nz) (innerList g.ny) (innerList g.nx) := by
  have hu : g.unify = true ∨ g.unify = false := by cases g.unify <;> simp
  refine g.cases8 ?_ ?_ ?_ ?_ ?_ ?_ ?_ ?_ <;> intro h1 h2 h3 <;> rcases hu with hu | hu <;>
    simp [getFshape, removeIx, getFdir_eq, getD_cases, getShape_true, padded, innerList, hu, h1, h2, h3, Side.ix,
      sel3, sel2, sel1 _ 1, positions_inner, positions_full, boxIds_xz, boxIds_yz]

end Dims
end RF
