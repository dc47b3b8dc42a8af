import Verif.Trans.Spec
import Verif.Geom.Lemmas2
/-! # Lemmas about geometric factors: positions, interior cells, the matrix in closed form -/
set_option linter.unusedSimpArgs false
namespace RF
open Spec Dims

/-! ## positions in a box -/

lemma pos_x {X Y Z p q : ℕ} (hp : p < X * Y * Z) (hq : q < X * Y * Z) :
    ((decode X Y q).1 = (decode X Y p).1 + 1 ∧ (decode X Y q).2.1 = (decode X Y p).2.1 ∧ (decode X Y q).2.2 = (decode X Y p).2.2) ↔
      q = p + 1 ∧ p % X + 1 < X := by
  obtain ⟨h1, h2, h3⟩ := decode_lt hp
  obtain ⟨k1, k2, k3⟩ := decode_lt hq
  have np := number_decode X Y p
  have nq := number_decode X Y q
  have e1 : (decode X Y p).1 = p % X := rfl
  generalize hc : decode X Y p = c at *
  generalize hc' : decode X Y q = c' at *
  obtain ⟨i, j, k⟩ := c
  obtain ⟨i', j', k'⟩ := c'
  simp only [number] at *
  constructor
  · rintro ⟨rfl, rfl, rfl⟩; omega
  · rintro ⟨e, h⟩
    have := decode_number (X := X) (Y := Y) (c := (i + 1, j, k)) (by simp; omega) h2
    rw [show number X Y (i + 1, j, k) = q by simp only [number]; omega, hc'] at this
    simp only [Prod.mk.injEq] at this; exact this

lemma pos_y {X Y Z p q : ℕ} (hp : p < X * Y * Z) (hq : q < X * Y * Z) :
    ((decode X Y q).1 = (decode X Y p).1 ∧ (decode X Y q).2.1 = (decode X Y p).2.1 + 1 ∧ (decode X Y q).2.2 = (decode X Y p).2.2) ↔
      q = p + X ∧ p / X % Y + 1 < Y := by
  obtain ⟨h1, h2, h3⟩ := decode_lt hp
  obtain ⟨k1, k2, k3⟩ := decode_lt hq
  have np := number_decode X Y p
  have nq := number_decode X Y q
  have e1 : (decode X Y p).2.1 = p / X % Y := rfl
  generalize hc : decode X Y p = c at *
  generalize hc' : decode X Y q = c' at *
  obtain ⟨i, j, k⟩ := c
  obtain ⟨i', j', k'⟩ := c'
  simp only [number] at *
  have e : X * (j + 1 + Y * k) = X * (j + Y * k) + X := by ring
  constructor
  · rintro ⟨rfl, rfl, rfl⟩; omega
  · rintro ⟨e, h⟩
    have := decode_number (X := X) (Y := Y) (c := (i, j + 1, k)) h1 (by simp; omega)
    rw [show number X Y (i, j + 1, k) = q by simp only [number]; omega, hc'] at this
    simp only [Prod.mk.injEq] at this; exact this

lemma pos_z {X Y Z p q : ℕ} (hp : p < X * Y * Z) (hq : q < X * Y * Z) :
    ((decode X Y q).1 = (decode X Y p).1 ∧ (decode X Y q).2.1 = (decode X Y p).2.1 ∧ (decode X Y q).2.2 = (decode X Y p).2.2 + 1) ↔
      q = p + X * Y := by
  obtain ⟨h1, h2, h3⟩ := decode_lt hp
  obtain ⟨k1, k2, k3⟩ := decode_lt hq
  have np := number_decode X Y p
  have nq := number_decode X Y q
  generalize hc : decode X Y p = c at *
  generalize hc' : decode X Y q = c' at *
  obtain ⟨i, j, k⟩ := c
  obtain ⟨i', j', k'⟩ := c'
  simp only [number] at *
  have e : X * (j + Y * (k + 1)) = X * (j + Y * k) + X * Y := by ring
  constructor
  · rintro ⟨rfl, rfl, rfl⟩; omega
  · rintro e
    have := decode_number (X := X) (Y := Y) (c := (i, j, k + 1)) h1 h2
    rw [show number X Y (i, j, k + 1) = q by simp only [number]; omega, hc'] at this
    simp only [Prod.mk.injEq] at this; exact this

/-! ## the cell at a position of the listing -/

/-- Offset of the first listed layer. -/
def sh (b : Bool) (n : ℕ) : ℕ := if b = false ∧ 1 < n then 1 else 0

/-- The cell at a position of the listing of all (`true`) or interior (`false`) cells. -/
def pcell (g : Dims) (b : Bool) (p : ℕ) : Cell :=
  let c := decode (g.getShape b).1 (g.getShape b).2.1 p
  (c.1 + sh b g.nx, c.2.1 + sh b g.ny, c.2.2 + sh b g.nz)

lemma innerList_eq {n : ℕ} (h : 1 ≤ n) : innerList n = (List.range n).map (· + sh false n) := by
  unfold innerList sh
  split_ifs with h1 h2 h2
  · rw [List.range'_eq_map_range]; simp [Nat.add_comm]
  · simp_all
  · simp_all
  · have : n = 1 := by omega
    subst this; rfl

lemma innerIds_pcell (g : Dims) : g.innerIds = (List.range (g.getN false)).map fun p => g.num (pcell g false p) := by
  rw [getN_false, ← boxIds_range]
  unfold innerIds boxIds
  rw [innerList_eq g.hx, innerList_eq g.hy, innerList_eq g.hz]
  rw [List.flatMap_map, List.map_flatMap]
  refine List.flatMap_congr fun k hk => ?_
  rw [List.flatMap_map, List.map_flatMap]
  refine List.flatMap_congr fun j hj => ?_
  simp only [List.map_map]
  refine List.map_congr_left fun i hi => ?_
  simp only [List.mem_range] at *
  simp only [Function.comp, pcell, getShape, if_neg (show ¬ (false = true) by simp), Bool.false_eq_true, if_false]
  rw [decode_number (by exact hi) (by exact hj)]; rfl

lemma pcell_true (g : Dims) (p : ℕ) : pcell g true p = g.dec p := by
  simp [pcell, getShape_true, sh, dec]

lemma pcell_inner (g : Dims) {p : ℕ} (h : p < g.getN false) : Interior g.nx g.ny g.nz (pcell g false p) := by
  rw [getN_false] at h
  obtain ⟨h1, h2, h3⟩ := decode_lt h
  simp only [pcell, getShape, Bool.false_eq_true, if_false]
  have key : ∀ n i, i < n → innerCoord n (i + sh false n) := by
    intro n i h; unfold innerCoord sh; split_ifs <;> simp_all
  exact ⟨key _ _ h1, key _ _ h2, key _ _ h3⟩

lemma pcell_inGrid (g : Dims) (b : Bool) {p : ℕ} (h : p < g.getN b) : InGrid g.nx g.ny g.nz (pcell g b p) := by
  cases b
  · exact Interior.inGrid (pcell_inner g h)
  · rw [pcell_true]; exact (lt_iff_inGrid g p).1 h

lemma pcell_surj (g : Dims) {c : Cell} (h : Interior g.nx g.ny g.nz c) : ∃ p < g.getN false, pcell g false p = c := by
  have hc := Interior.inGrid h
  have : g.num c ∈ g.innerIds := by rw [mem_innerIds, g.dec_num hc]; exact h
  rw [innerIds_pcell, List.mem_map] at this
  obtain ⟨p, hp, e⟩ := this
  rw [List.mem_range] at hp
  exact ⟨p, hp, g.num_inj (pcell_inGrid g false hp) hc e⟩

lemma adj_x (g : Dims) (b : Bool) {p q : ℕ} (hp : p < g.getN b) (hq : q < g.getN b) (h : p < q) :
    Adjacent .x (pcell g b p) (pcell g b q) ↔ q = p + 1 ∧ p % (g.getShape b).1 + 1 < (g.getShape b).1 := by
  rw [← pos_x (Y := (g.getShape b).2.1) (Z := (g.getShape b).2.2) (by exact hp) (by exact hq)]
  simp only [Adjacent, pcell, near]
  have n1 := number_decode (g.getShape b).1 (g.getShape b).2.1 p
  have n2 := number_decode (g.getShape b).1 (g.getShape b).2.1 q
  generalize decode (g.getShape b).1 (g.getShape b).2.1 p = c at *
  generalize decode (g.getShape b).1 (g.getShape b).2.1 q = c' at *
  obtain ⟨i, j, k⟩ := c
  obtain ⟨i', j', k'⟩ := c'
  simp only [number] at *
  constructor
  · rintro ⟨h1, h2, h3⟩
    have e2 : j = j' := by omega
    have e3 : k = k' := by omega
    subst e2 e3
    rcases h1 with h1 | h1
    · omega
    · omega
  · rintro ⟨rfl, rfl, rfl⟩; omega

lemma adj_y (g : Dims) (b : Bool) {p q : ℕ} (hp : p < g.getN b) (hq : q < g.getN b) (h : p < q) :
    Adjacent .y (pcell g b p) (pcell g b q) ↔
      q = p + (g.getShape b).1 ∧ p / (g.getShape b).1 % (g.getShape b).2.1 + 1 < (g.getShape b).2.1 := by
  rw [← pos_y (Z := (g.getShape b).2.2) (by exact hp) (by exact hq)]
  simp only [Adjacent, pcell, near]
  have n1 := number_decode (g.getShape b).1 (g.getShape b).2.1 p
  have n2 := number_decode (g.getShape b).1 (g.getShape b).2.1 q
  generalize decode (g.getShape b).1 (g.getShape b).2.1 p = c at *
  generalize decode (g.getShape b).1 (g.getShape b).2.1 q = c' at *
  obtain ⟨i, j, k⟩ := c
  obtain ⟨i', j', k'⟩ := c'
  simp only [number] at *
  constructor
  · rintro ⟨h1, h2, h3⟩
    have e2 : i = i' := by omega
    have e3 : k = k' := by omega
    subst e2 e3
    refine ⟨rfl, ?_, rfl⟩
    rcases h2 with h2 | h2
    · omega
    · have : j = j' + 1 := by omega
      subst this
      have : (g.getShape b).1 * (j' + 1 + (g.getShape b).2.1 * k) = (g.getShape b).1 * (j' + (g.getShape b).2.1 * k) +
        (g.getShape b).1 := by ring
      omega
  · rintro ⟨rfl, rfl, rfl⟩; omega

lemma adj_z (g : Dims) (b : Bool) {p q : ℕ} (hp : p < g.getN b) (hq : q < g.getN b) (h : p < q) :
    Adjacent .z (pcell g b p) (pcell g b q) ↔ q = p + (g.getShape b).1 * (g.getShape b).2.1 := by
  rw [← pos_z (Z := (g.getShape b).2.2) (by exact hp) (by exact hq)]
  simp only [Adjacent, pcell, near]
  have n1 := number_decode (g.getShape b).1 (g.getShape b).2.1 p
  have n2 := number_decode (g.getShape b).1 (g.getShape b).2.1 q
  generalize decode (g.getShape b).1 (g.getShape b).2.1 p = c at *
  generalize decode (g.getShape b).1 (g.getShape b).2.1 q = c' at *
  obtain ⟨i, j, k⟩ := c
  obtain ⟨i', j', k'⟩ := c'
  simp only [number] at *
  constructor
  · rintro ⟨h1, h2, h3⟩
    have e2 : i = i' := by omega
    have e3 : j = j' := by omega
    subst e2 e3
    refine ⟨rfl, rfl, ?_⟩
    rcases h3 with h2 | h2
    · omega
    · have : k = k' + 1 := by omega
      subst this
      have : (g.getShape b).1 * (j + (g.getShape b).2.1 * (k' + 1)) = (g.getShape b).1 * (j + (g.getShape b).2.1 * k') +
        (g.getShape b).1 * (g.getShape b).2.1 := by ring
      omega
  · rintro ⟨rfl, rfl, rfl⟩; omega

lemma adj_symm (a : Axis) (c c' : Cell) : Adjacent a c c' ↔ Adjacent a c' c := by
  cases a <;> simp only [Adjacent, near] <;> omega

end RF
