import Verif.Grid.Model
import Verif.Grid.Spec
/-! # Helper lemmas about the grid model -/
namespace RF
namespace Dims
open Spec

lemma argmax3 (a b c : ℕ) : argmax [a, b, c] = if b ≤ a ∧ c ≤ a then 0 else if c ≤ b then 1 else 2 := by
  unfold argmax
  simp only [List.foldr, List.idxOf_cons, Bool.cond_eq_ite, beq_iff_eq, Nat.max_zero]
  split_ifs <;> omega

lemma argmin3 (a b c : ℕ) : argmin [a, b, c] = if a ≤ b ∧ a ≤ c then 0 else if b ≤ c then 1 else 2 := by
  unfold argmin
  simp only [List.foldr, List.idxOf_cons, Bool.cond_eq_ite, beq_iff_eq]
  split_ifs <;> omega

lemma fdirFrom_eq (nx ny nz : ℕ) (hx : 1 ≤ nx) (hy : 1 ≤ ny) (hz : 1 ≤ nz) (s : List ℕ)
    (hs : s = [nx, ny, nz] ∨ s = [padded nx, padded ny, padded nz]) :
    fdirFrom ((if nx > 1 then 1 else 0) + (if ny > 1 then 1 else 0) + (if nz > 1 then 1 else 0)) s =
      (if 1 < nx then [Axis.x] else []) ++ (if 1 < ny then [Axis.y] else []) ++ (if 1 < nz then [Axis.z] else []) := by
  have e : ∀ n, 1 ≤ n → (1 < n ∧ ¬ n ≤ 1 ∧ 1 ≤ n) ∨ n = 1 := fun n h => by omega
  rcases e nx hx with ⟨h1, h1', h1''⟩ | h1 <;> rcases e ny hy with ⟨h2, h2', h2''⟩ | h2 <;>
    rcases e nz hz with ⟨h3, h3', h3''⟩ | h3 <;>
    rcases hs with rfl | rfl <;>
    simp [fdirFrom, argmax3, argmin3, padded, *]

lemma getFdir_eq (g : Dims) : g.getFdir =
    (if 1 < g.nx then [Axis.x] else []) ++ (if 1 < g.ny then [Axis.y] else []) ++
      (if 1 < g.nz then [Axis.z] else []) :=
  fdirFrom_eq g.nx g.ny g.nz g.hx g.hy g.hz _ (Or.inl rfl)

lemma x_mem (g : Dims) : Axis.x ∈ g.getFdir ↔ 1 < g.nx := by rw [getFdir_eq]; split_ifs <;> simp_all
lemma y_mem (g : Dims) : Axis.y ∈ g.getFdir ↔ 1 < g.ny := by rw [getFdir_eq]; split_ifs <;> simp_all
lemma z_mem (g : Dims) : Axis.z ∈ g.getFdir ↔ 1 < g.nz := by rw [getFdir_eq]; split_ifs <;> simp_all

lemma getShape_true (g : Dims) : g.getShape true = (padded g.nx, padded g.ny, padded g.nz) := by
  simp [getShape, x_mem, y_mem, z_mem, padded]

lemma nxb_eq (g : Dims) : g.nxb = padded g.nx := by simp [nxb, getShape_true]
lemma nyb_eq (g : Dims) : g.nyb = padded g.ny := by simp [nyb, getShape_true]
lemma nzb_eq (g : Dims) : g.nzb = padded g.nz := by simp [nzb, getShape_true]
lemma getN_true (g : Dims) : g.getN true = padded g.nx * padded g.ny * padded g.nz := by simp [getN, getShape_true]
lemma getN_false (g : Dims) : g.getN false = g.nx * g.ny * g.nz := by simp [getN, getShape]

/-- The eight cases of which axes carry flow. -/
lemma cases8 (g : Dims) {P : Prop}
    (h000 : g.nx = 1 → g.ny = 1 → g.nz = 1 → P) (h100 : 1 < g.nx → g.ny = 1 → g.nz = 1 → P)
    (h010 : g.nx = 1 → 1 < g.ny → g.nz = 1 → P) (h001 : g.nx = 1 → g.ny = 1 → 1 < g.nz → P)
    (h110 : 1 < g.nx → 1 < g.ny → g.nz = 1 → P) (h101 : 1 < g.nx → g.ny = 1 → 1 < g.nz → P)
    (h011 : g.nx = 1 → 1 < g.ny → 1 < g.nz → P) (h111 : 1 < g.nx → 1 < g.ny → 1 < g.nz → P) : P := by
  have e : ∀ n, 1 ≤ n → 1 < n ∨ n = 1 := fun n h => by omega
  rcases e _ g.hx with a | a <;> rcases e _ g.hy with b | b <;> rcases e _ g.hz with c | c <;> simp_all

/-! ## div/mod arithmetic of the natural numbering -/

lemma decode_i {X i m : ℕ} (hi : i < X) : (i + X * m) % X = i := by
  rw [Nat.add_mul_mod_self_left, Nat.mod_eq_of_lt hi]

lemma decode_m {X i m : ℕ} (hi : i < X) : (i + X * m) / X = m := by
  rw [Nat.add_mul_div_left _ _ (by omega), Nat.div_eq_of_lt hi, Nat.zero_add]

/-- Coordinates of a number in a box with `X` by `Y` layers. -/
def decode (X Y id : ℕ) : Cell := (id % X, id / X % Y, id / X / Y)

lemma decode_number {X Y : ℕ} {c : Cell} (hi : c.1 < X) (hj : c.2.1 < Y) : decode X Y (number X Y c) = c := by
  obtain ⟨i, j, k⟩ := c
  simp only [decode, number] at *
  rw [decode_i hi, decode_m hi, decode_i hj, decode_m hj]

lemma number_decode (X Y id : ℕ) : number X Y (decode X Y id) = id := by
  simp only [number, decode]
  rw [Nat.mod_add_div, Nat.mod_add_div]

lemma number_lt {X Y Z : ℕ} {c : Cell} (hi : c.1 < X) (hj : c.2.1 < Y) (hk : c.2.2 < Z) :
    number X Y c < X * Y * Z := by
  obtain ⟨i, j, k⟩ := c
  simp only [number] at *
  have h1 : j + Y * k < Y * Z := by
    calc j + Y * k < Y + Y * k := by omega
      _ = Y * (k + 1) := by ring
      _ ≤ Y * Z := Nat.mul_le_mul_left _ hk
  calc i + X * (j + Y * k) < X + X * (j + Y * k) := by omega
    _ = X * (j + Y * k + 1) := by ring
    _ ≤ X * (Y * Z) := Nat.mul_le_mul_left _ h1
    _ = X * Y * Z := by ring

lemma decode_lt {X Y Z id : ℕ} (h : id < X * Y * Z) :
    (decode X Y id).1 < X ∧ (decode X Y id).2.1 < Y ∧ (decode X Y id).2.2 < Z := by
  have hX : 0 < X := by rcases Nat.eq_zero_or_pos X with rfl | h' <;> simp_all
  have hY : 0 < Y := by rcases Nat.eq_zero_or_pos Y with rfl | h' <;> simp_all
  refine ⟨Nat.mod_lt _ hX, Nat.mod_lt _ hY, ?_⟩
  simp only [decode]
  rw [Nat.div_div_eq_div_mul]
  exact Nat.div_lt_of_lt_mul h

lemma number_inj {X Y : ℕ} {c d : Cell} (hi : c.1 < X) (hj : c.2.1 < Y) (hi' : d.1 < X) (hj' : d.2.1 < Y)
    (h : number X Y c = number X Y d) : c = d := by
  rw [← decode_number hi hj, h, decode_number hi' hj']

end Dims
end RF
