import Verif.Grid.Lemmas4
/-! # Lemmas about neighbours -/
set_option linter.unusedSimpArgs false
namespace RF
namespace Dims
open Spec

/-- Distance of the numbers of cells adjacent along an axis. -/
def stride (g : Dims) : Axis → ℕ
  | .x => 1 | .y => padded g.nx | .z => padded g.nx * padded g.ny

/-- The next cell along an axis. -/
def up : Axis → Cell → Cell
  | .x, c => (c.1 + 1, c.2.1, c.2.2) | .y, c => (c.1, c.2.1 + 1, c.2.2) | .z, c => (c.1, c.2.1, c.2.2 + 1)

/-- The number of a cell. -/
def num (g : Dims) (c : Cell) : ℕ := cellNumber g.nx g.ny c

lemma adjacent_iff (a : Axis) (c d : Cell) : Adjacent a c d ↔ d = up a c ∨ c = up a d := by
  obtain ⟨i, j, k⟩ := c; obtain ⟨i', j', k'⟩ := d
  cases a <;> simp only [Adjacent, near, up, Prod.mk.injEq] <;> omega

lemma num_up (g : Dims) (a : Axis) (c : Cell) : g.num (up a c) = g.num c + g.stride a := by
  obtain ⟨i, j, k⟩ := c
  cases a <;> simp only [num, cellNumber, number, up, stride] <;> ring

lemma dec_num (g : Dims) {c : Cell} (h : InGrid g.nx g.ny g.nz c) : g.dec (g.num c) = c :=
  decode_number h.1 h.2.1

lemma num_dec (g : Dims) (id : ℕ) : g.num (g.dec id) = id := number_decode _ _ _

lemma num_lt (g : Dims) {c : Cell} (h : InGrid g.nx g.ny g.nz c) : g.num c < g.getN true := by
  rw [getN_true]; exact number_lt h.1 h.2.1 h.2.2

lemma dec_inGrid (g : Dims) {id : ℕ} (h : id < g.getN true) : InGrid g.nx g.ny g.nz (g.dec id) :=
  (g.lt_iff_inGrid id).1 h

lemma num_inj (g : Dims) {c d : Cell} (hc : InGrid g.nx g.ny g.nz c) (hd : InGrid g.nx g.ny g.nz d)
    (h : g.num c = g.num d) : c = d := by rw [← g.dec_num hc, h, g.dec_num hd]

lemma up_inGrid (g : Dims) {a : Axis} {d : Cell} (hf : Flow g.nx g.ny g.nz a) (hd : Interior g.nx g.ny g.nz d) :
    InGrid g.nx g.ny g.nz (up a d) := by
  obtain ⟨i, j, k⟩ := d
  have h := Interior.inGrid hd
  cases a <;> simp only [Flow, along, Interior, InGrid, up, innerCoord, padded] at * <;> split_ifs at * <;> omega

lemma exists_down (g : Dims) {a : Axis} {d : Cell} (hf : Flow g.nx g.ny g.nz a) (hd : Interior g.nx g.ny g.nz d) :
    ∃ e, InGrid g.nx g.ny g.nz e ∧ up a e = d := by
  have h := Interior.inGrid hd
  obtain ⟨i, j, k⟩ := d
  cases a <;> simp only [Flow, along, Interior, innerCoord, InGrid, padded] at *
  · rw [if_pos hf] at hd h
    exact ⟨(i - 1, j, k), by simp only [InGrid, padded, if_pos hf]; omega, by simp [up]; omega⟩
  · rw [if_pos hf] at hd h
    exact ⟨(i, j - 1, k), by simp only [InGrid, padded, if_pos hf]; omega, by simp [up]; omega⟩
  · rw [if_pos hf] at hd h
    exact ⟨(i, j, k - 1), by simp only [InGrid, padded, if_pos hf]; omega, by simp [up]; omega⟩

lemma mem_keepIn {cells : List ℕ} {id : ℤ} {s m : ℕ} :
    m ∈ keepIn cells [id - s, id + s] ↔ m ∈ cells ∧ ((m : ℤ) = id - s ∨ (m : ℤ) = id + s) := by
  simp only [keepIn, List.mem_filterMap, List.mem_cons, List.not_mem_nil, or_false, exists_eq_or_imp, exists_eq_left]
  constructor
  · rintro (h | h)
    · split_ifs at h with h1
      simp only [Option.some.injEq] at h; subst h
      exact ⟨h1.2, Or.inl (Int.toNat_of_nonneg h1.1)⟩
    · split_ifs at h with h1
      simp only [Option.some.injEq] at h; subst h
      exact ⟨h1.2, Or.inr (Int.toNat_of_nonneg h1.1)⟩
  · rintro ⟨hm, h | h⟩
    · left; rw [if_pos ⟨by omega, by rw [← h]; simpa using hm⟩, ← h]; simp
    · right; rw [if_pos ⟨by omega, by rw [← h]; simpa using hm⟩, ← h]; simp

lemma keepIn_sorted {cells : List ℕ} {id : ℤ} {s : ℕ} (hs : 0 < s) :
    (keepIn cells [id - s, id + s]).Pairwise (· < ·) := by
  simp only [keepIn, List.filterMap_cons, List.filterMap_nil]
  split_ifs <;> simp <;> omega

lemma stride_pos (g : Dims) (a : Axis) : 0 < g.stride a := by
  have h1 := g.hx; have h2 := g.hy
  have p : ∀ n, 1 ≤ n → 0 < padded n := fun n h => by unfold padded; split_ifs <;> omega
  cases a
  · simp [stride]
  · exact p _ h1
  · exact Nat.mul_pos (p _ h1) (p _ h2)

/-- Interior or all cell numbers. -/
def cellsOf (g : Dims) (b : Bool) : List ℕ := if b then List.range (g.getN true) else g.innerIds

lemma getCellsId_eq (g : Dims) (b : Bool) : g.getCellsId b = .ok (g.cellsOf b) := by
  cases b
  · exact g.getCellsId_false
  · exact g.getCellsId_true

/-- Neighbour dictionary in closed form. -/
def nbrs (g : Dims) (id : ℤ) (b : Bool) : ByAxis ℕ :=
  ⟨if 1 < g.nx then keepIn (g.cellsOf b) [id - g.stride .x, id + g.stride .x] else [],
   if 1 < g.ny then keepIn (g.cellsOf b) [id - g.stride .y, id + g.stride .y] else [],
   if 1 < g.nz then keepIn (g.cellsOf b) [id - g.stride .z, id + g.stride .z] else []⟩

lemma bind_ok {α β} (a : α) (f : α → Except Err β) : ((Except.ok a : Except Err α) >>= f) = f a := rfl
lemma bind_pure' {α β} (a : α) (f : α → Except Err β) : ((pure a : Except Err α) >>= f) = f a := rfl

lemma neighborsId_eq (g : Dims) (id : ℤ) (b : Bool) : g.neighborsId id b =
    if (0 ≤ id ∧ id.toNat ∈ g.boundIds) ∧ b = true then .error .assertion else .ok (g.nbrs id b) := by
  unfold neighborsId
  rw [getBoundariesId_eq, getCellsId_eq, bind_ok]
  by_cases h : (0 ≤ id ∧ id.toNat ∈ g.boundIds) ∧ b = true
  · rw [if_pos h, if_pos h]; rfl
  · rw [if_neg h, if_neg h]
    refine g.cases8 ?_ ?_ ?_ ?_ ?_ ?_ ?_ ?_ <;> intro h1 h2 h3 <;>
    simp [nbrs, getD_cases, getFdir_eq, fdirAt, bind_ok, bind_pure', ByAxis.set, stride, nxb_eq, nyb_eq, padded, h1, h2,
      h3] <;> rfl

lemma mem_nbrs (g : Dims) (id : ℤ) (b : Bool) (a : Axis) (m : ℕ) : m ∈ (g.nbrs id b).get a ↔
    Flow g.nx g.ny g.nz a ∧ m ∈ g.cellsOf b ∧ ((m : ℤ) = id - g.stride a ∨ (m : ℤ) = id + g.stride a) := by
  cases a <;> simp only [nbrs, ByAxis.get, Flow, along] <;> split_ifs with h <;> simp [mem_keepIn, h]

lemma nbrs_sorted (g : Dims) (id : ℤ) (b : Bool) (a : Axis) : ((g.nbrs id b).get a).Pairwise (· < ·) := by
  cases a <;> simp only [nbrs, ByAxis.get] <;> split_ifs <;>
    first | exact keepIn_sorted (g.stride_pos _) | exact List.Pairwise.nil

/-- Interior neighbours of any integer: exactly the adjacent interior cells. -/
lemma mem_nbrs_false (g : Dims) (c : Cell) (hc : InGrid g.nx g.ny g.nz c) (a : Axis) (m : ℕ) :
    m ∈ (g.nbrs (g.num c) false).get a ↔
      Flow g.nx g.ny g.nz a ∧ ∃ d, Interior g.nx g.ny g.nz d ∧ Adjacent a c d ∧ m = g.num d := by
  rw [mem_nbrs]
  refine and_congr_right fun hf => ?_
  simp only [cellsOf, Bool.false_eq_true, if_false, mem_innerIds]
  constructor
  · rintro ⟨hi, h⟩
    refine ⟨g.dec m, hi, ?_, (g.num_dec m).symm⟩
    rw [adjacent_iff]
    rcases h with h | h
    · right
      apply g.num_inj hc (g.up_inGrid hf hi)
      rw [num_up, num_dec]; omega
    · left
      obtain ⟨e, he, hu⟩ := g.exists_down hf hi
      have : g.num e = g.num c := by
        have := g.num_up a e; rw [hu, num_dec] at this; omega
      rw [← hu, g.num_inj he hc this]
  · rintro ⟨d, hd, had, rfl⟩
    rw [g.dec_num (Interior.inGrid hd)]
    refine ⟨hd, ?_⟩
    rw [adjacent_iff] at had
    rcases had with rfl | rfl
    · right; rw [num_up]; push_cast; ring
    · left; rw [num_up]; push_cast; ring

/-- Interior neighbours of a number outside the grid: none. -/
lemma nbrs_false_outside (g : Dims) (id : ℤ) (h : id < 0 ∨ (g.getN true : ℤ) ≤ id) (a : Axis) :
    (g.nbrs id false).get a = [] := by
  rw [List.eq_nil_iff_forall_not_mem]
  intro m hm
  rw [mem_nbrs] at hm
  obtain ⟨hf, hi, h2⟩ := hm
  simp only [cellsOf, Bool.false_eq_true, if_false, mem_innerIds] at hi
  rcases h2 with h2 | h2
  · have := g.num_lt (g.up_inGrid hf hi)
    rw [num_up, num_dec] at this; omega
  · obtain ⟨e, he, hu⟩ := g.exists_down hf hi
    have h3 := g.num_up a e
    rw [hu, num_dec] at h3
    have := g.num_lt he
    omega

/-- All neighbours of an interior cell: exactly the adjacent cells. -/
lemma mem_nbrs_true (g : Dims) (c : Cell) (hc : Interior g.nx g.ny g.nz c) (a : Axis) (m : ℕ) :
    m ∈ (g.nbrs (g.num c) true).get a ↔
      Flow g.nx g.ny g.nz a ∧ ∃ d, InGrid g.nx g.ny g.nz d ∧ Adjacent a c d ∧ m = g.num d := by
  rw [mem_nbrs]
  refine and_congr_right fun hf => ?_
  simp only [cellsOf, if_true, List.mem_range]
  constructor
  · rintro ⟨-, h⟩
    rcases h with h | h
    · obtain ⟨e, he, hu⟩ := g.exists_down hf hc
      have h3 := g.num_up a e
      rw [hu] at h3
      refine ⟨e, he, ?_, by omega⟩
      rw [adjacent_iff]; exact Or.inr hu.symm
    · refine ⟨up a c, g.up_inGrid hf hc, ?_, ?_⟩
      · rw [adjacent_iff]; exact Or.inl rfl
      · rw [num_up]; omega
  · rintro ⟨d, hd, had, rfl⟩
    refine ⟨g.num_lt hd, ?_⟩
    rw [adjacent_iff] at had
    rcases had with rfl | rfl
    · right; rw [num_up]; push_cast; ring
    · left; rw [num_up]; push_cast; ring

/-- An interior cell has exactly the cells below and above along a flow axis. -/
lemma nbrs_true_eq (g : Dims) (c : Cell) (hc : Interior g.nx g.ny g.nz c) (a : Axis) (hf : Flow g.nx g.ny g.nz a) :
    (g.nbrs (g.num c) true).get a = [g.num c - g.stride a, g.num c + g.stride a] ∧ g.stride a ≤ g.num c := by
  obtain ⟨e, he, hu⟩ := g.exists_down hf hc
  have h3 := g.num_up a e
  rw [hu] at h3
  refine ⟨sorted_ext (g.nbrs_sorted _ _ _) ?_ ?_, by omega⟩
  · have := g.stride_pos a; simp; omega
  · intro m
    rw [mem_nbrs]
    have h4 := g.num_lt (g.up_inGrid hf hc)
    rw [num_up] at h4
    simp only [cellsOf, if_true, List.mem_range, List.mem_cons, List.not_mem_nil, or_false]
    constructor
    · rintro ⟨-, -, h⟩; omega
    · intro h; exact ⟨hf, by omega, by omega⟩

end Dims
end RF
