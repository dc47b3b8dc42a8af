import Verif.Grid.Lemmas5
/-! # Lemmas about queries by coordinates and about cell boundaries -/
set_option linter.unusedSimpArgs false
namespace RF
namespace Dims
open Spec

lemma mem_map_dec (g : Dims) {l : List ℕ} {c : Cell} (hc : InGrid g.nx g.ny g.nz c) :
    c ∈ l.map g.dec ↔ g.num c ∈ l := by
  rw [List.mem_map]
  constructor
  · rintro ⟨m, hm, rfl⟩; rwa [num_dec]
  · intro h; exact ⟨_, h, g.dec_num hc⟩

/-- The two integer candidates along an axis. -/
def candidates (c : Cell) : Axis → List (ℤ × ℤ × ℤ)
  | .x => [((c.1 : ℤ) - 1, (c.2.1 : ℤ), (c.2.2 : ℤ)), ((c.1 : ℤ) + 1, (c.2.1 : ℤ), (c.2.2 : ℤ))]
  | .y => [((c.1 : ℤ), (c.2.1 : ℤ) - 1, (c.2.2 : ℤ)), ((c.1 : ℤ), (c.2.1 : ℤ) + 1, (c.2.2 : ℤ))]
  | .z => [((c.1 : ℤ), (c.2.1 : ℤ), (c.2.2 : ℤ) - 1), ((c.1 : ℤ), (c.2.1 : ℤ), (c.2.2 : ℤ) + 1)]

lemma mem_keepInCoords {cells : List Cell} {c d : Cell} {a : Axis} :
    d ∈ keepInCoords cells (candidates c a) ↔ d ∈ cells ∧ Adjacent a c d := by
  obtain ⟨i, j, k⟩ := c; obtain ⟨i', j', k'⟩ := d
  have key : ∀ x y z : ℤ, ((if 0 ≤ x ∧ 0 ≤ y ∧ 0 ≤ z ∧ (x.toNat, y.toNat, z.toNat) ∈ cells then
      some (x.toNat, y.toNat, z.toNat) else none) = some (i', j', k')) ↔
      ((i', j', k') ∈ cells ∧ x = i' ∧ y = j' ∧ z = k') := by
    intro x y z
    constructor
    · intro h
      split_ifs at h with h1
      simp only [Option.some.injEq, Prod.mk.injEq] at h
      obtain ⟨h2, h3, h4⟩ := h
      subst h2 h3 h4
      obtain ⟨p, q, r, s⟩ := h1
      exact ⟨s, by omega, by omega, by omega⟩
    · rintro ⟨h, rfl, rfl, rfl⟩
      rw [if_pos ⟨by omega, by omega, by omega, by simpa using h⟩]; simp
  cases a <;>
    simp only [keepInCoords, candidates, List.mem_filterMap, List.mem_cons, List.not_mem_nil, or_false,
      exists_eq_or_imp, exists_eq_left, key, Adjacent, near, ← and_or_left] <;>
    refine and_congr_right fun _ => ?_ <;> omega

/-- Neighbour dictionary by coordinates in closed form. -/
def nbrsC (g : Dims) (c : Cell) (b : Bool) : ByAxis Cell :=
  ⟨if 1 < g.nx then keepInCoords ((g.cellsOf b).map g.dec) (candidates c .x) else [],
   if 1 < g.ny then keepInCoords ((g.cellsOf b).map g.dec) (candidates c .y) else [],
   if 1 < g.nz then keepInCoords ((g.cellsOf b).map g.dec) (candidates c .z) else []⟩

lemma neighborsCoords_eq (g : Dims) (c : Cell) (b : Bool) :
    g.neighborsCoords ((c.1 : ℤ), (c.2.1 : ℤ), (c.2.2 : ℤ)) b =
      if c ∈ g.extractPositions.map g.dec ∧ b = true then .error .assertion else .ok (g.nbrsC c b) := by
  unfold neighborsCoords
  rw [getBoundariesCoords_eq, getCellsCoords_eq, bind_ok]
  by_cases h : c ∈ g.extractPositions.map g.dec ∧ b = true
  · rw [if_pos h, if_pos]
    · rfl
    · refine ⟨⟨by simp, by simp, by simp, ?_⟩, h.2⟩
      simpa using h.1
  · rw [if_neg h, if_neg]
    · simp only [bind_ok, bind_pure']
      refine g.cases8 ?_ ?_ ?_ ?_ ?_ ?_ ?_ ?_ <;> intro h1 h2 h3 <;>
      simp [nbrsC, cellsOf, candidates, getFdir_eq, ByAxis.set, h1, h2, h3] <;> rfl
    · rintro ⟨⟨-, -, -, h1⟩, h2⟩
      exact h ⟨by simpa using h1, h2⟩

lemma mem_nbrsC (g : Dims) (c : Cell) (b : Bool) (a : Axis) (d : Cell) : d ∈ (g.nbrsC c b).get a ↔
    Flow g.nx g.ny g.nz a ∧ d ∈ (g.cellsOf b).map g.dec ∧ Adjacent a c d := by
  cases a <;> simp only [nbrsC, ByAxis.get, Flow, along] <;> split_ifs with h <;> simp [mem_keepInCoords, h]

lemma keepInCoords_sorted (g : Dims) {cells : List Cell} {c : Cell} {a : Axis} :
    ((keepInCoords cells (candidates c a)).map g.num).Pairwise (· < ·) := by
  have h0 : 0 < padded g.nx := g.stride_pos .y
  have h1 : 0 < padded g.nx * padded g.ny := g.stride_pos .z
  obtain ⟨i, j, k⟩ := c
  have key : ∀ p q : ℤ × ℤ × ℤ, (0 ≤ p.1 → 0 ≤ p.2.1 → 0 ≤ p.2.2 → 0 ≤ q.1 → 0 ≤ q.2.1 → 0 ≤ q.2.2 →
      g.num (p.1.toNat, p.2.1.toNat, p.2.2.toNat) < g.num (q.1.toNat, q.2.1.toNat, q.2.2.toNat)) →
      ((keepInCoords cells [p, q]).map g.num).Pairwise (· < ·) := by
    intro p q h
    simp only [keepInCoords, List.filterMap_cons, List.filterMap_nil]
    split_ifs with hp hq hq
    · simp; exact h hp.1 hp.2.1 hp.2.2.1 hq.1 hq.2.1 hq.2.2.1
    · simp
    · simp
    · simp
  have mono : ∀ A B : ℤ, A + 2 = B → 0 ≤ A → A.toNat < B.toNat := fun A B h1 h2 => by omega
  cases a
  · refine key _ _ fun hp _ _ _ _ _ => ?_
    simp only [num, cellNumber, number]
    simp only at hp
    omega
  · refine key _ _ fun _ hp _ _ _ _ => ?_
    simp only [num, cellNumber, number]
    simp only at hp
    have : padded g.nx * (((j : ℤ) - 1).toNat + padded g.ny * k) < padded g.nx * (((j : ℤ) + 1).toNat + padded g.ny * k) :=
      Nat.mul_lt_mul_of_pos_left (by omega) h0
    simpa using this
  · refine key _ _ fun _ _ hp _ _ _ => ?_
    simp only [num, cellNumber, number]
    simp only at hp
    have h2 : padded g.ny * ((k : ℤ) - 1).toNat < padded g.ny * ((k : ℤ) + 1).toNat :=
      Nat.mul_lt_mul_of_pos_left (by omega) (Nat.pos_of_mul_pos_left h1)
    have : padded g.nx * (j + padded g.ny * ((k : ℤ) - 1).toNat) < padded g.nx * (j + padded g.ny * ((k : ℤ) + 1).toNat) :=
      Nat.mul_lt_mul_of_pos_left (by omega) h0
    simpa using this

lemma cellsOf_lt (g : Dims) (b : Bool) : ∀ m ∈ g.cellsOf b, m < g.getN true := by
  intro m hm; cases b
  · exact g.innerIds_lt hm
  · simpa [cellsOf] using hm

/-- By-coordinates and by-number answers name the same cells in the same order. -/
lemma nbrsC_map (g : Dims) (c : Cell) (b : Bool)
    (hc : if b then Interior g.nx g.ny g.nz c else InGrid g.nx g.ny g.nz c) (a : Axis) :
    ((g.nbrsC c b).get a).map g.num = (g.nbrs (g.num c) b).get a := by
  refine sorted_ext ?_ (g.nbrs_sorted _ _ _) fun m => ?_
  · cases a <;> simp only [nbrsC, ByAxis.get] <;> split_ifs <;>
      first | exact g.keepInCoords_sorted | exact List.Pairwise.nil
  · simp only [List.mem_map, mem_nbrsC]
    cases b
    · simp only [Bool.false_eq_true, if_false] at hc
      rw [g.mem_nbrs_false c hc]
      constructor
      · rintro ⟨d, ⟨hf, ⟨e, he, rfl⟩, had⟩, rfl⟩
        exact ⟨hf, g.dec e, (g.mem_innerIds e).1 he, had, rfl⟩
      · rintro ⟨hf, d, hd, had, rfl⟩
        refine ⟨d, ⟨hf, ⟨g.num d, ?_, g.dec_num (Interior.inGrid hd)⟩, had⟩, rfl⟩
        simp only [cellsOf, Bool.false_eq_true, if_false, mem_innerIds, g.dec_num (Interior.inGrid hd)]
        exact hd
    · simp only [if_true] at hc
      rw [g.mem_nbrs_true c hc]
      constructor
      · rintro ⟨d, ⟨hf, ⟨e, he, rfl⟩, had⟩, rfl⟩
        exact ⟨hf, g.dec e, g.dec_inGrid (by simpa [cellsOf] using he), had, rfl⟩
      · rintro ⟨hf, d, hd, had, rfl⟩
        refine ⟨d, ⟨hf, ⟨g.num d, ?_, g.dec_num hd⟩, had⟩, rfl⟩
        simpa [cellsOf] using g.num_lt hd

lemma cellBoundariesId_eq (g : Dims) (id : ℤ) : g.cellBoundariesId id =
    if 0 ≤ id ∧ id.toNat ∈ g.boundIds then .error .assertion else
      .ok ⟨(g.nbrs id true).x.filter (· ∈ g.boundIds), (g.nbrs id true).y.filter (· ∈ g.boundIds),
        (g.nbrs id true).z.filter (· ∈ g.boundIds)⟩ := by
  unfold cellBoundariesId
  rw [getBoundariesId_eq, neighborsId_eq, bind_ok]
  by_cases h : 0 ≤ id ∧ id.toNat ∈ g.boundIds
  · rw [if_pos h, if_pos h]; rfl
  · rw [if_neg h, if_neg h, if_neg fun h1 => h h1.1]; rfl

lemma cellBoundariesCoords_eq (g : Dims) (c : Cell) :
    g.cellBoundariesCoords ((c.1 : ℤ), (c.2.1 : ℤ), (c.2.2 : ℤ)) =
    if c ∈ g.extractPositions.map g.dec then .error .assertion else
      .ok ⟨(g.nbrsC c true).x.filter (· ∈ g.extractPositions.map g.dec),
        (g.nbrsC c true).y.filter (· ∈ g.extractPositions.map g.dec),
        (g.nbrsC c true).z.filter (· ∈ g.extractPositions.map g.dec)⟩ := by
  unfold cellBoundariesCoords
  rw [getBoundariesCoords_eq, neighborsCoords_eq, bind_ok]
  by_cases h : c ∈ g.extractPositions.map g.dec
  · rw [if_pos h, if_pos ⟨by simp, by simp, by simp, by simpa using h⟩]; rfl
  · rw [if_neg h, if_neg fun h1 => h (by simpa using h1.2.2.2), if_neg fun h1 => h h1.1]; rfl

end Dims
end RF
