import Verif.Trans.Lemmas3
import Verif.Geom.Props
import Mathlib.Tactic.IntervalCases
/-!
# Properties C20–C23: connections between cells
-/
set_option linter.unusedSimpArgs false
set_option linter.unusedSectionVars false
namespace RF
open Spec Dims

variable {K : Type} [Field K] [LinearOrder K] [IsStrictOrderedRing K]

lemma geomOf_of_calc {g : Dims} {s : Sizes K} {q : Geom K} (h : Geom.calc g s.x s.y s.z = .ok q) : GeomOf g s q := by
  obtain ⟨hx, hy, hz⟩ := calc_inv g s q h
  obtain ⟨q', h1, h2⟩ := calc_ok g s hx hy hz
  rw [h] at h1; cases h1; exact h2

/-- **C20** The factors returned for an interior cell: one per neighbour (boundary neighbours included on request), and
for every adjacent interior cell the value is the conversion constant over the sum of the two half-cell resistances,
whether or not the permeability is uniform. If the interior permeability is not uniform the same holds for boundary
neighbours. -/
theorem C20_cell_factor (g : Dims) (s : Sizes K) (q : Geom K) (r : Rock K) (β : K)
    (hq : Geom.calc g s.x s.y s.z = .ok q) (hs : PosSizes g s) (hr : RockSet g r) (hD : 1 ≤ g.getD)
    (c : Cell) (hc : Interior g.nx g.ny g.nz c) (b : Bool) :
    ∃ items, cellG g q r β (cellNumber g.nx g.ny c : ℕ) b = .ok items ∧ (items.map Prod.fst).Nodup ∧
      (∀ n, n ∈ items.map Prod.fst ↔ ∃ a c', Flow g.nx g.ny g.nz a ∧
        (InGrid g.nx g.ny g.nz c' ∧ (b = false → Interior g.nx g.ny g.nz c')) ∧ Adjacent a c c' ∧
          n = cellNumber g.nx g.ny c') ∧
      (∀ a c', Adjacent a c c' → Interior g.nx g.ny g.nz c' → (cellNumber g.nx g.ny c', face g s r β a c c') ∈ items) ∧
      (b = true → ¬ IsoSpec g r → ∀ a c', Flow g.nx g.ny g.nz a → Adjacent a c c' → InGrid g.nx g.ny g.nz c' →
        (cellNumber g.nx g.ny c', face g s r β a c c') ∈ items) := by
  obtain ⟨iso, h1, h2⟩ := isIsotropic_eq hr
  have hg := geomOf_of_calc hq
  have hcg : InGrid g.nx g.ny g.nz c := Interior.inGrid hc
  have key : ∀ a n, n ∈ (g.nbrs (g.num c) b).get a ↔ Flow g.nx g.ny g.nz a ∧ ∃ c',
      (InGrid g.nx g.ny g.nz c' ∧ (b = false → Interior g.nx g.ny g.nz c')) ∧ Adjacent a c c' ∧ n = g.num c' := by
    intro a n
    cases b
    · rw [g.mem_nbrs_false c hcg]
      refine and_congr_right fun _ => exists_congr fun d => ?_
      exact ⟨fun ⟨x, y⟩ => ⟨⟨Interior.inGrid x, fun _ => x⟩, y⟩, fun ⟨x, y⟩ => ⟨x.2 rfl, y⟩⟩
    · rw [g.mem_nbrs_true c hc]
      refine and_congr_right fun _ => exists_congr fun d => ?_
      exact ⟨fun ⟨x, y⟩ => ⟨⟨x, by simp⟩, y⟩, fun ⟨x, y⟩ => ⟨x.1, y⟩⟩
  have hm : ∀ a c', Flow g.nx g.ny g.nz a → Adjacent a c c' →
      (InGrid g.nx g.ny g.nz c' ∧ (b = false → Interior g.nx g.ny g.nz c')) →
      (iso = true → perm g r a c = perm g r a c') →
      (cellNumber g.nx g.ny c', face g s r β a c c') ∈ g.getFdir.flatMap fun a =>
      ((g.nbrs (g.num c) b).get a).map fun n => (n, pairG g s r β iso a c (g.dec n)) := by
    intro a c' hf had hi hp
    refine List.mem_flatMap.2 ⟨a, (mem_fdir g a).2 hf, List.mem_map.2 ⟨g.num c', (key a _).2 ⟨hf, c', hi, had, rfl⟩, ?_⟩⟩
    rw [g.dec_num hi.1, pairG_face hs β iso hcg hi.1 had hp]; rfl
  refine ⟨_, cellG_eq hg hr β h1 hc b (Or.inl hD), items_nodup hc b _, fun n => ?_, fun a c' had hi => ?_, fun hb hni a c' hf had hi => ?_⟩
  · rw [List.map_flatMap]
    simp only [List.map_map, Function.comp_def, List.map_id', List.mem_flatMap, key, mem_fdir]
    constructor
    · rintro ⟨a, h3, -, c', h4⟩; exact ⟨a, c', h3, h4⟩
    · rintro ⟨a, c', h3, h4⟩; exact ⟨a, h3, h3, c', h4⟩
  · have hf := adj_flow hc hi had
    exact hm a c' hf had ⟨Interior.inGrid hi, fun _ => hi⟩ fun hh => h2.1 hh a (hr.2 a hf) c c' hc hi
  · refine hm a c' hf had ⟨hi, by simp [hb]⟩ fun hh => absurd (h2.1 hh) hni

/-- C20, symmetry and sign: the factor a cell reports for an interior neighbour is positive and is the factor the
neighbour reports back. -/
theorem C20_symmetric_positive (g : Dims) (s : Sizes K) (q : Geom K) (r : Rock K) (β : K) (hβ : 0 < β)
    (hq : Geom.calc g s.x s.y s.z = .ok q) (hs : PosSizes g s) (hr : RockSet g r) (hk : PosPerm g r) (hD : 1 ≤ g.getD)
    (c c' : Cell) (hc : Interior g.nx g.ny g.nz c) (hc' : Interior g.nx g.ny g.nz c') (b : Bool) (it it' : List (ℕ × K))
    (h : cellG g q r β (cellNumber g.nx g.ny c : ℕ) b = .ok it)
    (h' : cellG g q r β (cellNumber g.nx g.ny c' : ℕ) b = .ok it') (v : K) (hv : (cellNumber g.nx g.ny c', v) ∈ it) :
    0 < v ∧ (cellNumber g.nx g.ny c, v) ∈ it' := by
  obtain ⟨i1, e1, n1, k1, f1, -⟩ := C20_cell_factor g s q r β hq hs hr hD c hc b
  obtain ⟨i2, e2, -, -, f2, -⟩ := C20_cell_factor g s q r β hq hs hr hD c' hc' b
  rw [h] at e1; cases e1
  rw [h'] at e2; cases e2
  obtain ⟨a, d, ha, hd, had, en⟩ := (k1 _).1 (List.mem_map.2 ⟨_, hv, rfl⟩)
  have : c' = d := g.num_inj (Interior.inGrid hc') hd.1 en
  subst this
  have hm := f1 a c' had hc'
  have : v = face g s r β a c c' := by
    exact congrArg Prod.snd (List.inj_on_of_nodup_map n1 hv hm rfl)
  subst this
  exact ⟨face_pos hs hk hβ ha hc hc', by rw [face_symm]; exact f2 a c ((adj_symm a c c').1 had) hc⟩

/-- The cells of two positions of the interior listing. -/
lemma listed (g : Dims) {ids : List ℕ} (hids : g.getCellsId false = .ok ids) {p : ℕ} {c : Cell}
    (hc : InGrid g.nx g.ny g.nz c) (h : ids[p]? = some (cellNumber g.nx g.ny c)) :
    p < g.getN false ∧ pcell g false p = c := by
  rw [getCellsId_false] at hids; cases hids
  have hp : p < g.getN false := by
    have := (List.getElem?_eq_some_iff.1 h).1
    rwa [length_innerIds, ← getN_false] at this
  rw [innerIds_get g hp] at h
  exact ⟨hp, g.num_inj (pcell_inGrid g false hp) hc (Option.some.inj h)⟩

lemma pairG_symm (g : Dims) (s : Sizes K) (r : Rock K) (β : K) (v : Bool) (a : Axis) (c c' : Cell) :
    pairG g s r β v a c c' = pairG g s r β v a c' c := by
  unfold pairG gForm gArith gHarm
  cases v
  · simp only [Bool.false_eq_true, if_false]; rw [add_comm]; simp only [or_comm]
  · simp only [if_true]; rw [add_comm (perm g r a c), add_comm (s.area c a), add_comm (s.along c a)]

lemma wrap_iff {X Y Z p q : ℕ} (hY : 1 ≤ Y) (hp : p < X * Y * Z) (hq : q < X * Y * Z) :
    ((decode X Y q).1 = (decode X Y p).1 ∧ (decode X Y q).2.1 = 0 ∧ (decode X Y p).2.1 = Y - 1 ∧
      (decode X Y q).2.2 = (decode X Y p).2.2 + 1) ↔ q = p + X ∧ ¬ p / X % Y + 1 < Y := by
  obtain ⟨h1, h2, h3⟩ := decode_lt hp
  obtain ⟨k1, k2, k3⟩ := decode_lt hq
  have np := number_decode X Y p
  have nq := number_decode X Y q
  have e1 : (decode X Y p).2.1 = p / X % Y := rfl
  generalize hc : decode X Y p = c at *
  generalize hc' : decode X Y q = c' at *
  obtain ⟨i, j, k⟩ := c
  obtain ⟨i', j', k'⟩ := c'
  simp only [number] at *
  have e : X * (0 + Y * (k + 1)) = X * (Y - 1 + Y * k) + X := by
    obtain ⟨Y, rfl⟩ : ∃ y, Y = y + 1 := ⟨Y - 1, by omega⟩
    simp only [Nat.add_sub_cancel]; ring
  constructor
  · rintro ⟨rfl, rfl, rfl, rfl⟩; omega
  · rintro ⟨e2, h⟩
    have hj : j = Y - 1 := by omega
    subst hj
    have := decode_number (X := X) (Y := Y) (c := (i, 0, k + 1)) h1 (by simp; omega)
    rw [show number X Y (i, 0, k + 1) = q by simp only [number]; omega, hc'] at this
    simp only [Prod.mk.injEq] at this; exact ⟨this.1, this.2.1, rfl, this.2.2⟩

/-- Last row of a layer, directly below the first row of the next layer in the listing. -/
def Wraps (g : Dims) (c c' : Cell) : Prop :=
  c'.1 = c.1 ∧ c.2.1 = g.ny ∧ c'.2.1 = 1 ∧ c'.2.2 = c.2.2 + 1

lemma wraps_iff (g : Dims) (hD : g.getD = 3) {p q : ℕ} (hp : p < g.getN false) (hq : q < g.getN false) :
    Wraps g (pcell g false p) (pcell g false q) ↔ q = p + g.nx ∧ ¬ p / g.nx % g.ny + 1 < g.ny := by
  have hh : 1 < g.nx ∧ 1 < g.ny ∧ 1 < g.nz := by rw [getD_cases] at hD; split_ifs at hD <;> simp_all
  rw [getN_false] at hp hq
  rw [← wrap_iff g.hy hp hq]
  simp only [Wraps, pcell, sh, getShape, Bool.false_eq_true, if_false, hh, and_self, if_true]
  constructor <;> rintro ⟨h1, h2, h3, h4⟩ <;> refine ⟨?_, ?_, ?_, ?_⟩ <;> omega

lemma shape_false (g : Dims) : g.getShape false = (g.nx, g.ny, g.nz) := rfl

lemma up_value {g : Dims} {s : Sizes K} {r : Rock K} (hs : PosSizes g s) (hr : RockSet g r) (β : K) {v : Bool}
    (hv : v = true → IsoSpec g r) {p q : ℕ} (hpq : p < q) (hq : q < g.getN false) :
    (∀ a, Adjacent a (pcell g false p) (pcell g false q) →
      entryUp g s r β v false p q = face g s r β a (pcell g false p) (pcell g false q)) ∧
    ((∀ a, ¬ Adjacent a (pcell g false p) (pcell g false q)) →
      ¬ (g.getD = 3 ∧ Wraps g (pcell g false p) (pcell g false q)) → entryUp g s r β v false p q = 0) ∧
    (g.getD = 3 → Wraps g (pcell g false p) (pcell g false q) → entryUp g s r β v false p q =
      if p = g.nx * (g.ny - 1) then 0 else pairG g s r β v .y (pcell g false p) (pcell g false q)) := by
  classical
  have hp : p < g.getN false := by omega
  have ip := pcell_inner g hp
  have iq := pcell_inner g hq
  have ax := adj_x g false hp hq hpq
  have ay := adj_y g false hp hq hpq
  have az := adj_z g false hp hq hpq
  rw [shape_false] at ax ay az
  have hx := g.hx; have hy := g.hy
  have pf : ∀ a, Adjacent a (pcell g false p) (pcell g false q) →
      pairG g s r β v a (pcell g false p) (pcell g false q) = face g s r β a (pcell g false p) (pcell g false q) := by
    intro a had
    exact pairG_face hs β v (Interior.inGrid ip) (Interior.inGrid iq) had fun hh =>
      hv hh a (hr.2 a (adj_flow ip iq had)) _ _ ip iq
  -- the second condition is adjacency along y, or a wrapped pair
  have ye : (q = p + g.nx ∧ (if g.getD = 3 then p ≠ g.nx * (g.ny - 1) else p / g.nx % g.ny + 1 < g.ny)) ↔
      (Adjacent .y (pcell g false p) (pcell g false q) ∨
        (g.getD = 3 ∧ Wraps g (pcell g false p) (pcell g false q) ∧ p ≠ g.nx * (g.ny - 1))) := by
    rw [ay]
    simp only
    by_cases h3 : g.getD = 3
    · rw [if_pos h3, wraps_iff g h3 hp hq]
      by_cases hl : p / g.nx % g.ny + 1 < g.ny
      · have : p ≠ g.nx * (g.ny - 1) := by
          rintro rfl
          rw [Nat.mul_div_cancel_left _ (by omega), Nat.mod_eq_of_lt (by omega)] at hl; omega
        simp only [hl, h3, this, ne_eq, not_true, and_true, and_false, not_false_eq_true, true_and, or_false]
      · simp only [hl, h3, ne_eq, and_false, not_false_eq_true, and_true, true_and, false_or]
    · rw [if_neg h3]; simp [h3]
  have nx_z : Wraps g (pcell g false p) (pcell g false q) → g.getD = 3 →
      ∀ a, ¬ Adjacent a (pcell g false p) (pcell g false q) := by
    intro hw h3 a had
    have hh : 1 < g.nx ∧ 1 < g.ny ∧ 1 < g.nz := by rw [getD_cases] at h3; split_ifs at h3 <;> simp_all
    obtain ⟨w1, w2, w3, w4⟩ := hw
    cases a <;> simp only [Adjacent, near] at had <;> omega
  have hx' : (q = p + 1 ∧ p % g.nx + 1 < g.nx) ↔ Adjacent .x (pcell g false p) (pcell g false q) := ax.symm
  have hz' : (q = p + g.nx * g.ny) ↔ Adjacent .z (pcell g false p) (pcell g false q) := az.symm
  have E : entryUp g s r β v false p q =
      (if Adjacent .x (pcell g false p) (pcell g false q) then pairG g s r β v .x (pcell g false p) (pcell g false q) else 0) +
      (if (Adjacent .y (pcell g false p) (pcell g false q) ∨
        (g.getD = 3 ∧ Wraps g (pcell g false p) (pcell g false q) ∧ p ≠ g.nx * (g.ny - 1))) then
          pairG g s r β v .y (pcell g false p) (pcell g false q) else 0) +
      (if Adjacent .z (pcell g false p) (pcell g false q) then pairG g s r β v .z (pcell g false p) (pcell g false q) else 0) := by
    unfold entryUp
    exact congrArg₂ (· + ·) (congrArg₂ (· + ·) (if_congr hx' rfl rfl) (if_congr ye rfl rfl)) (if_congr hz' rfl rfl)
  rw [E]
  have nadj : ∀ a a', Adjacent a (pcell g false p) (pcell g false q) → a ≠ a' →
      ¬ Adjacent a' (pcell g false p) (pcell g false q) := fun a a' h hne h' => hne (adj_unique h h')
  refine ⟨fun a had => ?_, fun hna hnw => ?_, fun h3 hw => ?_⟩
  · have hnw : ¬ (g.getD = 3 ∧ Wraps g (pcell g false p) (pcell g false q) ∧ p ≠ g.nx * (g.ny - 1)) :=
      fun hh => nx_z hh.2.1 hh.1 a had
    cases a
    · rw [if_pos had, if_neg (by rintro (h | h); exacts [nadj _ _ had (by decide) h, hnw h]),
        if_neg (nadj _ _ had (by decide)), pf _ had]; simp
    · rw [if_neg (nadj _ _ had (by decide)), if_pos (Or.inl had), if_neg (nadj _ _ had (by decide)), pf _ had]; simp
    · rw [if_neg (nadj _ _ had (by decide)), if_neg (by rintro (h | h); exacts [nadj _ _ had (by decide) h, hnw h]),
        if_pos had, pf _ had]; simp
  · rw [if_neg (hna _), if_neg (by rintro (h | h); exacts [hna _ h, hnw ⟨h.1, h.2.1⟩]), if_neg (hna _)]; simp
  · rw [if_neg (nx_z hw h3 _), if_neg (nx_z hw h3 _)]
    simp only [zero_add, add_zero]
    by_cases e : p = g.nx * (g.ny - 1)
    · rw [if_pos e, if_neg]; rintro (h | h); exacts [nx_z hw h3 _ h, h.2.2 e]
    · rw [if_neg e, if_pos (Or.inr ⟨h3, hw, e⟩)]

/-- The connection matrix: symmetric, right on every pair of positions except (in 3D) wrapped pairs. -/
lemma matrix_values {g : Dims} {s : Sizes K} {q : Geom K} {r : Rock K} (β : K)
    (hq : GeomOf g s q) (hs : PosSizes g s) (hr : RockSet g r) (hD : 1 ≤ g.getD) :
    ∃ M, cellsG g q r β false = .ok M ∧ (∀ p q, M p q = M q p) ∧
      ∀ p p', p < g.getN false → p' < g.getN false →
        (∀ a, Adjacent a (pcell g false p) (pcell g false p') → M p p' = face g s r β a (pcell g false p) (pcell g false p')) ∧
        ((∀ a, ¬ Adjacent a (pcell g false p) (pcell g false p')) →
          ¬ (g.getD = 3 ∧ (Wraps g (pcell g false p) (pcell g false p') ∨ Wraps g (pcell g false p') (pcell g false p))) →
            M p p' = 0) ∧
        (g.getD = 3 → Wraps g (pcell g false p) (pcell g false p') → ∃ v, M p p' =
          if p = g.nx * (g.ny - 1) then 0 else pairG g s r β v .y (pcell g false p) (pcell g false p')) := by
  obtain ⟨v, hv, hv'⟩ := arithFlag_eq hq hr
  obtain ⟨M, h1, h2, h3, h4⟩ := cellsG_eq hq hr hv β false hD
  refine ⟨M, h1, h2, fun p p' hp hp' => ?_⟩
  rcases lt_trichotomy p p' with hlt | rfl | hlt
  · obtain ⟨a1, a2, a3⟩ := up_value hs hr β hv' hlt hp'
    rw [h4 p p' hlt hp']
    exact ⟨a1, fun x y => a2 x fun z => y ⟨z.1, Or.inl z.2⟩, fun x y => ⟨v, a3 x y⟩⟩
  · refine ⟨fun a had => ?_, fun _ _ => h3 p, fun _ hw => ?_⟩
    · cases a <;> simp only [Adjacent, near] at had <;> omega
    · have := hw.2.2.2; omega
  · obtain ⟨a1, a2, -⟩ := up_value hs hr β hv' hlt hp
    rw [h2, h4 p' p hlt hp]
    refine ⟨fun a had => ?_, fun x y => a2 (fun a h => x a ((adj_symm a _ _).1 h)) fun z => y ⟨z.1, Or.inr z.2⟩, fun x y => ?_⟩
    · rw [a1 a ((adj_symm a _ _).1 had), face_symm]
    · have := (wraps_iff g x hp hp').1 y; omega

/-- **C21** On one- and two-dimensional grids the connection matrix is symmetric and the entry of two interior cells is
their series factor if they share a face and zero otherwise; so with positive data it is non-zero exactly for adjacent
cells. Rows and columns follow the interior listing. (3D: `C21_three_d_partial`, `C21_three_d_fails`.) -/
theorem C21_matrix_links_partial (g : Dims) (s : Sizes K) (q : Geom K) (r : Rock K) (β : K)
    (hq : Geom.calc g s.x s.y s.z = .ok q) (hs : PosSizes g s) (hr : RockSet g r) (hD : g.getD = 1 ∨ g.getD = 2) :
    ∃ M ids, cellsG g q r β false = .ok M ∧ g.getCellsId false = .ok ids ∧ (∀ p q, M p q = M q p) ∧
      ∀ p p' c c', Interior g.nx g.ny g.nz c → Interior g.nx g.ny g.nz c' → ids[p]? = some (cellNumber g.nx g.ny c) →
        ids[p']? = some (cellNumber g.nx g.ny c') →
        (∀ a, Adjacent a c c' → M p p' = face g s r β a c c') ∧
        ((∀ a, ¬ Adjacent a c c') → M p p' = 0) ∧
        (0 < β → PosPerm g r → (M p p' ≠ 0 ↔ ∃ a, Adjacent a c c')) := by
  obtain ⟨M, h1, h2, h3⟩ := matrix_values (r := r) β (geomOf_of_calc hq) hs hr (by omega)
  refine ⟨M, _, h1, getCellsId_false g, h2, fun p p' c c' hc hc' hp hp' => ?_⟩
  obtain ⟨lp, rfl⟩ := listed g (getCellsId_false g) (Interior.inGrid hc) hp
  obtain ⟨lp', rfl⟩ := listed g (getCellsId_false g) (Interior.inGrid hc') hp'
  obtain ⟨a1, a2, -⟩ := h3 p p' lp lp'
  have a2' : (∀ a, ¬ Adjacent a (pcell g false p) (pcell g false p')) → M p p' = 0 := fun h => a2 h (by omega)
  refine ⟨a1, a2', fun hβ hk => ⟨fun hne => ?_, ?_⟩⟩
  · by_contra hno; push Not at hno; exact hne (a2' hno)
  · rintro ⟨a, ha⟩
    rw [a1 a ha]; exact ne_of_gt (face_pos hs hk hβ (adj_flow hc hc' ha) hc hc')

/-- C21 on 3D grids: the matrix is symmetric, adjacent cells have their series factor and other pairs have zero, except
for pairs made of a cell in the last row of a layer and the cell of the same column in the first row of the next layer. -/
theorem C21_three_d_partial (g : Dims) (s : Sizes K) (q : Geom K) (r : Rock K) (β : K)
    (hq : Geom.calc g s.x s.y s.z = .ok q) (hs : PosSizes g s) (hr : RockSet g r) (hD : g.getD = 3) :
    ∃ M ids, cellsG g q r β false = .ok M ∧ g.getCellsId false = .ok ids ∧ (∀ p q, M p q = M q p) ∧
      ∀ p p' c c', Interior g.nx g.ny g.nz c → Interior g.nx g.ny g.nz c' → ids[p]? = some (cellNumber g.nx g.ny c) →
        ids[p']? = some (cellNumber g.nx g.ny c') →
        (∀ a, Adjacent a c c' → M p p' = face g s r β a c c') ∧
        ((∀ a, ¬ Adjacent a c c') → ¬ Wraps g c c' → ¬ Wraps g c' c → M p p' = 0) := by
  obtain ⟨M, h1, h2, h3⟩ := matrix_values (r := r) β (geomOf_of_calc hq) hs hr (by omega)
  refine ⟨M, _, h1, getCellsId_false g, h2, fun p p' c c' hc hc' hp hp' => ?_⟩
  obtain ⟨lp, rfl⟩ := listed g (getCellsId_false g) (Interior.inGrid hc) hp
  obtain ⟨lp', rfl⟩ := listed g (getCellsId_false g) (Interior.inGrid hc') hp'
  obtain ⟨a1, a2, -⟩ := h3 p p' lp lp'
  exact ⟨a1, fun x y z => a2 x (by tauto)⟩

/-- Either formula is positive on positive data. -/
lemma gForm_pos {β k1 A1 d1 k2 A2 d2 : K} (v : Bool) (hβ : 0 < β) (h1 : 0 < d1) (h2 : 0 < A1) (h3 : 0 < k1) (h4 : 0 < d2)
    (h5 : 0 < A2) (h6 : 0 < k2) : 0 < gForm v β k1 A1 d1 k2 A2 d2 := by
  unfold gForm gArith gHarm
  cases v
  · simp only [Bool.false_eq_true, if_false]
    rw [if_neg (by rintro (h | h) <;> [exact absurd h (ne_of_gt (by positivity)); exact absurd h (ne_of_gt (by positivity))])]
    positivity
  · simp only [if_true]; positivity

/-- C21 fails on every 3D grid: with positive data there are two interior cells that share no face but have a non-zero
entry (the second cell of the last row of the first layer and the second cell of the first row of the second layer). -/
theorem C21_three_d_fails (g : Dims) (s : Sizes K) (q : Geom K) (r : Rock K) (β : K) (hβ : 0 < β)
    (hq : Geom.calc g s.x s.y s.z = .ok q) (hs : PosSizes g s) (hr : RockSet g r) (hk : PosPerm g r) (hD : g.getD = 3) :
    ∃ M ids p p', cellsG g q r β false = .ok M ∧ g.getCellsId false = .ok ids ∧
      ids[p]? = some (cellNumber g.nx g.ny (2, g.ny, 1)) ∧ ids[p']? = some (cellNumber g.nx g.ny (2, 1, 2)) ∧
      Interior g.nx g.ny g.nz (2, g.ny, 1) ∧ Interior g.nx g.ny g.nz (2, 1, 2) ∧
      (∀ a, ¬ Adjacent a (2, g.ny, 1) (2, 1, 2)) ∧ M p p' ≠ 0 := by
  have hh : 1 < g.nx ∧ 1 < g.ny ∧ 1 < g.nz := by rw [getD_cases] at hD; split_ifs at hD <;> simp_all
  obtain ⟨M, h1, h2, h3⟩ := matrix_values (r := r) β (geomOf_of_calc hq) hs hr (by omega)
  have i1 : Interior g.nx g.ny g.nz (2, g.ny, 1) := by simp [Interior, innerCoord, hh]; omega
  have i2 : Interior g.nx g.ny g.nz (2, 1, 2) := by simp [Interior, innerCoord, hh]; omega
  obtain ⟨p, lp, ep⟩ := pcell_surj g i1
  obtain ⟨p', lp', ep'⟩ := pcell_surj g i2
  obtain ⟨-, -, a3⟩ := h3 p p' lp lp'
  refine ⟨M, _, p, p', h1, getCellsId_false g, ?_, ?_, i1, i2, ?_, ?_⟩
  · rw [innerIds_get g lp, ep]; rfl
  · rw [innerIds_get g lp', ep']; rfl
  · intro a; cases a <;> simp only [Adjacent, near] <;> omega
  · rw [ep, ep'] at a3
    obtain ⟨v, hv⟩ := a3 hD ⟨rfl, rfl, rfl, rfl⟩
    rw [hv, if_neg]
    · refine ne_of_gt (gForm_pos v hβ ?_ ?_ ?_ ?_ ?_ ?_)
      · exact along_pos hs (Interior.inGrid i1) _
      · exact area_pos hs (Interior.inGrid i1) _
      · exact hk .y hh.2.1 _ i1
      · exact along_pos hs (Interior.inGrid i2) _
      · exact area_pos hs (Interior.inGrid i2) _
      · exact hk .y hh.2.1 _ i2
    · intro e
      have : (pcell g false p).1 = 2 := by rw [ep]
      simp only [pcell, shape_false, decode, sh, hh, e] at this
      simp at this

/-- **C22** On one- and two-dimensional grids the vectorised transmissibility matrix and the one filled cell by cell agree
on every pair of positions, and each entry is the value `get_cell_trans` reports for the pair. -/
theorem C22_paths_agree_partial (g : Dims) (s : Sizes K) (q : Geom K) (r : Rock K) (β mu B : K)
    (hq : Geom.calc g s.x s.y s.z = .ok q) (hs : PosSizes g s) (hr : RockSet g r) (hD : g.getD = 1 ∨ g.getD = 2) :
    ∃ T T', cellsTransVect g q r β mu B = .ok T ∧ cellsTransLoop g q r β mu B = .ok T' ∧
      ∀ p p', p < g.nx * g.ny * g.nz → p' < g.nx * g.ny * g.nz → T p p' = T' p p' := by
  have hg := geomOf_of_calc hq
  obtain ⟨M, h1, h2, h3⟩ := matrix_values (r := r) β hg hs hr (by omega)
  obtain ⟨iso, k1, k2⟩ := isIsotropic_eq hr
  obtain ⟨T, t1, t2⟩ := cellsTransLoop_eq hg hr β mu B k1
  refine ⟨_, T, by unfold cellsTransVect; rw [h1]; rfl, t1, fun p p' hp hp' => ?_⟩
  rw [← getN_false] at hp hp'
  obtain ⟨a1, a2, -⟩ := h3 p p' hp hp'
  obtain ⟨b1, b2⟩ := t2 p p' hp hp'
  have ip := pcell_inner g hp
  have ip' := pcell_inner g hp'
  by_cases h : ∃ a, Adjacent a (pcell g false p) (pcell g false p')
  · obtain ⟨a, ha⟩ := h
    rw [a1 a ha, b1 a ha, pairG_face hs β iso (Interior.inGrid ip) (Interior.inGrid ip') ha fun hh =>
      k2.1 hh a (hr.2 a (adj_flow ip ip' ha)) _ _ ip ip']
  · push Not at h
    rw [a2 h (by omega), b2 h]; simp

/-- C22 on 3D grids: the two matrices agree on every pair except wrapped ones (`Wraps`), where the vectorised matrix can
have a spurious link; and with positive data they do differ on every 3D grid. -/
theorem C22_three_d_partial (g : Dims) (s : Sizes K) (q : Geom K) (r : Rock K) (β mu B : K)
    (hq : Geom.calc g s.x s.y s.z = .ok q) (hs : PosSizes g s) (hr : RockSet g r) (hD : g.getD = 3) :
    ∃ T T', cellsTransVect g q r β mu B = .ok T ∧ cellsTransLoop g q r β mu B = .ok T' ∧
      (∀ p p' c c' ids, g.getCellsId false = .ok ids → Interior g.nx g.ny g.nz c → Interior g.nx g.ny g.nz c' →
        ids[p]? = some (cellNumber g.nx g.ny c) → ids[p']? = some (cellNumber g.nx g.ny c') →
        ¬ Wraps g c c' → ¬ Wraps g c' c → T p p' = T' p p') ∧
      (0 < β → 0 < mu → 0 < B → PosPerm g r → ∃ p p', p < g.nx * g.ny * g.nz ∧ p' < g.nx * g.ny * g.nz ∧
        T p p' ≠ T' p p') := by
  have hg := geomOf_of_calc hq
  obtain ⟨M, h1, h2, h3⟩ := matrix_values (r := r) β hg hs hr (by omega)
  obtain ⟨iso, k1, k2⟩ := isIsotropic_eq hr
  obtain ⟨T, t1, t2⟩ := cellsTransLoop_eq hg hr β mu B k1
  refine ⟨_, T, by unfold cellsTransVect; rw [h1]; rfl, t1, fun p p' c c' ids hids hc hc' hp hp' w1 w2 => ?_,
    fun hβ hmu hB hk => ?_⟩
  · obtain ⟨lp, rfl⟩ := listed g hids (Interior.inGrid hc) hp
    obtain ⟨lp', rfl⟩ := listed g hids (Interior.inGrid hc') hp'
    obtain ⟨a1, a2, -⟩ := h3 p p' lp lp'
    obtain ⟨b1, b2⟩ := t2 p p' lp lp'
    by_cases h : ∃ a, Adjacent a (pcell g false p) (pcell g false p')
    · obtain ⟨a, ha⟩ := h
      rw [a1 a ha, b1 a ha, pairG_face hs β iso (Interior.inGrid hc) (Interior.inGrid hc') ha fun hh =>
        k2.1 hh a (hr.2 a (adj_flow hc hc' ha)) _ _ hc hc']
    · push Not at h
      rw [a2 h (by tauto), b2 h]; simp
  · obtain ⟨M', ids, p, p', e1, e2, e3, e4, i1, i2, e5, e6⟩ := C21_three_d_fails g s q r β hβ hq hs hr hk hD
    rw [h1] at e1; cases e1
    obtain ⟨lp, ep⟩ := listed g e2 (Interior.inGrid i1) e3
    obtain ⟨lp', ep'⟩ := listed g e2 (Interior.inGrid i2) e4
    obtain ⟨-, b2⟩ := t2 p p' lp lp'
    rw [ep, ep'] at b2
    refine ⟨p, p', by rwa [← getN_false], by rwa [← getN_false], ?_⟩
    rw [b2 e5]
    exact div_ne_zero e6 (by positivity)

/-! ## C23 -/

/-- The connection two copies of a cell would have along an axis. -/
def own (g : Dims) (s : Sizes K) (r : Rock K) (β : K) (a : Axis) (c : Cell) : K :=
  β * s.area c a * perm g r a c / s.along c a

/-- `own` is the series factor of the cell with itself. -/
lemma own_eq {g : Dims} {s : Sizes K} (hs : PosSizes g s) (r : Rock K) (β : K) (a : Axis) {c : Cell}
    (hc : InGrid g.nx g.ny g.nz c) : own g s r β a c = face g s r β a c c := by
  have h1 := along_pos hs hc a
  have h2 := area_pos hs hc a
  unfold own face series halfResistance
  by_cases h : perm g r a c = 0
  · simp [h]
  · rw [if_neg (by tauto)]; field_simp; ring

lemma mediant {x y a b : K} (ha : 0 < a) (hb : 0 < b) (h : x / a ≤ y / b) :
    x / a ≤ (x + y) / (a + b) ∧ (x + y) / (a + b) ≤ y / b := by
  rw [div_le_div_iff₀ ha hb] at h
  rw [div_le_div_iff₀ ha (by positivity), div_le_div_iff₀ (by positivity) hb]
  constructor <;> nlinarith

lemma gForm_between (v : Bool) {β k1 A d1 k2 d2 : K} (hβ : 0 ≤ β) (h1 : 0 ≤ k1) (h2 : 0 ≤ k2) (hA : 0 < A) (e1 : 0 < d1)
    (e2 : 0 < d2) : min (β * A * k1 / d1) (β * A * k2 / d2) ≤ gForm v β k1 A d1 k2 A d2 ∧
      gForm v β k1 A d1 k2 A d2 ≤ max (β * A * k1 / d1) (β * A * k2 / d2) := by
  have f1 : 0 ≤ β * A * k1 / d1 := by positivity
  have f2 : 0 ≤ β * A * k2 / d2 := by positivity
  cases v
  · simp only [gForm, Bool.false_eq_true, if_false, gHarm]
    by_cases h : A * k1 = 0 ∨ A * k2 = 0
    · rw [if_pos h]
      refine ⟨?_, le_max_of_le_left f1⟩
      rcases h with h | h
      · have : k1 = 0 := by rcases mul_eq_zero.1 h with h | h; exacts [absurd h (ne_of_gt hA), h]
        exact min_le_of_left_le (by simp [this])
      · have : k2 = 0 := by rcases mul_eq_zero.1 h with h | h; exacts [absurd h (ne_of_gt hA), h]
        exact min_le_of_right_le (by simp [this])
    · rw [if_neg h]
      push Not at h
      have p1 : 0 < k1 := lt_of_le_of_ne h1 fun e => h.1 (by simp [← e])
      have p2 : 0 < k2 := lt_of_le_of_ne h2 fun e => h.2 (by simp [← e])
      -- as mediant of β/r1 and β/r2
      have r1 : β * A * k1 / d1 = β / (d1 / (A * k1)) := by field_simp
      have r2 : β * A * k2 / d2 = β / (d2 / (A * k2)) := by field_simp
      have q1 : 0 < d1 / (A * k1) := by positivity
      have q2 : 0 < d2 / (A * k2) := by positivity
      rw [r1, r2, show 2 * β = β + β by ring]
      rcases le_total (β / (d1 / (A * k1))) (β / (d2 / (A * k2))) with hle | hle
      · rw [min_eq_left hle, max_eq_right hle]; exact mediant q1 q2 hle
      · rw [min_eq_right hle, max_eq_left hle, add_comm (d1 / (A * k1))]; exact mediant q2 q1 hle
  · simp only [gForm, if_true, gArith]
    have : β * ((k1 + k2) / 2) * ((A + A) / 2) / ((d1 + d2) / 2) = (β * A * k1 + β * A * k2) / (d1 + d2) := by
      field_simp; ring
    rw [this]
    rcases le_total (β * A * k1 / d1) (β * A * k2 / d2) with hle | hle
    · rw [min_eq_left hle, max_eq_right hle]; exact mediant e1 e2 hle
    · rw [min_eq_right hle, max_eq_left hle, add_comm (β * A * k1), add_comm d1]; exact mediant e2 e1 hle

/-- Permeabilities are nowhere negative. -/
def NonnegPerm (g : Dims) (r : Rock K) : Prop := ∀ a c, InGrid g.nx g.ny g.nz c → 0 ≤ perm g r a c

/-- What a reported factor is. -/
lemma item_value {g : Dims} {s : Sizes K} {q : Geom K} {r : Rock K} {β : K} (hq : Geom.calc g s.x s.y s.z = .ok q)
    (hr : RockSet g r) (hD : 1 ≤ g.getD) {c c' : Cell} (hc : Interior g.nx g.ny g.nz c) (hc' : InGrid g.nx g.ny g.nz c')
    {b : Bool} {items : List (ℕ × K)} (h : cellG g q r β (cellNumber g.nx g.ny c : ℕ) b = .ok items) {w : K}
    (hw : (cellNumber g.nx g.ny c', w) ∈ items) {a : Axis} (had : Adjacent a c c') :
    ∃ v, (v = true → IsoSpec g r) ∧ w = pairG g s r β v a c c' := by
  obtain ⟨iso, h1, h2⟩ := isIsotropic_eq hr
  have e := cellG_eq (geomOf_of_calc hq) hr β h1 hc b (Or.inl hD)
  change cellG g q r β (g.num c : ℕ) b = _ at h
  rw [e] at h; cases h
  obtain ⟨a', ha', hw⟩ := List.mem_flatMap.1 hw
  obtain ⟨n, hn, e2⟩ := List.mem_map.1 hw
  obtain ⟨e3, e4⟩ := Prod.mk.inj e2
  subst e3
  have hdec : g.dec (cellNumber g.nx g.ny c') = c' := g.dec_num hc'
  rw [hdec] at e4
  have : Adjacent a' c c' := by
    cases b
    · obtain ⟨-, d, hd, h3, h4⟩ := (g.mem_nbrs_false c (Interior.inGrid hc) a' _).1 hn
      rwa [g.num_inj hc' (Interior.inGrid hd) h4]
    · obtain ⟨-, d, hd, h3, h4⟩ := (g.mem_nbrs_true c hc a' _).1 hn
      rwa [g.num_inj hc' hd h4]
  rw [adj_unique had this]
  exact ⟨iso, h2.1, e4.symm⟩

/-- **C23** Whatever neighbour a factor is for, interior or boundary, and whichever formula was used, it lies between
what two copies of the one cell and two copies of the other cell would have. -/
theorem C23_between (g : Dims) (s : Sizes K) (q : Geom K) (r : Rock K) (β : K) (hβ : 0 ≤ β)
    (hq : Geom.calc g s.x s.y s.z = .ok q) (hs : PosSizes g s) (hr : RockSet g r) (hk : NonnegPerm g r) (hD : 1 ≤ g.getD)
    (c c' : Cell) (hc : Interior g.nx g.ny g.nz c) (hc' : InGrid g.nx g.ny g.nz c') (b : Bool) (items : List (ℕ × K))
    (h : cellG g q r β (cellNumber g.nx g.ny c : ℕ) b = .ok items) (w : K) (hw : (cellNumber g.nx g.ny c', w) ∈ items)
    (a : Axis) (had : Adjacent a c c') :
    min (own g s r β a c) (own g s r β a c') ≤ w ∧ w ≤ max (own g s r β a c) (own g s r β a c') := by
  obtain ⟨v, -, rfl⟩ := item_value hq hr hD hc hc' h hw had
  unfold pairG own
  rw [← area_adj s had]
  exact gForm_between v hβ (hk _ _ (Interior.inGrid hc)) (hk _ _ hc') (area_pos hs (Interior.inGrid hc) a)
    (along_pos hs (Interior.inGrid hc) a) (along_pos hs hc' a)

/-- C23, blocking: an impermeable cell has no connection with an interior neighbour, and none with a boundary neighbour
unless the interior permeability is uniform (then the arithmetic mean is used, see `C23_boundary_not_monotone`). -/
theorem C23_blocked (g : Dims) (s : Sizes K) (q : Geom K) (r : Rock K) (β : K)
    (hq : Geom.calc g s.x s.y s.z = .ok q) (hs : PosSizes g s) (hr : RockSet g r) (hD : 1 ≤ g.getD)
    (c c' : Cell) (hc : Interior g.nx g.ny g.nz c) (hc' : InGrid g.nx g.ny g.nz c') (b : Bool) (items : List (ℕ × K))
    (h : cellG g q r β (cellNumber g.nx g.ny c : ℕ) b = .ok items) (w : K) (hw : (cellNumber g.nx g.ny c', w) ∈ items)
    (a : Axis) (had : Adjacent a c c') (hb : Interior g.nx g.ny g.nz c' ∨ ¬ IsoSpec g r)
    (h0 : perm g r a c = 0 ∨ perm g r a c' = 0) : w = 0 := by
  obtain ⟨v, hv, rfl⟩ := item_value hq hr hD hc hc' h hw had
  rw [pairG_face hs β v (Interior.inGrid hc) hc' had]
  · unfold face series; rw [if_pos h0]
  · intro hh
    rcases hb with hb | hb
    · exact hv hh a (hr.2 a (adj_flow hc hb had)) _ _ hc hb
    · exact absurd (hv hh) hb

lemma series_mono {β d1 A1 k1 d2 A2 k2 k1' k2' : K} (hβ : 0 ≤ β) (hd1 : 0 < d1) (hA1 : 0 < A1) (hd2 : 0 < d2) (hA2 : 0 < A2)
    (h1 : 0 ≤ k1) (h2 : 0 ≤ k2) (l1 : k1 ≤ k1') (l2 : k2 ≤ k2') :
    series β d1 A1 k1 d2 A2 k2 ≤ series β d1 A1 k1' d2 A2 k2' := by
  unfold series halfResistance
  by_cases h : k1 = 0 ∨ k2 = 0
  · rw [if_pos h]
    split_ifs with h'
    · exact le_rfl
    · push Not at h'
      have : 0 ≤ k1' := h1.trans l1
      have : 0 ≤ k2' := h2.trans l2
      positivity
  · push Not at h
    have p1 : 0 < k1 := lt_of_le_of_ne h1 (Ne.symm h.1)
    have p2 : 0 < k2 := lt_of_le_of_ne h2 (Ne.symm h.2)
    have p1' := p1.trans_le l1
    have p2' := p2.trans_le l2
    rw [if_neg (by rintro (e | e); exacts [h.1 e, h.2 e]), if_neg (by rintro (e | e) <;> linarith)]
    refine div_le_div_of_nonneg_left hβ (by positivity) ?_
    refine add_le_add ?_ ?_
    · exact div_le_div_of_nonneg_left (by positivity) (by positivity) (by nlinarith)
    · exact div_le_div_of_nonneg_left (by positivity) (by positivity) (by nlinarith)

/-- C23, monotone: raising permeabilities (anywhere) never lowers the factor between two interior cells. -/
theorem C23_monotone_partial (g : Dims) (s : Sizes K) (q : Geom K) (r r' : Rock K) (β : K) (hβ : 0 ≤ β)
    (hq : Geom.calc g s.x s.y s.z = .ok q) (hs : PosSizes g s) (hr : RockSet g r) (hr' : RockSet g r')
    (hk : NonnegPerm g r) (hle : ∀ a c, InGrid g.nx g.ny g.nz c → perm g r a c ≤ perm g r' a c) (hD : 1 ≤ g.getD)
    (c c' : Cell) (hc : Interior g.nx g.ny g.nz c) (hc' : Interior g.nx g.ny g.nz c') (b : Bool) (items items' : List (ℕ × K))
    (h : cellG g q r β (cellNumber g.nx g.ny c : ℕ) b = .ok items)
    (h' : cellG g q r' β (cellNumber g.nx g.ny c : ℕ) b = .ok items') (w w' : K)
    (hw : (cellNumber g.nx g.ny c', w) ∈ items) (hw' : (cellNumber g.nx g.ny c', w') ∈ items')
    (a : Axis) (had : Adjacent a c c') : w ≤ w' := by
  have i1 := Interior.inGrid hc
  have i2 := Interior.inGrid hc'
  obtain ⟨v, hv, rfl⟩ := item_value hq hr hD hc i2 h hw had
  obtain ⟨v', hv', rfl⟩ := item_value hq hr' hD hc i2 h' hw' had
  have hf := adj_flow hc hc' had
  rw [pairG_face hs β v i1 i2 had fun hh => hv hh a (hr.2 a hf) _ _ hc hc',
    pairG_face hs β v' i1 i2 had fun hh => hv' hh a (hr'.2 a hf) _ _ hc hc']
  exact series_mono hβ (along_pos hs i1 a) (area_pos hs i1 a) (along_pos hs i2 a) (area_pos hs i2 a) (hk _ _ i1) (hk _ _ i2)
    (hle _ _ i1) (hle _ _ i2)

/-! ## witnesses and counterexamples -/

/-- Two cells in a row, unit sizes. -/
def g2 : Dims := ⟨2, 1, 1, true, by decide, by decide, by decide⟩
def s2 : Sizes ℚ := ⟨.scalar 1, .scalar 1, .scalar 1⟩
def q2 : Geom ℚ := ⟨[1, 1, 1, 1], [1, 1, 1, 1], [1, 1, 1, 1], [1, 1, 1, 1], [1, 1, 1, 1], [1, 1, 1, 1]⟩
/-- Uniform interior, more permeable boundary cells. -/
def rUniform : Rock ℚ := ⟨some [9, 1, 1, 9], none, none⟩
/-- The same with one cell made more permeable. -/
def rRaised : Rock ℚ := ⟨some [9, 1, 2, 9], none, none⟩

lemma q2_calc : Geom.calc g2 s2.x s2.y s2.z = .ok q2 := rfl

lemma rock_g2 (l : List ℚ) (h : l.length = 4) : RockSet g2 ⟨some l, none, none⟩ := by
  refine ⟨fun a m hm => ?_, fun a ha => ?_⟩
  · cases a <;> simp [Rock.k] at hm; subst hm; exact h
  · cases a <;> simp [Flow, along, g2, Rock.k] at *

lemma s2_pos (g : Dims) : PosSizes g s2 := by simp [PosSizes, s2, size]

/-- What the code reports for the first cell: 5 to its boundary neighbour, 1 to its interior neighbour. -/
lemma uniform_items : cellG g2 q2 rUniform 1 1 true = .ok [(0, 5), (2, 1)] := by
  have e : ∀ x : Except Err (List (ℕ × ℚ)), (match x with | .ok l => decide (l = [(0, 5), (2, 1)]) | .error _ => false) = true →
      x = .ok [(0, 5), (2, 1)] := by
    intro x h; cases x <;> simp at h; rw [h]
  exact e _ (by decide +kernel)

lemma raised_items : cellG g2 q2 rRaised 1 1 true = .ok [(0, 9 / 5), (2, 4 / 3)] := by
  have e : ∀ x : Except Err (List (ℕ × ℚ)), (match x with | .ok l => decide (l = [(0, 9 / 5), (2, 4 / 3)]) | .error _ => false) = true →
      x = .ok [(0, 9 / 5), (2, 4 / 3)] := by
    intro x h; cases x <;> simp at h; rw [h]
  exact e _ (by decide +kernel)

/-- C20 does not extend to boundary neighbours of a grid with uniform interior permeability: here the boundary cell is
nine times as permeable, the series value is 9/5, and the code reports 5. -/
theorem C20_boundary_differs : ∃ v, (cellNumber g2.nx g2.ny (0, 0, 0), v) ∈ [((0 : ℕ), (5 : ℚ)), (2, 1)] ∧
    cellG g2 q2 rUniform 1 (cellNumber g2.nx g2.ny (1, 0, 0) : ℕ) true = .ok [(0, 5), (2, 1)] ∧
    Adjacent .x (1, 0, 0) (0, 0, 0) ∧ v ≠ face g2 s2 rUniform 1 .x (1, 0, 0) (0, 0, 0) ∧
    face g2 s2 rUniform 1 .x (1, 0, 0) (0, 0, 0) = 9 / 5 := by
  have hf : face g2 s2 rUniform 1 .x (1, 0, 0) (0, 0, 0) = 9 / 5 := by decide +kernel
  exact ⟨5, by decide, uniform_items, by simp [Adjacent, near], by rw [hf]; norm_num, hf⟩

/-- C23 does not extend to boundary neighbours: raising one permeability lowers the first cell's connection to its
boundary neighbour from 5 to 9/5, because the code changes from the arithmetic to the harmonic mean. -/
theorem C23_boundary_not_monotone : (∀ a c, InGrid g2.nx g2.ny g2.nz c → perm g2 rUniform a c ≤ perm g2 rRaised a c) ∧
    ∃ w w' it it', cellG g2 q2 rUniform 1 1 true = .ok it ∧ cellG g2 q2 rRaised 1 1 true = .ok it' ∧
      (0, w) ∈ it ∧ (0, w') ∈ it' ∧ w' < w := by
  refine ⟨fun a c hc => ?_, 5, 9 / 5, _, _, uniform_items, raised_items, by simp, by simp, by norm_num⟩
  obtain ⟨i, j, k⟩ := c
  obtain ⟨h1, h2, h3⟩ := hc
  simp [g2, padded] at h1 h2 h3
  subst h2 h3
  interval_cases i <;> cases a <;> decide +kernel

-- hypotheses met: two cells in a row, 2 x 3 grid, and a 2 x 2 x 2 grid, all with unit sizes and permeability
example : ∃ it, cellG g2 q2 rUniform 1 (cellNumber g2.nx g2.ny (1, 0, 0) : ℕ) true = .ok it ∧
    (cellNumber g2.nx g2.ny (2, 0, 0), face g2 s2 rUniform 1 .x (1, 0, 0) (2, 0, 0)) ∈ it := by
  obtain ⟨it, h1, -, -, h2, -⟩ := C20_cell_factor g2 s2 q2 rUniform 1 q2_calc (s2_pos _) (rock_g2 _ rfl) (by decide)
    (1, 0, 0) (by simp [Interior, innerCoord, g2]) true
  exact ⟨it, h1, h2 .x _ (by simp [Adjacent, near]) (by simp [Interior, innerCoord, g2])⟩

def g222 : Dims := ⟨2, 2, 2, true, by decide, by decide, by decide⟩
def g23 : Dims := ⟨2, 3, 1, false, by decide, by decide, by decide⟩
def ones (g : Dims) : Rock ℚ :=
  ⟨some (List.replicate (g.getN true) 1), some (List.replicate (g.getN true) 1), some (List.replicate (g.getN true) 1)⟩

lemma ones_set (g : Dims) : RockSet g (ones g) := by
  refine ⟨fun a l h => ?_, fun a _ => by cases a <;> simp [ones, Rock.k]⟩
  cases a <;> simp [ones, Rock.k] at h <;> subst h <;> simp [getN_true]

lemma ones_pos (g : Dims) : PosPerm g (ones g) := by
  intro a _ c hc
  have : cellNumber g.nx g.ny c < g.getN true := g.num_lt (Interior.inGrid hc)
  have e : perm g (ones g) a c = 1 := by
    cases a <;> simp [perm, ones, Rock.k, this]
  rw [e]; norm_num

/-- The 2 x 2 x 2 grid really has a link between cells that share no face. -/
example : ∃ q M ids p p', Geom.calc g222 s2.x s2.y s2.z = .ok q ∧ cellsG g222 q (ones g222) (1 : ℚ) false = .ok M ∧
    g222.getCellsId false = .ok ids ∧ (∀ a, ¬ Adjacent a (2, 2, 1) (2, 1, 2)) ∧
    ids[p]? = some (cellNumber 2 2 (2, 2, 1)) ∧ ids[p']? = some (cellNumber 2 2 (2, 1, 2)) ∧ M p p' ≠ 0 := by
  obtain ⟨q, hq, -⟩ := calc_ok g222 s2 trivial trivial trivial
  obtain ⟨M, ids, p, p', h1, h2, h3, h4, -, -, h5, h6⟩ :=
    C21_three_d_fails g222 s2 q (ones g222) 1 one_pos hq (s2_pos _) (ones_set _) (ones_pos _) (by decide)
  exact ⟨q, M, ids, p, p', hq, h1, h2, h5, h3, h4, h6⟩

example : ∃ q M, Geom.calc g23 s2.x s2.y s2.z = .ok q ∧ cellsG g23 q (ones g23) (1 : ℚ) false = .ok M := by
  obtain ⟨q, hq, -⟩ := calc_ok g23 s2 trivial trivial trivial
  obtain ⟨M, ids, h1, -⟩ := C21_matrix_links_partial g23 s2 q (ones g23) 1 hq (s2_pos _) (ones_set _) (Or.inr (by decide))
  exact ⟨q, M, hq, h1⟩

end RF
