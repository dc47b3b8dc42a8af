import Verif.Trans.Lemmas
import Mathlib.Algebra.Order.Field.Basic
/-! # Lemmas about geometric factors: values and diagonals -/
set_option linter.unusedSimpArgs false
set_option linter.unusedSectionVars false
namespace RF
open Spec Dims

variable {K : Type} [Field K] [DecidableEq K]

lemma list_eq_range {α : Type} [Inhabited α] (z : α) (l : List α) : l = (List.range l.length).map (l.getD · z) := by
  refine List.ext_getElem (by simp) fun i h1 h2 => ?_
  simp [List.getD_eq_getElem?_getD, h1]

lemma rock_list {g : Dims} {r : Rock K} (h : RockSet g r) {a : Axis} {l : List K} (hl : r.k a = some l) :
    l = (List.range (g.getN true)).map fun id => perm g r a (g.dec id) := by
  have hlen : l.length = g.getN true := by rw [getN_true]; exact h.1 a l hl
  have : Inhabited K := ⟨0⟩
  refine (list_eq_range (0 : K) l).trans ?_
  rw [hlen]
  refine List.map_congr_left fun id hid => ?_
  have e : cellNumber g.nx g.ny (g.dec id) = id := g.num_dec id
  simp only [perm, hl, Option.getD_some, e]

/-- Closed form of a listing. -/
lemma cells_eq {α : Type} (g : Dims) (b : Bool) (f : Cell → α) :
    Geom.cells g ((List.range (g.getN true)).map fun id => f (g.dec id)) b =
      .ok ((List.range (g.getN b)).map fun p => f (pcell g b p)) := by
  cases b
  · rw [cells_false, innerIds_pcell, List.map_map]
    congr 1
    refine List.map_congr_left fun p hp => ?_
    simp only [Function.comp]
    rw [g.dec_num (pcell_inGrid g false (List.mem_range.1 hp))]
  · simp only [Geom.cells, if_true, pcell_true]

lemma cellsK_eq {g : Dims} {r : Rock K} (h : RockSet g r) {a : Axis} (ha : Flow g.nx g.ny g.nz a) (b : Bool) :
    cellsK g r a b = .ok ((List.range (g.getN b)).map fun p => perm g r a (pcell g b p)) := by
  unfold cellsK
  cases e : r.k a with
  | none => exact absurd e (h.2 a ha)
  | some l => simp only; rw [rock_list h e]; exact cells_eq g b _

lemma allEqFirst_iff (l : List K) : allEqFirst l = true ↔ ∀ x ∈ l, ∀ y ∈ l, x = y := by
  cases l with
  | nil => simp [allEqFirst]
  | cons a t =>
    simp only [allEqFirst, List.all_eq_true, decide_eq_true_eq]
    constructor
    · intro h
      have : ∀ x ∈ a :: t, x = a := by
        intro x hx; rcases List.mem_cons.1 hx with rfl | hx
        · rfl
        · exact h x hx
      intro x hx y hy; rw [this x hx, this y hy]
    · intro h x hx; exact h x (by simp [hx]) a (by simp)

lemma constCheck_eq (g : Dims) (fs : List (Cell → K)) :
    ∃ v, constCheck g (fs.map fun f => (List.range (g.getN true)).map fun id => f (g.dec id)) = .ok v ∧
      (v = true ↔ ∀ f ∈ fs, ∀ c c', Interior g.nx g.ny g.nz c → Interior g.nx g.ny g.nz c' → f c = f c') := by
  induction fs with
  | nil => exact ⟨true, rfl, by simp⟩
  | cons f t ih =>
    obtain ⟨v, h1, h2⟩ := ih
    simp only [List.map_cons, constCheck]
    rw [cells_eq, bind_ok]
    have key : allEqFirst ((List.range (g.getN false)).map fun p => f (pcell g false p)) = true ↔
        ∀ c c', Interior g.nx g.ny g.nz c → Interior g.nx g.ny g.nz c' → f c = f c' := by
      rw [allEqFirst_iff]
      constructor
      · intro h c c' hc hc'
        obtain ⟨p, hp, rfl⟩ := pcell_surj g hc
        obtain ⟨q, hq, rfl⟩ := pcell_surj g hc'
        exact h _ (List.mem_map.2 ⟨p, List.mem_range.2 hp, rfl⟩) _ (List.mem_map.2 ⟨q, List.mem_range.2 hq, rfl⟩)
      · intro h x hx y hy
        obtain ⟨p, hp, rfl⟩ := List.mem_map.1 hx
        obtain ⟨q, hq, rfl⟩ := List.mem_map.1 hy
        exact h _ _ (pcell_inner g (List.mem_range.1 hp)) (pcell_inner g (List.mem_range.1 hq))
    by_cases hb : allEqFirst ((List.range (g.getN false)).map fun p => f (pcell g false p)) = true
    · rw [if_pos hb]
      refine ⟨v, h1, ?_⟩
      rw [h2]; simp only [List.mem_cons, forall_eq_or_imp]
      exact ⟨fun h => ⟨key.1 hb, h⟩, fun h => h.2⟩
    · rw [if_neg hb]
      refine ⟨false, rfl, ?_⟩
      simp only [List.mem_cons, forall_eq_or_imp, Bool.false_eq_true, false_iff, not_and]
      intro h; exact absurd (key.2 h) hb

lemma isIsotropic_eq {g : Dims} {r : Rock K} (h : RockSet g r) :
    ∃ v, isIsotropic g r = .ok v ∧ (v = true ↔ IsoSpec g r) := by
  have key : [r.kx, r.ky, r.kz].filterMap id =
      ((([Axis.x, .y, .z].filter fun a => (r.k a).isSome).map fun a => perm g r a).map
        fun f => (List.range (g.getN true)).map fun id => f (g.dec id)) := by
    have hx : ∀ l, r.kx = some l → l = _ := fun l hl => rock_list h (a := .x) hl
    have hy : ∀ l, r.ky = some l → l = _ := fun l hl => rock_list h (a := .y) hl
    have hz : ∀ l, r.kz = some l → l = _ := fun l hl => rock_list h (a := .z) hl
    cases ex : r.kx <;> cases ey : r.ky <;> cases ez : r.kz <;>
      simp [List.filter_cons, Rock.k, ex, ey, ez] <;> (try constructor) <;>
      first | exact hx _ ex | exact hy _ ey | exact hz _ ez | skip
    all_goals (try constructor) <;> first | exact hx _ ex | exact hy _ ey | exact hz _ ez
  obtain ⟨v, h1, h2⟩ := constCheck_eq g (([Axis.x, .y, .z].filter fun a => (r.k a).isSome).map fun a => perm g r a)
  refine ⟨v, by unfold isIsotropic; rw [key, h1], ?_⟩
  rw [h2]
  unfold IsoSpec
  constructor
  · intro hh a ha
    refine hh _ (List.mem_map.2 ⟨a, List.mem_filter.2 ⟨by cases a <;> simp, ?_⟩, rfl⟩)
    cases e : r.k a
    · exact absurd e ha
    · rfl
  · intro hh f hf
    obtain ⟨a, ha, rfl⟩ := List.mem_map.1 hf
    refine hh a ?_
    intro e
    have := (List.mem_filter.1 ha).2
    simp [e] at this

lemma isRegular_ok {g : Dims} {s : Sizes K} {q : Geom K} (h : GeomOf g s q) : ∃ v, isRegular g q = .ok v := by
  obtain ⟨v, h1, -⟩ := constCheck_eq g [fun c => size s.x c.1, fun c => size s.y c.2.1, fun c => size s.z c.2.2]
  refine ⟨v, ?_⟩
  unfold isRegular
  rw [h.dx, h.dy, h.dz]; exact h1

/-- The flag that selects the formula, and what it says. -/
lemma arithFlag_eq {g : Dims} {s : Sizes K} {q : Geom K} {r : Rock K} (hq : GeomOf g s q) (h : RockSet g r) :
    ∃ v, arithFlag g q r = .ok v ∧ (v = true → IsoSpec g r) := by
  obtain ⟨v, h1, h2⟩ := isIsotropic_eq h
  obtain ⟨w, h3⟩ := isRegular_ok hq
  unfold arithFlag
  rw [h1, bind_ok]
  cases v
  · exact ⟨false, by simp; rfl, by simp⟩
  · exact ⟨w, by simpa using h3, fun _ => h2.1 rfl⟩

/-- The value the chosen formula gives to two cells. -/
def pairG (g : Dims) (s : Sizes K) (r : Rock K) (β : K) (v : Bool) (a : Axis) (c c' : Cell) : K :=
  gForm v β (perm g r a c) (s.area c a) (s.along c a) (perm g r a c') (s.area c' a) (s.along c' a)

lemma diagAt_eq {g : Dims} {s : Sizes K} {q : Geom K} {r : Rock K} (hq : GeomOf g s q) (h : RockSet g r) {v : Bool}
    (hv : arithFlag g q r = .ok v) (β : K) (b : Bool) {a : Axis} (ha : Flow g.nx g.ny g.nz a) (m : ℕ) :
    diagAt g q r β b a m = .ok ((List.range (g.getN b - m)).map fun p =>
      pairG g s r β v a (pcell g b p) (pcell g b (p + m))) := by
  unfold diagAt
  rw [cellsK_eq h ha, bind_ok, hq.A_eq, cells_eq g b (fun c => s.area c a), bind_ok, hq.d_eq, cells_eq g b (fun c => s.along c a), bind_ok, hv, bind_ok]
  change Except.ok _ = _
  congr 1
  unfold offDiag
  refine List.map_congr_left fun p hp => ?_
  rw [List.mem_range] at hp
  simp only [pairG]
  rw [getD_map_range _ _ _ (by omega), getD_map_range _ _ _ (by omega), getD_map_range _ _ _ (by omega),
    getD_map_range _ _ _ (by omega), getD_map_range _ _ _ (by omega), getD_map_range _ _ _ (by omega)]

lemma zeroStep_getD (s t p : ℕ) (l : List K) :
    (zeroStep s t l).getD p 0 = if s ≤ p ∧ (p - s) % t = 0 then 0 else l.getD p 0 := by
  unfold zeroStep
  simp only [List.getD_eq_getElem?_getD, List.getElem?_mapIdx]
  cases l[p]? <;> simp

lemma zeroAt_getD (ids : List ℕ) (p : ℕ) (l : List K) :
    (zeroAt ids l).getD p 0 = if p ∈ ids then 0 else l.getD p 0 := by
  unfold zeroAt
  simp only [List.getD_eq_getElem?_getD, List.getElem?_mapIdx]
  cases l[p]? <;> simp

lemma zeroStep_cond {X p : ℕ} (hX : 1 ≤ X) : (X - 1 ≤ p ∧ (p - (X - 1)) % X = 0) ↔ ¬ p % X + 1 < X := by
  have h1 := Nat.mod_lt p (show X > 0 by omega)
  have h2 := Nat.div_add_mod p X
  constructor
  · rintro ⟨h, e⟩
    obtain ⟨m, hm⟩ := Nat.dvd_of_mod_eq_zero e
    have : p = X - 1 + X * m := by omega
    rw [this, Nat.add_mul_mod_self_left, Nat.mod_eq_of_lt (by omega)]; omega
  · intro h
    have h3 : p % X = X - 1 := by omega
    refine ⟨by have := Nat.mod_le p X; omega, ?_⟩
    rw [show p - (X - 1) = X * (p / X) by omega]; simp

lemma arangeN_one {X m : ℕ} (hX : 1 ≤ X) (h : X ≤ m) : arangeN X m = [0] := by
  unfold arangeN
  have : (X + m - 1) / m = 1 := by
    refine Nat.div_eq_of_lt_le (by omega) (by omega)
  rw [this]; simp

lemma symDiag_lt (v : List K) {m p q : ℕ} (h : p < q) : symDiag v m p q = if q = p + m then v.getD p 0 else 0 := by
  unfold symDiag
  rw [if_neg (show ¬ p = q + m by omega)]; simp

lemma symDiag_symm (v : List K) (m p q : ℕ) : symDiag v m p q = symDiag v m q p := by
  unfold symDiag; rw [add_comm]

lemma symDiag_self (v : List K) {m : ℕ} (hm : 1 ≤ m) (p : ℕ) : symDiag v m p p = 0 := by
  unfold symDiag; rw [if_neg (by omega)]; simp

lemma shape_pos (g : Dims) (b : Bool) : 1 ≤ (g.getShape b).1 ∧ 1 ≤ (g.getShape b).2.1 ∧ 1 ≤ (g.getShape b).2.2 := by
  have := g.hx; have := g.hy; have := g.hz
  cases b
  · simp only [getShape, Bool.false_eq_true, if_false]; omega
  · simp only [getShape_true, padded]; split_ifs <;> omega

lemma shape_one (g : Dims) (b : Bool) : (g.nx = 1 → (g.getShape b).1 = 1) ∧ (g.ny = 1 → (g.getShape b).2.1 = 1) ∧
    (g.nz = 1 → (g.getShape b).2.2 = 1) ∧ (1 < g.nx → 1 < (g.getShape b).1) ∧ (1 < g.ny → 1 < (g.getShape b).2.1) ∧
    (1 < g.nz → 1 < (g.getShape b).2.2) := by
  cases b
  · simp [getShape]
  · simp only [getShape_true, padded]
    refine ⟨?_, ?_, ?_, ?_, ?_, ?_⟩ <;> intro h <;> simp [h]

/-- The matrix entries, as the code computes them. -/
def entryUp (g : Dims) (s : Sizes K) (r : Rock K) (β : K) (v : Bool) (b : Bool) (p q : ℕ) : K :=
  let X := (g.getShape b).1
  let Y := (g.getShape b).2.1
  (if q = p + 1 ∧ p % X + 1 < X then pairG g s r β v .x (pcell g b p) (pcell g b q) else 0) +
  (if q = p + X ∧ (if g.getD = 3 then p ≠ X * (Y - 1) else p / X % Y + 1 < Y) then
    pairG g s r β v .y (pcell g b p) (pcell g b q) else 0) +
  (if q = p + X * Y then pairG g s r β v .z (pcell g b p) (pcell g b q) else 0)

lemma getD_length (g : Dims) : g.getD = g.getFdir.length := by
  rw [getD_cases, getFdir_eq]; split_ifs <;> rfl

lemma cellsG_one {g : Dims} {s : Sizes K} {q : Geom K} {r : Rock K} (hq : GeomOf g s q) (h : RockSet g r) {v : Bool}
    (hv : arithFlag g q r = .ok v) (β : K) (b : Bool) {a : Axis} (hf : g.getFdir = [a]) (ha : Flow g.nx g.ny g.nz a) :
    cellsG g q r β b = .ok (symDiag ((List.range (g.getN b - 1)).map fun p =>
      pairG g s r β v a (pcell g b p) (pcell g b (p + 1))) 1) := by
  have hD : g.getD = 1 := by rw [getD_length, hf]; rfl
  unfold cellsG diag1
  simp only [hD, fdirAt, hf, one_ne_zero, if_false, if_true]
  simp only [List.getElem?_cons_zero]
  rw [bind_ok, diagAt_eq hq h hv β b ha, bind_ok]; rfl

lemma cellsG_two {g : Dims} {s : Sizes K} {q : Geom K} {r : Rock K} (hq : GeomOf g s q) (h : RockSet g r) {v : Bool}
    (hv : arithFlag g q r = .ok v) (β : K) (b : Bool) {a a' : Axis} (hf : g.getFdir = [a, a'])
    (ha : Flow g.nx g.ny g.nz a) (ha' : Flow g.nx g.ny g.nz a') {n2 : ℕ} (h2 : offset2 g b = .ok n2) :
    cellsG g q r β b = .ok (fun i j => symDiag (zeroStep (n2 - 1) n2 ((List.range (g.getN b - 1)).map fun p =>
      pairG g s r β v a (pcell g b p) (pcell g b (p + 1)))) 1 i j +
      symDiag ((List.range (g.getN b - n2)).map fun p =>
      pairG g s r β v a' (pcell g b p) (pcell g b (p + n2))) n2 i j) := by
  have hD : g.getD = 2 := by rw [getD_length, hf]; rfl
  unfold cellsG diag1 diag2
  simp only [hD, fdirAt, hf]
  simp only [List.getElem?_cons_zero, List.getElem?_cons_succ]
  rw [bind_ok, diagAt_eq hq h hv β b ha, h2]
  simp only [bind_ok]
  rw [diagAt_eq hq h hv β b ha']; rfl

lemma cellsG_three {g : Dims} {s : Sizes K} {q : Geom K} {r : Rock K} (hq : GeomOf g s q) (h : RockSet g r) {v : Bool}
    (hv : arithFlag g q r = .ok v) (β : K) (b : Bool) (hD : g.getD = 3) :
    cellsG g q r β b = .ok (fun i j => symDiag (zeroStep ((g.getShape b).1 - 1) (g.getShape b).1
      ((List.range (g.getN b - 1)).map fun p => pairG g s r β v .x (pcell g b p) (pcell g b (p + 1)))) 1 i j +
      symDiag (zeroAt ((arangeN (g.getShape b).1 ((g.getShape b).1 * (g.getShape b).2.1)).map
        ((g.getShape b).1 * (g.getShape b).2.1 - (g.getShape b).1 + ·)) ((List.range (g.getN b - (g.getShape b).1)).map fun p =>
        pairG g s r β v .y (pcell g b p) (pcell g b (p + (g.getShape b).1)))) (g.getShape b).1 i j +
      symDiag ((List.range (g.getN b - (g.getShape b).1 * (g.getShape b).2.1)).map fun p =>
        pairG g s r β v .z (pcell g b p) (pcell g b (p + (g.getShape b).1 * (g.getShape b).2.1)))
          ((g.getShape b).1 * (g.getShape b).2.1) i j) := by
  have hh : 1 < g.nx ∧ 1 < g.ny ∧ 1 < g.nz := by rw [getD_cases] at hD; split_ifs at hD <;> simp_all
  have hf : g.getFdir = [.x, .y, .z] := by rw [getFdir_eq]; simp [hh]
  have f1 : Flow g.nx g.ny g.nz .x := hh.1
  have f2 : Flow g.nx g.ny g.nz .y := hh.2.1
  have f3 : Flow g.nx g.ny g.nz .z := hh.2.2
  have h2 : offset2 g b = .ok (g.getShape b).1 := by unfold offset2; simp only [fdirAt, hf]; rfl
  unfold cellsG diag1 diag2 diag3
  simp only [hD, fdirAt, hf]
  simp only [List.getElem?_cons_zero, List.getElem?_cons_succ]
  rw [bind_ok, diagAt_eq hq h hv β b f1, h2]
  simp only [bind_ok]
  rw [diagAt_eq hq h hv β b f2, diagAt_eq hq h hv β b f3]; rfl

lemma sum_symDiag2 (u w : List K) (m n p q : ℕ) :
    symDiag u m p q + symDiag w n p q = symDiag u m q p + symDiag w n q p := by
  rw [symDiag_symm u, symDiag_symm w]

lemma cellsG_eq {g : Dims} {s : Sizes K} {q : Geom K} {r : Rock K} (hq : GeomOf g s q) (h : RockSet g r) {v : Bool}
    (hv : arithFlag g q r = .ok v) (β : K) (b : Bool) (hD : 1 ≤ g.getD) :
    ∃ M, cellsG g q r β b = .ok M ∧ (∀ p q, M p q = M q p) ∧ (∀ p, M p p = 0) ∧
      ∀ p q, p < q → q < g.getN b → M p q = entryUp g s r β v b p q := by
  have hn : g.getN b = (g.getShape b).1 * (g.getShape b).2.1 * (g.getShape b).2.2 := rfl
  obtain ⟨x1, y1, z1⟩ := shape_pos g b
  obtain ⟨ex, ey, ez, lx, ly, lz⟩ := shape_one g b
  have gD : ∀ (m p q : ℕ) (f : ℕ → K), q < g.getN b → q = p + m → ((List.range (g.getN b - m)).map f).getD p 0 = f p := by
    intro m p q f hh e; exact getD_map_range _ _ _ (by omega)
  -- one diagonal of an axis
  have key : ∀ (m p q : ℕ) (a : Axis), p < q → q < g.getN b →
      (if q = p + m then ((List.range (g.getN b - m)).map fun p => pairG g s r β v a (pcell g b p) (pcell g b (p + m))).getD p 0
        else 0) = if q = p + m then pairG g s r β v a (pcell g b p) (pcell g b q) else 0 := by
    intro m p q a hpq hqn
    by_cases hc : q = p + m
    · rw [if_pos hc, if_pos hc, gD m p q _ hqn hc, hc]
    · rw [if_neg hc, if_neg hc]
  refine g.cases8 ?_ ?_ ?_ ?_ ?_ ?_ ?_ ?_ <;> intro h1 h2 h3
  · simp [getD_cases, h1, h2, h3] at hD
  · -- x
    refine ⟨_, cellsG_one hq h hv β b (a := .x) (by rw [getFdir_eq]; simp [h1, h2, h3]) h1, symDiag_symm _ _,
      symDiag_self _ le_rfl, fun p q hpq hqn => ?_⟩
    have d3 : g.getD ≠ 3 := by rw [getD_cases]; simp [h1, h2, h3]
    have hqX : q < (g.getShape b).1 := by rw [hn, ey h2, ez h3] at hqn; omega
    have hp : p % (g.getShape b).1 = p := Nat.mod_eq_of_lt (by omega)
    rw [symDiag_lt _ hpq, key _ _ _ _ hpq hqn]
    simp only [entryUp, if_neg d3]
    rw [ey h2, hp, if_neg (c := q = p + (g.getShape b).1 ∧ _) (by omega), if_neg (c := q = p + (g.getShape b).1 * 1) (by omega)]
    simp only [add_zero]
    refine if_congr ⟨fun e => ⟨e, by omega⟩, fun e => e.1⟩ rfl rfl
  · -- y
    refine ⟨_, cellsG_one hq h hv β b (a := .y) (by rw [getFdir_eq]; simp [h1, h2, h3]) h2, symDiag_symm _ _,
      symDiag_self _ le_rfl, fun p q hpq hqn => ?_⟩
    have d3 : g.getD ≠ 3 := by rw [getD_cases]; simp [h1, h2, h3]
    have hqX : q < (g.getShape b).2.1 := by rw [hn, ex h1, ez h3] at hqn; omega
    have hp : p % (g.getShape b).2.1 = p := Nat.mod_eq_of_lt (by omega)
    rw [symDiag_lt _ hpq, key _ _ _ _ hpq hqn]
    simp only [entryUp, if_neg d3]
    rw [ex h1, Nat.div_one, hp, if_neg (c := q = p + 1 ∧ p % 1 + 1 < 1) (by omega),
      if_neg (c := q = p + 1 * (g.getShape b).2.1) (by omega)]
    simp only [add_zero, zero_add]
    refine if_congr ⟨fun e => ⟨e, by omega⟩, fun e => e.1⟩ rfl rfl
  · -- z
    refine ⟨_, cellsG_one hq h hv β b (a := .z) (by rw [getFdir_eq]; simp [h1, h2, h3]) h3, symDiag_symm _ _,
      symDiag_self _ le_rfl, fun p q hpq hqn => ?_⟩
    have d3 : g.getD ≠ 3 := by rw [getD_cases]; simp [h1, h2, h3]
    rw [symDiag_lt _ hpq, key _ _ _ _ hpq hqn]
    simp only [entryUp, if_neg d3]
    rw [ex h1, ey h2, if_neg (c := q = p + 1 ∧ p % 1 + 1 < 1) (by omega),
      if_neg (c := q = p + 1 ∧ p / 1 % 1 + 1 < 1) (by omega)]
    simp only [add_zero, zero_add, mul_one]
  · -- xy
    have hf : g.getFdir = [.x, .y] := by rw [getFdir_eq]; simp [h1, h2, h3]
    have ho : offset2 g b = .ok (g.getShape b).1 := by unfold offset2; simp only [fdirAt, hf]; rfl
    refine ⟨_, cellsG_two hq h hv β b hf h1 h2 ho, fun p q => sum_symDiag2 _ _ _ _ _ _,
      fun p => by rw [symDiag_self _ le_rfl, symDiag_self _ x1, add_zero], fun p q hpq hqn => ?_⟩
    have d3 : g.getD ≠ 3 := by rw [getD_cases]; simp [h1, h2, h3]
    rw [symDiag_lt _ hpq, symDiag_lt _ hpq, key _ _ _ _ hpq hqn, zeroStep_getD]
    simp only [entryUp, if_neg d3]
    have hqX : q < (g.getShape b).1 * (g.getShape b).2.1 := by rw [hn, ez h3] at hqn; omega
    rw [if_neg (c := q = p + (g.getShape b).1 * (g.getShape b).2.1) (by omega), add_zero]
    congr 1
    · have := key 1 p q .x hpq hqn
      by_cases e : q = p + 1
      · rw [if_pos e] at this
        rw [if_pos e, this, if_pos e]
        by_cases e2 : p % (g.getShape b).1 + 1 < (g.getShape b).1
        · rw [if_neg (fun hh => (zeroStep_cond x1).1 hh e2), if_pos ⟨e, e2⟩]
        · rw [if_pos ((zeroStep_cond x1).2 e2), if_neg (fun hh => e2 hh.2)]
      · rw [if_neg e, if_neg (fun hh => e hh.1)]
    · refine if_congr ⟨fun e => ⟨e, ?_⟩, fun e => e.1⟩ rfl rfl
      subst e
      have : p / (g.getShape b).1 + 1 < (g.getShape b).2.1 := by
        rw [← Nat.add_div_right _ (by omega)]
        exact Nat.div_lt_of_lt_mul hqX
      rw [Nat.mod_eq_of_lt (by omega)]; exact this
  · -- xz
    have hf : g.getFdir = [.x, .z] := by rw [getFdir_eq]; simp [h1, h2, h3]
    have ho : offset2 g b = .ok (g.getShape b).1 := by unfold offset2; simp only [fdirAt, hf]; rfl
    refine ⟨_, cellsG_two hq h hv β b hf h1 h3 ho, fun p q => sum_symDiag2 _ _ _ _ _ _,
      fun p => by rw [symDiag_self _ le_rfl, symDiag_self _ x1, add_zero], fun p q hpq hqn => ?_⟩
    have d3 : g.getD ≠ 3 := by rw [getD_cases]; simp [h1, h2, h3]
    rw [symDiag_lt _ hpq, symDiag_lt _ hpq, key _ _ _ _ hpq hqn, zeroStep_getD]
    simp only [entryUp, if_neg d3]
    rw [ey h2, Nat.mod_one, if_neg (c := q = p + (g.getShape b).1 ∧ 0 + 1 < 1) (by omega), add_zero, mul_one]
    congr 1
    · have := key 1 p q .x hpq hqn
      by_cases e : q = p + 1
      · rw [if_pos e] at this
        rw [if_pos e, this, if_pos e]
        by_cases e2 : p % (g.getShape b).1 + 1 < (g.getShape b).1
        · rw [if_neg (fun hh => (zeroStep_cond x1).1 hh e2), if_pos ⟨e, e2⟩]
        · rw [if_pos ((zeroStep_cond x1).2 e2), if_neg (fun hh => e2 hh.2)]
      · rw [if_neg e, if_neg (fun hh => e hh.1)]
  · -- yz
    have hf : g.getFdir = [.y, .z] := by rw [getFdir_eq]; simp [h1, h2, h3]
    have ho : offset2 g b = .ok (g.getShape b).2.1 := by unfold offset2; simp only [fdirAt, hf]; rfl
    refine ⟨_, cellsG_two hq h hv β b hf h2 h3 ho, fun p q => sum_symDiag2 _ _ _ _ _ _,
      fun p => by rw [symDiag_self _ le_rfl, symDiag_self _ y1, add_zero], fun p q hpq hqn => ?_⟩
    have d3 : g.getD ≠ 3 := by rw [getD_cases]; simp [h1, h2, h3]
    rw [symDiag_lt _ hpq, symDiag_lt _ hpq, key _ _ _ _ hpq hqn, zeroStep_getD]
    simp only [entryUp, if_neg d3]
    rw [ex h1, Nat.mod_one, Nat.div_one, if_neg (c := q = p + 1 ∧ 0 + 1 < 1) (by omega), zero_add, one_mul]
    congr 1
    · have := key 1 p q .y hpq hqn
      by_cases e : q = p + 1
      · rw [if_pos e] at this
        rw [if_pos e, this, if_pos e]
        by_cases e2 : p % (g.getShape b).2.1 + 1 < (g.getShape b).2.1
        · rw [if_neg (fun hh => (zeroStep_cond y1).1 hh e2), if_pos ⟨e, e2⟩]
        · rw [if_pos ((zeroStep_cond y1).2 e2), if_neg (fun hh => e2 hh.2)]
      · rw [if_neg e, if_neg (fun hh => e hh.1)]
  · -- xyz
    have d3 : g.getD = 3 := by rw [getD_cases]; simp [h1, h2, h3]
    have xy1 : 1 ≤ (g.getShape b).1 * (g.getShape b).2.1 := Nat.mul_pos x1 y1
    refine ⟨_, cellsG_three hq h hv β b d3, fun p q => ?_,
      fun p => by rw [symDiag_self _ le_rfl, symDiag_self _ x1, symDiag_self _ xy1]; simp, fun p q hpq hqn => ?_⟩
    · exact congrArg₂ (· + ·) (sum_symDiag2 _ _ _ _ _ _) (symDiag_symm _ _ _ _)
    rw [symDiag_lt _ hpq, symDiag_lt _ hpq, symDiag_lt _ hpq, key _ _ _ _ hpq hqn, zeroStep_getD, zeroAt_getD]
    simp only [entryUp, if_pos d3]
    rw [arangeN_one x1 (Nat.le_mul_of_pos_right _ y1)]
    congr 1
    congr 1
    · have := key 1 p q .x hpq hqn
      by_cases e : q = p + 1
      · rw [if_pos e] at this
        rw [if_pos e, this, if_pos e]
        by_cases e2 : p % (g.getShape b).1 + 1 < (g.getShape b).1
        · rw [if_neg (fun hh => (zeroStep_cond x1).1 hh e2), if_pos ⟨e, e2⟩]
        · rw [if_pos ((zeroStep_cond x1).2 e2), if_neg (fun hh => e2 hh.2)]
      · rw [if_neg e, if_neg (fun hh => e hh.1)]
    · have := key (g.getShape b).1 p q .y hpq hqn
      have hm : p ∈ [0].map ((g.getShape b).1 * (g.getShape b).2.1 - (g.getShape b).1 + ·) ↔
          p = (g.getShape b).1 * ((g.getShape b).2.1 - 1) := by
        simp [Nat.mul_sub]
      by_cases e : q = p + (g.getShape b).1
      · rw [if_pos e] at this
        rw [if_pos e, this, if_pos e]
        by_cases e2 : p = (g.getShape b).1 * ((g.getShape b).2.1 - 1)
        · rw [if_pos (hm.2 e2), if_neg (fun hh => hh.2 e2)]
        · rw [if_neg (fun hh => e2 (hm.1 hh)), if_pos ⟨e, e2⟩]
      · rw [if_neg e, if_neg (fun hh => e hh.1)]

end RF
