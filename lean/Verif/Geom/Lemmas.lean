import Verif.Geom.Spec
import Verif.Grid.Lemmas6
import Mathlib.Algebra.BigOperators.Ring.Finset
/-! Lemmas about cell geometry. -/
set_option linter.unusedSimpArgs false
namespace RF
open Spec Dims

lemma range_mul (m n : ℕ) : List.range (m * n) = (List.range m).flatMap fun a => (List.range n).map fun b => a * n + b := by
  induction m with
  | zero => simp
  | succ m ih =>
    rw [Nat.succ_mul, List.range_add, ih, List.range_succ, List.flatMap_append]
    simp

namespace Arr3
variable {α : Type}

lemma flat_eq (a : Arr3 α) : a.flat = (List.range (a.s0 * (a.s1 * a.s2))).map fun id =>
    a.at_ (id / (a.s1 * a.s2)) (id / a.s2 % a.s1) (id % a.s2) := by
  rw [range_mul, List.map_flatMap]
  unfold flat
  refine List.flatMap_congr fun i _ => ?_
  rw [range_mul, List.map_flatMap, List.map_flatMap]
  refine List.flatMap_congr fun j hj => ?_
  rw [List.map_map, List.map_map]
  refine List.map_congr_left fun k hk => ?_
  rw [List.mem_range] at hj hk
  have h2 : 0 < a.s2 := by omega
  have h1 : j * a.s2 + k < a.s1 * a.s2 := by nlinarith
  have e1 : (i * (a.s1 * a.s2) + (j * a.s2 + k)) / (a.s1 * a.s2) = i := by
    rw [Nat.mul_comm i, Nat.mul_add_div (by omega), Nat.div_eq_of_lt h1]; rfl
  have e2 : i * (a.s1 * a.s2) + (j * a.s2 + k) = a.s2 * (a.s1 * i + j) + k := by ring
  simp only [Function.comp_apply]
  rw [e1, e2, Nat.mul_add_div h2, Nat.div_eq_of_lt hk, Nat.mul_add_mod, Nat.mod_eq_of_lt hk, Nat.add_zero,
    Nat.mul_add_mod, Nat.mod_eq_of_lt hj]

lemma length_flat (a : Arr3 α) : a.flat.length = a.s0 * (a.s1 * a.s2) := by rw [flat_eq]; simp
end Arr3

variable {K : Type} [Field K]

lemma axis_ok {n nmax : ℕ} (hn : 1 ≤ n) (hm : padded n ≤ nmax) (d : DArg K) (hf : Fits n d) :
    ∃ v, calcAxis (decide (1 < n)) (padded n) nmax d = .ok (v, (List.range (padded n)).map (size d)) ∧
      v.take (padded n) = (List.range (padded n)).map (size d) ∧
      (1 < n → v = (List.range (padded n)).map (size d)) := by
  have hrep : ∀ (v : K) m, List.replicate m v = (List.range m).map fun _ => v := by
    intro v m; simp
  have hlist : ∀ l : List K, l = (List.range l.length).map (l.getD · 0) := by
    intro l
    apply List.ext_getElem <;> simp
    intro i h; simp [h]
  cases d with
  | scalar v =>
    by_cases h : 1 < n
    · refine ⟨List.replicate (padded n) v, by simp [calcAxis, h]; exact hrep _ _, ?_, fun _ => hrep _ _⟩
      rw [List.take_of_length_le (by simp)]; exact hrep _ _
    · have e : n = 1 := by omega
      subst e
      refine ⟨List.replicate nmax v, by simp [calcAxis, padded, size], ?_, fun h => absurd h (by omega)⟩
      have hm1 : 1 ≤ nmax := hm
      simp [List.take_replicate, size, padded, hm1]
  | list l =>
    simp only [Fits] at hf
    have hl := hlist l
    rw [hf] at hl
    by_cases h : 1 < n
    · refine ⟨l, by simp [calcAxis, h, hf]; exact hl, ?_, fun _ => hl⟩
      rw [List.take_of_length_le (by omega)]; exact hl
    · have e : n = 1 := by omega
      subst e
      have hf1 : l.length = 1 := hf
      obtain ⟨v, rfl⟩ := List.length_eq_one_iff.1 hf1
      by_cases h1 : nmax = 1
      · subst h1
        exact ⟨[v], by simp [calcAxis, padded, size], by simp [padded, size], fun h => absurd h (by omega)⟩
      · have h2 : ¬ 1 = nmax := fun h => h1 h.symm
        refine ⟨List.replicate nmax v, by simp [calcAxis, padded, size, h2], ?_, fun h => absurd h (by omega)⟩
        have hm1 : 1 ≤ nmax := hm
        simp [List.take_replicate, size, padded, hm1]

lemma axis_inv {n nmax : ℕ} (hn : 1 ≤ n) (d : DArg K) {v m : List K}
    (h : calcAxis (decide (1 < n)) (padded n) nmax d = .ok (v, m)) :
    ∃ r, m.length = padded n * r ∧ (r = 1 → Fits n d) := by
  cases d with
  | scalar w =>
    by_cases h1 : 1 < n
    · simp [calcAxis, h1] at h
      exact ⟨1, by simp [← h.2], fun _ => trivial⟩
    · have e : n = 1 := by omega
      subst e
      simp [calcAxis] at h
      exact ⟨1, by simp [← h.2, padded], fun _ => trivial⟩
  | list l =>
    by_cases h1 : 1 < n
    · simp only [calcAxis, h1, decide_true, if_true] at h
      split_ifs at h with h2
      cases h
      exact ⟨1, by simp [h2], fun _ => h2⟩
    · have e : n = 1 := by omega
      subst e
      simp only [calcAxis, lt_irrefl, decide_false, Bool.false_eq_true, if_false] at h
      refine ⟨m.length, by simp [padded], fun hr => ?_⟩
      split_ifs at h <;> cases h <;> simpa [Fits, padded] using hr

lemma fdir_x (g : Dims) : decide (Axis.x ∈ g.getFdir) = decide (1 < g.nx) := by simp [g.x_mem]
lemma fdir_y (g : Dims) : decide (Axis.y ∈ g.getFdir) = decide (1 < g.ny) := by simp [g.y_mem]
lemma fdir_z (g : Dims) : decide (Axis.z ∈ g.getFdir) = decide (1 < g.nz) := by simp [g.z_mem]

lemma nmax_ge (g : Dims) : padded g.nx ≤ g.getNMax true ∧ padded g.ny ≤ g.getNMax true ∧ padded g.nz ≤ g.getNMax true := by
  simp [getNMax, getShape_true]

/-- What `Geom.calc` computes for fitting arguments. -/
structure GeomOf (g : Dims) (s : Sizes K) (q : Geom K) : Prop where
  dx : q.dx = (List.range (g.getN true)).map fun id => size s.x (g.dec id).1
  dy : q.dy = (List.range (g.getN true)).map fun id => size s.y (g.dec id).2.1
  dz : q.dz = (List.range (g.getN true)).map fun id => size s.z (g.dec id).2.2
  x_ : q.dx_.take (padded g.nx) = (List.range (padded g.nx)).map (size s.x)
  y_ : q.dy_.take (padded g.ny) = (List.range (padded g.ny)).map (size s.y)
  z_ : q.dz_.take (padded g.nz) = (List.range (padded g.nz)).map (size s.z)
  xf : 1 < g.nx → q.dx_ = (List.range (padded g.nx)).map (size s.x)
  yf : 1 < g.ny → q.dy_ = (List.range (padded g.ny)).map (size s.y)
  zf : 1 < g.nz → q.dz_ = (List.range (padded g.nz)).map (size s.z)

lemma getD_map_range (f : ℕ → K) (n i : ℕ) (h : i < n) : ((List.range n).map f).getD i 0 = f i := by
  simp [h]

lemma calc_ok (g : Dims) (s : Sizes K) (hx : Fits g.nx s.x) (hy : Fits g.ny s.y) (hz : Fits g.nz s.z) :
    ∃ q, Geom.calc g s.x s.y s.z = .ok q ∧ GeomOf g s q := by
  obtain ⟨m1, m2, m3⟩ := nmax_ge g
  obtain ⟨vx, x1, x2, x3⟩ := axis_ok g.hx m1 s.x hx
  obtain ⟨vy, y1, y2, y3⟩ := axis_ok g.hy m2 s.y hy
  obtain ⟨vz, z1, z2, z3⟩ := axis_ok g.hz m3 s.z hz
  have hn := g.getN_true
  refine ⟨⟨vx, vy, vz, (List.range (g.getN true)).map fun id => size s.x (g.dec id).1,
    (List.range (g.getN true)).map fun id => size s.y (g.dec id).2.1,
    (List.range (g.getN true)).map fun id => size s.z (g.dec id).2.2⟩, ?_, ⟨rfl, rfl, rfl, x2, y2, z2, x3, y3, z3⟩⟩
  unfold Geom.calc
  rw [getShape_true, fdir_x, fdir_y, fdir_z]
  simp only [x1, y1, z1, bind_ok, meshgrid, reshapeFlat, Arr3.length_flat, Arr3.transpose021, Arr3.transpose201,
    Arr3.transpose210, List.length_map, List.length_range]
  rw [if_pos (by rw [hn]; ring), if_pos (by rw [hn]; ring), if_pos (by rw [hn]; ring)]
  simp only [bind_ok, Arr3.flat_eq]
  congr 2
  · rw [hn, show padded g.ny * (padded g.nz * padded g.nx) = padded g.nx * padded g.ny * padded g.nz by ring]
    refine List.map_congr_left fun id hid => ?_
    rw [List.mem_range, ← hn] at hid
    have hd := g.dec_inGrid hid
    exact getD_map_range _ _ _ hd.1
  · rw [hn, show padded g.nz * (padded g.ny * padded g.nx) = padded g.nx * padded g.ny * padded g.nz by ring]
    refine List.map_congr_left fun id hid => ?_
    rw [List.mem_range, ← hn] at hid
    have hd := g.dec_inGrid hid
    exact getD_map_range _ _ _ hd.2.1
  · rw [hn, show padded g.nz * (padded g.nx * padded g.ny) = padded g.nx * padded g.ny * padded g.nz by ring]
    refine List.map_congr_left fun id hid => ?_
    rw [List.mem_range, ← hn] at hid
    have hd := g.dec_inGrid hid
    have : id / (padded g.nx * padded g.ny) = (g.dec id).2.2 := by
      simp [dec, decode, Nat.div_div_eq_div_mul]
    rw [this]
    exact getD_map_range _ _ _ hd.2.2

lemma calc_inv (g : Dims) (s : Sizes K) (q : Geom K) (h : Geom.calc g s.x s.y s.z = .ok q) :
    Fits g.nx s.x ∧ Fits g.ny s.y ∧ Fits g.nz s.z := by
  unfold Geom.calc at h
  rw [getShape_true, fdir_x, fdir_y, fdir_z] at h
  simp only at h
  cases ex : calcAxis (decide (1 < g.nx)) (padded g.nx) (g.getNMax true) s.x with
  | error e => rw [ex] at h; cases h
  | ok px =>
  cases ey : calcAxis (decide (1 < g.ny)) (padded g.ny) (g.getNMax true) s.y with
  | error e => rw [ex, ey] at h; cases h
  | ok py =>
  cases ez : calcAxis (decide (1 < g.nz)) (padded g.nz) (g.getNMax true) s.z with
  | error e => rw [ex, ey, ez] at h; cases h
  | ok pz =>
  obtain ⟨rx, ax, bx⟩ := axis_inv g.hx s.x ex
  obtain ⟨ry, ay, byy⟩ := axis_inv g.hy s.y ey
  obtain ⟨rz, az, bz⟩ := axis_inv g.hz s.z ez
  rw [ex, ey, ez] at h
  simp only [bind_ok, meshgrid, reshapeFlat, Arr3.length_flat, Arr3.transpose021] at h
  by_cases hl : py.2.length * (pz.2.length * px.2.length) = g.getN true
  · rw [ax, ay, az, getN_true] at hl
    have h1 : (padded g.nx * padded g.ny * padded g.nz) * (rx * ry * rz) =
        (padded g.nx * padded g.ny * padded g.nz) * 1 := by rw [mul_one]; refine Eq.trans ?_ hl; ring
    have hp : ∀ n, 1 ≤ n → 0 < padded n := fun n h => by unfold padded; split_ifs <;> omega
    have h2 := Nat.eq_of_mul_eq_mul_left (Nat.mul_pos (Nat.mul_pos (hp _ g.hx) (hp _ g.hy)) (hp _ g.hz)) h1
    simp only [mul_eq_one] at h2
    exact ⟨bx h2.1.1, byy h2.1.2, bz h2.2⟩
  · rw [if_neg hl] at h; cases h


lemma fshape3 (g : Dims) (h : g.unify = true ∨ g.getD = 3) :
    g.getFshape true = [padded g.nz, padded g.ny, padded g.nx] := by
  refine g.cases8 ?_ ?_ ?_ ?_ ?_ ?_ ?_ ?_ <;> intro h1 h2 h3 <;>
    simp [getFshape, getFdir_eq, getShape_true, getD_cases, h1, h2, h3, padded] at h ⊢ <;> simp [h]

lemma padded_one : padded 1 = 1 := rfl

lemma icoords_eq (g : Dims) (c : Cell) (hc : InGrid g.nx g.ny g.nz c) :
    g.getCellIcoords ((c.1 : ℤ), (c.2.1 : ℤ), (c.2.2 : ℤ)) =
      if g.unify = false ∧ g.getD ≤ 2 then
        (if ([c.2.2, c.2.1, c.1].filter (0 < ·)).length = g.getD then .ok ([c.2.2, c.2.1, c.1].filter (0 < ·))
          else .error .assertion)
      else .ok [c.2.2, c.2.1, c.1] := by
  unfold getCellIcoords
  rw [getCellsCoords_eq, if_pos rfl, bind_ok]
  have hm : c ∈ (List.range (g.getN true)).map g.dec := by
    rw [g.mem_map_dec hc, List.mem_range]; exact g.num_lt hc
  simp only [Int.toNat_natCast, Int.natCast_nonneg, true_and, hm, not_true, if_false]
  by_cases h : g.unify = false ∧ g.getD ≤ 2
  · rw [if_pos h, if_pos (by simp [h])]; rfl
  · rw [if_neg h, if_neg (by simpa using h)]; rfl

lemma icoords_outside (g : Dims) (i j k : ℤ) (h : i < 0 ∨ j < 0 ∨ k < 0 ∨ (padded g.nx : ℤ) ≤ i ∨ (padded g.ny : ℤ) ≤ j ∨
    (padded g.nz : ℤ) ≤ k) : g.getCellIcoords (i, j, k) = .error .assertion := by
  unfold getCellIcoords
  rw [getCellsCoords_eq, if_pos rfl, bind_ok]
  simp only
  rw [if_pos]
  · rfl
  · rintro ⟨h1, h2, h3, h4⟩
    obtain ⟨m, hm, e⟩ := List.mem_map.1 h4
    have := g.dec_inGrid (List.mem_range.1 hm)
    rw [e] at this
    obtain ⟨a, b, c⟩ := this
    simp only at a b c
    omega

lemma lookup_some {α : Type} (g : Dims) (all : List α) (c : ℤ × ℤ × ℤ) (ic : List ℕ) (h : g.getCellIcoords c = .ok ic) :
    g.lookup all none (some c) = g.atIcoords all ic := by
  unfold lookup; simp only; rw [h]; rfl

lemma at_ok {α : Type} (g : Dims) (f : ℕ → α) (ic : List ℕ) (m : ℕ) (hm : m < g.getN true)
    (h3 : (ic.length = (g.getFshape true).length ∧ List.Forall₂ (· < ·) ic (g.getFshape true)) ∨
        (ic = [] ∧ g.getFshape true = [1])) (h4 : flatIdx (g.getFshape true) ic 0 = m) :
    g.atIcoords ((List.range (g.getN true)).map f) ic = .ok (f m) := by
  simp only [atIcoords]; rw [if_pos h3, h4]; simp [hm]

lemma lookup_coords3 {α : Type} (g : Dims) (c : Cell) (hc : InGrid g.nx g.ny g.nz c) (h : g.unify = true ∨ g.getD = 3)
    (f : ℕ → α) : g.lookup ((List.range (g.getN true)).map f) none (some ((c.1 : ℤ), (c.2.1 : ℤ), (c.2.2 : ℤ))) =
      .ok (f (g.num c)) := by
  rw [lookup_some g _ _ _ ((icoords_eq g c hc).trans (if_neg (by rcases h with h | h <;> simp [h])))]
  refine at_ok g f _ _ (g.num_lt hc) ?_ ?_
  · obtain ⟨h1, h2, h3⟩ := hc
    rw [fshape3 g h]; exact Or.inl ⟨rfl, by simp [h1, h2, h3]⟩
  · rw [fshape3 g h]; simp [flatIdx, num, cellNumber, number]; ring

lemma lookup_coords_inner {α : Type} (g : Dims) (c : Cell) (hc : Interior g.nx g.ny g.nz c)
    (f : ℕ → α) : g.lookup ((List.range (g.getN true)).map f) none (some ((c.1 : ℤ), (c.2.1 : ℤ), (c.2.2 : ℤ))) =
      .ok (f (g.num c)) := by
  by_cases h : g.unify = true ∨ g.getD = 3
  · exact lookup_coords3 g c (Interior.inGrid hc) h f
  have hg := Interior.inGrid hc
  have hlt := g.num_lt hg
  have hu : g.unify = false := by
    cases hu : g.unify
    · rfl
    · exact absurd (Or.inl hu) h
  have hD : g.getD ≠ 3 := fun hD => h (Or.inr hD)
  have hD2 : g.getD ≤ 2 := by
    have : g.getD ≤ 3 := by unfold getD; split_ifs <;> omega
    omega
  obtain ⟨i, j, k⟩ := c
  obtain ⟨c1, c2, c3⟩ := hc
  have g' := hg
  obtain ⟨g1, g2, g3⟩ := g'
  have p0 : ∀ n, 1 < n → padded n = n + 2 := fun n h => by simp [padded, h]
  have q0 : ∀ n x, 1 < n → innerCoord n x → 0 < x := fun n x h hx => by simp [innerCoord, h] at hx; omega
  have q1 : ∀ n x, n = 1 → innerCoord n x → x = 0 := fun n x h hx => by subst h; simp [innerCoord] at hx; omega
  simp only at c1 c2 c3 g1 g2 g3
  have hic := icoords_eq g (i, j, k) hg
  rw [if_pos ⟨hu, hD2⟩] at hic
  have fin : ∀ ic, [k, j, i].filter (0 < ·) = ic → ic.length = g.getD → (((ic.length = (g.getFshape true).length ∧
      List.Forall₂ (· < ·) ic (g.getFshape true)) ∨ (ic = [] ∧ g.getFshape true = [1]))) →
      flatIdx (g.getFshape true) ic 0 = g.num (i, j, k) →
      g.lookup ((List.range (g.getN true)).map f) none (some ((i : ℤ), (j : ℤ), (k : ℤ))) = .ok (f (g.num (i, j, k))) := by
    intro ic h1 h2 h3 h4
    subst h1
    rw [if_pos h2] at hic
    rw [lookup_some g _ _ _ hic]
    exact at_ok g f _ _ hlt h3 h4
  refine g.cases8 ?_ ?_ ?_ ?_ ?_ ?_ ?_ ?_ <;> intro h1 h2 h3
  · have := q1 _ _ h1 c1; have := q1 _ _ h2 c2; have := q1 _ _ h3 c3; subst i j k
    refine fin [] (by simp) ?_ ?_ ?_ <;>
      simp [getFshape, getFdir_eq, getShape_true, getD_cases, hu, h1, h2, h3, flatIdx, num, cellNumber, number]
  · have a1 := q0 _ _ h1 c1; have := q1 _ _ h2 c2; have := q1 _ _ h3 c3; subst j k
    refine fin [i] (by simp [a1]) ?_ ?_ ?_ <;>
      simp [getFshape, getFdir_eq, getShape_true, getD_cases, hu, h1, h2, h3, flatIdx, num, cellNumber, number, padded_one, g1]
  · have := q1 _ _ h1 c1; have a1 := q0 _ _ h2 c2; have := q1 _ _ h3 c3; subst i k
    refine fin [j] (by simp [a1]) ?_ ?_ ?_ <;>
      simp [getFshape, getFdir_eq, getShape_true, getD_cases, hu, h1, h2, h3, flatIdx, num, cellNumber, number, padded_one, g2]
  · have := q1 _ _ h1 c1; have := q1 _ _ h2 c2; have a1 := q0 _ _ h3 c3; subst i j
    refine fin [k] (by simp [a1]) ?_ ?_ ?_ <;>
      simp [getFshape, getFdir_eq, getShape_true, getD_cases, hu, h1, h2, h3, flatIdx, num, cellNumber, number, padded_one, g3]
  · have a1 := q0 _ _ h1 c1; have a2 := q0 _ _ h2 c2; have := q1 _ _ h3 c3; subst k
    refine fin [j, i] (by simp [a1, a2]) ?_ ?_ ?_ <;>
      simp [getFshape, getFdir_eq, getShape_true, getD_cases, hu, h1, h2, h3, flatIdx, num, cellNumber, number, padded_one, g1, g2]
    ring
  · have a1 := q0 _ _ h1 c1; have := q1 _ _ h2 c2; have a2 := q0 _ _ h3 c3; subst j
    refine fin [k, i] (by simp [a1, a2]) ?_ ?_ ?_ <;>
      simp [getFshape, getFdir_eq, getShape_true, getD_cases, hu, h1, h2, h3, flatIdx, num, cellNumber, number, padded_one, g1, g3]
    ring
  · have := q1 _ _ h1 c1; have a1 := q0 _ _ h2 c2; have a2 := q0 _ _ h3 c3; subst i
    refine fin [k, j] (by simp [a1, a2]) ?_ ?_ ?_ <;>
      simp [getFshape, getFdir_eq, getShape_true, getD_cases, hu, h1, h2, h3, flatIdx, num, cellNumber, number, padded_one, g2, g3]
    ring
  · exact absurd (by simp [getD_cases, h1, h2, h3]) hD

end RF
