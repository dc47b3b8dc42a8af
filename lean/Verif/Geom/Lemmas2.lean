import Verif.Geom.Lemmas
import Mathlib.Algebra.BigOperators.Group.List.Basic
import Mathlib.Algebra.BigOperators.Ring.List
import Mathlib.Data.Finset.Dedup
/-! Lemmas for volumes, centres and corners. -/
set_option linter.unusedSimpArgs false
namespace RF
open Spec Dims

variable {K : Type} [Field K]

lemma map_zip3 {α : Type} (f : α → α → α) (n : ℕ) (u v : ℕ → α) :
    List.zipWith f ((List.range n).map u) ((List.range n).map v) = (List.range n).map fun i => f (u i) (v i) := by
  rw [List.zipWith_map, List.zipWith_self]

lemma GeomOf.d_eq {g : Dims} {s : Sizes K} {q : Geom K} (h : GeomOf g s q) (a : Axis) :
    q.d a = (List.range (g.getN true)).map fun id => s.along (g.dec id) a := by
  cases a <;> simp only [Geom.d, h.dx, h.dy, h.dz, Sizes.along]

lemma GeomOf.A_eq {g : Dims} {s : Sizes K} {q : Geom K} (h : GeomOf g s q) (a : Axis) :
    q.A a = (List.range (g.getN true)).map fun id => s.area (g.dec id) a := by
  cases a <;> simp only [Geom.A, h.dx, h.dy, h.dz, Sizes.area, map_zip3]

lemma GeomOf.V_eq {g : Dims} {s : Sizes K} {q : Geom K} (h : GeomOf g s q) :
    q.V = (List.range (g.getN true)).map fun id => s.volume (g.dec id) := by
  simp only [Geom.V, h.dx, h.dy, h.dz, Sizes.volume, map_zip3]

lemma lookup_id {α : Type} (g : Dims) (c : Cell) (hc : InGrid g.nx g.ny g.nz c) (f : ℕ → α)
    (o : Option (ℤ × ℤ × ℤ)) :
    g.lookup ((List.range (g.getN true)).map f) (some (g.num c : ℕ)) o = .ok (f (g.num c)) := by
  have := g.num_lt hc
  simp only [lookup, Geom.pyGet]
  rw [if_neg (show ¬ ((g.num c : ℕ) : ℤ) < 0 by omega), if_pos (by omega)]
  simp [this]

lemma pick_ok {α : Type} (n : ℕ) (f : ℕ → α) (ids : List ℕ) (h : ∀ i ∈ ids, i < n) :
    Geom.pick ((List.range n).map f) ids = .ok (ids.map f) := by
  unfold Geom.pick
  refine mapM_ok _ _ _ fun i hi => ?_
  simp [h i hi]

lemma cells_false {α : Type} (g : Dims) (f : ℕ → α) :
    Geom.cells g ((List.range (g.getN true)).map f) false = .ok (g.innerIds.map f) := by
  unfold Geom.cells
  rw [if_neg (by simp), getCellsId_false]
  exact pick_ok _ _ _ fun i hi => g.innerIds_lt hi

/-! ## sums -/

lemma boxIds_range (X Y Z : ℕ) : boxIds X Y (List.range Z) (List.range Y) (List.range X) = List.range (X * Y * Z) := by
  rw [show X * Y * Z = Z * (Y * X) by ring, range_mul]
  unfold boxIds
  refine List.flatMap_congr fun k _ => ?_
  rw [range_mul, List.map_flatMap]
  refine List.flatMap_congr fun j _ => ?_
  rw [List.map_map]
  refine List.map_congr_left fun i _ => ?_
  simp [number]; ring

lemma sum_flatMap' {α : Type} (l : List α) (f : α → List K) : (l.flatMap f).sum = (l.map fun a => (f a).sum).sum := by
  induction l with
  | nil => simp
  | cons a t ih => simp [ih]

lemma sum_boxIds (X Y : ℕ) (ks js is : List ℕ) (f h w : ℕ → K) (hi : ∀ i ∈ is, i < X) (hj : ∀ j ∈ js, j < Y) :
    ((boxIds X Y ks js is).map fun id => f (decode X Y id).1 * h (decode X Y id).2.1 * w (decode X Y id).2.2).sum =
      (is.map f).sum * (js.map h).sum * (ks.map w).sum := by
  unfold boxIds
  rw [List.map_flatMap, sum_flatMap']
  rw [show (ks.map fun k => (List.map (fun id => f (decode X Y id).1 * h (decode X Y id).2.1 * w (decode X Y id).2.2)
    (js.flatMap fun j => is.map fun i => number X Y (i, j, k))).sum) =
      ks.map fun k => (is.map f).sum * (js.map h).sum * w k from ?_, List.sum_map_mul_left]
  refine List.map_congr_left fun k _ => ?_
  rw [List.map_flatMap, sum_flatMap']
  rw [show (js.map fun j => (List.map (fun id => f (decode X Y id).1 * h (decode X Y id).2.1 * w (decode X Y id).2.2)
    (is.map fun i => number X Y (i, j, k))).sum) = js.map fun j => ((is.map f).sum * w k) * h j from ?_,
    List.sum_map_mul_left]
  · ring
  refine List.map_congr_left fun j hjm => ?_
  rw [List.map_map]
  rw [show (is.map ((fun id => f (decode X Y id).1 * h (decode X Y id).2.1 * w (decode X Y id).2.2) ∘
    fun i => number X Y (i, j, k))) = is.map fun i => f i * (h j * w k) from ?_, List.sum_map_mul_right]
  · ring
  refine List.map_congr_left fun i him => ?_
  simp only [Function.comp_apply]
  rw [decode_number (c := (i, j, k)) (hi i him) (hj j hjm)]; ring

lemma sum_range_list (n : ℕ) (f : ℕ → K) : ((List.range n).map f).sum = ∑ i ∈ Finset.range n, f i := by
  rw [← List.sum_toFinset f List.nodup_range]; congr 1; ext; simp

lemma sum_innerList {n : ℕ} (hn : 1 ≤ n) (f : ℕ → K) :
    ((innerList n).map f).sum = ∑ i ∈ (Finset.range (padded n)).filter (innerCoord n), f i := by
  rw [← List.sum_toFinset f ((innerList_sorted n).imp Nat.ne_of_lt)]
  congr 1; ext i
  simp only [List.mem_toFinset, Finset.mem_filter, Finset.mem_range]
  exact ⟨fun h => ⟨innerList_lt hn h, (mem_innerList hn).1 h⟩, fun h => (mem_innerList hn).2 h.2⟩

/-! ## centres -/

lemma cumsum_get (l : List K) (acc : K) (i : ℕ) (h : i < l.length) :
    (Geom.cumsum l acc)[i]? = some (acc + (l.take (i + 1)).sum) := by
  induction l generalizing acc i with
  | nil => simp at h
  | cons a t ih =>
    cases i with
    | zero => simp [Geom.cumsum]
    | succ i => simp only [List.length_cons] at h; simp [Geom.cumsum, ih _ i (by omega), add_assoc]

lemma cumsum_length (l : List K) (acc : K) : (Geom.cumsum l acc).length = l.length := by
  induction l generalizing acc with
  | nil => rfl
  | cons a t ih => simp [Geom.cumsum, ih]

lemma center_eq (d : List K) (nb : ℕ) (f : ℕ → K) (h1 : 1 ≤ nb) (h : d.take nb = (List.range nb).map f) :
    Geom.calcDCenter d nb = (List.range nb).map fun i => (∑ m ∈ Finset.range i, f m) + f i / 2 := by
  have hl : nb ≤ d.length := by
    have := congrArg List.length h; simp at this; exact this
  have hd : ∀ i, i < nb → d[i]? = some (f i) := by
    intro i hi
    have := congrArg (·[i]?) h
    simp only [List.getElem?_take, List.getElem?_map, List.getElem?_range hi, hi, if_true, Option.map_some] at this
    exact this
  have hsum : ∀ i, i ≤ nb → (d.take i).sum = ∑ m ∈ Finset.range i, f m := by
    intro i hi
    have : d.take i = (List.range i).map f := by
      have := congrArg (List.take i) h
      rw [List.take_take, Nat.min_eq_left hi, ← List.map_take, List.take_range, Nat.min_eq_left hi] at this
      exact this
    rw [this, sum_range_list]
  apply List.ext_getElem?
  intro i
  by_cases hi : i < nb
  · rw [List.getElem?_map, List.getElem?_range hi]
    unfold Geom.calcDCenter
    simp only [List.getElem?_take, hi, if_true, Option.map_some]
    cases i with
    | zero =>
      rw [List.getElem?_append_left (by simp; omega)]
      simp [hd 0 hi]
    | succ i =>
      rw [List.getElem?_append_right (by simp)]
      have e : i + 1 - (List.take 1 (d.map (· / 2))).length = i := by
        simp; omega
      rw [e, List.getElem?_zipWith, List.getElem?_drop, cumsum_get _ _ _ (by simp; omega), Nat.add_comm 1 i,
        List.getElem?_map, hd _ hi]
      simp only [Option.map_some]
      have : d.dropLast.take (i + 1) = d.take (i + 1) := by
        rw [List.dropLast_eq_take, List.take_take]; congr 1; omega
      rw [this, hsum _ (by omega)]
      simp only [zero_add]; congr 1; ring
  · have : (Geom.calcDCenter d nb).length ≤ i := by
      unfold Geom.calcDCenter; simp; omega
    rw [List.getElem?_eq_none this, List.getElem?_eq_none (by simp; omega)]

lemma GeomOf.centers_eq {g : Dims} {s : Sizes K} {q : Geom K} (h : GeomOf g s q) :
    q.centers g = (List.range (g.getN true)).map fun id => s.center (g.dec id) := by
  have hp : ∀ n, 1 ≤ n → 1 ≤ padded n := fun n h => by unfold padded; split_ifs <;> omega
  unfold Geom.centers
  rw [g.nxb_eq, g.nyb_eq, g.nzb_eq, center_eq _ _ _ (hp _ g.hx) h.x_, center_eq _ _ _ (hp _ g.hy) h.y_,
    center_eq _ _ _ (hp _ g.hz) h.z_, getN_true, ← boxIds_range]
  simp only [meshgrid, List.length_map, List.length_range]
  unfold boxIds
  rw [List.map_flatMap]
  refine List.flatMap_congr fun k hk => ?_
  rw [List.map_flatMap]
  refine List.flatMap_congr fun j hj => ?_
  rw [List.map_map]
  refine List.map_congr_left fun i hi => ?_
  rw [List.mem_range] at hi hj hk
  simp only [Function.comp_apply]
  rw [getD_map_range _ _ _ hi, getD_map_range _ _ _ hj, getD_map_range _ _ _ hk]
  have : g.dec (number (padded g.nx) (padded g.ny) (i, j, k)) = (i, j, k) := decode_number hi hj
  rw [this]; rfl

/-! ## corners -/

lemma repeat_get {α : Type} (l : List α) (m p : ℕ) (hm : 0 < m) : (Geom.repeat_ l m)[p]? = l[p / m]? := by
  induction l generalizing p with
  | nil => simp [Geom.repeat_]
  | cons a t ih =>
    unfold Geom.repeat_ at *
    rw [List.flatMap_cons]
    by_cases h : p < m
    · rw [List.getElem?_append_left (by simpa using h), Nat.div_eq_of_lt h]; simp [h]
    · rw [List.getElem?_append_right (by simp; omega), List.length_replicate, ih]
      have : p / m = (p - m) / m + 1 := by
        rw [Nat.div_eq_sub_div hm (by omega)]
      rw [this]; simp

lemma repeat_length {α : Type} (l : List α) (m : ℕ) : (Geom.repeat_ l m).length = l.length * m := by
  simp [Geom.repeat_, List.length_flatMap]

lemma tile_length {α : Type} (l : List α) (m : ℕ) : (Geom.tile l m).length = m * l.length := by
  simp [Geom.tile]

lemma tile_get {α : Type} (l : List α) (m p : ℕ) (hp : p < m * l.length) : (Geom.tile l m)[p]? = l[p % l.length]? := by
  induction m generalizing p with
  | zero => simp at hp
  | succ m ih =>
    unfold Geom.tile at *
    rw [List.replicate_succ, List.flatten_cons]
    by_cases h : p < l.length
    · rw [List.getElem?_append_left h, Nat.mod_eq_of_lt h]
    · rw [List.getElem?_append_right (by omega), ih _ (by rw [Nat.succ_mul] at hp; omega),
        Nat.mod_eq_sub_mod (a := p) (by omega)]

lemma doubled_length {α : Type} (e : List α) : (Geom.doubled e).length = e.length * 2 - 2 := by
  simp [Geom.doubled, repeat_length]; omega

lemma doubled_get {α : Type} (e : List α) (a : ℕ) (h : a + 2 < e.length * 2) : (Geom.doubled e)[a]? = e[(a + 1) / 2]? := by
  unfold Geom.doubled
  rw [List.getElem?_dropLast, if_pos (by simp [repeat_length]; omega), List.getElem?_drop, repeat_get _ _ _ (by omega),
    Nat.add_comm]

end RF
