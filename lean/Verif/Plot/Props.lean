import Verif.Plot.Model
import Verif.Geom.Props
import Verif.Table.Props
import Verif.Scaler.Props
/-!
# C82: a picture of a model shows every cell's own value in its own place
-/
set_option linter.unusedSimpArgs false
set_option linter.unusedSectionVars false
namespace RF
open Dims Spec

/-! ## Specification -/

/-- Mesh cell `m` is the box of cell `c`: each of its eight corners is the corresponding corner of the box that the size arguments cut out. -/
def Mesh.Draws {K : Type} [Field K] (M : Mesh K) (s : Sizes K) (m : ℕ) (c : Cell) : Prop :=
  ∀ a b e : ℕ, a < 2 → b < 2 → e < 2 → M.corner m a b e = some (offset s.x (c.1 + a), offset s.y (c.2.1 + b), offset s.z (c.2.2 + e))

/-- The cells of a picture: all, or without boundary cells. -/
def Shown (g : Dims) (boundary : Bool) (c : Cell) : Prop := if boundary then InGrid g.nx g.ny g.nz c else Interior g.nx g.ny g.nz c

/-- A row of a table has an entry for every cell of the padded grid. -/
def Wide {K : Type} (g : Dims) (T : List (List (Option K))) : Prop := ∀ r ∈ T, r.length = padded g.nx * padded g.ny * padded g.nz

/-- The numbers among the entries of `v`. -/
def Number {K : Type} (v : List (Option K)) (x : K) : Prop := some x ∈ v

/-- `r` spans the numbers of `v`: it holds all of them and its ends are among them; without a number there is no range. -/
def Spans {K : Type} [LinearOrder K] (v : List (Option K)) : Option (K × K) → Prop
  | none => ∀ x, ¬ Number v x
  | some (a, b) => Number v a ∧ Number v b ∧ ∀ x, Number v x → a ≤ x ∧ x ≤ b

/-! ## Lemmas -/

/-- The coordinate of the `i`-th inner layer. -/
def shiftC (n i : ℕ) : ℕ := i + if 1 < n then 1 else 0

lemma innerList_get {n i : ℕ} (h1 : 1 ≤ n) (h : i < n) : (innerList n)[i]? = some (shiftC n i) := by
  unfold innerList shiftC
  split_ifs with hn
  · rw [List.getElem?_range' h]; simp; omega
  · obtain rfl : i = 0 := by omega
    rfl

lemma shiftC_inner {n i : ℕ} (h : i < n) : innerCoord n (shiftC n i) := by
  unfold shiftC innerCoord; split_ifs <;> omega

lemma shiftC_surj {n c : ℕ} (h1 : 1 ≤ n) (h : innerCoord n c) : ∃ i < n, c = shiftC n i := by
  unfold innerCoord at h; unfold shiftC
  split_ifs at *
  · exact ⟨c - 1, by omega, by omega⟩
  · exact ⟨c, h, rfl⟩

/-- Where an interior cell stands among the interior cells. -/
lemma innerIds_at (g : Dims) {i j k : ℕ} (hi : i < g.nx) (hj : j < g.ny) (hk : k < g.nz) :
    g.innerIds[number g.nx g.ny (i, j, k)]? = some (g.num (shiftC g.nx i, shiftC g.ny j, shiftC g.nz k)) := by
  unfold innerIds boxIds
  have e : number g.nx g.ny (i, j, k) = k * (g.ny * g.nx) + (j * g.nx + i) := by simp [number]; ring
  have hlt : j * g.nx + i < g.ny * g.nx := by nlinarith
  rw [e, flatMap_get _ _ (g.ny * g.nx) (fun a _ => by
    simp [List.length_flatMap, length_innerList g.hx, length_innerList g.hy]) _ _ hlt, innerList_get g.hz hk]
  simp only [Option.bind_some]
  rw [flatMap_get _ _ g.nx (fun a _ => by simp [length_innerList g.hx]) _ _ hi, innerList_get g.hy hj]
  simp only [Option.bind_some]
  rw [List.getElem?_map, innerList_get g.hx hi]
  rfl

lemma getShape_eq (g : Dims) (b : Bool) :
    g.getShape b = (if b then padded g.nx else g.nx, if b then padded g.ny else g.ny, if b then padded g.nz else g.nz) := by
  cases b
  · simp [getShape]
  · simpa using g.getShape_true

lemma padded_pos' {n : ℕ} (h : 1 ≤ n) : 1 ≤ padded n := by unfold padded; split_ifs <;> omega

/-- The cell at a place of the mesh. -/
def placed (g : Dims) (b : Bool) (p : Cell) : Cell := if b then p else (shiftC g.nx p.1, shiftC g.ny p.2.1, shiftC g.nz p.2.2)

/-- A place of the mesh. -/
def InMesh (g : Dims) (b : Bool) (p : Cell) : Prop := p.1 < (g.getShape b).1 ∧ p.2.1 < (g.getShape b).2.1 ∧ p.2.2 < (g.getShape b).2.2

lemma placed_shown (g : Dims) (b : Bool) {p : Cell} (h : InMesh g b p) : Shown g b (placed g b p) := by
  unfold InMesh at h; rw [getShape_eq] at h
  cases b
  · exact ⟨shiftC_inner (by simpa using h.1), shiftC_inner (by simpa using h.2.1), shiftC_inner (by simpa using h.2.2)⟩
  · exact (⟨by simpa using h.1, by simpa using h.2.1, by simpa using h.2.2⟩ : InGrid g.nx g.ny g.nz p)

lemma shown_placed (g : Dims) (b : Bool) {c : Cell} (h : Shown g b c) : ∃ p, InMesh g b p ∧ c = placed g b p := by
  unfold InMesh; rw [getShape_eq]
  cases b
  · obtain ⟨h1, h2, h3⟩ := h
    obtain ⟨i, hi, e1⟩ := shiftC_surj g.hx h1
    obtain ⟨j, hj, e2⟩ := shiftC_surj g.hy h2
    obtain ⟨k, hk, e3⟩ := shiftC_surj g.hz h3
    exact ⟨(i, j, k), ⟨by simpa using hi, by simpa using hj, by simpa using hk⟩, Prod.ext e1 (Prod.ext e2 e3)⟩
  · exact ⟨c, ⟨by simpa using h.1, by simpa using h.2.1, by simpa using h.2.2⟩, rfl⟩

/-- The number of a place of the mesh. -/
def placeNo (g : Dims) (b : Bool) (p : Cell) : ℕ := number (g.getShape b).1 (g.getShape b).2.1 p

lemma placeNo_lt (g : Dims) (b : Bool) {p : Cell} (h : InMesh g b p) : placeNo g b p < g.getN b := number_lt h.1 h.2.1 h.2.2

lemma place_of (g : Dims) (b : Bool) {m : ℕ} (h : m < g.getN b) : ∃ p, InMesh g b p ∧ placeNo g b p = m := by
  have hs : ∀ n, 1 ≤ n → 1 ≤ if b then padded n else n := fun n h => by split_ifs; exacts [padded_pos' h, h]
  have h1 := hs _ g.hx; have h2 := hs _ g.hy
  refine ⟨decode (g.getShape b).1 (g.getShape b).2.1 m, ⟨?_, ?_, ?_⟩, number_decode _ _ _⟩
  · exact Nat.mod_lt _ (by rw [getShape_eq]; exact h1)
  · exact Nat.mod_lt _ (by rw [getShape_eq]; exact h2)
  · simp only [decode]
    unfold getN at h
    rw [Nat.div_div_eq_div_mul]
    rw [Nat.div_lt_iff_lt_mul (by rw [getShape_eq]; exact Nat.mul_pos h1 h2)]
    calc m < _ := h
      _ = _ := by ring

lemma cellsOf_get (g : Dims) (b : Bool) {p : Cell} (h : InMesh g b p) : (g.cellsOf b)[placeNo g b p]? = some (g.num (placed g b p)) := by
  cases b
  · have h' := h
    unfold InMesh at h'; rw [getShape_eq] at h'
    unfold placeNo
    rw [getShape_eq]
    exact innerIds_at g (by simpa using h'.1) (by simpa using h'.2.1) (by simpa using h'.2.2)
  · have := placeNo_lt g true h
    simp only [cellsOf, if_true, List.getElem?_range this]
    simp [placeNo, placed, getShape_true, num, cellNumber]

lemma cellsOf_length (g : Dims) (b : Bool) : (g.cellsOf b).length = g.getN b := by
  cases b
  · simp [cellsOf, length_innerIds, getN, getShape_eq]
  · simp [cellsOf]

section
variable {K : Type} [Field K] [LinearOrder K] [IsStrictOrderedRing K] [FloorRing K]

lemma mesh_ok (g : Dims) (s : Sizes K) (q : Geom K) (hq : Geom.calc g s.x s.y s.z = .ok q)
    (h0 : ∀ a, ¬ Flow g.nx g.ny g.nz a → s.along (0, 0, 0) a ≠ 0) (b : Bool) :
    ∃ M, pyvistaGrid g q b = .ok M ∧ M.shape = g.getShape b ∧ ∀ p, InMesh g b p → M.Draws s (placeNo g b p) (placed g b p) := by
  obtain ⟨pts, h1, -, h3⟩ := C16_corners g s q hq h0 b _ _ _ rfl rfl rfl
  refine ⟨⟨g.getShape b, pts⟩, by simp [pyvistaGrid, h1, Dims.bind_ok]; try rfl, rfl, fun p hp a b' e ha hb he => ?_⟩
  have hd := decode_number (c := p) hp.1 hp.2.1
  have hp' := hp
  unfold InMesh at hp'; rw [getShape_eq] at hp'
  have := h3 p.1 p.2.1 p.2.2 a b' e hp'.1 hp'.2.1 hp'.2.2 ha hb he
  obtain ⟨i, j, k⟩ := p
  simp only [decode, Prod.mk.injEq] at hd
  unfold Mesh.corner placeNo
  simp only
  rw [hd.1, hd.2.1, ← Nat.div_div_eq_div_mul, hd.2.2]
  rw [getShape_eq]
  simp only [number] at this
  refine this.trans ?_
  cases b <;> simp [placed, shiftC, add_right_comm]

lemma nanRange_spans (v : List (Option K)) : Spans v (nanRange v) := by
  have hm : ∀ x, x ∈ v.filterMap id ↔ Number v x := fun x => by simp [Number]
  unfold nanRange
  cases h : v.filterMap id with
  | nil => intro x hx; rw [← hm, h] at hx; simp at hx
  | cons a l =>
    have h1 := minL_spec a l
    have h2 := maxL_spec a l
    refine ⟨(hm _).1 (h ▸ h1.1), (hm _).1 (h ▸ h2.1), fun x hx => ?_⟩
    rw [← hm, h] at hx
    exact ⟨h1.2 x hx, h2.2 x hx⟩

lemma sum_bounds (l : List K) (a b : K) (h : ∀ x ∈ l, a ≤ x ∧ x ≤ b) : l.length * a ≤ l.sum ∧ l.sum ≤ l.length * b := by
  induction l with
  | nil => simp
  | cons x l ih =>
    have h1 := h x (by simp)
    have h2 := ih fun y hy => h y (by simp [hy])
    simp only [List.length_cons, List.sum_cons]
    push_cast
    constructor <;> nlinarith

/-- The average is the average of the numbers, and lies in their range. -/
lemma nanMean_spec (v : List (Option K)) : (nanMean v = none ↔ nanRange v = none) ∧
    ∀ x, nanMean v = some x → x * (v.filterMap id).length = (v.filterMap id).sum ∧ ∀ r, nanRange v = some r → r.1 ≤ x ∧ x ≤ r.2 := by
  have hs := nanRange_spans v
  unfold nanMean
  by_cases h : v.filterMap id = []
  · have : nanRange v = none := by unfold nanRange; rw [h]
    simp only [if_pos h, this]
    simp
  · have hne : ((v.filterMap id).length : K) ≠ 0 := by
      simpa [List.length_eq_zero_iff] using h
    have hpos : (0 : K) < (v.filterMap id).length := lt_of_le_of_ne (Nat.cast_nonneg _) (Ne.symm hne)
    refine ⟨?_, ?_⟩
    · simp only [if_neg h]
      unfold nanRange
      cases h' : v.filterMap id with
      | nil => exact absurd h' h
      | cons a l => simp
    · simp only [if_neg h]
      rintro x hx
      cases hx
      refine ⟨div_mul_cancel₀ _ hne, fun r hr => ?_⟩
      rw [hr] at hs
      obtain ⟨-, -, hb⟩ := hs
      have := sum_bounds (v.filterMap id) r.1 r.2 fun x hx => hb x (by simpa [Number] using hx)
      rw [le_div_iff₀ hpos, div_le_iff₀ hpos]
      exact ⟨by linarith [this.1], by linarith [this.2]⟩

/-- The shown entries of a row. -/
def shownRow (g : Dims) (b : Bool) (r : List (Option K)) : List (Option K) := (g.cellsOf b).map fun id => (r[id]?).getD none

lemma shownRow_length (g : Dims) (b : Bool) (r : List (Option K)) : (shownRow g b r).length = g.getN b := by simp [shownRow, cellsOf_length]

lemma shownRow_get (g : Dims) (b : Bool) (r : List (Option K)) (hr : r.length = g.getN true) {p : Cell} (h : InMesh g b p) :
    (shownRow g b r)[placeNo g b p]? = r[g.num (placed g b p)]? := by
  have hs := placed_shown g b h
  have hin : InGrid g.nx g.ny g.nz (placed g b p) := by
    cases b
    · exact Dims.Interior.inGrid hs
    · exact hs
  have hlt := g.num_lt hin
  rw [shownRow, List.getElem?_map, cellsOf_get g b h]
  rw [List.getElem?_eq_getElem (by omega)]
  simp [List.getElem?_eq_getElem (show g.num (placed g b p) < r.length by omega)]

lemma wide_iff (g : Dims) (T : List (List (Option K))) (h : Wide g T) : ∀ r ∈ T, r.length = g.getN true := fun r hr => by
  rw [getN_true]; exact h r hr

lemma modelValues_ok {lower : String → String} {g : Dims} {press rates T : List (List (Option K))} {prop : String}
    (hT : lower prop ∈ ["p", "pressure", "pressures"] ∧ T = press ∨ lower prop ∈ ["q", "rate", "rates"] ∧ T = rates) (hw : Wide g T) (b : Bool) :
    modelValues lower g press rates prop b = .ok (T.map (shownRow g b)) := by
  have hw' := wide_iff g T hw
  have e : modelTable lower press rates prop = Except.ok T := by
    unfold modelTable
    rcases hT with ⟨h, rfl⟩ | ⟨h, rfl⟩
    · rw [if_pos h]
    · have : ¬ lower prop ∈ ["p", "pressure", "pressures"] := by
        intro h'
        simp only [List.mem_cons, List.not_mem_nil, or_false] at h h'
        rcases h with h | h | h <;> rw [h] at h' <;> revert h' <;> decide
      rw [if_neg this, if_pos h]
  unfold modelValues
  rw [e, Dims.bind_ok]
  cases b
  · simp only [Bool.false_eq_true, if_false]
    rw [g.getCellsId_false, Dims.bind_ok]
    refine mapM_ok _ _ _ fun r hr => ?_
    unfold Geom.pick
    refine mapM_ok _ _ _ fun i hi => ?_
    have := g.innerIds_lt hi
    rw [List.getElem?_eq_getElem (by rw [hw' r hr]; exact this)]
    simp
  · simp only [if_true]
    show Except.ok T = _
    congr 1
    symm
    refine (List.map_congr_left fun r hr => ?_).trans (List.map_id T)
    apply List.ext_getElem?
    intro i
    have hl := hw' r hr
    by_cases hi : i < r.length
    · simp [shownRow, cellsOf, List.getElem?_range (show i < g.getN true by omega), List.getElem?_eq_getElem hi]
    · rw [List.getElem?_eq_none (by rw [shownRow_length]; omega), List.getElem?_eq_none (by simpa using hi)]

lemma mkFrame_ok (values : List (List (Option K))) (dates : List K) (t : ℕ) (r : List (Option K)) (d : K) (hr : values[t]? = some r) (hd : dates[t]? = some d) :
    mkFrame values dates t = .ok ⟨r, d, t, nanMean r, nanRange r⟩ := by
  unfold mkFrame; rw [hr, hd]; rfl

lemma flatten_ne {α : Type} {l : List (List α)} {r : List α} (h : r ∈ l) (hr : r ≠ []) : l.flatten ≠ [] := by
  intro e
  rw [List.flatten_eq_nil_iff] at e
  exact hr (e r h)

lemma getN_pos (g : Dims) (b : Bool) : 0 < g.getN b := by
  have hs : ∀ n, 1 ≤ n → 0 < if b then padded n else n := fun n h => by split_ifs; exacts [padded_pos' h, h]
  unfold getN
  rw [getShape_eq]
  exact Nat.mul_pos (Nat.mul_pos (hs _ g.hx) (hs _ g.hy)) (hs _ g.hz)

/-! ## Theorems -/

/-- Names of the property to be shown, with the table each of them stands for. -/
def Means (lower : String → String) (t : TInput K) (prop : String) (T : List (List (Option K))) : Prop :=
  lower prop ∈ ["p", "pressure", "pressures"] ∧ T = t.press ∨ lower prop ∈ ["q", "rate", "rates"] ∧ T = t.rates

/-- The frame of step `τ` shows the row of step `τ` of the table `T`: `at_ m` is the cell that mesh cell `m` draws. -/
structure Faithful (g : Dims) (t : TInput K) (T : List (List (Option K))) (n : ℕ) (at_ : ℕ → Cell) (τ : ℕ) (f : PFrame K) : Prop where
  step : f.step = τ
  day : f.day = τ * t.dt
  size : f.data.length = n
  value : ∀ m < n, ∃ v, f.data[m]? = some v ∧ (T[τ]?).bind (·[cellNumber g.nx g.ny (at_ m)]?) = some v
  range : Spans f.data f.range
  none_avg : f.avg = none ↔ ∀ x, ¬ Number f.data x
  avg : ∀ x, f.avg = some x → x * (f.data.filterMap id).length = (f.data.filterMap id).sum

/-- **C82** For every grid, both boundary settings, every property name and every history of complete runs, an animation has one frame for every step. The mesh draws exactly the shown
cells, each one once and as its own box. In the frame of step `τ` each of them has the value stored for that cell at step `τ`, and the text gives the day, the number of the step and the
average, minimum and maximum of what is shown. The colour limits are the smallest and the largest number of the whole animation. -/
theorem C82_frames (lower : String → String) (g : Dims) (s : Sizes K) (q : Geom K) (hq : Geom.calc g s.x s.y s.z = .ok q)
    (h0 : ∀ a, ¬ Flow g.nx g.ny g.nz a → s.along (0, 0, 0) a ≠ 0) (t : TInput K) (ht : t.Consistent) (prop : String) (T : List (List (Option K)))
    (hT : Means lower t prop T) (hw : Wide g T) (b : Bool) :
    ∃ P n at_, saveGif lower g q t prop b = .ok P ∧ P.frames.length = t.nsteps ∧
      n = P.mesh.shape.1 * P.mesh.shape.2.1 * P.mesh.shape.2.2 ∧
      (∀ m < n, Shown g b (at_ m) ∧ P.mesh.Draws s m (at_ m)) ∧
      (∀ c, Shown g b c → ∃! m, m < n ∧ at_ m = c) ∧
      (∀ τ f, P.frames[τ]? = some f → Faithful g t T n at_ τ f) ∧
      Spans (P.frames.flatMap (·.data)) P.limits ∧
      (P.decimals = true ↔ ∃ x, Number (P.frames.flatMap (·.data)) x ∧ x < 1) ∧
      (∀ slide : List ℕ, (∀ τ ∈ slide, τ < t.nsteps) → ∃ P', showModel lower g q t prop b slide = .ok P' ∧ P'.mesh = P.mesh ∧ P'.limits = P.limits ∧
        P'.decimals = P.decimals ∧ P'.notes = P.notes ∧ P'.frames.map some = ((t.nsteps - 1) :: slide).map (P.frames[·]?)) := by
  obtain ⟨M, hM, hsh, hdr⟩ := mesh_ok g s q hq h0 b
  have hv := modelValues_ok (press := t.press) (rates := t.rates) hT hw b
  have hTl : T.length = t.nsteps := by
    rcases hT with ⟨-, rfl⟩ | ⟨-, rfl⟩
    · exact ht.press
    · exact ht.rates
  have hpos : 0 < t.nsteps := by rw [ht.steps]; omega
  set V := T.map (shownRow g b) with hV
  have hVl : V.length = t.nsteps := by rw [hV, List.length_map, hTl]
  have hne : V.flatten ≠ [] := by
    have h0' : (V[0]'(by omega)) ∈ V := List.getElem_mem _
    refine flatten_ne h0' ?_
    have : (V[0]'(by omega)).length = g.getN b := by simp [hV, shownRow_length]
    intro e
    rw [e] at this
    exact absurd this (by have := getN_pos g b; simp; omega)
  let fr : ℕ → PFrame K := fun τ => ⟨V.getD τ [], τ * t.dt, τ, nanMean (V.getD τ []), nanRange (V.getD τ [])⟩
  have hfr : ∀ τ < t.nsteps, mkFrame V (plotDates t) τ = .ok (fr τ) := fun τ hτ => by
    refine mkFrame_ok _ _ _ _ _ ?_ ?_
    · rw [List.getD_eq_getElem?_getD, List.getElem?_eq_getElem (by omega)]; rfl
    · unfold plotDates
      rw [List.getElem?_map, List.getElem?_range (by have := ht.steps; omega)]; rfl
  have hfs : (List.range t.nsteps).mapM (mkFrame V (plotDates t)) = .ok ((List.range t.nsteps).map fr) :=
    mapM_ok _ _ _ fun τ hτ => hfr τ (List.mem_range.1 hτ)
  have hlim : limitsFmt V = .ok (nanRange V.flatten, belowOne (nanRange V.flatten)) := by
    unfold limitsFmt; rw [if_neg hne]
  have hflat : ((List.range t.nsteps).map fr).flatMap (·.data) = V.flatten := by
    rw [List.flatMap_map, List.flatMap_def]
    congr 1
    apply List.ext_getElem?
    intro i
    by_cases hi : i < t.nsteps
    · simp [fr, List.getElem?_range hi, List.getD_eq_getElem?_getD, List.getElem?_eq_getElem (show i < V.length by omega)]
    · rw [List.getElem?_eq_none (by simpa using hi), List.getElem?_eq_none (by omega)]
  have hN : g.getN b = M.shape.1 * M.shape.2.1 * M.shape.2.2 := by rw [hsh]; rfl
  have hpl : ∀ m, ∃ p, m < g.getN b → InMesh g b p ∧ placeNo g b p = m := fun m => by
    by_cases h : m < g.getN b
    · obtain ⟨p, hp⟩ := place_of g b h; exact ⟨p, fun _ => hp⟩
    · exact ⟨(0, 0, 0), fun h' => absurd h' h⟩
  choose pl hpl using hpl
  refine ⟨⟨M, nanRange V.flatten, belowOne (nanRange V.flatten), annotations V, (List.range t.nsteps).map fr⟩, g.getN b, fun m => placed g b (pl m), ?_, by simp, hN, fun m hm => ?_, fun c hc => ?_,
    fun τ f hf => ?_, ?_, ?_, fun slide hsl => ?_⟩
  · unfold saveGif
    rw [hv, Dims.bind_ok, hlim, Dims.bind_ok]
    simp only
    rw [hM, Dims.bind_ok, hfs, Dims.bind_ok]
    rfl
  · obtain ⟨h1, h2⟩ := hpl m hm
    have := hdr _ h1
    rw [h2] at this
    exact ⟨placed_shown g b h1, this⟩
  · obtain ⟨p, hp, rfl⟩ := shown_placed g b hc
    have inj : ∀ p p', placed g b p = placed g b p' → p = p' := by
      rintro ⟨i, j, k⟩ ⟨i', j', k'⟩ h
      cases b
      · simp [placed, shiftC] at h; simpa using h
      · simpa [placed] using h
    refine ⟨placeNo g b p, ⟨placeNo_lt g b hp, ?_⟩, fun m' ⟨hm', e⟩ => ?_⟩
    · obtain ⟨h1, h2⟩ := hpl _ (placeNo_lt g b hp)
      have d1 := decode_number (c := p) hp.1 hp.2.1
      have d2 := decode_number (c := pl (placeNo g b p)) h1.1 h1.2.1
      show placed g b (pl (placeNo g b p)) = _
      congr 1
      refine d2.symm.trans (Eq.trans ?_ d1)
      show decode _ _ (placeNo g b (pl (placeNo g b p))) = decode _ _ (placeNo g b p)
      rw [h2]
    · rw [← (hpl m' hm').2, inj _ _ e]
  · have hτ : τ < t.nsteps := by
      by_contra h
      rw [List.getElem?_eq_none (by simpa using h)] at hf
      cases hf
    rw [List.getElem?_map, List.getElem?_range hτ] at hf
    simp only [Option.map_some, Option.some.injEq] at hf
    subst hf
    have hr : T[τ]? = some (T[τ]'(by omega)) := List.getElem?_eq_getElem _
    have hd : V.getD τ [] = shownRow g b (T[τ]'(by omega)) := by
      rw [hV, List.getD_eq_getElem?_getD, List.getElem?_map, hr]; rfl
    have hsp : Spans (V.getD τ []) (nanRange (V.getD τ [])) := nanRange_spans _
    refine ⟨rfl, rfl, ?_, fun m hm => ?_, hsp, ?_, fun x hx => ((nanMean_spec _).2 x hx).1⟩
    · show (V.getD τ []).length = _
      rw [hd, shownRow_length]
    · obtain ⟨h1, h2⟩ := hpl m hm
      have hlen := wide_iff g T hw _ (List.getElem_mem (show τ < T.length by omega))
      have h3 := shownRow_get g b _ hlen h1
      rw [h2, ← hd] at h3
      have hlt : m < (V.getD τ []).length := by rw [hd, shownRow_length]; exact hm
      refine ⟨(V.getD τ [])[m], List.getElem?_eq_getElem hlt, ?_⟩
      rw [hr]
      simp only [Option.bind_some]
      rw [← List.getElem?_eq_getElem hlt, h3]
      rfl
    · show nanMean (V.getD τ []) = none ↔ _
      rw [(nanMean_spec _).1]
      constructor
      · intro e; rw [e] at hsp; exact hsp
      · intro e
        rcases hx : nanRange (V.getD τ []) with _ | ⟨a, b'⟩
        · rfl
        · rw [hx] at hsp; exact absurd hsp.1 (e a)
  · show Spans (((List.range t.nsteps).map fr).flatMap (·.data)) (nanRange V.flatten)
    rw [hflat]; exact nanRange_spans _
  · show belowOne (nanRange V.flatten) = true ↔ ∃ x, Number (((List.range t.nsteps).map fr).flatMap (·.data)) x ∧ x < 1
    rw [hflat]
    have hsp := nanRange_spans V.flatten
    rcases hx : nanRange V.flatten with _ | ⟨a, b'⟩
    · rw [hx] at hsp
      simp only [belowOne, Bool.false_eq_true, false_iff, not_exists, not_and]
      exact fun x h => absurd h (hsp x)
    · rw [hx] at hsp
      simp only [belowOne, decide_eq_true_eq]
      exact ⟨fun h => ⟨a, hsp.1, h⟩, fun ⟨x, h1, h2⟩ => lt_of_le_of_lt (hsp.2.2 x h1).1 h2⟩
  · have hs' : ∀ τ ∈ (t.nsteps - 1) :: slide, τ < t.nsteps := by
      intro τ h
      rcases List.mem_cons.1 h with rfl | h
      · omega
      · exact hsl τ h
    refine ⟨⟨M, nanRange V.flatten, belowOne (nanRange V.flatten), annotations V, ((t.nsteps - 1) :: slide).map fr⟩, ?_, rfl, rfl, rfl, rfl, ?_⟩
    · unfold showModel
      rw [hv, Dims.bind_ok, hlim, Dims.bind_ok]
      simp only
      rw [hM, Dims.bind_ok, mapM_ok _ fr _ fun τ h => hfr τ (hs' τ h), Dims.bind_ok]
      rfl
    · rw [List.map_map]
      refine List.map_congr_left fun τ h => ?_
      simp [List.getElem?_range (hs' τ h)]

/-- C82, refusals: any other name of a property is a `ValueError`, whatever the history. -/
theorem C82_refusal (lower : String → String) (g : Dims) (q : Geom K) (t : TInput K) (prop : String)
    (h : lower prop ∉ ["p", "pressure", "pressures"] ++ ["q", "rate", "rates"]) (b : Bool) (slide : List ℕ) :
    saveGif lower g q t prop b = .error .value ∧ showModel lower g q t prop b slide = .error .value := by
  rw [List.mem_append, not_or] at h
  have : modelValues lower g t.press t.rates prop b = .error .value := by
    unfold modelValues modelTable
    rw [if_neg h.1, if_neg h.2]; rfl
  unfold saveGif showModel
  rw [this]
  exact ⟨rfl, rfl⟩

/-! ## Labels -/

/-- What a label says about a cell. -/
inductive Says (g : Dims) (s : Sizes K) : String → (Cell → LabelText K) → Prop
  | coords : Says g s "coords" fun c => .coords c
  | id : Says g s "id" fun c => .nat (cellNumber g.nx g.ny c)
  | dx : Says g s "dx" fun c => .num (s.along c .x)
  | dy : Says g s "dy" fun c => .num (s.along c .y)
  | dz : Says g s "dz" fun c => .num (s.along c .z)
  | Ax (l) : l ∈ ["area_x", "Ax"] → Says g s l fun c => .num (s.area c .x)
  | Ay (l) : l ∈ ["area_y", "Ay"] → Says g s l fun c => .num (s.area c .y)
  | Az (l) : l ∈ ["area_z", "Az"] → Says g s l fun c => .num (s.area c .z)
  | V (l) : l ∈ ["volume", "V"] → Says g s l fun c => .num (s.volume c)
  | center (l) : l ∈ ["center", "centers", "sphere"] → Says g s l fun c => .point (s.center c)

/-- The names of labels. -/
def labelNames : List String :=
  ["coords", "icoords", "id", "i", "dx", "dy", "dz", "area_x", "Ax", "area_y", "Ay", "area_z", "Az", "volume", "V", "center", "centers", "sphere"]

lemma cellsOf_pick {α : Type} (g : Dims) (f : ℕ → α) (b : Bool) : Geom.cells g ((List.range (g.getN true)).map f) b = .ok ((g.cellsOf b).map f) := by
  cases b
  · exact cells_false g f
  · rfl

lemma shown_iff (g : Dims) (b : Bool) (c : Cell) : c ∈ (g.cellsOf b).map g.dec ↔ Shown g b c := by
  rw [List.mem_map]
  cases b
  · simp only [cellsOf, Bool.false_eq_true, if_false, mem_innerIds, Shown]
    constructor
    · rintro ⟨id, h, rfl⟩; exact h
    · intro h; exact ⟨g.num c, by rwa [g.dec_num (Dims.Interior.inGrid h)], g.dec_num (Dims.Interior.inGrid h)⟩
  · simp only [cellsOf, if_true, List.mem_range, Shown]
    constructor
    · rintro ⟨id, h, rfl⟩; exact g.dec_inGrid h
    · intro h; exact ⟨g.num c, g.num_lt h, g.dec_num h⟩

lemma cellsOf_nodup (g : Dims) (b : Bool) : ((g.cellsOf b).map g.dec).Nodup := by
  have hn : (g.cellsOf b).Nodup := by
    cases b
    · exact g.innerIds_sorted.imp Nat.ne_of_lt
    · exact List.nodup_range
  refine hn.map fun a b h => ?_
  rw [← g.num_dec a, ← g.num_dec b, h]

/-- **C82, labels** On a transparent grid every shown cell gets one label, at its centre, that tells the truth about that cell: its id, coordinates, size, area, volume or centre. With
"i" the labels count the shown cells. No label is drawn on an opaque grid or without a name. -/
theorem C82_labels (g : Dims) (s : Sizes K) (q : Geom K) (hq : Geom.calc g s.x s.y s.z = .ok q) (b : Bool) :
    ∃ cs : List Cell, cs.Nodup ∧ (∀ c, c ∈ cs ↔ Shown g b c) ∧
      (∀ l f o, Says g s l f → o < 1 → gridLabels g q (some l) o b = .ok (cs.map fun c => (s.center c, f c))) ∧
      (∀ o, o < 1 → gridLabels g q (some "i") o b = .ok ((cs.map s.center).zip ((List.range cs.length).map .nat))) ∧
      (∀ o, gridLabels g q none o b = .ok []) ∧
      (∀ l o, 1 ≤ o → gridLabels g q l o b = .ok []) ∧
      (∀ l o, o < 1 → l ∉ labelNames → gridLabels g q (some l) o b = .error .value) := by
  obtain ⟨hx, hy, hz⟩ := calc_inv g s q hq
  obtain ⟨q', h1, h2⟩ := calc_ok g s hx hy hz
  rw [hq] at h1; cases h1
  have hc : Geom.cells g (q.centers g) b = .ok ((g.cellsOf b).map fun id => s.center (g.dec id)) := by rw [h2.centers_eq]; exact cellsOf_pick g _ b
  have hcc : g.getCellsCoords b = .ok ((g.cellsOf b).map g.dec) := g.getCellsCoords_eq b
  have key : ∀ (l : String) (f : Cell → LabelText K) o, o < 1 → labelTexts g q l b = .ok ((g.cellsOf b).map fun id => f (g.dec id)) →
      gridLabels g q (some l) o b = .ok (((g.cellsOf b).map g.dec).map fun c => (s.center c, f c)) := by
    intro l f o ho h
    unfold gridLabels
    rw [hc, Dims.bind_ok]
    simp only [if_pos ho]
    rw [h, Dims.bind_ok, List.zip_map', List.map_map]
    rfl
  refine ⟨(g.cellsOf b).map g.dec, cellsOf_nodup g b, shown_iff g b, fun l f o hs ho => ?_, fun o ho => ?_, fun o => ?_, fun l o ho => ?_, fun l o ho hl => ?_⟩
  · refine key l f o ho ?_
    cases hs with
    | coords => simp only [labelTexts, if_true, hcc, Dims.bind_ok, List.map_map]; rfl
    | id =>
      simp only [labelTexts, if_true, g.getCellsId_eq, Dims.bind_ok, show ("id" = "coords") = False by simp, show ("id" = "icoords") = False by simp, if_false]
      show Except.ok _ = _
      congr 1
      refine List.map_congr_left fun id _ => ?_
      show LabelText.nat id = .nat (g.num (g.dec id))
      rw [g.num_dec]
    | dx => simp [labelTexts, h2.d_eq, cellsOf_pick, Dims.bind_ok, List.map_map]; try rfl
    | dy => simp [labelTexts, h2.d_eq, cellsOf_pick, Dims.bind_ok, List.map_map]; try rfl
    | dz => simp [labelTexts, h2.d_eq, cellsOf_pick, Dims.bind_ok, List.map_map]; try rfl
    | Ax l h => rcases (by simpa using h : l = "area_x" ∨ l = "Ax") with rfl | rfl <;> simp [labelTexts, h2.A_eq, cellsOf_pick, Dims.bind_ok, List.map_map] <;> rfl
    | Ay l h => rcases (by simpa using h : l = "area_y" ∨ l = "Ay") with rfl | rfl <;> simp [labelTexts, h2.A_eq, cellsOf_pick, Dims.bind_ok, List.map_map] <;> rfl
    | Az l h => rcases (by simpa using h : l = "area_z" ∨ l = "Az") with rfl | rfl <;> simp [labelTexts, h2.A_eq, cellsOf_pick, Dims.bind_ok, List.map_map] <;> rfl
    | V l h => rcases (by simpa using h : l = "volume" ∨ l = "V") with rfl | rfl <;> simp [labelTexts, h2.V_eq, cellsOf_pick, Dims.bind_ok, List.map_map] <;> rfl
    | center l h =>
      rcases (by simpa using h : l = "center" ∨ l = "centers" ∨ l = "sphere") with rfl | rfl | rfl <;> simp [labelTexts, hc, Dims.bind_ok, List.map_map] <;> rfl
  · unfold gridLabels
    rw [hc, Dims.bind_ok]
    simp only [if_pos ho]
    have : labelTexts g q "i" b = .ok ((List.range (g.getN b)).map .nat) := by simp [labelTexts, getCellsI]
    rw [this, Dims.bind_ok, List.length_map, cellsOf_length, List.map_map]
    rfl
  · unfold gridLabels
    rw [hc, Dims.bind_ok]; rfl
  · unfold gridLabels
    rw [hc, Dims.bind_ok]
    cases l with
    | none => rfl
    | some l => simp only [if_neg (not_lt.2 ho)]; rfl
  · unfold gridLabels
    rw [hc, Dims.bind_ok]
    simp only [if_pos ho]
    have : labelTexts g q l b = .error .value := by
      simp only [labelNames, List.mem_cons, List.not_mem_nil, or_false, not_or] at hl
      obtain ⟨n1, n2, n3, n4, n5, n6, n7, n8, n9, n10, n11, n12, n13, n14, n15, n16, n17, n18⟩ := hl
      simp [labelTexts, *]
    rw [this]; rfl

/-- The reversed coordinates of a cell as an index into an array of the flow shape: all three of them, or only those along the flow axes. -/
def reversed (g : Dims) (c : Cell) : List ℕ :=
  if g.unify = true ∨ g.getD = 3 then [c.2.2, c.2.1, c.1]
  else (if 1 < g.nz then [c.2.2] else []) ++ (if 1 < g.ny then [c.2.1] else []) ++ (if 1 < g.nx then [c.1] else [])

lemma icoords_shown (g : Dims) (c : Cell) (h : g.unify = true ∨ g.getD = 3 ∨ Interior g.nx g.ny g.nz c) (hc : InGrid g.nx g.ny g.nz c) :
    g.getCellIcoords ((c.1 : ℤ), (c.2.1 : ℤ), (c.2.2 : ℤ)) = .ok (reversed g c) := by
  rw [icoords_eq g c hc]
  unfold reversed
  have hD := g.getD_cases
  by_cases hu : g.unify = true ∨ g.getD = 3
  · rw [if_pos hu, if_neg]
    rintro ⟨h1, h2⟩
    rcases hu with hu | hu
    · simp [hu] at h1
    · omega
  · rw [if_neg hu]
    rw [not_or] at hu
    have hi : Interior g.nx g.ny g.nz c := by tauto
    obtain ⟨i1, i2, i3⟩ := hi
    obtain ⟨x, y, z⟩ := c
    have a1 := g.hx; have a2 := g.hy; have a3 := g.hz
    simp only [innerCoord] at i1 i2 i3
    have e : ([z, y, x].filter (0 < ·)) = (if 1 < g.nz then [z] else []) ++ (if 1 < g.ny then [y] else []) ++ (if 1 < g.nx then [x] else []) := by
      have f : ∀ n w : ℕ, 1 ≤ n → (if 1 < n then 0 < w ∧ w < n + 1 else w < n) → (0 < w ↔ 1 < n) := fun n w h1 h2 => by split_ifs at h2 <;> omega
      have f1 := f _ _ a1 i1; have f2 := f _ _ a2 i2; have f3 := f _ _ a3 i3
      simp only [List.filter_cons, List.filter_nil, decide_eq_true_eq, f1, f2, f3]
      split_ifs <;> rfl
    have h3 : g.getD ≤ 2 := by
      have : g.getD ≤ 3 := by rw [hD]; split_ifs <;> omega
      omega
    rw [if_pos ⟨by simpa using hu.1, h3⟩, e, if_pos]
    rw [hD]; split_ifs <;> rfl

/-- C82, "icoords": the labels of the cells of a three-dimensional or unified grid, and of interior cells of any grid, are their reversed coordinates. -/
theorem C82_icoords_partial (g : Dims) (s : Sizes K) (q : Geom K) (hq : Geom.calc g s.x s.y s.z = .ok q) (b : Bool) (h : g.unify = true ∨ g.getD = 3 ∨ b = false) :
    ∃ cs : List Cell, cs.Nodup ∧ (∀ c, c ∈ cs ↔ Shown g b c) ∧
      ∀ o, o < 1 → gridLabels g q (some "icoords") o b = .ok (cs.map fun c => (s.center c, .icoords (reversed g c))) := by
  obtain ⟨hx, hy, hz⟩ := calc_inv g s q hq
  obtain ⟨q', h1, h2⟩ := calc_ok g s hx hy hz
  rw [hq] at h1; cases h1
  have hc : Geom.cells g (q.centers g) b = .ok ((g.cellsOf b).map fun id => s.center (g.dec id)) := by rw [h2.centers_eq]; exact cellsOf_pick g _ b
  refine ⟨(g.cellsOf b).map g.dec, cellsOf_nodup g b, shown_iff g b, fun o ho => ?_⟩
  have hi : cellsIcoords g b = .ok (((g.cellsOf b).map g.dec).map (reversed g)) := by
    unfold cellsIcoords
    rw [show g.getCellsCoords b = .ok ((g.cellsOf b).map g.dec) from g.getCellsCoords_eq b, Dims.bind_ok]
    refine mapM_ok _ _ _ fun c hc => ?_
    have hs := (shown_iff g b c).1 hc
    cases b
    · exact icoords_shown g c (.inr (.inr hs)) (Dims.Interior.inGrid hs)
    · exact icoords_shown g c (by rcases h with h | h | h; exacts [.inl h, .inr (.inl h), by simp at h]) hs
  unfold gridLabels
  rw [hc, Dims.bind_ok]
  simp only [if_pos ho]
  have : labelTexts g q "icoords" b = .ok ((((g.cellsOf b).map g.dec).map (reversed g)).map .icoords) := by
    simp [labelTexts, hi, Dims.bind_ok]
  rw [this, Dims.bind_ok, List.map_map, List.map_map, List.zip_map', List.map_map]
  rfl

/-- **C82 fails** for "icoords" with boundary cells on every grid of one or two dimensions that is not unified: the call raises an `AssertionError`. -/
theorem C82_icoords_fails (g : Dims) (s : Sizes K) (q : Geom K) (hq : Geom.calc g s.x s.y s.z = .ok q) (hu : g.unify = false) (h1 : 1 ≤ g.getD) (hD : g.getD ≤ 2) (o : K)
    (ho : o < 1) : gridLabels g q (some "icoords") o true = .error .assertion := by
  obtain ⟨hx, hy, hz⟩ := calc_inv g s q hq
  obtain ⟨q', h1', h2⟩ := calc_ok g s hx hy hz
  rw [hq] at h1'; cases h1'
  have hc : Geom.cells g (q.centers g) true = .ok ((g.cellsOf true).map fun id => s.center (g.dec id)) := by rw [h2.centers_eq]; exact cellsOf_pick g _ true
  have hpos := getN_pos g true
  have hin : InGrid g.nx g.ny g.nz (g.dec 0) := g.dec_inGrid hpos
  have e0 : g.dec 0 = (0, 0, 0) := by simp [dec, decode]
  have hi : cellsIcoords g true = .error .assertion := by
    unfold cellsIcoords
    rw [show g.getCellsCoords true = .ok ((g.cellsOf true).map g.dec) from g.getCellsCoords_eq true, Dims.bind_ok]
    obtain ⟨n, hn⟩ : ∃ n, g.getN true = n + 1 := ⟨g.getN true - 1, by omega⟩
    simp only [cellsOf, if_true, hn, List.range_succ_eq_map, List.map_cons, List.mapM_cons]
    have hf := icoords_eq g (g.dec 0) hin
    rw [if_pos ⟨hu, hD⟩, if_neg (by rw [e0]; simp; omega)] at hf
    rw [hf]; rfl
  unfold gridLabels
  rw [hc, Dims.bind_ok]
  simp only [if_pos ho]
  have : labelTexts g q "icoords" true = .error .assertion := by
    simp [labelTexts, hi]; try rfl
  rw [this]; rfl

/-! ## Wells -/

/-- **C82, wells** Every well is drawn as a vertical cylinder with the radius of the well and ten times the height of its cell, on the vertical line through the centre of its cell; it
begins at the centre of the cell or less than one unit of length below it. -/
theorem C82_wells (g : Dims) (s : Sizes K) (q : Geom K) (hq : Geom.calc g s.x s.y s.z = .ok q) (wells : List (Cell × K)) (hw : ∀ w ∈ wells, InGrid g.nx g.ny g.nz w.1) :
    ∃ cyl : Cell × K → Cyl K, drawWells g q (wells.map fun w => (cellNumber g.nx g.ny w.1, w.2)) = .ok (wells.map cyl) ∧
      ∀ w ∈ wells, (cyl w).radius = w.2 ∧ (cyl w).height = 10 * s.along w.1 .z ∧ (cyl w).center.1 = (s.center w.1).1 ∧ (cyl w).center.2.1 = (s.center w.1).2.1 ∧
        (s.center w.1).2.2 - 1 < (cyl w).center.2.2 - (cyl w).height / 2 ∧ (cyl w).center.2.2 - (cyl w).height / 2 ≤ (s.center w.1).2.2 ∧
        (cyl w).center.2.2 = (s.center w.1).2.2 + (⌊5 * s.along w.1 .z⌋ : K) := by
  obtain ⟨hx, hy, hz⟩ := calc_inv g s q hq
  obtain ⟨q', h1, h2⟩ := calc_ok g s hx hy hz
  rw [hq] at h1; cases h1
  refine ⟨fun w => ⟨((s.center w.1).1, (s.center w.1).2.1, (s.center w.1).2.2 + (⌊s.along w.1 .z * 10 / 2⌋ : K)), s.along w.1 .z * 10, w.2⟩, ?_, fun w hw' => ?_⟩
  · unfold drawWells
    rw [h2.centers_eq, show Geom.cells g _ true = .ok _ from cellsOf_pick g _ true, Dims.bind_ok, List.mapM_map]
    refine mapM_ok _ _ _ fun w hw' => ?_
    have e1 := lookup_id g w.1 (hw w hw') (fun id => s.along (g.dec id) .z) none
    have e2 := lookup_id g w.1 (hw w hw') (fun id => s.center (g.dec id)) none
    have ed : q.dz = (List.range (g.getN true)).map fun id => s.along (g.dec id) .z := h2.d_eq .z
    simp only [lookup, g.dec_num (hw w hw')] at e1 e2
    simp only [Function.comp, ed, cellsOf, if_true]
    rw [show cellNumber g.nx g.ny w.1 = g.num w.1 from rfl, e1, Dims.bind_ok, e2, Dims.bind_ok]
    rfl
  · have f1 := Int.floor_le (s.along w.1 .z * 10 / 2)
    have f2 := Int.lt_floor_add_one (s.along w.1 .z * 10 / 2)
    exact ⟨rfl, mul_comm _ _, rfl, rfl, by simp only; linarith, by simp only; linarith,
      by simp only; rw [show s.along w.1 .z * 10 / 2 = 5 * s.along w.1 .z by ring]⟩

/-- C82, wells: in a cell at least two units high the cylinder begins inside the cell. -/
theorem C82_well_begins_partial (g : Dims) (s : Sizes K) (q : Geom K) (hq : Geom.calc g s.x s.y s.z = .ok q) (c : Cell) (hc : InGrid g.nx g.ny g.nz c) (r : K)
    (h : 2 ≤ s.along c .z) : ∃ y, drawWells g q [(cellNumber g.nx g.ny c, r)] = .ok [y] ∧
      offset s.z c.2.2 ≤ y.center.2.2 - y.height / 2 ∧ y.center.2.2 - y.height / 2 ≤ offset s.z (c.2.2 + 1) := by
  obtain ⟨cyl, h1, h2⟩ := C82_wells g s q hq [(c, r)] (by simpa using hc)
  obtain ⟨-, -, -, -, h5, h6, -⟩ := h2 (c, r) (by simp)
  refine ⟨cyl (c, r), h1, ?_, ?_⟩
  · simp only [Sizes.center, Sizes.along] at h5 h
    linarith
  · simp only [Sizes.center, Sizes.along] at h6 h
    rw [offset, Finset.sum_range_succ]
    change _ ≤ offset s.z c.2.2 + size s.z c.2.2
    linarith

/-- **C82 fails** for wells in thin cells: in every cell lower than 1/5 the cylinder begins below the cell. -/
theorem C82_thin_cell_fails (g : Dims) (s : Sizes K) (q : Geom K) (hq : Geom.calc g s.x s.y s.z = .ok q) (c : Cell) (hc : InGrid g.nx g.ny g.nz c) (r : K)
    (h0 : 0 < s.along c .z) (h : s.along c .z < 1 / 5) : ∃ y, drawWells g q [(cellNumber g.nx g.ny c, r)] = .ok [y] ∧ y.center.2.2 - y.height / 2 < offset s.z c.2.2 := by
  obtain ⟨cyl, h1, h2⟩ := C82_wells g s q hq [(c, r)] (by simpa using hc)
  obtain ⟨-, h3, -, -, -, -, h7⟩ := h2 (c, r) (by simp)
  refine ⟨cyl (c, r), h1, ?_⟩
  have : ⌊5 * s.along c .z⌋ = 0 := by
    rw [Int.floor_eq_zero_iff]; exact ⟨by linarith, by linarith⟩
  rw [h7, h3]
  simp only [this, Int.cast_zero, add_zero, Sizes.center, Sizes.along] at *
  linarith

/-! ## Marks on the colour bar -/

lemma sum_gt (l : List K) (a : K) (h : ∀ x ∈ l, a ≤ x) (h' : ∃ x ∈ l, a < x) : l.length * a < l.sum := by
  induction l with
  | nil => simp at h'
  | cons x l ih =>
    have h1 := h x (by simp)
    simp only [List.length_cons, List.sum_cons]
    push_cast
    by_cases hx : ∃ y ∈ l, a < y
    · have := ih (fun y hy => h y (by simp [hy])) hx; nlinarith
    · obtain ⟨y, hy, hay⟩ := h'
      rcases List.mem_cons.1 hy with rfl | hy
      · have : (l.length : K) * a ≤ l.sum := by
          clear ih hx
          induction l with
          | nil => simp
          | cons z l ih2 =>
            have h3 := h z (by simp)
            have := ih2 (fun w hw => h w (by simp at hw ⊢; tauto)) (by simp)
            simp only [List.length_cons, List.sum_cons]
            push_cast; nlinarith
        nlinarith
      · exact absurd ⟨y, hy, hay⟩ hx

lemma sum_lt' (l : List K) (b : K) (h : ∀ x ∈ l, x ≤ b) (h' : ∃ x ∈ l, x < b) : l.sum < l.length * b := by
  have := sum_gt (l.map (- ·)) (-b) (fun x hx => by
    obtain ⟨y, hy, rfl⟩ := List.mem_map.1 hx
    exact neg_le_neg (h y hy)) (by
    obtain ⟨y, hy, hyb⟩ := h'
    exact ⟨-y, List.mem_map.2 ⟨y, hy, rfl⟩, neg_lt_neg hyb⟩)
  have e : (l.map (- ·)).sum = - l.sum := by
    clear this h h'
    induction l with
    | nil => simp
    | cons x l ih => simp [ih]; ring
  rw [e, List.length_map] at this
  linarith

lemma annotations_eq (v : List (List (Option K))) (a b : K) (h : nanRange v.flatten = some (a, b)) :
    (a < b → ∃ x, a < x ∧ x < b ∧ nanMean v.flatten = some x ∧ annotations v = [(a, "min"), (b, "max"), (x, "avg")]) ∧ (a = b → annotations v = [(a, "avg")]) := by
  obtain ⟨m1, m2⟩ := nanMean_spec v.flatten
  have hs := nanRange_spans v.flatten
  rw [h] at hs
  obtain ⟨s1, s2, s3⟩ := hs
  rcases hx : nanMean v.flatten with _ | x
  · rw [m1.1 hx] at h; cases h
  obtain ⟨e1, e2⟩ := m2 x hx
  have hm : ∀ y, y ∈ v.flatten.filterMap id ↔ Number v.flatten y := fun y => by simp only [List.mem_filterMap, id, Number]; exact ⟨fun ⟨o, ho, e⟩ => e ▸ ho, fun h => ⟨_, h, rfl⟩⟩
  have hpos : (0 : K) < (v.flatten.filterMap id).length := by
    have := List.length_pos_of_mem ((hm a).2 s1)
    exact_mod_cast this
  refine ⟨fun hab => ?_, fun hab => ?_⟩
  · have g1 := sum_gt (v.flatten.filterMap id) a (fun y hy => (s3 y ((hm y).1 hy)).1) ⟨b, (hm b).2 s2, hab⟩
    have g2 := sum_lt' (v.flatten.filterMap id) b (fun y hy => (s3 y ((hm y).1 hy)).2) ⟨a, (hm a).2 s1, hab⟩
    have l1 : a < x := by
      rw [← e1, mul_comm] at g1; exact lt_of_mul_lt_mul_right g1 hpos.le
    have l2 : x < b := by
      rw [← e1, mul_comm (_ : K) b] at g2; exact lt_of_mul_lt_mul_right g2 hpos.le
    refine ⟨x, l1, l2, rfl, ?_⟩
    unfold annotations
    rw [h, hx]
    simp [hab.ne', l1.ne', l2.ne]
  · obtain ⟨l1, l2⟩ := e2 _ h
    simp only at l1 l2
    subst hab
    obtain rfl : x = a := le_antisymm l2 l1
    unfold annotations
    rw [h, hx]
    simp

/-- **C82, colour bar** If the picture shows different numbers, the bar is marked at the smallest ("min"), at the largest ("max") and, strictly between them, at the average ("avg").
If all shown numbers are equal, only the mark "avg" is left. -/
theorem C82_marks (lower : String → String) (g : Dims) (q : Geom K) (t : TInput K) (prop : String) (b : Bool) (P : Picture K) (h : saveGif lower g q t prop b = .ok P) (lo hi : K)
    (hl : P.limits = some (lo, hi)) :
    (lo < hi → ∃ x, lo < x ∧ x < hi ∧ P.notes = [(lo, "min"), (hi, "max"), (x, "avg")]) ∧ (lo = hi → P.notes = [(lo, "avg")]) := by
  unfold saveGif at h
  rcases hv : modelValues lower g t.press t.rates prop b with e | V
  · rw [hv] at h; cases h
  rw [hv, Dims.bind_ok] at h
  rcases hlim : limitsFmt V with e | ⟨lim, d⟩
  · rw [hlim] at h; cases h
  rw [hlim, Dims.bind_ok] at h
  simp only at h
  rcases hM : pyvistaGrid g q b with e | M
  · rw [hM] at h; cases h
  rw [hM, Dims.bind_ok] at h
  rcases hf : (List.range t.nsteps).mapM (mkFrame V (plotDates t)) with e | fs
  · rw [hf] at h; cases h
  rw [hf, Dims.bind_ok] at h
  cases h
  simp only at hl ⊢
  unfold limitsFmt at hlim
  split_ifs at hlim
  simp only [Except.ok.injEq, Prod.mk.injEq] at hlim
  rw [← hlim.1] at hl
  obtain ⟨k1, k2⟩ := annotations_eq V lo hi hl
  exact ⟨fun h => by obtain ⟨x, h1, h2, -, h4⟩ := k1 h; exact ⟨x, h1, h2, h4⟩, k2⟩

/-! ## Where the counters are wrong -/

lemma mapM_error {α β : Type} (f : α → Except Err β) (h : α → β) (l : List α) (a : α) (r : List α) (e : Err) (hf : ∀ a ∈ l, f a = .ok (h a)) (ha : f a = .error e) :
    (l ++ a :: r).mapM f = .error e := by
  induction l with
  | nil => rw [List.nil_append, List.mapM_cons, ha]; rfl
  | cons x l ih => rw [List.cons_append, List.mapM_cons, hf x (by simp), Dims.bind_ok, ih fun y hy => hf y (by simp [hy])]; rfl

/-- **C82 fails** when `nsteps` counts steps that were never made (C44: after a `run` that raised an exception): neither a picture nor an animation can be made, although the rows of all
completed steps are there. -/
theorem C82_failed_run_fails (lower : String → String) (g : Dims) (s : Sizes K) (q : Geom K) (hq : Geom.calc g s.x s.y s.z = .ok q)
    (h0 : ∀ a, ¬ Flow g.nx g.ny g.nz a → s.along (0, 0, 0) a ≠ 0) (t : TInput K) (prop : String) (T : List (List (Option K))) (hT : Means lower t prop T) (hw : Wide g T) (b : Bool)
    (hl : T.length = t.tstep + 1) (h : t.tstep + 1 < t.nsteps) (slide : List ℕ) :
    saveGif lower g q t prop b = .error .key ∧ showModel lower g q t prop b slide = .error .key := by
  obtain ⟨M, hM, -, -⟩ := mesh_ok g s q hq h0 b
  have hv := modelValues_ok (press := t.press) (rates := t.rates) hT hw b
  set V := T.map (shownRow g b) with hV
  have hVl : V.length = t.tstep + 1 := by rw [hV, List.length_map, hl]
  have hne : V.flatten ≠ [] := by
    have h0' : (V[0]'(by omega)) ∈ V := List.getElem_mem _
    refine flatten_ne h0' ?_
    have : (V[0]'(by omega)).length = g.getN b := by simp [hV, shownRow_length]
    intro e
    rw [e] at this
    exact absurd this (by have := getN_pos g b; simp; omega)
  have hlim : limitsFmt V = .ok (nanRange V.flatten, belowOne (nanRange V.flatten)) := by
    unfold limitsFmt; rw [if_neg hne]
  have hd : ∀ τ, t.tstep + 1 ≤ τ → mkFrame V (plotDates t) τ = .error .key := fun τ hτ => by
    have e : (plotDates t)[τ]? = none := List.getElem?_eq_none (by simp [plotDates]; omega)
    unfold mkFrame
    rw [e]; rfl
  have hok : ∀ τ ∈ List.range (t.tstep + 1), mkFrame V (plotDates t) τ =
      .ok ⟨V.getD τ [], τ * t.dt, τ, nanMean (V.getD τ []), nanRange (V.getD τ [])⟩ := fun τ hτ => by
    have hτ := List.mem_range.1 hτ
    refine mkFrame_ok _ _ _ _ _ ?_ ?_
    · rw [List.getD_eq_getElem?_getD, List.getElem?_eq_getElem (by omega)]; rfl
    · unfold plotDates
      rw [List.getElem?_map, List.getElem?_range (by omega)]; rfl
  constructor
  · unfold saveGif
    rw [hv, Dims.bind_ok, hlim, Dims.bind_ok]
    simp only
    rw [hM, Dims.bind_ok]
    have : List.range t.nsteps = List.range (t.tstep + 1) ++ (t.tstep + 1) :: (List.range (t.nsteps - t.tstep - 2)).map (t.tstep + 2 + ·) := by
      obtain ⟨k, hk⟩ : ∃ k, t.nsteps = (t.tstep + 1) + (k + 1) := ⟨t.nsteps - t.tstep - 2, by omega⟩
      rw [show t.nsteps - t.tstep - 2 = k by omega, hk, List.range_add, List.range_succ_eq_map (n := k)]
      rw [List.map_cons, List.map_map]
      congr 2
      refine List.map_congr_left fun i _ => ?_
      show t.tstep + 1 + (i + 1) = t.tstep + 2 + i
      omega
    rw [this, mapM_error _ _ _ _ _ _ hok (hd _ le_rfl)]
    rfl
  · unfold showModel
    rw [hv, Dims.bind_ok, hlim, Dims.bind_ok]
    simp only
    rw [hM, Dims.bind_ok, List.mapM_cons, hd _ (by omega)]
    rfl

/-- **C82 fails** when steps were made with `solve()`, which leaves `nsteps` as it was (C44): the picture that opens is not the one of the last step. -/
theorem C82_solve_fails (lower : String → String) (g : Dims) (s : Sizes K) (q : Geom K) (hq : Geom.calc g s.x s.y s.z = .ok q)
    (h0 : ∀ a, ¬ Flow g.nx g.ny g.nz a → s.along (0, 0, 0) a ≠ 0) (t : TInput K) (prop : String) (T : List (List (Option K))) (hT : Means lower t prop T) (hw : Wide g T) (b : Bool)
    (hl : T.length = t.tstep + 1) (h1 : 1 ≤ t.nsteps) (h : t.nsteps < t.tstep + 1) :
    ∃ P f, showModel lower g q t prop b [] = .ok P ∧ P.frames = [f] ∧ f.step < t.tstep ∧ f.step + 1 = t.nsteps := by
  obtain ⟨M, hM, -, -⟩ := mesh_ok g s q hq h0 b
  have hv := modelValues_ok (press := t.press) (rates := t.rates) hT hw b
  set V := T.map (shownRow g b) with hV
  have hVl : V.length = t.tstep + 1 := by rw [hV, List.length_map, hl]
  have hne : V.flatten ≠ [] := by
    have h0' : (V[0]'(by omega)) ∈ V := List.getElem_mem _
    refine flatten_ne h0' ?_
    have : (V[0]'(by omega)).length = g.getN b := by simp [hV, shownRow_length]
    intro e
    rw [e] at this
    exact absurd this (by have := getN_pos g b; simp; omega)
  have hlim : limitsFmt V = .ok (nanRange V.flatten, belowOne (nanRange V.flatten)) := by
    unfold limitsFmt; rw [if_neg hne]
  have hok : mkFrame V (plotDates t) (t.nsteps - 1) =
      .ok ⟨V.getD (t.nsteps - 1) [], ((t.nsteps - 1 : ℕ) : K) * t.dt, t.nsteps - 1, nanMean (V.getD (t.nsteps - 1) []), nanRange (V.getD (t.nsteps - 1) [])⟩ := by
    refine mkFrame_ok _ _ _ _ _ ?_ ?_
    · rw [List.getD_eq_getElem?_getD, List.getElem?_eq_getElem (by omega)]; rfl
    · unfold plotDates
      rw [List.getElem?_map, List.getElem?_range (by omega)]; rfl
  refine ⟨⟨M, nanRange V.flatten, belowOne (nanRange V.flatten), annotations V,
      [⟨V.getD (t.nsteps - 1) [], ((t.nsteps - 1 : ℕ) : K) * t.dt, t.nsteps - 1, nanMean (V.getD (t.nsteps - 1) []), nanRange (V.getD (t.nsteps - 1) [])⟩]⟩,
    ⟨V.getD (t.nsteps - 1) [], ((t.nsteps - 1 : ℕ) : K) * t.dt, t.nsteps - 1, nanMean (V.getD (t.nsteps - 1) []), nanRange (V.getD (t.nsteps - 1) [])⟩, ?_, rfl, ?_, ?_⟩
  · unfold showModel
    rw [hv, Dims.bind_ok, hlim, Dims.bind_ok]
    simp only
    rw [hM, Dims.bind_ok, List.mapM_cons, hok]
    rfl
  · show t.nsteps - 1 < t.tstep
    omega
  · show t.nsteps - 1 + 1 = t.nsteps
    omega

end

/-! ## Concrete cases -/

lemma calc321 : ∃ q, Geom.calc g321 s321.x s321.y s321.z = .ok q := by
  obtain ⟨q, h1, -⟩ := C13_cell_lookups g321 s321 rfl trivial trivial
  exact ⟨q, h1⟩

lemma flat321 : ∀ a, ¬ Flow g321.nx g321.ny g321.nz a → s321.along (0, 0, 0) a ≠ 0 := by
  intro a h
  cases a
  · exact absurd (by decide) h
  · exact absurd (by decide) h
  · norm_num [s321, Sizes.along, size]

/-- A history of two steps on the 3×2 grid. -/
def t321 : TInput ℚ where
  cells := [6, 7, 8, 11, 12, 13]
  fdir := [.x, .y]
  centers := [[20, 15 / 2], [45, 15 / 2], [80, 15 / 2], [20, 25 / 2], [45, 25 / 2], [80, 25 / 2]]
  nsteps := 2
  tstep := 1
  dt := 3
  press := [List.replicate 20 (some 100), (List.range 20).map fun i => if i = 9 then none else some (100 + i)]
  rates := [List.replicate 20 (some 0), (List.range 20).map fun i => some (i / 2 - 3)]
  wells := []
  wpress := []

lemma t321_ok : t321.Consistent := ⟨rfl, rfl, rfl, rfl, by decide, by decide, by decide, by norm_num [t321]⟩
lemma t321_wide : Wide g321 t321.press ∧ Wide g321 t321.rates := by
  constructor <;> intro r hr <;> simp [t321] at hr <;> rcases hr with rfl | rfl <;> simp <;> decide

/-- The hypotheses of C82 are met by pressures and by rates. -/
example : ∃ q, Geom.calc g321 s321.x s321.y s321.z = .ok q ∧
    (∃ P, saveGif (fun x => x) g321 q t321 "p" false = .ok P ∧ P.frames.length = 2) ∧ ∃ P, saveGif (fun x => x) g321 q t321 "rates" true = .ok P ∧ P.frames.length = 2 := by
  obtain ⟨q, h⟩ := calc321
  obtain ⟨P, -, -, h1, h2, -⟩ := C82_frames (fun x => x) g321 s321 q h flat321 t321 t321_ok "p" _ (.inl ⟨by decide, rfl⟩) t321_wide.1 false
  obtain ⟨P', -, -, h1', h2', -⟩ := C82_frames (fun x => x) g321 s321 q h flat321 t321 t321_ok "rates" _ (.inr ⟨by decide, rfl⟩) t321_wide.2 true
  exact ⟨q, h, ⟨P, h1, h2⟩, P', h1', h2'⟩
example : modelValues (fun x => x) g321 t321.press t321.rates "p" false =
    .ok [[some 100, some 100, some 100, some 100, some 100, some 100], [some 106, some 107, some 108, some 111, some 112, some 113]] := by decide +kernel
example : (fun x : String => x) "porosity" ∉ ["p", "pressure", "pressures"] ++ ["q", "rate", "rates"] := by decide
/-- A cell with a label. -/
example : ∃ q, Geom.calc g321 s321.x s321.y s321.z = .ok q ∧ ∃ l, gridLabels g321 q (some "V") (1 / 2) false = .ok l ∧ ((45, 15 / 2, 1), LabelText.num 300) ∈ l := by
  obtain ⟨q, h⟩ := calc321
  obtain ⟨cs, -, h2, h3, -⟩ := C82_labels g321 s321 q h false
  refine ⟨q, h, _, h3 "V" _ (1 / 2) (.V "V" (by decide)) (by norm_num), List.mem_map.2 ⟨(2, 1, 0), (h2 _).2 (by unfold Shown; decide), ?_⟩⟩
  congr 1
  · norm_num [s321, Sizes.center, offset, size, Finset.sum_range_succ]
  · norm_num [s321, Sizes.volume, size]
/-- The hypotheses of C82_icoords_partial and C82_icoords_fails are met. -/
example : (g321.unify = true ∨ g321.getD = 3 ∨ true = false) ∧ ({ g321 with unify := false } : Dims).getD = 2 := by decide
/-- Two wells. -/
example : ∀ w ∈ [((2, 1, 0), (1 : ℚ) / 4), ((3, 2, 0), 1 / 4)], InGrid g321.nx g321.ny g321.nz w.1 := by decide
example : 2 ≤ s321.along (2, 1, 0) .z := by norm_num [s321, Sizes.along, size]
example : let s : Sizes ℚ := ⟨.list [10, 20, 30, 40, 50], .scalar 5, .scalar (1 / 10)⟩; 0 < s.along (2, 1, 0) .z ∧ s.along (2, 1, 0) .z < 1 / 5 := by
  norm_num [Sizes.along, size]
/-- The hypotheses of the theorems on wrong counters are met. -/
example : ({ t321 with nsteps := 11 } : TInput ℚ).tstep + 1 < 11 ∧ ({ t321 with nsteps := 1 } : TInput ℚ).nsteps < t321.tstep + 1 ∧ t321.press.length = t321.tstep + 1 := by decide

end RF
