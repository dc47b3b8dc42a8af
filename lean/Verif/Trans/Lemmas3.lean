import Verif.Trans.Lemmas2
import Verif.Grid.Lemmas6
import Mathlib.Tactic.FieldSimp
import Mathlib.Tactic.Linarith
import Mathlib.Tactic.Positivity
/-! # Lemmas about geometric factors: the per-cell path and the value of a connection -/
set_option linter.unusedSimpArgs false
set_option linter.unusedSectionVars false
namespace RF
open Spec Dims

variable {K : Type} [Field K] [DecidableEq K]

/-! ## values -/

lemma gHarm_series (β k1 A1 d1 k2 A2 d2 : K) (hA1 : A1 ≠ 0) (hA2 : A2 ≠ 0) :
    gHarm β k1 A1 d1 k2 A2 d2 = series β d1 A1 k1 d2 A2 k2 := by
  unfold gHarm series halfResistance
  by_cases h : k1 = 0 ∨ k2 = 0
  · rw [if_pos h, if_pos (by simpa [hA1, hA2] using h)]
  · rw [if_neg h, if_neg (by simpa [hA1, hA2] using h)]
    push Not at h
    obtain ⟨h1, h3⟩ := h
    rw [show d1 / 2 / (A1 * k1) + d2 / 2 / (A2 * k2) = (d1 / (A1 * k1) + d2 / (A2 * k2)) / 2 by ring, div_div_eq_mul_div]
    ring

lemma gArith_series (β k A d1 d2 : K) (h2 : (2 : K) ≠ 0) (hA : A ≠ 0) (hd : d1 + d2 ≠ 0) :
    gArith β k A d1 k A d2 = series β d1 A k d2 A k := by
  unfold gArith series halfResistance
  by_cases h : k = 0
  · rw [if_pos (Or.inl h)]; simp [h]
  · rw [if_neg (by tauto)]
    rw [show d1 / 2 / (A * k) + d2 / 2 / (A * k) = (d1 + d2) / (2 * (A * k)) by field_simp, div_div_eq_mul_div]
    field_simp
    ring

lemma series_symm (β d1 A1 k1 d2 A2 k2 : K) : series β d1 A1 k1 d2 A2 k2 = series β d2 A2 k2 d1 A1 k1 := by
  unfold series; rw [add_comm]; simp only [or_comm]

lemma face_symm (g : Dims) (s : Sizes K) (r : Rock K) (β : K) (a : Axis) (c c' : Cell) :
    face g s r β a c c' = face g s r β a c' c := series_symm _ _ _ _ _ _ _

lemma area_adj (s : Sizes K) {a : Axis} {c c' : Cell} (h : Adjacent a c c') : s.area c a = s.area c' a := by
  cases a <;> simp only [Adjacent] at h <;> simp only [Sizes.area, h.1, h.2.1, h.2.2]

section order
variable [LinearOrder K] [IsStrictOrderedRing K]

lemma along_pos {g : Dims} {s : Sizes K} (hs : PosSizes g s) {c : Cell} (hc : InGrid g.nx g.ny g.nz c) (a : Axis) :
    0 < s.along c a := by
  cases a
  · exact hs.1 _ hc.1
  · exact hs.2.1 _ hc.2.1
  · exact hs.2.2 _ hc.2.2

lemma area_pos {g : Dims} {s : Sizes K} (hs : PosSizes g s) {c : Cell} (hc : InGrid g.nx g.ny g.nz c) (a : Axis) :
    0 < s.area c a := by
  cases a
  · exact mul_pos (hs.2.1 _ hc.2.1) (hs.2.2 _ hc.2.2)
  · exact mul_pos (hs.1 _ hc.1) (hs.2.2 _ hc.2.2)
  · exact mul_pos (hs.1 _ hc.1) (hs.2.1 _ hc.2.1)

lemma series_pos {β d1 A1 k1 d2 A2 k2 : K} (hβ : 0 < β) (h1 : 0 < d1) (h2 : 0 < A1) (h3 : 0 < k1) (h4 : 0 < d2)
    (h5 : 0 < A2) (h6 : 0 < k2) : 0 < series β d1 A1 k1 d2 A2 k2 := by
  unfold series halfResistance
  rw [if_neg (by rintro (h | h) <;> linarith)]
  positivity

/-- Whatever formula is chosen, adjacent cells get the series value: always when the harmonic form is used, and when the
arithmetic form is used for two cells of equal permeability. -/
lemma pairG_face {g : Dims} {s : Sizes K} {r : Rock K} (hs : PosSizes g s) (β : K) (v : Bool) {a : Axis} {c c' : Cell}
    (hc : InGrid g.nx g.ny g.nz c) (hc' : InGrid g.nx g.ny g.nz c') (had : Adjacent a c c')
    (hv : v = true → perm g r a c = perm g r a c') : pairG g s r β v a c c' = face g s r β a c c' := by
  have A1 := area_pos hs hc a
  have A2 := area_pos hs hc' a
  have d1 := along_pos hs hc a
  have d2 := along_pos hs hc' a
  unfold pairG gForm face
  cases v
  · simp only [Bool.false_eq_true, if_false]
    exact gHarm_series _ _ _ _ _ _ _ (ne_of_gt A1) (ne_of_gt A2)
  · simp only [if_true]
    rw [← hv rfl, ← area_adj s had]
    exact gArith_series _ _ _ _ _ two_ne_zero (ne_of_gt A1) (by positivity)

lemma face_pos {g : Dims} {s : Sizes K} {r : Rock K} (hs : PosSizes g s) (hr : PosPerm g r) {β : K} (hβ : 0 < β) {a : Axis}
    (ha : Flow g.nx g.ny g.nz a) {c c' : Cell} (hc : Interior g.nx g.ny g.nz c) (hc' : Interior g.nx g.ny g.nz c') :
    0 < face g s r β a c c' :=
  series_pos hβ (along_pos hs (Interior.inGrid hc) a) (area_pos hs (Interior.inGrid hc) a) (hr a ha c hc)
    (along_pos hs (Interior.inGrid hc') a) (area_pos hs (Interior.inGrid hc') a) (hr a ha c' hc')
end order

lemma adj_flow {g : Dims} {a : Axis} {c c' : Cell} (hc : Interior g.nx g.ny g.nz c) (hc' : Interior g.nx g.ny g.nz c')
    (h : Adjacent a c c') : Flow g.nx g.ny g.nz a := by
  obtain ⟨x1, y1, z1⟩ := hc
  obtain ⟨x2, y2, z2⟩ := hc'
  have key : ∀ n i j, innerCoord n i → innerCoord n j → near i j → 1 < n := by
    intro n i j h1 h2 h3; unfold innerCoord at *; unfold near at h3; split_ifs at * <;> omega
  cases a
  · exact key _ _ _ x1 x2 h.1
  · exact key _ _ _ y1 y2 h.2.1
  · exact key _ _ _ z1 z2 h.2.2

lemma adj_unique {a a' : Axis} {c c' : Cell} (h : Adjacent a c c') (h' : Adjacent a' c c') : a = a' := by
  cases a <;> cases a' <;> simp only [Adjacent, near] at h h' <;> first | rfl | omega

/-! ## the per-cell path -/

lemma cellK_id {g : Dims} {r : Rock K} (h : RockSet g r) {a : Axis} (ha : Flow g.nx g.ny g.nz a) {c : Cell}
    (hc : InGrid g.nx g.ny g.nz c) : cellK g r a (some (g.num c : ℕ)) none = .ok (perm g r a c) := by
  unfold cellK
  cases e : r.k a with
  | none => exact absurd e (h.2 a ha)
  | some l => simp only; rw [rock_list h e, lookup_id g c hc, g.dec_num hc]

lemma cellD_id {g : Dims} {s : Sizes K} {q : Geom K} (hq : GeomOf g s q) (a : Axis) {c : Cell}
    (hc : InGrid g.nx g.ny g.nz c) : q.cellD g a (some (g.num c : ℕ)) none = .ok (s.along c a) := by
  rw [Geom.cellD, hq.d_eq, lookup_id g c hc, g.dec_num hc]

lemma cellA_id {g : Dims} {s : Sizes K} {q : Geom K} (hq : GeomOf g s q) (a : Axis) {c : Cell}
    (hc : InGrid g.nx g.ny g.nz c) : q.cellA g a (some (g.num c : ℕ)) none = .ok (s.area c a) := by
  rw [Geom.cellA, hq.A_eq, lookup_id g c hc, g.dec_num hc]

lemma cellGDir_eq {g : Dims} {s : Sizes K} {q : Geom K} {r : Rock K} (hq : GeomOf g s q) (h : RockSet g r) (β : K)
    (iso : Bool) {a : Axis} (ha : Flow g.nx g.ny g.nz a) {c : Cell} (hc : InGrid g.nx g.ny g.nz c) (l : List ℕ)
    (hl : ∀ n ∈ l, InGrid g.nx g.ny g.nz (g.dec n)) :
    cellGDir g q r β (g.num c : ℕ) iso a l = .ok (l.map fun n => (n, pairG g s r β iso a c (g.dec n))) := by
  unfold cellGDir
  rw [cellD_id hq a hc, bind_ok, cellA_id hq a hc, bind_ok, cellK_id h ha hc, bind_ok]
  refine mapM_ok _ _ _ fun n hn => ?_
  have hi := hl n hn
  have e := g.num_dec n
  have := cellD_id hq a hi; rw [e] at this; rw [this, bind_ok]
  have := cellA_id hq a hi; rw [e] at this; rw [this, bind_ok]
  have := cellK_id h ha hi; rw [e] at this; rw [this, bind_ok]
  rfl

lemma mem_fdir (g : Dims) (a : Axis) : a ∈ g.getFdir ↔ Flow g.nx g.ny g.nz a := by
  cases a
  · exact g.x_mem
  · exact g.y_mem
  · exact g.z_mem

lemma nbrs_inGrid {g : Dims} {id : ℤ} {b : Bool} {a : Axis} {n : ℕ} (h : n ∈ (g.nbrs id b).get a) :
    InGrid g.nx g.ny g.nz (g.dec n) := by
  rw [mem_nbrs] at h
  have := h.2.1
  cases b
  · simp only [cellsOf, Bool.false_eq_true, if_false, mem_innerIds] at this; exact Interior.inGrid this
  · simp only [cellsOf, if_true, List.mem_range] at this; exact (lt_iff_inGrid g n).1 this

/-- `get_cell_G` in closed form. -/
lemma cellG_eq {g : Dims} {s : Sizes K} {q : Geom K} {r : Rock K} (hq : GeomOf g s q) (h : RockSet g r) (β : K)
    {iso : Bool} (hiso : isIsotropic g r = .ok iso) {c : Cell} (hc : Interior g.nx g.ny g.nz c) (b : Bool)
    (hD : 1 ≤ g.getD ∨ b = false) : cellG g q r β (g.num c : ℕ) b = .ok (g.getFdir.flatMap fun a =>
      ((g.nbrs (g.num c) b).get a).map fun n => (n, pairG g s r β iso a c (g.dec n))) := by
  unfold cellG
  have hb : g.neighborsId (g.num c : ℕ) b = .ok (g.nbrs (g.num c) b) := by
    rw [neighborsId_eq, if_neg]
    rintro ⟨⟨-, hh⟩, hb⟩
    have hD : 1 ≤ g.getD := by rcases hD with hD | hD <;> simp_all
    rw [Int.toNat_natCast, g.mem_boundIds hD, g.dec_num (Interior.inGrid hc)] at hh
    exact hh.2 hc
  rw [hb, bind_ok, hiso, bind_ok,
    mapM_ok _ (fun a => ((g.nbrs (g.num c) b).get a).map fun n => (n, pairG g s r β iso a c (g.dec n))) _
      (fun a ha => cellGDir_eq hq h β iso ((mem_fdir g a).1 ha) (Interior.inGrid hc) _ fun n hn => nbrs_inGrid hn), bind_ok]
  rw [List.flatMap_def]; rfl

lemma fdir_nodup (g : Dims) : g.getFdir.Nodup := by rw [getFdir_eq]; split_ifs <;> decide

lemma items_nodup {g : Dims} {c : Cell} (hc : Interior g.nx g.ny g.nz c) (b : Bool) (f : Axis → ℕ → K) :
    ((g.getFdir.flatMap fun a => ((g.nbrs (g.num c) b).get a).map fun n => (n, f a n)).map Prod.fst).Nodup := by
  rw [List.map_flatMap]
  simp only [List.map_map, Function.comp_def, List.map_id']
  rw [List.nodup_flatMap]
  refine ⟨fun a _ => (g.nbrs_sorted _ _ _).imp Nat.ne_of_lt, (fdir_nodup g).imp ?_⟩
  intro a a' hne n h1 h2
  have adj : ∀ a, n ∈ (g.nbrs (g.num c) b).get a → Adjacent a c (g.dec n) := by
    intro a h
    cases b
    · obtain ⟨-, d, hd, h3, rfl⟩ := (g.mem_nbrs_false c (Interior.inGrid hc) a n).1 h
      rwa [g.dec_num (Interior.inGrid hd)]
    · obtain ⟨-, d, hd, h3, rfl⟩ := (g.mem_nbrs_true c hc a n).1 h
      rwa [g.dec_num hd]
  exact hne (adj_unique (adj a h1) (adj a' h2))

/-! ## the loop that fills the matrix -/

lemma rowFold (idx : ℕ → Except Err ℕ) (ix : ℕ → ℕ) (i : ℕ) (t : List (ℕ × K)) (h : ∀ e ∈ t, idx e.1 = .ok (ix e.1))
    (hn : (t.map fun e => ix e.1).Nodup) (T : ℕ → ℕ → K) :
    ∃ T', (t.foldlM (init := T) fun T e => do
        let j ← idx e.1
        pure (setEntry T i j e.2)) = (.ok T' : Except Err (ℕ → ℕ → K)) ∧
      (∀ k ≠ i, T' k = T k) ∧ (∀ e ∈ t, T' i (ix e.1) = e.2) ∧ (∀ j, (∀ e ∈ t, ix e.1 ≠ j) → T' i j = T i j) := by
  induction t generalizing T with
  | nil => exact ⟨T, rfl, fun _ _ => rfl, by simp, fun _ _ => rfl⟩
  | cons a t ih =>
    rw [List.map_cons, List.nodup_cons] at hn
    obtain ⟨T', h1, h2, h3, h4⟩ := ih (fun e he => h e (by simp [he])) hn.2 (setEntry T i (ix a.1) a.2)
    refine ⟨T', ?_, ?_, ?_, ?_⟩
    · rw [List.foldlM_cons, h a (by simp)]; exact h1
    · intro k hk; rw [h2 k hk]; funext j; simp [setEntry, hk]
    · intro e he
      rcases List.mem_cons.1 he with rfl | he
      · rw [h4]
        · simp [setEntry]
        · intro e' he' heq; exact hn.1 (List.mem_map.2 ⟨e', he', heq⟩)
      · exact h3 e he
    · intro j hj
      rw [h4 j fun e he => hj e (by simp [he])]
      have := hj a (by simp)
      simp only [setEntry]; rw [if_neg]; rintro ⟨-, e⟩; exact this e.symm

lemma outerFold (step : (ℕ → ℕ → K) → ℕ → Except Err (ℕ → ℕ → K)) (ix : ℕ → ℕ) (Row : ℕ → (ℕ → K) → Prop) (l : List ℕ)
    (hinj : (l.map ix).Nodup)
    (h : ∀ id ∈ l, ∀ T, T (ix id) = (fun _ => 0) → ∃ T', step T id = .ok T' ∧ (∀ k ≠ ix id, T' k = T k) ∧ Row id (T' (ix id)))
    (T : ℕ → ℕ → K) (hT : ∀ id ∈ l, T (ix id) = fun _ => 0) :
    ∃ T', l.foldlM step T = .ok T' ∧ (∀ id ∈ l, Row id (T' (ix id))) ∧ (∀ k, k ∉ l.map ix → T' k = T k) := by
  induction l generalizing T with
  | nil => exact ⟨T, rfl, by simp, fun _ _ => rfl⟩
  | cons a t ih =>
    rw [List.map_cons, List.nodup_cons] at hinj
    obtain ⟨T1, h1, h2, h3⟩ := h a (by simp) T (hT a (by simp))
    obtain ⟨T2, k1, k2, k3⟩ := ih hinj.2 (fun id hid => h id (by simp [hid])) T1 (fun id hid => by
      rw [h2]
      · exact hT id (by simp [hid])
      · intro e; exact hinj.1 (List.mem_map.2 ⟨id, hid, e⟩))
    refine ⟨T2, ?_, ?_, ?_⟩
    · rw [List.foldlM_cons, h1]; exact k1
    · intro id hid
      rcases List.mem_cons.1 hid with rfl | hid
      · rw [k3 _ hinj.1]; exact h3
      · exact k2 id hid
    · intro k hk
      simp only [List.map_cons, List.mem_cons, not_or] at hk
      rw [k3 k hk.2, h2 k hk.1]

lemma innerIds_nodup (g : Dims) : g.innerIds.Nodup := (g.innerIds_sorted).imp Nat.ne_of_lt

lemma cellIndex_eq (g : Dims) {id : ℕ} (h : id ∈ g.innerIds) : cellIndex g.innerIds id = .ok (g.innerIds.idxOf id) := by
  unfold cellIndex; rw [if_pos h]

lemma idxOf_inj (g : Dims) {l : List ℕ} (hl : l.Nodup) (h : ∀ n ∈ l, n ∈ g.innerIds) : (l.map g.innerIds.idxOf).Nodup := by
  refine List.Nodup.map_on (fun x hx y hy e => ?_) hl
  exact (List.idxOf_inj (h x hx)).1 e

lemma innerIds_get (g : Dims) {p : ℕ} (h : p < g.getN false) : g.innerIds[p]? = some (g.num (pcell g false p)) := by
  rw [innerIds_pcell]; simp [h]

lemma idxOf_pcell (g : Dims) {p : ℕ} (h : p < g.getN false) : g.innerIds.idxOf (g.num (pcell g false p)) = p := by
  have hl : p < g.innerIds.length := by rw [length_innerIds, ← getN_false]; exact h
  have e : g.innerIds[p] = g.num (pcell g false p) := by
    have := innerIds_get g h
    rw [List.getElem?_eq_getElem hl] at this; exact Option.some.inj this
  rw [← e]; exact (innerIds_nodup g).idxOf_getElem p hl

/-- The loop's matrix: the entry of two adjacent cells is their factor over `mu*B`, every other entry is zero. -/
lemma cellsTransLoop_eq {g : Dims} {s : Sizes K} {q : Geom K} {r : Rock K} (hq : GeomOf g s q) (h : RockSet g r) (β mu B : K)
    {iso : Bool} (hiso : isIsotropic g r = .ok iso) :
    ∃ T, cellsTransLoop g q r β mu B = .ok T ∧ ∀ p p', p < g.getN false → p' < g.getN false →
      (∀ a, Adjacent a (pcell g false p) (pcell g false p') →
        T p p' = pairG g s r β iso a (pcell g false p) (pcell g false p') / (mu * B)) ∧
      ((∀ a, ¬ Adjacent a (pcell g false p) (pcell g false p')) → T p p' = 0) := by
  unfold cellsTransLoop
  rw [getCellsId_false, bind_ok]
  let Row : ℕ → (ℕ → K) → Prop := fun id row => ∀ p', p' < g.getN false →
      (∀ a, Adjacent a (g.dec id) (pcell g false p') →
        row p' = pairG g s r β iso a (g.dec id) (pcell g false p') / (mu * B)) ∧
      ((∀ a, ¬ Adjacent a (g.dec id) (pcell g false p')) → row p' = 0)
  obtain ⟨T, h1, h2, -⟩ := outerFold (K := K) (fun T (id : ℕ) => do
    let i ← cellIndex g.innerIds id
    let t ← cellTrans g q r β mu B (id : ℤ) false
    t.foldlM (init := T) fun T p => do
      let j ← cellIndex g.innerIds p.1
      pure (setEntry T i j p.2)) g.innerIds.idxOf Row g.innerIds (idxOf_inj g (innerIds_nodup g) fun _ h => h) (by
    intro id hid T hT
    have hc := (g.mem_innerIds id).1 hid
    have hid' := g.num_dec id
    have hG := cellG_eq hq h β hiso hc false (Or.inr rfl)
    rw [hid'] at hG
    rw [cellIndex_eq g hid, bind_ok, cellTrans, hG, bind_ok]
    have mem : ∀ e ∈ (g.getFdir.flatMap fun a =>
        ((g.nbrs id false).get a).map fun n => (n, pairG g s r β iso a (g.dec id) (g.dec n))),
        ∃ a, e.1 ∈ g.innerIds ∧ Adjacent a (g.dec id) (g.dec e.1) ∧ e.2 = pairG g s r β iso a (g.dec id) (g.dec e.1) := by
      intro e he
      obtain ⟨a, ha, he⟩ := List.mem_flatMap.1 he
      obtain ⟨n, hn, rfl⟩ := List.mem_map.1 he
      have := (g.mem_nbrs_false (g.dec id) (Interior.inGrid hc) a n).1 (by rw [hid']; exact hn)
      obtain ⟨-, d, hd, h3, rfl⟩ := this
      refine ⟨a, ?_, ?_, rfl⟩
      · rw [mem_innerIds, g.dec_num (Interior.inGrid hd)]; exact hd
      · rw [g.dec_num (Interior.inGrid hd)]; exact h3
    have nd := items_nodup hc false (fun a n => pairG g s r β iso a (g.dec id) (g.dec n))
    rw [hid'] at nd
    obtain ⟨T', t1, t2, t3, t4⟩ := rowFold (cellIndex g.innerIds) g.innerIds.idxOf (g.innerIds.idxOf id)
      ((g.getFdir.flatMap fun a => ((g.nbrs id false).get a).map fun n =>
        (n, pairG g s r β iso a (g.dec id) (g.dec n))).map fun p => (p.1, p.2 / (mu * B)))
      (by
        intro e he
        obtain ⟨e', he', rfl⟩ := List.mem_map.1 he
        obtain ⟨a, h3, -⟩ := mem e' he'
        exact cellIndex_eq g h3)
      (by
        rw [List.map_map]
        have := idxOf_inj g nd (by
          intro n hn
          obtain ⟨e', he', rfl⟩ := List.mem_map.1 hn
          obtain ⟨a, h3, -⟩ := mem e' he'
          exact h3)
        rw [List.map_map] at this
        exact this) T
    refine ⟨T', t1, t2, fun p' hp' => ⟨fun a had => ?_, fun hna => ?_⟩⟩
    · have hi := pcell_inner g hp'
      have hm : (g.num (pcell g false p'), pairG g s r β iso a (g.dec id) (pcell g false p')) ∈ (g.getFdir.flatMap fun a =>
          ((g.nbrs id false).get a).map fun n => (n, pairG g s r β iso a (g.dec id) (g.dec n))) := by
        refine List.mem_flatMap.2 ⟨a, (mem_fdir g a).2 (adj_flow hc hi had), List.mem_map.2 ⟨g.num (pcell g false p'), ?_, ?_⟩⟩
        · have := (g.mem_nbrs_false (g.dec id) (Interior.inGrid hc) a (g.num (pcell g false p'))).2
            ⟨adj_flow hc hi had, _, hi, had, rfl⟩
          rwa [hid'] at this
        · rw [g.dec_num (Interior.inGrid hi)]
      have := t3 _ (List.mem_map.2 ⟨_, hm, rfl⟩)
      simp only [idxOf_pcell g hp'] at this
      exact this
    · rw [t4, hT]
      intro e he heq
      obtain ⟨e', he', rfl⟩ := List.mem_map.1 he
      obtain ⟨a, h3, h4, -⟩ := mem e' he'
      simp only at heq
      rw [← idxOf_pcell g hp'] at heq
      have := (List.idxOf_inj h3).1 heq
      rw [this, g.dec_num (pcell_inGrid g false hp')] at h4
      exact hna a h4) (fun _ _ => 0) (fun _ _ => rfl)
  refine ⟨T, h1, fun p p' hp hp' => ?_⟩
  have := h2 (g.num (pcell g false p)) (by
    rw [mem_innerIds, g.dec_num (pcell_inGrid g false hp)]; exact pcell_inner g hp) p' hp'
  rw [g.dec_num (pcell_inGrid g false hp), idxOf_pcell g hp] at this
  exact this

end RF
