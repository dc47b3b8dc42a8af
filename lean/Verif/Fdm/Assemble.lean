import Verif.Fdm.Spec
import Verif.Registry.Props
/-! # The vectorised assembly in closed form -/
set_option linter.unusedSectionVars false
namespace RF.Fdm
open RF Finset

variable {K : Type} [Field K] [LinearOrder K]

lemma ok_bind {α β : Type} {x : Except Err α} {f : α → Except Err β} {b : β} :
    (x >>= f) = .ok b ↔ ∃ a, x = .ok a ∧ f a = .ok b := by
  cases x <;> simp [bind, Except.bind]

lemma ok_pure {α : Type} {a b : α} : (pure a : Except Err α) = .ok b ↔ a = b := by simp [pure, Except.pure]

lemma range_sum (n : ℕ) (f : ℕ → K) : ((List.range n).map f).sum = ∑ j ∈ range n, f j := by
  induction n with
  | zero => simp
  | succ n ih => rw [List.range_succ, List.map_append, List.sum_append, ih, sum_range_succ]; simp

/-! ### positions -/

section
omit [LinearOrder K]

lemma at_eq (e : Env K) {i : ℕ} (h : i < e.n) : e.at i = e.ids[i]'h := by
  unfold Env.at; rw [List.getD_eq_getElem?_getD, List.getElem?_eq_getElem h]; rfl

lemma at_mem (e : Env K) {i : ℕ} (h : i < e.n) : e.at i ∈ e.ids := by rw [at_eq e h]; exact List.getElem_mem _

lemma idx_lt (e : Env K) {id : ℕ} (h : id ∈ e.ids) : e.ids.idxOf id < e.n := List.idxOf_lt_length_of_mem h

lemma at_idx (e : Env K) {id : ℕ} (h : id ∈ e.ids) : e.at (e.ids.idxOf id) = id := by
  rw [at_eq e (idx_lt e h)]; exact List.getElem_idxOf _

lemma idx_at (e : Env K) (hn : e.ids.Nodup) {i : ℕ} (h : i < e.n) : e.ids.idxOf (e.at i) = i := by
  rw [at_eq e h]; exact hn.idxOf_getElem i h

lemma idx_iff (e : Env K) (hn : e.ids.Nodup) {i id : ℕ} (h : i < e.n) (hid : id ∈ e.ids) : e.ids.idxOf id = i ↔ id = e.at i := by
  constructor
  · rintro rfl; exact (at_idx e hid).symm
  · rintro rfl; exact idx_at e hn h

lemma at_inj (e : Env K) (hn : e.ids.Nodup) {i j : ℕ} (hi : i < e.n) (hj : j < e.n) : e.at i = e.at j ↔ i = j := by
  rw [← idx_iff e hn hj (at_mem e hi), idx_at e hn hi]

lemma cellIndex_ok {ids : List ℕ} {id i : ℕ} : cellIndex ids id = .ok i ↔ id ∈ ids ∧ ids.idxOf id = i := by
  unfold cellIndex
  split_ifs with h <;> simp [h]
end

/-! ### expressions -/

lemma values_two {a : Aff K} {id : ℕ} {v0 v1 : K} : a.values id = [v0, v1] ↔ a.const ≠ 0 ∧ a.coef id ≠ 0 ∧ v0 = a.const ∧ v1 = a.coef id := by
  unfold Aff.values
  by_cases h : a.const = 0 <;> by_cases h' : a.coef id = 0 <;> simp [h, h']
  exact ⟨fun ⟨a, b⟩ => ⟨a.symm, b.symm⟩, fun ⟨a, b⟩ => ⟨a.symm, b.symm⟩⟩

section
omit [LinearOrder K]

/-- The flow term of a pressure boundary: number and coefficient. -/
lemma bTerm_pressure {lower : String → String} (hl : LowerOK lower) {e : Env K} {b : List (ℕ × String × K)} {id idb : ℕ} {v : K}
    (h : dictGet b idb = some ("pressure", v)) (x : Aff K) (T : K) :
    bTerm lower e b id idb x T = Aff.smul (T * 2) (((Aff.c v).sub x).sub (Aff.c (e.grav * (e.z idb - e.z id)))) := by
  unfold bTerm; rw [h]; simp only [show lower "pressure" = "pressure" from hl.1]; rw [if_pos (by simp)]
end

/-! ### pressure boundaries -/

lemma vBound_ok {lower : String → String} (hl : LowerOK lower) {e : Env K} {m : Mdl K} {acc acc' : (ℕ → ℕ → K) × List (ℕ × K × K × ℕ)}
    {b : ℕ} {v : K} (hb : dictGet m.bdict b = some ("pressure", v)) (h : vBound lower e m acc b = .ok acc') :
    ∃ id T, e.Face b id T ∧ id ∈ e.ids ∧ T ≠ 0 ∧ acc'.1 = addEntry acc.1 (e.ids.idxOf id) (e.ids.idxOf id) (-(2 * T)) ∧
      acc'.2 = dictSet acc.2 b (2 * T * (v - e.grav * (e.z b - e.z id)), -(2 * T), id) := by
  unfold vBound at h
  rw [ok_bind] at h
  obtain ⟨l, hT, h⟩ := h
  split at h
  case h_2 => simp at h
  rename_i id T
  split at h
  case h_2 => simp at h
  rename_i v0 v1 hv
  rw [ok_bind] at h
  obtain ⟨i, hi, h⟩ := h
  rw [ok_pure] at h
  subst h
  rw [cellIndex_ok] at hi
  obtain ⟨hi, rfl⟩ := hi
  rw [bTerm_pressure hl hb, values_two] at hv
  obtain ⟨-, h2, rfl, rfl⟩ := hv
  have e1 : (Aff.smul (T * 2) (((Aff.c v).sub (Aff.p id)).sub (Aff.c (e.grav * (e.z b - e.z id))))).coef id = -(2 * T) := by
    simp [Aff.smul, Aff.sub, Aff.c, Aff.p, mul_comm]
  have e2 : (Aff.smul (T * 2) (((Aff.c v).sub (Aff.p id)).sub (Aff.c (e.grav * (e.z b - e.z id))))).const =
      2 * T * (v - e.grav * (e.z b - e.z id)) := by simp [Aff.smul, Aff.sub, Aff.c, Aff.p, mul_comm]
  refine ⟨id, T, hT, hi, ?_, by rw [e1], by rw [e1, e2]⟩
  rintro rfl; rw [e1] at h2; simp at h2

/-- What `bdict_v` has to hold: for every pressure condition the number of its flow term. -/
def BoundV (e : Env K) (bd : List (ℕ × String × K)) (bV : List (ℕ × K × K × ℕ)) (b : ℕ) : Prop :=
  ∀ v, dictGet bd b = some ("pressure", v) → ∃ id T c, e.Face b id T ∧ id ∈ e.ids ∧ T ≠ 0 ∧
    dictGet bV b = some (2 * T * (v - e.grav * (e.z b - e.z id)), c, id)

lemma addEntry_diag (A : ℕ → ℕ → K) (k i j : ℕ) (v : K) : addEntry A k k v i j = A i j + if i = j ∧ i = k then v else 0 := by
  unfold addEntry
  by_cases h1 : i = k <;> by_cases h2 : j = k <;> simp [h1, h2]
  · exact fun h => absurd h.symm h2
  

lemma bounds_ok {lower : String → String} (hl : LowerOK lower) {e : Env K} (hn : e.ids.Nodup) {m : Mdl K} (bs : List ℕ)
    (hbs : ∀ b, b ∈ bs → ∃ v, dictGet m.bdict b = some ("pressure", v)) (acc acc' : (ℕ → ℕ → K) × List (ℕ × K × K × ℕ))
    (h : bs.foldlM (vBound lower e m) acc = .ok acc') :
    (∀ i j, i < e.n → j < e.n → acc'.1 i j = acc.1 i j - if i = j then (bs.map (faceLeak e i)).sum else 0) ∧
      (∀ b, b ∈ bs ∨ BoundV e m.bdict acc.2 b → BoundV e m.bdict acc'.2 b) ∧ 
      (∀ b, b ∈ bs → ∃ id T, e.Face b id T ∧ id ∈ e.ids ∧ T ≠ 0) := by
  induction bs generalizing acc with
  | nil =>
    rw [List.foldlM_nil, ok_pure] at h; subst h
    refine ⟨fun i j _ _ => by simp, fun b hb => by simpa using hb, by simp⟩
  | cons b bs ih =>
    rw [List.foldlM_cons, ok_bind] at h
    obtain ⟨a, ha, h⟩ := h
    obtain ⟨v, hv⟩ := hbs b (by simp)
    obtain ⟨id, T, hF, hid, hT, e1, e2⟩ := vBound_ok hl hv ha
    obtain ⟨i1, i2, i3⟩ := ih (fun b hb => hbs b (by simp [hb])) a h
    refine ⟨fun i j hi hj => ?_, fun b' hb' => ?_, fun b' hb' => ?_⟩
    · rw [i1 i j hi hj, e1, addEntry_diag, List.map_cons, List.sum_cons]
      have : faceLeak e i b = if id = e.at i then 2 * T else 0 := by
        unfold faceLeak; rw [show e.transC b false = _ from hF]
      rw [this]
      by_cases hij : i = j
      · subst hij
        simp only [eq_comm (a := i) (b := e.ids.idxOf id), idx_iff e hn hi hid, true_and, if_true]
        split_ifs <;> ring
      · simp [hij]
    · apply i2
      by_cases hm : b' ∈ bs
      · exact Or.inl hm
      right
      intro v' hv'
      rw [e2, dictGet_set]
      by_cases hbb : b = b'
      · subst hbb
        rw [hv] at hv'; cases hv'
        exact ⟨id, T, -(2 * T), hF, hid, hT, by simp⟩
      · rw [if_neg hbb]
        rcases hb' with hb' | hb'
        · rcases List.mem_cons.1 hb' with hb' | hb'
          · exact absurd hb'.symm hbb
          · exact absurd hb' hm
        · exact hb' v' hv'
    · rcases List.mem_cons.1 hb' with rfl | hb'
      · exact ⟨id, T, hF, hid, hT⟩
      · exact i3 b' hb'
end RF.Fdm
