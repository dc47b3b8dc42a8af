import Verif.Scaler.Model
import Mathlib.Tactic.FieldSimp
import Mathlib.Tactic.Positivity
import Mathlib.Data.Fin.VecNotation
import Mathlib.Tactic.FinCases
/-!
# Properties of the scalers (C54, C55)
-/
namespace RF
variable {K : Type} {m : ℕ}

/-- A table of numbers as a table of results without missing entries. -/
def finite (w : List (Fin m → K)) : List (Fin m → Option K) := w.map fun r j => some (r j)

section
variable [Field K] [DecidableEq K]

lemma divN_ne (a b : K) (h : b ≠ 0) : divN a b = some (a / b) := if_neg h

/-- **C54** (partial) With an input range that is not a point in any feature and an output range that is not a point, `transform`
and `inverse_transform` give numbers and undo each other, whichever comes first.
Missing: constant features, for which the claim is false (`C54_constant_fails`). -/
theorem C54_roundtrip_partial (s : MinMax K m) (vmin vmax : Fin m → K) (hs : s.range = some (vmin, vmax))
    (h1 : ∀ j, vmin j ≠ vmax j) (h2 : s.Vmin ≠ s.Vmax) (v : List (Fin m → K)) :
    (∃ w, s.transform v = .ok (finite w) ∧ s.inverse w = .ok (finite v)) ∧
    (∃ w, s.inverse v = .ok (finite w) ∧ s.transform w = .ok (finite v)) := by
  have d1 : ∀ j, vmax j - vmin j ≠ 0 := fun j => sub_ne_zero.2 (h1 j).symm
  have d2 : s.Vmax - s.Vmin ≠ 0 := sub_ne_zero.2 h2.symm
  constructor
  · refine ⟨v.map fun r j => (s.Vmax - s.Vmin) * (r j - vmin j) / (vmax j - vmin j) + s.Vmin, ?_, ?_⟩
    · simp only [MinMax.transform, hs, finite, List.map_map]
      congr 1
      refine List.map_congr_left fun r _ => ?_
      funext j
      simp only [Function.comp, divN_ne _ _ (d1 j), Option.map_some]
    · simp only [MinMax.inverse, hs, finite, List.map_map]
      congr 1
      refine List.map_congr_left fun r _ => ?_
      funext j
      simp only [Function.comp, divN_ne _ _ d2, Option.map_some]
      congr 1
      have := d1 j
      field_simp
      ring
  · refine ⟨v.map fun r j => (vmax j - vmin j) * (r j - s.Vmin) / (s.Vmax - s.Vmin) + vmin j, ?_, ?_⟩
    · simp only [MinMax.inverse, hs, finite, List.map_map]
      congr 1
      refine List.map_congr_left fun r _ => ?_
      funext j
      simp only [Function.comp, divN_ne _ _ d2, Option.map_some]
    · simp only [MinMax.transform, hs, finite, List.map_map]
      congr 1
      refine List.map_congr_left fun r _ => ?_
      funext j
      simp only [Function.comp, divN_ne _ _ (d1 j), Option.map_some]
      congr 1
      have := d1 j
      field_simp
      ring

/-- **C54** An unfitted scaler refuses both operations. -/
theorem C54_unfitted (s : MinMax K m) (h : s.range = none) (v : List (Fin m → K)) :
    s.transform v = .error .value ∧ s.inverse v = .error .value := by
  simp [MinMax.transform, MinMax.inverse, h]

/-- **C54** The dummy scaler returns its input, before and after fitting. -/
theorem C54_dummy [LinearOrder K] (v u : List (Fin m → K)) (ndim : ℕ) (ax : FitAxis) :
    (Scaler.dummy : Scaler K m).transform v = .ok (finite v) ∧ (Scaler.dummy : Scaler K m).inverse v = .ok (finite v) ∧
      (Scaler.dummy : Scaler K m).fit ndim u ax = .ok .dummy := ⟨rfl, rfl, rfl⟩
end

section
variable [LinearOrder K]

lemma minL_spec (a : K) (l : List K) : (minL a l ∈ a :: l) ∧ ∀ x ∈ a :: l, minL a l ≤ x := by
  unfold minL
  induction l generalizing a with
  | nil => simp
  | cons b l ih =>
    obtain ⟨h1, h2⟩ := ih (min a b)
    simp only [List.foldl_cons]
    refine ⟨?_, fun x hx => ?_⟩
    · rcases List.mem_cons.1 h1 with h | h
      · rcases min_choice a b with e | e <;> rw [h, e] <;> simp
      · simp [h]
    · simp only [List.mem_cons] at hx h2
      rcases hx with rfl | rfl | hx
      · exact (h2 _ (.inl rfl)).trans (min_le_left _ _)
      · exact (h2 _ (.inl rfl)).trans (min_le_right _ _)
      · exact h2 x (.inr hx)

lemma maxL_spec (a : K) (l : List K) : (maxL a l ∈ a :: l) ∧ ∀ x ∈ a :: l, x ≤ maxL a l := by
  unfold maxL
  induction l generalizing a with
  | nil => simp
  | cons b l ih =>
    obtain ⟨h1, h2⟩ := ih (max a b)
    simp only [List.foldl_cons]
    refine ⟨?_, fun x hx => ?_⟩
    · rcases List.mem_cons.1 h1 with h | h
      · rcases max_choice a b with e | e <;> rw [h, e] <;> simp
      · simp [h]
    · simp only [List.mem_cons] at hx h2
      rcases hx with rfl | rfl | hx
      · exact (le_max_left _ _).trans (h2 _ (.inl rfl))
      · exact (le_max_right _ _).trans (h2 _ (.inl rfl))
      · exact h2 x (.inr hx)

/-- `lo` and `hi` are the least and the greatest entry of a list. -/
def Extremes (l : List K) (lo hi : K) : Prop := lo ∈ l ∧ hi ∈ l ∧ ∀ x ∈ l, lo ≤ x ∧ x ≤ hi

/-- The data a feature's range is taken from: its column for axis 0, everything for `None`. -/
def pool (v : List (Fin m → K)) (ax : FitAxis) (j : Fin m) : List K :=
  match ax with
  | .zero => v.map (· j)
  | .none => v.flatMap List.ofFn

lemma fit_spec (s : MinMax K m) (ndim : ℕ) (v : List (Fin m → K)) (ax : FitAxis) (s' : MinMax K m)
    (h : s.fit ndim v ax = .ok s') :
    ∃ vmin vmax, s'.range = some (vmin, vmax) ∧ s'.Vmin = s.Vmin ∧ s'.Vmax = s.Vmax ∧
      ∀ j, Extremes (pool v ax j) (vmin j) (vmax j) := by
  unfold MinMax.fit at h
  split_ifs at h
  cases ax with
  | zero =>
    cases v with
    | nil => simp [fitRange, bind, Except.bind] at h
    | cons r rs =>
      simp only [fitRange] at h
      cases h
      refine ⟨_, _, rfl, rfl, rfl, fun j => ?_⟩
      have a := minL_spec (r j) (rs.map (· j))
      have b := maxL_spec (r j) (rs.map (· j))
      exact ⟨a.1, b.1, fun x hx => ⟨a.2 x hx, b.2 x hx⟩⟩
  | none =>
    simp only [fitRange] at h
    cases hv : v.flatMap List.ofFn with
    | nil => simp [hv, bind, Except.bind] at h
    | cons y l =>
      simp only [hv] at h
      cases h
      refine ⟨_, _, rfl, rfl, rfl, fun j => ?_⟩
      have a := minL_spec y l
      have b := maxL_spec y l
      simp only [pool, hv]
      exact ⟨a.1, b.1, fun x hx => ⟨a.2 x hx, b.2 x hx⟩⟩
end

section
variable [Field K] [LinearOrder K] [IsStrictOrderedRing K]

/-- The number a fitted scaler gives for the value `x` of feature `j`. -/
def MinMax.at? (s : MinMax K m) (j : Fin m) (x : K) : Option K :=
  match s.transform [fun _ => x] with
  | .ok [r] => r j
  | _ => none

/-- **C54** Fitted to data in which feature `j` is not constant, a scaler with output range `Vmin < Vmax` maps the least value
to `Vmin` and the greatest to `Vmax`, preserves order strictly, and keeps all values of the data within the output range. -/
theorem C54_range (s s' : MinMax K m) (hV : s.Vmin < s.Vmax) (ndim : ℕ) (v : List (Fin m → K)) (ax : FitAxis)
    (hf : s.fit ndim v ax = .ok s') (j : Fin m) (hc : ∃ x ∈ pool v ax j, ∃ y ∈ pool v ax j, x ≠ y) :
    ∃ (f : K → K) (lo hi : K), (∀ x, s'.at? j x = some (f x)) ∧ Extremes (pool v ax j) lo hi ∧
      f lo = s.Vmin ∧ f hi = s.Vmax ∧ (∀ x y, x < y → f x < f y) ∧
      (∀ x ∈ pool v ax j, s.Vmin ≤ f x ∧ f x ≤ s.Vmax) := by
  obtain ⟨vmin, vmax, hr, e1, e2, hE⟩ := fit_spec s ndim v ax s' hf
  obtain ⟨h1, h2, h3⟩ := hE j
  have hlt : vmin j < vmax j := by
    obtain ⟨x, hx, y, hy, hxy⟩ := hc
    rcases lt_or_gt_of_ne hxy with h | h
    · exact ((h3 x hx).1.trans_lt h).trans_le (h3 y hy).2
    · exact ((h3 y hy).1.trans_lt h).trans_le (h3 x hx).2
  have hp : 0 < vmax j - vmin j := sub_pos.2 hlt
  have hq : 0 < s.Vmax - s.Vmin := sub_pos.2 hV
  let f : K → K := fun x => (s.Vmax - s.Vmin) * (x - vmin j) / (vmax j - vmin j) + s.Vmin
  have hmono : ∀ x y, x < y → f x < f y := by
    intro x y h
    have : (s.Vmax - s.Vmin) * (x - vmin j) < (s.Vmax - s.Vmin) * (y - vmin j) :=
      mul_lt_mul_of_pos_left (by linarith) hq
    simpa [f] using div_lt_div_of_pos_right this hp
  have flo : f (vmin j) = s.Vmin := by simp [f]
  have fhi : f (vmax j) = s.Vmax := by
    simp only [f]; rw [mul_div_assoc, div_self hp.ne']; ring
  refine ⟨f, vmin j, vmax j, fun x => ?_, hE j, flo, fhi, hmono, fun x hx => ⟨?_, ?_⟩⟩
  · simp only [MinMax.at?, MinMax.transform, hr, List.map_cons, List.map_nil, e1, e2, divN_ne _ _ hp.ne', Option.map_some, f]
  · rcases (h3 x hx).1.eq_or_lt with h | h
    · rw [← h, flo]
    · rw [← flo]; exact (hmono _ _ h).le
  · rcases (h3 x hx).2.eq_or_lt with h | h
    · rw [h, fhi]
    · rw [← fhi]; exact (hmono _ _ h).le

/-- **C54** `transform` treats values independently: the table it returns holds the single answers. -/
theorem C54_pointwise (s : MinMax K m) (r : (Fin m → K) × (Fin m → K)) (h : s.range = some r) (v : List (Fin m → K)) :
    s.transform v = .ok (v.map fun row j => s.at? j (row j)) := by
  simp only [MinMax.transform, h, MinMax.at?, List.map_cons, List.map_nil]

/-- **C54** Arrays with one or two axes can be fitted feature by feature, all arrays over everything; only an array without numbers is refused, with `ValueError`. What was fitted before plays
no part. -/
theorem C54_fit_accepts (s : MinMax K m) (ndim : ℕ) (v : List (Fin m → K)) (ax : FitAxis) :
    ((∃ s', s.fit ndim v ax = .ok s') ↔ (ax = .zero ∧ ndim ≤ 2 ∧ v ≠ []) ∨ (ax = .none ∧ v ≠ [] ∧ 0 < m)) ∧
    (∀ e, s.fit ndim v ax = .error e → e = .value) ∧
    ∀ r, ({ s with range := r } : MinMax K m).fit ndim v ax = s.fit ndim v ax := by
  unfold MinMax.fit
  have hnone : (v.flatMap List.ofFn ≠ []) ↔ v ≠ [] ∧ 0 < m := by
    constructor
    · intro h
      refine ⟨by rintro rfl; exact h rfl, Nat.pos_of_ne_zero ?_⟩
      rintro rfl
      exact h (by simp)
    · rintro ⟨h1, h2⟩ h
      obtain ⟨a, l, rfl⟩ := List.exists_cons_of_ne_nil h1
      rw [List.flatMap_cons, List.append_eq_nil_iff, List.ofFn_eq_nil_iff] at h
      omega
  refine ⟨?_, fun e => ?_, fun r => rfl⟩
  · cases ax with
    | zero =>
      cases v with
      | nil => split_ifs <;> simp [fitRange, bind, Except.bind]
      | cons a l =>
        by_cases hd : ndim ≤ 2
        · rw [if_neg (by omega)]
          exact ⟨fun _ => .inl ⟨rfl, hd, by simp⟩, fun _ => ⟨_, rfl⟩⟩
        · rw [if_pos ⟨by omega, rfl⟩]
          simp [hd]
    | none =>
      rw [if_neg (by simp)]
      simp only [fitRange, reduceCtorEq, false_and, true_and, false_or]
      rw [← hnone]
      cases v.flatMap List.ofFn with
      | nil => simp [bind, Except.bind]
      | cons a l => exact ⟨fun _ => by simp, fun _ => ⟨_, rfl⟩⟩
  · intro h
    split_ifs at h
    · cases h; rfl
    · cases ax with
      | zero =>
        cases v with
        | nil => simp only [fitRange, bind, Except.bind] at h; cases h; rfl
        | cons a l => cases h
      | none =>
        simp only [fitRange] at h
        cases hv : v.flatMap List.ofFn with
        | nil => rw [hv] at h; cases h; rfl
        | cons a l => rw [hv] at h; cases h

/-- **C54** `fit_transform` sends the data through one increasing line per feature that takes the least value of the feature to the lower end of the output range and the greatest to the upper
end, whatever was fitted before. -/
theorem C54_fit_transform (s : MinMax K m) (hV : s.Vmin < s.Vmax) (ndim : ℕ) (v : List (Fin m → K)) (ax : FitAxis)
    (hx : (ax = .zero ∧ ndim ≤ 2 ∧ v ≠ []) ∨ (ax = .none ∧ v ≠ [] ∧ 0 < m)) (hc : ∀ j, ∃ x ∈ pool v ax j, ∃ y ∈ pool v ax j, x ≠ y) :
    ∃ f : Fin m → K → K, (Scaler.minmax s).fitTransform ndim v ax = .ok (finite (v.map fun r j => f j (r j))) ∧
      ∀ j, (∀ x y, x < y → f j x < f j y) ∧ ∃ lo hi, Extremes (pool v ax j) lo hi ∧ f j lo = s.Vmin ∧ f j hi = s.Vmax := by
  obtain ⟨s', hf⟩ := (C54_fit_accepts s ndim v ax).1.2 hx
  obtain ⟨vmin, vmax, hr, -⟩ := fit_spec s ndim v ax s' hf
  have key := fun j => C54_range s s' hV ndim v ax hf j (hc j)
  choose f lo hi k1 k2 k3 k4 k5 k6 using key
  refine ⟨f, ?_, fun j => ⟨k5 j, lo j, hi j, k2 j, k3 j, k4 j⟩⟩
  have e : (Scaler.minmax s).fitTransform ndim v ax = s'.transform v := by
    simp only [Scaler.fitTransform, Scaler.fit, hf]
    rfl
  rw [e, C54_pointwise s' _ hr]
  simp only [finite, List.map_map]
  congr 1
  refine List.map_congr_left fun r _ => ?_
  funext j
  simp only [Function.comp, k1]

/-- **C54** Fitted to data in which feature `j` is constant, the scaler gives no number for it, so nothing can be inverted. -/
theorem C54_constant_fails (s s' : MinMax K m) (ndim : ℕ) (v : List (Fin m → K)) (ax : FitAxis)
    (hf : s.fit ndim v ax = .ok s') (j : Fin m) (hc : ∀ x ∈ pool v ax j, ∀ y ∈ pool v ax j, x = y) (x : K) :
    s'.at? j x = none := by
  obtain ⟨vmin, vmax, hr, e1, e2, hE⟩ := fit_spec s ndim v ax s' hf
  obtain ⟨h1, h2, h3⟩ := hE j
  have : vmax j - vmin j = 0 := sub_eq_zero.2 (hc _ h2 _ h1)
  simp only [MinMax.at?, MinMax.transform, hr, List.map_cons, List.map_nil, this]
  simp [divN]

end

/-- Time steps 0, 30, 60 scaled to (0, 1). -/
def demoScaler : MinMax ℚ 1 := ⟨0, 1, none⟩
def demoTimes : List (Fin 1 → ℚ) := [fun _ => 0, fun _ => 30, fun _ => 60]
example : demoScaler.fit 1 demoTimes .zero = .ok ⟨0, 1, some (fun _ => 0, fun _ => 60)⟩ := by
  simp [demoScaler, MinMax.fit, fitRange, demoTimes, minL, maxL]; rfl
example : ∃ x ∈ pool demoTimes .zero 0, ∃ y ∈ pool demoTimes .zero 0, x ≠ y :=
  ⟨0, by simp [pool, demoTimes], 30, by simp [pool, demoTimes], by norm_num⟩

/-- A table of two features, given to a scaler that was fitted to something else. -/
example : ∃ f : Fin 2 → ℚ → ℚ, (Scaler.minmax ⟨-1, 1, some (fun _ => 5, fun _ => 6)⟩).fitTransform 2 [![0, 7], ![4, 9]] .zero = .ok (finite [fun j => f j (![0, 7] j), fun j => f j (![4, 9] j)]) := by
  obtain ⟨f, h, -⟩ := C54_fit_transform (⟨-1, 1, some (fun _ => 5, fun _ => 6)⟩ : MinMax ℚ 2) (by norm_num) 2 [![0, 7], ![4, 9]] .zero (.inl ⟨rfl, le_rfl, by simp⟩)
    (fun j => by fin_cases j; exacts [⟨0, by simp [pool], 4, by simp [pool], by norm_num⟩, ⟨7, by simp [pool], 9, by simp [pool], by norm_num⟩])
  exact ⟨f, h⟩

/-! ## `set_scalers` -/
section
variable (lower : String → String)

/-- What a setting asks for: a dummy if type or range is missing, a MinMax scaler otherwise. -/
def Setting.wants (e : Setting K) : Made K :=
  match e.ty, e.range with
  | some _, some r => .minmax r.1 r.2
  | _, _ => .dummy

/-- A setting that can be carried out: known column, and a known scaler type unless a part is missing. -/
def Setting.Ok (e : Setting K) : Prop :=
  (∃ q, lower e.column ∈ colNames q) ∧ (∀ t r, e.ty = some t → e.range = some r → lower t ∈ ["minmax", "minmaxscaler"])

lemma quantityOf_all (c : String) (h : lower c = "all") : quantityOf lower c = some .time := by
  unfold quantityOf; rw [h]; decide

lemma quantityOf_iff (c : String) (h : lower c ≠ "all") (q : Quantity) :
    quantityOf lower c = some q ↔ lower c ∈ colNames q := by
  have key : ∀ q q' x, x ≠ "all" → x ∈ colNames q → x ∈ colNames q' → q = q' := by
    have : ∀ q q', ∀ x ∈ colNames q, x ≠ "all" → x ∈ colNames q' → q = q' := by
      intro q q'; cases q <;> cases q' <;> decide
    exact fun q q' x h1 h2 h3 => this q q' x h2 h1 h3
  unfold quantityOf
  constructor
  · intro hq; simpa using List.find?_some hq
  · intro hq
    cases hf : [Quantity.time, .space, .pressure, .rate].find? fun q => decide (lower c ∈ colNames q) with
    | none => 
      rw [List.find?_eq_none] at hf
      exact absurd hq (by simpa using hf q (by cases q <;> simp))
    | some q' =>
      have := List.find?_some hf
      simp only [decide_eq_true_eq] at this
      rw [key q' q _ h this hq]

lemma setOne_ok (s : ScalerState K) (e : Setting K) (q : Quantity) (hq : quantityOf lower e.column = some q)
    (ht : ∀ t r, e.ty = some t → e.range = some r → lower t ∈ ["minmax", "minmaxscaler"]) :
    ∃ s', setOne lower s e = .ok s' ∧ s'.obj = Function.update s.obj q e.wants ∧
      s'.entry = Function.update s.entry q (match e.ty, e.range with | some _, some r => some ("MinMax", r) | _, _ => none) := by
  obtain ⟨c, ty, rg⟩ := e
  simp only at hq ht
  unfold setOne
  simp only [hq]
  cases ty with
  | none => exact ⟨_, rfl, rfl, rfl⟩
  | some t =>
    cases rg with
    | none => exact ⟨_, rfl, rfl, rfl⟩
    | some r =>
      have := ht t r rfl rfl
      simp only [createScaler, this, if_true]
      exact ⟨_, rfl, rfl, rfl⟩

/-- **C55** (partial) Any dictionary of settings that can be carried out and does not use the name "all" is accepted; afterwards
each quantity has the scaler of the last setting naming it, in any of its spellings and letter cases, and keeps its scaler if
none does. Missing: "all", for which the claim is false (`C55_all_only_time`). -/
theorem C55_named_partial (s : ScalerState K) (es : List (Setting K)) (hok : ∀ e ∈ es, e.Ok lower)
    (hall : ∀ e ∈ es, lower e.column ≠ "all") :
    ∃ s', setScalers lower s es = (s', .ok ()) ∧
      ∀ q, (es.filter (fun e => decide (lower e.column ∈ colNames q))).getLast?.elim (s'.obj q = s.obj q)
        (fun e => s'.obj q = e.wants) := by
  induction es generalizing s with
  | nil => exact ⟨s, rfl, fun q => rfl⟩
  | cons e es ih =>
    obtain ⟨⟨q, hq⟩, ht⟩ := hok e (by simp)
    have hna := hall e (by simp)
    obtain ⟨s1, h1, h2, _⟩ := setOne_ok lower s e q ((quantityOf_iff lower _ hna q).2 hq) ht
    obtain ⟨s', h3, h4⟩ := ih s1 (fun e he => hok e (by simp [he])) (fun e he => hall e (by simp [he]))
    refine ⟨s', by simp only [setScalers, h1, h3], fun q' => ?_⟩
    have hl := h4 q'
    rw [List.filter_cons]
    by_cases hq' : lower e.column ∈ colNames q'
    · have hqq : q' = q := by
        have a := (quantityOf_iff lower _ hna q).2 hq
        have b := (quantityOf_iff lower _ hna q').2 hq'
        rw [a] at b; exact (Option.some.inj b).symm
      subst hqq
      rw [if_pos (by simpa using hq'), List.getLast?_cons]
      cases hg : (es.filter (fun e => decide (lower e.column ∈ colNames q'))).getLast? with
      | none =>
        rw [hg] at hl
        simp only [Option.elim] at hl
        simp [hl, h2]
      | some e' =>
        rw [hg] at hl
        simpa using hl
    · rw [if_neg (by simpa using hq')]
      have hne : q' ≠ q := by rintro rfl; exact hq' hq
      cases hg : (es.filter (fun e => decide (lower e.column ∈ colNames q'))).getLast? with
      | none =>
        rw [hg] at hl
        simp only [Option.elim] at hl ⊢
        rw [hl, h2, Function.update_of_ne hne]
      | some e' =>
        rw [hg] at hl
        exact hl

/-- **C55** "all" changes the time scaler only, although it is listed for all four quantities. -/
theorem C55_all_only_time (s : ScalerState K) (e : Setting K) (h : lower e.column = "all")
    (ht : ∀ t r, e.ty = some t → e.range = some r → lower t ∈ ["minmax", "minmaxscaler"]) :
    ∃ s', setScalers lower s [e] = (s', .ok ()) ∧ s'.obj .time = e.wants ∧
      (∀ q, q ≠ .time → s'.obj q = s.obj q ∧ s'.entry q = s.entry q) ∧ ∀ q, "all" ∈ colNames q := by
  obtain ⟨s', h1, h2, h3⟩ := setOne_ok lower s e .time (quantityOf_all lower _ h) ht
  refine ⟨s', by simp only [setScalers, h1], by rw [h2]; simp, fun q hq => ?_, fun q => by cases q <;> decide⟩
  rw [h2, h3, Function.update_of_ne hq, Function.update_of_ne hq]
  exact ⟨rfl, rfl⟩

lemma setOne_bad (s : ScalerState K) (e : Setting K) (h : ¬ e.Ok lower) : setOne lower s e = .error .value := by
  unfold setOne
  cases hq : quantityOf lower e.column with
  | none => rfl
  | some q =>
    have hmem : lower e.column ∈ colNames q := by
      unfold quantityOf at hq; simpa using List.find?_some hq
    simp only [Setting.Ok, not_and] at h
    have h := h ⟨q, hmem⟩
    push Not at h
    obtain ⟨t, r, h1, h2, h3⟩ := h
    simp only [createScaler, h1, h2, h3, if_false]
    rfl

/-- **C55** (partial) A dictionary whose first setting cannot be carried out is refused and changes nothing; wherever the bad
setting stands, the call is refused. Missing: no change when good settings come first, which is false (`C55_refused_mutates`). -/
theorem C55_refused_partial (s : ScalerState K) (es : List (Setting K)) :
    (∀ e rest, es = e :: rest → ¬ e.Ok lower → setScalers lower s es = (s, .error .value)) ∧
    ((∃ e ∈ es, ¬ e.Ok lower) → (setScalers lower s es).2 = .error .value) := by
  constructor
  · rintro e rest rfl h
    simp only [setScalers, setOne_bad lower s e h]
  · intro h
    induction es generalizing s with
    | nil => simp at h
    | cons e es ih =>
      by_cases he : e.Ok lower
      · obtain ⟨e', h1, h2⟩ := h
        have hm : e' ∈ es := by
          rcases List.mem_cons.1 h1 with rfl | h1
          · exact absurd he h2
          · exact h1
        obtain ⟨⟨q, hq⟩, ht⟩ := he
        have : ∃ q, quantityOf lower e.column = some q := by
          by_cases ha : lower e.column = "all"
          · exact ⟨_, quantityOf_all lower _ ha⟩
          · exact ⟨q, (quantityOf_iff lower _ ha q).2 hq⟩
        obtain ⟨q', hq'⟩ := this
        obtain ⟨s1, h3, _⟩ := setOne_ok lower s e q' hq' ht
        simp only [setScalers, h3]
        exact ih s1 ⟨e', hm, h2⟩
      · simp only [setScalers, setOne_bad lower s e he]

/-- **C55** A refused dictionary can change the model: settings before the unknown name are kept. -/
theorem C55_refused_mutates (s : ScalerState K) (lo hi : K) (hs : s.obj .time ≠ .minmax lo hi) (ht : lower "time" = "time")
    (hm : lower "minmax" = "minmax") (hu : lower "depth" = "depth") :
    ∃ s', setScalers lower s [⟨"time", some "minmax", some (lo, hi)⟩, ⟨"depth", none, none⟩] = (s', .error .value) ∧
      s'.obj .time ≠ s.obj .time := by
  have hq : quantityOf lower "time" = some .time := (quantityOf_iff lower _ (by rw [ht]; decide) _).2 (by rw [ht]; decide)
  obtain ⟨s1, h1, h2, _⟩ := setOne_ok lower s ⟨"time", some "minmax", some (lo, hi)⟩ .time hq
    (by rintro t r h _; cases h; rw [hm]; decide)
  have hb : ¬ (⟨"depth", none, none⟩ : Setting K).Ok lower := by
    rintro ⟨⟨q, hq⟩, _⟩
    simp only [hu] at hq
    revert hq
    cases q <;> decide
  refine ⟨s1, by simp only [setScalers, h1, setOne_bad lower s1 _ hb], ?_⟩
  rw [h2]
  simpa [Setting.wants] using fun h => hs h.symm
end
example : (⟨"Spatial", some "MinMax", some (-1, 1)⟩ : Setting ℚ).Ok String.toLower :=
  ⟨⟨.space, by decide +kernel⟩, by rintro t r h _; cases h; decide +kernel⟩
example : (⟨"all", some "MinMax", some (-1, 1)⟩ : Setting ℚ).column.toLower = "all" := by decide +kernel
end RF
