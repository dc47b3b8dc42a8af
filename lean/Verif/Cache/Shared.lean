import Verif.Cache.Model
/-!
# Initial arrays of several models (C31)
-/
set_option linter.unusedSectionVars false
namespace RF
variable {K : Type} [Zero K]

namespace Shop

/-- The model an event belongs to. -/
def owner : MEvent K → Option ℕ
  | .create _ _ => none | .setRate m _ _ => some m | .setPress m _ _ => some m | .compile m => some m

/-- Reference to the rate array of model `m`. -/
def ref (s : Shop K) (m : ℕ) : Option ℕ := s.models[m]?.map (·.rates)

/-- References point to allocated arrays. -/
def Ok (s : Shop K) : Prop :=
  (∀ k r, s.zc = some (k, r) → r < s.heap.length) ∧ ∀ x ∈ s.models, x.rates < s.heap.length

lemma getZeros_hit (n : ℕ → Bool → ℕ) (s : Shop K) (o : ℕ) (b : Bool) (r : ℕ) (h : s.zc = some ((o, b), r)) :
    s.getZeros n o b = (r, s) := by simp [getZeros, h]

lemma getZeros_miss (n : ℕ → Bool → ℕ) (s : Shop K) (o : ℕ) (b : Bool) (h : ∀ r, s.zc ≠ some ((o, b), r)) :
    s.getZeros n o b =
      (s.heap.length, { s with heap := s.heap ++ [List.replicate (n o b) 0], zc := some ((o, b), s.heap.length) }) := by
  unfold getZeros
  cases hz : s.zc with
  | none => rfl
  | some kr =>
    obtain ⟨k, r⟩ := kr
    simp only
    rw [if_neg]
    rintro rfl; exact h r hz

lemma getZeros_facts (n : ℕ → Bool → ℕ) (s : Shop K) (o : ℕ) (b : Bool) (h : s.Ok) :
    (s.getZeros n o b).2.Ok ∧ (s.getZeros n o b).1 < (s.getZeros n o b).2.heap.length ∧
      (s.getZeros n o b).2.models = s.models ∧ (∀ r, r < s.heap.length → (s.getZeros n o b).2.heap.getD r [] = s.heap.getD r []) ∧
      (s.getZeros n o b).2.zc = some ((o, b), (s.getZeros n o b).1) ∧ s.heap.length ≤ (s.getZeros n o b).2.heap.length := by
  by_cases hh : ∃ r, s.zc = some ((o, b), r)
  · obtain ⟨r, hr⟩ := hh
    rw [getZeros_hit n s o b r hr]
    exact ⟨h, h.1 _ _ hr, rfl, fun _ _ => rfl, hr, le_refl _⟩
  · rw [getZeros_miss n s o b fun r hr => hh ⟨r, hr⟩]
    refine ⟨⟨?_, fun x hx => ?_⟩, ?_, rfl, fun r hr => ?_, rfl, ?_⟩
    · rintro k r e; simp only [Option.some.injEq, Prod.mk.injEq] at e; obtain ⟨_, rfl⟩ := e; simp
    · have := h.2 x hx; simp only [List.length_append, List.length_cons, List.length_nil]; omega
    · simp
    · simp only [List.getD_eq_getElem?_getD]; rw [List.getElem?_append_left hr]
    · simp

lemma step_ok (n : ℕ → Bool → ℕ) (s : Shop K) (e : MEvent K) (h : s.Ok) : (s.step n e).Ok := by
  cases e with
  | create o press =>
    obtain ⟨h1, h2, h3, _, _, _⟩ := getZeros_facts n s o true h
    refine ⟨h1.1, fun x hx => ?_⟩
    simp only [step, List.mem_append, List.mem_singleton] at hx ⊢
    rcases hx with hx | rfl
    · exact h1.2 x hx
    · exact h2
  | setRate m i v =>
    simp only [step]
    cases hm : s.models[m]? with
    | none => exact h
    | some x => exact ⟨fun k r e => by simpa using h.1 k r e, fun y hy => by simpa using h.2 y hy⟩
  | setPress m i v =>
    refine ⟨h.1, fun x hx => ?_⟩
    simp only [step] at hx ⊢
    obtain ⟨j, hj, e⟩ := List.getElem_of_mem hx
    rw [List.getElem_modify] at e
    rw [← e]
    have := h.2 _ (List.getElem_mem (l := s.models) (n := j) (by simpa using hj))
    split <;> exact this
  | compile m =>
    simp only [step]
    cases hm : s.models[m]? with
    | none => exact h
    | some x => exact (getZeros_facts n s x.grid false h).1

lemma run_ok (n : ℕ → Bool → ℕ) (es : List (MEvent K)) (s : Shop K) (h : s.Ok) : (s.run n es).Ok := by
  induction es generalizing s with
  | nil => exact h
  | cons e es ih => exact ih _ (step_ok n s e h)

lemma empty_ok : (Shop.empty : Shop K).Ok := ⟨by simp [empty], by simp [empty]⟩

/-- References never change. -/
lemma step_ref (n : ℕ → Bool → ℕ) (s : Shop K) (e : MEvent K) (h : s.Ok) (m r : ℕ) (hr : s.ref m = some r) :
    (s.step n e).ref m = some r := by
  have hlt : m < s.models.length := by
    by_contra hc
    simp [ref, List.getElem?_eq_none (not_lt.1 hc)] at hr
  cases e with
  | create o press =>
    obtain ⟨_, _, h3, _, _, _⟩ := getZeros_facts n s o true h
    simp only [step, ref, h3]
    rw [List.getElem?_append_left hlt]; exact hr
  | setRate m' i v =>
    simp only [step]
    cases hm : s.models[m']? with
    | none => exact hr
    | some x => exact hr
  | setPress m' i v =>
    simp only [step, ref, List.getElem?_modify]
    simp only [ref] at hr
    rw [List.getElem?_eq_getElem hlt] at hr ⊢
    by_cases e : m' = m
    · simp only [e, if_true]; simpa using hr
    · simp only [e, if_false]; simpa using hr
  | compile m' =>
    simp only [step]
    cases hm : s.models[m']? with
    | none => exact hr
    | some x => simp only [ref, (getZeros_facts n s x.grid false h).2.2.1]; exact hr

lemma rates_of_ref (s : Shop K) (m r : ℕ) (h : s.ref m = some r) : s.rates m = some (s.heap.getD r []) := by
  unfold ref at h; unfold rates
  cases hm : s.models[m]? with
  | none => rw [hm] at h; cases h
  | some x => rw [hm] at h; simp at h; simp [h]

lemma ref_lt (s : Shop K) (h : s.Ok) (m r : ℕ) (hr : s.ref m = some r) : r < s.heap.length := by
  unfold ref at hr
  cases hm : s.models[m]? with
  | none => rw [hm] at hr; cases hr
  | some x => rw [hm] at hr; simp at hr; subst hr; exact h.2 x (List.mem_of_getElem? hm)

/-- Only writing rates through a model with the same reference changes a model's rates. -/
lemma step_rates (n : ℕ → Bool → ℕ) (s : Shop K) (e : MEvent K) (h : s.Ok) (m r : ℕ) (hr : s.ref m = some r)
    (hne : ∀ m' i v, e = .setRate m' i v → s.ref m' ≠ some r) : (s.step n e).rates m = s.rates m := by
  rw [rates_of_ref _ m r (step_ref n s e h m r hr), rates_of_ref _ m r hr]
  have hlt := ref_lt s h m r hr
  congr 1
  cases e with
  | create o press => exact (getZeros_facts n s o true h).2.2.2.1 r hlt
  | setPress m' i v => rfl
  | compile m' =>
    simp only [step]
    cases hm : s.models[m']? with
    | none => rfl
    | some x => exact (getZeros_facts n s x.grid false h).2.2.2.1 r hlt
  | setRate m' i v =>
    have := hne m' i v rfl
    simp only [step]
    unfold ref at this
    cases hm : s.models[m']? with
    | none => rfl
    | some x =>
      rw [hm] at this
      simp only [Option.map_some, ne_eq, Option.some.injEq] at this
      simp only [List.getD_eq_getElem?_getD, List.getElem?_modify]
      simp [this]

end Shop

open Shop

/-- **C31, pressures.** Whatever is done with other models, on the same grid or another, the initial pressures of a model
stay what its owner made them. -/
theorem C31_pressures (n : ℕ → Bool → ℕ) (s : Shop K) (m : ℕ) (hm : m < s.models.length) (es : List (MEvent K))
    (h : ∀ e ∈ es, owner e ≠ some m) : (s.run n es).press m = s.press m := by
  have one : ∀ (s : Shop K) (e : MEvent K), m < s.models.length → owner e ≠ some m →
      (s.step n e).press m = s.press m ∧ m < (s.step n e).models.length := by
    intro s e hm he
    have gz : ∀ o b, (s.getZeros n o b).2.models = s.models := by
      intro o b
      unfold getZeros
      cases s.zc with
      | none => rfl
      | some kr => obtain ⟨k, r⟩ := kr; simp only; split <;> rfl
    cases e with
    | create o press =>
      simp only [step, Shop.press, gz]
      rw [List.getElem?_append_left hm]
      exact ⟨rfl, by simp; omega⟩
    | setRate m' i v =>
      simp only [step]
      cases s.models[m']? <;> exact ⟨rfl, hm⟩
    | setPress m' i v =>
      have : m' ≠ m := by simpa [owner] using he
      simp only [step, Shop.press, List.getElem?_modify, List.length_modify]
      exact ⟨by simp [this], hm⟩
    | compile m' =>
      simp only [step]
      cases s.models[m']? with
      | none => exact ⟨rfl, hm⟩
      | some x => simp only [Shop.press, gz]; exact ⟨trivial, hm⟩
  induction es generalizing s with
  | nil => rfl
  | cons e es ih =>
    obtain ⟨h1, h2⟩ := one s e hm (h e (by simp))
    show (Shop.run n (s.step n e) es).press m = _
    rw [ih _ h2 fun e' he' => h e' (by simp [he']), h1]

/-- The zeros asked for last belong to another key, so the next model on grid `o` gets an array of its own. -/
def Evicted (s : Shop K) (o : ℕ) : Prop := ∀ r, s.zc ≠ some ((o, true), r)

/-- **C31, rates, partial.** A model created when the last array of zeros handed out was for another grid or for interior
cells (for example after compiling a model) starts with zero rates, and neither it nor any earlier model ever sees a rate set
on the other. Missing: a model created right after another on the same grid (`C31_rates_shared`). -/
theorem C31_rates_partial (n : ℕ → Bool → ℕ) (es0 : List (MEvent K)) (o : ℕ) (press : List (Option K))
    (hev : Evicted (Shop.run n .empty es0) o) (m : ℕ) (hm : m < (Shop.run n (.empty : Shop K) es0).models.length)
    (es : List (MEvent K)) (i : ℕ) (v : K) :
    let s := Shop.run n .empty es0
    let t := (s.step n (.create o press)).run n es
    (s.step n (.create o press)).rates s.models.length = some (List.replicate (n o true) 0) ∧
      (t.step n (.setRate m i v)).rates s.models.length = t.rates s.models.length ∧
      (t.step n (.setRate s.models.length i v)).rates m = t.rates m := by
  intro s t
  have hs : s.Ok := run_ok n es0 _ empty_ok
  have hgz := getZeros_miss n s o true hev
  have hnew : (s.step n (.create o press)).ref s.models.length = some s.heap.length := by simp [step, ref, hgz]
  have hold : ∃ r, r < s.heap.length ∧ (s.step n (.create o press)).ref m = some r := by
    have hlt : m < s.models.length := hm
    refine ⟨s.models[m].rates, hs.2 _ (List.getElem_mem _), ?_⟩
    simp only [step, ref, hgz]
    rw [List.getElem?_append_left hlt, List.getElem?_eq_getElem hlt]; rfl
  obtain ⟨r, hr, hold⟩ := hold
  have ok1 := step_ok n s (.create o press) hs
  have keep : ∀ (es : List (MEvent K)) (u : Shop K) (k q : ℕ), u.Ok → u.ref k = some q → (u.run n es).ref k = some q := by
    intro es
    induction es with
    | nil => intro u k q _ h; exact h
    | cons e es ih => intro u k q hu h; exact ih _ k q (step_ok n u e hu) (step_ref n u e hu k q h)
  have t1 := keep es _ _ _ ok1 hnew
  have t2 := keep es _ _ _ ok1 hold
  have tok := run_ok n es _ ok1
  refine ⟨?_, ?_, ?_⟩
  · rw [rates_of_ref _ _ _ hnew]; simp [step, hgz]
  · refine step_rates n t _ tok _ _ t1 ?_
    rintro m' i' v' e
    injection e with e1
    subst e1
    rw [t2]
    intro hc; injection hc with hc; omega
  · refine step_rates n t _ tok _ _ t2 ?_
    rintro m' i' v' e
    injection e with e1
    subst e1
    rw [t1]
    intro hc; injection hc with hc; omega

/-- **C31 fails for rates.** Two models created one after the other on the same grid share one rate array for ever: after any
operations on any models both read the same rates, so a rate set on either is read from the other. -/
theorem C31_rates_shared (n : ℕ → Bool → ℕ) (es0 : List (MEvent K)) (o : ℕ) (press press' : List (Option K))
    (es : List (MEvent K)) :
    let s := Shop.run n .empty es0
    let t := ((s.step n (.create o press)).step n (.create o press')).run n es
    t.rates s.models.length = t.rates (s.models.length + 1) := by
  intro s t
  have hs : s.Ok := run_ok n es0 _ empty_ok
  obtain ⟨h1, h2, h3, h4, h5, _⟩ := getZeros_facts n s o true hs
  set z := s.getZeros n o true with hz
  have ok1 := step_ok n s (.create o press) hs
  have ok2 := step_ok n _ (.create o press') ok1
  have zc1 : (s.step n (.create o press)).zc = some ((o, true), z.1) := h5
  have hit := getZeros_hit n _ o true z.1 zc1
  have r1 : (s.step n (.create o press)).ref s.models.length = some z.1 := by
    simp only [step, ref]; rw [← hz, h3]; simp
  have r1' := step_ref n _ (.create o press') ok1 _ _ r1
  have r2 : ((s.step n (.create o press)).step n (.create o press')).ref (s.models.length + 1) = some z.1 := by
    simp only [step, ref] at hit ⊢
    rw [hit, ← hz, h3]
    simp
  have keep : ∀ (es : List (MEvent K)) (u : Shop K) (k q : ℕ), u.Ok → u.ref k = some q → (u.run n es).ref k = some q := by
    intro es
    induction es with
    | nil => intro u k q _ h; exact h
    | cons e es ih => intro u k q hu h; exact ih _ k q (step_ok n u e hu) (step_ref n u e hu k q h)
  rw [rates_of_ref _ _ _ (keep es _ _ _ ok2 r1'), rates_of_ref _ _ _ (keep es _ _ _ ok2 r2)]

/-- A grid with 3 cells plus 2 boundary cells. -/
def n5 : ℕ → Bool → ℕ := fun _ b => if b then 5 else 3

/-- A rate set on the first model is an initial rate of a model created afterwards. -/
example : (Shop.run n5 (.empty : Shop ℚ) [.create 0 [], .setRate 0 0 100, .create 0 []]).rates 1 = some [100, 0, 0, 0, 0] := by
  decide +kernel
/-- Compiling the first model in between separates them. -/
example : (Shop.run n5 (.empty : Shop ℚ) [.create 0 [], .setRate 0 0 100, .compile 0, .create 0 []]).rates 1 =
    some [0, 0, 0, 0, 0] := by decide +kernel
example : Evicted (Shop.run n5 (.empty : Shop ℚ) [.create 0 [], .setRate 0 0 100, .compile 0]) 0 := by
  intro r h; simp [Shop.run, step, getZeros, Shop.empty] at h

end RF
