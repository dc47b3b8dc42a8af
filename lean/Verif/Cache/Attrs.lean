import Verif.Cache.Model
/-!
# The names under which a grid shows its properties (C74)

A property array can be read as `grid.get_prop("kx")`, as `grid.kx`, as `grid.k["x"]` and, after `allow_synonyms`, as `grid.permeability_x`. Transmissibilities are computed from the first,
wells from the third, storage from `grid.phi` and gravity from `grid.z` (black_oil.py l.381-440, l.627, fdm.py l.91, l.509). All of them are references to arrays, so that the arrays are kept in a heap.
-/
set_option linter.unusedSectionVars false
namespace RF
open Dims

variable {K : Type} [Field K] [LinearOrder K] [IsStrictOrderedRing K]

/-! ## The model -/

/-- A grid object: the arrays, `__props__`, the attributes `kx`, …, `z` (`k["x"]`, `k["y"]`, `k["z"]` are assigned together with `kx`, `ky`, `kz`), the long names, and `comp`. (regular_cartesian.py l.2318-2339, 2410-2411, 3016-3049) -/
structure Attrs (K : Type) where
  heap : List (List K)
  props : PName → Option ℕ
  attr : PName → Option ℕ
  long : PName → Option ℕ
  comp : Option K

namespace Attrs

/-- Before the properties are set (grid.py l.61-68). -/
def empty : Attrs K := ⟨[], fun _ => none, fun _ => none, fun _ => none, none⟩

/-- The index tuple of a selected cell (regular_cartesian.py l.2414-2418). -/
def select (g : Dims) (id : Option ℤ) (co : Option (ℤ × ℤ × ℤ)) : Except Err (List ℕ) := do
  let c ← match id, co with
    | some i, _ => do
      let c ← g.getCellCoords i true
      pure ((c.1 : ℤ), (c.2.1 : ℤ), (c.2.2 : ℤ))
    | none, some c => pure c
    | none, none => throw .value
  g.getCellIcoords c

/-- `set_prop(name, value, id, coords)` (regular_cartesian.py l.2362-2427): for all cells a new array, for one cell an assignment into the array. Array values for one cell are
simplified to a refusal. -/
def setProp (g : Dims) (s : Attrs K) (n : PName) (v : PVal K) (id : Option ℤ) (co : Option (ℤ × ℤ × ℤ)) : Attrs K × Except Err Unit :=
  if id = none ∧ co = none then
    match broadcast (g.getN true) v with
    | .error x => (s, .error x)
    | .ok l => ({ s with heap := s.heap ++ [l], props := Function.update s.props n (some s.heap.length) }, .ok ())
  else
    match select g id co with
    | .error x => (s, .error x)
    | .ok ic => match s.props n with
      | none => (s, .error .type)
      | some r => match v with
        | .arr _ => (s, .error .value)
        | .num v => match assign (s.heap.getD r []) ic v with
          | .error x => (s, .error x)
          | .ok l => ({ s with heap := s.heap.set r l }, .ok ())

/-- `self.set_prop("kx", kx, id, coords); self.kx = self.k["x"] = self.__props__["kx"]` (regular_cartesian.py l.2318-2332). -/
def setOne (g : Dims) (s : Attrs K) (n : PName) (v : PVal K) (id : Option ℤ) (co : Option (ℤ × ℤ × ℤ)) : Attrs K × Except Err Unit :=
  match s.setProp g n v id co with
  | (s, .error x) => (s, .error x)
  | (s, .ok ()) => ({ s with attr := Function.update s.attr n (s.props n) }, .ok ())

/-- The given ones among `kx, ky, kz, phi, z`, in this order. (regular_cartesian.py l.2318-2332) -/
def setList (g : Dims) (id : Option ℤ) (co : Option (ℤ × ℤ × ℤ)) : List (PName × PVal K) → Attrs K → Attrs K × Except Err Unit
  | [], s => (s, .ok ())
  | (n, v) :: l, s => match s.setOne g n v id co with
    | (s, .error x) => (s, .error x)
    | (s, .ok ()) => setList g id co l s

/-- `set_comp` of the grid (grid.py l.70-91). -/
def setComp (s : Attrs K) (c : K) : Attrs K × Except Err Unit := ({ s with comp := some c }, if c < 0 then .error .value else .ok ())

/-- The defaults at the end of `set_props` (regular_cartesian.py l.2335-2339). -/
def defaults (g : Dims) (s : Attrs K) : Attrs K × Except Err Unit :=
  let r := if s.props .z = none then s.setOne g .z (.num 0) none none else (s, .ok ())
  match r with
  | (s, .error x) => (s, .error x)
  | (s, .ok ()) => if s.comp = none then s.setComp 0 else (s, .ok ())

end Attrs

/-- The arguments of `set_props`. (regular_cartesian.py l.2260-2270) -/
structure PArgs (K : Type) where
  kx : Option (PVal K) := none
  ky : Option (PVal K) := none
  kz : Option (PVal K) := none
  phi : Option (PVal K) := none
  z : Option (PVal K) := none
  comp : Option K := none
  id : Option ℤ := none
  co : Option (ℤ × ℤ × ℤ) := none

/-- The arguments that are not `None`, in the order of the code. (regular_cartesian.py l.2318-2332) -/
def PArgs.list (a : PArgs K) : List (PName × PVal K) :=
  [(PName.kx, a.kx), (.ky, a.ky), (.kz, a.kz), (.phi, a.phi), (.z, a.z)].filterMap fun x => x.2.map fun v => (x.1, v)

namespace Attrs

/-- `set_props` (regular_cartesian.py l.2260-2339). -/
def setProps (g : Dims) (s : Attrs K) (a : PArgs K) : Attrs K × Except Err Unit :=
  match setList g a.id a.co a.list s with
  | (s, .error x) => (s, .error x)
  | (s, .ok ()) =>
    let r := match a.comp with
      | some c => s.setComp c
      | none => (s, .ok ())
    match r with
    | (s, .error x) => (s, .error x)
    | (s, .ok ()) => s.defaults g

/-- `allow_synonyms` (regular_cartesian.py l.3016-3046), for the properties: `porosity`, `permeability_x`, `permeability_y`, `permeability_z`, `tops`, in this order. An attribute that was never
set is an `AttributeError`. -/
def synonyms (s : Attrs K) : Attrs K × Except Err Unit :=
  let rec go : List PName → Attrs K → Attrs K × Except Err Unit
    | [], s => (s, .ok ())
    | n :: l, s => match s.attr n with
      | none => (s, .error .attribute)
      | some r => go l { s with long := Function.update s.long n (some r) }
  go [.phi, .kx, .ky, .kz, .z] s

/-- `get_prop(name, True, False)` (regular_cartesian.py l.2466-2483): a copy of the array. -/
def stored (s : Attrs K) (n : PName) : Option (List K) := (s.props n).map fun r => s.heap.getD r []
/-- `grid.kx` and `grid.k["x"]`, … (regular_cartesian.py l.2318-2332) -/
def named (s : Attrs K) (n : PName) : Option (List K) := (s.attr n).map fun r => s.heap.getD r []
/-- `grid.permeability_x`, … (regular_cartesian.py l.3016-3049) -/
def longNamed (s : Attrs K) (n : PName) : Option (List K) := (s.long n).map fun r => s.heap.getD r []

end Attrs

/-- What a user does with a grid. (regular_cartesian.py l.2260, 2359, 3016) -/
inductive AEvent (K : Type) where
  | setProps (a : PArgs K)
  | setProp (n : PName) (v : PVal K) (id : Option ℤ) (co : Option (ℤ × ℤ × ℤ))
  | synonyms

namespace Attrs

/-- One call; the user may catch its exception. (regular_cartesian.py l.2260-2429, 3016-3049) -/
def step (g : Dims) (s : Attrs K) : AEvent K → Attrs K
  | .setProps a => (s.setProps g a).1
  | .setProp n v id co => (s.setProp g n v id co).1
  | .synonyms => s.synonyms.1

/-- A sequence of calls. (no line of the code) -/
def session (g : Dims) (s : Attrs K) (es : List (AEvent K)) : Attrs K := es.foldl (step g) s

/-- The constructor (regular_cartesian.py l.152): a grid exists if it did not raise. -/
def Constructed (g : Dims) (s : Attrs K) : Prop := ∃ a : PArgs K, a.id = none ∧ a.co = none ∧ empty.setProps g a = (s, .ok ())

end Attrs

/-! ## Specification -/

/-- The call replaces the whole array of `n` by `set_prop`. -/
def AEvent.direct (n : PName) : AEvent K → Prop
  | .setProp m _ none none => m = n
  | _ => False

/-- The call replaces the whole array of `n` (`z` may also be set by default). -/
def AEvent.replaces (n : PName) : AEvent K → Prop
  | .setProp m _ none none => m = n
  | .setProps a => a.id = none ∧ a.co = none ∧ n ∈ a.list.map (·.1)
  | _ => False

/-! ## Lemmas -/

namespace Attrs

lemma setProp_frame (g : Dims) (s : Attrs K) (n : PName) (v : PVal K) (id co) :
    (s.setProp g n v id co).1.attr = s.attr ∧ (s.setProp g n v id co).1.long = s.long ∧ (s.setProp g n v id co).1.comp = s.comp ∧
      (∀ m, m ≠ n → (s.setProp g n v id co).1.props m = s.props m) ∧ (¬(id = none ∧ co = none) → (s.setProp g n v id co).1.props = s.props) := by
  unfold setProp
  split_ifs with h
  · cases broadcast (g.getN true) v with
    | error x => exact ⟨rfl, rfl, rfl, fun _ _ => rfl, fun _ => rfl⟩
    | ok l => exact ⟨rfl, rfl, rfl, fun m hm => Function.update_of_ne hm _ _, fun h' => absurd h h'⟩
  · cases select g id co with
    | error x => exact ⟨rfl, rfl, rfl, fun _ _ => rfl, fun _ => rfl⟩
    | ok ic =>
      dsimp only
      cases s.props n with
      | none => exact ⟨rfl, rfl, rfl, fun _ _ => rfl, fun _ => rfl⟩
      | some r =>
        cases v with
        | arr l => exact ⟨rfl, rfl, rfl, fun _ _ => rfl, fun _ => rfl⟩
        | num v =>
          dsimp only
          cases assign (s.heap.getD r []) ic v with
          | error x => exact ⟨rfl, rfl, rfl, fun _ _ => rfl, fun _ => rfl⟩
          | ok l => exact ⟨rfl, rfl, rfl, fun _ _ => rfl, fun _ => rfl⟩

/-- A refused `set_prop` changes nothing. -/
lemma setProp_error {g : Dims} {s s' : Attrs K} {n : PName} {v : PVal K} {id co} {x : Err} (h : s.setProp g n v id co = (s', .error x)) : s' = s := by
  unfold setProp at h
  split_ifs at h
  · cases hb : broadcast (g.getN true) v with
    | error x => rw [hb] at h; cases h; rfl
    | ok l => rw [hb] at h; cases h
  · cases hs : select g id co with
    | error x => rw [hs] at h; cases h; rfl
    | ok ic =>
      rw [hs] at h
      dsimp only at h
      cases hp : s.props n with
      | none => rw [hp] at h; cases h; rfl
      | some r =>
        rw [hp] at h
        cases v with
        | arr l => cases h; rfl
        | num v =>
          dsimp only at h
          cases ha : assign (s.heap.getD r []) ic v with
          | error x => rw [ha] at h; cases h; rfl
          | ok l => rw [ha] at h; cases h

/-- `P` holds after the call if each part of `set_props` keeps it. -/
lemma setProps_ind {P : Attrs K → Prop} (g : Dims) (a : PArgs K) (h1 : ∀ s n v, (n, v) ∈ a.list → P s → P (s.setOne g n v a.id a.co).1)
    (h2 : ∀ s, P s → s.props .z = none → P (s.setOne g .z (.num 0) none none).1) (h3 : ∀ s c, P s → P { s with comp := some c }) (s : Attrs K) (h : P s) :
    P (s.setProps g a).1 := by
  have hl : ∀ l : List (PName × PVal K), (∀ x, x ∈ l → x ∈ a.list) → ∀ s, P s → P (setList g a.id a.co l s).1 := by
    intro l
    induction l with
    | nil => intro _ s h; exact h
    | cons x l ih =>
      intro hm s h
      obtain ⟨n, v⟩ := x
      have hs := h1 s n v (hm _ (List.mem_cons_self ..)) h
      unfold setList
      rcases he : s.setOne g n v a.id a.co with ⟨s1, x | ⟨⟩⟩
      · rw [he] at hs; exact hs
      · rw [he] at hs; exact ih (fun x hx => hm x (List.mem_cons_of_mem _ hx)) s1 hs
  have hd : ∀ s, P s → P (s.defaults g).1 := by
    intro s h
    unfold defaults
    have k : P (if s.props .z = none then s.setOne g .z (.num 0) none none else (s, .ok ())).1 := by
      split_ifs with hz
      · exact h2 s h hz
      · exact h
    dsimp only
    rcases he : (if s.props .z = none then s.setOne g .z (.num 0) none none else (s, .ok ())) with ⟨s1, x | ⟨⟩⟩
    · rw [he] at k; exact k
    · rw [he] at k
      dsimp only
      split_ifs
      · exact h3 s1 0 k
      · exact k
  unfold setProps
  have k := hl a.list (fun _ h => h) s h
  rcases he : setList g a.id a.co a.list s with ⟨s1, x | ⟨⟩⟩
  · rw [he] at k; exact k
  · rw [he] at k
    dsimp only
    cases a.comp with
    | none => exact hd _ k
    | some c =>
      dsimp only [setComp]
      split_ifs
      · exact h3 _ c k
      · exact hd _ (h3 _ c k)

lemma setOne_mirror {g : Dims} {s : Attrs K} {n m : PName} {v : PVal K} {id co} (h : s.attr m = s.props m) :
    (s.setOne g n v id co).1.attr m = (s.setOne g n v id co).1.props m := by
  obtain ⟨f1, -, -, f2, -⟩ := setProp_frame g s n v id co
  unfold setOne
  rcases he : s.setProp g n v id co with ⟨s1, x | ⟨⟩⟩
  · rw [setProp_error he]; exact h
  · rw [he] at f1 f2
    dsimp only at f1 f2 ⊢
    by_cases hm : m = n
    · rw [hm, Function.update_self]
    · rw [Function.update_of_ne hm, f1, f2 m hm, h]

lemma synonyms_frame (s : Attrs K) : s.synonyms.1.heap = s.heap ∧ s.synonyms.1.props = s.props ∧ s.synonyms.1.attr = s.attr ∧ s.synonyms.1.comp = s.comp := by
  have key : ∀ (l : List PName) (s : Attrs K), (synonyms.go l s).1.heap = s.heap ∧ (synonyms.go l s).1.props = s.props ∧ (synonyms.go l s).1.attr = s.attr ∧ (synonyms.go l s).1.comp = s.comp := by
    intro l
    induction l with
    | nil => intro s; exact ⟨rfl, rfl, rfl, rfl⟩
    | cons n l ih =>
      intro s
      unfold synonyms.go
      cases s.attr n with
      | none => exact ⟨rfl, rfl, rfl, rfl⟩
      | some r => exact ih _
  exact key _ s

lemma mirror_setProps (g : Dims) (s : Attrs K) (a : PArgs K) {m : PName} (h : s.attr m = s.props m) : (s.setProps g a).1.attr m = (s.setProps g a).1.props m :=
  setProps_ind (P := fun s => s.attr m = s.props m) g a (fun _ _ _ _ h => setOne_mirror h) (fun _ h _ => setOne_mirror h) (fun _ _ h => h) s h

lemma constructed_mirror {g : Dims} {s : Attrs K} (h : Constructed g s) (m : PName) : s.attr m = s.props m := by
  obtain ⟨a, -, -, h⟩ := h
  have := mirror_setProps g (empty : Attrs K) a (m := m) rfl
  rwa [h] at this

lemma step_mirror (g : Dims) (s : Attrs K) (e : AEvent K) {m : PName} (he : ¬ e.direct m) (h : s.attr m = s.props m) : (step g s e).attr m = (step g s e).props m := by
  cases e with
  | setProps a => exact mirror_setProps g s a h
  | synonyms =>
    obtain ⟨-, h1, h2, -⟩ := synonyms_frame s
    show s.synonyms.1.attr m = s.synonyms.1.props m
    rw [h1, h2, h]
  | setProp n v id co =>
    obtain ⟨f1, -, -, f2, f3⟩ := setProp_frame g s n v id co
    show (s.setProp g n v id co).1.attr m = (s.setProp g n v id co).1.props m
    rw [f1]
    by_cases hm : m = n
    · rw [f3, h]
      rintro ⟨rfl, rfl⟩
      exact he hm.symm
    · rw [f2 m hm, h]

/-- **C74** (attributes), partial: in every session with a grid, `grid.kx` and `grid.k["x"]` are the stored array as long as `kx` is not set for all cells by `set_prop` (setting single cells by
`set_prop` and anything by `set_props` is fine, also when the calls raise exceptions half-way); likewise for the other properties. Missing and false: `C74_set_prop_stale`. -/
theorem C74_attribute_partial {g : Dims} {s : Attrs K} (hc : Constructed g s) (es : List (AEvent K)) (n : PName) (h : ∀ e, e ∈ es → ¬ e.direct n) :
    (session g s es).named n = (session g s es).stored n := by
  have key : ∀ (es : List (AEvent K)) (s : Attrs K), s.attr n = s.props n → (∀ e, e ∈ es → ¬ e.direct n) → (session g s es).attr n = (session g s es).props n := by
    intro es
    induction es with
    | nil => intro s h _; exact h
    | cons e es ih =>
      intro s h he
      exact ih _ (step_mirror g s e (he e (List.mem_cons_self ..)) h) fun e' h' => he e' (List.mem_cons_of_mem _ h')
  unfold named stored
  rw [key es s (constructed_mirror hc n) h]

/-! ### no two names share an array -/

/-- References of `__props__` are valid and different. -/
structure Apart (s : Attrs K) : Prop where
  lt : ∀ n r, s.props n = some r → r < s.heap.length
  inj : ∀ n m r, s.props n = some r → s.props m = some r → n = m
  alt : ∀ n r, s.attr n = some r → r < s.heap.length
  llt : ∀ n r, s.long n = some r → r < s.heap.length

lemma setProp_apart {g : Dims} {s : Attrs K} (h : s.Apart) (n : PName) (v : PVal K) (id co) : (s.setProp g n v id co).1.Apart := by
  unfold setProp
  split_ifs with hall
  · cases broadcast (g.getN true) v with
    | error x => exact h
    | ok l =>
      dsimp only
      refine ⟨fun m r hm => ?_, fun m m' r h1 h2 => ?_, fun m r hm => ?_, fun m r hm => ?_⟩
      · dsimp only at hm ⊢
        rw [List.length_append, List.length_singleton]
        by_cases e : m = n
        · subst e; rw [Function.update_self] at hm; cases hm; omega
        · rw [Function.update_of_ne e] at hm; have := h.lt m r hm; omega
      · dsimp only at h1 h2
        by_cases e : m = n
        · by_cases e' : m' = n
          · rw [e, e']
          · subst e
            rw [Function.update_self] at h1
            rw [Function.update_of_ne e'] at h2
            have := h.lt _ _ h2
            cases h1; omega
        · rw [Function.update_of_ne e] at h1
          by_cases e' : m' = n
          · subst e'
            rw [Function.update_self] at h2
            have := h.lt _ _ h1
            cases h2; omega
          · rw [Function.update_of_ne e'] at h2
            exact h.inj _ _ _ h1 h2
      · have := h.alt m r hm; rw [List.length_append]; omega
      · have := h.llt m r hm; rw [List.length_append]; omega
  · cases select g id co with
    | error x => exact h
    | ok ic =>
      dsimp only
      cases s.props n with
      | none => exact h
      | some r =>
        cases v with
        | arr l => exact h
        | num v =>
          dsimp only
          cases assign (s.heap.getD r []) ic v with
          | error x => exact h
          | ok l => exact ⟨fun m r hm => by simpa using h.lt m r hm, h.inj, fun m r hm => by simpa using h.alt m r hm, fun m r hm => by simpa using h.llt m r hm⟩

lemma setOne_apart {g : Dims} {s : Attrs K} (h : s.Apart) (n : PName) (v : PVal K) (id co) : (s.setOne g n v id co).1.Apart := by
  have k := setProp_apart (g := g) h n v id co
  unfold setOne
  rcases he : s.setProp g n v id co with ⟨s1, x | ⟨⟩⟩
  · rw [he] at k; exact k
  · rw [he] at k
    refine ⟨k.lt, k.inj, fun m r hm => ?_, k.llt⟩
    dsimp only at hm
    by_cases e : m = n
    · rw [e, Function.update_self] at hm; exact k.lt _ _ hm
    · rw [Function.update_of_ne e] at hm; exact k.alt _ _ hm

lemma synonyms_apart {s : Attrs K} (h : s.Apart) : s.synonyms.1.Apart := by
  have key : ∀ (l : List PName) (s : Attrs K), s.Apart → (synonyms.go l s).1.Apart := by
    intro l
    induction l with
    | nil => intro s h; exact h
    | cons n l ih =>
      intro s h
      unfold synonyms.go
      cases ha : s.attr n with
      | none => exact h
      | some r =>
        refine ih _ ⟨h.lt, h.inj, h.alt, fun m q hm => ?_⟩
        dsimp only at hm
        by_cases e : m = n
        · rw [e, Function.update_self] at hm; cases hm; exact h.alt _ _ ha
        · rw [Function.update_of_ne e] at hm; exact h.llt _ _ hm
  exact key _ s h

lemma setProps_apart {g : Dims} {s : Attrs K} (h : s.Apart) (a : PArgs K) : (s.setProps g a).1.Apart :=
  setProps_ind (P := Apart) g a (fun _ _ _ _ h => setOne_apart h _ _ _ _) (fun _ h _ => setOne_apart h _ _ _ _) (fun _ _ h => ⟨h.lt, h.inj, h.alt, h.llt⟩) s h

lemma empty_apart : (empty : Attrs K).Apart := ⟨by simp [empty], by simp [empty], by simp [empty], by simp [empty]⟩

lemma constructed_apart {g : Dims} {s : Attrs K} (h : Constructed g s) : s.Apart := by
  obtain ⟨a, -, -, h⟩ := h
  have := setProps_apart (g := g) (empty_apart (K := K)) a
  rwa [h] at this

lemma session_apart {g : Dims} {s : Attrs K} (h : s.Apart) (es : List (AEvent K)) : (session g s es).Apart := by
  induction es generalizing s with
  | nil => exact h
  | cons e es ih =>
    refine ih ?_
    cases e with
    | setProps a => exact setProps_apart h a
    | setProp n v id co => exact setProp_apart h n v id co
    | synonyms => exact synonyms_apart h

/-! ### refinement: one property at a time -/

lemma getD_append_lt {α : Type} (l : List α) (a d : α) {r : ℕ} (h : r < l.length) : (l ++ [a]).getD r d = l.getD r d := by
  simp only [List.getD_eq_getElem?_getD]; rw [List.getElem?_append_left h]

/-- **C74** (values): through `get_prop`, `set_prop` acts on values, one property at a time: it does what `setPropAll` and `setPropCell` (C17) say, and keeps every other property. -/
theorem C74_values {g : Dims} {s : Attrs K} (hc : Constructed g s) (es : List (AEvent K)) (n : PName) (id : Option ℤ) (co : Option (ℤ × ℤ × ℤ)) :
    (∀ v, id = none → co = none →
      setPropAll g (session g s es).stored n v = match (session g s es).setProp g n v id co with
        | (s', .ok ()) => .ok s'.stored
        | (_, .error x) => .error x) ∧
    (∀ v, ¬(id = none ∧ co = none) →
      setPropCell g (session g s es).stored n v id co = match (session g s es).setProp g n (.num v) id co with
        | (s', .ok ()) => .ok s'.stored
        | (_, .error x) => .error x) := by
  have ha := session_apart (g := g) (constructed_apart hc) es
  generalize session g s es = t at ha ⊢
  constructor
  · rintro v rfl rfl
    unfold setProp setPropAll
    rw [if_pos ⟨rfl, rfl⟩]
    cases broadcast (g.getN true) v with
    | error x => rfl
    | ok l =>
      show Except.ok _ = Except.ok _
      congr 1
      funext m
      unfold Props.put stored
      by_cases e : m = n
      · rw [if_pos e]
        simp [e]
      · rw [if_neg e]
        dsimp only
        rw [Function.update_of_ne e]
        rcases hm : t.props m with _ | r
        · rfl
        · simp only [Option.map_some]; rw [getD_append_lt _ _ _ (ha.lt m r hm)]
  · intro v hne
    unfold setProp
    rw [if_neg hne]
    have e : setPropCell g t.stored n v id co = (do
        let ic ← select g id co
        match t.stored n with
        | none => .error .type
        | some l => do
          let l' ← assign l ic v
          pure (Props.put t.stored n l')) := by
      unfold setPropCell select
      cases id with
      | some i =>
        dsimp only
        cases g.getCellCoords i true <;> rfl
      | none => cases co <;> rfl
    rw [e]
    cases select g id co with
    | error x => rfl
    | ok ic =>
      show (match t.stored n with | none => _ | some l => _) = _
      unfold stored
      dsimp only
      cases hr : t.props n with
      | none => rfl
      | some r =>
        simp only [Option.map_some]
        cases hl : assign (t.heap.getD r []) ic v with
        | error x => rfl
        | ok l =>
          show Except.ok _ = Except.ok _
          congr 1
          funext m
          unfold Props.put
          by_cases e : m = n
          · subst e
            rw [if_pos rfl, hr]
            simp [List.getD_eq_getElem?_getD, ha.lt m r hr]
          · rw [if_neg e]
            dsimp only
            rcases hm : t.props m with _ | q
            · rfl
            · have : q ≠ r := fun h => e (ha.inj m n r (h ▸ hm) hr)
              simp only [Option.map_some, List.getD_eq_getElem?_getD]
              rw [List.getElem?_set_ne this.symm]

/-! ### long names -/

lemma setOne_frame (g : Dims) (s : Attrs K) (n : PName) (v : PVal K) (id co) :
    (s.setOne g n v id co).1.long = s.long ∧ (s.setOne g n v id co).1.comp = s.comp ∧ (∀ m, m ≠ n → (s.setOne g n v id co).1.props m = s.props m) ∧
      (¬(id = none ∧ co = none) → (s.setOne g n v id co).1.props = s.props) ∧ ∀ m, s.props m ≠ none → (s.setOne g n v id co).1.props m ≠ none := by
  obtain ⟨-, f1, f2, f3, f4⟩ := setProp_frame g s n v id co
  have f5 : ∀ m, s.props m ≠ none → (s.setProp g n v id co).1.props m ≠ none := by
    intro m hm
    unfold setProp
    split_ifs with h
    · cases broadcast (g.getN true) v with
      | error x => exact hm
      | ok l =>
        dsimp only
        by_cases e : m = n
        · rw [e, Function.update_self]; simp
        · rw [Function.update_of_ne e]; exact hm
    · have := f4 h
      unfold setProp at this
      rw [if_neg h] at this
      rw [this]; exact hm
  unfold setOne
  rcases he : s.setProp g n v id co with ⟨s1, x | ⟨⟩⟩ <;> rw [he] at f1 f2 f3 f4 f5 <;> exact ⟨f1, f2, f3, f4, f5⟩

lemma setProps_keeps {g : Dims} {s : Attrs K} {a : PArgs K} {n : PName} (h : ¬ (AEvent.setProps a).replaces n) (hn : s.props n ≠ none) :
    (s.setProps g a).1.props n = s.props n ∧ (s.setProps g a).1.long = s.long := by
  have := setProps_ind (P := fun t => t.props n = s.props n ∧ t.long = s.long) g a (fun t m v hm ht => ?_) (fun t ht hz => ?_) (fun _ _ h => h) s ⟨rfl, rfl⟩
  · exact this
  · obtain ⟨f1, -, f2, f3, -⟩ := setOne_frame g t m v a.id a.co
    refine ⟨?_, f1.trans ht.2⟩
    by_cases e : n = m
    · rw [f3, ht.1]
      exact fun hs => h ⟨hs.1, hs.2, List.mem_map.2 ⟨_, hm, e.symm⟩⟩
    · rw [f2 n e, ht.1]
  · obtain ⟨f1, -, f2, -, -⟩ := setOne_frame g t .z (.num 0) none none
    refine ⟨?_, f1.trans ht.2⟩
    rw [f2 n, ht.1]
    rintro rfl
    exact hn (by rw [← ht.1]; exact hz)

lemma synonyms_long {s s' : Attrs K} (h : s.synonyms = (s', .ok ())) {n : PName} (hn : n ≠ .comp) : s'.long n = s.attr n ∧ s.attr n ≠ none := by
  have key : ∀ (l : List PName) (t t' : Attrs K), synonyms.go l t = (t', .ok ()) → (n ∈ l → t'.long n = t.attr n ∧ t.attr n ≠ none) ∧ (n ∉ l → t'.long n = t.long n) := by
    intro l
    induction l with
    | nil => intro t t' h; cases h; exact ⟨fun h => by simp at h, fun _ => rfl⟩
    | cons m l ih =>
      intro t t' h
      unfold synonyms.go at h
      rcases ha : t.attr m with _ | r
      · rw [ha] at h; cases h
      · rw [ha] at h
        obtain ⟨i1, i2⟩ := ih _ _ h
        refine ⟨fun hm => ?_, fun hm => ?_⟩
        · by_cases hl : n ∈ l
          · exact i1 hl
          · have e : n = m := (List.mem_cons.1 hm).resolve_right hl
            subst e
            rw [i2 hl, ha]
            dsimp only
            rw [Function.update_self]
            exact ⟨rfl, by simp⟩
        · rw [List.mem_cons, not_or] at hm
          rw [i2 hm.2]
          exact Function.update_of_ne hm.1 _ _
  refine (key _ s s' h).1 ?_
  cases n <;> simp_all

/-- A failing `allow_synonyms` also assigns only current arrays. -/
lemma synonyms_long_any (s : Attrs K) (n : PName) : s.synonyms.1.long n = s.long n ∨ s.synonyms.1.long n = s.attr n := by
  have key : ∀ (l : List PName) (t : Attrs K), (synonyms.go l t).1.long n = t.long n ∨ (synonyms.go l t).1.long n = t.attr n := by
    intro l
    induction l with
    | nil => intro t; exact .inl rfl
    | cons m l ih =>
      intro t
      unfold synonyms.go
      rcases ha : t.attr m with _ | r
      · exact .inl rfl
      · rcases ih { t with long := Function.update t.long m (some r) } with h | h
        · by_cases e : n = m
          · right; rw [h, e, ha]; exact Function.update_self ..
          · left; rw [h]; exact Function.update_of_ne e _ _
        · exact .inr h
  exact key _ s

/-- **C74** (long names), partial: after a successful `allow_synonyms`, `grid.porosity`, `grid.permeability_x`, … are the stored arrays as long as the array is not replaced, neither by `set_props`
nor by `set_prop` (single cells may be set). Missing and false: `C74_long_name_stale`. -/
theorem C74_long_name_partial {g : Dims} {s s1 : Attrs K} (hc : Constructed g s) (es es' : List (AEvent K)) {n : PName} (hn : n ≠ .comp) (h : ∀ e, e ∈ es → ¬ e.direct n)
    (hs : (session g s es).synonyms = (s1, .ok ())) (h' : ∀ e, e ∈ es' → ¬ e.replaces n) :
    (session g s1 es').longNamed n = (session g s1 es').stored n ∧ (session g s1 es').longNamed n ≠ none := by
  have hm : (session g s es).attr n = (session g s es).props n := by
    have h0 := constructed_mirror hc n
    clear hs hc
    induction es generalizing s with
    | nil => exact h0
    | cons e es ih => exact ih (fun e' h' => h e' (List.mem_cons_of_mem _ h')) (step_mirror g s e (h e (List.mem_cons_self ..)) h0)
  obtain ⟨h1, h2⟩ := synonyms_long hs hn
  obtain ⟨-, f1, f2, -⟩ := synonyms_frame (session g s es)
  rw [hs] at f1 f2
  have key : ∀ (es : List (AEvent K)) (t : Attrs K), t.long n = t.props n → t.attr n = t.props n → t.props n ≠ none → (∀ e, e ∈ es → ¬ e.replaces n) →
      (session g t es).long n = (session g t es).props n ∧ (session g t es).props n ≠ none := by
    intro es
    induction es with
    | nil => intro t h1 _ h3 _; exact ⟨h1, h3⟩
    | cons e es ih =>
      intro t h1 h2 h3 he
      have hr := he e (List.mem_cons_self ..)
      refine ih _ ?_ (step_mirror g t e (fun hd => hr ?_) h2) ?_ fun e' h' => he e' (List.mem_cons_of_mem _ h')
      · cases e with
        | setProps a => obtain ⟨k1, k2⟩ := setProps_keeps (g := g) (s := t) hr h3; exact (congrFun k2 n).trans (h1.trans k1.symm)
        | setProp m v id co =>
          obtain ⟨-, k1, -, k2, k3⟩ := setProp_frame g t m v id co
          show (t.setProp g m v id co).1.long n = (t.setProp g m v id co).1.props n
          rw [k1, h1]
          by_cases e : n = m
          · rw [k3]; rintro ⟨rfl, rfl⟩; exact hr e.symm
          · rw [k2 n e]
        | synonyms =>
          obtain ⟨-, k1, -, -⟩ := synonyms_frame t
          show t.synonyms.1.long n = t.synonyms.1.props n
          rw [k1]
          rcases synonyms_long_any t n with k | k
          · rw [k, h1]
          · rw [k, h2]
      · cases e with
        | setProps a => exact hd.elim
        | synonyms => exact hd.elim
        | setProp m v id co => cases id <;> cases co <;> first | exact hd | exact hd.elim
      · cases e with
        | setProps a => show (t.setProps g a).1.props n ≠ none; rw [(setProps_keeps (g := g) (s := t) hr h3).1]; exact h3
        | synonyms => show t.synonyms.1.props n ≠ none; rw [(synonyms_frame t).2.1]; exact h3
        | setProp m v id co =>
          obtain ⟨-, -, -, k2, k3⟩ := setProp_frame g t m v id co
          show (t.setProp g m v id co).1.props n ≠ none
          by_cases e : n = m
          · rw [k3]; exact h3
            rintro ⟨rfl, rfl⟩; exact hr e.symm
          · rw [k2 n e]; exact h3
  obtain ⟨k1, k2⟩ := key es' s1 (by rw [h1, f1, hm]) (by rw [f2, f1, hm]) (by rw [f1, ← hm]; exact h2) h'
  unfold longNamed stored
  rw [k1]
  exact ⟨rfl, by simp [k2]⟩

/-! ### one at a time -/

lemma setProps_set {g : Dims} {s s' : Attrs K} {a : PArgs K} (h : s.setProps g a = (s', .ok ())) : s'.props .z ≠ none ∧ s'.comp ≠ none := by
  have key : ∀ t : Attrs K, t.defaults g = (s', .ok ()) → s'.props .z ≠ none ∧ s'.comp ≠ none := by
    intro t ht
    unfold defaults setComp at ht
    rw [if_neg (lt_irrefl (0 : K))] at ht
    dsimp only at ht
    split_ifs at ht with hz
    · unfold setOne setProp at ht
      rw [if_pos ⟨rfl, rfl⟩] at ht
      dsimp only [broadcast] at ht
      split_ifs at ht with hc
      · cases ht; simp
      · cases ht; simp [hc]
    · dsimp only at ht
      split_ifs at ht with hc
      · cases ht; exact ⟨hz, by simp⟩
      · cases ht; exact ⟨hz, hc⟩
  unfold setProps at h
  rcases he : setList g a.id a.co a.list s with ⟨s1, x | ⟨⟩⟩
  · rw [he] at h; cases h
  · rw [he] at h
    dsimp only at h
    cases hc : a.comp with
    | none => rw [hc] at h; exact key _ h
    | some c =>
      rw [hc] at h
      dsimp only [setComp] at h
      split_ifs at h
      · cases h
      · exact key _ h

lemma session_set {g : Dims} {s : Attrs K} (hc : Constructed g s) (es : List (AEvent K)) : (session g s es).props .z ≠ none ∧ (session g s es).comp ≠ none := by
  obtain ⟨a, -, -, h⟩ := hc
  have h0 := setProps_set h
  clear h
  induction es generalizing s with
  | nil => exact h0
  | cons e es ih =>
    refine ih ?_
    cases e with
    | setProps a =>
      exact setProps_ind (P := fun s : Attrs K => s.props .z ≠ none ∧ s.comp ≠ none) g a
        (fun t n v _ ht => by obtain ⟨-, f1, -, -, f2⟩ := setOne_frame g t n v a.id a.co; exact ⟨f2 _ ht.1, by rw [f1]; exact ht.2⟩)
        (fun t ht hz => absurd hz ht.1) (fun t c ht => ⟨ht.1, by simp⟩) s h0
    | synonyms => obtain ⟨-, f1, -, f2⟩ := synonyms_frame s; exact ⟨by show s.synonyms.1.props .z ≠ none; rw [f1]; exact h0.1, by show s.synonyms.1.comp ≠ none; rw [f2]; exact h0.2⟩
    | setProp n v id co =>
      obtain ⟨-, -, f1, -, -⟩ := setProp_frame g s n v id co
      refine ⟨?_, by show (s.setProp g n v id co).1.comp ≠ none; rw [f1]; exact h0.2⟩
      have k := (setOne_frame g s n v id co).2.2.2.2 .z h0.1
      show (s.setProp g n v id co).1.props .z ≠ none
      unfold setOne at k
      rcases he : s.setProp g n v id co with ⟨s1, x | ⟨⟩⟩ <;> rw [he] at k <;> exact k

end Attrs

/-- `set_props` with one property. -/
def PArgs.only (n : PName) (v : PVal K) (id : Option ℤ) (co : Option (ℤ × ℤ × ℤ)) : PArgs K :=
  match n with
  | .kx => { kx := some v, id := id, co := co }
  | .ky => { ky := some v, id := id, co := co }
  | .kz => { kz := some v, id := id, co := co }
  | .phi => { phi := some v, id := id, co := co }
  | .z => { z := some v, id := id, co := co }
  | .comp => { id := id, co := co }

namespace Attrs

/-- Calls of `set_props` with one property each, up to the first exception. -/
def oneByOne (g : Dims) (id : Option ℤ) (co : Option (ℤ × ℤ × ℤ)) (comp : Option K) : List (PName × PVal K) → Attrs K → Attrs K × Except Err Unit
  | [], s => match comp with
    | none => (s, .ok ())
    | some c => s.setProps g { comp := some c, id := id, co := co }
  | (n, v) :: l, s => match s.setProps g (.only n v id co) with
    | (s, .error x) => (s, .error x)
    | (s, .ok ()) => oneByOne g id co comp l s

/-- **C74** (several properties at once): at any time of a session, `set_props` with several arguments does the same as one call per argument, in the order `kx, ky, kz, phi, z, comp`, up to the first
exception. -/
theorem C74_one_by_one {g : Dims} {s : Attrs K} (hc : Constructed g s) (es : List (AEvent K)) (a : PArgs K) :
    (session g s es).setProps g a = oneByOne g a.id a.co a.comp a.list (session g s es) := by
  have h0 := session_set hc es
  generalize session g s es = t at h0
  have hd : ∀ t : Attrs K, t.props .z ≠ none → t.comp ≠ none → t.defaults g = (t, .ok ()) := by
    intro t h1 h2
    unfold defaults
    rw [if_neg h1]
    dsimp only
    rw [if_neg h2]
  have hk : ∀ (t : Attrs K) n v, t.props .z ≠ none → t.comp ≠ none → (t.setOne g n v a.id a.co).1.props .z ≠ none ∧ (t.setOne g n v a.id a.co).1.comp ≠ none := by
    intro t n v h1 h2
    obtain ⟨-, f1, -, -, f2⟩ := setOne_frame g t n v a.id a.co
    exact ⟨f2 _ h1, by rw [f1]; exact h2⟩
  have ho : ∀ (t : Attrs K) n v, n ≠ .comp → t.props .z ≠ none → t.comp ≠ none → t.setProps g (.only n v a.id a.co) = t.setOne g n v a.id a.co := by
    intro t n v hn h1 h2
    have e1 : (PArgs.only n v a.id a.co).list = [(n, v)] := by cases n <;> first | rfl | exact absurd rfl hn
    have e2 : (PArgs.only n v a.id a.co).comp = none := by cases n <;> rfl
    have e3 : (PArgs.only n v a.id a.co).id = a.id := by cases n <;> rfl
    have e4 : (PArgs.only n v a.id a.co).co = a.co := by cases n <;> rfl
    obtain ⟨k1, k2⟩ := hk t n v h1 h2
    unfold setProps
    rw [e1, e2, e3, e4]
    unfold setList
    rcases he : t.setOne g n v a.id a.co with ⟨t1, x | ⟨⟩⟩
    · rfl
    · rw [he] at k1 k2
      exact hd t1 k1 k2
  have hl : ∀ x, x ∈ a.list → x.1 ≠ .comp := by
    intro x hx
    unfold PArgs.list at hx
    simp only [List.mem_filterMap, List.mem_cons, List.not_mem_nil, or_false, Option.map_eq_some_iff] at hx
    obtain ⟨y, hy, v, -, rfl⟩ := hx
    rcases hy with rfl | rfl | rfl | rfl | rfl <;> simp
  unfold setProps
  generalize a.list = l at hl
  induction l generalizing t with
  | nil =>
    unfold setList oneByOne
    cases hc : a.comp with
    | none => exact hd t h0.1 h0.2
    | some c =>
      show _ = setProps g t { comp := some c, id := a.id, co := a.co }
      unfold setProps
      rfl
  | cons x l ih =>
    obtain ⟨n, v⟩ := x
    unfold setList oneByOne
    rw [ho t n v (hl (n, v) (List.mem_cons_self ..)) h0.1 h0.2]
    have k := hk t n v h0.1 h0.2
    rcases he : t.setOne g n v a.id a.co with ⟨t1, x | ⟨⟩⟩
    · rfl
    · rw [he] at k
      exact ih t1 k fun x hx => hl x (List.mem_cons_of_mem _ hx)

/-! ### where names disagree -/

/-- **C74** fails for `set_prop`: setting a property of all cells by `set_prop` changes what `get_prop` returns (and the transmissibilities), but not `grid.kx` or `grid.k["x"]` (and so neither the
wells nor, for `phi` and `z`, storage and gravity). -/
theorem C74_set_prop_stale {g : Dims} {s : Attrs K} (hc : Constructed g s) (es : List (AEvent K)) (n : PName) (v : K) :
    (step g (session g s es) (.setProp n (.num v) none none)).named n = (session g s es).named n ∧
      (step g (session g s es) (.setProp n (.num v) none none)).stored n = some (List.replicate (g.getN true) v) := by
  have ha := session_apart (g := g) (constructed_apart hc) es
  generalize session g s es = t at ha
  have e : step g t (.setProp n (.num v) none none) = { t with heap := t.heap ++ [List.replicate (g.getN true) v], props := Function.update t.props n (some t.heap.length) } := by
    show (t.setProp g n (.num v) none none).1 = _
    unfold setProp
    rw [if_pos ⟨rfl, rfl⟩]; rfl
  rw [e]
  constructor
  · unfold named
    dsimp only
    rcases hm : t.attr n with _ | r
    · rfl
    · simp only [Option.map_some]; rw [getD_append_lt _ _ _ (ha.alt n r hm)]
  · unfold stored
    simp

/-- **C74** fails for the long names: replacing the array by `set_props` leaves them behind. -/
theorem C74_long_name_stale {g : Dims} {s : Attrs K} (hc : Constructed g s) (es : List (AEvent K)) (v : K) :
    (step g (session g s es) (.setProps { kx := some (.num v) })).longNamed .kx = (session g s es).longNamed .kx ∧
      (step g (session g s es) (.setProps { kx := some (.num v) })).stored .kx = some (List.replicate (g.getN true) v) := by
  have ha := session_apart (g := g) (constructed_apart hc) es
  have h0 := session_set hc es
  generalize session g s es = t at ha h0
  have e : step g t (.setProps { kx := some (.num v) }) = ⟨t.heap ++ [List.replicate (g.getN true) v], Function.update t.props .kx (some t.heap.length),
      Function.update t.attr .kx (some t.heap.length), t.long, t.comp⟩ := by
    show (t.setProps g _).1 = _
    unfold setProps PArgs.list
    simp only [List.filterMap_cons, List.filterMap_nil, Option.map_some, Option.map_none, setList, setOne, setProp, and_self, if_true, broadcast, Function.update_self]
    unfold defaults
    dsimp only
    rw [if_neg (by rw [Function.update_of_ne (by decide)]; exact h0.1)]
    dsimp only
    rw [if_neg h0.2]
  rw [e]
  constructor
  · unfold longNamed
    dsimp only
    rcases hm : t.long .kx with _ | r
    · rfl
    · simp only [Option.map_some]; rw [getD_append_lt _ _ _ (ha.llt _ r hm)]
  · unfold stored
    simp

/-- **C74** fails for `comp`: a compressibility set by the constructor or `set_props` is never shown by `get_prop("comp")`. -/
theorem C74_comp_not_stored {g : Dims} {s : Attrs K} (hc : Constructed g s) (es : List (AEvent K)) (h : ∀ n v id co, AEvent.setProp n v id co ∈ es → n ≠ .comp) :
    (session g s es).comp ≠ none ∧ (session g s es).stored .comp = none := by
  refine ⟨(session_set hc es).2, ?_⟩
  have hl : ∀ (a : PArgs K) n v, (n, v) ∈ a.list → PName.comp ≠ n := by
    intro a n v hx
    unfold PArgs.list at hx
    simp only [List.mem_filterMap, List.mem_cons, List.not_mem_nil, or_false, Option.map_eq_some_iff] at hx
    obtain ⟨y, hy, v, -, hv⟩ := hx
    have := congrArg Prod.fst hv
    dsimp only at this
    rw [← this]
    rcases hy with rfl | rfl | rfl | rfl | rfl <;> simp
  have hs : ∀ (t : Attrs K) (a : PArgs K), t.props .comp = none → (t.setProps g a).1.props .comp = none := fun t a ht =>
    setProps_ind (P := fun t : Attrs K => t.props .comp = none) g a (fun t n v hm ht => by rw [(setOne_frame g t n v a.id a.co).2.2.1 _ (hl a n v hm)]; exact ht)
      (fun t ht _ => by rw [(setOne_frame g t .z (.num 0) none none).2.2.1 _ (by decide)]; exact ht) (fun _ _ h => h) t ht
  have h0 : s.props .comp = none := by
    obtain ⟨a, -, -, e⟩ := hc
    have := hs (empty : Attrs K) a rfl
    rwa [e] at this
  have key : ∀ (es : List (AEvent K)) (t : Attrs K), t.props .comp = none → (∀ n v id co, AEvent.setProp n v id co ∈ es → n ≠ .comp) → (session g t es).props .comp = none := by
    intro es
    induction es with
    | nil => intro t ht _; exact ht
    | cons e es ih =>
      intro t ht he
      refine ih _ ?_ fun n v id co hm => he n v id co (List.mem_cons_of_mem _ hm)
      cases e with
      | setProps a => exact hs t a ht
      | synonyms => show t.synonyms.1.props .comp = none; rw [(synonyms_frame t).2.1]; exact ht
      | setProp n v id co =>
        show (t.setProp g n v id co).1.props .comp = none
        rw [(setProp_frame g t n v id co).2.2.2.1 _ (he n v id co (List.mem_cons_self ..)).symm]; exact ht
  unfold stored
  rw [key es s h0 h]; rfl

/-! ### examples -/

/-- A row of three cells with all properties. -/
def exDims : Dims := ⟨3, 1, 1, false, by decide, by decide, by decide⟩

def exArgs : PArgs ℚ := { kx := some (.arr [1, 2, 3, 4, 5]), ky := some (.num 7), kz := some (.num 7), phi := some (.num (1 / 4)), comp := some 0 }

def exAttrs : Attrs ℚ := (empty.setProps exDims exArgs).1

lemma exAttrs_constructed : Constructed exDims exAttrs := ⟨exArgs, rfl, rfl, by
  have h : (empty.setProps exDims exArgs).2 = .ok () := by
    have : (empty.setProps exDims exArgs).2.isOk = true := by decide +kernel
    rcases e : (empty.setProps exDims exArgs).2 with x | ⟨⟩
    · rw [e] at this; cases this
    · rfl
  exact Prod.ext rfl h⟩

/-- A session that sets one cell, fails once, allows the long names and sets another cell. -/
def exEvents : List (AEvent ℚ) := [.setProp .kx (.num 9) (some 2) none, .setProps { kx := some (.arr [1, 2]) }, .setProps { phi := some (.num (1 / 5)), ky := some (.num 8) }]

example : (session exDims exAttrs exEvents).named .kx = some [1, 2, 9, 4, 5] ∧ (session exDims exAttrs exEvents).named .kx = (session exDims exAttrs exEvents).stored .kx ∧
    (session exDims exAttrs exEvents).named .phi = (session exDims exAttrs exEvents).stored .phi :=
  ⟨by decide +kernel, C74_attribute_partial exAttrs_constructed _ _ fun e he => by
      simp only [exEvents, List.mem_cons, List.not_mem_nil, or_false] at he; rcases he with rfl | rfl | rfl <;> simp [AEvent.direct],
    C74_attribute_partial exAttrs_constructed _ _ fun e he => by
      simp only [exEvents, List.mem_cons, List.not_mem_nil, or_false] at he; rcases he with rfl | rfl | rfl <;> simp [AEvent.direct]⟩

/-- Stale: transmissibilities see 6, wells see the old values. -/
example : (session exDims exAttrs [.setProp .kx (.num 6) none none]).named .kx = some [1, 2, 3, 4, 5] ∧ (session exDims exAttrs [.setProp .kx (.num 6) none none]).stored .kx = some [6, 6, 6, 6, 6] := by
  decide +kernel

example : ∃ s1, (session exDims exAttrs exEvents).synonyms = (s1, .ok ()) ∧
    (session exDims s1 [.setProp .kx (.num 6) (some 1) none]).longNamed .kx = some [1, 6, 9, 4, 5] ∧
    (session exDims s1 [.setProp .kx (.num 6) (some 1) none]).longNamed .kx = (session exDims s1 [.setProp .kx (.num 6) (some 1) none]).stored .kx := by
  have h : (session exDims exAttrs exEvents).synonyms.2 = .ok () := by
    have : (session exDims exAttrs exEvents).synonyms.2.isOk = true := by decide +kernel
    rcases e : (session exDims exAttrs exEvents).synonyms.2 with x | ⟨⟩
    · rw [e] at this; cases this
    · rfl
  have hs : (session exDims exAttrs exEvents).synonyms = ((session exDims exAttrs exEvents).synonyms.1, .ok ()) := Prod.ext rfl h
  refine ⟨_, hs, by decide +kernel, (C74_long_name_partial exAttrs_constructed exEvents _ (by decide) (fun e he => ?_) hs fun e he => ?_).1⟩
  · simp only [exEvents, List.mem_cons, List.not_mem_nil, or_false] at he
    rcases he with rfl | rfl | rfl <;> simp [AEvent.direct]
  · simp only [List.mem_singleton] at he
    subst he; simp [AEvent.replaces]

/-- `allow_synonyms` fails on a grid without `ky` and leaves `tops` undefined. -/
example : ∃ s : Attrs ℚ, Constructed exDims s ∧ s.synonyms.2.isOk = false ∧ (s.synonyms.1).longNamed .kx = some [7, 7, 7, 7, 7] ∧ (s.synonyms.1).longNamed .z = none ∧ s.named .z = some [0, 0, 0, 0, 0] := by
  refine ⟨((empty : Attrs ℚ).setProps exDims { kx := some (.num 7), phi := some (.num 1) }).1, ⟨_, rfl, rfl, Prod.ext rfl ?_⟩, by decide +kernel, by decide +kernel, by decide +kernel, by decide +kernel⟩
  have : (empty.setProps exDims { kx := some (.num 7), phi := some (.num (1 : ℚ)) }).2.isOk = true := by decide +kernel
  rcases e : (empty.setProps exDims { kx := some (.num 7), phi := some (.num (1 : ℚ)) }).2 with x | ⟨⟩
  · rw [e] at this; cases this
  · exact e

end Attrs
end RF
