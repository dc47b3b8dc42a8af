import Verif.Objects.Model
import Verif.Registry.Props
import Verif.Units.Props
import Mathlib.Tactic.NormNum
/-!
# Fluid objects (C83)
-/
set_option linter.unusedSectionVars false
namespace RF.Objects
open RF

section
variable {K : Type}

/-! ### dictionaries of attributes -/

/-- Several assignments. -/
def puts (l : List (String × Val K)) (o : Obj K) : Obj K := l.foldl (fun o e => dictSet o e.1 e.2) o

lemma puts_nil (o : Obj K) : puts [] o = o := rfl
lemma puts_cons (e : String × Val K) (l) (o : Obj K) : puts (e :: l) o = puts l (dictSet o e.1 e.2) := rfl
lemma puts_append (l l') (o : Obj K) : puts (l ++ l') o = puts l' (puts l o) := List.foldl_append

lemma get_puts_not (l : List (String × Val K)) (o : Obj K) {n : String} (h : n ∉ l.map (·.1)) : dictGet (puts l o) n = dictGet o n := by
  induction l generalizing o with
  | nil => rfl
  | cons e l ih =>
    rw [List.map_cons, List.mem_cons, not_or] at h
    rw [puts_cons, ih _ h.2, dictGet_set, if_neg (Ne.symm h.1)]

lemma get_puts_of (l : List (String × Val K)) {o o' : Obj K} {n : String} (h : dictGet o n = dictGet o' n) : dictGet (puts l o) n = dictGet (puts l o') n := by
  induction l generalizing o o' with
  | nil => exact h
  | cons e l ih =>
    rw [puts_cons, puts_cons]
    apply ih
    rw [dictGet_set, dictGet_set, h]

lemma get_puts_mem (l : List (String × Val K)) (o o' : Obj K) {n : String} (h : n ∈ l.map (·.1)) : dictGet (puts l o) n = dictGet (puts l o') n := by
  induction l generalizing o o' with
  | nil => simp at h
  | cons e l ih =>
    rw [puts_cons, puts_cons]
    by_cases hn : n ∈ l.map (·.1)
    · exact ih _ _ hn
    · rw [get_puts_not _ _ hn, get_puts_not _ _ hn]
      have : e.1 = n := by
        rw [List.map_cons, List.mem_cons] at h
        exact (h.resolve_right hn).symm
      rw [dictGet_set, dictGet_set, if_pos this, if_pos this]

/-- Assignments to different attributes can be exchanged. -/
lemma get_puts_comm (l l' : List (String × Val K)) (o : Obj K) (h : ∀ n, n ∈ l.map (·.1) → n ∉ l'.map (·.1)) (n : String) :
    dictGet (puts l' (puts l o)) n = dictGet (puts l (puts l' o)) n := by
  by_cases h1 : n ∈ l.map (·.1)
  · rw [get_puts_not _ _ (h n h1)]
    exact get_puts_mem _ _ _ h1
  · rw [get_puts_not l _ h1]
    exact get_puts_of _ (get_puts_not _ _ h1)

/-- `W n v` holds of every value `v` the method assigns to an attribute `n`. -/
def Writes (W : String → Val K → Prop) (a : Act K) : Prop := ∀ o n, dictGet (a o).1 n = dictGet o n ∨ ∃ v, W n v ∧ dictGet (a o).1 n = some v

lemma Writes.put {W : String → Val K → Prop} {n : String} {v : Val K} (h : W n v) : Writes W (put n v) := fun o m => by
  show dictGet (dictSet o n v) m = _ ∨ ∃ w, _ ∧ dictGet (dictSet o n v) m = _
  rw [dictGet_set]
  by_cases hm : n = m
  · exact .inr ⟨v, hm ▸ h, if_pos hm⟩
  · exact .inl (if_neg hm)

lemma Writes.copy {W : String → Val K → Prop} {n m : String} (h : ∀ v, W n v) : Writes W (copy n m) := fun o k => by
  unfold Objects.copy
  cases dictGet o m with
  | none => exact .inl rfl
  | some v => exact Writes.put (h v) o k

lemma Writes.andThen {W : String → Val K → Prop} {a b : Act K} (ha : Writes W a) (hb : Writes W b) : Writes W (a ;; b) := fun o n => by
  unfold Objects.andThen
  have h1 := ha o n
  rcases h : a o with ⟨o', _ | ⟨⟩⟩
  · rw [h] at h1; exact h1
  · rw [h] at h1
    rcases hb o' n with h2 | h2
    · rcases h1 with h1 | ⟨v, h3, h4⟩
      · exact .inl (h2.trans h1)
      · exact .inr ⟨v, h3, h2.trans h4⟩
    · exact .inr h2

lemma Writes.skip {W : String → Val K → Prop} : Writes W (skip : Act K) := fun _ _ => .inl rfl

lemma Writes.each {W : String → Val K → Prop} : ∀ {l : List (Act K)}, (∀ a ∈ l, Writes W a) → Writes W (each l)
  | [], _ => Writes.skip
  | a :: l, h => Writes.andThen (h a (by simp)) (Writes.each fun b hb => h b (by simp [hb]))

lemma Writes.mono {W W' : String → Val K → Prop} {a : Act K} (h : ∀ n v, W n v → W' n v) (ha : Writes W a) : Writes W' a := fun o n =>
  (ha o n).imp id fun ⟨v, h1, h2⟩ => ⟨v, h n v h1, h2⟩

lemma known_iff (u : String) : u ∈ UNITS.map Prod.fst ↔ Known u := by
  rw [show UNITS.map Prod.fst = ["field", "metric", "lab"] from rfl]
  simp [Known]

lemma setUnits_known {u : String} (h : Known u) (o : Obj K) : setUnits u o = (puts [("unit", .str u), ("units", .units u), ("factors", .factors u)] o, .ok ()) := by
  unfold setUnits
  rw [if_pos ((known_iff u).2 h)]; rfl

lemma setUnits_unknown {u : String} (h : ¬ Known u) (o : Obj K) : setUnits u o = (o, .error .value) := by
  unfold setUnits
  rw [if_neg (mt (known_iff u).1 h)]
end

namespace Fluid
variable {K : Type} [Field K] [LinearOrder K] [IsStrictOrderedRing K]

/-! ## Specification -/

/-- The properties of a fluid. -/
inductive Prp where | mu | B | rho | comp
  deriving DecidableEq

/-- The attribute that shows a property. -/
def Prp.attr : Prp → String
  | .mu => "mu" | .B => "B" | .rho => "rho" | .comp => "comp"

/-- The method that sets a property. -/
def Prp.setter : Prp → String
  | .mu => "set_mu" | .B => "set_B" | .rho => "set_rho" | .comp => "set_comp"

/-- The values that arguments `mu, B, rho, comp` give; `None` gives nothing. -/
def fromArgs (args : List (Val K)) : List (Prp × Val K) := (List.zip [Prp.mu, .B, .rho, .comp] args).filter fun e => e.2 ≠ Val.none

/-- The values given by a call. -/
def gives : Call K → List (Prp × Val K)
  | .call "set_mu" [v] => [(.mu, v)]
  | .call "set_B" [v] => [(.B, v)]
  | .call "set_rho" [v] => [(.rho, v)]
  | .call "set_comp" [v] => [(.comp, v)]
  | .call "set_props" args => if args.length ≤ 4 then fromArgs args else []
  | _ => []

/-- The last value given for a property. -/
def last (p : Prp) : List (Prp × Val K) → Option (Val K)
  | [] => none
  | e :: l => (last p l).or (if e.1 = p then some e.2 else none)

/-- Long names of methods, and the short ones. -/
def long : List (String × String) :=
  [("set_viscosity", "set_mu"), ("set_density", "set_rho"), ("set_formation_volume_factor", "set_B"), ("set_FVF", "set_B"), ("set_properties", "set_props")]

/-- A number or `None`. -/
def Number (v : Val K) : Prop := v = .none ∨ ∃ x, v = .num x

/-- Calls of the methods by their short names, `set_props` with numbers; changes of units. -/
def Plain : Call K → Prop
  | .call name args => name ∈ ["set_mu", "set_B", "set_rho", "set_comp", "set_props", "allow_synonyms"] ∧ (name = "set_props" → ∀ v ∈ args, Number v)
  | .units _ => True

/-! ### what the methods assign -/

/-- The type that belongs to a compressibility. -/
def typeOf (x : K) : Val K := if x = 0 then .str "incompressible" else if 0 < x then .str "compressible" else .none

/-- The assignments of a setter, for a fluid in unit system `u`. -/
def ups (u : String) : Prp → Val K → List (String × Val K)
  | .mu, v => [("mu", v)]
  | .B, v => [("B", v)]
  | .rho, .num x => [("rho", .num x), ("g", .num (gravityOf u * x))]
  | .rho, v => [("rho", v)]
  | .comp, .num x => [("comp", .num x), ("comp_type", typeOf x)]
  | .comp, v => [("comp", v)]

/-- The setter of a property. -/
def setP : Prp → Val K → Act K
  | .mu => setMu | .B => setB | .rho => setRho | .comp => setComp

/-- Does a setter return? -/
def fine : Prp → Val K → Bool
  | .mu, _ => true
  | .B, _ => true
  | .rho, .num _ => true
  | .rho, _ => false
  | .comp, .num x => decide (0 ≤ x)
  | .comp, _ => false

lemma gravity_num {u : String} (hu : Known u) {o : Obj K} (h : dictGet o "factors" = some (.factors u)) (x : K) : gravity (.num x) o = put "g" (.num (gravityOf u * x)) o := by
  unfold gravity
  rw [h]
  have : ((do
      let f ← (FACTORS K).get u
      let c ← f.get "gravity conversion"
      let a ← f.get "gravitational acceleration"
      (pure (c * x * a) : Except Err K))) = .ok (gravityOf u * x) := by
    rcases hu with rfl | rfl | rfl
    · rw [gravity_field]
      show Except.ok (1349 / 6250000 * x * (16087 / 500)) = _
      congr 1; norm_num; ring
    · rw [gravity_metric]
      show Except.ok (1 / 1000 * x * (1961327 / 200000)) = _
      congr 1; norm_num; ring
    · rw [gravity_lab]
      show Except.ok (986923 / 1000000000000 * x * (1961327 / 2000)) = _
      congr 1; norm_num; ring
  dsimp only
  rw [this]

lemma gravity_other {u : String} (hu : Known u) {o : Obj K} (h : dictGet o "factors" = some (.factors u)) {v : Val K} (hv : ∀ x, v ≠ .num x) : gravity v o = (o, .error .type) := by
  unfold gravity
  rw [h]
  rcases hu with rfl | rfl | rfl <;> cases v <;> first | rfl | exact absurd rfl (hv _)

lemma classify_num (x : K) (o : Obj K) : classify (.num x) o = (dictSet o "comp_type" (typeOf x), if 0 ≤ x then .ok () else .error .value) := by
  unfold classify typeOf
  by_cases h0 : x = 0
  · subst h0; simp [put]
  · dsimp only
    rw [if_neg h0, if_neg h0]
    by_cases h1 : 0 < x
    · rw [if_pos h1, if_pos h1, if_pos h1.le]; rfl
    · have : ¬ 0 ≤ x := fun h => h1 (lt_of_le_of_ne h (Ne.symm h0))
      rw [if_neg h1, if_neg h1, if_neg this]; rfl

lemma setP_eq {u : String} (hu : Known u) {o : Obj K} (h : dictGet o "factors" = some (.factors u)) (p : Prp) (v : Val K) :
    (setP p v o).1 = puts (ups u p v) o ∧ ((setP p v o).2 = .ok () ↔ fine p v = true) := by
  have hr : ∀ v : Val K, dictGet (dictSet o "rho" v) "factors" = some (.factors u) := fun v => by rw [dictGet_set, if_neg (by decide), h]
  cases p with
  | mu => exact ⟨rfl, by simp [setP, setMu, put, fine]⟩
  | B => exact ⟨rfl, by simp [setP, setB, put, fine]⟩
  | rho =>
    have : ∀ v : Val K, setP .rho v o = gravity v (dictSet o "rho" v) := fun v => rfl
    rw [this]
    by_cases hv : ∃ x, v = .num x
    · obtain ⟨x, rfl⟩ := hv
      rw [gravity_num hu (hr _)]
      exact ⟨rfl, by simp [put, fine]⟩
    · rw [gravity_other hu (hr _) fun x e => hv ⟨x, e⟩]
      cases v <;> first | exact absurd ⟨_, rfl⟩ hv | exact ⟨rfl, by simp [fine]⟩
  | comp =>
    have : ∀ v : Val K, setP .comp v o = classify v (dictSet o "comp" v) := fun v => rfl
    rw [this]
    cases v with
    | num x =>
      rw [classify_num]
      refine ⟨rfl, ?_⟩
      by_cases hx : 0 ≤ x <;> simp [fine, hx]
    | _ => exact ⟨rfl, by simp [classify, fine]⟩

/-- The attributes a setter assigns to. -/
def group : Prp → List String
  | .mu => ["mu"] | .B => ["B"] | .rho => ["rho", "g"] | .comp => ["comp", "comp_type"]

lemma ups_group (u : String) (p : Prp) (v : Val K) : ∀ n, n ∈ (ups u p v).map (·.1) → n ∈ group p := by
  intro n
  cases p <;> cases v <;> simp [ups, group] <;> tauto

lemma group_disjoint {p q : Prp} (h : p ≠ q) : ∀ n, n ∈ group p → n ∉ group q := by
  intro n
  cases p <;> cases q <;> simp [group] at * <;> (try rintro (rfl | rfl)) <;> (try rintro rfl) <;> simp

lemma ups_own (u : String) (p : Prp) (v : Val K) (o : Obj K) : dictGet (puts (ups u p v) o) p.attr = some v := by
  cases p <;> cases v <;> simp [ups, puts, Prp.attr, dictGet_set]

lemma ups_not {u : String} {p : Prp} {v : Val K} {n : String} (h : n ∉ group p) (o : Obj K) : dictGet (puts (ups u p v) o) n = dictGet o n :=
  get_puts_not _ _ fun H => h (ups_group u p v n H)

lemma factors_group (p : Prp) : "factors" ∉ group p ∧ "unit" ∉ group p := by cases p <;> simp [group]

/-! ### states of a fluid -/

/-- All names of attributes a fluid can have. -/
def names : List String :=
  ["unit", "units", "factors", "dtype", "verbose", "mu", "B", "rho", "g", "comp", "comp_type", "set_viscosity", "viscosity", "set_density", "density", "gravity",
    "set_formation_volume_factor", "set_FVF", "formation_volume_factor", "FVF", "set_properties"]

/-- The states of a fluid in unit system `u`, also while it is constructed. -/
structure Pre (u : String) (o : Obj K) : Prop where
  known : Known u
  fac : dictGet o "factors" = some (.factors u)
  unit : dictGet o "unit" = some (.str u)
  only : ∀ n, n ∉ names → dictGet o n = none
  meth : ∀ e ∈ long, dictGet o e.1 = none ∨ dictGet o e.1 = some (.method e.2)
  kind : ∀ x, dictGet o "comp" = some (.num x) → dictGet o "comp_type" = some (typeOf x)

/-- The states of a fluid in unit system `u`. -/
structure Fl (u : String) (o : Obj K) : Prop extends Pre u o where
  rho : (dictGet o "rho").isSome
  comp : (dictGet o "comp").isSome
  g : (dictGet o "g").isSome

/-- What `allow_synonyms` may assign. -/
def SynW (n : String) (v : Val K) : Prop :=
  n ∈ ["set_viscosity", "viscosity", "set_density", "density", "gravity", "set_formation_volume_factor", "set_FVF", "formation_volume_factor", "FVF", "set_properties"] ∧
    ∀ e ∈ long, n = e.1 → v = .method e.2

lemma synonyms_writes : Writes SynW (allowSynonyms : Act K) := by
  refine Writes.each fun a ha => ?_
  simp only [List.mem_cons, List.not_mem_nil, or_false] at ha
  rcases ha with rfl | rfl | rfl | rfl | rfl | rfl | rfl | rfl | rfl | rfl
  all_goals first
    | exact Writes.put ⟨by simp, by simp [long]⟩
    | exact Writes.copy fun v => ⟨by simp, by simp [long]⟩

lemma group_names (p : Prp) : ∀ n, n ∈ group p → n ∈ names ∧ n ∉ long.map (·.1) := by
  intro n
  cases p <;> simp [group, names, long] <;> (try rintro (rfl | rfl)) <;> (try rintro rfl) <;> simp

lemma puts_isSome (l : List (String × Val K)) {o : Obj K} {n : String} (h : (dictGet o n).isSome) : (dictGet (puts l o) n).isSome := by
  induction l generalizing o with
  | nil => exact h
  | cons e l ih =>
    rw [puts_cons]
    refine ih ?_
    rw [dictGet_set]
    split_ifs
    · rfl
    · exact h

lemma Pre.upped {u : String} {o : Obj K} (h : Pre u o) (p : Prp) (v : Val K) : Pre u (puts (ups u p v) o) where
  known := h.known
  fac := by rw [ups_not (factors_group p).1, h.fac]
  unit := by rw [ups_not (factors_group p).2, h.unit]
  only n hn := by rw [ups_not fun H => hn (group_names p n H).1, h.only n hn]
  meth e he := by
    rw [ups_not fun H => (group_names p _ H).2 (List.mem_map.2 ⟨e, he, rfl⟩)]
    exact h.meth e he
  kind x hx := by
    by_cases hp : p = .comp
    · subst hp
      have := ups_own u .comp v o
      rw [show Prp.attr .comp = "comp" from rfl, hx] at this
      cases this
      simp [ups, puts, dictGet_set]
    · have h1 : "comp" ∉ group p := by cases p <;> simp [group] at hp ⊢
      have h2 : "comp_type" ∉ group p := by cases p <;> simp [group] at hp ⊢
      rw [ups_not h1] at hx
      rw [ups_not h2]
      exact h.kind x hx

lemma Fl.upped {u : String} {o : Obj K} (h : Fl u o) (p : Prp) (v : Val K) : Fl u (puts (ups u p v) o) :=
  ⟨h.toPre.upped p v, puts_isSome _ h.rho, puts_isSome _ h.comp, puts_isSome _ h.g⟩

lemma Fl.units {u u' : String} {o : Obj K} (h : Fl u o) (hu : Known u') : Fl u' (setUnits u' o).1 := by
  rw [setUnits_known hu]
  have key : ∀ n, n ∉ ["unit", "units", "factors"] → dictGet (puts [("unit", Val.str u'), ("units", .units u'), ("factors", .factors u')] o) n = dictGet o n :=
    fun n hn => get_puts_not _ _ hn
  refine ⟨⟨hu, by simp [puts, dictGet_set], by simp [puts, dictGet_set], fun n hn => ?_, fun e he => ?_, fun x hx => ?_⟩, puts_isSome _ h.rho, puts_isSome _ h.comp, puts_isSome _ h.g⟩
  · rw [key n fun H => hn (by simp at H; rcases H with rfl | rfl | rfl <;> simp [names]), h.only n hn]
  · rw [key]
    · exact h.meth e he
    · simp only [long, List.mem_cons, List.not_mem_nil, or_false] at he
      rcases he with rfl | rfl | rfl | rfl | rfl <;> decide
  · rw [key _ (by decide)] at hx
    rw [key _ (by decide)]
    exact h.kind x hx

lemma syn_kept (o : Obj K) {n : String}
    (h : n ∉ ["set_viscosity", "viscosity", "set_density", "density", "gravity", "set_formation_volume_factor", "set_FVF", "formation_volume_factor", "FVF", "set_properties"]) :
    dictGet (allowSynonyms o).1 n = dictGet o n := (synonyms_writes o n).resolve_right fun ⟨_, h1, _⟩ => h h1.1

lemma Fl.synonyms {u : String} {o : Obj K} (h : Fl u o) : Fl u (allowSynonyms o).1 where
  known := h.known
  fac := by rw [syn_kept _ (by decide), h.fac]
  unit := by rw [syn_kept _ (by decide), h.unit]
  rho := by rw [syn_kept _ (by decide)]; exact h.rho
  comp := by rw [syn_kept _ (by decide)]; exact h.comp
  g := by rw [syn_kept _ (by decide)]; exact h.g
  only n hn := by
    rw [syn_kept _ fun H => hn ?_, h.only n hn]
    simp at H
    rcases H with rfl | rfl | rfl | rfl | rfl | rfl | rfl | rfl | rfl | rfl <;> simp [names]
  meth e he := by
    rcases synonyms_writes o e.1 with H | ⟨v, h1, h2⟩
    · rw [H]; exact h.meth e he
    · rw [h2, h1.2 e he rfl]; exact .inr rfl
  kind x hx := by
    rw [syn_kept _ (by decide)] at hx
    rw [syn_kept _ (by decide)]
    exact h.kind x hx

/-- The assignments of several setters. -/
def assigns (u : String) (l : List (Prp × Val K)) (o : Obj K) : Obj K := l.foldl (fun o e => puts (ups u e.1 e.2) o) o

lemma Pre.assigned {u : String} (l : List (Prp × Val K)) {o : Obj K} (h : Pre u o) : Pre u (assigns u l o) := by
  induction l generalizing o with
  | nil => exact h
  | cons e l ih => exact ih (h.upped e.1 e.2)

lemma Fl.assigned {u : String} (l : List (Prp × Val K)) {o : Obj K} (h : Fl u o) : Fl u (assigns u l o) := by
  induction l generalizing o with
  | nil => exact h
  | cons e l ih => exact ih (h.upped e.1 e.2)

lemma assigns_own (u : String) (l : List (Prp × Val K)) (o : Obj K) (p : Prp) : dictGet (assigns u l o) p.attr = (last p l).or (dictGet o p.attr) := by
  induction l generalizing o with
  | nil => rfl
  | cons e l ih =>
    show dictGet (assigns u l (puts (ups u e.1 e.2) o)) p.attr = ((last p l).or (if e.1 = p then some e.2 else none)).or _
    rw [ih]
    cases last p l with
    | some v => rfl
    | none =>
      by_cases he : e.1 = p
      · subst he
        rw [ups_own, if_pos rfl]; rfl
      · rw [if_neg he, ups_not]
        · rfl
        · intro H
          refine group_disjoint he _ H ?_
          cases p <;> simp [group, Prp.attr]

lemma assigns_append (u : String) (l l' : List (Prp × Val K)) (o : Obj K) : assigns u (l ++ l') o = assigns u l' (assigns u l o) := List.foldl_append

/-- Every assignment of a density assigns the gravity term. -/
lemma assigns_g (u : String) {l : List (Prp × Val K)} {o : Obj K} (h : (dictGet o "g").isSome ∨ ∃ x, (Prp.rho, Val.num x) ∈ l) : (dictGet (assigns u l o) "g").isSome := by
  induction l generalizing o with
  | nil => exact h.resolve_right (by simp)
  | cons e l ih =>
    refine ih ?_
    rcases h with h | ⟨x, h⟩
    · exact .inl (puts_isSome _ h)
    · rcases List.mem_cons.1 h with rfl | h
      · exact .inl (by simp [ups, puts, dictGet_set])
      · exact .inr ⟨x, h⟩

lemma then_ok {a b : Act K} {o o' : Obj K} (h : a o = (o', .ok ())) : (a ;; b) o = b o' := by unfold andThen; rw [h]

lemma then_error {a b : Act K} {o o' : Obj K} {x : Err} (h : a o = (o', .error x)) : (a ;; b) o = (o', .error x) := by unfold andThen; rw [h]

lemma setP_fine {u : String} {o : Obj K} (h : Pre u o) {p : Prp} {v : Val K} (hf : fine p v = true) : setP p v o = (puts (ups u p v) o, .ok ()) :=
  Prod.ext (setP_eq h.known h.fac p v).1 ((setP_eq h.known h.fac p v).2.2 hf)

/-- What an argument that may be `None` gives. -/
def opt (p : Prp) (v : Val K) : List (Prp × Val K) := if v = .none then [] else [(p, v)]

lemma given_eq {u : String} {o : Obj K} (h : Pre u o) {p : Prp} {v : Val K} (hf : v ≠ .none → fine p v = true) : given (setP p) v o = (assigns u (opt p v) o, .ok ()) := by
  unfold given opt
  by_cases hv : v = .none
  · rw [if_pos hv, if_pos hv]; rfl
  · rw [if_neg hv, if_neg hv, setP_fine h (hf hv)]; rfl

lemma fromArgs_opt (mu B rho comp : Val K) : fromArgs [mu, B, rho, comp] = opt .mu mu ++ opt .B B ++ opt .rho rho ++ opt .comp comp := by
  unfold fromArgs opt
  by_cases h1 : mu = .none <;> by_cases h2 : B = .none <;> by_cases h3 : rho = .none <;> by_cases h4 : comp = .none <;> simp [h1, h2, h3, h4]

/-- The defaults at the end of `set_props`. -/
def defs (o : Obj K) : List (Prp × Val K) :=
  (if (dictGet o "rho").isSome then [] else [(.rho, .num 0)]) ++ if (dictGet o "comp").isSome then [] else [(.comp, .num 0)]

lemma default_eq {u : String} {o : Obj K} (h : Pre u o) (p : Prp) (hp : fine p (.num 0 : Val K) = true) :
    default p.attr (setP p) o = (assigns u (if (dictGet o p.attr).isSome then [] else [(p, .num 0)]) o, .ok ()) := by
  unfold default
  split_ifs with h1
  · rfl
  · rw [setP_fine h hp]; rfl

lemma setProps_eq {u : String} {o : Obj K} (h : Pre u o) {mu B rho comp : Val K} (hr : Number rho) (hc : Number comp) :
    if comp = .none ∨ fine .comp comp = true then
      setProps mu B rho comp o = (assigns u (fromArgs [mu, B, rho, comp] ++ defs (assigns u (fromArgs [mu, B, rho, comp]) o)) o, .ok ())
    else setProps mu B rho comp o = (assigns u (fromArgs [mu, B, rho, comp]) o, .error .value) := by
  have e1 : given setMu mu o = _ := given_eq h (p := .mu) (v := mu) fun _ => rfl
  have h1 := h.assigned (opt .mu mu)
  have e2 : given setB B _ = _ := given_eq h1 (p := .B) (v := B) fun _ => rfl
  have h2 := h1.assigned (opt .B B)
  have e3 : given setRho rho _ = _ := given_eq h2 (p := .rho) (v := rho) fun H => by
    rcases hr with rfl | ⟨x, rfl⟩
    · exact absurd rfl H
    · rfl
  have h3 := h2.assigned (opt .rho rho)
  have h4 := h3.assigned (opt .comp comp)
  have e123 : (given setMu mu ;; given setB B ;; given setRho rho) o = (assigns u (opt .rho rho) (assigns u (opt .B B) (assigns u (opt .mu mu) o)), .ok ()) := by
    rw [then_ok (by rw [then_ok e1]; exact e2)]; exact e3
  have el : assigns u (fromArgs [mu, B, rho, comp]) o = assigns u (opt .comp comp) (assigns u (opt .rho rho) (assigns u (opt .B B) (assigns u (opt .mu mu) o))) := by
    rw [fromArgs_opt, assigns_append, assigns_append, assigns_append]
  rw [← el] at h4
  have hd1 : default "rho" setRho _ = _ := default_eq h4 .rho rfl
  have h5 := h4.assigned (if (dictGet (assigns u (fromArgs [mu, B, rho, comp]) o) Prp.rho.attr).isSome then [] else [(.rho, .num 0)])
  have hd2 : default "comp" setComp _ = _ := default_eq h5 .comp (by simp [fine])
  split_ifs with hf
  · have e4 : given setComp comp _ = _ := given_eq h3 (p := .comp) (v := comp) fun H => hf.resolve_left H
    have e5 : (given setMu mu ;; given setB B ;; given setRho rho ;; given setComp comp) o = (assigns u (fromArgs [mu, B, rho, comp]) o, .ok ()) := by
      rw [then_ok e123, el]; exact e4
    unfold setProps
    refine (then_ok ((then_ok e5).trans hd1)).trans (hd2.trans ?_)
    rw [assigns_append, defs, assigns_append]
    congr 3
    have : (dictGet (assigns u (if (dictGet (assigns u (fromArgs [mu, B, rho, comp]) o) Prp.rho.attr).isSome then [] else [(.rho, .num 0)]) (assigns u (fromArgs [mu, B, rho, comp]) o)) Prp.comp.attr) =
        dictGet (assigns u (fromArgs [mu, B, rho, comp]) o) "comp" := by
      split_ifs
      · rfl
      · exact ups_not (show "comp" ∉ group .rho by decide) _
    rw [this]
  · rw [not_or] at hf
    have e4 : given setComp comp (assigns u (opt .rho rho) (assigns u (opt .B B) (assigns u (opt .mu mu) o))) = (assigns u (fromArgs [mu, B, rho, comp]) o, .error .value) := by
      rcases hc with rfl | ⟨x, rfl⟩
      · exact absurd rfl hf.1
      · have hx : ¬ 0 ≤ x := fun H => hf.2 (by simp [fine, H])
        rw [el]
        unfold given opt
        have hn : Val.num x ≠ .none := by rintro ⟨⟩
        rw [if_neg hn, if_neg hn]
        show classify (.num x) (dictSet _ _ _) = _
        rw [classify_num, if_neg hx]; rfl
    have e5 : (given setMu mu ;; given setB B ;; given setRho rho ;; given setComp comp) o = (assigns u (fromArgs [mu, B, rho, comp]) o, .error .value) := by
      rw [then_ok e123]; exact e4
    unfold setProps
    exact then_error (then_error e5)

lemma Fl.props {u : String} {o : Obj K} (h : Fl u o) {mu B rho comp : Val K} (hr : Number rho) (hc : Number comp) :
    (setProps mu B rho comp o).1 = assigns u (fromArgs [mu, B, rho, comp]) o := by
  have := setProps_eq h.toPre (mu := mu) (B := B) hr hc
  have h' := h.assigned (fromArgs [mu, B, rho, comp])
  split_ifs at this with hf
  · rw [this, defs, if_pos h'.rho, if_pos h'.comp, List.append_nil, List.append_nil]
  · rw [this]

lemma fromArgs_pad {args : List (Val K)} (h : args.length ≤ 4) : fromArgs [arg args 0, arg args 1, arg args 2, arg args 3] = fromArgs args := by
  match args, h with
  | [], _ => simp [fromArgs, arg]
  | [a], _ => simp [fromArgs, arg, List.filter_cons]
  | [a, b], _ => simp [fromArgs, arg, List.filter_cons]
  | [a, b, c], _ => simp [fromArgs, arg, List.filter_cons]
  | [a, b, c, d], _ => simp [fromArgs, arg, List.filter_cons]
  | _ :: _ :: _ :: _ :: _ :: _, h => simp at h

lemma number_arg {args : List (Val K)} (h : ∀ v ∈ args, Number v) (n : ℕ) : Number (arg args n) := by
  unfold arg
  by_cases hn : n < args.length
  · rw [List.getD_eq_getElem?_getD, List.getElem?_eq_getElem hn]
    exact h _ (List.getElem_mem hn)
  · rw [List.getD_eq_getElem?_getD, List.getElem?_eq_none (not_lt.1 hn)]
    exact .inl rfl

lemma invoke_class {u : String} {o : Obj K} (h : Pre u o) {n : String} (hn : n ∉ names) {f : List (Val K) → Act K} (hf : cls n = some f) (args : List (Val K)) :
    invoke cls n args o = f args o := by
  unfold invoke
  rw [h.only n hn]
  dsimp only
  rw [hf]

/-- The effect of a call. -/
lemma Fl.calls {u : String} {o : Obj K} (h : Fl u o) {c : Call K} (hc : Plain c) :
    (∃ l, c = .call "allow_synonyms" l ∧ ((c.act cls o).1 = o ∨ l = [] ∧ (c.act cls o).1 = (allowSynonyms o).1) ∧ gives c = []) ∨ (∃ u', c = .units u' ∧ gives c = []) ∨
      (c.act cls o).1 = assigns u (gives c) o ∧ (∀ u', c ≠ .units u') ∧ ∀ l, c ≠ .call "allow_synonyms" l := by
  cases c with
  | units u' => exact .inr (.inl ⟨u', rfl, rfl⟩)
  | call name args =>
    obtain ⟨h1, h2⟩ := hc
    simp only [List.mem_cons, List.not_mem_nil, or_false] at h1
    have setter : ∀ (p : Prp), cls (K := K) p.setter = some (one (setP p)) → p.setter ∉ names → (gives (.call p.setter args) = match args with | [v] => [(p, v)] | _ => []) →
        (invoke cls p.setter args o).1 = assigns u (gives (.call p.setter args)) o := by
      intro p hp hn hs
      rw [invoke_class h.toPre hn hp, hs]
      match args with
      | [] => rfl
      | [v] => exact (setP_eq h.known h.fac p v).1
      | _ :: _ :: _ => rfl
    rcases h1 with rfl | rfl | rfl | rfl | rfl | rfl
    · exact .inr (.inr ⟨setter .mu rfl (by decide) (by match args with | [] => rfl | [v] => rfl | _ :: _ :: _ => rfl), by simp, by simp⟩)
    · exact .inr (.inr ⟨setter .B rfl (by decide) (by match args with | [] => rfl | [v] => rfl | _ :: _ :: _ => rfl), by simp, by simp⟩)
    · exact .inr (.inr ⟨setter .rho rfl (by decide) (by match args with | [] => rfl | [v] => rfl | _ :: _ :: _ => rfl), by simp, by simp⟩)
    · exact .inr (.inr ⟨setter .comp rfl (by decide) (by match args with | [] => rfl | [v] => rfl | _ :: _ :: _ => rfl), by simp, by simp⟩)
    · refine .inr (.inr ⟨?_, by simp, by simp⟩)
      show (invoke cls "set_props" args o).1 = _
      rw [invoke_class h.toPre (by decide) rfl]
      show _ = assigns u (if args.length ≤ 4 then fromArgs args else []) o
      by_cases hl : args.length ≤ 4
      · rw [if_pos hl, if_pos hl, h.props (number_arg (h2 rfl) 2) (number_arg (h2 rfl) 3), fromArgs_pad hl]
      · rw [if_neg hl, if_neg hl]; rfl
    · refine .inl ⟨args, rfl, ?_, rfl⟩
      show (invoke cls "allow_synonyms" args o).1 = _ ∨ _ ∧ (invoke cls "allow_synonyms" args o).1 = _
      rw [invoke_class h.toPre (by decide) rfl]
      by_cases hl : args = []
      · rw [if_pos hl]; exact .inr ⟨hl, rfl⟩
      · rw [if_neg hl]; exact .inl rfl

lemma Fl.step {u : String} {o : Obj K} (h : Fl u o) {c : Call K} (hc : Plain c) :
    ∃ u', Fl u' (c.act cls o).1 ∧ ((∀ s, c ≠ .units s) → u' = u) ∧ ∀ p : Prp, dictGet (c.act cls o).1 p.attr = (last p (gives c)).or (dictGet o p.attr) := by
  rcases h.calls hc with ⟨l, rfl, H | ⟨-, H⟩, hs⟩ | ⟨u', rfl, hs⟩ | ⟨H, h2, -⟩
  · refine ⟨u, by rw [H]; exact h, fun _ => rfl, fun p => ?_⟩
    rw [H, hs]; rfl
  · refine ⟨u, by rw [H]; exact h.synonyms, fun _ => rfl, fun p => ?_⟩
    rw [H, hs, syn_kept]
    · rfl
    · cases p <;> decide
  · by_cases hu : Known u'
    · refine ⟨u', h.units hu, fun H => absurd rfl (H u'), fun p => ?_⟩
      show dictGet (setUnits u' o).1 p.attr = _
      rw [hs, setUnits_known hu, get_puts_not]
      · rfl
      · show p.attr ∉ ["unit", "units", "factors"]
        cases p <;> decide
    · refine ⟨u, ?_, fun _ => rfl, fun p => ?_⟩
      · show Fl u (setUnits u' o).1
        rw [setUnits_unknown hu]; exact h
      · show dictGet (setUnits u' o).1 p.attr = _
        rw [setUnits_unknown hu, hs]; rfl
  · refine ⟨u, by rw [H]; exact h.assigned _, fun _ => rfl, fun p => ?_⟩
    rw [H, assigns_own]

lemma last_append (p : Prp) (l l' : List (Prp × Val K)) : last p (l ++ l') = (last p l').or (last p l) := by
  induction l with
  | nil => simp [last]
  | cons e l ih => rw [List.cons_append, last, ih, last, Option.or_assoc]

lemma Fl.afters {u : String} {o : Obj K} (h : Fl u o) {cs : List (Call K)} (hcs : ∀ c ∈ cs, Plain c) :
    ∃ u', Fl u' (after cls o cs) ∧ ((∀ c ∈ cs, ∀ s, c ≠ .units s) → u' = u) ∧ ∀ p : Prp, dictGet (after cls o cs) p.attr = (last p (cs.flatMap gives)).or (dictGet o p.attr) := by
  induction cs generalizing u o with
  | nil => exact ⟨u, h, fun _ => rfl, fun p => rfl⟩
  | cons c cs ih =>
    obtain ⟨u1, h1, k1, r1⟩ := h.step (hcs c (by simp))
    obtain ⟨u2, h2, k2, r2⟩ := ih h1 fun c hc => hcs c (by simp [hc])
    refine ⟨u2, h2, fun H => (k2 fun c hc => H c (by simp [hc])).trans (k1 (H c (by simp))), fun p => ?_⟩
    rw [List.flatMap_cons, last_append, Option.or_assoc, ← r1]
    exact r2 p

/-! ### construction -/

lemma base_pre {u : String} (hu : Known u) (dtype : String) (verbose : Bool) : ∃ o : Obj K, baseInit u dtype verbose [] = (o, .ok ()) ∧ Pre u o ∧ ∀ p : Prp, dictGet o p.attr = none := by
  refine ⟨puts [("unit", .str u), ("units", .units u), ("factors", .factors u), ("dtype", .str dtype), ("verbose", .flag verbose)] [], ?_, ?_, ?_⟩
  · unfold baseInit
    rw [then_ok (then_ok (setUnits_known hu []))]; rfl
  · have key : ∀ n, n ∉ ["unit", "units", "factors", "dtype", "verbose"] →
        dictGet (puts [("unit", Val.str u), ("units", .units u), ("factors", .factors u), ("dtype", .str dtype), ("verbose", .flag verbose)] ([] : Obj K)) n = none :=
      fun n hn => get_puts_not _ _ hn
    refine ⟨hu, by simp [puts, dictGet_set], by simp [puts, dictGet_set], fun n hn => key n fun H => hn ?_, fun e he => .inl (key _ ?_), fun x hx => ?_⟩
    · simp at H
      rcases H with rfl | rfl | rfl | rfl | rfl <;> decide
    · simp only [long, List.mem_cons, List.not_mem_nil, or_false] at he
      rcases he with rfl | rfl | rfl | rfl | rfl <;> decide
    · rw [key _ (by decide)] at hx; cases hx
  · intro p
    rw [get_puts_not]
    · rfl
    · show p.attr ∉ ["unit", "units", "factors", "dtype", "verbose"]
      cases p <;> decide

/-- What a fluid shows for a property that was never given. -/
def initial : Prp → Option (Val K)
  | .mu => none | .B => none | .rho => some (.num 0) | .comp => some (.num 0)

lemma last_none {p : Prp} {l : List (Prp × Val K)} : last p l = none → ∀ e ∈ l, e.1 ≠ p := by
  induction l with
  | nil => simp
  | cons a l ih =>
    intro h e he
    rw [last] at h
    rcases hl : last p l with _ | v
    · rw [hl] at h
      by_cases ha : a.1 = p
      · rw [if_pos ha] at h; cases h
      · rcases List.mem_cons.1 he with rfl | he
        · exact ha
        · exact ih hl e he
    · rw [hl] at h; cases h

lemma last_mem {p : Prp} {v : Val K} {l : List (Prp × Val K)} : last p l = some v → (p, v) ∈ l := by
  induction l with
  | nil => intro h; cases h
  | cons a l ih =>
    intro h
    rw [last] at h
    rcases hl : last p l with _ | w
    · rw [hl] at h
      by_cases ha : a.1 = p
      · rw [if_pos ha] at h
        cases h; subst ha
        exact List.mem_cons_self
      · rw [if_neg ha] at h; cases h
    · rw [hl] at h
      cases h
      exact List.mem_cons_of_mem _ (ih hl)

lemma make_ok {mu B rho comp : Val K} {unit dtype : String} {verbose : Bool} {o : Obj K} (hr : Number rho) (hc : Number comp) (h : make mu B rho comp unit dtype verbose = .ok o) :
    Fl unit o ∧ ∀ p : Prp, dictGet o p.attr = (last p (fromArgs [mu, B, rho, comp])).or (initial p) := by
  have hu : Known unit := by
    by_contra hu
    unfold make baseInit at h
    rw [then_error (then_error (then_error (setUnits_unknown hu _)))] at h
    cases h
  obtain ⟨o1, e1, p1, r1⟩ := base_pre (K := K) hu dtype verbose
  have p2 := p1.assigned (fromArgs [mu, B, rho, comp])
  have := setProps_eq p1 (mu := mu) (B := B) hr hc
  unfold make at h
  rw [then_ok e1] at h
  split_ifs at this
  · rw [this] at h
    cases h
    have own : ∀ p : Prp, dictGet (assigns unit (fromArgs [mu, B, rho, comp]) o1) p.attr = last p (fromArgs [mu, B, rho, comp]) := fun p => by rw [assigns_own, r1, Option.or_none]
    have hrho : dictGet (assigns unit (fromArgs [mu, B, rho, comp]) o1) "rho" = last .rho (fromArgs [mu, B, rho, comp]) := own .rho
    have hcomp : dictGet (assigns unit (fromArgs [mu, B, rho, comp]) o1) "comp" = last .comp (fromArgs [mu, B, rho, comp]) := own .comp
    have hd : ∀ p, (last p (fromArgs [mu, B, rho, comp] ++ defs (assigns unit (fromArgs [mu, B, rho, comp]) o1))) = (last p (fromArgs [mu, B, rho, comp])).or (initial p) := by
      intro p
      rw [last_append, defs, hrho, hcomp]
      cases p
      · split_ifs <;> simp [last, initial]
      · split_ifs <;> simp [last, initial]
      · rcases h1 : last Prp.rho (fromArgs [mu, B, rho, comp]) with _ | v
        · split_ifs <;> simp_all [last, initial]
        · split_ifs <;> simp_all [last, initial]
      · rcases h1 : last Prp.comp (fromArgs [mu, B, rho, comp]) with _ | v
        · split_ifs <;> simp_all [last, initial]
        · split_ifs <;> simp_all [last, initial]
    have fin : ∀ p : Prp, dictGet (assigns unit (fromArgs [mu, B, rho, comp] ++ defs (assigns unit (fromArgs [mu, B, rho, comp]) o1)) o1) p.attr =
        (last p (fromArgs [mu, B, rho, comp])).or (initial p) := fun p => by rw [assigns_own, hd, r1, Option.or_none]
    refine ⟨⟨p1.assigned _, ?_, ?_, assigns_g _ (.inr ?_)⟩, fin⟩
    · have := fin .rho
      rw [show Prp.rho.attr = "rho" from rfl] at this
      rw [this]
      cases last Prp.rho (fromArgs [mu, B, rho, comp]) <;> rfl
    · have := fin .comp
      rw [show Prp.comp.attr = "comp" from rfl] at this
      rw [this]
      cases last Prp.comp (fromArgs [mu, B, rho, comp]) <;> rfl
    · rcases hr with rfl | ⟨x, rfl⟩
      · refine ⟨0, List.mem_append_right _ ?_⟩
        have : last Prp.rho (fromArgs [mu, B, (Val.none : Val K), comp]) = none := by
          rcases hl : last Prp.rho (fromArgs [mu, B, (Val.none : Val K), comp]) with _ | v
          · rfl
          · have := last_mem hl
            rw [fromArgs_opt] at this
            by_cases k1 : mu = .none <;> by_cases k2 : B = .none <;> by_cases k3 : comp = .none <;> simp [opt, k1, k2, k3] at this
        rw [defs, hrho, this]
        simp
      · exact ⟨x, List.mem_append_left _ (by rw [fromArgs_opt]; simp [opt])⟩
  · rw [this] at h; cases h

/-! ### the order of assignments -/

lemma get_assigns_of (u : String) (l : List (Prp × Val K)) {o o' : Obj K} (h : ∀ n, dictGet o n = dictGet o' n) (n : String) : dictGet (assigns u l o) n = dictGet (assigns u l o') n := by
  induction l generalizing o o' with
  | nil => exact h n
  | cons e l ih => exact ih fun n => get_puts_of _ (h n)

lemma assigns_perm (u : String) {l l' : List (Prp × Val K)} (hp : l.Perm l') (hn : (l.map (·.1)).Nodup) (o : Obj K) (n : String) : dictGet (assigns u l o) n = dictGet (assigns u l' o) n := by
  induction hp generalizing o n with
  | nil => rfl
  | cons e _ ih => exact ih (List.nodup_cons.1 hn).2 _ n
  | swap e e' l =>
    refine get_assigns_of u l (fun n => ?_) n
    have hne : e'.1 ≠ e.1 := by
      simp only [List.map_cons, List.nodup_cons, List.mem_cons, not_or] at hn
      exact hn.1.1
    exact get_puts_comm _ _ _ (fun n h1 h2 => group_disjoint hne n (ups_group _ _ _ _ h1) (ups_group _ _ _ _ h2)) n
  | trans h1 _ ih1 ih2 => exact (ih1 hn o n).trans (ih2 ((h1.map _).nodup_iff.1 hn) o n)

/-- The call of one setter. -/
def single (e : Prp × Val K) : Call K := .call e.1.setter [e.2]

lemma single_plain (e : Prp × Val K) : Plain (single e) ∧ gives (single e) = [e] ∧ ∀ l, single e ≠ .call "allow_synonyms" l := by
  obtain ⟨p, v⟩ := e
  cases p <;> exact ⟨⟨by simp [Prp.setter], by simp [Prp.setter]⟩, rfl, by simp [single, Prp.setter]⟩

lemma Fl.singles {u : String} (l : List (Prp × Val K)) {o : Obj K} (h : Fl u o) : after cls o (l.map single) = assigns u l o := by
  induction l generalizing o with
  | nil => rfl
  | cons e l ih =>
    obtain ⟨s1, s2, s3⟩ := single_plain e
    rcases h.calls s1 with ⟨l', H, -⟩ | ⟨u', H, -⟩ | ⟨H, -⟩
    · exact absurd H (s3 l')
    · cases H
    · rw [s2] at H
      show after cls ((single e).act cls o).1 (l.map single) = _
      rw [H]
      exact ih (h.upped e.1 e.2)

lemma zip_sub {α β : Type} : ∀ (l : List α) (l' : List β), List.Sublist ((l.zip l').map (·.1)) l
  | [], _ => by simp
  | _ :: _, [] => by simp
  | a :: l, _ :: l' => (zip_sub l l').cons_cons a

lemma fromArgs_nodup {args : List (Val K)} : ((fromArgs args).map (·.1)).Nodup := by
  have h1 : ((List.zip [Prp.mu, .B, .rho, .comp] args).map (·.1)).Nodup := List.Nodup.sublist (zip_sub _ _) (by decide)
  exact h1.sublist (List.filter_sublist.map _)

/-! ### synonyms -/

/-- Long names of attributes, and the short ones. -/
def longAttrs : List (String × String) := [("viscosity", "mu"), ("density", "rho"), ("gravity", "g"), ("formation_volume_factor", "B"), ("FVF", "B")]

lemma copy_some {new old : String} {o : Obj K} {v : Val K} (h : dictGet o old = some v) : copy new old o = (dictSet o new v, .ok ()) := by unfold copy; rw [h]; rfl

lemma copy_none {new old : String} {o : Obj K} (h : dictGet o old = none) : copy new old o = (o, .error .attribute) := by unfold copy; rw [h]

lemma each_nil (o : Obj K) : each [] o = (o, .ok ()) := rfl

lemma each_put (n : String) (v : Val K) (l : List (Act K)) (o : Obj K) : each (put n v :: l) o = each l (dictSet o n v) := then_ok (a := put n v) rfl

lemma each_copy {new old : String} {l : List (Act K)} {o : Obj K} {v : Val K} (h : dictGet o old = some v) : each (copy new old :: l) o = each l (dictSet o new v) := then_ok (copy_some h)

lemma each_copy_none {new old : String} {l : List (Act K)} {o : Obj K} (h : dictGet o old = none) : each (copy new old :: l) o = (o, .error .attribute) := then_error (copy_none h)

lemma longAttrs_group : ∀ e ∈ longAttrs, ∀ p, e.1 ∉ group p := by
  intro e he p
  simp only [longAttrs, List.mem_cons, List.not_mem_nil, or_false] at he
  rcases he with rfl | rfl | rfl | rfl | rfl <;> cases p <;> decide

lemma synonyms_eq {o : Obj K} {r g : Val K} (hr : dictGet o "rho" = some r) (hg : dictGet o "g" = some g) :
    (∀ m b, dictGet o "mu" = some m → dictGet o "B" = some b → allowSynonyms o = (puts [("set_viscosity", .method "set_mu"), ("viscosity", m), ("set_density", .method "set_rho"), ("density", r),
      ("gravity", g), ("set_formation_volume_factor", .method "set_B"), ("set_FVF", .method "set_B"), ("formation_volume_factor", b), ("FVF", b), ("set_properties", .method "set_props")] o, .ok ())) ∧
    (dictGet o "mu" = none ∨ dictGet o "B" = none → (allowSynonyms o).2 = .error .attribute) := by
  refine ⟨fun m b hm hb => ?_, ?_⟩
  · unfold allowSynonyms
    rw [each_put, each_copy (v := m) (by simp [dictGet_set, hm]), each_put, each_copy (v := r) (by simp [dictGet_set, hr]),
      each_copy (v := g) (by simp [dictGet_set, hg]), each_put, each_put, each_copy (v := b) (by simp [dictGet_set, hb]),
      each_copy (v := b) (by simp [dictGet_set, hb]), each_put]
    simp only [puts_cons, puts_nil, each_nil]
  · intro h
    unfold allowSynonyms
    rcases hm : dictGet o "mu" with _ | m
    · rw [each_put, each_copy_none (by simp [dictGet_set, hm])]
    · have hb := h.resolve_left (by simp [hm])
      rw [each_put, each_copy (v := m) (by simp [dictGet_set, hm]), each_put, each_copy (v := r) (by simp [dictGet_set, hr]),
        each_copy (v := g) (by simp [dictGet_set, hg]), each_put, each_put, each_copy_none (by simp [dictGet_set, hb])]

lemma Fl.lookup_rho {u : String} {o : Obj K} (h : Fl u o) : ∃ r, dictGet o "rho" = some r := Option.isSome_iff_exists.1 h.rho
lemma Fl.lookup_g {u : String} {o : Obj K} (h : Fl u o) : ∃ r, dictGet o "g" = some r := Option.isSome_iff_exists.1 h.g

lemma Fl.synonyms_ok {u : String} {o : Obj K} (h : Fl u o) :
    (((allowSynonyms o).2 = .ok ()) ↔ dictGet o "mu" ≠ none ∧ dictGet o "B" ≠ none) ∧
    ((allowSynonyms o).2 = .ok () → (∀ e ∈ longAttrs, dictGet (allowSynonyms o).1 e.1 = dictGet (allowSynonyms o).1 e.2) ∧ ∀ e ∈ long, dictGet (allowSynonyms o).1 e.1 = some (.method e.2)) := by
  obtain ⟨r, hr⟩ := h.lookup_rho
  obtain ⟨g, hg⟩ := h.lookup_g
  obtain ⟨k1, k2⟩ := synonyms_eq hr hg
  by_cases hm : dictGet o "mu" = none
  · have := k2 (.inl hm)
    rw [this]; simp [hm]
  by_cases hb : dictGet o "B" = none
  · have := k2 (.inr hb)
    rw [this]; simp [hb]
  obtain ⟨m, hm'⟩ := Option.ne_none_iff_exists'.1 hm
  obtain ⟨b, hb'⟩ := Option.ne_none_iff_exists'.1 hb
  rw [k1 m b hm' hb']
  refine ⟨by simp [hm, hb], fun _ => ⟨fun e he => ?_, fun e he => ?_⟩⟩
  · simp only [longAttrs, List.mem_cons, List.not_mem_nil, or_false] at he
    rcases he with rfl | rfl | rfl | rfl | rfl <;> simp [puts, dictGet_set, hm', hb', hr, hg]
  · simp only [long, List.mem_cons, List.not_mem_nil, or_false] at he
    rcases he with rfl | rfl | rfl | rfl | rfl <;> simp [puts, dictGet_set]

/-- A long name of a method, once it is there, stays. -/
lemma Fl.method_stays {u : String} {o : Obj K} (h : Fl u o) {c : Call K} (hc : Plain c) {e : String × String} (he : e ∈ long) (hm : dictGet o e.1 = some (.method e.2)) :
    dictGet (c.act cls o).1 e.1 = some (.method e.2) := by
  rcases h.calls hc with ⟨l, rfl, H | ⟨-, H⟩, hs⟩ | ⟨u', rfl, hs⟩ | ⟨H, h2, -⟩
  · rw [H]; exact hm
  · rw [H]
    rcases synonyms_writes o e.1 with H | ⟨v, h1, h2⟩
    · rw [H]; exact hm
    · rw [h2, h1.2 e he rfl]
  · show dictGet (setUnits u' o).1 e.1 = _
    by_cases hu : Known u'
    · rw [setUnits_known hu, get_puts_not]
      · exact hm
      · show e.1 ∉ ["unit", "units", "factors"]
        simp only [long, List.mem_cons, List.not_mem_nil, or_false] at he
        rcases he with rfl | rfl | rfl | rfl | rfl <;> decide
    · rw [setUnits_unknown hu]; exact hm
  · rw [H]
    clear H
    generalize gives c = l
    induction l generalizing o with
    | nil => exact hm
    | cons a l ih =>
      refine ih (h.upped a.1 a.2) ?_
      rw [ups_not fun H => (group_names _ _ H).2 (List.mem_map.2 ⟨e, he, rfl⟩)]
      exact hm

/-- Only `allow_synonyms` assigns to the long names of attributes. -/
lemma Fl.long_stays {u : String} {o : Obj K} (h : Fl u o) {c : Call K} (hc : Plain c) (hs : ∀ l, c ≠ .call "allow_synonyms" l) {e : String × String} (he : e ∈ longAttrs) :
    dictGet (c.act cls o).1 e.1 = dictGet o e.1 := by
  rcases h.calls hc with ⟨l, rfl, -⟩ | ⟨u', rfl, -⟩ | ⟨H, h2, -⟩
  · exact absurd rfl (hs l)
  · show dictGet (setUnits u' o).1 e.1 = _
    by_cases hu : Known u'
    · rw [setUnits_known hu, get_puts_not]
      show e.1 ∉ ["unit", "units", "factors"]
      simp only [longAttrs, List.mem_cons, List.not_mem_nil, or_false] at he
      rcases he with rfl | rfl | rfl | rfl | rfl <;> decide
    · rw [setUnits_unknown hu]
  · rw [H]
    clear H
    generalize gives c = l
    induction l generalizing o with
    | nil => rfl
    | cons a l ih =>
      exact (ih (h.upped a.1 a.2)).trans (ups_not (longAttrs_group e he a.1) _)

/-! ## C83 -/

/-- The fluids a user can have: constructed with numbers or `None`, then any calls by short names, returning or raising. -/
def Reached (o : Obj K) : Prop := ∃ mu B rho comp unit dtype verbose o0 cs, Number rho ∧ Number comp ∧ make mu B rho comp unit dtype verbose = .ok o0 ∧
  (∀ c ∈ cs, Plain c) ∧ o = after cls o0 cs

lemma Reached.fl {o : Obj K} (h : Reached o) : ∃ u, Fl u o := by
  obtain ⟨mu, B, rho, comp, unit, dtype, verbose, o0, cs, hr, hc, hm, hcs, rfl⟩ := h
  obtain ⟨u, h, -⟩ := (make_ok hr hc hm).1.afters hcs
  exact ⟨u, h⟩

/-- **C83, fluids: values.** After the constructor and any sequence of calls, also calls that raise, `fluid.mu`, `fluid.B`, `fluid.rho` and `fluid.comp` are the last values given for them; without one, density
and compressibility are 0 and the others do not exist. -/
theorem C83_fluid_values {mu B rho comp : Val K} {unit dtype : String} {verbose : Bool} {o : Obj K} (hr : Number rho) (hc : Number comp)
    (h : make mu B rho comp unit dtype verbose = .ok o) {cs : List (Call K)} (hcs : ∀ c ∈ cs, Plain c) (p : Prp) :
    dictGet (after cls o cs) p.attr = (last p (fromArgs [mu, B, rho, comp] ++ cs.flatMap gives)).or (initial p) := by
  obtain ⟨h1, h2⟩ := make_ok hr hc h
  obtain ⟨u, -, -, h3⟩ := h1.afters hcs
  rw [h3 p, h2, last_append, Option.or_assoc]

/-- **C83, fluids: derived values.** The type always belongs to the compressibility. -/
theorem C83_fluid_type {o : Obj K} (h : Reached o) {x : K} (hx : dictGet o "comp" = some (.num x)) :
    dictGet o "comp_type" = some (if x = 0 then .str "incompressible" else if 0 < x then .str "compressible" else .none) := by
  obtain ⟨u, h⟩ := h.fl
  exact h.kind x hx

/-- The gravity term belongs to the density. -/
def Grav (u : String) (o : Obj K) : Prop := ∀ x, dictGet o "rho" = some (.num x) → dictGet o "g" = some (.num (gravityOf u * x))

lemma Grav.assigned {u : String} (l : List (Prp × Val K)) {o : Obj K} (h : Grav u o) : Grav u (assigns u l o) := by
  induction l generalizing o with
  | nil => exact h
  | cons e l ih =>
    refine ih fun x hx => ?_
    obtain ⟨p, v⟩ := e
    by_cases hp : p = .rho
    · subst hp
      have := ups_own u .rho v o
      rw [show Prp.attr .rho = "rho" from rfl] at this
      dsimp only at hx
      rw [hx] at this
      cases this
      simp [ups, puts, dictGet_set]
    · have h1 : "rho" ∉ group p := by cases p <;> simp [group] at hp ⊢
      have h2 : "g" ∉ group p := by cases p <;> simp [group] at hp ⊢
      dsimp only at hx ⊢
      rw [ups_not h1] at hx
      rw [ups_not h2]
      exact h x hx

lemma Grav.afters {u : String} {o : Obj K} (h : Fl u o) (hg : Grav u o) {cs : List (Call K)} (hcs : ∀ c ∈ cs, Plain c) (hu : ∀ c ∈ cs, ∀ s, c = .units s → ¬ Known s) : Grav u (after cls o cs) := by
  induction cs generalizing o with
  | nil => exact hg
  | cons c cs ih =>
    have key : Fl u (c.act cls o).1 ∧ Grav u (c.act cls o).1 := by
      rcases h.calls (hcs c (by simp)) with ⟨l, rfl, H | ⟨-, H⟩, hs⟩ | ⟨u', rfl, hs⟩ | ⟨H, h2, -⟩
      · rw [H]; exact ⟨h, hg⟩
      · rw [H]
        refine ⟨h.synonyms, fun x hx => ?_⟩
        rw [syn_kept _ (by decide)] at hx
        rw [syn_kept _ (by decide)]
        exact hg x hx
      · show Fl u (setUnits u' o).1 ∧ Grav u (setUnits u' o).1
        rw [setUnits_unknown (hu _ (by simp) u' rfl)]
        exact ⟨h, hg⟩
      · rw [H]
        exact ⟨h.assigned _, hg.assigned _⟩
    exact ih key.1 key.2 (fun c hc => hcs c (by simp [hc])) fun c hc => hu c (by simp [hc])

lemma make_grav {mu B rho comp : Val K} {unit dtype : String} {verbose : Bool} {o : Obj K} (hr : Number rho) (hc : Number comp) (h : make mu B rho comp unit dtype verbose = .ok o) : Grav unit o := by
  have hu := (make_ok hr hc h).1.known
  obtain ⟨o1, e1, p1, r1⟩ := base_pre (K := K) hu dtype verbose
  have := setProps_eq p1 (mu := mu) (B := B) hr hc
  unfold make at h
  rw [then_ok e1] at h
  split_ifs at this
  · rw [this] at h
    cases h
    refine Grav.assigned _ fun x hx => ?_
    rw [show "rho" = Prp.rho.attr from rfl, r1] at hx
    cases hx
  · rw [this] at h; cases h

/-- **C83, fluids: the gravity term** belongs to the density as long as the units are not changed; else see C25. -/
theorem C83_fluid_gravity_partial {mu B rho comp : Val K} {unit dtype : String} {verbose : Bool} {o : Obj K} (hr : Number rho) (hc : Number comp)
    (h : make mu B rho comp unit dtype verbose = .ok o) {cs : List (Call K)} (hcs : ∀ c ∈ cs, Plain c) (hu : ∀ c ∈ cs, ∀ s, c = .units s → ¬ Known s) {x : K}
    (hx : dictGet (after cls o cs) "rho" = some (.num x)) : dictGet (after cls o cs) "g" = some (.num (gravityOf unit * x)) :=
  Grav.afters (make_ok hr hc h).1 (make_grav hr hc h) hcs hu x hx

/-- **C83, fluids: several properties at once.** `set_props` does the same as one call of a setter for each property given, in any order: all attributes are the same. -/
theorem C83_fluid_props {o : Obj K} (h : Reached o) {args : List (Val K)} (hl : args.length ≤ 4) (hn : ∀ v ∈ args, Number v) {l : List (Prp × Val K)} (hp : l.Perm (fromArgs args)) (n : String) :
    dictGet (after cls o [.call "set_props" args]) n = dictGet (after cls o (l.map fun e => .call e.1.setter [e.2])) n := by
  obtain ⟨u, h⟩ := h.fl
  have h1 : after cls o [.call "set_props" args] = assigns u (fromArgs args) o := by
    have hc : Plain (.call "set_props" args) := ⟨by simp, fun _ => hn⟩
    rcases h.calls hc with ⟨l', H, -⟩ | ⟨u', H, -⟩ | ⟨H, -⟩
    · simp at H
    · cases H
    · refine Eq.trans H ?_
      rw [show gives (.call "set_props" args) = if args.length ≤ 4 then fromArgs args else [] from rfl, if_pos hl]
  rw [h1, show (l.map fun e : Prp × Val K => Call.call e.1.setter [e.2]) = l.map single from rfl, h.singles l]
  exact (assigns_perm u hp ((hp.map _).nodup_iff.2 fromArgs_nodup) o n).symm

/-- **C83, fluids: long names, partial.** `allow_synonyms()` returns exactly when viscosity and formation volume factor were given. Then every long name shows the value of its short name; and from then on, whatever
is called, a method called by its long name does exactly what it does by its short name. Missing: a value set later, which the long name does not show (`C83_fluid_long_fails`), and
`compressibility` (`C83_fluid_compressibility_fails`). -/
theorem C83_fluid_long_partial {o : Obj K} (h : Reached o) :
    ((invoke cls "allow_synonyms" [] o).2 = .ok () ↔ dictGet o "mu" ≠ none ∧ dictGet o "B" ≠ none) ∧
    ((invoke cls "allow_synonyms" [] o).2 = .ok () →
      (∀ e ∈ [("viscosity", "mu"), ("density", "rho"), ("gravity", "g"), ("formation_volume_factor", "B"), ("FVF", "B")],
        dictGet (after cls o [.call "allow_synonyms" []]) e.1 = dictGet (after cls o [.call "allow_synonyms" []]) e.2) ∧
      ∀ cs : List (Call K), (∀ c ∈ cs, Plain c) → ∀ e ∈ [("set_viscosity", "set_mu"), ("set_density", "set_rho"), ("set_formation_volume_factor", "set_B"), ("set_FVF", "set_B"), ("set_properties", "set_props")],
        ∀ args, invoke cls e.1 args (after cls o (.call "allow_synonyms" [] :: cs)) = invoke cls e.2 args (after cls o (.call "allow_synonyms" [] :: cs))) := by
  obtain ⟨u, h⟩ := h.fl
  have e1 : invoke cls "allow_synonyms" [] o = allowSynonyms o := by rw [invoke_class h.toPre (by decide) rfl, if_pos rfl]
  have e2 : ∀ cs, after cls o (.call "allow_synonyms" [] :: cs) = after cls (allowSynonyms o).1 cs := fun cs => by
    show after cls (invoke cls "allow_synonyms" [] o).1 cs = _
    rw [e1]
  obtain ⟨s1, s2⟩ := h.synonyms_ok
  rw [e1]
  refine ⟨s1, fun hok => ⟨fun e he => ?_, fun cs hcs e he args => ?_⟩⟩
  · rw [e2]
    exact (s2 hok).1 e he
  · rw [e2]
    have key : ∀ (cs : List (Call K)) (u : String) (o : Obj K), Fl u o → (∀ c ∈ cs, Plain c) → dictGet o e.1 = some (.method e.2) →
        (∃ u, Fl u (after cls o cs)) ∧ dictGet (after cls o cs) e.1 = some (.method e.2) := by
      intro cs
      induction cs with
      | nil => intro u o h _ hm; exact ⟨⟨u, h⟩, hm⟩
      | cons c cs ih =>
        intro u o h hcs hm
        obtain ⟨u1, h1, -⟩ := h.step (hcs c (by simp))
        exact ih u1 _ h1 (fun c hc => hcs c (by simp [hc])) (h.method_stays (hcs c (by simp)) he hm)
    obtain ⟨⟨u2, h2⟩, hm⟩ := key cs u _ h.synonyms hcs ((s2 hok).2 e he)
    unfold invoke
    have hne : e.2 ∉ names := by
      simp only [List.mem_cons, List.not_mem_nil, or_false] at he
      rcases he with rfl | rfl | rfl | rfl | rfl <;> decide
    rw [hm, h2.only _ hne]

/-- **C83 fails** for long names of values: after `allow_synonyms()`, a new viscosity is not shown by `fluid.viscosity`, whatever the fluid. -/
theorem C83_fluid_long_fails {o : Obj K} (h : Reached o) (hs : (invoke cls "allow_synonyms" [] o).2 = .ok ()) {v : Val K} (hv : dictGet o "mu" ≠ some v) :
    dictGet (after cls o [.call "allow_synonyms" [], .call "set_mu" [v]]) "mu" = some v ∧
    dictGet (after cls o [.call "allow_synonyms" [], .call "set_mu" [v]]) "viscosity" = dictGet o "mu" ∧
    dictGet (after cls o [.call "allow_synonyms" [], .call "set_mu" [v]]) "viscosity" ≠ dictGet (after cls o [.call "allow_synonyms" [], .call "set_mu" [v]]) "mu" := by
  obtain ⟨u, h⟩ := h.fl
  have e1 : invoke cls "allow_synonyms" [] o = allowSynonyms o := by rw [invoke_class h.toPre (by decide) rfl, if_pos rfl]
  rw [e1] at hs
  have e2 : after cls o [.call "allow_synonyms" [], .call "set_mu" [v]] = dictSet (allowSynonyms o).1 "mu" v := by
    show (invoke cls "set_mu" [v] (invoke cls "allow_synonyms" [] o).1).1 = _
    rw [e1, invoke_class h.synonyms.toPre (by decide) rfl]; rfl
  have h1 := (h.synonyms_ok.2 hs).1 ("viscosity", "mu") (by simp [longAttrs])
  rw [e2, dictGet_set, dictGet_set, if_pos rfl, if_neg (by decide), h1, syn_kept _ (by decide)]
  exact ⟨rfl, rfl, hv⟩

/-- **C83 fails** for compressibility: a fluid never has a long name for it, although its base class defines them. -/
theorem C83_fluid_compressibility_fails {o : Obj K} (h : Reached o) :
    dictGet o "compressibility" = none ∧ dictGet o "compressibility_type" = none ∧ ∀ args, invoke cls "set_compressibility" args o = (o, .error .attribute) := by
  obtain ⟨u, h⟩ := h.fl
  refine ⟨h.only _ (by decide), h.only _ (by decide), fun args => ?_⟩
  unfold invoke
  rw [h.only _ (by decide)]
  rfl

/-! ### The hypotheses are met -/

/-- `SinglePhase(mu=1/2, B=1, rho=50)`. -/
def exFluid : Except Err (Obj ℚ) := make (.num (1/2)) (.num 1) (.num 50) .none "field" "double" false

/-- Setters, `set_props`, a refused compressibility, an unknown unit system. -/
def exCalls : List (Call ℚ) := [.call "set_mu" [.num 2], .call "set_props" [.none, .num 3, .none, .num (-1)], .units "imperial", .call "set_comp" [.num 4]]

/-- Two values of each. -/
example : ∃ o, exFluid = .ok o ∧ dictGet (after cls o exCalls) "mu" = some (.num 2) ∧ dictGet (after cls o exCalls) "B" = some (.num 3) ∧ dictGet (after cls o exCalls) "rho" = some (.num 50) ∧
    dictGet (after cls o exCalls) "comp" = some (.num 4) ∧ dictGet (after cls o exCalls) "g" = some (.num (gravityOf "field" * 50)) := by
  have hp : ∀ c ∈ exCalls, Plain c := by
    intro c hc
    simp only [exCalls, List.mem_cons, List.not_mem_nil, or_false] at hc
    rcases hc with rfl | rfl | rfl | rfl
    · exact ⟨by simp, by simp⟩
    · refine ⟨by simp, fun _ v hv => ?_⟩
      simp only [List.mem_cons, List.not_mem_nil, or_false] at hv
      rcases hv with rfl | rfl | rfl | rfl
      · exact .inl rfl
      · exact .inr ⟨_, rfl⟩
      · exact .inl rfl
      · exact .inr ⟨_, rfl⟩
    · trivial
    · exact ⟨by simp, by simp⟩
  have hm : ∃ o, exFluid = .ok o := by
    have : (match exFluid with | .ok _ => true | .error _ => false) = true := by decide +kernel
    rcases h : exFluid with x | o
    · rw [h] at this; cases this
    · exact ⟨o, rfl⟩
  obtain ⟨o, ho⟩ := hm
  have v := C83_fluid_values (.inr ⟨_, rfl⟩) (.inl rfl) ho hp
  have hrho : dictGet (after cls o exCalls) "rho" = some (.num 50) := (v .rho).trans (by decide +kernel)
  refine ⟨o, ho, (v .mu).trans (by decide +kernel), (v .B).trans (by decide +kernel), hrho, (v .comp).trans (by decide +kernel), ?_⟩
  refine C83_fluid_gravity_partial (.inr ⟨_, rfl⟩) (.inl rfl) ho hp (fun c hc s hs => ?_) hrho
  subst hs
  simp only [exCalls, List.mem_cons, List.not_mem_nil, or_false] at hc
  simp at hc
  subst hc
  simp [Known]

/-- A fluid with and one without a viscosity. -/
example : (∃ o : Obj ℚ, Reached o ∧ (invoke cls "allow_synonyms" [] o).2 = .ok () ∧ dictGet o "mu" ≠ some (.num 3)) ∧ ∃ o : Obj ℚ, Reached o ∧ (invoke cls "allow_synonyms" [] o).2 = .error .attribute := by
  have hm : ∃ o, exFluid = .ok o := by
    have : (match exFluid with | .ok _ => true | .error _ => false) = true := by decide +kernel
    rcases h : exFluid with x | o
    · rw [h] at this; cases this
    · exact ⟨o, rfl⟩
  have hm' : ∃ o, make (K := ℚ) .none .none .none .none "lab" "double" false = .ok o := by
    have : (match make (K := ℚ) .none .none .none .none "lab" "double" false with | .ok _ => true | .error _ => false) = true := by decide +kernel
    rcases h : make (K := ℚ) .none .none .none .none "lab" "double" false with x | o
    · rw [h] at this; cases this
    · exact ⟨o, rfl⟩
  obtain ⟨o, ho⟩ := hm
  obtain ⟨o', ho'⟩ := hm'
  have r : Reached o := ⟨_, _, _, _, _, _, _, o, [], .inr ⟨_, rfl⟩, .inl rfl, ho, by simp, rfl⟩
  have r' : Reached o' := ⟨_, _, _, _, _, _, _, o', [], .inl rfl, .inl rfl, ho', by simp, rfl⟩
  have v := C83_fluid_values (.inr ⟨_, rfl⟩) (.inl rfl) ho (cs := []) (by simp)
  have v' := C83_fluid_values (.inl rfl) (.inl rfl) ho' (cs := []) (by simp) .mu
  have h1 : dictGet o "mu" = some (.num (1/2)) := (v .mu).trans (by decide +kernel)
  have h2 : dictGet o "B" = some (.num 1) := (v .B).trans (by decide +kernel)
  have h3 : dictGet o' "mu" = none := v'.trans (by decide +kernel)
  refine ⟨⟨o, r, ((C83_fluid_long_partial r).1).2 ⟨by rw [h1]; simp, by rw [h2]; simp⟩, by rw [h1]; decide +kernel⟩, o', r', ?_⟩
  obtain ⟨u, f⟩ := r'.fl
  obtain ⟨x, hx⟩ := f.lookup_rho
  obtain ⟨y, hy⟩ := f.lookup_g
  rw [invoke_class f.toPre (by decide) rfl, if_pos rfl]
  exact (synonyms_eq hx hy).2 (.inl h3)

end Fluid
end RF.Objects
