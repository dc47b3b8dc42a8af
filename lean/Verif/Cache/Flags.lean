import Verif.Cache.Stale
import Verif.Trans.Lemmas2
/-!
# The classification flags of a grid (C77)

`is_homogeneous`, `is_heterogeneous`, `is_isotropic`, `is_anisotropic`, `is_regular`, `is_irregular` (regular_cartesian.py
l.2663-2769). Each of the six is a property over its own `lru_cache(maxsize=1)`, which belongs to the class.
-/
set_option linter.unusedSimpArgs false
set_option linter.unusedSectionVars false
namespace RF
open Spec Dims

/-- The three pairs of flags. (regular_cartesian.py l.2663-2769) -/
inductive FKind where
  /-- `is_homogeneous` / `is_heterogeneous` -/ | homog
  /-- `is_isotropic` / `is_anisotropic` -/ | iso
  /-- `is_regular` / `is_irregular` -/ | reg
  deriving DecidableEq, Repr

/-- The six caches: for each pair one for the first flag and one for the second. (regular_cartesian.py l.2662, 2683, 2698, 2722, 2737, 2757) -/
structure FCaches where
  pos : FKind → List (ℕ × Bool)
  neg : FKind → List (ℕ × Bool)

/-- Nothing cached yet. (state after import of regular_cartesian.py) -/
def FCaches.empty : FCaches := ⟨fun _ => [], fun _ => []⟩

section
variable {K : Type} [Field K] [DecidableEq K]

/-- The body of the first flag of a pair (l.2675-2681, 2711-2717, 2747-2752): porosity, the permeabilities that are set, or
the three sizes are constant over the interior. -/
def GObj.flag (x : GObj K) : FKind → Except Err Bool
  | .homog => constCheck x.g ([x.p .phi].filterMap id)
  | .iso => x.isIsotropic
  | .reg => isRegular x.g x.q

/-- The first flag of a pair through its cache. (regular_cartesian.py l.2662-2681, 2698-2720, 2737-2755) -/
def askPos (w : ℕ → GObj K) (f : FKind) (o : ℕ) (c : FCaches) : Except Err Bool × FCaches :=
  let r := lruCall (some 1) (fun k => (w k).flag f) (c.pos f) o
  (r.1, { c with pos := Function.update c.pos f r.2 })

/-- The second flag through its cache: a miss asks the first flag through its own cache and negates (l.2683-2696,
2719-2732, 2754-2769). -/
def askNeg (w : ℕ → GObj K) (f : FKind) (o : ℕ) (c : FCaches) : Except Err Bool × FCaches :=
  match (c.neg f).lookup o with
  | some v => (.ok v, { c with neg := Function.update c.neg f ((o, v) :: (c.neg f).filter (fun e => e.1 ≠ o)) })
  | none =>
    match askPos w f o c with
    | (.ok v, c') => (.ok !v, { c' with neg := Function.update c'.neg f (trunc (some 1) ((o, !v) :: c'.neg f)) })
    | (.error e, c') => (.error e, c')

/-- What a user does: set a property for all cells or for one, or read one of the flags; `second` selects the second flag of
the pair. (regular_cartesian.py l.2359, 2663-2769) -/
inductive FEvent (K : Type) where
  | setAll (o : ℕ) (n : PName) (v : PVal K)
  | setCell (o : ℕ) (n : PName) (v : K) (id : Option ℤ) (co : Option (ℤ × ℤ × ℤ))
  | ask (o : ℕ) (f : FKind) (second : Bool)

/-- One event: the answer of a question, the objects and the caches. `set_prop` clears no cache (l.2394-2421). -/
def fstep (w : ℕ → GObj K) (c : FCaches) : FEvent K → Option (Except Err Bool) × (ℕ → GObj K) × FCaches
  | .setAll o n v => (none, putProps w o (setPropAll (w o).g (w o).p n v), c)
  | .setCell o n v id co => (none, putProps w o (setPropCell (w o).g (w o).p n v id co), c)
  | .ask o f false => let r := askPos w f o c; (some r.1, w, r.2)
  | .ask o f true => let r := askNeg w f o c; (some r.1, w, r.2)

/-- A history: the answers in order and the final state. (no line of the code: a sequence of calls) -/
def frun : (ℕ → GObj K) → FCaches → List (FEvent K) → List (Option (Except Err Bool)) × (ℕ → GObj K) × FCaches
  | w, c, [] => ([], w, c)
  | w, c, e :: es =>
    let r := fstep w c e
    let s := frun r.2.1 r.2.2 es
    (r.1 :: s.1, s.2)

/-! ## Specification -/

/-- The value of a property in a cell. -/
def propAt (x : GObj K) (n : PName) (c : Cell) : K := ((x.p n).getD []).getD (cellNumber x.g.nx x.g.ny c) 0

/-- The properties a flag is about. -/
def FKind.about : FKind → List PName
  | .homog => [.phi]
  | .iso => [.kx, .ky, .kz]
  | .reg => []

/-- The grid was built with these sizes, and every property that is set has one value per cell. -/
structure GObj.Sized (x : GObj K) (s : Sizes K) : Prop where
  built : Geom.calc x.g s.x s.y s.z = .ok x.q
  props : ∀ n l, x.p n = some l → l.length = x.g.getN true

/-- What the first flag of a pair claims: every property it is about, if set, has the same value in all interior cells; for
`is_regular` the three sizes of all interior cells agree. -/
def FlagSpec (x : GObj K) (s : Sizes K) (f : FKind) : Prop :=
  (∀ n ∈ f.about, x.p n ≠ none → ∀ c c', Interior x.g.nx x.g.ny x.g.nz c → Interior x.g.nx x.g.ny x.g.nz c' →
    propAt x n c = propAt x n c') ∧
  (f = .reg → ∀ c c', Interior x.g.nx x.g.ny x.g.nz c → Interior x.g.nx x.g.ny x.g.nz c' →
    size s.x c.1 = size s.x c'.1 ∧ size s.y c.2.1 = size s.y c'.2.1 ∧ size s.z c.2.2 = size s.z c'.2.2)

/-- The stored values after an event: caches play no part. -/
def fworld (w : ℕ → GObj K) : FEvent K → ℕ → GObj K
  | .setAll o n v => putProps w o (setPropAll (w o).g (w o).p n v)
  | .setCell o n v id co => putProps w o (setPropCell (w o).g (w o).p n v id co)
  | .ask _ _ _ => w

/-- The stored values after a history. -/
def fworlds (w : ℕ → GObj K) (es : List (FEvent K)) : ℕ → GObj K := es.foldl fworld w

/-- The event asks a flag of this pair of this grid. -/
def FEvent.asks (o : ℕ) (f : FKind) : FEvent K → Prop
  | .ask o' f' _ => o' = o ∧ f' = f
  | _ => False
/-- The event sets a property of this grid that the flag is about. -/
def FEvent.sets (o : ℕ) (f : FKind) : FEvent K → Prop
  | .setAll o' n _ => o' = o ∧ n ∈ f.about
  | .setCell o' n _ _ _ => o' = o ∧ n ∈ f.about
  | .ask _ _ _ => False

/-! ## What a flag says when it is computed -/

lemma GObj.Sized.geom {x : GObj K} {s : Sizes K} (h : x.Sized s) : GeomOf x.g s x.q := by
  obtain ⟨hx, hy, hz⟩ := calc_inv x.g s x.q h.built
  obtain ⟨q, h1, h2⟩ := calc_ok x.g s hx hy hz
  rw [h.built] at h1
  cases h1; exact h2

lemma prop_list {x : GObj K} {n : PName} {l : List K} (h : x.p n = some l) (hl : l.length = x.g.getN true) :
    l = (List.range (x.g.getN true)).map fun id => propAt x n (x.g.dec id) := by
  have : Inhabited K := ⟨0⟩
  refine (list_eq_range (0 : K) l).trans ?_
  rw [hl]
  refine List.map_congr_left fun id hid => ?_
  have e : cellNumber x.g.nx x.g.ny (x.g.dec id) = id := x.g.num_dec id
  simp only [propAt, h, Option.getD_some, e]

lemma props_check {x : GObj K} (hx : ∀ n l, x.p n = some l → l.length = x.g.getN true) (ns : List PName) :
    ∃ v, constCheck x.g ((ns.map x.p).filterMap id) = .ok v ∧ (v = true ↔ ∀ n ∈ ns, x.p n ≠ none → ∀ c c',
      Interior x.g.nx x.g.ny x.g.nz c → Interior x.g.nx x.g.ny x.g.nz c' → propAt x n c = propAt x n c') := by
  have key : (ns.map x.p).filterMap id = (((ns.filter fun n => (x.p n).isSome).map fun n => propAt x n).map
        fun f => (List.range (x.g.getN true)).map fun id => f (x.g.dec id)) := by
    induction ns with
    | nil => rfl
    | cons n t ih =>
      cases e : x.p n with
      | none => simpa [List.filter_cons, e] using ih
      | some l =>
        simp only [List.map_cons, List.filter_cons, e, Option.isSome_some, if_true, List.filterMap_cons, id]
        rw [← prop_list e (hx n l e), ← ih]
        rfl
  obtain ⟨v, h1, h2⟩ := constCheck_eq x.g ((ns.filter fun n => (x.p n).isSome).map fun n => propAt x n)
  refine ⟨v, by rw [key, h1], ?_⟩
  rw [h2]
  constructor
  · intro hh n hn hs
    refine hh _ (List.mem_map.2 ⟨n, List.mem_filter.2 ⟨hn, ?_⟩, rfl⟩)
    cases e : x.p n
    · exact absurd e hs
    · rfl
  · intro hh f hf
    obtain ⟨n, hn, rfl⟩ := List.mem_map.1 hf
    obtain ⟨h3, h4⟩ := List.mem_filter.1 hn
    refine hh n h3 fun e => ?_
    simp [e] at h4

/-- **C77.** On every grid with sized properties, computing the first flag of a pair succeeds, and it is true exactly if what
it is about is constant over the interior. -/
theorem C77_meaning {x : GObj K} {s : Sizes K} (hx : x.Sized s) (f : FKind) :
    ∃ v, x.flag f = .ok v ∧ (v = true ↔ FlagSpec x s f) := by
  cases f with
  | homog =>
    obtain ⟨v, h1, h2⟩ := props_check hx.props [.phi]
    exact ⟨v, h1, by rw [h2]; simp [FlagSpec, FKind.about]⟩
  | iso =>
    obtain ⟨v, h1, h2⟩ := props_check hx.props [.kx, .ky, .kz]
    exact ⟨v, h1, by rw [h2]; simp [FlagSpec, FKind.about]⟩
  | reg =>
    obtain ⟨v, h1, h2⟩ := constCheck_eq x.g [fun c => size s.x c.1, fun c => size s.y c.2.1, fun c => size s.z c.2.2]
    refine ⟨v, ?_, ?_⟩
    · show isRegular x.g x.q = _
      unfold isRegular
      rw [hx.geom.dx, hx.geom.dy, hx.geom.dz]; exact h1
    · rw [h2]
      simp only [FlagSpec, FKind.about, List.not_mem_nil, false_imp_iff, implies_true, true_and, forall_true_left,
        List.mem_cons, or_false, forall_eq_or_imp, forall_eq]
      exact ⟨fun h c c' hc hc' => ⟨h.1 c c' hc hc', h.2.1 c c' hc hc', h.2.2 c c' hc hc'⟩,
        fun h => ⟨fun c c' hc hc' => (h c c' hc hc').1, fun c c' hc hc' => (h c c' hc hc').2.1,
          fun c c' hc hc' => (h c c' hc hc').2.2⟩⟩

/-- **C77, boundary cells do not count.** Two grids of the same shape and sizes whose set properties agree in the interior
have the same flags. -/
theorem C77_interior_only {x y : GObj K} {s : Sizes K} (hx : x.Sized s) (hy : y.Sized s) (hg : y.g = x.g)
    (hn : ∀ n, x.p n = none ↔ y.p n = none)
    (h : ∀ n c, Interior x.g.nx x.g.ny x.g.nz c → propAt x n c = propAt y n c) (f : FKind) : x.flag f = y.flag f := by
  obtain ⟨v, h1, h2⟩ := C77_meaning hx f
  obtain ⟨u, h3, h4⟩ := C77_meaning hy f
  have : FlagSpec x s f ↔ FlagSpec y s f := by
    unfold FlagSpec
    rw [hg]
    refine and_congr (forall_congr' fun n => imp_congr Iff.rfl (imp_congr (not_congr (hn n)) ?_)) Iff.rfl
    exact forall_congr' fun c => forall_congr' fun c' => forall_congr' fun hc => forall_congr' fun hc' => by
      rw [h n c hc, h n c' hc']
  rw [h1, h3]
  congr 1
  exact Bool.eq_iff_iff.2 (h2.trans (this.trans h4.symm))

/-- **C77, isotropic does not mean equal in all directions.** If each permeability is set to one number for all cells, the
grid calls itself isotropic whatever the three numbers are. -/
theorem C77_isotropic_unequal {x : GObj K} {s : Sizes K} (hx : x.Sized s) (kx ky kz : K) :
    ∃ p1 p2 p3, setPropAll x.g x.p .kx (.num kx) = .ok p1 ∧ setPropAll x.g p1 .ky (.num ky) = .ok p2 ∧
      setPropAll x.g p2 .kz (.num kz) = .ok p3 ∧ ({ x with p := p3 } : GObj K).flag .iso = .ok true ∧
      ∀ c, InGrid x.g.nx x.g.ny x.g.nz c → propAt { x with p := p3 } .kx c = kx ∧ propAt { x with p := p3 } .ky c = ky ∧
        propAt { x with p := p3 } .kz c = kz := by
  set p3 := ((x.p.put .kx (List.replicate (x.g.getN true) kx)).put .ky (List.replicate (x.g.getN true) ky)).put .kz
    (List.replicate (x.g.getN true) kz) with hp3
  have ex : p3 .kx = some (List.replicate (x.g.getN true) kx) := by simp [hp3, Props.put]
  have ey : p3 .ky = some (List.replicate (x.g.getN true) ky) := by simp [hp3, Props.put]
  have ez : p3 .kz = some (List.replicate (x.g.getN true) kz) := by simp [hp3, Props.put]
  have hs : ({ x with p := p3 } : GObj K).Sized s := by
    refine ⟨hx.built, fun n l hl => ?_⟩
    have hl' : p3 n = some l := hl
    by_cases h1 : n = .kx
    · subst h1; rw [ex] at hl'; cases hl'; simp
    by_cases h2 : n = .ky
    · subst h2; rw [ey] at hl'; cases hl'; simp
    by_cases h3 : n = .kz
    · subst h3; rw [ez] at hl'; cases hl'; simp
    simp only [hp3, Props.put, h1, h2, h3, if_false] at hl'
    exact hx.props n l hl'
  have hv : ∀ c, InGrid x.g.nx x.g.ny x.g.nz c → propAt { x with p := p3 } .kx c = kx ∧
      propAt { x with p := p3 } .ky c = ky ∧ propAt { x with p := p3 } .kz c = kz := by
    intro c hc
    have hlt : cellNumber x.g.nx x.g.ny c < x.g.getN true := x.g.num_lt hc
    simp [propAt, ex, ey, ez, List.getD_eq_getElem?_getD, List.getElem?_replicate, hlt]
  refine ⟨_, _, p3, rfl, rfl, rfl, ?_, hv⟩
  obtain ⟨v, h1, h2⟩ := C77_meaning hs .iso
  rw [h1]
  congr 1
  refine h2.2 ⟨fun n hn _ c c' hc hc' => ?_, fun h => absurd h (by decide)⟩
  have a := hv c (Interior.inGrid hc)
  have b := hv c' (Interior.inGrid hc')
  simp only [FKind.about, List.mem_cons, List.not_mem_nil, or_false] at hn
  rcases hn with rfl | rfl | rfl
  · rw [a.1, b.1]
  · rw [a.2.1, b.2.1]
  · rw [a.2.2, b.2.2]

/-! ## Answers over a history -/

/-- The answer of `e` after the history `es`, starting with empty caches. -/
def fanswer (w : ℕ → GObj K) (es : List (FEvent K)) (e : FEvent K) : Option (Except Err Bool) :=
  (fstep (frun w .empty es).2.1 (frun w .empty es).2.2 e).1

/-- What is cached about this pair for the object is current. -/
def FFresh (w : ℕ → GObj K) (c : FCaches) (o : ℕ) (f : FKind) : Prop :=
  (∀ e ∈ c.pos f, e.1 = o → (w e.1).flag f = .ok e.2) ∧ ∀ e ∈ c.neg f, e.1 = o → (w e.1).flag f = .ok !e.2

/-- No flag of this pair is cached for the object. -/
def FAbsent (c : FCaches) (o : ℕ) (f : FKind) : Prop := (∀ e ∈ c.pos f, e.1 ≠ o) ∧ ∀ e ∈ c.neg f, e.1 ≠ o

lemma FAbsent.fresh {c : FCaches} {o : ℕ} {f : FKind} (h : FAbsent c o f) (w : ℕ → GObj K) : FFresh w c o f :=
  ⟨fun e he ho => absurd ho (h.1 e he), fun e he ho => absurd ho (h.2 e he)⟩

lemma askPos_fresh {w : ℕ → GObj K} {c : FCaches} {o : ℕ} {f : FKind} (h : FFresh w c o f) (f' : FKind) (o' : ℕ) :
    (f' = f → o' = o → (askPos w f' o' c).1 = (w o).flag f) ∧ FFresh w (askPos w f' o' c).2 o f := by
  by_cases hf : f = f'
  · subst hf
    have := lruCall_on (some 1) (fun k => (w k).flag f) (fun k => k = o) (c.pos f) o' h.1
    refine ⟨fun _ ho => by rw [← ho]; exact this.1 ho, ⟨fun e he ho => ?_, h.2⟩⟩
    simp only [askPos, Function.update_self] at he
    exact this.2 e he ho
  · refine ⟨fun e => absurd e.symm hf, ⟨fun e he ho => ?_, h.2⟩⟩
    simp only [askPos, Function.update_of_ne hf] at he
    exact h.1 e he ho

lemma askNeg_fresh {w : ℕ → GObj K} {c : FCaches} {o : ℕ} {f : FKind} (h : FFresh w c o f) (f' : FKind) (o' : ℕ) :
    (f' = f → o' = o → (askNeg w f' o' c).1 = ((w o).flag f).map (!·)) ∧ FFresh w (askNeg w f' o' c).2 o f := by
  unfold askNeg
  cases hl : (c.neg f').lookup o' with
  | some v =>
    have hm := mem_of_lookup hl
    refine ⟨fun e1 e2 => ?_, ⟨h.1, fun e he ho => ?_⟩⟩
    · subst e1; subst e2
      have hv := h.2 _ hm rfl
      simp only at hv ⊢
      rw [hv]; simp [Except.map]
    · by_cases hf : f = f'
      · subst hf
        simp only [Function.update_self] at he
        rcases List.mem_cons.1 he with rfl | he
        · exact h.2 _ hm ho
        · exact h.2 _ (List.mem_of_mem_filter he) ho
      · simp only [Function.update_of_ne hf] at he
        exact h.2 e he ho
  | none =>
    obtain ⟨k1, k2⟩ := askPos_fresh h f' o'
    simp only
    generalize hr : askPos w f' o' c = r at k1 k2 ⊢
    obtain ⟨v, c'⟩ := r
    simp only at k1 k2
    cases v with
    | error e => exact ⟨fun e1 e2 => by rw [← k1 e1 e2]; rfl, k2⟩
    | ok v =>
      refine ⟨fun e1 e2 => by rw [← k1 e1 e2]; rfl, ⟨k2.1, fun e he ho => ?_⟩⟩
      by_cases hf : f = f'
      · subst hf
        simp only [Function.update_self] at he
        rcases List.mem_cons.1 ((trunc_sublist (some 1) _).subset he) with rfl | he
        · simp only at ho ⊢
          rw [ho, ← k1 rfl ho]; simp
        · exact k2.2 _ he ho
      · simp only [Function.update_of_ne hf] at he
        exact k2.2 e he ho

lemma askPos_absent {w : ℕ → GObj K} {c : FCaches} {o o' : ℕ} {f f' : FKind} (h : FAbsent c o f) (hne : ¬ (o' = o ∧ f' = f)) :
    FAbsent (askPos w f' o' c).2 o f := by
  refine ⟨fun e he => ?_, h.2⟩
  by_cases hf : f = f'
  · subst hf
    simp only [askPos, Function.update_self] at he
    rcases lruCall_keys _ _ _ _ e he with k | k
    · rw [k]; exact fun e => hne ⟨e, rfl⟩
    · exact h.1 e k
  · simp only [askPos, Function.update_of_ne hf] at he
    exact h.1 e he

lemma askNeg_absent {w : ℕ → GObj K} {c : FCaches} {o o' : ℕ} {f f' : FKind} (h : FAbsent c o f) (hne : ¬ (o' = o ∧ f' = f)) :
    FAbsent (askNeg w f' o' c).2 o f := by
  unfold askNeg
  cases hl : (c.neg f').lookup o' with
  | some v =>
    refine ⟨h.1, fun e he => ?_⟩
    by_cases hf : f = f'
    · subst hf
      simp only [Function.update_self] at he
      rcases List.mem_cons.1 he with rfl | he
      · exact fun e => hne ⟨e, rfl⟩
      · exact h.2 _ (List.mem_of_mem_filter he)
    · simp only [Function.update_of_ne hf] at he
      exact h.2 e he
  | none =>
    have k := askPos_absent (w := w) h hne
    simp only
    generalize hr : askPos w f' o' c = r at k ⊢
    obtain ⟨v, c'⟩ := r
    cases v with
    | error e => exact k
    | ok v =>
      refine ⟨k.1, fun e he => ?_⟩
      by_cases hf : f = f'
      · subst hf
        simp only [Function.update_self] at he
        rcases List.mem_cons.1 ((trunc_sublist (some 1) _).subset he) with rfl | he
        · exact fun e => hne ⟨e, rfl⟩
        · exact k.2 _ he
      · simp only [Function.update_of_ne hf] at he
        exact k.2 e he

lemma bind_inv {α β : Type} {x : Except Err α} {f : α → Except Err β} {b : β} (h : (x >>= f) = .ok b) :
    ∃ a, x = .ok a ∧ f a = .ok b := by
  cases x with
  | error e => cases h
  | ok a => exact ⟨a, rfl, h⟩

lemma setPropAll_other {g : Dims} {p p' : Props K} {n m : PName} {v : PVal K} (h : setPropAll g p n v = .ok p') (hm : m ≠ n) :
    p' m = p m := by
  unfold setPropAll at h
  obtain ⟨l, -, h⟩ := bind_inv h
  cases h; simp [Props.put, hm]

lemma setPropCell_other {g : Dims} {p p' : Props K} {n m : PName} {v : K} {id co} (h : setPropCell g p n v id co = .ok p')
    (hm : m ≠ n) : p' m = p m := by
  have key : ∀ c, (do
      let ic ← g.getCellIcoords c
      match p n with
      | none => .error .type
      | some l => do
        let l' ← assign l ic v
        pure (p.put n l') : Except Err (Props K)) = .ok p' → p' m = p m := by
    intro c h
    obtain ⟨ic, -, h⟩ := bind_inv h
    cases hp : p n with
    | none => rw [hp] at h; cases h
    | some l =>
      rw [hp] at h
      obtain ⟨l', -, h⟩ := bind_inv h
      cases h; simp [Props.put, hm]
  unfold setPropCell at h
  cases id with
  | some i =>
    obtain ⟨c, -, h⟩ := bind_inv h
    exact key _ h
  | none =>
    cases co with
    | some c => exact key c h
    | none => cases h

lemma flag_congr {x : GObj K} {p : Props K} {f : FKind} (h : ∀ m ∈ f.about, p m = x.p m) :
    ({ x with p := p } : GObj K).flag f = x.flag f := by
  cases f with
  | homog => simp only [GObj.flag, h .phi (by simp [FKind.about])]
  | iso =>
    simp only [GObj.flag, GObj.isIsotropic, Props.rock, h .kx (by simp [FKind.about]), h .ky (by simp [FKind.about]),
      h .kz (by simp [FKind.about])]
  | reg => rfl

/-- An event that sets nothing a flag is about leaves it as it is. -/
lemma fworld_flag (w : ℕ → GObj K) (e : FEvent K) {o : ℕ} {f : FKind} (h : ¬ e.sets o f) :
    (fworld w e o).flag f = (w o).flag f := by
  have put : ∀ o' (r : Except Err (Props K)), (∀ p, r = .ok p → o' = o → ∀ m ∈ f.about, p m = (w o).p m) →
      (putProps w o' r o).flag f = (w o).flag f := by
    intro o' r hr
    by_cases ho : o = o'
    · subst ho
      cases r with
      | error e => rfl
      | ok p => simp only [putProps, Function.update_self]; exact flag_congr (hr p rfl rfl)
    · rw [putProps_other w o' o ho]
  cases e with
  | setAll o' n v =>
    refine put o' _ fun p hp ho m hm => ?_
    subst ho
    exact setPropAll_other hp fun e => h ⟨rfl, e ▸ hm⟩
  | setCell o' n v id co =>
    refine put o' _ fun p hp ho m hm => ?_
    subst ho
    exact setPropCell_other hp fun e => h ⟨rfl, e ▸ hm⟩
  | ask o' f' s => rfl

lemma fstep_world (w : ℕ → GObj K) (c : FCaches) (e : FEvent K) : (fstep w c e).2.1 = fworld w e := by
  cases e with
  | ask o f s => cases s <;> rfl
  | _ => rfl

lemma fstep_fresh {w : ℕ → GObj K} {c : FCaches} {o : ℕ} {f : FKind} {e : FEvent K} (h : FFresh w c o f) (he : ¬ e.sets o f) :
    FFresh (fworld w e) (fstep w c e).2.2 o f := by
  have key : FFresh (fworld w e) c o f := by
    refine ⟨fun x hx ho => ?_, fun x hx ho => ?_⟩
    · rw [ho, fworld_flag w e he, ← ho]; exact h.1 x hx ho
    · rw [ho, fworld_flag w e he, ← ho]; exact h.2 x hx ho
  cases e with
  | setAll o n v => exact key
  | setCell o n v id co => exact key
  | ask o' f' s => cases s
                   · exact (askPos_fresh h f' o').2
                   · exact (askNeg_fresh h f' o').2

lemma fstep_absent {w : ℕ → GObj K} {c : FCaches} {e : FEvent K} {o : ℕ} {f : FKind} (h : FAbsent c o f) (he : ¬ e.asks o f) :
    FAbsent (fstep w c e).2.2 o f := by
  cases e with
  | setAll o n v => exact h
  | setCell o n v id co => exact h
  | ask o' f' s => cases s
                   · exact askPos_absent h he
                   · exact askNeg_absent h he

lemma frun_append (es es' : List (FEvent K)) (w : ℕ → GObj K) (c : FCaches) :
    (frun w c (es ++ es')).2 = (frun (frun w c es).2.1 (frun w c es).2.2 es').2 := by
  induction es generalizing w c with
  | nil => rfl
  | cons e es ih => exact ih _ _

lemma frun_world (es : List (FEvent K)) (w : ℕ → GObj K) (c : FCaches) : (frun w c es).2.1 = fworlds w es := by
  induction es generalizing w c with
  | nil => rfl
  | cons e es ih => simp only [frun, fworlds, List.foldl_cons]; rw [ih, fstep_world]; rfl

lemma frun_fresh (es : List (FEvent K)) (w : ℕ → GObj K) (c : FCaches) {o : ℕ} {f : FKind} (h : FFresh w c o f)
    (he : ∀ e ∈ es, ¬ e.sets o f) : FFresh (frun w c es).2.1 (frun w c es).2.2 o f := by
  induction es generalizing w c with
  | nil => exact h
  | cons e es ih =>
    have := fstep_fresh h (he e (by simp))
    rw [← fstep_world w c e] at this
    exact ih _ _ this fun e' h' => he e' (by simp [h'])

lemma frun_absent (es : List (FEvent K)) (w : ℕ → GObj K) (c : FCaches) {o : ℕ} {f : FKind} (h : FAbsent c o f)
    (he : ∀ e ∈ es, ¬ e.asks o f) : FAbsent (frun w c es).2.2 o f := by
  induction es generalizing w c with
  | nil => exact h
  | cons e es ih => exact ih _ _ (fstep_absent h (he e (by simp))) fun e' h' => he e' (by simp [h'])

lemma FAbsent.empty (o : ℕ) (f : FKind) : FAbsent .empty o f := ⟨by simp [FCaches.empty], by simp [FCaches.empty]⟩

/-- **C77, partial.** After every history over any number of grids in which what a flag is about has not been set for a grid
since that pair of flags was first asked of it, the answer is the one computed from the values stored now, and the second flag
of the pair is the negation of the first. Missing: settings after the first question, where the answers can be stale
(`C77_stale`) and even contradict each other (`C77_contradiction`). -/
theorem C77_answers_partial (w : ℕ → GObj K) (es es' : List (FEvent K)) (o : ℕ) (f : FKind)
    (h : ∀ e ∈ es, ¬ e.asks o f) (h' : ∀ e ∈ es', ¬ e.sets o f) (second : Bool) :
    fanswer w (es ++ es') (.ask o f second) =
      some (((fworlds w (es ++ es') o).flag f).map fun v => if second then !v else v) := by
  have k1 : FFresh (frun w .empty es).2.1 (frun w .empty es).2.2 o f := (frun_absent es w _ (.empty o f) h).fresh _
  have k3 : (frun w .empty (es ++ es')).2.1 = fworlds w (es ++ es') := frun_world _ _ _
  have k4 : FFresh (frun w .empty (es ++ es')).2.1 (frun w .empty (es ++ es')).2.2 o f := by
    have := frun_append es es' w .empty
    rw [this]; exact frun_fresh es' _ _ k1 h'
  unfold fanswer
  rw [k3] at k4 ⊢
  cases second with
  | false =>
    simp only [fstep, (askPos_fresh k4 f o).1 rfl rfl]
    cases (fworlds w (es ++ es') o).flag f <;> simp [Except.map]
  | true => simp only [fstep, (askNeg_fresh k4 f o).1 rfl rfl, if_true]

/-- **C77, regularity is always right.** Sizes cannot be set after construction, so `is_regular` and `is_irregular` answer
correctly after every history. -/
theorem C77_regular (w : ℕ → GObj K) (es : List (FEvent K)) (o : ℕ) (second : Bool) :
    fanswer w es (.ask o .reg second) = some (((w o).flag .reg).map fun v => if second then !v else v) := by
  have hs : ∀ e : FEvent K, ¬ e.sets o .reg := by
    intro e
    cases e <;> simp [FEvent.sets, FKind.about]
  have := C77_answers_partial w [] es o .reg (by simp) (fun e _ => hs e) second
  rw [List.nil_append] at this
  rw [this]
  have hw : ∀ (es : List (FEvent K)) (w : ℕ → GObj K), (fworlds w es o).flag .reg = (w o).flag .reg := by
    intro es
    induction es with
    | nil => exact fun _ => rfl
    | cons e es ih => exact fun w => (ih _).trans (fworld_flag w e (hs e))
  rw [hw]

/-! ## Stale and contradictory answers -/

lemma lru_one {κ α : Type} [DecidableEq κ] {f : κ → Except Err α} {c : List (κ × α)} {k : κ} {v : α} (hc : c.length ≤ 1)
    (h : (lruCall (some 1) f c k).1 = .ok v) : (lruCall (some 1) f c k).2 = [(k, v)] := by
  unfold lruCall at h ⊢
  cases hl : c.lookup k with
  | some u =>
    rw [hl] at h
    simp only [Except.ok.injEq] at h
    subst h
    have hm := mem_of_lookup hl
    match c, hc, hm with
    | [e], _, hm => simp at hm; subst hm; simp
  | none =>
    rw [hl] at h
    cases hf : f k with
    | error e => simp [hf] at h
    | ok u => simp only [hf, Except.ok.injEq] at h; subst h; simp [trunc]

lemma lru_small {κ α : Type} [DecidableEq κ] {f : κ → Except Err α} {c : List (κ × α)} {k : κ} (hc : c.length ≤ 1) :
    (lruCall (some 1) f c k).2.length ≤ 1 := by
  cases h : (lruCall (some 1) f c k).1 with
  | ok v => rw [lru_one hc h]; simp
  | error e =>
    unfold lruCall at h ⊢
    cases hl : c.lookup k with
    | some u => rw [hl] at h; cases h
    | none =>
      rw [hl] at h
      cases hf : f k with
      | error e => exact hc
      | ok u => simp [hf] at h

/-- No cache has more than one entry. -/
def FSmall (c : FCaches) : Prop := ∀ f, (c.pos f).length ≤ 1 ∧ (c.neg f).length ≤ 1

lemma askPos_small {w : ℕ → GObj K} {c : FCaches} (h : FSmall c) (f : FKind) (o : ℕ) : FSmall (askPos w f o c).2 := by
  intro g
  refine ⟨?_, (h g).2⟩
  by_cases hg : g = f
  · subst hg; simp only [askPos, Function.update_self]; exact lru_small (h g).1
  · simp only [askPos, Function.update_of_ne hg]; exact (h g).1

/-- A second flag that was answered is what its cache then holds. -/
lemma askNeg_holds {w : ℕ → GObj K} {c : FCaches} (h : FSmall c) (f : FKind) (o : ℕ) {v : Bool} (hv : (askNeg w f o c).1 = .ok v) :
    (askNeg w f o c).2.neg f = [(o, v)] := by
  unfold askNeg at hv ⊢
  cases hl : (c.neg f).lookup o with
  | some u =>
    rw [hl] at hv
    simp only [Except.ok.injEq] at hv
    subst hv
    have hm := mem_of_lookup hl
    simp only [Function.update_self]
    match hc : c.neg f, (h f).2, hm with
    | [e], _, hm => simp at hm; subst hm; simp
  | none =>
    rw [hl] at hv
    simp only at hv ⊢
    generalize askPos w f o c = r at hv ⊢
    obtain ⟨u, c'⟩ := r
    cases u with
    | error e => cases hv
    | ok u => simp only [Except.ok.injEq] at hv; subst hv; simp [trunc]

lemma askNeg_small {w : ℕ → GObj K} {c : FCaches} (h : FSmall c) (f : FKind) (o : ℕ) : FSmall (askNeg w f o c).2 := by
  have k := askPos_small (w := w) h f o
  unfold askNeg
  cases hl : (c.neg f).lookup o with
  | some u =>
    intro g
    refine ⟨(h g).1, ?_⟩
    by_cases hg : g = f
    · subst hg
      have hm := mem_of_lookup hl
      simp only [Function.update_self]
      match hc : c.neg g, (h g).2, hm with
      | [e], _, hm => simp at hm; subst hm; simp
    · simp only [Function.update_of_ne hg]; exact (h g).2
  | none =>
    simp only
    generalize askPos w f o c = r at k ⊢
    obtain ⟨u, c'⟩ := r
    cases u with
    | error e => exact k
    | ok u =>
      intro g
      refine ⟨(k g).1, ?_⟩
      by_cases hg : g = f
      · subst hg; simp [trunc]
      · simp only [Function.update_of_ne hg]; exact (k g).2

lemma frun_small (es : List (FEvent K)) (w : ℕ → GObj K) (c : FCaches) (h : FSmall c) : FSmall (frun w c es).2.2 := by
  induction es generalizing w c with
  | nil => exact h
  | cons e es ih =>
    refine ih _ _ ?_
    cases e with
    | setAll o n v => exact h
    | setCell o n v id co => exact h
    | ask o f s => cases s
                   · exact askPos_small h f o
                   · exact askNeg_small h f o

lemma FSmall.empty : FSmall .empty := fun f => by simp [FCaches.empty]

lemma askPos_hit {w : ℕ → GObj K} {c : FCaches} {f : FKind} {o : ℕ} {v : Bool} (h : c.pos f = [(o, v)]) :
    (askPos w f o c).1 = .ok v ∧ (askPos w f o c).2.pos f = [(o, v)] := by
  simp [askPos, lruCall, h]

lemma askNeg_pos {w : ℕ → GObj K} {c : FCaches} {f f' : FKind} {o o' : ℕ} {v : Bool} (h : c.pos f = [(o, v)])
    (ho : f' = f → o' = o) : (askNeg w f' o' c).2.pos f = [(o, v)] := by
  have k : (askPos w f' o' c).2.pos f = [(o, v)] := by
    by_cases hf : f' = f
    · subst hf; rw [ho rfl]; exact (askPos_hit h).2
    · simp only [askPos, Function.update_of_ne (Ne.symm hf)]; exact h
  unfold askNeg
  cases hl : (c.neg f').lookup o' with
  | some u => exact h
  | none =>
    simp only
    generalize askPos w f' o' c = r at k ⊢
    obtain ⟨u, c'⟩ := r
    cases u <;> exact k

lemma askNeg_hit {w : ℕ → GObj K} {c : FCaches} {f : FKind} {o : ℕ} {v : Bool} (h : c.neg f = [(o, v)]) :
    (askNeg w f o c).1 = .ok v ∧ (askNeg w f o c).2.neg f = [(o, v)] := by
  simp [askNeg, h]

lemma askNeg_neg {w : ℕ → GObj K} {c : FCaches} {f f' : FKind} {o o' : ℕ} {v : Bool} (h : c.neg f = [(o, v)])
    (ho : f' = f → o' = o) : (askNeg w f' o' c).2.neg f = [(o, v)] := by
  by_cases hf : f' = f
  · subst hf; rw [ho rfl]; exact (askNeg_hit h).2
  · have k : (askPos w f' o' c).2.neg f = [(o, v)] := h
    unfold askNeg
    cases hl : (c.neg f').lookup o' with
    | some u => simp only [Function.update_of_ne (Ne.symm hf)]; exact h
    | none =>
      simp only
      generalize askPos w f' o' c = r at k ⊢
      obtain ⟨u, c'⟩ := r
      cases u with
      | error e => exact k
      | ok u => simp only [Function.update_of_ne (Ne.symm hf)]; exact k

lemma frun_pos (es : List (FEvent K)) (w : ℕ → GObj K) (c : FCaches) {o : ℕ} {f : FKind} {v : Bool} (h : c.pos f = [(o, v)])
    (he : ∀ e ∈ es, ∀ o', o' ≠ o → ¬ e.asks o' f) : (frun w c es).2.2.pos f = [(o, v)] := by
  induction es generalizing w c with
  | nil => exact h
  | cons e es ih =>
    refine ih _ _ ?_ fun e' h' => he e' (by simp [h'])
    have hk := he e (by simp)
    cases e with
    | setAll o n v => exact h
    | setCell o n v id co => exact h
    | ask o' f' s =>
      have ho : f' = f → o' = o := fun hf => by
        by_contra hne
        exact hk o' hne ⟨rfl, hf⟩
      cases s
      · show (askPos w f' o' c).2.pos f = _
        by_cases hf : f' = f
        · subst hf; rw [ho rfl]; exact (askPos_hit h).2
        · simp only [askPos, Function.update_of_ne (Ne.symm hf)]; exact h
      · exact askNeg_pos h ho

lemma frun_neg (es : List (FEvent K)) (w : ℕ → GObj K) (c : FCaches) {o : ℕ} {f : FKind} {v : Bool} (h : c.neg f = [(o, v)])
    (he : ∀ e ∈ es, ∀ o', o' ≠ o → e ≠ .ask o' f true) : (frun w c es).2.2.neg f = [(o, v)] := by
  induction es generalizing w c with
  | nil => exact h
  | cons e es ih =>
    refine ih _ _ ?_ fun e' h' => he e' (by simp [h'])
    have hk := he e (by simp)
    cases e with
    | setAll o n v => exact h
    | setCell o n v id co => exact h
    | ask o' f' s =>
      cases s
      · exact h
      · refine askNeg_neg h fun hf => ?_
        by_contra hne
        exact hk o' hne (by rw [hf])

/-- **C77 fails after a change.** Once a first flag has been answered for a grid, it is answered the same way whatever is set
afterwards, as long as no other grid is asked for a flag of that pair. -/
theorem C77_stale (w : ℕ → GObj K) (es es' : List (FEvent K)) (o : ℕ) (f : FKind) (v : Bool)
    (h : fanswer w es (.ask o f false) = some (.ok v)) (he : ∀ e ∈ es', ∀ o', o' ≠ o → ¬ e.asks o' f) :
    fanswer w (es ++ .ask o f false :: es') (.ask o f false) = some (.ok v) := by
  have hs := frun_small es w .empty .empty
  have h1 : (askPos (frun w .empty es).2.1 f o (frun w .empty es).2.2).1 = .ok v := Option.some.inj h
  have h2 : (askPos (frun w .empty es).2.1 f o (frun w .empty es).2.2).2.pos f = [(o, v)] := by
    simp only [askPos, Function.update_self]; exact lru_one (hs f).1 h1
  have h3 := frun_pos es' (frun w .empty es).2.1 _ h2 he
  unfold fanswer
  rw [frun_append]
  exact congrArg some (askPos_hit h3).1

/-- **C77 fails after a change**, second flags: the answer is repeated as long as no other grid is asked for the same flag. -/
theorem C77_stale_second (w : ℕ → GObj K) (es es' : List (FEvent K)) (o : ℕ) (f : FKind) (v : Bool)
    (h : fanswer w es (.ask o f true) = some (.ok v)) (he : ∀ e ∈ es', ∀ o', o' ≠ o → e ≠ .ask o' f true) :
    fanswer w (es ++ .ask o f true :: es') (.ask o f true) = some (.ok v) := by
  have hs := frun_small es w .empty .empty
  have h1 : (askNeg (frun w .empty es).2.1 f o (frun w .empty es).2.2).1 = .ok v := Option.some.inj h
  have h3 := frun_neg es' (frun w .empty es).2.1 _ (askNeg_holds hs f o h1) he
  unfold fanswer
  rw [frun_append]
  exact congrArg some (askNeg_hit h3).1

/-- **C77, two flags that contradict each other.** A second flag is read, a setting turns the first flag over, and another grid
is asked for its first flag; then both flags of the pair give the same answer, and nothing is set between the two
questions. -/
theorem C77_contradiction (w : ℕ → GObj K) (es : List (FEvent K)) (o o' : ℕ) (hne : o' ≠ o) (f : FKind) (v u : Bool)
    (hes : ∀ e ∈ es, ∀ o'', ¬ e.asks o'' f) (h1 : (w o).flag f = .ok v) (h2 : (fworlds w es o).flag f = .ok !v)
    (h3 : (fworlds w es o').flag f = .ok u) :
    fanswer w (.ask o f true :: es ++ [.ask o' f false]) (.ask o f false) = some (.ok !v) ∧
      fanswer w (.ask o f true :: es ++ [.ask o' f false, .ask o f false]) (.ask o f true) = some (.ok !v) := by
  have a1 : fanswer w [] (.ask o f true) = some (.ok !v) := by
    have := C77_answers_partial w [] [] o f (by simp) (by simp) true
    rw [List.nil_append] at this
    rw [this, show (fworlds w [] o).flag f = .ok v from h1]; rfl
  have b1 : (askNeg w f o .empty).1 = .ok !v := Option.some.inj a1
  refine ⟨?_, ?_⟩
  · set r := frun w .empty (.ask o f true :: es) with hr
    have hw : r.2.1 = fworlds w es := by
      rw [hr, frun_world]; rfl
    have hs : FSmall r.2.2 := frun_small _ _ _ .empty
    have c1 : (askNeg w f o .empty).2.pos f = [(o, v)] := by
      simp [askNeg, FCaches.empty, askPos, lruCall, h1, trunc]
    have c2 : r.2.2.pos f = [(o, v)] := frun_pos es w _ c1 fun e he o'' _ => hes e he o''
    have c3 : (askPos r.2.1 f o' r.2.2).1 = .ok u := by
      simp only [askPos, lruCall, c2, List.lookup_cons, beq_false_of_ne hne, List.lookup_nil, hw, h3]
    have c4 : (askPos r.2.1 f o' r.2.2).2.pos f = [(o', u)] := by
      simp only [askPos, Function.update_self]; exact lru_one (hs f).1 c3
    unfold fanswer
    rw [frun_append, ← hr]
    show some (askPos r.2.1 f o (askPos r.2.1 f o' r.2.2).2).1 = _
    congr 1
    generalize (askPos r.2.1 f o' r.2.2).2 = c at c4
    simp only [askPos, lruCall, c4, List.lookup_cons, beq_false_of_ne hne.symm, List.lookup_nil, hw, h2]
  · have := C77_stale_second w [] (es ++ [.ask o' f false, .ask o f false]) o f (!v) a1 (by
      intro e he o'' ho
      rcases List.mem_append.1 he with he | he
      · rintro rfl; exact hes _ he o'' ⟨rfl, rfl⟩
      · simp only [List.mem_cons, List.not_mem_nil, or_false] at he
        rcases he with rfl | rfl <;> simp)
    exact this
end

/-! ## Concrete histories -/

/-- The grid of `o141` with porosity 1/5 everywhere. -/
def o141phi : GObj ℚ := { o141 with p := Props.put (fun _ => none) .phi (List.replicate 6 (1/5)) }

/-- Change of one interior cell. -/
def changePhi : FEvent ℚ := .setCell 0 .phi (3/10) (some 2) none

/-- Answers for printing. -/
def fshown (r : Option (Except Err Bool)) : Option Bool := match r with
  | some (.ok v) => some v
  | _ => none

/-- The hypotheses of `C77_contradiction` are met by one change of porosity in one cell; grid 0 is then neither homogeneous nor
heterogeneous. -/
theorem C77_neither :
    fanswer (fun _ => o141phi) [.ask 0 .homog true, changePhi, .ask 1 .homog false] (.ask 0 .homog false) = some (.ok false) ∧
    fanswer (fun _ => o141phi) [.ask 0 .homog true, changePhi, .ask 1 .homog false, .ask 0 .homog false]
      (.ask 0 .homog true) = some (.ok false) :=
  C77_contradiction (fun _ => o141phi) [changePhi] 0 1 (by decide) .homog true true (by simp [changePhi, FEvent.asks])
    (by decide +kernel) (by decide +kernel) (by decide +kernel)

/-- Stale: after the change the grid still calls itself homogeneous. -/
example : fanswer (fun _ => o141phi) ([] ++ .ask 0 .homog false :: [changePhi]) (.ask 0 .homog false) = some (.ok true) :=
  C77_stale _ _ _ _ _ _ (by decide +kernel) (by simp [changePhi, FEvent.asks])
/-- Without the first question the answer is right. -/
example : fanswer (fun _ => o141phi) ([changePhi] ++ []) (.ask 0 .homog false) = some (.ok false) := by decide +kernel

/-- 2×3×1 cells. -/
def flagDims : Dims := ⟨2, 3, 1, false, by decide, by decide, by decide⟩
/-- What a constructed grid of 2×3×1 cells looks like: layers of unequal width along y, one porosity except in a boundary cell,
and two permeabilities that differ from each other. -/
def flagGrid (q : Geom ℚ) : GObj ℚ := ⟨flagDims, q, 1, Props.put (Props.put (Props.put (fun _ => none) .phi
  ((List.replicate 20 (1/5)).set 0 7)) .kx (List.replicate 20 100)) .ky (List.replicate 20 7)⟩
/-- Its sizes. -/
def flagSizes : Sizes ℚ := ⟨.scalar 10, .list [1, 1, 2, 1, 1], .scalar 5⟩

/-- Such a grid exists and meets the hypotheses of `C77_meaning`; it is homogeneous, isotropic and irregular. -/
theorem C77_instance : ∃ q, (flagGrid q).Sized flagSizes ∧ (flagGrid q).flag .homog = .ok true ∧
    (flagGrid q).flag .iso = .ok true ∧ (flagGrid q).flag .reg = .ok false := by
  obtain ⟨q, h1, h2⟩ := calc_ok flagDims flagSizes trivial rfl trivial
  have hs : (flagGrid q).Sized flagSizes := by
    refine ⟨h1, fun n l hl => ?_⟩
    cases n <;> simp [flagGrid, Props.put] at hl <;> subst hl <;> rfl
  have e1 : constCheck flagDims [(List.replicate 20 (1/5 : ℚ)).set 0 7] = .ok true := by decide +kernel
  have e2 : constCheck flagDims [List.replicate 20 (100 : ℚ), List.replicate 20 7] = .ok true := by decide +kernel
  refine ⟨q, hs, e1, e2, ?_⟩
  obtain ⟨v, k1, k2⟩ := C77_meaning hs .reg
  rw [k1]
  cases v with
  | false => rfl
  | true =>
    have := (k2.1 rfl).2 rfl (1, 1, 0) (1, 2, 0)
      (show Interior 2 3 1 (1, 1, 0) by decide) (show Interior 2 3 1 (1, 2, 0) by decide)
    exact absurd this.2.1 (by decide +kernel)
end RF
