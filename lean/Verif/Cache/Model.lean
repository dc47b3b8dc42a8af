import Verif.Trans.Model
/-!
# Model of `functools.lru_cache` as used by the package, and of the cached grid queries

`utils/helpers.py` l.14-23; decorated methods of `regular_cartesian.py`. The cache belongs to the decorated function, so
it is shared by all objects; the object is part of the key.
-/
namespace RF

/-- `maxsize=None` or a number. (helpers.py l.14) -/
abbrev MaxSize := Option ℕ

/-- Keep at most `maxsize` entries, most recently used first. (helpers.py l.14-23, functools) -/
def trunc {α : Type} : MaxSize → List α → List α
  | none, l => l
  | some n, l => l.take n

/-- A call through `lru_cache(maxsize)(f)` (helpers.py l.14-17): a hit returns the stored value and makes the entry the most
recent; a miss evaluates `f`, stores the value and drops the least recently used entry; exceptions are not stored. The
state is the list of stored entries, most recently used first. -/
def lruCall {κ α : Type} [DecidableEq κ] (max : MaxSize) (f : κ → Except Err α) (c : List (κ × α)) (k : κ) :
    Except Err α × List (κ × α) :=
  match c.lookup k with
  | some v => (.ok v, (k, v) :: c.filter (fun e => e.1 ≠ k))
  | none => match f k with
    | .ok v => (.ok v, trunc max ((k, v) :: c))
    | .error e => (.error e, c)

/-- A sequence of calls; the answers in order and the final cache. (a sequence of calls of a function decorated as in helpers.py l.14-23) -/
def lruRun {κ α : Type} [DecidableEq κ] (max : MaxSize) (f : κ → Except Err α) :
    List (κ × α) → List κ → List (Except Err α) × List (κ × α)
  | c, [] => ([], c)
  | c, k :: ks =>
    let r := lruCall max f c k
    let rs := lruRun max f r.2 ks
    (r.1 :: rs.1, rs.2)

/-! ## Setting properties -/

/-- A value argument: number or array-like. (regular_cartesian.py l.2359-2411) -/
inductive PVal (K : Type) where
  | num (v : K)
  | arr (l : List K)

/-- Keys of `__props__` (grid.py l.64-68). -/
inductive PName where
  | kx | ky | kz | phi | z | comp
  deriving DecidableEq, Repr

/-- The dictionary `__props__`. (regular_cartesian.py l.2410-2411) -/
abbrev Props (K : Type) := PName → Option (List K)

/-- Dictionary update. (regular_cartesian.py l.2410-2411) -/
def Props.put {K : Type} (p : Props K) (n : PName) (l : List K) : Props K := fun m => if m = n then some l else p m

section
variable {K : Type}

/-- `ones(n) * value` with numpy broadcasting of one-dimensional operands. (regular_cartesian.py l.2412) -/
def broadcast (n : ℕ) : PVal K → Except Err (List K)
  | .num v => .ok (List.replicate n v)
  | .arr l =>
    if l.length = n then .ok l
    else match l with
      | [v] => .ok (List.replicate n v)
      | _ => if n = 1 then .ok l else .error .value

/-- `array[icoords] = value` for a one-dimensional array and a tuple of non-negative integers: one index selects, the empty
tuple selects everything, more are too many. (regular_cartesian.py l.2418-2419) -/
def assign (l : List K) (ic : List ℕ) (v : K) : Except Err (List K) :=
  match ic with
  | [] => .ok (List.replicate l.length v)
  | [i] => if i < l.length then .ok (l.set i v) else .error .index
  | _ => .error .index

/-- `set_prop(name, value)` without id and coords (l.2411-2413). -/
def setPropAll (g : Dims) (p : Props K) (n : PName) (v : PVal K) : Except Err (Props K) := do
  let l ← broadcast (g.getN true) v
  pure (p.put n l)

/-- `set_prop(name, value, id, coords)` with at least one of the two; a scalar value (l.2414-2420). An unset property is
`None`, on which item assignment is a `TypeError`. `get_cell_coords(id, True)` is the model's `getCellCoords`. -/
def setPropCell (g : Dims) (p : Props K) (n : PName) (v : K) (id : Option ℤ) (coords : Option (ℤ × ℤ × ℤ)) :
    Except Err (Props K) := do
  let c ← match id, coords with
    | some i, _ => do
      let c ← g.getCellCoords i true
      pure ((c.1 : ℤ), (c.2.1 : ℤ), (c.2.2 : ℤ))
    | none, some c => pure c
    | none, none => throw .value
  let ic ← g.getCellIcoords c
  match p n with
  | none => .error .type
  | some l => do
    let l' ← assign l ic v
    pure (p.put n l')

/-- `get_prop(name, boundary, False)` (l.2466-2483). -/
def getProp (g : Dims) (p : Props K) (n : PName) (boundary : Bool) : Except Err (List K) :=
  match p n with
  | none => .error .value
  | some l => Geom.cells g l boundary

/-- The permeabilities among the properties. (regular_cartesian.py l.2559-2563) -/
def Props.rock (p : Props K) : Rock K := ⟨p .kx, p .ky, p .kz⟩

end

/-! ## The cached grid queries

`get_cell_k` and `get_cell_G` have unbounded caches, `is_isotropic` a cache of size one; all three belong to the class. Sizes
and areas cannot change after construction, so their caches are left out (see C19). -/

/-- A grid object: dimensions, sizes, unit factor and the stored properties. (regular_cartesian.py l.31-163) -/
structure GObj (K : Type) where
  g : Dims
  q : Geom K
  β : K
  p : Props K

/-- Arguments of `get_cell_k`: object, direction, id, coords. (regular_cartesian.py l.2530-2535) -/
structure KKey where
  o : ℕ
  a : Axis
  id : Option ℤ
  co : Option (ℤ × ℤ × ℤ)
  deriving DecidableEq

/-- Arguments of `get_cell_G`: object, id, boundary. (regular_cartesian.py l.2943-2948) -/
structure GKey where
  o : ℕ
  id : ℤ
  b : Bool
  deriving DecidableEq

/-- The three class-level caches. (regular_cartesian.py l.2529, 2698, 2942) -/
structure Caches (K : Type) where
  kc : List (KKey × K)
  iso : List (ℕ × Bool)
  gc : List (GKey × List (ℕ × K))

/-- Nothing cached yet. (state after import of regular_cartesian.py) -/
def Caches.empty {K : Type} : Caches K := ⟨[], [], []⟩

/-- A computation that may read and write the caches; cache changes survive an exception. (helpers.py l.14-23) -/
abbrev CM (K : Type) := ExceptT Err (StateM (Caches K))

section
variable {K : Type} [Field K] [DecidableEq K]

/-- `get_cell_k` without its cache. (regular_cartesian.py l.2530-2569) -/
def GObj.cellK (x : GObj K) (a : Axis) (id : Option ℤ) (c : Option (ℤ × ℤ × ℤ)) : Except Err K := RF.cellK x.g x.p.rock a id c
/-- `is_isotropic` without its cache. (regular_cartesian.py l.2699-2720) -/
def GObj.isIsotropic (x : GObj K) : Except Err Bool := RF.isIsotropic x.g x.p.rock

/-- Body of `get_cell_G(id=…, boundary=…)` (regular_cartesian.py l.2970-3003), over the queries it makes: in each flow
direction size, area and permeability of the cell, then for each neighbour its size, area, permeability and the isotropy
test. -/
def cellGBody {m : Type → Type} [Monad m] (x : GObj K) (geo : Except Err K → m K) (nbr : Except Err (Dims.ByAxis ℕ) → m (Dims.ByAxis ℕ))
    (getK : Axis → ℤ → m K) (iso : m Bool) (id : ℤ) (boundary : Bool) : m (List (ℕ × K)) := do
  let nb ← nbr (x.g.neighborsId id boundary)
  let parts ← x.g.getFdir.mapM fun a => do
    let d ← geo (x.q.cellD x.g a (some id) none)
    let A ← geo (x.q.cellA x.g a (some id) none)
    let k ← getK a id
    (nb.get a).mapM fun (n : ℕ) => do
      let dn ← geo (x.q.cellD x.g a (some (n : ℤ)) none)
      let An ← geo (x.q.cellA x.g a (some (n : ℤ)) none)
      let kn ← getK a (n : ℤ)
      let i ← iso
      pure (n, gForm i x.β k A d kn An dn)
  pure parts.flatten

/-- `get_cell_G` without caches. (regular_cartesian.py l.2943-3004) -/
def GObj.cellG (x : GObj K) (id : ℤ) (boundary : Bool) : Except Err (List (ℕ × K)) :=
  cellGBody x (fun r => r) (fun r => r) (fun a i => x.cellK a (some i) none) x.isIsotropic id boundary

/-- Cached `get_cell_k` (l.2529). -/
def cachedK (w : ℕ → GObj K) (o : ℕ) (a : Axis) (id : Option ℤ) (co : Option (ℤ × ℤ × ℤ)) : CM K K := fun c =>
  let r := lruCall none (fun k : KKey => (w k.o).cellK k.a k.id k.co) c.kc ⟨o, a, id, co⟩
  (r.1, { c with kc := r.2 })

/-- Cached `is_isotropic` (l.2697-2698). -/
def cachedIso (w : ℕ → GObj K) (o : ℕ) : CM K Bool := fun c =>
  let r := lruCall (some 1) (fun k => (w k).isIsotropic) c.iso o
  (r.1, { c with iso := r.2 })

/-- Lift a computation that uses no cache. (no line of the code) -/
def noCache {α : Type} (r : Except Err α) : CM K α := fun c => (r, c)

/-- Cached `get_cell_G` (l.2942): a miss runs the body, which uses the other caches. -/
def cachedG (w : ℕ → GObj K) (o : ℕ) (id : ℤ) (boundary : Bool) : CM K (List (ℕ × K)) := fun c =>
  match c.gc.lookup ⟨o, id, boundary⟩ with
  | some v => (.ok v, { c with gc := (⟨o, id, boundary⟩, v) :: c.gc.filter (fun e => e.1 ≠ ⟨o, id, boundary⟩) })
  | none =>
    match (cellGBody (m := CM K) (w o) noCache noCache (fun a i => cachedK w o a (some i) none) (cachedIso w o) id boundary) c with
    | (.ok v, c') => (.ok v, { c' with gc := (⟨o, id, boundary⟩, v) :: c'.gc })
    | (.error e, c') => (.error e, c')

/-- What a user does: set a property of a grid for all cells, set it in one cell, or ask one of the three questions. (calls of regular_cartesian.py l.2359, 2530, 2699, 2943) -/
inductive GEvent (K : Type) where
  | setAll (o : ℕ) (n : PName) (v : PVal K)
  | setCell (o : ℕ) (n : PName) (v : K) (id : Option ℤ) (co : Option (ℤ × ℤ × ℤ))
  | getK (o : ℕ) (a : Axis) (id : Option ℤ) (co : Option (ℤ × ℤ × ℤ))
  | getIso (o : ℕ)
  | getG (o : ℕ) (id : ℤ) (boundary : Bool)

/-- Answers to the three questions. (regular_cartesian.py l.2530, 2699, 2943) -/
inductive Answer (K : Type) where
  | k (r : Except Err K)
  | iso (r : Except Err Bool)
  | g (r : Except Err (List (ℕ × K)))
  | none

/-- Replace the properties of one object if the setting succeeded; an exception leaves everything as it was. (regular_cartesian.py l.2359-2429) -/
def putProps (w : ℕ → GObj K) (o : ℕ) : Except Err (Props K) → ℕ → GObj K
  | .ok p => Function.update w o { w o with p := p }
  | .error _ => w

/-- One event on the objects and the caches. (regular_cartesian.py l.2359-2429, 2530-2569, 2699-2720, 2943-3004) -/
def gstep (w : ℕ → GObj K) (c : Caches K) : GEvent K → Answer K × (ℕ → GObj K) × Caches K
  | .setAll o n v => (.none, putProps w o (setPropAll (w o).g (w o).p n v), c)
  | .setCell o n v id co => (.none, putProps w o (setPropCell (w o).g (w o).p n v id co), c)
  | .getK o a id co => let r := cachedK w o a id co c; (.k r.1, w, r.2)
  | .getIso o => let r := cachedIso w o c; (.iso r.1, w, r.2)
  | .getG o id b => let r := cachedG w o id b c; (.g r.1, w, r.2)

/-- A history: the answers in order and the final state. (no line of the code: a sequence of calls) -/
def grun : (ℕ → GObj K) → Caches K → List (GEvent K) → List (Answer K) × (ℕ → GObj K) × Caches K
  | w, c, [] => ([], w, c)
  | w, c, e :: es =>
    let r := gstep w c e
    let s := grun r.2.1 r.2.2 es
    (r.1 :: s.1, s.2)

end

/-! ## Arrays shared between models

`black_oil.py` l.196-210, 218-256, `regular_cartesian.py` l.466-507, `solution.py` l.36-41, `fdm.py` l.53-54. -/

section
variable {K : Type} [Zero K]

/-- The part of a model that holds initial arrays: the pressure array is its own, the rate array is a reference. (black_oil.py l.109-178, 202-210) -/
structure MArr (K : Type) where
  grid : ℕ
  press : List (Option K)
  rates : ℕ

/-- Arrays on the heap, the one-entry cache of `get_zeros` with its key (grid object, boundary), and the models. (regular_cartesian.py l.467-511, black_oil.py l.202-210) -/
structure Shop (K : Type) where
  heap : List (List K)
  zc : Option ((ℕ × Bool) × ℕ)
  models : List (MArr K)

/-- Nothing created yet. (before the first model is created) -/
def Shop.empty : Shop K := ⟨[], none, []⟩

/-- `grid.get_zeros(boundary, False, False)` through its cache of size one (regular_cartesian.py l.466-507): reference to
the array. -/
def Shop.getZeros (n : ℕ → Bool → ℕ) (s : Shop K) (o : ℕ) (b : Bool) : ℕ × Shop K :=
  let fresh := (s.heap.length, { s with heap := s.heap ++ [List.replicate (n o b) 0], zc := some ((o, b), s.heap.length) })
  match s.zc with
  | some (k, r) => if k = (o, b) then (r, s) else fresh
  | none => fresh

/-- Operations of a user that create or write initial arrays. Models are numbered in order of creation. (black_oil.py l.31-178, 453-529, 533-575) -/
inductive MEvent (K : Type) where
  /-- `BlackOil(grid, …, pi)` (black_oil.py l.137-150); `pi` fills the interior -/ | create (o : ℕ) (press : List (Option K))
  /-- `set_boundary(cell, "rate", v)` before the first step (l.555-558) -/ | setRate (m i : ℕ) (v : K)
  /-- `set_boundary(cell, "pressure", v)` before the first step (l.559-562) -/ | setPress (m i : ℕ) (v : K)
  /-- `compile("numerical", "FDM")`: the solution copies both arrays and asks for interior zeros (fdm.py l.54) -/ | compile (m : ℕ)

/-- One operation; an operation on a model that does not exist does nothing. (black_oil.py l.202-210, 228-256) -/
def Shop.step (n : ℕ → Bool → ℕ) (s : Shop K) : MEvent K → Shop K
  | .create o press =>
    let r := s.getZeros n o true
    { r.2 with models := r.2.models ++ [⟨o, press, r.1⟩] }
  | .setRate m i v => match s.models[m]? with
    | some x => { s with heap := s.heap.modify x.rates (·.set i v) }
    | none => s
  | .setPress m i v => { s with models := s.models.modify m fun x => { x with press := x.press.set i (some v) } }
  | .compile m => match s.models[m]? with
    | some x => (s.getZeros n x.grid false).2
    | none => s

/-- A history of operations. (no line of the code: a sequence of calls) -/
def Shop.run (n : ℕ → Bool → ℕ) (s : Shop K) (es : List (MEvent K)) : Shop K := es.foldl (fun s e => s.step n e) s

/-- Initial rates of model `m` as its owner reads them. (black_oil.py l.202-210, 238-246) -/
def Shop.rates (s : Shop K) (m : ℕ) : Option (List K) := s.models[m]?.map fun x => s.heap.getD x.rates []
/-- Initial pressures of model `m`. (black_oil.py l.202-210, 218-226) -/
def Shop.press (s : Shop K) (m : ℕ) : Option (List (Option K)) := s.models[m]?.map (·.press)
end
end RF
