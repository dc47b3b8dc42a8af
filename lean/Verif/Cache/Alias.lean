import Verif.Cache.Model
import Verif.Grid.Lemmas4
/-!
# C90: arrays handed out by a grid

numpy arrays are references, and `lru_cache` keeps the object it returned. This file models grids, their cached queries and callers that write into the arrays
they got: which answers share memory with the grid or with each other, and what a write does. Arrays are flat; `reshape` of an array of the code's layout is a view
of the same memory, so the shape is left out. Several grids share the caches, which belong to the class.
-/
namespace RF.Alias

/-- An array of numbers or of cell ids. (regular_cartesian.py l.163, 1409-1419) -/
inductive Arr (K : Type) where
  | num (l : List K)
  | ids (l : List ℕ)
  deriving DecidableEq

/-- Queries whose answer is an array: `get_cells_d(dir, boundary, fshape)` (l.1423-1472), `get_cells_A` (l.1682-1730), `get_cells_V(boundary, fshape, False)` (l.1963-2002),
`get_ones`, `get_zeros` with `sparse=False` (l.425-507), `get_prop(name, boundary, fshape)` and `get_cells_k` (l.2431-2527), `get_cells_id(boundary, False, "array")` (l.588-630).
`way` tells apart calls that name their arguments differently (`f(True)`, `f(boundary=True)`): `lru_cache` keeps them apart, too; 0 is the way the code itself calls. -/
inductive Query where
  | size (a : Axis) (boundary fshape : Bool) (way : ℕ)
  | area (a : Axis) (boundary fshape : Bool) (way : ℕ)
  | volume (boundary fshape : Bool) (way : ℕ)
  | ones (boundary fshape : Bool) (way : ℕ)
  | zeros (boundary fshape : Bool) (way : ℕ)
  | prop (n : PName) (boundary fshape : Bool)
  | ids (boundary : Bool) (way : ℕ)
  deriving DecidableEq

/-- Is the query one of a property? (regular_cartesian.py l.2431-2527) -/
def Query.isProp : Query → Bool
  | .prop .. => true
  | _ => false

/-- Which function's cache the query uses. (decorators at regular_cartesian.py l.425, 467, 588, 1423, 1682, 1963) -/
def Query.fn : Query → ℕ
  | .size .. => 0 | .area .. => 1 | .volume .. => 2 | .ones .. => 3 | .zeros .. => 4 | .prop .. => 5 | .ids .. => 6

/-- Sizes of the caches. (decorators at regular_cartesian.py l.425, 467, 588, 1423, 1682, 1963) -/
def Query.max : Query → MaxSize
  | .size .. => none | .area .. => none | .volume .. => some 4 | .ones .. => some 1 | .zeros .. => some 1 | .prop .. => none | .ids .. => some 4

/-- A grid object: sizes `dx`, `dy`, `dz`, areas, volumes, `__props__` and `cells_id` are references. (regular_cartesian.py l.158-163, 1414-1419, 1677-1680, 1931, 2410) -/
structure Grid where
  g : Dims
  d : Axis → ℕ
  A : Axis → ℕ
  V : ℕ
  props : PName → Option ℕ
  ids : ℕ

/-- One answered query: the reference handed out and what it showed at that time. -/
structure Entry (K : Type) where
  obj : ℕ
  query : Query
  ref : Except Err ℕ
  shown : Except Err (Arr K)

/-- Memory, grids, the caches of the functions, and the answers so far. (helpers.py l.14-23) -/
structure World (K : Type) where
  heap : List (Arr K) := []
  grids : List Grid := []
  cache : ℕ → List ((ℕ × Query) × ℕ) := fun _ => []
  log : List (Entry K) := []

section
variable {K : Type} [Field K]

/-- What is at a reference. -/
def World.look (w : World K) (r : ℕ) : Except Err (Arr K) :=
  match w.heap[r]? with
  | some a => .ok a
  | none => .error .index

/-- The numbers at a reference. -/
def World.nums (w : World K) (r : ℕ) : List K :=
  match w.heap[r]? with
  | some (.num l) => l
  | _ => []

/-- The ids at a reference. -/
def World.idsAt (w : World K) (r : ℕ) : List ℕ :=
  match w.heap[r]? with
  | some (.ids l) => l
  | _ => []

/-- `a if boundary else a[self.cells_id]`: the array itself, or a new one. (l.1462-1463, 1720-1721, 1991-1992, 2469-2470) -/
def World.viewOr (w : World K) (x : Grid) (r : ℕ) (boundary : Bool) : Except Err (ℕ ⊕ Arr K) :=
  if boundary then .ok (.inl r) else (Geom.pick (w.nums r) (w.idsAt x.ids)).map fun l => .inr (.num l)

/-- What the body of a query returns: a reference that exists already, or a new array. `get_prop` ends in `np.array(…)`, a copy (helpers.py l.188); so does `get_cells_id`
(l.622). `get_order`, from which that copy is made, is not handed out by the queries considered here. -/
def World.body (w : World K) (x : Grid) : Query → Except Err (ℕ ⊕ Arr K)
  | .size a b _ _ => w.viewOr x (x.d a) b
  | .area a b _ _ => w.viewOr x (x.A a) b
  | .volume b _ _ => w.viewOr x x.V b
  | .ones b _ _ => .ok (.inr (.num (List.replicate (x.g.getN b) 1)))
  | .zeros b _ _ => .ok (.inr (.num (List.replicate (x.g.getN b) 0)))
  | .prop n b _ => match x.props n with
    | none => .error .value
    | some r => match w.viewOr x r b with
      | .ok (.inl r) => .ok (.inr (.num (w.nums r)))
      | y => y
  | .ids b _ => (x.g.getCellsId b).map fun l => .inr (.ids l)

/-- The reference the body returns and the memory after it. -/
def World.alloc (w : World K) : Except Err (ℕ ⊕ Arr K) → Except Err ℕ × List (Arr K)
  | .error e => (.error e, w.heap)
  | .ok (.inl r) => (.ok r, w.heap)
  | .ok (.inr a) => (.ok w.heap.length, w.heap ++ [a])

/-- A call of the query on grid number `o`, through the cache except for properties. (On a hit the model still makes the new array; nothing refers to it.) An object that does not exist: `NameError`,
written as `.attribute`. (decorators at regular_cartesian.py l.425, 467, 588, 1423, 1682, 1963; l.2431) -/
def World.call (w : World K) (o : ℕ) (q : Query) : Except Err ℕ × World K :=
  match w.grids[o]? with
  | none => (.error .attribute, w)
  | some x =>
    let m := w.alloc (w.body x q)
    if q.isProp then (m.1, { w with heap := m.2 })
    else
      let r := lruCall q.max (fun _ => m.1) (w.cache q.fn) (o, q)
      (r.1, { w with heap := m.2, cache := Function.update w.cache q.fn r.2 })

/-- A call by the user: the answer is remembered. -/
def World.ask (w : World K) (o : ℕ) (q : Query) : World K :=
  let r := w.call o q
  { r.2 with log := w.log ++ [⟨o, q, r.1, r.1.bind r.2.look⟩] }

/-- `RegularCartesian(…)` with the sizes `q` (computed as in `Geom.calc`): new arrays for sizes, areas, volumes, no properties yet, and `self.cells_id = self.get_cells_id(False, False, "array")`,
which also puts that array into the cache. (l.153-163) -/
def World.create (w : World K) (g : Dims) (q : Geom K) : World K :=
  let n := w.heap.length
  let x : Grid := ⟨g, fun a => match a with | .x => n | .y => n + 1 | .z => n + 2, fun a => match a with | .x => n + 3 | .y => n + 4 | .z => n + 5, n + 6, fun _ => none, 0⟩
  let w1 : World K := { w with
    heap := w.heap ++ [.num q.dx, .num q.dy, .num q.dz, .num (q.A .x), .num (q.A .y), .num (q.A .z), .num q.V]
    grids := w.grids ++ [x] }
  let r := w1.call w.grids.length (.ids false 0)
  match r.1 with
  | .ok i => { r.2 with grids := w.grids ++ [{ x with ids := i }] }
  | .error _ => r.2

/-- `array * value` with numpy broadcasting of one-dimensional operands. (regular_cartesian.py l.2412) -/
def times (l : List K) : PVal K → Except Err (List K)
  | .num v => .ok (l.map (· * v))
  | .arr m =>
    if m.length = l.length then .ok (List.zipWith (· * ·) l m)
    else match m, l with
      | [v], _ => .ok (l.map (· * v))
      | _, [u] => .ok (m.map (u * ·))
      | _, _ => .error .value

/-- `set_prop(name, value)` for all cells: `self.__props__[name] = self.get_ones(True, False, False) * value`. (l.2412) -/
def World.setAll (w : World K) (o : ℕ) (n : PName) (v : PVal K) : World K :=
  let r := w.call o (.ones true false 0)
  match r.1, r.2.grids[o]? with
  | .ok i, some x =>
    match times (r.2.nums i) v with
    | .ok l => { r.2 with heap := r.2.heap ++ [.num l], grids := r.2.grids.set o { x with props := fun m => if m = n then some r.2.heap.length else x.props m } }
    | .error _ => r.2
  | _, _ => r.2

/-- `set_prop(name, value, id, coords)` for one cell: `self.__props__[name][icoords] = value` changes the array in place. (l.2414-2420) -/
def World.setCell (w : World K) (o : ℕ) (n : PName) (v : K) (id : Option ℤ) (coords : Option (ℤ × ℤ × ℤ)) : World K :=
  match w.grids[o]? with
  | none => w
  | some x => match setPropCell x.g (fun m => (x.props m).map w.nums) n v id coords with
    | .error _ => w
    | .ok p => match x.props n, p n with
      | some r, some l => { w with heap := w.heap.set r (.num l) }
      | _, _ => w

/-- What a caller can do. `write k i v` is `answer[i] = v` for the `k`-th answer, an array of numbers; `writeId` the same for ids. (numpy item assignment; nothing happens here if it is out of range) -/
inductive Event (K : Type) where
  | create (g : Dims) (q : Geom K)
  | ask (o : ℕ) (q : Query)
  | setAll (o : ℕ) (n : PName) (v : PVal K)
  | setCell (o : ℕ) (n : PName) (v : K) (id : Option ℤ) (coords : Option (ℤ × ℤ × ℤ))
  | write (k i : ℕ) (v : K)
  | writeId (k i v : ℕ)

/-- Item assignment. -/
def Arr.setNum (i : ℕ) (v : K) : Arr K → Arr K
  | .num l => .num (l.set i v)
  | a => a
/-- Item assignment. -/
def Arr.setId (i v : ℕ) : Arr K → Arr K
  | .ids l => .ids (l.set i v)
  | a => a

/-- The reference of the `k`-th answer. -/
def World.answer (w : World K) (k : ℕ) : Option ℕ := w.log[k]?.bind fun e => match e.ref with | .ok r => some r | .error _ => none

/-- One event. -/
def World.step (w : World K) : Event K → World K
  | .create g q => w.create g q
  | .ask o q => w.ask o q
  | .setAll o n v => w.setAll o n v
  | .setCell o n v id coords => w.setCell o n v id coords
  | .write k i v => match w.answer k with | some r => { w with heap := w.heap.modify r (Arr.setNum i v) } | none => w
  | .writeId k i v => match w.answer k with | some r => { w with heap := w.heap.modify r (Arr.setId i v) } | none => w

/-- A history from the start of the program. -/
def run (es : List (Event K)) : World K := es.foldl World.step {}

/-! ## Specification: a grid answers from the sizes it was made with and the properties set last; callers cannot change anything by writing into answers -/

/-- A grid as its owner thinks of it. -/
structure SGrid (K : Type) where
  g : Dims
  q : Geom K
  p : Props K

/-- What a query should show. -/
def SGrid.answer (s : SGrid K) : Query → Except Err (Arr K)
  | .size a b _ _ => (Geom.cells s.g (s.q.d a) b).map .num
  | .area a b _ _ => (Geom.cells s.g (s.q.A a) b).map .num
  | .volume b _ _ => (Geom.cells s.g s.q.V b).map .num
  | .ones b _ _ => .ok (.num (List.replicate (s.g.getN b) 1))
  | .zeros b _ _ => .ok (.num (List.replicate (s.g.getN b) 0))
  | .prop n b _ => (getProp s.g s.p n b).map .num
  | .ids b _ => (s.g.getCellsId b).map .ids

/-- The grids after an event; a write changes none. -/
def sstep (s : List (SGrid K)) : Event K → List (SGrid K)
  | .create g q => s ++ [⟨g, q, fun _ => none⟩]
  | .setAll o n v => match s[o]? with
    | some x => match setPropAll x.g x.p n v with
      | .ok p => s.set o { x with p := p }
      | .error _ => s
    | none => s
  | .setCell o n v id coords => match s[o]? with
    | some x => match setPropCell x.g x.p n v id coords with
      | .ok p => s.set o { x with p := p }
      | .error _ => s
    | none => s
  | _ => s

/-- The grids after a history. -/
def sgrids (es : List (Event K)) : List (SGrid K) := es.foldl sstep []

/-- What the questions of a history should show. -/
def expected (es : List (Event K)) : List (ℕ × Query × Except Err (Arr K)) :=
  (es.foldl (fun (st : List (SGrid K) × List (ℕ × Query × Except Err (Arr K))) e =>
    (sstep st.1 e, match e with
      | .ask o q => st.2 ++ [(o, q, match st.1[o]? with | some x => x.answer q | none => .error .attribute)]
      | _ => st.2)) ([], [])).2

/-- What they showed. -/
def shown (es : List (Event K)) : List (ℕ × Query × Except Err (Arr K)) := (run es).log.map fun e => (e.obj, e.query, e.shown)

/-- The answer an event writes into. -/
def Event.target : Event K → Option ℕ
  | .write k _ _ => some k
  | .writeId k _ _ => some k
  | _ => none

/-- Whatever is written into in the history was the answer to a question about another grid than `o`, or about a property. -/
def Spares (o : ℕ) (es : List (Event K)) : Prop :=
  ∀ pre e post k L, es = pre ++ e :: post → e.target = some k → (run pre).log[k]? = some L → L.obj ≠ o ∨ L.query.isProp = true

end
end RF.Alias
