import Verif.Geom.Model
/-!
# Model of geometric factors and transmissibilities

`regular_cartesian.py` l.2663-3004 and `black_oil.py` l.268-356. Queries answer from the current data; what the caches
add is in `Verif/Cache`.
-/
namespace RF

/-- The permeability entries of `__props__`: `None` until set, then one value per cell including boundary cells.
(regular_cartesian.py l.2316-2326, 2410-2411) -/
structure Rock (K : Type) where
  kx : Option (List K)
  ky : Option (List K)
  kz : Option (List K)

/-- `__props__["k" + dir]`. (regular_cartesian.py l.2559-2563) -/
def Rock.k {K : Type} (r : Rock K) : Axis → Option (List K)
  | .x => r.kx | .y => r.ky | .z => r.kz

section
variable {K : Type} [Field K] [DecidableEq K]

/-- Geometric factor, arithmetic form (l.2785-2790 and the like). -/
def gArith (β k1 A1 d1 k2 A2 d2 : K) : K := β * ((k1 + k2) / 2) * ((A1 + A2) / 2) / ((d1 + d2) / 2)

/-- Geometric factor, harmonic form (l.2792-2796 and the like). numpy divides by zero to infinity when `A*k = 0`, which
makes the whole quotient zero; that case is spelled out (it assumes `d ≠ 0`). -/
def gHarm (β k1 A1 d1 k2 A2 d2 : K) : K :=
  if A1 * k1 = 0 ∨ A2 * k2 = 0 then 0 else 2 * β / (d1 / (A1 * k1) + d2 / (A2 * k2))

/-- The formula chosen by the flag. (regular_cartesian.py l.2943-3014) -/
def gForm (arith : Bool) (β k1 A1 d1 k2 A2 d2 : K) : K :=
  if arith then gArith β k1 A1 d1 k2 A2 d2 else gHarm β k1 A1 d1 k2 A2 d2

/-- `np.all(prop == prop[0])`. (regular_cartesian.py l.2678, 2717) -/
def allEqFirst : List K → Bool
  | [] => true
  | a :: t => t.all (fun b => decide (b = a))

/-- Loop of `is_isotropic`, `is_regular`: interior values of each array are constant. (l.2716-2720, 2750-2754) -/
def constCheck (g : Dims) : List (List K) → Except Err Bool
  | [] => .ok true
  | l :: t => do
    let p ← Geom.cells g l false
    if allEqFirst p then constCheck g t else pure false

/-- `is_isotropic` (l.2696-2720). -/
def isIsotropic (g : Dims) (r : Rock K) : Except Err Bool := constCheck g ([r.kx, r.ky, r.kz].filterMap id)

/-- `is_regular` (l.2735-2754). -/
def isRegular (g : Dims) (q : Geom K) : Except Err Bool := constCheck g [q.dx, q.dy, q.dz]

/-- `get_cells_k(dir, boundary, False)` (l.2485-2527, via `get_prop`, l.2430-2483): `ValueError` if not set. -/
def cellsK (g : Dims) (r : Rock K) (a : Axis) (boundary : Bool) : Except Err (List K) :=
  match r.k a with
  | none => .error .value
  | some l => Geom.cells g l boundary

/-- The slices `x[:n-m]`, `x[m:]` combined by the chosen formula (l.2784-2796, 2826-2837, 2864-2875). -/
def offDiag (arith : Bool) (β : K) (n m : ℕ) (k A d : List K) : List K :=
  (List.range (n - m)).map fun p =>
    gForm arith β (k.getD p 0) (A.getD p 0) (d.getD p 0) (k.getD (p + m) 0) (A.getD (p + m) 0) (d.getD (p + m) 0)

/-- `self.is_isotropic and self.is_regular` (l.2784; short-circuit). -/
def arithFlag (g : Dims) (q : Geom K) (r : Rock K) : Except Err Bool := do
  let i ← isIsotropic g r
  if i then isRegular g q else pure false

/-- One diagonal before zeroing: direction `a`, offset `m`. (regular_cartesian.py l.2775-2875) -/
def diagAt (g : Dims) (q : Geom K) (r : Rock K) (β : K) (boundary : Bool) (a : Axis) (m : ℕ) : Except Err (List K) := do
  let k ← cellsK g r a boundary
  let A ← Geom.cells g (q.A a) boundary
  let d ← Geom.cells g (q.d a) boundary
  let arith ← arithFlag g q r
  pure (offDiag arith β (g.getN boundary) m k A d)

/-- `get_cells_G_diag_1` (l.2775-2797). -/
def diag1 (g : Dims) (q : Geom K) (r : Rock K) (β : K) (boundary : Bool) : Except Err (List K) := do
  let a ← g.fdirAt 0
  diagAt g q r β boundary a 1

/-- `x[start::step] = 0`. (regular_cartesian.py l.2807-2837) -/
def zeroStep (start step : ℕ) (l : List K) : List K :=
  l.mapIdx fun p v => if start ≤ p ∧ (p - start) % step = 0 then 0 else v

/-- `x[ids] = 0` (fancy indexing; the ids used by the code are in range). (regular_cartesian.py l.2850-2875) -/
def zeroAt (ids : List ℕ) (l : List K) : List K := l.mapIdx fun p v => if p ∈ ids then 0 else v

/-- The offset `n2` of `get_cells_G_diag_2` (l.2804-2814). -/
def offset2 (g : Dims) (boundary : Bool) : Except Err ℕ := do
  let a ← g.fdirAt 0
  match a with
  | .x => pure (g.getShape boundary).1
  | .y => pure (g.getShape boundary).2.1
  | .z => .error .unbound

/-- `get_cells_G_diag_2` (l.2799-2837): zeroes `diag_1[n2-1::n2]` in place and returns `diag_2`. The result is the pair
of the changed first diagonal and the new second one. -/
def diag2 (g : Dims) (q : Geom K) (r : Rock K) (β : K) (boundary : Bool) (d1 : List K) : Except Err (List K × List K × ℕ) := do
  let n2 ← offset2 g boundary
  let a ← g.fdirAt 1
  let d2 ← diagAt g q r β boundary a n2
  pure (zeroStep (n2 - 1) n2 d1, d2, n2)

/-- `np.arange(0, stop, step)` on naturals. (external code, called at regular_cartesian.py l.2850, 2855) -/
def arangeN (stop step : ℕ) : List ℕ := (List.range ((stop + step - 1) / step)).map (· * step)

/-- `get_cells_G_diag_3` (l.2839-2875): zeroes `diag_2[n3_ + arange(0, nx, n3)]` in place and returns `diag_3`. -/
def diag3 (g : Dims) (q : Geom K) (r : Rock K) (β : K) (boundary : Bool) (d2 : List K) : Except Err (List K × List K × ℕ) := do
  let s := g.getShape boundary
  let n3 := s.1 * s.2.1
  let n3_ := n3 - s.1
  let ids := (arangeN s.1 n3).map (n3_ + ·)
  let d3 ← diagAt g q r β boundary .z n3
  pure (zeroAt ids d2, d3, n3)

/-- `np.diag(v, m) + np.diag(v, -m)`, entry `(i, j)` (also the sparse version). (regular_cartesian.py l.2877-2940) -/
def symDiag (v : List K) (m i j : ℕ) : K :=
  (if j = i + m then v.getD i 0 else 0) + (if i = j + m then v.getD j 0 else 0)

/-- `get_cells_G(boundary, sparse)` (l.2877-2940) as an entry function; dense and sparse only differ in the container. -/
def cellsG (g : Dims) (q : Geom K) (r : Rock K) (β : K) (boundary : Bool) : Except Err (ℕ → ℕ → K) := do
  if g.getD = 0 then throw .unbound
  let d1 ← diag1 g q r β boundary
  if g.getD = 1 then pure (symDiag d1 1)
  else do
    let (d1, d2, n2) ← diag2 g q r β boundary d1
    if g.getD = 2 then pure fun i j => symDiag d1 1 i j + symDiag d2 n2 i j
    else do
      let (d2, d3, n3) ← diag3 g q r β boundary d2
      pure fun i j => symDiag d1 1 i j + symDiag d2 n2 i j + symDiag d3 n3 i j

/-- `get_cell_k(dir, id, coords)` (l.2529-2569). -/
def cellK (g : Dims) (r : Rock K) (a : Axis) (id : Option ℤ) (coords : Option (ℤ × ℤ × ℤ)) : Except Err K :=
  match id, coords with
  | none, none => .error .value
  | _, _ => match r.k a with
    | none => .error .value
    | some l => g.lookup l id coords

/-- Inner loop of `get_cell_G` for one direction, by id (l.2972-3003). -/
def cellGDir (g : Dims) (q : Geom K) (r : Rock K) (β : K) (id : ℤ) (iso : Bool) (a : Axis) (nbrs : List ℕ) :
    Except Err (List (ℕ × K)) := do
  let d ← q.cellD g a (some id) none
  let A ← q.cellA g a (some id) none
  let k ← cellK g r a (some id) none
  nbrs.mapM fun (n : ℕ) => do
    let dn ← q.cellD g a (some (n : ℤ)) none
    let An ← q.cellA g a (some (n : ℤ)) none
    let kn ← cellK g r a (some (n : ℤ)) none
    pure (n, gForm iso β k A d kn An dn)

/-- `get_cell_G(id=…, boundary=…)` (l.2942-3004): the dictionary as a list of items in insertion order. -/
def cellG (g : Dims) (q : Geom K) (r : Rock K) (β : K) (id : ℤ) (boundary : Bool) : Except Err (List (ℕ × K)) := do
  let nb ← g.neighborsId id boundary
  let iso ← isIsotropic g r
  let parts ← g.getFdir.mapM fun a => cellGDir g q r β id iso a (nb.get a)
  pure parts.flatten

/-- `get_cell_trans(cell_id, None, boundary)` (black_oil.py l.268-298). -/
def cellTrans (g : Dims) (q : Geom K) (r : Rock K) (β mu B : K) (id : ℤ) (boundary : Bool) : Except Err (List (ℕ × K)) := do
  let G ← cellG g q r β id boundary
  pure (G.map fun p => (p.1, p.2 / (mu * B)))

/-- `get_cells_trans(False, sparse, vectorize=True)` (black_oil.py l.300-323). -/
def cellsTransVect (g : Dims) (q : Geom K) (r : Rock K) (β mu B : K) : Except Err (ℕ → ℕ → K) := do
  let G ← cellsG g q r β false
  pure fun i j => G i j / (mu * B)

/-- Matrix entry assignment `T[i, j] = v`. (black_oil.py l.300-343) -/
def setEntry (T : ℕ → ℕ → K) (i j : ℕ) (v : K) : ℕ → ℕ → K := fun a b => if a = i ∧ b = j then v else T a b

/-- `self.cells_i_dict[id]`: position of the id in the interior listing, `KeyError` otherwise (black_oil.py l.115). -/
def cellIndex (ids : List ℕ) (id : ℕ) : Except Err ℕ := if id ∈ ids then .ok (ids.idxOf id) else .error .key

/-- `get_cells_trans(False, sparse, vectorize=False)` (black_oil.py l.325-343). -/
def cellsTransLoop (g : Dims) (q : Geom K) (r : Rock K) (β mu B : K) : Except Err (ℕ → ℕ → K) := do
  let ids ← g.getCellsId false
  ids.foldlM (init := fun _ _ => 0) fun T (id : ℕ) => do
    let i ← cellIndex ids id
    let t ← cellTrans g q r β mu B (id : ℤ) false
    t.foldlM (init := T) fun T p => do
      let j ← cellIndex ids p.1
      pure (setEntry T i j p.2)

end
end RF
