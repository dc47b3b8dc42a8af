import Verif.Fdm.Model
import Verif.Fdm.Linear
/-!
# Specification of the balance of a cell

The volume flowing into a cell during a step equals the change of the volume stored in it. Flow comes from adjacent cells, over
boundary faces and from wells. Nothing here refers to matrices or to the way they are assembled.
-/
namespace RF.Fdm
open Finset

variable {K : Type} [Field K]

/-- Id of the interior cell at a position of the interior listing. -/
def Env.at (e : Env K) (i : ℕ) : ℕ := e.ids.getD i 0

/-- The one interior cell behind boundary cell `b`, with the transmissibility between the two. -/
def Env.Face (e : Env K) (b id : ℕ) (T : K) : Prop := e.transC b false = .ok [(id, T)]

/-- Transmissibility between two interior cells as `get_cell_trans` reports it, by position. -/
def Env.transS (e : Env K) (i j : ℕ) : K :=
  match e.transC (e.at i) true with
  | .ok l => (dictGet l (e.at j)).getD 0
  | .error _ => 0

/-- Inflow into the cell at position `i` over the boundary cell of a condition, at cell pressure `p`; `rate` are the rates
imposed on boundary cells. Half a cell away from the face the transmissibility is doubled. -/
def boundaryIn (e : Env K) (rate : ℕ → K) (p : K) (i : ℕ) (c : ℕ × String × K) : K :=
  match e.transC c.1 false with
  | .ok [(id, T)] =>
    if id = e.at i then
      if c.2.1 = "pressure" then 2 * T * (c.2.2 - p - e.grav * (e.z c.1 - e.z id)) else rate c.1
    else 0
  | _ => 0

/-- Flow from a well into its cell at cell pressure `p`: the imposed rate, or well index times pressure difference. -/
def wellFlow (e : Env K) (w : Well K) (p : K) : K :=
  match w.con with
  | some .q => w.q.getD 0
  | some .pwf => w.G.getD 0 / (e.B * e.mu) * (w.pwf.getD 0 - p)
  | none => 0

/-- Inflow into the cell at position `i` from a well, at cell pressure `p`. -/
def wellIn (e : Env K) (p : K) (i : ℕ) (w : ℕ × Well K) : K := if w.1 = e.at i then wellFlow e w.2 p else 0

/-- Everything that flows into the cell at position `i` from outside the reservoir. -/
def outsideIn (e : Env K) (m : Mdl K) (rate : ℕ → K) (p : K) (i : ℕ) : K :=
  (m.bdict.map (boundaryIn e rate p i)).sum + (m.wells.map (wellIn e p i)).sum

/-- Net inflow into the cell at position `i` minus the change of its stored volume, when the interior pressures (by position)
go from `old` to `x` and `T` are the transmissibilities between cells: this has to vanish. -/
def excess (e : Env K) (T : ℕ → ℕ → K) (m : Mdl K) (rate : ℕ → K) (old x : ℕ → K) (i : ℕ) : K :=
  ∑ j ∈ range e.n, T i j * (x j - x i - e.grav * (e.z (e.at j) - e.z (e.at i))) + outsideIn e m rate (x i) i
    - e.rhs (e.at i) * (x i - old i)

/-- The interior cell behind a boundary cell; corner and edge cells have none. -/
def Env.behind (e : Env K) (b : ℕ) : Option ℕ :=
  match e.transC b false with
  | .ok [(id, _)] => some id
  | _ => none

/-- Net flow from the other cells into the cell at position `i` at interior pressures `x` (by position). -/
def flowIn (e : Env K) (T : ℕ → ℕ → K) (x : ℕ → K) (i : ℕ) : K :=
  ∑ j ∈ range e.n, T i j * (x j - x i - e.grav * (e.z (e.at j) - e.z (e.at i)))

/-- What a row `r` of the rate table says about the cell at position `i`: the rates recorded for the boundary cells in front of it
and the rate recorded for the cell itself, its well. -/
def recordedIn (e : Env K) (r : ℕ → K) (i : ℕ) : K :=
  (e.bnd.map fun b => if e.behind b = some (e.at i) then r b else 0).sum + r (e.at i)

/-! ### Conductances to the outside -/

/-- What a pressure condition on boundary cell `b` takes from the diagonal of position `i`. -/
def faceLeak (e : Env K) (i b : ℕ) : K :=
  match e.transC b false with
  | .ok [(id, T)] => if id = e.at i then 2 * T else 0
  | _ => 0

/-- Well index over viscosity and volume factor. -/
def windex (e : Env K) (w : Well K) : K := w.G.getD 0 / (e.B * e.mu)

/-- Conductance from the cell at position `i` to a pressure boundary. -/
def bLeak (e : Env K) (i : ℕ) (c : ℕ × String × K) : K := if c.2.1 = "pressure" then faceLeak e i c.1 else 0

/-- Conductance from the cell at position `i` to the bottom hole of a pressure-constrained well. -/
def wLeak (e : Env K) (i : ℕ) (w : ℕ × Well K) : K := if w.1 = e.at i ∧ w.2.con = some .pwf then windex e w.2 else 0

/-- All conductances from the cell at position `i` to something of given pressure (its own previous pressure included). -/
def leak (e : Env K) (m : Mdl K) (i : ℕ) : K :=
  e.rhs (e.at i) + (m.bdict.map (bLeak e i)).sum + (m.wells.map (wLeak e i)).sum

/-! ### Systems -/

/-- `x` solves the linear system `A x = d` of size `n`. -/
def Solves (n : ℕ) (A : ℕ → ℕ → K) (d x : ℕ → K) : Prop := ∀ i, i < n → ∑ j ∈ range n, A i j * x j = d i

/-- Interior pressures of a stored row, by position. -/
def Sol.inner (e : Env K) (s : Sol K) (t : ℕ) : ℕ → K := fun i => (rowAt s.press t none (e.at i)).getD 0

/-- Gravity plays no part between interior cells: the fluid has no density given, or the cells are at the same depth. -/
def Env.Flat (e : Env K) : Prop := e.grav = 0 ∨ ∀ i, i < e.n → e.z (e.at i) = e.z (e.at 0)

/-- Gravity plays no part at all: boundary cells are at that depth, too. -/
def Env.Level (e : Env K) : Prop :=
  e.grav = 0 ∨ ∀ id id', (id ∈ e.ids ∨ id ∈ e.bnd) → (id' ∈ e.ids ∨ id' ∈ e.bnd) → e.z id = e.z id'

/-! ### Well-formed environments, models and wells -/

variable [LinearOrder K]

/-- What holds for the environment of every grid with positive sizes, permeabilities, viscosity and volume factor (proved in
`Verif/Fdm/FromGrid.lean`). -/
structure Env.WF (e : Env K) : Prop where
  nodup : e.ids.Nodup
  pos : 0 < e.n
  symm : ∀ i j, e.transV i j = e.transV j i
  diag : ∀ i, i < e.n → e.transV i i = 0
  nonneg : ∀ i j, i < e.n → j < e.n → 0 ≤ e.transV i j
  conn : ∀ i j, i < e.n → j < e.n → Relation.ReflTransGen (Net.Link e.n e.transV) i j
  bnodup : e.bnd.Nodup
  disj : ∀ b, b ∈ e.bnd → b ∉ e.ids
  lt : ∀ id, id ∈ e.ids ∨ id ∈ e.bnd → id < e.nAll
  face : ∀ b, b ∈ e.bnd → e.transC b false = .ok [] ∨ ∃ id T, id ∈ e.ids ∧ 0 ≤ T ∧ e.Face b id T
  nbr : ∀ b l, b ∈ e.bnd → e.transC b false = .ok l → ∃ N, e.nbrs b = .ok N ∧ N.all = l.map (·.1)
  mu : 0 < e.mu
  B : 0 < e.B
  rhsC : e.comp = true → ∀ id, id ∈ e.ids → 0 < e.rhs id
  rhsI : e.comp = false → ∀ id, e.rhs id = 0

/-- What the symbolic assembly needs of the environment, which holds for every grid (`Verif/Fdm/FromGrid2.lean`): the
transmissibilities reported for a cell belong to its interior neighbours and its boundary cells, each once, and the one of a
boundary cell is the one reported for that boundary cell. -/
structure Env.Sym (e : Env K) : Prop where
  cell : ∀ id, id ∈ e.ids → ∃ N B l, e.nbrs id = .ok N ∧ e.bnds id = .ok B ∧ e.transC id true = .ok l ∧ (l.map (·.1)).Nodup ∧
    N.all.Nodup ∧ B.all.Nodup ∧ (∀ k, k ∈ N.all → k ∈ e.ids ∧ k ≠ id) ∧ (∀ k, k ∈ B.all → k ∈ e.bnd) ∧
    (∀ k, k ∈ l.map (·.1) ↔ k ∈ N.all ∨ k ∈ B.all) ∧ (∀ b T, b ∈ e.bnd → (e.Face b id T ↔ (b, T) ∈ l))

/-- A well as `set_well` leaves it and `solve` keeps it: well index positive, bottom-hole pressure and its limit known, the rate
known under a rate constraint, the bottom-hole pressure at the limit under a pressure constraint; a well with a target rate has a
rate, one without is not under rate constraint and stays at its limit. -/
structure WellOK (w : Well K) : Prop where
  G : ∃ G, w.G = some G ∧ 0 < G
  pwf : ∃ p, w.pwf = some p
  sp : ∃ p, w.pwfsp = some p
  q : w.con = some .q → ∃ q, w.q = some q
  lim : w.con = some .pwf → w.pwf = w.pwfsp
  tgt : ∀ qs, w.qsp = some qs → ∃ q, w.q = some q
  free : w.qsp = none → w.pwf = w.pwfsp ∧ w.con ≠ some .q

/-- A model as `set_boundaries` and `set_well` leave it. -/
structure MdlOK (e : Env K) (m : Mdl K) : Prop where
  bkeys : (m.bdict.map (·.1)).Nodup
  bmem : ∀ x, x ∈ m.bdict → x.1 ∈ e.bnd
  upd : m.bUpdate = (m.bdict.filter fun x => decide (x.2.1 = "pressure")).map (·.1)
  wkeys : (m.wells.map (·.1)).Nodup
  wmem : ∀ x, x ∈ m.wells → x.1 ∈ e.ids
  well : ∀ x, x ∈ m.wells → WellOK x.2

/-- No well is held at bottom-hole pressure zero (see `C48`). -/
def NoZeroPwf (m : Mdl K) : Prop := ∀ x, x ∈ m.wells → x.2.con = some .pwf → x.2.pwfsp ≠ some 0

/-- The reservoir is compressible, or a face with positive transmissibility has a pressure condition, or a well is under pressure
constraint. -/
def Anchored (e : Env K) (m : Mdl K) : Prop :=
  e.comp = true ∨ (∃ c id T, c ∈ m.bdict ∧ c.2.1 = "pressure" ∧ e.Face c.1 id T ∧ 0 < T) ∨ ∃ w, w ∈ m.wells ∧ w.2.con = some .pwf

/-- The pressure conditions are spelled `"pressure"` and only those are read as such. -/
def Canonical (lower : String → String) (m : Mdl K) : Prop :=
  ∀ c, c ∈ m.bdict → (lower c.2.1 ∈ ["pressure", "press", "p"] ↔ c.2.1 = "pressure")

/-- The value given with a boundary condition. -/
def givenRate (m : Mdl K) (b : ℕ) : K := ((dictGet m.bdict b).map (·.2)).getD 0

/-- What is used about Python's `str.lower`: it keeps `"pressure"` and `"rate"`. -/
def LowerOK (lower : String → String) : Prop := lower "pressure" = "pressure" ∧ lower "rate" = "rate"

end RF.Fdm
