import Verif.Prelude
import Verif.Model.Basic
import Mathlib.Algebra.Order.Field.Basic

/-
Set-up of boundary conditions and initial markers (/repo/MDLIB/Setup.c), and the deformation of
the box with the boundary velocities (`PureShearALE`, /repo/MDLIB/AdvectionRoutines.c:408-507).
-/
namespace Verif.Setup
open Verif

/-- `POSITION` (/repo/MDLIB/include/mdoodz.h:220-231). -/
inductive Pos where
  | NE | NW | SE | SW | INTERNAL | N | S | W | E | freeSurface
  deriving DecidableEq, Repr

/-- Position handed to `SetBCVx` for node (`k`, `l`) (Setup.c:228-251). -/
def posVx (Nx Nz k l : Nat) : Pos :=
  if k = 0 then
    if l = Nz then .NW else if l = 0 then .SW else .W
  else if k = Nx - 1 then
    if l = Nz then .NE else if l = 0 then .SE else .E
  else if l = 0 then .S
  else if l = Nz then .N
  else .INTERNAL

/-- Position handed to `SetBCVz` (Setup.c:446-469). -/
def posVz (Nx Nz k l : Nat) : Pos :=
  if k = 0 then
    if l = Nz - 1 then .NW else if l = 0 then .SW else .W
  else if k = Nx then
    if l = Nz - 1 then .NE else if l = 0 then .SE else .E
  else if l = 0 then .S
  else if l = Nz - 1 then .N
  else .INTERNAL

/-- Position handed to `SetBCPType`; `tag` are the pressure tags (Setup.c:570-595). -/
def posP (NCX NCZ : Nat) (tag : Nat → Int) (k l : Nat) : Pos :=
  let c := k + l * NCX
  if k = 0 then
    if l = NCZ - 1 then .NW else if l = 0 then .SW else .W
  else if k = NCX - 1 then
    if l = NCZ - 1 then .NE else if l = 0 then .SE else .E
  else if l = 0 then .S
  else if l = NCZ - 1 then .N
  else if (tag c = -1 ∨ tag c = 1 ∨ tag c = 0) ∧ tag (c + NCX) = 30 then .freeSurface
  else .INTERNAL

/-- `ValidateInternalPoint`: `true` unless the program stops with `exit(144)`
(Setup.c:187-199). -/
def validateInternal (p : Pos) (type : Int) : Bool :=
  if p = .INTERNAL ∧ type ≠ -1 then false
  else if p ≠ .INTERNAL ∧ type = -1 then false
  else true

/-- A boundary condition returned by a callback (`SetBC`, mdoodz.h:258-262). -/
structure BC (K : Type*) where
  type : Int
  value : K
  deriving DecidableEq

section
variable {K : Type*} [Field K]

/-- Tags and values of one velocity component, with the running sums over the western, eastern and
southern nodes (Setup.c:221-222, 438-440). -/
structure Side (K : Type*) where
  type : Nat → Int
  val : Nat → K
  west : K
  east : K
  south : K

/-- Body of the Vx loop for node `c = k + l*Nx` (Setup.c:226-268); `none` is `exit(144)`. -/
def stepVx (Nx Nz : Nat) (cb : Pos → Nat → Nat → BC K) (s : Option (Side K)) (c : Nat) :
    Option (Side K) :=
  s.bind fun b =>
    if b.type c = 30 then some b
    else
      let k := c % Nx
      let l := c / Nx
      let p := posVx Nx Nz k l
      let bc := cb p k l
      if validateInternal p bc.type then
        some { type := upd b.type c bc.type
               val := upd b.val c (if bc.type = 11 then 2 * bc.value else bc.value)
               west := if k = 0 then b.west + bc.value else b.west
               east := if k = 0 then b.east else if k = Nx - 1 then b.east + bc.value else b.east
               south := b.south }
      else none

/-- The Vx part of `SetBCs` (Setup.c:221-270), starting from the tags `type` and values `val`. -/
def setVx (Nx Nz : Nat) (cb : Pos → Nat → Nat → BC K) (type : Nat → Int) (val : Nat → K) :
    Option (Side K) :=
  forGrid Nx (Nz + 1) (some ⟨type, val, 0, 0, 0⟩) (stepVx Nx Nz cb)

/-- Body of the Vz loop for node `c = k + l*(Nx+1)` (Setup.c:444-488). -/
def stepVz (Nx Nz : Nat) (cb : Pos → Nat → Nat → BC K) (s : Option (Side K)) (c : Nat) :
    Option (Side K) :=
  s.bind fun b =>
    if b.type c = 30 then some b
    else
      let k := c % (Nx + 1)
      let l := c / (Nx + 1)
      let p := posVz Nx Nz k l
      let bc := cb p k l
      if validateInternal p bc.type then
        some { type := upd b.type c bc.type
               val := upd b.val c (if bc.type = 11 then 2 * bc.value else bc.value)
               west := if k = 0 then b.west + bc.value else b.west
               east := if k = 0 then b.east else if k = Nx then b.east + bc.value else b.east
               south := if k = 0 then b.south else if k = Nx then b.south
                 else if l = 0 then b.south + bc.value else b.south }
      else none

/-- The Vz part of `SetBCs` (Setup.c:438-490). -/
def setVz (Nx Nz : Nat) (cb : Pos → Nat → Nat → BC K) (type : Nat → Int) (val : Nat → K) :
    Option (Side K) :=
  forGrid (Nx + 1) Nz (some ⟨type, val, 0, 0, 0⟩) (stepVz Nx Nz cb)

/-- `SetPureShearBCVx` (Setup.c:906-919). -/
def pureVx (eps : K) (x : Nat → K) (p : Pos) (k _l : Nat) : BC K :=
  if p = .N ∨ p = .S ∨ p = .NW ∨ p = .SW ∨ p = .NE ∨ p = .SE then ⟨13, 0⟩
  else if p = .W ∨ p = .E then ⟨0, -x k * eps⟩
  else ⟨-1, 0⟩

/-- `SetSimpleShearBCVx` (Setup.c:925-945). -/
def simpleVx (eps Lz : K) (p : Pos) (_k _l : Nat) : BC K :=
  if p = .S ∨ p = .SE ∨ p = .SW then ⟨11, -eps * Lz⟩
  else if p = .N ∨ p = .NE ∨ p = .NW then ⟨11, eps * Lz⟩
  else if p = .E then ⟨-12, 0⟩
  else if p = .W then ⟨-2, 0⟩
  else ⟨-1, 0⟩

/-- `SetPureShearBCVz` (Setup.c:963-976). -/
def pureVz (eps : K) (z : Nat → K) (p : Pos) (_k l : Nat) : BC K :=
  if p = .W ∨ p = .E ∨ p = .SW ∨ p = .SE ∨ p = .NW ∨ p = .NE then ⟨13, 0⟩
  else if p = .S ∨ p = .N then ⟨0, z l * eps⟩
  else ⟨-1, 0⟩

/-- `SetSimpleShearBCVz` (Setup.c:982-995). -/
def simpleVz (p : Pos) (_k _l : Nat) : BC K :=
  if p = .E ∨ p = .W ∨ p = .NE ∨ p = .NW ∨ p = .SE ∨ p = .SW then ⟨-12, 0⟩
  else if p = .S ∨ p = .N then ⟨0, 0⟩
  else ⟨-1, 0⟩

/-- `SetPureOrSimpleShearBCVx` and `...Vz` (Setup.c:951-957, 1001-1007). -/
def shearVx (style : Int) (eps Lz : K) (x : Nat → K) (p : Pos) (k l : Nat) : BC K :=
  if style ≠ 0 then simpleVx eps Lz p k l else pureVx eps x p k l

/-- See `shearVx` (Setup.c:1001-1007). -/
def shearVz (style : Int) (eps : K) (z : Nat → K) (p : Pos) (k l : Nat) : BC K :=
  if style ≠ 0 then simpleVz p k l else pureVz eps z p k l

/-- Body of the pressure loop (Setup.c:567-605): the tags are overwritten in place; `tT` are the
thermal tags, `cb` is `SetBCPType` (`none` is a null pointer). -/
def stepP (NCX NCZ : Nat) (tT : Nat → Int) (cb : Option (Pos → Int)) (tag : Nat → Int) (c : Nat) :
    Nat → Int :=
  let p := posP NCX NCZ tag (c % NCX) (c / NCX)
  if tT c = 30 then tag
  else upd tag c (match cb with | some f => f p | none => -1)

/-- The pressure part of `SetBCs` (Setup.c:567-605). -/
def setP (NCX NCZ : Nat) (tT : Nat → Int) (cb : Option (Pos → Int)) (tag : Nat → Int) :
    Nat → Int :=
  forGrid NCX NCZ tag (stepP NCX NCZ tT cb)

/-! ### Balancing of the side velocities -/

variable [LinearOrder K]

/-- Number of nodes with value zero among the rows `1 .. Nz-1` (Setup.c:276-285, 346-355);
`node l` is the index of the node of row `l` in the column treated. -/
def zeroCount (node : Nat → Nat) (Nz : Nat) (type : Nat → Int) (val : Nat → K) : Nat :=
  forUp (Nz - 1) 0 fun n i =>
    if type (node (i + 1)) = 30 then n else if val (node (i + 1)) = 0 then n + 1 else n

/-- Correction of the zero nodes of the rows `1 .. Nz`, and count of the nodes with non-zero
velocity (Setup.c:290-310, 360-380). -/
def correct (node : Nat → Nat) (Nz : Nat) (tol : K) (type : Nat → Int) (sum : K) (zc : Nat)
    (val : Nat → K) : (Nat → K) × Nat :=
  forUp Nz (val, 0) fun s i =>
    let c := node (i + 1)
    if type c = 30 then s
    else
      let v := if s.1 c = 0 then upd s.1 c (-sum / zc) else s.1
      (v, if tol < v c ∨ v c < -tol then s.2 + 1 else s.2)

/-- One smoothing pass over `nz` values with coefficient `0.3*dt/dx^2`, ends kept
(Setup.c:327-333, 397-403, 537-543). -/
def smoothPass (nz : Nat) (coef : K) (b : Nat → K) : Nat → K := fun l =>
  if 1 ≤ l ∧ l < nz - 1 then b l + coef * (b (l + 1) - 2 * b l + b (l - 1)) else b l

/-- Twenty passes (Setup.c:326, 396, 536); the loop that copies `boundary` and the one that
updates it are `smoothPass`. -/
def smooth (nz : Nat) (coef : K) (b : Nat → K) : Nat → K :=
  forUp 20 b fun b _ => smoothPass nz coef b

/-- Coefficient of the pass: `0.3*dt/pow(dx,2)` with `dt = 1.5*pow(dx,2)`, `dx = space/(nz-1)`
(Setup.c:320-322, 331). -/
def coef (space : K) (nz : Nat) : K :=
  let dx := space / ((nz : K) - 1)
  let dt := 3 / 2 * dx ^ 2
  3 / 10 * dt / dx ^ 2

/-- Balancing of the western or eastern side (Setup.c:275-343, 345-413); `sum` is the sum collected
in the Vx loop, `none` is `exit(144)` when no zero node is left.  `space` stands for
`(gridZmax - zmin)*L`. -/
def balanceX (node : Nat → Nat) (Nz : Nat) (tol space : K) (type : Nat → Int) (sum : K)
    (val : Nat → K) : Option (Nat → K) :=
  if tol < sum ∨ sum < -tol then
    let zc := zeroCount node Nz type val
    if zc = 0 then none
    else
      let r := correct node Nz tol type sum zc val
      let nz := r.2
      let b := smooth nz (coef space nz) (fun i => r.1 (node (i + 1)))
      some (forUp nz r.1 fun v i => upd v (node (i + 1)) (b i))
  else some val

/-- Balancing of the southern side (Setup.c:495-553): all nodes `0 .. Nx` of the row take part in
the count and the correction, nodes `1 .. Nx` in the smoothing. -/
def balanceS (Nx : Nat) (tol space : K) (type : Nat → Int) (sum : K) (val : Nat → K) :
    Option (Nat → K) :=
  if tol < sum ∨ sum < -tol then
    let zc : Nat := forUp (Nx + 1) 0 fun n c => if type c = 30 then n else if val c = 0 then n + 1 else n
    if zc = 0 then none
    else
      let v := forUp (Nx + 1) val fun v c =>
        if type c = 30 then v else if v c = 0 then upd v c (-sum / zc) else v
      let b := smooth Nx (coef space Nx) (fun i => v (i + 1))
      some (forUp Nx v fun v i => upd v (i + 1) (b i))
  else some val

/-! ### Deformation of the box -/

/-- Mean of `v` over the indices `idx i`, `i < n`, whose tag satisfies `ok`
(AdvectionRoutines.c:421-437, 439-470: sum, count, and division if the count is positive). -/
def meanOver (n : Nat) (idx : Nat → Nat) (ok : Nat → Bool) (v : Nat → K) : K :=
  let r := forUp n ((0 : K), (0 : Nat)) fun s i =>
    if ok (idx i) then (s.1 + v (idx i), s.2 + 1) else s
  if 0 < r.2 then r.1 / (r.2 : K) else r.1

/-- Box limits. -/
structure Box (K : Type*) where
  xmin : K
  xmax : K
  zmin : K
  zmax : K

/-- Velocities and tags `PureShearALE` reads: `u_in`, `v_in`, tags of Vx and Vz, prescribed Vz. -/
structure Sides (K : Type*) where
  tu : Nat → Int
  u : Nat → K
  tv : Nat → Int
  v : Nat → K
  bcv : Nat → K

/-- `PureShearALE` (AdvectionRoutines.c:408-507): every side is moved with its mean velocity.
`free` is `free_surface != 0`, `two` is `pure_shear_ALE == 2`, `up` and `alt` are the largest uplift
rate and altitude of the surface chain, `margin` is `10e3/scaling.L`.  The new grid
(`SetGridCoordinates`) is modelled in `Model/GridCoords.lean`. -/
def pureShearALE (Nx Nz : Nat) (dt : K) (free two : Bool) (up alt margin : K) (m : Sides K)
    (b : Box K) : Box K :=
  let VxW := meanOver Nz (fun j => 0 + j * Nx) (fun c => decide (m.tu c = 0)) m.u
  let VxE := meanOver Nz (fun j => (Nx - 1) + j * Nx) (fun c => decide (m.tu c = 0)) m.u
  let VzS := meanOver Nx (fun i => i + 0 * (Nx + 1)) (fun c => decide (m.tv c = 0))
    (if free then m.bcv else m.v)
  let VzN := meanOver Nx (fun i => i + (Nz - 1) * (Nx + 1))
    (fun c => decide (m.tv c = 0 ∨ m.tv c = 30))
    (fun c => if free then (if two then up else 0) + (if m.tv c = 0 then m.bcv c else 0) else m.v c)
  { xmin := b.xmin + VxW * dt
    xmax := b.xmax + VxE * dt
    zmin := b.zmin + VzS * dt
    zmax := if two then alt + margin else b.zmax + VzN * dt }

/-! ### Geometric predicates -/

/-- `IsEllipseCoordinates` (Setup.c:1013-1024); `c`, `s` are cosine and sine of the angle. -/
def isEllipse (c s scalingL cx cz rx rz x z : K) : Bool :=
  let radiusX := rx / 2 / scalingL
  let radiusZ := rz / 2 / scalingL
  let Xn := (x - cx / scalingL) * c - (z + cz / scalingL) * s
  let Zn := (x + cx / scalingL) * s + (z - cz / scalingL) * c
  decide ((Xn / radiusX) ^ 2 + (Zn / radiusZ) ^ 2 - 1 < 0)

/-- `IsRectangleCoordinates` (Setup.c:1030-1038). -/
def isRectangle (c s scalingL cx cz sx sz x z : K) : Bool :=
  let wX := x * c - z * s
  let wZ := x * s + z * c
  decide (cx / scalingL - sx / 2 / scalingL ≤ wX ∧ wX ≤ cx / scalingL + sx / 2 / scalingL ∧
    cz / scalingL - sz / 2 / scalingL ≤ wZ ∧ wZ ≤ cz / scalingL + sz / 2 / scalingL)

end

/-! ### Initial markers -/

/-- `ValidatePhase`: `true` unless the program stops with `exit(144)` (Setup.c:34-39). -/
def validatePhase (phase phases : Int) : Bool := if phase > phases then false else true

/-- The callbacks of `SetParticles`; `none` is a null pointer (Setup.c:45-140).  Simplified: the
callbacks that only see position and phase and default to zero (grain size, porosity, composition,
pressure, stresses, noise) are one list of optional callbacks. -/
structure Callbacks (K : Type*) where
  phase : Option (K × K → Int)
  temperature : Option (K × K → K)
  adjust : Option (K × K → K → Int → Int)
  dual : Option (K × K → Int → Int)
  vx : Option (K × K → K)
  vz : Option (K × K → K)
  density : Option (K × K → Int → K)
  scalars : List (Option (K × K → Int → K))

/-- A marker as `SetParticles` leaves it. -/
structure Marker (K : Type*) where
  x : K
  z : K
  phase : Int
  dual : Int
  T : K
  vx : K
  vz : K
  rho : K
  scalars : List K

/-- The marker the loop body of `SetParticles` fills in (Setup.c:47-138); `rhoTab` is `materials.rho`,
`T0` zero degrees Celsius in scaled units, `eps` the background strain rate.  Not modelled: deformation
gradient and anisotropy angle. -/
def buildMarker {K : Type*} [Field K] (cb : Callbacks K) (rhoTab : Int → K) (T0 eps : K)
    (p : K × K) : Marker K :=
  let ph0 := match cb.phase with | some f => f p | none => 0
  let T := match cb.temperature with | some f => f p | none => T0
  let ph := match cb.adjust with | some f => f p T ph0 | none => ph0
  { x := p.1
    z := p.2
    phase := ph
    dual := match cb.dual with | some f => f p ph | none => ph
    T := T
    vx := match cb.vx with | some f => f p | none => -p.1 * eps
    vz := match cb.vz with | some f => f p | none => p.2 * eps
    rho := match cb.density with | some f => f p ph | none => rhoTab ph
    scalars := cb.scalars.map fun o => match o with | some f => f p ph | none => 0 }

/-- Body of the marker loop of `SetParticles` (Setup.c:46-140): `none` when `ValidatePhase` stops the
program, after the marker is filled in (Setup.c:139). -/
def setParticle {K : Type*} [Field K] (cb : Callbacks K) (phases : Int) (rhoTab : Int → K) (T0 eps : K)
    (p : K × K) : Option (Marker K) :=
  let m := buildMarker cb rhoTab T0 eps p
  if validatePhase m.phase phases then some m else none

/-- The marker loop of `SetParticles` (Setup.c:46-140). -/
def setParticles {K : Type*} [Field K] (cb : Callbacks K) (phases : Int) (rhoTab : Int → K) (T0 eps : K)
    (ps : List (K × K)) : Option (List (Marker K)) :=
  ps.mapM (setParticle cb phases rhoTab T0 eps)

/-- Loading of an initial marker file (`load_initial_markers == 1`, Setup.c:159-174): coordinates and
phases are replaced, everything else is kept and nothing is validated.  Simplified: the file holds
exactly `Nb_part` records. -/
def loadMarkers {K : Type*} (file : List (K × K × Int)) (ms : List (Marker K)) : List (Marker K) :=
  List.zipWith (fun r m => { m with x := r.1, z := r.2.1, phase := r.2.2 }) file ms

/-! ### Default input file name -/

/-- State of the reverse scan of `DefaultTextFilename` (`start`, `end`, characters collected). -/
structure Scan where
  start : Bool
  stop : Bool
  acc : List Char

/-- One step of the reverse scan (Setup.c:1050-1059, 1067-1076). -/
def scanStep (ch : Char) (st : Scan) : Scan :=
  let e := st.stop || ch == '\\' || ch == '/'
  { stop := e
    acc := if st.start && !e then ch :: st.acc else st.acc
    start := st.start || ch == '.' }

/-- `DefaultTextFilename` up to the extension (Setup.c:1044-1076); the first of the two identical scans
only counts. -/
def baseScan (name : List Char) : List Char := (name.foldr scanStep ⟨false, false, []⟩).acc

/-- Bytes allocated for the name (Setup.c:1061-1063). -/
def nameAllocated (name : List Char) : Nat := (baseScan name).length

/-- Result of `DefaultTextFilename` (Setup.c:1078) with the terminator.  The characters fill the whole
allocation, so the base name is not terminated; the model takes the byte behind it to be zero, as
`strcat` needs to find its end. -/
def defaultName (name : List Char) : List Char := baseScan name ++ ['.', 't', 'x', 't', Char.ofNat 0]

end Verif.Setup
