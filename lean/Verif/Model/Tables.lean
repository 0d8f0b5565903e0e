import Verif.Model.Density

/-
Tables of densities and free energies read when the model is set up (/repo/MDLIB/InputOutput.c): the quartz-coesite table of density
model 4 (1397-1475), the ten phase diagrams of density model 2 (1477-1645), the kinetic data (1647-1663) and `ReadBin` (1701-1713).
A file is the list of the doubles it holds; a missing file stops the run and is not modelled further.  Real arithmetic.
-/
namespace Verif.Tab
open Verif

/-- Memory behind a table pointer after `fread` of `n` doubles from `file` (1421-1422, 1709): what the file does not provide is what was there
before (`old`). -/
noncomputable def fread (n : Nat) (file : List ℝ) (old : Int → ℝ) : Int → ℝ :=
  fun i => if 0 ≤ i ∧ i < n then file[i.toNat]?.getD (old i) else old i

/-- `ArrayTimesScalar` (MiscFunctions.c:170-177) on the `n` entries of a table. -/
noncomputable def times (n : Nat) (s : ℝ) (a : Int → ℝ) : Int → ℝ :=
  fun i => if 0 ≤ i ∧ i < n then a i * s else a i

/-- `ReadBin` (1701-1713): `malloc` leaves the memory as it was (`mem`). -/
noncomputable def readBin (nx ny : Nat) (scale : ℝ) (file : List ℝ) (mem : Int → ℝ) : Int → ℝ :=
  times (nx * ny) (1 / scale) (fread (nx * ny) file mem)

/-- Sizes and limits of a phase diagram, in SI units. -/
structure Diagram where
  nT : Nat
  nP : Nat
  Tlo : ℝ
  Thi : ℝ
  Plo : ℝ
  Phi : ℝ

/-- The ten phase diagrams (1504-1645). -/
noncomputable def diagrams : List Diagram :=
  [⟨1000, 1000, 473, 2273, 100e6, 15e9⟩, ⟨1500, 1500, 273, 2273, 1e5, 25e9⟩, ⟨1000, 1000, 573, 1273, 100e6, 5.1e9⟩,
   ⟨1249, 1249, 373, 1373, 10.13e6, 5.5816e9⟩, ⟨793, 793, 373, 1373, 10.13e6, 5.5816e9⟩, ⟨1249, 1249, 373, 1373, 10.13e6, 5.5816e9⟩,
   ⟨1249, 1249, 373, 1373, 10.13e6, 5.5816e9⟩, ⟨1249, 1249, 373, 1373, 10.13e6, 5.5816e9⟩, ⟨793, 793, 373, 1373, 10.13e6, 5.5816e9⟩,
   ⟨675, 2500, 398 + 1e-3, 800 + 273, 0.0090 / 10 * 1e9, 49.9890 / 10 * 1e9⟩]

/-- The table of free energies (1656-1662). -/
noncomputable def kinetic : Diagram := ⟨675, 2500, 398 + 1e-3, 800 + 273, 0.0090 / 10 * 1e9, 49.9890 / 10 * 1e9⟩

/-- What the checks of the density models say (1480-1493): `none` is `exit(5)`, otherwise whether the diagrams are read (`isPD`).  `dens`
and `pd` are `density_model` and `phase_diagram` of the phases. -/
def checkModels (n : Nat) (dens pd : Nat → Int) : Option Bool :=
  forUp n (some false) fun s k =>
    match s with
    | none => none
    | some isPD =>
      let isPD := if dens k = 2 then true else isPD
      if dens k = 2 ∧ pd k = -1 then none else some isPD

/-- Material that looks its density up in diagram `d` read from `file` (1511-1517; RheologyDensity.c:1449-1452); `sT`, `sS`, `sR` are
the units of temperature, stress and density. -/
noncomputable def withDiagram (m : Dens.Mat) (d : Diagram) (sT sS sR : ℝ) (file : List ℝ) (mem : Int → ℝ) : Dens.Mat :=
  { m with dens := 2, nT := d.nT, nP := d.nP, Tlo := d.Tlo / sT, Thi := d.Thi / sT, Plo := d.Plo / sS, Phi := d.Phi / sS, tab2 := readBin d.nT d.nP sR file mem }

/-- Density of the diagram at temperature and pressure in model units. -/
noncomputable def Diagram.density (d : Diagram) (sT sS sR : ℝ) (file : List ℝ) (mem : Int → ℝ) (T P : ℝ) : ℝ :=
  Melt.lookup2 d.nT d.nP (d.Tlo / sT) (d.Thi / sT) (d.Plo / sS) (d.Phi / sS) (readBin d.nT d.nP sR file mem) T P

/-- One step of the smoothing (1438-1445): `dt` is `dP*dP/Kdiff/2.1` with `Kdiff` one. -/
noncomputable def smoothStep (n : Nat) (dP : ℝ) (rho0 : Nat → ℝ) : Nat → ℝ :=
  let dt := dP * dP / 1 / 2.1
  forUp (n - 2) rho0 fun rho j =>
    let ix := j + 1
    let qW := -1 * (rho0 ix - rho0 (ix - 1)) / dP
    let qE := -1 * (rho0 (ix + 1) - rho0 ix) / dP
    upd rho ix (rho0 ix - dt * (qE - qW) / dP)

/-- The smoothing (1438-1446). -/
noncomputable def smooth (n : Nat) (dP : ℝ) (steps : Nat) (rho : Nat → ℝ) : Nat → ℝ :=
  forUp steps rho fun r _ => smoothStep n dP r

/-- Limits and size of the table of density model 4 (1414-1416). -/
noncomputable def lo1 (sS : ℝ) : ℝ := 1e5 / sS
/-- See `lo1`. -/
noncomputable def hi1 (sS : ℝ) : ℝ := 1e10 / sS
/-- See `lo1`. -/
def n1 : Nat := 10000

/-- The table of density model 4 after reading (memory is zero before), scaling and smoothing (1417-1446). -/
noncomputable def coesite (sS sR : ℝ) (file : List ℝ) : Nat → ℝ :=
  smooth n1 ((hi1 sS - lo1 sS) / (n1 - 1 : ℕ)) 200 fun i => fread n1 file (fun _ => 0) i / sR

/-- The same as memory: outside the table anything. -/
noncomputable def coesiteMem (sS sR : ℝ) (file : List ℝ) (mem : Int → ℝ) : Int → ℝ :=
  fun i => if 0 ≤ i ∧ i < n1 then coesite sS sR file i.toNat else mem i

/-- Density of model 4 at a pressure in model units (RheologyDensity.c:1597-1612). -/
noncomputable def coesiteDensity (sS sR : ℝ) (file : List ℝ) (mem : Int → ℝ) (P : ℝ) : ℝ :=
  Melt.lookup1 n1 (lo1 sS) (hi1 sS) (coesiteMem sS sR file mem) P

end Verif.Tab
