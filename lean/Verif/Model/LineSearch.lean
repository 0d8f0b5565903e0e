import Verif.Prelude
import Verif.Model.Basic
import Mathlib.Analysis.SpecialFunctions.Sqrt

/- Line search of the defect correction (StokesRoutines.c:580-770). -/
namespace Verif.LS
open Verif

/-- Switches: `Newton`, `let_res_grow`, `line_search_min`, and the residuals `resx_f`, `resz_f`,
`resp_f` before the search. -/
structure Cfg where
  newton : Int
  letResGrow : Int
  minStep : ℝ
  rx0 : ℝ
  rz0 : ℝ
  rp0 : ℝ

/-- `ntry` (StokesRoutines.c:603). -/
def ntry : Nat := 6

/-- `minalpha` (StokesRoutines.c:604, 611). -/
noncomputable def minalpha (c : Cfg) : ℝ := if c.newton = 1 then -1 else -5 / 2

/-- `maxalpha` (StokesRoutines.c:605, 612). -/
noncomputable def maxalpha (c : Cfg) : ℝ := if c.newton = 0 then 0 else -c.minStep

/-- Trial step lengths (StokesRoutines.c:632-640): start at `maxalpha`, go down by `dalpha`. -/
noncomputable def alphav (c : Cfg) (kk : Nat) : ℝ :=
  forUp kk (maxalpha c) fun a _ => a - |maxalpha c - minalpha c| / (ntry - 1)

/-- `sqrt(rx^2+rz^2+rp^2)` (StokesRoutines.c:672, 684). -/
noncomputable def norm3 (x z p : ℝ) : ℝ := Real.sqrt (x ^ 2 + z ^ 2 + p ^ 2)
/-- `sqrt(rx^2+rz^2)` (StokesRoutines.c:673, 685). -/
noncomputable def norm2 (x z : ℝ) : ℝ := Real.sqrt (x ^ 2 + z ^ 2)

/-- First index with the smallest value among `0..ntry-1`, by strict comparison
(StokesRoutines.c:672-708; the loops for the four criteria are identical). -/
noncomputable def argmin (f : Nat → ℝ) : Nat :=
  (forUp (ntry - 1) (f 0, 0) fun s k => if f (k + 1) < s.1 then (f (k + 1), k + 1) else s).2

/-- The index `ip` of StokesRoutines.c:670 is set only when some trial has a smaller pressure
residual than the first one; otherwise it is read uninitialised at line 713. -/
noncomputable def ipInitialised (rp : Nat → ℝ) : Prop := ∃ k, 1 ≤ k ∧ k < ntry ∧ rp k < rp 0

/-- Result of the search. -/
structure Out where
  alpha : ℝ
  stagnated : Bool

open Classical in
/-- Selection part of `LineSearchDecoupled` (StokesRoutines.c:710-758).  `rx k`, `rz k`, `rp k` are
the residuals measured at trial `k`.  `fp`/`ip` are computed by the code but not used. -/
noncomputable def select (c : Cfg) (rx rz rp : Nat → ℝ) : Out :=
  let ixzp := argmin fun k => norm3 (rx k) (rz k) (rp k)
  let ixz := argmin fun k => norm2 (rx k) (rz k)
  let ix := argmin rx
  let iz := argmin rz
  let last := alphav c (ntry - 1)
  let s : Bool × ℝ :=
    if norm3 (rx ixzp) (rz ixzp) (rp ixzp) < norm3 c.rx0 c.rz0 c.rp0 then (true, alphav c ixzp)
    else if rx ixz < c.rx0 ∧ rz ixz < c.rz0 then (true, alphav c ixz)
    else if rx ix < c.rx0 then (true, alphav c ix)
    else if rz iz < c.rz0 then (true, alphav c iz)
    else (false, last)
  if |s.2| < 1 / 10 ^ 13 ∨ s.1 = false then
    if c.letResGrow = 1 then { alpha := c.minStep, stagnated := false }
    else { alpha := 0, stagnated := true }
  else { alpha := s.2, stagnated := false }

/-- `ArrayEqualArray(dst, src, n)` (MiscFunctions.c:378-384). -/
def copyArr (n : Nat) (dst src : Nat → ℝ) : Nat → ℝ := forUp n dst fun a k => upd a k (src k)

/-- The three solution fields `u_in`, `v_in`, `p_in`. -/
structure Fields where
  u : Nat → ℝ
  v : Nat → ℝ
  p : Nat → ℝ

/-- Array sizes `nx*nzvx`, `nxvz*nz`, `ncx*ncz`. -/
structure Sizes where
  u : Nat
  v : Nat
  p : Nat

/-- The three copies made before, between and after the trials (StokesRoutines.c:621-623, 643-645,
760-762). -/
def copyFields (n : Sizes) (dst src : Fields) : Fields :=
  { u := copyArr n.u dst.u src.u, v := copyArr n.v dst.v src.v, p := copyArr n.p dst.p src.p }

/-- Content of the freshly allocated save buffers: arbitrary (`DoodzMalloc`, StokesRoutines.c:616-618).
The whole routine (StokesRoutines.c:580-770): save `u,v,p`; per trial restore them, update with step
`alpha` (`extract` is `ExtractSolutions2`), refresh the viscosities (`refresh` is
`UpdateNonLinearity`, which may change everything else on the mesh, `τ`), measure the residual;
select the step; restore the fields.  `residuals` is a local struct, so nothing else is returned. -/
noncomputable def lineSearch {τ : Type} (c : Cfg) (n : Sizes) (malloc : Fields)
    (extract : Fields → ℝ → Fields) (refresh : Fields → τ → τ)
    (measure : Fields → τ → ℝ × ℝ × ℝ) (f : Fields) (t : τ) : Out × Fields × τ :=
  let saved := copyFields n malloc f
  let s := forUp ntry (f, t, fun _ : Nat => ((0, 0, 0) : ℝ × ℝ × ℝ)) fun s kk =>
    let g := extract (copyFields n s.1 saved) (alphav c kk)
    let t' := refresh g s.2.1
    (g, t', upd s.2.2 kk (measure g t'))
  (select c (fun k => (s.2.2 k).1) (fun k => (s.2.2 k).2.1) (fun k => (s.2.2 k).2.2),
    copyFields n s.1 saved, s.2.1)

end Verif.LS
