import Verif.Model.Basic

/-
Splitting the nodes over threads and merging the per-thread matrices.
/repo/MDLIB/StokesAssemblyDecoupled.c:1149-1266 and 2340-2386.
-/
namespace Verif

/-- Loop state of `DomainDecompositionDecoupled` (StokesAssemblyDecoupled.c:1228): arrays
`estart`, `eend` and the running position `x0`. `eend` is a C `int` that can be -1. -/
structure DDSt where
  estart : Nat → Int
  eend : Nat → Int
  x0 : Int

/-- Size of block `ith`, StokesAssemblyDecoupled.c:1229-1238. -/
def blockSize (N nth ith : Nat) : Nat :=
  let eps := N % nth
  let block := (N - eps) / nth
  if ith < nth - 1 then block else block + eps

/-- Loop body, StokesAssemblyDecoupled.c:1233-1244. -/
def ddBody (N nth : Nat) (s : DDSt) (ith : Nat) : DDSt :=
  let x1 := s.x0 + blockSize N nth ith
  { estart := upd s.estart ith s.x0, eend := upd s.eend ith (x1 - 1), x0 := x1 }

/-- `DomainDecompositionDecoupled`, StokesAssemblyDecoupled.c:1226-1245. `junk` = contents of the
freshly allocated arrays. -/
def domainDecomposition (N nth : Nat) (junk : Nat → Int) : DDSt :=
  forUp nth { estart := junk, eend := junk, x0 := 0 } (ddBody N nth)

end Verif
