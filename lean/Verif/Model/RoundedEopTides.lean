import Verif.Model.Rounded
import Verif.Model.EopTides
import Verif.Model.Eop
/-
Tidal variations of the Earth orientation parameters in floating-point arithmetic (src/lib/eop/zonal_tides.cpp, libration.cpp,
ocean_tide_variation.cpp, regularize.cpp): as in `Model/EopTides` and `Model/Eop`, with the rounding `fl` after every operation and every
literal, products fused with a sum excepted (`Model/Arith`). `fsin`, `fcos` are the functions of the C library.
-/
namespace Verif.RoundedEopTides
open Verif Verif.EopTides Verif.Rounded

section
variable (fl : Arith) (fsin fcos : ℝ → ℝ)

/-- `Table81Entry::ksi` (zonal_tides.cpp:14-18). The multipliers become doubles exactly. -/
noncomputable def ksi (e : ZEntry) (f : Fin 5 → ℝ) : ℝ :=
  Rounded.anp fl (fl (fl (fl (fl (fl.pr 0 (f 0 * e.lm) + fl.pr 1 (f 1 * e.lpm)) + fl.pr 2 (f 2 * e.fm)) + fl.pr 3 (f 3 * e.dm)) +
    fl.pr 4 (f 4 * e.om)))

/-- Body of the loop (zonal_tides.cpp:97-102). The amplitudes are integers over 10000, as in `Model/EopTides`. -/
noncomputable def zonalStep (f : Fin 5 → ℝ) (a : Zonal) (e : ZEntry) : Zonal :=
  let k := ksi fl e f
  let sk := fsin k
  let ck := fcos k
  { dut1 := fl (a.dut1 + fl (fl.pr 0 (lit fl (e.dut1B / 10000) * sk) + fl.pr 1 (lit fl (e.dut1C / 10000) * ck)))
    dlod := fl (a.dlod + fl (fl.pr 2 (lit fl (e.dlodB / 10000) * ck) + fl.pr 3 (lit fl (e.dlodC / 10000) * sk)))
    domega := fl (a.domega + fl (fl.pr 4 (lit fl (e.domegaB / 10000) * ck) + fl.pr 5 (lit fl (e.domegaC / 10000) * sk))) }

/-- `deop_zonal_tide` (zonal_tides.cpp:91-110). -/
noncomputable def deopZonalTide (f : Fin 5 → ℝ) : Zonal :=
  let a := table81.foldl (zonalStep fl fsin fcos f) ⟨0, 0, 0⟩
  { a with dut1 := fl (a.dut1 * lit fl 1e2), dlod := fl (a.dlod * lit fl 1e1) }

/-- Body of the loop (libration.cpp:544-550, ocean_tide_variation.cpp:919-925). The amplitudes are integers over 100. -/
noncomputable def diurnalStep (f : Fin 6 → ℝ) (a : Diurnal) (e : DEntry) : Diurnal :=
  let arg := Rounded.argument fl e.dn f
  let sa := fsin arg
  let ca := fcos arg
  { dxp := fl (a.dxp + fl (fl.pr 0 (sa * lit fl (e.xps / 100)) + fl.pr 1 (ca * lit fl (e.xpc / 100))))
    dyp := fl (a.dyp + fl (fl.pr 2 (sa * lit fl (e.yps / 100)) + fl.pr 3 (ca * lit fl (e.ypc / 100))))
    dut1 := fl (a.dut1 + fl (fl.pr 4 (sa * lit fl (e.ut1s / 100)) + fl.pr 5 (ca * lit fl (e.ut1c / 100))))
    dlod := fl (a.dlod + fl (fl.pr 6 (sa * lit fl (e.lods / 100)) + fl.pr 7 (ca * lit fl (e.lodc / 100)))) }

/-- `deop_libration` (libration.cpp:532-554). -/
noncomputable def deopLibration (fargs : Fin 5 → ℝ) (gmst : ℝ) : Diurnal :=
  let dargs := Rounded.delaunay2doodson fl fargs gmst
  table5NoLongTides.foldl (diurnalStep fl fsin fcos dargs) ⟨0, 0, 0, 0⟩

/-- `deop_ocean_tide` (ocean_tide_variation.cpp:908-929). -/
noncomputable def deopOceanTide (fargs : Fin 5 → ℝ) (gmst : ℝ) : Diurnal :=
  let dargs := Rounded.delaunay2doodson fl fargs gmst
  table8.foldl (diurnalStep fl fsin fcos dargs) ⟨0, 0, 0, 0⟩

/-- `regularize_impl` (regularize.cpp:4-22). `cents` is `jcenturies_sinceJ2000` of an epoch (library `datetime`), which `fundarg` calls. -/
noncomputable def regularizeImpl (s2r cents : ℝ → ℝ) (s : Eop.Series ℝ) (addremove : Int) : Eop.Series ℝ :=
  let f : ℝ := if addremove > 0 then lit fl 1e-6 else lit fl (-1e-6)
  { s with vec := s.vec.map fun r =>
      let z := deopZonalTide fl fsin fcos (Rounded.fundarg fl s2r (cents r.t))
      { r with dut := fl (r.dut + fl.pr 0 (z.dut1 * f)), lod := fl (r.lod + fl.pr 1 (z.dlod * f)) } }

/-- `regularize` and `deregularize` (eop.hpp:276-280). -/
noncomputable def regularize (s2r cents : ℝ → ℝ) (s : Eop.Series ℝ) : Eop.Series ℝ := regularizeImpl fl fsin fcos s2r cents s (-1)
noncomputable def deregularize (s2r cents : ℝ → ℝ) (s : Eop.Series ℝ) : Eop.Series ℝ := regularizeImpl fl fsin fcos s2r cents s 1

end

end Verif.RoundedEopTides
