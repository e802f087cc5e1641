import Verif.Model.Orient
/-
The programs that transform orbits with the Earth orientation of a file: test/costg_benchmark/check_c2i.cpp and
test/unit_tests/i2c_astropy.cpp.

Simplifications as in Model/Orient. A rotation that is not a number (`none`) makes every comparison false. Rounding by `printf` is not modelled.
-/
namespace Verif.Orient
open Verif Verif.Eop Verif.EopTides Verif.EarthRot

/-- The numbers of the record that the transformations use. -/
def eopRec (e : Rec ℝ) : EopRec := ⟨e.xp, e.yp, e.dut, e.lod, e.dX, e.dY⟩

/-! ### check_c2i.cpp -/

/-- The lines dP, dV and dA that are printed for an epoch. -/
structure Diff where
  dP : V3
  dV : V3
  dA : V3

/-- Transformation and differences (check_c2i.cpp:109-137): `c` is the celestial, `t` the terrestrial orbit. -/
noncomputable def diffOf (q : Quat) (lod : ℝ) (c t : Costg.Orbit) : Diff :=
  ⟨q.mat * c.xyz - t.xyz, q.mat * c.vxyz + V3.cross (axis lod) (q.mat * c.xyz) - t.vxyz, q.mat * c.axyz - t.axyz⟩

/-- The loop over the epochs of the celestial orbit (check_c2i.cpp:68-143): exit status and lines printed. The iterator of the terrestrial orbit is
not compared with its end. -/
noncomputable def c2iLoop (dat : ℝ → ℝ) (old : Rec ℝ) : Series ℝ → List Costg.Orbit → List Costg.Orbit → Res (Int × List (Option Diff))
  | _, [], _ => .ok (0, [])
  | ser, c :: cs, ts =>
    let tt := Costg.ttOf c.epoch
    (interpolated dat ser tt old).bind fun (ser, e, inside) =>
      if inside = false then .ok (1, [])
      else (c2i06aAt (tt2ut1 dat) tt (eopRec e)).bind fun q =>
        match ts with
        | [] => .ub
        | t :: ts =>
          if t.epoch ≠ c.epoch then .ok (1, [])
          else (c2iLoop dat old ser cs ts).bind fun (k, ls) => .ok (k, (q.map fun q => diffOf q e.lod c t) :: ls)

/-- The program (check_c2i.cpp:35-146): the records are read from two days before to two days after the first epoch of the terrestrial orbit,
which is taken without a check. -/
noncomputable def checkC2i (tt dat : ℚ → ℚ) (datTT : ℝ → ℝ) (junkT junkC : Fin 10 → ℚ) (junkE : List ℚ) (old : Rec ℝ) (torb corb : Option (List Char))
    (eop : Option (List (List Char))) : Res (Int × List (Option Diff)) :=
  (Costg.parseOrbit junkT torb).bind fun ts => (Costg.parseOrbit junkC corb).bind fun cs =>
    match ts with
    | [] => .ub
    | t :: _ =>
      (series tt dat junkE eop (t.epoch.1 + t.epoch.2 / 86400 - 2) (t.epoch.1 + t.epoch.2 / 86400 + 2)).bind fun
        | none => .ok (1, [])
        | some ser => c2iLoop datTT old ser cs ts

/-! ### i2c_astropy.cpp -/

/-- `parse_ref_orbit` (i2c_astropy.cpp:39-67): no rows if the file cannot be opened; why reading stopped is not looked at. -/
def parseRef (junk : Fin 13 → ℚ) (file : Option (List Char)) : Res (List (Costg.Epoch × List ℚ)) :=
  match file with
  | none => .ok []
  | some t => (Costg.rowsLoop 512 (List.ofFn junk) (In.start t)).bind fun (rs, _) => .ok rs

/-- `tai2tt()` (library `datetime`): 32.184 s later. -/
noncomputable def ttOfTai (e : Costg.Epoch) : Iau.Epoch :=
  ⟨⌊(e.1 : ℝ) + ((e.2 : ℝ) + 32.184) / 86400⌋, Int.fract ((e.1 : ℝ) + ((e.2 : ℝ) + 32.184) / 86400), Int.fract_nonneg _, Int.fract_lt_one _⟩

/-- Three assertions (i2c_astropy.cpp:161-163). -/
def near (tol : ℝ) (a b : V3) : Prop := |a.x - b.x| < tol ∧ |a.y - b.y| < tol ∧ |a.z - b.z| < tol

/-- The assertions of an epoch (i2c_astropy.cpp:154-198): four ways to transform the position, two ways to transform the velocity. -/
noncomputable def refOk (v : List ℚ) (q1 q2 : Quat) (pq : Quat × Quat × V3) (qd : Quat × M3) : Prop :=
  let ri := Costg.vec v 0
  let vi := Costg.vec v 3
  let rc := Costg.vec v 6
  let vc := Costg.vec v 9
  near 9e-2 (q1.conj.mat * ri) rc ∧ near 9e-2 (q2.conj.mat * ri) rc ∧ near 9e-2 (pq.1.conj.mat * (pq.2.1.conj.mat * ri)) rc ∧
    near 9e-5 (pq.1.conj.mat * (pq.2.1.conj.mat * vi + V3.cross pq.2.2 (pq.2.1.conj.mat * ri))) vc ∧
    near 9e-2 (qd.1.conj.mat * ri) rc ∧ near 9e-5 (qd.1.conj.mat * vi + qd.2.transpose * ri) vc

open Classical in
/-- The loop over the epochs (i2c_astropy.cpp:96-203). -/
noncomputable def refLoop (dat : ℝ → ℝ) (old : Rec ℝ) : Series ℝ → List (Costg.Epoch × List ℚ) → Res Int
  | _, [] => .ok 0
  | ser, r :: rs =>
    let tt := ttOfTai r.1
    (oriented dat ser tt old).bind fun (ser, e, inside) =>
      if inside = false then .ok 1
      else (c2i06aAt (tt2ut1 dat) tt (eopRec e)).bind fun q1 => (c2i06aBzAt (tt2ut1 dat) tt (eopRec e)).bind fun q2 =>
        (c2i06aPQAt (tt2ut1 dat) tt (eopRec e)).bind fun pq => (c2i06aDAt (tt2ut1 dat) tt (eopRec e)).bind fun qd =>
        match q1, q2, pq, qd with
        | some q1, some q2, some pq, some qd => if refOk r.2 q1 q2 pq qd then refLoop dat old ser rs else .abort
        | _, _, _, _ => .abort

/-- The program (i2c_astropy.cpp:69-206): exit status 9 if there are no rows; the records are read from two days before the first to two days
after the last row. -/
noncomputable def checkRef (tt dat : ℚ → ℚ) (datTT : ℝ → ℝ) (junk : Fin 13 → ℚ) (junkE : List ℚ) (old : Rec ℝ) (ref : Option (List Char))
    (eop : Option (List (List Char))) : Res Int :=
  (parseRef junk ref).bind fun rs =>
    match rs, rs.getLast? with
    | r :: _, some l =>
      (series tt dat junkE eop (r.1.1 + r.1.2 / 86400 - 2) (l.1.1 + l.1.2 / 86400 + 2)).bind fun
        | none => .ok 1
        | some ser => refLoop datTT old ser rs
    | _, _ => .ok 9

end Verif.Orient
