import Verif.Model.Icgem
import Verif.Model.RoundedTides
/-
Reading the data section of ICGEM gravity models in floating-point arithmetic (src/lib/icgem): as in `Model/Icgem`, with the rounding `fl` after
every operation, products fused with a sum excepted (`Model/Arith`). The numbers of the file are rounded when they are read. `fsin` and `fcos` are
`std::sin` and `std::cos`; `yr` is `t.diff<FractionalYears>(t0).years()` of the library `datetime`.
-/
namespace Verif.RoundedIcgem
open Verif Verif.Rounded Verif.Icgem

variable {T : Type} (fl : Arith) (fsin fcos : ℝ → ℝ) (yr : T → T → ℝ)

/-- `coeffs.C(degree, order) += C`, and `S` (icgemio_read_data_v1.cpp:64-65, 108-109; icgemio_read_data_v2.cpp:62-63, 95-96), as `Icgem.store`. -/
def store (st : St T) (e : Entry T) (c s : ℝ) : Res (St T) :=
  if st.co.Has e.degree e.order then
    let i := e.degree.toNat
    let j := e.order.toNat
    .ok { st with
      co := { st.co with
        C := Coeffs.put st.co.C i j (fl (st.co.C i j + c))
        S := Coeffs.put st.co.S i j (fl (st.co.S i j + s)) }
      maxN := max st.maxN e.degree
      maxM := max st.maxM e.order
      entry := e }
  else .ub

/-- `(D2PI / entry.period) * dt` (icgemio_read_data_v1.cpp:88-89, 94-95; icgemio_read_data_v2.cpp:80-82, 90-92). -/
noncomputable def arg (e : Entry T) (dt : ℝ) : ℝ := fl (fl (D2PI fl / fl e.period) * dt)

/-- The term `v * f` of version 1; the product may be fused with the sum in `store`. -/
noncomputable def times (v : ℚ) (f : ℝ) : ℝ := fl.pr 0 (fl v * f)

/-- Body of the loop in version 1 (icgemio_read_data_v1.cpp:60-113), as `Icgem.use1`. -/
noncomputable def use1 (n m : Int) (t : T) (st : St T) (e : Entry T) : Res (St T) :=
  if e.degree ≤ n ∧ e.order ≤ m then
    match e.key with
    | .gfc => store fl st e (fl e.C) (fl e.S)
    | .gfct => store fl { st with curN := e.degree, curM := e.order, dt := yr t e.t0 } e (fl e.C) (fl e.S)
    | .trnd => if st.curN = e.degree ∧ st.curM = e.order then store fl st e (times fl e.C st.dt) (times fl e.S st.dt) else .abort
    | .asin =>
      if st.curN = e.degree ∧ st.curM = e.order then
        store fl st e (times fl e.C (fsin (arg fl e st.dt))) (times fl e.S (fsin (arg fl e st.dt)))
      else .abort
    | .acos =>
      if st.curN = e.degree ∧ st.curM = e.order then
        store fl st e (times fl e.C (fcos (arg fl e st.dt))) (times fl e.S (fcos (arg fl e st.dt)))
      else .abort
  else .ok { st with entry := e }

/-- A comparison as a factor: 1 or 0. -/
def flag (k k' : Key) : ℝ := if k = k' then 1 else 0

/-- The term of version 2 for the column `v` (icgemio_read_data_v2.cpp:75-84, 85-94). -/
noncomputable def term2 (e : Entry T) (v : ℚ) (dt : ℝ) : ℝ :=
  let c := fl (fl (fl.pr 0 (fl v * flag e.key .gfc) + fl.pr 1 (fl v * flag e.key .gfct)) + fl.pr 2 (fl (fl v * dt) * flag e.key .trnd))
  if e.key = .asin ∨ e.key = .acos then
    fl (c + fl (fl.pr 3 (fl (fl v * fsin (arg fl e dt)) * flag e.key .asin) + fl.pr 4 (fl (fl v * fcos (arg fl e dt)) * flag e.key .acos)))
  else c

/-- Body of the loop in version 2 (icgemio_read_data_v2.cpp:58-101), as `Icgem.use2`. -/
noncomputable def use2 [LinearOrder T] (n m : Int) (t : T) (st : St T) (e : Entry T) : Res (St T) :=
  if e.t0 ≤ t ∧ t < e.t1 ∧ e.degree ≤ n ∧ e.order ≤ m then
    store fl st e (term2 fl fsin fcos e e.C (yr t e.t0)) (term2 fl fsin fcos e e.S (yr t e.t0))
  else .ok { st with entry := e }

/-- `Icgem::parse_data` (icgemio.hpp:304-314), as `Icgem.parseData`. -/
noncomputable def parseData [LinearOrder T] (cal : Cal T) (h : Header) (junk : Entry T × (Nat → Nat → ℝ))
    (file : Option (List (List Char))) (maxDegree maxOrder : Int) (t : T) (co : Coeffs ℝ) : Res (Nat × Coeffs ℝ) :=
  let n := if maxDegree < 0 then h.maxDegree else maxDegree
  let m := if maxOrder < 0 then n else maxOrder
  if h.v2 then parseWith h (resolve2 cal h.errors) (use2 fl fsin fcos yr n m t) junk file n m co
  else parseWith h (resolve1 cal h.errors) (use1 fl fsin fcos yr n m t) junk file n m co

end Verif.RoundedIcgem
