import Verif.Py
import Mathlib.Data.Rat.Defs
import Mathlib.Algebra.Order.Field.Rat
import Mathlib.Algebra.Order.Field.Basic

/-! Model of `crysgsu/phys/laws.py`. `make_interp_spline(x, y, 1)` is the polygon through the points, with the first and the last line continued
(the value of a `BSpline` of degree 1 with knots `x[0], x[0], ..., x[-1], x[-1]`); scipy raises `ValueError` when the lists have different lengths or
`x` does not increase. Tables with fewer than two points are refused here, which says nothing about scipy. `curve_fit` is an argument. -/

namespace Verif.Laws

/-- A table, a dictionary with the keys `x` and `y`. -/
structure Table (F : Type) where
  x : List F
  y : List F

variable {F : Type} [Field F] [LinearOrder F]

/-- The line through two points, as the sum of the two basis functions. -/
def line (p q : F × F) (v : F) : F := p.2 * ((q.1 - v) / (q.1 - p.1)) + q.2 * ((v - p.1) / (q.1 - p.1))

/-- The value of the polygon: the last interval that begins at or before `v`, else the first one. -/
def polygon (p q : F × F) : List (F × F) → F → F
  | [], v => line p q v
  | r :: t, v => if v < q.1 then line p q v else polygon q r t v

/-- `LinearLaw(table)`, laws.py:71-73: the law is the function it computes. -/
def linearLaw (t : Table F) : Res (F → F) :=
  if t.x.length ≠ t.y.length then .error .value
  else if ¬ t.x.IsChain (· < ·) then .error .value
  else match t.x.zip t.y with
    | p :: q :: r => .ok (fun v => polygon p q r v)
    | _ => .error .value

/-- `_cubic`, laws.py:78-79. -/
def cubic (x a b c d : F) : F := a * x ^ 3 + b * x ^ 2 + c * x + d

/-- `_quadro`, laws.py:81-82. -/
def quadro (x a b c d e : F) : F := a * x ^ 4 + b * x ^ 3 + c * x ^ 2 + d * x + e

/-- `FuncLaw(table, func)`, laws.py:84-93; `fit` is `curve_fit`, `P` the parameters of the function. -/
def funcLaw {P : Type} (fit : (F → P → F) → Table F → P) (t : Table F) (func : F → P → F) : F → F := fun x => func x (fit func t)

/-- `ConstLaw(constant)`, laws.py:95-100. -/
def constLaw (y : F) : F → F := fun _ => y

/-! The tables, laws.py:9-68. The decimal fractions are exact here. -/

/-- `_KilocalorieDjoules`, laws.py:4. -/
def kilocalorie : ℚ := 4186.8

/-- `_water_dynamic_viscosity_data`, laws.py:9-15. -/
def waterDynamicViscosity : Table ℚ where
  x :=
    [0, 5, 10, 20, 30, 40, 50, 60, 70, 80, 90, 100]
  y :=
    [1.787e-3, 1.519e-3, 1.307e-3, 1.002e-3, 0.798e-3, 0.653e-3, 0.547e-3, 0.467e-3, 0.404e-3, 0.355e-3, 0.315e-3, 0.282e-3]

/-- `_water_specific_heat_capacity_data`, laws.py:18-26. -/
def waterSpecificHeatCapacity : Table ℚ where
  x :=
    [-9.0, -8.0, -7.0, -6.0, -5.0, -4.0, -3.0, -2.0, -1.0, 0.0, 1.0, 2.0, 3.0, 4.0, 5.0, 6.0, 7.0, 9.0, 10.0, 11.0, 12.0, 14.0, 15.0, 17.0,
     18.0, 22.0, 23.0, 29.0]
  y :=
    ([1.019, 1.018, 1.017, 1.016, 1.015, 1.014, 1.013, 1.012, 1.011, 1.01, 1.009, 1.008, 1.008, 1.007, 1.006, 1.005, 1.004, 1.004, 1.003,
     1.003, 1.002, 1.002, 1.001, 1.001, 1.0, 1.0, 0.999, 0.999] : List ℚ).map (· * kilocalorie)

/-- `_ice_specific_heat_capacity_data`, laws.py:29-35. -/
def iceSpecificHeatCapacity : Table ℚ where
  x :=
    [-28.0, -27.0, -26.0, -25.0, -24.0, -23.0, -22.0, -21.0, -20.0, -19.0, -18.0, -17.0, -16.0, -15.0, -14.0, -13.0, -12.0, -11.0, -10.0]
  y :=
    ([0.452, 0.454, 0.455, 0.457, 0.459, 0.461, 0.463, 0.466, 0.467, 0.468, 0.470, 0.472, 0.474, 0.476, 0.478, 0.480, 0.481, 0.483, 0.485] : List ℚ).map (· * kilocalorie)

/-- `_air_specific_heat_capacity_data`, laws.py:38-47. -/
def airSpecificHeatCapacity : Table ℚ where
  x :=
    [-50.0, -45.0, -40.0, -35.0, -30.0, -25.0, -20.0, -15.0, -10.0, -5.0, 0.0, 10.0, 15.0, 20.0, 30.0, 40.0, 50.0, 60.0, 70.0, 80.0, 90.0,
     100.0, 110.0, 120.0, 130.0, 140.0, 150.0, 160.0, 170.0, 180.0, 190.0, 200.0, 250.0, 300.0, 350.0, 400.0, 450.0, 500.0, 550.0]
  y :=
    [1013.0, 1013.0, 1013.0, 1013.0, 1013.0, 1011.0, 1009.0, 1009.0, 1009.0, 1007.0, 1005.0, 1005.0, 1005.0, 1005.0, 1005.0, 1005.0,
     1005.0, 1005.0, 1009.0, 1009.0, 1009.0, 1009.0, 1009.0, 1009.0, 1011.0, 1013.0, 1015.0, 1017.0, 1020.0, 1022.0, 1024.0, 1026.0,
     1037.0, 1047.0, 1058.0, 1068.0, 1081.0, 1093.0, 1104.0]

/-- `_vaporization_specific_heat_data`, laws.py:50-55. -/
def vaporizationSpecificHeat : Table ℚ where
  x :=
    [0.0, 10.0, 20.0, 30.0, 50.0, 70.0, 90.0, 100.0, 120.0, 150.0, 180.0, 200.0, 220.0, 250.0, 300.0, 350.0, 370.0, 374.0, 374.15]
  y :=
    [2500, 2470, 2450, 2400, 2380, 2320, 2280, 2260, 2200, 2110, 2010, 1940, 1860, 1700, 1400, 890, 440, 110, 0]

/-- `_sublimation_specific_heat_data`, laws.py:58-69. -/
def sublimationSpecificHeat : Table ℚ where
  x :=
    [-39.0, -38.0, -37.0, -36.0, -35.0, -34.0, -33.0, -32.0, -31.0, -30.0, -29.0, -28.0, -27.0, -26.0, -25.0, -24.0, -23.0, -22.0, -21.0,
     -20.0, -19.0, -18.0, -17.0, -16.0, -15.0, -14.0, -13.0, -12.0, -11.0, -10.0, -9.0, -8.0, -7.0, -6.0, -5.0, -4.0, -3.0, -2.0, -1.0, 0.0]
  y :=
    ([698.4, 697.8, 697.3, 696.8, 696.2, 695.6, 695.1, 694.5, 694.0, 693.4, 692.9, 692.3, 691.8, 691.2, 690.6, 690.0, 689.5, 688.9, 688.6,
     688.1, 687.6, 687.0, 686.5, 685.9, 685.3, 684.7, 684.2, 683.6, 683.1, 682.5, 681.9, 681.4, 680.8, 680.3, 679.7, 679.1, 678.5, 678.0,
     677.6, 676.9] : List ℚ).map (· * kilocalorie)

end Verif.Laws
