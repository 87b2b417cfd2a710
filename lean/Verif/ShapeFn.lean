import Verif.PolyExpr

/-!
# Hand-written shape functions and their derivatives

The expressions of `utils/cells/*.py`, transcribed term by term (`**` is written `^`). In one and two dimensions the
unused coordinates do not occur. Simplified: the functions for several points (`shp_*_multi`, `dshp_*_multi`) apply
these to every row of the array and are not modelled separately.
-/

namespace PM

namespace Shp

open PE (r s t)

/-- `shp_L2`, utils/cells/l2.py 14-18. -/
def shpL2 : List PE := [
  (1 - r : PE) / (2 : Nat),
  (1 + r : PE) / (2 : Nat)]

/-- `dshp_L2`, utils/cells/l2.py 50-51: one row per node. -/
def dshpL2 : List (List PE) := [
  [(-1 : PE) / (2 : Nat)],
  [(1 : PE) / (2 : Nat)]]

/-- `shp_T3`, utils/cells/t3.py 15-17. -/
def shpT3 : List PE := [
  1 - r - s,
  r,
  s]

/-- `dshp_T3`, utils/cells/t3.py 49-50: one row per node. -/
def dshpT3 : List (List PE) := [
  [-1.0,
   -1.0],
  [1.0,
   0.0],
  [0.0,
   1.0]]

/-- `shp_T6`, utils/cells/t6.py 15-27. -/
def shpT6 : List PE := [
  2.0 * r^2 + 4.0 * r * s - 3.0 * r + 2.0 * s^2 - 3.0 * s + 1.0,
  2.0 * r^2 - 1.0 * r,
  2.0 * s^2 - 1.0 * s,
  -4.0 * r^2 - 4.0 * r * s + 4.0 * r,
  4.0 * r * s,
  -4.0 * r * s - 4.0 * s^2 + 4.0 * s]

/-- `dshp_T6`, utils/cells/t6.py 59-70: one row per node. -/
def dshpT6 : List (List PE) := [
  [4.0 * r + 4.0 * s - 3.0,
   4.0 * r + 4.0 * s - 3.0],
  [4.0 * r - 1.0,
   0],
  [0,
   4.0 * s - 1.0],
  [-8.0 * r - 4.0 * s + 4.0,
   -4.0 * r],
  [4.0 * s,
   4.0 * r],
  [-4.0 * s,
   -4.0 * r - 8.0 * s + 4.0]]

/-- `shp_Q4`, utils/cells/q4.py 28-38. -/
def shpQ4 : List PE := [
  0.25 * (1 - r) * (1 - s),
  0.25 * (1 + r) * (1 - s),
  0.25 * (1 + r) * (1 + s),
  0.25 * (1 - r) * (1 + s)]

/-- `dshp_Q4`, utils/cells/q4.py 51-61: one row per node. -/
def dshpQ4 : List (List PE) := [
  [(s - 1) / (4 : Nat),
   (r - 1) / (4 : Nat)],
  [(1 - s) / (4 : Nat),
   (-r - 1) / (4 : Nat)],
  [(s + 1) / (4 : Nat),
   (r + 1) / (4 : Nat)],
  [(-s - 1) / (4 : Nat),
   (1 - r) / (4 : Nat)]]

/-- `shp_Q9`, utils/cells/q9.py 29-64. -/
def shpQ9 : List PE := [
  0.25 * r^2 * s^2 - 0.25 * r^2 * s - 0.25 * r * s^2 + 0.25 * r * s,
  0.25 * r^2 * s^2 - 0.25 * r^2 * s + 0.25 * r * s^2 - 0.25 * r * s,
  0.25 * r^2 * s^2 + 0.25 * r^2 * s + 0.25 * r * s^2 + 0.25 * r * s,
  0.25 * r^2 * s^2 + 0.25 * r^2 * s - 0.25 * r * s^2 - 0.25 * r * s,
  -0.5 * r^2 * s^2 + 0.5 * r^2 * s + 0.5 * s^2 - 0.5 * s,
  -0.5 * r^2 * s^2 + 0.5 * r^2 - 0.5 * r * s^2 + 0.5 * r,
  -0.5 * r^2 * s^2 - 0.5 * r^2 * s + 0.5 * s^2 + 0.5 * s,
  -0.5 * r^2 * s^2 + 0.5 * r^2 + 0.5 * r * s^2 - 0.5 * r,
  1.0 * r^2 * s^2 - 1.0 * r^2 - 1.0 * s^2 + 1.0]

/-- `dshp_Q9`, utils/cells/q9.py 96-135: one row per node. -/
def dshpQ9 : List (List PE) := [
  [0.5 * r * s^2 - 0.5 * r * s - 0.25 * s^2 + 0.25 * s,
   0.5 * r^2 * s - 0.25 * r^2 - 0.5 * r * s + 0.25 * r],
  [0.5 * r * s^2 - 0.5 * r * s + 0.25 * s^2 - 0.25 * s,
   0.5 * r^2 * s - 0.25 * r^2 + 0.5 * r * s - 0.25 * r],
  [0.5 * r * s^2 + 0.5 * r * s + 0.25 * s^2 + 0.25 * s,
   0.5 * r^2 * s + 0.25 * r^2 + 0.5 * r * s + 0.25 * r],
  [0.5 * r * s^2 + 0.5 * r * s - 0.25 * s^2 - 0.25 * s,
   0.5 * r^2 * s + 0.25 * r^2 - 0.5 * r * s - 0.25 * r],
  [-1.0 * r * s^2 + 1.0 * r * s,
   -1.0 * r^2 * s + 0.5 * r^2 + 1.0 * s - 0.5],
  [-1.0 * r * s^2 + 1.0 * r - 0.5 * s^2 + 0.5,
   -1.0 * r^2 * s - 1.0 * r * s],
  [-1.0 * r * s^2 - 1.0 * r * s,
   -1.0 * r^2 * s - 0.5 * r^2 + 1.0 * s + 0.5],
  [-1.0 * r * s^2 + 1.0 * r + 0.5 * s^2 - 0.5,
   -1.0 * r^2 * s + 1.0 * r * s],
  [2.0 * r * s^2 - 2.0 * r,
   2.0 * r^2 * s - 2.0 * s]]

/-- `shp_TET4`, utils/cells/tet4.py 47-49. -/
def shpTET4 : List PE := [
  1 - r - s - t,
  r,
  s,
  t]

/-- `dshp_TET4`, utils/cells/tet4.py 81-84: one row per node. -/
def dshpTET4 : List (List PE) := [
  [-1.0,
   -1.0,
   -1.0],
  [1.0,
   0.0,
   0.0],
  [0.0,
   1.0,
   0.0],
  [0.0,
   0.0,
   1.0]]

/-- `shp_H8`, utils/cells/h8.py 70-139. -/
def shpH8 : List PE := [
  -0.125 * r * s * t + 0.125 * r * s + 0.125 * r * t - 0.125 * r + 0.125 * s * t - 0.125 * s - 0.125 * t + 0.125,
  0.125 * r * s * t - 0.125 * r * s - 0.125 * r * t + 0.125 * r + 0.125 * s * t - 0.125 * s - 0.125 * t + 0.125,
  -0.125 * r * s * t + 0.125 * r * s - 0.125 * r * t + 0.125 * r - 0.125 * s * t + 0.125 * s - 0.125 * t + 0.125,
  0.125 * r * s * t - 0.125 * r * s + 0.125 * r * t - 0.125 * r - 0.125 * s * t + 0.125 * s - 0.125 * t + 0.125,
  0.125 * r * s * t + 0.125 * r * s - 0.125 * r * t - 0.125 * r - 0.125 * s * t - 0.125 * s + 0.125 * t + 0.125,
  -0.125 * r * s * t - 0.125 * r * s + 0.125 * r * t + 0.125 * r - 0.125 * s * t - 0.125 * s + 0.125 * t + 0.125,
  0.125 * r * s * t + 0.125 * r * s + 0.125 * r * t + 0.125 * r + 0.125 * s * t + 0.125 * s + 0.125 * t + 0.125,
  -0.125 * r * s * t - 0.125 * r * s - 0.125 * r * t - 0.125 * r + 0.125 * s * t + 0.125 * s + 0.125 * t + 0.125]

/-- `dshp_H8`, utils/cells/h8.py 171-216: one row per node. -/
def dshpH8 : List (List PE) := [
  [-0.125 * s * t + 0.125 * s + 0.125 * t - 0.125,
   -0.125 * r * t + 0.125 * r + 0.125 * t - 0.125,
   -0.125 * r * s + 0.125 * r + 0.125 * s - 0.125],
  [0.125 * s * t - 0.125 * s - 0.125 * t + 0.125,
   0.125 * r * t - 0.125 * r + 0.125 * t - 0.125,
   0.125 * r * s - 0.125 * r + 0.125 * s - 0.125],
  [-0.125 * s * t + 0.125 * s - 0.125 * t + 0.125,
   -0.125 * r * t + 0.125 * r - 0.125 * t + 0.125,
   -0.125 * r * s - 0.125 * r - 0.125 * s - 0.125],
  [0.125 * s * t - 0.125 * s + 0.125 * t - 0.125,
   0.125 * r * t - 0.125 * r - 0.125 * t + 0.125,
   0.125 * r * s + 0.125 * r - 0.125 * s - 0.125],
  [0.125 * s * t + 0.125 * s - 0.125 * t - 0.125,
   0.125 * r * t + 0.125 * r - 0.125 * t - 0.125,
   0.125 * r * s - 0.125 * r - 0.125 * s + 0.125],
  [-0.125 * s * t - 0.125 * s + 0.125 * t + 0.125,
   -0.125 * r * t - 0.125 * r - 0.125 * t - 0.125,
   -0.125 * r * s + 0.125 * r - 0.125 * s + 0.125],
  [0.125 * s * t + 0.125 * s + 0.125 * t + 0.125,
   0.125 * r * t + 0.125 * r + 0.125 * t + 0.125,
   0.125 * r * s + 0.125 * r + 0.125 * s + 0.125],
  [-0.125 * s * t - 0.125 * s - 0.125 * t - 0.125,
   -0.125 * r * t - 0.125 * r + 0.125 * t + 0.125,
   -0.125 * r * s - 0.125 * r + 0.125 * s + 0.125]]

/-- Entry 0 of `shp_H27`, utils/cells/h27.py 77-298. -/
def shpH27n0 : PE :=
  0.125 * r^2 * s^2 * t^2 - 0.125 * r^2 * s^2 * t - 0.125 * r^2 * s * t^2 + 0.125 * r^2 * s * t - 0.125 * r * s^2
    * t^2 + 0.125 * r * s^2 * t + 0.125 * r * s * t^2 - 0.125 * r * s * t

/-- Entry 1 of `shp_H27`, utils/cells/h27.py 77-298. -/
def shpH27n1 : PE :=
  0.125 * r^2 * s^2 * t^2 - 0.125 * r^2 * s^2 * t - 0.125 * r^2 * s * t^2 + 0.125 * r^2 * s * t + 0.125 * r * s^2
    * t^2 - 0.125 * r * s^2 * t - 0.125 * r * s * t^2 + 0.125 * r * s * t

/-- Entry 2 of `shp_H27`, utils/cells/h27.py 77-298. -/
def shpH27n2 : PE :=
  0.125 * r^2 * s^2 * t^2 - 0.125 * r^2 * s^2 * t + 0.125 * r^2 * s * t^2 - 0.125 * r^2 * s * t + 0.125 * r * s^2
    * t^2 - 0.125 * r * s^2 * t + 0.125 * r * s * t^2 - 0.125 * r * s * t

/-- Entry 3 of `shp_H27`, utils/cells/h27.py 77-298. -/
def shpH27n3 : PE :=
  0.125 * r^2 * s^2 * t^2 - 0.125 * r^2 * s^2 * t + 0.125 * r^2 * s * t^2 - 0.125 * r^2 * s * t - 0.125 * r * s^2
    * t^2 + 0.125 * r * s^2 * t - 0.125 * r * s * t^2 + 0.125 * r * s * t

/-- Entry 4 of `shp_H27`, utils/cells/h27.py 77-298. -/
def shpH27n4 : PE :=
  0.125 * r^2 * s^2 * t^2 + 0.125 * r^2 * s^2 * t - 0.125 * r^2 * s * t^2 - 0.125 * r^2 * s * t - 0.125 * r * s^2
    * t^2 - 0.125 * r * s^2 * t + 0.125 * r * s * t^2 + 0.125 * r * s * t

/-- Entry 5 of `shp_H27`, utils/cells/h27.py 77-298. -/
def shpH27n5 : PE :=
  0.125 * r^2 * s^2 * t^2 + 0.125 * r^2 * s^2 * t - 0.125 * r^2 * s * t^2 - 0.125 * r^2 * s * t + 0.125 * r * s^2
    * t^2 + 0.125 * r * s^2 * t - 0.125 * r * s * t^2 - 0.125 * r * s * t

/-- Entry 6 of `shp_H27`, utils/cells/h27.py 77-298. -/
def shpH27n6 : PE :=
  0.125 * r^2 * s^2 * t^2 + 0.125 * r^2 * s^2 * t + 0.125 * r^2 * s * t^2 + 0.125 * r^2 * s * t + 0.125 * r * s^2
    * t^2 + 0.125 * r * s^2 * t + 0.125 * r * s * t^2 + 0.125 * r * s * t

/-- Entry 7 of `shp_H27`, utils/cells/h27.py 77-298. -/
def shpH27n7 : PE :=
  0.125 * r^2 * s^2 * t^2 + 0.125 * r^2 * s^2 * t + 0.125 * r^2 * s * t^2 + 0.125 * r^2 * s * t - 0.125 * r * s^2
    * t^2 - 0.125 * r * s^2 * t - 0.125 * r * s * t^2 - 0.125 * r * s * t

/-- Entry 8 of `shp_H27`, utils/cells/h27.py 77-298. -/
def shpH27n8 : PE :=
  -0.25 * r^2 * s^2 * t^2 + 0.25 * r^2 * s^2 * t + 0.25 * r^2 * s * t^2 - 0.25 * r^2 * s * t + 0.25 * s^2 * t^2
    - 0.25 * s^2 * t - 0.25 * s * t^2 + 0.25 * s * t

/-- Entry 9 of `shp_H27`, utils/cells/h27.py 77-298. -/
def shpH27n9 : PE :=
  -0.25 * r^2 * s^2 * t^2 + 0.25 * r^2 * s^2 * t + 0.25 * r^2 * t^2 - 0.25 * r^2 * t - 0.25 * r * s^2 * t^2 + 0.25
    * r * s^2 * t + 0.25 * r * t^2 - 0.25 * r * t

/-- Entry 10 of `shp_H27`, utils/cells/h27.py 77-298. -/
def shpH27n10 : PE :=
  -0.25 * r^2 * s^2 * t^2 + 0.25 * r^2 * s^2 * t - 0.25 * r^2 * s * t^2 + 0.25 * r^2 * s * t + 0.25 * s^2 * t^2
    - 0.25 * s^2 * t + 0.25 * s * t^2 - 0.25 * s * t

/-- Entry 11 of `shp_H27`, utils/cells/h27.py 77-298. -/
def shpH27n11 : PE :=
  -0.25 * r^2 * s^2 * t^2 + 0.25 * r^2 * s^2 * t + 0.25 * r^2 * t^2 - 0.25 * r^2 * t + 0.25 * r * s^2 * t^2 - 0.25
    * r * s^2 * t - 0.25 * r * t^2 + 0.25 * r * t

/-- Entry 12 of `shp_H27`, utils/cells/h27.py 77-298. -/
def shpH27n12 : PE :=
  -0.25 * r^2 * s^2 * t^2 - 0.25 * r^2 * s^2 * t + 0.25 * r^2 * s * t^2 + 0.25 * r^2 * s * t + 0.25 * s^2 * t^2
    + 0.25 * s^2 * t - 0.25 * s * t^2 - 0.25 * s * t

/-- Entry 13 of `shp_H27`, utils/cells/h27.py 77-298. -/
def shpH27n13 : PE :=
  -0.25 * r^2 * s^2 * t^2 - 0.25 * r^2 * s^2 * t + 0.25 * r^2 * t^2 + 0.25 * r^2 * t - 0.25 * r * s^2 * t^2 - 0.25
    * r * s^2 * t + 0.25 * r * t^2 + 0.25 * r * t

/-- Entry 14 of `shp_H27`, utils/cells/h27.py 77-298. -/
def shpH27n14 : PE :=
  -0.25 * r^2 * s^2 * t^2 - 0.25 * r^2 * s^2 * t - 0.25 * r^2 * s * t^2 - 0.25 * r^2 * s * t + 0.25 * s^2 * t^2
    + 0.25 * s^2 * t + 0.25 * s * t^2 + 0.25 * s * t

/-- Entry 15 of `shp_H27`, utils/cells/h27.py 77-298. -/
def shpH27n15 : PE :=
  -0.25 * r^2 * s^2 * t^2 - 0.25 * r^2 * s^2 * t + 0.25 * r^2 * t^2 + 0.25 * r^2 * t + 0.25 * r * s^2 * t^2 + 0.25
    * r * s^2 * t - 0.25 * r * t^2 - 0.25 * r * t

/-- Entry 16 of `shp_H27`, utils/cells/h27.py 77-298. -/
def shpH27n16 : PE :=
  -0.25 * r^2 * s^2 * t^2 + 0.25 * r^2 * s^2 + 0.25 * r^2 * s * t^2 - 0.25 * r^2 * s + 0.25 * r * s^2 * t^2 - 0.25
    * r * s^2 - 0.25 * r * s * t^2 + 0.25 * r * s

/-- Entry 17 of `shp_H27`, utils/cells/h27.py 77-298. -/
def shpH27n17 : PE :=
  -0.25 * r^2 * s^2 * t^2 + 0.25 * r^2 * s^2 + 0.25 * r^2 * s * t^2 - 0.25 * r^2 * s - 0.25 * r * s^2 * t^2 + 0.25
    * r * s^2 + 0.25 * r * s * t^2 - 0.25 * r * s

/-- Entry 18 of `shp_H27`, utils/cells/h27.py 77-298. -/
def shpH27n18 : PE :=
  -0.25 * r^2 * s^2 * t^2 + 0.25 * r^2 * s^2 - 0.25 * r^2 * s * t^2 + 0.25 * r^2 * s - 0.25 * r * s^2 * t^2 + 0.25
    * r * s^2 - 0.25 * r * s * t^2 + 0.25 * r * s

/-- Entry 19 of `shp_H27`, utils/cells/h27.py 77-298. -/
def shpH27n19 : PE :=
  -0.25 * r^2 * s^2 * t^2 + 0.25 * r^2 * s^2 - 0.25 * r^2 * s * t^2 + 0.25 * r^2 * s + 0.25 * r * s^2 * t^2 - 0.25
    * r * s^2 + 0.25 * r * s * t^2 - 0.25 * r * s

/-- Entry 20 of `shp_H27`, utils/cells/h27.py 77-298. -/
def shpH27n20 : PE :=
  0.5 * r^2 * s^2 * t^2 - 0.5 * r^2 * s^2 - 0.5 * r^2 * t^2 + 0.5 * r^2 - 0.5 * r * s^2 * t^2 + 0.5 * r * s^2 + 0.5
    * r * t^2 - 0.5 * r

/-- Entry 21 of `shp_H27`, utils/cells/h27.py 77-298. -/
def shpH27n21 : PE :=
  0.5 * r^2 * s^2 * t^2 - 0.5 * r^2 * s^2 - 0.5 * r^2 * t^2 + 0.5 * r^2 + 0.5 * r * s^2 * t^2 - 0.5 * r * s^2 - 0.5
    * r * t^2 + 0.5 * r

/-- Entry 22 of `shp_H27`, utils/cells/h27.py 77-298. -/
def shpH27n22 : PE :=
  0.5 * r^2 * s^2 * t^2 - 0.5 * r^2 * s^2 - 0.5 * r^2 * s * t^2 + 0.5 * r^2 * s - 0.5 * s^2 * t^2 + 0.5 * s^2 + 0.5
    * s * t^2 - 0.5 * s

/-- Entry 23 of `shp_H27`, utils/cells/h27.py 77-298. -/
def shpH27n23 : PE :=
  0.5 * r^2 * s^2 * t^2 - 0.5 * r^2 * s^2 + 0.5 * r^2 * s * t^2 - 0.5 * r^2 * s - 0.5 * s^2 * t^2 + 0.5 * s^2 - 0.5
    * s * t^2 + 0.5 * s

/-- Entry 24 of `shp_H27`, utils/cells/h27.py 77-298. -/
def shpH27n24 : PE :=
  0.5 * r^2 * s^2 * t^2 - 0.5 * r^2 * s^2 * t - 0.5 * r^2 * t^2 + 0.5 * r^2 * t - 0.5 * s^2 * t^2 + 0.5 * s^2 * t
    + 0.5 * t^2 - 0.5 * t

/-- Entry 25 of `shp_H27`, utils/cells/h27.py 77-298. -/
def shpH27n25 : PE :=
  0.5 * r^2 * s^2 * t^2 + 0.5 * r^2 * s^2 * t - 0.5 * r^2 * t^2 - 0.5 * r^2 * t - 0.5 * s^2 * t^2 - 0.5 * s^2 * t
    + 0.5 * t^2 + 0.5 * t

/-- Entry 26 of `shp_H27`, utils/cells/h27.py 77-298. -/
def shpH27n26 : PE :=
  -1.0 * r^2 * s^2 * t^2 + 1.0 * r^2 * s^2 + 1.0 * r^2 * t^2 - 1.0 * r^2 + 1.0 * s^2 * t^2 - 1.0 * s^2 - 1.0 * t^2
    + 1.0

/-- `shp_H27`, utils/cells/h27.py 77-298. -/
def shpH27 : List (PE) := [
  shpH27n0, shpH27n1, shpH27n2, shpH27n3, shpH27n4, shpH27n5, shpH27n6, shpH27n7, shpH27n8, shpH27n9,
  shpH27n10, shpH27n11, shpH27n12, shpH27n13, shpH27n14, shpH27n15, shpH27n16, shpH27n17, shpH27n18,
  shpH27n19, shpH27n20, shpH27n21, shpH27n22, shpH27n23, shpH27n24, shpH27n25, shpH27n26]

/-- Entry 0 of `dshp_H27`, utils/cells/h27.py 330-929. -/
def dshpH27n0 : List PE :=
  [0.25 * r * s^2 * t^2 - 0.25 * r * s^2 * t - 0.25 * r * s * t^2 + 0.25 * r * s * t - 0.125 * s^2 * t^2 + 0.125
    * s^2 * t + 0.125 * s * t^2 - 0.125 * s * t,
   0.25 * r^2 * s * t^2 - 0.25 * r^2 * s * t - 0.125 * r^2 * t^2 + 0.125 * r^2 * t - 0.25 * r * s * t^2 + 0.25
     * r * s * t + 0.125 * r * t^2 - 0.125 * r * t,
   0.25 * r^2 * s^2 * t - 0.125 * r^2 * s^2 - 0.25 * r^2 * s * t + 0.125 * r^2 * s - 0.25 * r * s^2 * t + 0.125
     * r * s^2 + 0.25 * r * s * t - 0.125 * r * s]

/-- Entry 1 of `dshp_H27`, utils/cells/h27.py 330-929. -/
def dshpH27n1 : List PE :=
  [0.25 * r * s^2 * t^2 - 0.25 * r * s^2 * t - 0.25 * r * s * t^2 + 0.25 * r * s * t + 0.125 * s^2 * t^2 - 0.125
    * s^2 * t - 0.125 * s * t^2 + 0.125 * s * t,
   0.25 * r^2 * s * t^2 - 0.25 * r^2 * s * t - 0.125 * r^2 * t^2 + 0.125 * r^2 * t + 0.25 * r * s * t^2 - 0.25
     * r * s * t - 0.125 * r * t^2 + 0.125 * r * t,
   0.25 * r^2 * s^2 * t - 0.125 * r^2 * s^2 - 0.25 * r^2 * s * t + 0.125 * r^2 * s + 0.25 * r * s^2 * t - 0.125
     * r * s^2 - 0.25 * r * s * t + 0.125 * r * s]

/-- Entry 2 of `dshp_H27`, utils/cells/h27.py 330-929. -/
def dshpH27n2 : List PE :=
  [0.25 * r * s^2 * t^2 - 0.25 * r * s^2 * t + 0.25 * r * s * t^2 - 0.25 * r * s * t + 0.125 * s^2 * t^2 - 0.125
    * s^2 * t + 0.125 * s * t^2 - 0.125 * s * t,
   0.25 * r^2 * s * t^2 - 0.25 * r^2 * s * t + 0.125 * r^2 * t^2 - 0.125 * r^2 * t + 0.25 * r * s * t^2 - 0.25
     * r * s * t + 0.125 * r * t^2 - 0.125 * r * t,
   0.25 * r^2 * s^2 * t - 0.125 * r^2 * s^2 + 0.25 * r^2 * s * t - 0.125 * r^2 * s + 0.25 * r * s^2 * t - 0.125
     * r * s^2 + 0.25 * r * s * t - 0.125 * r * s]

/-- Entry 3 of `dshp_H27`, utils/cells/h27.py 330-929. -/
def dshpH27n3 : List PE :=
  [0.25 * r * s^2 * t^2 - 0.25 * r * s^2 * t + 0.25 * r * s * t^2 - 0.25 * r * s * t - 0.125 * s^2 * t^2 + 0.125
    * s^2 * t - 0.125 * s * t^2 + 0.125 * s * t,
   0.25 * r^2 * s * t^2 - 0.25 * r^2 * s * t + 0.125 * r^2 * t^2 - 0.125 * r^2 * t - 0.25 * r * s * t^2 + 0.25
     * r * s * t - 0.125 * r * t^2 + 0.125 * r * t,
   0.25 * r^2 * s^2 * t - 0.125 * r^2 * s^2 + 0.25 * r^2 * s * t - 0.125 * r^2 * s - 0.25 * r * s^2 * t + 0.125
     * r * s^2 - 0.25 * r * s * t + 0.125 * r * s]

/-- Entry 4 of `dshp_H27`, utils/cells/h27.py 330-929. -/
def dshpH27n4 : List PE :=
  [0.25 * r * s^2 * t^2 + 0.25 * r * s^2 * t - 0.25 * r * s * t^2 - 0.25 * r * s * t - 0.125 * s^2 * t^2 - 0.125
    * s^2 * t + 0.125 * s * t^2 + 0.125 * s * t,
   0.25 * r^2 * s * t^2 + 0.25 * r^2 * s * t - 0.125 * r^2 * t^2 - 0.125 * r^2 * t - 0.25 * r * s * t^2 - 0.25
     * r * s * t + 0.125 * r * t^2 + 0.125 * r * t,
   0.25 * r^2 * s^2 * t + 0.125 * r^2 * s^2 - 0.25 * r^2 * s * t - 0.125 * r^2 * s - 0.25 * r * s^2 * t - 0.125
     * r * s^2 + 0.25 * r * s * t + 0.125 * r * s]

/-- Entry 5 of `dshp_H27`, utils/cells/h27.py 330-929. -/
def dshpH27n5 : List PE :=
  [0.25 * r * s^2 * t^2 + 0.25 * r * s^2 * t - 0.25 * r * s * t^2 - 0.25 * r * s * t + 0.125 * s^2 * t^2 + 0.125
    * s^2 * t - 0.125 * s * t^2 - 0.125 * s * t,
   0.25 * r^2 * s * t^2 + 0.25 * r^2 * s * t - 0.125 * r^2 * t^2 - 0.125 * r^2 * t + 0.25 * r * s * t^2 + 0.25
     * r * s * t - 0.125 * r * t^2 - 0.125 * r * t,
   0.25 * r^2 * s^2 * t + 0.125 * r^2 * s^2 - 0.25 * r^2 * s * t - 0.125 * r^2 * s + 0.25 * r * s^2 * t + 0.125
     * r * s^2 - 0.25 * r * s * t - 0.125 * r * s]

/-- Entry 6 of `dshp_H27`, utils/cells/h27.py 330-929. -/
def dshpH27n6 : List PE :=
  [0.25 * r * s^2 * t^2 + 0.25 * r * s^2 * t + 0.25 * r * s * t^2 + 0.25 * r * s * t + 0.125 * s^2 * t^2 + 0.125
    * s^2 * t + 0.125 * s * t^2 + 0.125 * s * t,
   0.25 * r^2 * s * t^2 + 0.25 * r^2 * s * t + 0.125 * r^2 * t^2 + 0.125 * r^2 * t + 0.25 * r * s * t^2 + 0.25
     * r * s * t + 0.125 * r * t^2 + 0.125 * r * t,
   0.25 * r^2 * s^2 * t + 0.125 * r^2 * s^2 + 0.25 * r^2 * s * t + 0.125 * r^2 * s + 0.25 * r * s^2 * t + 0.125
     * r * s^2 + 0.25 * r * s * t + 0.125 * r * s]

/-- Entry 7 of `dshp_H27`, utils/cells/h27.py 330-929. -/
def dshpH27n7 : List PE :=
  [0.25 * r * s^2 * t^2 + 0.25 * r * s^2 * t + 0.25 * r * s * t^2 + 0.25 * r * s * t - 0.125 * s^2 * t^2 - 0.125
    * s^2 * t - 0.125 * s * t^2 - 0.125 * s * t,
   0.25 * r^2 * s * t^2 + 0.25 * r^2 * s * t + 0.125 * r^2 * t^2 + 0.125 * r^2 * t - 0.25 * r * s * t^2 - 0.25
     * r * s * t - 0.125 * r * t^2 - 0.125 * r * t,
   0.25 * r^2 * s^2 * t + 0.125 * r^2 * s^2 + 0.25 * r^2 * s * t + 0.125 * r^2 * s - 0.25 * r * s^2 * t - 0.125
     * r * s^2 - 0.25 * r * s * t - 0.125 * r * s]

/-- Entry 8 of `dshp_H27`, utils/cells/h27.py 330-929. -/
def dshpH27n8 : List PE :=
  [-0.5 * r * s^2 * t^2 + 0.5 * r * s^2 * t + 0.5 * r * s * t^2 - 0.5 * r * s * t,
   -0.5 * r^2 * s * t^2 + 0.5 * r^2 * s * t + 0.25 * r^2 * t^2 - 0.25 * r^2 * t + 0.5 * s * t^2 - 0.5 * s * t - 0.25
     * t^2 + 0.25 * t,
   -0.5 * r^2 * s^2 * t + 0.25 * r^2 * s^2 + 0.5 * r^2 * s * t - 0.25 * r^2 * s + 0.5 * s^2 * t - 0.25 * s^2 - 0.5
     * s * t + 0.25 * s]

/-- Entry 9 of `dshp_H27`, utils/cells/h27.py 330-929. -/
def dshpH27n9 : List PE :=
  [-0.5 * r * s^2 * t^2 + 0.5 * r * s^2 * t + 0.5 * r * t^2 - 0.5 * r * t - 0.25 * s^2 * t^2 + 0.25 * s^2 * t + 0.25
    * t^2 - 0.25 * t,
   -0.5 * r^2 * s * t^2 + 0.5 * r^2 * s * t - 0.5 * r * s * t^2 + 0.5 * r * s * t,
   -0.5 * r^2 * s^2 * t + 0.25 * r^2 * s^2 + 0.5 * r^2 * t - 0.25 * r^2 - 0.5 * r * s^2 * t + 0.25 * r * s^2 + 0.5
     * r * t - 0.25 * r]

/-- Entry 10 of `dshp_H27`, utils/cells/h27.py 330-929. -/
def dshpH27n10 : List PE :=
  [-0.5 * r * s^2 * t^2 + 0.5 * r * s^2 * t - 0.5 * r * s * t^2 + 0.5 * r * s * t,
   -0.5 * r^2 * s * t^2 + 0.5 * r^2 * s * t - 0.25 * r^2 * t^2 + 0.25 * r^2 * t + 0.5 * s * t^2 - 0.5 * s * t + 0.25
     * t^2 - 0.25 * t,
   -0.5 * r^2 * s^2 * t + 0.25 * r^2 * s^2 - 0.5 * r^2 * s * t + 0.25 * r^2 * s + 0.5 * s^2 * t - 0.25 * s^2 + 0.5
     * s * t - 0.25 * s]

/-- Entry 11 of `dshp_H27`, utils/cells/h27.py 330-929. -/
def dshpH27n11 : List PE :=
  [-0.5 * r * s^2 * t^2 + 0.5 * r * s^2 * t + 0.5 * r * t^2 - 0.5 * r * t + 0.25 * s^2 * t^2 - 0.25 * s^2 * t - 0.25
    * t^2 + 0.25 * t,
   -0.5 * r^2 * s * t^2 + 0.5 * r^2 * s * t + 0.5 * r * s * t^2 - 0.5 * r * s * t,
   -0.5 * r^2 * s^2 * t + 0.25 * r^2 * s^2 + 0.5 * r^2 * t - 0.25 * r^2 + 0.5 * r * s^2 * t - 0.25 * r * s^2 - 0.5
     * r * t + 0.25 * r]

/-- Entry 12 of `dshp_H27`, utils/cells/h27.py 330-929. -/
def dshpH27n12 : List PE :=
  [-0.5 * r * s^2 * t^2 - 0.5 * r * s^2 * t + 0.5 * r * s * t^2 + 0.5 * r * s * t,
   -0.5 * r^2 * s * t^2 - 0.5 * r^2 * s * t + 0.25 * r^2 * t^2 + 0.25 * r^2 * t + 0.5 * s * t^2 + 0.5 * s * t - 0.25
     * t^2 - 0.25 * t,
   -0.5 * r^2 * s^2 * t - 0.25 * r^2 * s^2 + 0.5 * r^2 * s * t + 0.25 * r^2 * s + 0.5 * s^2 * t + 0.25 * s^2 - 0.5
     * s * t - 0.25 * s]

/-- Entry 13 of `dshp_H27`, utils/cells/h27.py 330-929. -/
def dshpH27n13 : List PE :=
  [-0.5 * r * s^2 * t^2 - 0.5 * r * s^2 * t + 0.5 * r * t^2 + 0.5 * r * t - 0.25 * s^2 * t^2 - 0.25 * s^2 * t + 0.25
    * t^2 + 0.25 * t,
   -0.5 * r^2 * s * t^2 - 0.5 * r^2 * s * t - 0.5 * r * s * t^2 - 0.5 * r * s * t,
   -0.5 * r^2 * s^2 * t - 0.25 * r^2 * s^2 + 0.5 * r^2 * t + 0.25 * r^2 - 0.5 * r * s^2 * t - 0.25 * r * s^2 + 0.5
     * r * t + 0.25 * r]

/-- Entry 14 of `dshp_H27`, utils/cells/h27.py 330-929. -/
def dshpH27n14 : List PE :=
  [-0.5 * r * s^2 * t^2 - 0.5 * r * s^2 * t - 0.5 * r * s * t^2 - 0.5 * r * s * t,
   -0.5 * r^2 * s * t^2 - 0.5 * r^2 * s * t - 0.25 * r^2 * t^2 - 0.25 * r^2 * t + 0.5 * s * t^2 + 0.5 * s * t + 0.25
     * t^2 + 0.25 * t,
   -0.5 * r^2 * s^2 * t - 0.25 * r^2 * s^2 - 0.5 * r^2 * s * t - 0.25 * r^2 * s + 0.5 * s^2 * t + 0.25 * s^2 + 0.5
     * s * t + 0.25 * s]

/-- Entry 15 of `dshp_H27`, utils/cells/h27.py 330-929. -/
def dshpH27n15 : List PE :=
  [-0.5 * r * s^2 * t^2 - 0.5 * r * s^2 * t + 0.5 * r * t^2 + 0.5 * r * t + 0.25 * s^2 * t^2 + 0.25 * s^2 * t - 0.25
    * t^2 - 0.25 * t,
   -0.5 * r^2 * s * t^2 - 0.5 * r^2 * s * t + 0.5 * r * s * t^2 + 0.5 * r * s * t,
   -0.5 * r^2 * s^2 * t - 0.25 * r^2 * s^2 + 0.5 * r^2 * t + 0.25 * r^2 + 0.5 * r * s^2 * t + 0.25 * r * s^2 - 0.5
     * r * t - 0.25 * r]

/-- Entry 16 of `dshp_H27`, utils/cells/h27.py 330-929. -/
def dshpH27n16 : List PE :=
  [-0.5 * r * s^2 * t^2 + 0.5 * r * s^2 + 0.5 * r * s * t^2 - 0.5 * r * s + 0.25 * s^2 * t^2 - 0.25 * s^2 - 0.25
    * s * t^2 + 0.25 * s,
   -0.5 * r^2 * s * t^2 + 0.5 * r^2 * s + 0.25 * r^2 * t^2 - 0.25 * r^2 + 0.5 * r * s * t^2 - 0.5 * r * s - 0.25
     * r * t^2 + 0.25 * r,
   -0.5 * r^2 * s^2 * t + 0.5 * r^2 * s * t + 0.5 * r * s^2 * t - 0.5 * r * s * t]

/-- Entry 17 of `dshp_H27`, utils/cells/h27.py 330-929. -/
def dshpH27n17 : List PE :=
  [-0.5 * r * s^2 * t^2 + 0.5 * r * s^2 + 0.5 * r * s * t^2 - 0.5 * r * s - 0.25 * s^2 * t^2 + 0.25 * s^2 + 0.25
    * s * t^2 - 0.25 * s,
   -0.5 * r^2 * s * t^2 + 0.5 * r^2 * s + 0.25 * r^2 * t^2 - 0.25 * r^2 - 0.5 * r * s * t^2 + 0.5 * r * s + 0.25
     * r * t^2 - 0.25 * r,
   -0.5 * r^2 * s^2 * t + 0.5 * r^2 * s * t - 0.5 * r * s^2 * t + 0.5 * r * s * t]

/-- Entry 18 of `dshp_H27`, utils/cells/h27.py 330-929. -/
def dshpH27n18 : List PE :=
  [-0.5 * r * s^2 * t^2 + 0.5 * r * s^2 - 0.5 * r * s * t^2 + 0.5 * r * s - 0.25 * s^2 * t^2 + 0.25 * s^2 - 0.25
    * s * t^2 + 0.25 * s,
   -0.5 * r^2 * s * t^2 + 0.5 * r^2 * s - 0.25 * r^2 * t^2 + 0.25 * r^2 - 0.5 * r * s * t^2 + 0.5 * r * s - 0.25
     * r * t^2 + 0.25 * r,
   -0.5 * r^2 * s^2 * t - 0.5 * r^2 * s * t - 0.5 * r * s^2 * t - 0.5 * r * s * t]

/-- Entry 19 of `dshp_H27`, utils/cells/h27.py 330-929. -/
def dshpH27n19 : List PE :=
  [-0.5 * r * s^2 * t^2 + 0.5 * r * s^2 - 0.5 * r * s * t^2 + 0.5 * r * s + 0.25 * s^2 * t^2 - 0.25 * s^2 + 0.25
    * s * t^2 - 0.25 * s,
   -0.5 * r^2 * s * t^2 + 0.5 * r^2 * s - 0.25 * r^2 * t^2 + 0.25 * r^2 + 0.5 * r * s * t^2 - 0.5 * r * s + 0.25
     * r * t^2 - 0.25 * r,
   -0.5 * r^2 * s^2 * t - 0.5 * r^2 * s * t + 0.5 * r * s^2 * t + 0.5 * r * s * t]

/-- Entry 20 of `dshp_H27`, utils/cells/h27.py 330-929. -/
def dshpH27n20 : List PE :=
  [1.0 * r * s^2 * t^2 - 1.0 * r * s^2 - 1.0 * r * t^2 + 1.0 * r - 0.5 * s^2 * t^2 + 0.5 * s^2 + 0.5 * t^2 - 0.5,
   1.0 * r^2 * s * t^2 - 1.0 * r^2 * s - 1.0 * r * s * t^2 + 1.0 * r * s,
   1.0 * r^2 * s^2 * t - 1.0 * r^2 * t - 1.0 * r * s^2 * t + 1.0 * r * t]

/-- Entry 21 of `dshp_H27`, utils/cells/h27.py 330-929. -/
def dshpH27n21 : List PE :=
  [1.0 * r * s^2 * t^2 - 1.0 * r * s^2 - 1.0 * r * t^2 + 1.0 * r + 0.5 * s^2 * t^2 - 0.5 * s^2 - 0.5 * t^2 + 0.5,
   1.0 * r^2 * s * t^2 - 1.0 * r^2 * s + 1.0 * r * s * t^2 - 1.0 * r * s,
   1.0 * r^2 * s^2 * t - 1.0 * r^2 * t + 1.0 * r * s^2 * t - 1.0 * r * t]

/-- Entry 22 of `dshp_H27`, utils/cells/h27.py 330-929. -/
def dshpH27n22 : List PE :=
  [1.0 * r * s^2 * t^2 - 1.0 * r * s^2 - 1.0 * r * s * t^2 + 1.0 * r * s,
   1.0 * r^2 * s * t^2 - 1.0 * r^2 * s - 0.5 * r^2 * t^2 + 0.5 * r^2 - 1.0 * s * t^2 + 1.0 * s + 0.5 * t^2 - 0.5,
   1.0 * r^2 * s^2 * t - 1.0 * r^2 * s * t - 1.0 * s^2 * t + 1.0 * s * t]

/-- Entry 23 of `dshp_H27`, utils/cells/h27.py 330-929. -/
def dshpH27n23 : List PE :=
  [1.0 * r * s^2 * t^2 - 1.0 * r * s^2 + 1.0 * r * s * t^2 - 1.0 * r * s,
   1.0 * r^2 * s * t^2 - 1.0 * r^2 * s + 0.5 * r^2 * t^2 - 0.5 * r^2 - 1.0 * s * t^2 + 1.0 * s - 0.5 * t^2 + 0.5,
   1.0 * r^2 * s^2 * t + 1.0 * r^2 * s * t - 1.0 * s^2 * t - 1.0 * s * t]

/-- Entry 24 of `dshp_H27`, utils/cells/h27.py 330-929. -/
def dshpH27n24 : List PE :=
  [1.0 * r * s^2 * t^2 - 1.0 * r * s^2 * t - 1.0 * r * t^2 + 1.0 * r * t,
   1.0 * r^2 * s * t^2 - 1.0 * r^2 * s * t - 1.0 * s * t^2 + 1.0 * s * t,
   1.0 * r^2 * s^2 * t - 0.5 * r^2 * s^2 - 1.0 * r^2 * t + 0.5 * r^2 - 1.0 * s^2 * t + 0.5 * s^2 + 1.0 * t - 0.5]

/-- Entry 25 of `dshp_H27`, utils/cells/h27.py 330-929. -/
def dshpH27n25 : List PE :=
  [1.0 * r * s^2 * t^2 + 1.0 * r * s^2 * t - 1.0 * r * t^2 - 1.0 * r * t,
   1.0 * r^2 * s * t^2 + 1.0 * r^2 * s * t - 1.0 * s * t^2 - 1.0 * s * t,
   1.0 * r^2 * s^2 * t + 0.5 * r^2 * s^2 - 1.0 * r^2 * t - 0.5 * r^2 - 1.0 * s^2 * t - 0.5 * s^2 + 1.0 * t + 0.5]

/-- Entry 26 of `dshp_H27`, utils/cells/h27.py 330-929. -/
def dshpH27n26 : List PE :=
  [-2.0 * r * s^2 * t^2 + 2.0 * r * s^2 + 2.0 * r * t^2 - 2.0 * r,
   -2.0 * r^2 * s * t^2 + 2.0 * r^2 * s + 2.0 * s * t^2 - 2.0 * s,
   -2.0 * r^2 * s^2 * t + 2.0 * r^2 * t + 2.0 * s^2 * t - 2.0 * t]

/-- `dshp_H27`, utils/cells/h27.py 330-929. -/
def dshpH27 : List (List PE) := [
  dshpH27n0, dshpH27n1, dshpH27n2, dshpH27n3, dshpH27n4, dshpH27n5, dshpH27n6, dshpH27n7, dshpH27n8,
  dshpH27n9, dshpH27n10, dshpH27n11, dshpH27n12, dshpH27n13, dshpH27n14, dshpH27n15, dshpH27n16, dshpH27n17,
  dshpH27n18, dshpH27n19, dshpH27n20, dshpH27n21, dshpH27n22, dshpH27n23, dshpH27n24, dshpH27n25, dshpH27n26]

end Shp

end PM
