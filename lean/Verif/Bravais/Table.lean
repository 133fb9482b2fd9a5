import Verif.Bravais.Model
import Verif.Bravais.Spec

/-!
# The operations of the crystal classes, listed

For each class its matrices and, for each after the first, the generator and the earlier matrix whose product it is.
-/

namespace Cryspy.Bravais

open Cryspy.Symm

/-- a matrix from its entries increased by one, read as digits to the base three -/
def dec (n : ℕ) : M3 := fun i j => ((n / 3 ^ (8 - (3 * i.val + j.val)) % 3 : ℕ) : ℤ) - 1

/-- the matrices and how they come about -/
def classElems : List (List ℕ × List (ℕ × ℕ)) := [
  ([16484],
   []),
  ([16484, 3198],
   [(0, 0)]),
  ([16484, 3360],
   [(0, 0)]),
  ([16484, 16322],
   [(0, 0)]),
  ([16484, 3360, 3198, 16322],
   [(0, 0), (1, 0), (1, 1)]),
  ([16484, 3200, 3360, 16320],
   [(0, 0), (1, 0), (1, 1)]),
  ([16484, 3200, 16322, 3362],
   [(0, 0), (1, 0), (1, 1)]),
  ([16484, 3360, 16482, 3362],
   [(0, 0), (1, 0), (1, 1)]),
  ([16484, 16320, 16482, 16322],
   [(0, 0), (1, 0), (1, 1)]),
  ([16484, 3200, 3360, 3198, 16320, 16482, 16322, 3362],
   [(0, 0), (1, 0), (2, 0), (1, 1), (2, 1), (2, 2), (2, 4)]),
  ([16484, 7898, 3200, 11786],
   [(0, 0), (0, 1), (0, 2)]),
  ([16484, 11784, 3200, 7896],
   [(0, 0), (0, 1), (0, 2)]),
  ([16484, 7898, 3198, 3200, 11784, 11786, 16482, 7896],
   [(0, 0), (1, 0), (0, 1), (1, 1), (0, 3), (1, 3), (1, 5)]),
  ([16484, 7898, 3360, 3200, 12270, 7410, 11786, 16320],
   [(0, 0), (1, 0), (0, 1), (1, 1), (0, 2), (0, 3), (1, 3)]),
  ([16484, 7898, 16322, 3200, 7412, 12272, 11786, 3362],
   [(0, 0), (1, 0), (0, 1), (1, 1), (0, 2), (0, 3), (1, 3)]),
  ([16484, 11784, 3360, 3200, 7412, 12272, 7896, 16320],
   [(0, 0), (1, 0), (0, 1), (1, 1), (0, 2), (0, 3), (1, 3)]),
  ([16484, 11784, 16322, 3200, 12270, 7410, 7896, 3362],
   [(0, 0), (1, 0), (0, 1), (1, 1), (0, 2), (0, 3), (1, 3)]),
  ([16484, 7898, 3360, 3198, 3200, 12270, 11784, 7410, 16322, 11786, 16320, 16482, 7412, 12272, 7896, 3362],
   [(0, 0), (1, 0), (2, 0), (0, 1), (1, 1), (2, 1), (0, 2), (2, 2), (0, 4), (1, 4), (2, 4), (2, 5), (2, 7), (2, 9), (2, 10)]),
  ([16484, 7817, 5225],
   [(0, 0), (0, 1)]),
  ([16484, 7817, 3198, 5225, 11865, 14457],
   [(0, 0), (1, 0), (0, 1), (1, 1), (1, 3)]),
  ([16484, 7817, 12270, 5225, 14133, 3117],
   [(0, 0), (1, 0), (0, 1), (1, 1), (0, 2)]),
  ([16484, 7817, 7410, 5225, 5547, 16563],
   [(0, 0), (1, 0), (0, 1), (1, 1), (0, 2)]),
  ([16484, 7817, 7412, 5225, 5549, 16565],
   [(0, 0), (1, 0), (0, 1), (1, 1), (0, 2)]),
  ([16484, 7817, 12272, 5225, 14135, 3119],
   [(0, 0), (1, 0), (0, 1), (1, 1), (0, 2)]),
  ([16484, 7817, 12270, 3198, 5225, 14133, 11865, 3117, 7412, 14457, 5549, 16565],
   [(0, 0), (1, 0), (2, 0), (0, 1), (1, 1), (2, 1), (0, 2), (2, 2), (2, 4), (2, 5), (2, 7)]),
  ([16484, 7817, 7410, 3198, 5225, 5547, 11865, 16563, 12272, 14457, 14135, 3119],
   [(0, 0), (1, 0), (2, 0), (0, 1), (1, 1), (2, 1), (0, 2), (2, 2), (2, 4), (2, 5), (2, 7)]),
  ([16484, 14459, 7817, 3200, 5225, 11867],
   [(0, 0), (0, 1), (0, 2), (0, 3), (0, 4)]),
  ([16484, 5223, 7817, 16482, 5225, 7815],
   [(0, 0), (0, 1), (0, 2), (0, 3), (0, 4)]),
  ([16484, 14459, 3198, 7817, 5223, 3200, 11865, 5225, 16482, 11867, 14457, 7815],
   [(0, 0), (1, 0), (0, 1), (1, 1), (0, 3), (1, 3), (0, 5), (1, 5), (0, 7), (1, 7), (1, 9)]),
  ([16484, 14459, 12270, 7817, 16563, 5547, 3200, 14133, 3117, 11867, 5225, 7410],
   [(0, 0), (1, 0), (0, 1), (1, 1), (0, 2), (0, 3), (1, 3), (0, 5), (1, 5), (0, 6), (1, 6)]),
  ([16484, 14459, 7412, 7817, 3119, 14135, 3200, 5549, 16565, 11867, 5225, 12272],
   [(0, 0), (1, 0), (0, 1), (1, 1), (0, 2), (0, 3), (1, 3), (0, 5), (1, 5), (0, 6), (1, 6)]),
  ([16484, 5223, 12270, 7817, 3119, 14135, 16482, 14133, 3117, 7815, 5225, 12272],
   [(0, 0), (1, 0), (0, 1), (1, 1), (0, 2), (0, 3), (1, 3), (0, 5), (1, 5), (0, 6), (1, 6)]),
  ([16484, 5223, 7412, 7817, 16563, 5547, 16482, 5549, 16565, 7815, 5225, 7410],
   [(0, 0), (1, 0), (0, 1), (1, 1), (0, 2), (0, 3), (1, 3), (0, 5), (1, 5), (0, 6), (1, 6)]),
  ([16484, 14459, 12270, 3198, 7817, 16563, 5223, 5547, 7412, 3200, 14133, 11865, 3119, 3117, 11867, 14135, 5225, 7410, 16482, 5549, 16565, 7815, 14457, 12272],
   [(0, 0), (1, 0), (2, 0), (0, 1), (1, 1), (2, 1), (0, 2), (2, 2), (0, 4), (1, 4), (2, 4), (2, 5), (0, 7), (1, 7), (2, 7), (0, 9), (1, 9), (2, 9), (2, 10), (2, 13), (2, 14), (2, 16), (2, 17)]),
  ([16484, 3200, 10816, 10324, 8872, 12064, 9352, 7672, 11992, 7636, 3360, 16320],
   [(0, 0), (1, 0), (1, 1), (0, 2), (1, 2), (0, 3), (1, 3), (1, 4), (0, 5), (1, 8), (1, 9)]),
  ([16484, 3200, 10816, 3198, 10324, 16482, 8872, 12064, 8866, 9352, 7672, 9358, 11992, 10810, 7636, 7618, 10330, 12010, 3360, 7690, 16320, 12046, 16322, 3362],
   [(0, 0), (1, 0), (2, 0), (1, 1), (2, 1), (0, 2), (1, 2), (2, 2), (0, 4), (1, 4), (2, 4), (1, 6), (2, 6), (0, 7), (2, 7), (2, 9), (2, 10), (1, 12), (2, 12), (1, 14), (2, 14), (2, 18), (2, 20)]),
  ([16484, 7898, 10816, 3200, 10498, 3310, 12064, 11786, 10324, 16426, 8872, 9202, 10642, 7672, 9352, 16378, 11992, 7636, 9022, 3250, 12270, 3360, 16320, 7410],
   [(0, 0), (1, 0), (0, 1), (1, 1), (0, 2), (1, 2), (0, 3), (1, 3), (1, 4), (0, 5), (0, 6), (1, 7), (1, 8), (0, 9), (0, 10), (1, 10), (0, 11), (0, 13), (0, 14), (1, 15), (1, 16), (1, 17), (1, 19)]),
  ([16484, 11784, 10816, 3200, 9184, 16372, 12064, 7896, 10324, 3256, 8872, 10480, 9040, 7672, 9352, 3304, 11992, 7636, 10660, 16432, 7412, 3360, 16320, 12272],
   [(0, 0), (1, 0), (0, 1), (1, 1), (0, 2), (1, 2), (0, 3), (1, 3), (1, 4), (0, 5), (0, 6), (1, 7), (1, 8), (0, 9), (0, 10), (1, 10), (0, 11), (0, 13), (0, 14), (1, 15), (1, 16), (1, 17), (1, 19)]),
  ([16484, 7898, 10816, 3198, 3200, 10498, 11784, 3310, 12064, 8866, 11786, 10324, 16482, 16426, 9184, 8872, 16372, 9202, 7618, 10642, 7896, 7672, 9358, 9352, 3256, 16378, 11992, 10810, 7636, 10480, 9040, 9022, 12010, 3250, 10330, 12270, 3304, 3360, 7690, 16320, 12046, 10660, 7410, 16432, 7412, 16322, 3362, 12272],
   [(0, 0), (1, 0), (2, 0), (0, 1), (1, 1), (2, 1), (0, 2), (1, 2), (2, 2), (0, 4), (1, 4), (2, 4), (1, 5), (2, 5), (0, 7), (2, 7), (0, 8), (2, 8), (1, 10), (2, 10), (1, 11), (2, 11), (0, 13), (2, 13), (0, 15), (1, 15), (2, 15), (0, 17), (2, 17), (2, 19), (0, 21), (2, 21), (0, 23), (2, 23), (1, 25), (2, 25), (1, 26), (2, 26), (1, 28), (2, 28), (2, 31), (1, 33), (2, 33), (2, 35), (2, 37), (2, 39), (2, 42)])]

/-- the matrices and how they come about -/
def rhombElems : List (List ℕ × List (ℕ × ℕ)) := [
  ([16484, 10816, 7410, 12064, 3250, 9022],
   [(0, 0), (1, 0), (0, 1), (1, 1), (0, 2)]),
  ([16484, 10816, 12272, 12064, 16432, 10660],
   [(0, 0), (1, 0), (0, 1), (1, 1), (0, 2)]),
  ([16484, 10816, 7410, 3198, 12064, 3250, 8866, 9022, 12272, 7618, 16432, 10660],
   [(0, 0), (1, 0), (2, 0), (0, 1), (1, 1), (2, 1), (0, 2), (2, 2), (2, 4), (2, 5), (2, 7)])]

/-- the matrices and how they come about -/
def rhomb3Elems : List (List ℕ × List (ℕ × ℕ)) := [
  ([16484, 10816, 12064],
   [(0, 0), (0, 1)]),
  ([16484, 10816, 3198, 12064, 8866, 7618],
   [(0, 0), (1, 0), (0, 1), (1, 1), (1, 3)])]

end Cryspy.Bravais
