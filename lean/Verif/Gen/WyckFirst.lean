/-!
Generated by tools/gen_wyck_first.py from cryspy/A_functions_base/wyckoff.dat: the first listed
coordinates of the 4873 positions of all cards, each distinct one once: nine coefficients, row after
row, and the three constants in 24ths.
-/

namespace Cryspy.Wyck

/-- cryspy/A_functions_base/wyckoff.dat:1-12477 -/
def firstPositions : List (List Int) := [
  [1, 0, 0, 0, 1, 0, 0, 0, 1, 0, 0, 0],
  [0, 0, 0, 0, 0, 0, 0, 0, 0, 12, 12, 12],
  [0, 0, 0, 0, 0, 0, 0, 0, 0, 0, 12, 12],
  [0, 0, 0, 0, 0, 0, 0, 0, 0, 12, 0, 12],
  [0, 0, 0, 0, 0, 0, 0, 0, 0, 12, 12, 0],
  [0, 0, 0, 0, 0, 0, 0, 0, 0, 12, 0, 0],
  [0, 0, 0, 0, 0, 0, 0, 0, 0, 0, 12, 0],
  [0, 0, 0, 0, 0, 0, 0, 0, 0, 0, 0, 12],
  [0, 0, 0, 0, 0, 0, 0, 0, 0, 0, 0, 0],
  [0, 0, 0, 0, 0, 0, 0, 0, 0, 12, 6, 6],
  [0, 0, 0, 0, 0, 0, 0, 0, 0, 12, 6, 18],
  [0, 0, 0, 0, 0, 0, 0, 0, 0, 0, 6, 18],
  [0, 0, 0, 0, 0, 0, 0, 0, 0, 0, 6, 6],
  [0, 0, 0, 0, 0, 0, 0, 0, 0, 18, 12, 6],
  [0, 0, 0, 0, 0, 0, 0, 0, 0, 6, 12, 6],
  [0, 0, 0, 0, 0, 0, 0, 0, 0, 6, 0, 6],
  [0, 0, 0, 0, 0, 0, 0, 0, 0, 18, 0, 6],
  [0, 0, 0, 0, 0, 0, 0, 0, 0, 6, 6, 12],
  [0, 0, 0, 0, 0, 0, 0, 0, 0, 6, 18, 12],
  [0, 0, 0, 0, 0, 0, 0, 0, 0, 6, 18, 0],
  [0, 0, 0, 0, 0, 0, 0, 0, 0, 6, 6, 0],
  [0, 0, 0, 0, 0, 0, 0, 0, 0, 6, 6, 6],
  [0, 0, 0, 0, 0, 0, 0, 0, 0, 18, 6, 6],
  [0, 0, 0, 0, 0, 0, 0, 0, 0, 6, 18, 6],
  [0, 0, 0, 0, 0, 0, 0, 0, 0, 6, 6, 18],
  [0, 0, 0, 0, 0, 0, 0, 0, 0, 16, 20, 8],
  [0, 0, 0, 0, 0, 0, 0, 0, 0, 4, 20, 8],
  [0, 0, 0, 0, 0, 0, 0, 0, 0, 4, 8, 8],
  [0, 0, 0, 0, 0, 0, 0, 0, 0, 8, 4, 4],
  [0, 0, 0, 0, 0, 0, 0, 0, 0, 20, 4, 4],
  [0, 0, 0, 0, 0, 0, 0, 0, 0, 20, 16, 4],
  [0, 0, 0, 0, 1, 0, 0, 0, 0, 12, 0, 12],
  [0, 0, 0, 0, 1, 0, 0, 0, 0, 12, 0, 0],
  [0, 0, 0, 0, 1, 0, 0, 0, 0, 0, 0, 12],
  [0, 0, 0, 0, 1, 0, 0, 0, 0, 0, 0, 0],
  [0, 0, 0, 0, 0, 0, 0, 0, 1, 12, 12, 0],
  [0, 0, 0, 0, 0, 0, 0, 0, 1, 0, 12, 0],
  [0, 0, 0, 0, 0, 0, 0, 0, 1, 12, 0, 0],
  [0, 0, 0, 0, 0, 0, 0, 0, 1, 0, 0, 0],
  [1, 0, 0, 0, 0, 0, 0, 0, 0, 0, 12, 12],
  [1, 0, 0, 0, 0, 0, 0, 0, 0, 0, 0, 12],
  [1, 0, 0, 0, 0, 0, 0, 0, 0, 0, 12, 0],
  [1, 0, 0, 0, 0, 0, 0, 0, 0, 0, 0, 0],
  [1, 0, 0, 0, 0, 0, 0, 0, 1, 0, 12, 0],
  [1, 0, 0, 0, 0, 0, 0, 0, 1, 0, 0, 0],
  [1, 0, 0, 0, 1, 0, 0, 0, 0, 0, 0, 12],
  [1, 0, 0, 0, 1, 0, 0, 0, 0, 0, 0, 0],
  [0, 0, 0, 0, 1, 0, 0, 0, 1, 12, 0, 0],
  [0, 0, 0, 0, 1, 0, 0, 0, 1, 0, 0, 0],
  [1, 0, 0, 0, 0, 0, 0, 0, 1, 0, 6, 0],
  [1, 0, 0, 0, 1, 0, 0, 0, 0, 0, 0, 6],
  [0, 0, 0, 0, 1, 0, 0, 0, 1, 6, 0, 0],
  [0, 0, 0, 0, 0, 0, 0, 0, 0, 18, 6, 18],
  [0, 0, 0, 0, 0, 0, 0, 0, 0, 18, 18, 6],
  [0, 0, 0, 0, 0, 0, 0, 0, 0, 6, 18, 18],
  [0, 0, 0, 0, 1, 0, 0, 0, 0, 12, 0, 6],
  [0, 0, 0, 0, 1, 0, 0, 0, 0, 0, 0, 6],
  [0, 0, 0, 0, 1, 0, 0, 0, 0, 18, 0, 6],
  [0, 0, 0, 0, 1, 0, 0, 0, 0, 18, 0, 18],
  [0, 0, 0, 0, 1, 0, 0, 0, 0, 18, 0, 12],
  [0, 0, 0, 0, 1, 0, 0, 0, 0, 6, 0, 0],
  [0, 0, 0, 0, 0, 0, 0, 0, 1, 6, 12, 0],
  [0, 0, 0, 0, 0, 0, 0, 0, 1, 6, 0, 0],
  [0, 0, 0, 0, 0, 0, 0, 0, 1, 6, 18, 0],
  [0, 0, 0, 0, 0, 0, 0, 0, 1, 18, 18, 0],
  [0, 0, 0, 0, 0, 0, 0, 0, 1, 12, 18, 0],
  [0, 0, 0, 0, 0, 0, 0, 0, 1, 0, 6, 0],
  [1, 0, 0, 0, 0, 0, 0, 0, 0, 0, 6, 12],
  [1, 0, 0, 0, 0, 0, 0, 0, 0, 0, 6, 0],
  [1, 0, 0, 0, 0, 0, 0, 0, 0, 0, 6, 18],
  [1, 0, 0, 0, 0, 0, 0, 0, 0, 0, 18, 18],
  [1, 0, 0, 0, 0, 0, 0, 0, 0, 0, 12, 18],
  [1, 0, 0, 0, 0, 0, 0, 0, 0, 0, 0, 6],
  [0, 0, 0, 0, 0, 0, 0, 0, 0, 12, 18, 6],
  [0, 0, 0, 0, 0, 0, 0, 0, 0, 0, 18, 6],
  [0, 0, 0, 0, 0, 0, 0, 0, 0, 18, 18, 12],
  [0, 0, 0, 0, 0, 0, 0, 0, 0, 18, 18, 18],
  [0, 0, 0, 0, 0, 0, 0, 0, 0, 6, 12, 18],
  [0, 0, 0, 0, 0, 0, 0, 0, 0, 6, 0, 18],
  [0, 0, 0, 0, 0, 0, 0, 0, 0, 12, 18, 18],
  [0, 0, 0, 0, 0, 0, 0, 0, 0, 18, 6, 12],
  [0, 0, 0, 0, 0, 0, 0, 0, 0, 18, 6, 0],
  [0, 0, 0, 0, 0, 0, 0, 0, 0, 18, 12, 18],
  [1, 0, 0, 0, 0, 0, 0, 0, 0, 0, 0, 18],
  [0, 0, 0, 0, 1, 0, 0, 0, 0, 18, 0, 0],
  [0, 0, 0, 0, 0, 0, 0, 0, 1, 0, 18, 0],
  [0, 0, 0, 0, 0, 0, 0, 0, 1, 6, 6, 0],
  [1, 0, 0, 0, 0, 0, 0, 0, 0, 0, 6, 6],
  [0, 0, 0, 0, 1, 0, 0, 0, 0, 6, 0, 6],
  [0, 0, 0, 0, 1, 0, 0, 0, 0, 6, 0, 18],
  [0, 0, 0, 0, 0, 0, 0, 0, 1, 18, 6, 0],
  [1, 0, 0, 0, 0, 0, 0, 0, 0, 0, 18, 6],
  [0, 0, 0, 0, 1, 0, 0, 0, 0, 0, 0, 18],
  [0, 0, 0, 0, 0, 0, 0, 0, 1, 18, 0, 0],
  [1, 0, 0, 0, 0, 0, 0, 0, 0, 0, 18, 0],
  [1, 0, 0, 0, 0, 0, 0, 0, 0, 0, 12, 6],
  [0, 0, 0, 0, 0, 0, 0, 0, 0, 12, 12, 6],
  [0, 0, 0, 0, 0, 0, 0, 0, 0, 0, 12, 6],
  [0, 0, 0, 0, 0, 0, 0, 0, 0, 12, 0, 6],
  [0, 0, 0, 0, 0, 0, 0, 0, 0, 0, 0, 6],
  [0, 0, 0, 0, 1, 0, 0, 0, 0, 12, 0, 18],
  [0, 0, 0, 0, 0, 0, 0, 0, 0, 12, 12, 18],
  [0, 0, 0, 0, 0, 0, 0, 0, 0, 12, 0, 18],
  [0, 0, 0, 0, 0, 0, 0, 0, 0, 0, 12, 18],
  [0, 0, 0, 0, 0, 0, 0, 0, 0, 0, 0, 18],
  [0, 0, 0, 0, 1, 0, 0, 0, 0, 6, 0, 12],
  [0, 0, 0, 0, 0, 0, 0, 0, 0, 6, 12, 12],
  [0, 0, 0, 0, 0, 0, 0, 0, 0, 6, 0, 12],
  [0, 0, 0, 0, 0, 0, 0, 0, 0, 6, 12, 0],
  [0, 0, 0, 0, 0, 0, 0, 0, 0, 6, 0, 0],
  [0, 0, 0, 0, 0, 0, 0, 0, 1, 18, 12, 0],
  [0, 0, 0, 0, 0, 0, 0, 0, 0, 18, 12, 12],
  [0, 0, 0, 0, 0, 0, 0, 0, 0, 18, 12, 0],
  [0, 0, 0, 0, 0, 0, 0, 0, 0, 18, 0, 12],
  [0, 0, 0, 0, 0, 0, 0, 0, 0, 18, 0, 0],
  [0, 0, 0, 0, 0, 0, 0, 0, 1, 12, 6, 0],
  [0, 0, 0, 0, 0, 0, 0, 0, 0, 12, 6, 12],
  [0, 0, 0, 0, 0, 0, 0, 0, 0, 12, 6, 0],
  [0, 0, 0, 0, 0, 0, 0, 0, 0, 0, 6, 12],
  [0, 0, 0, 0, 0, 0, 0, 0, 0, 0, 6, 0],
  [1, 0, 0, 0, 0, 0, 0, 0, 0, 0, 18, 12],
  [0, 0, 0, 0, 0, 0, 0, 0, 0, 12, 18, 12],
  [0, 0, 0, 0, 0, 0, 0, 0, 0, 0, 18, 12],
  [0, 0, 0, 0, 0, 0, 0, 0, 0, 12, 18, 0],
  [0, 0, 0, 0, 0, 0, 0, 0, 0, 0, 18, 0],
  [1, 0, 0, 0, 1, 0, 0, 0, 0, 0, 0, 18],
  [0, 0, 0, 0, 1, 0, 0, 0, 1, 18, 0, 0],
  [1, 0, 0, 0, 0, 0, 0, 0, 1, 0, 18, 0],
  [0, 0, 0, 0, 0, 0, 0, 0, 0, 15, 15, 15],
  [0, 0, 0, 0, 0, 0, 0, 0, 0, 3, 3, 3],
  [0, 0, 0, 0, 0, 0, 0, 0, 0, 15, 15, 9],
  [0, 0, 0, 0, 0, 0, 0, 0, 0, 3, 3, 21],
  [0, 0, 0, 0, 0, 0, 0, 0, 0, 9, 15, 15],
  [0, 0, 0, 0, 0, 0, 0, 0, 0, 21, 3, 3],
  [0, 0, 0, 0, 0, 0, 0, 0, 0, 15, 9, 15],
  [0, 0, 0, 0, 0, 0, 0, 0, 0, 3, 21, 3],
  [0, 0, 0, 0, 0, 0, 0, 0, 1, 3, 3, 0],
  [0, 0, 0, 0, 1, 0, 0, 0, 0, 3, 0, 3],
  [1, 0, 0, 0, 0, 0, 0, 0, 0, 0, 3, 3],
  [0, 0, 0, 0, 0, 0, 0, 0, 0, 3, 3, 15],
  [1, 0, 0, 0, 0, 0, 0, 0, 0, 0, 3, 21],
  [0, 0, 0, 0, 1, 0, 0, 0, 0, 3, 0, 21],
  [0, 0, 0, 0, 0, 0, 0, 0, 0, 3, 3, 9],
  [0, 0, 0, 0, 0, 0, 0, 0, 0, 15, 3, 3],
  [0, 0, 0, 0, 1, 0, 0, 0, 0, 21, 0, 3],
  [0, 0, 0, 0, 0, 0, 0, 0, 1, 21, 3, 0],
  [0, 0, 0, 0, 0, 0, 0, 0, 0, 9, 3, 3],
  [0, 0, 0, 0, 0, 0, 0, 0, 0, 3, 15, 3],
  [0, 0, 0, 0, 0, 0, 0, 0, 1, 3, 21, 0],
  [1, 0, 0, 0, 0, 0, 0, 0, 0, 0, 21, 3],
  [0, 0, 0, 0, 0, 0, 0, 0, 0, 3, 9, 3],
  [0, 0, 0, 0, 0, 0, 0, 0, 0, 0, 6, 15],
  [0, 0, 0, 0, 0, 0, 0, 0, 0, 0, 6, 3],
  [1, 0, 0, 1, 0, 0, 0, 0, 0, 0, 0, 12],
  [1, 0, 0, 1, 0, 0, 0, 0, 0, 0, 0, 0],
  [1, 0, 0, 1, 0, 0, 0, 0, 0, 0, 0, 9],
  [1, 0, 0, 1, 0, 0, 0, 0, 0, 0, 0, 18],
  [1, 0, 0, 1, 0, 0, 0, 0, 0, 0, 0, 6],
  [1, 0, 0, 1, 0, 0, 0, 0, 0, 0, 0, 15],
  [1, 0, 0, 1, 0, 0, 0, 0, 0, 0, 12, 6],
  [1, 0, 0, 0, 0, 0, 0, 0, 0, 0, 6, 3],
  [1, 0, 0, -1, 0, 0, 0, 0, 0, 0, 0, 0],
  [1, 0, 0, 1, 0, 0, 0, 0, 1, 0, 0, 0],
  [1, 0, 0, 1, 0, 0, 0, 0, 1, 0, 12, 0],
  [1, 0, 0, 1, 0, 0, 0, 0, 0, 0, 12, 12],
  [1, 0, 0, 1, 0, 0, 0, 0, 0, 0, 12, 0],
  [1, 0, 0, -1, 0, 0, 0, 0, 0, 0, 12, 6],
  [1, 0, 0, -1, 0, 0, 0, 0, 1, 0, 0, 0],
  [1, 0, 0, -1, 0, 0, 0, 0, 0, 0, 0, 12],
  [1, 0, 0, -1, 0, 0, 0, 0, 0, 0, 0, 6],
  [1, 0, 0, 1, 0, 0, 0, 0, 0, 0, 12, 18],
  [1, 0, 0, 1, 0, 0, 0, 0, 0, 0, 6, 21],
  [0, 0, 0, 0, 0, 0, 0, 0, 0, 0, 6, 9],
  [0, 0, 0, 0, 0, 0, 0, 0, 0, 0, 18, 3],
  [0, 0, 0, 0, 1, 0, 0, 0, 0, 6, 0, 3],
  [1, 0, 0, 1, 0, 0, 0, 0, 0, 0, 6, 3],
  [0, 0, 0, 0, 0, 0, 0, 0, 1, 16, 8, 0],
  [0, 0, 0, 0, 0, 0, 0, 0, 1, 8, 16, 0],
  [1, 0, 0, 1, 0, 0, 1, 0, 0, 0, 0, 0],
  [0, 0, 0, 0, 0, 0, 0, 0, 0, 16, 8, 12],
  [0, 0, 0, 0, 0, 0, 0, 0, 0, 16, 8, 0],
  [0, 0, 0, 0, 0, 0, 0, 0, 0, 8, 16, 12],
  [0, 0, 0, 0, 0, 0, 0, 0, 0, 8, 16, 0],
  [1, 0, 0, -1, 0, 0, 0, 0, 0, 0, 0, 20],
  [1, 0, 0, -1, 0, 0, 0, 0, 0, 0, 0, 8],
  [1, 0, 0, 0, 0, 0, 0, 0, 0, 0, 0, 20],
  [1, 0, 0, 0, 0, 0, 0, 0, 0, 0, 0, 8],
  [1, 0, 0, -1, 0, 0, 0, 0, 0, 0, 0, 4],
  [1, 0, 0, -1, 0, 0, 0, 0, 0, 0, 0, 16],
  [1, 0, 0, 0, 0, 0, 0, 0, 0, 0, 0, 4],
  [1, 0, 0, 0, 0, 0, 0, 0, 0, 0, 0, 16],
  [0, 0, 0, 0, 1, 0, 0, -1, 0, 12, 0, 0],
  [0, 0, 0, 0, 1, 0, 0, -1, 0, 0, 0, 0],
  [0, 0, 0, 0, 0, 0, 0, 0, 0, 16, 8, 6],
  [0, 0, 0, 0, 0, 0, 0, 0, 0, 8, 16, 6],
  [1, 0, 0, 2, 0, 0, 0, 0, 0, 0, 0, 6],
  [1, 0, 0, 2, 0, 0, 0, 0, 0, 0, 0, 18],
  [1, 0, 0, 2, 0, 0, 0, 0, 0, 0, 0, 12],
  [1, 0, 0, 2, 0, 0, 0, 0, 0, 0, 0, 0],
  [0, 0, 0, 0, 0, 0, 0, 0, 0, 8, 16, 18],
  [1, 0, 0, 2, 0, 0, 0, 0, 1, 0, 0, 0],
  [0, 0, 0, 0, 1, 0, 0, 1, 0, 12, 0, 0],
  [0, 0, 0, 0, 1, 0, 0, 1, 0, 0, 0, 0],
  [0, 0, 0, 0, 1, 0, 0, 1, 0, 6, 0, 12],
  [0, 0, 0, 0, 1, 0, 0, -1, 0, 6, 0, 12],
  [0, 0, 0, 0, 1, 0, 0, -1, 0, 3, 0, 6],
  [0, 0, 0, 0, 1, 0, 0, 1, 0, 3, 0, 6],
  [0, 0, 0, 0, 0, 0, 0, 0, 0, 21, 21, 21],
  [0, 0, 0, 0, 0, 0, 0, 0, 0, 9, 9, 9],
  [0, 0, 0, 0, 0, 0, 0, 0, 0, 15, 0, 6],
  [0, 0, 0, 0, 0, 0, 0, 0, 0, 3, 0, 6],
  [0, 0, 0, 0, 0, 0, 0, 0, 0, 21, 0, 6],
  [0, 0, 0, 0, 0, 0, 0, 0, 0, 9, 0, 6],
  [0, 0, 0, 0, 1, 0, 0, 1, 0, 6, 0, 0],
  [0, 0, 0, 0, 1, 0, 0, 1, 0, 12, 0, 12],
  [0, 0, 0, 0, 1, 0, 0, -1, 0, 6, 0, 0]]

end Cryspy.Wyck
