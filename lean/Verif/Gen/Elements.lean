/-!
# Elements, isotopes and ions known to the data base

Written by tools/gen_elements.py from A_functions_base/database.pickle (keys and text entries only).
-/

namespace Cryspy.Gen

/-- `DATABASE["Elements"]`: symbol, "Atomic number" and "Orbital occupancy" of every element -/
def elements : List (List Char × Nat × List Char) := [
  (['H'], 1, ['1', 's', '1']),
  (['H', 'e'], 2, ['1', 's', '2']),
  (['L', 'i'], 3, ['[', 'H', 'e', ']', ' ', '2', 's', '1']),
  (['B', 'e'], 4, ['[', 'H', 'e', ']', ' ', '2', 's', '2']),
  (['B'], 5, ['[', 'H', 'e', ']', ' ', '2', 's', '2', ' ', '2', 'p', '1']),
  (['C'], 6, ['[', 'H', 'e', ']', ' ', '2', 's', '2', ' ', '2', 'p', '2']),
  (['N'], 7, ['[', 'H', 'e', ']', ' ', '2', 's', '2', ' ', '2', 'p', '3']),
  (['O'], 8, ['[', 'H', 'e', ']', ' ', '2', 's', '2', ' ', '2', 'p', '4']),
  (['F'], 9, ['[', 'H', 'e', ']', ' ', '2', 's', '2', ' ', '2', 'p', '5']),
  (['N', 'e'], 10, ['[', 'H', 'e', ']', ' ', '2', 's', '2', ' ', '2', 'p', '6']),
  (['N', 'a'], 11, ['[', 'N', 'e', ']', ' ', '3', 's', '1']),
  (['M', 'g'], 12, ['[', 'N', 'e', ']', ' ', '3', 's', '2']),
  (['A', 'l'], 13, ['[', 'N', 'e', ']', ' ', '3', 's', '2', ' ', '3', 'p', '1']),
  (['S', 'i'], 14, ['[', 'N', 'e', ']', ' ', '3', 's', '2', ' ', '3', 'p', '2']),
  (['P'], 15, ['[', 'N', 'e', ']', ' ', '3', 's', '2', ' ', '3', 'p', '3']),
  (['S'], 16, ['[', 'N', 'e', ']', ' ', '3', 's', '2', ' ', '3', 'p', '4']),
  (['C', 'l'], 17, ['[', 'N', 'e', ']', ' ', '3', 's', '2', ' ', '3', 'p', '5']),
  (['A', 'r'], 18, ['[', 'N', 'e', ']', ' ', '3', 's', '2', ' ', '3', 'p', '6']),
  (['K'], 19, ['[', 'A', 'r', ']', ' ', '4', 's', '1']),
  (['C', 'a'], 20, ['[', 'A', 'r', ']', ' ', '4', 's', '2']),
  (['S', 'c'], 21, ['[', 'A', 'r', ']', ' ', '3', 'd', '1', ' ', '4', 's', '2']),
  (['T', 'i'], 22, ['[', 'A', 'r', ']', ' ', '3', 'd', '2', ' ', '4', 's', '2']),
  (['V'], 23, ['[', 'A', 'r', ']', ' ', '3', 'd', '3', ' ', '4', 's', '2']),
  (['C', 'r'], 24, ['[', 'A', 'r', ']', ' ', '3', 'd', '4', ' ', '4', 's', '2']),
  (['M', 'n'], 25, ['[', 'A', 'r', ']', ' ', '3', 'd', '5', ' ', '4', 's', '2']),
  (['F', 'e'], 26, ['[', 'A', 'r', ']', ' ', '3', 'd', '6', ' ', '4', 's', '2']),
  (['C', 'o'], 27, ['[', 'A', 'r', ']', ' ', '3', 'd', '7', ' ', '4', 's', '2']),
  (['N', 'i'], 28, ['[', 'A', 'r', ']', ' ', '3', 'd', '8', ' ', '4', 's', '2']),
  (['C', 'u'], 29, ['[', 'A', 'r', ']', ' ', '3', 'd', '9', ' ', '4', 's', '2']),
  (['Z', 'n'], 30, ['[', 'A', 'r', ']', ' ', '3', 'd', '1', '0', ' ', '4', 's', '2']),
  (['G', 'a'], 31, ['[', 'A', 'r', ']', ' ', '3', 'd', '1', '0', ' ', '4', 's', '2', ' ', '4', 'p', '1']),
  (['G', 'e'], 32, ['[', 'A', 'r', ']', ' ', '3', 'd', '1', '0', ' ', '4', 's', '2', ' ', '4', 'p', '2']),
  (['A', 's'], 33, ['[', 'A', 'r', ']', ' ', '3', 'd', '1', '0', ' ', '4', 's', '2', ' ', '4', 'p', '3']),
  (['S', 'e'], 34, ['[', 'A', 'r', ']', ' ', '3', 'd', '1', '0', ' ', '4', 's', '2', ' ', '4', 'p', '4']),
  (['B', 'r'], 35, ['[', 'A', 'r', ']', ' ', '3', 'd', '1', '0', ' ', '4', 's', '2', ' ', '4', 'p', '5']),
  (['K', 'r'], 36, ['[', 'A', 'r', ']', ' ', '3', 'd', '1', '0', ' ', '4', 's', '2', ' ', '4', 'p', '6']),
  (['R', 'b'], 37, ['[', 'K', 'r', ']', ' ', '5', 's', '1']),
  (['S', 'r'], 38, ['[', 'K', 'r', ']', ' ', '5', 's', '2']),
  (['Y'], 39, ['[', 'K', 'r', ']', ' ', '4', 'd', '1', ' ', '5', 's', '2']),
  (['Z', 'r'], 40, ['[', 'K', 'r', ']', ' ', '4', 'd', '2', ' ', '5', 's', '2']),
  (['N', 'b'], 41, ['[', 'K', 'r', ']', ' ', '4', 'd', '3', ' ', '5', 's', '2']),
  (['M', 'o'], 42, ['[', 'K', 'r', ']', ' ', '4', 'd', '4', ' ', '5', 's', '2']),
  (['T', 'c'], 43, ['[', 'K', 'r', ']', ' ', '4', 'd', '5', ' ', '5', 's', '2']),
  (['R', 'u'], 44, ['[', 'K', 'r', ']', ' ', '4', 'd', '6', ' ', '5', 's', '2']),
  (['R', 'h'], 45, ['[', 'K', 'r', ']', ' ', '4', 'd', '7', ' ', '5', 's', '2']),
  (['P', 'd'], 46, ['[', 'K', 'r', ']', ' ', '4', 'd', '8', ' ', '5', 's', '2']),
  (['A', 'g'], 47, ['[', 'K', 'r', ']', ' ', '4', 'd', '9', ' ', '5', 's', '2']),
  (['C', 'd'], 48, ['[', 'K', 'r', ']', ' ', '4', 'd', '1', '0', ' ', '5', 's', '2']),
  (['I', 'n'], 49, ['[', 'K', 'r', ']', ' ', '4', 'd', '1', '0', ' ', '5', 's', '2', ' ', '5', 'p', '1']),
  (['S', 'n'], 50, ['[', 'K', 'r', ']', ' ', '4', 'd', '1', '0', ' ', '5', 's', '2', ' ', '5', 'p', '2']),
  (['S', 'b'], 51, ['[', 'K', 'r', ']', ' ', '4', 'd', '1', '0', ' ', '5', 's', '2', ' ', '5', 'p', '3']),
  (['T', 'e'], 52, ['[', 'K', 'r', ']', ' ', '4', 'd', '1', '0', ' ', '5', 's', '2', ' ', '5', 'p', '4']),
  (['I'], 53, ['[', 'K', 'r', ']', ' ', '4', 'd', '1', '0', ' ', '5', 's', '2', ' ', '5', 'p', '5']),
  (['X', 'e'], 54, ['[', 'K', 'r', ']', ' ', '4', 'd', '1', '0', ' ', '5', 's', '2', ' ', '5', 'p', '6']),
  (['C', 's'], 55, ['[', 'X', 'e', ']', ' ', '6', 's', '1']),
  (['B', 'a'], 56, ['[', 'X', 'e', ']', ' ', '6', 's', '2']),
  (['L', 'a'], 57, ['[', 'X', 'e', ']', ' ', '5', 'd', '1', ' ', '6', 's', '2']),
  (['C', 'e'], 58, ['[', 'X', 'e', ']', ' ', '4', 'f', '1', ' ', '5', 'd', '1', ' ', '6', 's', '2']),
  (['P', 'r'], 59, ['[', 'X', 'e', ']', ' ', '4', 'f', '3', ' ', '6', 's', '2']),
  (['N', 'd'], 60, ['[', 'X', 'e', ']', ' ', '4', 'f', '4', ' ', '6', 's', '2']),
  (['P', 'm'], 61, ['[', 'X', 'e', ']', ' ', '4', 'f', '5', ' ', '6', 's', '2']),
  (['S', 'm'], 62, ['[', 'X', 'e', ']', ' ', '4', 'f', '6', ' ', '6', 's', '2']),
  (['E', 'u'], 63, ['[', 'X', 'e', ']', ' ', '4', 'f', '7', ' ', '6', 's', '2']),
  (['G', 'd'], 64, ['[', 'X', 'e', ']', ' ', '4', 'f', '7', ' ', '5', 'd', '1', ' ', '6', 's', '2']),
  (['T', 'b'], 65, ['[', 'X', 'e', ']', ' ', '4', 'f', '9', ' ', '6', 's', '2']),
  (['D', 'y'], 66, ['[', 'X', 'e', ']', ' ', '4', 'f', '1', '0', ' ', '6', 's', '2']),
  (['H', 'o'], 67, ['[', 'X', 'e', ']', ' ', '4', 'f', '1', '1', ' ', '6', 's', '2']),
  (['E', 'r'], 68, ['[', 'X', 'e', ']', ' ', '4', 'f', '1', '2', ' ', '6', 's', '2']),
  (['T', 'm'], 69, ['[', 'X', 'e', ']', ' ', '4', 'f', '1', '3', ' ', '6', 's', '2']),
  (['Y', 'b'], 70, ['[', 'X', 'e', ']', ' ', '4', 'f', '1', '4', ' ', '6', 's', '2']),
  (['L', 'u'], 71, ['[', 'X', 'e', ']', ' ', '4', 'f', '1', '4', ' ', '5', 'd', '1', ' ', '6', 's', '2']),
  (['H', 'f'], 72, ['[', 'X', 'e', ']', ' ', '4', 'f', '1', '4', ' ', '5', 'd', '2', ' ', '6', 's', '2']),
  (['T', 'a'], 73, ['[', 'X', 'e', ']', ' ', '4', 'f', '1', '4', ' ', '5', 'd', '3', ' ', '6', 's', '2']),
  (['W'], 74, ['[', 'X', 'e', ']', ' ', '4', 'f', '1', '4', ' ', '5', 'd', '4', ' ', '6', 's', '2']),
  (['R', 'e'], 75, ['[', 'X', 'e', ']', ' ', '4', 'f', '1', '4', ' ', '5', 'd', '5', ' ', '6', 's', '2']),
  (['O', 's'], 76, ['[', 'X', 'e', ']', ' ', '6', 's', '2', ' ', '4', 'f', '1', '4', ' ', '5', 'd', '6']),
  (['I', 'r'], 77, ['[', 'X', 'e', ']', ' ', '4', 'f', '1', '4', ' ', '5', 'd', '7', ' ', '6', 's', '2']),
  (['P', 't'], 78, ['[', 'X', 'e', ']', ' ', '4', 'f', '1', '4', ' ', '5', 'd', '9', ' ', '6', 's', '1']),
  (['A', 'u'], 79, ['[', 'X', 'e', ']', ' ', '4', 'f', '1', '4', ' ', '5', 'd', '1', '0', ' ', '6', 's', '1']),
  (['H', 'g'], 80, ['[', 'X', 'e', ']', ' ', '4', 'f', '1', '4', ' ', '5', 'd', '1', '0', ' ', '6', 's', '2']),
  (['T', 'l'], 81, ['[', 'X', 'e', ']', ' ', '4', 'f', '1', '4', ' ', '5', 'd', '1', '0', ' ', '6', 's', '2', ' ', '6', 'p', '1']),
  (['P', 'b'], 82, ['[', 'X', 'e', ']', ' ', '4', 'f', '1', '4', ' ', '5', 'd', '1', '0', ' ', '6', 's', '2', ' ', '6', 'p', '2']),
  (['B', 'i'], 83, ['[', 'X', 'e', ']', ' ', '4', 'f', '1', '4', ' ', '5', 'd', '1', '0', ' ', '6', 's', '2', ' ', '6', 'p', '3']),
  (['P', 'o'], 84, ['[', 'X', 'e', ']', ' ', '4', 'f', '1', '4', ' ', '5', 'd', '1', '0', ' ', '6', 's', '2', ' ', '6', 'p', '4']),
  (['A', 't'], 85, ['[', 'X', 'e', ']', ' ', '4', 'f', '1', '4', ' ', '5', 'd', '1', '0', ' ', '6', 's', '2', ' ', '6', 'p', '5']),
  (['R', 'n'], 86, ['[', 'X', 'e', ']', ' ', '4', 'f', '1', '4', ' ', '5', 'd', '1', '0', ' ', '6', 's', '2', ' ', '6', 'p', '6']),
  (['F', 'r'], 87, ['[', 'R', 'n', ']', ' ', '7', 's', '1']),
  (['R', 'a'], 88, ['[', 'R', 'n', ']', ' ', '7', 's', '2']),
  (['A', 'c'], 89, ['[', 'R', 'n', ']', ' ', '6', 'd', '1', ' ', '7', 's', '2']),
  (['T', 'h'], 90, ['[', 'R', 'n', ']', ' ', '6', 'd', '2', ' ', '7', 's', '2']),
  (['P', 'a'], 91, ['[', 'R', 'n', ']', ' ', '5', 'f', '2', ' ', '6', 'd', '1', ' ', '7', 's', '2']),
  (['U'], 92, ['[', 'R', 'n', ']', ' ', '5', 'f', '3', ' ', '6', 'd', '1', ' ', '7', 's', '2']),
  (['N', 'p'], 93, ['[', 'R', 'n', ']', ' ', '5', 'f', '4', ' ', '6', 'd', '1', ' ', '7', 's', '2']),
  (['P', 'u'], 94, ['[', 'R', 'n', ']', ' ', '5', 'f', '6', ' ', '7', 's', '2']),
  (['A', 'm'], 95, ['[', 'R', 'n', ']', ' ', '5', 'f', '7', ' ', '7', 's', '2']),
  (['C', 'm'], 96, ['[', 'R', 'n', ']', ' ', '5', 'f', '7', ' ', '6', 'd', '1', ' ', '7', 's', '2']),
  (['B', 'k'], 97, ['[', 'R', 'n', ']', ' ', '5', 'f', '9', ' ', '7', 's', '2']),
  (['C', 'f'], 98, ['[', 'R', 'n', ']', ' ', '5', 'f', '1', '0', ' ', '7', 's', '2']),
  (['E', 's'], 99, ['[', 'R', 'n', ']', ' ', '5', 'f', '1', '1', ' ', '7', 's', '2']),
  (['F', 'm'], 100, ['[', 'R', 'n', ']', ' ', '5', 'f', '1', '2', ' ', '7', 's', '2']),
  (['M', 'd'], 101, ['[', 'R', 'n', ']', ' ', '5', 'f', '1', '3', ' ', '7', 's', '2']),
  (['N', 'o'], 102, ['[', 'R', 'n', ']', ' ', '5', 'f', '1', '4', ' ', '7', 's', '2']),
  (['L', 'r'], 103, ['[', 'R', 'n', ']', ' ', '5', 'f', '1', '4', ' ', '6', 'd', '1', ' ', '7', 's', '2']),
  (['R', 'f'], 104, ['[', 'R', 'n', ']', ' ', '5', 'f', '1', '4', ' ', '6', 'd', '2', ' ', '7', 's', '2']),
  (['D', 'b'], 105, ['[', 'R', 'n', ']', ' ', '5', 'f', '1', '4', ' ', '6', 'd', '3', ' ', '7', 's', '2']),
  (['S', 'g'], 106, ['[', 'R', 'n', ']', ' ', '5', 'f', '1', '4', ' ', '6', 'd', '4', ' ', '7', 's', '2']),
  (['B', 'h'], 107, ['[', 'R', 'n', ']', ' ', '5', 'f', '1', '4', ' ', '6', 'd', '5', ' ', '7', 's', '2']),
  (['H', 's'], 108, ['[', 'R', 'n', ']', ' ', '5', 'f', '1', '4', ' ', '6', 'd', '6', ' ', '7', 's', '2']),
  (['M', 't'], 109, ['[', 'R', 'n', ']', ' ', '5', 'f', '1', '4', ' ', '6', 'd', '7', ' ', '7', 's', '2']),
  (['D', 's'], 110, ['[', 'R', 'n', ']', ' ', '5', 'f', '1', '4', ' ', '6', 'd', '8', ' ', '7', 's', '2']),
  (['R', 'g'], 111, ['[', 'R', 'n', ']', ' ', '5', 'f', '1', '4', ' ', '6', 'd', '9', ' ', '7', 's', '2']),
  (['C', 'n'], 112, ['[', 'R', 'n', ']', ' ', '5', 'f', '1', '4', ' ', '6', 'd', '1', '0', ' ', '7', 's', '2']),
  (['N', 'h'], 113, ['[', 'R', 'n', ']', ' ', '5', 'f', '1', '4', ' ', '6', 'd', '1', '0', ' ', '7', 's', '2', ' ', '7', 'p', '1']),
  (['F', 'l'], 114, ['[', 'R', 'n', ']', ' ', '5', 'f', '1', '4', ' ', '6', 'd', '1', '0', ' ', '7', 's', '2', ' ', '7', 'p', '2']),
  (['M', 'c'], 115, ['[', 'R', 'n', ']', ' ', '5', 'f', '1', '4', ' ', '6', 'd', '1', '0', ' ', '7', 's', '2', ' ', '7', 'p', '3']),
  (['L', 'v'], 116, ['[', 'R', 'n', ']', ' ', '5', 'f', '1', '4', ' ', '6', 'd', '1', '0', ' ', '7', 's', '2', ' ', '7', 'p', '4']),
  (['T', 's'], 117, ['[', 'R', 'n', ']', ' ', '5', 'f', '1', '4', ' ', '6', 'd', '1', '0', ' ', '7', 's', '2', ' ', '7', 'p', '5']),
  (['O', 'g'], 118, ['[', 'R', 'n', ']', ' ', '5', 'f', '1', '4', ' ', '6', 'd', '1', '0', ' ', '7', 's', '2', ' ', '7', 'p'])]

/-- the keys `("b_scat", key)` of `DATABASE["Isotopes"]` -/
def isotopes : List (List Char) := [
  ['H'],
  ['1', 'H'],
  ['2', 'H'],
  ['D'],
  ['3', 'H'],
  ['H', 'e'],
  ['3', 'H', 'e'],
  ['4', 'H', 'e'],
  ['L', 'i'],
  ['6', 'L', 'i'],
  ['7', 'L', 'i'],
  ['B', 'e'],
  ['B'],
  ['1', '0', 'B'],
  ['1', '1', 'B'],
  ['C'],
  ['1', '2', 'C'],
  ['1', '3', 'C'],
  ['N'],
  ['1', '4', 'N'],
  ['1', '5', 'N'],
  ['O'],
  ['1', '6', 'O'],
  ['1', '7', 'O'],
  ['1', '8', 'O'],
  ['F'],
  ['N', 'e'],
  ['2', '0', 'N', 'e'],
  ['2', '1', 'N', 'e'],
  ['2', '2', 'N', 'e'],
  ['N', 'a'],
  ['M', 'g'],
  ['2', '4', 'M', 'g'],
  ['2', '5', 'M', 'g'],
  ['2', '6', 'M', 'g'],
  ['A', 'l'],
  ['S', 'i'],
  ['2', '8', 'S', 'i'],
  ['2', '9', 'S', 'i'],
  ['3', '0', 'S', 'i'],
  ['P'],
  ['S'],
  ['3', '2', 'S'],
  ['3', '3', 'S'],
  ['3', '4', 'S'],
  ['3', '6', 'S'],
  ['C', 'l'],
  ['3', '5', 'C', 'l'],
  ['3', '7', 'C', 'l'],
  ['A', 'r'],
  ['3', '6', 'A', 'r'],
  ['3', '8', 'A', 'r'],
  ['4', '0', 'A', 'r'],
  ['K'],
  ['3', '9', 'K'],
  ['4', '0', 'K'],
  ['4', '1', 'K'],
  ['C', 'a'],
  ['4', '0', 'C', 'a'],
  ['4', '2', 'C', 'a'],
  ['4', '3', 'C', 'a'],
  ['4', '4', 'C', 'a'],
  ['4', '6', 'C', 'a'],
  ['4', '8', 'C', 'a'],
  ['S', 'c'],
  ['T', 'i'],
  ['4', '6', 'T', 'i'],
  ['4', '7', 'T', 'i'],
  ['4', '8', 'T', 'i'],
  ['4', '9', 'T', 'i'],
  ['5', '0', 'T', 'i'],
  ['V'],
  ['5', '0', 'V'],
  ['5', '1', 'V'],
  ['C', 'r'],
  ['5', '0', 'C', 'r'],
  ['5', '2', 'C', 'r'],
  ['5', '3', 'C', 'r'],
  ['5', '4', 'C', 'r'],
  ['M', 'n'],
  ['F', 'e'],
  ['5', '4', 'F', 'e'],
  ['5', '6', 'F', 'e'],
  ['5', '7', 'F', 'e'],
  ['5', '8', 'F', 'e'],
  ['C', 'o'],
  ['N', 'i'],
  ['5', '8', 'N', 'i'],
  ['6', '0', 'N', 'i'],
  ['6', '1', 'N', 'i'],
  ['6', '2', 'N', 'i'],
  ['6', '4', 'N', 'i'],
  ['C', 'u'],
  ['6', '3', 'C', 'u'],
  ['6', '5', 'C', 'u'],
  ['Z', 'n'],
  ['6', '4', 'Z', 'n'],
  ['6', '6', 'Z', 'n'],
  ['6', '7', 'Z', 'n'],
  ['6', '8', 'Z', 'n'],
  ['7', '0', 'Z', 'n'],
  ['G', 'a'],
  ['6', '9', 'G', 'a'],
  ['7', '1', 'G', 'a'],
  ['G', 'e'],
  ['7', '0', 'G', 'e'],
  ['7', '2', 'G', 'e'],
  ['7', '3', 'G', 'e'],
  ['7', '4', 'G', 'e'],
  ['7', '6', 'G', 'e'],
  ['A', 's'],
  ['S', 'e'],
  ['7', '4', 'S', 'e'],
  ['7', '6', 'S', 'e'],
  ['7', '7', 'S', 'e'],
  ['7', '8', 'S', 'e'],
  ['8', '0', 'S', 'e'],
  ['8', '2', 'S', 'e'],
  ['B', 'r'],
  ['7', '9', 'B', 'r'],
  ['8', '1', 'B', 'r'],
  ['K', 'r'],
  ['7', '8', 'K', 'r'],
  ['8', '0', 'K', 'r'],
  ['8', '2', 'K', 'r'],
  ['8', '3', 'K', 'r'],
  ['8', '4', 'K', 'r'],
  ['8', '6', 'K', 'r'],
  ['R', 'b'],
  ['8', '5', 'R', 'b'],
  ['8', '7', 'R', 'b'],
  ['S', 'r'],
  ['8', '4', 'S', 'r'],
  ['8', '6', 'S', 'r'],
  ['8', '7', 'S', 'r'],
  ['8', '8', 'S', 'r'],
  ['Y'],
  ['Z', 'r'],
  ['9', '0', 'Z', 'r'],
  ['9', '1', 'Z', 'r'],
  ['9', '2', 'Z', 'r'],
  ['9', '4', 'Z', 'r'],
  ['9', '6', 'Z', 'r'],
  ['N', 'b'],
  ['M', 'o'],
  ['9', '2', 'M', 'o'],
  ['9', '4', 'M', 'o'],
  ['9', '5', 'M', 'o'],
  ['9', '6', 'M', 'o'],
  ['9', '7', 'M', 'o'],
  ['9', '8', 'M', 'o'],
  ['1', '0', '0', 'M', 'o'],
  ['T', 'c'],
  ['R', 'u'],
  ['9', '6', 'R', 'u'],
  ['9', '8', 'R', 'u'],
  ['9', '9', 'R', 'u'],
  ['1', '0', '0', 'R', 'u'],
  ['1', '0', '1', 'R', 'u'],
  ['1', '0', '2', 'R', 'u'],
  ['1', '0', '4', 'R', 'u'],
  ['R', 'h'],
  ['P', 'd'],
  ['1', '0', '2', 'P', 'd'],
  ['1', '0', '4', 'P', 'd'],
  ['1', '0', '5', 'P', 'd'],
  ['1', '0', '6', 'P', 'd'],
  ['1', '0', '8', 'P', 'd'],
  ['1', '1', '0', 'P', 'd'],
  ['A', 'g'],
  ['1', '0', '7', 'A', 'g'],
  ['1', '0', '9', 'A', 'g'],
  ['C', 'd'],
  ['1', '0', '6', 'C', 'd'],
  ['1', '0', '8', 'C', 'd'],
  ['1', '1', '0', 'C', 'd'],
  ['1', '1', '1', 'C', 'd'],
  ['1', '1', '2', 'C', 'd'],
  ['1', '1', '3', 'C', 'd'],
  ['1', '1', '4', 'C', 'd'],
  ['1', '1', '6', 'C', 'd'],
  ['I', 'n'],
  ['1', '1', '3', 'I', 'n'],
  ['1', '1', '5', 'I', 'n'],
  ['S', 'n'],
  ['1', '1', '2', 'S', 'n'],
  ['1', '1', '4', 'S', 'n'],
  ['1', '1', '5', 'S', 'n'],
  ['1', '1', '6', 'S', 'n'],
  ['1', '1', '7', 'S', 'n'],
  ['1', '1', '8', 'S', 'n'],
  ['1', '1', '9', 'S', 'n'],
  ['1', '2', '0', 'S', 'n'],
  ['1', '2', '2', 'S', 'n'],
  ['1', '2', '4', 'S', 'n'],
  ['S', 'b'],
  ['1', '2', '1', 'S', 'b'],
  ['1', '2', '3', 'S', 'b'],
  ['T', 'e'],
  ['1', '2', '0', 'T', 'e'],
  ['1', '2', '2', 'T', 'e'],
  ['1', '2', '3', 'T', 'e'],
  ['1', '2', '4', 'T', 'e'],
  ['1', '2', '5', 'T', 'e'],
  ['1', '2', '6', 'T', 'e'],
  ['1', '2', '8', 'T', 'e'],
  ['1', '3', '0', 'T', 'e'],
  ['I'],
  ['X', 'e'],
  ['1', '2', '4', 'X', 'e'],
  ['1', '2', '6', 'X', 'e'],
  ['1', '2', '8', 'X', 'e'],
  ['1', '2', '9', 'X', 'e'],
  ['1', '3', '0', 'X', 'e'],
  ['1', '3', '1', 'X', 'e'],
  ['1', '3', '2', 'X', 'e'],
  ['1', '3', '4', 'X', 'e'],
  ['1', '3', '6', 'X', 'e'],
  ['C', 's'],
  ['B', 'a'],
  ['1', '3', '0', 'B', 'a'],
  ['1', '3', '2', 'B', 'a'],
  ['1', '3', '4', 'B', 'a'],
  ['1', '3', '5', 'B', 'a'],
  ['1', '3', '6', 'B', 'a'],
  ['1', '3', '7', 'B', 'a'],
  ['1', '3', '8', 'B', 'a'],
  ['L', 'a'],
  ['1', '3', '8', 'L', 'a'],
  ['1', '3', '9', 'L', 'a'],
  ['C', 'e'],
  ['1', '3', '6', 'C', 'e'],
  ['1', '3', '8', 'C', 'e'],
  ['1', '4', '0', 'C', 'e'],
  ['1', '4', '2', 'C', 'e'],
  ['P', 'r'],
  ['N', 'd'],
  ['1', '4', '2', 'N', 'd'],
  ['1', '4', '3', 'N', 'd'],
  ['1', '4', '4', 'N', 'd'],
  ['1', '4', '5', 'N', 'd'],
  ['1', '4', '6', 'N', 'd'],
  ['1', '4', '8', 'N', 'd'],
  ['1', '5', '0', 'N', 'd'],
  ['P', 'm'],
  ['S', 'm'],
  ['1', '4', '4', 'S', 'm'],
  ['1', '4', '7', 'S', 'm'],
  ['1', '4', '8', 'S', 'm'],
  ['1', '4', '9', 'S', 'm'],
  ['1', '5', '0', 'S', 'm'],
  ['1', '5', '2', 'S', 'm'],
  ['1', '5', '4', 'S', 'm'],
  ['E', 'u'],
  ['1', '5', '1', 'E', 'u'],
  ['1', '5', '3', 'E', 'u'],
  ['G', 'd'],
  ['1', '5', '2', 'G', 'd'],
  ['1', '5', '4', 'G', 'd'],
  ['1', '5', '5', 'G', 'd'],
  ['1', '5', '6', 'G', 'd'],
  ['1', '5', '7', 'G', 'd'],
  ['1', '5', '8', 'G', 'd'],
  ['1', '6', '0', 'G', 'd'],
  ['T', 'b'],
  ['D', 'y'],
  ['1', '5', '6', 'D', 'y'],
  ['1', '5', '8', 'D', 'y'],
  ['1', '6', '0', 'D', 'y'],
  ['1', '6', '1', 'D', 'y'],
  ['1', '6', '2', 'D', 'y'],
  ['1', '6', '3', 'D', 'y'],
  ['1', '6', '4', 'D', 'y'],
  ['H', 'o'],
  ['E', 'r'],
  ['1', '6', '2', 'E', 'r'],
  ['1', '6', '4', 'E', 'r'],
  ['1', '6', '6', 'E', 'r'],
  ['1', '6', '7', 'E', 'r'],
  ['1', '6', '8', 'E', 'r'],
  ['1', '7', '0', 'E', 'r'],
  ['T', 'm'],
  ['Y', 'b'],
  ['1', '6', '8', 'Y', 'b'],
  ['1', '7', '0', 'Y', 'b'],
  ['1', '7', '1', 'Y', 'b'],
  ['1', '7', '2', 'Y', 'b'],
  ['1', '7', '3', 'Y', 'b'],
  ['1', '7', '4', 'Y', 'b'],
  ['1', '7', '6', 'Y', 'b'],
  ['L', 'u'],
  ['1', '7', '5', 'L', 'u'],
  ['1', '7', '6', 'L', 'u'],
  ['H', 'f'],
  ['1', '7', '4', 'H', 'f'],
  ['1', '7', '6', 'H', 'f'],
  ['1', '7', '7', 'H', 'f'],
  ['1', '7', '8', 'H', 'f'],
  ['1', '7', '9', 'H', 'f'],
  ['1', '8', '0', 'H', 'f'],
  ['T', 'a'],
  ['1', '8', '0', 'T', 'a'],
  ['1', '8', '1', 'T', 'a'],
  ['W'],
  ['1', '8', '0', 'W'],
  ['1', '8', '2', 'W'],
  ['1', '8', '3', 'W'],
  ['1', '8', '4', 'W'],
  ['1', '8', '6', 'W'],
  ['R', 'e'],
  ['1', '8', '5', 'R', 'e'],
  ['1', '8', '7', 'R', 'e'],
  ['O', 's'],
  ['1', '8', '4', 'O', 's'],
  ['1', '8', '6', 'O', 's'],
  ['1', '8', '7', 'O', 's'],
  ['1', '8', '8', 'O', 's'],
  ['1', '8', '9', 'O', 's'],
  ['1', '9', '0', 'O', 's'],
  ['1', '9', '2', 'O', 's'],
  ['I', 'r'],
  ['1', '9', '1', 'I', 'r'],
  ['1', '9', '3', 'I', 'r'],
  ['P', 't'],
  ['1', '9', '0', 'P', 't'],
  ['1', '9', '2', 'P', 't'],
  ['1', '9', '4', 'P', 't'],
  ['1', '9', '5', 'P', 't'],
  ['1', '9', '6', 'P', 't'],
  ['1', '9', '8', 'P', 't'],
  ['A', 'u'],
  ['H', 'g'],
  ['1', '9', '6', 'H', 'g'],
  ['1', '9', '8', 'H', 'g'],
  ['1', '9', '9', 'H', 'g'],
  ['2', '0', '0', 'H', 'g'],
  ['2', '0', '1', 'H', 'g'],
  ['2', '0', '2', 'H', 'g'],
  ['2', '0', '4', 'H', 'g'],
  ['T', 'l'],
  ['2', '0', '3', 'T', 'l'],
  ['2', '0', '5', 'T', 'l'],
  ['P', 'b'],
  ['2', '0', '4', 'P', 'b'],
  ['2', '0', '6', 'P', 'b'],
  ['2', '0', '7', 'P', 'b'],
  ['2', '0', '8', 'P', 'b'],
  ['B', 'i'],
  ['P', 'o'],
  ['A', 't'],
  ['R', 'n'],
  ['F', 'r'],
  ['R', 'a'],
  ['A', 'c'],
  ['T', 'h'],
  ['P', 'a'],
  ['U'],
  ['2', '3', '3', 'U'],
  ['2', '3', '4', 'U'],
  ['2', '3', '5', 'U'],
  ['2', '3', '8', 'U'],
  ['N', 'p'],
  ['P', 'u'],
  ['2', '3', '8', 'P', 'u'],
  ['2', '3', '9', 'P', 'u'],
  ['2', '4', '0', 'P', 'u'],
  ['2', '4', '2', 'P', 'u'],
  ['A', 'm'],
  ['C', 'm'],
  ['2', '4', '4', 'C', 'm'],
  ['2', '4', '6', 'C', 'm'],
  ['2', '4', '8', 'C', 'm']]

/-- the keys `("j0_AaBbCcD", name, charge)` of `DATABASE["Magnetic Form Factor, tabulated"]` -/
def magneticIons : List (List Char × Int) := [
  (['O'], -2),
  (['N'], 2),
  (['S', 'c'], 0),
  (['S', 'c'], 1),
  (['S', 'c'], 2),
  (['T', 'i'], 0),
  (['T', 'i'], 1),
  (['T', 'i'], 2),
  (['T', 'i'], 3),
  (['V'], 0),
  (['V'], 1),
  (['V'], 2),
  (['V'], 3),
  (['V'], 4),
  (['C', 'r'], 0),
  (['C', 'r'], 1),
  (['C', 'r'], 2),
  (['C', 'r'], 3),
  (['C', 'r'], 4),
  (['M', 'n'], 0),
  (['M', 'n'], 1),
  (['M', 'n'], 2),
  (['M', 'n'], 3),
  (['M', 'n'], 4),
  (['F', 'e'], 0),
  (['F', 'e'], 1),
  (['F', 'e'], 2),
  (['F', 'e'], 3),
  (['F', 'e'], 4),
  (['C', 'o'], 0),
  (['C', 'o'], 1),
  (['C', 'o'], 2),
  (['C', 'o'], 3),
  (['C', 'o'], 4),
  (['N', 'i'], 0),
  (['N', 'i'], 1),
  (['N', 'i'], 2),
  (['N', 'i'], 3),
  (['N', 'i'], 4),
  (['C', 'u'], 0),
  (['C', 'u'], 1),
  (['C', 'u'], 2),
  (['C', 'u'], 3),
  (['C', 'u'], 4),
  (['Y'], 0),
  (['Z', 'r'], 0),
  (['Z', 'r'], 1),
  (['N', 'b'], 0),
  (['N', 'b'], 1),
  (['M', 'o'], 0),
  (['M', 'o'], 1),
  (['T', 'c'], 0),
  (['T', 'c'], 1),
  (['R', 'u'], 0),
  (['R', 'u'], 1),
  (['R', 'h'], 0),
  (['R', 'h'], 1),
  (['P', 'd'], 0),
  (['P', 'd'], 1),
  (['C', 'e'], 2),
  (['N', 'd'], 2),
  (['N', 'd'], 3),
  (['S', 'm'], 2),
  (['S', 'm'], 3),
  (['E', 'u'], 2),
  (['E', 'u'], 3),
  (['G', 'd'], 2),
  (['G', 'd'], 3),
  (['T', 'b'], 2),
  (['T', 'b'], 3),
  (['D', 'y'], 2),
  (['D', 'y'], 3),
  (['H', 'o'], 2),
  (['H', 'o'], 3),
  (['E', 'r'], 2),
  (['E', 'r'], 3),
  (['T', 'm'], 2),
  (['T', 'm'], 3),
  (['Y', 'b'], 2),
  (['Y', 'b'], 3),
  (['P', 'r'], 3),
  (['U'], 3),
  (['U'], 4),
  (['U'], 5),
  (['N', 'p'], 3),
  (['N', 'p'], 4),
  (['N', 'p'], 5),
  (['N', 'p'], 6),
  (['P', 'u'], 3),
  (['P', 'u'], 4),
  (['P', 'u'], 5),
  (['P', 'u'], 6),
  (['A', 'm'], 2),
  (['A', 'm'], 3),
  (['A', 'm'], 4),
  (['A', 'm'], 5),
  (['A', 'm'], 6),
  (['A', 'm'], 7)]

/-- the keys of `DATABASE["Scattering amplitude"]` -/
def scatteringKeys : List (List Char) := [
  ['H'],
  ['H', '1', '-'],
  ['H', 'e'],
  ['L', 'i'],
  ['L', 'i', '1', '+'],
  ['B', 'e'],
  ['B', 'e', '2', '+'],
  ['B'],
  ['C'],
  ['C', 'v', 'a', 'l'],
  ['N'],
  ['O'],
  ['O', '1', '-'],
  ['F'],
  ['F', '1', '-'],
  ['N', 'e'],
  ['N', 'a'],
  ['N', 'a', '1', '+'],
  ['M', 'g'],
  ['M', 'g', '2', '+'],
  ['A', 'l'],
  ['A', 'l', '3', '+'],
  ['S', 'i', 'v'],
  ['S', 'i', 'v', 'a', 'l'],
  ['S', 'i', '4', '+'],
  ['P'],
  ['S'],
  ['C', 'l'],
  ['C', 'l', '1', '-'],
  ['A', 'r'],
  ['K'],
  ['K', '1', '+'],
  ['C', 'a'],
  ['C', 'a', '2', '+'],
  ['S', 'c'],
  ['S', 'c', '3', '+'],
  ['T', 'i'],
  ['T', 'i', '2', '+'],
  ['T', 'i', '3', '+'],
  ['T', 'i', '4', '+'],
  ['V'],
  ['V', '2', '+'],
  ['V', '3', '+'],
  ['V', '5', '+'],
  ['C', 'r'],
  ['C', 'r', '2', '+'],
  ['C', 'r', '3', '+'],
  ['M', 'n'],
  ['M', 'n', '2', '+'],
  ['M', 'n', '3', '+'],
  ['M', 'n', '4', '+'],
  ['F', 'e'],
  ['F', 'e', '2', '+'],
  ['F', 'e', '3', '+'],
  ['C', 'o'],
  ['C', 'o', '2', '+'],
  ['C', 'o', '3', '+'],
  ['N', 'i'],
  ['N', 'i', '2', '+'],
  ['N', 'i', '3', '+'],
  ['C', 'u'],
  ['C', 'u', '1', '+'],
  ['C', 'u', '2', '+'],
  ['Z', 'n'],
  ['Z', 'n', '2', '+'],
  ['G', 'a'],
  ['G', 'a', '3', '+'],
  ['G', 'e'],
  ['G', 'e', '4', '+'],
  ['A', 's'],
  ['S', 'e'],
  ['B', 'r'],
  ['B', 'r', '1', '-'],
  ['K', 'r'],
  ['R', 'b'],
  ['R', 'b', '1', '+'],
  ['S', 'r'],
  ['S', 'r', '2', '+'],
  ['Y'],
  ['Y', '3', '+'],
  ['Z', 'r'],
  ['Z', 'r', '4', '+'],
  ['N', 'b'],
  ['N', 'b', '3', '+'],
  ['N', 'b', '5', '+'],
  ['M', 'o'],
  ['M', 'o', '3', '+'],
  ['M', 'o', '5', '+'],
  ['M', 'o', '6', '+'],
  ['T', 'c'],
  ['R', 'u'],
  ['R', 'u', '3', '+'],
  ['R', 'u', '4', '+'],
  ['R', 'h'],
  ['R', 'h', '3', '+'],
  ['R', 'h', '4', '+'],
  ['P', 'd'],
  ['P', 'd', '2', '+'],
  ['P', 'd', '4', '+'],
  ['A', 'g'],
  ['A', 'g', '1', '+'],
  ['A', 'g', '2', '+'],
  ['C', 'd'],
  ['C', 'd', '2', '+'],
  ['I', 'n'],
  ['I', 'n', '3', '+'],
  ['S', 'n'],
  ['S', 'n', '2', '+'],
  ['S', 'n', '4', '+'],
  ['S', 'b'],
  ['S', 'b', '3', '+'],
  ['S', 'b', '5', '+'],
  ['T', 'e'],
  ['I'],
  ['I', '1', '-'],
  ['X', 'e'],
  ['C', 's'],
  ['C', 's', '1', '+'],
  ['B', 'a'],
  ['B', 'a', '2', '+'],
  ['L', 'a'],
  ['L', 'a', '3', '+'],
  ['C', 'e'],
  ['C', 'e', '3', '+'],
  ['C', 'e', '4', '+'],
  ['P', 'r'],
  ['P', 'r', '3', '+'],
  ['P', 'r', '4', '+'],
  ['N', 'd'],
  ['N', 'd', '3', '+'],
  ['P', 'm'],
  ['P', 'm', '3', '+'],
  ['S', 'm'],
  ['S', 'm', '3', '+'],
  ['E', 'u'],
  ['E', 'u', '2', '+'],
  ['E', 'u', '3', '+'],
  ['G', 'd'],
  ['G', 'd', '3', '+'],
  ['T', 'b'],
  ['T', 'b', '3', '+'],
  ['D', 'y'],
  ['D', 'y', '3', '+'],
  ['H', 'o'],
  ['H', 'o', '3', '+'],
  ['E', 'r'],
  ['E', 'r', '3', '+'],
  ['T', 'm'],
  ['T', 'm', '3', '+'],
  ['Y', 'b'],
  ['Y', 'b', '2', '+'],
  ['Y', 'b', '3', '+'],
  ['L', 'u'],
  ['L', 'u', '3', '+'],
  ['H', 'f'],
  ['H', 'f', '4', '+'],
  ['T', 'a'],
  ['T', 'a', '5', '+'],
  ['W'],
  ['W', '6', '+'],
  ['R', 'e'],
  ['O', 's'],
  ['O', 's', '4', '+'],
  ['I', 'r'],
  ['I', 'r', '3', '+'],
  ['I', 'r', '4', '+'],
  ['P', 't'],
  ['P', 't', '2', '+'],
  ['P', 't', '4', '+'],
  ['A', 'u'],
  ['A', 'u', '1', '+'],
  ['A', 'u', '3', '+'],
  ['H', 'g'],
  ['H', 'g', '1', '+'],
  ['H', 'g', '2', '+'],
  ['T', 'l'],
  ['T', 'l', '1', '+'],
  ['T', 'l', '3', '+'],
  ['P', 'b'],
  ['P', 'b', '2', '+'],
  ['P', 'b', '4', '+'],
  ['B', 'i'],
  ['B', 'i', '3', '+'],
  ['B', 'i', '5', '+'],
  ['P', 'o'],
  ['A', 't'],
  ['R', 'n'],
  ['F', 'r'],
  ['R', 'a'],
  ['R', 'a', '2', '+'],
  ['A', 'c'],
  ['A', 'c', '3', '+'],
  ['T', 'h'],
  ['T', 'h', '4', '+'],
  ['P', 'a'],
  ['U'],
  ['U', '3', '+'],
  ['U', '4', '+'],
  ['U', '6', '+'],
  ['N', 'p'],
  ['N', 'p', '3', '+'],
  ['N', 'p', '4', '+'],
  ['N', 'p', '6', '+'],
  ['P', 'u'],
  ['P', 'u', '3', '+'],
  ['P', 'u', '4', '+'],
  ['P', 'u', '6', '+'],
  ['A', 'm'],
  ['C', 'm'],
  ['B', 'k'],
  ['C', 'f']]

/-- the keys of `DATABASE["Orbitals by radial Slater functions"]` -/
def slaterKeys : List (List Char × List Char) := [
  (['H'], ['1', 's']),
  (['H', 'e'], ['1', 's']),
  (['L', 'i'], ['1', 's']),
  (['L', 'i'], ['2', 's']),
  (['B', 'e'], ['1', 's']),
  (['B', 'e'], ['2', 's']),
  (['B'], ['1', 's']),
  (['B'], ['2', 's']),
  (['B'], ['2', 'p']),
  (['C'], ['1', 's']),
  (['C'], ['2', 's']),
  (['C'], ['2', 'p']),
  (['N'], ['1', 's']),
  (['N'], ['2', 's']),
  (['N'], ['2', 'p']),
  (['O'], ['1', 's']),
  (['O'], ['2', 's']),
  (['O'], ['2', 'p']),
  (['F'], ['1', 's']),
  (['F'], ['2', 's']),
  (['F'], ['2', 'p']),
  (['N', 'e'], ['1', 's']),
  (['N', 'e'], ['2', 's']),
  (['N', 'e'], ['2', 'p']),
  (['N', 'a'], ['1', 's']),
  (['N', 'a'], ['2', 's']),
  (['N', 'a'], ['3', 's']),
  (['N', 'a'], ['2', 'p']),
  (['M', 'g'], ['1', 's']),
  (['M', 'g'], ['2', 's']),
  (['M', 'g'], ['3', 's']),
  (['M', 'g'], ['2', 'p']),
  (['A', 'l'], ['1', 's']),
  (['A', 'l'], ['2', 's']),
  (['A', 'l'], ['3', 's']),
  (['A', 'l'], ['2', 'p']),
  (['A', 'l'], ['3', 'p']),
  (['S', 'i'], ['1', 's']),
  (['S', 'i'], ['2', 's']),
  (['S', 'i'], ['3', 's']),
  (['S', 'i'], ['2', 'p']),
  (['S', 'i'], ['3', 'p']),
  (['P'], ['1', 's']),
  (['P'], ['2', 's']),
  (['P'], ['3', 's']),
  (['P'], ['2', 'p']),
  (['P'], ['3', 'p']),
  (['S'], ['1', 's']),
  (['S'], ['2', 's']),
  (['S'], ['3', 's']),
  (['S'], ['2', 'p']),
  (['S'], ['3', 'p']),
  (['C', 'l'], ['1', 's']),
  (['C', 'l'], ['2', 's']),
  (['C', 'l'], ['3', 's']),
  (['C', 'l'], ['2', 'p']),
  (['C', 'l'], ['3', 'p']),
  (['A', 'r'], ['1', 's']),
  (['A', 'r'], ['2', 's']),
  (['A', 'r'], ['3', 's']),
  (['A', 'r'], ['2', 'p']),
  (['A', 'r'], ['3', 'p']),
  (['K'], ['1', 's']),
  (['K'], ['2', 's']),
  (['K'], ['3', 's']),
  (['K'], ['2', 'p']),
  (['K'], ['3', 'p']),
  (['C', 'a'], ['1', 's']),
  (['C', 'a'], ['2', 's']),
  (['C', 'a'], ['3', 's']),
  (['C', 'a'], ['2', 'p']),
  (['C', 'a'], ['3', 'p']),
  (['S', 'c'], ['1', 's']),
  (['S', 'c'], ['2', 's']),
  (['S', 'c'], ['3', 's']),
  (['S', 'c'], ['4', 's']),
  (['S', 'c'], ['2', 'p']),
  (['S', 'c'], ['3', 'p']),
  (['S', 'c'], ['3', 'd']),
  (['T', 'i'], ['1', 's']),
  (['T', 'i'], ['2', 's']),
  (['T', 'i'], ['3', 's']),
  (['T', 'i'], ['4', 's']),
  (['T', 'i'], ['2', 'p']),
  (['T', 'i'], ['3', 'p']),
  (['T', 'i'], ['3', 'd']),
  (['V'], ['1', 's']),
  (['V'], ['2', 's']),
  (['V'], ['3', 's']),
  (['V'], ['4', 's']),
  (['V'], ['2', 'p']),
  (['V'], ['3', 'p']),
  (['V'], ['3', 'd']),
  (['C', 'r'], ['1', 's']),
  (['C', 'r'], ['2', 's']),
  (['C', 'r'], ['3', 's']),
  (['C', 'r'], ['4', 's']),
  (['C', 'r'], ['2', 'p']),
  (['C', 'r'], ['3', 'p']),
  (['C', 'r'], ['3', 'd']),
  (['M', 'n'], ['1', 's']),
  (['M', 'n'], ['2', 's']),
  (['M', 'n'], ['3', 's']),
  (['M', 'n'], ['4', 's']),
  (['M', 'n'], ['2', 'p']),
  (['M', 'n'], ['3', 'p']),
  (['M', 'n'], ['3', 'd']),
  (['F', 'e'], ['1', 's']),
  (['F', 'e'], ['2', 's']),
  (['F', 'e'], ['3', 's']),
  (['F', 'e'], ['4', 's']),
  (['F', 'e'], ['2', 'p']),
  (['F', 'e'], ['3', 'p']),
  (['F', 'e'], ['3', 'd']),
  (['C', 'o'], ['1', 's']),
  (['C', 'o'], ['2', 's']),
  (['C', 'o'], ['3', 's']),
  (['C', 'o'], ['4', 's']),
  (['C', 'o'], ['2', 'p']),
  (['C', 'o'], ['3', 'p']),
  (['C', 'o'], ['3', 'd']),
  (['N', 'i'], ['1', 's']),
  (['N', 'i'], ['2', 's']),
  (['N', 'i'], ['3', 's']),
  (['N', 'i'], ['4', 's']),
  (['N', 'i'], ['2', 'p']),
  (['N', 'i'], ['3', 'p']),
  (['N', 'i'], ['3', 'd']),
  (['C', 'u'], ['1', 's']),
  (['C', 'u'], ['2', 's']),
  (['C', 'u'], ['3', 's']),
  (['C', 'u'], ['4', 's']),
  (['C', 'u'], ['2', 'p']),
  (['C', 'u'], ['3', 'p']),
  (['C', 'u'], ['3', 'd']),
  (['Z', 'n'], ['1', 's']),
  (['Z', 'n'], ['2', 's']),
  (['Z', 'n'], ['3', 's']),
  (['Z', 'n'], ['4', 's']),
  (['Z', 'n'], ['2', 'p']),
  (['Z', 'n'], ['3', 'p']),
  (['Z', 'n'], ['3', 'd']),
  (['G', 'a'], ['1', 's']),
  (['G', 'a'], ['2', 's']),
  (['G', 'a'], ['3', 's']),
  (['G', 'a'], ['4', 's']),
  (['G', 'a'], ['2', 'p']),
  (['G', 'a'], ['3', 'p']),
  (['G', 'a'], ['3', 'd']),
  (['G', 'e'], ['1', 's']),
  (['G', 'e'], ['2', 's']),
  (['G', 'e'], ['3', 's']),
  (['G', 'e'], ['4', 's']),
  (['G', 'e'], ['2', 'p']),
  (['G', 'e'], ['3', 'p']),
  (['G', 'e'], ['3', 'd']),
  (['A', 's'], ['1', 's']),
  (['A', 's'], ['2', 's']),
  (['A', 's'], ['3', 's']),
  (['A', 's'], ['4', 's']),
  (['A', 's'], ['2', 'p']),
  (['A', 's'], ['3', 'p']),
  (['A', 's'], ['3', 'd']),
  (['S', 'e'], ['1', 's']),
  (['S', 'e'], ['2', 's']),
  (['S', 'e'], ['3', 's']),
  (['S', 'e'], ['4', 's']),
  (['S', 'e'], ['2', 'p']),
  (['S', 'e'], ['3', 'p']),
  (['S', 'e'], ['3', 'd']),
  (['B', 'r'], ['1', 's']),
  (['B', 'r'], ['2', 's']),
  (['B', 'r'], ['3', 's']),
  (['B', 'r'], ['4', 's']),
  (['B', 'r'], ['2', 'p']),
  (['B', 'r'], ['3', 'p']),
  (['B', 'r'], ['4', 'p']),
  (['B', 'r'], ['3', 'd']),
  (['K', 'r'], ['1', 's']),
  (['K', 'r'], ['2', 's']),
  (['K', 'r'], ['3', 's']),
  (['K', 'r'], ['4', 's']),
  (['K', 'r'], ['2', 'p']),
  (['K', 'r'], ['3', 'p']),
  (['K', 'r'], ['3', 'd']),
  (['R', 'b'], ['1', 's']),
  (['R', 'b'], ['2', 's']),
  (['R', 'b'], ['3', 's']),
  (['R', 'b'], ['4', 's']),
  (['R', 'b'], ['2', 'p']),
  (['R', 'b'], ['3', 'p']),
  (['R', 'b'], ['4', 'p']),
  (['R', 'b'], ['3', 'd']),
  (['S', 'r'], ['1', 's']),
  (['S', 'r'], ['2', 's']),
  (['S', 'r'], ['3', 's']),
  (['S', 'r'], ['4', 's']),
  (['S', 'r'], ['5', 's']),
  (['S', 'r'], ['2', 'p']),
  (['S', 'r'], ['3', 'p']),
  (['S', 'r'], ['4', 'p']),
  (['S', 'r'], ['3', 'd']),
  (['Y'], ['1', 's']),
  (['Y'], ['2', 's']),
  (['Y'], ['3', 's']),
  (['Y'], ['4', 's']),
  (['Y'], ['5', 's']),
  (['Y'], ['2', 'p']),
  (['Y'], ['3', 'p']),
  (['Y'], ['4', 'p']),
  (['Y'], ['3', 'd']),
  (['Y'], ['4', 'd']),
  (['Z', 'r'], ['1', 's']),
  (['Z', 'r'], ['2', 's']),
  (['Z', 'r'], ['3', 's']),
  (['Z', 'r'], ['4', 's']),
  (['Z', 'r'], ['5', 's']),
  (['Z', 'r'], ['2', 'p']),
  (['Z', 'r'], ['3', 'p']),
  (['Z', 'r'], ['4', 'p']),
  (['Z', 'r'], ['3', 'd']),
  (['Z', 'r'], ['4', 'd']),
  (['N', 'b'], ['1', 's']),
  (['N', 'b'], ['2', 's']),
  (['N', 'b'], ['3', 's']),
  (['N', 'b'], ['4', 's']),
  (['N', 'b'], ['5', 's']),
  (['N', 'b'], ['2', 'p']),
  (['N', 'b'], ['3', 'p']),
  (['N', 'b'], ['4', 'p']),
  (['N', 'b'], ['3', 'd']),
  (['N', 'b'], ['4', 'd']),
  (['M', 'o'], ['1', 's']),
  (['M', 'o'], ['2', 's']),
  (['M', 'o'], ['3', 's']),
  (['M', 'o'], ['4', 's']),
  (['M', 'o'], ['5', 's']),
  (['M', 'o'], ['2', 'p']),
  (['M', 'o'], ['3', 'p']),
  (['M', 'o'], ['4', 'p']),
  (['M', 'o'], ['3', 'd']),
  (['M', 'o'], ['4', 'd']),
  (['T', 'c'], ['1', 's']),
  (['T', 'c'], ['2', 's']),
  (['T', 'c'], ['3', 's']),
  (['T', 'c'], ['4', 's']),
  (['T', 'c'], ['5', 's']),
  (['T', 'c'], ['2', 'p']),
  (['T', 'c'], ['3', 'p']),
  (['T', 'c'], ['4', 'p']),
  (['T', 'c'], ['3', 'd']),
  (['T', 'c'], ['4', 'd']),
  (['R', 'u'], ['1', 's']),
  (['R', 'u'], ['2', 's']),
  (['R', 'u'], ['3', 's']),
  (['R', 'u'], ['4', 's']),
  (['R', 'u'], ['5', 's']),
  (['R', 'u'], ['2', 'p']),
  (['R', 'u'], ['3', 'p']),
  (['R', 'u'], ['4', 'p']),
  (['R', 'u'], ['3', 'd']),
  (['R', 'u'], ['4', 'd']),
  (['R', 'h'], ['1', 's']),
  (['R', 'h'], ['2', 's']),
  (['R', 'h'], ['3', 's']),
  (['R', 'h'], ['4', 's']),
  (['R', 'h'], ['5', 's']),
  (['R', 'h'], ['2', 'p']),
  (['R', 'h'], ['3', 'p']),
  (['R', 'h'], ['4', 'p']),
  (['R', 'h'], ['3', 'd']),
  (['R', 'h'], ['4', 'd']),
  (['P', 'd'], ['1', 's']),
  (['P', 'd'], ['2', 's']),
  (['P', 'd'], ['3', 's']),
  (['P', 'd'], ['4', 's']),
  (['P', 'd'], ['5', 's']),
  (['P', 'd'], ['2', 'p']),
  (['P', 'd'], ['3', 'p']),
  (['P', 'd'], ['4', 'p']),
  (['P', 'd'], ['3', 'd']),
  (['P', 'd'], ['4', 'd']),
  (['A', 'g'], ['1', 's']),
  (['A', 'g'], ['2', 's']),
  (['A', 'g'], ['3', 's']),
  (['A', 'g'], ['4', 's']),
  (['A', 'g'], ['5', 's']),
  (['A', 'g'], ['2', 'p']),
  (['A', 'g'], ['3', 'p']),
  (['A', 'g'], ['4', 'p']),
  (['A', 'g'], ['3', 'd']),
  (['A', 'g'], ['4', 'd']),
  (['C', 'd'], ['1', 's']),
  (['C', 'd'], ['2', 's']),
  (['C', 'd'], ['3', 's']),
  (['C', 'd'], ['4', 's']),
  (['C', 'd'], ['5', 's']),
  (['C', 'd'], ['2', 'p']),
  (['C', 'd'], ['3', 'p']),
  (['C', 'd'], ['4', 'p']),
  (['C', 'd'], ['3', 'd']),
  (['C', 'd'], ['4', 'd']),
  (['I', 'n'], ['1', 's']),
  (['I', 'n'], ['2', 's']),
  (['I', 'n'], ['3', 's']),
  (['I', 'n'], ['4', 's']),
  (['I', 'n'], ['5', 's']),
  (['I', 'n'], ['2', 'p']),
  (['I', 'n'], ['3', 'p']),
  (['I', 'n'], ['4', 'p']),
  (['I', 'n'], ['5', 'p']),
  (['I', 'n'], ['3', 'd']),
  (['I', 'n'], ['4', 'd']),
  (['S', 'n'], ['1', 's']),
  (['S', 'n'], ['2', 's']),
  (['S', 'n'], ['3', 's']),
  (['S', 'n'], ['4', 's']),
  (['S', 'n'], ['5', 's']),
  (['S', 'n'], ['2', 'p']),
  (['S', 'n'], ['3', 'p']),
  (['S', 'n'], ['4', 'p']),
  (['S', 'n'], ['5', 'p']),
  (['S', 'n'], ['3', 'd']),
  (['S', 'n'], ['4', 'd']),
  (['S', 'b'], ['1', 's']),
  (['S', 'b'], ['2', 's']),
  (['S', 'b'], ['3', 's']),
  (['S', 'b'], ['4', 's']),
  (['S', 'b'], ['5', 's']),
  (['S', 'b'], ['2', 'p']),
  (['S', 'b'], ['3', 'p']),
  (['S', 'b'], ['4', 'p']),
  (['S', 'b'], ['5', 'p']),
  (['S', 'b'], ['3', 'd']),
  (['S', 'b'], ['4', 'd']),
  (['T', 'e'], ['1', 's']),
  (['T', 'e'], ['2', 's']),
  (['T', 'e'], ['3', 's']),
  (['T', 'e'], ['4', 's']),
  (['T', 'e'], ['5', 's']),
  (['T', 'e'], ['2', 'p']),
  (['T', 'e'], ['3', 'p']),
  (['T', 'e'], ['4', 'p']),
  (['T', 'e'], ['5', 'p']),
  (['T', 'e'], ['3', 'd']),
  (['T', 'e'], ['4', 'd']),
  (['I'], ['1', 's']),
  (['I'], ['2', 's']),
  (['I'], ['3', 's']),
  (['I'], ['4', 's']),
  (['I'], ['5', 's']),
  (['I'], ['2', 'p']),
  (['I'], ['3', 'p']),
  (['I'], ['4', 'p']),
  (['I'], ['5', 'p']),
  (['I'], ['3', 'd']),
  (['I'], ['4', 'd']),
  (['X', 'e'], ['1', 's']),
  (['X', 'e'], ['2', 's']),
  (['X', 'e'], ['3', 's']),
  (['X', 'e'], ['4', 's']),
  (['X', 'e'], ['5', 's']),
  (['X', 'e'], ['2', 'p']),
  (['X', 'e'], ['3', 'p']),
  (['X', 'e'], ['4', 'p']),
  (['X', 'e'], ['5', 'p']),
  (['X', 'e'], ['3', 'd']),
  (['X', 'e'], ['4', 'd']),
  (['C', 's'], ['1', 's']),
  (['C', 's'], ['2', 's']),
  (['C', 's'], ['3', 's']),
  (['C', 's'], ['4', 's']),
  (['C', 's'], ['5', 's']),
  (['C', 's'], ['6', 's']),
  (['C', 's'], ['2', 'p']),
  (['C', 's'], ['3', 'p']),
  (['C', 's'], ['4', 'p']),
  (['C', 's'], ['5', 'p']),
  (['C', 's'], ['3', 'd']),
  (['C', 's'], ['4', 'd']),
  (['B', 'a'], ['1', 's']),
  (['B', 'a'], ['2', 's']),
  (['B', 'a'], ['3', 's']),
  (['B', 'a'], ['4', 's']),
  (['B', 'a'], ['5', 's']),
  (['B', 'a'], ['6', 's']),
  (['B', 'a'], ['2', 'p']),
  (['B', 'a'], ['3', 'p']),
  (['B', 'a'], ['4', 'p']),
  (['B', 'a'], ['5', 'p']),
  (['B', 'a'], ['3', 'd']),
  (['B', 'a'], ['4', 'd']),
  (['P', 'r'], ['4', 'f']),
  (['T', 'b'], ['1', 's']),
  (['T', 'b'], ['2', 's']),
  (['T', 'b'], ['3', 's']),
  (['T', 'b'], ['4', 's']),
  (['T', 'b'], ['5', 's']),
  (['T', 'b'], ['6', 's']),
  (['T', 'b'], ['2', 'p']),
  (['T', 'b'], ['3', 'p']),
  (['T', 'b'], ['4', 'p']),
  (['T', 'b'], ['5', 'p']),
  (['T', 'b'], ['3', 'd']),
  (['T', 'b'], ['4', 'd']),
  (['T', 'b'], ['4', 'f']),
  (['H', 'o'], ['1', 's']),
  (['H', 'o'], ['2', 's']),
  (['H', 'o'], ['3', 's']),
  (['H', 'o'], ['4', 's']),
  (['H', 'o'], ['5', 's']),
  (['H', 'o'], ['6', 's']),
  (['H', 'o'], ['2', 'p']),
  (['H', 'o'], ['3', 'p']),
  (['H', 'o'], ['4', 'p']),
  (['H', 'o'], ['5', 'p']),
  (['H', 'o'], ['3', 'd']),
  (['H', 'o'], ['4', 'd']),
  (['H', 'o'], ['4', 'f']),
  (['E', 'r'], ['3', 'd']),
  (['E', 'r'], ['4', 'f']),
  (['Y', 'b'], ['3', 'd']),
  (['Y', 'b'], ['4', 'f']),
  (['O', 's'], ['1', 's']),
  (['O', 's'], ['2', 's']),
  (['O', 's'], ['3', 's']),
  (['O', 's'], ['4', 's']),
  (['O', 's'], ['5', 's']),
  (['O', 's'], ['6', 's']),
  (['O', 's'], ['2', 'p']),
  (['O', 's'], ['3', 'p']),
  (['O', 's'], ['4', 'p']),
  (['O', 's'], ['5', 'p']),
  (['O', 's'], ['3', 'd']),
  (['O', 's'], ['4', 'd']),
  (['O', 's'], ['5', 'd']),
  (['O', 's'], ['4', 'f'])]

end Cryspy.Gen
