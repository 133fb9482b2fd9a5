import Mathlib.Init

/-! Generated by tools/gen_sg.py from cryspy/A_functions_base/function_2_space_group.py; do not edit. -/

namespace Cryspy.SG

/-- `ACCESIBLE_NAME_HM_SHORT`, function_2_space_group.py:282-318. -/
def hmShort : List String := [
  "P 1",
  "P -1",
  "P 2",
  "P 21",
  "C 2",
  "P m",
  "P c",
  "C m",
  "C c",
  "P 2/m",
  "P 21/m",
  "C 2/m",
  "P 2/c",
  "P 21/c",
  "C 2/c",
  "P 2 2 2",
  "P 2 2 21",
  "P 21 21 2",
  "P 21 21 21",
  "C 2 2 21",
  "C 2 2 2",
  "F 2 2 2",
  "I 2 2 2",
  "I 21 21 21",
  "P m m 2",
  "P m c 21",
  "P c c 2",
  "P m a 2",
  "P c a 21",
  "P n c 2",
  "P m n 21",
  "P b a 2",
  "P n a 21",
  "P n n 2",
  "C m m 2",
  "C m c 21",
  "C c c 2",
  "A m m 2",
  "A e m 2",
  "A m a 2",
  "A e a 2",
  "F m m 2",
  "F d d 2",
  "I m m 2",
  "I b a 2",
  "I m a 2",
  "P m m m",
  "P n n n",
  "P c c m",
  "P b a n",
  "P m m a",
  "P n n a",
  "P m n a",
  "P c c a",
  "P b a m",
  "P c c n",
  "P b c m",
  "P n n m",
  "P m m n",
  "P b c n",
  "P b c a",
  "P n m a",
  "C m c m",
  "C m c e",
  "C m m m",
  "C c c m",
  "C m m e",
  "C c c e",
  "F m m m",
  "F d d d",
  "I m m m",
  "I b a m",
  "I b c a",
  "I m m a",
  "P 4",
  "P 41",
  "P 42",
  "P 43",
  "I 4",
  "I 41",
  "P -4",
  "I -4",
  "P 4/m",
  "P 42/m",
  "P 4/n",
  "P 42/n",
  "I 4/m",
  "I 41/a",
  "P 4 2 2",
  "P 4 21 2",
  "P 41 2 2",
  "P 41 21 2",
  "P 42 2 2",
  "P 42 21 2",
  "P 43 2 2",
  "P 43 21 2",
  "I 4 2 2",
  "I 41 2 2",
  "P 4 m m",
  "P 4 b m",
  "P 42 c m",
  "P 42 n m",
  "P 4 c c",
  "P 4 n c",
  "P 42 m c",
  "P 42 b c",
  "I 4 m m",
  "I 4 c m",
  "I 41 m d",
  "I 41 c d",
  "P -4 2 m",
  "P -4 2 c",
  "P -4 21 m",
  "P -4 21 c",
  "P -4 m 2",
  "P -4 c 2",
  "P -4 b 2",
  "P -4 n 2",
  "I -4 m 2",
  "I -4 c 2",
  "I -4 2 m",
  "I -4 2 d",
  "P 4/m m m",
  "P 4/m c c",
  "P 4/n b m",
  "P 4/n n c",
  "P 4/m b m",
  "P 4/m n c",
  "P 4/n m m",
  "P 4/n c c",
  "P 42/m m c",
  "P 42/m c m",
  "P 42/n b c",
  "P 42/n n m",
  "P 42/m b c",
  "P 42/m n m",
  "P 42/n m c",
  "P 42/n c m",
  "I 4/m m m",
  "I 4/m c m",
  "I 41/a m d",
  "I 41/a c d",
  "P 3",
  "P 31",
  "P 32",
  "R 3",
  "P -3",
  "R -3",
  "P 3 1 2",
  "P 3 2 1",
  "P 31 1 2",
  "P 31 2 1",
  "P 32 1 2",
  "P 32 2 1",
  "R 3 2",
  "P 3 m 1",
  "P 3 1 m",
  "P 3 c 1",
  "P 3 1 c",
  "R 3 m",
  "R 3 c",
  "P -3 1 m",
  "P -3 1 c",
  "P -3 m 1",
  "P -3 c 1",
  "R -3 m",
  "R -3 c",
  "P 6",
  "P 61",
  "P 65",
  "P 62",
  "P 64",
  "P 63",
  "P -6",
  "P 6/m ",
  "P 63/m",
  "P 6 2 2",
  "P 61 2 2",
  "P 65 2 2",
  "P 62 2 2",
  "P 64 2 2",
  "P 63 2 2",
  "P 6 m m",
  "P 6 c c",
  "P 63 c m",
  "P 63 m c",
  "P -6 m 2",
  "P -6 c 2",
  "P -6 2 m",
  "P -6 2 c",
  "P 6/m m m",
  "P 6/m c c",
  "P 63/m c m",
  "P 63/m m c",
  "P 2 3",
  "F 2 3",
  "I 2 3",
  "P 21 3",
  "I 21 3",
  "P m -3",
  "P n -3",
  "F m -3",
  "F d -3",
  "I m -3",
  "P a -3",
  "I a -3",
  "P 4 3 2",
  "P 42 3 2",
  "F 4 3 2",
  "F 41 3 2",
  "I 4 3 2",
  "P 43 3 2",
  "P 41 3 2",
  "I 41 3 2",
  "P -4 3 m",
  "F -4 3 m",
  "I -4 3 m",
  "P -4 3 n",
  "F -4 3 c",
  "I -4 3 d",
  "P m -3 m",
  "P n -3 n",
  "P m -3 n",
  "P n -3 m",
  "F m -3 m",
  "F m -3 c",
  "F d -3 m",
  "F d -3 c",
  "I m -3 m",
  "I a -3 d"]

/-- `ACCESIBLE_NAME_SCHOENFLIES`, function_2_space_group.py:358-386. -/
def schoenflies : List String := [
  "C1.1",
  "Ci.1",
  "C2.1",
  "C2.2",
  "C2.3",
  "Cs.1",
  "Cs.2",
  "Cs.3",
  "Cs.4",
  "C2h.1",
  "C2h.2",
  "C2h.3",
  "C2h.4",
  "C2h.5",
  "C2h.6",
  "D2.1",
  "D2.2",
  "D2.3",
  "D2.4",
  "D2.5",
  "D2.6",
  "D2.7",
  "D2.8",
  "D2.9",
  "C2v.1",
  "C2v.2",
  "C2v.3",
  "C2v.4",
  "C2v.5",
  "C2v.6",
  "C2v.7",
  "C2v.8",
  "C2v.9",
  "C2v.10",
  "C2v.11",
  "C2v.12",
  "C2v.13",
  "C2v.14",
  "C2v.15",
  "C2v.16",
  "C2v.17",
  "C2v.18",
  "C2v.19",
  "C2v.20",
  "C2v.21",
  "C2v.22",
  "D2h.1",
  "D2h.2",
  "D2h.3",
  "D2h.4",
  "D2h.5",
  "D2h.6",
  "D2h.7",
  "D2h.8",
  "D2h.9",
  "D2h.10",
  "D2h.11",
  "D2h.12",
  "D2h.13",
  "D2h.14",
  "D2h.15",
  "D2h.16",
  "D2h.17",
  "D2h.18",
  "D2h.19",
  "D2h.20",
  "D2h.21",
  "D2h.22",
  "D2h.23",
  "D2h.24",
  "D2h.25",
  "D2h.26",
  "D2h.27",
  "D2h.28",
  "C4.1",
  "C4.2",
  "C4.3",
  "C4.4",
  "C4.5",
  "C4.6",
  "S4.1",
  "S4.2",
  "C4h.1",
  "C4h.2",
  "C4h.3",
  "C4h.4",
  "C4h.5",
  "C4h.6",
  "D4.1",
  "D4.2",
  "D4.3",
  "D4.4",
  "D4.5",
  "D4.6",
  "D4.7",
  "D4.8",
  "D4.9",
  "D4.10",
  "C4v.1",
  "C4v.2",
  "C4v.3",
  "C4v.4",
  "C4v.5",
  "C4v.6",
  "C4v.7",
  "C4v.8",
  "C4v.9",
  "C4v.10",
  "C4v.11",
  "C4v.12",
  "D2d.1",
  "D2d.2",
  "D2d.3",
  "D2d.4",
  "D2d.5",
  "D2d.6",
  "D2d.7",
  "D2d.8",
  "D2d.9",
  "D2d.10",
  "D2d.11",
  "D2d.12",
  "D4h.1",
  "D4h.2",
  "D4h.3",
  "D4h.4",
  "D4h.5",
  "D4h.6",
  "D4h.7",
  "D4h.8",
  "D4h.9",
  "D4h.10",
  "D4h.11",
  "D4h.12",
  "D4h.13",
  "D4h.14",
  "D4h.15",
  "D4h.16",
  "D4h.17",
  "D4h.18",
  "D4h.19",
  "D4h.20",
  "C3.1",
  "C3.2",
  "C3.3",
  "C3.4",
  "C3i.1",
  "C3i.2",
  "D3.1",
  "D3.2",
  "D3.3",
  "D3.4",
  "D3.5",
  "D3.6",
  "D3.7",
  "C3v.1",
  "C3v.2",
  "C3v.3",
  "C3v.4",
  "C3v.5",
  "C3v.6",
  "D3d.1",
  "D3d.2",
  "D3d.3",
  "D3d.4",
  "D3d.5",
  "D3d.6",
  "C6.1",
  "C6.2",
  "C6.3",
  "C6.4",
  "C6.5",
  "C6.6",
  "C3h.1",
  "C6h.1",
  "C6h.2",
  "D6.1",
  "D6.2",
  "D6.3",
  "D6.4",
  "D6.5",
  "D6.6",
  "C6v.1",
  "C6v.2",
  "C6v.3",
  "C6v.4",
  "D3h.1",
  "D3h.2",
  "D3h.3",
  "D3h.4",
  "D6h.1",
  "D6h.2",
  "D6h.3",
  "D6h.4",
  "T.1",
  "T.2",
  "T.3",
  "T.4",
  "T.5",
  "Th.1",
  "Th.2",
  "Th.3",
  "Th.4",
  "Th.5",
  "Th.6",
  "Th.7",
  "O.1",
  "O.2",
  "O.3",
  "O.4",
  "O.5",
  "O.6",
  "O.7",
  "O.8",
  "Td.1",
  "Td.2",
  "Td.3",
  "Td.4",
  "Td.5",
  "Td.6",
  "Oh.1",
  "Oh.2",
  "Oh.3",
  "Oh.4",
  "Oh.5",
  "Oh.6",
  "Oh.7",
  "Oh.8",
  "Oh.9",
  "Oh.10"]

/-- `ACCESIBLE_NAME_HALL_SHORT`, function_2_space_group.py:388-423. -/
def hallShort : List String := [
  "P 1",
  "-P 1",
  "P 2y",
  "P 2yb",
  "C 2y",
  "P -2y",
  "P -2yc",
  "C -2y",
  "C -2yc",
  "-P 2y",
  "-P 2yb",
  "-C 2y",
  "-P 2yc",
  "-P 2ybc",
  "-C 2yc",
  "P 2 2",
  "P 2c 2",
  "P 2 2ab",
  "P 2ac 2ab",
  "C 2c 2",
  "C 2 2",
  "F 2 2",
  "I 2 2",
  "I 2b 2c",
  "P 2 -2",
  "P 2c -2",
  "P 2 -2c",
  "P 2 -2a",
  "P 2c -2ac",
  "P 2 -2bc",
  "P 2ac -2",
  "P 2 -2ab",
  "P 2c -2n",
  "P 2 -2n",
  "C 2 -2",
  "C 2c -2",
  "C 2 -2c",
  "A 2 -2",
  "A 2 -2b",
  "A 2 -2a",
  "A 2 -2ab",
  "F 2 -2",
  "F 2 -2d",
  "I 2 -2",
  "I 2 -2c",
  "I 2 -2a",
  "-P 2 2",
  "-P 2ab 2bc",
  "-P 2 2c",
  "-P 2ab 2b",
  "-P 2a 2a",
  "-P 2a 2bc",
  "-P 2ac 2",
  "-P 2a 2ac",
  "-P 2 2ab",
  "-P 2ab 2ac",
  "-P 2c 2b",
  "-P 2 2n",
  "-P 2ab 2a",
  "-P 2n 2ab",
  "-P 2ac 2ab",
  "-P 2ac 2n",
  "-C 2c 2",
  "-C 2ac 2",
  "-C 2 2",
  "-C 2 2c",
  "-C 2a 2",
  "-C 2a 2ac",
  "-F 2 2",
  "-F 2uv 2vw",
  "-I 2 2",
  "-I 2 2c",
  "-I 2b 2c",
  "-I 2b 2",
  "P 4",
  "P 4w",
  "P 4c",
  "P 4cw",
  "I 4",
  "I 4bw",
  "P -4",
  "I -4",
  "-P 4",
  "-P 4c",
  "-P 4a",
  "-P 4bc",
  "-I 4",
  "-I 4ad",
  "P 4 2",
  "P 4ab 2ab",
  "P 4w 2c",
  "P 4abw 2nw",
  "P 4c 2",
  "P 4n 2n",
  "P 4cw 2c",
  "P 4nw 2abw",
  "I 4 2",
  "I 4bw 2bw",
  "P 4 -2",
  "P 4 -2ab",
  "P 4c -2c",
  "P 4n -2n",
  "P 4 -2c",
  "P 4 -2n",
  "P 4c -2",
  "P 4c -2ab",
  "I 4 -2",
  "I 4 -2c",
  "I 4bw -2",
  "I 4bw -2c",
  "P -4 2",
  "P -4 2c",
  "P -4 2ab",
  "P -4 2n",
  "P -4 -2",
  "P -4 -2c",
  "P -4 -2ab",
  "P -4 -2n",
  "I -4 -2",
  "I -4 -2c",
  "I -4 2",
  "I -4 2bw",
  "-P 4 2",
  "-P 4 2c",
  "-P 4a 2b",
  "-P 4a 2bc",
  "-P 4 2ab",
  "-P 4 2n",
  "-P 4a 2a",
  "-P 4a 2ac",
  "-P 4c 2",
  "-P 4c 2c",
  "-P 4ac 2b",
  "-P 4ac 2bc",
  "-P 4c 2ab",
  "-P 4n 2n",
  "-P 4ac 2a",
  "-P 4ac 2ac",
  "-I 4 2",
  "-I 4 2c",
  "-I 4bd 2",
  "-I 4bd 2c",
  "P 3",
  "P 31",
  "P 32",
  "R 3",
  "-P 3",
  "-R 3",
  "P 3 2",
  "P 3 2\"",
  "P 31 2 (0 0 4)",
  "P 31 2\"",
  "P 32 2 (0 0 2)",
  "P 32 2\"",
  "R 3 2\"",
  "P 3 -2\"",
  "P 3 -2",
  "P 3 -2\"c",
  "P 3 -2c",
  "R 3 -2\"",
  "R 3 -2\"c",
  "-P 3 2",
  "-P 3 2c",
  "-P 3 2\"",
  "-P 3 2\"c",
  "-R 3 2\"",
  "-R 3 2\"c",
  "P 6",
  "P 61",
  "P 65",
  "P 62",
  "P 64",
  "P 6c",
  "P -6",
  "-P 6",
  "-P 6c",
  "P 6 2",
  "P 61 2 (0 0 5)",
  "P 65 2 (0 0 1)",
  "P 62 2 (0 0 4)",
  "P 64 2 (0 0 2)",
  "P 6c 2c",
  "P 6 -2",
  "P 6 -2c",
  "P 6c -2",
  "P 6c -2c",
  "P -6 2",
  "P -6c 2",
  "P -6 -2",
  "P -6c -2c",
  "-P 6 2",
  "-P 6 2c",
  "-P 6c 2",
  "-P 6c 2c",
  "P 2 2 3",
  "F 2 2 3",
  "I 2 2 3",
  "P 2ac 2ab 3",
  "I 2b 2c 3",
  "-P 2 2 3",
  "-P 2ab 2bc 3",
  "-F 2 2 3",
  "-F 2uv 2vw 3",
  "-I 2 2 3",
  "-P 2ac 2ab 3",
  "-I 2b 2c 3",
  "P 4 2 3",
  "P 4n 2 3",
  "F 4 2 3",
  "F 4d 2 3",
  "I 4 2 3",
  "P 4acd 2ab 3",
  "P 4bd 2ab 3",
  "I 4bd 2c 3",
  "P -4 2 3",
  "F -4 2 3",
  "I -4 2 3",
  "P -4n 2 3",
  "F -4a 2 3",
  "I -4bd 2c 3",
  "-P 4 2 3",
  "-P 4a 2bc 3",
  "-P 4n 2 3",
  "-P 4bc 2bc 3",
  "-F 4 2 3",
  "-F 4a 2 3",
  "-F 4vw 2vw 3",
  "-F 4ud 2vw 3",
  "-I 4 2 3",
  "-I 4bd 2c 3"]

/-- `ACCESIBLE_LAUE_CLASS`, function_2_space_group.py:278-278. -/
def laueClasses : List String := [
  "-1",
  "2/m",
  "mmm",
  "4/m",
  "4/mmm",
  "-3",
  "-3m",
  "6/m",
  "6/mmm",
  "m-3",
  "m-3m"]

/-- `ACCESIBLE_IT_COORDINATE_SYSTEM_CODE`, function_2_space_group.py:247-251. -/
def allCodes : List String := [
  "b1",
  "b2",
  "b3",
  "-b1",
  "-b2",
  "-b3",
  "c1",
  "c2",
  "c3",
  "-c1",
  "-c2",
  "-c3",
  "a1",
  "a2",
  "a3",
  "-a1",
  "-a2",
  "-a3",
  "abc",
  "ba-c",
  "cab",
  "-cba",
  "bca",
  "a-cb",
  "1abc",
  "1ba-c",
  "1cab",
  "1-cba",
  "1bca",
  "1a-cb",
  "2abc",
  "2ba-c",
  "2cab",
  "2-cba",
  "2bca",
  "2a-cb",
  "1",
  "2",
  "h",
  "r"]

/-- `REFERENCE_TABLE_TRICLINIC_IT_COORDINATE_SYSTEM_CODE_NAME_HM_EXTENDED`, function_2_space_group.py:484-486. -/
def extTriclinic : List (Nat × Option String × String) := [
  (1, none, "P 1 1 1"),
  (2, none, "P 1 1 1")]

/-- `REFERENCE_TABLE_MONOCLINIC_IT_COORDINATE_SYSTEM_CODE_NAME_HM_EXTENDED`, function_2_space_group.py:489-547. -/
def extMonoclinic : List (Nat × Option String × String) := [
  (3, some "b1", "P 1 2 1"),
  (3, some "-b1", "P 1 2 1"),
  (3, some "c1", "P 1 1 2"),
  (3, some "-c1", "P 1 1 2"),
  (3, some "a1", "P 2 1 1"),
  (3, some "-a1", "P 2 1 1"),
  (4, some "b1", "P 1 21 1"),
  (4, some "-b1", "P 1 21 1"),
  (4, some "c1", "P 1 1 21"),
  (4, some "-c1", "P 1 1 21"),
  (4, some "a1", "P 21 1 1"),
  (4, some "-a1", "P 21 1 1"),
  (5, some "b1", "C 1 2 1"),
  (5, some "-b1", "A 1 2 1"),
  (5, some "c1", "A 1 1 2"),
  (5, some "-c1", "B 1 1 2"),
  (5, some "a1", "B 2 1 1"),
  (5, some "-a1", "C 2 1 1"),
  (5, some "b2", "A 1 2 1"),
  (5, some "-b2", "C 1 2 1"),
  (5, some "c2", "B 1 1 2"),
  (5, some "-c2", "A 1 1 2"),
  (5, some "a2", "C 2 1 1"),
  (5, some "-a2", "B 2 1 1"),
  (5, some "b3", "I 1 2 1"),
  (5, some "-b3", "I 1 2 1"),
  (5, some "c3", "I 1 1 2"),
  (5, some "-c3", "I 1 1 2"),
  (5, some "a3", "I 2 1 1"),
  (5, some "-a3", "I 2 1 1"),
  (6, some "b1", "P 1 m 1"),
  (6, some "-b1", "P 1 m 1"),
  (6, some "c1", "P 1 1 m"),
  (6, some "-c1", "P 1 1 m"),
  (6, some "a1", "P m 1 1"),
  (6, some "-a1", "P m 1 1"),
  (7, some "b1", "P 1 c 1"),
  (7, some "-b1", "P 1 a 1"),
  (7, some "c1", "P 1 1 a"),
  (7, some "-c1", "P 1 1 b"),
  (7, some "a1", "P b 1 1"),
  (7, some "-a1", "P c 1 1"),
  (7, some "b2", "P 1 n 1"),
  (7, some "-b2", "P 1 n 1"),
  (7, some "c2", "P 1 1 n"),
  (7, some "-c2", "P 1 1 n"),
  (7, some "a2", "P n 1 1"),
  (7, some "-a2", "P n 1 1"),
  (7, some "b3", "P 1 a 1"),
  (7, some "-b3", "P 1 c 1"),
  (7, some "c3", "P 1 1 b"),
  (7, some "-c3", "P 1 1 a"),
  (7, some "a3", "P c 1 1"),
  (7, some "-a3", "P b 1 1"),
  (8, some "b1", "C 1 m 1"),
  (8, some "-b1", "A 1 m 1"),
  (8, some "c1", "A 1 1 m"),
  (8, some "-c1", "B 1 1 m"),
  (8, some "a1", "B m 1 1"),
  (8, some "-a1", "C m 1 1"),
  (8, some "b2", "A 1 m 1"),
  (8, some "-b2", "C 1 m 1"),
  (8, some "c2", "B 1 1 m"),
  (8, some "-c2", "A 1 1 m"),
  (8, some "a2", "C m 1 1"),
  (8, some "-a2", "B m 1 1"),
  (8, some "b3", "I 1 m 1"),
  (8, some "-b3", "I 1 m 1"),
  (8, some "c3", "I 1 1 m"),
  (8, some "-c3", "I 1 1 m"),
  (8, some "a3", "I m 1 1"),
  (8, some "-a3", "I m 1 1"),
  (9, some "b1", "C 1 c 1"),
  (9, some "-b1", "A 1 a 1"),
  (9, some "c1", "A 1 1 a"),
  (9, some "-c1", "B 1 1 b"),
  (9, some "a1", "B b 1 1"),
  (9, some "-a1", "C c 1 1"),
  (9, some "b2", "A 1 n 1"),
  (9, some "-b2", "C 1 n 1"),
  (9, some "c2", "B 1 1 n"),
  (9, some "-c2", "A 1 1 n"),
  (9, some "a2", "C n 1 1"),
  (9, some "-a2", "B n 1 1"),
  (9, some "b3", "I 1 a 1"),
  (9, some "-b3", "I 1 c 1"),
  (9, some "c3", "I 1 1 b"),
  (9, some "-c3", "I 1 1 a"),
  (9, some "a3", "I c 1 1"),
  (9, some "-a3", "I b 1 1"),
  (10, some "b1", "P 1 2/m 1"),
  (10, some "-b1", "P 1 2/m 1"),
  (10, some "c1", "P 1 1 2/m"),
  (10, some "-c1", "P 1 1 2/m"),
  (10, some "a1", "P 2/m 1 1"),
  (10, some "-a1", "P 2/m 1 1"),
  (11, some "b1", "P 1 21/m 1"),
  (11, some "-b1", "P 1 21/m 1"),
  (11, some "c1", "P 1 1 21/m"),
  (11, some "-c1", "P 1 1 21/m"),
  (11, some "a1", "P 21/m 1 1"),
  (11, some "-a1", "P 21/m 1 1"),
  (12, some "b1", "C 1 2/m 1"),
  (12, some "-b1", "A 1 2/m 1"),
  (12, some "c1", "A 1 1 2/m"),
  (12, some "-c1", "B 1 1 2/m"),
  (12, some "a1", "B 2/m 1 1"),
  (12, some "-a1", "C 2/m 1 1"),
  (12, some "b2", "A 1 2/m 1"),
  (12, some "-b2", "C 1 2/m 1"),
  (12, some "c2", "B 1 1 2/m"),
  (12, some "-c2", "A 1 1 2/m"),
  (12, some "a2", "C 2/m 1 1"),
  (12, some "-a2", "B 2/m 1 1"),
  (12, some "b3", "I 1 2/m 1"),
  (12, some "-b3", "I 1 2/m 1"),
  (12, some "c3", "I 1 1 2/m"),
  (12, some "-c3", "I 1 1 2/m"),
  (12, some "a3", "I 2/m 1 1"),
  (12, some "-a3", "I 2/m 1 1"),
  (13, some "b1", "P 1 2/c 1"),
  (13, some "-b1", "P 1 2/a 1"),
  (13, some "c1", "P 1 1 2/a"),
  (13, some "-c1", "P 1 1 2/b"),
  (13, some "a1", "P 2/b 1 1"),
  (13, some "-a1", "P 2/c 1 1"),
  (13, some "b2", "P 1 2/n 1"),
  (13, some "-b2", "P 1 2/n 1"),
  (13, some "c2", "P 1 1 2/n"),
  (13, some "-c2", "P 1 1 2/n"),
  (13, some "a2", "P 2/n 1 1"),
  (13, some "-a2", "P 2/n 1 1"),
  (13, some "b3", "P 1 2/a 1"),
  (13, some "-b3", "P 1 2/c 1"),
  (13, some "c3", "P 1 1 2/b"),
  (13, some "-c3", "P 1 1 2/a"),
  (13, some "a3", "P 2/c 1 1"),
  (13, some "-a3", "P 2/b 1 1"),
  (14, some "b1", "P 1 21/c 1"),
  (14, some "-b1", "P 1 21/a 1"),
  (14, some "c1", "P 1 1 21/a"),
  (14, some "-c1", "P 1 1 21/b"),
  (14, some "a1", "P 21/b 1 1"),
  (14, some "-a1", "P 21/c 1 1"),
  (14, some "b2", "P 1 21/n 1"),
  (14, some "-b2", "P 1 21/n 1"),
  (14, some "c2", "P 1 1 21/n"),
  (14, some "-c2", "P 1 1 21/n"),
  (14, some "a2", "P 21/n 1 1"),
  (14, some "-a2", "P 21/n 1 1"),
  (14, some "b3", "P 1 21/a 1"),
  (14, some "-b3", "P 1 21/c 1"),
  (14, some "c3", "P 1 1 21/b"),
  (14, some "-c3", "P 1 1 21/a"),
  (14, some "a3", "P 21/c 1 1"),
  (14, some "-a3", "P 21/b 1 1"),
  (15, some "b1", "C 1 2/c 1"),
  (15, some "-b1", "A 1 2/a 1"),
  (15, some "c1", "A 1 1 2/a"),
  (15, some "-c1", "B 1 1 2/b"),
  (15, some "a1", "B 2/b 1 1"),
  (15, some "-a1", "C 2/c 1 1"),
  (15, some "b2", "A 1 2/n 1"),
  (15, some "-b2", "C 1 2/n 1"),
  (15, some "c2", "B 1 1 2/n"),
  (15, some "-c2", "A 1 1 2/n"),
  (15, some "a2", "C 2/n 1 1"),
  (15, some "-a2", "B 2/n 1 1"),
  (15, some "b3", "I 1 2/a 1"),
  (15, some "-b3", "I 1 2/c 1"),
  (15, some "c3", "I 1 1 2/b"),
  (15, some "-c3", "I 1 1 2/a"),
  (15, some "a3", "I 2/c 1 1"),
  (15, some "-a3", "I 2/b 1 1")]

/-- `REFERENCE_TABLE_ORTHORHOMBIC_IT_COORDINATE_SYSTEM_CODE_NAME_HM_EXTENDED`, function_2_space_group.py:550-679. -/
def extOrthorhombic : List (Nat × Option String × String) := [
  (16, some "abc", "P 2 2 2"),
  (16, some "ba-c", "P 2 2 2"),
  (16, some "cab", "P 2 2 2"),
  (16, some "-cba", "P 2 2 2"),
  (16, some "bca", "P 2 2 2"),
  (16, some "a-cb", "P 2 2 2"),
  (17, some "abc", "P 2 2 21"),
  (17, some "ba-c", "P 2 2 21"),
  (17, some "cab", "P 21 2 2"),
  (17, some "-cba", "P 21 2 2"),
  (17, some "bca", "P 2 21 2"),
  (17, some "a-cb", "P 2 21 2"),
  (18, some "abc", "P 21 21 2"),
  (18, some "ba-c", "P 21 21 2"),
  (18, some "cab", "P 2 21 21"),
  (18, some "-cba", "P 2 21 21"),
  (18, some "bca", "P 21 2 21"),
  (18, some "a-cb", "P 21 2 21"),
  (19, some "abc", "P 21 21 21"),
  (19, some "ba-c", "P 21 21 21"),
  (19, some "cab", "P 21 21 21"),
  (19, some "-cba", "P 21 21 21"),
  (19, some "bca", "P 21 21 21"),
  (19, some "a-cb", "P 21 21 21"),
  (20, some "abc", "C 2 2 21"),
  (20, some "ba-c", "C 2 2 21"),
  (20, some "cab", "A 21 2 2"),
  (20, some "-cba", "A 21 2 2"),
  (20, some "bca", "B 2 21 2"),
  (20, some "a-cb", "B 2 21 2"),
  (21, some "abc", "C 2 2 2"),
  (21, some "ba-c", "C 2 2 2"),
  (21, some "cab", "A 2 2 2"),
  (21, some "-cba", "A 2 2 2"),
  (21, some "bca", "B 2 2 2"),
  (21, some "a-cb", "B 2 2 2"),
  (22, some "abc", "F 2 2 2"),
  (22, some "ba-c", "F 2 2 2"),
  (22, some "cab", "F 2 2 2"),
  (22, some "-cba", "F 2 2 2"),
  (22, some "bca", "F 2 2 2"),
  (22, some "a-cb", "F 2 2 2"),
  (23, some "abc", "I 2 2 2"),
  (23, some "ba-c", "I 2 2 2"),
  (23, some "cab", "I 2 2 2"),
  (23, some "-cba", "I 2 2 2"),
  (23, some "bca", "I 2 2 2"),
  (23, some "a-cb", "I 2 2 2"),
  (24, some "abc", "I 21 21 21"),
  (24, some "ba-c", "I 21 21 21"),
  (24, some "cab", "I 21 21 21"),
  (24, some "-cba", "I 21 21 21"),
  (24, some "bca", "I 21 21 21"),
  (24, some "a-cb", "I 21 21 21"),
  (25, some "abc", "P m m 2"),
  (25, some "ba-c", "P m m 2"),
  (25, some "cab", "P 2 m m"),
  (25, some "-cba", "P 2 m m"),
  (25, some "bca", "P m 2 m"),
  (25, some "a-cb", "P m 2 m"),
  (26, some "abc", "P m c 21"),
  (26, some "ba-c", "P c m 21"),
  (26, some "cab", "P 21 m a"),
  (26, some "-cba", "P 21 a m"),
  (26, some "bca", "P b 21 m"),
  (26, some "a-cb", "P m 21 b"),
  (27, some "abc", "P c c 2"),
  (27, some "ba-c", "P c c 2"),
  (27, some "cab", "P 2 a a"),
  (27, some "-cba", "P 2 a a"),
  (27, some "bca", "P b 2 b"),
  (27, some "a-cb", "P b 2 b"),
  (28, some "abc", "P m a 2"),
  (28, some "ba-c", "P b m 2"),
  (28, some "cab", "P 2 m b"),
  (28, some "-cba", "P 2 c m"),
  (28, some "bca", "P c 2 m"),
  (28, some "a-cb", "P m 2 a"),
  (29, some "abc", "P c a 21"),
  (29, some "ba-c", "P b c 21"),
  (29, some "cab", "P 21 a b"),
  (29, some "-cba", "P 21 c a"),
  (29, some "bca", "P c 21 b"),
  (29, some "a-cb", "P b 21 a"),
  (30, some "abc", "P n c 2"),
  (30, some "ba-c", "P c n 2"),
  (30, some "cab", "P 2 n a"),
  (30, some "-cba", "P 2 a n"),
  (30, some "bca", "P b 2 n"),
  (30, some "a-cb", "P n 2 b"),
  (31, some "abc", "P m n 21"),
  (31, some "ba-c", "P n m 21"),
  (31, some "cab", "P 21 m n"),
  (31, some "-cba", "P 21 n m"),
  (31, some "bca", "P n 21 m"),
  (31, some "a-cb", "P m 21 n"),
  (32, some "abc", "P b a 2"),
  (32, some "ba-c", "P b a 2"),
  (32, some "cab", "P 2 c b"),
  (32, some "-cba", "P 2 c b"),
  (32, some "bca", "P c 2 a"),
  (32, some "a-cb", "P c 2 a"),
  (33, some "abc", "P n a 21"),
  (33, some "ba-c", "P b n 21"),
  (33, some "cab", "P 21 n b"),
  (33, some "-cba", "P 21 c n"),
  (33, some "bca", "P c 21 n"),
  (33, some "a-cb", "P n 21 a"),
  (34, some "abc", "P n n 2"),
  (34, some "ba-c", "P n n 2"),
  (34, some "cab", "P 2 n n"),
  (34, some "-cba", "P 2 n n"),
  (34, some "bca", "P n 2 n"),
  (34, some "a-cb", "P n 2 n"),
  (35, some "abc", "C m m 2"),
  (35, some "ba-c", "C m m 2"),
  (35, some "cab", "A 2 m m"),
  (35, some "-cba", "A 2 m m"),
  (35, some "bca", "B m 2 m"),
  (35, some "a-cb", "B m 2 m"),
  (36, some "abc", "C m c 21"),
  (36, some "ba-c", "C c m 21"),
  (36, some "cab", "A 21 m a"),
  (36, some "-cba", "A 21 a m"),
  (36, some "bca", "B b 21 m"),
  (36, some "a-cb", "B m 21 b"),
  (37, some "abc", "C c c 2"),
  (37, some "ba-c", "C c c 2"),
  (37, some "cab", "A 2 a a"),
  (37, some "-cba", "A 2 a a"),
  (37, some "bca", "B b 2 b"),
  (37, some "a-cb", "B b 2 b"),
  (38, some "abc", "A m m 2"),
  (38, some "ba-c", "B m m 2"),
  (38, some "cab", "B 2 m m"),
  (38, some "-cba", "C 2 m m"),
  (38, some "bca", "C m 2 m"),
  (38, some "a-cb", "A m 2 m"),
  (39, some "abc", "A e m 2"),
  (39, some "ba-c", "B m e 2"),
  (39, some "cab", "B 2 e m"),
  (39, some "-cba", "C 2 m e"),
  (39, some "bca", "C m 2 e"),
  (39, some "a-cb", "A e 2 m"),
  (40, some "abc", "A m a 2"),
  (40, some "ba-c", "B b m 2"),
  (40, some "cab", "B 2 m b"),
  (40, some "-cba", "C 2 c m"),
  (40, some "bca", "C c 2 m"),
  (40, some "a-cb", "A m 2 a"),
  (41, some "abc", "A e a 2"),
  (41, some "ba-c", "B b e 2"),
  (41, some "cab", "B 2 e b"),
  (41, some "-cba", "C 2 c e"),
  (41, some "bca", "C c 2 e"),
  (41, some "a-cb", "A e 2 a"),
  (42, some "abc", "F m m 2"),
  (42, some "ba-c", "F m m 2"),
  (42, some "cab", "F 2 m m"),
  (42, some "-cba", "F 2 m m"),
  (42, some "bca", "F m 2 m"),
  (42, some "a-cb", "F m 2 m"),
  (43, some "abc", "F d d 2"),
  (43, some "ba-c", "F d d 2"),
  (43, some "cab", "F 2 d d"),
  (43, some "-cba", "F 2 d d"),
  (43, some "bca", "F d 2 d"),
  (43, some "a-cb", "F d 2 d"),
  (44, some "abc", "I m m 2"),
  (44, some "ba-c", "I m m 2"),
  (44, some "cab", "I 2 m m"),
  (44, some "-cba", "I 2 m m"),
  (44, some "bca", "I m 2 m"),
  (44, some "a-cb", "I m 2 m"),
  (45, some "abc", "I b a 2"),
  (45, some "ba-c", "I b a 2"),
  (45, some "cab", "I 2 c b"),
  (45, some "-cba", "I 2 c b"),
  (45, some "bca", "I c 2 a"),
  (45, some "a-cb", "I c 2 a"),
  (46, some "abc", "I m a 2"),
  (46, some "ba-c", "I b m 2"),
  (46, some "cab", "I 2 m b"),
  (46, some "-cba", "I 2 c m"),
  (46, some "bca", "I c 2 m"),
  (46, some "a-cb", "I m 2 a"),
  (47, some "abc", "P m m m"),
  (47, some "ba-c", "P m m m"),
  (47, some "cab", "P m m m"),
  (47, some "-cba", "P m m m"),
  (47, some "bca", "P m m m"),
  (47, some "a-cb", "P m m m"),
  (48, some "1abc", "P n n n"),
  (48, some "2abc", "P n n n"),
  (48, some "1ba-c", "P n n n"),
  (48, some "2ba-c", "P n n n"),
  (48, some "1cab", "P n n n"),
  (48, some "2cab", "P n n n"),
  (48, some "1-cba", "P n n n"),
  (48, some "2-cba", "P n n n"),
  (48, some "1bca", "P n n n"),
  (48, some "2bca", "P n n n"),
  (48, some "1a-cb", "P n n n"),
  (48, some "2a-cb", "P n n n"),
  (49, some "abc", "P c c m"),
  (49, some "ba-c", "P c c m"),
  (49, some "cab", "P m a a"),
  (49, some "-cba", "P m a a"),
  (49, some "bca", "P b m b"),
  (49, some "a-cb", "P b m b"),
  (50, some "1abc", "P b a n"),
  (50, some "2abc", "P b a n"),
  (50, some "1ba-c", "P b a n"),
  (50, some "2ba-c", "P b a n"),
  (50, some "1cab", "P n c b"),
  (50, some "2cab", "P n c b"),
  (50, some "1-cba", "P n c b"),
  (50, some "2-cba", "P n c b"),
  (50, some "1bca", "P c n a"),
  (50, some "2bca", "P c n a"),
  (50, some "1a-cb", "P c n a"),
  (50, some "2a-cb", "P c n a"),
  (51, some "abc", "P m m a"),
  (51, some "ba-c", "P m m b"),
  (51, some "cab", "P b m m"),
  (51, some "-cba", "P c m m"),
  (51, some "bca", "P m c m"),
  (51, some "a-cb", "P m a m"),
  (52, some "abc", "P n n a"),
  (52, some "ba-c", "P n n b"),
  (52, some "cab", "P b n n"),
  (52, some "-cba", "P c n n"),
  (52, some "bca", "P n c n"),
  (52, some "a-cb", "P n a n"),
  (53, some "abc", "P m n a"),
  (53, some "ba-c", "P n m b"),
  (53, some "cab", "P b m n"),
  (53, some "-cba", "P c n m"),
  (53, some "bca", "P n c m"),
  (53, some "a-cb", "P m a n"),
  (54, some "abc", "P c c a"),
  (54, some "ba-c", "P c c b"),
  (54, some "cab", "P b a a"),
  (54, some "-cba", "P c a a"),
  (54, some "bca", "P b c b"),
  (54, some "a-cb", "P b a b"),
  (55, some "abc", "P b a m"),
  (55, some "ba-c", "P b a m"),
  (55, some "cab", "P m c b"),
  (55, some "-cba", "P m c b"),
  (55, some "bca", "P c m a"),
  (55, some "a-cb", "P c m a"),
  (56, some "abc", "P c c n"),
  (56, some "ba-c", "P c c n"),
  (56, some "cab", "P n a a"),
  (56, some "-cba", "P n a a"),
  (56, some "bca", "P b n b"),
  (56, some "a-cb", "P b n b"),
  (57, some "abc", "P b c m"),
  (57, some "ba-c", "P c a m"),
  (57, some "cab", "P m c a"),
  (57, some "-cba", "P m a b"),
  (57, some "bca", "P b m a"),
  (57, some "a-cb", "P c m b"),
  (58, some "abc", "P n n m"),
  (58, some "ba-c", "P n n m"),
  (58, some "cab", "P m n n"),
  (58, some "-cba", "P m n n"),
  (58, some "bca", "P n m n"),
  (58, some "a-cb", "P n m n"),
  (59, some "1abc", "P m m n"),
  (59, some "2abc", "P m m n"),
  (59, some "1ba-c", "P m m n"),
  (59, some "2ba-c", "P m m n"),
  (59, some "1cab", "P n m m"),
  (59, some "2cab", "P n m m"),
  (59, some "1-cba", "P n m m"),
  (59, some "2-cba", "P n m m"),
  (59, some "1bca", "P m n m"),
  (59, some "2bca", "P m n m"),
  (59, some "1a-cb", "P m n m"),
  (59, some "2a-cb", "P m n m"),
  (60, some "abc", "P b c n"),
  (60, some "ba-c", "P c a n"),
  (60, some "cab", "P n c a"),
  (60, some "-cba", "P n a b"),
  (60, some "bca", "P b n a"),
  (60, some "a-cb", "P c n b"),
  (61, some "abc", "P b c a"),
  (61, some "ba-c", "P c a b"),
  (61, some "cab", "P b c a"),
  (61, some "-cba", "P c a b"),
  (61, some "bca", "P b c a"),
  (61, some "a-cb", "P c a b"),
  (62, some "abc", "P n m a"),
  (62, some "ba-c", "P m n b"),
  (62, some "cab", "P b n m"),
  (62, some "-cba", "P c m n"),
  (62, some "bca", "P m c n"),
  (62, some "a-cb", "P n a m"),
  (63, some "abc", "C m c m"),
  (63, some "ba-c", "C c m m"),
  (63, some "cab", "A m m a"),
  (63, some "-cba", "A m a m"),
  (63, some "bca", "B b m m"),
  (63, some "a-cb", "B m m b"),
  (64, some "abc", "C m c e"),
  (64, some "ba-c", "C c m e"),
  (64, some "cab", "A e m a"),
  (64, some "-cba", "A e a m"),
  (64, some "bca", "B b e m"),
  (64, some "a-cb", "B m e b"),
  (65, some "abc", "C m m m"),
  (65, some "ba-c", "C m m m"),
  (65, some "cab", "A m m m"),
  (65, some "-cba", "A m m m"),
  (65, some "bca", "B m m m"),
  (65, some "a-cb", "B m m m"),
  (66, some "abc", "C c c m"),
  (66, some "ba-c", "C c c m"),
  (66, some "cab", "A m a a"),
  (66, some "-cba", "A m a a"),
  (66, some "bca", "B b m b"),
  (66, some "a-cb", "B b m b"),
  (67, some "abc", "C m m e"),
  (67, some "ba-c", "C m m e"),
  (67, some "cab", "A e m m"),
  (67, some "-cba", "A e m m"),
  (67, some "bca", "B m e m"),
  (67, some "a-cb", "B m e m"),
  (68, some "1abc", "C c c e"),
  (68, some "2abc", "C c c e"),
  (68, some "1ba-c", "C c c e"),
  (68, some "2ba-c", "C c c e"),
  (68, some "1cab", "A e a a"),
  (68, some "2cab", "A e a a"),
  (68, some "1-cba", "A e a a"),
  (68, some "2-cba", "A e a a"),
  (68, some "1bca", "B b e b"),
  (68, some "2bca", "B b e b"),
  (68, some "1a-cb", "B b e b"),
  (68, some "2a-cb", "B b e b"),
  (69, some "abc", "F m m m"),
  (69, some "ba-c", "F m m m"),
  (69, some "cab", "F m m m"),
  (69, some "-cba", "F m m m"),
  (69, some "bca", "F m m m"),
  (69, some "a-cb", "F m m m"),
  (70, some "1abc", "F d d d"),
  (70, some "2abc", "F d d d"),
  (70, some "1ba-c", "F d d d"),
  (70, some "2ba-c", "F d d d"),
  (70, some "1cab", "F d d d"),
  (70, some "2cab", "F d d d"),
  (70, some "1-cba", "F d d d"),
  (70, some "2-cba", "F d d d"),
  (70, some "1bca", "F d d d"),
  (70, some "2bca", "F d d d"),
  (70, some "1a-cb", "F d d d"),
  (70, some "2a-cb", "F d d d"),
  (71, some "abc", "I m m m"),
  (71, some "ba-c", "I m m m"),
  (71, some "cab", "I m m m"),
  (71, some "-cba", "I m m m"),
  (71, some "bca", "I m m m"),
  (71, some "a-cb", "I m m m"),
  (72, some "abc", "I b a m"),
  (72, some "ba-c", "I b a m"),
  (72, some "cab", "I m c b"),
  (72, some "-cba", "I m c b"),
  (72, some "bca", "I c m a"),
  (72, some "a-cb", "I c m a"),
  (73, some "abc", "I b c a"),
  (73, some "ba-c", "I c a b"),
  (73, some "cab", "I b c a"),
  (73, some "-cba", "I c a b"),
  (73, some "bca", "I b c a"),
  (73, some "a-cb", "I c a b"),
  (74, some "abc", "I m m a"),
  (74, some "ba-c", "I m m b"),
  (74, some "cab", "I b m m"),
  (74, some "-cba", "I c m m"),
  (74, some "bca", "I m c m"),
  (74, some "a-cb", "I m a m")]

/-- `REFERENCE_TABLE_TETRAGONAL_IT_COORDINATE_SYSTEM_CODE_NAME_HM_EXTENDED`, function_2_space_group.py:682-706. -/
def extTetragonal : List (Nat × Option String × String) := [
  (79, some "1", "I 4"),
  (80, some "1", "I 41"),
  (87, some "1", "I 4/m"),
  (88, some "1", "I 41/a"),
  (88, some "2", "I 41/a"),
  (89, some "1", "P 4 2 2"),
  (90, some "1", "P 4 21 2"),
  (91, some "1", "P 41 2 2"),
  (92, some "1", "P 41 21 2"),
  (93, some "1", "P 42 2 2"),
  (94, some "1", "P 42 21 2"),
  (95, some "1", "P 43 2 2"),
  (96, some "1", "P 43 21 2"),
  (97, some "1", "I 4 2 2"),
  (98, some "1", "I 41 2 2"),
  (99, some "1", "P 4 m m"),
  (100, some "1", "P 4 b m"),
  (101, some "1", "P 42 c m"),
  (102, some "1", "P 42 n m"),
  (103, some "1", "P 4 c c"),
  (104, some "1", "P 4 n c"),
  (105, some "1", "P 42 m c"),
  (106, some "1", "P 42 b c"),
  (107, some "1", "I 4 m m"),
  (108, some "1", "I 4 c e"),
  (109, some "1", "I 41 m d"),
  (110, some "1", "I 41 c d"),
  (111, some "1", "P -4 2 m"),
  (112, some "1", "P -4 2 c"),
  (113, some "1", "P -4 21 m"),
  (114, some "1", "P -4 21 c"),
  (115, some "1", "P -4 m 2"),
  (116, some "1", "P -4 c 2"),
  (117, some "1", "P -4 b 2"),
  (118, some "1", "P -4 n 2"),
  (119, some "1", "I -4 m 2"),
  (120, some "1", "I -4 c 2"),
  (121, some "1", "I -4 2 m"),
  (122, some "1", "I -4 2 d"),
  (123, some "1", "P 4/m 2/m 2/m"),
  (124, some "1", "P 4/m 2/c 2/c"),
  (125, some "1", "P 4/n 2/b 2/m"),
  (125, some "2", "P 4/n 2/b 2/m"),
  (126, some "1", "P 4/n 2/n 2/c"),
  (126, some "2", "P 4/n 2/n 2/c"),
  (127, some "1", "P 4/m 21/b 2/m"),
  (128, some "1", "P 4/m 21/n 2/c"),
  (129, some "1", "P 4/n 21/m 2/m"),
  (129, some "2", "P 4/n 21/m 2/m"),
  (130, some "1", "P 4/n 21/c 2/c"),
  (130, some "2", "P 4/n 21/c 2/c"),
  (131, some "1", "P 42/m 2/m 2/c"),
  (132, some "1", "P 42/m 2/c 2/m"),
  (133, some "1", "P 42/n 2/b 2/c"),
  (133, some "2", "P 42/n 2/b 2/c"),
  (134, some "1", "P 42/n 2/n 2/m"),
  (134, some "2", "P 42/n 2/n 2/m"),
  (135, some "1", "P 42/m 21/b 2/c"),
  (136, some "1", "P 42/m 21/n 2/m"),
  (137, some "1", "P 42/n 21/m 2/c"),
  (137, some "2", "P 42/n 21/m 2/c"),
  (138, some "1", "P 42/n 21/c 2/m"),
  (138, some "2", "P 42/n 21/c 2/m"),
  (139, some "1", "I 4/m 21/m 2/m"),
  (140, some "1", "I 4/m 2/c 2/m"),
  (141, some "1", "I 41/a 2/m 2/d"),
  (141, some "2", "I 41/a 2/m 2/d"),
  (142, some "1", "I 41/a 2/c 2/d"),
  (142, some "2", "I 41/a 2/c 2/d")]

/-- `REFERENCE_TABLE_TRIGONAL_IT_COORDINATE_SYSTEM_CODE_NAME_HM_EXTENDED`, function_2_space_group.py:709-719. -/
def extTrigonal : List (Nat × Option String × String) := [
  (146, some "r", "R 3"),
  (146, some "h", "R 3"),
  (148, some "r", "R -3"),
  (148, some "h", "R -3"),
  (149, some "r", "P 3 1 2"),
  (150, some "r", "P 3 2 1"),
  (151, some "r", "P 31 1 2"),
  (152, some "r", "P 31 2 1"),
  (153, some "r", "P 32 1 2"),
  (154, some "r", "P 32 2 1"),
  (155, some "r", "R 3 2"),
  (155, some "h", "R 3 2"),
  (156, some "r", "P 3 m 1"),
  (157, some "r", "P 3 1 m"),
  (158, some "r", "P 3 c 1"),
  (159, some "r", "P 3 1 c"),
  (160, some "r", "R 3 m"),
  (160, some "h", "R 3 m"),
  (161, some "r", "R 3 c"),
  (161, some "h", "R 3 c"),
  (162, some "r", "P -3 1 2/m"),
  (163, some "r", "P -3 1 2/c"),
  (164, some "r", "P -3 2/m 1"),
  (165, some "r", "P -3 2/c 1"),
  (166, some "r", "R -3 2/m"),
  (166, some "h", "R -3 2/m"),
  (167, some "r", "R -3 2/c"),
  (167, some "h", "R -3 2/c")]

/-- `REFERENCE_TABLE_HEXAGONAL_IT_COORDINATE_SYSTEM_CODE_NAME_HM_EXTENDED`, function_2_space_group.py:722-729. -/
def extHexagonal : List (Nat × Option String × String) := [
  (177, some "h", "P 6 2 2"),
  (178, some "h", "P 61 2 2"),
  (179, some "h", "P 65 2 2"),
  (180, some "h", "P 62 2 2"),
  (181, some "h", "P 64 2 2"),
  (182, some "h", "P 63 2 2"),
  (183, some "h", "P 6 m m"),
  (184, some "h", "P 6 c c"),
  (185, some "h", "P 63 c m"),
  (186, some "h", "P 63 m c"),
  (187, some "h", "P -6 m 2"),
  (188, some "h", "P -6 c 2"),
  (189, some "h", "P -6 2 m"),
  (190, some "h", "P -6 2 c"),
  (191, some "h", "P 6/m 2/m 2/m"),
  (192, some "h", "P 6/m 2/c 2/c"),
  (193, some "h", "P 63/m 2/c 2/m"),
  (194, some "h", "P 63/m 2/m 2/c")]

/-- `REFERENCE_TABLE_CUBIC_IT_COORDINATE_SYSTEM_CODE_NAME_HM_EXTENDED`, function_2_space_group.py:731-744. -/
def extCubic : List (Nat × Option String × String) := [
  (196, some "1", "F 2 3"),
  (197, some "1", "I 2 3"),
  (199, some "1", "I 21 3"),
  (202, some "1", "F 2/m -3"),
  (203, some "1", "F 2/d -3"),
  (203, some "2", "F 2/d -3"),
  (204, some "1", "I 2/m -3"),
  (206, some "1", "I 21/a -3"),
  (207, some "1", "P 4 3 2"),
  (208, some "1", "P 42 3 2"),
  (209, some "1", "F 4 3 2"),
  (210, some "1", "F 41 3 2"),
  (211, some "1", "I 4 3 2"),
  (212, some "1", "P 43 3 2"),
  (213, some "1", "P 41 3 2"),
  (214, some "1", "I 41 3 2"),
  (215, some "1", "P -4 3 m"),
  (216, some "1", "F -4 3 m"),
  (217, some "1", "I -4 3 m"),
  (218, some "1", "P -4 3 n"),
  (219, some "1", "F -4 3 c"),
  (220, some "1", "I -4 3 d"),
  (221, some "1", "P 4/m -3 2/m"),
  (222, some "1", "P 4/n -3 2/n"),
  (222, some "2", "P 4/n -3 2/n"),
  (223, some "1", "P 42/m -3 2/n"),
  (224, some "1", "P 42/n -3 2/m"),
  (224, some "2", "P 42/n -3 2/m"),
  (225, some "1", "F 4/m -3 2/m"),
  (226, some "1", "F 4/m -3 2/c"),
  (227, some "1", "F 41/d -3 2/m"),
  (227, some "2", "F 41/d -3 2/m"),
  (228, some "1", "F 41/d -3 2/n"),
  (228, some "2", "F 41/d -3 2/n"),
  (229, some "1", "I 4/m -3 2/m"),
  (230, some "1", "I 41/a -3 2/d")]

/-- function_2_space_group.py:746-753. -/
def extTable : List (Nat × Option String × String) :=
  extTriclinic ++ extMonoclinic ++ extOrthorhombic ++ extTetragonal ++ extTrigonal ++ extHexagonal ++ extCubic

/-- `REFERENCE_TABLE_TRICLINIC_IT_NUMBER_NAME_HM_FULL`, function_2_space_group.py:783-785. -/
def fullTriclinic : List (Nat × String) := [
  (1, "P 1"),
  (2, "P -1")]

/-- `REFERENCE_TABLE_ORTHORHOMBIC_IT_NUMBER_NAME_HM_FULL`, function_2_space_group.py:800-816. -/
def fullOrthorhombic : List (Nat × String) := [
  (16, "P 2 2 2"),
  (17, "P 2 2 21"),
  (18, "P 21 21 2"),
  (19, "P 21 21 21"),
  (20, "C 2 2 21"),
  (21, "C 2 2 2"),
  (22, "F 2 2 2"),
  (23, "I 2 2 2"),
  (24, "I 21 21 21"),
  (25, "P m m 2"),
  (26, "P m c 21"),
  (27, "P c c 2"),
  (28, "P m a 2"),
  (29, "P c a 21"),
  (30, "P n c 2"),
  (31, "P m n 21"),
  (32, "P b a 2"),
  (33, "P n a 21"),
  (34, "P n n 2"),
  (35, "C m m 2"),
  (36, "C m c 21"),
  (37, "C c c 2"),
  (38, "A m m 2"),
  (39, "A e m 2"),
  (40, "A m a 2"),
  (41, "A e a 2"),
  (42, "F m m 2"),
  (43, "F d d 2"),
  (44, "I m m 2"),
  (45, "I b a 2"),
  (46, "I m a 2"),
  (47, "P 2/m 2/m 2/m"),
  (48, "P 2/n 2/n 2/n"),
  (49, "P 2/c 2/c 2/m"),
  (50, "P 2/b 2/a 2/n"),
  (51, "P 21/m 2/m 2/a"),
  (52, "P 2/n 21/n 2/a"),
  (53, "P 2/m 2/n 21/a"),
  (54, "P 21/c 2/c 2/a"),
  (55, "P 21/b 21/a 2/m"),
  (56, "P 21/c 21/c 2/n"),
  (57, "P 2/b 21/c 21/m"),
  (58, "P 21/n 21/n 2/m"),
  (59, "P 21/m 21/m 2/n"),
  (60, "P 21/b 2/c 21/n"),
  (61, "P 21/b 21/c 21/a"),
  (62, "P 21/n 21/m 21/a"),
  (63, "C 2/m 2/c 21/m"),
  (64, "C 2/m 2/c 21/e"),
  (65, "C 2/m 2/m 2/m"),
  (66, "C 2/c 2/c 2/m"),
  (67, "C 2/m 2/m 2/e"),
  (68, "C 2/c 2/c 2/e"),
  (69, "F 2/m 2/m 2/m"),
  (70, "F 2/d 2/d 2/d"),
  (71, "I 2/m 2/m 2/m"),
  (72, "I 2/b 2/a 2/m"),
  (73, "I 21/b 21/c 21/a"),
  (74, "I 21/m 21/m 21/a")]

/-- `REFERENCE_TABLE_TETRAGONAL_IT_NUMBER_NAME_HM_FULL`, function_2_space_group.py:818-834. -/
def fullTetragonal : List (Nat × String) := [
  (75, "P 4"),
  (76, "P 41"),
  (77, "P 42"),
  (78, "P 43"),
  (79, "I 4"),
  (80, "I 41"),
  (81, "P -4"),
  (82, "I -4"),
  (83, "P 4/m"),
  (84, "P 42/m"),
  (85, "P 4/n"),
  (86, "P 42/n"),
  (87, "I 4/m"),
  (88, "I 41/a"),
  (89, "P 4 2 2"),
  (90, "P 4 21 2"),
  (91, "P 41 2 2"),
  (92, "P 41 21 2"),
  (93, "P 42 2 2"),
  (94, "P 42 21 2"),
  (95, "P 43 2 2"),
  (96, "P 43 21 2"),
  (97, "I 4 2 2"),
  (98, "I 41 2 2"),
  (99, "P 4 m m"),
  (100, "P 4 b m"),
  (101, "P 42 c m"),
  (102, "P 42 n m"),
  (103, "P 4 c c"),
  (104, "P 4 n c"),
  (105, "P 42 m c"),
  (106, "P 42 b c"),
  (107, "I 4 m m"),
  (108, "I 4 c m"),
  (109, "I 41 m d"),
  (110, "I 41 c d"),
  (111, "P -4 2 m"),
  (112, "P -4 2 c"),
  (113, "P -4 21 m"),
  (114, "P -4 21 c"),
  (115, "P -4 m 2"),
  (116, "P -4 c 2"),
  (117, "P -4 b 2"),
  (118, "P -4 n 2"),
  (119, "I -4 m 2"),
  (120, "I -4 c 2"),
  (121, "I -4 2 m"),
  (122, "I -4 2 d"),
  (123, "P 4/m 2/m 2/m"),
  (124, "P 4/m 2/c 2/c"),
  (125, "P 4/n 2/b 2/m"),
  (126, "P 4/n 2/n 2/c"),
  (127, "P 4/m 21/b 2/m"),
  (128, "P 4/m 21/n 2/c"),
  (129, "P 4/n 21/m 2/m"),
  (130, "P 4/n 21/c 2/c"),
  (131, "P 42/m 2/m 2/c"),
  (132, "P 42/m 2/c 2/m"),
  (133, "P 42/n 2/b 2/c"),
  (134, "P 42/n 2/n 2/m"),
  (135, "P 42/m 21/b 2/c"),
  (136, "P 42/m 21/n 2/m"),
  (137, "P 42/n 21/m 2/c"),
  (138, "P 42/n 21/c 2/m"),
  (139, "I 4/m 21/m 2/m"),
  (140, "I 4/m 2/c 2/m"),
  (141, "I 41/a 2/m 2/d"),
  (142, "I 41/a 2/c 2/d")]

/-- `REFERENCE_TABLE_TRIGONAL_IT_NUMBER_NAME_HM_FULL`, function_2_space_group.py:836-843. -/
def fullTrigonal : List (Nat × String) := [
  (143, "P 3"),
  (144, "P 31"),
  (145, "P 32"),
  (146, "R 3"),
  (147, "P -3"),
  (148, "R -3"),
  (149, "P 3 1 2"),
  (150, "P 3 2 1"),
  (151, "P 31 1 2"),
  (152, "P 31 2 1"),
  (153, "P 32 1 2"),
  (154, "P 32 2 1"),
  (155, "R 3 2"),
  (156, "P 3 m 1"),
  (157, "P 3 1 m"),
  (158, "P 3 c 1"),
  (159, "P 3 1 c"),
  (160, "R 3 m"),
  (161, "R 3 c"),
  (162, "P -3 1 2/m"),
  (163, "P -3 1 2/c"),
  (164, "P -3 2/m 1"),
  (165, "P -3 2/c 1"),
  (166, "R -3 2/m"),
  (167, "R -3 2/c")]

/-- `REFERENCE_TABLE_HEXAGONAL_IT_NUMBER_NAME_HM_FULL`, function_2_space_group.py:845-851. -/
def fullHexagonal : List (Nat × String) := [
  (168, "P 6"),
  (169, "P 61"),
  (170, "P 65"),
  (171, "P 62"),
  (172, "P 64"),
  (173, "P 63"),
  (174, "P -6"),
  (175, "P 6/m "),
  (176, "P 63/m"),
  (177, "P 6 2 2"),
  (178, "P 61 2 2"),
  (179, "P 65 2 2"),
  (180, "P 62 2 2"),
  (181, "P 64 2 2"),
  (182, "P 63 2 2"),
  (183, "P 6 m m"),
  (184, "P 6 c c"),
  (185, "P 63 c m"),
  (186, "P 63 m c"),
  (187, "P -6 m 2"),
  (188, "P -6 c 2"),
  (189, "P -6 2 m"),
  (190, "P -6 2 c"),
  (191, "P 6/m 2/m 2/m"),
  (192, "P 6/m 2/c 2/c"),
  (193, "P 63/m 2/c 2/m"),
  (194, "P 63/m 2/m 2/c")]

/-- `REFERENCE_TABLE_CUBIC_IT_NUMBER_NAME_HM_FULL`, function_2_space_group.py:853-863. -/
def fullCubic : List (Nat × String) := [
  (195, "P 23"),
  (196, "F 23"),
  (197, "I 23"),
  (198, "P 21 3"),
  (199, "I 21 3"),
  (200, "P 2/m -3"),
  (201, "P 2/n -3"),
  (202, "F 2/m -3"),
  (203, "F 2/d -3"),
  (204, "I 2/m -3"),
  (205, "P 21/a -3"),
  (206, "I 21/a -3"),
  (207, "P 4 3 2"),
  (208, "P 42 3 2"),
  (209, "F 4 3 2"),
  (210, "F 41 3 2"),
  (211, "I 4 3 2"),
  (212, "P 43 3 2"),
  (213, "P 41 3 2"),
  (214, "I 41 3 2"),
  (215, "P -4 3 m"),
  (216, "F -4 3 m"),
  (217, "I -4 3 m"),
  (218, "P -4 3 n"),
  (219, "F -4 3 c"),
  (220, "I -4 3 d"),
  (221, "P 4/m -3 2/m"),
  (222, "P 4/n -3 2/n"),
  (223, "P 42/m -3 2/n"),
  (224, "P 42/n -3 2/m"),
  (225, "F 4/m -3 2/m"),
  (226, "F 4/m -3 2/c"),
  (227, "F 41/d -3 2/m"),
  (228, "F 41/d -3 2/c"),
  (229, "I 4/m -3 2/m"),
  (230, "I 41/a -3 2/d")]

/-- function_2_space_group.py:865-870 (the monoclinic table is not part of it). -/
def fullTable : List (Nat × String) :=
  fullTriclinic ++ fullOrthorhombic ++ fullTetragonal ++ fullTrigonal ++ fullHexagonal ++ fullCubic

/-- function_2_space_group.py:970-993. -/
def bravaisTable : List (String × String × String) := [
  ("aP", "P", "triclinic"),
  ("mP", "P", "monoclinic"),
  ("mS", "A", "monoclinic"),
  ("mS", "B", "monoclinic"),
  ("mS", "C", "monoclinic"),
  ("mI", "I", "monoclinic"),
  ("oP", "P", "orthorhombic"),
  ("oS", "A", "orthorhombic"),
  ("oS", "B", "orthorhombic"),
  ("oS", "C", "orthorhombic"),
  ("oI", "I", "orthorhombic"),
  ("oF", "F", "orthorhombic"),
  ("tP", "P", "tetragonal"),
  ("tI", "I", "tetragonal"),
  ("hP", "P", "hexagonal"),
  ("hP", "P", "trigonal"),
  ("hR", "R", "trigonal"),
  ("hR", "Rrev", "trigonal"),
  ("hR", "H", "trigonal"),
  ("cP", "P", "cubic"),
  ("cI", "I", "cubic"),
  ("cF", "F", "cubic")]

/-- function_2_space_group.py:947-956. -/
def pattersonTable : List (String × String × String) := [
  ("P -1", "P", "-1"),
  ("P 2/m", "P", "2/m"),
  ("C 2/m", "C", "2/m"),
  ("P m m m", "P", "mmm"),
  ("C m m m", "C", "mmm"),
  ("I m m m", "I", "mmm"),
  ("F m m m", "F", "mmm"),
  ("P 4/m", "P", "4/m"),
  ("I 4/m", "I", "4/m"),
  ("P 4/m m m", "P", "4/mmm"),
  ("I 4/m m m", "I", "4/mmm"),
  ("P -3", "P", "-3"),
  ("R -3", "R", "-3"),
  ("P -3 m 1", "P", "-3m1"),
  ("R -3 m", "R", "-3m"),
  ("P -3 1 m", "P", "-31m"),
  ("P 6/m", "P", "6/m"),
  ("P 6/m m m", "P", "6/mmm"),
  ("P m -3", "P", "m-3"),
  ("I m -3", "I", "m-3"),
  ("F m -3", "F", "m-3"),
  ("P m -3 m", "P", "m-3m"),
  ("I m -3 m", "I", "m-3m"),
  ("F m -3 m", "F", "m-3m")]

/-- Laue class, full Laue class, point group, full point group, Schoenflies; function_2_space_group.py:1129-1162. -/
def laueTable : List (String × String × String × String × String) := [
  ("-1", "-1", "1", "1", "C1"),
  ("-1", "-1", "-1", "-1", "Ci"),
  ("2/m", "2/m", "2", "2", "C2"),
  ("2/m", "2/m", "m", "m", "Cs"),
  ("2/m", "2/m", "2/m", "2/m", "C2h"),
  ("mmm", "2/m2/m2/m", "222", "222", "D2"),
  ("mmm", "2/m2/m2/m", "mm2", "mm2", "C2v"),
  ("mmm", "2/m2/m2/m", "mmm", "2/m2/m2/m", "D2h"),
  ("4/m", "4/m", "4", "4", "C4"),
  ("4/m", "4/m", "-4", "-4", "S4"),
  ("4/m", "4/m", "4/m", "4/m", "C4h"),
  ("4/mmm", "4/m2/m2/m", "422", "422", "D4"),
  ("4/mmm", "4/m2/m2/m", "4mm", "4mm", "C4v"),
  ("4/mmm", "4/m2/m2/m", "-42m", "-42m", "D2d"),
  ("4/mmm", "4/m2/m2/m", "4/mmm", "4/m2/m2/m", "D4h"),
  ("-3", "-3", "3", "3", "C3"),
  ("-3", "-3", "-3", "-3", "C3i"),
  ("-3m", "-32/m", "32", "32", "D3"),
  ("-3m", "-32/m", "3m", "3m", "C3v"),
  ("-3m", "-32/m", "-3m", "-32/m", "D3d"),
  ("6/m", "6/m", "6", "6", "C6"),
  ("6/m", "6/m", "-6", "-6", "C3h"),
  ("6/m", "6/m", "6/m", "6/m", "C6h"),
  ("6/mmm", "6/m2/m2/m", "622", "622", "D6"),
  ("6/mmm", "6/m2/m2/m", "6mm", "6mm", "D6v"),
  ("6/mmm", "6/m2/m2/m", "-62m", "-62m", "D3h"),
  ("6/mmm", "6/m2/m2/m", "6/mmm", "6/m2/m2/m", "D6h"),
  ("m-3", "2/m-3", "23", "23", "T"),
  ("m-3", "2/m-3", "m-3", "2/m-3", "Th"),
  ("m-3m", "4/m-32/m", "432", "432", "O"),
  ("m-3m", "4/m-32/m", "-43m", "-43m", "Td"),
  ("m-3m", "4/m-32/m", "m-3m", "4/m-32/m", "Oh")]

end Cryspy.SG
