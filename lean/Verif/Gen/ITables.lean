import Verif.SG.Op

/-! Generated by tools/gen_sg.py from cryspy/A_functions_base/itables.txt; do not edit. -/

namespace Cryspy.SG

/-- The lines of itables.txt, one list per card, part 0. -/
def itablesBlocks0 : List (List String) := [
  ["1 P1               Triclinic", "choice: 1", "centr: false", "pcentr: 0, 0, 0", "symmetry: x,y,z", ""],
  ["2 P-1              Triclinic", "choice: 1", "centr: true", "pcentr: 0, 0, 0", "symmetry: x,y,z", ""],
  ["3 P2               Monoclinic", "choice: 1", "centr: false", "pcentr: 0, 0, 0", "symmetry: x,y,z", "symmetry: -x,y,-z", ""],
  ["4 P2(1)            Monoclinic", "choice: 1", "centr: false", "pcentr: 0, 0, 0", "symmetry: x,y,z", "symmetry: -x,y+1/2,-z", ""],
  ["5 C2               Monoclinic", "choice: 1", "centr: false", "pcentr: 0, 0, 0", "symmetry: x,y,z", "symmetry: -x,y,-z", ""],
  ["6 Pm               Monoclinic", "choice: 1", "centr: false", "pcentr: 0, 0, 0", "symmetry: x,y,z", "symmetry: x,-y,z", ""],
  ["7 Pc               Monoclinic", "choice: 1", "centr: false", "pcentr: 0, 0, 0", "symmetry: x,y,z", "symmetry: x,-y,1/2+z", ""],
  ["8 Cm               Monoclinic", "choice: 1", "centr: false", "pcentr: 0, 0, 0", "symmetry: x,y,z", "symmetry: x,-y,z", ""],
  ["9 Cc               Monoclinic", "choice: 1", "centr: false", "pcentr: 0, 0, 0", "symmetry: x,y,z", "symmetry: x,-y,1/2+z", "", "", "", ""],
  ["10 P2/m            Monoclinic", "choice: 1", "centr: true", "pcentr: 0, 0, 0", "symmetry: x,y,z", "symmetry: x,-y,z", ""],
  ["11 P2(1)/m         Monoclinic", "choice: 1", "centr: true", "pcentr: 0, 0, 0", "symmetry: x,y,z", "symmetry: -x,1/2+y,-z", ""],
  ["12 C2/m            Monoclinic", "choice: 1", "centr: true", "pcentr: 0, 0, 0", "symmetry: x,y,z", "symmetry: x,-y,z", ""],
  ["12 C2/m            Monoclinic", "choice: 3", "centr: true", "pcentr: 0, 0, 0", "symmetry: x,y,z", "symmetry: x,-y,z", ""],
  ["13 P2/c            Monoclinic", "choice: 1", "centr: true", "pcentr: 0, 0, 0", "symmetry: x,y,z", "symmetry: -x,y,1/2-z", ""],
  ["14 P2(1)/c         Monoclinic", "choice: 1", "centr: true", "pcentr: 0, 0, 0", "symmetry: x,y,z", "symmetry: -x,1/2+y,1/2-z", ""],
  ["14 P12(1)/n        Monoclinic", "choice: 2", "centr: true", "pcentr: 0, 0, 0", "symmetry: x,y,z", "symmetry: 1/2-x,1/2+y,1/2-z", "", ""],
  ["14 P12(1)/a        Monoclinic", "choice: 3", "centr: true", "pcentr: 0, 0, 0", "symmetry: x,y,z", "symmetry: 1/2-x,1/2+y,-z", ""],
  ["15 C2/c            Monoclinic", "choice: 1", "centr: true", "pcentr: 0, 0, 0", "symmetry: x,y,z", "symmetry: -x,y,1/2-z", ""],
  ["16 P222            Orthorhombic", "choice: 1", "centr: false", "pcentr: 0, 0, 0", "symmetry: x,y,z", "symmetry: -x,-y,z", "symmetry: -x,y,-z", "symmetry: x,-y,-z", ""],
  ["17 P222(1)         Orthorhombic", "choice: 1", "centr: false", "pcentr: 0, 0, 0", "symmetry: x,y,z", "symmetry: -x,-y,1/2+z", "symmetry: -x,y,1/2-z", "symmetry: x,-y,-z", ""],
  ["17 P2(1)22         Orthorhombic", "choice: 2", "centr: false", "pcentr: 0, 0, 0", "symmetry: x,y,z", "symmetry: 1/2+x,-y,-z", "symmetry: 1/2-x,-y,z", "symmetry: -x,y,-z", ""],
  ["18 P2(1)2(1)2      Orthorhombic", "choice: 1", "centr: false", "pcentr: 0, 0, 0", "symmetry: x,y,z", "symmetry: -x,-y,z", "symmetry: 1/2-x,1/2+y,-z", "symmetry: 1/2+x,1/2-y,-z", ""],
  ["18 P2(1)2(1)2      Orthorhombic", "choice: 2", "centr: false", "pcentr: 0, 0, 0", "symmetry: x,y,z", "symmetry: -x,1/2+y,-z", "symmetry: 1/2+x,-y,-z", "symmetry: 1/2-x,1/2-y,z", ""],
  ["19 P2(1)2(1)2(1)   Orthorhombic", "choice: 1", "centr: false", "pcentr: 0, 0, 0", "symmetry: x,y,z", "symmetry: 1/2-x,-y,1/2+z", "symmetry: -x,1/2+y,1/2-z", "symmetry: 1/2+x,1/2-y,-z", ""],
  ["20 C222(1)         Orthorhombic", "choice: 1", "centr: false", "pcentr: 0, 0, 0", "symmetry: x,y,z", "symmetry: -x,-y,1/2+z", "symmetry: -x,y,1/2-z", "symmetry: x,-y,-z", ""],
  ["21 C222            Orthorhombic", "choice: 1", "centr: false", "pcentr: 0, 0, 0", "symmetry: x,y,z", "symmetry: -x,-y,z", "symmetry: -x,y,-z", "symmetry: x,-y,-z", ""],
  ["22 F222            Orthorhombic", "choice: 1", "centr: false", "pcentr: 0, 0, 0", "symmetry: x,y,z", "symmetry: -x,-y,z", "symmetry: -x,y,-z", "symmetry: x,-y,-z", ""],
  ["23 I222            Orthorhombic", "choice: 1", "centr: false", "pcentr: 0, 0, 0", "symmetry: x,y,z", "symmetry: -x,-y,z", "symmetry: x,-y,-z", "symmetry: -x,y,-z", ""],
  ["24 I2(1)2(1)2(1)   Orthorhombic", "choice: 1", "centr: false", "pcentr: 0, 0, 0", "symmetry: x,y,z", "symmetry: 1/2-x,-y,1/2+z", "symmetry: -x,1/2+y,1/2-z", "symmetry: 1/2+x,1/2-y,-z", ""],
  ["25 Pmm2            Orthorhombic", "choice: 1", "centr: false", "pcentr: 0, 0, 0", "symmetry: x,y,z", "symmetry: -x,-y,z", "symmetry: x,-y,z", "symmetry: -x,y,z", ""],
  ["26 Pmc2(1)         Orthorhombic", "choice: 1", "centr: false", "pcentr: 0, 0, 0", "symmetry: x,y,z", "symmetry: -x,-y,z+1/2", "symmetry: x,-y,z+1/2", "symmetry: -x,y,z", ""],
  ["27 Pcc2            Orthorhombic", "choice: 1", "centr: false", "pcentr: 0, 0, 0", "symmetry: x,y,z", "symmetry: -x,-y,z", "symmetry: x,-y,z+1/2", "symmetry: -x,y,z+1/2", ""],
  ["28 Pma2            Orthorhombic", "choice: 1", "centr: false", "pcentr: 0, 0, 0", "symmetry: x,y,z", "symmetry: -x,-y,z", "symmetry: x+1/2,-y,z", "symmetry: -x+1/2,y,z", ""],
  ["29 Pca2(1)         Orthorhombic", "choice: 1", "centr: false", "pcentr: 0, 0, 0", "symmetry: x,y,z", "symmetry: -x,-y,z+1/2", "symmetry: x+1/2,-y,z", "symmetry: -x+1/2,y,z+1/2", ""],
  ["30 Pnc2            Orthorhombic", "choice: 1", "centr: false", "pcentr: 0, 0, 0", "symmetry: x,y,z", "symmetry: -x,-y,z", "symmetry: x,-y+1/2,z+1/2", "symmetry: -x,y+1/2,z+1/2", ""],
  ["31 Pmn2(1)         Orthorhombic", "choice: 1", "centr: false", "pcentr: 0, 0, 0", "symmetry: x,y,z", "symmetry: -x+1/2,-y,z+1/2", "symmetry: x+1/2,-y,z+1/2", "symmetry: -x,y,z", ""],
  ["32 Pba2            Orthorhombic", "choice: 1", "centr: false", "pcentr: 0, 0, 0", "symmetry: x,y,z", "symmetry: -x,-y,z", "symmetry: x+1/2,-y+1/2,z", "symmetry: -x+1/2,y+1/2,z", ""],
  ["33 Pna2(1)         Orthorhombic", "choice: 1", "centr: false", "pcentr: 0, 0, 0", "symmetry: x,y,z", "symmetry: -x,-y,z+1/2", "symmetry: x+1/2,-y+1/2,z", "symmetry: -x+1/2,y+1/2,z+1/2", ""],
  ["34 Pnn2            Orthorhombic", "choice: 1", "centr: false", "pcentr: 0, 0, 0", "symmetry: x,y,z", "symmetry: -x,-y,z", "symmetry: x+1/2,-y+1/2,z+1/2", "symmetry: -x+1/2,y+1/2,z+1/2", ""],
  ["35 Cmm2            Orthorhombic", "choice: 1", "centr: false", "pcentr: 0, 0, 0", "symmetry: x,y,z", "symmetry: -x,-y,z", "symmetry: x,-y,z", "symmetry: -x,y,z", ""],
  ["36 Cmc2(1)         Orthorhombic", "choice: 1", "centr: false", "pcentr: 0, 0, 0", "symmetry: x,y,z", "symmetry: -x,-y,z+1/2", "symmetry: x,-y,z+1/2", "symmetry: -x,y,z", ""],
  ["37 Ccc2            Orthorhombic", "choice: 1", "centr: false", "pcentr: 0, 0, 0", "symmetry: x,y,z", "symmetry: -x,-y,z", "symmetry: x,-y,z+1/2", "symmetry: -x,y,z+1/2", ""],
  ["38 Amm2            Orthorhombic", "choice: 1", "centr: false", "pcentr: 0, 0, 0", "symmetry: x,y,z", "symmetry: -x,-y,z", "symmetry: x,-y,z", "symmetry: -x,y,z", ""],
  ["39 Abm2            Orthorhombic", "choice: 1", "centr: false", "pcentr: 0, 0, 0", "symmetry: x,y,z", "symmetry: -x,-y,z", "symmetry: x,-y+1/2,z", "symmetry: -x,y+1/2,z", ""],
  ["40 Ama2            Orthorhombic", "choice: 1", "centr: false", "pcentr: 0, 0, 0", "symmetry: x,y,z", "symmetry: -x,-y,z", "symmetry: x+1/2,-y,z", "symmetry: -x+1/2,y,z", ""],
  ["41 Aba2            Orthorhombic", "choice: 1", "centr: false", "pcentr: 0, 0, 0", "symmetry: x,y,z", "symmetry: -x,-y,z", "symmetry: x+1/2,-y+1/2,z", "symmetry: -x+1/2,y+1/2,z", ""],
  ["42 Fmm2            Orthorhombic", "choice: 1", "centr: false", "pcentr: 0, 0, 0", "symmetry: x,y,z", "symmetry: -x,-y,z", "symmetry: x,-y,z", "symmetry: -x,y,z", ""],
  ["43 Fdd2            Orthorhombic", "choice: 1", "centr: false", "pcentr: 0, 0, 0", "symmetry: x,y,z", "symmetry: -x,-y,z", "symmetry: x+1/4,-y+1/4,z+1/4", "symmetry: -x+1/4,y+1/4,z+1/4", ""],
  ["44 Imm2            Orthorhombic", "choice: 1", "centr: false", "pcentr: 0, 0, 0", "symmetry: x,y,z", "symmetry: -x,-y,z", "symmetry: x,-y,z", "symmetry: -x,y,z", ""],
  ["45 Iba2            Orthorhombic", "choice: 1", "centr: false", "pcentr: 0, 0, 0", "symmetry: x,y,z", "symmetry: -x,-y,z", "symmetry: x+1/2,-y+1/2,z", "symmetry: -x+1/2,y+1/2,z", ""],
  ["46 Ima2            Orthorhombic", "choice: 1", "centr: false", "pcentr: 0, 0, 0", "symmetry: x,y,z", "symmetry: -x,-y,z", "symmetry: x+1/2,-y,z", "symmetry: -x+1/2,y,z", ""],
  ["47 Pmmm            Orthorhombic", "choice: 1", "centr: true", "pcentr: 0, 0, 0", "symmetry: x,y,z", "symmetry: -x,-y,z", "symmetry: -x,y,-z", "symmetry: x,-y,-z", ""],
  ["48 Pnnn            Orthorhombic", "choice: 1", "centr: true", "pcentr: 0.25, 0.25, 0.2", "symmetry: x,y,z", "symmetry: -x,-y,z", "symmetry: -x,y,-z", "symmetry: x,-y,-z", ""],
  ["48 Pnnn            Orthorhombic", "choice: 2", "centr: true", "pcentr: 0, 0, 0", "symmetry: x,y,z", "symmetry: -x+1/2,-y+1/2,z", "symmetry: -x+1/2,y,-z+1/2", "symmetry: x,-y+1/2,-z+1/2", ""],
  ["49 Pccm            Orthorhombic", "choice: 1", "centr: true", "pcentr: 0, 0, 0", "symmetry: x,y,z", "symmetry: -x,-y,z", "symmetry: -x,y,-z+1/2", "symmetry: x,-y,-z+1/2", ""],
  ["50 Pban            Orthorhombic", "choice: 1", "centr: true", "pcentr: 0.25, 0.25, 0", "symmetry: x,y,z", "symmetry: -x,-y,z", "symmetry: -x,y,-z", "symmetry: x,-y,-z", ""],
  ["50 Pban            Orthorhombic", "choice: 2", "centr: true", "pcentr: 0, 0, 0", "symmetry: x,y,z", "symmetry: -x+1/2,-y+1/2,z", "symmetry: -x+1/2,y,-z", "symmetry: x,-y+1/2,-z", ""],
  ["51 Pmma            Orthorhombic", "choice: 1", "centr: true", "pcentr: 0, 0, 0", "symmetry: x,y,z", "symmetry: -x+1/2,-y,z", "symmetry: -x,y,-z", "symmetry: x+1/2,-y,-z", ""],
  ["52 Pnna            Orthorhombic", "choice: 1", "centr: true", "pcentr: 0, 0, 0", "symmetry: x,y,z", "symmetry: -x+1/2,-y,z", "symmetry: -x+1/2,y+1/2,-z+1/2", "symmetry: x,-y+1/2,-z+1/2", ""]]

/-- The lines of itables.txt, one list per card, part 1. -/
def itablesBlocks1 : List (List String) := [
  ["53 Pmna            Orthorhombic", "choice: 1", "centr: true", "pcentr: 0, 0, 0", "symmetry: x,y,z", "symmetry: -x+1/2,-y,z+1/2", "symmetry: -x+1/2,y,-z+1/2", "symmetry: x,-y,-z", ""],
  ["54 Pcca            Orthorhombic", "choice: 1", "centr: true", "pcentr: 0, 0, 0", "symmetry: x,y,z", "symmetry: -x+1/2,-y,z", "symmetry: -x,y,-z+1/2", "symmetry: x+1/2,-y,-z+1/2", ""],
  ["55 Pbam            Orthorhombic", "choice: 1", "centr: true", "pcentr: 0, 0, 0", "symmetry: x,y,z", "symmetry: -x,-y,z", "symmetry: -x+1/2,y+1/2,-z", "symmetry: x+1/2,-y+1/2,-z", ""],
  ["56 Pccn            Orthorhombic", "choice: 1", "centr: true", "pcentr: 0, 0, 0", "symmetry: x,y,z", "symmetry: -x+1/2,-y+1/2,z", "symmetry: -x,y+1/2,-z+1/2", "symmetry: x+1/2,-y,-z+1/2", ""],
  ["57 Pbcm            Orthorhombic", "choice: 1", "centr: true", "pcentr: 0, 0, 0", "symmetry: x,y,z", "symmetry: -x,-y,z+1/2", "symmetry: -x,y+1/2,-z+1/2", "symmetry: x,-y+1/2,-z", "", ""],
  ["57 Pbcm            Orthorhombic", "choice: 4", "centr: true", "pcentr: 0, 0, 0", "symmetry:  x,y,z", "symmetry:  x,1/2+y,-z", "symmetry:  1/2-x,1/2+y,-z", "symmetry:  1/2+x,-y,-z", "", ""],
  ["58 Pnnm            Orthorhombic", "choice: 1", "centr: true", "pcentr: 0, 0, 0", "symmetry: x,y,z", "symmetry: -x,-y,z", "symmetry: -x+1/2,y+1/2,-z+1/2", "symmetry: x+1/2,-y+1/2,-z+1/2", ""],
  ["59 Pmmn            Orthorhombic", "choice: 1", "centr: true", "pcentr: 0.25, 0.25, 0", "symmetry: x,y,z", "symmetry: -x,-y,z", "symmetry: x,-y,z", "symmetry: -x,y,z", ""],
  ["59 Pmmn            Orthorhombic", "choice: 2", "centr: true", "pcentr: 0, 0, 0", "symmetry: x,y,z", "symmetry: -x+1/2,-y+1/2,z", "symmetry: -x,y+1/2,-z", "symmetry: x+1/2,-y,-z", ""],
  ["60 Pbcn            Orthorhombic", "choice: 1", "centr: true", "pcentr: 0, 0, 0", "symmetry: x,y,z", "symmetry: -x+1/2,-y+1/2,z+1/2", "symmetry: -x,y,-z+1/2", "symmetry: x+1/2,-y+1/2,-z", ""],
  ["61 Pbca            Orthorhombic", "choice: 1", "centr: true", "pcentr: 0, 0, 0", "symmetry: x,y,z", "symmetry: -x+1/2,-y,z+1/2", "symmetry: -x,y+1/2,-z+1/2", "symmetry: x+1/2,-y+1/2,-z", ""],
  ["62 Pnma            Orthorhombic", "choice: 1", "centr: true", "pcentr: 0, 0, 0", "symmetry: x,y,z", "symmetry: -x+1/2,-y,z+1/2", "symmetry: -x,y+1/2,-z", "symmetry: x+1/2,-y+1/2,-z+1/2", ""],
  ["62 Pbnm            Orthorhombic", "choice: cab", "centr: true", "pcentr: 0, 0, 0", "symmetry: x,y,z", "symmetry: x+1/2,-y+1/2,-z", "symmetry: -x+1/2,y+1/2,-z+1/2", "symmetry: -x,-y,z+1/2", ""],
  ["63 Cmcm            Orthorhombic", "choice: 1", "centr: true", "pcentr: 0, 0, 0", "symmetry: x,y,z", "symmetry: -x,-y,z+1/2", "symmetry: -x,y,-z+1/2", "symmetry: x,-y,-z", ""],
  ["64 Cmca            Orthorhombic", "choice: 1", "centr: true", "pcentr: 0, 0, 0", "symmetry: x,y,z", "symmetry: -x,-y+1/2,z+1/2", "symmetry: -x,y+1/2,-z+1/2", "symmetry: x,-y,-z", ""],
  ["65 Cmmm            Orthorhombic", "choice: 1", "centr: true", "pcentr: 0, 0, 0", "symmetry: x,y,z", "symmetry: -x,-y,z", "symmetry: -x,y,-z", "symmetry: x,-y,-z", ""],
  ["66 Cccm            Orthorhombic", "choice: 1", "centr: true", "pcentr: 0, 0, 0", "symmetry: x,y,z", "symmetry: -x,-y,z", "symmetry: -x,y,-z+1/2", "symmetry: x,-y,-z+1/2", ""],
  ["67 Cmma            Orthorhombic", "choice: 1", "centr: true", "pcentr: 0, 0, 0", "symmetry: x,y,z", "symmetry: -x,-y+1/2,z", "symmetry: -x,y+1/2,-z", "symmetry: x,-y,-z", ""],
  ["68 Ccca            Orthorhombic", "choice: 1", "centr: true", "pcentr: 0, 0.25, 0.25", "symmetry: x,y,z", "symmetry: -x+1/2,-y+1/2,z", "symmetry: -x,y,-z", "symmetry: x+1/2,-y+1/2,-z", ""],
  ["68 Ccca            Orthorhombic", "choice: 2", "centr: true", "pcentr: 0, 0, 0", "symmetry: x,y,z", "symmetry: -x+1/2,-y,z", "symmetry: -x,y,-z+1/2", "symmetry: x+1/2,-y,-z+1/2", ""],
  ["69 Fmmm            Orthorhombic", "choice: 1", "centr: true", "pcentr: 0, 0, 0", "symmetry: x,y,z", "symmetry: -x,-y,z", "symmetry: -x,y,-z", "symmetry: x,-y,-z", ""],
  ["70 Fddd            Orthorhombic", "choice: 1", "centr: true", "pcentr: -0.125, -0.125, -0.125", "symmetry: x,y,z", "symmetry: -x,-y,z", "symmetry: -x,y,-z", "symmetry: x,-y,-z", ""],
  ["70 Fddd            Orthorhombic", "choice: 2", "centr: true", "pcentr: 0, 0, 0", "symmetry: x,y,z", "symmetry: -x+3/4,-y+3/4,z", "symmetry: -x+3/4,y,-z+3/4", "symmetry: x,-y+3/4,-z+3/4", ""],
  ["71 Immm            Orthorhombic", "choice: 1", "centr: true", "pcentr: 0, 0, 0", "symmetry: x,y,z", "symmetry: -x,-y,z", "symmetry: -x,y,-z", "symmetry: x,-y,-z", ""],
  ["72 Ibam            Orthorhombic", "choice: 1", "centr: true", "pcentr: 0, 0, 0", "symmetry: x,y,z", "symmetry: -x,-y,z", "symmetry: -x+1/2,y+1/2,-z", "symmetry: x+1/2,-y+1/2,-z", ""],
  ["73 Ibca            Orthorhombic", "choice: 1", "centr: true", "pcentr: 0, 0, 0", "symmetry: x,y,z", "symmetry: -x+1/2,-y,z+1/2", "symmetry: -x,y+1/2,-z+1/2", "symmetry: x+1/2,-y+1/2,-z", ""],
  ["74 Imma            Orthorhombic", "choice: 1", "centr: true", "pcentr: 0, 0, 0", "symmetry: x,y,z", "symmetry: -x,-y+1/2,z", "symmetry: -x,y+1/2,-z", "symmetry: x,-y,-z", ""],
  ["75 P4              Tetragonal", "choice: 1", "centr: false", "pcentr: 0, 0, 0", "symmetry: x,y,z", "symmetry: -x,-y,z", "symmetry: -y,x,z", "symmetry: y,-x,z", ""],
  ["76 P4(1)           Tetragonal", "choice: 1", "centr: false", "pcentr: 0, 0, 0", "symmetry: x,y,z", "symmetry: -x,-y,z+1/2", "symmetry: -y,x,z+1/4", "symmetry: y,-x,z+3/4", ""],
  ["77 P4(2)           Tetragonal", "choice: 1", "centr: false", "pcentr: 0, 0, 0", "symmetry: x,y,z", "symmetry: -x,-y,z", "symmetry: -y,x,z+1/2", "symmetry: y,-x,z+1/2", ""],
  ["78 P4(3)           Tetragonal", "choice: 1", "centr: false", "pcentr: 0, 0, 0", "symmetry: x,y,z", "symmetry: -x,-y,z+1/2", "symmetry: -y,x,z+3/4", "symmetry: y,-x,z+1/4", ""],
  ["79 I4              Tetragonal", "choice: 1", "centr: false", "pcentr: 0, 0, 0", "symmetry: x,y,z", "symmetry: -x,-y,z", "symmetry: -y,x,z", "symmetry: y,-x,z", ""],
  ["80 I4(1)           Tetragonal", "choice: 1", "centr: false", "pcentr: 0, 0, 0", "symmetry: x,y,z", "symmetry: -x+1/2,-y+1/2,z+1/2", "symmetry: -y,x+1/2,z+1/4", "symmetry: y+1/2,-x,z+3/4", ""],
  ["81 P-4             Tetragonal", "choice: 1", "centr: false", "pcentr: 0, 0, 0", "symmetry: x,y,z", "symmetry: -x,-y,z", "symmetry: y,-x,-z", "symmetry: -y,x,-z", ""],
  ["82 I-4             Tetragonal", "choice: 1", "centr: false", "pcentr: 0, 0, 0", "symmetry: x,y,z", "symmetry: -x,-y,z", "symmetry: y,-x,-z", "symmetry: -y,x,-z", ""],
  ["83 P4/m            Tetragonal", "choice: 1", "centr: true", "pcentr: 0, 0, 0", "symmetry: x,y,z", "symmetry: -x,-y,z", "symmetry: -y,x,z", "symmetry: y,-x,z", ""],
  ["84 P4(2)/m         Tetragonal", "choice: 1", "centr: true", "pcentr: 0, 0, 0", "symmetry: x,y,z", "symmetry: -x,-y,z", "symmetry: -y,x,z+1/2", "symmetry: y,-x,z+1/2", ""],
  ["85 P4/n            Tetragonal", "choice: 1", "centr: true", "pcentr: -0.25, 0.25, 0", "symmetry: x,y,z", "symmetry: -x,-y,z", "symmetry: y,-x,-z", "symmetry: -y,x,-z", ""],
  ["85 P4/n            Tetragonal", "choice: 2", "centr: true", "pcentr: 0, 0, 0", "symmetry: x,y,z", "symmetry: -x+1/2,-y+1/2,z", "symmetry: -y+1/2,x,z", "symmetry: y,-x+1/2,z", ""],
  ["86 P4(2)/n         Tetragonal", "choice: 1", "centr: true", "pcentr: -0.25, -0.25, -0.25", "symmetry: x,y,z", "symmetry: -x,-y,z", "symmetry: y,-x,-z", "symmetry: -y,x,-z", ""],
  ["86 P4(2)/n         Tetragonal", "choice: 2", "centr: true", "pcentr: 0, 0, 0", "symmetry: x,y,z", "symmetry: -x+1/2,-y+1/2,z", "symmetry: -y,x+1/2,z+1/2", "symmetry: y+1/2,-x,z+1/2", ""],
  ["87 I4/m            Tetragonal", "choice: 1", "centr: true", "pcentr: 0, 0, 0", "symmetry: x,y,z", "symmetry: -x,-y,z", "symmetry: -y,x,z", "symmetry: y,-x,z", ""],
  ["88 I4(1)/a         Tetragonal", "choice: 1", "centr: true", "pcentr: 0, -0.25, -0.125", "symmetry: x,y,z", "symmetry: -x+1/2,-y+1/2,z+1/2", "symmetry: -y,x+1/2,z+1/4", "symmetry: y+1/2,-x,z+3/4", ""],
  ["88 I4(1)/a         Tetragonal", "choice: 2", "centr: true", "pcentr: 0, 0, 0", "symmetry: x,y,z", "symmetry: -x+1/2,-y,z+1/2", "symmetry: -y+3/4,x+1/4,z+1/4", "symmetry: y+3/4,-x+3/4,z+3/4", ""],
  ["89 P422            Tetragonal", "choice: 1", "centr: false", "pcentr: 0, 0, 0", "symmetry: x,y,z", "symmetry: -x,-y,z", "symmetry: -y,x,z", "symmetry: y,-x,z", "symmetry: -x,y,-z", "symmetry: x,-y,-z", "symmetry: y,x,-z", "symmetry: -y,-x,-z", ""],
  ["90 P42(1)2         Tetragonal", "choice: 1", "centr: false", "pcentr: 0, 0, 0", "symmetry: x,y,z", "symmetry: -x,-y,z", "symmetry: -y+1/2,x+1/2,z", "symmetry: y+1/2,-x+1/2,z", "symmetry: -x+1/2,y+1/2,-z", "symmetry: x+1/2,-y+1/2,-z", "symmetry: y,x,-z", "symmetry: -y,-x,-z", ""],
  ["91 P4(1)22         Tetragonal", "choice: 1", "centr: false", "pcentr: 0, 0, 0", "symmetry: x,y,z", "symmetry: -x,-y,z+1/2", "symmetry: -y,x,z+1/4", "symmetry: y,-x,z+3/4", "symmetry: -x,y,-z", "symmetry: x,-y,-z+1/2", "symmetry: y,x,-z+3/4", "symmetry: -y,-x,-z+1/4", ""]]

/-- The lines of itables.txt, one list per card, part 2. -/
def itablesBlocks2 : List (List String) := [
  ["92 P4(1)2(1)2      Tetragonal", "choice: 1", "centr: false", "pcentr: 0, 0, 0", "symmetry: x,y,z", "symmetry: -x,-y,z+1/2", "symmetry: -y+1/2,x+1/2,z+1/4", "symmetry: y+1/2,-x+1/2,z+3/4", "symmetry: -x+1/2,y+1/2,-z+1/4", "symmetry: x+1/2,-y+1/2,-z+3/4", "symmetry: y,x,-z", "symmetry: -y,-x,-z+1/2", ""],
  ["93 P4(2)22         Tetragonal", "choice: 1", "centr: false", "pcentr: 0, 0, 0", "symmetry: x,y,z", "symmetry: -x,-y,z", "symmetry: -y,x,z+1/2", "symmetry: y,-x,z+1/2", "symmetry: -x,y,-z", "symmetry: x,-y,-z", "symmetry: y,x,-z+1/2", "symmetry: -y,-x,-z+1/2", ""],
  ["94 P4(2)2(1)2      Tetragonal", "choice: 1", "centr: false", "pcentr: 0, 0, 0", "symmetry: x,y,z", "symmetry: -x,-y,z", "symmetry: -y+1/2,x+1/2,z+1/2", "symmetry: y+1/2,-x+1/2,z+1/2", "symmetry: -x+1/2,y+1/2,-z+1/2", "symmetry: x+1/2,-y+1/2,-z+1/2", "symmetry: y,x,-z", "symmetry: -y,-x,-z", ""],
  ["95 P4(3)22         Tetragonal", "choice: 1", "centr: false", "pcentr: 0, 0, 0", "symmetry: x,y,z", "symmetry: -x,-y,z+1/2", "symmetry: -y,x,z+3/4", "symmetry: y,-x,z+1/4", "symmetry: -x,y,-z", "symmetry: x,-y,-z+1/2", "symmetry: y,x,-z+1/4", "symmetry: -y,-x,-z+3/4", ""],
  ["96 P4(3)2(1)2      Tetragonal", "choice: 1", "centr: false", "pcentr: 0, 0, 0", "symmetry: x,y,z", "symmetry: -x,-y,z+1/2", "symmetry: -y+1/2,x+1/2,z+3/4", "symmetry: y+1/2,-x+1/2,z+1/4", "symmetry: -x+1/2,y+1/2,-z+3/4", "symmetry: x+1/2,-y+1/2,-z+1/4", "symmetry: y,x,-z", "symmetry: -y,-x,-z+1/2", ""],
  ["97 I422            Tetragonal", "choice: 1", "centr: false", "pcentr: 0, 0, 0", "symmetry: x,y,z", "symmetry: -x,-y,z", "symmetry: -y,x,z", "symmetry: y,-x,z", "symmetry: -x,y,-z", "symmetry: x,-y,-z", "symmetry: y,x,-z", "symmetry: -y,-x,-z", ""],
  ["98 I4(1)22         Tetragonal", "choice: 1", "centr: false", "pcentr: 0, 0, 0", "symmetry: x,y,z", "symmetry: -x+1/2,-y+1/2,z+1/2", "symmetry: -y,x+1/2,z+1/4", "symmetry: y+1/2,-x,z+3/4", "symmetry: -x+1/2,y,-z+3/4", "symmetry: x,-y+1/2,-z+1/4", "symmetry: y+1/2,x+1/2,-z+1/2", "symmetry: -y,-x,-z", ""],
  ["99 P4mm            Tetragonal", "choice: 1", "centr: false", "pcentr: 0, 0, 0", "symmetry: x,y,z", "symmetry: -x,-y,z", "symmetry: -y,x,z", "symmetry: y,-x,z", "symmetry: x,-y,z", "symmetry: -x,y,z", "symmetry: -y,-x,z", "symmetry: y,x,z", ""],
  ["100 P4bm           Tetragonal", "choice: 1", "centr: false", "pcentr: 0, 0, 0", "symmetry: x,y,z", "symmetry: -x,-y,z", "symmetry: -y,x,z", "symmetry: y,-x,z", "symmetry: x+1/2,-y+1/2,z", "symmetry: -x+1/2,y+1/2,z", "symmetry: -y+1/2,-x+1/2,z", "symmetry: y+1/2,x+1/2,z", ""],
  ["101 P4(2)cm        Tetragonal", "choice: 1", "centr: false", "pcentr: 0, 0, 0", "symmetry: x,y,z", "symmetry: -x,-y,z", "symmetry: -y,x,z+1/2", "symmetry: y,-x,z+1/2", "symmetry: x,-y,z+1/2", "symmetry: -x,y,z+1/2", "symmetry: -y,-x,z", "symmetry: y,x,z", ""],
  ["102 P4(2)nm        Tetragonal", "choice: 1", "centr: false", "pcentr: 0, 0, 0", "symmetry: x,y,z", "symmetry: -x,-y,z", "symmetry: -y+1/2,x+1/2,z+1/2", "symmetry: y+1/2,-x+1/2,z+1/2", "symmetry: x+1/2,-y+1/2,z+1/2", "symmetry: -x+1/2,y+1/2,z+1/2", "symmetry: -y,-x,z", "symmetry: y,x,z", ""],
  ["103 P4cc           Tetragonal", "choice: 1", "centr: false", "pcentr: 0, 0, 0", "symmetry: x,y,z", "symmetry: -x,-y,z", "symmetry: -y,x,z", "symmetry: y,-x,z", "symmetry: x,-y,z+1/2", "symmetry: -x,y,z+1/2", "symmetry: -y,-x,z+1/2", "symmetry: y,x,z+1/2", ""],
  ["104 P4nc           Tetragonal", "choice: 1", "centr: false", "pcentr: 0, 0, 0", "symmetry: x,y,z", "symmetry: -x,-y,z", "symmetry: -y,x,z", "symmetry: y,-x,z", "symmetry: x+1/2,-y+1/2,z+1/2", "symmetry: -x+1/2,y+1/2,z+1/2", "symmetry: -y+1/2,-x+1/2,z+1/2", "symmetry: y+1/2,x+1/2,z+1/2", ""],
  ["105 P4(2)mc        Tetragonal", "choice: 1", "centr: false", "pcentr: 0, 0, 0", "symmetry: x,y,z", "symmetry: -x,-y,z", "symmetry: -y,x,z+1/2", "symmetry: y,-x,z+1/2", "symmetry: x,-y,z", "symmetry: -x,y,z", "symmetry: -y,-x,z+1/2", "symmetry: y,x,z+1/2", ""],
  ["106 P4(2)bc        Tetragonal", "choice: 1", "centr: false", "pcentr: 0, 0, 0", "symmetry: x,y,z", "symmetry: -x,-y,z", "symmetry: -y,x,z+1/2", "symmetry: y,-x,z+1/2", "symmetry: x+1/2,-y+1/2,z", "symmetry: -x+1/2,y+1/2,z", "symmetry: -y+1/2,-x+1/2,z+1/2", "symmetry: y+1/2,x+1/2,z+1/2", ""],
  ["107 I4mm           Tetragonal", "choice: 1", "centr: false", "pcentr: 0, 0, 0", "symmetry: x,y,z", "symmetry: -x,-y,z", "symmetry: -y,x,z", "symmetry: y,-x,z", "symmetry: x,-y,z", "symmetry: -x,y,z", "symmetry: -y,-x,z", "symmetry: y,x,z", ""],
  ["108 I4cm           Tetragonal", "choice: 1", "centr: false", "pcentr: 0, 0, 0", "symmetry: x,y,z", "symmetry: -x,-y,z", "symmetry: -y,x,z", "symmetry: y,-x,z", "symmetry: x,-y,z+1/2", "symmetry: -x,y,z+1/2", "symmetry: -y,-x,z+1/2", "symmetry: y,x,z+1/2", ""],
  ["109 I4(1)md        Tetragonal", "choice: 1", "centr: false", "pcentr: 0, 0, 0", "symmetry: x,y,z", "symmetry: -x+1/2,-y+1/2,z+1/2", "symmetry: -y,x+1/2,z+1/4", "symmetry: y+1/2,-x,z+3/4", "symmetry: x,-y,z", "symmetry: -x+1/2,y+1/2,z+1/2", "symmetry: -y,-x+1/2,z+1/4", "symmetry: y+1/2,x,z+3/4", ""],
  ["110 I4(1)cd        Tetragonal", "choice: 1", "centr: false", "pcentr: 0, 0, 0", "symmetry: x,y,z", "symmetry: -x+1/2,-y+1/2,z+1/2", "symmetry: -y,x+1/2,z+1/4", "symmetry: y+1/2,-x,z+3/4", "symmetry: x,-y,z+1/2", "symmetry: -x+1/2,y+1/2,z", "symmetry: -y,-x+1/2,z+3/4", "symmetry: y+1/2,x,z+1/4", ""],
  ["111 P-42m          Tetragonal", "choice: 1", "centr: false", "pcentr: 0, 0, 0", "symmetry: x,y,z", "symmetry: -x,-y,z", "symmetry: y,-x,-z", "symmetry: -y,x,-z", "symmetry: -x,y,-z", "symmetry: x,-y,-z", "symmetry: -y,-x,z", "symmetry: y,x,z", ""],
  ["112 P-42c          Tetragonal", "choice: 1", "centr: false", "pcentr: 0, 0, 0", "symmetry: x,y,z", "symmetry: -x,-y,z", "symmetry: y,-x,-z", "symmetry: -y,x,-z", "symmetry: -x,y,-z+1/2", "symmetry: x,-y,-z+1/2", "symmetry: -y,-x,z+1/2", "symmetry: y,x,z+1/2", ""],
  ["113 P-42(1)m       Tetragonal", "choice: 1", "centr: false", "pcentr: 0, 0, 0", "symmetry: x,y,z", "symmetry: -x,-y,z", "symmetry: y,-x,-z", "symmetry: -y,x,-z", "symmetry: -x+1/2,y+1/2,-z", "symmetry: x+1/2,-y+1/2,-z", "symmetry: -y+1/2,-x+1/2,z", "symmetry: y+1/2,x+1/2,z", ""],
  ["114 P-42(1)c       Tetragonal", "choice: 1", "centr: false", "pcentr: 0, 0, 0", "symmetry: x,y,z", "symmetry: -x,-y,z", "symmetry: y,-x,-z", "symmetry: -y,x,-z", "symmetry: -x+1/2,y+1/2,-z+1/2", "symmetry: x+1/2,-y+1/2,-z+1/2", "symmetry: -y+1/2,-x+1/2,z+1/2", "symmetry: y+1/2,x+1/2,z+1/2", ""],
  ["115 P-4m2          Tetragonal", "choice: 1", "centr: false", "pcentr: 0, 0, 0", "symmetry: x,y,z", "symmetry: -x,-y,z", "symmetry: y,-x,-z", "symmetry: -y,x,-z", "symmetry: x,-y,z", "symmetry: -x,y,z", "symmetry: y,x,-z", "symmetry: -y,-x,-z", ""],
  ["116 P-4c2          Tetragonal", "choice: 1", "centr: false", "pcentr: 0, 0, 0", "symmetry: x,y,z", "symmetry: -x,-y,z", "symmetry: y,-x,-z", "symmetry: -y,x,-z", "symmetry: x,-y,z+1/2", "symmetry: -x,y,z+1/2", "symmetry: y,x,-z+1/2", "symmetry: -y,-x,-z+1/2", ""]]

/-- The lines of itables.txt, one list per card, part 3. -/
def itablesBlocks3 : List (List String) := [
  ["117 P-4b2          Tetragonal", "choice: 1", "centr: false", "pcentr: 0, 0, 0", "symmetry: x,y,z", "symmetry: -x,-y,z", "symmetry: y,-x,-z", "symmetry: -y,x,-z", "symmetry: x+1/2,-y+1/2,z", "symmetry: -x+1/2,y+1/2,z", "symmetry: y+1/2,x+1/2,-z", "symmetry: -y+1/2,-x+1/2,-z", ""],
  ["118 P-4n2          Tetragonal", "choice: 1", "centr: false", "pcentr: 0, 0, 0", "symmetry: x,y,z", "symmetry: -x,-y,z", "symmetry: y,-x,-z", "symmetry: -y,x,-z", "symmetry: x+1/2,-y+1/2,z+1/2", "symmetry: -x+1/2,y+1/2,z+1/2", "symmetry: y+1/2,x+1/2,-z+1/2", "symmetry: -y+1/2,-x+1/2,-z+1/2", ""],
  ["119 I-4m2          Tetragonal", "choice: 1", "centr: false", "pcentr: 0, 0, 0", "symmetry: x,y,z", "symmetry: -x,-y,z", "symmetry: y,-x,-z", "symmetry: -y,x,-z", "symmetry: x,-y,z", "symmetry: -x,y,z", "symmetry: y,x,-z", "symmetry: -y,-x,-z", ""],
  ["120 I-4c2          Tetragonal", "choice: 1", "centr: false", "pcentr: 0, 0, 0", "symmetry: x,y,z", "symmetry: -x,-y,z", "symmetry: y,-x,-z", "symmetry: -y,x,-z", "symmetry: x,-y,z+1/2", "symmetry: -x,y,z+1/2", "symmetry: y,x,-z+1/2", "symmetry: -y,-x,-z+1/2", ""],
  ["121 I-42m          Tetragonal", "choice: 1", "centr: false", "pcentr: 0, 0, 0", "symmetry: x,y,z", "symmetry: -x,-y,z", "symmetry: y,-x,-z", "symmetry: -y,x,-z", "symmetry: -x,y,-z", "symmetry: x,-y,-z", "symmetry: -y,-x,z", "symmetry: y,x,z", ""],
  ["122 I-42d          Tetragonal", "choice: 1", "centr: false", "pcentr: 0, 0, 0", "symmetry: x,y,z", "symmetry: -x,-y,z", "symmetry: y,-x,-z", "symmetry: -y,x,-z", "symmetry: -x+1/2,y,-z+3/4", "symmetry: x+1/2,-y,-z+3/4", "symmetry: -y+1/2,-x,z+3/4", "symmetry: y+1/2,x,z+3/4", ""],
  ["123 P4/mmm         Tetragonal", "choice: 1", "centr: true", "pcentr: 0, 0, 0", "symmetry: x,y,z", "symmetry: -x,-y,z", "symmetry: -y,x,z", "symmetry: y,-x,z", "symmetry: -x,y,-z", "symmetry: x,-y,-z", "symmetry: y,x,-z", "symmetry: -y,-x,-z", ""],
  ["124 P4/mcc         Tetragonal", "choice: 1", "centr: true", "pcentr: 0, 0, 0", "symmetry: x,y,z", "symmetry: -x,-y,z", "symmetry: -y,x,z", "symmetry: y,-x,z", "symmetry: -x,y,-z+1/2", "symmetry: x,-y,-z+1/2", "symmetry: y,x,-z+1/2", "symmetry: -y,-x,-z+1/2", ""],
  ["125 P4/nbm         Tetragonal", "choice: 1", "centr: true", "pcentr: -0.25, -0.25, 0", "symmetry: x,y,z", "symmetry: -x,-y,z", "symmetry: -y,x,z", "symmetry: y,-x,z", "symmetry: -x,y,-z", "symmetry: x,-y,-z", "symmetry: y,x,-z", "symmetry: -y,-x,-z", ""],
  ["125 P4/nbm         Tetragonal", "choice: 2", "centr: true", "pcentr: 0, 0, 0", "symmetry: x,y,z", "symmetry: -x+1/2,-y+1/2,z", "symmetry: -y+1/2,x,z", "symmetry: y,-x+1/2,z", "symmetry: -x+1/2,y,-z", "symmetry: x,-y+1/2,-z", "symmetry: y,x,-z", "symmetry: -y+1/2,-x+1/2,-z", ""],
  ["126 P4/nnc         Tetragonal", "choice: 1", "centr: true", "pcentr: -0.25, -0.25, -0.25", "symmetry: x,y,z", "symmetry: -x,-y,z", "symmetry: -y,x,z", "symmetry: y,-x,z", "symmetry: -x,y,-z", "symmetry: x,-y,-z", "symmetry: y,x,-z", "symmetry: -y,-x,-z", ""],
  ["126 P4/nnc         Tetragonal", "choice: 2", "centr: true", "pcentr: 0, 0, 0", "symmetry: x,y,z", "symmetry: -x+1/2,-y+1/2,z", "symmetry: -y+1/2,x,z", "symmetry: y,-x+1/2,z", "symmetry: -x+1/2,y,-z+1/2", "symmetry: x,-y+1/2,-z+1/2", "symmetry: y,x,-z+1/2", "symmetry: -y+1/2,-x+1/2,-z+1/2", ""],
  ["127 P4/mbm         Tetragonal", "choice: 1", "centr: true", "pcentr: 0, 0, 0", "symmetry: x,y,z", "symmetry: -x,-y,z", "symmetry: -y,x,z", "symmetry: y,-x,z", "symmetry: -x+1/2,y+1/2,-z", "symmetry: x+1/2,-y+1/2,-z", "symmetry: y+1/2,x+1/2,-z", "symmetry: -y+1/2,-x+1/2,-z", ""],
  ["128 P4/mnc         Tetragonal", "choice: 1", "centr: true", "pcentr: 0, 0, 0", "symmetry: x,y,z", "symmetry: -x,-y,z", "symmetry: -y,x,z", "symmetry: y,-x,z", "symmetry: -x+1/2,y+1/2,-z+1/2", "symmetry: x+1/2,-y+1/2,-z+1/2", "symmetry: y+1/2,x+1/2,-z+1/2", "symmetry: -y+1/2,-x+1/2,-z+1/2", ""],
  ["129 P4/nmm         Tetragonal", "choice: 1", "centr: true", "pcentr: -0.25, 0.25, 0", "symmetry: x,y,z", "symmetry: -x,-y,z", "symmetry: y,x,-z", "symmetry: -y,-x,-z", "symmetry: y,-x,-z", "symmetry: -y,x,-z", "symmetry: x,-y,z", "symmetry: -x,y,z", ""],
  ["129 P4/nmm         Tetragonal", "choice: 2", "centr: true", "pcentr: 0, 0, 0", "symmetry: x,y,z", "symmetry: -x+1/2,-y+1/2,z", "symmetry: -y+1/2,x,z", "symmetry: y,-x+1/2,z", "symmetry: -x,y+1/2,-z", "symmetry: x+1/2,-y,-z", "symmetry: y+1/2,x+1/2,-z", "symmetry: -y,-x,-z", ""],
  ["130 P4/ncc         Tetragonal", "choice: 1", "centr: true", "pcentr: -0.25, 0.25, 0", "symmetry: x,y,z", "symmetry: -x,-y,z", "symmetry: -y+1/2,x+1/2,z", "symmetry: y+1/2,-x+1/2,z", "symmetry: -x+1/2,y+1/2,-z+1/2", "symmetry: x+1/2,-y+1/2,-z+1/2", "symmetry: y,x,-z+1/2", "symmetry: -y,-x,-z+1/2", ""],
  ["130 P4/ncc         Tetragonal", "choice: 2", "centr: true", "pcentr: 0, 0, 0", "symmetry: x,y,z", "symmetry: -x+1/2,-y+1/2,z", "symmetry: -y+1/2,x,z", "symmetry: y,-x+1/2,z", "symmetry: -x,y+1/2,-z+1/2", "symmetry: x+1/2,-y,-z+1/2", "symmetry: y+1/2,x+1/2,-z+1/2", "symmetry: -y,-x,-z+1/2", ""],
  ["131 P4(2)/mmc      Tetragonal", "choice: 1", "centr: true", "pcentr: 0, 0, 0", "symmetry: x,y,z", "symmetry: -x,-y,z", "symmetry: -y,x,z+1/2", "symmetry: y,-x,z+1/2", "symmetry: -x,y,-z", "symmetry: x,-y,-z", "symmetry: y,x,-z+1/2", "symmetry: -y,-x,-z+1/2", ""],
  ["132 P4(2)/mcm      Tetragonal", "choice: 1", "centr: true", "pcentr: 0, 0, 0", "symmetry: x,y,z", "symmetry: -x,-y,z", "symmetry: -y,x,z+1/2", "symmetry: y,-x,z+1/2", "symmetry: -x,y,-z+1/2", "symmetry: x,-y,-z+1/2", "symmetry: y,x,-z", "symmetry: -y,-x,-z", ""],
  ["133 P4(2)/nbc      Tetragonal", "choice: 1", "centr: true", "pcentr: -0.25, 0.25, -0.25", "symmetry: x,y,z", "symmetry: -x,-y,z", "symmetry: -y+1/2,x+1/2,z+1/2", "symmetry: y+1/2,-x+1/2,z+1/2", "symmetry: -x,y,-z+1/2", "symmetry: x,-y,-z+1/2", "symmetry: y+1/2,x+1/2,-z", "symmetry: -y+1/2,-x+1/2,-z", ""],
  ["133 P4(2)/nbc      Tetragonal", "choice: 2", "centr: true", "pcentr: 0, 0, 0", "symmetry: x,y,z", "symmetry: -x+1/2,-y+1/2,z", "symmetry: -y+1/2,x,z+1/2", "symmetry: y,-x+1/2,z+1/2", "symmetry: -x+1/2,y,-z", "symmetry: x,-y+1/2,-z", "symmetry: y,x,-z+1/2", "symmetry: -y+1/2,-x+1/2,-z+1/2", ""],
  ["134 P4(2)/nnm      Tetragonal", "choice: 1", "centr: true", "pcentr: -0.25, 0.25, -0.25", "symmetry: x,y,z", "symmetry: -x,-y,z", "symmetry: -y+1/2,x+1/2,z+1/2", "symmetry: y+1/2,-x+1/2,z+1/2", "symmetry: -x,y,-z", "symmetry: x,-y,-z", "symmetry: y+1/2,x+1/2,-z+1/2", "symmetry: -y+1/2,-x+1/2,-z+1/2", ""],
  ["134 P4(2)/nnm      Tetragonal", "choice: 2", "centr: true", "pcentr: 0, 0, 0", "symmetry: x,y,z", "symmetry: -x+1/2,-y+1/2,z", "symmetry: -y+1/2,x,z+1/2", "symmetry: y,-x+1/2,z+1/2", "symmetry: -x+1/2,y,-z+1/2", "symmetry: x,-y+1/2,-z+1/2", "symmetry: y,x,-z", "symmetry: -y+1/2,-x+1/2,-z", ""],
  ["135 P4(2)/mbc      Tetragonal", "choice: 1", "centr: true", "pcentr: 0, 0, 0", "symmetry: x,y,z", "symmetry: -x,-y,z", "symmetry: -y,x,z+1/2", "symmetry: y,-x,z+1/2", "symmetry: -x+1/2,y+1/2,-z", "symmetry: x+1/2,-y+1/2,-z", "symmetry: y+1/2,x+1/2,-z+1/2", "symmetry: -y+1/2,-x+1/2,-z+1/2", ""]]

/-- The lines of itables.txt, one list per card, part 4. -/
def itablesBlocks4 : List (List String) := [
  ["136 P4(2)/mnm      Tetragonal", "choice: 1", "centr: true", "pcentr: 0, 0, 0", "symmetry: x,y,z", "symmetry: -x,-y,z", "symmetry: -y+1/2,x+1/2,z+1/2", "symmetry: y+1/2,-x+1/2,z+1/2", "symmetry: -x+1/2,y+1/2,-z+1/2", "symmetry: x+1/2,-y+1/2,-z+1/2", "symmetry: y,x,-z", "symmetry: -y,-x,-z", ""],
  ["137 P4(2)/nmc      Tetragonal", "choice: 1", "centr: true", "pcentr: -0.25, 0.25, -0.25", "symmetry: x,y,z", "symmetry: -x,-y,z", "symmetry: -y+1/2,x+1/2,z+1/2", "symmetry: y+1/2,-x+1/2,z+1/2", "symmetry: -x+1/2,y+1/2,-z+1/2", "symmetry: x+1/2,-y+1/2,-z+1/2", "symmetry: y,x,-z", "symmetry: -y,-x,-z", ""],
  ["137 P4(2)/nmc      Tetragonal", "choice: 2", "centr: true", "pcentr: 0, 0, 0", "symmetry: x,y,z", "symmetry: -x+1/2,-y+1/2,z", "symmetry: -y+1/2,x,z+1/2", "symmetry: y,-x+1/2,z+1/2", "symmetry: -x,y+1/2,-z", "symmetry: x+1/2,-y,-z", "symmetry: y+1/2,x+1/2,-z+1/2", "symmetry: -y,-x,-z+1/2", ""],
  ["138 P4(2)/ncm      Tetragonal", "choice: 1", "centr: true", "pcentr: -0.25, 0.25, -0.25", "symmetry: x,y,z", "symmetry: -x,-y,z", "symmetry: -y+1/2,x+1/2,z+1/2", "symmetry: y+1/2,-x+1/2,z+1/2", "symmetry: -x+1/2,y+1/2,-z", "symmetry: x+1/2,-y+1/2,-z", "symmetry: y,x,-z+1/2", "symmetry: -y,-x,-z+1/2", ""],
  ["138 P4(2)/ncm      Tetragonal", "choice: 2", "centr: true", "pcentr: 0, 0, 0", "symmetry: x,y,z", "symmetry: -x+1/2,-y+1/2,z", "symmetry: -y+1/2,x,z+1/2", "symmetry: y,-x+1/2,z+1/2", "symmetry: -x,y+1/2,-z+1/2", "symmetry: x+1/2,-y,-z+1/2", "symmetry: y+1/2,x+1/2,-z", "symmetry: -y,-x,-z", ""],
  ["139 I4/mmm         Tetragonal", "choice: 1", "centr: true", "pcentr: 0, 0, 0", "symmetry: x,y,z", "symmetry: -x,-y,z", "symmetry: -y,x,z", "symmetry: y,-x,z", "symmetry: -x,y,-z", "symmetry: x,-y,-z", "symmetry: y,x,-z", "symmetry: -y,-x,-z", ""],
  ["140 I4/mcm         Tetragonal", "choice: 1", "centr: true", "pcentr: 0, 0, 0", "symmetry: x,y,z", "symmetry: -x,-y,z", "symmetry: -y,x,z", "symmetry: y,-x,z", "symmetry: -x,y,-z+1/2", "symmetry: x,-y,-z+1/2", "symmetry: y,x,-z+1/2", "symmetry: -y,-x,-z+1/2", ""],
  ["141 I4(1)/amd      Tetragonal", "choice: 1", "centr: true", "pcentr: 0, 0.25, -0.125", "symmetry: x,y,z", "symmetry: -x+1/2,-y+1/2,z+1/2", "symmetry: -y,x+1/2,z+1/4", "symmetry: y+1/2,-x,z+3/4", "symmetry: -x+1/2,y,-z+3/4", "symmetry: x,-y+1/2,-z+1/4", "symmetry: y+1/2,x+1/2,-z+1/2", "symmetry: -y,-x,-z", ""],
  ["141 I4(1)/amd      Tetragonal", "choice: 2", "centr: true", "pcentr: 0, 0, 0", "symmetry: x,y,z", "symmetry: -x+1/2,-y,z+1/2", "symmetry: -y+1/4,x+3/4,z+1/4", "symmetry: y+1/4,-x+1/4,z+3/4", "symmetry: -x+1/2,y,-z+1/2", "symmetry: x,-y,-z", "symmetry: y+1/4,x+3/4,-z+1/4", "symmetry: -y+1/4,-x+1/4,-z+3/4", ""],
  ["142 I4(1)/acd      Tetragonal", "choice: 1", "centr: true", "pcentr: 0, 0.25, -0.125", "symmetry: x,y,z", "symmetry: -x+1/2,-y+1/2,z+1/2", "symmetry: -y,x+1/2,z+1/4", "symmetry: y+1/2,-x,z+3/4", "symmetry: -x+1/2,y,-z+1/4", "symmetry: x,-y+1/2,-z+3/4", "symmetry: y+1/2,x+1/2,-z", "symmetry: -y,-x,-z+1/2", ""],
  ["142 I4(1)/acd      Tetragonal", "choice: 2", "centr: true", "pcentr: 0, 0, 0", "symmetry: x,y,z", "symmetry: -x+1/2,-y,z+1/2", "symmetry: -y+1/4,x+3/4,z+1/4", "symmetry: y+1/4,-x+1/4,z+3/4", "symmetry: -x+1/2,y,-z", "symmetry: x,-y,-z+1/2", "symmetry: y+1/4,x+3/4,-z+3/4", "symmetry: -y+1/4,-x+1/4,-z+1/4", ""],
  ["143 P3             Trigonal", "choice: 1", "centr: false", "pcentr: 0, 0, 0", "symmetry: x,y,z", "symmetry: -y,x-y,z", "symmetry: -x+y,-x,z", ""],
  ["144 P3(1)          Trigonal", "choice: 1", "centr: false", "pcentr: 0, 0, 0", "symmetry: x,y,z", "symmetry: -y,x-y,z+2/3", "symmetry: -x+y,-x,z+1/3", ""],
  ["145 P3(2)          Trigonal", "choice: 1", "centr: false", "pcentr: 0, 0, 0", "symmetry: x,y,z", "symmetry: -y,x-y,z+2/3", "symmetry: -x+y,-x,z+1/3", ""],
  ["146 R3             Hexagonal", "choice: 1", "centr: false", "pcentr: 0, 0, 0", "symmetry: x,y,z", "symmetry: -y,x-y,z", "symmetry: -x+y,-x,z", ""],
  ["146 R3             Rhombohedral", "choice: 2", "centr: false", "pcentr: 0, 0, 0", "symmetry: x,y,z", "symmetry: z,x,y", "symmetry: y,z,x", ""],
  ["147 P-3            Trigonal", "choice: 1", "centr: true", "pcentr: 0, 0, 0", "symmetry: x,y,z", "symmetry: -y,x-y,z", "symmetry: -x+y,-x,z", ""],
  ["148 R-3            Hexagonal", "choice: 1", "centr: true", "pcentr: 0, 0, 0", "symmetry: x,y,z", "symmetry: -y,x-y,z", "symmetry: -x+y,-x,z", ""],
  ["148 R-3            Rhombohedral", "choice: 2", "centr: true", "pcentr: 0, 0, 0", "symmetry: x,y,z", "symmetry: z,x,y", "symmetry: y,z,x", ""],
  ["149 P312           Trigonal", "choice: 1", "centr: false", "pcentr: 0, 0, 0", "symmetry: x,y,z", "symmetry: -y,x-y,z", "symmetry: -x+y,-x,z", "symmetry: -y,-x,-z", "symmetry: -x+y,y,-z", "symmetry: x,x-y,-z", ""],
  ["150 P321           Trigonal", "choice: 1", "centr: false", "pcentr: 0, 0, 0", "symmetry: x,y,z", "symmetry: -y,x-y,z", "symmetry: -x+y,-x,z", "symmetry: y,x,-z", "symmetry: x-y,-y,-z", "symmetry: -x,-x+y,-z", ""],
  ["151 P3(1)12        Trigonal", "choice: 1", "centr: false", "pcentr: 0, 0, 0", "symmetry: x,y,z", "symmetry: -y,x-y,z+1/3", "symmetry: -x+y,-x,z+2/3", "symmetry: -y,-x,-z+2/3", "symmetry: -x+y,y,-z+1/3", "symmetry: x,x-y,-z", ""],
  ["152 P3(1)21        Trigonal", "choice: 1", "centr: false", "pcentr: 0, 0, 0", "symmetry: x,y,z", "symmetry: -y,x-y,z+1/3", "symmetry: -x+y,-x,z+2/3", "symmetry: y,x,-z", "symmetry: x-y,-y,-z+2/3", "symmetry: -x,-x+y,-z+1/3", ""],
  ["153 P3(2)12        Trigonal", "choice: 1", "centr: false", "pcentr: 0, 0, 0", "symmetry: x,y,z", "symmetry: -y,x-y,z+2/3", "symmetry: -x+y,-x,z+1/3", "symmetry: -y,-x,-z+1/3", "symmetry: -x+y,y,-z+2/3", "symmetry: x,x-y,-z", ""],
  ["154 P3(2)21        Trigonal", "choice: 1", "centr: false", "pcentr: 0, 0, 0", "symmetry: x,y,z", "symmetry: -y,x-y,z+2/3", "symmetry: -x+y,-x,z+1/3", "symmetry: y,x,-z", "symmetry: x-y,-y,-z+1/3", "symmetry: -x,-x+y,-z+2/3", ""],
  ["155 R32            Hexagonal", "choice: 1", "centr: false", "pcentr: 0, 0, 0", "symmetry: x,y,z", "symmetry: -y,x-y,z", "symmetry: -x+y,-x,z", "symmetry: y,x,-z", "symmetry: x-y,-y,-z", "symmetry: -x,-x+y,-z", ""],
  ["155 R32            Rhombohedral", "choice: 2", "centr: false", "pcentr: 0, 0, 0", "symmetry: x,y,z", "symmetry: z,x,y", "symmetry: y,z,x", "symmetry: -y,-x,-z", "symmetry: -x,-z,-y", "symmetry: -z,-y,-x", ""],
  ["156 P3m1           Trigonal", "choice: 1", "centr: false", "pcentr: 0, 0, 0", "symmetry: x,y,z", "symmetry: -y,x-y,z", "symmetry: -x+y,-x,z", "symmetry: -y,-x,z", "symmetry: -x+y,y,z", "symmetry: x,x-y,z", ""],
  ["157 P31m           Trigonal", "choice: 1", "centr: false", "pcentr: 0, 0, 0", "symmetry: x,y,z", "symmetry: -y,x-y,z", "symmetry: -x+y,-x,z", "symmetry: y,x,z", "symmetry: x-y,-y,z", "symmetry: -x,-x+y,z", ""],
  ["158 P3c1           Trigonal", "choice: 1", "centr: false", "pcentr: 0, 0, 0", "symmetry: x,y,z", "symmetry: -y,x-y,z", "symmetry: -x+y,-x,z", "symmetry: -y,-x,z+1/2", "symmetry: -x+y,y,z+1/2", "symmetry: x,x-y,z+1/2", ""],
  ["159 P31c           Trigonal", "choice: 1", "centr: false", "pcentr: 0, 0, 0", "symmetry: x,y,z", "symmetry: -y,x-y,z", "symmetry: -x+y,-x,z", "symmetry: y,x,z+1/2", "symmetry: x-y,-y,z+1/2", "symmetry: -x,-x+y,z+1/2", ""],
  ["160 R3m            Hexagonal", "choice: 1", "centr: false", "pcentr: 0, 0, 0", "symmetry: x,y,z", "symmetry: -y,x-y,z", "symmetry: -x+y,-x,z", "symmetry: -y,-x,z", "symmetry: -x+y,y,z", "symmetry: x,x-y,z", ""],
  ["160 R3m            Rhombohedral", "choice: 2", "centr: false", "pcentr: 0, 0, 0", "symmetry: x,y,z", "symmetry: z,x,y", "symmetry: y,z,x", "symmetry: y,x,z", "symmetry: x,z,y", "symmetry: z,y,x", ""]]

/-- The lines of itables.txt, one list per card, part 5. -/
def itablesBlocks5 : List (List String) := [
  ["161 R3c            Hexagonal", "choice: 1", "centr: false", "pcentr: 0, 0, 0", "symmetry: x,y,z", "symmetry: -y,x-y,z", "symmetry: -x+y,-x,z", "symmetry: -y,-x,z+1/2", "symmetry: -x+y,y,z+1/2", "symmetry: x,x-y,z+1/2", ""],
  ["161 R3c            Rhombohedral", "choice: 2", "centr: false", "pcentr: 0, 0, 0", "symmetry: x,y,z", "symmetry: z,x,y", "symmetry: y,z,x", "symmetry: y+1/2,x+1/2,z+1/2", "symmetry: x+1/2,z+1/2,y+1/2", "symmetry: z+1/2,y+1/2,x+1/2", ""],
  ["162 P-31m          Trigonal", "choice: 1", "centr: true", "pcentr: 0, 0, 0", "symmetry: x,y,z", "symmetry: -y,x-y,z", "symmetry: -x+y,-x,z", "symmetry: -y,-x,-z", "symmetry: -x+y,y,-z", "symmetry: x,x-y,-z", ""],
  ["163 P-31c          Trigonal", "choice: 1", "centr: true", "pcentr: 0, 0, 0", "symmetry: x,y,z", "symmetry: -y,x-y,z", "symmetry: -x+y,-x,z", "symmetry: -y,-x,-z+1/2", "symmetry: -x+y,y,-z+1/2", "symmetry: x,x-y,-z+1/2", ""],
  ["164 P-3m1          Trigonal", "choice: 1", "centr: true", "pcentr: 0, 0, 0", "symmetry: x,y,z", "symmetry: -y,x-y,z", "symmetry: -x+y,-x,z", "symmetry: y,x,-z", "symmetry: x-y,-y,-z", "symmetry: -x,-x+y,-z", ""],
  ["165 P-3c1          Trigonal", "choice: 1", "centr: true", "pcentr: 0, 0, 0", "symmetry: x,y,z", "symmetry: -y,x-y,z", "symmetry: -x+y,-x,z", "symmetry: y,x,-z+1/2", "symmetry: x-y,-y,-z+1/2", "symmetry: -x,-x+y,-z+1/2", ""],
  ["166 R-3m           Hexagonal", "choice: 1", "centr: true", "pcentr: 0, 0, 0", "symmetry: x,y,z", "symmetry: -y,x-y,z", "symmetry: -x+y,-x,z", "symmetry: y,x,-z", "symmetry: x-y,-y,-z", "symmetry: -x,-x+y,-z", ""],
  ["166 R-3m           Rhombohedral", "choice: 2", "centr: true", "pcentr: 0, 0, 0", "symmetry: x,y,z", "symmetry: z,x,y", "symmetry: y,z,x", "symmetry: -y,-x,-z", "symmetry: -x,-z,-y", "symmetry: -z,-y,-x", ""],
  ["167 R-3c           Hexagonal", "choice: 1", "centr: true", "pcentr: 0, 0, 0", "symmetry: x,y,z", "symmetry: -y,x-y,z", "symmetry: -x+y,-x,z", "symmetry: y,x,-z+1/2", "symmetry: x-y,-y,-z+1/2", "symmetry: -x,-x+y,-z+1/2", ""],
  ["167 R-3c           Rhombohedral", "choice: 2", "centr: true", "pcentr: 0, 0, 0", "symmetry: x,y,z", "symmetry: z,x,y", "symmetry: y,z,x", "symmetry: -y+1/2,-x+1/2,-z+1/2", "symmetry: -x+1/2,-z+1/2,-y+1/2", "symmetry: -z+1/2,-y+1/2,-x+1/2", ""],
  ["168 P6             Hexagonal", "choice: 1", "centr: false", "pcentr: 0, 0, 0", "symmetry: x,y,z", "symmetry: -y,x-y,z", "symmetry: -x+y,-x,z", "symmetry: -x,-y,z", "symmetry: y,-x+y,z", "symmetry: x-y,x,z", ""],
  ["169 P6(1)          Hexagonal", "choice: 1", "centr: false", "pcentr: 0, 0, 0", "symmetry: x,y,z", "symmetry: -y,x-y,z+1/3", "symmetry: -x+y,-x,z+2/3", "symmetry: -x,-y,z+1/2", "symmetry: y,-x+y,z+5/6", "symmetry: x-y,x,z+1/6", ""],
  ["170 P6(5)          Hexagonal", "choice: 1", "centr: false", "pcentr: 0, 0, 0", "symmetry: x,y,z", "symmetry: -y,x-y,z+2/3", "symmetry: -x+y,-x,z+1/3", "symmetry: -x,-y,z+1/2", "symmetry: y,-x+y,z+1/6", "symmetry: x-y,x,z+5/6", ""],
  ["171 P6(2)          Hexagonal", "choice: 1", "centr: false", "pcentr: 0, 0, 0", "symmetry: x,y,z", "symmetry: -y,x-y,z+2/3", "symmetry: -x+y,-x,z+1/3", "symmetry: -x,-y,z", "symmetry: y,-x+y,z+2/3", "symmetry: x-y,x,z+1/3", ""],
  ["172 P6(4)          Hexagonal", "choice: 1", "centr: false", "pcentr: 0, 0, 0", "symmetry: x,y,z", "symmetry: -y,x-y,z+1/3", "symmetry: -x+y,-x,z+2/3", "symmetry: -x,-y,z", "symmetry: y,-x+y,z+1/3", "symmetry: x-y,x,z+2/3", ""],
  ["173 P6(3)          Hexagonal", "choice: 1", "centr: false", "pcentr: 0, 0, 0", "symmetry: x,y,z", "symmetry: -y,x-y,z", "symmetry: -x+y,-x,z", "symmetry: -x,-y,z+1/2", "symmetry: y,-x+y,z+1/2", "symmetry: x-y,x,z+1/2", ""],
  ["174 P-6            Hexagonal", "choice: 1", "centr: false", "pcentr: 0, 0, 0", "symmetry: x,y,z", "symmetry: -y,x-y,z", "symmetry: -x+y,-x,z", "symmetry: x,y,-z", "symmetry: -y,x-y,-z", "symmetry: -x+y,-x,-z", ""],
  ["175 P6/m           Hexagonal", "choice: 1", "centr: true", "pcentr: 0, 0, 0", "symmetry: x,y,z", "symmetry: -y,x-y,z", "symmetry: -x+y,-x,z", "symmetry: -x,-y,z", "symmetry: y,-x+y,z", "symmetry: x-y,x,z", ""],
  ["176 P6(3)/m        Hexagonal", "choice: 1", "centr: true", "pcentr: 0, 0, 0", "symmetry: x,y,z", "symmetry: -y,x-y,z", "symmetry: -x+y,-x,z", "symmetry: -x,-y,z+1/2", "symmetry: y,-x+y,z+1/2", "symmetry: x-y,x,z+1/2", ""],
  ["177 P622           Hexagonal", "choice: 1", "centr: false", "pcentr: 0, 0, 0", "symmetry: x,y,z", "symmetry: -y,x-y,z", "symmetry: -x+y,-x,z", "symmetry: -x,-y,z", "symmetry: y,-x+y,z", "symmetry: x-y,x,z", "symmetry: y,x,-z", "symmetry: x-y,-y,-z", "symmetry: -x,-x+y,-z", "symmetry: -y,-x,-z", "symmetry: -x+y,y,-z", "symmetry: x,x-y,-z", ""],
  ["178 P6(1)22        Hexagonal", "choice: 1", "centr: false", "pcentr: 0, 0, 0", "symmetry: x,y,z", "symmetry: -y,x-y,z+1/3", "symmetry: -x+y,-x,z+2/3", "symmetry: -x,-y,z+1/2", "symmetry: y,-x+y,z+5/6", "symmetry: x-y,x,z+1/6", "symmetry: y,x,-z+1/3", "symmetry: x-y,-y,-z", "symmetry: -x,-x+y,-z+2/3", "symmetry: -y,-x,-z+5/6", "symmetry: -x+y,y,-z+1/2", "symmetry: x,x-y,-z+1/6", ""],
  ["179 P6(5)22        Hexagonal", "choice: 1", "centr: false", "pcentr: 0, 0, 0", "symmetry: x,y,z", "symmetry: -y,x-y,z+2/3", "symmetry: -x+y,-x,z+1/3", "symmetry: -x,-y,z+1/2", "symmetry: y,-x+y,z+1/6", "symmetry: x-y,x,z+5/6", "symmetry: y,x,-z+2/3", "symmetry: x-y,-y,-z", "symmetry: -x,-x+y,-z+1/3", "symmetry: -y,-x,-z+1/6", "symmetry: -x+y,y,-z+1/2", "symmetry: x,x-y,-z+5/6", ""],
  ["180 P6(2)22        Hexagonal", "choice: 1", "centr: false", "pcentr: 0, 0, 0", "symmetry: x,y,z", "symmetry: -y,x-y,z+2/3", "symmetry: -x+y,-x,z+1/3", "symmetry: -x,-y,z", "symmetry: y,-x+y,z+2/3", "symmetry: x-y,x,z+1/3", "symmetry: y,x,-z+2/3", "symmetry: x-y,-y,-z", "symmetry: -x,-x+y,-z+1/3", "symmetry: -y,-x,-z+2/3", "symmetry: -x+y,y,-z", "symmetry: x,x-y,-z+1/3", ""],
  ["181 P6(4)22        Hexagonal", "choice: 1", "centr: false", "pcentr: 0, 0, 0", "symmetry: x,y,z", "symmetry: -y,x-y,z+1/3", "symmetry: -x+y,-x,z+2/3", "symmetry: -x,-y,z", "symmetry: y,-x+y,z+1/3", "symmetry: x-y,x,z+2/3", "symmetry: y,x,-z+1/3", "symmetry: x-y,-y,-z", "symmetry: -x,-x+y,-z+2/3", "symmetry: -y,-x,-z+1/3", "symmetry: -x+y,y,-z", "symmetry: x,x-y,-z+2/3", ""],
  ["182 P6(3)22        Hexagonal", "choice: 1", "centr: false", "pcentr: 0, 0, 0", "symmetry: x,y,z", "symmetry: -y,x-y,z", "symmetry: -x+y,-x,z", "symmetry: -x,-y,z+1/2", "symmetry: y,-x+y,z+1/2", "symmetry: x-y,x,z+1/2", "symmetry: y,x,-z", "symmetry: x-y,-y,-z", "symmetry: -x,-x+y,-z", "symmetry: -y,-x,-z+1/2", "symmetry: -x+y,y,-z+1/2", "symmetry: x,x-y,-z+1/2", ""],
  ["183 P6mm           Hexagonal", "choice: 1", "centr: false", "pcentr: 0, 0, 0", "symmetry: x,y,z", "symmetry: -y,x-y,z", "symmetry: -x+y,-x,z", "symmetry: -x,-y,z", "symmetry: y,-x+y,z", "symmetry: x-y,x,z", "symmetry: -y,-x,z", "symmetry: -x+y,y,z", "symmetry: x,x-y,z", "symmetry: y,x,z", "symmetry: x-y,-y,z", "symmetry: -x,-x+y,z", ""]]

/-- The lines of itables.txt, one list per card, part 6. -/
def itablesBlocks6 : List (List String) := [
  ["184 P6cc           Hexagonal", "choice: 1", "centr: false", "pcentr: 0, 0, 0", "symmetry: x,y,z", "symmetry: -y,x-y,z", "symmetry: -x+y,-x,z", "symmetry: -x,-y,z", "symmetry: y,-x+y,z", "symmetry: x-y,x,z", "symmetry: -y,-x,z+1/2", "symmetry: -x+y,y,z+1/2", "symmetry: x,x-y,z+1/2", "symmetry: y,x,z+1/2", "symmetry: x-y,-y,z+1/2", "symmetry: -x,-x+y,z+1/2", ""],
  ["185 P6(3)cm        Hexagonal", "choice: 1", "centr: false", "pcentr: 0, 0, 0", "symmetry: x,y,z", "symmetry: -y,x-y,z", "symmetry: -x+y,-x,z", "symmetry: -x,-y,z+1/2", "symmetry: y,-x+y,z+1/2", "symmetry: x-y,x,z+1/2", "symmetry: -y,-x,z+1/2", "symmetry: -x+y,y,z+1/2", "symmetry: x,x-y,z+1/2", "symmetry: y,x,z", "symmetry: x-y,-y,z", "symmetry: -x,-x+y,z", ""],
  ["186 P6(3)mc        Hexagonal", "choice: 1", "centr: false", "pcentr: 0, 0, 0", "symmetry: x,y,z", "symmetry: -y,x-y,z", "symmetry: -x+y,-x,z", "symmetry: -x,-y,z+1/2", "symmetry: y,-x+y,z+1/2", "symmetry: x-y,x,z+1/2", "symmetry: -y,-x,z", "symmetry: -x+y,y,z", "symmetry: x,x-y,z", "symmetry: y,x,z+1/2", "symmetry: x-y,-y,z+1/2", "symmetry: -x,-x+y,z+1/2", ""],
  ["187 P-6m2          Hexagonal", "choice: 1", "centr: false", "pcentr: 0, 0, 0", "symmetry: x,y,z", "symmetry: -y,x-y,z", "symmetry: -x+y,-x,z", "symmetry: x,y,-z", "symmetry: -y,x-y,-z", "symmetry: -x+y,-x,-z", "symmetry: -y,-x,z", "symmetry: -x+y,y,z", "symmetry: x,x-y,z", "symmetry: -y,-x,-z", "symmetry: -x+y,y,-z", "symmetry: x,x-y,-z", ""],
  ["188 P-6c2          Hexagonal", "choice: 1", "centr: false", "pcentr: 0, 0, 0", "symmetry: x,y,z", "symmetry: -y,x-y,z", "symmetry: -x+y,-x,z", "symmetry: x,y,-z+1/2", "symmetry: -y,x-y,-z+1/2", "symmetry: -x+y,-x,-z+1/2", "symmetry: -y,-x,z+1/2", "symmetry: -x+y,y,z+1/2", "symmetry: x,x-y,z+1/2", "symmetry: -y,-x,-z", "symmetry: -x+y,y,-z", "symmetry: x,x-y,-z", ""],
  ["189 P-62m          Hexagonal", "choice: 1", "centr: false", "pcentr: 0, 0, 0", "symmetry: x,y,z", "symmetry: -y,x-y,z", "symmetry: -x+y,-x,z", "symmetry: x,y,-z", "symmetry: -y,x-y,-z", "symmetry: -x+y,-x,-z", "symmetry: y,x,-z", "symmetry: x-y,-y,-z", "symmetry: -x,-x+y,-z", "symmetry: y,x,z", "symmetry: x-y,-y,z", "symmetry: -x,-x+y,z", ""],
  ["190 P-62c          Hexagonal", "choice: 1", "centr: false", "pcentr: 0, 0, 0", "symmetry: x,y,z", "symmetry: -y,x-y,z", "symmetry: -x+y,-x,z", "symmetry: x,y,-z+1/2", "symmetry: -y,x-y,-z+1/2", "symmetry: -x+y,-x,-z+1/2", "symmetry: y,x,-z", "symmetry: x-y,-y,-z", "symmetry: -x,-x+y,-z", "symmetry: y,x,z+1/2", "symmetry: x-y,-y,z+1/2", "symmetry: -x,-x+y,z+1/2", ""],
  ["191 P6/mmm         Hexagonal", "choice: 1", "centr: true", "pcentr: 0, 0, 0", "symmetry: x,y,z", "symmetry: -y,x-y,z", "symmetry: -x+y,-x,z", "symmetry: -x,-y,z", "symmetry: y,-x+y,z", "symmetry: x-y,x,z", "symmetry: y,x,-z", "symmetry: x-y,-y,-z", "symmetry: -x,-x+y,-z", "symmetry: -y,-x,-z", "symmetry: -x+y,y,-z", "symmetry: x,x-y,-z", ""],
  ["192 P6/mcc         Hexagonal", "choice: 1", "centr: true", "pcentr: 0, 0, 0", "symmetry: x,y,z", "symmetry: -y,x-y,z", "symmetry: -x+y,-x,z", "symmetry: -x,-y,z", "symmetry: y,-x+y,z", "symmetry: x-y,x,z", "symmetry: y,x,-z+1/2", "symmetry: x-y,-y,-z+1/2", "symmetry: -x,-x+y,-z+1/2", "symmetry: -y,-x,-z+1/2", "symmetry: -x+y,y,-z+1/2", "symmetry: x,x-y,-z+1/2", ""],
  ["193 P6(3)/mcm      Hexagonal", "choice: 1", "centr: true", "pcentr: 0, 0, 0", "symmetry: x,y,z", "symmetry: -y,x-y,z", "symmetry: -x+y,-x,z", "symmetry: -x,-y,z+1/2", "symmetry: y,-x+y,z+1/2", "symmetry: x-y,x,z+1/2", "symmetry: y,x,-z+1/2", "symmetry: x-y,-y,-z+1/2", "symmetry: -x,-x+y,-z+1/2", "symmetry: -y,-x,-z", "symmetry: -x+y,y,-z", "symmetry: x,x-y,-z", ""],
  ["194 P6(3)/mmc      Hexagonal", "choice: 1", "centr: true", "pcentr: 0, 0, 0", "symmetry: x,y,z", "symmetry: -y,x-y,z", "symmetry: -x+y,-x,z", "symmetry: -x,-y,z+1/2", "symmetry: y,-x+y,z+1/2", "symmetry: x-y,x,z+1/2", "symmetry: y,x,-z", "symmetry: x-y,-y,-z", "symmetry: -x,-x+y,-z", "symmetry: -y,-x,-z+1/2", "symmetry: -x+y,y,-z+1/2", "symmetry: x,x-y,-z+1/2", ""],
  ["195 P23            Cubic", "choice: 1", "centr: false", "pcentr: 0, 0, 0", "symmetry: x,y,z", "symmetry: -x,-y,z", "symmetry: -x,y,-z", "symmetry: x,-y,-z", "symmetry: z,x,y", "symmetry: z,-x,-y", "symmetry: -z,-x,y", "symmetry: -z,x,-y", "symmetry: y,z,x", "symmetry: -y,z,-x", "symmetry: y,-z,-x", "symmetry: -y,-z,x", ""],
  ["196 F23            Cubic", "choice: 1", "centr: false", "pcentr: 0, 0, 0", "symmetry: x,y,z", "symmetry: -x,-y,z", "symmetry: -x,y,-z", "symmetry: x,-y,-z", "symmetry: z,x,y", "symmetry: z,-x,-y", "symmetry: -z,-x,y", "symmetry: -z,x,-y", "symmetry: y,z,x", "symmetry: -y,z,-x", "symmetry: y,-z,-x", "symmetry: -y,-z,x", ""],
  ["197 I23            Cubic", "choice: 1", "centr: false", "pcentr: 0, 0, 0", "symmetry: x,y,z", "symmetry: -x,-y,z", "symmetry: -x,y,-z", "symmetry: x,-y,-z", "symmetry: z,x,y", "symmetry: z,-x,-y", "symmetry: -z,-x,y", "symmetry: -z,x,-y", "symmetry: y,z,x", "symmetry: -y,z,-x", "symmetry: y,-z,-x", "symmetry: -y,-z,x", ""],
  ["198 P2(1)3         Cubic", "choice: 1", "centr: false", "pcentr: 0, 0, 0", "symmetry: x,y,z", "symmetry: -x+1/2,-y,z+1/2", "symmetry: -x,y+1/2,-z+1/2", "symmetry: x+1/2,-y+1/2,-z", "symmetry: z,x,y", "symmetry: z+1/2,-x+1/2,-y", "symmetry: -z+1/2,-x,y+1/2", "symmetry: -z,x+1/2,-y+1/2", "symmetry: y,z,x", "symmetry: -y,z+1/2,-x+1/2", "symmetry: y+1/2,-z+1/2,-x", "symmetry: -y+1/2,-z,x+1/2", ""],
  ["199 I2(1)3         Cubic", "choice: 1", "centr: false", "pcentr: 0, 0, 0", "symmetry: x,y,z", "symmetry: -x+1/2,-y,z+1/2", "symmetry: -x,y+1/2,-z+1/2", "symmetry: x+1/2,-y+1/2,-z", "symmetry: z,x,y", "symmetry: z+1/2,-x+1/2,-y", "symmetry: -z+1/2,-x,y+1/2", "symmetry: -z,x+1/2,-y+1/2", "symmetry: y,z,x", "symmetry: -y,z+1/2,-x+1/2", "symmetry: y+1/2,-z+1/2,-x", "symmetry: -y+1/2,-z,x+1/2", ""]]

/-- The lines of itables.txt, one list per card, part 7. -/
def itablesBlocks7 : List (List String) := [
  ["200 Pm-3           Cubic", "choice: 1", "centr: true", "pcentr: 0, 0, 0", "symmetry: x,y,z", "symmetry: -x,-y,z", "symmetry: -x,y,-z", "symmetry: x,-y,-z", "symmetry: z,x,y", "symmetry: z,-x,-y", "symmetry: -z,-x,y", "symmetry: -z,x,-y", "symmetry: y,z,x", "symmetry: -y,z,-x", "symmetry: y,-z,-x", "symmetry: -y,-z,x", ""],
  ["201 Pn-3           Cubic", "choice: 1", "centr: true", "pcentr: -0.25, -0.25, -0.25", "symmetry: x,y,z", "symmetry: -x,-y,z", "symmetry: -x,y,-z", "symmetry: x,-y,-z", "symmetry: z,x,y", "symmetry: z,-x,-y", "symmetry: -z,-x,y", "symmetry: -z,x,-y", "symmetry: y,z,x", "symmetry: -y,z,-x", "symmetry: y,-z,-x", "symmetry: -y,-z,x", ""],
  ["201 Pn-3           Cubic", "choice: 2", "centr: true", "pcentr: 0, 0, 0", "symmetry: x,y,z", "symmetry: -x+1/2,-y+1/2,z", "symmetry: -x+1/2,y,-z+1/2", "symmetry: x,-y+1/2,-z+1/2", "symmetry: z,x,y", "symmetry: z,-x+1/2,-y+1/2", "symmetry: -z+1/2,-x+1/2,y", "symmetry: -z+1/2,x,-y+1/2", "symmetry: y,z,x", "symmetry: -y+1/2,z,-x+1/2", "symmetry: y,-z+1/2,-x+1/2", "symmetry: -y+1/2,-z+1/2,x", ""],
  ["202 Fm-3           Cubic", "choice: 1", "centr: true", "pcentr: 0, 0, 0", "symmetry: x,y,z", "symmetry: -x,-y,z", "symmetry: -x,y,-z", "symmetry: x,-y,-z", "symmetry: z,x,y", "symmetry: z,-x,-y", "symmetry: -z,-x,y", "symmetry: -z,x,-y", "symmetry: y,z,x", "symmetry: -y,z,-x", "symmetry: y,-z,-x", "symmetry: -y,-z,x", ""],
  ["203 Fd-3           Cubic", "choice: 1", "centr: true", "pcentr: -0.125, -0.125, -0.125", "symmetry: x,y,z", "symmetry: -x,-y,z", "symmetry: -x,y,-z", "symmetry: x,-y,-z", "symmetry: z,x,y", "symmetry: z,-x,-y", "symmetry: -z,-x,y", "symmetry: -z,x,-y", "symmetry: y,z,x", "symmetry: -y,z,-x", "symmetry: y,-z,-x", "symmetry: -y,-z,x", ""],
  ["203 Fd-3           Cubic", "choice: 2", "centr: true", "pcentr: 0, 0, 0", "symmetry: x,y,z", "symmetry: -x+1/4,-y+1/4,z", "symmetry: -x+1/4,y,-z+1/4", "symmetry: x,-y+1/4,-z+1/4", "symmetry: z,x,y", "symmetry: z,-x+1/4,-y+1/4", "symmetry: -z+1/4,-x+1/4,y", "symmetry: -z+1/4,x,-y+1/4", "symmetry: y,z,x", "symmetry: -y+1/4,z,-x+1/4", "symmetry: y,-z+1/4,-x+1/4", "symmetry: -y+1/4,-z+1/4,x", ""],
  ["204 Im-3           Cubic", "choice: 1", "centr: true", "pcentr: 0, 0, 0", "symmetry: x,y,z", "symmetry: -x,-y,z", "symmetry: -x,y,-z", "symmetry: x,-y,-z", "symmetry: z,x,y", "symmetry: z,-x,-y", "symmetry: -z,-x,y", "symmetry: -z,x,-y", "symmetry: y,z,x", "symmetry: -y,z,-x", "symmetry: y,-z,-x", "symmetry: -y,-z,x", ""],
  ["205 Pa-3           Cubic", "choice: 1", "centr: true", "pcentr: 0, 0, 0", "symmetry: x,y,z", "symmetry: -x+1/2,-y,z+1/2", "symmetry: -x,y+1/2,-z+1/2", "symmetry: x+1/2,-y+1/2,-z", "symmetry: z,x,y", "symmetry: z+1/2,-x+1/2,-y", "symmetry: -z+1/2,-x,y+1/2", "symmetry: -z,x+1/2,-y+1/2", "symmetry: y,z,x", "symmetry: -y,z+1/2,-x+1/2", "symmetry: y+1/2,-z+1/2,-x", "symmetry: -y+1/2,-z,x+1/2", ""],
  ["206 Ia-3           Cubic", "choice: 1", "centr: true", "pcentr: 0, 0, 0", "symmetry: x,y,z", "symmetry: -x+1/2,-y,z+1/2", "symmetry: -x,y+1/2,-z+1/2", "symmetry: x+1/2,-y+1/2,-z", "symmetry: z,x,y", "symmetry: z+1/2,-x+1/2,-y", "symmetry: -z+1/2,-x,y+1/2", "symmetry: -z,x+1/2,-y+1/2", "symmetry: y,z,x", "symmetry: -y,z+1/2,-x+1/2", "symmetry: y+1/2,-z+1/2,-x", "symmetry: -y+1/2,-z,x+1/2", ""],
  ["207 P432           Cubic", "choice: 1", "centr: false", "pcentr: 0, 0, 0", "symmetry: x,y,z", "symmetry: -x,-y,z", "symmetry: -x,y,-z", "symmetry: x,-y,-z", "symmetry: z,x,y", "symmetry: z,-x,-y", "symmetry: -z,-x,y", "symmetry: -z,x,-y", "symmetry: y,z,x", "symmetry: -y,z,-x", "symmetry: y,-z,-x", "symmetry: -y,-z,x", "symmetry: y,x,-z", "symmetry: -y,-x,-z", "symmetry: y,-x,z", "symmetry: -y,x,z", "symmetry: x,z,-y", "symmetry: -x,z,y", "symmetry: -x,-z,-y", "symmetry: x,-z,y", "symmetry: z,y,-x", "symmetry: z,-y,x", "symmetry: -z,y,x", "symmetry: -z,-y,-x", ""],
  ["208 P4(2)32        Cubic", "choice: 1", "centr: false", "pcentr: 0, 0, 0", "symmetry: x,y,z", "symmetry: -x,-y,z", "symmetry: -x,y,-z", "symmetry: x,-y,-z", "symmetry: z,x,y", "symmetry: z,-x,-y", "symmetry: -z,-x,y", "symmetry: -z,x,-y", "symmetry: y,z,x", "symmetry: -y,z,-x", "symmetry: y,-z,-x", "symmetry: -y,-z,x", "symmetry: y+1/2,x+1/2,-z+1/2", "symmetry: -y+1/2,-x+1/2,-z+1/2", "symmetry: y+1/2,-x+1/2,z+1/2", "symmetry: -y+1/2,x+1/2,z+1/2", "symmetry: x+1/2,z+1/2,-y+1/2", "symmetry: -x+1/2,z+1/2,y+1/2", "symmetry: -x+1/2,-z+1/2,-y+1/2", "symmetry: x+1/2,-z+1/2,y+1/2", "symmetry: z+1/2,y+1/2,-x+1/2", "symmetry: z+1/2,-y+1/2,x+1/2", "symmetry: -z+1/2,y+1/2,x+1/2", "symmetry: -z+1/2,-y+1/2,-x+1/2", ""],
  ["209 F432           Cubic", "choice: 1", "centr: false", "pcentr: 0, 0, 0", "symmetry: x,y,z", "symmetry: -x,-y,z", "symmetry: -x,y,-z", "symmetry: x,-y,-z", "symmetry: z,x,y", "symmetry: z,-x,-y", "symmetry: -z,-x,y", "symmetry: -z,x,-y", "symmetry: y,z,x", "symmetry: -y,z,-x", "symmetry: y,-z,-x", "symmetry: -y,-z,x", "symmetry: y,x,-z", "symmetry: -y,-x,-z", "symmetry: y,-x,z", "symmetry: -y,x,z", "symmetry: x,z,-y", "symmetry: -x,z,y", "symmetry: -x,-z,-y", "symmetry: x,-z,y", "symmetry: z,y,-x", "symmetry: z,-y,x", "symmetry: -z,y,x", "symmetry: -z,-y,-x", ""]]

/-- The lines of itables.txt, one list per card, part 8. -/
def itablesBlocks8 : List (List String) := [
  ["210 F4(1)32        Cubic", "choice: 1", "centr: false", "pcentr: 0, 0, 0", "symmetry: x,y,z", "symmetry: -x,-y+1/2,z+1/2", "symmetry: -x+1/2,y+1/2,-z", "symmetry: x+1/2,-y,-z+1/2", "symmetry: z,x,y", "symmetry: z+1/2,-x,-y+1/2", "symmetry: -z,-x+1/2,y+1/2", "symmetry: -z+1/2,x+1/2,-y", "symmetry: y,z,x", "symmetry: -y+1/2,z+1/2,-x", "symmetry: y+1/2,-z,-x+1/2", "symmetry: -y,-z+1/2,x+1/2", "symmetry: y+3/4,x+1/4,-z+3/4", "symmetry: -y+1/4,-x+1/4,-z+1/4", "symmetry: y+1/4,-x+3/4,z+3/4", "symmetry: -y+3/4,x+3/4,z+1/4", "symmetry: x+3/4,z+1/4,-y+3/4", "symmetry: -x+3/4,z+3/4,y+1/4", "symmetry: -x+1/4,-z+1/4,-y+1/4", "symmetry: x+1/4,-z+3/4,y+3/4", "symmetry: z+3/4,y+1/4,-x+3/4", "symmetry: z+1/4,-y+3/4,x+3/4", "symmetry: -z+3/4,y+3/4,x+1/4", "symmetry: -z+1/4,-y+1/4,-x+1/4", ""],
  ["211 I432           Cubic", "choice: 1", "centr: false", "pcentr: 0, 0, 0", "symmetry: x,y,z", "symmetry: -x,-y,z", "symmetry: -x,y,-z", "symmetry: x,-y,-z", "symmetry: z,x,y", "symmetry: z,-x,-y", "symmetry: -z,-x,y", "symmetry: -z,x,-y", "symmetry: y,z,x", "symmetry: -y,z,-x", "symmetry: y,-z,-x", "symmetry: -y,-z,x", "symmetry: y,x,-z", "symmetry: -y,-x,-z", "symmetry: y,-x,z", "symmetry: -y,x,z", "symmetry: x,z,-y", "symmetry: -x,z,y", "symmetry: -x,-z,-y", "symmetry: x,-z,y", "symmetry: z,y,-x", "symmetry: z,-y,x", "symmetry: -z,y,x", "symmetry: -z,-y,-x", ""],
  ["212 P4(3)32        Cubic", "choice: 1", "centr: false", "pcentr: 0, 0, 0", "symmetry: x,y,z", "symmetry: -x+1/2,-y,z+1/2", "symmetry: -x,y+1/2,-z+1/2", "symmetry: x+1/2,-y+1/2,-z", "symmetry: z,x,y", "symmetry: z+1/2,-x+1/2,-y", "symmetry: -z+1/2,-x,y+1/2", "symmetry: -z,x+1/2,-y+1/2", "symmetry: y,z,x", "symmetry: -y,z+1/2,-x+1/2", "symmetry: y+1/2,-z+1/2,-x", "symmetry: -y+1/2,-z,x+1/2", "symmetry: y+1/4,x+3/4,-z+3/4", "symmetry: -y+1/4,-x+1/4,-z+1/4", "symmetry: y+3/4,-x+3/4,z+1/4", "symmetry: -y+3/4,x+1/4,z+3/4", "symmetry: x+1/4,z+3/4,-y+3/4", "symmetry: -x+3/4,z+1/4,y+3/4", "symmetry: -x+1/4,-z+1/4,-y+1/4", "symmetry: x+3/4,-z+3/4,y+1/4", "symmetry: z+1/4,y+3/4,-x+3/4", "symmetry: z+3/4,-y+3/4,x+1/4", "symmetry: -z+3/4,y+1/4,x+3/4", "symmetry: -z+1/4,-y+1/4,-x+1/4", ""],
  ["213 P4(1)32        Cubic", "choice: 1", "centr: false", "pcentr: 0, 0, 0", "symmetry: x,y,z", "symmetry: -x+1/2,-y,z+1/2", "symmetry: -x,y+1/2,-z+1/2", "symmetry: x+1/2,-y+1/2,-z", "symmetry: z,x,y", "symmetry: z+1/2,-x+1/2,-y", "symmetry: -z+1/2,-x,y+1/2", "symmetry: -z,x+1/2,-y+1/2", "symmetry: y,z,x", "symmetry: -y,z+1/2,-x+1/2", "symmetry: y+1/2,-z+1/2,-x", "symmetry: -y+1/2,-z,x+1/2", "symmetry: y+3/4,x+1/4,-z+1/4", "symmetry: -y+3/4,-x+3/4,-z+3/4", "symmetry: y+1/4,-x+1/4,z+3/4", "symmetry: -y+1/4,x+3/4,z+1/4", "symmetry: x+3/4,z+1/4,-y+1/4", "symmetry: -x+1/4,z+3/4,y+1/4", "symmetry: -x+3/4,-z+3/4,-y+3/4", "symmetry: x+1/4,-z+1/4,y+3/4", "symmetry: z+3/4,y+1/4,-x+1/4", "symmetry: z+1/4,-y+1/4,x+3/4", "symmetry: -z+1/4,y+3/4,x+1/4", "symmetry: -z+3/4,-y+3/4,-x+3/4", ""],
  ["214 I4(1)32        Cubic", "choice: 1", "centr: false", "pcentr: 0, 0, 0", "symmetry: x,y,z", "symmetry: -x+1/2,-y,z+1/2", "symmetry: -x,y+1/2,-z+1/2", "symmetry: x+1/2,-y+1/2,-z", "symmetry: z,x,y", "symmetry: z+1/2,-x+1/2,-y", "symmetry: -z+1/2,-x,y+1/2", "symmetry: -z,x+1/2,-y+1/2", "symmetry: y,z,x", "symmetry: -y,z+1/2,-x+1/2", "symmetry: y+1/2,-z+1/2,-x", "symmetry: -y+1/2,-z,x+1/2", "symmetry: y+3/4,x+1/4,-z+1/4", "symmetry: -y+3/4,-x+3/4,-z+3/4", "symmetry: y+1/4,-x+1/4,z+3/4", "symmetry: -y+1/4,x+3/4,z+1/4", "symmetry: x+3/4,z+1/4,-y+1/4", "symmetry: -x+1/4,z+3/4,y+1/4", "symmetry: -x+3/4,-z+3/4,-y+3/4", "symmetry: x+1/4,-z+1/4,y+3/4", "symmetry: z+3/4,y+1/4,-x+1/4", "symmetry: z+1/4,-y+1/4,x+3/4", "symmetry: -z+1/4,y+3/4,x+1/4", "symmetry: -z+3/4,-y+3/4,-x+3/4", ""],
  ["215 P-43m          Cubic", "choice: 1", "centr: false", "pcentr: 0, 0, 0", "symmetry: x,y,z", "symmetry: -x,-y,z", "symmetry: -x,y,-z", "symmetry: x,-y,-z", "symmetry: z,x,y", "symmetry: z,-x,-y", "symmetry: -z,-x,y", "symmetry: -z,x,-y", "symmetry: y,z,x", "symmetry: -y,z,-x", "symmetry: y,-z,-x", "symmetry: -y,-z,x", "symmetry: y,x,z", "symmetry: -y,-x,z", "symmetry: y,-x,-z", "symmetry: -y,x,-z", "symmetry: x,z,y", "symmetry: -x,z,-y", "symmetry: -x,-z,y", "symmetry: x,-z,-y", "symmetry: z,y,x", "symmetry: z,-y,-x", "symmetry: -z,y,-x", "symmetry: -z,-y,x", ""],
  ["216 F4-3m          Cubic", "choice: 1", "centr: false", "pcentr: 0, 0, 0", "symmetry: x,y,z", "symmetry: -x,-y,z", "symmetry: -x,y,-z", "symmetry: x,-y,-z", "symmetry: z,x,y", "symmetry: z,-x,-y", "symmetry: -z,-x,y", "symmetry: -z,x,-y", "symmetry: y,z,x", "symmetry: -y,z,-x", "symmetry: y,-z,-x", "symmetry: -y,-z,x", "symmetry: y,x,z", "symmetry: -y,-x,z", "symmetry: y,-x,-z", "symmetry: -y,x,-z", "symmetry: x,z,y", "symmetry: -x,z,-y", "symmetry: -x,-z,y", "symmetry: x,-z,-y", "symmetry: z,y,x", "symmetry: z,-y,-x", "symmetry: -z,y,-x", "symmetry: -z,-y,x", ""],
  ["217 I-43m          Cubic", "choice: 1", "centr: false", "pcentr: 0, 0, 0", "symmetry: x,y,z", "symmetry: -x,-y,z", "symmetry: -x,y,-z", "symmetry: x,-y,-z", "symmetry: z,x,y", "symmetry: z,-x,-y", "symmetry: -z,-x,y", "symmetry: -z,x,-y", "symmetry: y,z,x", "symmetry: -y,z,-x", "symmetry: y,-z,-x", "symmetry: -y,-z,x", "symmetry: y,x,z", "symmetry: -y,-x,z", "symmetry: y,-x,-z", "symmetry: -y,x,-z", "symmetry: x,z,y", "symmetry: -x,z,-y", "symmetry: -x,-z,y", "symmetry: x,-z,-y", "symmetry: z,y,x", "symmetry: z,-y,-x", "symmetry: -z,y,-x", "symmetry: -z,-y,x", ""]]

/-- The lines of itables.txt, one list per card, part 9. -/
def itablesBlocks9 : List (List String) := [
  ["218 P-43n          Cubic", "choice: 1", "centr: false", "pcentr: 0, 0, 0", "symmetry: x,y,z", "symmetry: -x,-y,z", "symmetry: -x,y,-z", "symmetry: x,-y,-z", "symmetry: z,x,y", "symmetry: z,-x,-y", "symmetry: -z,-x,y", "symmetry: -z,x,-y", "symmetry: y,z,x", "symmetry: -y,z,-x", "symmetry: y,-z,-x", "symmetry: -y,-z,x", "symmetry: y+1/2,x+1/2,z+1/2", "symmetry: -y+1/2,-x+1/2,z+1/2", "symmetry: y+1/2,-x+1/2,-z+1/2", "symmetry: -y+1/2,x+1/2,-z+1/2", "symmetry: x+1/2,z+1/2,y+1/2", "symmetry: -x+1/2,z+1/2,-y+1/2", "symmetry: -x+1/2,-z+1/2,y+1/2", "symmetry: x+1/2,-z+1/2,-y+1/2", "symmetry: z+1/2,y+1/2,x+1/2", "symmetry: z+1/2,-y+1/2,-x+1/2", "symmetry: -z+1/2,y+1/2,-x+1/2", "symmetry: -z+1/2,-y+1/2,x+1/2", ""],
  ["219 F-43c          Cubic", "choice: 1", "centr: false", "pcentr: 0, 0, 0", "symmetry: x,y,z", "symmetry: -x,-y,z", "symmetry: -x,y,-z", "symmetry: x,-y,-z", "symmetry: z,x,y", "symmetry: z,-x,-y", "symmetry: -z,-x,y", "symmetry: -z,x,-y", "symmetry: y,z,x", "symmetry: -y,z,-x", "symmetry: y,-z,-x", "symmetry: -y,-z,x", "symmetry: y+1/2,x+1/2,z+1/2", "symmetry: -y+1/2,-x+1/2,z+1/2", "symmetry: y+1/2,-x+1/2,-z+1/2", "symmetry: -y+1/2,x+1/2,-z+1/2", "symmetry: x+1/2,z+1/2,y+1/2", "symmetry: -x+1/2,z+1/2,-y+1/2", "symmetry: -x+1/2,-z+1/2,y+1/2", "symmetry: x+1/2,-z+1/2,-y+1/2", "symmetry: z+1/2,y+1/2,x+1/2", "symmetry: z+1/2,-y+1/2,-x+1/2", "symmetry: -z+1/2,y+1/2,-x+1/2", "symmetry: -z+1/2,-y+1/2,x+1/2", ""],
  ["220 I-43d          Cubic", "choice: 1", "centr: false", "pcentr: 0, 0, 0", "symmetry: x,y,z", "symmetry: -x+1/2,-y,z+1/2", "symmetry: -x,y+1/2,-z+1/2", "symmetry: x+1/2,-y+1/2,-z", "symmetry: z,x,y", "symmetry: z+1/2,-x+1/2,-y", "symmetry: -z+1/2,-x,y+1/2", "symmetry: -z,x+1/2,-y+1/2", "symmetry: y,z,x", "symmetry: -y,z+1/2,-x+1/2", "symmetry: y+1/2,-z+1/2,-x", "symmetry: -y+1/2,-z,x+1/2", "symmetry: y+1/4,x+1/4,z+1/4", "symmetry: -y+1/4,-x+3/4,z+3/4", "symmetry: y+3/4,-x+1/4,-z+3/4", "symmetry: -y+3/4,x+3/4,-z+1/4", "symmetry: x+1/4,z+1/4,y+1/4", "symmetry: -x+3/4,z+3/4,-y+1/4", "symmetry: -x+1/4,-z+3/4,y+3/4", "symmetry: x+3/4,-z+1/4,-y+3/4", "symmetry: z+1/4,y+1/4,x+1/4", "symmetry: z+3/4,-y+1/4,-x+3/4", "symmetry: -z+3/4,y+3/4,-x+1/4", "symmetry: -z+1/4,-y+3/4,x+3/4", ""],
  ["221 Pm-3m          Cubic", "choice: 1", "centr: true", "pcentr: 0, 0, 0", "symmetry: x,y,z", "symmetry: -x,-y,z", "symmetry: -x,y,-z", "symmetry: x,-y,-z", "symmetry: z,x,y", "symmetry: z,-x,-y", "symmetry: -z,-x,y", "symmetry: -z,x,-y", "symmetry: y,z,x", "symmetry: -y,z,-x", "symmetry: y,-z,-x", "symmetry: -y,-z,x", "symmetry: y,x,-z", "symmetry: -y,-x,-z", "symmetry: y,-x,z", "symmetry: -y,x,z", "symmetry: x,z,-y", "symmetry: -x,z,y", "symmetry: -x,-z,-y", "symmetry: x,-z,y", "symmetry: z,y,-x", "symmetry: z,-y,x", "symmetry: -z,y,x", "symmetry: -z,-y,-x", ""],
  ["222 Pn-3n          Cubic", "choice: 1", "centr: true", "pcentr: -0.25, -0.25, -0.25", "symmetry: x,y,z", "symmetry: -x,-y,z", "symmetry: -x,y,-z", "symmetry: x,-y,-z", "symmetry: z,x,y", "symmetry: z,-x,-y", "symmetry: -z,-x,y", "symmetry: -z,x,-y", "symmetry: y,z,x", "symmetry: -y,z,-x", "symmetry: y,-z,-x", "symmetry: -y,-z,x", "symmetry: y,x,-z", "symmetry: -y,-x,-z", "symmetry: y,-x,z", "symmetry: -y,x,z", "symmetry: x,z,-y", "symmetry: -x,z,y", "symmetry: -x,-z,-y", "symmetry: x,-z,y", "symmetry: z,y,-x", "symmetry: z,-y,x", "symmetry: -z,y,x", "symmetry: -z,-y,-x", ""],
  ["222 Pn-3n          Cubic", "choice: 2", "centr: true", "pcentr: 0, 0, 0", "symmetry: x,y,z", "symmetry: -x+1/2,-y+1/2,z", "symmetry: -x+1/2,y,-z+1/2", "symmetry: x,-y+1/2,-z+1/2", "symmetry: z,x,y", "symmetry: z,-x+1/2,-y+1/2", "symmetry: -z+1/2,-x+1/2,y", "symmetry: -z+1/2,x,-y+1/2", "symmetry: y,z,x", "symmetry: -y+1/2,z,-x+1/2", "symmetry: y,-z+1/2,-x+1/2", "symmetry: -y+1/2,-z+1/2,x", "symmetry: y,x,-z+1/2", "symmetry: -y+1/2,-x+1/2,-z+1/2", "symmetry: y,-x+1/2,z", "symmetry: -y+1/2,x,z", "symmetry: x,z,-y+1/2", "symmetry: -x+1/2,z,y", "symmetry: -x+1/2,-z+1/2,-y+1/2", "symmetry: x,-z+1/2,y", "symmetry: z,y,-x+1/2", "symmetry: z,-y+1/2,x", "symmetry: -z+1/2,y,x", "symmetry: -z+1/2,-y+1/2,-x+1/2", ""],
  ["223 Pm-3n          Cubic", "choice: 1", "centr: true", "pcentr: 0, 0, 0", "symmetry: x,y,z", "symmetry: -x,-y,z", "symmetry: -x,y,-z", "symmetry: x,-y,-z", "symmetry: z,x,y", "symmetry: z,-x,-y", "symmetry: -z,-x,y", "symmetry: -z,x,-y", "symmetry: y,z,x", "symmetry: -y,z,-x", "symmetry: y,-z,-x", "symmetry: -y,-z,x", "symmetry: y+1/2,x+1/2,-z+1/2", "symmetry: -y+1/2,-x+1/2,-z+1/2", "symmetry: y+1/2,-x+1/2,z+1/2", "symmetry: -y+1/2,x+1/2,z+1/2", "symmetry: x+1/2,z+1/2,-y+1/2", "symmetry: -x+1/2,z+1/2,y+1/2", "symmetry: -x+1/2,-z+1/2,-y+1/2", "symmetry: x+1/2,-z+1/2,y+1/2", "symmetry: z+1/2,y+1/2,-x+1/2", "symmetry: z+1/2,-y+1/2,x+1/2", "symmetry: -z+1/2,y+1/2,x+1/2", "symmetry: -z+1/2,-y+1/2,-x+1/2", ""],
  ["224 Pn-3m          Cubic", "choice: 1", "centr: true", "pcentr: -0.25, -0.25, -0.25", "symmetry: x,y,z", "symmetry: -x,-y,z", "symmetry: -x,y,-z", "symmetry: x,-y,-z", "symmetry: z,x,y", "symmetry: z,-x,-y", "symmetry: -z,-x,y", "symmetry: -z,x,-y", "symmetry: y,z,x", "symmetry: -y,z,-x", "symmetry: y,-z,-x", "symmetry: -y,-z,x", "symmetry: -y,-x,z", "symmetry: y,x,z", "symmetry: -y,x,-z", "symmetry: y,-x,-z", "symmetry: -x,-z,y", "symmetry: x,-z,-y", "symmetry: x,z,y", "symmetry: -x,z,-y", "symmetry: -z,-y,x", "symmetry: -z,y,-x", "symmetry: z,-y,-x", "symmetry: z,y,x", ""]]

/-- The lines of itables.txt, one list per card, part 10. -/
def itablesBlocks10 : List (List String) := [
  ["224 Pn-3m          Cubic", "choice: 2", "centr: true", "pcentr: 0, 0, 0", "symmetry: x,y,z", "symmetry: -x+1/2,-y+1/2,z", "symmetry: -x+1/2,y,-z+1/2", "symmetry: x,-y+1/2,-z+1/2", "symmetry: z,x,y", "symmetry: z,-x+1/2,-y+1/2", "symmetry: -z+1/2,-x+1/2,y", "symmetry: -z+1/2,x,-y+1/2", "symmetry: y,z,x", "symmetry: -y+1/2,z,-x+1/2", "symmetry: y,-z+1/2,-x+1/2", "symmetry: -y+1/2,-z+1/2,x", "symmetry: y+1/2,x+1/2,-z", "symmetry: -y,-x,-z", "symmetry: y+1/2,-x,z+1/2", "symmetry: -y,x+1/2,z+1/2", "symmetry: x+1/2,z+1/2,-y", "symmetry: -x,z+1/2,y+1/2", "symmetry: -x,-z,-y", "symmetry: x+1/2,-z,y+1/2", "symmetry: z+1/2,y+1/2,-x", "symmetry: z+1/2,-y,x+1/2", "symmetry: -z,y+1/2,x+1/2", "symmetry: -z,-y,-x", ""],
  ["225 Fm-3m          Cubic", "choice: 1", "centr: true", "pcentr: 0, 0, 0", "symmetry: x,y,z", "symmetry: -x,-y,z", "symmetry: -x,y,-z", "symmetry: x,-y,-z", "symmetry: z,x,y", "symmetry: z,-x,-y", "symmetry: -z,-x,y", "symmetry: -z,x,-y", "symmetry: y,z,x", "symmetry: -y,z,-x", "symmetry: y,-z,-x", "symmetry: -y,-z,x", "symmetry: y,x,-z", "symmetry: -y,-x,-z", "symmetry: y,-x,z", "symmetry: -y,x,z", "symmetry: x,z,-y", "symmetry: -x,z,y", "symmetry: -x,-z,-y", "symmetry: x,-z,y", "symmetry: z,y,-x", "symmetry: z,-y,x", "symmetry: -z,y,x", "symmetry: -z,-y,-x", ""],
  ["226 Fm-3c          Cubic", "choice: 1", "centr: true", "pcentr: 0, 0, 0", "symmetry: x,y,z", "symmetry: -x,-y,z", "symmetry: -x,y,-z", "symmetry: x,-y,-z", "symmetry: z,x,y", "symmetry: z,-x,-y", "symmetry: -z,-x,y", "symmetry: -z,x,-y", "symmetry: y,z,x", "symmetry: -y,z,-x", "symmetry: y,-z,-x", "symmetry: -y,-z,x", "symmetry: y+1/2,x+1/2,-z+1/2", "symmetry: -y+1/2,-x+1/2,-z+1/2", "symmetry: y+1/2,-x+1/2,z+1/2", "symmetry: -y+1/2,x+1/2,z+1/2", "symmetry: x+1/2,z+1/2,-y+1/2", "symmetry: -x+1/2,z+1/2,y+1/2", "symmetry: -x+1/2,-z+1/2,-y+1/2", "symmetry: x+1/2,-z+1/2,y+1/2", "symmetry: z+1/2,y+1/2,-x+1/2", "symmetry: z+1/2,-y+1/2,x+1/2", "symmetry: -z+1/2,y+1/2,x+1/2", "symmetry: -z+1/2,-y+1/2,-x+1/2", ""],
  ["227 Fd-3m          Cubic", "choice: 1", "centr: true", "pcentr: -0.125, -0.125, -0.125", "symmetry: x,y,z", "symmetry: -x,-y+1/2,z+1/2", "symmetry: -x+1/2,y+1/2,-z", "symmetry: x+1/2,-y,-z+1/2", "symmetry: z,x,y", "symmetry: z+1/2,-x,-y+1/2", "symmetry: -z,-x+1/2,y+1/2", "symmetry: -z+1/2,x+1/2,-y", "symmetry: y,z,x", "symmetry: -y+1/2,z+1/2,-x", "symmetry: y+1/2,-z,-x+1/2", "symmetry: -y,-z+1/2,x+1/2", "symmetry: y+3/4,x+1/4,-z+3/4", "symmetry: -y+1/4,-x+1/4,-z+1/4", "symmetry: y+1/4,-x+3/4,z+3/4", "symmetry: -y+3/4,x+3/4,z+1/4", "symmetry: x+3/4,z+1/4,-y+3/4", "symmetry: -x+3/4,z+3/4,y+1/4", "symmetry: -x+1/4,-z+1/4,-y+1/4", "symmetry: x+1/4,-z+3/4,y+3/4", "symmetry: z+3/4,y+1/4,-x+3/4", "symmetry: z+1/4,-y+3/4,x+3/4", "symmetry: -z+3/4,y+3/4,x+1/4", "symmetry: -z+1/4,-y+1/4,-x+1/4", ""],
  ["227 Fd-3m          Cubic", "choice: 2", "centr: true", "pcentr: 0, 0, 0", "symmetry: x,y,z", "symmetry: -x+3/4,-y+1/4,z+1/2", "symmetry: -x+1/4,y+1/2,-z+3/4", "symmetry: x+1/2,-y+3/4,-z+1/4", "symmetry: z,x,y", "symmetry: z+1/2,-x+3/4,-y+1/4", "symmetry: -z+3/4,-x+1/4,y+1/2", "symmetry: -z+1/4,x+1/2,-y+3/4", "symmetry: y,z,x", "symmetry: -y+1/4,z+1/2,-x+3/4", "symmetry: y+1/2,-z+3/4,-x+1/4", "symmetry: -y+3/4,-z+1/4,x+1/2", "symmetry: y+3/4,x+1/4,-z+1/2", "symmetry: -y,-x,-z", "symmetry: y+1/4,-x+1/2,z+3/4", "symmetry: -y+1/2,x+3/4,z+1/4", "symmetry: x+3/4,z+1/4,-y+1/2", "symmetry: -x+1/2,z+3/4,y+1/4", "symmetry: -x,-z,-y", "symmetry: x+1/4,-z+1/2,y+3/4", "symmetry: z+3/4,y+1/4,-x+1/2", "symmetry: z+1/4,-y+1/2,x+3/4", "symmetry: -z+1/2,y+3/4,x+1/4", "symmetry: -z,-y,-x", ""],
  ["228 Fd-3c          Cubic", "choice: 1", "centr: true", "pcentr: -0.375, -0.375, -0.375", "symmetry: x,y,z", "symmetry: -x,-y+1/2,z+1/2", "symmetry: -x+1/2,y+1/2,-z", "symmetry: x+1/2,-y,-z+1/2", "symmetry: z,x,y", "symmetry: z+1/2,-x,-y+1/2", "symmetry: -z,-x+1/2,y+1/2", "symmetry: -z+1/2,x+1/2,-y", "symmetry: y,z,x", "symmetry: -y+1/2,z+1/2,-x", "symmetry: y+1/2,-z,-x+1/2", "symmetry: -y,-z+1/2,x+1/2", "symmetry: y+3/4,x+1/4,-z+3/4", "symmetry: -y+1/4,-x+1/4,-z+1/4", "symmetry: y+1/4,-x+3/4,z+3/4", "symmetry: -y+3/4,x+3/4,z+1/4", "symmetry: x+3/4,z+1/4,-y+3/4", "symmetry: -x+3/4,z+3/4,y+1/4", "symmetry: -x+1/4,-z+1/4,-y+1/4", "symmetry: x+1/4,-z+3/4,y+3/4", "symmetry: z+3/4,y+1/4,-x+3/4", "symmetry: z+1/4,-y+3/4,x+3/4", "symmetry: -z+3/4,y+3/4,x+1/4", "symmetry: -z+1/4,-y+1/4,-x+1/4", ""],
  ["228 Fd-3c          Cubic", "choice: 2", "centr: true", "pcentr: 0, 0, 0", "symmetry: x,y,z", "symmetry: -x+1/4,-y+3/4,z+1/2", "symmetry: -x+3/4,y+1/2,-z+1/4", "symmetry: x+1/2,-y+1/4,-z+3/4", "symmetry: z,x,y", "symmetry: z+1/2,-x+1/4,-y+3/4", "symmetry: -z+1/4,-x+3/4,y+1/2", "symmetry: -z+3/4,x+1/2,-y+1/4", "symmetry: y,z,x", "symmetry: -y+3/4,z+1/2,-x+1/4", "symmetry: y+1/2,-z+1/4,-x+3/4", "symmetry: -y+1/4,-z+3/4,x+1/2", "symmetry: y+3/4,x+1/4,-z", "symmetry: -y+1/2,-x+1/2,-z+1/2", "symmetry: y+1/4,-x,z+3/4", "symmetry: -y,x+3/4,z+1/4", "symmetry: x+3/4,z+1/4,-y", "symmetry: -x,z+3/4,y+1/4", "symmetry: -x+1/2,-z+1/2,-y+1/2", "symmetry: x+1/4,-z,y+3/4,", "symmetry: z+3/4,y+1/4,-x", "symmetry: z+1/4,-y,x+3/4", "symmetry: -z,y+3/4,x+1/4", "symmetry: -z+1/2,-y+1/2,-x+1/2", ""],
  ["229 Im-3m          Cubic", "choice: 1", "centr: true", "pcentr: 0, 0, 0", "symmetry: x,y,z", "symmetry: -x,-y,z", "symmetry: -x,y,-z", "symmetry: x,-y,-z", "symmetry: z,x,y", "symmetry: z,-x,-y", "symmetry: -z,-x,y", "symmetry: -z,x,-y", "symmetry: y,z,x", "symmetry: -y,z,-x", "symmetry: y,-z,-x", "symmetry: -y,-z,x", "symmetry: y,x,-z", "symmetry: -y,-x,-z", "symmetry: y,-x,z", "symmetry: -y,x,z", "symmetry: x,z,-y", "symmetry: -x,z,y", "symmetry: -x,-z,-y", "symmetry: x,-z,y", "symmetry: z,y,-x", "symmetry: z,-y,x", "symmetry: -z,y,x", "symmetry: -z,-y,-x", ""]]

/-- The lines of itables.txt, one list per card, part 11. -/
def itablesBlocks11 : List (List String) := [
  ["230 Ia-3d          Cubic", "choice: 1", "centr: true", "pcentr: 0, 0, 0", "symmetry: x,y,z", "symmetry: -x+1/2,-y,z+1/2", "symmetry: -x,y+1/2,-z+1/2", "symmetry: x+1/2,-y+1/2,-z", "symmetry: z,x,y", "symmetry: z+1/2,-x+1/2,-y", "symmetry: -z+1/2,-x,y+1/2", "symmetry: -z,x+1/2,-y+1/2", "symmetry: y,z,x", "symmetry: -y,z+1/2,-x+1/2", "symmetry: y+1/2,-z+1/2,-x", "symmetry: -y+1/2,-z,x+1/2", "symmetry: y+3/4,x+1/4,-z+1/4", "symmetry: -y+3/4,-x+3/4,-z+3/4", "symmetry: y+1/4,-x+1/4,z+3/4", "symmetry: -y+1/4,x+3/4,z+1/4", "symmetry: x+3/4,z+1/4,-y+1/4", "symmetry: -x+1/4,z+3/4,y+1/4", "symmetry: -x+3/4,-z+3/4,-y+3/4", "symmetry: x+1/4,-z+1/4,y+3/4", "symmetry: z+3/4,y+1/4,-x+1/4", "symmetry: z+1/4,-y+1/4,x+3/4", "symmetry: -z+1/4,y+3/4,x+1/4", "symmetry: -z+3/4,-y+3/4,-x+3/4", ""]]

/-- The lines of itables.txt, one list per card. -/
def itablesBlocks : List (List (List String)) := [itablesBlocks0, itablesBlocks1, itablesBlocks2, itablesBlocks3, itablesBlocks4, itablesBlocks5, itablesBlocks6, itablesBlocks7, itablesBlocks8, itablesBlocks9, itablesBlocks10, itablesBlocks11]

/-- The distinct operations of itables.txt, part 0. -/
def symTab0 : List (String × Option Op) := [
  ("-x+1/2,-y+1/2,z", some ⟨-1, 0, 0, 0, -1, 0, 0, 0, 1, 60, 60, 0⟩),
  ("-x+1/2,-y+1/2,z+1/2", some ⟨-1, 0, 0, 0, -1, 0, 0, 0, 1, 60, 60, 60⟩),
  ("-x+1/2,-y,z", some ⟨-1, 0, 0, 0, -1, 0, 0, 0, 1, 60, 0, 0⟩),
  ("-x+1/2,-y,z+1/2", some ⟨-1, 0, 0, 0, -1, 0, 0, 0, 1, 60, 0, 60⟩),
  ("-x+1/2,-z+1/2,-y+1/2", some ⟨-1, 0, 0, 0, 0, -1, 0, -1, 0, 60, 60, 60⟩),
  ("-x+1/2,-z+1/2,y+1/2", some ⟨-1, 0, 0, 0, 0, -1, 0, 1, 0, 60, 60, 60⟩),
  ("-x+1/2,y+1/2,-z", some ⟨-1, 0, 0, 0, 1, 0, 0, 0, -1, 60, 60, 0⟩),
  ("-x+1/2,y+1/2,-z+1/2", some ⟨-1, 0, 0, 0, 1, 0, 0, 0, -1, 60, 60, 60⟩),
  ("-x+1/2,y+1/2,-z+1/4", some ⟨-1, 0, 0, 0, 1, 0, 0, 0, -1, 60, 60, 30⟩),
  ("-x+1/2,y+1/2,-z+3/4", some ⟨-1, 0, 0, 0, 1, 0, 0, 0, -1, 60, 60, 90⟩),
  ("-x+1/2,y+1/2,z", some ⟨-1, 0, 0, 0, 1, 0, 0, 0, 1, 60, 60, 0⟩),
  ("-x+1/2,y+1/2,z+1/2", some ⟨-1, 0, 0, 0, 1, 0, 0, 0, 1, 60, 60, 60⟩),
  ("-x+1/2,y,-z", some ⟨-1, 0, 0, 0, 1, 0, 0, 0, -1, 60, 0, 0⟩),
  ("-x+1/2,y,-z+1/2", some ⟨-1, 0, 0, 0, 1, 0, 0, 0, -1, 60, 0, 60⟩),
  ("-x+1/2,y,-z+1/4", some ⟨-1, 0, 0, 0, 1, 0, 0, 0, -1, 60, 0, 30⟩),
  ("-x+1/2,y,-z+3/4", some ⟨-1, 0, 0, 0, 1, 0, 0, 0, -1, 60, 0, 90⟩),
  ("-x+1/2,y,z", some ⟨-1, 0, 0, 0, 1, 0, 0, 0, 1, 60, 0, 0⟩),
  ("-x+1/2,y,z+1/2", some ⟨-1, 0, 0, 0, 1, 0, 0, 0, 1, 60, 0, 60⟩),
  ("-x+1/2,z+1/2,-y+1/2", some ⟨-1, 0, 0, 0, 0, 1, 0, -1, 0, 60, 60, 60⟩),
  ("-x+1/2,z+1/2,y+1/2", some ⟨-1, 0, 0, 0, 0, 1, 0, 1, 0, 60, 60, 60⟩),
  ("-x+1/2,z+3/4,y+1/4", some ⟨-1, 0, 0, 0, 0, 1, 0, 1, 0, 60, 90, 30⟩),
  ("-x+1/2,z,y", some ⟨-1, 0, 0, 0, 0, 1, 0, 1, 0, 60, 0, 0⟩),
  ("-x+1/4,-y+1/4,z", some ⟨-1, 0, 0, 0, -1, 0, 0, 0, 1, 30, 30, 0⟩),
  ("-x+1/4,-y+3/4,z+1/2", some ⟨-1, 0, 0, 0, -1, 0, 0, 0, 1, 30, 90, 60⟩),
  ("-x+1/4,-z+1/4,-y+1/4", some ⟨-1, 0, 0, 0, 0, -1, 0, -1, 0, 30, 30, 30⟩),
  ("-x+1/4,-z+3/4,y+3/4", some ⟨-1, 0, 0, 0, 0, -1, 0, 1, 0, 30, 90, 90⟩),
  ("-x+1/4,y+1/2,-z+3/4", some ⟨-1, 0, 0, 0, 1, 0, 0, 0, -1, 30, 60, 90⟩),
  ("-x+1/4,y+1/4,z+1/4", some ⟨-1, 0, 0, 0, 1, 0, 0, 0, 1, 30, 30, 30⟩),
  ("-x+1/4,y,-z+1/4", some ⟨-1, 0, 0, 0, 1, 0, 0, 0, -1, 30, 0, 30⟩),
  ("-x+1/4,z+3/4,y+1/4", some ⟨-1, 0, 0, 0, 0, 1, 0, 1, 0, 30, 90, 30⟩),
  ("-x+3/4,-y+1/4,z+1/2", some ⟨-1, 0, 0, 0, -1, 0, 0, 0, 1, 90, 30, 60⟩),
  ("-x+3/4,-y+3/4,z", some ⟨-1, 0, 0, 0, -1, 0, 0, 0, 1, 90, 90, 0⟩),
  ("-x+3/4,-z+3/4,-y+3/4", some ⟨-1, 0, 0, 0, 0, -1, 0, -1, 0, 90, 90, 90⟩),
  ("-x+3/4,y+1/2,-z+1/4", some ⟨-1, 0, 0, 0, 1, 0, 0, 0, -1, 90, 60, 30⟩),
  ("-x+3/4,y,-z+3/4", some ⟨-1, 0, 0, 0, 1, 0, 0, 0, -1, 90, 0, 90⟩),
  ("-x+3/4,z+1/4,y+3/4", some ⟨-1, 0, 0, 0, 0, 1, 0, 1, 0, 90, 30, 90⟩),
  ("-x+3/4,z+3/4,-y+1/4", some ⟨-1, 0, 0, 0, 0, 1, 0, -1, 0, 90, 90, 30⟩),
  ("-x+3/4,z+3/4,y+1/4", some ⟨-1, 0, 0, 0, 0, 1, 0, 1, 0, 90, 90, 30⟩),
  ("-x+y,-x,-z", some ⟨-1, 1, 0, -1, 0, 0, 0, 0, -1, 0, 0, 0⟩),
  ("-x+y,-x,-z+1/2", some ⟨-1, 1, 0, -1, 0, 0, 0, 0, -1, 0, 0, 60⟩),
  ("-x+y,-x,z", some ⟨-1, 1, 0, -1, 0, 0, 0, 0, 1, 0, 0, 0⟩),
  ("-x+y,-x,z+1/3", some ⟨-1, 1, 0, -1, 0, 0, 0, 0, 1, 0, 0, 40⟩),
  ("-x+y,-x,z+2/3", some ⟨-1, 1, 0, -1, 0, 0, 0, 0, 1, 0, 0, 80⟩),
  ("-x+y,y,-z", some ⟨-1, 1, 0, 0, 1, 0, 0, 0, -1, 0, 0, 0⟩),
  ("-x+y,y,-z+1/2", some ⟨-1, 1, 0, 0, 1, 0, 0, 0, -1, 0, 0, 60⟩),
  ("-x+y,y,-z+1/3", some ⟨-1, 1, 0, 0, 1, 0, 0, 0, -1, 0, 0, 40⟩),
  ("-x+y,y,-z+2/3", some ⟨-1, 1, 0, 0, 1, 0, 0, 0, -1, 0, 0, 80⟩),
  ("-x+y,y,z", some ⟨-1, 1, 0, 0, 1, 0, 0, 0, 1, 0, 0, 0⟩),
  ("-x+y,y,z+1/2", some ⟨-1, 1, 0, 0, 1, 0, 0, 0, 1, 0, 0, 60⟩),
  ("-x,-x+y,-z", some ⟨-1, 0, 0, -1, 1, 0, 0, 0, -1, 0, 0, 0⟩),
  ("-x,-x+y,-z+1/2", some ⟨-1, 0, 0, -1, 1, 0, 0, 0, -1, 0, 0, 60⟩),
  ("-x,-x+y,-z+1/3", some ⟨-1, 0, 0, -1, 1, 0, 0, 0, -1, 0, 0, 40⟩),
  ("-x,-x+y,-z+2/3", some ⟨-1, 0, 0, -1, 1, 0, 0, 0, -1, 0, 0, 80⟩),
  ("-x,-x+y,z", some ⟨-1, 0, 0, -1, 1, 0, 0, 0, 1, 0, 0, 0⟩),
  ("-x,-x+y,z+1/2", some ⟨-1, 0, 0, -1, 1, 0, 0, 0, 1, 0, 0, 60⟩),
  ("-x,-y+1/2,z", some ⟨-1, 0, 0, 0, -1, 0, 0, 0, 1, 0, 60, 0⟩),
  ("-x,-y+1/2,z+1/2", some ⟨-1, 0, 0, 0, -1, 0, 0, 0, 1, 0, 60, 60⟩),
  ("-x,-y,1/2+z", some ⟨-1, 0, 0, 0, -1, 0, 0, 0, 1, 0, 0, 60⟩),
  ("-x,-y,z", some ⟨-1, 0, 0, 0, -1, 0, 0, 0, 1, 0, 0, 0⟩),
  ("-x,-y,z+1/2", some ⟨-1, 0, 0, 0, -1, 0, 0, 0, 1, 0, 0, 60⟩)]

/-- The distinct operations of itables.txt, part 1. -/
def symTab1 : List (String × Option Op) := [
  ("-x,-z,-y", some ⟨-1, 0, 0, 0, 0, -1, 0, -1, 0, 0, 0, 0⟩),
  ("-x,-z,y", some ⟨-1, 0, 0, 0, 0, -1, 0, 1, 0, 0, 0, 0⟩),
  ("-x,1/2+y,-z", some ⟨-1, 0, 0, 0, 1, 0, 0, 0, -1, 0, 60, 0⟩),
  ("-x,1/2+y,1/2-z", some ⟨-1, 0, 0, 0, 1, 0, 0, 0, -1, 0, 60, 60⟩),
  ("-x,y+1/2,-z", some ⟨-1, 0, 0, 0, 1, 0, 0, 0, -1, 0, 60, 0⟩),
  ("-x,y+1/2,-z+1/2", some ⟨-1, 0, 0, 0, 1, 0, 0, 0, -1, 0, 60, 60⟩),
  ("-x,y+1/2,z", some ⟨-1, 0, 0, 0, 1, 0, 0, 0, 1, 0, 60, 0⟩),
  ("-x,y+1/2,z+1/2", some ⟨-1, 0, 0, 0, 1, 0, 0, 0, 1, 0, 60, 60⟩),
  ("-x,y,-z", some ⟨-1, 0, 0, 0, 1, 0, 0, 0, -1, 0, 0, 0⟩),
  ("-x,y,-z+1/2", some ⟨-1, 0, 0, 0, 1, 0, 0, 0, -1, 0, 0, 60⟩),
  ("-x,y,1/2-z", some ⟨-1, 0, 0, 0, 1, 0, 0, 0, -1, 0, 0, 60⟩),
  ("-x,y,z", some ⟨-1, 0, 0, 0, 1, 0, 0, 0, 1, 0, 0, 0⟩),
  ("-x,y,z+1/2", some ⟨-1, 0, 0, 0, 1, 0, 0, 0, 1, 0, 0, 60⟩),
  ("-x,z+1/2,y+1/2", some ⟨-1, 0, 0, 0, 0, 1, 0, 1, 0, 0, 60, 60⟩),
  ("-x,z+3/4,y+1/4", some ⟨-1, 0, 0, 0, 0, 1, 0, 1, 0, 0, 90, 30⟩),
  ("-x,z,-y", some ⟨-1, 0, 0, 0, 0, 1, 0, -1, 0, 0, 0, 0⟩),
  ("-x,z,y", some ⟨-1, 0, 0, 0, 0, 1, 0, 1, 0, 0, 0, 0⟩),
  ("-y+1/2,-x+1/2,-z", some ⟨0, -1, 0, -1, 0, 0, 0, 0, -1, 60, 60, 0⟩),
  ("-y+1/2,-x+1/2,-z+1/2", some ⟨0, -1, 0, -1, 0, 0, 0, 0, -1, 60, 60, 60⟩),
  ("-y+1/2,-x+1/2,z", some ⟨0, -1, 0, -1, 0, 0, 0, 0, 1, 60, 60, 0⟩),
  ("-y+1/2,-x+1/2,z+1/2", some ⟨0, -1, 0, -1, 0, 0, 0, 0, 1, 60, 60, 60⟩),
  ("-y+1/2,-x,z+3/4", some ⟨0, -1, 0, -1, 0, 0, 0, 0, 1, 60, 0, 90⟩),
  ("-y+1/2,-z+1/2,x", some ⟨0, -1, 0, 0, 0, -1, 1, 0, 0, 60, 60, 0⟩),
  ("-y+1/2,-z,x+1/2", some ⟨0, -1, 0, 0, 0, -1, 1, 0, 0, 60, 0, 60⟩),
  ("-y+1/2,x+1/2,-z+1/2", some ⟨0, -1, 0, 1, 0, 0, 0, 0, -1, 60, 60, 60⟩),
  ("-y+1/2,x+1/2,z", some ⟨0, -1, 0, 1, 0, 0, 0, 0, 1, 60, 60, 0⟩),
  ("-y+1/2,x+1/2,z+1/2", some ⟨0, -1, 0, 1, 0, 0, 0, 0, 1, 60, 60, 60⟩),
  ("-y+1/2,x+1/2,z+1/4", some ⟨0, -1, 0, 1, 0, 0, 0, 0, 1, 60, 60, 30⟩),
  ("-y+1/2,x+1/2,z+3/4", some ⟨0, -1, 0, 1, 0, 0, 0, 0, 1, 60, 60, 90⟩),
  ("-y+1/2,x+3/4,z+1/4", some ⟨0, -1, 0, 1, 0, 0, 0, 0, 1, 60, 90, 30⟩),
  ("-y+1/2,x,z", some ⟨0, -1, 0, 1, 0, 0, 0, 0, 1, 60, 0, 0⟩),
  ("-y+1/2,x,z+1/2", some ⟨0, -1, 0, 1, 0, 0, 0, 0, 1, 60, 0, 60⟩),
  ("-y+1/2,z+1/2,-x", some ⟨0, -1, 0, 0, 0, 1, -1, 0, 0, 60, 60, 0⟩),
  ("-y+1/2,z,-x+1/2", some ⟨0, -1, 0, 0, 0, 1, -1, 0, 0, 60, 0, 60⟩),
  ("-y+1/4,-x+1/4,-z+1/4", some ⟨0, -1, 0, -1, 0, 0, 0, 0, -1, 30, 30, 30⟩),
  ("-y+1/4,-x+1/4,-z+3/4", some ⟨0, -1, 0, -1, 0, 0, 0, 0, -1, 30, 30, 90⟩),
  ("-y+1/4,-x+3/4,z+3/4", some ⟨0, -1, 0, -1, 0, 0, 0, 0, 1, 30, 90, 90⟩),
  ("-y+1/4,-z+1/4,x", some ⟨0, -1, 0, 0, 0, -1, 1, 0, 0, 30, 30, 0⟩),
  ("-y+1/4,-z+3/4,x+1/2", some ⟨0, -1, 0, 0, 0, -1, 1, 0, 0, 30, 90, 60⟩),
  ("-y+1/4,x+3/4,z+1/4", some ⟨0, -1, 0, 1, 0, 0, 0, 0, 1, 30, 90, 30⟩),
  ("-y+1/4,z+1/2,-x+3/4", some ⟨0, -1, 0, 0, 0, 1, -1, 0, 0, 30, 60, 90⟩),
  ("-y+1/4,z,-x+1/4", some ⟨0, -1, 0, 0, 0, 1, -1, 0, 0, 30, 0, 30⟩),
  ("-y+3/4,-x+3/4,-z+3/4", some ⟨0, -1, 0, -1, 0, 0, 0, 0, -1, 90, 90, 90⟩),
  ("-y+3/4,-z+1/4,x+1/2", some ⟨0, -1, 0, 0, 0, -1, 1, 0, 0, 90, 30, 60⟩),
  ("-y+3/4,x+1/4,z+1/4", some ⟨0, -1, 0, 1, 0, 0, 0, 0, 1, 90, 30, 30⟩),
  ("-y+3/4,x+1/4,z+3/4", some ⟨0, -1, 0, 1, 0, 0, 0, 0, 1, 90, 30, 90⟩),
  ("-y+3/4,x+3/4,-z+1/4", some ⟨0, -1, 0, 1, 0, 0, 0, 0, -1, 90, 90, 30⟩),
  ("-y+3/4,x+3/4,z+1/4", some ⟨0, -1, 0, 1, 0, 0, 0, 0, 1, 90, 90, 30⟩),
  ("-y+3/4,z+1/2,-x+1/4", some ⟨0, -1, 0, 0, 0, 1, -1, 0, 0, 90, 60, 30⟩),
  ("-y,-x+1/2,z+1/4", some ⟨0, -1, 0, -1, 0, 0, 0, 0, 1, 0, 60, 30⟩),
  ("-y,-x+1/2,z+3/4", some ⟨0, -1, 0, -1, 0, 0, 0, 0, 1, 0, 60, 90⟩),
  ("-y,-x,-z", some ⟨0, -1, 0, -1, 0, 0, 0, 0, -1, 0, 0, 0⟩),
  ("-y,-x,-z+1/2", some ⟨0, -1, 0, -1, 0, 0, 0, 0, -1, 0, 0, 60⟩),
  ("-y,-x,-z+1/3", some ⟨0, -1, 0, -1, 0, 0, 0, 0, -1, 0, 0, 40⟩),
  ("-y,-x,-z+1/4", some ⟨0, -1, 0, -1, 0, 0, 0, 0, -1, 0, 0, 30⟩),
  ("-y,-x,-z+1/6", some ⟨0, -1, 0, -1, 0, 0, 0, 0, -1, 0, 0, 20⟩),
  ("-y,-x,-z+2/3", some ⟨0, -1, 0, -1, 0, 0, 0, 0, -1, 0, 0, 80⟩),
  ("-y,-x,-z+3/4", some ⟨0, -1, 0, -1, 0, 0, 0, 0, -1, 0, 0, 90⟩),
  ("-y,-x,-z+5/6", some ⟨0, -1, 0, -1, 0, 0, 0, 0, -1, 0, 0, 100⟩),
  ("-y,-x,z", some ⟨0, -1, 0, -1, 0, 0, 0, 0, 1, 0, 0, 0⟩)]

/-- The distinct operations of itables.txt, part 2. -/
def symTab2 : List (String × Option Op) := [
  ("-y,-x,z+1/2", some ⟨0, -1, 0, -1, 0, 0, 0, 0, 1, 0, 0, 60⟩),
  ("-y,-z+1/2,x+1/2", some ⟨0, -1, 0, 0, 0, -1, 1, 0, 0, 0, 60, 60⟩),
  ("-y,-z,x", some ⟨0, -1, 0, 0, 0, -1, 1, 0, 0, 0, 0, 0⟩),
  ("-y,x+1/2,z+1/2", some ⟨0, -1, 0, 1, 0, 0, 0, 0, 1, 0, 60, 60⟩),
  ("-y,x+1/2,z+1/4", some ⟨0, -1, 0, 1, 0, 0, 0, 0, 1, 0, 60, 30⟩),
  ("-y,x+3/4,z+1/4", some ⟨0, -1, 0, 1, 0, 0, 0, 0, 1, 0, 90, 30⟩),
  ("-y,x,-z", some ⟨0, -1, 0, 1, 0, 0, 0, 0, -1, 0, 0, 0⟩),
  ("-y,x,z", some ⟨0, -1, 0, 1, 0, 0, 0, 0, 1, 0, 0, 0⟩),
  ("-y,x,z+1/2", some ⟨0, -1, 0, 1, 0, 0, 0, 0, 1, 0, 0, 60⟩),
  ("-y,x,z+1/4", some ⟨0, -1, 0, 1, 0, 0, 0, 0, 1, 0, 0, 30⟩),
  ("-y,x,z+3/4", some ⟨0, -1, 0, 1, 0, 0, 0, 0, 1, 0, 0, 90⟩),
  ("-y,x-y,-z", some ⟨0, -1, 0, 1, -1, 0, 0, 0, -1, 0, 0, 0⟩),
  ("-y,x-y,-z+1/2", some ⟨0, -1, 0, 1, -1, 0, 0, 0, -1, 0, 0, 60⟩),
  ("-y,x-y,z", some ⟨0, -1, 0, 1, -1, 0, 0, 0, 1, 0, 0, 0⟩),
  ("-y,x-y,z+1/3", some ⟨0, -1, 0, 1, -1, 0, 0, 0, 1, 0, 0, 40⟩),
  ("-y,x-y,z+2/3", some ⟨0, -1, 0, 1, -1, 0, 0, 0, 1, 0, 0, 80⟩),
  ("-y,z+1/2,-x+1/2", some ⟨0, -1, 0, 0, 0, 1, -1, 0, 0, 0, 60, 60⟩),
  ("-y,z,-x", some ⟨0, -1, 0, 0, 0, 1, -1, 0, 0, 0, 0, 0⟩),
  ("-z+1/2,-x+1/2,y", some ⟨0, 0, -1, -1, 0, 0, 0, 1, 0, 60, 60, 0⟩),
  ("-z+1/2,-x,y+1/2", some ⟨0, 0, -1, -1, 0, 0, 0, 1, 0, 60, 0, 60⟩),
  ("-z+1/2,-y+1/2,-x+1/2", some ⟨0, 0, -1, 0, -1, 0, -1, 0, 0, 60, 60, 60⟩),
  ("-z+1/2,-y+1/2,x+1/2", some ⟨0, 0, -1, 0, -1, 0, 1, 0, 0, 60, 60, 60⟩),
  ("-z+1/2,x+1/2,-y", some ⟨0, 0, -1, 1, 0, 0, 0, -1, 0, 60, 60, 0⟩),
  ("-z+1/2,x,-y+1/2", some ⟨0, 0, -1, 1, 0, 0, 0, -1, 0, 60, 0, 60⟩),
  ("-z+1/2,y+1/2,-x+1/2", some ⟨0, 0, -1, 0, 1, 0, -1, 0, 0, 60, 60, 60⟩),
  ("-z+1/2,y+1/2,x+1/2", some ⟨0, 0, -1, 0, 1, 0, 1, 0, 0, 60, 60, 60⟩),
  ("-z+1/2,y+3/4,x+1/4", some ⟨0, 0, -1, 0, 1, 0, 1, 0, 0, 60, 90, 30⟩),
  ("-z+1/2,y,x", some ⟨0, 0, -1, 0, 1, 0, 1, 0, 0, 60, 0, 0⟩),
  ("-z+1/4,-x+1/4,y", some ⟨0, 0, -1, -1, 0, 0, 0, 1, 0, 30, 30, 0⟩),
  ("-z+1/4,-x+3/4,y+1/2", some ⟨0, 0, -1, -1, 0, 0, 0, 1, 0, 30, 90, 60⟩),
  ("-z+1/4,-y+1/4,-x+1/4", some ⟨0, 0, -1, 0, -1, 0, -1, 0, 0, 30, 30, 30⟩),
  ("-z+1/4,-y+3/4,x+3/4", some ⟨0, 0, -1, 0, -1, 0, 1, 0, 0, 30, 90, 90⟩),
  ("-z+1/4,x+1/2,-y+3/4", some ⟨0, 0, -1, 1, 0, 0, 0, -1, 0, 30, 60, 90⟩),
  ("-z+1/4,x,-y+1/4", some ⟨0, 0, -1, 1, 0, 0, 0, -1, 0, 30, 0, 30⟩),
  ("-z+1/4,y+3/4,x+1/4", some ⟨0, 0, -1, 0, 1, 0, 1, 0, 0, 30, 90, 30⟩),
  ("-z+3/4,-x+1/4,y+1/2", some ⟨0, 0, -1, -1, 0, 0, 0, 1, 0, 90, 30, 60⟩),
  ("-z+3/4,-y+3/4,-x+3/4", some ⟨0, 0, -1, 0, -1, 0, -1, 0, 0, 90, 90, 90⟩),
  ("-z+3/4,x+1/2,-y+1/4", some ⟨0, 0, -1, 1, 0, 0, 0, -1, 0, 90, 60, 30⟩),
  ("-z+3/4,y+1/4,x+3/4", some ⟨0, 0, -1, 0, 1, 0, 1, 0, 0, 90, 30, 90⟩),
  ("-z+3/4,y+3/4,-x+1/4", some ⟨0, 0, -1, 0, 1, 0, -1, 0, 0, 90, 90, 30⟩),
  ("-z+3/4,y+3/4,x+1/4", some ⟨0, 0, -1, 0, 1, 0, 1, 0, 0, 90, 90, 30⟩),
  ("-z,-x+1/2,y+1/2", some ⟨0, 0, -1, -1, 0, 0, 0, 1, 0, 0, 60, 60⟩),
  ("-z,-x,y", some ⟨0, 0, -1, -1, 0, 0, 0, 1, 0, 0, 0, 0⟩),
  ("-z,-y,-x", some ⟨0, 0, -1, 0, -1, 0, -1, 0, 0, 0, 0, 0⟩),
  ("-z,-y,x", some ⟨0, 0, -1, 0, -1, 0, 1, 0, 0, 0, 0, 0⟩),
  ("-z,x+1/2,-y+1/2", some ⟨0, 0, -1, 1, 0, 0, 0, -1, 0, 0, 60, 60⟩),
  ("-z,x,-y", some ⟨0, 0, -1, 1, 0, 0, 0, -1, 0, 0, 0, 0⟩),
  ("-z,y+1/2,x+1/2", some ⟨0, 0, -1, 0, 1, 0, 1, 0, 0, 0, 60, 60⟩),
  ("-z,y+3/4,x+1/4", some ⟨0, 0, -1, 0, 1, 0, 1, 0, 0, 0, 90, 30⟩),
  ("-z,y,-x", some ⟨0, 0, -1, 0, 1, 0, -1, 0, 0, 0, 0, 0⟩),
  ("-z,y,x", some ⟨0, 0, -1, 0, 1, 0, 1, 0, 0, 0, 0, 0⟩),
  ("1/2+x,-y,-z", some ⟨1, 0, 0, 0, -1, 0, 0, 0, -1, 60, 0, 0⟩),
  ("1/2+x,1/2-y,-z", some ⟨1, 0, 0, 0, -1, 0, 0, 0, -1, 60, 60, 0⟩),
  ("1/2-x,-y,1/2+z", some ⟨-1, 0, 0, 0, -1, 0, 0, 0, 1, 60, 0, 60⟩),
  ("1/2-x,-y,z", some ⟨-1, 0, 0, 0, -1, 0, 0, 0, 1, 60, 0, 0⟩),
  ("1/2-x,1/2+y,-z", some ⟨-1, 0, 0, 0, 1, 0, 0, 0, -1, 60, 60, 0⟩),
  ("1/2-x,1/2+y,1/2-z", some ⟨-1, 0, 0, 0, 1, 0, 0, 0, -1, 60, 60, 60⟩),
  ("1/2-x,1/2-y,z", some ⟨-1, 0, 0, 0, -1, 0, 0, 0, 1, 60, 60, 0⟩),
  ("x+1/2,-y+1/2,-z", some ⟨1, 0, 0, 0, -1, 0, 0, 0, -1, 60, 60, 0⟩),
  ("x+1/2,-y+1/2,-z+1/2", some ⟨1, 0, 0, 0, -1, 0, 0, 0, -1, 60, 60, 60⟩)]

/-- The distinct operations of itables.txt, part 3. -/
def symTab3 : List (String × Option Op) := [
  ("x+1/2,-y+1/2,-z+1/4", some ⟨1, 0, 0, 0, -1, 0, 0, 0, -1, 60, 60, 30⟩),
  ("x+1/2,-y+1/2,-z+3/4", some ⟨1, 0, 0, 0, -1, 0, 0, 0, -1, 60, 60, 90⟩),
  ("x+1/2,-y+1/2,z", some ⟨1, 0, 0, 0, -1, 0, 0, 0, 1, 60, 60, 0⟩),
  ("x+1/2,-y+1/2,z+1/2", some ⟨1, 0, 0, 0, -1, 0, 0, 0, 1, 60, 60, 60⟩),
  ("x+1/2,-y+1/4,-z+3/4", some ⟨1, 0, 0, 0, -1, 0, 0, 0, -1, 60, 30, 90⟩),
  ("x+1/2,-y+3/4,-z+1/4", some ⟨1, 0, 0, 0, -1, 0, 0, 0, -1, 60, 90, 30⟩),
  ("x+1/2,-y,-z", some ⟨1, 0, 0, 0, -1, 0, 0, 0, -1, 60, 0, 0⟩),
  ("x+1/2,-y,-z+1/2", some ⟨1, 0, 0, 0, -1, 0, 0, 0, -1, 60, 0, 60⟩),
  ("x+1/2,-y,-z+3/4", some ⟨1, 0, 0, 0, -1, 0, 0, 0, -1, 60, 0, 90⟩),
  ("x+1/2,-y,z", some ⟨1, 0, 0, 0, -1, 0, 0, 0, 1, 60, 0, 0⟩),
  ("x+1/2,-y,z+1/2", some ⟨1, 0, 0, 0, -1, 0, 0, 0, 1, 60, 0, 60⟩),
  ("x+1/2,-z+1/2,-y+1/2", some ⟨1, 0, 0, 0, 0, -1, 0, -1, 0, 60, 60, 60⟩),
  ("x+1/2,-z+1/2,y+1/2", some ⟨1, 0, 0, 0, 0, -1, 0, 1, 0, 60, 60, 60⟩),
  ("x+1/2,-z,y+1/2", some ⟨1, 0, 0, 0, 0, -1, 0, 1, 0, 60, 0, 60⟩),
  ("x+1/2,z+1/2,-y", some ⟨1, 0, 0, 0, 0, 1, 0, -1, 0, 60, 60, 0⟩),
  ("x+1/2,z+1/2,-y+1/2", some ⟨1, 0, 0, 0, 0, 1, 0, -1, 0, 60, 60, 60⟩),
  ("x+1/2,z+1/2,y+1/2", some ⟨1, 0, 0, 0, 0, 1, 0, 1, 0, 60, 60, 60⟩),
  ("x+1/4,-y+1/4,z+1/4", some ⟨1, 0, 0, 0, -1, 0, 0, 0, 1, 30, 30, 30⟩),
  ("x+1/4,-z+1/2,y+3/4", some ⟨1, 0, 0, 0, 0, -1, 0, 1, 0, 30, 60, 90⟩),
  ("x+1/4,-z+1/4,y+3/4", some ⟨1, 0, 0, 0, 0, -1, 0, 1, 0, 30, 30, 90⟩),
  ("x+1/4,-z+3/4,y+3/4", some ⟨1, 0, 0, 0, 0, -1, 0, 1, 0, 30, 90, 90⟩),
  ("x+1/4,-z,y+3/4,", none),
  ("x+1/4,z+1/4,y+1/4", some ⟨1, 0, 0, 0, 0, 1, 0, 1, 0, 30, 30, 30⟩),
  ("x+1/4,z+3/4,-y+3/4", some ⟨1, 0, 0, 0, 0, 1, 0, -1, 0, 30, 90, 90⟩),
  ("x+3/4,-z+1/4,-y+3/4", some ⟨1, 0, 0, 0, 0, -1, 0, -1, 0, 90, 30, 90⟩),
  ("x+3/4,-z+3/4,y+1/4", some ⟨1, 0, 0, 0, 0, -1, 0, 1, 0, 90, 90, 30⟩),
  ("x+3/4,z+1/4,-y", some ⟨1, 0, 0, 0, 0, 1, 0, -1, 0, 90, 30, 0⟩),
  ("x+3/4,z+1/4,-y+1/2", some ⟨1, 0, 0, 0, 0, 1, 0, -1, 0, 90, 30, 60⟩),
  ("x+3/4,z+1/4,-y+1/4", some ⟨1, 0, 0, 0, 0, 1, 0, -1, 0, 90, 30, 30⟩),
  ("x+3/4,z+1/4,-y+3/4", some ⟨1, 0, 0, 0, 0, 1, 0, -1, 0, 90, 30, 90⟩),
  ("x,-y+1/2,-z", some ⟨1, 0, 0, 0, -1, 0, 0, 0, -1, 0, 60, 0⟩),
  ("x,-y+1/2,-z+1/2", some ⟨1, 0, 0, 0, -1, 0, 0, 0, -1, 0, 60, 60⟩),
  ("x,-y+1/2,-z+1/4", some ⟨1, 0, 0, 0, -1, 0, 0, 0, -1, 0, 60, 30⟩),
  ("x,-y+1/2,-z+3/4", some ⟨1, 0, 0, 0, -1, 0, 0, 0, -1, 0, 60, 90⟩),
  ("x,-y+1/2,z", some ⟨1, 0, 0, 0, -1, 0, 0, 0, 1, 0, 60, 0⟩),
  ("x,-y+1/2,z+1/2", some ⟨1, 0, 0, 0, -1, 0, 0, 0, 1, 0, 60, 60⟩),
  ("x,-y+1/4,-z+1/4", some ⟨1, 0, 0, 0, -1, 0, 0, 0, -1, 0, 30, 30⟩),
  ("x,-y+3/4,-z+3/4", some ⟨1, 0, 0, 0, -1, 0, 0, 0, -1, 0, 90, 90⟩),
  ("x,-y,-z", some ⟨1, 0, 0, 0, -1, 0, 0, 0, -1, 0, 0, 0⟩),
  ("x,-y,-z+1/2", some ⟨1, 0, 0, 0, -1, 0, 0, 0, -1, 0, 0, 60⟩),
  ("x,-y,1/2+z", some ⟨1, 0, 0, 0, -1, 0, 0, 0, 1, 0, 0, 60⟩),
  ("x,-y,z", some ⟨1, 0, 0, 0, -1, 0, 0, 0, 1, 0, 0, 0⟩),
  ("x,-y,z+1/2", some ⟨1, 0, 0, 0, -1, 0, 0, 0, 1, 0, 0, 60⟩),
  ("x,-z+1/2,y", some ⟨1, 0, 0, 0, 0, -1, 0, 1, 0, 0, 60, 0⟩),
  ("x,-z,-y", some ⟨1, 0, 0, 0, 0, -1, 0, -1, 0, 0, 0, 0⟩),
  ("x,-z,y", some ⟨1, 0, 0, 0, 0, -1, 0, 1, 0, 0, 0, 0⟩),
  ("x,1/2+y,-z", some ⟨1, 0, 0, 0, 1, 0, 0, 0, -1, 0, 60, 0⟩),
  ("x,x-y,-z", some ⟨1, 0, 0, 1, -1, 0, 0, 0, -1, 0, 0, 0⟩),
  ("x,x-y,-z+1/2", some ⟨1, 0, 0, 1, -1, 0, 0, 0, -1, 0, 0, 60⟩),
  ("x,x-y,-z+1/3", some ⟨1, 0, 0, 1, -1, 0, 0, 0, -1, 0, 0, 40⟩),
  ("x,x-y,-z+1/6", some ⟨1, 0, 0, 1, -1, 0, 0, 0, -1, 0, 0, 20⟩),
  ("x,x-y,-z+2/3", some ⟨1, 0, 0, 1, -1, 0, 0, 0, -1, 0, 0, 80⟩),
  ("x,x-y,-z+5/6", some ⟨1, 0, 0, 1, -1, 0, 0, 0, -1, 0, 0, 100⟩),
  ("x,x-y,z", some ⟨1, 0, 0, 1, -1, 0, 0, 0, 1, 0, 0, 0⟩),
  ("x,x-y,z+1/2", some ⟨1, 0, 0, 1, -1, 0, 0, 0, 1, 0, 0, 60⟩),
  ("x,y,-z", some ⟨1, 0, 0, 0, 1, 0, 0, 0, -1, 0, 0, 0⟩),
  ("x,y,-z+1/2", some ⟨1, 0, 0, 0, 1, 0, 0, 0, -1, 0, 0, 60⟩),
  ("x,y,z", some ⟨1, 0, 0, 0, 1, 0, 0, 0, 1, 0, 0, 0⟩),
  ("x,z,-y", some ⟨1, 0, 0, 0, 0, 1, 0, -1, 0, 0, 0, 0⟩),
  ("x,z,-y+1/2", some ⟨1, 0, 0, 0, 0, 1, 0, -1, 0, 0, 0, 60⟩)]

/-- The distinct operations of itables.txt, part 4. -/
def symTab4 : List (String × Option Op) := [
  ("x,z,y", some ⟨1, 0, 0, 0, 0, 1, 0, 1, 0, 0, 0, 0⟩),
  ("x-y,-y,-z", some ⟨1, -1, 0, 0, -1, 0, 0, 0, -1, 0, 0, 0⟩),
  ("x-y,-y,-z+1/2", some ⟨1, -1, 0, 0, -1, 0, 0, 0, -1, 0, 0, 60⟩),
  ("x-y,-y,-z+1/3", some ⟨1, -1, 0, 0, -1, 0, 0, 0, -1, 0, 0, 40⟩),
  ("x-y,-y,-z+2/3", some ⟨1, -1, 0, 0, -1, 0, 0, 0, -1, 0, 0, 80⟩),
  ("x-y,-y,z", some ⟨1, -1, 0, 0, -1, 0, 0, 0, 1, 0, 0, 0⟩),
  ("x-y,-y,z+1/2", some ⟨1, -1, 0, 0, -1, 0, 0, 0, 1, 0, 0, 60⟩),
  ("x-y,x,z", some ⟨1, -1, 0, 1, 0, 0, 0, 0, 1, 0, 0, 0⟩),
  ("x-y,x,z+1/2", some ⟨1, -1, 0, 1, 0, 0, 0, 0, 1, 0, 0, 60⟩),
  ("x-y,x,z+1/3", some ⟨1, -1, 0, 1, 0, 0, 0, 0, 1, 0, 0, 40⟩),
  ("x-y,x,z+1/6", some ⟨1, -1, 0, 1, 0, 0, 0, 0, 1, 0, 0, 20⟩),
  ("x-y,x,z+2/3", some ⟨1, -1, 0, 1, 0, 0, 0, 0, 1, 0, 0, 80⟩),
  ("x-y,x,z+5/6", some ⟨1, -1, 0, 1, 0, 0, 0, 0, 1, 0, 0, 100⟩),
  ("y+1/2,-x+1/2,-z+1/2", some ⟨0, 1, 0, -1, 0, 0, 0, 0, -1, 60, 60, 60⟩),
  ("y+1/2,-x+1/2,z", some ⟨0, 1, 0, -1, 0, 0, 0, 0, 1, 60, 60, 0⟩),
  ("y+1/2,-x+1/2,z+1/2", some ⟨0, 1, 0, -1, 0, 0, 0, 0, 1, 60, 60, 60⟩),
  ("y+1/2,-x+1/2,z+1/4", some ⟨0, 1, 0, -1, 0, 0, 0, 0, 1, 60, 60, 30⟩),
  ("y+1/2,-x+1/2,z+3/4", some ⟨0, 1, 0, -1, 0, 0, 0, 0, 1, 60, 60, 90⟩),
  ("y+1/2,-x,z+1/2", some ⟨0, 1, 0, -1, 0, 0, 0, 0, 1, 60, 0, 60⟩),
  ("y+1/2,-x,z+3/4", some ⟨0, 1, 0, -1, 0, 0, 0, 0, 1, 60, 0, 90⟩),
  ("y+1/2,-z+1/2,-x", some ⟨0, 1, 0, 0, 0, -1, -1, 0, 0, 60, 60, 0⟩),
  ("y+1/2,-z+1/4,-x+3/4", some ⟨0, 1, 0, 0, 0, -1, -1, 0, 0, 60, 30, 90⟩),
  ("y+1/2,-z+3/4,-x+1/4", some ⟨0, 1, 0, 0, 0, -1, -1, 0, 0, 60, 90, 30⟩),
  ("y+1/2,-z,-x+1/2", some ⟨0, 1, 0, 0, 0, -1, -1, 0, 0, 60, 0, 60⟩),
  ("y+1/2,x+1/2,-z", some ⟨0, 1, 0, 1, 0, 0, 0, 0, -1, 60, 60, 0⟩),
  ("y+1/2,x+1/2,-z+1/2", some ⟨0, 1, 0, 1, 0, 0, 0, 0, -1, 60, 60, 60⟩),
  ("y+1/2,x+1/2,z", some ⟨0, 1, 0, 1, 0, 0, 0, 0, 1, 60, 60, 0⟩),
  ("y+1/2,x+1/2,z+1/2", some ⟨0, 1, 0, 1, 0, 0, 0, 0, 1, 60, 60, 60⟩),
  ("y+1/2,x,z+1/4", some ⟨0, 1, 0, 1, 0, 0, 0, 0, 1, 60, 0, 30⟩),
  ("y+1/2,x,z+3/4", some ⟨0, 1, 0, 1, 0, 0, 0, 0, 1, 60, 0, 90⟩),
  ("y+1/4,-x+1/2,z+3/4", some ⟨0, 1, 0, -1, 0, 0, 0, 0, 1, 30, 60, 90⟩),
  ("y+1/4,-x+1/4,z+3/4", some ⟨0, 1, 0, -1, 0, 0, 0, 0, 1, 30, 30, 90⟩),
  ("y+1/4,-x+3/4,z+3/4", some ⟨0, 1, 0, -1, 0, 0, 0, 0, 1, 30, 90, 90⟩),
  ("y+1/4,-x,z+3/4", some ⟨0, 1, 0, -1, 0, 0, 0, 0, 1, 30, 0, 90⟩),
  ("y+1/4,x+1/4,z+1/4", some ⟨0, 1, 0, 1, 0, 0, 0, 0, 1, 30, 30, 30⟩),
  ("y+1/4,x+3/4,-z+1/4", some ⟨0, 1, 0, 1, 0, 0, 0, 0, -1, 30, 90, 30⟩),
  ("y+1/4,x+3/4,-z+3/4", some ⟨0, 1, 0, 1, 0, 0, 0, 0, -1, 30, 90, 90⟩),
  ("y+3/4,-x+1/4,-z+3/4", some ⟨0, 1, 0, -1, 0, 0, 0, 0, -1, 90, 30, 90⟩),
  ("y+3/4,-x+3/4,z+1/4", some ⟨0, 1, 0, -1, 0, 0, 0, 0, 1, 90, 90, 30⟩),
  ("y+3/4,-x+3/4,z+3/4", some ⟨0, 1, 0, -1, 0, 0, 0, 0, 1, 90, 90, 90⟩),
  ("y+3/4,x+1/4,-z", some ⟨0, 1, 0, 1, 0, 0, 0, 0, -1, 90, 30, 0⟩),
  ("y+3/4,x+1/4,-z+1/2", some ⟨0, 1, 0, 1, 0, 0, 0, 0, -1, 90, 30, 60⟩),
  ("y+3/4,x+1/4,-z+1/4", some ⟨0, 1, 0, 1, 0, 0, 0, 0, -1, 90, 30, 30⟩),
  ("y+3/4,x+1/4,-z+3/4", some ⟨0, 1, 0, 1, 0, 0, 0, 0, -1, 90, 30, 90⟩),
  ("y,-x+1/2,z", some ⟨0, 1, 0, -1, 0, 0, 0, 0, 1, 0, 60, 0⟩),
  ("y,-x+1/2,z+1/2", some ⟨0, 1, 0, -1, 0, 0, 0, 0, 1, 0, 60, 60⟩),
  ("y,-x+y,z", some ⟨0, 1, 0, -1, 1, 0, 0, 0, 1, 0, 0, 0⟩),
  ("y,-x+y,z+1/2", some ⟨0, 1, 0, -1, 1, 0, 0, 0, 1, 0, 0, 60⟩),
  ("y,-x+y,z+1/3", some ⟨0, 1, 0, -1, 1, 0, 0, 0, 1, 0, 0, 40⟩),
  ("y,-x+y,z+1/6", some ⟨0, 1, 0, -1, 1, 0, 0, 0, 1, 0, 0, 20⟩),
  ("y,-x+y,z+2/3", some ⟨0, 1, 0, -1, 1, 0, 0, 0, 1, 0, 0, 80⟩),
  ("y,-x+y,z+5/6", some ⟨0, 1, 0, -1, 1, 0, 0, 0, 1, 0, 0, 100⟩),
  ("y,-x,-z", some ⟨0, 1, 0, -1, 0, 0, 0, 0, -1, 0, 0, 0⟩),
  ("y,-x,z", some ⟨0, 1, 0, -1, 0, 0, 0, 0, 1, 0, 0, 0⟩),
  ("y,-x,z+1/2", some ⟨0, 1, 0, -1, 0, 0, 0, 0, 1, 0, 0, 60⟩),
  ("y,-x,z+1/4", some ⟨0, 1, 0, -1, 0, 0, 0, 0, 1, 0, 0, 30⟩),
  ("y,-x,z+3/4", some ⟨0, 1, 0, -1, 0, 0, 0, 0, 1, 0, 0, 90⟩),
  ("y,-z+1/2,-x+1/2", some ⟨0, 1, 0, 0, 0, -1, -1, 0, 0, 0, 60, 60⟩),
  ("y,-z+1/4,-x+1/4", some ⟨0, 1, 0, 0, 0, -1, -1, 0, 0, 0, 30, 30⟩),
  ("y,-z,-x", some ⟨0, 1, 0, 0, 0, -1, -1, 0, 0, 0, 0, 0⟩)]

/-- The distinct operations of itables.txt, part 5. -/
def symTab5 : List (String × Option Op) := [
  ("y,x,-z", some ⟨0, 1, 0, 1, 0, 0, 0, 0, -1, 0, 0, 0⟩),
  ("y,x,-z+1/2", some ⟨0, 1, 0, 1, 0, 0, 0, 0, -1, 0, 0, 60⟩),
  ("y,x,-z+1/3", some ⟨0, 1, 0, 1, 0, 0, 0, 0, -1, 0, 0, 40⟩),
  ("y,x,-z+1/4", some ⟨0, 1, 0, 1, 0, 0, 0, 0, -1, 0, 0, 30⟩),
  ("y,x,-z+2/3", some ⟨0, 1, 0, 1, 0, 0, 0, 0, -1, 0, 0, 80⟩),
  ("y,x,-z+3/4", some ⟨0, 1, 0, 1, 0, 0, 0, 0, -1, 0, 0, 90⟩),
  ("y,x,z", some ⟨0, 1, 0, 1, 0, 0, 0, 0, 1, 0, 0, 0⟩),
  ("y,x,z+1/2", some ⟨0, 1, 0, 1, 0, 0, 0, 0, 1, 0, 0, 60⟩),
  ("y,z,x", some ⟨0, 1, 0, 0, 0, 1, 1, 0, 0, 0, 0, 0⟩),
  ("z+1/2,-x+1/2,-y", some ⟨0, 0, 1, -1, 0, 0, 0, -1, 0, 60, 60, 0⟩),
  ("z+1/2,-x+1/4,-y+3/4", some ⟨0, 0, 1, -1, 0, 0, 0, -1, 0, 60, 30, 90⟩),
  ("z+1/2,-x+3/4,-y+1/4", some ⟨0, 0, 1, -1, 0, 0, 0, -1, 0, 60, 90, 30⟩),
  ("z+1/2,-x,-y+1/2", some ⟨0, 0, 1, -1, 0, 0, 0, -1, 0, 60, 0, 60⟩),
  ("z+1/2,-y+1/2,-x+1/2", some ⟨0, 0, 1, 0, -1, 0, -1, 0, 0, 60, 60, 60⟩),
  ("z+1/2,-y+1/2,x+1/2", some ⟨0, 0, 1, 0, -1, 0, 1, 0, 0, 60, 60, 60⟩),
  ("z+1/2,-y,x+1/2", some ⟨0, 0, 1, 0, -1, 0, 1, 0, 0, 60, 0, 60⟩),
  ("z+1/2,y+1/2,-x", some ⟨0, 0, 1, 0, 1, 0, -1, 0, 0, 60, 60, 0⟩),
  ("z+1/2,y+1/2,-x+1/2", some ⟨0, 0, 1, 0, 1, 0, -1, 0, 0, 60, 60, 60⟩),
  ("z+1/2,y+1/2,x+1/2", some ⟨0, 0, 1, 0, 1, 0, 1, 0, 0, 60, 60, 60⟩),
  ("z+1/4,-y+1/2,x+3/4", some ⟨0, 0, 1, 0, -1, 0, 1, 0, 0, 30, 60, 90⟩),
  ("z+1/4,-y+1/4,x+3/4", some ⟨0, 0, 1, 0, -1, 0, 1, 0, 0, 30, 30, 90⟩),
  ("z+1/4,-y+3/4,x+3/4", some ⟨0, 0, 1, 0, -1, 0, 1, 0, 0, 30, 90, 90⟩),
  ("z+1/4,-y,x+3/4", some ⟨0, 0, 1, 0, -1, 0, 1, 0, 0, 30, 0, 90⟩),
  ("z+1/4,y+1/4,x+1/4", some ⟨0, 0, 1, 0, 1, 0, 1, 0, 0, 30, 30, 30⟩),
  ("z+1/4,y+3/4,-x+3/4", some ⟨0, 0, 1, 0, 1, 0, -1, 0, 0, 30, 90, 90⟩),
  ("z+3/4,-y+1/4,-x+3/4", some ⟨0, 0, 1, 0, -1, 0, -1, 0, 0, 90, 30, 90⟩),
  ("z+3/4,-y+3/4,x+1/4", some ⟨0, 0, 1, 0, -1, 0, 1, 0, 0, 90, 90, 30⟩),
  ("z+3/4,y+1/4,-x", some ⟨0, 0, 1, 0, 1, 0, -1, 0, 0, 90, 30, 0⟩),
  ("z+3/4,y+1/4,-x+1/2", some ⟨0, 0, 1, 0, 1, 0, -1, 0, 0, 90, 30, 60⟩),
  ("z+3/4,y+1/4,-x+1/4", some ⟨0, 0, 1, 0, 1, 0, -1, 0, 0, 90, 30, 30⟩),
  ("z+3/4,y+1/4,-x+3/4", some ⟨0, 0, 1, 0, 1, 0, -1, 0, 0, 90, 30, 90⟩),
  ("z,-x+1/2,-y+1/2", some ⟨0, 0, 1, -1, 0, 0, 0, -1, 0, 0, 60, 60⟩),
  ("z,-x+1/4,-y+1/4", some ⟨0, 0, 1, -1, 0, 0, 0, -1, 0, 0, 30, 30⟩),
  ("z,-x,-y", some ⟨0, 0, 1, -1, 0, 0, 0, -1, 0, 0, 0, 0⟩),
  ("z,-y+1/2,x", some ⟨0, 0, 1, 0, -1, 0, 1, 0, 0, 0, 60, 0⟩),
  ("z,-y,-x", some ⟨0, 0, 1, 0, -1, 0, -1, 0, 0, 0, 0, 0⟩),
  ("z,-y,x", some ⟨0, 0, 1, 0, -1, 0, 1, 0, 0, 0, 0, 0⟩),
  ("z,x,y", some ⟨0, 0, 1, 1, 0, 0, 0, 1, 0, 0, 0, 0⟩),
  ("z,y,-x", some ⟨0, 0, 1, 0, 1, 0, -1, 0, 0, 0, 0, 0⟩),
  ("z,y,-x+1/2", some ⟨0, 0, 1, 0, 1, 0, -1, 0, 0, 0, 0, 60⟩),
  ("z,y,x", some ⟨0, 0, 1, 0, 1, 0, 1, 0, 0, 0, 0, 0⟩)]

/-- The distinct operations of itables.txt. -/
def symTab : List (List (String × Option Op)) := [symTab0, symTab1, symTab2, symTab3, symTab4, symTab5]

/-- The cards of itables.txt; operations by their place in `symTab`, part 0. -/
def cardTab0 : List CardN := [
  ⟨1, "1", "0, 0, 0", (0, 0, 0), [237]⟩,
  ⟨2, "1", "0, 0, 0", (0, 0, 0), [237]⟩,
  ⟨3, "1", "0, 0, 0", (0, 0, 0), [237, 68]⟩,
  ⟨4, "1", "0, 0, 0", (0, 0, 0), [237, 64]⟩,
  ⟨5, "1", "0, 0, 0", (0, 0, 0), [237, 68]⟩,
  ⟨6, "1", "0, 0, 0", (0, 0, 0), [237, 221]⟩,
  ⟨7, "1", "0, 0, 0", (0, 0, 0), [237, 220]⟩,
  ⟨8, "1", "0, 0, 0", (0, 0, 0), [237, 221]⟩,
  ⟨9, "1", "0, 0, 0", (0, 0, 0), [237, 220]⟩,
  ⟨10, "1", "0, 0, 0", (0, 0, 0), [237, 221]⟩,
  ⟨11, "1", "0, 0, 0", (0, 0, 0), [237, 62]⟩,
  ⟨12, "1", "0, 0, 0", (0, 0, 0), [237, 221]⟩,
  ⟨12, "3", "0, 0, 0", (0, 0, 0), [237, 221]⟩,
  ⟨13, "1", "0, 0, 0", (0, 0, 0), [237, 70]⟩,
  ⟨14, "1", "0, 0, 0", (0, 0, 0), [237, 63]⟩,
  ⟨14, "2", "0, 0, 0", (0, 0, 0), [237, 176]⟩,
  ⟨14, "3", "0, 0, 0", (0, 0, 0), [237, 175]⟩,
  ⟨15, "1", "0, 0, 0", (0, 0, 0), [237, 70]⟩,
  ⟨16, "1", "0, 0, 0", (0, 0, 0), [237, 58, 68, 218]⟩,
  ⟨17, "1", "0, 0, 0", (0, 0, 0), [237, 57, 70, 218]⟩,
  ⟨17, "2", "0, 0, 0", (0, 0, 0), [237, 171, 174, 68]⟩,
  ⟨18, "1", "0, 0, 0", (0, 0, 0), [237, 58, 175, 172]⟩,
  ⟨18, "2", "0, 0, 0", (0, 0, 0), [237, 62, 171, 177]⟩,
  ⟨19, "1", "0, 0, 0", (0, 0, 0), [237, 173, 63, 172]⟩,
  ⟨20, "1", "0, 0, 0", (0, 0, 0), [237, 57, 70, 218]⟩,
  ⟨21, "1", "0, 0, 0", (0, 0, 0), [237, 58, 68, 218]⟩,
  ⟨22, "1", "0, 0, 0", (0, 0, 0), [237, 58, 68, 218]⟩,
  ⟨23, "1", "0, 0, 0", (0, 0, 0), [237, 58, 218, 68]⟩,
  ⟨24, "1", "0, 0, 0", (0, 0, 0), [237, 173, 63, 172]⟩,
  ⟨25, "1", "0, 0, 0", (0, 0, 0), [237, 58, 221, 71]⟩,
  ⟨26, "1", "0, 0, 0", (0, 0, 0), [237, 59, 222, 71]⟩,
  ⟨27, "1", "0, 0, 0", (0, 0, 0), [237, 58, 222, 72]⟩,
  ⟨28, "1", "0, 0, 0", (0, 0, 0), [237, 58, 189, 16]⟩,
  ⟨29, "1", "0, 0, 0", (0, 0, 0), [237, 59, 189, 17]⟩,
  ⟨30, "1", "0, 0, 0", (0, 0, 0), [237, 58, 215, 67]⟩,
  ⟨31, "1", "0, 0, 0", (0, 0, 0), [237, 3, 190, 71]⟩,
  ⟨32, "1", "0, 0, 0", (0, 0, 0), [237, 58, 182, 10]⟩,
  ⟨33, "1", "0, 0, 0", (0, 0, 0), [237, 59, 182, 11]⟩,
  ⟨34, "1", "0, 0, 0", (0, 0, 0), [237, 58, 183, 11]⟩,
  ⟨35, "1", "0, 0, 0", (0, 0, 0), [237, 58, 221, 71]⟩,
  ⟨36, "1", "0, 0, 0", (0, 0, 0), [237, 59, 222, 71]⟩,
  ⟨37, "1", "0, 0, 0", (0, 0, 0), [237, 58, 222, 72]⟩,
  ⟨38, "1", "0, 0, 0", (0, 0, 0), [237, 58, 221, 71]⟩,
  ⟨39, "1", "0, 0, 0", (0, 0, 0), [237, 58, 214, 66]⟩,
  ⟨40, "1", "0, 0, 0", (0, 0, 0), [237, 58, 189, 16]⟩,
  ⟨41, "1", "0, 0, 0", (0, 0, 0), [237, 58, 182, 10]⟩,
  ⟨42, "1", "0, 0, 0", (0, 0, 0), [237, 58, 221, 71]⟩,
  ⟨43, "1", "0, 0, 0", (0, 0, 0), [237, 58, 197, 27]⟩,
  ⟨44, "1", "0, 0, 0", (0, 0, 0), [237, 58, 221, 71]⟩,
  ⟨45, "1", "0, 0, 0", (0, 0, 0), [237, 58, 182, 10]⟩,
  ⟨46, "1", "0, 0, 0", (0, 0, 0), [237, 58, 189, 16]⟩,
  ⟨47, "1", "0, 0, 0", (0, 0, 0), [237, 58, 68, 218]⟩,
  ⟨48, "1", "0.25, 0.25, 0.2", (30, 30, 24), [237, 58, 68, 218]⟩,
  ⟨48, "2", "0, 0, 0", (0, 0, 0), [237, 0, 13, 211]⟩,
  ⟨49, "1", "0, 0, 0", (0, 0, 0), [237, 58, 69, 219]⟩,
  ⟨50, "1", "0.25, 0.25, 0", (30, 30, 0), [237, 58, 68, 218]⟩,
  ⟨50, "2", "0, 0, 0", (0, 0, 0), [237, 0, 12, 210]⟩,
  ⟨51, "1", "0, 0, 0", (0, 0, 0), [237, 2, 68, 186]⟩,
  ⟨52, "1", "0, 0, 0", (0, 0, 0), [237, 2, 7, 211]⟩]

/-- The cards of itables.txt; operations by their place in `symTab`, part 1. -/
def cardTab1 : List CardN := [
  ⟨53, "1", "0, 0, 0", (0, 0, 0), [237, 3, 13, 218]⟩,
  ⟨54, "1", "0, 0, 0", (0, 0, 0), [237, 2, 69, 187]⟩,
  ⟨55, "1", "0, 0, 0", (0, 0, 0), [237, 58, 6, 178]⟩,
  ⟨56, "1", "0, 0, 0", (0, 0, 0), [237, 0, 65, 187]⟩,
  ⟨57, "1", "0, 0, 0", (0, 0, 0), [237, 59, 65, 210]⟩,
  ⟨57, "4", "0, 0, 0", (0, 0, 0), [237, 226, 175, 171]⟩,
  ⟨58, "1", "0, 0, 0", (0, 0, 0), [237, 58, 7, 179]⟩,
  ⟨59, "1", "0.25, 0.25, 0", (30, 30, 0), [237, 58, 221, 71]⟩,
  ⟨59, "2", "0, 0, 0", (0, 0, 0), [237, 0, 64, 186]⟩,
  ⟨60, "1", "0, 0, 0", (0, 0, 0), [237, 1, 69, 178]⟩,
  ⟨61, "1", "0, 0, 0", (0, 0, 0), [237, 3, 65, 178]⟩,
  ⟨62, "1", "0, 0, 0", (0, 0, 0), [237, 3, 64, 179]⟩,
  ⟨62, "cab", "0, 0, 0", (0, 0, 0), [237, 178, 7, 59]⟩,
  ⟨63, "1", "0, 0, 0", (0, 0, 0), [237, 59, 69, 218]⟩,
  ⟨64, "1", "0, 0, 0", (0, 0, 0), [237, 56, 65, 218]⟩,
  ⟨65, "1", "0, 0, 0", (0, 0, 0), [237, 58, 68, 218]⟩,
  ⟨66, "1", "0, 0, 0", (0, 0, 0), [237, 58, 69, 219]⟩,
  ⟨67, "1", "0, 0, 0", (0, 0, 0), [237, 55, 64, 218]⟩,
  ⟨68, "1", "0, 0.25, 0.25", (0, 30, 30), [237, 0, 68, 178]⟩,
  ⟨68, "2", "0, 0, 0", (0, 0, 0), [237, 2, 69, 187]⟩,
  ⟨69, "1", "0, 0, 0", (0, 0, 0), [237, 58, 68, 218]⟩,
  ⟨70, "1", "-0.125, -0.125, -0.125", (-15, -15, -15), [237, 58, 68, 218]⟩,
  ⟨70, "2", "0, 0, 0", (0, 0, 0), [237, 31, 34, 217]⟩,
  ⟨71, "1", "0, 0, 0", (0, 0, 0), [237, 58, 68, 218]⟩,
  ⟨72, "1", "0, 0, 0", (0, 0, 0), [237, 58, 6, 178]⟩,
  ⟨73, "1", "0, 0, 0", (0, 0, 0), [237, 3, 65, 178]⟩,
  ⟨74, "1", "0, 0, 0", (0, 0, 0), [237, 55, 64, 218]⟩,
  ⟨75, "1", "0, 0, 0", (0, 0, 0), [237, 58, 127, 293]⟩,
  ⟨76, "1", "0, 0, 0", (0, 0, 0), [237, 59, 129, 296]⟩,
  ⟨77, "1", "0, 0, 0", (0, 0, 0), [237, 58, 128, 294]⟩,
  ⟨78, "1", "0, 0, 0", (0, 0, 0), [237, 59, 130, 295]⟩,
  ⟨79, "1", "0, 0, 0", (0, 0, 0), [237, 58, 127, 293]⟩,
  ⟨80, "1", "0, 0, 0", (0, 0, 0), [237, 1, 124, 259]⟩,
  ⟨81, "1", "0, 0, 0", (0, 0, 0), [237, 58, 292, 126]⟩,
  ⟨82, "1", "0, 0, 0", (0, 0, 0), [237, 58, 292, 126]⟩,
  ⟨83, "1", "0, 0, 0", (0, 0, 0), [237, 58, 127, 293]⟩,
  ⟨84, "1", "0, 0, 0", (0, 0, 0), [237, 58, 128, 294]⟩,
  ⟨85, "1", "-0.25, 0.25, 0", (-30, 30, 0), [237, 58, 292, 126]⟩,
  ⟨85, "2", "0, 0, 0", (0, 0, 0), [237, 0, 90, 284]⟩,
  ⟨86, "1", "-0.25, -0.25, -0.25", (-30, -30, -30), [237, 58, 292, 126]⟩,
  ⟨86, "2", "0, 0, 0", (0, 0, 0), [237, 0, 123, 258]⟩,
  ⟨87, "1", "0, 0, 0", (0, 0, 0), [237, 58, 127, 293]⟩,
  ⟨88, "1", "0, -0.25, -0.125", (0, -30, -15), [237, 1, 124, 259]⟩,
  ⟨88, "2", "0, 0, 0", (0, 0, 0), [237, 3, 104, 279]⟩,
  ⟨89, "1", "0, 0, 0", (0, 0, 0), [237, 58, 127, 293, 68, 218, 300, 111]⟩,
  ⟨90, "1", "0, 0, 0", (0, 0, 0), [237, 58, 85, 254, 6, 178, 300, 111]⟩,
  ⟨91, "1", "0, 0, 0", (0, 0, 0), [237, 59, 129, 296, 68, 219, 305, 114]⟩]

/-- The cards of itables.txt; operations by their place in `symTab`, part 2. -/
def cardTab2 : List CardN := [
  ⟨92, "1", "0, 0, 0", (0, 0, 0), [237, 59, 87, 257, 8, 181, 300, 112]⟩,
  ⟨93, "1", "0, 0, 0", (0, 0, 0), [237, 58, 128, 294, 68, 218, 301, 112]⟩,
  ⟨94, "1", "0, 0, 0", (0, 0, 0), [237, 58, 86, 255, 7, 179, 300, 111]⟩,
  ⟨95, "1", "0, 0, 0", (0, 0, 0), [237, 59, 130, 295, 68, 219, 303, 117]⟩,
  ⟨96, "1", "0, 0, 0", (0, 0, 0), [237, 59, 88, 256, 9, 180, 300, 112]⟩,
  ⟨97, "1", "0, 0, 0", (0, 0, 0), [237, 58, 127, 293, 68, 218, 300, 111]⟩,
  ⟨98, "1", "0, 0, 0", (0, 0, 0), [237, 1, 124, 259, 15, 212, 265, 111]⟩,
  ⟨99, "1", "0, 0, 0", (0, 0, 0), [237, 58, 127, 293, 221, 71, 119, 306]⟩,
  ⟨100, "1", "0, 0, 0", (0, 0, 0), [237, 58, 127, 293, 182, 10, 79, 266]⟩,
  ⟨101, "1", "0, 0, 0", (0, 0, 0), [237, 58, 128, 294, 222, 72, 119, 306]⟩,
  ⟨102, "1", "0, 0, 0", (0, 0, 0), [237, 58, 86, 255, 183, 11, 119, 306]⟩,
  ⟨103, "1", "0, 0, 0", (0, 0, 0), [237, 58, 127, 293, 222, 72, 120, 307]⟩,
  ⟨104, "1", "0, 0, 0", (0, 0, 0), [237, 58, 127, 293, 183, 11, 80, 267]⟩,
  ⟨105, "1", "0, 0, 0", (0, 0, 0), [237, 58, 128, 294, 221, 71, 120, 307]⟩,
  ⟨106, "1", "0, 0, 0", (0, 0, 0), [237, 58, 128, 294, 182, 10, 80, 267]⟩,
  ⟨107, "1", "0, 0, 0", (0, 0, 0), [237, 58, 127, 293, 221, 71, 119, 306]⟩,
  ⟨108, "1", "0, 0, 0", (0, 0, 0), [237, 58, 127, 293, 222, 72, 120, 307]⟩,
  ⟨109, "1", "0, 0, 0", (0, 0, 0), [237, 1, 124, 259, 221, 11, 109, 269]⟩,
  ⟨110, "1", "0, 0, 0", (0, 0, 0), [237, 1, 124, 259, 222, 10, 110, 268]⟩,
  ⟨111, "1", "0, 0, 0", (0, 0, 0), [237, 58, 292, 126, 68, 218, 119, 306]⟩,
  ⟨112, "1", "0, 0, 0", (0, 0, 0), [237, 58, 292, 126, 69, 219, 120, 307]⟩,
  ⟨113, "1", "0, 0, 0", (0, 0, 0), [237, 58, 292, 126, 6, 178, 79, 266]⟩,
  ⟨114, "1", "0, 0, 0", (0, 0, 0), [237, 58, 292, 126, 7, 179, 80, 267]⟩,
  ⟨115, "1", "0, 0, 0", (0, 0, 0), [237, 58, 292, 126, 221, 71, 300, 111]⟩,
  ⟨116, "1", "0, 0, 0", (0, 0, 0), [237, 58, 292, 126, 222, 72, 301, 112]⟩]

/-- The cards of itables.txt; operations by their place in `symTab`, part 3. -/
def cardTab3 : List CardN := [
  ⟨117, "1", "0, 0, 0", (0, 0, 0), [237, 58, 292, 126, 182, 10, 264, 77]⟩,
  ⟨118, "1", "0, 0, 0", (0, 0, 0), [237, 58, 292, 126, 183, 11, 265, 78]⟩,
  ⟨119, "1", "0, 0, 0", (0, 0, 0), [237, 58, 292, 126, 221, 71, 300, 111]⟩,
  ⟨120, "1", "0, 0, 0", (0, 0, 0), [237, 58, 292, 126, 222, 72, 301, 112]⟩,
  ⟨121, "1", "0, 0, 0", (0, 0, 0), [237, 58, 292, 126, 68, 218, 119, 306]⟩,
  ⟨122, "1", "0, 0, 0", (0, 0, 0), [237, 58, 292, 126, 15, 188, 81, 269]⟩,
  ⟨123, "1", "0, 0, 0", (0, 0, 0), [237, 58, 127, 293, 68, 218, 300, 111]⟩,
  ⟨124, "1", "0, 0, 0", (0, 0, 0), [237, 58, 127, 293, 69, 219, 301, 112]⟩,
  ⟨125, "1", "-0.25, -0.25, 0", (-30, -30, 0), [237, 58, 127, 293, 68, 218, 300, 111]⟩,
  ⟨125, "2", "0, 0, 0", (0, 0, 0), [237, 0, 90, 284, 12, 210, 300, 77]⟩,
  ⟨126, "1", "-0.25, -0.25, -0.25", (-30, -30, -30), [237, 58, 127, 293, 68, 218, 300, 111]⟩,
  ⟨126, "2", "0, 0, 0", (0, 0, 0), [237, 0, 90, 284, 13, 211, 301, 78]⟩,
  ⟨127, "1", "0, 0, 0", (0, 0, 0), [237, 58, 127, 293, 6, 178, 264, 77]⟩,
  ⟨128, "1", "0, 0, 0", (0, 0, 0), [237, 58, 127, 293, 7, 179, 265, 78]⟩,
  ⟨129, "1", "-0.25, 0.25, 0", (-30, 30, 0), [237, 58, 300, 111, 292, 126, 221, 71]⟩,
  ⟨129, "2", "0, 0, 0", (0, 0, 0), [237, 0, 90, 284, 64, 186, 264, 111]⟩,
  ⟨130, "1", "-0.25, 0.25, 0", (-30, 30, 0), [237, 58, 85, 254, 7, 179, 301, 112]⟩,
  ⟨130, "2", "0, 0, 0", (0, 0, 0), [237, 0, 90, 284, 65, 187, 265, 112]⟩,
  ⟨131, "1", "0, 0, 0", (0, 0, 0), [237, 58, 128, 294, 68, 218, 301, 112]⟩,
  ⟨132, "1", "0, 0, 0", (0, 0, 0), [237, 58, 128, 294, 69, 219, 300, 111]⟩,
  ⟨133, "1", "-0.25, 0.25, -0.25", (-30, 30, -30), [237, 58, 86, 255, 69, 219, 264, 77]⟩,
  ⟨133, "2", "0, 0, 0", (0, 0, 0), [237, 0, 91, 285, 12, 210, 301, 78]⟩,
  ⟨134, "1", "-0.25, 0.25, -0.25", (-30, 30, -30), [237, 58, 86, 255, 68, 218, 265, 78]⟩,
  ⟨134, "2", "0, 0, 0", (0, 0, 0), [237, 0, 91, 285, 13, 211, 300, 77]⟩,
  ⟨135, "1", "0, 0, 0", (0, 0, 0), [237, 58, 128, 294, 6, 178, 265, 78]⟩]

/-- The cards of itables.txt; operations by their place in `symTab`, part 4. -/
def cardTab4 : List CardN := [
  ⟨136, "1", "0, 0, 0", (0, 0, 0), [237, 58, 86, 255, 7, 179, 300, 111]⟩,
  ⟨137, "1", "-0.25, 0.25, -0.25", (-30, 30, -30), [237, 58, 86, 255, 7, 179, 300, 111]⟩,
  ⟨137, "2", "0, 0, 0", (0, 0, 0), [237, 0, 91, 285, 64, 186, 265, 112]⟩,
  ⟨138, "1", "-0.25, 0.25, -0.25", (-30, 30, -30), [237, 58, 86, 255, 6, 178, 301, 112]⟩,
  ⟨138, "2", "0, 0, 0", (0, 0, 0), [237, 0, 91, 285, 65, 187, 264, 111]⟩,
  ⟨139, "1", "0, 0, 0", (0, 0, 0), [237, 58, 127, 293, 68, 218, 300, 111]⟩,
  ⟨140, "1", "0, 0, 0", (0, 0, 0), [237, 58, 127, 293, 69, 219, 301, 112]⟩,
  ⟨141, "1", "0, 0.25, -0.125", (0, 30, -15), [237, 1, 124, 259, 15, 212, 265, 111]⟩,
  ⟨141, "2", "0, 0, 0", (0, 0, 0), [237, 3, 99, 271, 13, 218, 275, 95]⟩,
  ⟨142, "1", "0, 0.25, -0.125", (0, 30, -15), [237, 1, 124, 259, 14, 213, 264, 112]⟩,
  ⟨142, "2", "0, 0, 0", (0, 0, 0), [237, 3, 99, 271, 12, 219, 276, 94]⟩,
  ⟨143, "1", "0, 0, 0", (0, 0, 0), [237, 133, 40]⟩,
  ⟨144, "1", "0, 0, 0", (0, 0, 0), [237, 135, 41]⟩,
  ⟨145, "1", "0, 0, 0", (0, 0, 0), [237, 135, 41]⟩,
  ⟨146, "1", "0, 0, 0", (0, 0, 0), [237, 133, 40]⟩,
  ⟨146, "2", "0, 0, 0", (0, 0, 0), [237, 337, 308]⟩,
  ⟨147, "1", "0, 0, 0", (0, 0, 0), [237, 133, 40]⟩,
  ⟨148, "1", "0, 0, 0", (0, 0, 0), [237, 133, 40]⟩,
  ⟨148, "2", "0, 0, 0", (0, 0, 0), [237, 337, 308]⟩,
  ⟨149, "1", "0, 0, 0", (0, 0, 0), [237, 133, 40, 111, 43, 227]⟩,
  ⟨150, "1", "0, 0, 0", (0, 0, 0), [237, 133, 40, 300, 241, 49]⟩,
  ⟨151, "1", "0, 0, 0", (0, 0, 0), [237, 134, 42, 116, 45, 227]⟩,
  ⟨152, "1", "0, 0, 0", (0, 0, 0), [237, 134, 42, 300, 244, 51]⟩,
  ⟨153, "1", "0, 0, 0", (0, 0, 0), [237, 135, 41, 113, 46, 227]⟩,
  ⟨154, "1", "0, 0, 0", (0, 0, 0), [237, 135, 41, 300, 243, 52]⟩,
  ⟨155, "1", "0, 0, 0", (0, 0, 0), [237, 133, 40, 300, 241, 49]⟩,
  ⟨155, "2", "0, 0, 0", (0, 0, 0), [237, 337, 308, 111, 60, 163]⟩,
  ⟨156, "1", "0, 0, 0", (0, 0, 0), [237, 133, 40, 119, 47, 233]⟩,
  ⟨157, "1", "0, 0, 0", (0, 0, 0), [237, 133, 40, 306, 245, 53]⟩,
  ⟨158, "1", "0, 0, 0", (0, 0, 0), [237, 133, 40, 120, 48, 234]⟩,
  ⟨159, "1", "0, 0, 0", (0, 0, 0), [237, 133, 40, 307, 246, 54]⟩,
  ⟨160, "1", "0, 0, 0", (0, 0, 0), [237, 133, 40, 119, 47, 233]⟩,
  ⟨160, "2", "0, 0, 0", (0, 0, 0), [237, 337, 308, 306, 240, 340]⟩]

/-- The cards of itables.txt; operations by their place in `symTab`, part 5. -/
def cardTab5 : List CardN := [
  ⟨161, "1", "0, 0, 0", (0, 0, 0), [237, 133, 40, 120, 48, 234]⟩,
  ⟨161, "2", "0, 0, 0", (0, 0, 0), [237, 337, 308, 267, 196, 318]⟩,
  ⟨162, "1", "0, 0, 0", (0, 0, 0), [237, 133, 40, 111, 43, 227]⟩,
  ⟨163, "1", "0, 0, 0", (0, 0, 0), [237, 133, 40, 112, 44, 228]⟩,
  ⟨164, "1", "0, 0, 0", (0, 0, 0), [237, 133, 40, 300, 241, 49]⟩,
  ⟨165, "1", "0, 0, 0", (0, 0, 0), [237, 133, 40, 301, 242, 50]⟩,
  ⟨166, "1", "0, 0, 0", (0, 0, 0), [237, 133, 40, 300, 241, 49]⟩,
  ⟨166, "2", "0, 0, 0", (0, 0, 0), [237, 337, 308, 111, 60, 163]⟩,
  ⟨167, "1", "0, 0, 0", (0, 0, 0), [237, 133, 40, 301, 242, 50]⟩,
  ⟨167, "2", "0, 0, 0", (0, 0, 0), [237, 337, 308, 78, 4, 140]⟩,
  ⟨168, "1", "0, 0, 0", (0, 0, 0), [237, 133, 40, 58, 286, 247]⟩,
  ⟨169, "1", "0, 0, 0", (0, 0, 0), [237, 134, 42, 59, 291, 250]⟩,
  ⟨170, "1", "0, 0, 0", (0, 0, 0), [237, 135, 41, 59, 289, 252]⟩,
  ⟨171, "1", "0, 0, 0", (0, 0, 0), [237, 135, 41, 58, 290, 249]⟩,
  ⟨172, "1", "0, 0, 0", (0, 0, 0), [237, 134, 42, 58, 288, 251]⟩,
  ⟨173, "1", "0, 0, 0", (0, 0, 0), [237, 133, 40, 59, 287, 248]⟩,
  ⟨174, "1", "0, 0, 0", (0, 0, 0), [237, 133, 40, 235, 131, 38]⟩,
  ⟨175, "1", "0, 0, 0", (0, 0, 0), [237, 133, 40, 58, 286, 247]⟩,
  ⟨176, "1", "0, 0, 0", (0, 0, 0), [237, 133, 40, 59, 287, 248]⟩,
  ⟨177, "1", "0, 0, 0", (0, 0, 0), [237, 133, 40, 58, 286, 247, 300, 241, 49, 111, 43, 227]⟩,
  ⟨178, "1", "0, 0, 0", (0, 0, 0), [237, 134, 42, 59, 291, 250, 302, 241, 52, 118, 44, 230]⟩,
  ⟨179, "1", "0, 0, 0", (0, 0, 0), [237, 135, 41, 59, 289, 252, 304, 241, 51, 115, 44, 232]⟩,
  ⟨180, "1", "0, 0, 0", (0, 0, 0), [237, 135, 41, 58, 290, 249, 304, 241, 51, 116, 43, 229]⟩,
  ⟨181, "1", "0, 0, 0", (0, 0, 0), [237, 134, 42, 58, 288, 251, 302, 241, 52, 113, 43, 231]⟩,
  ⟨182, "1", "0, 0, 0", (0, 0, 0), [237, 133, 40, 59, 287, 248, 300, 241, 49, 112, 44, 228]⟩,
  ⟨183, "1", "0, 0, 0", (0, 0, 0), [237, 133, 40, 58, 286, 247, 119, 47, 233, 306, 245, 53]⟩]

/-- The cards of itables.txt; operations by their place in `symTab`, part 6. -/
def cardTab6 : List CardN := [
  ⟨184, "1", "0, 0, 0", (0, 0, 0), [237, 133, 40, 58, 286, 247, 120, 48, 234, 307, 246, 54]⟩,
  ⟨185, "1", "0, 0, 0", (0, 0, 0), [237, 133, 40, 59, 287, 248, 120, 48, 234, 306, 245, 53]⟩,
  ⟨186, "1", "0, 0, 0", (0, 0, 0), [237, 133, 40, 59, 287, 248, 119, 47, 233, 307, 246, 54]⟩,
  ⟨187, "1", "0, 0, 0", (0, 0, 0), [237, 133, 40, 235, 131, 38, 119, 47, 233, 111, 43, 227]⟩,
  ⟨188, "1", "0, 0, 0", (0, 0, 0), [237, 133, 40, 236, 132, 39, 120, 48, 234, 111, 43, 227]⟩,
  ⟨189, "1", "0, 0, 0", (0, 0, 0), [237, 133, 40, 235, 131, 38, 300, 241, 49, 306, 245, 53]⟩,
  ⟨190, "1", "0, 0, 0", (0, 0, 0), [237, 133, 40, 236, 132, 39, 300, 241, 49, 307, 246, 54]⟩,
  ⟨191, "1", "0, 0, 0", (0, 0, 0), [237, 133, 40, 58, 286, 247, 300, 241, 49, 111, 43, 227]⟩,
  ⟨192, "1", "0, 0, 0", (0, 0, 0), [237, 133, 40, 58, 286, 247, 301, 242, 50, 112, 44, 228]⟩,
  ⟨193, "1", "0, 0, 0", (0, 0, 0), [237, 133, 40, 59, 287, 248, 301, 242, 50, 111, 43, 227]⟩,
  ⟨194, "1", "0, 0, 0", (0, 0, 0), [237, 133, 40, 59, 287, 248, 300, 241, 49, 112, 44, 228]⟩,
  ⟨195, "1", "0, 0, 0", (0, 0, 0), [237, 58, 68, 218, 337, 333, 162, 166, 308, 137, 299, 122]⟩,
  ⟨196, "1", "0, 0, 0", (0, 0, 0), [237, 58, 68, 218, 337, 333, 162, 166, 308, 137, 299, 122]⟩,
  ⟨197, "1", "0, 0, 0", (0, 0, 0), [237, 58, 68, 218, 337, 333, 162, 166, 308, 137, 299, 122]⟩,
  ⟨198, "1", "0, 0, 0", (0, 0, 0), [237, 3, 65, 178, 337, 309, 139, 165, 308, 136, 260, 83]⟩,
  ⟨199, "1", "0, 0, 0", (0, 0, 0), [237, 3, 65, 178, 337, 309, 139, 165, 308, 136, 260, 83]⟩]

/-- The cards of itables.txt; operations by their place in `symTab`, part 7. -/
def cardTab7 : List CardN := [
  ⟨200, "1", "0, 0, 0", (0, 0, 0), [237, 58, 68, 218, 337, 333, 162, 166, 308, 137, 299, 122]⟩,
  ⟨201, "1", "-0.25, -0.25, -0.25", (-30, -30, -30), [237, 58, 68, 218, 337, 333, 162, 166, 308, 137, 299, 122]⟩,
  ⟨201, "2", "0, 0, 0", (0, 0, 0), [237, 0, 13, 211, 337, 331, 138, 143, 308, 93, 297, 82]⟩,
  ⟨202, "1", "0, 0, 0", (0, 0, 0), [237, 58, 68, 218, 337, 333, 162, 166, 308, 137, 299, 122]⟩,
  ⟨203, "1", "-0.125, -0.125, -0.125", (-15, -15, -15), [237, 58, 68, 218, 337, 333, 162, 166, 308, 137, 299, 122]⟩,
  ⟨203, "2", "0, 0, 0", (0, 0, 0), [237, 22, 28, 216, 337, 332, 148, 153, 308, 101, 298, 97]⟩,
  ⟨204, "1", "0, 0, 0", (0, 0, 0), [237, 58, 68, 218, 337, 333, 162, 166, 308, 137, 299, 122]⟩,
  ⟨205, "1", "0, 0, 0", (0, 0, 0), [237, 3, 65, 178, 337, 309, 139, 165, 308, 136, 260, 83]⟩,
  ⟨206, "1", "0, 0, 0", (0, 0, 0), [237, 3, 65, 178, 337, 309, 139, 165, 308, 136, 260, 83]⟩,
  ⟨207, "1", "0, 0, 0", (0, 0, 0), [237, 58, 68, 218, 337, 333, 162, 166, 308, 137, 299, 122, 300, 111, 293, 127, 238, 76, 60, 225, 338, 336, 170, 163]⟩,
  ⟨208, "1", "0, 0, 0", (0, 0, 0), [237, 58, 68, 218, 337, 333, 162, 166, 308, 137, 299, 122, 265, 78, 255, 86, 195, 19, 4, 192, 317, 314, 145, 140]⟩,
  ⟨209, "1", "0, 0, 0", (0, 0, 0), [237, 58, 68, 218, 337, 333, 162, 166, 308, 137, 299, 122, 300, 111, 293, 127, 238, 76, 60, 225, 338, 336, 170, 163]⟩]

/-- The cards of itables.txt; operations by their place in `symTab`, part 8. -/
def cardTab8 : List CardN := [
  ⟨210, "1", "0, 0, 0", (0, 0, 0), [237, 56, 6, 187, 337, 312, 161, 142, 308, 92, 263, 121, 283, 94, 272, 107, 209, 37, 24, 200, 330, 321, 160, 150]⟩,
  ⟨211, "1", "0, 0, 0", (0, 0, 0), [237, 58, 68, 218, 337, 333, 162, 166, 308, 137, 299, 122, 300, 111, 293, 127, 238, 76, 60, 225, 338, 336, 170, 163]⟩,
  ⟨212, "1", "0, 0, 0", (0, 0, 0), [237, 3, 65, 178, 337, 309, 139, 165, 308, 136, 260, 83, 276, 94, 278, 105, 203, 35, 24, 205, 324, 326, 158, 150]⟩,
  ⟨213, "1", "0, 0, 0", (0, 0, 0), [237, 3, 65, 178, 337, 309, 139, 165, 308, 136, 260, 83, 282, 102, 271, 99, 208, 29, 32, 199, 329, 320, 154, 156]⟩,
  ⟨214, "1", "0, 0, 0", (0, 0, 0), [237, 3, 65, 178, 337, 309, 139, 165, 308, 136, 260, 83, 282, 102, 271, 99, 208, 29, 32, 199, 329, 320, 154, 156]⟩,
  ⟨215, "1", "0, 0, 0", (0, 0, 0), [237, 58, 68, 218, 337, 333, 162, 166, 308, 137, 299, 122, 306, 119, 292, 126, 240, 75, 61, 224, 340, 335, 169, 164]⟩,
  ⟨216, "1", "0, 0, 0", (0, 0, 0), [237, 58, 68, 218, 337, 333, 162, 166, 308, 137, 299, 122, 306, 119, 292, 126, 240, 75, 61, 224, 340, 335, 169, 164]⟩,
  ⟨217, "1", "0, 0, 0", (0, 0, 0), [237, 58, 68, 218, 337, 333, 162, 166, 308, 137, 299, 122, 306, 119, 292, 126, 240, 75, 61, 224, 340, 335, 169, 164]⟩]

/-- The cards of itables.txt; operations by their place in `symTab`, part 9. -/
def cardTab9 : List CardN := [
  ⟨218, "1", "0, 0, 0", (0, 0, 0), [237, 58, 68, 218, 337, 333, 162, 166, 308, 137, 299, 122, 267, 80, 253, 84, 196, 18, 5, 191, 318, 313, 144, 141]⟩,
  ⟨219, "1", "0, 0, 0", (0, 0, 0), [237, 58, 68, 218, 337, 333, 162, 166, 308, 137, 299, 122, 267, 80, 253, 84, 196, 18, 5, 191, 318, 313, 144, 141]⟩,
  ⟨220, "1", "0, 0, 0", (0, 0, 0), [237, 3, 65, 178, 337, 309, 139, 165, 308, 136, 260, 83, 274, 96, 277, 106, 202, 36, 25, 204, 323, 325, 159, 151]⟩,
  ⟨221, "1", "0, 0, 0", (0, 0, 0), [237, 58, 68, 218, 337, 333, 162, 166, 308, 137, 299, 122, 300, 111, 293, 127, 238, 76, 60, 225, 338, 336, 170, 163]⟩,
  ⟨222, "1", "-0.25, -0.25, -0.25", (-30, -30, -30), [237, 58, 68, 218, 337, 333, 162, 166, 308, 137, 299, 122, 300, 111, 293, 127, 238, 76, 60, 225, 338, 336, 170, 163]⟩,
  ⟨222, "2", "0, 0, 0", (0, 0, 0), [237, 0, 13, 211, 337, 331, 138, 143, 308, 93, 297, 82, 301, 78, 284, 90, 239, 21, 4, 223, 339, 334, 147, 140]⟩,
  ⟨223, "1", "0, 0, 0", (0, 0, 0), [237, 58, 68, 218, 337, 333, 162, 166, 308, 137, 299, 122, 265, 78, 255, 86, 195, 19, 4, 192, 317, 314, 145, 140]⟩,
  ⟨224, "1", "-0.25, -0.25, -0.25", (-30, -30, -30), [237, 58, 68, 218, 337, 333, 162, 166, 308, 137, 299, 122, 119, 306, 126, 292, 61, 224, 240, 75, 164, 169, 335, 340]⟩]

/-- The cards of itables.txt; operations by their place in `symTab`, part 10. -/
def cardTab10 : List CardN := [
  ⟨224, "2", "0, 0, 0", (0, 0, 0), [237, 0, 13, 211, 337, 331, 138, 143, 308, 93, 297, 82, 264, 111, 258, 123, 194, 73, 60, 193, 316, 315, 167, 163]⟩,
  ⟨225, "1", "0, 0, 0", (0, 0, 0), [237, 58, 68, 218, 337, 333, 162, 166, 308, 137, 299, 122, 300, 111, 293, 127, 238, 76, 60, 225, 338, 336, 170, 163]⟩,
  ⟨226, "1", "0, 0, 0", (0, 0, 0), [237, 58, 68, 218, 337, 333, 162, 166, 308, 137, 299, 122, 265, 78, 255, 86, 195, 19, 4, 192, 317, 314, 145, 140]⟩,
  ⟨227, "1", "-0.125, -0.125, -0.125", (-15, -15, -15), [237, 56, 6, 187, 337, 312, 161, 142, 308, 92, 263, 121, 283, 94, 272, 107, 209, 37, 24, 200, 330, 321, 160, 150]⟩,
  ⟨227, "2", "0, 0, 0", (0, 0, 0), [237, 30, 26, 185, 337, 311, 155, 152, 308, 100, 262, 103, 281, 111, 270, 89, 207, 20, 60, 198, 328, 319, 146, 163]⟩,
  ⟨228, "1", "-0.375, -0.375, -0.375", (-45, -45, -45), [237, 56, 6, 187, 337, 312, 161, 142, 308, 92, 263, 121, 283, 94, 272, 107, 209, 37, 24, 200, 330, 321, 160, 150]⟩,
  ⟨228, "2", "0, 0, 0", (0, 0, 0), [237, 23, 33, 184, 337, 310, 149, 157, 308, 108, 261, 98, 280, 78, 273, 125, 206, 74, 4, 201, 327, 322, 168, 140]⟩,
  ⟨229, "1", "0, 0, 0", (0, 0, 0), [237, 58, 68, 218, 337, 333, 162, 166, 308, 137, 299, 122, 300, 111, 293, 127, 238, 76, 60, 225, 338, 336, 170, 163]⟩]

/-- The cards of itables.txt; operations by their place in `symTab`, part 11. -/
def cardTab11 : List CardN := [
  ⟨230, "1", "0, 0, 0", (0, 0, 0), [237, 3, 65, 178, 337, 309, 139, 165, 308, 136, 260, 83, 282, 102, 271, 99, 208, 29, 32, 199, 329, 320, 154, 156]⟩]

/-- The cards of itables.txt; operations by their place in `symTab`. -/
def cardTab : List (List CardN) := [cardTab0, cardTab1, cardTab2, cardTab3, cardTab4, cardTab5, cardTab6, cardTab7, cardTab8, cardTab9, cardTab10, cardTab11]

end Cryspy.SG
