import Verif.Item.Props
import Verif.Container.Props
import Verif.Symm.Props
import Verif.Mat.Props
import Verif.Cell.Props
import Verif.Cell.DProps
import Verif.Cell.FrameProps
import Verif.Cell.Object
import Verif.Sect.Model
import Verif.Sect.Props
import Verif.Constr.Props
import Verif.Text.PrefixProps
import Verif.Text.SymopProps
import Verif.Text.ValueProps
import Verif.Text.DoubleProps
import Verif.Symm.P1Props
import Verif.Flip.Props
import Verif.Flip.DProps
import Verif.Flip.SFProps
import Verif.Ext.Props
import Verif.Ext.DProps
import Verif.Powder.POProps
import Verif.Powder.Props
import Verif.Tof.Props
import Verif.Tof.AreaProps
import Verif.Tof.VonDreele
import Verif.CellConstr.Props
import Verif.Adp.Props
import Verif.Vib.Props
import Verif.Den.Props
import Verif.Mem.Props
import Verif.Mem.Final
import Verif.Bkg.Props
import Verif.Bkg.Props2
import Verif.Refine.Props
import Verif.Refine.Props2
import Verif.Refine.Props3
import Verif.Refine.TextProps
import Verif.Gen.ITables
import Verif.Gen.SGNames
import Verif.Gen.SGKeys
import Verif.SG.ChangeProps
import Verif.SG.Check1
import Verif.SG.Check2
import Verif.SG.Check3
import Verif.SG.Check4
import Verif.SG.CodeProps
import Verif.SG.ExtProps
import Verif.SG.Group
import Verif.SG.GroupProps
import Verif.SG.GroupSound
import Verif.SG.Model
import Verif.SG.NameProps
import Verif.SG.Names
import Verif.SG.NamesCheck
import Verif.SG.Num
import Verif.SG.Op
import Verif.SG.Reader
import Verif.SG.Resolve
import Verif.SG.Settings
import Verif.SG.Spec
import Verif.SG.Tables
import Verif.SG.TablesOps
import Verif.Roots.Model
import Verif.Roots.Lemmas
import Verif.Roots.Props
import Verif.Gen.WyckParts
import Verif.Wyck.Model
import Verif.Wyck.Lemmas
import Verif.Wyck.Props
import Verif.Sf.Model
import Verif.Sf.Lemmas
import Verif.Sf.Props
import Verif.Sf.Props2
import Verif.Sf.Store
import Verif.Sf.StoreProps
import Verif.Gen.PowderIint
import Verif.Gen.FormFactor
import Verif.Hkl.Model
import Verif.Hkl.Spec
import Verif.Hkl.Props
import Verif.Hkl.Example
import Verif.PowInt.Spec
import Verif.PowInt.Props
import Verif.PowInt.DProps
import Verif.FF.Props
import Verif.Sft.Model
import Verif.Sft.Lemmas
import Verif.Sft.Props
import Verif.Sft.DProps
import Verif.Sft.Example
import Verif.Cif.Model
import Verif.Cif.Lemmas
import Verif.Cif.Props
import Verif.Cif.SaveProps
import Verif.Cif.LoopProps
import Verif.Cif.RowProps
import Verif.Cif.Example
import Verif.Chi.Model
import Verif.Chi.Pattern
import Verif.Chi.PatternMore
import Verif.Chi.Powder
import Verif.Chi.Crystal
import Verif.MemIt.Model
import Verif.MemIt.Loop
import Verif.MemIt.Density
import Verif.MemIt.Gradient
import Verif.MemIt.Defects
import Verif.MemSf.Model
import Verif.MemSf.Props
import Verif.MemSf.Susc
import Verif.Den.Spin
import Verif.Basin.Examples
import Verif.Range.Props
import Verif.Regrid.Props
import Verif.Rot.Props
import Verif.Orient.Props
import Verif.Orient.Angle
import Verif.ChiAt.Props
import Verif.Ord.Example
import Verif.PdStore.Fail
import Verif.Bulk.Props
import Verif.Take.Model
import Verif.Take.Props
import Verif.Site.Model
import Verif.Site.Props
import Verif.Back.Model
import Verif.Back.Props
import Verif.HklCell.Model
import Verif.HklCell.Props
import Verif.HklCell.Props2
import Verif.Snap.Model
import Verif.Snap.Props
import Verif.Ell.Model
import Verif.Ell.Props
import Verif.FrReport.Model
import Verif.FrReport.Props
import Verif.FrReport.Pairs
import Verif.Cols.Model
import Verif.Cols.Props
import Verif.Pts.Model
import Verif.Pts.Props
import Verif.Pts.More
import Verif.Proj.Model
import Verif.Proj.Props
import Verif.Split.Model
import Verif.Split.Props
import Verif.Split.Table
import Verif.Ion.Model
import Verif.Ion.Shell
import Verif.Ion.Symbol
import Verif.Ion.Table
import Verif.Simplex.Model
import Verif.Simplex.Props
import Verif.Slater.Model
import Verif.Slater.Trans
import Verif.Slater.Integral
import Verif.Slater.Props
import Verif.Elim.Model
import Verif.Elim.Lemmas
import Verif.Elim.Props
import Verif.Elim.Group
import Verif.Mix.Model
import Verif.Mix.Props
import Verif.Sim.Model
import Verif.Sim.Props
import Verif.Gens.Model
import Verif.Gens.Props
import Verif.Bravais.Model
import Verif.Bravais.Spec
import Verif.Bravais.Table
import Verif.Bravais.Props
import Verif.Induced.Model
import Verif.Induced.Props
import Verif.SiteOps.Model
import Verif.SiteOps.Props
import Verif.Core.Model
import Verif.Core.Props
import Verif.Ties.Model
import Verif.Ties.Props
