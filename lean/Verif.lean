import Verif.Py.Float
import Verif.Py.Monad
import Verif.Py.Lemmas
import Verif.Model.CoreUtility
import Verif.Model.CorePhysics
import Verif.Model.Hudson1959
import Verif.Props.Core
import Verif.Props.Hudson
import Verif.Model.ConcreteHudson
import Verif.Model.Xbloc
import Verif.Model.Cubes
import Verif.Lemmas.Basic
import Verif.Lemmas.Check
import Verif.Props.Concrete
import Verif.Spec
import Verif.Model.VanDerMeer
import Verif.Lemmas.VdM
import Verif.Props.VanDerMeer
import Verif.Py.Loop
import Verif.Model.Etemad2020
import Verif.Model.RockArmourOther
import Verif.Props.KramerBurcharth
import Verif.Props.JumeletScaravaglione
import Verif.Lemmas.Etemad
import Verif.Lemmas.Contraction
import Verif.Props.Etemad2020
import Verif.Py.List
import Verif.Model.Toe
import Verif.Props.Toe
import Verif.Props.ToeEtemad
import Verif.Props.Takahashi
import Verif.Props.Runup
import Verif.Props.RearSlope
import Verif.Props.RearHeight
import Verif.Props.RearPozueta
import Verif.Props.RearPozuetaHeight
import Verif.Props.RearPozuetaWide
import Verif.Props.Goda1985
import Verif.Props.CrestWall
import Verif.Props.Transmission
import Verif.Props.Defaults
import Verif.Model.Taw2002
import Verif.Model.Overtopping
import Verif.Lemmas.Taw
import Verif.Props.RunupTaw
import Verif.Lemmas.Overtopping
import Verif.Props.OvertoppingTaw
import Verif.Lemmas.OvertoppingEur
import Verif.Props.OvertoppingEur
import Verif.Model.OvertoppingMore
import Verif.SpecReal
import Verif.Lemmas.OvertoppingMore
import Verif.Props.OvertoppingMore
import Verif.Props.VanGent2025
import Verif.SpecRange
import Verif.Lemmas.Range
import Verif.Props.RangeArmour
import Verif.Props.RangeStructures
import Verif.Props.RangeHydraulics
import Verif.Py.Table
import Verif.SpecTable
import Verif.Model.NetworkInput
import Verif.Props.NetworkInput
import Verif.SpecFormula
import Verif.Props.FormulasArmour
import Verif.Props.FormulasRock
import Verif.Props.FormulasToe
import Verif.Props.RangeChecks
import Verif.Props.FormulasHydraulic
import Verif.Props.FormulasOvertopping
import Verif.Props.FormulasOvertoppingMore
import Verif.Props.FormulasStructures
import Verif.Props.Worse
import Verif.Props.WorseBerm
import Verif.Props.RangeRear
import Verif.Props.RangeRunup
import Verif.Props.OmittedArguments
import Verif.SpecScale
import Verif.Lemmas.Scale
import Verif.Props.ScaleArmour
import Verif.Props.ScaleToeRear
import Verif.Props.ScaleForces
import Verif.Props.ScaleHydraulic
import Verif.SpecArray
import Verif.Props.ArrayValues
import Verif.Props.ArrayWarnings
import Verif.Props.ArrayIteration
import Verif.Props.ArrayExceptions
import Verif.Props.ArrayFreeboard
import Verif.SpecIter
import Verif.Lemmas.IterLimit
import Verif.Props.IterationLimits
import Verif.Props.FormulasJumeletHeight
import Verif.Props.RangeOvertoppingMore
import Verif.Props.RangeMore
import Verif.Lemmas.ToeSearch
import Verif.Props.TakahashiSearch
import Verif.Props.CasesMet
import Verif.Model.WholeNumbers
import Verif.Props.WholeNumbers
import Verif.Props.Composite
import Verif.Props.CompositeBestFit
import Verif.Props.CompositeFix
import Verif.SpecMissing
import Verif.Lemmas.Missing
import Verif.Lemmas.MissingCore
import Verif.Props.MissingArmour
import Verif.Props.MissingRock
import Verif.Props.MissingToeRear
import Verif.Props.MissingHydraulic
import Verif.Props.MissingUnused
import Verif.Props.MissingIter
import Verif.Props.MissingTaw
import Verif.Props.MissingSwallowed
import Verif.SpecMass
import Verif.Props.SizeOrMass
import Verif.SpecWorse
import Verif.Lemmas.WorseStructural
import Verif.Lemmas.Worse
import Verif.Props.WorseToe
import Verif.Props.WorseToeMore
import Verif.Props.WorseUnits
import Verif.Props.WorseRock
import Verif.Props.WorseRockMore
import Verif.Props.WorseKramer
import Verif.Props.WorseTakahashi
import Verif.Props.OneAnswerIter
import Verif.Props.DesignEtemad
import Verif.Props.WorseJumelet
import Verif.Props.WorseRear
import Verif.Props.WorseWall
import Verif.Model.UnitTables
import Verif.Props.UnitTables
import Verif.Props.DesignSafe
import Verif.Props.DesignWind
import Verif.Props.WorseSolved
import Verif.SpecContinuous
import Verif.SpecBreak
import Verif.Lemmas.Continuity
import Verif.Props.ContinuousArmour
import Verif.Props.ContinuousRock
import Verif.Props.ContinuousStructures
import Verif.Props.ContinuousWall
import Verif.Props.ContinuousHydraulic
import Verif.Props.ContinuousOvertopping
import Verif.Props.ContinuousCrest
import Verif.Props.ContTakahashiHeight
import Verif.Props.ContComposite
import Verif.Props.ContCompositeEurOtop
import Verif.Props.ContEtemadHeight
import Verif.Props.ContEtemadSize
import Verif.Props.ContIterHeights
import Verif.Props.ContJumelet
import Verif.Props.DesignArmour
import Verif.Props.DesignUnits
import Verif.Props.DesignToe
import Verif.Props.DesignCrest
import Verif.Props.DesignCubesRear
import Verif.SpecSensitivity
import Verif.Props.SensitivityRock
import Verif.Props.SensitivityUnits
import Verif.Props.SensitivityStructures
import Verif.Props.SensitivityJumps
import Verif.Props.SensitivityEtemad
import Verif.SpecOneAnswer
import Verif.Props.OneAnswer
import Verif.SpecRaise
import Verif.Props.Raise
import Verif.Props.RaiseWall
import Verif.Props.WindCrest
import Verif.Props.CrestFeatures
import Verif.Props.WindFreeboard
import Verif.SpecLimit
import Verif.Props.Limits
import Verif.SpecWarned
import Verif.Props.Warned
import Verif.Props.OneWave
import Verif.Array.ToeSearch
import Verif.Props.ArrayToeHeight
import Verif.Props.ArraySearch
import Verif.Props.ArrayComposite
import Verif.Props.NotANumber
import Verif.Props.NotANumberSilent
import Verif.Props.NotANumberRear
import Verif.Props.NotANumberWall
import Verif.Props.NotANumberRubble
import Verif.Props.WindLevel
import Verif.Props.CompositeBerm
import Verif.Props.CompositeOutside
import Verif.Props.BermReach
import Verif.Props.DesignComposite
import Verif.Props.DesignCompositeQ
import Verif.Props.DesignTakahashiDepth
import Verif.Props.WorseTakahashiDepth
import Verif.Props.DesignJumeletHeight
import Verif.Props.WorseJumeletHeight
import Verif.Props.OneAnswerDepth
import Verif.Props.ScaleTakahashiDepth
import Verif.Props.ScaleEtemadHeight
import Verif.Props.ScalePozuetaHeight
import Verif.Props.ScaleTakahashiHeight
import Verif.Props.ScaleComposite
