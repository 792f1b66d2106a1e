import Verif.Props.C01_EventEqualize
import Verif.Props.C01_Variables
import Verif.Props.C04_EqualizeAgainstValues
import Verif.Props.C06_Round
import Verif.Props.C07_Table
import Verif.Props.C08_CtcSplit
import Verif.Props.C09_C12_Ctc
import Verif.Props.C102_DerivedPoints
import Verif.Props.C104_VectorCorrValue
import Verif.Props.C105_DerivedBoot
import Verif.Props.C106_Right
import Verif.Props.C107_SumStat
import Verif.Props.C110_ScorecardRun
import Verif.Props.C113_ScorecardNcar
import Verif.Props.C115_AggEclv
import Verif.Props.C116_Ssvar
import Verif.Props.C118_Bicor
import Verif.Props.C119_Percbend
import Verif.Props.C120_CorrTable
import Verif.Props.C123_LeadAggregation
import Verif.Props.C124_Gibl
import Verif.Props.C125_Blocking
import Verif.Props.C127_Regimes
import Verif.Props.C132_RegimeIO
import Verif.Props.C134_AnyLag
import Verif.Props.C134_MtdRevision
import Verif.Props.C137_HeightPressure
import Verif.Props.C139_Extents
import Verif.Props.C13_EconomicValue
import Verif.Props.C140_EnvConfig
import Verif.Props.C141_Exactly
import Verif.Props.C141_LonFlip
import Verif.Props.C142_Rem120
import Verif.Props.C142_Spacing
import Verif.Props.C143_OddExtent
import Verif.Props.C143_OmiFilter
import Verif.Props.C144_Taper
import Verif.Props.C145_Sizes
import Verif.Props.C147_Ccew
import Verif.Props.C149_Waves
import Verif.Props.C14_Pstd
import Verif.Props.C152_Smooth121
import Verif.Props.C154_Segments
import Verif.Props.C156_Coherence
import Verif.Props.C157_Symmetry
import Verif.Props.C159_WaveFilter
import Verif.Props.C15_Sl1l2
import Verif.Props.C160_KelvinStructure
import Verif.Props.C161_MakiIndex
import Verif.Props.C162_WaveAct
import Verif.Props.C163_WaveTypes
import Verif.Props.C164_Matsuno
import Verif.Props.C167_MatsunoFrame
import Verif.Props.C168_TauMJO
import Verif.Props.C169_Complete
import Verif.Props.C16_Extents
import Verif.Props.C172_DiffSig
import Verif.Props.C174_MctcAggregate
import Verif.Props.C176_Blocks
import Verif.Props.C178_Persistent
import Verif.Props.C179_Five
import Verif.Props.C180_Turned
import Verif.Props.C181_Isolated
import Verif.Props.C183_Images
import Verif.Props.C185_Dispatch
import Verif.Props.C186_EclvBoot
import Verif.Props.C187_ValidateRun
import Verif.Props.C18_SeriesSums
import Verif.Props.C190_Omi
import Verif.Props.C194_Rmm
import Verif.Props.C195_Shepherd
import Verif.Props.C196_BayesFactor
import Verif.Props.C197_PowerSearch
import Verif.Props.C198_ObjectRun
import Verif.Props.C201_AggRun
import Verif.Props.C201_TwoAxes
import Verif.Props.C205_AggValues
import Verif.Props.C205_MoreScores
import Verif.Props.C209_EclvRun
import Verif.Props.C20_Ensemble
import Verif.Props.C20_Exact
import Verif.Props.C212_BlockingRun
import Verif.Props.C215_RegimeFile
import Verif.Props.C219_SumStatRun
import Verif.Props.C221_EofComp
import Verif.Props.C222_Extent
import Verif.Props.C224_TauFilter
import Verif.Props.C226_OmiParts
import Verif.Props.C228_MakiParts
import Verif.Props.C229_ValidateFiles
import Verif.Props.C232_PostProcess
import Verif.Props.C234_BootWidth
import Verif.Props.C236_WriteDataset
import Verif.Props.C238_Elsewhere
import Verif.Props.C239_Paths
import Verif.Props.C239_RefTime
import Verif.Props.C23_Lon
import Verif.Props.C240_VerticalMissing
import Verif.Props.C241_Top
import Verif.Props.C243_AggEnsemble
import Verif.Props.C247_DerivedRun
import Verif.Props.C248_RootScores
import Verif.Props.C252_AggCounts
import Verif.Props.C256_ListedLeads
import Verif.Props.C256_MoreLines
import Verif.Props.C257_BootRun
import Verif.Props.C257_Runs
import Verif.Props.C258_BootLimits
import Verif.Props.C258_CtcLimits
import Verif.Props.C258_EnsembleLimits
import Verif.Props.C258_PctLimits
import Verif.Props.C258_RootLimits
import Verif.Props.C258_Runs
import Verif.Props.C259_WindDirection
import Verif.Props.C25_Permutations
import Verif.Props.C261_CtcCurves
import Verif.Props.C261_CurveLimits
import Verif.Props.C261_MoreCurves
import Verif.Props.C261_PctCurves
import Verif.Props.C262_BootCompletes
import Verif.Props.C262_CurveCompletes
import Verif.Props.C262_CurveStatistics
import Verif.Props.C263_SpreadRun
import Verif.Props.C264_AggDirections
import Verif.Props.C265_CurveTimes
import Verif.Props.C266_SigRun
import Verif.Props.C267_LineOrder
import Verif.Props.C267_Run
import Verif.Props.C267_Values
import Verif.Props.C268_OtherLines
import Verif.Props.C269_NoStatistic
import Verif.Props.C270_CountOrder
import Verif.Props.C271_Units
import Verif.Props.C272_CtcSymmetry
import Verif.Props.C273_Rotation
import Verif.Props.C274_Sl1l2Exchange
import Verif.Props.C275_ErrorOrder
import Verif.Props.C276_SelfComparison
import Verif.Props.C277_EmptyLine
import Verif.Props.C278_Errors
import Verif.Props.C278_Intervals
import Verif.Props.C278_More
import Verif.Props.C278_Points
import Verif.Props.C279_MprColumns
import Verif.Props.C279_Names
import Verif.Props.C27_Bootstrap
import Verif.Props.C280_RegimeEof
import Verif.Props.C282_NcMasked
import Verif.Props.C284_OutputFile
import Verif.Props.C287_Steps
import Verif.Props.C288_SaveSpectra
import Verif.Props.C290_Groups
import Verif.Props.C290_ObjectStats
import Verif.Props.C291_CrossSpectra
import Verif.Props.C294_PhaseRecords
import Verif.Props.C295_Exactly
import Verif.Props.C295_ExampleDays
import Verif.Props.C296_Waves
import Verif.Props.C296_ZonalDataset
import Verif.Props.C298_KelvinExample
import Verif.Props.C30_Interval
import Verif.Props.C33_Derived
import Verif.Props.C35_Tost
import Verif.Props.C37_StdErr
import Verif.Props.C38_Thresh
import Verif.Props.C39_Difficulty
import Verif.Props.C39_Extent
import Verif.Props.C41_Filter
import Verif.Props.C42_VerticalInterp
import Verif.Props.C43_Preproc
import Verif.Props.C44_Mode
import Verif.Props.C44_Text
import Verif.Props.C45_ObjectBootstrap
import Verif.Props.C46_Extents
import Verif.Props.C47_Scorecard
import Verif.Props.C48_Runs
import Verif.Props.C49_Acf
import Verif.Props.C51_Extent
import Verif.Props.C52_DerivedValidate
import Verif.Props.C54_EqualizeAxis
import Verif.Props.C57_Validate
import Verif.Props.C60_Mcts
import Verif.Props.C63_Aggregated
import Verif.Props.C68_SpeedRun
import Verif.Props.C68_Vector
import Verif.Props.C69_VectorCorr
import Verif.Props.C70_Extents
import Verif.Props.C71_Exactly
import Verif.Props.C77_Order
import Verif.Props.C84_Run
import Verif.Props.C85_AggregateField
import Verif.Props.C87_SeveralValues
import Verif.Props.C88_PooledSkill
import Verif.Props.C90_AggEqz
import Verif.Props.C90_SeveralVariables
import Verif.Props.C92_ExtremeDependency
import Verif.Props.C95_Sl1l2Spread
import Verif.Props.C97_EnsembleSkill
import Verif.Props.C98_TostIntervals
import Verif.Props.C99_AggPoints
