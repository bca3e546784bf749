import Verif.Basic
import Verif.Names
import Verif.NamesProps
import Verif.Units
import Verif.UnitsProps
import Verif.Time
import Verif.TimeLemmas
import Verif.TimeProps
import Verif.TimeProps2
import Verif.Core
import Verif.CoreSteps
import Verif.CoreTree
import Verif.CoreInv
import Verif.CoreNames
import Verif.CoreEq
import Verif.CoreSpec
import Verif.CoreReach
import Verif.CoreFrame
import Verif.CoreDemo
import Verif.CoreProps1
import Verif.CoreLog
import Verif.CoreLogInv
import Verif.CoreProps2
import Verif.CoreKids
import Verif.CoreProps3
import Verif.CoreProps4
import Verif.CoreProps5
import Verif.CoreProps6
import Verif.CoreSync
import Verif.CoreProps7
import Verif.CoreElems
import Verif.CoreProps8
import Verif.CoreProps9
import Verif.CoreProps10
import Verif.TimePoints
import Verif.TimeProps3
import Verif.Gas
import Verif.GasKeys
import Verif.GasTable
import Verif.GasProps
import Verif.Contexts
import Verif.ContextLemmas
import Verif.ContextProps
import Verif.Adapter
import Verif.AdapterProps
import Verif.Dice
import Verif.DiceLemmas
import Verif.TimeTotal
import Verif.TimeIntegral
import Verif.DiceOut
import Verif.DiceTraj
import Verif.DiceReset
import Verif.DiceRun
import Verif.DiceCalls
import Verif.DiceInit
import Verif.DiceSafe
import Verif.DiceSession
import Verif.FreshRead
import Verif.DiceDemo
import Verif.DiceProps1
import Verif.Axis
import Verif.DiceRunInit
import Verif.DiceSpec
import Verif.DiceSpec2
import Verif.DiceForward
import Verif.DiceJourney
import Verif.DiceProps2
import Verif.DiceProps3
import Verif.DiceProps4
import Verif.Regex
import Verif.FilterStr
import Verif.FilterLemmas
import Verif.FilterProps1
import Verif.Calendar
import Verif.FilterTime
import Verif.FilterProps2
import Verif.Frame
import Verif.FrameLemmas
import Verif.FrameSpec
import Verif.FrameFilter
import Verif.FrameProps1
import Verif.FrameRename
import Verif.Offsets
import Verif.OffsetProps
import Verif.FrameMake
import Verif.FrameUnits
import Verif.FrameUnits2
import Verif.FrameRef
import Verif.GuessType
import Verif.FrameInterp
import Verif.FrameInterp2
import Verif.FrameAppend
import Verif.FrameAppend2
import Verif.RoundTrip
import Verif.RoundWalk
import Verif.RoundStore
import Verif.RoundAdd
import Verif.RoundFill
import Verif.RoundGather
import Verif.RoundProps
import Verif.FrameGroup
import Verif.FrameGroupProps
import Verif.FrameResample
import Verif.FrameItems
import Verif.FrameTable
import Verif.FrameTable2
import Verif.TimeProps4
import Verif.FrameAppend3
import Verif.RoundDeep
import Verif.Exact
import Verif.FrameAppend4
import Verif.OffsetExact
import Verif.FrameResample2
import Verif.FrameSession
import Verif.FrameSessionProps
import Verif.FrameDistinct
import Verif.FrameSetMeta
import Verif.TimeAffine
import Verif.CoreUnits
import Verif.FrameCommute
import Verif.CoreKinds
import Verif.ContextState
import Verif.TimeRange
import Verif.TimeRefine
import Verif.FrameContext
import Verif.CoreRequest
import Verif.RoundMeta
import Verif.RoundMeta2
import Verif.CoreMore
import Verif.CoreKeep
import Verif.DiceAgain
import Verif.FrameAppend5
import Verif.FrameStats
import Verif.FrameRef2
import Verif.TimeGaps
import Verif.TimeGaps2
import Verif.TimeGaps3
import Verif.CoreGaps
import Verif.CoreOptions
import Verif.Version
import Verif.VersionProps
import Verif.VersionArchive
import Verif.VersionDir
import Verif.FrameIam
import Verif.FrameIam2
import Verif.FrameIam3
import Verif.FrameSource
import Verif.FrameSource2
import Verif.FrameViews
import Verif.DiceMono
import Verif.DiceMono2
import Verif.TimeClock
import Verif.FrameSelect
import Verif.FrameSelect2
import Verif.TimeStable
import Verif.TimeThrough
import Verif.FrameRefine
import Verif.DiceRest
import Verif.FrameLoad
import Verif.FrameLoad2
import Verif.CoreOpaque
import Verif.RoundAny
import Verif.FrameAny
import Verif.FrameDice
import Verif.DiceFrame
import Verif.FrameMean
import Verif.FrameJoin
import Verif.Scenarios
import Verif.FrameNeeds
import Verif.FrameLoads
import Verif.FrameScalars
import Verif.FrameOrder
import Verif.FramePart
import Verif.FrameConverted
import Verif.FrameAlone
import Verif.FrameRenamed
import Verif.DiceSame
import Verif.DiceScalars
import Verif.DiceOutputs
