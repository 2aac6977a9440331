import Verif.PropIds
import Verif.PropStorage
import Verif.PropLoad
import Verif.PropHandlers
import Verif.PropFlow
import Verif.PropTravel
import Verif.PropForeign
import Verif.PropGuards
import Verif.PropSources
import Verif.PropCapture
import Verif.PropConvert
import Verif.PropResult
import Verif.PropAccess
import Verif.PropMem
import Verif.PropOptional
import Verif.PropCaptureList
import Verif.PropExcObj
import Verif.PropTls
import Verif.PropTypeName
import Verif.PropPred
import Verif.PropDiag
import Verif.PropContext
import Verif.PropUnload
import Verif.PropThreads
import Verif.PropIdsConc
import Verif.JobLemmas
import Verif.PropJobs
import Verif.ThrowModel
import Verif.PropThrow
import Verif.GuardModel
import Verif.PropMoved
import Verif.NoExcModel
import Verif.PropNoExc
import Verif.Direct
import Verif.DirectLemmas
import Verif.DirectHandle
import Verif.PropDirect
import Verif.PropDirectConc
import Verif.FnModel
import Verif.PropFn
import Verif.RefModel
import Verif.PropRef
import Verif.BuildModel
import Verif.BuildSpec
import Verif.BuildLemmas
import Verif.PropBuild
import Verif.PropArr
import Verif.PropActivator
import Verif.PropRemote
import Verif.PropRemoteMore
import Verif.PropExt
import Verif.PropErrorId
import Verif.PropLife
import Verif.Tests
import Verif.TestsHandling
import Verif.TestsExceptions
import Verif.TestsObjects
import Verif.PropDirectJobs
import Verif.DirectBound
import Verif.Examples
import Verif.PropExamples
import Verif.PropExampleTasks
import Verif.PropProgress
import Verif.PropExtDirect
import Verif.UnwindModel
import Verif.UnwindLemmas
import Verif.UnwindKeep
import Verif.UnwindFlow
import Verif.PropUnwind
import Verif.PropMp
import Verif.PropSig
import Verif.AllocModel
import Verif.AllocBase
import Verif.AllocTotal
import Verif.AllocEq
import Verif.PropAlloc
import Verif.FnThrowModel
import Verif.PropFnThrow
import Verif.CheckModel
import Verif.PropCheck
import Verif.CtorModel
import Verif.PropCtor
import Verif.InitModel
import Verif.PropInit
import Verif.PrintModel
import Verif.PropPrint
import Verif.CostModel
import Verif.CostLemmas
import Verif.CostBase
import Verif.CostProg
import Verif.PropCost
import Verif.CommonModel
import Verif.PropCommon
import Verif.GuardMoveModel
import Verif.PropGuardMove
import Verif.UnwantedSpec
import Verif.UnwantedLemmas
import Verif.CalledLemmas
import Verif.PropUnwanted
import Verif.PropErrorLog
import Verif.SplitSpec
import Verif.SplitKeep
import Verif.SplitLemmas
import Verif.SplitOuter
import Verif.SplitBoth
import Verif.PropSplit
import Verif.PropSplitChain
import Verif.PropRefactor
