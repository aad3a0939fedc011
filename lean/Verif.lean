import Verif.Auto
import Verif.CBench
import Verif.CDec
import Verif.CTest
import Verif.Ct
import Verif.DataCsv
import Verif.EncDec
import Verif.EncMem
import Verif.EvalSpec
import Verif.Evaluator
import Verif.FlInt
import Verif.Float
import Verif.Gadget
import Verif.Go
import Verif.Heap
import Verif.HeapClient
import Verif.HeapConst
import Verif.HeapEnc
import Verif.HeapEval
import Verif.HeapKs
import Verif.HeapKsSim
import Verif.HeapLr
import Verif.HeapLrSim
import Verif.HeapSim
import Verif.Helpers
import Verif.IDSet
import Verif.KeyGen
import Verif.KeyMem
import Verif.KeySwitch
import Verif.KeySwitchSpec
import Verif.Keys
import Verif.KsMem
import Verif.KsMemRel
import Verif.KsMemRun
import Verif.KsMemSim
import Verif.Lr
import Verif.LrEval
import Verif.LrMain
import Verif.LrSetup
import Verif.LrSim
import Verif.LrSpec
import Verif.MbMain
import Verif.MulNoise
import Verif.MulSpec
import Verif.Nega
import Verif.NttInst
import Verif.Permute
import Verif.Props.CBench
import Verif.Props.CDec
import Verif.Props.CTest
import Verif.Props.CTestMore
import Verif.Props.Canon
import Verif.Props.DataCsv
import Verif.Props.DataCsvFix
import Verif.Props.DataCsvPlain
import Verif.Props.DataCsvRun
import Verif.Props.Decomp
import Verif.Props.Det
import Verif.Props.DetKeys
import Verif.Props.EncDec
import Verif.Props.EncMem
import Verif.Props.EncMemRun
import Verif.Props.EvMul
import Verif.Props.EvMulPlain
import Verif.Props.EvRot
import Verif.Props.Ex8
import Verif.Props.ExCBench
import Verif.Props.ExCDec
import Verif.Props.ExCTest
import Verif.Props.ExCTestMore
import Verif.Props.ExCover
import Verif.Props.ExCover2
import Verif.Props.ExCover3
import Verif.Props.ExCover4
import Verif.Props.ExCover5
import Verif.Props.ExDataCsv
import Verif.Props.ExDet
import Verif.Props.ExEncMem
import Verif.Props.ExEval
import Verif.Props.ExFirstStep
import Verif.Props.ExHeap
import Verif.Props.ExHeapLr
import Verif.Props.ExHelpers
import Verif.Props.ExIeee
import Verif.Props.ExKeyMem
import Verif.Props.ExKeySwitch
import Verif.Props.ExKeys
import Verif.Props.ExKsMem
import Verif.Props.ExLr
import Verif.Props.ExMain
import Verif.Props.ExSlots
import Verif.Props.ExTest
import Verif.Props.ExTestMore
import Verif.Props.ExTestRlwe
import Verif.Props.ExToy
import Verif.Props.ExToyCsv
import Verif.Props.ExWord
import Verif.Props.Exact
import Verif.Props.FirstStep
import Verif.Props.FlConst
import Verif.Props.FlInt
import Verif.Props.FlNorm
import Verif.Props.Heap
import Verif.Props.HeapLr
import Verif.Props.Helpers
import Verif.Props.History
import Verif.Props.Ieee
import Verif.Props.IeeeMain
import Verif.Props.IeeeNorm
import Verif.Props.KeyGen
import Verif.Props.KeyMem
import Verif.Props.KeyMemRun
import Verif.Props.KeySwitch
import Verif.Props.KsMem
import Verif.Props.KsMemRun
import Verif.Props.Linear
import Verif.Props.Lr
import Verif.Props.LrEval
import Verif.Props.LrLevels
import Verif.Props.LrMain
import Verif.Props.LrNum
import Verif.Props.LrPack
import Verif.Props.LrRun
import Verif.Props.LrSetup
import Verif.Props.LrSetupDirect
import Verif.Props.MbMain
import Verif.Props.MbNum
import Verif.Props.Missing
import Verif.Props.ModDown
import Verif.Props.ModUp
import Verif.Props.Rescale
import Verif.Props.Sets
import Verif.Props.Shipped
import Verif.Props.ShippedToy
import Verif.Props.Slots
import Verif.Props.Small
import Verif.Props.SmallMb
import Verif.Props.SmallToy
import Verif.Props.StdDev
import Verif.Props.Test
import Verif.Props.TestAll
import Verif.Props.TestMore
import Verif.Props.TestRlwe
import Verif.Props.Toy
import Verif.Props.ToyCsv
import Verif.Props.ToyCsvFix
import Verif.Props.ToyCsvPlain
import Verif.Props.ToyCsvResult
import Verif.Props.ToyCsvRun
import Verif.Props.ToyCsvStd
import Verif.Props.ToyNum
import Verif.Props.Utils
import Verif.RescaleSpec
import Verif.Ring
import Verif.RotSpec
import Verif.Shipped
import Verif.StdDev
import Verif.Test
import Verif.TestMore
import Verif.TestParams
import Verif.TestRlwe
import Verif.Toy
import Verif.ToyCsv
import Verif.Utils
import Verif.Word
import Verif.WordFloat
import Verif.WordRun
import Verif.WordSpec
