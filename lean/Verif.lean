import Verif.Model.Basic
import Verif.Model.Util
import Verif.Spec.Bcd
import Verif.Lemmas.Bytes
import Verif.Lemmas.Bcd
import Verif.Props.Bcd
import Verif.Model.RawIO
import Verif.Spec.RawIO
import Verif.Lemmas.RawIO
import Verif.Props.RawIO
import Verif.Model.Ebcdic
import Verif.Props.Ebcdic
import Verif.Model.Float
import Verif.Spec.Float
import Verif.Lemmas.Float
import Verif.Model.Samples
import Verif.Lemmas.Samples
import Verif.Lemmas.Ibm
import Verif.Lemmas.Nearest
import Verif.Spec.Samples
import Verif.Lemmas.SampleFmt
import Verif.Props.Samples
import Verif.Model.BinHeader
import Verif.Spec.BinHeader
import Verif.Lemmas.BinHeader
import Verif.Props.BinHeader
import Verif.Model.HdrMap
import Verif.Model.TraceHdr
import Verif.Spec.TraceHdr
import Verif.Spec.StdTraceHdr
import Verif.Lemmas.TraceHdr
import Verif.Props.TraceHdr
import Verif.Model.File
import Verif.Model.ISEGY
import Verif.Model.TextHdr
import Verif.Model.OSEGY
import Verif.Spec.SEGY
import Verif.Lemmas.File
import Verif.Lemmas.ISEGY
import Verif.Lemmas.Open
import Verif.Lemmas.Visits
import Verif.Lemmas.OpenOf
import Verif.Lemmas.OSEGY
import Verif.Props.ISEGY
import Verif.Spec.OSEGY
import Verif.Lemmas.OpenWriter
import Verif.Lemmas.WriteStep
import Verif.Lemmas.WriteInv
import Verif.Lemmas.WriteOf
import Verif.Lemmas.Trunc
import Verif.Props.OSEGY
import Verif.Lemmas.E2E
import Verif.Props.TextHdr
import Verif.Spec.E2E
import Verif.Props.E2E
import Verif.Props.E2EAuto
import Verif.Props.Copy
import Verif.Model.Sorted1D
import Verif.Spec.Sorted1D
import Verif.Lemmas.ValueOrder
import Verif.Lemmas.VecMap
import Verif.Lemmas.Sorted1D
import Verif.Props.Sorted1D
import Verif.Model.Names
import Verif.Model.Exception
import Verif.Model.Description
import Verif.Props.Names
import Verif.Props.Exception
import Verif.Props.Description
import Verif.Model.SegdFloat
import Verif.Model.SegdCur
import Verif.Model.SegdGen
import Verif.Spec.SegdGen
import Verif.Lemmas.SegdCur
import Verif.Lemmas.SegdFloat
import Verif.Lemmas.SegdGen
import Verif.Lemmas.SegdGen2
import Verif.Props.SegdGen
import Verif.Model.SegdChSet
import Verif.Spec.SegdChSet
import Verif.Lemmas.SegdChSet
import Verif.Props.SegdChSet
import Verif.Model.SegdTrace
import Verif.Spec.SegdTrace
import Verif.Lemmas.SegdTrace
import Verif.Props.SegdTrace
import Verif.Model.SegdExt
import Verif.Spec.SegdExt
import Verif.Lemmas.SegdExt
import Verif.Props.SegdExt
import Verif.Model.Sercel
import Verif.Props.Sercel
import Verif.Model.SegdSample
import Verif.Spec.SegdSample
import Verif.Lemmas.SegdSample
import Verif.Props.SegdSample
import Verif.Model.SegdRev3
import Verif.Model.SegdReader
import Verif.Model.SegdWriter
import Verif.Spec.SegdIO
import Verif.Lemmas.SegdWriter
import Verif.Lemmas.SegdReader
import Verif.Props.SegdWriter
import Verif.Props.SegdReader
import Verif.Spec.SegdRev3
import Verif.Lemmas.SegdRev3
import Verif.Props.SegdRev3
import Verif.Lemmas.SegdRecord
import Verif.Props.SegdRecord
import Verif.Spec.SegdE2E
import Verif.Lemmas.SegdE2E
import Verif.Lemmas.SegdE2E2
import Verif.Props.SegdE2E
import Verif.Props.Formats
import Verif.Model.SegdRev3W
import Verif.Spec.SegdRev3W
import Verif.Lemmas.SegdRev3W
import Verif.Props.SegdRev3W
import Verif.Props.SegdRev3H
import Verif.Model.TraceObj
import Verif.Spec.TraceObj
import Verif.Lemmas.TraceObj
import Verif.Props.TraceObj
import Verif.Model.PyBind
import Verif.Props.PyBind
import Verif.Lemmas.Comes
import Verif.Spec.SegdPacked
import Verif.Lemmas.SegdPut
import Verif.Lemmas.SegdPacked
import Verif.Props.SegdPacked
import Verif.Spec.Safe
import Verif.Lemmas.Safe
import Verif.Props.Safe
import Verif.Spec.SegdSafe
import Verif.Lemmas.SegdSafe
import Verif.Props.SegdSafe
import Verif.Spec.SegdLayout
import Verif.Lemmas.SegdLayout
import Verif.Props.SegdLayout
import Verif.Model.OSEGYFail
import Verif.Spec.OSEGYFail
import Verif.Lemmas.OSEGYFail
import Verif.Props.OSEGYFail
import Verif.Model.ISEGYFail
import Verif.Spec.ISEGYFail
import Verif.Lemmas.ISEGYFail
import Verif.Props.ISEGYFail
import Verif.Model.SegdFail
import Verif.Spec.SegdFail
import Verif.Lemmas.SegdFail
import Verif.Lemmas.SegdLocal
import Verif.Props.SegdFail
import Verif.Model.PyIter
import Verif.Spec.PyIter
import Verif.Props.PyIter
import Verif.Model.Sorted1DFail
import Verif.Spec.Sorted1DFail
import Verif.Lemmas.Sorted1DFail
import Verif.Lemmas.SortedWithin
import Verif.Props.Sorted1DFail
import Verif.Spec.Convert
import Verif.Lemmas.Convert
import Verif.Props.Convert
import Verif.Spec.MapView
import Verif.Lemmas.MapView
import Verif.Props.MapView
import Verif.Spec.SegyCut
import Verif.Lemmas.SegyCut
import Verif.Props.SegyCut
import Verif.Spec.Copy12
import Verif.Lemmas.Copy12
import Verif.Props.Copy12
import Verif.Lemmas.SortFile
import Verif.Props.SortFile
import Verif.Spec.SegdCopy
import Verif.Lemmas.SegdCopy
import Verif.Props.SegdCopy
import Verif.Lemmas.TextHdr
import Verif.Model.FloatAny
import Verif.Spec.FloatAny
import Verif.Lemmas.FloatAny
import Verif.Props.FloatAny
import Verif.Model.OSEGYDisk
import Verif.Spec.OSEGYDisk
import Verif.Lemmas.OSEGYDisk
import Verif.Props.OSEGYDisk
import Verif.Spec.SegdDisk
import Verif.Lemmas.SegdDisk
import Verif.Props.SegdDisk
import Verif.Spec.SegdJoin
import Verif.Lemmas.SegdJoin
import Verif.Props.SegdJoin
import Verif.Spec.Mirror
import Verif.Lemmas.Mirror
import Verif.Props.Mirror
import Verif.Model.HostOrder
import Verif.Spec.HostOrder
import Verif.Lemmas.HostOrder
import Verif.Props.HostOrder
import Verif.Spec.Platform
import Verif.Lemmas.Platform
import Verif.Props.Platform
import Verif.Spec.Stable
import Verif.Lemmas.Stable
import Verif.Props.Stable
import Verif.Model.Stream
import Verif.Lemmas.Stream
import Verif.Props.FullDisk
import Verif.Model.PyText
import Verif.Lemmas.PyText
import Verif.Props.PyText
import Verif.Spec.Memory
import Verif.Lemmas.Memory
import Verif.Lemmas.MemoryD
import Verif.Props.Memory
import Verif.Lemmas.MirrorStanza
import Verif.Spec.SegdRefused
import Verif.Lemmas.SegdRefused
import Verif.Props.SegdRefused
import Verif.Spec.SegdLossy
import Verif.Lemmas.SegdLossy
import Verif.Props.SegdLossy
import Verif.Spec.Transfer
import Verif.Lemmas.Transfer
import Verif.Props.Transfer
import Verif.Props.Transfer2
import Verif.Model.LogLib
import Verif.Spec.LogLib
import Verif.Spec.IbmFile
import Verif.Lemmas.Round
import Verif.Lemmas.LogLib
import Verif.Lemmas.LogReal
import Verif.Lemmas.LogIbm
import Verif.Lemmas.LogExists
import Verif.Lemmas.LogWitness
import Verif.Props.LogLib
import Verif.Spec.Locality
import Verif.Lemmas.Locality
import Verif.Props.Locality
import Verif.Lemmas.Pieces
import Verif.Props.Pieces
import Verif.Spec.Rewrite
import Verif.Lemmas.Rewrite
import Verif.Props.Rewrite
import Verif.Spec.SegdLocality
import Verif.Lemmas.SegdLocality
import Verif.Props.SegdLocality
import Verif.Model.Process
import Verif.Spec.Process
import Verif.Lemmas.Process
import Verif.Props.Process
import Verif.Spec.SegdSplit
import Verif.Lemmas.SegdSplit
import Verif.Props.SegdSplit
import Verif.Spec.SampleOrder
import Verif.Lemmas.FloatMono
import Verif.Lemmas.SampleOrder
import Verif.Lemmas.IbmOrder
import Verif.Props.SampleOrder
import Verif.Spec.Damage
import Verif.Lemmas.Damage
import Verif.Props.Damage
import Verif.Spec.SegdDamage
import Verif.Lemmas.SegdDamage
import Verif.Props.SegdDamage
import Verif.Spec.SegdOrder
import Verif.Lemmas.SegdOrder
import Verif.Props.SegdOrder
import Verif.Spec.SegyLayout
import Verif.Lemmas.SegyLayout
import Verif.Props.SegyLayout
import Verif.Spec.MultiSort
import Verif.Lemmas.MultiSort
import Verif.Props.MultiSort
import Verif.Spec.SegdRewrite
import Verif.Lemmas.SegdRewrite
import Verif.Props.SegdRewrite
import Verif.Spec.Pick
import Verif.Lemmas.Pick
import Verif.Props.Pick
import Verif.Spec.Edit
import Verif.Lemmas.Edit
import Verif.Props.Edit
import Verif.Spec.SegdParts
import Verif.Lemmas.SegdParts
import Verif.Props.SegdRev3Set
import Verif.Props.SegdParts
import Verif.Spec.Resample
import Verif.Lemmas.Resample
import Verif.Props.Resample
import Verif.Spec.SegdResample
import Verif.Props.SegdResample
import Verif.Spec.Relabel
import Verif.Props.Relabel
import Verif.Spec.Merge
import Verif.Lemmas.Merge
import Verif.Props.Merge
import Verif.Spec.Collect
import Verif.Props.Collect
import Verif.Spec.Gather
import Verif.Props.Gather
import Verif.Spec.Chain
import Verif.Props.Chain
