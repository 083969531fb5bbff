import Verif.Props.Hex
import Verif.Props.Checksum
import Verif.Props.ChecksumErrors
import Verif.Props.ChecksumBursts
import Verif.Props.Codegen
import Verif.Props.Net
import Verif.Props.NetValues
import Verif.Props.NetCallback
import Verif.Props.NetHeap
import Verif.Props.NetZero
import Verif.Props.Fletcher16
import Verif.Props.Bytes
import Verif.Props.Ripemd
import Verif.Props.HexOrder
import Verif.Props.NetOrder
import Verif.Props.FletcherErrors
import Verif.Props.Whirlpool
import Verif.Props.WhirlpoolDiffusion
import Verif.Props.WhirlpoolLinear
import Verif.Props.HashStructure
import Verif.Props.Misc
import Verif.Props.HashHeap
import Verif.Props.BytesAlias
import Verif.Props.BytesDoc
import Verif.Spec.WhirlpoolVectors
import Verif.Props.MakeTables
import Verif.Props.SourceChecksum
import Verif.Props.SourceErrors
import Verif.Props.SourceDigests
import Verif.Props.SourceHex
import Verif.Props.SourceNet
import Verif.Props.SourceNetZero
import Verif.Props.SourceForest
import Verif.Props.SourceLibrary
import Verif.Props.NetSize
import Verif.Props.SourceNetSize
import Verif.Props.SourceNetUse
import Verif.Props.SourceGrammar
import Verif.Props.SourceMany
import Verif.Props.SourceRipemd
import Verif.Props.SourceWhirlpool
import Verif.Props.SourceTest
import Verif.Props.SourceMakeTables
import Verif.Props.SourceEndian
import Verif.Props.SourceCodegen
import Verif.Props.SourceBytes
import Verif.Conformance.Bytes
import Verif.Conformance.Checksum
import Verif.Conformance.Codegen
import Verif.Conformance.Hex
import Verif.Conformance.Language
import Verif.Conformance.Net
import Verif.Conformance.Ripemd
import Verif.Conformance.TestHelpers
import Verif.Props.SourceCounter
import Verif.Props.WhirlpoolDegree
import Verif.Props.SourceGenerated
import Verif.Props.SourceGeneratedTables
import Verif.Props.SourceHexUse
import Verif.Props.SourceCounts
import Verif.Props.SourceTime
import Verif.Props.SourceBlock
import Verif.Props.SourceNetCopy
import Verif.Props.SourcePieces
import Verif.Props.SourceParity
import Verif.Props.SourceNetRanges
import Verif.Props.SourceNetSame
import Verif.Props.SourceNetFold
import Verif.Props.SourceNetShards
import Verif.Props.SourceJoined
import Verif.Props.SourceNetLookup
