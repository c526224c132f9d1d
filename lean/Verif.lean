import Verif.IntProps
import Verif.IntText
import Verif.VectorProps
import Verif.RelationProps6
import Verif.RelationListProps
import Verif.UtilProps
import Verif.StringsProps
import Verif.RelationTextProps
import Verif.RelationPrintProps
import Verif.InterfaceProps
import Verif.GenericTextProps
import Verif.BodyProps
import Verif.ScopProps
import Verif.ExtSimpleProps
import Verif.ExtTextProps
import Verif.ExtMiscProps
import Verif.ExtIrregular
import Verif.ExtIrregularProps
import Verif.ExtArraysProps
import Verif.ExtDepProps
import Verif.ExtLoopProps
import Verif.StatementText
import Verif.StatementTextProps
import Verif.ScopText
import Verif.ScopTextProps
import Verif.ScopTextExample
import Verif.ExtSymbols
import Verif.ExtSymbolsProps
import Verif.Library
import Verif.LibraryProps
import Verif.LibraryExample
import Verif.Heap
import Verif.HeapSep
import Verif.HeapRel
import Verif.HeapMat
import Verif.HeapRelProps
import Verif.HeapChain
import Verif.HeapRelation
import Verif.HeapRelationProps
import Verif.HeapRelationOps
import Verif.HeapRelationMem
import Verif.HeapExample
import Verif.HeapList
import Verif.HeapListProps
import Verif.HeapListExample
import Verif.HeapStrings
import Verif.HeapStringsProps
import Verif.HeapStringsExample
import Verif.HeapGeneric
import Verif.HeapGenericProps
import Verif.HeapGenericProps2
import Verif.HeapGenericExample
import Verif.HeapTac
import Verif.HeapStatement
import Verif.HeapStatementProps
import Verif.HeapScop
import Verif.HeapScopProps
import Verif.HeapScopNorm
import Verif.HeapScopExample
import Verif.HeapExt
import Verif.HeapExtProps
import Verif.HeapExtProps2
import Verif.HeapExtProps3
import Verif.HeapExtProps4
import Verif.HeapExtProps5
import Verif.HeapExtProps6
import Verif.HeapLib
import Verif.HeapLibExample
import Verif.ScopPrintProps
import Verif.ScopPrintDefault
import Verif.ReadShape
import Verif.ReadLines
import Verif.ReadValues
import Verif.ReadScop
import Verif.ReadScopExample
import Verif.ReadLocal
import Verif.Scoplib
import Verif.ScoplibTable
import Verif.ScoplibProps
import Verif.ScoplibSizes
import Verif.ScoplibAccess
import Verif.ScoplibCheck
import Verif.ScoplibScop
import Verif.ScoplibText
import Verif.ScoplibLossless
import Verif.ScoplibLossless2
import Verif.ScoplibExample
import Verif.CommentSpec
import Verif.CommentProps
import Verif.CommentText
import Verif.CommentHeader
import Verif.CommentScop
import Verif.ScoplibDefault
import Verif.IntExact
import Verif.ExactProps
import Verif.Dump
import Verif.DumpProps
import Verif.DumpRel
import Verif.DumpScop
import Verif.DumpExt
import Verif.DumpLib
import Verif.DumpLevel
import Verif.DumpLevelExt
import Verif.DumpFind
import Verif.HeapRead
import Verif.HeapReadProps
import Verif.HeapReadProps2
import Verif.HeapReadRel
import Verif.HeapReadRelProps
import Verif.HeapReadList
import Verif.HeapReadListProps
import Verif.HeapReadGen
import Verif.HeapReadGenProps
import Verif.HeapReadLib
import Verif.HeapReadScop
import Verif.HeapReadStmtProps
import Verif.HeapReadScopProps
import Verif.HeapReadTop
import Verif.HeapReadExample
import Verif.HeapReadClean
import Verif.HeapVec
import Verif.HeapVecProps
import Verif.HeapVecOps
import Verif.HeapVecRel
import Verif.HeapVecExample
import Verif.HeapPrint
import Verif.HeapPrintProps
import Verif.HeapPrintProps2
import Verif.HeapPrintProps3
import Verif.HeapPrintProps4
import Verif.HeapPrintList
import Verif.HeapPrintExample
import Verif.HeapPrintExt
import Verif.HeapPrintExtProps
import Verif.HeapPrintExtProps2
import Verif.HeapPrintExtProps3
import Verif.HeapPrintExtProps4
import Verif.HeapPrintGenProps
import Verif.HeapPrintLib
import Verif.HeapPrintLibExample
import Verif.HeapQueryRel
import Verif.HeapQueryProps
import Verif.HeapQueryRelProps
import Verif.HeapQuery
import Verif.HeapQueryGenProps
import Verif.HeapQueryStmtProps
import Verif.HeapQueryScopProps
import Verif.HeapQueryTac
import Verif.HeapQueryExt
import Verif.HeapQueryExtProps
import Verif.HeapQueryExtProps2
import Verif.HeapQueryExtProps3
import Verif.HeapQueryExtProps4
import Verif.HeapQueryLib
import Verif.HeapQueryExample
import Verif.HeapPrintScop
import Verif.HeapPrintScopProps
import Verif.HeapPrintStmtProps
import Verif.HeapPrintTopProps
import Verif.HeapPrintTopProps2
import Verif.HeapPrintTopProps3
import Verif.HeapPrintScopLib
import Verif.HeapUpdateProps
import Verif.HeapUpdateQuery
import Verif.HeapUpdateScop
import Verif.HeapUpdateExample
import Verif.HeapInt
import Verif.HeapIntProps
import Verif.HeapIntProps2
import Verif.HeapIntProps3
import Verif.HeapIntExample
import Verif.HeapIrr
import Verif.HeapIrrProps
import Verif.HeapIrrProps2
import Verif.HeapIrrProps3
import Verif.HeapIrrProps4
import Verif.HeapIrrText
import Verif.HeapIrrTextProps
import Verif.HeapIrrExample
import Verif.HeapScoplib
import Verif.HeapScoplibProps
import Verif.HeapScoplibProps2
import Verif.HeapScoplibProps3
import Verif.HeapScoplibProps4
import Verif.HeapScoplibProps5
import Verif.HeapScoplibLib
import Verif.HeapDump
import Verif.HeapDumpProps
import Verif.HeapDumpProps2
import Verif.HeapDumpProps3
import Verif.HeapDumpProps4
import Verif.HeapDumpDep
import Verif.HeapDumpLib
import Verif.HeapHistory
import Verif.HeapHistoryProps
import Verif.HeapHistoryCalls
import Verif.HeapHistoryVec
import Verif.HeapHistoryOps
import Verif.HeapHistoryTop
import Verif.HeapHistoryExample
import Verif.Stored
import Verif.StoredRead
import Verif.StoredLib
import Verif.StoredVec
import Verif.StoredHistory
import Verif.Defined
import Verif.DefinedExt
import Verif.DefinedText
import Verif.DefinedPrint
import Verif.DefinedRead
import Verif.DefinedHistory
import Verif.DefinedExample
