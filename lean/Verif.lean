import Verif.Props.Indexer
import Verif.Props.IndexerSep
import Verif.Props.IndexerClass
import Verif.Props.IndexerAttrs
import Verif.Props.AttrErrors
import Verif.Props.KeySet
import Verif.Props.SubClass
import Verif.Props.IndexerScan
import Verif.Props.Collection
import Verif.Props.Writer
import Verif.Props.Handle
import Verif.Props.Metadata
import Verif.Props.Filter
import Verif.Props.ColumnIndex
import Verif.Props.Segment
import Verif.Props.SegmentSeries
import Verif.Props.Aggregate
import Verif.Props.SeedIter
import Verif.Props.AggStream
import Verif.Props.AggTotal
import Verif.Props.WriteWhen
import Verif.Props.WriteWindow
import Verif.Props.AggRestart
import Verif.Props.AggSeedCheck
import Verif.Props.AggParallel
import Verif.Props.KeysConfig
import Verif.Props.AggStore
import Verif.Props.AggWithin
import Verif.Props.AggPending
import Verif.Props.AggSettings
import Verif.Props.AggLife
import Verif.Props.ResultCols
import Verif.Props.AggBuffer
import Verif.Props.AggRefused
import Verif.Props.AggMemory
import Verif.Props.AggSetup
import Verif.Props.AggPost
import Verif.Props.AggRaise
import Verif.Props.Calendar
import Verif.Props.CalendarLife
import Verif.Tests.Writer
import Verif.Tests.Store
import Verif.Tests.Segment
import Verif.Tests.Aggregate
import Verif.Tests.AggStream
import Verif.Tests.AggStreamAdvanced
import Verif.Tests.AggStreamInit
import Verif.Props.StoreSteps
import Verif.Props.StoreRace
import Verif.Props.KeysConfigErrors
import Verif.Props.CollectionShare
import Verif.Props.SegmentRaises
import Verif.Props.Resolution
import Verif.Props.CollectionItems
import Verif.Props.AggArrays
import Verif.Props.TupleText
import Verif.Props.FloatSize
import Verif.Props.PartFiles
import Verif.Props.VaexWrite
import Verif.Props.FrameCols
import Verif.Props.Inherit
import Verif.Props.Nirgs
import Verif.Props.Chained
import Verif.Props.Reading
import Verif.Props.Feeding
