import Verif.Lemmas.PyDict
import Verif.Props.NumericStats
import Verif.Props.Nested
import Verif.Props.Chunks
import Verif.Props.Shuffle
import Verif.Props.MergeList
import Verif.Props.Calculations
import Verif.Props.Pool
import Verif.Props.ChiSquared
import Verif.Props.Diff
import Verif.Model.Histogram
import Verif.Spec.Histogram
import Verif.Lemmas.Histogram
import Verif.Lemmas.HistogramPct
import Verif.Lemmas.HistogramMode
import Verif.Lemmas.HistogramStream
import Verif.Lemmas.HistogramMad
import Verif.Lemmas.HistogramFold
import Verif.Props.Histogram
import Verif.Props.Categorical
import Verif.Props.Order
import Verif.Props.Nulls
import Verif.Props.Schema
import Verif.Props.TablePool
import Verif.Props.TableMerge
import Verif.Props.RowStats
import Verif.Props.SampleSize
import Verif.Props.Correlation
import Verif.Props.NullRep
import Verif.Props.ColumnTypes
import Verif.Props.Vocab
import Verif.Props.Precision
import Verif.Props.DateTime
import Verif.Props.Labels
import Verif.Props.Entities
import Verif.Props.Words
import Verif.Props.Quantiles
import Verif.Props.Flat
import Verif.Props.Prepare
import Verif.Props.OptionsValid
import Verif.Props.OptionsSet
import Verif.Props.Graph
import Verif.Props.Persist
import Verif.Props.Validator
import Verif.Props.Reservoir
import Verif.Props.Sniff
import Verif.Props.Json
import Verif.Props.CharProcess
import Verif.Props.CharLabels
import Verif.Props.CharShare
import Verif.Props.Postprocess
import Verif.Props.RegexLabel
import Verif.Props.LabelMap
import Verif.Props.ClassReport
import Verif.Props.Training
import Verif.Props.ColumnName
import Verif.Props.Pipeline
import Verif.Props.Csv
import Verif.Props.GraphRead
import Verif.Props.Reader
import Verif.Props.ReaderInit
import Verif.Props.JsonNest
import Verif.Props.JsonRead
import Verif.Props.HistColumn
import Verif.Props.BinWidth
import Verif.Props.BatchBins
import Verif.Props.TTest
import Verif.Props.NumPsi
import Verif.Props.ProfileDiff
import Verif.Props.ProfileDiffTable
import Verif.Props.ProfileDiffCases
import Verif.Props.Unstructured
import Verif.Props.UnstructuredCases
import Verif.Props.UnstructuredDiff
import Verif.Props.Report
import Verif.Props.ReportCases
import Verif.Props.LabelerDisk
import Verif.Props.UnstructuredName
import Verif.Props.LabelerEq
import Verif.Props.ColumnHistory
import Verif.Props.ColumnJson
import Verif.Props.FScore
import Verif.Props.Network
import Verif.Props.Source
import Verif.Props.TableRead
import Verif.Props.Plot
import Verif.Props.Factory
import Verif.Props.Predict
import Verif.Props.Enabled
import Verif.Props.EncodedChars
import Verif.Props.Avro
import Verif.Props.Seed
import Verif.Props.Column
import Verif.Props.TableStats
import Verif.Props.NullMatch
import Verif.Props.CsvRecords
import Verif.Props.ColumnHist
import Verif.Props.ColumnLabel
import Verif.Props.TableMore
import Verif.Props.Attribute
import Verif.Props.ModelObjects
import Verif.Props.ProcParams
import Verif.Props.FloatStats
import Verif.Props.Streams
import Verif.Props.MethodChoice
import Verif.Props.OptionObjects
import Verif.Props.Snapshot
import Verif.Props.Apart
import Verif.Props.Registry
import Verif.Props.Abort
import Verif.Props.Logging
import Verif.Props.Embedding
import Verif.Props.Require
import Verif.Props.F1Text
import Verif.Props.Memory
import Verif.Props.Metadata
import Verif.Props.Origin
import Verif.Props.Mergeable
import Verif.Props.WholeText
