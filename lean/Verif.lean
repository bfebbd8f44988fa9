import Verif.Props.IpV4
import Verif.Props.IpV6
import Verif.Props.Mac
import Verif.Props.RuleSelector
import Verif.Props.Counter
import Verif.Props.Gauge
import Verif.Props.Histogram
import Verif.Props.MetricText
import Verif.Props.SiemIp
import Verif.Props.Field
import Verif.Props.FieldText
import Verif.Props.Log
import Verif.Props.CommonTags
import Verif.Props.Schema
import Verif.Props.Mitre
import Verif.Props.Rule
import Verif.Props.Datasets
import Verif.Props.Net
import Verif.Props.DatasetBatches
import Verif.Props.Calendar
import Verif.Props.I18n
import Verif.Props.SiemDataset
import Verif.Props.Sigma
import Verif.Props.Query
import Verif.Props.Events
import Verif.Props.EventNames
import Verif.Props.Storage
import Verif.Props.Kernel
import Verif.Props.Simplified
import Verif.Props.Wire
import Verif.Props.RuleWire
import Verif.Props.EventWire
import Verif.Props.ErrorWire
import Verif.Props.SelfWire
import Verif.Props.UpdateWire
import Verif.Props.BaseSchema
import Verif.Props.SchemaWire
import Verif.Props.Testing
import Verif.Props.SigmaWire
import Verif.Props.Ieee
import Verif.Props.Date
import Verif.Props.Decimal
import Verif.Props.JsonTypes
import Verif.Props.JsonMore
import Verif.Props.GeoText
import Verif.Props.DatasetSame
import Verif.Props.CellOrder
import Verif.Props.FieldMore
import Verif.Props.IpFields
import Verif.Props.LogMessage
import Verif.Props.MacExact
import Verif.Props.MemberOrder
import Verif.Props.Structures
import Verif.Props.GeoDocument
import Verif.Props.Variants
import Verif.Props.Members
import Verif.Props.StorageThreads
import Verif.Props.MetricHandles
import Verif.Props.MetricWriting
import Verif.Props.MitreJson
import Verif.Props.IntoField
import Verif.Props.Accessors
import Verif.Props.GeoDisk
import Verif.Props.TestingLogger
import Verif.Props.HistogramMoments
import Verif.Props.MetricTextMoments
import Verif.Props.Orders
import Verif.Props.ChannelRoom
import Verif.Props.Pipeline
import Verif.Props.StopReached
import Verif.Props.MinusZero
import Verif.Props.Pool
import Verif.Props.RepoTests
import Verif.Props.Report
import Verif.Props.ReportTeam
import Verif.Props.Enrich
