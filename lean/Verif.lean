import Verif.Props.Bits
import Verif.Props.Channel
import Verif.Props.Layout
import Verif.Props.Read
import Verif.Props.Vlsd
import Verif.Props.Queue
import Verif.Props.Store
import Verif.Props.Finalize
import Verif.Props.TypedObs
import Verif.Props.Transpose
import Verif.Props.Text
import Verif.Props.Block
import Verif.Props.Utf
import Verif.Props.Observer
import Verif.Props.Comment
import Verif.Props.PropValue
import Verif.Props.Lookup
import Verif.Props.HdComment
import Verif.Props.Ho
import Verif.Props.Array
import Verif.Props.Refs
import Verif.Props.Bus
import Verif.Props.Mdf3Meta
import Verif.Props.Session
import Verif.Props.Task
import Verif.Props.TaskMore
import Verif.Props.ReaderMore
import Verif.Props.Mdf3Old
import Verif.Props.LockMore
import Verif.Props.CsvNames
import Verif.Props.DataListMore
import Verif.Props.ZStream
import Verif.Props.BusName
import Verif.Props.CanCall
import Verif.Props.DataWriter
import Verif.Props.Number
import Verif.Props.CommentKinds
import Verif.Props.Csv
import Verif.Props.DataList
import Verif.Props.Format
import Verif.Props.Convert
import Verif.Props.Can
import Verif.Props.Id
import Verif.Props.CanOpen
import Verif.Props.Mdf3
import Verif.Props.Meta
import Verif.Props.Cut
import Verif.Props.Double
import Verif.Props.Sort
import Verif.Props.Groups
import Verif.Props.Xml
import Verif.Props.Md5
import Verif.Props.Attach
import Verif.Props.Time
import Verif.Props.CsvFiles
import Verif.Props.Opening
import Verif.Props.Reader
import Verif.Props.Edges
import Verif.Props.ReadEmpty
import Verif.Props.BlockSize
import Verif.Props.Append
import Verif.Props.Lookup
import Verif.Props.StartTime
import Verif.Props.Edges2
import Verif.Props.SortConfig
import Verif.Props.ExpLog
import Verif.Props.Lock
import Verif.Props.CApi
import Verif.Props.BusConfig
import Verif.Props.SourceInfo
import Verif.Props.Half
import Verif.Props.Names
import Verif.Props.InitFile
import Verif.Props.XAxis
import Verif.Props.Pins
import Verif.Props.Members
import Verif.Props.Pins2
import Verif.Props.Sr3
import Verif.Props.SortHead
import Verif.Props.EventApi
import Verif.Props.FileApi
import Verif.Props.TagValue
import Verif.Props.Pins3
import Verif.Props.Rare3
import Verif.Props.Parent
import Verif.Props.Converter
import Verif.Props.PreTrig
import Verif.Props.BlockProp
