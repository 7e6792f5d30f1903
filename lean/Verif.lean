import Verif.Core.Outcome
import Verif.Core.Bytes
import Verif.Core.Lists
import Verif.Core.Text
import Verif.Params.Model
import Verif.Raster.Codec
import Verif.Raster.Header
import Verif.Raster.Page
import Verif.Raster.CodecLemmas
import Verif.Raster.Spec
import Verif.Raster.PageLemmas
import Verif.Raster.HeaderLemmas
import Verif.Raster.PageCore
import Verif.Raster.Offsets
import Verif.Raster.UrfLemmas
import Verif.Raster.DocLemmas
import Verif.Raster.SizeLemmas
import Verif.Raster.Pnm
import Verif.Raster.PnmLemmas
import Verif.Raster.Props
import Verif.Raster.Stream
import Verif.Raster.ToolChain
import Verif.Raster.StreamProps
import Verif.Check.Pacman
import Verif.Text.Model
import Verif.Text.Lemmas
import Verif.Text.Props
import Verif.Params.Pages
import Verif.Params.Spec
import Verif.Params.RangeLemmas
import Verif.Params.SeqLemmas
import Verif.Params.PaperLemmas
import Verif.Core.Double
import Verif.Core.DoubleLemmas
import Verif.Params.SizeLemmas
import Verif.Params.Props
import Verif.Params.SizeProps
import Verif.Core.KMap
import Verif.Ipp.Value
import Verif.Ipp.Msg
import Verif.Ipp.Spec
import Verif.Ipp.EncodeLemmas
import Verif.Ipp.DecodeLemmas
import Verif.Ipp.MsgLemmas
import Verif.Ipp.UbLemmas
import Verif.Ipp.Props
import Verif.Ipp.Json
import Verif.Ipp.JsonProps
import Verif.Ipp.Setting
import Verif.Ipp.SettingProps
import Verif.Ipp.SaveProps
import Verif.Job.Convert
import Verif.Job.ConvertProps
import Verif.Job.Model
import Verif.Job.Lemmas
import Verif.Job.JobProps
import Verif.Job.DuplexProps
import Verif.Job.ResolutionProps
import Verif.Job.SettingProps
import Verif.Job.MediaProps
import Verif.Printer.JobListProps
import Verif.Printer.Manage
import Verif.Printer.ManageProps
import Verif.Printer.Model
import Verif.Printer.RefreshProps
import Verif.Printer.RunProps
import Verif.Printer.SupplyProps
import Verif.Transport.Model
import Verif.Transport.Spec
import Verif.Transport.Inv
import Verif.Transport.Stream
import Verif.Transport.Props
import Verif.Transport.Compress
import Verif.Transport.Progress
import Verif.Transport.Narrow
import Verif.Discovery.Model
import Verif.Discovery.Names
import Verif.Discovery.Spec
import Verif.Discovery.QueryProps
import Verif.Discovery.LongQuery
import Verif.Discovery.ReportProps
import Verif.Discovery.Throttle
import Verif.Discovery.Secure
import Verif.Discovery.AnswerSpec
import Verif.Discovery.Answers
import Verif.Discovery.AnswerProps
import Verif.Discovery.FollowUp
import Verif.Tools.Args
import Verif.Tools.ArgsProps
import Verif.Tools.Bsplit
import Verif.Tools.Mime
import Verif.Pdf.Raster
import Verif.Pdf.Luma
import Verif.Pdf.RasterProps
import Verif.Pdf.PixelProps
import Verif.Pdf.DitherProps
import Verif.Pdf.Scale
import Verif.Pdf.ScaleProps
import Verif.Pdf.Model
import Verif.Pdf.Props
import Verif.Client.Model
import Verif.Client.ArgsProps
import Verif.Client.CommandProps
import Verif.Client.PrintProps
import Verif.Client.SentProps
import Verif.Client.ForeignProps
import Verif.Client.SavedProps
import Verif.Convert.Model
import Verif.Convert.PdfProps
import Verif.Convert.PnmProps
import Verif.Jpeg.Model
import Verif.Jpeg.Props
import Verif.Raster.Cut
import Verif.Client.Info
import Verif.Client.InfoProps
import Verif.Client.Show
import Verif.Client.ShowProps
import Verif.Client.ShownProps
import Verif.Client.JobIdProps
import Verif.Printer.Connect
import Verif.Printer.ConnectProps
import Verif.Pdf.Shown
import Verif.Printer.FileProps
import Verif.Pdf.Complete
import Verif.Deliver.Model
import Verif.Deliver.Props
import Verif.Deliver.Unread
import Verif.Deliver.ClientProps
import Verif.Printer.ReplyProps
import Verif.Convert.Files
import Verif.Ipp.Tool
import Verif.Tools.HelpProps
import Verif.Discovery.Tool
import Verif.Deliver.Stdin
import Verif.Check.Raster
import Verif.Check.Params
import Verif.Check.Args
import Verif.Check.Job
import Verif.Raster.PointersProps
import Verif.Raster.Standard
import Verif.Convert.Machine
import Verif.Client.Defined
import Verif.Client.Robust
import Verif.Client.EndProps
import Verif.Discovery.Socket
import Verif.Transport.Race
import Verif.Convert.PdfFails
import Verif.Client.ReplyProps
import Verif.Client.Paths
import Verif.Text.Regex
import Verif.Client.RegexProps
import Verif.Client.FileRuns
import Verif.Client.JobText
import Verif.Client.Unset
import Verif.Convert.PdfMachine
import Verif.Client.NumberProps
import Verif.Deliver.Machine
import Verif.Ipp.Depth
import Verif.Pdf.Turned
import Verif.Discovery.Depth
import Verif.Convert.Says
import Verif.Client.SaysProps
import Verif.Raster.AnyDoc
import Verif.Convert.Small
import Verif.Raster.Growth
import Verif.Ipp.Growth
import Verif.Discovery.Growth
import Verif.Ipp.Warns
import Verif.Client.LibSays
import Verif.Client.Order
import Verif.Discovery.CutSpec
import Verif.Discovery.Cut
import Verif.Discovery.Garbage
import Verif.Discovery.CutSocket
import Verif.Discovery.Complaints
import Verif.Convert.Scope
import Verif.Transport.Depth
import Verif.Discovery.Lines
import Verif.Discovery.Again
import Verif.Life.Spec
import Verif.Life.Pdf
import Verif.Life.Upload
import Verif.Discovery.Exact
import Verif.Job.Writable
import Verif.Ipp.WarnsTold
import Verif.Client.Words
import Verif.Discovery.Numbers
import Verif.Discovery.Flags
import Verif.Life.Libraries
import Verif.Discovery.SocketErrors
import Verif.Life.Functions
