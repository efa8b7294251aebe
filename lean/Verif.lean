import Verif.Py
import Verif.Lemmas.Bytes
import Verif.Text
import Verif.Modulo
import Verif.Config
import Verif.Media
import Verif.Lemmas.Text
import Verif.Spec.Availability
import Verif.Lemmas.Media
import Verif.Lemmas.Config
import Verif.Props.Availability
import Verif.Boxes
import Verif.Props.Bytes
import Verif.Props.UpDown
import Verif.Props.TimeAddressing
import Verif.Spec.Modulo
import Verif.Props.Modulo
import Verif.TimeFormat
import Verif.Spec.IsoDuration
import Verif.Props.IsoDuration
import Verif.Mpd
import Verif.Props.Periods
import Verif.Props.StartStop
import Verif.Spec.DashClient
import Verif.Props.MpdAgreement
import Verif.Props.Sessions
import Verif.Props.UrlOrder
import Verif.Wsgi
import Verif.Spec.ByteRange
import Verif.Props.Wsgi
import Verif.Mp4Filter
import Verif.Spec.BoxTree
import Verif.Lemmas.Mp4Filter
import Verif.Lemmas.BoxTree
import Verif.Props.BoxFilter
import Verif.Emsg
import Verif.Props.Emsg
import Verif.MediaFilter
import Verif.Spec.Fragment
import Verif.Lemmas.MediaFilter
import Verif.Lemmas.Segment
import Verif.Props.MediaFilter
import Verif.Props.DecodeTimes
import Verif.Spec.Run
import Verif.Props.MediaIndex
import Verif.Mp4Parser
import Verif.Chunker
import Verif.Spec.Samples
import Verif.Props.Chunks
import Verif.Lemmas.Parser
import Verif.Spec.SampleRun
import Verif.Lemmas.Decode
import Verif.Lemmas.DecodeSegment
import Verif.Props.ChunkFormat
import Verif.Props.ChunkMarks
import Verif.InitFilter
import Verif.Spec.Init
import Verif.Props.InitSegment
import Verif.Props.InitInfo
import Verif.Muxer
import Verif.Props.MuxInit
import Verif.Props.MuxMedia
import Verif.Bits
import Verif.Spec.Bits
import Verif.Lemmas.Bits
import Verif.Props.Bits
import Verif.SegTimeline
import Verif.Spec.LoopTrack
import Verif.Spec.DurationTable
import Verif.Lemmas.Bisect
import Verif.Lemmas.LoopTrack
import Verif.Lemmas.SegTimeline
import Verif.Props.SegTimeline
import Verif.SampleTables
import Verif.Spec.SampleTables
import Verif.Lemmas.SampleTables
import Verif.Props.SampleTables
import Verif.Analyzer
import Verif.Spec.Analyzer
import Verif.Lemmas.Analyzer
import Verif.Props.Analyzer
import Verif.Ttml
import Verif.Spec.Ttml
import Verif.Lemmas.Ttml
import Verif.Props.Ttml
import Verif.Props.TtmlSegment
import Verif.Captions
import Verif.Spec.Captions
import Verif.Lemmas.Captions
import Verif.Props.Captions
import Verif.Props.PeriodDurations
import Verif.Props.PublishTime
import Verif.BoxWriter
import Verif.Lemmas.BoxWriter
import Verif.Props.BoxSizes
import Verif.Spec.Movie
import Verif.Lemmas.MovieBox
import Verif.Spec.Descriptor
import Verif.Props.Esds
import Verif.Props.InitMade
import Verif.Spec.Encryption
import Verif.Props.Encrypted
import Verif.Spec.Attribute
import Verif.Spec.Url
import Verif.Timestamp
import Verif.Spec.Timestamp
import Verif.Props.Timestamp
import Verif.Xml
import Verif.MpdTree
import Verif.Lemmas.Xml
import Verif.Lemmas.MpdTree
import Verif.Spec.Manifest
import Verif.Spec.ManifestText
import Verif.Lemmas.MpdSteps
import Verif.Lemmas.MpdGenerate
import Verif.Props.MpdContent
import Verif.Props.MpdOrder
import Verif.Lemmas.MpdText
import Verif.Props.MpdRoot
import Verif.Props.MpdRefine
import Verif.Spec.ManifestParts
import Verif.Spec.Links
import Verif.Lemmas.Links
import Verif.Props.MpdClock
import Verif.Props.MpdLinks
import Verif.Props.MpdProfiles
import Verif.Spec.ManifestTimeline
import Verif.Props.MpdTimeline
import Verif.Mp4Find
import Verif.Spec.BoxPaths
import Verif.Lemmas.Utf8
import Verif.Props.BoxPaths
import Verif.XmlText
import Verif.Spec.XmlReader
import Verif.Lemmas.Replace
import Verif.Lemmas.XmlClean
import Verif.Lemmas.XmlRead
import Verif.Lemmas.XmlResolve
import Verif.Props.XmlText
import Verif.Xlink
import Verif.Spec.Xlink
import Verif.Lemmas.Find
import Verif.Lemmas.XlinkText
import Verif.Lemmas.XlinkLoop
import Verif.Lemmas.XlinkKids
import Verif.Lemmas.XlinkRead
import Verif.Lemmas.XlinkIds
import Verif.Lemmas.XlinkManifest
import Verif.Lemmas.XlinkTarget
import Verif.Props.Xlink
import Verif.Props.TimelineLoss
import Verif.Props.MpdEvents
import Verif.Spec.TimelineClient
import Verif.Props.TimelineFetch
import Verif.Spec.NumberClient
import Verif.Props.NumberFetch
import Verif.VodConfig
import Verif.Lemmas.Ini
import Verif.Props.VodConfig
import Verif.MediaBody
import Verif.AnalyzerFiles
import Verif.Spec.VodContent
import Verif.Lemmas.UrlFiles
import Verif.Lemmas.AnalyzerFiles
import Verif.Props.AnalyzerFiles
import Verif.Props.LiveTimes
import Verif.Lemmas.FilterTransfer
import Verif.Lemmas.Deliver
import Verif.Lemmas.LiveFragment
import Verif.Props.Delivered
import Verif.Server
import Verif.Spec.Client
import Verif.Lemmas.UrlManifest
import Verif.Lemmas.Server
import Verif.Props.Server
import Verif.TableFile
import Verif.Props.TimelineServer
import Verif.Props.ServerCases
import Verif.Props.LowLatency
import Verif.Float
import Verif.Lemmas.Float
import Verif.Props.FloatTimes
import Verif.Props.FloatPacing
import Verif.Spec.Muxed
import Verif.Lemmas.MuxLive
import Verif.Props.MuxedReply
import Verif.Spec.Subtitles
import Verif.Lemmas.TtmlLive
import Verif.Props.SubtitleReply
import Verif.Spec.Chain
import Verif.Lemmas.Fragments
import Verif.Props.FragmentReply
import Verif.TableCheck
import Verif.Spec.TableCheck
import Verif.Props.TableCheck
import Verif.Stpp
import Verif.Spec.Stpp
import Verif.Props.Stpp
import Verif.CaptionFile
import Verif.Spec.CaptionFile
import Verif.Lemmas.CaptionFile
import Verif.Props.CaptionFile
import Verif.Props.SegmentFiles
import Verif.Props.Thumbnails
import Verif.Lemmas.Writable
import Verif.Lemmas.WritableMpd
import Verif.Props.ManifestText
import Verif.Props.LowLatencyServer
import Verif.SessionId
import Verif.Spec.Hex
import Verif.Props.Session
import Verif.Spec.FixedUrl
import Verif.Lemmas.FixedUrl
import Verif.Props.EndingServer
import Verif.Spec.Splice
import Verif.Props.SpliceReply
import Verif.Props.LastReply
