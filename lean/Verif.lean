import Verif.Props.IntCodec
import Verif.Props.Huffman
import Verif.Props.DynamicTable
import Verif.Props.HeaderDecoder
import Verif.Props.HeaderEncoder
import Verif.Props.Frames
import Verif.Props.ConnInput
import Verif.Props.ConnOutput
import Verif.Props.ConnSend
import Verif.Props.ConnAnswer
import Verif.Props.ConnServe
import Verif.Props.ConnClient
import Verif.Props.ConnDiscard
import Verif.Props.ConnClose
import Verif.Props.ConnConform
import Verif.Props.ConnFlow
import Verif.Props.ConnTotal
import Verif.Props.Transport
import Verif.Props.StaticFiles
import Verif.Props.Router
import Verif.Props.App
import Verif.Props.AccessLog
import Verif.Props.SocketFd
import Verif.Props.Poller
import Verif.Props.Server
import Verif.Props.ServerLoop
import Verif.Props.Status
import Verif.Props.ServerEvents
import Verif.Props.ServerIter
import Verif.Props.Process
import Verif.Props.ErrQueue
import Verif.Props.Clock
import Verif.Props.ConnHold
import Verif.Props.ConnRequest
import Verif.Props.ConnUpload
import Verif.Props.Options
import Verif.Props.TlsObjects
import Verif.Props.Targets
import Verif.Props.TargetsRaw
import Verif.Props.HpackUpdates
import Verif.Props.ServerMemory
import Verif.Props.AppClient
import Verif.Props.ConnAmplify
import Verif.Props.StaticRace
import Verif.Props.StaticPrefix
import Verif.Props.ConnEnd
import Verif.Props.ServerWake
import Verif.Props.TlsSize
import Verif.Props.Startup
import Verif.Props.StatusPage
import Verif.Props.Reports
import Verif.Props.ConnLive
import Verif.Props.AppLive
import Verif.Props.ConnExact
import Verif.Props.HeaderEncoderExact
import Verif.Props.ServerLive
import Verif.Props.StaticFound
import Verif.Props.AppFetch
import Verif.Props.BigBlock
import Verif.Props.StaticExact
import Verif.Props.StaticAll
import Verif.Tests.Unit
import Verif.Tests.Server
import Verif.Props.ServerFull
import Verif.Props.ConnReset
import Verif.Props.ConnWhole
import Verif.Props.AppAnswer
import Verif.Props.ServerTimed
import Verif.Props.EncoderRepeat
import Verif.Props.KeyLog
import Verif.Props.ServerStopTimed
import Verif.Props.StatusAverage
import Verif.Props.StatusAgree
import Verif.Props.HandlerLife
import Verif.Props.Restart
import Verif.Props.PollServer
import Verif.Props.ConnDet
import Verif.Props.StaticRefused
import Verif.Props.LogReading
import Verif.Props.ConnStreams
import Verif.Props.ConnCost
import Verif.Props.ConnFlags
import Verif.Props.EncoderSize
import Verif.Props.ConnFatal
import Verif.Props.ConnDialogue
import Verif.Props.ConnSettings
import Verif.Props.ConnTotalExact
import Verif.Props.FrameLog
import Verif.Props.ServerLog
import Verif.Props.ConnLog
import Verif.Props.StaticLog
import Verif.Props.InstanceId
import Verif.Props.TableLog
import Verif.Props.FrameShown
import Verif.Props.StateLog
import Verif.Props.IoLog
import Verif.Props.DecodeLog
import Verif.Props.SentLog
import Verif.Props.AppLog
import Verif.Props.PollCall
import Verif.Props.Author
import Verif.Props.LogLevel
import Verif.Props.LogRead
import Verif.Props.MainLog
import Verif.Props.Announced
