import Verif.Base
import Verif.Spec.Line
import Verif.Model.Tags
import Verif.Model.Irc
import Verif.Proofs.Utf8
import Verif.Proofs.Wide
import Verif.Proofs.Search
import Verif.Proofs.Tags
import Verif.Proofs.Prefix
import Verif.Proofs.Irc
import Verif.Proofs.Total
import Verif.Spec.Words
import Verif.Proofs.Words
import Verif.Proofs.LineSpec
import Verif.Spec.Rebuild
import Verif.Proofs.Rebuild
import Verif.Props.Vector
import Verif.Props.Line
import Verif.Props.Huge
import Verif.Props.Sizes
import Verif.Model.Escape
import Verif.Spec.Escape
import Verif.Proofs.Escape
import Verif.Props.Escape
import Verif.Model.Num
import Verif.Spec.Num
import Verif.Proofs.Num
import Verif.Props.Num
import Verif.Model.Msg
import Verif.Spec.Reads
import Verif.Spec.Msg
import Verif.Proofs.Msg
import Verif.Proofs.Typed
import Verif.Proofs.Notice
import Verif.Proofs.Dispatch
import Verif.Props.Msg
import Verif.Model.Client
import Verif.Spec.Client
import Verif.Proofs.Client
import Verif.Proofs.Handshake
import Verif.Proofs.Reconnect
import Verif.Proofs.Sending
import Verif.Proofs.CommandLine
import Verif.Proofs.Replies
import Verif.Proofs.Attempts
import Verif.Proofs.Delay
import Verif.Proofs.Leftover
import Verif.Props.Send
import Verif.Props.Connect
import Verif.Model.Timed
import Verif.Proofs.Timed
import Verif.Spec.Timed
import Verif.Proofs.Timeliness
import Verif.Props.Timed
import Verif.Props.Stream
import Verif.Spec.Secret
import Verif.Proofs.Secret
import Verif.Props.Secret
import Verif.Spec.Flush
import Verif.Proofs.Flush
import Verif.Props.Flush
import Verif.Spec.Unescape
import Verif.Props.Unescape
import Verif.Props.UnescapeListed
import Verif.Props.GettersListed
import Verif.Model.Trace
import Verif.Props.Trace
import Verif.Model.Config
import Verif.Spec.Config
import Verif.Props.Config
import Verif.Spec.Owned
import Verif.Model.Owned
import Verif.Props.Owned
import Verif.Model.Serde
import Verif.Spec.Serde
import Verif.Proofs.Serde
import Verif.Proofs.RoundTrip
import Verif.Proofs.Parsed
import Verif.Props.Serde
import Verif.Model.Lines
import Verif.Spec.Lines
import Verif.Proofs.Lines
import Verif.Props.Lines
import Verif.Model.Bot
import Verif.Spec.Bot
import Verif.Proofs.Bot
import Verif.Props.Bot
import Verif.Model.Net
import Verif.Spec.Net
import Verif.Proofs.Net
import Verif.Proofs.NetLines
import Verif.Proofs.NetTwin
import Verif.Props.Net
import Verif.Spec.Shape
import Verif.Spec.ReadBack
import Verif.Proofs.Shape
import Verif.Proofs.ReadBack
import Verif.Props.Shape
import Verif.Props.Listed
import Verif.Model.Debug
import Verif.Proofs.Debug
import Verif.Proofs.DebugLeaves
import Verif.Conform.Basic
import Verif.Conform.Snapshots
import Verif.Conform.PrivmsgSnapshots
import Verif.Conform.UserNoticeSnapshots
import Verif.Conform.Unit
import Verif.Spec.Debug
import Verif.Proofs.DebugTyped
import Verif.Proofs.Strings
import Verif.Proofs.DebugDate
import Verif.Proofs.DebugMsg
import Verif.Model.ErrorText
import Verif.Proofs.DebugConfig
import Verif.Props.Debug
import Verif.Model.Logged
import Verif.Spec.Logged
import Verif.Proofs.Logged
import Verif.Proofs.LoggedSend
import Verif.Proofs.LoggedSecret
import Verif.Props.Logged
import Verif.Spec.ErrorText
import Verif.Proofs.ErrorFrom
import Verif.Props.ErrorText
import Verif.Model.Mem
import Verif.Proofs.Mem
import Verif.Proofs.MemPanics
import Verif.Props.Mem
import Verif.Spec.Tells
import Verif.Proofs.Tells
import Verif.Proofs.TellsTyped
import Verif.Proofs.Literal
import Verif.Props.Tells
import Verif.Model.Steps
import Verif.Proofs.Steps
import Verif.Proofs.StepsBadges
import Verif.Props.Steps
import Verif.Model.StepsMsg
import Verif.Proofs.StepsMsg
import Verif.Props.StepsMsg
import Verif.Props.Keys
import Verif.Spec.Documented
import Verif.Props.Documented
import Verif.Props.DocumentedListed
import Verif.Spec.Reports
import Verif.Props.Reports
import Verif.Model.Getters
import Verif.Spec.Getters
import Verif.Props.Getters
import Verif.Model.Chrono
import Verif.Proofs.Chrono
import Verif.Props.Chrono
import Verif.Spec.TagsRead
import Verif.Proofs.TagsRead
import Verif.Props.TagsRead
import Verif.Spec.Arrives
import Verif.Proofs.Arrives
import Verif.Props.Reply
import Verif.Spec.Chatter
import Verif.Proofs.Chatter
import Verif.Props.Chatter
import Verif.Spec.Serve
import Verif.Proofs.Serve
import Verif.Props.Serve
import Verif.Spec.Room
import Verif.Proofs.Room
import Verif.Props.Room
import Verif.Spec.Happen
import Verif.Proofs.Happen
import Verif.Props.Happen
import Verif.Spec.Server
import Verif.Proofs.Server
import Verif.Props.Server
import Verif.Spec.Relay
import Verif.Props.Relay
import Verif.Spec.Track
import Verif.Props.Track
import Verif.Spec.LikeNew
import Verif.Props.LikeNew
import Verif.Spec.Crash
import Verif.Props.Crash
import Verif.Spec.Calm
import Verif.Proofs.Calm
import Verif.Props.Calm
import Verif.Spec.Held
import Verif.Proofs.Held
import Verif.Props.Held
import Verif.Spec.CutOff
import Verif.Proofs.CutOff
import Verif.Props.CutOff
import Verif.Model.Tls
import Verif.Spec.Tls
import Verif.Proofs.Tls
import Verif.Proofs.TlsSteps
import Verif.Props.Tls
import Verif.Model.Source
import Verif.Spec.Source
import Verif.Props.Source
import Verif.Model.Cow
import Verif.Spec.Pieces
import Verif.Proofs.Pieces
import Verif.Proofs.Cow
import Verif.Props.Pieces
import Verif.Spec.Bypass
import Verif.Props.Bypass
import Verif.Spec.Reached
import Verif.Props.Reached
import Verif.Spec.Roll
import Verif.Props.Roll
import Verif.Spec.PassOn
import Verif.Props.PassOn
import Verif.Spec.Repeat
import Verif.Props.Repeat
import Verif.Spec.Company
import Verif.Props.Company
import Verif.Props.Builds
import Verif.Props.Issued
import Verif.Props.Prompt
import Verif.Props.Cut
import Verif.Props.Apart
import Verif.Props.Retry
import Verif.Props.Avx512
import Verif.Props.Xtask
import Verif.Props.Json
import Verif.Props.JsonStr
import Verif.Props.JsonDepth
import Verif.Props.JsonCut
import Verif.Props.JsonUtf8
import Verif.Props.Pong
import Verif.Props.Sorted
