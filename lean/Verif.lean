import Verif.Model.Basic
import Verif.Model.CloseRace
import Verif.Model.Decoder
import Verif.Model.Deferred
import Verif.Model.Encoder
import Verif.Model.ErrorText
import Verif.Model.Errors
import Verif.Model.Examples
import Verif.Model.Log
import Verif.Model.Memory
import Verif.Model.OpenLog
import Verif.Model.Opening
import Verif.Model.Pool
import Verif.Model.Reader
import Verif.Model.Recorder
import Verif.Model.Retry
import Verif.Model.Reuse
import Verif.Model.Session
import Verif.Model.Sql
import Verif.Model.SqlRows
import Verif.Model.SqlStmt
import Verif.Model.SqlTx
import Verif.Model.Stream
import Verif.Model.Surface
import Verif.Model.Tenant
import Verif.Model.Timing
import Verif.Model.Trace
import Verif.Model.Transient
import Verif.Model.Value
import Verif.Proofs.Accept
import Verif.Proofs.Alike
import Verif.Proofs.Bare
import Verif.Proofs.Blame
import Verif.Proofs.Blocked
import Verif.Proofs.Bytes
import Verif.Proofs.Calls
import Verif.Proofs.Chokes
import Verif.Proofs.Confirm
import Verif.Proofs.Count
import Verif.Proofs.Cut
import Verif.Proofs.CutExact
import Verif.Proofs.Decode
import Verif.Proofs.Depth
import Verif.Proofs.Direct
import Verif.Proofs.Done
import Verif.Proofs.Encode
import Verif.Proofs.EncodeMain
import Verif.Proofs.EncodeMin
import Verif.Proofs.EncoderTest
import Verif.Proofs.Executable
import Verif.Proofs.Failures
import Verif.Proofs.Finite
import Verif.Proofs.Framing
import Verif.Proofs.Ghost
import Verif.Proofs.GiveUp
import Verif.Proofs.Gone
import Verif.Proofs.Half
import Verif.Proofs.Inbox
import Verif.Proofs.Lenient
import Verif.Proofs.Loops
import Verif.Proofs.Memory
import Verif.Proofs.NoPanic
import Verif.Proofs.NoPanic2
import Verif.Proofs.OnlyThen
import Verif.Proofs.Opening
import Verif.Proofs.Pipeline
import Verif.Proofs.Pipeline2
import Verif.Proofs.Pipeline3
import Verif.Proofs.Pool
import Verif.Proofs.PoolOwn
import Verif.Proofs.PoolSlots
import Verif.Proofs.PoolSocks
import Verif.Proofs.Query
import Verif.Proofs.Query2
import Verif.Proofs.QueryAll
import Verif.Proofs.Quiet
import Verif.Proofs.Quiet2
import Verif.Proofs.Ran
import Verif.Proofs.Received
import Verif.Proofs.Refuse
import Verif.Proofs.Reject
import Verif.Proofs.Round
import Verif.Proofs.RoundExact
import Verif.Proofs.Run
import Verif.Proofs.Safety
import Verif.Proofs.Safety2
import Verif.Proofs.Sane
import Verif.Proofs.Silent
import Verif.Proofs.Sim1
import Verif.Proofs.Sim2
import Verif.Proofs.Sim3
import Verif.Proofs.Sim4
import Verif.Proofs.Sim5
import Verif.Proofs.Steps
import Verif.Proofs.Stream
import Verif.Proofs.Tenant
import Verif.Proofs.Transient
import Verif.Proofs.Understood
import Verif.Proofs.Unique
import Verif.Proofs.Widen
import Verif.Proofs.Wire
import Verif.Proofs.WireOrder
import Verif.Proofs.Wrapped
import Verif.Props.Blame
import Verif.Props.Cause
import Verif.Props.CloseRace
import Verif.Props.Cut
import Verif.Props.Decoding
import Verif.Props.Deferred
import Verif.Props.Drain
import Verif.Props.EncoderTest
import Verif.Props.Encoding
import Verif.Props.ErrorText
import Verif.Props.Exact
import Verif.Props.Exact2
import Verif.Props.Exact3
import Verif.Props.Exact4
import Verif.Props.Exact5
import Verif.Props.Exact6
import Verif.Props.Examples
import Verif.Props.Failures
import Verif.Props.Gaps
import Verif.Props.GiveUp
import Verif.Props.Lenient
import Verif.Props.Log
import Verif.Props.Memory
import Verif.Props.OpenLog
import Verif.Props.OpenNeo
import Verif.Props.Opening
import Verif.Props.Opening2
import Verif.Props.Panics
import Verif.Props.PipeRows
import Verif.Props.Playback
import Verif.Props.Pool1
import Verif.Props.Pool2
import Verif.Props.Pool3
import Verif.Props.Pool4
import Verif.Props.Pool5
import Verif.Props.PoolChoices
import Verif.Props.PoolLive
import Verif.Props.PoolPanic
import Verif.Props.Programs
import Verif.Props.Proposal
import Verif.Props.Reader
import Verif.Props.Received
import Verif.Props.Recorded
import Verif.Props.Recorder
import Verif.Props.Retry
import Verif.Props.Returns
import Verif.Props.Reuse
import Verif.Props.Session1
import Verif.Props.Session2
import Verif.Props.Session3
import Verif.Props.Session4
import Verif.Props.Session5
import Verif.Props.Session6
import Verif.Props.Session7
import Verif.Props.Sql
import Verif.Props.SqlRows
import Verif.Props.SqlStmt
import Verif.Props.SqlTx
import Verif.Props.Summaries
import Verif.Props.Surface
import Verif.Props.SurfaceRun
import Verif.Props.Tenant
import Verif.Props.Tenant2
import Verif.Props.Timing
import Verif.Props.Trace
import Verif.Props.Transient
import Verif.Props.Unbroken
import Verif.Props.Ways
import Verif.Props.Wire
import Verif.Spec.Abstract
import Verif.Spec.Blame
import Verif.Spec.Cause
import Verif.Spec.Chokes
import Verif.Spec.Clients
import Verif.Spec.Commands
import Verif.Spec.Confirm
import Verif.Spec.Count
import Verif.Spec.Dump
import Verif.Spec.EncoderTest
import Verif.Spec.Ends
import Verif.Spec.ErrorText
import Verif.Spec.Failures
import Verif.Spec.Footprint
import Verif.Spec.GiveUp
import Verif.Spec.Histories
import Verif.Spec.Lenient
import Verif.Spec.Limits
import Verif.Spec.Meaning
import Verif.Spec.Normal
import Verif.Spec.PackStream
import Verif.Spec.Panics
import Verif.Spec.PipeRows
import Verif.Spec.Plain
import Verif.Spec.Programs
import Verif.Spec.Reach
import Verif.Spec.Received
import Verif.Spec.Server
import Verif.Spec.Shorten
import Verif.Spec.Supported
import Verif.Spec.Tenant
import Verif.Spec.Text
import Verif.Spec.Ways
import Verif.Spec.Wire
import Verif.Spec.Wrapped
import Verif.Tests.Tape
import Verif.Tests.Traces
import Verif.Tests.URLs
