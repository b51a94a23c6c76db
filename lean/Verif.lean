import Verif.Base.Go
import Verif.Message.Encoder
import Verif.Message.Decoder
import Verif.Message.Sizeof
import Verif.Message.Wire
import Verif.Message.Steps
import Verif.Message.Layout
import Verif.Message.DecLemmas
import Verif.Message.DecPrims
import Verif.Message.EncLemmas
import Verif.Message.StepLemmas
import Verif.Message.VarLemmas
import Verif.Message.Utf8Lemmas
import Verif.Message.VarDec
import Verif.Gen.All
import Verif.Message.VarShort
import Verif.Message.Gate
import Verif.Gen.Keys
import Verif.Gen.ApiVersion
import Verif.Gen.Broker
import Verif.Gen.Api
import Verif.Gen.Gates
import Verif.Broker.Config
import Verif.Broker.Negotiate
import Verif.Broker.NegotiateLemmas
import Verif.Broker.Frame
import Verif.Broker.FrameLemmas
import Verif.Broker.Protocol
import Verif.Props.Primitives
import Verif.Props.Bytes
import Verif.Props.Messages
import Verif.Props.Misread
import Verif.Props.Rewrite
import Verif.Props.Server
import Verif.Props.ServerExact
import Verif.Props.Hearing
import Verif.Props.HearingAll
import Verif.Props.HearingNull
import Verif.Props.Broker
import Verif.Ring.Buffer
import Verif.Ring.Pos
import Verif.Ring.Hist
import Verif.Ring.Calls
import Verif.Ring.Fifo
import Verif.Ring.Mutex
import Verif.Ring.Close
import Verif.Ring.Seq
import Verif.Ring.Int32
import Verif.Ring.Wake
import Verif.Ring.Deadlock
import Verif.Ring.Exec
import Verif.Ring.Paced
import Verif.Props.Ring
import Verif.Props.RingSize
import Verif.Props.Timely
import Verif.Props.TimelyConn
import Verif.Props.Leftover
import Verif.RecordBatch.Model
import Verif.RecordBatch.Spec
import Verif.RecordBatch.Lemmas
import Verif.Props.RecordBatch
import Verif.Conn.Model
import Verif.Conn.Trans
import Verif.Conn.Locks
import Verif.Conn.Tokens
import Verif.Conn.Frames
import Verif.Conn.Wires
import Verif.Conn.Stream
import Verif.Conn.Registered
import Verif.Conn.Apart
import Verif.Conn.Lost
import Verif.Conn.Live
import Verif.Conn.Seq
import Verif.Props.Conn
import Verif.Client.Model
import Verif.Client.Lemmas
import Verif.Props.Client
import Verif.Protocol.Schema
import Verif.Protocol.Messages
import Verif.Protocol.Lemmas
import Verif.Protocol.Conform.AddOffsetsToTxn
import Verif.Protocol.Conform.AddPartitionsToTxn
import Verif.Protocol.Conform.AlterConfigs
import Verif.Protocol.Conform.AlterPartitionReassignments
import Verif.Protocol.Conform.AlterReplicaLogDirs
import Verif.Protocol.Conform.ApiVersions
import Verif.Protocol.Conform.ControlledShutdown
import Verif.Protocol.Conform.CreateAcls
import Verif.Protocol.Conform.CreateDelegationToken
import Verif.Protocol.Conform.CreatePartitions
import Verif.Protocol.Conform.CreateTopics
import Verif.Protocol.Conform.DeleteAcls
import Verif.Protocol.Conform.DeleteGroups
import Verif.Protocol.Conform.DeleteRecords
import Verif.Protocol.Conform.DeleteTopics
import Verif.Protocol.Conform.DescribeAcls
import Verif.Protocol.Conform.DescribeConfigs
import Verif.Protocol.Conform.DescribeDelegationToken
import Verif.Protocol.Conform.DescribeGroups
import Verif.Protocol.Conform.DescribeLogDirs
import Verif.Protocol.Conform.ElectLeaders
import Verif.Protocol.Conform.EndTxn
import Verif.Protocol.Conform.ExpireDelegationToken
import Verif.Protocol.Conform.Fetch
import Verif.Protocol.Conform.FindCoordinator
import Verif.Protocol.Conform.Header
import Verif.Protocol.Conform.Heartbeat
import Verif.Protocol.Conform.IncrementalAlterConfigs
import Verif.Protocol.Conform.InitProducerId
import Verif.Protocol.Conform.JoinGroup
import Verif.Protocol.Conform.LeaderAndIsr
import Verif.Protocol.Conform.LeaveGroup
import Verif.Protocol.Conform.ListGroups
import Verif.Protocol.Conform.ListOffset
import Verif.Protocol.Conform.ListPartitionReassignments
import Verif.Protocol.Conform.Metadata
import Verif.Protocol.Conform.OffsetCommit
import Verif.Protocol.Conform.OffsetDelete
import Verif.Protocol.Conform.OffsetFetch
import Verif.Protocol.Conform.OffsetForLeaderEpoch
import Verif.Protocol.Conform.Produce
import Verif.Protocol.Conform.RenewDelegationToken
import Verif.Protocol.Conform.SaslAuthenticate
import Verif.Protocol.Conform.SaslHandshake
import Verif.Protocol.Conform.StopReplica
import Verif.Protocol.Conform.SyncGroup
import Verif.Protocol.Conform.TxnOffsetCommit
import Verif.Protocol.Conform.UpdateMetadata
import Verif.Protocol.Conform.WriteTxnMarkers
import Verif.Protocol.Conform
import Verif.Protocol.Api
import Verif.Protocol.Unique
import Verif.Props.Protocol
import Verif.Props.EndToEnd
import Verif.Conn.Memory
import Verif.Props.Alias
import Verif.Conn.Exchange
import Verif.Conn.Dispatch
import Verif.Props.Progress
import Verif.Props.Input
import Verif.Props.Close
import Verif.Props.Races
import Verif.Props.Faults
import Verif.Message.Bufio
import Verif.Message.BufioLemmas
import Verif.Props.Writer
import Verif.Props.Decode
import Verif.Props.DecodeAll
import Verif.Conn.Fair
import Verif.Props.Fair
import Verif.Protocol.Mono
import Verif.Props.Session
import Verif.Props.Address
import Verif.Message.Alloc
import Verif.Message.AllocLemmas
import Verif.Gen.AllocApi
import Verif.Gen.Alloc.Header
import Verif.Props.Memory
import Verif.Conn.Arrives
import Verif.Props.Arrives
import Verif.Props.Calls
import Verif.Conn.Extend
import Verif.Conn.Whole
import Verif.Props.Whole
import Verif.Tests.Repo
import Verif.Props.Cluster
import Verif.Props.Returns
import Verif.Props.OneByOne
import Verif.Props.Apart
import Verif.Props.Realise
import Verif.Props.Asking
import Verif.Props.Exact
import Verif.Props.Format
import Verif.Props.Flexible
import Verif.Props.Null
import Verif.Props.VarInt
import Verif.Props.Skip
import Verif.Props.Subscribe
import Verif.Client.Error
import Verif.Props.Errors
import Verif.Props.Flow
import Verif.Props.Reuse
import Verif.Props.Receiver
import Verif.Props.Behind
import Verif.Props.Exactly
import Verif.Props.Output
import Verif.Props.Crash
import Verif.Props.Acks
import Verif.Props.Sizes
import Verif.Props.Codes
import Verif.Client.Prog
import Verif.Props.Concurrent
import Verif.Props.Abandoned
import Verif.Conn.Nested
import Verif.Props.Reentrant
import Verif.Props.Instances
import Verif.Conn.Layers
import Verif.Props.Layers
import Verif.Props.Registrations
import Verif.Props.Varints
import Verif.Props.Broken
import Verif.Props.Work
import Verif.Props.Quiet
import Verif.Props.Cells
import Verif.Props.Read
import Verif.Props.Last
import Verif.Props.Steps
import Verif.Props.Writes
