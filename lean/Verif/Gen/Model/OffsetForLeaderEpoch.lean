import Verif.Message.Steps
/-!
Generated by tools/gen_messages.py from message/messages.gen.go: model of the OffsetForLeaderEpoch messages.
-/
namespace Kafka.Msg

/-- message/messages.gen.go:6420-6424 `type OffsetForLeaderPartition23 struct`; the defaults are the Go zero values. -/
@[ext] structure OffsetForLeaderPartition23 where
  PartitionIndex : Int32 := 0
  CurrentLeaderEpoch : Int32 := 0
  LeaderEpoch : Int32 := 0

/-- message/messages.gen.go:6427-6435 `OffsetForLeaderPartition23.Size` -/
def OffsetForLeaderPartition23.size (version : Int16) (_t : OffsetForLeaderPartition23) : Int32 :=
   (Sizeof.add Sizeof.int32 ;;
    onlyIf (version ≥ 2) (Sizeof.add Sizeof.int32) ;;
    Sizeof.add Sizeof.int32) 0

/-- message/messages.gen.go:6438-6444 `OffsetForLeaderPartition23.Encode` -/
def OffsetForLeaderPartition23.encode (version : Int16) (t : OffsetForLeaderPartition23) : Encoder → Encoder :=
    (·.putInt32 t.PartitionIndex) ;;
    onlyIf (version ≥ 2) (·.putInt32 t.CurrentLeaderEpoch) ;;
    (·.putInt32 t.LeaderEpoch)

/-- message/messages.gen.go:6447-6464 `OffsetForLeaderPartition23.Decode`; the second argument is the receiver. -/
def OffsetForLeaderPartition23.decode (version : Int16) : OffsetForLeaderPartition23 → Dec OffsetForLeaderPartition23 :=
    Dec.field Dec.int32 (fun t x => { t with PartitionIndex := x }) ;>
    Dec.onlyIf (version ≥ 2) (Dec.field Dec.int32 (fun t x => { t with CurrentLeaderEpoch := x })) ;>
    Dec.field Dec.int32 (fun t x => { t with LeaderEpoch := x })

/-- The type `OffsetForLeaderPartition23` with its methods. -/
def OffsetForLeaderPartition23.type : MsgType :=
  { name := "OffsetForLeaderPartition23", T := OffsetForLeaderPartition23, zero := {}, size := OffsetForLeaderPartition23.size, encode := OffsetForLeaderPartition23.encode,
    decode := OffsetForLeaderPartition23.decode }

/-- message/messages.gen.go:6370-6373 `type OffsetForLeaderTopic23 struct`; the defaults are the Go zero values. -/
@[ext] structure OffsetForLeaderTopic23 where
  Name : GoString := []
  Partitions : Slice OffsetForLeaderPartition23 := none

/-- message/messages.gen.go:6376-6384 `OffsetForLeaderTopic23.Size` -/
def OffsetForLeaderTopic23.size (version : Int16) (t : OffsetForLeaderTopic23) : Int32 :=
   (Sizeof.add (Sizeof.string t.Name) ;;
    Sizeof.structs (OffsetForLeaderPartition23.size version) t.Partitions) 0

/-- message/messages.gen.go:6387-6395 `OffsetForLeaderTopic23.Encode` -/
def OffsetForLeaderTopic23.encode (version : Int16) (t : OffsetForLeaderTopic23) : Encoder → Encoder :=
    (·.putString t.Name) ;;
    Encoder.putStructs (OffsetForLeaderPartition23.encode version) t.Partitions

/-- message/messages.gen.go:6398-6418 `OffsetForLeaderTopic23.Decode`; the second argument is the receiver. -/
def OffsetForLeaderTopic23.decode (version : Int16) : OffsetForLeaderTopic23 → Dec OffsetForLeaderTopic23 :=
    Dec.field Dec.string (fun t x => { t with Name := x }) ;>
    Dec.fieldStructs (OffsetForLeaderPartition23.decode version {}) (·.Partitions) (fun t x => { t with Partitions := x })

/-- The type `OffsetForLeaderTopic23` with its methods. -/
def OffsetForLeaderTopic23.type : MsgType :=
  { name := "OffsetForLeaderTopic23", T := OffsetForLeaderTopic23, zero := {}, size := OffsetForLeaderTopic23.size, encode := OffsetForLeaderTopic23.encode,
    decode := OffsetForLeaderTopic23.decode }

/-- message/messages.gen.go:6314-6317 `type OffsetForLeaderEpochRequest struct`; the defaults are the Go zero values. -/
@[ext] structure OffsetForLeaderEpochRequest where
  ReplicaId : Int32 := 0
  Topics : Slice OffsetForLeaderTopic23 := none

/-- message/messages.gen.go:6320-6330 `OffsetForLeaderEpochRequest.Size` -/
def OffsetForLeaderEpochRequest.size (version : Int16) (t : OffsetForLeaderEpochRequest) : Int32 :=
   (onlyIf (version ≥ 3) (Sizeof.add Sizeof.int32) ;;
    Sizeof.structs (OffsetForLeaderTopic23.size version) t.Topics) 0

/-- message/messages.gen.go:6333-6343 `OffsetForLeaderEpochRequest.Encode` -/
def OffsetForLeaderEpochRequest.encode (version : Int16) (t : OffsetForLeaderEpochRequest) : Encoder → Encoder :=
    onlyIf (version ≥ 3) (·.putInt32 t.ReplicaId) ;;
    Encoder.putStructs (OffsetForLeaderTopic23.encode version) t.Topics

/-- message/messages.gen.go:6346-6368 `OffsetForLeaderEpochRequest.Decode`; the second argument is the receiver. -/
def OffsetForLeaderEpochRequest.decode (version : Int16) : OffsetForLeaderEpochRequest → Dec OffsetForLeaderEpochRequest :=
    Dec.onlyIf (version ≥ 3) (Dec.field Dec.int32 (fun t x => { t with ReplicaId := x })) ;>
    Dec.fieldStructs (OffsetForLeaderTopic23.decode version {}) (·.Topics) (fun t x => { t with Topics := x })

/-- The type `OffsetForLeaderEpochRequest` with its methods. -/
def OffsetForLeaderEpochRequest.type : MsgType :=
  { name := "OffsetForLeaderEpochRequest", T := OffsetForLeaderEpochRequest, zero := {}, size := OffsetForLeaderEpochRequest.size, encode := OffsetForLeaderEpochRequest.encode,
    decode := OffsetForLeaderEpochRequest.decode }

/-- message/messages.gen.go:6573-6578 `type OffsetForLeaderPartitionResult23 struct`; the defaults are the Go zero values. -/
@[ext] structure OffsetForLeaderPartitionResult23 where
  ErrorCode : Int16 := 0
  PartitionIndex : Int32 := 0
  LeaderEpoch : Int32 := 0
  EndOffset : Int64 := 0

/-- message/messages.gen.go:6581-6590 `OffsetForLeaderPartitionResult23.Size` -/
def OffsetForLeaderPartitionResult23.size (version : Int16) (_t : OffsetForLeaderPartitionResult23) : Int32 :=
   (Sizeof.add Sizeof.int16 ;;
    Sizeof.add Sizeof.int32 ;;
    onlyIf (version ≥ 1) (Sizeof.add Sizeof.int32) ;;
    Sizeof.add Sizeof.int64) 0

/-- message/messages.gen.go:6593-6600 `OffsetForLeaderPartitionResult23.Encode` -/
def OffsetForLeaderPartitionResult23.encode (version : Int16) (t : OffsetForLeaderPartitionResult23) : Encoder → Encoder :=
    (·.putInt16 t.ErrorCode) ;;
    (·.putInt32 t.PartitionIndex) ;;
    onlyIf (version ≥ 1) (·.putInt32 t.LeaderEpoch) ;;
    (·.putInt64 t.EndOffset)

/-- message/messages.gen.go:6603-6624 `OffsetForLeaderPartitionResult23.Decode`; the second argument is the receiver. -/
def OffsetForLeaderPartitionResult23.decode (version : Int16) : OffsetForLeaderPartitionResult23 → Dec OffsetForLeaderPartitionResult23 :=
    Dec.field Dec.int16 (fun t x => { t with ErrorCode := x }) ;>
    Dec.field Dec.int32 (fun t x => { t with PartitionIndex := x }) ;>
    Dec.onlyIf (version ≥ 1) (Dec.field Dec.int32 (fun t x => { t with LeaderEpoch := x })) ;>
    Dec.field Dec.int64 (fun t x => { t with EndOffset := x })

/-- The type `OffsetForLeaderPartitionResult23` with its methods. -/
def OffsetForLeaderPartitionResult23.type : MsgType :=
  { name := "OffsetForLeaderPartitionResult23", T := OffsetForLeaderPartitionResult23, zero := {}, size := OffsetForLeaderPartitionResult23.size, encode := OffsetForLeaderPartitionResult23.encode,
    decode := OffsetForLeaderPartitionResult23.decode }

/-- message/messages.gen.go:6523-6526 `type OffsetForLeaderTopicResult23 struct`; the defaults are the Go zero values. -/
@[ext] structure OffsetForLeaderTopicResult23 where
  Name : GoString := []
  Partitions : Slice OffsetForLeaderPartitionResult23 := none

/-- message/messages.gen.go:6529-6537 `OffsetForLeaderTopicResult23.Size` -/
def OffsetForLeaderTopicResult23.size (version : Int16) (t : OffsetForLeaderTopicResult23) : Int32 :=
   (Sizeof.add (Sizeof.string t.Name) ;;
    Sizeof.structs (OffsetForLeaderPartitionResult23.size version) t.Partitions) 0

/-- message/messages.gen.go:6540-6548 `OffsetForLeaderTopicResult23.Encode` -/
def OffsetForLeaderTopicResult23.encode (version : Int16) (t : OffsetForLeaderTopicResult23) : Encoder → Encoder :=
    (·.putString t.Name) ;;
    Encoder.putStructs (OffsetForLeaderPartitionResult23.encode version) t.Partitions

/-- message/messages.gen.go:6551-6571 `OffsetForLeaderTopicResult23.Decode`; the second argument is the receiver. -/
def OffsetForLeaderTopicResult23.decode (version : Int16) : OffsetForLeaderTopicResult23 → Dec OffsetForLeaderTopicResult23 :=
    Dec.field Dec.string (fun t x => { t with Name := x }) ;>
    Dec.fieldStructs (OffsetForLeaderPartitionResult23.decode version {}) (·.Partitions) (fun t x => { t with Partitions := x })

/-- The type `OffsetForLeaderTopicResult23` with its methods. -/
def OffsetForLeaderTopicResult23.type : MsgType :=
  { name := "OffsetForLeaderTopicResult23", T := OffsetForLeaderTopicResult23, zero := {}, size := OffsetForLeaderTopicResult23.size, encode := OffsetForLeaderTopicResult23.encode,
    decode := OffsetForLeaderTopicResult23.decode }

/-- message/messages.gen.go:6467-6470 `type OffsetForLeaderEpochResponse struct`; the defaults are the Go zero values. -/
@[ext] structure OffsetForLeaderEpochResponse where
  ThrottleTimeMs : Int32 := 0
  Topics : Slice OffsetForLeaderTopicResult23 := none

/-- message/messages.gen.go:6473-6483 `OffsetForLeaderEpochResponse.Size` -/
def OffsetForLeaderEpochResponse.size (version : Int16) (t : OffsetForLeaderEpochResponse) : Int32 :=
   (onlyIf (version ≥ 2) (Sizeof.add Sizeof.int32) ;;
    Sizeof.structs (OffsetForLeaderTopicResult23.size version) t.Topics) 0

/-- message/messages.gen.go:6486-6496 `OffsetForLeaderEpochResponse.Encode` -/
def OffsetForLeaderEpochResponse.encode (version : Int16) (t : OffsetForLeaderEpochResponse) : Encoder → Encoder :=
    onlyIf (version ≥ 2) (·.putInt32 t.ThrottleTimeMs) ;;
    Encoder.putStructs (OffsetForLeaderTopicResult23.encode version) t.Topics

/-- message/messages.gen.go:6499-6521 `OffsetForLeaderEpochResponse.Decode`; the second argument is the receiver. -/
def OffsetForLeaderEpochResponse.decode (version : Int16) : OffsetForLeaderEpochResponse → Dec OffsetForLeaderEpochResponse :=
    Dec.onlyIf (version ≥ 2) (Dec.field Dec.int32 (fun t x => { t with ThrottleTimeMs := x })) ;>
    Dec.fieldStructs (OffsetForLeaderTopicResult23.decode version {}) (·.Topics) (fun t x => { t with Topics := x })

/-- The type `OffsetForLeaderEpochResponse` with its methods. -/
def OffsetForLeaderEpochResponse.type : MsgType :=
  { name := "OffsetForLeaderEpochResponse", T := OffsetForLeaderEpochResponse, zero := {}, size := OffsetForLeaderEpochResponse.size, encode := OffsetForLeaderEpochResponse.encode,
    decode := OffsetForLeaderEpochResponse.decode }

end Kafka.Msg
