import Verif.Message.Steps
/-!
Generated by tools/gen_messages.py from message/messages.gen.go: model of the OffsetCommit messages.
-/
namespace Kafka.Msg

/-- message/messages.gen.go:3440-3445 `type OffsetCommitRequestPartition8 struct`; the defaults are the Go zero values. -/
@[ext] structure OffsetCommitRequestPartition8 where
  PartitionIndex : Int32 := 0
  CommittedOffset : Int64 := 0
  CommittedLeaderEpoch : Int32 := 0
  CommittedMetadata : GoString := []

/-- message/messages.gen.go:3448-3457 `OffsetCommitRequestPartition8.Size` -/
def OffsetCommitRequestPartition8.size (version : Int16) (t : OffsetCommitRequestPartition8) : Int32 :=
   (Sizeof.add Sizeof.int32 ;;
    Sizeof.add Sizeof.int64 ;;
    onlyIf (version ≥ 6) (Sizeof.add Sizeof.int32) ;;
    Sizeof.add (Sizeof.string t.CommittedMetadata)) 0

/-- message/messages.gen.go:3460-3467 `OffsetCommitRequestPartition8.Encode` -/
def OffsetCommitRequestPartition8.encode (version : Int16) (t : OffsetCommitRequestPartition8) : Encoder → Encoder :=
    (·.putInt32 t.PartitionIndex) ;;
    (·.putInt64 t.CommittedOffset) ;;
    onlyIf (version ≥ 6) (·.putInt32 t.CommittedLeaderEpoch) ;;
    (·.putString t.CommittedMetadata)

/-- message/messages.gen.go:3470-3491 `OffsetCommitRequestPartition8.Decode`; the second argument is the receiver. -/
def OffsetCommitRequestPartition8.decode (version : Int16) : OffsetCommitRequestPartition8 → Dec OffsetCommitRequestPartition8 :=
    Dec.field Dec.int32 (fun t x => { t with PartitionIndex := x }) ;>
    Dec.field Dec.int64 (fun t x => { t with CommittedOffset := x }) ;>
    Dec.onlyIf (version ≥ 6) (Dec.field Dec.int32 (fun t x => { t with CommittedLeaderEpoch := x })) ;>
    Dec.field Dec.string (fun t x => { t with CommittedMetadata := x })

/-- The type `OffsetCommitRequestPartition8` with its methods. -/
def OffsetCommitRequestPartition8.type : MsgType :=
  { name := "OffsetCommitRequestPartition8", T := OffsetCommitRequestPartition8, zero := {}, size := OffsetCommitRequestPartition8.size, encode := OffsetCommitRequestPartition8.encode,
    decode := OffsetCommitRequestPartition8.decode }

/-- message/messages.gen.go:3390-3393 `type OffsetCommitRequestTopic8 struct`; the defaults are the Go zero values. -/
@[ext] structure OffsetCommitRequestTopic8 where
  Name : GoString := []
  Partitions : Slice OffsetCommitRequestPartition8 := none

/-- message/messages.gen.go:3396-3404 `OffsetCommitRequestTopic8.Size` -/
def OffsetCommitRequestTopic8.size (version : Int16) (t : OffsetCommitRequestTopic8) : Int32 :=
   (Sizeof.add (Sizeof.string t.Name) ;;
    Sizeof.structs (OffsetCommitRequestPartition8.size version) t.Partitions) 0

/-- message/messages.gen.go:3407-3415 `OffsetCommitRequestTopic8.Encode` -/
def OffsetCommitRequestTopic8.encode (version : Int16) (t : OffsetCommitRequestTopic8) : Encoder → Encoder :=
    (·.putString t.Name) ;;
    Encoder.putStructs (OffsetCommitRequestPartition8.encode version) t.Partitions

/-- message/messages.gen.go:3418-3438 `OffsetCommitRequestTopic8.Decode`; the second argument is the receiver. -/
def OffsetCommitRequestTopic8.decode (version : Int16) : OffsetCommitRequestTopic8 → Dec OffsetCommitRequestTopic8 :=
    Dec.field Dec.string (fun t x => { t with Name := x }) ;>
    Dec.fieldStructs (OffsetCommitRequestPartition8.decode version {}) (·.Partitions) (fun t x => { t with Partitions := x })

/-- The type `OffsetCommitRequestTopic8` with its methods. -/
def OffsetCommitRequestTopic8.type : MsgType :=
  { name := "OffsetCommitRequestTopic8", T := OffsetCommitRequestTopic8, zero := {}, size := OffsetCommitRequestTopic8.size, encode := OffsetCommitRequestTopic8.encode,
    decode := OffsetCommitRequestTopic8.decode }

/-- message/messages.gen.go:3288-3295 `type OffsetCommitRequest struct`; the defaults are the Go zero values. -/
@[ext] structure OffsetCommitRequest where
  GroupId : GoString := []
  GenerationId : Int32 := 0
  MemberId : GoString := []
  GroupInstanceId : GoString := []
  RetentionTimeMs : Int64 := 0
  Topics : Slice OffsetCommitRequestTopic8 := none

/-- message/messages.gen.go:3298-3318 `OffsetCommitRequest.Size` -/
def OffsetCommitRequest.size (version : Int16) (t : OffsetCommitRequest) : Int32 :=
   (Sizeof.add (Sizeof.string t.GroupId) ;;
    onlyIf (version ≥ 1) (Sizeof.add Sizeof.int32) ;;
    onlyIf (version ≥ 1) (Sizeof.add (Sizeof.string t.MemberId)) ;;
    onlyIf (version ≥ 7) (Sizeof.add (Sizeof.string t.GroupInstanceId)) ;;
    onlyIf (version ≥ 2 ∧ version ≤ 4) (Sizeof.add Sizeof.int64) ;;
    Sizeof.structs (OffsetCommitRequestTopic8.size version) t.Topics) 0

/-- message/messages.gen.go:3321-3341 `OffsetCommitRequest.Encode` -/
def OffsetCommitRequest.encode (version : Int16) (t : OffsetCommitRequest) : Encoder → Encoder :=
    (·.putString t.GroupId) ;;
    onlyIf (version ≥ 1) (·.putInt32 t.GenerationId) ;;
    onlyIf (version ≥ 1) (·.putString t.MemberId) ;;
    onlyIf (version ≥ 7) (·.putString t.GroupInstanceId) ;;
    onlyIf (version ≥ 2 ∧ version ≤ 4) (·.putInt64 t.RetentionTimeMs) ;;
    Encoder.putStructs (OffsetCommitRequestTopic8.encode version) t.Topics

/-- message/messages.gen.go:3344-3388 `OffsetCommitRequest.Decode`; the second argument is the receiver. -/
def OffsetCommitRequest.decode (version : Int16) : OffsetCommitRequest → Dec OffsetCommitRequest :=
    Dec.field Dec.string (fun t x => { t with GroupId := x }) ;>
    Dec.onlyIf (version ≥ 1) (Dec.field Dec.int32 (fun t x => { t with GenerationId := x })) ;>
    Dec.onlyIf (version ≥ 1) (Dec.field Dec.string (fun t x => { t with MemberId := x })) ;>
    Dec.onlyIf (version ≥ 7) (Dec.field Dec.string (fun t x => { t with GroupInstanceId := x })) ;>
    Dec.onlyIf (version ≥ 2 ∧ version ≤ 4) (Dec.field Dec.int64 (fun t x => { t with RetentionTimeMs := x })) ;>
    Dec.fieldStructs (OffsetCommitRequestTopic8.decode version {}) (·.Topics) (fun t x => { t with Topics := x })

/-- The type `OffsetCommitRequest` with its methods. -/
def OffsetCommitRequest.type : MsgType :=
  { name := "OffsetCommitRequest", T := OffsetCommitRequest, zero := {}, size := OffsetCommitRequest.size, encode := OffsetCommitRequest.encode,
    decode := OffsetCommitRequest.decode }

/-- message/messages.gen.go:3600-3603 `type OffsetCommitResponsePartition8 struct`; the defaults are the Go zero values. -/
@[ext] structure OffsetCommitResponsePartition8 where
  PartitionIndex : Int32 := 0
  ErrorCode : Int16 := 0

/-- message/messages.gen.go:3606-3611 `OffsetCommitResponsePartition8.Size` -/
def OffsetCommitResponsePartition8.size (_version : Int16) (_t : OffsetCommitResponsePartition8) : Int32 :=
   (Sizeof.add Sizeof.int32 ;;
    Sizeof.add Sizeof.int16) 0

/-- message/messages.gen.go:3614-3617 `OffsetCommitResponsePartition8.Encode` -/
def OffsetCommitResponsePartition8.encode (_version : Int16) (t : OffsetCommitResponsePartition8) : Encoder → Encoder :=
    (·.putInt32 t.PartitionIndex) ;;
    (·.putInt16 t.ErrorCode)

/-- message/messages.gen.go:3620-3631 `OffsetCommitResponsePartition8.Decode`; the second argument is the receiver. -/
def OffsetCommitResponsePartition8.decode (_version : Int16) : OffsetCommitResponsePartition8 → Dec OffsetCommitResponsePartition8 :=
    Dec.field Dec.int32 (fun t x => { t with PartitionIndex := x }) ;>
    Dec.field Dec.int16 (fun t x => { t with ErrorCode := x })

/-- The type `OffsetCommitResponsePartition8` with its methods. -/
def OffsetCommitResponsePartition8.type : MsgType :=
  { name := "OffsetCommitResponsePartition8", T := OffsetCommitResponsePartition8, zero := {}, size := OffsetCommitResponsePartition8.size, encode := OffsetCommitResponsePartition8.encode,
    decode := OffsetCommitResponsePartition8.decode }

/-- message/messages.gen.go:3550-3553 `type OffsetCommitResponseTopic8 struct`; the defaults are the Go zero values. -/
@[ext] structure OffsetCommitResponseTopic8 where
  Name : GoString := []
  Partitions : Slice OffsetCommitResponsePartition8 := none

/-- message/messages.gen.go:3556-3564 `OffsetCommitResponseTopic8.Size` -/
def OffsetCommitResponseTopic8.size (version : Int16) (t : OffsetCommitResponseTopic8) : Int32 :=
   (Sizeof.add (Sizeof.string t.Name) ;;
    Sizeof.structs (OffsetCommitResponsePartition8.size version) t.Partitions) 0

/-- message/messages.gen.go:3567-3575 `OffsetCommitResponseTopic8.Encode` -/
def OffsetCommitResponseTopic8.encode (version : Int16) (t : OffsetCommitResponseTopic8) : Encoder → Encoder :=
    (·.putString t.Name) ;;
    Encoder.putStructs (OffsetCommitResponsePartition8.encode version) t.Partitions

/-- message/messages.gen.go:3578-3598 `OffsetCommitResponseTopic8.Decode`; the second argument is the receiver. -/
def OffsetCommitResponseTopic8.decode (version : Int16) : OffsetCommitResponseTopic8 → Dec OffsetCommitResponseTopic8 :=
    Dec.field Dec.string (fun t x => { t with Name := x }) ;>
    Dec.fieldStructs (OffsetCommitResponsePartition8.decode version {}) (·.Partitions) (fun t x => { t with Partitions := x })

/-- The type `OffsetCommitResponseTopic8` with its methods. -/
def OffsetCommitResponseTopic8.type : MsgType :=
  { name := "OffsetCommitResponseTopic8", T := OffsetCommitResponseTopic8, zero := {}, size := OffsetCommitResponseTopic8.size, encode := OffsetCommitResponseTopic8.encode,
    decode := OffsetCommitResponseTopic8.decode }

/-- message/messages.gen.go:3494-3497 `type OffsetCommitResponse struct`; the defaults are the Go zero values. -/
@[ext] structure OffsetCommitResponse where
  ThrottleTimeMs : Int32 := 0
  Topics : Slice OffsetCommitResponseTopic8 := none

/-- message/messages.gen.go:3500-3510 `OffsetCommitResponse.Size` -/
def OffsetCommitResponse.size (version : Int16) (t : OffsetCommitResponse) : Int32 :=
   (onlyIf (version ≥ 3) (Sizeof.add Sizeof.int32) ;;
    Sizeof.structs (OffsetCommitResponseTopic8.size version) t.Topics) 0

/-- message/messages.gen.go:3513-3523 `OffsetCommitResponse.Encode` -/
def OffsetCommitResponse.encode (version : Int16) (t : OffsetCommitResponse) : Encoder → Encoder :=
    onlyIf (version ≥ 3) (·.putInt32 t.ThrottleTimeMs) ;;
    Encoder.putStructs (OffsetCommitResponseTopic8.encode version) t.Topics

/-- message/messages.gen.go:3526-3548 `OffsetCommitResponse.Decode`; the second argument is the receiver. -/
def OffsetCommitResponse.decode (version : Int16) : OffsetCommitResponse → Dec OffsetCommitResponse :=
    Dec.onlyIf (version ≥ 3) (Dec.field Dec.int32 (fun t x => { t with ThrottleTimeMs := x })) ;>
    Dec.fieldStructs (OffsetCommitResponseTopic8.decode version {}) (·.Topics) (fun t x => { t with Topics := x })

/-- The type `OffsetCommitResponse` with its methods. -/
def OffsetCommitResponse.type : MsgType :=
  { name := "OffsetCommitResponse", T := OffsetCommitResponse, zero := {}, size := OffsetCommitResponse.size, encode := OffsetCommitResponse.encode,
    decode := OffsetCommitResponse.decode }

end Kafka.Msg
