import Verif.Message.Steps
/-!
Generated by tools/gen_messages.py from message/messages.gen.go: model of the TxnOffsetCommit messages.
-/
namespace Kafka.Msg

/-- message/messages.gen.go:7469-7474 `type TxnOffsetCommitRequestPartition28 struct`; the defaults are the Go zero values. -/
@[ext] structure TxnOffsetCommitRequestPartition28 where
  PartitionIndex : Int32 := 0
  CommittedOffset : Int64 := 0
  CommittedLeaderEpoch : Int32 := 0
  CommittedMetadata : GoString := []

/-- message/messages.gen.go:7477-7486 `TxnOffsetCommitRequestPartition28.Size` -/
def TxnOffsetCommitRequestPartition28.size (version : Int16) (t : TxnOffsetCommitRequestPartition28) : Int32 :=
   (Sizeof.add Sizeof.int32 ;;
    Sizeof.add Sizeof.int64 ;;
    onlyIf (version ≥ 2) (Sizeof.add Sizeof.int32) ;;
    Sizeof.add (Sizeof.string t.CommittedMetadata)) 0

/-- message/messages.gen.go:7489-7496 `TxnOffsetCommitRequestPartition28.Encode` -/
def TxnOffsetCommitRequestPartition28.encode (version : Int16) (t : TxnOffsetCommitRequestPartition28) : Encoder → Encoder :=
    (·.putInt32 t.PartitionIndex) ;;
    (·.putInt64 t.CommittedOffset) ;;
    onlyIf (version ≥ 2) (·.putInt32 t.CommittedLeaderEpoch) ;;
    (·.putString t.CommittedMetadata)

/-- message/messages.gen.go:7499-7520 `TxnOffsetCommitRequestPartition28.Decode`; the second argument is the receiver. -/
def TxnOffsetCommitRequestPartition28.decode (version : Int16) : TxnOffsetCommitRequestPartition28 → Dec TxnOffsetCommitRequestPartition28 :=
    Dec.field Dec.int32 (fun t x => { t with PartitionIndex := x }) ;>
    Dec.field Dec.int64 (fun t x => { t with CommittedOffset := x }) ;>
    Dec.onlyIf (version ≥ 2) (Dec.field Dec.int32 (fun t x => { t with CommittedLeaderEpoch := x })) ;>
    Dec.field Dec.string (fun t x => { t with CommittedMetadata := x })

/-- The type `TxnOffsetCommitRequestPartition28` with its methods. -/
def TxnOffsetCommitRequestPartition28.type : MsgType :=
  { name := "TxnOffsetCommitRequestPartition28", T := TxnOffsetCommitRequestPartition28, zero := {}, size := TxnOffsetCommitRequestPartition28.size, encode := TxnOffsetCommitRequestPartition28.encode,
    decode := TxnOffsetCommitRequestPartition28.decode }

/-- message/messages.gen.go:7419-7422 `type TxnOffsetCommitRequestTopic28 struct`; the defaults are the Go zero values. -/
@[ext] structure TxnOffsetCommitRequestTopic28 where
  Name : GoString := []
  Partitions : Slice TxnOffsetCommitRequestPartition28 := none

/-- message/messages.gen.go:7425-7433 `TxnOffsetCommitRequestTopic28.Size` -/
def TxnOffsetCommitRequestTopic28.size (version : Int16) (t : TxnOffsetCommitRequestTopic28) : Int32 :=
   (Sizeof.add (Sizeof.string t.Name) ;;
    Sizeof.structs (TxnOffsetCommitRequestPartition28.size version) t.Partitions) 0

/-- message/messages.gen.go:7436-7444 `TxnOffsetCommitRequestTopic28.Encode` -/
def TxnOffsetCommitRequestTopic28.encode (version : Int16) (t : TxnOffsetCommitRequestTopic28) : Encoder → Encoder :=
    (·.putString t.Name) ;;
    Encoder.putStructs (TxnOffsetCommitRequestPartition28.encode version) t.Partitions

/-- message/messages.gen.go:7447-7467 `TxnOffsetCommitRequestTopic28.Decode`; the second argument is the receiver. -/
def TxnOffsetCommitRequestTopic28.decode (version : Int16) : TxnOffsetCommitRequestTopic28 → Dec TxnOffsetCommitRequestTopic28 :=
    Dec.field Dec.string (fun t x => { t with Name := x }) ;>
    Dec.fieldStructs (TxnOffsetCommitRequestPartition28.decode version {}) (·.Partitions) (fun t x => { t with Partitions := x })

/-- The type `TxnOffsetCommitRequestTopic28` with its methods. -/
def TxnOffsetCommitRequestTopic28.type : MsgType :=
  { name := "TxnOffsetCommitRequestTopic28", T := TxnOffsetCommitRequestTopic28, zero := {}, size := TxnOffsetCommitRequestTopic28.size, encode := TxnOffsetCommitRequestTopic28.encode,
    decode := TxnOffsetCommitRequestTopic28.decode }

/-- message/messages.gen.go:7348-7354 `type TxnOffsetCommitRequest struct`; the defaults are the Go zero values. -/
@[ext] structure TxnOffsetCommitRequest where
  TransactionalId : GoString := []
  GroupId : GoString := []
  ProducerId : Int64 := 0
  ProducerEpoch : Int16 := 0
  Topics : Slice TxnOffsetCommitRequestTopic28 := none

/-- message/messages.gen.go:7357-7368 `TxnOffsetCommitRequest.Size` -/
def TxnOffsetCommitRequest.size (version : Int16) (t : TxnOffsetCommitRequest) : Int32 :=
   (Sizeof.add (Sizeof.string t.TransactionalId) ;;
    Sizeof.add (Sizeof.string t.GroupId) ;;
    Sizeof.add Sizeof.int64 ;;
    Sizeof.add Sizeof.int16 ;;
    Sizeof.structs (TxnOffsetCommitRequestTopic28.size version) t.Topics) 0

/-- message/messages.gen.go:7371-7382 `TxnOffsetCommitRequest.Encode` -/
def TxnOffsetCommitRequest.encode (version : Int16) (t : TxnOffsetCommitRequest) : Encoder → Encoder :=
    (·.putString t.TransactionalId) ;;
    (·.putString t.GroupId) ;;
    (·.putInt64 t.ProducerId) ;;
    (·.putInt16 t.ProducerEpoch) ;;
    Encoder.putStructs (TxnOffsetCommitRequestTopic28.encode version) t.Topics

/-- message/messages.gen.go:7385-7417 `TxnOffsetCommitRequest.Decode`; the second argument is the receiver. -/
def TxnOffsetCommitRequest.decode (version : Int16) : TxnOffsetCommitRequest → Dec TxnOffsetCommitRequest :=
    Dec.field Dec.string (fun t x => { t with TransactionalId := x }) ;>
    Dec.field Dec.string (fun t x => { t with GroupId := x }) ;>
    Dec.field Dec.int64 (fun t x => { t with ProducerId := x }) ;>
    Dec.field Dec.int16 (fun t x => { t with ProducerEpoch := x }) ;>
    Dec.fieldStructs (TxnOffsetCommitRequestTopic28.decode version {}) (·.Topics) (fun t x => { t with Topics := x })

/-- The type `TxnOffsetCommitRequest` with its methods. -/
def TxnOffsetCommitRequest.type : MsgType :=
  { name := "TxnOffsetCommitRequest", T := TxnOffsetCommitRequest, zero := {}, size := TxnOffsetCommitRequest.size, encode := TxnOffsetCommitRequest.encode,
    decode := TxnOffsetCommitRequest.decode }

/-- message/messages.gen.go:7623-7626 `type TxnOffsetCommitResponsePartition28 struct`; the defaults are the Go zero values. -/
@[ext] structure TxnOffsetCommitResponsePartition28 where
  PartitionIndex : Int32 := 0
  ErrorCode : Int16 := 0

/-- message/messages.gen.go:7629-7634 `TxnOffsetCommitResponsePartition28.Size` -/
def TxnOffsetCommitResponsePartition28.size (_version : Int16) (_t : TxnOffsetCommitResponsePartition28) : Int32 :=
   (Sizeof.add Sizeof.int32 ;;
    Sizeof.add Sizeof.int16) 0

/-- message/messages.gen.go:7637-7640 `TxnOffsetCommitResponsePartition28.Encode` -/
def TxnOffsetCommitResponsePartition28.encode (_version : Int16) (t : TxnOffsetCommitResponsePartition28) : Encoder → Encoder :=
    (·.putInt32 t.PartitionIndex) ;;
    (·.putInt16 t.ErrorCode)

/-- message/messages.gen.go:7643-7654 `TxnOffsetCommitResponsePartition28.Decode`; the second argument is the receiver. -/
def TxnOffsetCommitResponsePartition28.decode (_version : Int16) : TxnOffsetCommitResponsePartition28 → Dec TxnOffsetCommitResponsePartition28 :=
    Dec.field Dec.int32 (fun t x => { t with PartitionIndex := x }) ;>
    Dec.field Dec.int16 (fun t x => { t with ErrorCode := x })

/-- The type `TxnOffsetCommitResponsePartition28` with its methods. -/
def TxnOffsetCommitResponsePartition28.type : MsgType :=
  { name := "TxnOffsetCommitResponsePartition28", T := TxnOffsetCommitResponsePartition28, zero := {}, size := TxnOffsetCommitResponsePartition28.size, encode := TxnOffsetCommitResponsePartition28.encode,
    decode := TxnOffsetCommitResponsePartition28.decode }

/-- message/messages.gen.go:7573-7576 `type TxnOffsetCommitResponseTopic28 struct`; the defaults are the Go zero values. -/
@[ext] structure TxnOffsetCommitResponseTopic28 where
  Name : GoString := []
  Partitions : Slice TxnOffsetCommitResponsePartition28 := none

/-- message/messages.gen.go:7579-7587 `TxnOffsetCommitResponseTopic28.Size` -/
def TxnOffsetCommitResponseTopic28.size (version : Int16) (t : TxnOffsetCommitResponseTopic28) : Int32 :=
   (Sizeof.add (Sizeof.string t.Name) ;;
    Sizeof.structs (TxnOffsetCommitResponsePartition28.size version) t.Partitions) 0

/-- message/messages.gen.go:7590-7598 `TxnOffsetCommitResponseTopic28.Encode` -/
def TxnOffsetCommitResponseTopic28.encode (version : Int16) (t : TxnOffsetCommitResponseTopic28) : Encoder → Encoder :=
    (·.putString t.Name) ;;
    Encoder.putStructs (TxnOffsetCommitResponsePartition28.encode version) t.Partitions

/-- message/messages.gen.go:7601-7621 `TxnOffsetCommitResponseTopic28.Decode`; the second argument is the receiver. -/
def TxnOffsetCommitResponseTopic28.decode (version : Int16) : TxnOffsetCommitResponseTopic28 → Dec TxnOffsetCommitResponseTopic28 :=
    Dec.field Dec.string (fun t x => { t with Name := x }) ;>
    Dec.fieldStructs (TxnOffsetCommitResponsePartition28.decode version {}) (·.Partitions) (fun t x => { t with Partitions := x })

/-- The type `TxnOffsetCommitResponseTopic28` with its methods. -/
def TxnOffsetCommitResponseTopic28.type : MsgType :=
  { name := "TxnOffsetCommitResponseTopic28", T := TxnOffsetCommitResponseTopic28, zero := {}, size := TxnOffsetCommitResponseTopic28.size, encode := TxnOffsetCommitResponseTopic28.encode,
    decode := TxnOffsetCommitResponseTopic28.decode }

/-- message/messages.gen.go:7523-7526 `type TxnOffsetCommitResponse struct`; the defaults are the Go zero values. -/
@[ext] structure TxnOffsetCommitResponse where
  ThrottleTimeMs : Int32 := 0
  Topics : Slice TxnOffsetCommitResponseTopic28 := none

/-- message/messages.gen.go:7529-7537 `TxnOffsetCommitResponse.Size` -/
def TxnOffsetCommitResponse.size (version : Int16) (t : TxnOffsetCommitResponse) : Int32 :=
   (Sizeof.add Sizeof.int32 ;;
    Sizeof.structs (TxnOffsetCommitResponseTopic28.size version) t.Topics) 0

/-- message/messages.gen.go:7540-7548 `TxnOffsetCommitResponse.Encode` -/
def TxnOffsetCommitResponse.encode (version : Int16) (t : TxnOffsetCommitResponse) : Encoder → Encoder :=
    (·.putInt32 t.ThrottleTimeMs) ;;
    Encoder.putStructs (TxnOffsetCommitResponseTopic28.encode version) t.Topics

/-- message/messages.gen.go:7551-7571 `TxnOffsetCommitResponse.Decode`; the second argument is the receiver. -/
def TxnOffsetCommitResponse.decode (version : Int16) : TxnOffsetCommitResponse → Dec TxnOffsetCommitResponse :=
    Dec.field Dec.int32 (fun t x => { t with ThrottleTimeMs := x }) ;>
    Dec.fieldStructs (TxnOffsetCommitResponseTopic28.decode version {}) (·.Topics) (fun t x => { t with Topics := x })

/-- The type `TxnOffsetCommitResponse` with its methods. -/
def TxnOffsetCommitResponse.type : MsgType :=
  { name := "TxnOffsetCommitResponse", T := TxnOffsetCommitResponse, zero := {}, size := TxnOffsetCommitResponse.size, encode := TxnOffsetCommitResponse.encode,
    decode := TxnOffsetCommitResponse.decode }

end Kafka.Msg
