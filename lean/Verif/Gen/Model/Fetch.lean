import Verif.Message.Steps
/-!
Generated by tools/gen_messages.py from message/messages.gen.go: model of the Fetch messages.
-/
namespace Kafka.Msg

/-- message/messages.gen.go:729-735 `type FetchPartition1 struct`; the defaults are the Go zero values. -/
@[ext] structure FetchPartition1 where
  PartitionIndex : Int32 := 0
  CurrentLeaderEpoch : Int32 := 0
  FetchOffset : Int64 := 0
  LogStartOffset : Int64 := 0
  MaxBytes : Int32 := 0

/-- message/messages.gen.go:738-750 `FetchPartition1.Size` -/
def FetchPartition1.size (version : Int16) (_t : FetchPartition1) : Int32 :=
   (Sizeof.add Sizeof.int32 ;;
    onlyIf (version ≥ 9) (Sizeof.add Sizeof.int32) ;;
    Sizeof.add Sizeof.int64 ;;
    onlyIf (version ≥ 5) (Sizeof.add Sizeof.int64) ;;
    Sizeof.add Sizeof.int32) 0

/-- message/messages.gen.go:753-763 `FetchPartition1.Encode` -/
def FetchPartition1.encode (version : Int16) (t : FetchPartition1) : Encoder → Encoder :=
    (·.putInt32 t.PartitionIndex) ;;
    onlyIf (version ≥ 9) (·.putInt32 t.CurrentLeaderEpoch) ;;
    (·.putInt64 t.FetchOffset) ;;
    onlyIf (version ≥ 5) (·.putInt64 t.LogStartOffset) ;;
    (·.putInt32 t.MaxBytes)

/-- message/messages.gen.go:766-793 `FetchPartition1.Decode`; the second argument is the receiver. -/
def FetchPartition1.decode (version : Int16) : FetchPartition1 → Dec FetchPartition1 :=
    Dec.field Dec.int32 (fun t x => { t with PartitionIndex := x }) ;>
    Dec.onlyIf (version ≥ 9) (Dec.field Dec.int32 (fun t x => { t with CurrentLeaderEpoch := x })) ;>
    Dec.field Dec.int64 (fun t x => { t with FetchOffset := x }) ;>
    Dec.onlyIf (version ≥ 5) (Dec.field Dec.int64 (fun t x => { t with LogStartOffset := x })) ;>
    Dec.field Dec.int32 (fun t x => { t with MaxBytes := x })

/-- The type `FetchPartition1` with its methods. -/
def FetchPartition1.type : MsgType :=
  { name := "FetchPartition1", T := FetchPartition1, zero := {}, size := FetchPartition1.size, encode := FetchPartition1.encode,
    decode := FetchPartition1.decode }

/-- message/messages.gen.go:679-682 `type FetchableTopic1 struct`; the defaults are the Go zero values. -/
@[ext] structure FetchableTopic1 where
  Name : GoString := []
  FetchPartitions : Slice FetchPartition1 := none

/-- message/messages.gen.go:685-693 `FetchableTopic1.Size` -/
def FetchableTopic1.size (version : Int16) (t : FetchableTopic1) : Int32 :=
   (Sizeof.add (Sizeof.string t.Name) ;;
    Sizeof.structs (FetchPartition1.size version) t.FetchPartitions) 0

/-- message/messages.gen.go:696-704 `FetchableTopic1.Encode` -/
def FetchableTopic1.encode (version : Int16) (t : FetchableTopic1) : Encoder → Encoder :=
    (·.putString t.Name) ;;
    Encoder.putStructs (FetchPartition1.encode version) t.FetchPartitions

/-- message/messages.gen.go:707-727 `FetchableTopic1.Decode`; the second argument is the receiver. -/
def FetchableTopic1.decode (version : Int16) : FetchableTopic1 → Dec FetchableTopic1 :=
    Dec.field Dec.string (fun t x => { t with Name := x }) ;>
    Dec.fieldStructs (FetchPartition1.decode version {}) (·.FetchPartitions) (fun t x => { t with FetchPartitions := x })

/-- The type `FetchableTopic1` with its methods. -/
def FetchableTopic1.type : MsgType :=
  { name := "FetchableTopic1", T := FetchableTopic1, zero := {}, size := FetchableTopic1.size, encode := FetchableTopic1.encode,
    decode := FetchableTopic1.decode }

/-- message/messages.gen.go:795-798 `type ForgottenTopic1 struct`; the defaults are the Go zero values. -/
@[ext] structure ForgottenTopic1 where
  Name : GoString := []
  ForgottenPartitionIndexes : Slice Int32 := none

/-- message/messages.gen.go:801-810 `ForgottenTopic1.Size` -/
def ForgottenTopic1.size (version : Int16) (t : ForgottenTopic1) : Int32 :=
   (onlyIf (version ≥ 7) (Sizeof.add (Sizeof.string t.Name)) ;;
    onlyIf (version ≥ 7) (Sizeof.add (Sizeof.int32Array t.ForgottenPartitionIndexes))) 0

/-- message/messages.gen.go:813-820 `ForgottenTopic1.Encode` -/
def ForgottenTopic1.encode (version : Int16) (t : ForgottenTopic1) : Encoder → Encoder :=
    onlyIf (version ≥ 7) (·.putString t.Name) ;;
    onlyIf (version ≥ 7) (·.putInt32Array t.ForgottenPartitionIndexes)

/-- message/messages.gen.go:823-838 `ForgottenTopic1.Decode`; the second argument is the receiver. -/
def ForgottenTopic1.decode (version : Int16) : ForgottenTopic1 → Dec ForgottenTopic1 :=
    Dec.onlyIf (version ≥ 7) (Dec.field Dec.string (fun t x => { t with Name := x })) ;>
    Dec.onlyIf (version ≥ 7) (Dec.field Dec.int32Array (fun t x => { t with ForgottenPartitionIndexes := x }))

/-- The type `ForgottenTopic1` with its methods. -/
def ForgottenTopic1.type : MsgType :=
  { name := "ForgottenTopic1", T := ForgottenTopic1, zero := {}, size := ForgottenTopic1.size, encode := ForgottenTopic1.encode,
    decode := ForgottenTopic1.decode }

/-- message/messages.gen.go:520-531 `type FetchRequest struct`; the defaults are the Go zero values. -/
@[ext] structure FetchRequest where
  ReplicaId : Int32 := 0
  MaxWait : Int32 := 0
  MinBytes : Int32 := 0
  MaxBytes : Int32 := 0
  IsolationLevel : Int8 := 0
  SessionId : Int32 := 0
  Epoch : Int32 := 0
  Topics : Slice FetchableTopic1 := none
  Forgotten : Slice ForgottenTopic1 := none
  RackId : GoString := []

/-- message/messages.gen.go:534-565 `FetchRequest.Size` -/
def FetchRequest.size (version : Int16) (t : FetchRequest) : Int32 :=
   (Sizeof.add Sizeof.int32 ;;
    Sizeof.add Sizeof.int32 ;;
    Sizeof.add Sizeof.int32 ;;
    onlyIf (version ≥ 3) (Sizeof.add Sizeof.int32) ;;
    onlyIf (version ≥ 4) (Sizeof.add Sizeof.int8) ;;
    onlyIf (version ≥ 7) (Sizeof.add Sizeof.int32) ;;
    onlyIf (version ≥ 7) (Sizeof.add Sizeof.int32) ;;
    Sizeof.structs (FetchableTopic1.size version) t.Topics ;;
    onlyIf (version ≥ 7) (Sizeof.structs (ForgottenTopic1.size version) t.Forgotten) ;;
    onlyIf (version ≥ 11) (Sizeof.add (Sizeof.string t.RackId))) 0

/-- message/messages.gen.go:568-601 `FetchRequest.Encode` -/
def FetchRequest.encode (version : Int16) (t : FetchRequest) : Encoder → Encoder :=
    (·.putInt32 t.ReplicaId) ;;
    (·.putInt32 t.MaxWait) ;;
    (·.putInt32 t.MinBytes) ;;
    onlyIf (version ≥ 3) (·.putInt32 t.MaxBytes) ;;
    onlyIf (version ≥ 4) (·.putInt8 t.IsolationLevel) ;;
    onlyIf (version ≥ 7) (·.putInt32 t.SessionId) ;;
    onlyIf (version ≥ 7) (·.putInt32 t.Epoch) ;;
    Encoder.putStructs (FetchableTopic1.encode version) t.Topics ;;
    onlyIf (version ≥ 7) (Encoder.putStructs (ForgottenTopic1.encode version) t.Forgotten) ;;
    onlyIf (version ≥ 11) (·.putString t.RackId)

/-- message/messages.gen.go:604-677 `FetchRequest.Decode`; the second argument is the receiver. -/
def FetchRequest.decode (version : Int16) : FetchRequest → Dec FetchRequest :=
    Dec.field Dec.int32 (fun t x => { t with ReplicaId := x }) ;>
    Dec.field Dec.int32 (fun t x => { t with MaxWait := x }) ;>
    Dec.field Dec.int32 (fun t x => { t with MinBytes := x }) ;>
    Dec.onlyIf (version ≥ 3) (Dec.field Dec.int32 (fun t x => { t with MaxBytes := x })) ;>
    Dec.onlyIf (version ≥ 4) (Dec.field Dec.int8 (fun t x => { t with IsolationLevel := x })) ;>
    Dec.onlyIf (version ≥ 7) (Dec.field Dec.int32 (fun t x => { t with SessionId := x })) ;>
    Dec.onlyIf (version ≥ 7) (Dec.field Dec.int32 (fun t x => { t with Epoch := x })) ;>
    Dec.fieldStructs (FetchableTopic1.decode version {}) (·.Topics) (fun t x => { t with Topics := x }) ;>
    Dec.onlyIf (version ≥ 7) (Dec.fieldStructs (ForgottenTopic1.decode version {}) (·.Forgotten) (fun t x => { t with Forgotten := x })) ;>
    Dec.onlyIf (version ≥ 11) (Dec.field Dec.string (fun t x => { t with RackId := x }))

/-- The type `FetchRequest` with its methods. -/
def FetchRequest.type : MsgType :=
  { name := "FetchRequest", T := FetchRequest, zero := {}, size := FetchRequest.size, encode := FetchRequest.encode,
    decode := FetchRequest.decode }

/-- message/messages.gen.go:1089-1092 `type AbortedTransaction1 struct`; the defaults are the Go zero values. -/
@[ext] structure AbortedTransaction1 where
  ProducerId : Int64 := 0
  FirstOffset : Int64 := 0

/-- message/messages.gen.go:1095-1104 `AbortedTransaction1.Size` -/
def AbortedTransaction1.size (version : Int16) (_t : AbortedTransaction1) : Int32 :=
   (onlyIf (version ≥ 4) (Sizeof.add Sizeof.int64) ;;
    onlyIf (version ≥ 4) (Sizeof.add Sizeof.int64)) 0

/-- message/messages.gen.go:1107-1114 `AbortedTransaction1.Encode` -/
def AbortedTransaction1.encode (version : Int16) (t : AbortedTransaction1) : Encoder → Encoder :=
    onlyIf (version ≥ 4) (·.putInt64 t.ProducerId) ;;
    onlyIf (version ≥ 4) (·.putInt64 t.FirstOffset)

/-- message/messages.gen.go:1117-1132 `AbortedTransaction1.Decode`; the second argument is the receiver. -/
def AbortedTransaction1.decode (version : Int16) : AbortedTransaction1 → Dec AbortedTransaction1 :=
    Dec.onlyIf (version ≥ 4) (Dec.field Dec.int64 (fun t x => { t with ProducerId := x })) ;>
    Dec.onlyIf (version ≥ 4) (Dec.field Dec.int64 (fun t x => { t with FirstOffset := x }))

/-- The type `AbortedTransaction1` with its methods. -/
def AbortedTransaction1.type : MsgType :=
  { name := "AbortedTransaction1", T := AbortedTransaction1, zero := {}, size := AbortedTransaction1.size, encode := AbortedTransaction1.encode,
    decode := AbortedTransaction1.decode }

/-- message/messages.gen.go:973-982 `type FetchablePartitionResponse1 struct`; the defaults are the Go zero values. -/
@[ext] structure FetchablePartitionResponse1 where
  PartitionIndex : Int32 := 0
  ErrorCode : Int16 := 0
  HighWatermark : Int64 := 0
  LastStableOffset : Int64 := 0
  LogStartOffset : Int64 := 0
  Aborted : Slice AbortedTransaction1 := none
  PreferredReadReplica : Int32 := 0
  Records : Slice Byte := none

/-- message/messages.gen.go:985-1007 `FetchablePartitionResponse1.Size` -/
def FetchablePartitionResponse1.size (version : Int16) (t : FetchablePartitionResponse1) : Int32 :=
   (Sizeof.add Sizeof.int32 ;;
    Sizeof.add Sizeof.int16 ;;
    Sizeof.add Sizeof.int64 ;;
    onlyIf (version ≥ 4) (Sizeof.add Sizeof.int64) ;;
    onlyIf (version ≥ 5) (Sizeof.add Sizeof.int64) ;;
    onlyIf (version ≥ 4) (Sizeof.structs (AbortedTransaction1.size version) t.Aborted) ;;
    onlyIf (version ≥ 11) (Sizeof.add Sizeof.int32) ;;
    Sizeof.add (Sizeof.bytes t.Records)) 0

/-- message/messages.gen.go:1010-1032 `FetchablePartitionResponse1.Encode` -/
def FetchablePartitionResponse1.encode (version : Int16) (t : FetchablePartitionResponse1) : Encoder → Encoder :=
    (·.putInt32 t.PartitionIndex) ;;
    (·.putInt16 t.ErrorCode) ;;
    (·.putInt64 t.HighWatermark) ;;
    onlyIf (version ≥ 4) (·.putInt64 t.LastStableOffset) ;;
    onlyIf (version ≥ 5) (·.putInt64 t.LogStartOffset) ;;
    onlyIf (version ≥ 4) (Encoder.putStructs (AbortedTransaction1.encode version) t.Aborted) ;;
    onlyIf (version ≥ 11) (·.putInt32 t.PreferredReadReplica) ;;
    (·.putBytes t.Records)

/-- message/messages.gen.go:1035-1087 `FetchablePartitionResponse1.Decode`; the second argument is the receiver. -/
def FetchablePartitionResponse1.decode (version : Int16) : FetchablePartitionResponse1 → Dec FetchablePartitionResponse1 :=
    Dec.field Dec.int32 (fun t x => { t with PartitionIndex := x }) ;>
    Dec.field Dec.int16 (fun t x => { t with ErrorCode := x }) ;>
    Dec.field Dec.int64 (fun t x => { t with HighWatermark := x }) ;>
    Dec.onlyIf (version ≥ 4) (Dec.field Dec.int64 (fun t x => { t with LastStableOffset := x })) ;>
    Dec.onlyIf (version ≥ 5) (Dec.field Dec.int64 (fun t x => { t with LogStartOffset := x })) ;>
    Dec.onlyIf (version ≥ 4) (Dec.fieldStructs (AbortedTransaction1.decode version {}) (·.Aborted) (fun t x => { t with Aborted := x })) ;>
    Dec.onlyIf (version ≥ 11) (Dec.field Dec.int32 (fun t x => { t with PreferredReadReplica := x })) ;>
    Dec.field Dec.bytes (fun t x => { t with Records := x })

/-- The type `FetchablePartitionResponse1` with its methods. -/
def FetchablePartitionResponse1.type : MsgType :=
  { name := "FetchablePartitionResponse1", T := FetchablePartitionResponse1, zero := {}, size := FetchablePartitionResponse1.size, encode := FetchablePartitionResponse1.encode,
    decode := FetchablePartitionResponse1.decode }

/-- message/messages.gen.go:923-926 `type FetchableTopicResponse1 struct`; the defaults are the Go zero values. -/
@[ext] structure FetchableTopicResponse1 where
  Name : GoString := []
  Partitions : Slice FetchablePartitionResponse1 := none

/-- message/messages.gen.go:929-937 `FetchableTopicResponse1.Size` -/
def FetchableTopicResponse1.size (version : Int16) (t : FetchableTopicResponse1) : Int32 :=
   (Sizeof.add (Sizeof.string t.Name) ;;
    Sizeof.structs (FetchablePartitionResponse1.size version) t.Partitions) 0

/-- message/messages.gen.go:940-948 `FetchableTopicResponse1.Encode` -/
def FetchableTopicResponse1.encode (version : Int16) (t : FetchableTopicResponse1) : Encoder → Encoder :=
    (·.putString t.Name) ;;
    Encoder.putStructs (FetchablePartitionResponse1.encode version) t.Partitions

/-- message/messages.gen.go:951-971 `FetchableTopicResponse1.Decode`; the second argument is the receiver. -/
def FetchableTopicResponse1.decode (version : Int16) : FetchableTopicResponse1 → Dec FetchableTopicResponse1 :=
    Dec.field Dec.string (fun t x => { t with Name := x }) ;>
    Dec.fieldStructs (FetchablePartitionResponse1.decode version {}) (·.Partitions) (fun t x => { t with Partitions := x })

/-- The type `FetchableTopicResponse1` with its methods. -/
def FetchableTopicResponse1.type : MsgType :=
  { name := "FetchableTopicResponse1", T := FetchableTopicResponse1, zero := {}, size := FetchableTopicResponse1.size, encode := FetchableTopicResponse1.encode,
    decode := FetchableTopicResponse1.decode }

/-- message/messages.gen.go:841-846 `type FetchResponse struct`; the defaults are the Go zero values. -/
@[ext] structure FetchResponse where
  ThrottleTimeMs : Int32 := 0
  ErrorCode : Int16 := 0
  SessionId : Int32 := 0
  Topics : Slice FetchableTopicResponse1 := none

/-- message/messages.gen.go:849-865 `FetchResponse.Size` -/
def FetchResponse.size (version : Int16) (t : FetchResponse) : Int32 :=
   (onlyIf (version ≥ 1) (Sizeof.add Sizeof.int32) ;;
    onlyIf (version ≥ 7) (Sizeof.add Sizeof.int16) ;;
    onlyIf (version ≥ 7) (Sizeof.add Sizeof.int32) ;;
    Sizeof.structs (FetchableTopicResponse1.size version) t.Topics) 0

/-- message/messages.gen.go:868-884 `FetchResponse.Encode` -/
def FetchResponse.encode (version : Int16) (t : FetchResponse) : Encoder → Encoder :=
    onlyIf (version ≥ 1) (·.putInt32 t.ThrottleTimeMs) ;;
    onlyIf (version ≥ 7) (·.putInt16 t.ErrorCode) ;;
    onlyIf (version ≥ 7) (·.putInt32 t.SessionId) ;;
    Encoder.putStructs (FetchableTopicResponse1.encode version) t.Topics

/-- message/messages.gen.go:887-921 `FetchResponse.Decode`; the second argument is the receiver. -/
def FetchResponse.decode (version : Int16) : FetchResponse → Dec FetchResponse :=
    Dec.onlyIf (version ≥ 1) (Dec.field Dec.int32 (fun t x => { t with ThrottleTimeMs := x })) ;>
    Dec.onlyIf (version ≥ 7) (Dec.field Dec.int16 (fun t x => { t with ErrorCode := x })) ;>
    Dec.onlyIf (version ≥ 7) (Dec.field Dec.int32 (fun t x => { t with SessionId := x })) ;>
    Dec.fieldStructs (FetchableTopicResponse1.decode version {}) (·.Topics) (fun t x => { t with Topics := x })

/-- The type `FetchResponse` with its methods. -/
def FetchResponse.type : MsgType :=
  { name := "FetchResponse", T := FetchResponse, zero := {}, size := FetchResponse.size, encode := FetchResponse.encode,
    decode := FetchResponse.decode }

end Kafka.Msg
