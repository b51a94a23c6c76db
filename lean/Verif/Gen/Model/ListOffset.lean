import Verif.Message.Steps
/-!
Generated by tools/gen_messages.py from message/messages.gen.go: model of the ListOffset messages.
-/
namespace Kafka.Msg

/-- message/messages.gen.go:1248-1253 `type ListOffsetPartition2 struct`; the defaults are the Go zero values. -/
@[ext] structure ListOffsetPartition2 where
  PartitionIndex : Int32 := 0
  CurrentLeaderEpoch : Int32 := 0
  Timestamp : Int64 := 0
  MaxNumOffsets : Int32 := 0

/-- message/messages.gen.go:1256-1267 `ListOffsetPartition2.Size` -/
def ListOffsetPartition2.size (version : Int16) (_t : ListOffsetPartition2) : Int32 :=
   (Sizeof.add Sizeof.int32 ;;
    onlyIf (version ≥ 4) (Sizeof.add Sizeof.int32) ;;
    Sizeof.add Sizeof.int64 ;;
    onlyIf (version ≥ 0 ∧ version ≤ 0) (Sizeof.add Sizeof.int32)) 0

/-- message/messages.gen.go:1270-1279 `ListOffsetPartition2.Encode` -/
def ListOffsetPartition2.encode (version : Int16) (t : ListOffsetPartition2) : Encoder → Encoder :=
    (·.putInt32 t.PartitionIndex) ;;
    onlyIf (version ≥ 4) (·.putInt32 t.CurrentLeaderEpoch) ;;
    (·.putInt64 t.Timestamp) ;;
    onlyIf (version ≥ 0 ∧ version ≤ 0) (·.putInt32 t.MaxNumOffsets)

/-- message/messages.gen.go:1282-1305 `ListOffsetPartition2.Decode`; the second argument is the receiver. -/
def ListOffsetPartition2.decode (version : Int16) : ListOffsetPartition2 → Dec ListOffsetPartition2 :=
    Dec.field Dec.int32 (fun t x => { t with PartitionIndex := x }) ;>
    Dec.onlyIf (version ≥ 4) (Dec.field Dec.int32 (fun t x => { t with CurrentLeaderEpoch := x })) ;>
    Dec.field Dec.int64 (fun t x => { t with Timestamp := x }) ;>
    Dec.onlyIf (version ≥ 0 ∧ version ≤ 0) (Dec.field Dec.int32 (fun t x => { t with MaxNumOffsets := x }))

/-- The type `ListOffsetPartition2` with its methods. -/
def ListOffsetPartition2.type : MsgType :=
  { name := "ListOffsetPartition2", T := ListOffsetPartition2, zero := {}, size := ListOffsetPartition2.size, encode := ListOffsetPartition2.encode,
    decode := ListOffsetPartition2.decode }

/-- message/messages.gen.go:1198-1201 `type ListOffsetTopic2 struct`; the defaults are the Go zero values. -/
@[ext] structure ListOffsetTopic2 where
  Name : GoString := []
  Partitions : Slice ListOffsetPartition2 := none

/-- message/messages.gen.go:1204-1212 `ListOffsetTopic2.Size` -/
def ListOffsetTopic2.size (version : Int16) (t : ListOffsetTopic2) : Int32 :=
   (Sizeof.add (Sizeof.string t.Name) ;;
    Sizeof.structs (ListOffsetPartition2.size version) t.Partitions) 0

/-- message/messages.gen.go:1215-1223 `ListOffsetTopic2.Encode` -/
def ListOffsetTopic2.encode (version : Int16) (t : ListOffsetTopic2) : Encoder → Encoder :=
    (·.putString t.Name) ;;
    Encoder.putStructs (ListOffsetPartition2.encode version) t.Partitions

/-- message/messages.gen.go:1226-1246 `ListOffsetTopic2.Decode`; the second argument is the receiver. -/
def ListOffsetTopic2.decode (version : Int16) : ListOffsetTopic2 → Dec ListOffsetTopic2 :=
    Dec.field Dec.string (fun t x => { t with Name := x }) ;>
    Dec.fieldStructs (ListOffsetPartition2.decode version {}) (·.Partitions) (fun t x => { t with Partitions := x })

/-- The type `ListOffsetTopic2` with its methods. -/
def ListOffsetTopic2.type : MsgType :=
  { name := "ListOffsetTopic2", T := ListOffsetTopic2, zero := {}, size := ListOffsetTopic2.size, encode := ListOffsetTopic2.encode,
    decode := ListOffsetTopic2.decode }

/-- message/messages.gen.go:1135-1139 `type ListOffsetRequest struct`; the defaults are the Go zero values. -/
@[ext] structure ListOffsetRequest where
  ReplicaId : Int32 := 0
  IsolationLevel : Int8 := 0
  Topics : Slice ListOffsetTopic2 := none

/-- message/messages.gen.go:1142-1153 `ListOffsetRequest.Size` -/
def ListOffsetRequest.size (version : Int16) (t : ListOffsetRequest) : Int32 :=
   (Sizeof.add Sizeof.int32 ;;
    onlyIf (version ≥ 2) (Sizeof.add Sizeof.int8) ;;
    Sizeof.structs (ListOffsetTopic2.size version) t.Topics) 0

/-- message/messages.gen.go:1156-1167 `ListOffsetRequest.Encode` -/
def ListOffsetRequest.encode (version : Int16) (t : ListOffsetRequest) : Encoder → Encoder :=
    (·.putInt32 t.ReplicaId) ;;
    onlyIf (version ≥ 2) (·.putInt8 t.IsolationLevel) ;;
    Encoder.putStructs (ListOffsetTopic2.encode version) t.Topics

/-- message/messages.gen.go:1170-1196 `ListOffsetRequest.Decode`; the second argument is the receiver. -/
def ListOffsetRequest.decode (version : Int16) : ListOffsetRequest → Dec ListOffsetRequest :=
    Dec.field Dec.int32 (fun t x => { t with ReplicaId := x }) ;>
    Dec.onlyIf (version ≥ 2) (Dec.field Dec.int8 (fun t x => { t with IsolationLevel := x })) ;>
    Dec.fieldStructs (ListOffsetTopic2.decode version {}) (·.Topics) (fun t x => { t with Topics := x })

/-- The type `ListOffsetRequest` with its methods. -/
def ListOffsetRequest.type : MsgType :=
  { name := "ListOffsetRequest", T := ListOffsetRequest, zero := {}, size := ListOffsetRequest.size, encode := ListOffsetRequest.encode,
    decode := ListOffsetRequest.decode }

/-- message/messages.gen.go:1414-1421 `type ListOffsetPartitionResponse2 struct`; the defaults are the Go zero values. -/
@[ext] structure ListOffsetPartitionResponse2 where
  PartitionIndex : Int32 := 0
  ErrorCode : Int16 := 0
  OldStyleOffsets : Slice Int64 := none
  Timestamp : Int64 := 0
  Offset : Int64 := 0
  LeaderEpoch : Int32 := 0

/-- message/messages.gen.go:1424-1441 `ListOffsetPartitionResponse2.Size` -/
def ListOffsetPartitionResponse2.size (version : Int16) (t : ListOffsetPartitionResponse2) : Int32 :=
   (Sizeof.add Sizeof.int32 ;;
    Sizeof.add Sizeof.int16 ;;
    onlyIf (version ≥ 0 ∧ version ≤ 0) (Sizeof.add (Sizeof.int64Array t.OldStyleOffsets)) ;;
    onlyIf (version ≥ 1) (Sizeof.add Sizeof.int64) ;;
    onlyIf (version ≥ 1) (Sizeof.add Sizeof.int64) ;;
    onlyIf (version ≥ 4) (Sizeof.add Sizeof.int32)) 0

/-- message/messages.gen.go:1444-1459 `ListOffsetPartitionResponse2.Encode` -/
def ListOffsetPartitionResponse2.encode (version : Int16) (t : ListOffsetPartitionResponse2) : Encoder → Encoder :=
    (·.putInt32 t.PartitionIndex) ;;
    (·.putInt16 t.ErrorCode) ;;
    onlyIf (version ≥ 0 ∧ version ≤ 0) (·.putInt64Array t.OldStyleOffsets) ;;
    onlyIf (version ≥ 1) (·.putInt64 t.Timestamp) ;;
    onlyIf (version ≥ 1) (·.putInt64 t.Offset) ;;
    onlyIf (version ≥ 4) (·.putInt32 t.LeaderEpoch)

/-- message/messages.gen.go:1462-1497 `ListOffsetPartitionResponse2.Decode`; the second argument is the receiver. -/
def ListOffsetPartitionResponse2.decode (version : Int16) : ListOffsetPartitionResponse2 → Dec ListOffsetPartitionResponse2 :=
    Dec.field Dec.int32 (fun t x => { t with PartitionIndex := x }) ;>
    Dec.field Dec.int16 (fun t x => { t with ErrorCode := x }) ;>
    Dec.onlyIf (version ≥ 0 ∧ version ≤ 0) (Dec.field Dec.int64Array (fun t x => { t with OldStyleOffsets := x })) ;>
    Dec.onlyIf (version ≥ 1) (Dec.field Dec.int64 (fun t x => { t with Timestamp := x })) ;>
    Dec.onlyIf (version ≥ 1) (Dec.field Dec.int64 (fun t x => { t with Offset := x })) ;>
    Dec.onlyIf (version ≥ 4) (Dec.field Dec.int32 (fun t x => { t with LeaderEpoch := x }))

/-- The type `ListOffsetPartitionResponse2` with its methods. -/
def ListOffsetPartitionResponse2.type : MsgType :=
  { name := "ListOffsetPartitionResponse2", T := ListOffsetPartitionResponse2, zero := {}, size := ListOffsetPartitionResponse2.size, encode := ListOffsetPartitionResponse2.encode,
    decode := ListOffsetPartitionResponse2.decode }

/-- message/messages.gen.go:1364-1367 `type ListOffsetTopicResponse2 struct`; the defaults are the Go zero values. -/
@[ext] structure ListOffsetTopicResponse2 where
  Name : GoString := []
  Partitions : Slice ListOffsetPartitionResponse2 := none

/-- message/messages.gen.go:1370-1378 `ListOffsetTopicResponse2.Size` -/
def ListOffsetTopicResponse2.size (version : Int16) (t : ListOffsetTopicResponse2) : Int32 :=
   (Sizeof.add (Sizeof.string t.Name) ;;
    Sizeof.structs (ListOffsetPartitionResponse2.size version) t.Partitions) 0

/-- message/messages.gen.go:1381-1389 `ListOffsetTopicResponse2.Encode` -/
def ListOffsetTopicResponse2.encode (version : Int16) (t : ListOffsetTopicResponse2) : Encoder → Encoder :=
    (·.putString t.Name) ;;
    Encoder.putStructs (ListOffsetPartitionResponse2.encode version) t.Partitions

/-- message/messages.gen.go:1392-1412 `ListOffsetTopicResponse2.Decode`; the second argument is the receiver. -/
def ListOffsetTopicResponse2.decode (version : Int16) : ListOffsetTopicResponse2 → Dec ListOffsetTopicResponse2 :=
    Dec.field Dec.string (fun t x => { t with Name := x }) ;>
    Dec.fieldStructs (ListOffsetPartitionResponse2.decode version {}) (·.Partitions) (fun t x => { t with Partitions := x })

/-- The type `ListOffsetTopicResponse2` with its methods. -/
def ListOffsetTopicResponse2.type : MsgType :=
  { name := "ListOffsetTopicResponse2", T := ListOffsetTopicResponse2, zero := {}, size := ListOffsetTopicResponse2.size, encode := ListOffsetTopicResponse2.encode,
    decode := ListOffsetTopicResponse2.decode }

/-- message/messages.gen.go:1308-1311 `type ListOffsetResponse struct`; the defaults are the Go zero values. -/
@[ext] structure ListOffsetResponse where
  ThrottleTimeMs : Int32 := 0
  Topics : Slice ListOffsetTopicResponse2 := none

/-- message/messages.gen.go:1314-1324 `ListOffsetResponse.Size` -/
def ListOffsetResponse.size (version : Int16) (t : ListOffsetResponse) : Int32 :=
   (onlyIf (version ≥ 2) (Sizeof.add Sizeof.int32) ;;
    Sizeof.structs (ListOffsetTopicResponse2.size version) t.Topics) 0

/-- message/messages.gen.go:1327-1337 `ListOffsetResponse.Encode` -/
def ListOffsetResponse.encode (version : Int16) (t : ListOffsetResponse) : Encoder → Encoder :=
    onlyIf (version ≥ 2) (·.putInt32 t.ThrottleTimeMs) ;;
    Encoder.putStructs (ListOffsetTopicResponse2.encode version) t.Topics

/-- message/messages.gen.go:1340-1362 `ListOffsetResponse.Decode`; the second argument is the receiver. -/
def ListOffsetResponse.decode (version : Int16) : ListOffsetResponse → Dec ListOffsetResponse :=
    Dec.onlyIf (version ≥ 2) (Dec.field Dec.int32 (fun t x => { t with ThrottleTimeMs := x })) ;>
    Dec.fieldStructs (ListOffsetTopicResponse2.decode version {}) (·.Topics) (fun t x => { t with Topics := x })

/-- The type `ListOffsetResponse` with its methods. -/
def ListOffsetResponse.type : MsgType :=
  { name := "ListOffsetResponse", T := ListOffsetResponse, zero := {}, size := ListOffsetResponse.size, encode := ListOffsetResponse.encode,
    decode := ListOffsetResponse.decode }

end Kafka.Msg
