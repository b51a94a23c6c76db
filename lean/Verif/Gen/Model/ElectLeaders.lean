import Verif.Message.Steps
/-!
Generated by tools/gen_messages.py from message/messages.gen.go: model of the ElectLeaders messages.
-/
namespace Kafka.Msg

/-- message/messages.gen.go:10656-10659 `type TopicPartitions43 struct`; the defaults are the Go zero values. -/
@[ext] structure TopicPartitions43 where
  Topic : GoString := []
  PartitionId : Slice Int32 := none

/-- message/messages.gen.go:10662-10667 `TopicPartitions43.Size` -/
def TopicPartitions43.size (_version : Int16) (t : TopicPartitions43) : Int32 :=
   (Sizeof.add (Sizeof.string t.Topic) ;;
    Sizeof.add (Sizeof.int32Array t.PartitionId)) 0

/-- message/messages.gen.go:10670-10673 `TopicPartitions43.Encode` -/
def TopicPartitions43.encode (_version : Int16) (t : TopicPartitions43) : Encoder → Encoder :=
    (·.putString t.Topic) ;;
    (·.putInt32Array t.PartitionId)

/-- message/messages.gen.go:10676-10687 `TopicPartitions43.Decode`; the second argument is the receiver. -/
def TopicPartitions43.decode (_version : Int16) : TopicPartitions43 → Dec TopicPartitions43 :=
    Dec.field Dec.string (fun t x => { t with Topic := x }) ;>
    Dec.field Dec.int32Array (fun t x => { t with PartitionId := x })

/-- The type `TopicPartitions43` with its methods. -/
def TopicPartitions43.type : MsgType :=
  { name := "TopicPartitions43", T := TopicPartitions43, zero := {}, size := TopicPartitions43.size, encode := TopicPartitions43.encode,
    decode := TopicPartitions43.decode }

/-- message/messages.gen.go:10593-10597 `type ElectLeadersRequest struct`; the defaults are the Go zero values. -/
@[ext] structure ElectLeadersRequest where
  ElectionType : Int8 := 0
  TopicPartitions : Slice TopicPartitions43 := none
  TimeoutMs : Int32 := 0

/-- message/messages.gen.go:10600-10611 `ElectLeadersRequest.Size` -/
def ElectLeadersRequest.size (version : Int16) (t : ElectLeadersRequest) : Int32 :=
   (onlyIf (version ≥ 1) (Sizeof.add Sizeof.int8) ;;
    Sizeof.structs (TopicPartitions43.size version) t.TopicPartitions ;;
    Sizeof.add Sizeof.int32) 0

/-- message/messages.gen.go:10614-10625 `ElectLeadersRequest.Encode` -/
def ElectLeadersRequest.encode (version : Int16) (t : ElectLeadersRequest) : Encoder → Encoder :=
    onlyIf (version ≥ 1) (·.putInt8 t.ElectionType) ;;
    Encoder.putStructs (TopicPartitions43.encode version) t.TopicPartitions ;;
    (·.putInt32 t.TimeoutMs)

/-- message/messages.gen.go:10628-10654 `ElectLeadersRequest.Decode`; the second argument is the receiver. -/
def ElectLeadersRequest.decode (version : Int16) : ElectLeadersRequest → Dec ElectLeadersRequest :=
    Dec.onlyIf (version ≥ 1) (Dec.field Dec.int8 (fun t x => { t with ElectionType := x })) ;>
    Dec.fieldStructs (TopicPartitions43.decode version {}) (·.TopicPartitions) (fun t x => { t with TopicPartitions := x }) ;>
    Dec.field Dec.int32 (fun t x => { t with TimeoutMs := x })

/-- The type `ElectLeadersRequest` with its methods. -/
def ElectLeadersRequest.type : MsgType :=
  { name := "ElectLeadersRequest", T := ElectLeadersRequest, zero := {}, size := ElectLeadersRequest.size, encode := ElectLeadersRequest.encode,
    decode := ElectLeadersRequest.decode }

/-- message/messages.gen.go:10803-10807 `type PartitionResult43 struct`; the defaults are the Go zero values. -/
@[ext] structure PartitionResult43 where
  PartitionId : Int32 := 0
  ErrorCode : Int16 := 0
  ErrorMessage : GoString := []

/-- message/messages.gen.go:10810-10816 `PartitionResult43.Size` -/
def PartitionResult43.size (_version : Int16) (t : PartitionResult43) : Int32 :=
   (Sizeof.add Sizeof.int32 ;;
    Sizeof.add Sizeof.int16 ;;
    Sizeof.add (Sizeof.string t.ErrorMessage)) 0

/-- message/messages.gen.go:10819-10823 `PartitionResult43.Encode` -/
def PartitionResult43.encode (_version : Int16) (t : PartitionResult43) : Encoder → Encoder :=
    (·.putInt32 t.PartitionId) ;;
    (·.putInt16 t.ErrorCode) ;;
    (·.putString t.ErrorMessage)

/-- message/messages.gen.go:10826-10841 `PartitionResult43.Decode`; the second argument is the receiver. -/
def PartitionResult43.decode (_version : Int16) : PartitionResult43 → Dec PartitionResult43 :=
    Dec.field Dec.int32 (fun t x => { t with PartitionId := x }) ;>
    Dec.field Dec.int16 (fun t x => { t with ErrorCode := x }) ;>
    Dec.field Dec.string (fun t x => { t with ErrorMessage := x })

/-- The type `PartitionResult43` with its methods. -/
def PartitionResult43.type : MsgType :=
  { name := "PartitionResult43", T := PartitionResult43, zero := {}, size := PartitionResult43.size, encode := PartitionResult43.encode,
    decode := PartitionResult43.decode }

/-- message/messages.gen.go:10753-10756 `type ReplicaElectionResult43 struct`; the defaults are the Go zero values. -/
@[ext] structure ReplicaElectionResult43 where
  Topic : GoString := []
  PartitionResult : Slice PartitionResult43 := none

/-- message/messages.gen.go:10759-10767 `ReplicaElectionResult43.Size` -/
def ReplicaElectionResult43.size (version : Int16) (t : ReplicaElectionResult43) : Int32 :=
   (Sizeof.add (Sizeof.string t.Topic) ;;
    Sizeof.structs (PartitionResult43.size version) t.PartitionResult) 0

/-- message/messages.gen.go:10770-10778 `ReplicaElectionResult43.Encode` -/
def ReplicaElectionResult43.encode (version : Int16) (t : ReplicaElectionResult43) : Encoder → Encoder :=
    (·.putString t.Topic) ;;
    Encoder.putStructs (PartitionResult43.encode version) t.PartitionResult

/-- message/messages.gen.go:10781-10801 `ReplicaElectionResult43.Decode`; the second argument is the receiver. -/
def ReplicaElectionResult43.decode (version : Int16) : ReplicaElectionResult43 → Dec ReplicaElectionResult43 :=
    Dec.field Dec.string (fun t x => { t with Topic := x }) ;>
    Dec.fieldStructs (PartitionResult43.decode version {}) (·.PartitionResult) (fun t x => { t with PartitionResult := x })

/-- The type `ReplicaElectionResult43` with its methods. -/
def ReplicaElectionResult43.type : MsgType :=
  { name := "ReplicaElectionResult43", T := ReplicaElectionResult43, zero := {}, size := ReplicaElectionResult43.size, encode := ReplicaElectionResult43.encode,
    decode := ReplicaElectionResult43.decode }

/-- message/messages.gen.go:10690-10694 `type ElectLeadersResponse struct`; the defaults are the Go zero values. -/
@[ext] structure ElectLeadersResponse where
  ThrottleTimeMs : Int32 := 0
  ErrorCode : Int16 := 0
  ReplicaElectionResults : Slice ReplicaElectionResult43 := none

/-- message/messages.gen.go:10697-10708 `ElectLeadersResponse.Size` -/
def ElectLeadersResponse.size (version : Int16) (t : ElectLeadersResponse) : Int32 :=
   (Sizeof.add Sizeof.int32 ;;
    onlyIf (version ≥ 1) (Sizeof.add Sizeof.int16) ;;
    Sizeof.structs (ReplicaElectionResult43.size version) t.ReplicaElectionResults) 0

/-- message/messages.gen.go:10711-10722 `ElectLeadersResponse.Encode` -/
def ElectLeadersResponse.encode (version : Int16) (t : ElectLeadersResponse) : Encoder → Encoder :=
    (·.putInt32 t.ThrottleTimeMs) ;;
    onlyIf (version ≥ 1) (·.putInt16 t.ErrorCode) ;;
    Encoder.putStructs (ReplicaElectionResult43.encode version) t.ReplicaElectionResults

/-- message/messages.gen.go:10725-10751 `ElectLeadersResponse.Decode`; the second argument is the receiver. -/
def ElectLeadersResponse.decode (version : Int16) : ElectLeadersResponse → Dec ElectLeadersResponse :=
    Dec.field Dec.int32 (fun t x => { t with ThrottleTimeMs := x }) ;>
    Dec.onlyIf (version ≥ 1) (Dec.field Dec.int16 (fun t x => { t with ErrorCode := x })) ;>
    Dec.fieldStructs (ReplicaElectionResult43.decode version {}) (·.ReplicaElectionResults) (fun t x => { t with ReplicaElectionResults := x })

/-- The type `ElectLeadersResponse` with its methods. -/
def ElectLeadersResponse.type : MsgType :=
  { name := "ElectLeadersResponse", T := ElectLeadersResponse, zero := {}, size := ElectLeadersResponse.size, encode := ElectLeadersResponse.encode,
    decode := ElectLeadersResponse.decode }

end Kafka.Msg
