import Verif.Message.Steps
/-!
Generated by tools/gen_messages.py from message/messages.gen.go: model of the AlterPartitionReassignments messages.
-/
namespace Kafka.Msg

/-- message/messages.gen.go:11190-11193 `type ReassignablePartition45 struct`; the defaults are the Go zero values. -/
@[ext] structure ReassignablePartition45 where
  PartitionIndex : Int32 := 0
  Replicas : Slice Int32 := none

/-- message/messages.gen.go:11196-11201 `ReassignablePartition45.Size` -/
def ReassignablePartition45.size (_version : Int16) (t : ReassignablePartition45) : Int32 :=
   (Sizeof.add Sizeof.int32 ;;
    Sizeof.add (Sizeof.int32Array t.Replicas)) 0

/-- message/messages.gen.go:11204-11207 `ReassignablePartition45.Encode` -/
def ReassignablePartition45.encode (_version : Int16) (t : ReassignablePartition45) : Encoder → Encoder :=
    (·.putInt32 t.PartitionIndex) ;;
    (·.putInt32Array t.Replicas)

/-- message/messages.gen.go:11210-11221 `ReassignablePartition45.Decode`; the second argument is the receiver. -/
def ReassignablePartition45.decode (_version : Int16) : ReassignablePartition45 → Dec ReassignablePartition45 :=
    Dec.field Dec.int32 (fun t x => { t with PartitionIndex := x }) ;>
    Dec.field Dec.int32Array (fun t x => { t with Replicas := x })

/-- The type `ReassignablePartition45` with its methods. -/
def ReassignablePartition45.type : MsgType :=
  { name := "ReassignablePartition45", T := ReassignablePartition45, zero := {}, size := ReassignablePartition45.size, encode := ReassignablePartition45.encode,
    decode := ReassignablePartition45.decode }

/-- message/messages.gen.go:11140-11143 `type ReassignableTopic45 struct`; the defaults are the Go zero values. -/
@[ext] structure ReassignableTopic45 where
  Name : GoString := []
  Partitions : Slice ReassignablePartition45 := none

/-- message/messages.gen.go:11146-11154 `ReassignableTopic45.Size` -/
def ReassignableTopic45.size (version : Int16) (t : ReassignableTopic45) : Int32 :=
   (Sizeof.add (Sizeof.string t.Name) ;;
    Sizeof.structs (ReassignablePartition45.size version) t.Partitions) 0

/-- message/messages.gen.go:11157-11165 `ReassignableTopic45.Encode` -/
def ReassignableTopic45.encode (version : Int16) (t : ReassignableTopic45) : Encoder → Encoder :=
    (·.putString t.Name) ;;
    Encoder.putStructs (ReassignablePartition45.encode version) t.Partitions

/-- message/messages.gen.go:11168-11188 `ReassignableTopic45.Decode`; the second argument is the receiver. -/
def ReassignableTopic45.decode (version : Int16) : ReassignableTopic45 → Dec ReassignableTopic45 :=
    Dec.field Dec.string (fun t x => { t with Name := x }) ;>
    Dec.fieldStructs (ReassignablePartition45.decode version {}) (·.Partitions) (fun t x => { t with Partitions := x })

/-- The type `ReassignableTopic45` with its methods. -/
def ReassignableTopic45.type : MsgType :=
  { name := "ReassignableTopic45", T := ReassignableTopic45, zero := {}, size := ReassignableTopic45.size, encode := ReassignableTopic45.encode,
    decode := ReassignableTopic45.decode }

/-- message/messages.gen.go:11090-11093 `type AlterPartitionReassignmentsRequest struct`; the defaults are the Go zero values. -/
@[ext] structure AlterPartitionReassignmentsRequest where
  TimeoutMs : Int32 := 0
  Topics : Slice ReassignableTopic45 := none

/-- message/messages.gen.go:11096-11104 `AlterPartitionReassignmentsRequest.Size` -/
def AlterPartitionReassignmentsRequest.size (version : Int16) (t : AlterPartitionReassignmentsRequest) : Int32 :=
   (Sizeof.add Sizeof.int32 ;;
    Sizeof.structs (ReassignableTopic45.size version) t.Topics) 0

/-- message/messages.gen.go:11107-11115 `AlterPartitionReassignmentsRequest.Encode` -/
def AlterPartitionReassignmentsRequest.encode (version : Int16) (t : AlterPartitionReassignmentsRequest) : Encoder → Encoder :=
    (·.putInt32 t.TimeoutMs) ;;
    Encoder.putStructs (ReassignableTopic45.encode version) t.Topics

/-- message/messages.gen.go:11118-11138 `AlterPartitionReassignmentsRequest.Decode`; the second argument is the receiver. -/
def AlterPartitionReassignmentsRequest.decode (version : Int16) : AlterPartitionReassignmentsRequest → Dec AlterPartitionReassignmentsRequest :=
    Dec.field Dec.int32 (fun t x => { t with TimeoutMs := x }) ;>
    Dec.fieldStructs (ReassignableTopic45.decode version {}) (·.Topics) (fun t x => { t with Topics := x })

/-- The type `AlterPartitionReassignmentsRequest` with its methods. -/
def AlterPartitionReassignmentsRequest.type : MsgType :=
  { name := "AlterPartitionReassignmentsRequest", T := AlterPartitionReassignmentsRequest, zero := {}, size := AlterPartitionReassignmentsRequest.size, encode := AlterPartitionReassignmentsRequest.encode,
    decode := AlterPartitionReassignmentsRequest.decode }

/-- message/messages.gen.go:11338-11342 `type ReassignablePartitionResponse45 struct`; the defaults are the Go zero values. -/
@[ext] structure ReassignablePartitionResponse45 where
  PartitionIndex : Int32 := 0
  ErrorCode : Int16 := 0
  ErrorMessage : GoString := []

/-- message/messages.gen.go:11345-11351 `ReassignablePartitionResponse45.Size` -/
def ReassignablePartitionResponse45.size (_version : Int16) (t : ReassignablePartitionResponse45) : Int32 :=
   (Sizeof.add Sizeof.int32 ;;
    Sizeof.add Sizeof.int16 ;;
    Sizeof.add (Sizeof.string t.ErrorMessage)) 0

/-- message/messages.gen.go:11354-11358 `ReassignablePartitionResponse45.Encode` -/
def ReassignablePartitionResponse45.encode (_version : Int16) (t : ReassignablePartitionResponse45) : Encoder → Encoder :=
    (·.putInt32 t.PartitionIndex) ;;
    (·.putInt16 t.ErrorCode) ;;
    (·.putString t.ErrorMessage)

/-- message/messages.gen.go:11361-11376 `ReassignablePartitionResponse45.Decode`; the second argument is the receiver. -/
def ReassignablePartitionResponse45.decode (_version : Int16) : ReassignablePartitionResponse45 → Dec ReassignablePartitionResponse45 :=
    Dec.field Dec.int32 (fun t x => { t with PartitionIndex := x }) ;>
    Dec.field Dec.int16 (fun t x => { t with ErrorCode := x }) ;>
    Dec.field Dec.string (fun t x => { t with ErrorMessage := x })

/-- The type `ReassignablePartitionResponse45` with its methods. -/
def ReassignablePartitionResponse45.type : MsgType :=
  { name := "ReassignablePartitionResponse45", T := ReassignablePartitionResponse45, zero := {}, size := ReassignablePartitionResponse45.size, encode := ReassignablePartitionResponse45.encode,
    decode := ReassignablePartitionResponse45.decode }

/-- message/messages.gen.go:11288-11291 `type ReassignableTopicResponse45 struct`; the defaults are the Go zero values. -/
@[ext] structure ReassignableTopicResponse45 where
  Name : GoString := []
  Partitions : Slice ReassignablePartitionResponse45 := none

/-- message/messages.gen.go:11294-11302 `ReassignableTopicResponse45.Size` -/
def ReassignableTopicResponse45.size (version : Int16) (t : ReassignableTopicResponse45) : Int32 :=
   (Sizeof.add (Sizeof.string t.Name) ;;
    Sizeof.structs (ReassignablePartitionResponse45.size version) t.Partitions) 0

/-- message/messages.gen.go:11305-11313 `ReassignableTopicResponse45.Encode` -/
def ReassignableTopicResponse45.encode (version : Int16) (t : ReassignableTopicResponse45) : Encoder → Encoder :=
    (·.putString t.Name) ;;
    Encoder.putStructs (ReassignablePartitionResponse45.encode version) t.Partitions

/-- message/messages.gen.go:11316-11336 `ReassignableTopicResponse45.Decode`; the second argument is the receiver. -/
def ReassignableTopicResponse45.decode (version : Int16) : ReassignableTopicResponse45 → Dec ReassignableTopicResponse45 :=
    Dec.field Dec.string (fun t x => { t with Name := x }) ;>
    Dec.fieldStructs (ReassignablePartitionResponse45.decode version {}) (·.Partitions) (fun t x => { t with Partitions := x })

/-- The type `ReassignableTopicResponse45` with its methods. -/
def ReassignableTopicResponse45.type : MsgType :=
  { name := "ReassignableTopicResponse45", T := ReassignableTopicResponse45, zero := {}, size := ReassignableTopicResponse45.size, encode := ReassignableTopicResponse45.encode,
    decode := ReassignableTopicResponse45.decode }

/-- message/messages.gen.go:11224-11229 `type AlterPartitionReassignmentsResponse struct`; the defaults are the Go zero values. -/
@[ext] structure AlterPartitionReassignmentsResponse where
  ThrottleTimeMs : Int32 := 0
  ErrorCode : Int16 := 0
  ErrorMessage : GoString := []
  Responses : Slice ReassignableTopicResponse45 := none

/-- message/messages.gen.go:11232-11242 `AlterPartitionReassignmentsResponse.Size` -/
def AlterPartitionReassignmentsResponse.size (version : Int16) (t : AlterPartitionReassignmentsResponse) : Int32 :=
   (Sizeof.add Sizeof.int32 ;;
    Sizeof.add Sizeof.int16 ;;
    Sizeof.add (Sizeof.string t.ErrorMessage) ;;
    Sizeof.structs (ReassignableTopicResponse45.size version) t.Responses) 0

/-- message/messages.gen.go:11245-11255 `AlterPartitionReassignmentsResponse.Encode` -/
def AlterPartitionReassignmentsResponse.encode (version : Int16) (t : AlterPartitionReassignmentsResponse) : Encoder → Encoder :=
    (·.putInt32 t.ThrottleTimeMs) ;;
    (·.putInt16 t.ErrorCode) ;;
    (·.putString t.ErrorMessage) ;;
    Encoder.putStructs (ReassignableTopicResponse45.encode version) t.Responses

/-- message/messages.gen.go:11258-11286 `AlterPartitionReassignmentsResponse.Decode`; the second argument is the receiver. -/
def AlterPartitionReassignmentsResponse.decode (version : Int16) : AlterPartitionReassignmentsResponse → Dec AlterPartitionReassignmentsResponse :=
    Dec.field Dec.int32 (fun t x => { t with ThrottleTimeMs := x }) ;>
    Dec.field Dec.int16 (fun t x => { t with ErrorCode := x }) ;>
    Dec.field Dec.string (fun t x => { t with ErrorMessage := x }) ;>
    Dec.fieldStructs (ReassignableTopicResponse45.decode version {}) (·.Responses) (fun t x => { t with Responses := x })

/-- The type `AlterPartitionReassignmentsResponse` with its methods. -/
def AlterPartitionReassignmentsResponse.type : MsgType :=
  { name := "AlterPartitionReassignmentsResponse", T := AlterPartitionReassignmentsResponse, zero := {}, size := AlterPartitionReassignmentsResponse.size, encode := AlterPartitionReassignmentsResponse.encode,
    decode := AlterPartitionReassignmentsResponse.decode }

end Kafka.Msg
