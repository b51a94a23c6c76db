import Verif.Message.Steps
/-!
Generated by tools/gen_messages.py from message/messages.gen.go: model of the ListPartitionReassignments messages.
-/
namespace Kafka.Msg

/-- message/messages.gen.go:11429-11432 `type ListPartitionReassignmentsTopics46 struct`; the defaults are the Go zero values. -/
@[ext] structure ListPartitionReassignmentsTopics46 where
  Name : GoString := []
  PartitionIndexes : Slice Int32 := none

/-- message/messages.gen.go:11435-11440 `ListPartitionReassignmentsTopics46.Size` -/
def ListPartitionReassignmentsTopics46.size (_version : Int16) (t : ListPartitionReassignmentsTopics46) : Int32 :=
   (Sizeof.add (Sizeof.string t.Name) ;;
    Sizeof.add (Sizeof.int32Array t.PartitionIndexes)) 0

/-- message/messages.gen.go:11443-11446 `ListPartitionReassignmentsTopics46.Encode` -/
def ListPartitionReassignmentsTopics46.encode (_version : Int16) (t : ListPartitionReassignmentsTopics46) : Encoder → Encoder :=
    (·.putString t.Name) ;;
    (·.putInt32Array t.PartitionIndexes)

/-- message/messages.gen.go:11449-11460 `ListPartitionReassignmentsTopics46.Decode`; the second argument is the receiver. -/
def ListPartitionReassignmentsTopics46.decode (_version : Int16) : ListPartitionReassignmentsTopics46 → Dec ListPartitionReassignmentsTopics46 :=
    Dec.field Dec.string (fun t x => { t with Name := x }) ;>
    Dec.field Dec.int32Array (fun t x => { t with PartitionIndexes := x })

/-- The type `ListPartitionReassignmentsTopics46` with its methods. -/
def ListPartitionReassignmentsTopics46.type : MsgType :=
  { name := "ListPartitionReassignmentsTopics46", T := ListPartitionReassignmentsTopics46, zero := {}, size := ListPartitionReassignmentsTopics46.size, encode := ListPartitionReassignmentsTopics46.encode,
    decode := ListPartitionReassignmentsTopics46.decode }

/-- message/messages.gen.go:11379-11382 `type ListPartitionReassignmentsRequest struct`; the defaults are the Go zero values. -/
@[ext] structure ListPartitionReassignmentsRequest where
  TimeoutMs : Int32 := 0
  Topics : Slice ListPartitionReassignmentsTopics46 := none

/-- message/messages.gen.go:11385-11393 `ListPartitionReassignmentsRequest.Size` -/
def ListPartitionReassignmentsRequest.size (version : Int16) (t : ListPartitionReassignmentsRequest) : Int32 :=
   (Sizeof.add Sizeof.int32 ;;
    Sizeof.structs (ListPartitionReassignmentsTopics46.size version) t.Topics) 0

/-- message/messages.gen.go:11396-11404 `ListPartitionReassignmentsRequest.Encode` -/
def ListPartitionReassignmentsRequest.encode (version : Int16) (t : ListPartitionReassignmentsRequest) : Encoder → Encoder :=
    (·.putInt32 t.TimeoutMs) ;;
    Encoder.putStructs (ListPartitionReassignmentsTopics46.encode version) t.Topics

/-- message/messages.gen.go:11407-11427 `ListPartitionReassignmentsRequest.Decode`; the second argument is the receiver. -/
def ListPartitionReassignmentsRequest.decode (version : Int16) : ListPartitionReassignmentsRequest → Dec ListPartitionReassignmentsRequest :=
    Dec.field Dec.int32 (fun t x => { t with TimeoutMs := x }) ;>
    Dec.fieldStructs (ListPartitionReassignmentsTopics46.decode version {}) (·.Topics) (fun t x => { t with Topics := x })

/-- The type `ListPartitionReassignmentsRequest` with its methods. -/
def ListPartitionReassignmentsRequest.type : MsgType :=
  { name := "ListPartitionReassignmentsRequest", T := ListPartitionReassignmentsRequest, zero := {}, size := ListPartitionReassignmentsRequest.size, encode := ListPartitionReassignmentsRequest.encode,
    decode := ListPartitionReassignmentsRequest.decode }

/-- message/messages.gen.go:11577-11582 `type OngoingPartitionReassignment46 struct`; the defaults are the Go zero values. -/
@[ext] structure OngoingPartitionReassignment46 where
  PartitionIndex : Int32 := 0
  Replicas : Slice Int32 := none
  AddingReplicas : Slice Int32 := none
  RemovingReplicas : Slice Int32 := none

/-- message/messages.gen.go:11585-11592 `OngoingPartitionReassignment46.Size` -/
def OngoingPartitionReassignment46.size (_version : Int16) (t : OngoingPartitionReassignment46) : Int32 :=
   (Sizeof.add Sizeof.int32 ;;
    Sizeof.add (Sizeof.int32Array t.Replicas) ;;
    Sizeof.add (Sizeof.int32Array t.AddingReplicas) ;;
    Sizeof.add (Sizeof.int32Array t.RemovingReplicas)) 0

/-- message/messages.gen.go:11595-11600 `OngoingPartitionReassignment46.Encode` -/
def OngoingPartitionReassignment46.encode (_version : Int16) (t : OngoingPartitionReassignment46) : Encoder → Encoder :=
    (·.putInt32 t.PartitionIndex) ;;
    (·.putInt32Array t.Replicas) ;;
    (·.putInt32Array t.AddingReplicas) ;;
    (·.putInt32Array t.RemovingReplicas)

/-- message/messages.gen.go:11603-11622 `OngoingPartitionReassignment46.Decode`; the second argument is the receiver. -/
def OngoingPartitionReassignment46.decode (_version : Int16) : OngoingPartitionReassignment46 → Dec OngoingPartitionReassignment46 :=
    Dec.field Dec.int32 (fun t x => { t with PartitionIndex := x }) ;>
    Dec.field Dec.int32Array (fun t x => { t with Replicas := x }) ;>
    Dec.field Dec.int32Array (fun t x => { t with AddingReplicas := x }) ;>
    Dec.field Dec.int32Array (fun t x => { t with RemovingReplicas := x })

/-- The type `OngoingPartitionReassignment46` with its methods. -/
def OngoingPartitionReassignment46.type : MsgType :=
  { name := "OngoingPartitionReassignment46", T := OngoingPartitionReassignment46, zero := {}, size := OngoingPartitionReassignment46.size, encode := OngoingPartitionReassignment46.encode,
    decode := OngoingPartitionReassignment46.decode }

/-- message/messages.gen.go:11527-11530 `type OngoingTopicReassignment46 struct`; the defaults are the Go zero values. -/
@[ext] structure OngoingTopicReassignment46 where
  Name : GoString := []
  Partitions : Slice OngoingPartitionReassignment46 := none

/-- message/messages.gen.go:11533-11541 `OngoingTopicReassignment46.Size` -/
def OngoingTopicReassignment46.size (version : Int16) (t : OngoingTopicReassignment46) : Int32 :=
   (Sizeof.add (Sizeof.string t.Name) ;;
    Sizeof.structs (OngoingPartitionReassignment46.size version) t.Partitions) 0

/-- message/messages.gen.go:11544-11552 `OngoingTopicReassignment46.Encode` -/
def OngoingTopicReassignment46.encode (version : Int16) (t : OngoingTopicReassignment46) : Encoder → Encoder :=
    (·.putString t.Name) ;;
    Encoder.putStructs (OngoingPartitionReassignment46.encode version) t.Partitions

/-- message/messages.gen.go:11555-11575 `OngoingTopicReassignment46.Decode`; the second argument is the receiver. -/
def OngoingTopicReassignment46.decode (version : Int16) : OngoingTopicReassignment46 → Dec OngoingTopicReassignment46 :=
    Dec.field Dec.string (fun t x => { t with Name := x }) ;>
    Dec.fieldStructs (OngoingPartitionReassignment46.decode version {}) (·.Partitions) (fun t x => { t with Partitions := x })

/-- The type `OngoingTopicReassignment46` with its methods. -/
def OngoingTopicReassignment46.type : MsgType :=
  { name := "OngoingTopicReassignment46", T := OngoingTopicReassignment46, zero := {}, size := OngoingTopicReassignment46.size, encode := OngoingTopicReassignment46.encode,
    decode := OngoingTopicReassignment46.decode }

/-- message/messages.gen.go:11463-11468 `type ListPartitionReassignmentsResponse struct`; the defaults are the Go zero values. -/
@[ext] structure ListPartitionReassignmentsResponse where
  ThrottleTimeMs : Int32 := 0
  ErrorCode : Int16 := 0
  ErrorMessage : GoString := []
  Topics : Slice OngoingTopicReassignment46 := none

/-- message/messages.gen.go:11471-11481 `ListPartitionReassignmentsResponse.Size` -/
def ListPartitionReassignmentsResponse.size (version : Int16) (t : ListPartitionReassignmentsResponse) : Int32 :=
   (Sizeof.add Sizeof.int32 ;;
    Sizeof.add Sizeof.int16 ;;
    Sizeof.add (Sizeof.string t.ErrorMessage) ;;
    Sizeof.structs (OngoingTopicReassignment46.size version) t.Topics) 0

/-- message/messages.gen.go:11484-11494 `ListPartitionReassignmentsResponse.Encode` -/
def ListPartitionReassignmentsResponse.encode (version : Int16) (t : ListPartitionReassignmentsResponse) : Encoder → Encoder :=
    (·.putInt32 t.ThrottleTimeMs) ;;
    (·.putInt16 t.ErrorCode) ;;
    (·.putString t.ErrorMessage) ;;
    Encoder.putStructs (OngoingTopicReassignment46.encode version) t.Topics

/-- message/messages.gen.go:11497-11525 `ListPartitionReassignmentsResponse.Decode`; the second argument is the receiver. -/
def ListPartitionReassignmentsResponse.decode (version : Int16) : ListPartitionReassignmentsResponse → Dec ListPartitionReassignmentsResponse :=
    Dec.field Dec.int32 (fun t x => { t with ThrottleTimeMs := x }) ;>
    Dec.field Dec.int16 (fun t x => { t with ErrorCode := x }) ;>
    Dec.field Dec.string (fun t x => { t with ErrorMessage := x }) ;>
    Dec.fieldStructs (OngoingTopicReassignment46.decode version {}) (·.Topics) (fun t x => { t with Topics := x })

/-- The type `ListPartitionReassignmentsResponse` with its methods. -/
def ListPartitionReassignmentsResponse.type : MsgType :=
  { name := "ListPartitionReassignmentsResponse", T := ListPartitionReassignmentsResponse, zero := {}, size := ListPartitionReassignmentsResponse.size, encode := ListPartitionReassignmentsResponse.encode,
    decode := ListPartitionReassignmentsResponse.decode }

end Kafka.Msg
