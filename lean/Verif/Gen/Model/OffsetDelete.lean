import Verif.Message.Steps
/-!
Generated by tools/gen_messages.py from message/messages.gen.go: model of the OffsetDelete messages.
-/
namespace Kafka.Msg

/-- message/messages.gen.go:11725-11727 `type OffsetDeleteRequestPartition47 struct`; the defaults are the Go zero values. -/
@[ext] structure OffsetDeleteRequestPartition47 where
  PartitionIndex : Int32 := 0

/-- message/messages.gen.go:11730-11734 `OffsetDeleteRequestPartition47.Size` -/
def OffsetDeleteRequestPartition47.size (_version : Int16) (_t : OffsetDeleteRequestPartition47) : Int32 :=
   (Sizeof.add Sizeof.int32) 0

/-- message/messages.gen.go:11737-11739 `OffsetDeleteRequestPartition47.Encode` -/
def OffsetDeleteRequestPartition47.encode (_version : Int16) (t : OffsetDeleteRequestPartition47) : Encoder → Encoder :=
    (·.putInt32 t.PartitionIndex)

/-- message/messages.gen.go:11742-11749 `OffsetDeleteRequestPartition47.Decode`; the second argument is the receiver. -/
def OffsetDeleteRequestPartition47.decode (_version : Int16) : OffsetDeleteRequestPartition47 → Dec OffsetDeleteRequestPartition47 :=
    Dec.field Dec.int32 (fun t x => { t with PartitionIndex := x })

/-- The type `OffsetDeleteRequestPartition47` with its methods. -/
def OffsetDeleteRequestPartition47.type : MsgType :=
  { name := "OffsetDeleteRequestPartition47", T := OffsetDeleteRequestPartition47, zero := {}, size := OffsetDeleteRequestPartition47.size, encode := OffsetDeleteRequestPartition47.encode,
    decode := OffsetDeleteRequestPartition47.decode }

/-- message/messages.gen.go:11675-11678 `type OffsetDeleteRequestTopic47 struct`; the defaults are the Go zero values. -/
@[ext] structure OffsetDeleteRequestTopic47 where
  Name : GoString := []
  Partitions : Slice OffsetDeleteRequestPartition47 := none

/-- message/messages.gen.go:11681-11689 `OffsetDeleteRequestTopic47.Size` -/
def OffsetDeleteRequestTopic47.size (version : Int16) (t : OffsetDeleteRequestTopic47) : Int32 :=
   (Sizeof.add (Sizeof.string t.Name) ;;
    Sizeof.structs (OffsetDeleteRequestPartition47.size version) t.Partitions) 0

/-- message/messages.gen.go:11692-11700 `OffsetDeleteRequestTopic47.Encode` -/
def OffsetDeleteRequestTopic47.encode (version : Int16) (t : OffsetDeleteRequestTopic47) : Encoder → Encoder :=
    (·.putString t.Name) ;;
    Encoder.putStructs (OffsetDeleteRequestPartition47.encode version) t.Partitions

/-- message/messages.gen.go:11703-11723 `OffsetDeleteRequestTopic47.Decode`; the second argument is the receiver. -/
def OffsetDeleteRequestTopic47.decode (version : Int16) : OffsetDeleteRequestTopic47 → Dec OffsetDeleteRequestTopic47 :=
    Dec.field Dec.string (fun t x => { t with Name := x }) ;>
    Dec.fieldStructs (OffsetDeleteRequestPartition47.decode version {}) (·.Partitions) (fun t x => { t with Partitions := x })

/-- The type `OffsetDeleteRequestTopic47` with its methods. -/
def OffsetDeleteRequestTopic47.type : MsgType :=
  { name := "OffsetDeleteRequestTopic47", T := OffsetDeleteRequestTopic47, zero := {}, size := OffsetDeleteRequestTopic47.size, encode := OffsetDeleteRequestTopic47.encode,
    decode := OffsetDeleteRequestTopic47.decode }

/-- message/messages.gen.go:11625-11628 `type OffsetDeleteRequest struct`; the defaults are the Go zero values. -/
@[ext] structure OffsetDeleteRequest where
  GroupId : GoString := []
  Topics : Slice OffsetDeleteRequestTopic47 := none

/-- message/messages.gen.go:11631-11639 `OffsetDeleteRequest.Size` -/
def OffsetDeleteRequest.size (version : Int16) (t : OffsetDeleteRequest) : Int32 :=
   (Sizeof.add (Sizeof.string t.GroupId) ;;
    Sizeof.structs (OffsetDeleteRequestTopic47.size version) t.Topics) 0

/-- message/messages.gen.go:11642-11650 `OffsetDeleteRequest.Encode` -/
def OffsetDeleteRequest.encode (version : Int16) (t : OffsetDeleteRequest) : Encoder → Encoder :=
    (·.putString t.GroupId) ;;
    Encoder.putStructs (OffsetDeleteRequestTopic47.encode version) t.Topics

/-- message/messages.gen.go:11653-11673 `OffsetDeleteRequest.Decode`; the second argument is the receiver. -/
def OffsetDeleteRequest.decode (version : Int16) : OffsetDeleteRequest → Dec OffsetDeleteRequest :=
    Dec.field Dec.string (fun t x => { t with GroupId := x }) ;>
    Dec.fieldStructs (OffsetDeleteRequestTopic47.decode version {}) (·.Topics) (fun t x => { t with Topics := x })

/-- The type `OffsetDeleteRequest` with its methods. -/
def OffsetDeleteRequest.type : MsgType :=
  { name := "OffsetDeleteRequest", T := OffsetDeleteRequest, zero := {}, size := OffsetDeleteRequest.size, encode := OffsetDeleteRequest.encode,
    decode := OffsetDeleteRequest.decode }

/-- message/messages.gen.go:11859-11862 `type OffsetDeleteResponsePartition47 struct`; the defaults are the Go zero values. -/
@[ext] structure OffsetDeleteResponsePartition47 where
  PartitionIndex : Int32 := 0
  ErrorCode : Int16 := 0

/-- message/messages.gen.go:11865-11870 `OffsetDeleteResponsePartition47.Size` -/
def OffsetDeleteResponsePartition47.size (_version : Int16) (_t : OffsetDeleteResponsePartition47) : Int32 :=
   (Sizeof.add Sizeof.int32 ;;
    Sizeof.add Sizeof.int16) 0

/-- message/messages.gen.go:11873-11876 `OffsetDeleteResponsePartition47.Encode` -/
def OffsetDeleteResponsePartition47.encode (_version : Int16) (t : OffsetDeleteResponsePartition47) : Encoder → Encoder :=
    (·.putInt32 t.PartitionIndex) ;;
    (·.putInt16 t.ErrorCode)

/-- message/messages.gen.go:11879-11890 `OffsetDeleteResponsePartition47.Decode`; the second argument is the receiver. -/
def OffsetDeleteResponsePartition47.decode (_version : Int16) : OffsetDeleteResponsePartition47 → Dec OffsetDeleteResponsePartition47 :=
    Dec.field Dec.int32 (fun t x => { t with PartitionIndex := x }) ;>
    Dec.field Dec.int16 (fun t x => { t with ErrorCode := x })

/-- The type `OffsetDeleteResponsePartition47` with its methods. -/
def OffsetDeleteResponsePartition47.type : MsgType :=
  { name := "OffsetDeleteResponsePartition47", T := OffsetDeleteResponsePartition47, zero := {}, size := OffsetDeleteResponsePartition47.size, encode := OffsetDeleteResponsePartition47.encode,
    decode := OffsetDeleteResponsePartition47.decode }

/-- message/messages.gen.go:11809-11812 `type OffsetDeleteResponseTopic47 struct`; the defaults are the Go zero values. -/
@[ext] structure OffsetDeleteResponseTopic47 where
  Name : GoString := []
  Partitions : Slice OffsetDeleteResponsePartition47 := none

/-- message/messages.gen.go:11815-11823 `OffsetDeleteResponseTopic47.Size` -/
def OffsetDeleteResponseTopic47.size (version : Int16) (t : OffsetDeleteResponseTopic47) : Int32 :=
   (Sizeof.add (Sizeof.string t.Name) ;;
    Sizeof.structs (OffsetDeleteResponsePartition47.size version) t.Partitions) 0

/-- message/messages.gen.go:11826-11834 `OffsetDeleteResponseTopic47.Encode` -/
def OffsetDeleteResponseTopic47.encode (version : Int16) (t : OffsetDeleteResponseTopic47) : Encoder → Encoder :=
    (·.putString t.Name) ;;
    Encoder.putStructs (OffsetDeleteResponsePartition47.encode version) t.Partitions

/-- message/messages.gen.go:11837-11857 `OffsetDeleteResponseTopic47.Decode`; the second argument is the receiver. -/
def OffsetDeleteResponseTopic47.decode (version : Int16) : OffsetDeleteResponseTopic47 → Dec OffsetDeleteResponseTopic47 :=
    Dec.field Dec.string (fun t x => { t with Name := x }) ;>
    Dec.fieldStructs (OffsetDeleteResponsePartition47.decode version {}) (·.Partitions) (fun t x => { t with Partitions := x })

/-- The type `OffsetDeleteResponseTopic47` with its methods. -/
def OffsetDeleteResponseTopic47.type : MsgType :=
  { name := "OffsetDeleteResponseTopic47", T := OffsetDeleteResponseTopic47, zero := {}, size := OffsetDeleteResponseTopic47.size, encode := OffsetDeleteResponseTopic47.encode,
    decode := OffsetDeleteResponseTopic47.decode }

/-- message/messages.gen.go:11752-11756 `type OffsetDeleteResponse struct`; the defaults are the Go zero values. -/
@[ext] structure OffsetDeleteResponse where
  ErrorCode : Int16 := 0
  ThrottleTimeMs : Int32 := 0
  Topics : Slice OffsetDeleteResponseTopic47 := none

/-- message/messages.gen.go:11759-11768 `OffsetDeleteResponse.Size` -/
def OffsetDeleteResponse.size (version : Int16) (t : OffsetDeleteResponse) : Int32 :=
   (Sizeof.add Sizeof.int16 ;;
    Sizeof.add Sizeof.int32 ;;
    Sizeof.structs (OffsetDeleteResponseTopic47.size version) t.Topics) 0

/-- message/messages.gen.go:11771-11780 `OffsetDeleteResponse.Encode` -/
def OffsetDeleteResponse.encode (version : Int16) (t : OffsetDeleteResponse) : Encoder → Encoder :=
    (·.putInt16 t.ErrorCode) ;;
    (·.putInt32 t.ThrottleTimeMs) ;;
    Encoder.putStructs (OffsetDeleteResponseTopic47.encode version) t.Topics

/-- message/messages.gen.go:11783-11807 `OffsetDeleteResponse.Decode`; the second argument is the receiver. -/
def OffsetDeleteResponse.decode (version : Int16) : OffsetDeleteResponse → Dec OffsetDeleteResponse :=
    Dec.field Dec.int16 (fun t x => { t with ErrorCode := x }) ;>
    Dec.field Dec.int32 (fun t x => { t with ThrottleTimeMs := x }) ;>
    Dec.fieldStructs (OffsetDeleteResponseTopic47.decode version {}) (·.Topics) (fun t x => { t with Topics := x })

/-- The type `OffsetDeleteResponse` with its methods. -/
def OffsetDeleteResponse.type : MsgType :=
  { name := "OffsetDeleteResponse", T := OffsetDeleteResponse, zero := {}, size := OffsetDeleteResponse.size, encode := OffsetDeleteResponse.encode,
    decode := OffsetDeleteResponse.decode }

end Kafka.Msg
