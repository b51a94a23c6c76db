import Verif.Message.Steps
/-!
Generated by tools/gen_messages.py from message/messages.gen.go: model of the OffsetFetch messages.
-/
namespace Kafka.Msg

/-- message/messages.gen.go:3684-3687 `type OffsetFetchRequestTopic9 struct`; the defaults are the Go zero values. -/
@[ext] structure OffsetFetchRequestTopic9 where
  Name : GoString := []
  PartitionIndexes : Slice Int32 := none

/-- message/messages.gen.go:3690-3695 `OffsetFetchRequestTopic9.Size` -/
def OffsetFetchRequestTopic9.size (_version : Int16) (t : OffsetFetchRequestTopic9) : Int32 :=
   (Sizeof.add (Sizeof.string t.Name) ;;
    Sizeof.add (Sizeof.int32Array t.PartitionIndexes)) 0

/-- message/messages.gen.go:3698-3701 `OffsetFetchRequestTopic9.Encode` -/
def OffsetFetchRequestTopic9.encode (_version : Int16) (t : OffsetFetchRequestTopic9) : Encoder → Encoder :=
    (·.putString t.Name) ;;
    (·.putInt32Array t.PartitionIndexes)

/-- message/messages.gen.go:3704-3715 `OffsetFetchRequestTopic9.Decode`; the second argument is the receiver. -/
def OffsetFetchRequestTopic9.decode (_version : Int16) : OffsetFetchRequestTopic9 → Dec OffsetFetchRequestTopic9 :=
    Dec.field Dec.string (fun t x => { t with Name := x }) ;>
    Dec.field Dec.int32Array (fun t x => { t with PartitionIndexes := x })

/-- The type `OffsetFetchRequestTopic9` with its methods. -/
def OffsetFetchRequestTopic9.type : MsgType :=
  { name := "OffsetFetchRequestTopic9", T := OffsetFetchRequestTopic9, zero := {}, size := OffsetFetchRequestTopic9.size, encode := OffsetFetchRequestTopic9.encode,
    decode := OffsetFetchRequestTopic9.decode }

/-- message/messages.gen.go:3634-3637 `type OffsetFetchRequest struct`; the defaults are the Go zero values. -/
@[ext] structure OffsetFetchRequest where
  GroupId : GoString := []
  Topics : Slice OffsetFetchRequestTopic9 := none

/-- message/messages.gen.go:3640-3648 `OffsetFetchRequest.Size` -/
def OffsetFetchRequest.size (version : Int16) (t : OffsetFetchRequest) : Int32 :=
   (Sizeof.add (Sizeof.string t.GroupId) ;;
    Sizeof.structs (OffsetFetchRequestTopic9.size version) t.Topics) 0

/-- message/messages.gen.go:3651-3659 `OffsetFetchRequest.Encode` -/
def OffsetFetchRequest.encode (version : Int16) (t : OffsetFetchRequest) : Encoder → Encoder :=
    (·.putString t.GroupId) ;;
    Encoder.putStructs (OffsetFetchRequestTopic9.encode version) t.Topics

/-- message/messages.gen.go:3662-3682 `OffsetFetchRequest.Decode`; the second argument is the receiver. -/
def OffsetFetchRequest.decode (version : Int16) : OffsetFetchRequest → Dec OffsetFetchRequest :=
    Dec.field Dec.string (fun t x => { t with GroupId := x }) ;>
    Dec.fieldStructs (OffsetFetchRequestTopic9.decode version {}) (·.Topics) (fun t x => { t with Topics := x })

/-- The type `OffsetFetchRequest` with its methods. -/
def OffsetFetchRequest.type : MsgType :=
  { name := "OffsetFetchRequest", T := OffsetFetchRequest, zero := {}, size := OffsetFetchRequest.size, encode := OffsetFetchRequest.encode,
    decode := OffsetFetchRequest.decode }

/-- message/messages.gen.go:3837-3843 `type OffsetFetchResponsePartition9 struct`; the defaults are the Go zero values. -/
@[ext] structure OffsetFetchResponsePartition9 where
  PartitionIndex : Int32 := 0
  CommittedOffset : Int64 := 0
  CommittedLeaderEpoch : Int32 := 0
  Metadata : GoString := []
  ErrorCode : Int16 := 0

/-- message/messages.gen.go:3846-3856 `OffsetFetchResponsePartition9.Size` -/
def OffsetFetchResponsePartition9.size (version : Int16) (t : OffsetFetchResponsePartition9) : Int32 :=
   (Sizeof.add Sizeof.int32 ;;
    Sizeof.add Sizeof.int64 ;;
    onlyIf (version ≥ 5) (Sizeof.add Sizeof.int32) ;;
    Sizeof.add (Sizeof.string t.Metadata) ;;
    Sizeof.add Sizeof.int16) 0

/-- message/messages.gen.go:3859-3867 `OffsetFetchResponsePartition9.Encode` -/
def OffsetFetchResponsePartition9.encode (version : Int16) (t : OffsetFetchResponsePartition9) : Encoder → Encoder :=
    (·.putInt32 t.PartitionIndex) ;;
    (·.putInt64 t.CommittedOffset) ;;
    onlyIf (version ≥ 5) (·.putInt32 t.CommittedLeaderEpoch) ;;
    (·.putString t.Metadata) ;;
    (·.putInt16 t.ErrorCode)

/-- message/messages.gen.go:3870-3895 `OffsetFetchResponsePartition9.Decode`; the second argument is the receiver. -/
def OffsetFetchResponsePartition9.decode (version : Int16) : OffsetFetchResponsePartition9 → Dec OffsetFetchResponsePartition9 :=
    Dec.field Dec.int32 (fun t x => { t with PartitionIndex := x }) ;>
    Dec.field Dec.int64 (fun t x => { t with CommittedOffset := x }) ;>
    Dec.onlyIf (version ≥ 5) (Dec.field Dec.int32 (fun t x => { t with CommittedLeaderEpoch := x })) ;>
    Dec.field Dec.string (fun t x => { t with Metadata := x }) ;>
    Dec.field Dec.int16 (fun t x => { t with ErrorCode := x })

/-- The type `OffsetFetchResponsePartition9` with its methods. -/
def OffsetFetchResponsePartition9.type : MsgType :=
  { name := "OffsetFetchResponsePartition9", T := OffsetFetchResponsePartition9, zero := {}, size := OffsetFetchResponsePartition9.size, encode := OffsetFetchResponsePartition9.encode,
    decode := OffsetFetchResponsePartition9.decode }

/-- message/messages.gen.go:3787-3790 `type OffsetFetchResponseTopic9 struct`; the defaults are the Go zero values. -/
@[ext] structure OffsetFetchResponseTopic9 where
  Name : GoString := []
  Partitions : Slice OffsetFetchResponsePartition9 := none

/-- message/messages.gen.go:3793-3801 `OffsetFetchResponseTopic9.Size` -/
def OffsetFetchResponseTopic9.size (version : Int16) (t : OffsetFetchResponseTopic9) : Int32 :=
   (Sizeof.add (Sizeof.string t.Name) ;;
    Sizeof.structs (OffsetFetchResponsePartition9.size version) t.Partitions) 0

/-- message/messages.gen.go:3804-3812 `OffsetFetchResponseTopic9.Encode` -/
def OffsetFetchResponseTopic9.encode (version : Int16) (t : OffsetFetchResponseTopic9) : Encoder → Encoder :=
    (·.putString t.Name) ;;
    Encoder.putStructs (OffsetFetchResponsePartition9.encode version) t.Partitions

/-- message/messages.gen.go:3815-3835 `OffsetFetchResponseTopic9.Decode`; the second argument is the receiver. -/
def OffsetFetchResponseTopic9.decode (version : Int16) : OffsetFetchResponseTopic9 → Dec OffsetFetchResponseTopic9 :=
    Dec.field Dec.string (fun t x => { t with Name := x }) ;>
    Dec.fieldStructs (OffsetFetchResponsePartition9.decode version {}) (·.Partitions) (fun t x => { t with Partitions := x })

/-- The type `OffsetFetchResponseTopic9` with its methods. -/
def OffsetFetchResponseTopic9.type : MsgType :=
  { name := "OffsetFetchResponseTopic9", T := OffsetFetchResponseTopic9, zero := {}, size := OffsetFetchResponseTopic9.size, encode := OffsetFetchResponseTopic9.encode,
    decode := OffsetFetchResponseTopic9.decode }

/-- message/messages.gen.go:3718-3722 `type OffsetFetchResponse struct`; the defaults are the Go zero values. -/
@[ext] structure OffsetFetchResponse where
  ThrottleTimeMs : Int32 := 0
  Topics : Slice OffsetFetchResponseTopic9 := none
  ErrorCode : Int16 := 0

/-- message/messages.gen.go:3725-3738 `OffsetFetchResponse.Size` -/
def OffsetFetchResponse.size (version : Int16) (t : OffsetFetchResponse) : Int32 :=
   (onlyIf (version ≥ 3) (Sizeof.add Sizeof.int32) ;;
    Sizeof.structs (OffsetFetchResponseTopic9.size version) t.Topics ;;
    onlyIf (version ≥ 2) (Sizeof.add Sizeof.int16)) 0

/-- message/messages.gen.go:3741-3754 `OffsetFetchResponse.Encode` -/
def OffsetFetchResponse.encode (version : Int16) (t : OffsetFetchResponse) : Encoder → Encoder :=
    onlyIf (version ≥ 3) (·.putInt32 t.ThrottleTimeMs) ;;
    Encoder.putStructs (OffsetFetchResponseTopic9.encode version) t.Topics ;;
    onlyIf (version ≥ 2) (·.putInt16 t.ErrorCode)

/-- message/messages.gen.go:3757-3785 `OffsetFetchResponse.Decode`; the second argument is the receiver. -/
def OffsetFetchResponse.decode (version : Int16) : OffsetFetchResponse → Dec OffsetFetchResponse :=
    Dec.onlyIf (version ≥ 3) (Dec.field Dec.int32 (fun t x => { t with ThrottleTimeMs := x })) ;>
    Dec.fieldStructs (OffsetFetchResponseTopic9.decode version {}) (·.Topics) (fun t x => { t with Topics := x }) ;>
    Dec.onlyIf (version ≥ 2) (Dec.field Dec.int16 (fun t x => { t with ErrorCode := x }))

/-- The type `OffsetFetchResponse` with its methods. -/
def OffsetFetchResponse.type : MsgType :=
  { name := "OffsetFetchResponse", T := OffsetFetchResponse, zero := {}, size := OffsetFetchResponse.size, encode := OffsetFetchResponse.encode,
    decode := OffsetFetchResponse.decode }

end Kafka.Msg
