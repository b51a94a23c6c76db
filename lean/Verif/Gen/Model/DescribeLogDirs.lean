import Verif.Message.Steps
/-!
Generated by tools/gen_messages.py from message/messages.gen.go: model of the DescribeLogDirs messages.
-/
namespace Kafka.Msg

/-- message/messages.gen.go:9353-9356 `type DescribableLogDirTopic35 struct`; the defaults are the Go zero values. -/
@[ext] structure DescribableLogDirTopic35 where
  Topic : GoString := []
  PartitionIndex : Slice Int32 := none

/-- message/messages.gen.go:9359-9364 `DescribableLogDirTopic35.Size` -/
def DescribableLogDirTopic35.size (_version : Int16) (t : DescribableLogDirTopic35) : Int32 :=
   (Sizeof.add (Sizeof.string t.Topic) ;;
    Sizeof.add (Sizeof.int32Array t.PartitionIndex)) 0

/-- message/messages.gen.go:9367-9370 `DescribableLogDirTopic35.Encode` -/
def DescribableLogDirTopic35.encode (_version : Int16) (t : DescribableLogDirTopic35) : Encoder → Encoder :=
    (·.putString t.Topic) ;;
    (·.putInt32Array t.PartitionIndex)

/-- message/messages.gen.go:9373-9384 `DescribableLogDirTopic35.Decode`; the second argument is the receiver. -/
def DescribableLogDirTopic35.decode (_version : Int16) : DescribableLogDirTopic35 → Dec DescribableLogDirTopic35 :=
    Dec.field Dec.string (fun t x => { t with Topic := x }) ;>
    Dec.field Dec.int32Array (fun t x => { t with PartitionIndex := x })

/-- The type `DescribableLogDirTopic35` with its methods. -/
def DescribableLogDirTopic35.type : MsgType :=
  { name := "DescribableLogDirTopic35", T := DescribableLogDirTopic35, zero := {}, size := DescribableLogDirTopic35.size, encode := DescribableLogDirTopic35.encode,
    decode := DescribableLogDirTopic35.decode }

/-- message/messages.gen.go:9310-9312 `type DescribeLogDirsRequest struct`; the defaults are the Go zero values. -/
@[ext] structure DescribeLogDirsRequest where
  Topics : Slice DescribableLogDirTopic35 := none

/-- message/messages.gen.go:9315-9322 `DescribeLogDirsRequest.Size` -/
def DescribeLogDirsRequest.size (version : Int16) (t : DescribeLogDirsRequest) : Int32 :=
   (Sizeof.structs (DescribableLogDirTopic35.size version) t.Topics) 0

/-- message/messages.gen.go:9325-9332 `DescribeLogDirsRequest.Encode` -/
def DescribeLogDirsRequest.encode (version : Int16) (t : DescribeLogDirsRequest) : Encoder → Encoder :=
    Encoder.putStructs (DescribableLogDirTopic35.encode version) t.Topics

/-- message/messages.gen.go:9335-9351 `DescribeLogDirsRequest.Decode`; the second argument is the receiver. -/
def DescribeLogDirsRequest.decode (version : Int16) : DescribeLogDirsRequest → Dec DescribeLogDirsRequest :=
    Dec.fieldStructs (DescribableLogDirTopic35.decode version {}) (·.Topics) (fun t x => { t with Topics := x })

/-- The type `DescribeLogDirsRequest` with its methods. -/
def DescribeLogDirsRequest.type : MsgType :=
  { name := "DescribeLogDirsRequest", T := DescribeLogDirsRequest, zero := {}, size := DescribeLogDirsRequest.size, encode := DescribeLogDirsRequest.encode,
    decode := DescribeLogDirsRequest.decode }

/-- message/messages.gen.go:9544-9549 `type DescribeLogDirsPartition35 struct`; the defaults are the Go zero values. -/
@[ext] structure DescribeLogDirsPartition35 where
  PartitionIndex : Int32 := 0
  PartitionSize : Int64 := 0
  OffsetLag : Int64 := 0
  IsFutureKey : Bool := false

/-- message/messages.gen.go:9552-9559 `DescribeLogDirsPartition35.Size` -/
def DescribeLogDirsPartition35.size (_version : Int16) (_t : DescribeLogDirsPartition35) : Int32 :=
   (Sizeof.add Sizeof.int32 ;;
    Sizeof.add Sizeof.int64 ;;
    Sizeof.add Sizeof.int64 ;;
    Sizeof.add Sizeof.bool) 0

/-- message/messages.gen.go:9562-9567 `DescribeLogDirsPartition35.Encode` -/
def DescribeLogDirsPartition35.encode (_version : Int16) (t : DescribeLogDirsPartition35) : Encoder → Encoder :=
    (·.putInt32 t.PartitionIndex) ;;
    (·.putInt64 t.PartitionSize) ;;
    (·.putInt64 t.OffsetLag) ;;
    (·.putBool t.IsFutureKey)

/-- message/messages.gen.go:9570-9589 `DescribeLogDirsPartition35.Decode`; the second argument is the receiver. -/
def DescribeLogDirsPartition35.decode (_version : Int16) : DescribeLogDirsPartition35 → Dec DescribeLogDirsPartition35 :=
    Dec.field Dec.int32 (fun t x => { t with PartitionIndex := x }) ;>
    Dec.field Dec.int64 (fun t x => { t with PartitionSize := x }) ;>
    Dec.field Dec.int64 (fun t x => { t with OffsetLag := x }) ;>
    Dec.field Dec.bool (fun t x => { t with IsFutureKey := x })

/-- The type `DescribeLogDirsPartition35` with its methods. -/
def DescribeLogDirsPartition35.type : MsgType :=
  { name := "DescribeLogDirsPartition35", T := DescribeLogDirsPartition35, zero := {}, size := DescribeLogDirsPartition35.size, encode := DescribeLogDirsPartition35.encode,
    decode := DescribeLogDirsPartition35.decode }

/-- message/messages.gen.go:9494-9497 `type DescribeLogDirsTopic35 struct`; the defaults are the Go zero values. -/
@[ext] structure DescribeLogDirsTopic35 where
  Name : GoString := []
  Partitions : Slice DescribeLogDirsPartition35 := none

/-- message/messages.gen.go:9500-9508 `DescribeLogDirsTopic35.Size` -/
def DescribeLogDirsTopic35.size (version : Int16) (t : DescribeLogDirsTopic35) : Int32 :=
   (Sizeof.add (Sizeof.string t.Name) ;;
    Sizeof.structs (DescribeLogDirsPartition35.size version) t.Partitions) 0

/-- message/messages.gen.go:9511-9519 `DescribeLogDirsTopic35.Encode` -/
def DescribeLogDirsTopic35.encode (version : Int16) (t : DescribeLogDirsTopic35) : Encoder → Encoder :=
    (·.putString t.Name) ;;
    Encoder.putStructs (DescribeLogDirsPartition35.encode version) t.Partitions

/-- message/messages.gen.go:9522-9542 `DescribeLogDirsTopic35.Decode`; the second argument is the receiver. -/
def DescribeLogDirsTopic35.decode (version : Int16) : DescribeLogDirsTopic35 → Dec DescribeLogDirsTopic35 :=
    Dec.field Dec.string (fun t x => { t with Name := x }) ;>
    Dec.fieldStructs (DescribeLogDirsPartition35.decode version {}) (·.Partitions) (fun t x => { t with Partitions := x })

/-- The type `DescribeLogDirsTopic35` with its methods. -/
def DescribeLogDirsTopic35.type : MsgType :=
  { name := "DescribeLogDirsTopic35", T := DescribeLogDirsTopic35, zero := {}, size := DescribeLogDirsTopic35.size, encode := DescribeLogDirsTopic35.encode,
    decode := DescribeLogDirsTopic35.decode }

/-- message/messages.gen.go:9437-9441 `type DescribeLogDirsResult35 struct`; the defaults are the Go zero values. -/
@[ext] structure DescribeLogDirsResult35 where
  ErrorCode : Int16 := 0
  LogDir : GoString := []
  Topics : Slice DescribeLogDirsTopic35 := none

/-- message/messages.gen.go:9444-9453 `DescribeLogDirsResult35.Size` -/
def DescribeLogDirsResult35.size (version : Int16) (t : DescribeLogDirsResult35) : Int32 :=
   (Sizeof.add Sizeof.int16 ;;
    Sizeof.add (Sizeof.string t.LogDir) ;;
    Sizeof.structs (DescribeLogDirsTopic35.size version) t.Topics) 0

/-- message/messages.gen.go:9456-9465 `DescribeLogDirsResult35.Encode` -/
def DescribeLogDirsResult35.encode (version : Int16) (t : DescribeLogDirsResult35) : Encoder → Encoder :=
    (·.putInt16 t.ErrorCode) ;;
    (·.putString t.LogDir) ;;
    Encoder.putStructs (DescribeLogDirsTopic35.encode version) t.Topics

/-- message/messages.gen.go:9468-9492 `DescribeLogDirsResult35.Decode`; the second argument is the receiver. -/
def DescribeLogDirsResult35.decode (version : Int16) : DescribeLogDirsResult35 → Dec DescribeLogDirsResult35 :=
    Dec.field Dec.int16 (fun t x => { t with ErrorCode := x }) ;>
    Dec.field Dec.string (fun t x => { t with LogDir := x }) ;>
    Dec.fieldStructs (DescribeLogDirsTopic35.decode version {}) (·.Topics) (fun t x => { t with Topics := x })

/-- The type `DescribeLogDirsResult35` with its methods. -/
def DescribeLogDirsResult35.type : MsgType :=
  { name := "DescribeLogDirsResult35", T := DescribeLogDirsResult35, zero := {}, size := DescribeLogDirsResult35.size, encode := DescribeLogDirsResult35.encode,
    decode := DescribeLogDirsResult35.decode }

/-- message/messages.gen.go:9387-9390 `type DescribeLogDirsResponse struct`; the defaults are the Go zero values. -/
@[ext] structure DescribeLogDirsResponse where
  ThrottleTimeMs : Int32 := 0
  Results : Slice DescribeLogDirsResult35 := none

/-- message/messages.gen.go:9393-9401 `DescribeLogDirsResponse.Size` -/
def DescribeLogDirsResponse.size (version : Int16) (t : DescribeLogDirsResponse) : Int32 :=
   (Sizeof.add Sizeof.int32 ;;
    Sizeof.structs (DescribeLogDirsResult35.size version) t.Results) 0

/-- message/messages.gen.go:9404-9412 `DescribeLogDirsResponse.Encode` -/
def DescribeLogDirsResponse.encode (version : Int16) (t : DescribeLogDirsResponse) : Encoder → Encoder :=
    (·.putInt32 t.ThrottleTimeMs) ;;
    Encoder.putStructs (DescribeLogDirsResult35.encode version) t.Results

/-- message/messages.gen.go:9415-9435 `DescribeLogDirsResponse.Decode`; the second argument is the receiver. -/
def DescribeLogDirsResponse.decode (version : Int16) : DescribeLogDirsResponse → Dec DescribeLogDirsResponse :=
    Dec.field Dec.int32 (fun t x => { t with ThrottleTimeMs := x }) ;>
    Dec.fieldStructs (DescribeLogDirsResult35.decode version {}) (·.Results) (fun t x => { t with Results := x })

/-- The type `DescribeLogDirsResponse` with its methods. -/
def DescribeLogDirsResponse.type : MsgType :=
  { name := "DescribeLogDirsResponse", T := DescribeLogDirsResponse, zero := {}, size := DescribeLogDirsResponse.size, encode := DescribeLogDirsResponse.encode,
    decode := DescribeLogDirsResponse.decode }

end Kafka.Msg
