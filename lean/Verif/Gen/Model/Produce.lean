import Verif.Message.Steps
/-!
Generated by tools/gen_messages.py from message/messages.gen.go: model of the Produce messages.
-/
namespace Kafka.Msg

/-- message/messages.gen.go:144-147 `type PartitionProduceData0 struct`; the defaults are the Go zero values. -/
@[ext] structure PartitionProduceData0 where
  PartitionIndex : Int32 := 0
  Records : Slice Byte := none

/-- message/messages.gen.go:150-155 `PartitionProduceData0.Size` -/
def PartitionProduceData0.size (_version : Int16) (t : PartitionProduceData0) : Int32 :=
   (Sizeof.add Sizeof.int32 ;;
    Sizeof.add (Sizeof.bytes t.Records)) 0

/-- message/messages.gen.go:158-161 `PartitionProduceData0.Encode` -/
def PartitionProduceData0.encode (_version : Int16) (t : PartitionProduceData0) : Encoder → Encoder :=
    (·.putInt32 t.PartitionIndex) ;;
    (·.putBytes t.Records)

/-- message/messages.gen.go:164-175 `PartitionProduceData0.Decode`; the second argument is the receiver. -/
def PartitionProduceData0.decode (_version : Int16) : PartitionProduceData0 → Dec PartitionProduceData0 :=
    Dec.field Dec.int32 (fun t x => { t with PartitionIndex := x }) ;>
    Dec.field Dec.bytes (fun t x => { t with Records := x })

/-- The type `PartitionProduceData0` with its methods. -/
def PartitionProduceData0.type : MsgType :=
  { name := "PartitionProduceData0", T := PartitionProduceData0, zero := {}, size := PartitionProduceData0.size, encode := PartitionProduceData0.encode,
    decode := PartitionProduceData0.decode }

/-- message/messages.gen.go:94-97 `type TopicProduceData0 struct`; the defaults are the Go zero values. -/
@[ext] structure TopicProduceData0 where
  Name : GoString := []
  Partitions : Slice PartitionProduceData0 := none

/-- message/messages.gen.go:100-108 `TopicProduceData0.Size` -/
def TopicProduceData0.size (version : Int16) (t : TopicProduceData0) : Int32 :=
   (Sizeof.add (Sizeof.string t.Name) ;;
    Sizeof.structs (PartitionProduceData0.size version) t.Partitions) 0

/-- message/messages.gen.go:111-119 `TopicProduceData0.Encode` -/
def TopicProduceData0.encode (version : Int16) (t : TopicProduceData0) : Encoder → Encoder :=
    (·.putString t.Name) ;;
    Encoder.putStructs (PartitionProduceData0.encode version) t.Partitions

/-- message/messages.gen.go:122-142 `TopicProduceData0.Decode`; the second argument is the receiver. -/
def TopicProduceData0.decode (version : Int16) : TopicProduceData0 → Dec TopicProduceData0 :=
    Dec.field Dec.string (fun t x => { t with Name := x }) ;>
    Dec.fieldStructs (PartitionProduceData0.decode version {}) (·.Partitions) (fun t x => { t with Partitions := x })

/-- The type `TopicProduceData0` with its methods. -/
def TopicProduceData0.type : MsgType :=
  { name := "TopicProduceData0", T := TopicProduceData0, zero := {}, size := TopicProduceData0.size, encode := TopicProduceData0.encode,
    decode := TopicProduceData0.decode }

/-- message/messages.gen.go:24-29 `type ProduceRequest struct`; the defaults are the Go zero values. -/
@[ext] structure ProduceRequest where
  TransactionalId : GoString := []
  Acks : Int16 := 0
  TimeoutMs : Int32 := 0
  Topics : Slice TopicProduceData0 := none

/-- message/messages.gen.go:32-44 `ProduceRequest.Size` -/
def ProduceRequest.size (version : Int16) (t : ProduceRequest) : Int32 :=
   (onlyIf (version ≥ 3) (Sizeof.add (Sizeof.string t.TransactionalId)) ;;
    Sizeof.add Sizeof.int16 ;;
    Sizeof.add Sizeof.int32 ;;
    Sizeof.structs (TopicProduceData0.size version) t.Topics) 0

/-- message/messages.gen.go:47-59 `ProduceRequest.Encode` -/
def ProduceRequest.encode (version : Int16) (t : ProduceRequest) : Encoder → Encoder :=
    onlyIf (version ≥ 3) (·.putString t.TransactionalId) ;;
    (·.putInt16 t.Acks) ;;
    (·.putInt32 t.TimeoutMs) ;;
    Encoder.putStructs (TopicProduceData0.encode version) t.Topics

/-- message/messages.gen.go:62-92 `ProduceRequest.Decode`; the second argument is the receiver. -/
def ProduceRequest.decode (version : Int16) : ProduceRequest → Dec ProduceRequest :=
    Dec.onlyIf (version ≥ 3) (Dec.field Dec.string (fun t x => { t with TransactionalId := x })) ;>
    Dec.field Dec.int16 (fun t x => { t with Acks := x }) ;>
    Dec.field Dec.int32 (fun t x => { t with TimeoutMs := x }) ;>
    Dec.fieldStructs (TopicProduceData0.decode version {}) (·.Topics) (fun t x => { t with Topics := x })

/-- The type `ProduceRequest` with its methods. -/
def ProduceRequest.type : MsgType :=
  { name := "ProduceRequest", T := ProduceRequest, zero := {}, size := ProduceRequest.size, encode := ProduceRequest.encode,
    decode := ProduceRequest.decode }

/-- message/messages.gen.go:393-396 `type BatchIndexAndErrorMessage0 struct`; the defaults are the Go zero values. -/
@[ext] structure BatchIndexAndErrorMessage0 where
  BatchIndex : Int32 := 0
  BatchIndexErrorMessage : GoString := []

/-- message/messages.gen.go:399-408 `BatchIndexAndErrorMessage0.Size` -/
def BatchIndexAndErrorMessage0.size (version : Int16) (t : BatchIndexAndErrorMessage0) : Int32 :=
   (onlyIf (version ≥ 8) (Sizeof.add Sizeof.int32) ;;
    onlyIf (version ≥ 8) (Sizeof.add (Sizeof.string t.BatchIndexErrorMessage))) 0

/-- message/messages.gen.go:411-418 `BatchIndexAndErrorMessage0.Encode` -/
def BatchIndexAndErrorMessage0.encode (version : Int16) (t : BatchIndexAndErrorMessage0) : Encoder → Encoder :=
    onlyIf (version ≥ 8) (·.putInt32 t.BatchIndex) ;;
    onlyIf (version ≥ 8) (·.putString t.BatchIndexErrorMessage)

/-- message/messages.gen.go:421-436 `BatchIndexAndErrorMessage0.Decode`; the second argument is the receiver. -/
def BatchIndexAndErrorMessage0.decode (version : Int16) : BatchIndexAndErrorMessage0 → Dec BatchIndexAndErrorMessage0 :=
    Dec.onlyIf (version ≥ 8) (Dec.field Dec.int32 (fun t x => { t with BatchIndex := x })) ;>
    Dec.onlyIf (version ≥ 8) (Dec.field Dec.string (fun t x => { t with BatchIndexErrorMessage := x }))

/-- The type `BatchIndexAndErrorMessage0` with its methods. -/
def BatchIndexAndErrorMessage0.type : MsgType :=
  { name := "BatchIndexAndErrorMessage0", T := BatchIndexAndErrorMessage0, zero := {}, size := BatchIndexAndErrorMessage0.size, encode := BatchIndexAndErrorMessage0.encode,
    decode := BatchIndexAndErrorMessage0.decode }

/-- message/messages.gen.go:284-292 `type PartitionProduceResponse0 struct`; the defaults are the Go zero values. -/
@[ext] structure PartitionProduceResponse0 where
  PartitionIndex : Int32 := 0
  ErrorCode : Int16 := 0
  BaseOffset : Int64 := 0
  LogAppendTimeMs : Int64 := 0
  LogStartOffset : Int64 := 0
  RecordErrors : Slice BatchIndexAndErrorMessage0 := none
  ErrorMessage : GoString := []

/-- message/messages.gen.go:295-316 `PartitionProduceResponse0.Size` -/
def PartitionProduceResponse0.size (version : Int16) (t : PartitionProduceResponse0) : Int32 :=
   (Sizeof.add Sizeof.int32 ;;
    Sizeof.add Sizeof.int16 ;;
    Sizeof.add Sizeof.int64 ;;
    onlyIf (version ≥ 2) (Sizeof.add Sizeof.int64) ;;
    onlyIf (version ≥ 5) (Sizeof.add Sizeof.int64) ;;
    onlyIf (version ≥ 8) (Sizeof.structs (BatchIndexAndErrorMessage0.size version) t.RecordErrors) ;;
    onlyIf (version ≥ 8) (Sizeof.add (Sizeof.string t.ErrorMessage))) 0

/-- message/messages.gen.go:319-340 `PartitionProduceResponse0.Encode` -/
def PartitionProduceResponse0.encode (version : Int16) (t : PartitionProduceResponse0) : Encoder → Encoder :=
    (·.putInt32 t.PartitionIndex) ;;
    (·.putInt16 t.ErrorCode) ;;
    (·.putInt64 t.BaseOffset) ;;
    onlyIf (version ≥ 2) (·.putInt64 t.LogAppendTimeMs) ;;
    onlyIf (version ≥ 5) (·.putInt64 t.LogStartOffset) ;;
    onlyIf (version ≥ 8) (Encoder.putStructs (BatchIndexAndErrorMessage0.encode version) t.RecordErrors) ;;
    onlyIf (version ≥ 8) (·.putString t.ErrorMessage)

/-- message/messages.gen.go:343-391 `PartitionProduceResponse0.Decode`; the second argument is the receiver. -/
def PartitionProduceResponse0.decode (version : Int16) : PartitionProduceResponse0 → Dec PartitionProduceResponse0 :=
    Dec.field Dec.int32 (fun t x => { t with PartitionIndex := x }) ;>
    Dec.field Dec.int16 (fun t x => { t with ErrorCode := x }) ;>
    Dec.field Dec.int64 (fun t x => { t with BaseOffset := x }) ;>
    Dec.onlyIf (version ≥ 2) (Dec.field Dec.int64 (fun t x => { t with LogAppendTimeMs := x })) ;>
    Dec.onlyIf (version ≥ 5) (Dec.field Dec.int64 (fun t x => { t with LogStartOffset := x })) ;>
    Dec.onlyIf (version ≥ 8) (Dec.fieldStructs (BatchIndexAndErrorMessage0.decode version {}) (·.RecordErrors) (fun t x => { t with RecordErrors := x })) ;>
    Dec.onlyIf (version ≥ 8) (Dec.field Dec.string (fun t x => { t with ErrorMessage := x }))

/-- The type `PartitionProduceResponse0` with its methods. -/
def PartitionProduceResponse0.type : MsgType :=
  { name := "PartitionProduceResponse0", T := PartitionProduceResponse0, zero := {}, size := PartitionProduceResponse0.size, encode := PartitionProduceResponse0.encode,
    decode := PartitionProduceResponse0.decode }

/-- message/messages.gen.go:234-237 `type TopicProduceResponse0 struct`; the defaults are the Go zero values. -/
@[ext] structure TopicProduceResponse0 where
  Name : GoString := []
  Partitions : Slice PartitionProduceResponse0 := none

/-- message/messages.gen.go:240-248 `TopicProduceResponse0.Size` -/
def TopicProduceResponse0.size (version : Int16) (t : TopicProduceResponse0) : Int32 :=
   (Sizeof.add (Sizeof.string t.Name) ;;
    Sizeof.structs (PartitionProduceResponse0.size version) t.Partitions) 0

/-- message/messages.gen.go:251-259 `TopicProduceResponse0.Encode` -/
def TopicProduceResponse0.encode (version : Int16) (t : TopicProduceResponse0) : Encoder → Encoder :=
    (·.putString t.Name) ;;
    Encoder.putStructs (PartitionProduceResponse0.encode version) t.Partitions

/-- message/messages.gen.go:262-282 `TopicProduceResponse0.Decode`; the second argument is the receiver. -/
def TopicProduceResponse0.decode (version : Int16) : TopicProduceResponse0 → Dec TopicProduceResponse0 :=
    Dec.field Dec.string (fun t x => { t with Name := x }) ;>
    Dec.fieldStructs (PartitionProduceResponse0.decode version {}) (·.Partitions) (fun t x => { t with Partitions := x })

/-- The type `TopicProduceResponse0` with its methods. -/
def TopicProduceResponse0.type : MsgType :=
  { name := "TopicProduceResponse0", T := TopicProduceResponse0, zero := {}, size := TopicProduceResponse0.size, encode := TopicProduceResponse0.encode,
    decode := TopicProduceResponse0.decode }

/-- message/messages.gen.go:178-181 `type ProduceResponse struct`; the defaults are the Go zero values. -/
@[ext] structure ProduceResponse where
  Responses : Slice TopicProduceResponse0 := none
  ThrottleTimeMs : Int32 := 0

/-- message/messages.gen.go:184-194 `ProduceResponse.Size` -/
def ProduceResponse.size (version : Int16) (t : ProduceResponse) : Int32 :=
   (Sizeof.structs (TopicProduceResponse0.size version) t.Responses ;;
    onlyIf (version ≥ 1) (Sizeof.add Sizeof.int32)) 0

/-- message/messages.gen.go:197-207 `ProduceResponse.Encode` -/
def ProduceResponse.encode (version : Int16) (t : ProduceResponse) : Encoder → Encoder :=
    Encoder.putStructs (TopicProduceResponse0.encode version) t.Responses ;;
    onlyIf (version ≥ 1) (·.putInt32 t.ThrottleTimeMs)

/-- message/messages.gen.go:210-232 `ProduceResponse.Decode`; the second argument is the receiver. -/
def ProduceResponse.decode (version : Int16) : ProduceResponse → Dec ProduceResponse :=
    Dec.fieldStructs (TopicProduceResponse0.decode version {}) (·.Responses) (fun t x => { t with Responses := x }) ;>
    Dec.onlyIf (version ≥ 1) (Dec.field Dec.int32 (fun t x => { t with ThrottleTimeMs := x }))

/-- The type `ProduceResponse` with its methods. -/
def ProduceResponse.type : MsgType :=
  { name := "ProduceResponse", T := ProduceResponse, zero := {}, size := ProduceResponse.size, encode := ProduceResponse.encode,
    decode := ProduceResponse.decode }

end Kafka.Msg
