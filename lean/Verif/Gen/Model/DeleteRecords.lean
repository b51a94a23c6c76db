import Verif.Message.Steps
/-!
Generated by tools/gen_messages.py from message/messages.gen.go: model of the DeleteRecords messages.
-/
namespace Kafka.Msg

/-- message/messages.gen.go:6057-6060 `type DeleteRecordsPartition21 struct`; the defaults are the Go zero values. -/
@[ext] structure DeleteRecordsPartition21 where
  PartitionIndex : Int32 := 0
  Offset : Int64 := 0

/-- message/messages.gen.go:6063-6068 `DeleteRecordsPartition21.Size` -/
def DeleteRecordsPartition21.size (_version : Int16) (_t : DeleteRecordsPartition21) : Int32 :=
   (Sizeof.add Sizeof.int32 ;;
    Sizeof.add Sizeof.int64) 0

/-- message/messages.gen.go:6071-6074 `DeleteRecordsPartition21.Encode` -/
def DeleteRecordsPartition21.encode (_version : Int16) (t : DeleteRecordsPartition21) : Encoder → Encoder :=
    (·.putInt32 t.PartitionIndex) ;;
    (·.putInt64 t.Offset)

/-- message/messages.gen.go:6077-6088 `DeleteRecordsPartition21.Decode`; the second argument is the receiver. -/
def DeleteRecordsPartition21.decode (_version : Int16) : DeleteRecordsPartition21 → Dec DeleteRecordsPartition21 :=
    Dec.field Dec.int32 (fun t x => { t with PartitionIndex := x }) ;>
    Dec.field Dec.int64 (fun t x => { t with Offset := x })

/-- The type `DeleteRecordsPartition21` with its methods. -/
def DeleteRecordsPartition21.type : MsgType :=
  { name := "DeleteRecordsPartition21", T := DeleteRecordsPartition21, zero := {}, size := DeleteRecordsPartition21.size, encode := DeleteRecordsPartition21.encode,
    decode := DeleteRecordsPartition21.decode }

/-- message/messages.gen.go:6007-6010 `type DeleteRecordsTopic21 struct`; the defaults are the Go zero values. -/
@[ext] structure DeleteRecordsTopic21 where
  Name : GoString := []
  Partitions : Slice DeleteRecordsPartition21 := none

/-- message/messages.gen.go:6013-6021 `DeleteRecordsTopic21.Size` -/
def DeleteRecordsTopic21.size (version : Int16) (t : DeleteRecordsTopic21) : Int32 :=
   (Sizeof.add (Sizeof.string t.Name) ;;
    Sizeof.structs (DeleteRecordsPartition21.size version) t.Partitions) 0

/-- message/messages.gen.go:6024-6032 `DeleteRecordsTopic21.Encode` -/
def DeleteRecordsTopic21.encode (version : Int16) (t : DeleteRecordsTopic21) : Encoder → Encoder :=
    (·.putString t.Name) ;;
    Encoder.putStructs (DeleteRecordsPartition21.encode version) t.Partitions

/-- message/messages.gen.go:6035-6055 `DeleteRecordsTopic21.Decode`; the second argument is the receiver. -/
def DeleteRecordsTopic21.decode (version : Int16) : DeleteRecordsTopic21 → Dec DeleteRecordsTopic21 :=
    Dec.field Dec.string (fun t x => { t with Name := x }) ;>
    Dec.fieldStructs (DeleteRecordsPartition21.decode version {}) (·.Partitions) (fun t x => { t with Partitions := x })

/-- The type `DeleteRecordsTopic21` with its methods. -/
def DeleteRecordsTopic21.type : MsgType :=
  { name := "DeleteRecordsTopic21", T := DeleteRecordsTopic21, zero := {}, size := DeleteRecordsTopic21.size, encode := DeleteRecordsTopic21.encode,
    decode := DeleteRecordsTopic21.decode }

/-- message/messages.gen.go:5957-5960 `type DeleteRecordsRequest struct`; the defaults are the Go zero values. -/
@[ext] structure DeleteRecordsRequest where
  Topics : Slice DeleteRecordsTopic21 := none
  TimeoutMs : Int32 := 0

/-- message/messages.gen.go:5963-5971 `DeleteRecordsRequest.Size` -/
def DeleteRecordsRequest.size (version : Int16) (t : DeleteRecordsRequest) : Int32 :=
   (Sizeof.structs (DeleteRecordsTopic21.size version) t.Topics ;;
    Sizeof.add Sizeof.int32) 0

/-- message/messages.gen.go:5974-5982 `DeleteRecordsRequest.Encode` -/
def DeleteRecordsRequest.encode (version : Int16) (t : DeleteRecordsRequest) : Encoder → Encoder :=
    Encoder.putStructs (DeleteRecordsTopic21.encode version) t.Topics ;;
    (·.putInt32 t.TimeoutMs)

/-- message/messages.gen.go:5985-6005 `DeleteRecordsRequest.Decode`; the second argument is the receiver. -/
def DeleteRecordsRequest.decode (version : Int16) : DeleteRecordsRequest → Dec DeleteRecordsRequest :=
    Dec.fieldStructs (DeleteRecordsTopic21.decode version {}) (·.Topics) (fun t x => { t with Topics := x }) ;>
    Dec.field Dec.int32 (fun t x => { t with TimeoutMs := x })

/-- The type `DeleteRecordsRequest` with its methods. -/
def DeleteRecordsRequest.type : MsgType :=
  { name := "DeleteRecordsRequest", T := DeleteRecordsRequest, zero := {}, size := DeleteRecordsRequest.size, encode := DeleteRecordsRequest.encode,
    decode := DeleteRecordsRequest.decode }

/-- message/messages.gen.go:6191-6195 `type DeleteRecordsPartitionResult21 struct`; the defaults are the Go zero values. -/
@[ext] structure DeleteRecordsPartitionResult21 where
  PartitionIndex : Int32 := 0
  LowWatermark : Int64 := 0
  ErrorCode : Int16 := 0

/-- message/messages.gen.go:6198-6204 `DeleteRecordsPartitionResult21.Size` -/
def DeleteRecordsPartitionResult21.size (_version : Int16) (_t : DeleteRecordsPartitionResult21) : Int32 :=
   (Sizeof.add Sizeof.int32 ;;
    Sizeof.add Sizeof.int64 ;;
    Sizeof.add Sizeof.int16) 0

/-- message/messages.gen.go:6207-6211 `DeleteRecordsPartitionResult21.Encode` -/
def DeleteRecordsPartitionResult21.encode (_version : Int16) (t : DeleteRecordsPartitionResult21) : Encoder → Encoder :=
    (·.putInt32 t.PartitionIndex) ;;
    (·.putInt64 t.LowWatermark) ;;
    (·.putInt16 t.ErrorCode)

/-- message/messages.gen.go:6214-6229 `DeleteRecordsPartitionResult21.Decode`; the second argument is the receiver. -/
def DeleteRecordsPartitionResult21.decode (_version : Int16) : DeleteRecordsPartitionResult21 → Dec DeleteRecordsPartitionResult21 :=
    Dec.field Dec.int32 (fun t x => { t with PartitionIndex := x }) ;>
    Dec.field Dec.int64 (fun t x => { t with LowWatermark := x }) ;>
    Dec.field Dec.int16 (fun t x => { t with ErrorCode := x })

/-- The type `DeleteRecordsPartitionResult21` with its methods. -/
def DeleteRecordsPartitionResult21.type : MsgType :=
  { name := "DeleteRecordsPartitionResult21", T := DeleteRecordsPartitionResult21, zero := {}, size := DeleteRecordsPartitionResult21.size, encode := DeleteRecordsPartitionResult21.encode,
    decode := DeleteRecordsPartitionResult21.decode }

/-- message/messages.gen.go:6141-6144 `type DeleteRecordsTopicResult21 struct`; the defaults are the Go zero values. -/
@[ext] structure DeleteRecordsTopicResult21 where
  Name : GoString := []
  Partitions : Slice DeleteRecordsPartitionResult21 := none

/-- message/messages.gen.go:6147-6155 `DeleteRecordsTopicResult21.Size` -/
def DeleteRecordsTopicResult21.size (version : Int16) (t : DeleteRecordsTopicResult21) : Int32 :=
   (Sizeof.add (Sizeof.string t.Name) ;;
    Sizeof.structs (DeleteRecordsPartitionResult21.size version) t.Partitions) 0

/-- message/messages.gen.go:6158-6166 `DeleteRecordsTopicResult21.Encode` -/
def DeleteRecordsTopicResult21.encode (version : Int16) (t : DeleteRecordsTopicResult21) : Encoder → Encoder :=
    (·.putString t.Name) ;;
    Encoder.putStructs (DeleteRecordsPartitionResult21.encode version) t.Partitions

/-- message/messages.gen.go:6169-6189 `DeleteRecordsTopicResult21.Decode`; the second argument is the receiver. -/
def DeleteRecordsTopicResult21.decode (version : Int16) : DeleteRecordsTopicResult21 → Dec DeleteRecordsTopicResult21 :=
    Dec.field Dec.string (fun t x => { t with Name := x }) ;>
    Dec.fieldStructs (DeleteRecordsPartitionResult21.decode version {}) (·.Partitions) (fun t x => { t with Partitions := x })

/-- The type `DeleteRecordsTopicResult21` with its methods. -/
def DeleteRecordsTopicResult21.type : MsgType :=
  { name := "DeleteRecordsTopicResult21", T := DeleteRecordsTopicResult21, zero := {}, size := DeleteRecordsTopicResult21.size, encode := DeleteRecordsTopicResult21.encode,
    decode := DeleteRecordsTopicResult21.decode }

/-- message/messages.gen.go:6091-6094 `type DeleteRecordsResponse struct`; the defaults are the Go zero values. -/
@[ext] structure DeleteRecordsResponse where
  ThrottleTimeMs : Int32 := 0
  Topics : Slice DeleteRecordsTopicResult21 := none

/-- message/messages.gen.go:6097-6105 `DeleteRecordsResponse.Size` -/
def DeleteRecordsResponse.size (version : Int16) (t : DeleteRecordsResponse) : Int32 :=
   (Sizeof.add Sizeof.int32 ;;
    Sizeof.structs (DeleteRecordsTopicResult21.size version) t.Topics) 0

/-- message/messages.gen.go:6108-6116 `DeleteRecordsResponse.Encode` -/
def DeleteRecordsResponse.encode (version : Int16) (t : DeleteRecordsResponse) : Encoder → Encoder :=
    (·.putInt32 t.ThrottleTimeMs) ;;
    Encoder.putStructs (DeleteRecordsTopicResult21.encode version) t.Topics

/-- message/messages.gen.go:6119-6139 `DeleteRecordsResponse.Decode`; the second argument is the receiver. -/
def DeleteRecordsResponse.decode (version : Int16) : DeleteRecordsResponse → Dec DeleteRecordsResponse :=
    Dec.field Dec.int32 (fun t x => { t with ThrottleTimeMs := x }) ;>
    Dec.fieldStructs (DeleteRecordsTopicResult21.decode version {}) (·.Topics) (fun t x => { t with Topics := x })

/-- The type `DeleteRecordsResponse` with its methods. -/
def DeleteRecordsResponse.type : MsgType :=
  { name := "DeleteRecordsResponse", T := DeleteRecordsResponse, zero := {}, size := DeleteRecordsResponse.size, encode := DeleteRecordsResponse.encode,
    decode := DeleteRecordsResponse.decode }

end Kafka.Msg
