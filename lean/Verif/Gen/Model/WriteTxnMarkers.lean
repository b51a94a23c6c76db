import Verif.Message.Steps
/-!
Generated by tools/gen_messages.py from message/messages.gen.go: model of the WriteTxnMarkers messages.
-/
namespace Kafka.Msg

/-- message/messages.gen.go:7137-7140 `type WritableTxnMarkerTopic27 struct`; the defaults are the Go zero values. -/
@[ext] structure WritableTxnMarkerTopic27 where
  Name : GoString := []
  PartitionIndexes : Slice Int32 := none

/-- message/messages.gen.go:7143-7148 `WritableTxnMarkerTopic27.Size` -/
def WritableTxnMarkerTopic27.size (_version : Int16) (t : WritableTxnMarkerTopic27) : Int32 :=
   (Sizeof.add (Sizeof.string t.Name) ;;
    Sizeof.add (Sizeof.int32Array t.PartitionIndexes)) 0

/-- message/messages.gen.go:7151-7154 `WritableTxnMarkerTopic27.Encode` -/
def WritableTxnMarkerTopic27.encode (_version : Int16) (t : WritableTxnMarkerTopic27) : Encoder → Encoder :=
    (·.putString t.Name) ;;
    (·.putInt32Array t.PartitionIndexes)

/-- message/messages.gen.go:7157-7168 `WritableTxnMarkerTopic27.Decode`; the second argument is the receiver. -/
def WritableTxnMarkerTopic27.decode (_version : Int16) : WritableTxnMarkerTopic27 → Dec WritableTxnMarkerTopic27 :=
    Dec.field Dec.string (fun t x => { t with Name := x }) ;>
    Dec.field Dec.int32Array (fun t x => { t with PartitionIndexes := x })

/-- The type `WritableTxnMarkerTopic27` with its methods. -/
def WritableTxnMarkerTopic27.type : MsgType :=
  { name := "WritableTxnMarkerTopic27", T := WritableTxnMarkerTopic27, zero := {}, size := WritableTxnMarkerTopic27.size, encode := WritableTxnMarkerTopic27.encode,
    decode := WritableTxnMarkerTopic27.decode }

/-- message/messages.gen.go:7066-7072 `type WritableTxnMarker27 struct`; the defaults are the Go zero values. -/
@[ext] structure WritableTxnMarker27 where
  ProducerId : Int64 := 0
  ProducerEpoch : Int16 := 0
  TransactionResult : Bool := false
  Topics : Slice WritableTxnMarkerTopic27 := none
  CoordinatorEpoch : Int32 := 0

/-- message/messages.gen.go:7075-7086 `WritableTxnMarker27.Size` -/
def WritableTxnMarker27.size (version : Int16) (t : WritableTxnMarker27) : Int32 :=
   (Sizeof.add Sizeof.int64 ;;
    Sizeof.add Sizeof.int16 ;;
    Sizeof.add Sizeof.bool ;;
    Sizeof.structs (WritableTxnMarkerTopic27.size version) t.Topics ;;
    Sizeof.add Sizeof.int32) 0

/-- message/messages.gen.go:7089-7100 `WritableTxnMarker27.Encode` -/
def WritableTxnMarker27.encode (version : Int16) (t : WritableTxnMarker27) : Encoder → Encoder :=
    (·.putInt64 t.ProducerId) ;;
    (·.putInt16 t.ProducerEpoch) ;;
    (·.putBool t.TransactionResult) ;;
    Encoder.putStructs (WritableTxnMarkerTopic27.encode version) t.Topics ;;
    (·.putInt32 t.CoordinatorEpoch)

/-- message/messages.gen.go:7103-7135 `WritableTxnMarker27.Decode`; the second argument is the receiver. -/
def WritableTxnMarker27.decode (version : Int16) : WritableTxnMarker27 → Dec WritableTxnMarker27 :=
    Dec.field Dec.int64 (fun t x => { t with ProducerId := x }) ;>
    Dec.field Dec.int16 (fun t x => { t with ProducerEpoch := x }) ;>
    Dec.field Dec.bool (fun t x => { t with TransactionResult := x }) ;>
    Dec.fieldStructs (WritableTxnMarkerTopic27.decode version {}) (·.Topics) (fun t x => { t with Topics := x }) ;>
    Dec.field Dec.int32 (fun t x => { t with CoordinatorEpoch := x })

/-- The type `WritableTxnMarker27` with its methods. -/
def WritableTxnMarker27.type : MsgType :=
  { name := "WritableTxnMarker27", T := WritableTxnMarker27, zero := {}, size := WritableTxnMarker27.size, encode := WritableTxnMarker27.encode,
    decode := WritableTxnMarker27.decode }

/-- message/messages.gen.go:7023-7025 `type WriteTxnMarkersRequest struct`; the defaults are the Go zero values. -/
@[ext] structure WriteTxnMarkersRequest where
  Markers : Slice WritableTxnMarker27 := none

/-- message/messages.gen.go:7028-7035 `WriteTxnMarkersRequest.Size` -/
def WriteTxnMarkersRequest.size (version : Int16) (t : WriteTxnMarkersRequest) : Int32 :=
   (Sizeof.structs (WritableTxnMarker27.size version) t.Markers) 0

/-- message/messages.gen.go:7038-7045 `WriteTxnMarkersRequest.Encode` -/
def WriteTxnMarkersRequest.encode (version : Int16) (t : WriteTxnMarkersRequest) : Encoder → Encoder :=
    Encoder.putStructs (WritableTxnMarker27.encode version) t.Markers

/-- message/messages.gen.go:7048-7064 `WriteTxnMarkersRequest.Decode`; the second argument is the receiver. -/
def WriteTxnMarkersRequest.decode (version : Int16) : WriteTxnMarkersRequest → Dec WriteTxnMarkersRequest :=
    Dec.fieldStructs (WritableTxnMarker27.decode version {}) (·.Markers) (fun t x => { t with Markers := x })

/-- The type `WriteTxnMarkersRequest` with its methods. -/
def WriteTxnMarkersRequest.type : MsgType :=
  { name := "WriteTxnMarkersRequest", T := WriteTxnMarkersRequest, zero := {}, size := WriteTxnMarkersRequest.size, encode := WriteTxnMarkersRequest.encode,
    decode := WriteTxnMarkersRequest.decode }

/-- message/messages.gen.go:7314-7317 `type WritableTxnMarkerPartitionResult27 struct`; the defaults are the Go zero values. -/
@[ext] structure WritableTxnMarkerPartitionResult27 where
  PartitionIndex : Int32 := 0
  ErrorCode : Int16 := 0

/-- message/messages.gen.go:7320-7325 `WritableTxnMarkerPartitionResult27.Size` -/
def WritableTxnMarkerPartitionResult27.size (_version : Int16) (_t : WritableTxnMarkerPartitionResult27) : Int32 :=
   (Sizeof.add Sizeof.int32 ;;
    Sizeof.add Sizeof.int16) 0

/-- message/messages.gen.go:7328-7331 `WritableTxnMarkerPartitionResult27.Encode` -/
def WritableTxnMarkerPartitionResult27.encode (_version : Int16) (t : WritableTxnMarkerPartitionResult27) : Encoder → Encoder :=
    (·.putInt32 t.PartitionIndex) ;;
    (·.putInt16 t.ErrorCode)

/-- message/messages.gen.go:7334-7345 `WritableTxnMarkerPartitionResult27.Decode`; the second argument is the receiver. -/
def WritableTxnMarkerPartitionResult27.decode (_version : Int16) : WritableTxnMarkerPartitionResult27 → Dec WritableTxnMarkerPartitionResult27 :=
    Dec.field Dec.int32 (fun t x => { t with PartitionIndex := x }) ;>
    Dec.field Dec.int16 (fun t x => { t with ErrorCode := x })

/-- The type `WritableTxnMarkerPartitionResult27` with its methods. -/
def WritableTxnMarkerPartitionResult27.type : MsgType :=
  { name := "WritableTxnMarkerPartitionResult27", T := WritableTxnMarkerPartitionResult27, zero := {}, size := WritableTxnMarkerPartitionResult27.size, encode := WritableTxnMarkerPartitionResult27.encode,
    decode := WritableTxnMarkerPartitionResult27.decode }

/-- message/messages.gen.go:7264-7267 `type WritableTxnMarkerTopicResult27 struct`; the defaults are the Go zero values. -/
@[ext] structure WritableTxnMarkerTopicResult27 where
  Name : GoString := []
  Partitions : Slice WritableTxnMarkerPartitionResult27 := none

/-- message/messages.gen.go:7270-7278 `WritableTxnMarkerTopicResult27.Size` -/
def WritableTxnMarkerTopicResult27.size (version : Int16) (t : WritableTxnMarkerTopicResult27) : Int32 :=
   (Sizeof.add (Sizeof.string t.Name) ;;
    Sizeof.structs (WritableTxnMarkerPartitionResult27.size version) t.Partitions) 0

/-- message/messages.gen.go:7281-7289 `WritableTxnMarkerTopicResult27.Encode` -/
def WritableTxnMarkerTopicResult27.encode (version : Int16) (t : WritableTxnMarkerTopicResult27) : Encoder → Encoder :=
    (·.putString t.Name) ;;
    Encoder.putStructs (WritableTxnMarkerPartitionResult27.encode version) t.Partitions

/-- message/messages.gen.go:7292-7312 `WritableTxnMarkerTopicResult27.Decode`; the second argument is the receiver. -/
def WritableTxnMarkerTopicResult27.decode (version : Int16) : WritableTxnMarkerTopicResult27 → Dec WritableTxnMarkerTopicResult27 :=
    Dec.field Dec.string (fun t x => { t with Name := x }) ;>
    Dec.fieldStructs (WritableTxnMarkerPartitionResult27.decode version {}) (·.Partitions) (fun t x => { t with Partitions := x })

/-- The type `WritableTxnMarkerTopicResult27` with its methods. -/
def WritableTxnMarkerTopicResult27.type : MsgType :=
  { name := "WritableTxnMarkerTopicResult27", T := WritableTxnMarkerTopicResult27, zero := {}, size := WritableTxnMarkerTopicResult27.size, encode := WritableTxnMarkerTopicResult27.encode,
    decode := WritableTxnMarkerTopicResult27.decode }

/-- message/messages.gen.go:7214-7217 `type WritableTxnMarkerResult27 struct`; the defaults are the Go zero values. -/
@[ext] structure WritableTxnMarkerResult27 where
  ProducerId : Int64 := 0
  Topics : Slice WritableTxnMarkerTopicResult27 := none

/-- message/messages.gen.go:7220-7228 `WritableTxnMarkerResult27.Size` -/
def WritableTxnMarkerResult27.size (version : Int16) (t : WritableTxnMarkerResult27) : Int32 :=
   (Sizeof.add Sizeof.int64 ;;
    Sizeof.structs (WritableTxnMarkerTopicResult27.size version) t.Topics) 0

/-- message/messages.gen.go:7231-7239 `WritableTxnMarkerResult27.Encode` -/
def WritableTxnMarkerResult27.encode (version : Int16) (t : WritableTxnMarkerResult27) : Encoder → Encoder :=
    (·.putInt64 t.ProducerId) ;;
    Encoder.putStructs (WritableTxnMarkerTopicResult27.encode version) t.Topics

/-- message/messages.gen.go:7242-7262 `WritableTxnMarkerResult27.Decode`; the second argument is the receiver. -/
def WritableTxnMarkerResult27.decode (version : Int16) : WritableTxnMarkerResult27 → Dec WritableTxnMarkerResult27 :=
    Dec.field Dec.int64 (fun t x => { t with ProducerId := x }) ;>
    Dec.fieldStructs (WritableTxnMarkerTopicResult27.decode version {}) (·.Topics) (fun t x => { t with Topics := x })

/-- The type `WritableTxnMarkerResult27` with its methods. -/
def WritableTxnMarkerResult27.type : MsgType :=
  { name := "WritableTxnMarkerResult27", T := WritableTxnMarkerResult27, zero := {}, size := WritableTxnMarkerResult27.size, encode := WritableTxnMarkerResult27.encode,
    decode := WritableTxnMarkerResult27.decode }

/-- message/messages.gen.go:7171-7173 `type WriteTxnMarkersResponse struct`; the defaults are the Go zero values. -/
@[ext] structure WriteTxnMarkersResponse where
  Markers : Slice WritableTxnMarkerResult27 := none

/-- message/messages.gen.go:7176-7183 `WriteTxnMarkersResponse.Size` -/
def WriteTxnMarkersResponse.size (version : Int16) (t : WriteTxnMarkersResponse) : Int32 :=
   (Sizeof.structs (WritableTxnMarkerResult27.size version) t.Markers) 0

/-- message/messages.gen.go:7186-7193 `WriteTxnMarkersResponse.Encode` -/
def WriteTxnMarkersResponse.encode (version : Int16) (t : WriteTxnMarkersResponse) : Encoder → Encoder :=
    Encoder.putStructs (WritableTxnMarkerResult27.encode version) t.Markers

/-- message/messages.gen.go:7196-7212 `WriteTxnMarkersResponse.Decode`; the second argument is the receiver. -/
def WriteTxnMarkersResponse.decode (version : Int16) : WriteTxnMarkersResponse → Dec WriteTxnMarkersResponse :=
    Dec.fieldStructs (WritableTxnMarkerResult27.decode version {}) (·.Markers) (fun t x => { t with Markers := x })

/-- The type `WriteTxnMarkersResponse` with its methods. -/
def WriteTxnMarkersResponse.type : MsgType :=
  { name := "WriteTxnMarkersResponse", T := WriteTxnMarkersResponse, zero := {}, size := WriteTxnMarkersResponse.size, encode := WriteTxnMarkersResponse.encode,
    decode := WriteTxnMarkersResponse.decode }

end Kafka.Msg
