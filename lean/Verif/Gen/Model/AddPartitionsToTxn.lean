import Verif.Message.Steps
/-!
Generated by tools/gen_messages.py from message/messages.gen.go: model of the AddPartitionsToTxn messages.
-/
namespace Kafka.Msg

/-- message/messages.gen.go:6691-6694 `type AddPartitionsToTxnTopic24 struct`; the defaults are the Go zero values. -/
@[ext] structure AddPartitionsToTxnTopic24 where
  Name : GoString := []
  Partitions : Slice Int32 := none

/-- message/messages.gen.go:6697-6702 `AddPartitionsToTxnTopic24.Size` -/
def AddPartitionsToTxnTopic24.size (_version : Int16) (t : AddPartitionsToTxnTopic24) : Int32 :=
   (Sizeof.add (Sizeof.string t.Name) ;;
    Sizeof.add (Sizeof.int32Array t.Partitions)) 0

/-- message/messages.gen.go:6705-6708 `AddPartitionsToTxnTopic24.Encode` -/
def AddPartitionsToTxnTopic24.encode (_version : Int16) (t : AddPartitionsToTxnTopic24) : Encoder → Encoder :=
    (·.putString t.Name) ;;
    (·.putInt32Array t.Partitions)

/-- message/messages.gen.go:6711-6722 `AddPartitionsToTxnTopic24.Decode`; the second argument is the receiver. -/
def AddPartitionsToTxnTopic24.decode (_version : Int16) : AddPartitionsToTxnTopic24 → Dec AddPartitionsToTxnTopic24 :=
    Dec.field Dec.string (fun t x => { t with Name := x }) ;>
    Dec.field Dec.int32Array (fun t x => { t with Partitions := x })

/-- The type `AddPartitionsToTxnTopic24` with its methods. -/
def AddPartitionsToTxnTopic24.type : MsgType :=
  { name := "AddPartitionsToTxnTopic24", T := AddPartitionsToTxnTopic24, zero := {}, size := AddPartitionsToTxnTopic24.size, encode := AddPartitionsToTxnTopic24.encode,
    decode := AddPartitionsToTxnTopic24.decode }

/-- message/messages.gen.go:6627-6632 `type AddPartitionsToTxnRequest struct`; the defaults are the Go zero values. -/
@[ext] structure AddPartitionsToTxnRequest where
  TransactionalId : GoString := []
  ProducerId : Int64 := 0
  ProducerEpoch : Int16 := 0
  Topics : Slice AddPartitionsToTxnTopic24 := none

/-- message/messages.gen.go:6635-6645 `AddPartitionsToTxnRequest.Size` -/
def AddPartitionsToTxnRequest.size (version : Int16) (t : AddPartitionsToTxnRequest) : Int32 :=
   (Sizeof.add (Sizeof.string t.TransactionalId) ;;
    Sizeof.add Sizeof.int64 ;;
    Sizeof.add Sizeof.int16 ;;
    Sizeof.structs (AddPartitionsToTxnTopic24.size version) t.Topics) 0

/-- message/messages.gen.go:6648-6658 `AddPartitionsToTxnRequest.Encode` -/
def AddPartitionsToTxnRequest.encode (version : Int16) (t : AddPartitionsToTxnRequest) : Encoder → Encoder :=
    (·.putString t.TransactionalId) ;;
    (·.putInt64 t.ProducerId) ;;
    (·.putInt16 t.ProducerEpoch) ;;
    Encoder.putStructs (AddPartitionsToTxnTopic24.encode version) t.Topics

/-- message/messages.gen.go:6661-6689 `AddPartitionsToTxnRequest.Decode`; the second argument is the receiver. -/
def AddPartitionsToTxnRequest.decode (version : Int16) : AddPartitionsToTxnRequest → Dec AddPartitionsToTxnRequest :=
    Dec.field Dec.string (fun t x => { t with TransactionalId := x }) ;>
    Dec.field Dec.int64 (fun t x => { t with ProducerId := x }) ;>
    Dec.field Dec.int16 (fun t x => { t with ProducerEpoch := x }) ;>
    Dec.fieldStructs (AddPartitionsToTxnTopic24.decode version {}) (·.Topics) (fun t x => { t with Topics := x })

/-- The type `AddPartitionsToTxnRequest` with its methods. -/
def AddPartitionsToTxnRequest.type : MsgType :=
  { name := "AddPartitionsToTxnRequest", T := AddPartitionsToTxnRequest, zero := {}, size := AddPartitionsToTxnRequest.size, encode := AddPartitionsToTxnRequest.encode,
    decode := AddPartitionsToTxnRequest.decode }

/-- message/messages.gen.go:6825-6828 `type AddPartitionsToTxnPartitionResult24 struct`; the defaults are the Go zero values. -/
@[ext] structure AddPartitionsToTxnPartitionResult24 where
  PartitionIndex : Int32 := 0
  ErrorCode : Int16 := 0

/-- message/messages.gen.go:6831-6836 `AddPartitionsToTxnPartitionResult24.Size` -/
def AddPartitionsToTxnPartitionResult24.size (_version : Int16) (_t : AddPartitionsToTxnPartitionResult24) : Int32 :=
   (Sizeof.add Sizeof.int32 ;;
    Sizeof.add Sizeof.int16) 0

/-- message/messages.gen.go:6839-6842 `AddPartitionsToTxnPartitionResult24.Encode` -/
def AddPartitionsToTxnPartitionResult24.encode (_version : Int16) (t : AddPartitionsToTxnPartitionResult24) : Encoder → Encoder :=
    (·.putInt32 t.PartitionIndex) ;;
    (·.putInt16 t.ErrorCode)

/-- message/messages.gen.go:6845-6856 `AddPartitionsToTxnPartitionResult24.Decode`; the second argument is the receiver. -/
def AddPartitionsToTxnPartitionResult24.decode (_version : Int16) : AddPartitionsToTxnPartitionResult24 → Dec AddPartitionsToTxnPartitionResult24 :=
    Dec.field Dec.int32 (fun t x => { t with PartitionIndex := x }) ;>
    Dec.field Dec.int16 (fun t x => { t with ErrorCode := x })

/-- The type `AddPartitionsToTxnPartitionResult24` with its methods. -/
def AddPartitionsToTxnPartitionResult24.type : MsgType :=
  { name := "AddPartitionsToTxnPartitionResult24", T := AddPartitionsToTxnPartitionResult24, zero := {}, size := AddPartitionsToTxnPartitionResult24.size, encode := AddPartitionsToTxnPartitionResult24.encode,
    decode := AddPartitionsToTxnPartitionResult24.decode }

/-- message/messages.gen.go:6775-6778 `type AddPartitionsToTxnTopicResult24 struct`; the defaults are the Go zero values. -/
@[ext] structure AddPartitionsToTxnTopicResult24 where
  Name : GoString := []
  Results : Slice AddPartitionsToTxnPartitionResult24 := none

/-- message/messages.gen.go:6781-6789 `AddPartitionsToTxnTopicResult24.Size` -/
def AddPartitionsToTxnTopicResult24.size (version : Int16) (t : AddPartitionsToTxnTopicResult24) : Int32 :=
   (Sizeof.add (Sizeof.string t.Name) ;;
    Sizeof.structs (AddPartitionsToTxnPartitionResult24.size version) t.Results) 0

/-- message/messages.gen.go:6792-6800 `AddPartitionsToTxnTopicResult24.Encode` -/
def AddPartitionsToTxnTopicResult24.encode (version : Int16) (t : AddPartitionsToTxnTopicResult24) : Encoder → Encoder :=
    (·.putString t.Name) ;;
    Encoder.putStructs (AddPartitionsToTxnPartitionResult24.encode version) t.Results

/-- message/messages.gen.go:6803-6823 `AddPartitionsToTxnTopicResult24.Decode`; the second argument is the receiver. -/
def AddPartitionsToTxnTopicResult24.decode (version : Int16) : AddPartitionsToTxnTopicResult24 → Dec AddPartitionsToTxnTopicResult24 :=
    Dec.field Dec.string (fun t x => { t with Name := x }) ;>
    Dec.fieldStructs (AddPartitionsToTxnPartitionResult24.decode version {}) (·.Results) (fun t x => { t with Results := x })

/-- The type `AddPartitionsToTxnTopicResult24` with its methods. -/
def AddPartitionsToTxnTopicResult24.type : MsgType :=
  { name := "AddPartitionsToTxnTopicResult24", T := AddPartitionsToTxnTopicResult24, zero := {}, size := AddPartitionsToTxnTopicResult24.size, encode := AddPartitionsToTxnTopicResult24.encode,
    decode := AddPartitionsToTxnTopicResult24.decode }

/-- message/messages.gen.go:6725-6728 `type AddPartitionsToTxnResponse struct`; the defaults are the Go zero values. -/
@[ext] structure AddPartitionsToTxnResponse where
  ThrottleTimeMs : Int32 := 0
  Results : Slice AddPartitionsToTxnTopicResult24 := none

/-- message/messages.gen.go:6731-6739 `AddPartitionsToTxnResponse.Size` -/
def AddPartitionsToTxnResponse.size (version : Int16) (t : AddPartitionsToTxnResponse) : Int32 :=
   (Sizeof.add Sizeof.int32 ;;
    Sizeof.structs (AddPartitionsToTxnTopicResult24.size version) t.Results) 0

/-- message/messages.gen.go:6742-6750 `AddPartitionsToTxnResponse.Encode` -/
def AddPartitionsToTxnResponse.encode (version : Int16) (t : AddPartitionsToTxnResponse) : Encoder → Encoder :=
    (·.putInt32 t.ThrottleTimeMs) ;;
    Encoder.putStructs (AddPartitionsToTxnTopicResult24.encode version) t.Results

/-- message/messages.gen.go:6753-6773 `AddPartitionsToTxnResponse.Decode`; the second argument is the receiver. -/
def AddPartitionsToTxnResponse.decode (version : Int16) : AddPartitionsToTxnResponse → Dec AddPartitionsToTxnResponse :=
    Dec.field Dec.int32 (fun t x => { t with ThrottleTimeMs := x }) ;>
    Dec.fieldStructs (AddPartitionsToTxnTopicResult24.decode version {}) (·.Results) (fun t x => { t with Results := x })

/-- The type `AddPartitionsToTxnResponse` with its methods. -/
def AddPartitionsToTxnResponse.type : MsgType :=
  { name := "AddPartitionsToTxnResponse", T := AddPartitionsToTxnResponse, zero := {}, size := AddPartitionsToTxnResponse.size, encode := AddPartitionsToTxnResponse.encode,
    decode := AddPartitionsToTxnResponse.decode }

end Kafka.Msg
