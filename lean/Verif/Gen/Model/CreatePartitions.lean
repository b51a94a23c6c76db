import Verif.Message.Steps
/-!
Generated by tools/gen_messages.py from message/messages.gen.go: model of the CreatePartitions messages.
-/
namespace Kafka.Msg

/-- message/messages.gen.go:9787-9789 `type CreatePartitionsAssignment37 struct`; the defaults are the Go zero values. -/
@[ext] structure CreatePartitionsAssignment37 where
  BrokerIds : Slice Int32 := none

/-- message/messages.gen.go:9792-9796 `CreatePartitionsAssignment37.Size` -/
def CreatePartitionsAssignment37.size (_version : Int16) (t : CreatePartitionsAssignment37) : Int32 :=
   (Sizeof.add (Sizeof.int32Array t.BrokerIds)) 0

/-- message/messages.gen.go:9799-9801 `CreatePartitionsAssignment37.Encode` -/
def CreatePartitionsAssignment37.encode (_version : Int16) (t : CreatePartitionsAssignment37) : Encoder → Encoder :=
    (·.putInt32Array t.BrokerIds)

/-- message/messages.gen.go:9804-9811 `CreatePartitionsAssignment37.Decode`; the second argument is the receiver. -/
def CreatePartitionsAssignment37.decode (_version : Int16) : CreatePartitionsAssignment37 → Dec CreatePartitionsAssignment37 :=
    Dec.field Dec.int32Array (fun t x => { t with BrokerIds := x })

/-- The type `CreatePartitionsAssignment37` with its methods. -/
def CreatePartitionsAssignment37.type : MsgType :=
  { name := "CreatePartitionsAssignment37", T := CreatePartitionsAssignment37, zero := {}, size := CreatePartitionsAssignment37.size, encode := CreatePartitionsAssignment37.encode,
    decode := CreatePartitionsAssignment37.decode }

/-- message/messages.gen.go:9730-9734 `type CreatePartitionsTopic37 struct`; the defaults are the Go zero values. -/
@[ext] structure CreatePartitionsTopic37 where
  Name : GoString := []
  Count : Int32 := 0
  Assignments : Slice CreatePartitionsAssignment37 := none

/-- message/messages.gen.go:9737-9746 `CreatePartitionsTopic37.Size` -/
def CreatePartitionsTopic37.size (version : Int16) (t : CreatePartitionsTopic37) : Int32 :=
   (Sizeof.add (Sizeof.string t.Name) ;;
    Sizeof.add Sizeof.int32 ;;
    Sizeof.structs (CreatePartitionsAssignment37.size version) t.Assignments) 0

/-- message/messages.gen.go:9749-9758 `CreatePartitionsTopic37.Encode` -/
def CreatePartitionsTopic37.encode (version : Int16) (t : CreatePartitionsTopic37) : Encoder → Encoder :=
    (·.putString t.Name) ;;
    (·.putInt32 t.Count) ;;
    Encoder.putStructs (CreatePartitionsAssignment37.encode version) t.Assignments

/-- message/messages.gen.go:9761-9785 `CreatePartitionsTopic37.Decode`; the second argument is the receiver. -/
def CreatePartitionsTopic37.decode (version : Int16) : CreatePartitionsTopic37 → Dec CreatePartitionsTopic37 :=
    Dec.field Dec.string (fun t x => { t with Name := x }) ;>
    Dec.field Dec.int32 (fun t x => { t with Count := x }) ;>
    Dec.fieldStructs (CreatePartitionsAssignment37.decode version {}) (·.Assignments) (fun t x => { t with Assignments := x })

/-- The type `CreatePartitionsTopic37` with its methods. -/
def CreatePartitionsTopic37.type : MsgType :=
  { name := "CreatePartitionsTopic37", T := CreatePartitionsTopic37, zero := {}, size := CreatePartitionsTopic37.size, encode := CreatePartitionsTopic37.encode,
    decode := CreatePartitionsTopic37.decode }

/-- message/messages.gen.go:9673-9677 `type CreatePartitionsRequest struct`; the defaults are the Go zero values. -/
@[ext] structure CreatePartitionsRequest where
  Topics : Slice CreatePartitionsTopic37 := none
  TimeoutMs : Int32 := 0
  ValidateOnly : Bool := false

/-- message/messages.gen.go:9680-9689 `CreatePartitionsRequest.Size` -/
def CreatePartitionsRequest.size (version : Int16) (t : CreatePartitionsRequest) : Int32 :=
   (Sizeof.structs (CreatePartitionsTopic37.size version) t.Topics ;;
    Sizeof.add Sizeof.int32 ;;
    Sizeof.add Sizeof.bool) 0

/-- message/messages.gen.go:9692-9701 `CreatePartitionsRequest.Encode` -/
def CreatePartitionsRequest.encode (version : Int16) (t : CreatePartitionsRequest) : Encoder → Encoder :=
    Encoder.putStructs (CreatePartitionsTopic37.encode version) t.Topics ;;
    (·.putInt32 t.TimeoutMs) ;;
    (·.putBool t.ValidateOnly)

/-- message/messages.gen.go:9704-9728 `CreatePartitionsRequest.Decode`; the second argument is the receiver. -/
def CreatePartitionsRequest.decode (version : Int16) : CreatePartitionsRequest → Dec CreatePartitionsRequest :=
    Dec.fieldStructs (CreatePartitionsTopic37.decode version {}) (·.Topics) (fun t x => { t with Topics := x }) ;>
    Dec.field Dec.int32 (fun t x => { t with TimeoutMs := x }) ;>
    Dec.field Dec.bool (fun t x => { t with ValidateOnly := x })

/-- The type `CreatePartitionsRequest` with its methods. -/
def CreatePartitionsRequest.type : MsgType :=
  { name := "CreatePartitionsRequest", T := CreatePartitionsRequest, zero := {}, size := CreatePartitionsRequest.size, encode := CreatePartitionsRequest.encode,
    decode := CreatePartitionsRequest.decode }

/-- message/messages.gen.go:9864-9868 `type CreatePartitionsTopicResult37 struct`; the defaults are the Go zero values. -/
@[ext] structure CreatePartitionsTopicResult37 where
  Name : GoString := []
  ErrorCode : Int16 := 0
  ErrorMessage : GoString := []

/-- message/messages.gen.go:9871-9877 `CreatePartitionsTopicResult37.Size` -/
def CreatePartitionsTopicResult37.size (_version : Int16) (t : CreatePartitionsTopicResult37) : Int32 :=
   (Sizeof.add (Sizeof.string t.Name) ;;
    Sizeof.add Sizeof.int16 ;;
    Sizeof.add (Sizeof.string t.ErrorMessage)) 0

/-- message/messages.gen.go:9880-9884 `CreatePartitionsTopicResult37.Encode` -/
def CreatePartitionsTopicResult37.encode (_version : Int16) (t : CreatePartitionsTopicResult37) : Encoder → Encoder :=
    (·.putString t.Name) ;;
    (·.putInt16 t.ErrorCode) ;;
    (·.putString t.ErrorMessage)

/-- message/messages.gen.go:9887-9902 `CreatePartitionsTopicResult37.Decode`; the second argument is the receiver. -/
def CreatePartitionsTopicResult37.decode (_version : Int16) : CreatePartitionsTopicResult37 → Dec CreatePartitionsTopicResult37 :=
    Dec.field Dec.string (fun t x => { t with Name := x }) ;>
    Dec.field Dec.int16 (fun t x => { t with ErrorCode := x }) ;>
    Dec.field Dec.string (fun t x => { t with ErrorMessage := x })

/-- The type `CreatePartitionsTopicResult37` with its methods. -/
def CreatePartitionsTopicResult37.type : MsgType :=
  { name := "CreatePartitionsTopicResult37", T := CreatePartitionsTopicResult37, zero := {}, size := CreatePartitionsTopicResult37.size, encode := CreatePartitionsTopicResult37.encode,
    decode := CreatePartitionsTopicResult37.decode }

/-- message/messages.gen.go:9814-9817 `type CreatePartitionsResponse struct`; the defaults are the Go zero values. -/
@[ext] structure CreatePartitionsResponse where
  ThrottleTimeMs : Int32 := 0
  Results : Slice CreatePartitionsTopicResult37 := none

/-- message/messages.gen.go:9820-9828 `CreatePartitionsResponse.Size` -/
def CreatePartitionsResponse.size (version : Int16) (t : CreatePartitionsResponse) : Int32 :=
   (Sizeof.add Sizeof.int32 ;;
    Sizeof.structs (CreatePartitionsTopicResult37.size version) t.Results) 0

/-- message/messages.gen.go:9831-9839 `CreatePartitionsResponse.Encode` -/
def CreatePartitionsResponse.encode (version : Int16) (t : CreatePartitionsResponse) : Encoder → Encoder :=
    (·.putInt32 t.ThrottleTimeMs) ;;
    Encoder.putStructs (CreatePartitionsTopicResult37.encode version) t.Results

/-- message/messages.gen.go:9842-9862 `CreatePartitionsResponse.Decode`; the second argument is the receiver. -/
def CreatePartitionsResponse.decode (version : Int16) : CreatePartitionsResponse → Dec CreatePartitionsResponse :=
    Dec.field Dec.int32 (fun t x => { t with ThrottleTimeMs := x }) ;>
    Dec.fieldStructs (CreatePartitionsTopicResult37.decode version {}) (·.Results) (fun t x => { t with Results := x })

/-- The type `CreatePartitionsResponse` with its methods. -/
def CreatePartitionsResponse.type : MsgType :=
  { name := "CreatePartitionsResponse", T := CreatePartitionsResponse, zero := {}, size := CreatePartitionsResponse.size, encode := CreatePartitionsResponse.encode,
    decode := CreatePartitionsResponse.decode }

end Kafka.Msg
