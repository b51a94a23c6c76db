import Verif.Message.Steps
/-!
Generated by tools/gen_messages.py from message/messages.gen.go: model of the ControlledShutdown messages.
-/
namespace Kafka.Msg

/-- message/messages.gen.go:3164-3167 `type ControlledShutdownRequest struct`; the defaults are the Go zero values. -/
@[ext] structure ControlledShutdownRequest where
  BrokerId : Int32 := 0
  BrokerEpoch : Int64 := 0

/-- message/messages.gen.go:3170-3177 `ControlledShutdownRequest.Size` -/
def ControlledShutdownRequest.size (version : Int16) (_t : ControlledShutdownRequest) : Int32 :=
   (Sizeof.add Sizeof.int32 ;;
    onlyIf (version ≥ 2) (Sizeof.add Sizeof.int64)) 0

/-- message/messages.gen.go:3180-3185 `ControlledShutdownRequest.Encode` -/
def ControlledShutdownRequest.encode (version : Int16) (t : ControlledShutdownRequest) : Encoder → Encoder :=
    (·.putInt32 t.BrokerId) ;;
    onlyIf (version ≥ 2) (·.putInt64 t.BrokerEpoch)

/-- message/messages.gen.go:3188-3201 `ControlledShutdownRequest.Decode`; the second argument is the receiver. -/
def ControlledShutdownRequest.decode (version : Int16) : ControlledShutdownRequest → Dec ControlledShutdownRequest :=
    Dec.field Dec.int32 (fun t x => { t with BrokerId := x }) ;>
    Dec.onlyIf (version ≥ 2) (Dec.field Dec.int64 (fun t x => { t with BrokerEpoch := x }))

/-- The type `ControlledShutdownRequest` with its methods. -/
def ControlledShutdownRequest.type : MsgType :=
  { name := "ControlledShutdownRequest", T := ControlledShutdownRequest, zero := {}, size := ControlledShutdownRequest.size, encode := ControlledShutdownRequest.encode,
    decode := ControlledShutdownRequest.decode }

/-- message/messages.gen.go:3254-3257 `type RemainingPartition7 struct`; the defaults are the Go zero values. -/
@[ext] structure RemainingPartition7 where
  TopicName : GoString := []
  PartitionIndex : Int32 := 0

/-- message/messages.gen.go:3260-3265 `RemainingPartition7.Size` -/
def RemainingPartition7.size (_version : Int16) (t : RemainingPartition7) : Int32 :=
   (Sizeof.add (Sizeof.string t.TopicName) ;;
    Sizeof.add Sizeof.int32) 0

/-- message/messages.gen.go:3268-3271 `RemainingPartition7.Encode` -/
def RemainingPartition7.encode (_version : Int16) (t : RemainingPartition7) : Encoder → Encoder :=
    (·.putString t.TopicName) ;;
    (·.putInt32 t.PartitionIndex)

/-- message/messages.gen.go:3274-3285 `RemainingPartition7.Decode`; the second argument is the receiver. -/
def RemainingPartition7.decode (_version : Int16) : RemainingPartition7 → Dec RemainingPartition7 :=
    Dec.field Dec.string (fun t x => { t with TopicName := x }) ;>
    Dec.field Dec.int32 (fun t x => { t with PartitionIndex := x })

/-- The type `RemainingPartition7` with its methods. -/
def RemainingPartition7.type : MsgType :=
  { name := "RemainingPartition7", T := RemainingPartition7, zero := {}, size := RemainingPartition7.size, encode := RemainingPartition7.encode,
    decode := RemainingPartition7.decode }

/-- message/messages.gen.go:3204-3207 `type ControlledShutdownResponse struct`; the defaults are the Go zero values. -/
@[ext] structure ControlledShutdownResponse where
  ErrorCode : Int16 := 0
  RemainingPartitions : Slice RemainingPartition7 := none

/-- message/messages.gen.go:3210-3218 `ControlledShutdownResponse.Size` -/
def ControlledShutdownResponse.size (version : Int16) (t : ControlledShutdownResponse) : Int32 :=
   (Sizeof.add Sizeof.int16 ;;
    Sizeof.structs (RemainingPartition7.size version) t.RemainingPartitions) 0

/-- message/messages.gen.go:3221-3229 `ControlledShutdownResponse.Encode` -/
def ControlledShutdownResponse.encode (version : Int16) (t : ControlledShutdownResponse) : Encoder → Encoder :=
    (·.putInt16 t.ErrorCode) ;;
    Encoder.putStructs (RemainingPartition7.encode version) t.RemainingPartitions

/-- message/messages.gen.go:3232-3252 `ControlledShutdownResponse.Decode`; the second argument is the receiver. -/
def ControlledShutdownResponse.decode (version : Int16) : ControlledShutdownResponse → Dec ControlledShutdownResponse :=
    Dec.field Dec.int16 (fun t x => { t with ErrorCode := x }) ;>
    Dec.fieldStructs (RemainingPartition7.decode version {}) (·.RemainingPartitions) (fun t x => { t with RemainingPartitions := x })

/-- The type `ControlledShutdownResponse` with its methods. -/
def ControlledShutdownResponse.type : MsgType :=
  { name := "ControlledShutdownResponse", T := ControlledShutdownResponse, zero := {}, size := ControlledShutdownResponse.size, encode := ControlledShutdownResponse.encode,
    decode := ControlledShutdownResponse.decode }

end Kafka.Msg
