import Verif.Message.Steps
/-!
Generated by tools/gen_messages.py from message/messages.gen.go: model of the StopReplica messages.
-/
namespace Kafka.Msg

/-- message/messages.gen.go:2502-2505 `type StopReplicaPartitionV05 struct`; the defaults are the Go zero values. -/
@[ext] structure StopReplicaPartitionV05 where
  TopicName : GoString := []
  PartitionIndex : Int32 := 0

/-- message/messages.gen.go:2508-2517 `StopReplicaPartitionV05.Size` -/
def StopReplicaPartitionV05.size (version : Int16) (t : StopReplicaPartitionV05) : Int32 :=
   (onlyIf (version ≥ 0 ∧ version ≤ 0) (Sizeof.add (Sizeof.string t.TopicName)) ;;
    onlyIf (version ≥ 0 ∧ version ≤ 0) (Sizeof.add Sizeof.int32)) 0

/-- message/messages.gen.go:2520-2527 `StopReplicaPartitionV05.Encode` -/
def StopReplicaPartitionV05.encode (version : Int16) (t : StopReplicaPartitionV05) : Encoder → Encoder :=
    onlyIf (version ≥ 0 ∧ version ≤ 0) (·.putString t.TopicName) ;;
    onlyIf (version ≥ 0 ∧ version ≤ 0) (·.putInt32 t.PartitionIndex)

/-- message/messages.gen.go:2530-2545 `StopReplicaPartitionV05.Decode`; the second argument is the receiver. -/
def StopReplicaPartitionV05.decode (version : Int16) : StopReplicaPartitionV05 → Dec StopReplicaPartitionV05 :=
    Dec.onlyIf (version ≥ 0 ∧ version ≤ 0) (Dec.field Dec.string (fun t x => { t with TopicName := x })) ;>
    Dec.onlyIf (version ≥ 0 ∧ version ≤ 0) (Dec.field Dec.int32 (fun t x => { t with PartitionIndex := x }))

/-- The type `StopReplicaPartitionV05` with its methods. -/
def StopReplicaPartitionV05.type : MsgType :=
  { name := "StopReplicaPartitionV05", T := StopReplicaPartitionV05, zero := {}, size := StopReplicaPartitionV05.size, encode := StopReplicaPartitionV05.encode,
    decode := StopReplicaPartitionV05.decode }

/-- message/messages.gen.go:2547-2550 `type StopReplicaTopic5 struct`; the defaults are the Go zero values. -/
@[ext] structure StopReplicaTopic5 where
  Name : GoString := []
  PartitionIndexes : Slice Int32 := none

/-- message/messages.gen.go:2553-2562 `StopReplicaTopic5.Size` -/
def StopReplicaTopic5.size (version : Int16) (t : StopReplicaTopic5) : Int32 :=
   (onlyIf (version ≥ 1) (Sizeof.add (Sizeof.string t.Name)) ;;
    onlyIf (version ≥ 1) (Sizeof.add (Sizeof.int32Array t.PartitionIndexes))) 0

/-- message/messages.gen.go:2565-2572 `StopReplicaTopic5.Encode` -/
def StopReplicaTopic5.encode (version : Int16) (t : StopReplicaTopic5) : Encoder → Encoder :=
    onlyIf (version ≥ 1) (·.putString t.Name) ;;
    onlyIf (version ≥ 1) (·.putInt32Array t.PartitionIndexes)

/-- message/messages.gen.go:2575-2590 `StopReplicaTopic5.Decode`; the second argument is the receiver. -/
def StopReplicaTopic5.decode (version : Int16) : StopReplicaTopic5 → Dec StopReplicaTopic5 :=
    Dec.onlyIf (version ≥ 1) (Dec.field Dec.string (fun t x => { t with Name := x })) ;>
    Dec.onlyIf (version ≥ 1) (Dec.field Dec.int32Array (fun t x => { t with PartitionIndexes := x }))

/-- The type `StopReplicaTopic5` with its methods. -/
def StopReplicaTopic5.type : MsgType :=
  { name := "StopReplicaTopic5", T := StopReplicaTopic5, zero := {}, size := StopReplicaTopic5.size, encode := StopReplicaTopic5.encode,
    decode := StopReplicaTopic5.decode }

/-- message/messages.gen.go:2389-2396 `type StopReplicaRequest struct`; the defaults are the Go zero values. -/
@[ext] structure StopReplicaRequest where
  ControllerId : Int32 := 0
  ControllerEpoch : Int32 := 0
  BrokerEpoch : Int64 := 0
  DeletePartitions : Bool := false
  UngroupedPartitions : Slice StopReplicaPartitionV05 := none
  Topics : Slice StopReplicaTopic5 := none

/-- message/messages.gen.go:2399-2420 `StopReplicaRequest.Size` -/
def StopReplicaRequest.size (version : Int16) (t : StopReplicaRequest) : Int32 :=
   (Sizeof.add Sizeof.int32 ;;
    Sizeof.add Sizeof.int32 ;;
    onlyIf (version ≥ 1) (Sizeof.add Sizeof.int64) ;;
    Sizeof.add Sizeof.bool ;;
    onlyIf (version ≥ 0 ∧ version ≤ 0) (Sizeof.structs (StopReplicaPartitionV05.size version) t.UngroupedPartitions) ;;
    onlyIf (version ≥ 1) (Sizeof.structs (StopReplicaTopic5.size version) t.Topics)) 0

/-- message/messages.gen.go:2423-2446 `StopReplicaRequest.Encode` -/
def StopReplicaRequest.encode (version : Int16) (t : StopReplicaRequest) : Encoder → Encoder :=
    (·.putInt32 t.ControllerId) ;;
    (·.putInt32 t.ControllerEpoch) ;;
    onlyIf (version ≥ 1) (·.putInt64 t.BrokerEpoch) ;;
    (·.putBool t.DeletePartitions) ;;
    onlyIf (version ≥ 0 ∧ version ≤ 0) (Encoder.putStructs (StopReplicaPartitionV05.encode version) t.UngroupedPartitions) ;;
    onlyIf (version ≥ 1) (Encoder.putStructs (StopReplicaTopic5.encode version) t.Topics)

/-- message/messages.gen.go:2449-2500 `StopReplicaRequest.Decode`; the second argument is the receiver. -/
def StopReplicaRequest.decode (version : Int16) : StopReplicaRequest → Dec StopReplicaRequest :=
    Dec.field Dec.int32 (fun t x => { t with ControllerId := x }) ;>
    Dec.field Dec.int32 (fun t x => { t with ControllerEpoch := x }) ;>
    Dec.onlyIf (version ≥ 1) (Dec.field Dec.int64 (fun t x => { t with BrokerEpoch := x })) ;>
    Dec.field Dec.bool (fun t x => { t with DeletePartitions := x }) ;>
    Dec.onlyIf (version ≥ 0 ∧ version ≤ 0) (Dec.fieldStructs (StopReplicaPartitionV05.decode version {}) (·.UngroupedPartitions) (fun t x => { t with UngroupedPartitions := x })) ;>
    Dec.onlyIf (version ≥ 1) (Dec.fieldStructs (StopReplicaTopic5.decode version {}) (·.Topics) (fun t x => { t with Topics := x }))

/-- The type `StopReplicaRequest` with its methods. -/
def StopReplicaRequest.type : MsgType :=
  { name := "StopReplicaRequest", T := StopReplicaRequest, zero := {}, size := StopReplicaRequest.size, encode := StopReplicaRequest.encode,
    decode := StopReplicaRequest.decode }

/-- message/messages.gen.go:2643-2647 `type StopReplicaPartitionError5 struct`; the defaults are the Go zero values. -/
@[ext] structure StopReplicaPartitionError5 where
  TopicName : GoString := []
  PartitionIndex : Int32 := 0
  ErrorCode : Int16 := 0

/-- message/messages.gen.go:2650-2656 `StopReplicaPartitionError5.Size` -/
def StopReplicaPartitionError5.size (_version : Int16) (t : StopReplicaPartitionError5) : Int32 :=
   (Sizeof.add (Sizeof.string t.TopicName) ;;
    Sizeof.add Sizeof.int32 ;;
    Sizeof.add Sizeof.int16) 0

/-- message/messages.gen.go:2659-2663 `StopReplicaPartitionError5.Encode` -/
def StopReplicaPartitionError5.encode (_version : Int16) (t : StopReplicaPartitionError5) : Encoder → Encoder :=
    (·.putString t.TopicName) ;;
    (·.putInt32 t.PartitionIndex) ;;
    (·.putInt16 t.ErrorCode)

/-- message/messages.gen.go:2666-2681 `StopReplicaPartitionError5.Decode`; the second argument is the receiver. -/
def StopReplicaPartitionError5.decode (_version : Int16) : StopReplicaPartitionError5 → Dec StopReplicaPartitionError5 :=
    Dec.field Dec.string (fun t x => { t with TopicName := x }) ;>
    Dec.field Dec.int32 (fun t x => { t with PartitionIndex := x }) ;>
    Dec.field Dec.int16 (fun t x => { t with ErrorCode := x })

/-- The type `StopReplicaPartitionError5` with its methods. -/
def StopReplicaPartitionError5.type : MsgType :=
  { name := "StopReplicaPartitionError5", T := StopReplicaPartitionError5, zero := {}, size := StopReplicaPartitionError5.size, encode := StopReplicaPartitionError5.encode,
    decode := StopReplicaPartitionError5.decode }

/-- message/messages.gen.go:2593-2596 `type StopReplicaResponse struct`; the defaults are the Go zero values. -/
@[ext] structure StopReplicaResponse where
  ErrorCode : Int16 := 0
  PartitionErrors : Slice StopReplicaPartitionError5 := none

/-- message/messages.gen.go:2599-2607 `StopReplicaResponse.Size` -/
def StopReplicaResponse.size (version : Int16) (t : StopReplicaResponse) : Int32 :=
   (Sizeof.add Sizeof.int16 ;;
    Sizeof.structs (StopReplicaPartitionError5.size version) t.PartitionErrors) 0

/-- message/messages.gen.go:2610-2618 `StopReplicaResponse.Encode` -/
def StopReplicaResponse.encode (version : Int16) (t : StopReplicaResponse) : Encoder → Encoder :=
    (·.putInt16 t.ErrorCode) ;;
    Encoder.putStructs (StopReplicaPartitionError5.encode version) t.PartitionErrors

/-- message/messages.gen.go:2621-2641 `StopReplicaResponse.Decode`; the second argument is the receiver. -/
def StopReplicaResponse.decode (version : Int16) : StopReplicaResponse → Dec StopReplicaResponse :=
    Dec.field Dec.int16 (fun t x => { t with ErrorCode := x }) ;>
    Dec.fieldStructs (StopReplicaPartitionError5.decode version {}) (·.PartitionErrors) (fun t x => { t with PartitionErrors := x })

/-- The type `StopReplicaResponse` with its methods. -/
def StopReplicaResponse.type : MsgType :=
  { name := "StopReplicaResponse", T := StopReplicaResponse, zero := {}, size := StopReplicaResponse.size, encode := StopReplicaResponse.encode,
    decode := StopReplicaResponse.decode }

end Kafka.Msg
