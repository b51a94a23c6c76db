import Verif.Message.Steps
/-!
Generated by tools/gen_messages.py from message/messages.gen.go: model of the UpdateMetadata messages.
-/
namespace Kafka.Msg

/-- message/messages.gen.go:3042-3052 `type UpdateMetadataPartitionState6 struct`; the defaults are the Go zero values. -/
@[ext] structure UpdateMetadataPartitionState6 where
  TopicName : GoString := []
  PartitionIndex : Int32 := 0
  ControllerEpoch : Int32 := 0
  Leader : Int32 := 0
  LeaderEpoch : Int32 := 0
  Isr : Slice Int32 := none
  ZkVersion : Int32 := 0
  Replicas : Slice Int32 := none
  OfflineReplicas : Slice Int32 := none

/-- message/messages.gen.go:3055-3071 `UpdateMetadataPartitionState6.Size` -/
def UpdateMetadataPartitionState6.size (version : Int16) (t : UpdateMetadataPartitionState6) : Int32 :=
   (onlyIf (version ≥ 0 ∧ version ≤ 4) (Sizeof.add (Sizeof.string t.TopicName)) ;;
    Sizeof.add Sizeof.int32 ;;
    Sizeof.add Sizeof.int32 ;;
    Sizeof.add Sizeof.int32 ;;
    Sizeof.add Sizeof.int32 ;;
    Sizeof.add (Sizeof.int32Array t.Isr) ;;
    Sizeof.add Sizeof.int32 ;;
    Sizeof.add (Sizeof.int32Array t.Replicas) ;;
    onlyIf (version ≥ 4) (Sizeof.add (Sizeof.int32Array t.OfflineReplicas))) 0

/-- message/messages.gen.go:3074-3088 `UpdateMetadataPartitionState6.Encode` -/
def UpdateMetadataPartitionState6.encode (version : Int16) (t : UpdateMetadataPartitionState6) : Encoder → Encoder :=
    onlyIf (version ≥ 0 ∧ version ≤ 4) (·.putString t.TopicName) ;;
    (·.putInt32 t.PartitionIndex) ;;
    (·.putInt32 t.ControllerEpoch) ;;
    (·.putInt32 t.Leader) ;;
    (·.putInt32 t.LeaderEpoch) ;;
    (·.putInt32Array t.Isr) ;;
    (·.putInt32 t.ZkVersion) ;;
    (·.putInt32Array t.Replicas) ;;
    onlyIf (version ≥ 4) (·.putInt32Array t.OfflineReplicas)

/-- message/messages.gen.go:3091-3134 `UpdateMetadataPartitionState6.Decode`; the second argument is the receiver. -/
def UpdateMetadataPartitionState6.decode (version : Int16) : UpdateMetadataPartitionState6 → Dec UpdateMetadataPartitionState6 :=
    Dec.onlyIf (version ≥ 0 ∧ version ≤ 4) (Dec.field Dec.string (fun t x => { t with TopicName := x })) ;>
    Dec.field Dec.int32 (fun t x => { t with PartitionIndex := x }) ;>
    Dec.field Dec.int32 (fun t x => { t with ControllerEpoch := x }) ;>
    Dec.field Dec.int32 (fun t x => { t with Leader := x }) ;>
    Dec.field Dec.int32 (fun t x => { t with LeaderEpoch := x }) ;>
    Dec.field Dec.int32Array (fun t x => { t with Isr := x }) ;>
    Dec.field Dec.int32 (fun t x => { t with ZkVersion := x }) ;>
    Dec.field Dec.int32Array (fun t x => { t with Replicas := x }) ;>
    Dec.onlyIf (version ≥ 4) (Dec.field Dec.int32Array (fun t x => { t with OfflineReplicas := x }))

/-- The type `UpdateMetadataPartitionState6` with its methods. -/
def UpdateMetadataPartitionState6.type : MsgType :=
  { name := "UpdateMetadataPartitionState6", T := UpdateMetadataPartitionState6, zero := {}, size := UpdateMetadataPartitionState6.size, encode := UpdateMetadataPartitionState6.encode,
    decode := UpdateMetadataPartitionState6.decode }

/-- message/messages.gen.go:2814-2817 `type UpdateMetadataTopicState6 struct`; the defaults are the Go zero values. -/
@[ext] structure UpdateMetadataTopicState6 where
  TopicName : GoString := []
  PartitionStates : Slice UpdateMetadataPartitionState6 := none

/-- message/messages.gen.go:2820-2832 `UpdateMetadataTopicState6.Size` -/
def UpdateMetadataTopicState6.size (version : Int16) (t : UpdateMetadataTopicState6) : Int32 :=
   (onlyIf (version ≥ 5) (Sizeof.add (Sizeof.string t.TopicName)) ;;
    onlyIf (version ≥ 5) (Sizeof.structs (UpdateMetadataPartitionState6.size version) t.PartitionStates)) 0

/-- message/messages.gen.go:2835-2847 `UpdateMetadataTopicState6.Encode` -/
def UpdateMetadataTopicState6.encode (version : Int16) (t : UpdateMetadataTopicState6) : Encoder → Encoder :=
    onlyIf (version ≥ 5) (·.putString t.TopicName) ;;
    onlyIf (version ≥ 5) (Encoder.putStructs (UpdateMetadataPartitionState6.encode version) t.PartitionStates)

/-- message/messages.gen.go:2850-2874 `UpdateMetadataTopicState6.Decode`; the second argument is the receiver. -/
def UpdateMetadataTopicState6.decode (version : Int16) : UpdateMetadataTopicState6 → Dec UpdateMetadataTopicState6 :=
    Dec.onlyIf (version ≥ 5) (Dec.field Dec.string (fun t x => { t with TopicName := x })) ;>
    Dec.onlyIf (version ≥ 5) (Dec.fieldStructs (UpdateMetadataPartitionState6.decode version {}) (·.PartitionStates) (fun t x => { t with PartitionStates := x }))

/-- The type `UpdateMetadataTopicState6` with its methods. -/
def UpdateMetadataTopicState6.type : MsgType :=
  { name := "UpdateMetadataTopicState6", T := UpdateMetadataTopicState6, zero := {}, size := UpdateMetadataTopicState6.size, encode := UpdateMetadataTopicState6.encode,
    decode := UpdateMetadataTopicState6.decode }

/-- message/messages.gen.go:2971-2976 `type UpdateMetadataEndpoint6 struct`; the defaults are the Go zero values. -/
@[ext] structure UpdateMetadataEndpoint6 where
  Port : Int32 := 0
  Host : GoString := []
  Listener : GoString := []
  SecurityProtocol : Int16 := 0

/-- message/messages.gen.go:2979-2994 `UpdateMetadataEndpoint6.Size` -/
def UpdateMetadataEndpoint6.size (version : Int16) (t : UpdateMetadataEndpoint6) : Int32 :=
   (onlyIf (version ≥ 1) (Sizeof.add Sizeof.int32) ;;
    onlyIf (version ≥ 1) (Sizeof.add (Sizeof.string t.Host)) ;;
    onlyIf (version ≥ 3) (Sizeof.add (Sizeof.string t.Listener)) ;;
    onlyIf (version ≥ 1) (Sizeof.add Sizeof.int16)) 0

/-- message/messages.gen.go:2997-3010 `UpdateMetadataEndpoint6.Encode` -/
def UpdateMetadataEndpoint6.encode (version : Int16) (t : UpdateMetadataEndpoint6) : Encoder → Encoder :=
    onlyIf (version ≥ 1) (·.putInt32 t.Port) ;;
    onlyIf (version ≥ 1) (·.putString t.Host) ;;
    onlyIf (version ≥ 3) (·.putString t.Listener) ;;
    onlyIf (version ≥ 1) (·.putInt16 t.SecurityProtocol)

/-- message/messages.gen.go:3013-3040 `UpdateMetadataEndpoint6.Decode`; the second argument is the receiver. -/
def UpdateMetadataEndpoint6.decode (version : Int16) : UpdateMetadataEndpoint6 → Dec UpdateMetadataEndpoint6 :=
    Dec.onlyIf (version ≥ 1) (Dec.field Dec.int32 (fun t x => { t with Port := x })) ;>
    Dec.onlyIf (version ≥ 1) (Dec.field Dec.string (fun t x => { t with Host := x })) ;>
    Dec.onlyIf (version ≥ 3) (Dec.field Dec.string (fun t x => { t with Listener := x })) ;>
    Dec.onlyIf (version ≥ 1) (Dec.field Dec.int16 (fun t x => { t with SecurityProtocol := x }))

/-- The type `UpdateMetadataEndpoint6` with its methods. -/
def UpdateMetadataEndpoint6.type : MsgType :=
  { name := "UpdateMetadataEndpoint6", T := UpdateMetadataEndpoint6, zero := {}, size := UpdateMetadataEndpoint6.size, encode := UpdateMetadataEndpoint6.encode,
    decode := UpdateMetadataEndpoint6.decode }

/-- message/messages.gen.go:2876-2882 `type UpdateMetadataBroker6 struct`; the defaults are the Go zero values. -/
@[ext] structure UpdateMetadataBroker6 where
  Id : Int32 := 0
  V0Host : GoString := []
  V0Port : Int32 := 0
  Endpoints : Slice UpdateMetadataEndpoint6 := none
  Rack : GoString := []

/-- message/messages.gen.go:2885-2904 `UpdateMetadataBroker6.Size` -/
def UpdateMetadataBroker6.size (version : Int16) (t : UpdateMetadataBroker6) : Int32 :=
   (Sizeof.add Sizeof.int32 ;;
    onlyIf (version ≥ 0 ∧ version ≤ 0) (Sizeof.add (Sizeof.string t.V0Host)) ;;
    onlyIf (version ≥ 0 ∧ version ≤ 0) (Sizeof.add Sizeof.int32) ;;
    onlyIf (version ≥ 1) (Sizeof.structs (UpdateMetadataEndpoint6.size version) t.Endpoints) ;;
    onlyIf (version ≥ 2) (Sizeof.add (Sizeof.string t.Rack))) 0

/-- message/messages.gen.go:2907-2926 `UpdateMetadataBroker6.Encode` -/
def UpdateMetadataBroker6.encode (version : Int16) (t : UpdateMetadataBroker6) : Encoder → Encoder :=
    (·.putInt32 t.Id) ;;
    onlyIf (version ≥ 0 ∧ version ≤ 0) (·.putString t.V0Host) ;;
    onlyIf (version ≥ 0 ∧ version ≤ 0) (·.putInt32 t.V0Port) ;;
    onlyIf (version ≥ 1) (Encoder.putStructs (UpdateMetadataEndpoint6.encode version) t.Endpoints) ;;
    onlyIf (version ≥ 2) (·.putString t.Rack)

/-- message/messages.gen.go:2929-2969 `UpdateMetadataBroker6.Decode`; the second argument is the receiver. -/
def UpdateMetadataBroker6.decode (version : Int16) : UpdateMetadataBroker6 → Dec UpdateMetadataBroker6 :=
    Dec.field Dec.int32 (fun t x => { t with Id := x }) ;>
    Dec.onlyIf (version ≥ 0 ∧ version ≤ 0) (Dec.field Dec.string (fun t x => { t with V0Host := x })) ;>
    Dec.onlyIf (version ≥ 0 ∧ version ≤ 0) (Dec.field Dec.int32 (fun t x => { t with V0Port := x })) ;>
    Dec.onlyIf (version ≥ 1) (Dec.fieldStructs (UpdateMetadataEndpoint6.decode version {}) (·.Endpoints) (fun t x => { t with Endpoints := x })) ;>
    Dec.onlyIf (version ≥ 2) (Dec.field Dec.string (fun t x => { t with Rack := x }))

/-- The type `UpdateMetadataBroker6` with its methods. -/
def UpdateMetadataBroker6.type : MsgType :=
  { name := "UpdateMetadataBroker6", T := UpdateMetadataBroker6, zero := {}, size := UpdateMetadataBroker6.size, encode := UpdateMetadataBroker6.encode,
    decode := UpdateMetadataBroker6.decode }

/-- message/messages.gen.go:2684-2691 `type UpdateMetadataRequest struct`; the defaults are the Go zero values. -/
@[ext] structure UpdateMetadataRequest where
  ControllerId : Int32 := 0
  ControllerEpoch : Int32 := 0
  BrokerEpoch : Int64 := 0
  UngroupedPartitionStates : Slice UpdateMetadataPartitionState6 := none
  TopicStates : Slice UpdateMetadataTopicState6 := none
  LiveBrokers : Slice UpdateMetadataBroker6 := none

/-- message/messages.gen.go:2694-2718 `UpdateMetadataRequest.Size` -/
def UpdateMetadataRequest.size (version : Int16) (t : UpdateMetadataRequest) : Int32 :=
   (Sizeof.add Sizeof.int32 ;;
    Sizeof.add Sizeof.int32 ;;
    onlyIf (version ≥ 5) (Sizeof.add Sizeof.int64) ;;
    onlyIf (version ≥ 0 ∧ version ≤ 4) (Sizeof.structs (UpdateMetadataPartitionState6.size version) t.UngroupedPartitionStates) ;;
    onlyIf (version ≥ 5) (Sizeof.structs (UpdateMetadataTopicState6.size version) t.TopicStates) ;;
    Sizeof.structs (UpdateMetadataBroker6.size version) t.LiveBrokers) 0

/-- message/messages.gen.go:2721-2749 `UpdateMetadataRequest.Encode` -/
def UpdateMetadataRequest.encode (version : Int16) (t : UpdateMetadataRequest) : Encoder → Encoder :=
    (·.putInt32 t.ControllerId) ;;
    (·.putInt32 t.ControllerEpoch) ;;
    onlyIf (version ≥ 5) (·.putInt64 t.BrokerEpoch) ;;
    onlyIf (version ≥ 0 ∧ version ≤ 4) (Encoder.putStructs (UpdateMetadataPartitionState6.encode version) t.UngroupedPartitionStates) ;;
    onlyIf (version ≥ 5) (Encoder.putStructs (UpdateMetadataTopicState6.encode version) t.TopicStates) ;;
    Encoder.putStructs (UpdateMetadataBroker6.encode version) t.LiveBrokers

/-- message/messages.gen.go:2752-2812 `UpdateMetadataRequest.Decode`; the second argument is the receiver. -/
def UpdateMetadataRequest.decode (version : Int16) : UpdateMetadataRequest → Dec UpdateMetadataRequest :=
    Dec.field Dec.int32 (fun t x => { t with ControllerId := x }) ;>
    Dec.field Dec.int32 (fun t x => { t with ControllerEpoch := x }) ;>
    Dec.onlyIf (version ≥ 5) (Dec.field Dec.int64 (fun t x => { t with BrokerEpoch := x })) ;>
    Dec.onlyIf (version ≥ 0 ∧ version ≤ 4) (Dec.fieldStructs (UpdateMetadataPartitionState6.decode version {}) (·.UngroupedPartitionStates) (fun t x => { t with UngroupedPartitionStates := x })) ;>
    Dec.onlyIf (version ≥ 5) (Dec.fieldStructs (UpdateMetadataTopicState6.decode version {}) (·.TopicStates) (fun t x => { t with TopicStates := x })) ;>
    Dec.fieldStructs (UpdateMetadataBroker6.decode version {}) (·.LiveBrokers) (fun t x => { t with LiveBrokers := x })

/-- The type `UpdateMetadataRequest` with its methods. -/
def UpdateMetadataRequest.type : MsgType :=
  { name := "UpdateMetadataRequest", T := UpdateMetadataRequest, zero := {}, size := UpdateMetadataRequest.size, encode := UpdateMetadataRequest.encode,
    decode := UpdateMetadataRequest.decode }

/-- message/messages.gen.go:3137-3139 `type UpdateMetadataResponse struct`; the defaults are the Go zero values. -/
@[ext] structure UpdateMetadataResponse where
  ErrorCode : Int16 := 0

/-- message/messages.gen.go:3142-3146 `UpdateMetadataResponse.Size` -/
def UpdateMetadataResponse.size (_version : Int16) (_t : UpdateMetadataResponse) : Int32 :=
   (Sizeof.add Sizeof.int16) 0

/-- message/messages.gen.go:3149-3151 `UpdateMetadataResponse.Encode` -/
def UpdateMetadataResponse.encode (_version : Int16) (t : UpdateMetadataResponse) : Encoder → Encoder :=
    (·.putInt16 t.ErrorCode)

/-- message/messages.gen.go:3154-3161 `UpdateMetadataResponse.Decode`; the second argument is the receiver. -/
def UpdateMetadataResponse.decode (_version : Int16) : UpdateMetadataResponse → Dec UpdateMetadataResponse :=
    Dec.field Dec.int16 (fun t x => { t with ErrorCode := x })

/-- The type `UpdateMetadataResponse` with its methods. -/
def UpdateMetadataResponse.type : MsgType :=
  { name := "UpdateMetadataResponse", T := UpdateMetadataResponse, zero := {}, size := UpdateMetadataResponse.size, encode := UpdateMetadataResponse.encode,
    decode := UpdateMetadataResponse.decode }

end Kafka.Msg
