import Verif.Message.Steps
/-!
Generated by tools/gen_messages.py from message/messages.gen.go: model of the LeaderAndIsr messages.
-/
namespace Kafka.Msg

/-- message/messages.gen.go:2177-2189 `type LeaderAndIsrPartitionState4 struct`; the defaults are the Go zero values. -/
@[ext] structure LeaderAndIsrPartitionState4 where
  TopicName : GoString := []
  PartitionIndex : Int32 := 0
  ControllerEpoch : Int32 := 0
  Leader : Int32 := 0
  LeaderEpoch : Int32 := 0
  Isr : Slice Int32 := none
  ZkVersion : Int32 := 0
  Replicas : Slice Int32 := none
  AddingReplicas : Slice Int32 := none
  RemovingReplicas : Slice Int32 := none
  IsNew : Bool := false

/-- message/messages.gen.go:2192-2214 `LeaderAndIsrPartitionState4.Size` -/
def LeaderAndIsrPartitionState4.size (version : Int16) (t : LeaderAndIsrPartitionState4) : Int32 :=
   (onlyIf (version ≥ 0 ∧ version ≤ 1) (Sizeof.add (Sizeof.string t.TopicName)) ;;
    Sizeof.add Sizeof.int32 ;;
    Sizeof.add Sizeof.int32 ;;
    Sizeof.add Sizeof.int32 ;;
    Sizeof.add Sizeof.int32 ;;
    Sizeof.add (Sizeof.int32Array t.Isr) ;;
    Sizeof.add Sizeof.int32 ;;
    Sizeof.add (Sizeof.int32Array t.Replicas) ;;
    onlyIf (version ≥ 3) (Sizeof.add (Sizeof.int32Array t.AddingReplicas)) ;;
    onlyIf (version ≥ 3) (Sizeof.add (Sizeof.int32Array t.RemovingReplicas)) ;;
    onlyIf (version ≥ 1) (Sizeof.add Sizeof.bool)) 0

/-- message/messages.gen.go:2217-2237 `LeaderAndIsrPartitionState4.Encode` -/
def LeaderAndIsrPartitionState4.encode (version : Int16) (t : LeaderAndIsrPartitionState4) : Encoder → Encoder :=
    onlyIf (version ≥ 0 ∧ version ≤ 1) (·.putString t.TopicName) ;;
    (·.putInt32 t.PartitionIndex) ;;
    (·.putInt32 t.ControllerEpoch) ;;
    (·.putInt32 t.Leader) ;;
    (·.putInt32 t.LeaderEpoch) ;;
    (·.putInt32Array t.Isr) ;;
    (·.putInt32 t.ZkVersion) ;;
    (·.putInt32Array t.Replicas) ;;
    onlyIf (version ≥ 3) (·.putInt32Array t.AddingReplicas) ;;
    onlyIf (version ≥ 3) (·.putInt32Array t.RemovingReplicas) ;;
    onlyIf (version ≥ 1) (·.putBool t.IsNew)

/-- message/messages.gen.go:2240-2295 `LeaderAndIsrPartitionState4.Decode`; the second argument is the receiver. -/
def LeaderAndIsrPartitionState4.decode (version : Int16) : LeaderAndIsrPartitionState4 → Dec LeaderAndIsrPartitionState4 :=
    Dec.onlyIf (version ≥ 0 ∧ version ≤ 1) (Dec.field Dec.string (fun t x => { t with TopicName := x })) ;>
    Dec.field Dec.int32 (fun t x => { t with PartitionIndex := x }) ;>
    Dec.field Dec.int32 (fun t x => { t with ControllerEpoch := x }) ;>
    Dec.field Dec.int32 (fun t x => { t with Leader := x }) ;>
    Dec.field Dec.int32 (fun t x => { t with LeaderEpoch := x }) ;>
    Dec.field Dec.int32Array (fun t x => { t with Isr := x }) ;>
    Dec.field Dec.int32 (fun t x => { t with ZkVersion := x }) ;>
    Dec.field Dec.int32Array (fun t x => { t with Replicas := x }) ;>
    Dec.onlyIf (version ≥ 3) (Dec.field Dec.int32Array (fun t x => { t with AddingReplicas := x })) ;>
    Dec.onlyIf (version ≥ 3) (Dec.field Dec.int32Array (fun t x => { t with RemovingReplicas := x })) ;>
    Dec.onlyIf (version ≥ 1) (Dec.field Dec.bool (fun t x => { t with IsNew := x }))

/-- The type `LeaderAndIsrPartitionState4` with its methods. -/
def LeaderAndIsrPartitionState4.type : MsgType :=
  { name := "LeaderAndIsrPartitionState4", T := LeaderAndIsrPartitionState4, zero := {}, size := LeaderAndIsrPartitionState4.size, encode := LeaderAndIsrPartitionState4.encode,
    decode := LeaderAndIsrPartitionState4.decode }

/-- message/messages.gen.go:2075-2078 `type LeaderAndIsrTopicState4 struct`; the defaults are the Go zero values. -/
@[ext] structure LeaderAndIsrTopicState4 where
  TopicName : GoString := []
  PartitionStates : Slice LeaderAndIsrPartitionState4 := none

/-- message/messages.gen.go:2081-2093 `LeaderAndIsrTopicState4.Size` -/
def LeaderAndIsrTopicState4.size (version : Int16) (t : LeaderAndIsrTopicState4) : Int32 :=
   (onlyIf (version ≥ 2) (Sizeof.add (Sizeof.string t.TopicName)) ;;
    onlyIf (version ≥ 2) (Sizeof.structs (LeaderAndIsrPartitionState4.size version) t.PartitionStates)) 0

/-- message/messages.gen.go:2096-2108 `LeaderAndIsrTopicState4.Encode` -/
def LeaderAndIsrTopicState4.encode (version : Int16) (t : LeaderAndIsrTopicState4) : Encoder → Encoder :=
    onlyIf (version ≥ 2) (·.putString t.TopicName) ;;
    onlyIf (version ≥ 2) (Encoder.putStructs (LeaderAndIsrPartitionState4.encode version) t.PartitionStates)

/-- message/messages.gen.go:2111-2135 `LeaderAndIsrTopicState4.Decode`; the second argument is the receiver. -/
def LeaderAndIsrTopicState4.decode (version : Int16) : LeaderAndIsrTopicState4 → Dec LeaderAndIsrTopicState4 :=
    Dec.onlyIf (version ≥ 2) (Dec.field Dec.string (fun t x => { t with TopicName := x })) ;>
    Dec.onlyIf (version ≥ 2) (Dec.fieldStructs (LeaderAndIsrPartitionState4.decode version {}) (·.PartitionStates) (fun t x => { t with PartitionStates := x }))

/-- The type `LeaderAndIsrTopicState4` with its methods. -/
def LeaderAndIsrTopicState4.type : MsgType :=
  { name := "LeaderAndIsrTopicState4", T := LeaderAndIsrTopicState4, zero := {}, size := LeaderAndIsrTopicState4.size, encode := LeaderAndIsrTopicState4.encode,
    decode := LeaderAndIsrTopicState4.decode }

/-- message/messages.gen.go:2137-2141 `type LeaderAndIsrLiveLeader4 struct`; the defaults are the Go zero values. -/
@[ext] structure LeaderAndIsrLiveLeader4 where
  BrokerId : Int32 := 0
  HostName : GoString := []
  Port : Int32 := 0

/-- message/messages.gen.go:2144-2150 `LeaderAndIsrLiveLeader4.Size` -/
def LeaderAndIsrLiveLeader4.size (_version : Int16) (t : LeaderAndIsrLiveLeader4) : Int32 :=
   (Sizeof.add Sizeof.int32 ;;
    Sizeof.add (Sizeof.string t.HostName) ;;
    Sizeof.add Sizeof.int32) 0

/-- message/messages.gen.go:2153-2157 `LeaderAndIsrLiveLeader4.Encode` -/
def LeaderAndIsrLiveLeader4.encode (_version : Int16) (t : LeaderAndIsrLiveLeader4) : Encoder → Encoder :=
    (·.putInt32 t.BrokerId) ;;
    (·.putString t.HostName) ;;
    (·.putInt32 t.Port)

/-- message/messages.gen.go:2160-2175 `LeaderAndIsrLiveLeader4.Decode`; the second argument is the receiver. -/
def LeaderAndIsrLiveLeader4.decode (_version : Int16) : LeaderAndIsrLiveLeader4 → Dec LeaderAndIsrLiveLeader4 :=
    Dec.field Dec.int32 (fun t x => { t with BrokerId := x }) ;>
    Dec.field Dec.string (fun t x => { t with HostName := x }) ;>
    Dec.field Dec.int32 (fun t x => { t with Port := x })

/-- The type `LeaderAndIsrLiveLeader4` with its methods. -/
def LeaderAndIsrLiveLeader4.type : MsgType :=
  { name := "LeaderAndIsrLiveLeader4", T := LeaderAndIsrLiveLeader4, zero := {}, size := LeaderAndIsrLiveLeader4.size, encode := LeaderAndIsrLiveLeader4.encode,
    decode := LeaderAndIsrLiveLeader4.decode }

/-- message/messages.gen.go:1945-1952 `type LeaderAndIsrRequest struct`; the defaults are the Go zero values. -/
@[ext] structure LeaderAndIsrRequest where
  ControllerId : Int32 := 0
  ControllerEpoch : Int32 := 0
  BrokerEpoch : Int64 := 0
  UngroupedPartitionStates : Slice LeaderAndIsrPartitionState4 := none
  TopicStates : Slice LeaderAndIsrTopicState4 := none
  LiveLeaders : Slice LeaderAndIsrLiveLeader4 := none

/-- message/messages.gen.go:1955-1979 `LeaderAndIsrRequest.Size` -/
def LeaderAndIsrRequest.size (version : Int16) (t : LeaderAndIsrRequest) : Int32 :=
   (Sizeof.add Sizeof.int32 ;;
    Sizeof.add Sizeof.int32 ;;
    onlyIf (version ≥ 2) (Sizeof.add Sizeof.int64) ;;
    onlyIf (version ≥ 0 ∧ version ≤ 1) (Sizeof.structs (LeaderAndIsrPartitionState4.size version) t.UngroupedPartitionStates) ;;
    onlyIf (version ≥ 2) (Sizeof.structs (LeaderAndIsrTopicState4.size version) t.TopicStates) ;;
    Sizeof.structs (LeaderAndIsrLiveLeader4.size version) t.LiveLeaders) 0

/-- message/messages.gen.go:1982-2010 `LeaderAndIsrRequest.Encode` -/
def LeaderAndIsrRequest.encode (version : Int16) (t : LeaderAndIsrRequest) : Encoder → Encoder :=
    (·.putInt32 t.ControllerId) ;;
    (·.putInt32 t.ControllerEpoch) ;;
    onlyIf (version ≥ 2) (·.putInt64 t.BrokerEpoch) ;;
    onlyIf (version ≥ 0 ∧ version ≤ 1) (Encoder.putStructs (LeaderAndIsrPartitionState4.encode version) t.UngroupedPartitionStates) ;;
    onlyIf (version ≥ 2) (Encoder.putStructs (LeaderAndIsrTopicState4.encode version) t.TopicStates) ;;
    Encoder.putStructs (LeaderAndIsrLiveLeader4.encode version) t.LiveLeaders

/-- message/messages.gen.go:2013-2073 `LeaderAndIsrRequest.Decode`; the second argument is the receiver. -/
def LeaderAndIsrRequest.decode (version : Int16) : LeaderAndIsrRequest → Dec LeaderAndIsrRequest :=
    Dec.field Dec.int32 (fun t x => { t with ControllerId := x }) ;>
    Dec.field Dec.int32 (fun t x => { t with ControllerEpoch := x }) ;>
    Dec.onlyIf (version ≥ 2) (Dec.field Dec.int64 (fun t x => { t with BrokerEpoch := x })) ;>
    Dec.onlyIf (version ≥ 0 ∧ version ≤ 1) (Dec.fieldStructs (LeaderAndIsrPartitionState4.decode version {}) (·.UngroupedPartitionStates) (fun t x => { t with UngroupedPartitionStates := x })) ;>
    Dec.onlyIf (version ≥ 2) (Dec.fieldStructs (LeaderAndIsrTopicState4.decode version {}) (·.TopicStates) (fun t x => { t with TopicStates := x })) ;>
    Dec.fieldStructs (LeaderAndIsrLiveLeader4.decode version {}) (·.LiveLeaders) (fun t x => { t with LiveLeaders := x })

/-- The type `LeaderAndIsrRequest` with its methods. -/
def LeaderAndIsrRequest.type : MsgType :=
  { name := "LeaderAndIsrRequest", T := LeaderAndIsrRequest, zero := {}, size := LeaderAndIsrRequest.size, encode := LeaderAndIsrRequest.encode,
    decode := LeaderAndIsrRequest.decode }

/-- message/messages.gen.go:2348-2352 `type LeaderAndIsrPartitionError4 struct`; the defaults are the Go zero values. -/
@[ext] structure LeaderAndIsrPartitionError4 where
  TopicName : GoString := []
  PartitionIndex : Int32 := 0
  ErrorCode : Int16 := 0

/-- message/messages.gen.go:2355-2361 `LeaderAndIsrPartitionError4.Size` -/
def LeaderAndIsrPartitionError4.size (_version : Int16) (t : LeaderAndIsrPartitionError4) : Int32 :=
   (Sizeof.add (Sizeof.string t.TopicName) ;;
    Sizeof.add Sizeof.int32 ;;
    Sizeof.add Sizeof.int16) 0

/-- message/messages.gen.go:2364-2368 `LeaderAndIsrPartitionError4.Encode` -/
def LeaderAndIsrPartitionError4.encode (_version : Int16) (t : LeaderAndIsrPartitionError4) : Encoder → Encoder :=
    (·.putString t.TopicName) ;;
    (·.putInt32 t.PartitionIndex) ;;
    (·.putInt16 t.ErrorCode)

/-- message/messages.gen.go:2371-2386 `LeaderAndIsrPartitionError4.Decode`; the second argument is the receiver. -/
def LeaderAndIsrPartitionError4.decode (_version : Int16) : LeaderAndIsrPartitionError4 → Dec LeaderAndIsrPartitionError4 :=
    Dec.field Dec.string (fun t x => { t with TopicName := x }) ;>
    Dec.field Dec.int32 (fun t x => { t with PartitionIndex := x }) ;>
    Dec.field Dec.int16 (fun t x => { t with ErrorCode := x })

/-- The type `LeaderAndIsrPartitionError4` with its methods. -/
def LeaderAndIsrPartitionError4.type : MsgType :=
  { name := "LeaderAndIsrPartitionError4", T := LeaderAndIsrPartitionError4, zero := {}, size := LeaderAndIsrPartitionError4.size, encode := LeaderAndIsrPartitionError4.encode,
    decode := LeaderAndIsrPartitionError4.decode }

/-- message/messages.gen.go:2298-2301 `type LeaderAndIsrResponse struct`; the defaults are the Go zero values. -/
@[ext] structure LeaderAndIsrResponse where
  ErrorCode : Int16 := 0
  PartitionErrors : Slice LeaderAndIsrPartitionError4 := none

/-- message/messages.gen.go:2304-2312 `LeaderAndIsrResponse.Size` -/
def LeaderAndIsrResponse.size (version : Int16) (t : LeaderAndIsrResponse) : Int32 :=
   (Sizeof.add Sizeof.int16 ;;
    Sizeof.structs (LeaderAndIsrPartitionError4.size version) t.PartitionErrors) 0

/-- message/messages.gen.go:2315-2323 `LeaderAndIsrResponse.Encode` -/
def LeaderAndIsrResponse.encode (version : Int16) (t : LeaderAndIsrResponse) : Encoder → Encoder :=
    (·.putInt16 t.ErrorCode) ;;
    Encoder.putStructs (LeaderAndIsrPartitionError4.encode version) t.PartitionErrors

/-- message/messages.gen.go:2326-2346 `LeaderAndIsrResponse.Decode`; the second argument is the receiver. -/
def LeaderAndIsrResponse.decode (version : Int16) : LeaderAndIsrResponse → Dec LeaderAndIsrResponse :=
    Dec.field Dec.int16 (fun t x => { t with ErrorCode := x }) ;>
    Dec.fieldStructs (LeaderAndIsrPartitionError4.decode version {}) (·.PartitionErrors) (fun t x => { t with PartitionErrors := x })

/-- The type `LeaderAndIsrResponse` with its methods. -/
def LeaderAndIsrResponse.type : MsgType :=
  { name := "LeaderAndIsrResponse", T := LeaderAndIsrResponse, zero := {}, size := LeaderAndIsrResponse.size, encode := LeaderAndIsrResponse.encode,
    decode := LeaderAndIsrResponse.decode }

end Kafka.Msg
