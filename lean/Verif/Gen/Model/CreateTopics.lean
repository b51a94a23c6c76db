import Verif.Message.Steps
/-!
Generated by tools/gen_messages.py from message/messages.gen.go: model of the CreateTopics messages.
-/
namespace Kafka.Msg

/-- message/messages.gen.go:5510-5513 `type CreatableReplicaAssignment19 struct`; the defaults are the Go zero values. -/
@[ext] structure CreatableReplicaAssignment19 where
  PartitionIndex : Int32 := 0
  BrokerIds : Slice Int32 := none

/-- message/messages.gen.go:5516-5521 `CreatableReplicaAssignment19.Size` -/
def CreatableReplicaAssignment19.size (_version : Int16) (t : CreatableReplicaAssignment19) : Int32 :=
   (Sizeof.add Sizeof.int32 ;;
    Sizeof.add (Sizeof.int32Array t.BrokerIds)) 0

/-- message/messages.gen.go:5524-5527 `CreatableReplicaAssignment19.Encode` -/
def CreatableReplicaAssignment19.encode (_version : Int16) (t : CreatableReplicaAssignment19) : Encoder → Encoder :=
    (·.putInt32 t.PartitionIndex) ;;
    (·.putInt32Array t.BrokerIds)

/-- message/messages.gen.go:5530-5541 `CreatableReplicaAssignment19.Decode`; the second argument is the receiver. -/
def CreatableReplicaAssignment19.decode (_version : Int16) : CreatableReplicaAssignment19 → Dec CreatableReplicaAssignment19 :=
    Dec.field Dec.int32 (fun t x => { t with PartitionIndex := x }) ;>
    Dec.field Dec.int32Array (fun t x => { t with BrokerIds := x })

/-- The type `CreatableReplicaAssignment19` with its methods. -/
def CreatableReplicaAssignment19.type : MsgType :=
  { name := "CreatableReplicaAssignment19", T := CreatableReplicaAssignment19, zero := {}, size := CreatableReplicaAssignment19.size, encode := CreatableReplicaAssignment19.encode,
    decode := CreatableReplicaAssignment19.decode }

/-- message/messages.gen.go:5543-5546 `type CreateableTopicConfig19 struct`; the defaults are the Go zero values. -/
@[ext] structure CreateableTopicConfig19 where
  Name : GoString := []
  Value : GoString := []

/-- message/messages.gen.go:5549-5554 `CreateableTopicConfig19.Size` -/
def CreateableTopicConfig19.size (_version : Int16) (t : CreateableTopicConfig19) : Int32 :=
   (Sizeof.add (Sizeof.string t.Name) ;;
    Sizeof.add (Sizeof.string t.Value)) 0

/-- message/messages.gen.go:5557-5560 `CreateableTopicConfig19.Encode` -/
def CreateableTopicConfig19.encode (_version : Int16) (t : CreateableTopicConfig19) : Encoder → Encoder :=
    (·.putString t.Name) ;;
    (·.putString t.Value)

/-- message/messages.gen.go:5563-5574 `CreateableTopicConfig19.Decode`; the second argument is the receiver. -/
def CreateableTopicConfig19.decode (_version : Int16) : CreateableTopicConfig19 → Dec CreateableTopicConfig19 :=
    Dec.field Dec.string (fun t x => { t with Name := x }) ;>
    Dec.field Dec.string (fun t x => { t with Value := x })

/-- The type `CreateableTopicConfig19` with its methods. -/
def CreateableTopicConfig19.type : MsgType :=
  { name := "CreateableTopicConfig19", T := CreateableTopicConfig19, zero := {}, size := CreateableTopicConfig19.size, encode := CreateableTopicConfig19.encode,
    decode := CreateableTopicConfig19.decode }

/-- message/messages.gen.go:5422-5428 `type CreatableTopic19 struct`; the defaults are the Go zero values. -/
@[ext] structure CreatableTopic19 where
  Name : GoString := []
  NumPartitions : Int32 := 0
  ReplicationFactor : Int16 := 0
  Assignments : Slice CreatableReplicaAssignment19 := none
  Configs : Slice CreateableTopicConfig19 := none

/-- message/messages.gen.go:5431-5445 `CreatableTopic19.Size` -/
def CreatableTopic19.size (version : Int16) (t : CreatableTopic19) : Int32 :=
   (Sizeof.add (Sizeof.string t.Name) ;;
    Sizeof.add Sizeof.int32 ;;
    Sizeof.add Sizeof.int16 ;;
    Sizeof.structs (CreatableReplicaAssignment19.size version) t.Assignments ;;
    Sizeof.structs (CreateableTopicConfig19.size version) t.Configs) 0

/-- message/messages.gen.go:5448-5464 `CreatableTopic19.Encode` -/
def CreatableTopic19.encode (version : Int16) (t : CreatableTopic19) : Encoder → Encoder :=
    (·.putString t.Name) ;;
    (·.putInt32 t.NumPartitions) ;;
    (·.putInt16 t.ReplicationFactor) ;;
    Encoder.putStructs (CreatableReplicaAssignment19.encode version) t.Assignments ;;
    Encoder.putStructs (CreateableTopicConfig19.encode version) t.Configs

/-- message/messages.gen.go:5467-5508 `CreatableTopic19.Decode`; the second argument is the receiver. -/
def CreatableTopic19.decode (version : Int16) : CreatableTopic19 → Dec CreatableTopic19 :=
    Dec.field Dec.string (fun t x => { t with Name := x }) ;>
    Dec.field Dec.int32 (fun t x => { t with NumPartitions := x }) ;>
    Dec.field Dec.int16 (fun t x => { t with ReplicationFactor := x }) ;>
    Dec.fieldStructs (CreatableReplicaAssignment19.decode version {}) (·.Assignments) (fun t x => { t with Assignments := x }) ;>
    Dec.fieldStructs (CreateableTopicConfig19.decode version {}) (·.Configs) (fun t x => { t with Configs := x })

/-- The type `CreatableTopic19` with its methods. -/
def CreatableTopic19.type : MsgType :=
  { name := "CreatableTopic19", T := CreatableTopic19, zero := {}, size := CreatableTopic19.size, encode := CreatableTopic19.encode,
    decode := CreatableTopic19.decode }

/-- message/messages.gen.go:5359-5363 `type CreateTopicsRequest struct`; the defaults are the Go zero values. -/
@[ext] structure CreateTopicsRequest where
  Topics : Slice CreatableTopic19 := none
  timeoutMs : Int32 := 0
  validateOnly : Bool := false

/-- message/messages.gen.go:5366-5377 `CreateTopicsRequest.Size` -/
def CreateTopicsRequest.size (version : Int16) (t : CreateTopicsRequest) : Int32 :=
   (Sizeof.structs (CreatableTopic19.size version) t.Topics ;;
    Sizeof.add Sizeof.int32 ;;
    onlyIf (version ≥ 1) (Sizeof.add Sizeof.bool)) 0

/-- message/messages.gen.go:5380-5391 `CreateTopicsRequest.Encode` -/
def CreateTopicsRequest.encode (version : Int16) (t : CreateTopicsRequest) : Encoder → Encoder :=
    Encoder.putStructs (CreatableTopic19.encode version) t.Topics ;;
    (·.putInt32 t.timeoutMs) ;;
    onlyIf (version ≥ 1) (·.putBool t.validateOnly)

/-- message/messages.gen.go:5394-5420 `CreateTopicsRequest.Decode`; the second argument is the receiver. -/
def CreateTopicsRequest.decode (version : Int16) : CreateTopicsRequest → Dec CreateTopicsRequest :=
    Dec.fieldStructs (CreatableTopic19.decode version {}) (·.Topics) (fun t x => { t with Topics := x }) ;>
    Dec.field Dec.int32 (fun t x => { t with timeoutMs := x }) ;>
    Dec.onlyIf (version ≥ 1) (Dec.field Dec.bool (fun t x => { t with validateOnly := x }))

/-- The type `CreateTopicsRequest` with its methods. -/
def CreateTopicsRequest.type : MsgType :=
  { name := "CreateTopicsRequest", T := CreateTopicsRequest, zero := {}, size := CreateTopicsRequest.size, encode := CreateTopicsRequest.encode,
    decode := CreateTopicsRequest.decode }

/-- message/messages.gen.go:5748-5754 `type CreatableTopicConfigs19 struct`; the defaults are the Go zero values. -/
@[ext] structure CreatableTopicConfigs19 where
  Name : GoString := []
  Value : GoString := []
  ReadOnly : Bool := false
  ConfigSource : Int8 := 0
  IsSensitive : Bool := false

/-- message/messages.gen.go:5757-5775 `CreatableTopicConfigs19.Size` -/
def CreatableTopicConfigs19.size (version : Int16) (t : CreatableTopicConfigs19) : Int32 :=
   (onlyIf (version ≥ 5) (Sizeof.add (Sizeof.string t.Name)) ;;
    onlyIf (version ≥ 5) (Sizeof.add (Sizeof.string t.Value)) ;;
    onlyIf (version ≥ 5) (Sizeof.add Sizeof.bool) ;;
    onlyIf (version ≥ 5) (Sizeof.add Sizeof.int8) ;;
    onlyIf (version ≥ 5) (Sizeof.add Sizeof.bool)) 0

/-- message/messages.gen.go:5778-5794 `CreatableTopicConfigs19.Encode` -/
def CreatableTopicConfigs19.encode (version : Int16) (t : CreatableTopicConfigs19) : Encoder → Encoder :=
    onlyIf (version ≥ 5) (·.putString t.Name) ;;
    onlyIf (version ≥ 5) (·.putString t.Value) ;;
    onlyIf (version ≥ 5) (·.putBool t.ReadOnly) ;;
    onlyIf (version ≥ 5) (·.putInt8 t.ConfigSource) ;;
    onlyIf (version ≥ 5) (·.putBool t.IsSensitive)

/-- message/messages.gen.go:5797-5830 `CreatableTopicConfigs19.Decode`; the second argument is the receiver. -/
def CreatableTopicConfigs19.decode (version : Int16) : CreatableTopicConfigs19 → Dec CreatableTopicConfigs19 :=
    Dec.onlyIf (version ≥ 5) (Dec.field Dec.string (fun t x => { t with Name := x })) ;>
    Dec.onlyIf (version ≥ 5) (Dec.field Dec.string (fun t x => { t with Value := x })) ;>
    Dec.onlyIf (version ≥ 5) (Dec.field Dec.bool (fun t x => { t with ReadOnly := x })) ;>
    Dec.onlyIf (version ≥ 5) (Dec.field Dec.int8 (fun t x => { t with ConfigSource := x })) ;>
    Dec.onlyIf (version ≥ 5) (Dec.field Dec.bool (fun t x => { t with IsSensitive := x }))

/-- The type `CreatableTopicConfigs19` with its methods. -/
def CreatableTopicConfigs19.type : MsgType :=
  { name := "CreatableTopicConfigs19", T := CreatableTopicConfigs19, zero := {}, size := CreatableTopicConfigs19.size, encode := CreatableTopicConfigs19.encode,
    decode := CreatableTopicConfigs19.decode }

/-- message/messages.gen.go:5633-5641 `type CreatableTopicResult19 struct`; the defaults are the Go zero values. -/
@[ext] structure CreatableTopicResult19 where
  Name : GoString := []
  ErrorCode : Int16 := 0
  ErrorMessage : GoString := []
  TopicConfigErrorCode : Int16 := 0
  NumPartitions : Int32 := 0
  ReplicationFactor : Int16 := 0
  Configs : Slice CreatableTopicConfigs19 := none

/-- message/messages.gen.go:5644-5667 `CreatableTopicResult19.Size` -/
def CreatableTopicResult19.size (version : Int16) (t : CreatableTopicResult19) : Int32 :=
   (Sizeof.add (Sizeof.string t.Name) ;;
    Sizeof.add Sizeof.int16 ;;
    onlyIf (version ≥ 1) (Sizeof.add (Sizeof.string t.ErrorMessage)) ;;
    onlyIf (version ≥ 5) (Sizeof.add Sizeof.int16) ;;
    onlyIf (version ≥ 5) (Sizeof.add Sizeof.int32) ;;
    onlyIf (version ≥ 5) (Sizeof.add Sizeof.int16) ;;
    onlyIf (version ≥ 5) (Sizeof.structs (CreatableTopicConfigs19.size version) t.Configs)) 0

/-- message/messages.gen.go:5670-5693 `CreatableTopicResult19.Encode` -/
def CreatableTopicResult19.encode (version : Int16) (t : CreatableTopicResult19) : Encoder → Encoder :=
    (·.putString t.Name) ;;
    (·.putInt16 t.ErrorCode) ;;
    onlyIf (version ≥ 1) (·.putString t.ErrorMessage) ;;
    onlyIf (version ≥ 5) (·.putInt16 t.TopicConfigErrorCode) ;;
    onlyIf (version ≥ 5) (·.putInt32 t.NumPartitions) ;;
    onlyIf (version ≥ 5) (·.putInt16 t.ReplicationFactor) ;;
    onlyIf (version ≥ 5) (Encoder.putStructs (CreatableTopicConfigs19.encode version) t.Configs)

/-- message/messages.gen.go:5696-5746 `CreatableTopicResult19.Decode`; the second argument is the receiver. -/
def CreatableTopicResult19.decode (version : Int16) : CreatableTopicResult19 → Dec CreatableTopicResult19 :=
    Dec.field Dec.string (fun t x => { t with Name := x }) ;>
    Dec.field Dec.int16 (fun t x => { t with ErrorCode := x }) ;>
    Dec.onlyIf (version ≥ 1) (Dec.field Dec.string (fun t x => { t with ErrorMessage := x })) ;>
    Dec.onlyIf (version ≥ 5) (Dec.field Dec.int16 (fun t x => { t with TopicConfigErrorCode := x })) ;>
    Dec.onlyIf (version ≥ 5) (Dec.field Dec.int32 (fun t x => { t with NumPartitions := x })) ;>
    Dec.onlyIf (version ≥ 5) (Dec.field Dec.int16 (fun t x => { t with ReplicationFactor := x })) ;>
    Dec.onlyIf (version ≥ 5) (Dec.fieldStructs (CreatableTopicConfigs19.decode version {}) (·.Configs) (fun t x => { t with Configs := x }))

/-- The type `CreatableTopicResult19` with its methods. -/
def CreatableTopicResult19.type : MsgType :=
  { name := "CreatableTopicResult19", T := CreatableTopicResult19, zero := {}, size := CreatableTopicResult19.size, encode := CreatableTopicResult19.encode,
    decode := CreatableTopicResult19.decode }

/-- message/messages.gen.go:5577-5580 `type CreateTopicsResponse struct`; the defaults are the Go zero values. -/
@[ext] structure CreateTopicsResponse where
  ThrottleTimeMs : Int32 := 0
  Topics : Slice CreatableTopicResult19 := none

/-- message/messages.gen.go:5583-5593 `CreateTopicsResponse.Size` -/
def CreateTopicsResponse.size (version : Int16) (t : CreateTopicsResponse) : Int32 :=
   (onlyIf (version ≥ 2) (Sizeof.add Sizeof.int32) ;;
    Sizeof.structs (CreatableTopicResult19.size version) t.Topics) 0

/-- message/messages.gen.go:5596-5606 `CreateTopicsResponse.Encode` -/
def CreateTopicsResponse.encode (version : Int16) (t : CreateTopicsResponse) : Encoder → Encoder :=
    onlyIf (version ≥ 2) (·.putInt32 t.ThrottleTimeMs) ;;
    Encoder.putStructs (CreatableTopicResult19.encode version) t.Topics

/-- message/messages.gen.go:5609-5631 `CreateTopicsResponse.Decode`; the second argument is the receiver. -/
def CreateTopicsResponse.decode (version : Int16) : CreateTopicsResponse → Dec CreateTopicsResponse :=
    Dec.onlyIf (version ≥ 2) (Dec.field Dec.int32 (fun t x => { t with ThrottleTimeMs := x })) ;>
    Dec.fieldStructs (CreatableTopicResult19.decode version {}) (·.Topics) (fun t x => { t with Topics := x })

/-- The type `CreateTopicsResponse` with its methods. -/
def CreateTopicsResponse.type : MsgType :=
  { name := "CreateTopicsResponse", T := CreateTopicsResponse, zero := {}, size := CreateTopicsResponse.size, encode := CreateTopicsResponse.encode,
    decode := CreateTopicsResponse.decode }

end Kafka.Msg
