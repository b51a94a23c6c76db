import Verif.Message.Steps
/-!
Generated by tools/gen_messages.py from message/messages.gen.go: model of the Metadata messages.
-/
namespace Kafka.Msg

/-- message/messages.gen.go:1582-1584 `type MetadataRequestTopic3 struct`; the defaults are the Go zero values. -/
@[ext] structure MetadataRequestTopic3 where
  Name : GoString := []

/-- message/messages.gen.go:1587-1591 `MetadataRequestTopic3.Size` -/
def MetadataRequestTopic3.size (_version : Int16) (t : MetadataRequestTopic3) : Int32 :=
   (Sizeof.add (Sizeof.string t.Name)) 0

/-- message/messages.gen.go:1594-1596 `MetadataRequestTopic3.Encode` -/
def MetadataRequestTopic3.encode (_version : Int16) (t : MetadataRequestTopic3) : Encoder → Encoder :=
    (·.putString t.Name)

/-- message/messages.gen.go:1599-1606 `MetadataRequestTopic3.Decode`; the second argument is the receiver. -/
def MetadataRequestTopic3.decode (_version : Int16) : MetadataRequestTopic3 → Dec MetadataRequestTopic3 :=
    Dec.field Dec.string (fun t x => { t with Name := x })

/-- The type `MetadataRequestTopic3` with its methods. -/
def MetadataRequestTopic3.type : MsgType :=
  { name := "MetadataRequestTopic3", T := MetadataRequestTopic3, zero := {}, size := MetadataRequestTopic3.size, encode := MetadataRequestTopic3.encode,
    decode := MetadataRequestTopic3.decode }

/-- message/messages.gen.go:1500-1505 `type MetadataRequest struct`; the defaults are the Go zero values. -/
@[ext] structure MetadataRequest where
  Topics : Slice MetadataRequestTopic3 := none
  AllowAutoTopicCreation : Bool := false
  IncludeClusterAuthorizedOperations : Bool := false
  IncludeTopicAuthorizedOperations : Bool := false

/-- message/messages.gen.go:1508-1524 `MetadataRequest.Size` -/
def MetadataRequest.size (version : Int16) (t : MetadataRequest) : Int32 :=
   (Sizeof.structs (MetadataRequestTopic3.size version) t.Topics ;;
    onlyIf (version ≥ 4) (Sizeof.add Sizeof.bool) ;;
    onlyIf (version ≥ 8) (Sizeof.add Sizeof.bool) ;;
    onlyIf (version ≥ 8) (Sizeof.add Sizeof.bool)) 0

/-- message/messages.gen.go:1527-1543 `MetadataRequest.Encode` -/
def MetadataRequest.encode (version : Int16) (t : MetadataRequest) : Encoder → Encoder :=
    Encoder.putStructs (MetadataRequestTopic3.encode version) t.Topics ;;
    onlyIf (version ≥ 4) (·.putBool t.AllowAutoTopicCreation) ;;
    onlyIf (version ≥ 8) (·.putBool t.IncludeClusterAuthorizedOperations) ;;
    onlyIf (version ≥ 8) (·.putBool t.IncludeTopicAuthorizedOperations)

/-- message/messages.gen.go:1546-1580 `MetadataRequest.Decode`; the second argument is the receiver. -/
def MetadataRequest.decode (version : Int16) : MetadataRequest → Dec MetadataRequest :=
    Dec.fieldStructs (MetadataRequestTopic3.decode version {}) (·.Topics) (fun t x => { t with Topics := x }) ;>
    Dec.onlyIf (version ≥ 4) (Dec.field Dec.bool (fun t x => { t with AllowAutoTopicCreation := x })) ;>
    Dec.onlyIf (version ≥ 8) (Dec.field Dec.bool (fun t x => { t with IncludeClusterAuthorizedOperations := x })) ;>
    Dec.onlyIf (version ≥ 8) (Dec.field Dec.bool (fun t x => { t with IncludeTopicAuthorizedOperations := x }))

/-- The type `MetadataRequest` with its methods. -/
def MetadataRequest.type : MsgType :=
  { name := "MetadataRequest", T := MetadataRequest, zero := {}, size := MetadataRequest.size, encode := MetadataRequest.encode,
    decode := MetadataRequest.decode }

/-- message/messages.gen.go:1728-1733 `type MetadataResponseBroker3 struct`; the defaults are the Go zero values. -/
@[ext] structure MetadataResponseBroker3 where
  NodeId : Int32 := 0
  Host : GoString := []
  Port : Int32 := 0
  Rack : GoString := []

/-- message/messages.gen.go:1736-1745 `MetadataResponseBroker3.Size` -/
def MetadataResponseBroker3.size (version : Int16) (t : MetadataResponseBroker3) : Int32 :=
   (Sizeof.add Sizeof.int32 ;;
    Sizeof.add (Sizeof.string t.Host) ;;
    Sizeof.add Sizeof.int32 ;;
    onlyIf (version ≥ 1) (Sizeof.add (Sizeof.string t.Rack))) 0

/-- message/messages.gen.go:1748-1755 `MetadataResponseBroker3.Encode` -/
def MetadataResponseBroker3.encode (version : Int16) (t : MetadataResponseBroker3) : Encoder → Encoder :=
    (·.putInt32 t.NodeId) ;;
    (·.putString t.Host) ;;
    (·.putInt32 t.Port) ;;
    onlyIf (version ≥ 1) (·.putString t.Rack)

/-- message/messages.gen.go:1758-1779 `MetadataResponseBroker3.Decode`; the second argument is the receiver. -/
def MetadataResponseBroker3.decode (version : Int16) : MetadataResponseBroker3 → Dec MetadataResponseBroker3 :=
    Dec.field Dec.int32 (fun t x => { t with NodeId := x }) ;>
    Dec.field Dec.string (fun t x => { t with Host := x }) ;>
    Dec.field Dec.int32 (fun t x => { t with Port := x }) ;>
    Dec.onlyIf (version ≥ 1) (Dec.field Dec.string (fun t x => { t with Rack := x }))

/-- The type `MetadataResponseBroker3` with its methods. -/
def MetadataResponseBroker3.type : MsgType :=
  { name := "MetadataResponseBroker3", T := MetadataResponseBroker3, zero := {}, size := MetadataResponseBroker3.size, encode := MetadataResponseBroker3.encode,
    decode := MetadataResponseBroker3.decode }

/-- message/messages.gen.go:1864-1872 `type MetadataResponsePartition3 struct`; the defaults are the Go zero values. -/
@[ext] structure MetadataResponsePartition3 where
  ErrorCode : Int16 := 0
  PartitionIndex : Int32 := 0
  LeaderId : Int32 := 0
  LeaderEpoch : Int32 := 0
  ReplicaNodes : Slice Int32 := none
  IsrNodes : Slice Int32 := none
  OfflineReplicas : Slice Int32 := none

/-- message/messages.gen.go:1875-1889 `MetadataResponsePartition3.Size` -/
def MetadataResponsePartition3.size (version : Int16) (t : MetadataResponsePartition3) : Int32 :=
   (Sizeof.add Sizeof.int16 ;;
    Sizeof.add Sizeof.int32 ;;
    Sizeof.add Sizeof.int32 ;;
    onlyIf (version ≥ 7) (Sizeof.add Sizeof.int32) ;;
    Sizeof.add (Sizeof.int32Array t.ReplicaNodes) ;;
    Sizeof.add (Sizeof.int32Array t.IsrNodes) ;;
    onlyIf (version ≥ 5) (Sizeof.add (Sizeof.int32Array t.OfflineReplicas))) 0

/-- message/messages.gen.go:1892-1904 `MetadataResponsePartition3.Encode` -/
def MetadataResponsePartition3.encode (version : Int16) (t : MetadataResponsePartition3) : Encoder → Encoder :=
    (·.putInt16 t.ErrorCode) ;;
    (·.putInt32 t.PartitionIndex) ;;
    (·.putInt32 t.LeaderId) ;;
    onlyIf (version ≥ 7) (·.putInt32 t.LeaderEpoch) ;;
    (·.putInt32Array t.ReplicaNodes) ;;
    (·.putInt32Array t.IsrNodes) ;;
    onlyIf (version ≥ 5) (·.putInt32Array t.OfflineReplicas)

/-- message/messages.gen.go:1907-1942 `MetadataResponsePartition3.Decode`; the second argument is the receiver. -/
def MetadataResponsePartition3.decode (version : Int16) : MetadataResponsePartition3 → Dec MetadataResponsePartition3 :=
    Dec.field Dec.int16 (fun t x => { t with ErrorCode := x }) ;>
    Dec.field Dec.int32 (fun t x => { t with PartitionIndex := x }) ;>
    Dec.field Dec.int32 (fun t x => { t with LeaderId := x }) ;>
    Dec.onlyIf (version ≥ 7) (Dec.field Dec.int32 (fun t x => { t with LeaderEpoch := x })) ;>
    Dec.field Dec.int32Array (fun t x => { t with ReplicaNodes := x }) ;>
    Dec.field Dec.int32Array (fun t x => { t with IsrNodes := x }) ;>
    Dec.onlyIf (version ≥ 5) (Dec.field Dec.int32Array (fun t x => { t with OfflineReplicas := x }))

/-- The type `MetadataResponsePartition3` with its methods. -/
def MetadataResponsePartition3.type : MsgType :=
  { name := "MetadataResponsePartition3", T := MetadataResponsePartition3, zero := {}, size := MetadataResponsePartition3.size, encode := MetadataResponsePartition3.encode,
    decode := MetadataResponsePartition3.decode }

/-- message/messages.gen.go:1781-1787 `type MetadataResponseTopic3 struct`; the defaults are the Go zero values. -/
@[ext] structure MetadataResponseTopic3 where
  ErrorCode : Int16 := 0
  Name : GoString := []
  IsInternal : Bool := false
  Partitions : Slice MetadataResponsePartition3 := none
  TopicAuthorizedOperations : Int32 := 0

/-- message/messages.gen.go:1790-1805 `MetadataResponseTopic3.Size` -/
def MetadataResponseTopic3.size (version : Int16) (t : MetadataResponseTopic3) : Int32 :=
   (Sizeof.add Sizeof.int16 ;;
    Sizeof.add (Sizeof.string t.Name) ;;
    onlyIf (version ≥ 1) (Sizeof.add Sizeof.bool) ;;
    Sizeof.structs (MetadataResponsePartition3.size version) t.Partitions ;;
    onlyIf (version ≥ 8) (Sizeof.add Sizeof.int32)) 0

/-- message/messages.gen.go:1808-1823 `MetadataResponseTopic3.Encode` -/
def MetadataResponseTopic3.encode (version : Int16) (t : MetadataResponseTopic3) : Encoder → Encoder :=
    (·.putInt16 t.ErrorCode) ;;
    (·.putString t.Name) ;;
    onlyIf (version ≥ 1) (·.putBool t.IsInternal) ;;
    Encoder.putStructs (MetadataResponsePartition3.encode version) t.Partitions ;;
    onlyIf (version ≥ 8) (·.putInt32 t.TopicAuthorizedOperations)

/-- message/messages.gen.go:1826-1862 `MetadataResponseTopic3.Decode`; the second argument is the receiver. -/
def MetadataResponseTopic3.decode (version : Int16) : MetadataResponseTopic3 → Dec MetadataResponseTopic3 :=
    Dec.field Dec.int16 (fun t x => { t with ErrorCode := x }) ;>
    Dec.field Dec.string (fun t x => { t with Name := x }) ;>
    Dec.onlyIf (version ≥ 1) (Dec.field Dec.bool (fun t x => { t with IsInternal := x })) ;>
    Dec.fieldStructs (MetadataResponsePartition3.decode version {}) (·.Partitions) (fun t x => { t with Partitions := x }) ;>
    Dec.onlyIf (version ≥ 8) (Dec.field Dec.int32 (fun t x => { t with TopicAuthorizedOperations := x }))

/-- The type `MetadataResponseTopic3` with its methods. -/
def MetadataResponseTopic3.type : MsgType :=
  { name := "MetadataResponseTopic3", T := MetadataResponseTopic3, zero := {}, size := MetadataResponseTopic3.size, encode := MetadataResponseTopic3.encode,
    decode := MetadataResponseTopic3.decode }

/-- message/messages.gen.go:1609-1616 `type MetadataResponse struct`; the defaults are the Go zero values. -/
@[ext] structure MetadataResponse where
  ThrottleTimeMs : Int32 := 0
  Brokers : Slice MetadataResponseBroker3 := none
  ClusterId : GoString := []
  ControllerId : Int32 := 0
  Topics : Slice MetadataResponseTopic3 := none
  ClusterAuthorizedOperations : Int32 := 0

/-- message/messages.gen.go:1619-1642 `MetadataResponse.Size` -/
def MetadataResponse.size (version : Int16) (t : MetadataResponse) : Int32 :=
   (onlyIf (version ≥ 3) (Sizeof.add Sizeof.int32) ;;
    Sizeof.structs (MetadataResponseBroker3.size version) t.Brokers ;;
    onlyIf (version ≥ 2) (Sizeof.add (Sizeof.string t.ClusterId)) ;;
    onlyIf (version ≥ 1) (Sizeof.add Sizeof.int32) ;;
    Sizeof.structs (MetadataResponseTopic3.size version) t.Topics ;;
    onlyIf (version ≥ 8) (Sizeof.add Sizeof.int32)) 0

/-- message/messages.gen.go:1645-1670 `MetadataResponse.Encode` -/
def MetadataResponse.encode (version : Int16) (t : MetadataResponse) : Encoder → Encoder :=
    onlyIf (version ≥ 3) (·.putInt32 t.ThrottleTimeMs) ;;
    Encoder.putStructs (MetadataResponseBroker3.encode version) t.Brokers ;;
    onlyIf (version ≥ 2) (·.putString t.ClusterId) ;;
    onlyIf (version ≥ 1) (·.putInt32 t.ControllerId) ;;
    Encoder.putStructs (MetadataResponseTopic3.encode version) t.Topics ;;
    onlyIf (version ≥ 8) (·.putInt32 t.ClusterAuthorizedOperations)

/-- message/messages.gen.go:1673-1726 `MetadataResponse.Decode`; the second argument is the receiver. -/
def MetadataResponse.decode (version : Int16) : MetadataResponse → Dec MetadataResponse :=
    Dec.onlyIf (version ≥ 3) (Dec.field Dec.int32 (fun t x => { t with ThrottleTimeMs := x })) ;>
    Dec.fieldStructs (MetadataResponseBroker3.decode version {}) (·.Brokers) (fun t x => { t with Brokers := x }) ;>
    Dec.onlyIf (version ≥ 2) (Dec.field Dec.string (fun t x => { t with ClusterId := x })) ;>
    Dec.onlyIf (version ≥ 1) (Dec.field Dec.int32 (fun t x => { t with ControllerId := x })) ;>
    Dec.fieldStructs (MetadataResponseTopic3.decode version {}) (·.Topics) (fun t x => { t with Topics := x }) ;>
    Dec.onlyIf (version ≥ 8) (Dec.field Dec.int32 (fun t x => { t with ClusterAuthorizedOperations := x }))

/-- The type `MetadataResponse` with its methods. -/
def MetadataResponse.type : MsgType :=
  { name := "MetadataResponse", T := MetadataResponse, zero := {}, size := MetadataResponse.size, encode := MetadataResponse.encode,
    decode := MetadataResponse.decode }

end Kafka.Msg
