import Verif.Protocol.ParseLemmas
import Verif.Gen.Spec.Metadata
/-!
Generated by tools/gen_protocol.py: the Metadata messages are written and read as the protocol says.
-/
namespace Kafka.Msg

open Protocol

/-- `MetadataRequestTopic3` as a value of the protocol. -/
def MetadataRequestTopic3.val (t : MetadataRequestTopic3) : Val :=
  .struct [("Name", .str (some t.Name))]

theorem MetadataRequestTopic3.conforms {v : Int16} (hv : 0 ≤ v) (t : MetadataRequestTopic3) :
    Protocol.MetadataRequestTopic.wire false v (MetadataRequestTopic3.val t) = MetadataRequestTopic3.wire v t :=
  Writes.eq <|
    Writes.all hv (Protocol.wire_string v t.Name) <|
    Writes.done

/-- There is nothing that may not be nil. -/
def MetadataRequestTopic3.Full (_v : Int16) (_t : MetadataRequestTopic3) : Prop := True

theorem MetadataRequestTopic3.valid {v : Int16} (_hv : 0 ≤ v) (t : MetadataRequestTopic3) (h : t.Fits v) (_hf : t.Full v) :
    Protocol.MetadataRequestTopic.Valid true v (MetadataRequestTopic3.val t) :=
  Valids.all (valid_string (h.Name)) <|
    trivial

/-- `MetadataRequest` as a value of the protocol. -/
def MetadataRequest.val (t : MetadataRequest) : Val :=
  .struct [("Topics", ofStructs MetadataRequestTopic3.val t.Topics),
    ("AllowAutoTopicCreation", .bool t.AllowAutoTopicCreation),
    ("IncludeClusterAuthorizedOperations", .bool t.IncludeClusterAuthorizedOperations),
    ("IncludeTopicAuthorizedOperations", .bool t.IncludeTopicAuthorizedOperations)]

theorem MetadataRequest.conforms {v : Int16} (hv : 0 ≤ v) (t : MetadataRequest) :
    Protocol.MetadataRequest.wire false v (MetadataRequest.val t) = MetadataRequest.wire v t :=
  Writes.eq <|
    Writes.all hv (Protocol.wire_structs v (MetadataRequestTopic3.conforms hv) t.Topics) <|
    Writes.since (Protocol.wire_bool v t.AllowAutoTopicCreation) <|
    Writes.since (Protocol.wire_bool v t.IncludeClusterAuthorizedOperations) <|
    Writes.since (Protocol.wire_bool v t.IncludeTopicAuthorizedOperations) <|
    Writes.done

/-- There is nothing that may not be nil. -/
def MetadataRequest.Full (_v : Int16) (_t : MetadataRequest) : Prop := True

theorem MetadataRequest.valid {v : Int16} (hv : 0 ≤ v) (t : MetadataRequest) (h : t.Fits v) (_hf : t.Full v) :
    Protocol.MetadataRequest.Valid true v (MetadataRequest.val t) :=
  Valids.all (valid_structs (fun y h hf => MetadataRequestTopic3.valid hv y h hf) (h.Topics) (fun _ _ => trivial)) <|
    Valids.since (fun _ => trivial) <|
    Valids.since (fun _ => trivial) <|
    Valids.since (fun _ => trivial) <|
    trivial

/-- `MetadataResponseBroker3` as a value of the protocol. -/
def MetadataResponseBroker3.val (t : MetadataResponseBroker3) : Val :=
  .struct [("NodeId", .int32 t.NodeId),
    ("Host", .str (some t.Host)),
    ("Port", .int32 t.Port),
    ("Rack", .str (some t.Rack))]

theorem MetadataResponseBroker3.conforms {v : Int16} (hv : 0 ≤ v) (t : MetadataResponseBroker3) :
    Protocol.MetadataResponseBroker.wire false v (MetadataResponseBroker3.val t) = MetadataResponseBroker3.wire v t :=
  Writes.eq <|
    Writes.all hv (Protocol.wire_int32 v t.NodeId) <|
    Writes.all hv (Protocol.wire_string v t.Host) <|
    Writes.all hv (Protocol.wire_int32 v t.Port) <|
    Writes.since (Protocol.wire_string v t.Rack) <|
    Writes.done

/-- There is nothing that may not be nil. -/
def MetadataResponseBroker3.Full (_v : Int16) (_t : MetadataResponseBroker3) : Prop := True

theorem MetadataResponseBroker3.valid {v : Int16} (_hv : 0 ≤ v) (t : MetadataResponseBroker3) (h : t.Fits v) (_hf : t.Full v) :
    Protocol.MetadataResponseBroker.Valid true v (MetadataResponseBroker3.val t) :=
  Valids.all trivial <|
    Valids.all (valid_string (h.Host)) <|
    Valids.all trivial <|
    Valids.since (fun hc => valid_string (h.Rack hc)) <|
    trivial

/-- What `MetadataResponseBroker3` holds after reading the value `x` into `t0`. -/
def MetadataResponseBroker3.of (v : Int16) (x : Val) (t0 : MetadataResponseBroker3) : MetadataResponseBroker3 :=
  { NodeId := (x.get "NodeId").toInt32,
    Host := (x.get "Host").toStr,
    Port := (x.get "Port").toInt32,
    Rack := if v ≥ 1 then (x.get "Rack").toStr else t0.Rack }

theorem MetadataResponseBroker3.decodes {v : Int16} (hv : 0 ≤ v) (x : Val) (h : Protocol.MetadataResponseBroker.Valid false v x) (t0 : MetadataResponseBroker3) :
    Reads (MetadataResponseBroker3.decode v t0) (Protocol.MetadataResponseBroker.wire false v x) (MetadataResponseBroker3.of v x t0) :=
  Reads.congr (((Step.field (set := fun (t : MetadataResponseBroker3) x => { t with NodeId := x }) (read_int32 (Fields.Valid.head (h) hv)))
      |>.andThen (Step.field (set := fun (t : MetadataResponseBroker3) x => { t with Host := x }) (read_string (Fields.Valid.head (Fields.Valid.tail h) hv)))
      |>.andThen (Step.field (set := fun (t : MetadataResponseBroker3) x => { t with Port := x }) (read_int32 (Fields.Valid.head (Fields.Valid.tail (Fields.Valid.tail h)) hv)))
      |>.andThen (Step.optField (c := v ≥ 1) (set := fun (t : MetadataResponseBroker3) x => { t with Rack := x }) (·.Rack) (fun _ => rfl) fun hc => read_string (Fields.Valid.head (Fields.Valid.tail (Fields.Valid.tail (Fields.Valid.tail h))) hc)) : Step _ _ _) t0)
    (Writes.eq (fs := Protocol.MetadataResponseBroker) (v := v) (x := x) <| Writes.all hv rfl <| Writes.all hv rfl <| Writes.all hv rfl <| Writes.since rfl <| Writes.done).symm rfl

theorem MetadataResponseBroker3.parses {v : Int16} (hv : 0 ≤ v) (t0 : MetadataResponseBroker3) :
    Parses (MetadataResponseBroker3.decode v t0) ((Ty.struct Protocol.MetadataResponseBroker).parse v) (fun x => MetadataResponseBroker3.of v x t0) :=
  FParses.parses (fs := Protocol.MetadataResponseBroker)
    (FParses.field hv (set := fun (t : MetadataResponseBroker3) x => { t with NodeId := x }) par_int32 <|
    FParses.field hv (set := fun (t : MetadataResponseBroker3) x => { t with Host := x }) par_string <|
    FParses.field hv (set := fun (t : MetadataResponseBroker3) x => { t with Port := x }) par_int32 <|
    FParses.optField (c := v ≥ 1) Iff.rfl (set := fun (t : MetadataResponseBroker3) x => { t with Rack := x }) (·.Rack) (fun _ => rfl) par_string <|
    FParses.done)
    (by simp only [MetadataResponseBroker3.decode, Dec.andThen_assoc, Dec.andThen_nop]) (Fields.distinct_nodup _ (by decide +kernel)) (fun _ _ => rfl) t0

theorem MetadataResponseBroker3.shown {v : Int16} (hv : 0 ≤ v) (x : Val) (h : Protocol.MetadataResponseBroker.Typed v x) :
    Protocol.MetadataResponseBroker.shows v x (MetadataResponseBroker3.val (MetadataResponseBroker3.of v x {})) = true :=
  Shows.all hv (show_int32 (Fields.Typed.head (h) hv)) <|
    Shows.all hv (show_string (Fields.Typed.head (Fields.Typed.tail h) hv)) <|
    Shows.all hv (show_int32 (Fields.Typed.head (Fields.Typed.tail (Fields.Typed.tail h)) hv)) <|
    Shows.since (fun s => .str (some s)) rfl (fun hc => show_string (Fields.Typed.head (Fields.Typed.tail (Fields.Typed.tail (Fields.Typed.tail h))) hc)) rfl <|
    rfl

/-- `MetadataResponsePartition3` as a value of the protocol. -/
def MetadataResponsePartition3.val (t : MetadataResponsePartition3) : Val :=
  .struct [("ErrorCode", .int16 t.ErrorCode),
    ("PartitionIndex", .int32 t.PartitionIndex),
    ("LeaderId", .int32 t.LeaderId),
    ("LeaderEpoch", .int32 t.LeaderEpoch),
    ("ReplicaNodes", ofScalars .int32 t.ReplicaNodes),
    ("IsrNodes", ofScalars .int32 t.IsrNodes),
    ("OfflineReplicas", ofScalars .int32 t.OfflineReplicas)]

theorem MetadataResponsePartition3.conforms {v : Int16} (hv : 0 ≤ v) (t : MetadataResponsePartition3) :
    Protocol.MetadataResponsePartition.wire false v (MetadataResponsePartition3.val t) = MetadataResponsePartition3.wire v t :=
  Writes.eq <|
    Writes.all hv (Protocol.wire_int16 v t.ErrorCode) <|
    Writes.all hv (Protocol.wire_int32 v t.PartitionIndex) <|
    Writes.all hv (Protocol.wire_int32 v t.LeaderId) <|
    Writes.since (Protocol.wire_int32 v t.LeaderEpoch) <|
    Writes.all hv (Protocol.wire_int32Array v t.ReplicaNodes) <|
    Writes.all hv (Protocol.wire_int32Array v t.IsrNodes) <|
    Writes.since (Protocol.wire_int32Array v t.OfflineReplicas) <|
    Writes.done

/-- No slice of scalars is nil where the protocol has no null. -/
structure MetadataResponsePartition3.Full (v : Int16) (t : MetadataResponsePartition3) : Prop where
  ReplicaNodes : t.ReplicaNodes.NotNil
  IsrNodes : t.IsrNodes.NotNil
  OfflineReplicas : v ≥ 5 → t.OfflineReplicas.NotNil

theorem MetadataResponsePartition3.valid {v : Int16} (_hv : 0 ≤ v) (t : MetadataResponsePartition3) (h : t.Fits v) (hf : t.Full v) :
    Protocol.MetadataResponsePartition.Valid true v (MetadataResponsePartition3.val t) :=
  Valids.all trivial <|
    Valids.all trivial <|
    Valids.all trivial <|
    Valids.since (fun _ => trivial) <|
    Valids.all (valid_int32Array (h.ReplicaNodes) (.inr (hf.ReplicaNodes))) <|
    Valids.all (valid_int32Array (h.IsrNodes) (.inr (hf.IsrNodes))) <|
    Valids.since (fun hc => valid_int32Array (h.OfflineReplicas hc) (.inr (hf.OfflineReplicas hc))) <|
    trivial

/-- What `MetadataResponsePartition3` holds after reading the value `x` into `t0`. -/
def MetadataResponsePartition3.of (v : Int16) (x : Val) (t0 : MetadataResponsePartition3) : MetadataResponsePartition3 :=
  { ErrorCode := (x.get "ErrorCode").toInt16,
    PartitionIndex := (x.get "PartitionIndex").toInt32,
    LeaderId := (x.get "LeaderId").toInt32,
    LeaderEpoch := if v ≥ 7 then (x.get "LeaderEpoch").toInt32 else t0.LeaderEpoch,
    ReplicaNodes := (x.get "ReplicaNodes").toSlice Val.toInt32,
    IsrNodes := (x.get "IsrNodes").toSlice Val.toInt32,
    OfflineReplicas := if v ≥ 5 then (x.get "OfflineReplicas").toSlice Val.toInt32 else t0.OfflineReplicas }

theorem MetadataResponsePartition3.decodes {v : Int16} (hv : 0 ≤ v) (x : Val) (h : Protocol.MetadataResponsePartition.Valid false v x) (t0 : MetadataResponsePartition3) :
    Reads (MetadataResponsePartition3.decode v t0) (Protocol.MetadataResponsePartition.wire false v x) (MetadataResponsePartition3.of v x t0) :=
  Reads.congr (((Step.field (set := fun (t : MetadataResponsePartition3) x => { t with ErrorCode := x }) (read_int16 (Fields.Valid.head (h) hv)))
      |>.andThen (Step.field (set := fun (t : MetadataResponsePartition3) x => { t with PartitionIndex := x }) (read_int32 (Fields.Valid.head (Fields.Valid.tail h) hv)))
      |>.andThen (Step.field (set := fun (t : MetadataResponsePartition3) x => { t with LeaderId := x }) (read_int32 (Fields.Valid.head (Fields.Valid.tail (Fields.Valid.tail h)) hv)))
      |>.andThen (Step.optField (c := v ≥ 7) (set := fun (t : MetadataResponsePartition3) x => { t with LeaderEpoch := x }) (·.LeaderEpoch) (fun _ => rfl) fun hc => read_int32 (Fields.Valid.head (Fields.Valid.tail (Fields.Valid.tail (Fields.Valid.tail h))) hc))
      |>.andThen (Step.field (set := fun (t : MetadataResponsePartition3) x => { t with ReplicaNodes := x }) (read_int32Array (Fields.Valid.head (Fields.Valid.tail (Fields.Valid.tail (Fields.Valid.tail (Fields.Valid.tail h)))) hv)))
      |>.andThen (Step.field (set := fun (t : MetadataResponsePartition3) x => { t with IsrNodes := x }) (read_int32Array (Fields.Valid.head (Fields.Valid.tail (Fields.Valid.tail (Fields.Valid.tail (Fields.Valid.tail (Fields.Valid.tail h))))) hv)))
      |>.andThen (Step.optField (c := v ≥ 5) (set := fun (t : MetadataResponsePartition3) x => { t with OfflineReplicas := x }) (·.OfflineReplicas) (fun _ => rfl) fun hc => read_int32Array (Fields.Valid.head (Fields.Valid.tail (Fields.Valid.tail (Fields.Valid.tail (Fields.Valid.tail (Fields.Valid.tail (Fields.Valid.tail h)))))) hc)) : Step _ _ _) t0)
    (Writes.eq (fs := Protocol.MetadataResponsePartition) (v := v) (x := x) <| Writes.all hv rfl <| Writes.all hv rfl <| Writes.all hv rfl <| Writes.since rfl <| Writes.all hv rfl <| Writes.all hv rfl <| Writes.since rfl <| Writes.done).symm rfl

theorem MetadataResponsePartition3.parses {v : Int16} (hv : 0 ≤ v) (t0 : MetadataResponsePartition3) :
    Parses (MetadataResponsePartition3.decode v t0) ((Ty.struct Protocol.MetadataResponsePartition).parse v) (fun x => MetadataResponsePartition3.of v x t0) :=
  FParses.parses (fs := Protocol.MetadataResponsePartition)
    (FParses.field hv (set := fun (t : MetadataResponsePartition3) x => { t with ErrorCode := x }) par_int16 <|
    FParses.field hv (set := fun (t : MetadataResponsePartition3) x => { t with PartitionIndex := x }) par_int32 <|
    FParses.field hv (set := fun (t : MetadataResponsePartition3) x => { t with LeaderId := x }) par_int32 <|
    FParses.optField (c := v ≥ 7) Iff.rfl (set := fun (t : MetadataResponsePartition3) x => { t with LeaderEpoch := x }) (·.LeaderEpoch) (fun _ => rfl) par_int32 <|
    FParses.field hv (set := fun (t : MetadataResponsePartition3) x => { t with ReplicaNodes := x }) par_int32Array <|
    FParses.field hv (set := fun (t : MetadataResponsePartition3) x => { t with IsrNodes := x }) par_int32Array <|
    FParses.optField (c := v ≥ 5) Iff.rfl (set := fun (t : MetadataResponsePartition3) x => { t with OfflineReplicas := x }) (·.OfflineReplicas) (fun _ => rfl) par_int32Array <|
    FParses.done)
    (by simp only [MetadataResponsePartition3.decode, Dec.andThen_assoc, Dec.andThen_nop]) (Fields.distinct_nodup _ (by decide +kernel)) (fun _ _ => rfl) t0

theorem MetadataResponsePartition3.shown {v : Int16} (hv : 0 ≤ v) (x : Val) (h : Protocol.MetadataResponsePartition.Typed v x) :
    Protocol.MetadataResponsePartition.shows v x (MetadataResponsePartition3.val (MetadataResponsePartition3.of v x {})) = true :=
  Shows.all hv (show_int16 (Fields.Typed.head (h) hv)) <|
    Shows.all hv (show_int32 (Fields.Typed.head (Fields.Typed.tail h) hv)) <|
    Shows.all hv (show_int32 (Fields.Typed.head (Fields.Typed.tail (Fields.Typed.tail h)) hv)) <|
    Shows.since (.int32) rfl (fun hc => show_int32 (Fields.Typed.head (Fields.Typed.tail (Fields.Typed.tail (Fields.Typed.tail h))) hc)) rfl <|
    Shows.all hv (show_int32Array (Fields.Typed.head (Fields.Typed.tail (Fields.Typed.tail (Fields.Typed.tail (Fields.Typed.tail h)))) hv)) <|
    Shows.all hv (show_int32Array (Fields.Typed.head (Fields.Typed.tail (Fields.Typed.tail (Fields.Typed.tail (Fields.Typed.tail (Fields.Typed.tail h))))) hv)) <|
    Shows.since (ofScalars .int32) rfl (fun hc => show_int32Array (Fields.Typed.head (Fields.Typed.tail (Fields.Typed.tail (Fields.Typed.tail (Fields.Typed.tail (Fields.Typed.tail (Fields.Typed.tail h)))))) hc)) rfl <|
    rfl

/-- `MetadataResponseTopic3` as a value of the protocol. -/
def MetadataResponseTopic3.val (t : MetadataResponseTopic3) : Val :=
  .struct [("ErrorCode", .int16 t.ErrorCode),
    ("Name", .str (some t.Name)),
    ("IsInternal", .bool t.IsInternal),
    ("Partitions", ofStructs MetadataResponsePartition3.val t.Partitions),
    ("TopicAuthorizedOperations", .int32 t.TopicAuthorizedOperations)]

theorem MetadataResponseTopic3.conforms {v : Int16} (hv : 0 ≤ v) (t : MetadataResponseTopic3) :
    Protocol.MetadataResponseTopic.wire false v (MetadataResponseTopic3.val t) = MetadataResponseTopic3.wire v t :=
  Writes.eq <|
    Writes.all hv (Protocol.wire_int16 v t.ErrorCode) <|
    Writes.all hv (Protocol.wire_string v t.Name) <|
    Writes.since (Protocol.wire_bool v t.IsInternal) <|
    Writes.all hv (Protocol.wire_structs v (MetadataResponsePartition3.conforms hv) t.Partitions) <|
    Writes.since (Protocol.wire_int32 v t.TopicAuthorizedOperations) <|
    Writes.done

/-- No slice of scalars is nil where the protocol has no null. -/
structure MetadataResponseTopic3.Full (v : Int16) (t : MetadataResponseTopic3) : Prop where
  Partitions : FullAll (MetadataResponsePartition3.Full v) t.Partitions

theorem MetadataResponseTopic3.valid {v : Int16} (hv : 0 ≤ v) (t : MetadataResponseTopic3) (h : t.Fits v) (hf : t.Full v) :
    Protocol.MetadataResponseTopic.Valid true v (MetadataResponseTopic3.val t) :=
  Valids.all trivial <|
    Valids.all (valid_string (h.Name)) <|
    Valids.since (fun _ => trivial) <|
    Valids.all (valid_structs (fun y h hf => MetadataResponsePartition3.valid hv y h hf) (h.Partitions) (hf.Partitions)) <|
    Valids.since (fun _ => trivial) <|
    trivial

/-- What `MetadataResponseTopic3` holds after reading the value `x` into `t0`. -/
def MetadataResponseTopic3.of (v : Int16) (x : Val) (t0 : MetadataResponseTopic3) : MetadataResponseTopic3 :=
  { ErrorCode := (x.get "ErrorCode").toInt16,
    Name := (x.get "Name").toStr,
    IsInternal := if v ≥ 1 then (x.get "IsInternal").toBool else t0.IsInternal,
    Partitions := (x.get "Partitions").toSliceOr (fun y => MetadataResponsePartition3.of v y {}) t0.Partitions,
    TopicAuthorizedOperations := if v ≥ 8 then (x.get "TopicAuthorizedOperations").toInt32 else t0.TopicAuthorizedOperations }

theorem MetadataResponseTopic3.decodes {v : Int16} (hv : 0 ≤ v) (x : Val) (h : Protocol.MetadataResponseTopic.Valid false v x) (t0 : MetadataResponseTopic3) :
    Reads (MetadataResponseTopic3.decode v t0) (Protocol.MetadataResponseTopic.wire false v x) (MetadataResponseTopic3.of v x t0) :=
  Reads.congr (((Step.field (set := fun (t : MetadataResponseTopic3) x => { t with ErrorCode := x }) (read_int16 (Fields.Valid.head (h) hv)))
      |>.andThen (Step.field (set := fun (t : MetadataResponseTopic3) x => { t with Name := x }) (read_string (Fields.Valid.head (Fields.Valid.tail h) hv)))
      |>.andThen (Step.optField (c := v ≥ 1) (set := fun (t : MetadataResponseTopic3) x => { t with IsInternal := x }) (·.IsInternal) (fun _ => rfl) fun hc => read_bool (Fields.Valid.head (Fields.Valid.tail (Fields.Valid.tail h)) hc))
      |>.andThen (Step.readStructs (get := fun (t : MetadataResponseTopic3) => t.Partitions) (set := fun (t : MetadataResponseTopic3) x => { t with Partitions := x }) (fun y hy => MetadataResponsePartition3.decodes hv y hy {}) (Fields.Valid.head (Fields.Valid.tail (Fields.Valid.tail (Fields.Valid.tail h))) hv))
      |>.andThen (Step.optField (c := v ≥ 8) (set := fun (t : MetadataResponseTopic3) x => { t with TopicAuthorizedOperations := x }) (·.TopicAuthorizedOperations) (fun _ => rfl) fun hc => read_int32 (Fields.Valid.head (Fields.Valid.tail (Fields.Valid.tail (Fields.Valid.tail (Fields.Valid.tail h)))) hc)) : Step _ _ _) t0)
    (Writes.eq (fs := Protocol.MetadataResponseTopic) (v := v) (x := x) <| Writes.all hv rfl <| Writes.all hv rfl <| Writes.since rfl <| Writes.all hv rfl <| Writes.since rfl <| Writes.done).symm rfl

theorem MetadataResponseTopic3.parses {v : Int16} (hv : 0 ≤ v) (t0 : MetadataResponseTopic3) :
    Parses (MetadataResponseTopic3.decode v t0) ((Ty.struct Protocol.MetadataResponseTopic).parse v) (fun x => MetadataResponseTopic3.of v x t0) :=
  FParses.parses (fs := Protocol.MetadataResponseTopic)
    (FParses.field hv (set := fun (t : MetadataResponseTopic3) x => { t with ErrorCode := x }) par_int16 <|
    FParses.field hv (set := fun (t : MetadataResponseTopic3) x => { t with Name := x }) par_string <|
    FParses.optField (c := v ≥ 1) Iff.rfl (set := fun (t : MetadataResponseTopic3) x => { t with IsInternal := x }) (·.IsInternal) (fun _ => rfl) par_bool <|
    FParses.structs hv (get := fun (t : MetadataResponseTopic3) => t.Partitions) (set := fun (t : MetadataResponseTopic3) x => { t with Partitions := x }) (MetadataResponsePartition3.parses hv {}) <|
    FParses.optField (c := v ≥ 8) Iff.rfl (set := fun (t : MetadataResponseTopic3) x => { t with TopicAuthorizedOperations := x }) (·.TopicAuthorizedOperations) (fun _ => rfl) par_int32 <|
    FParses.done)
    (by simp only [MetadataResponseTopic3.decode, Dec.andThen_assoc, Dec.andThen_nop]) (Fields.distinct_nodup _ (by decide +kernel)) (fun _ _ => rfl) t0

theorem MetadataResponseTopic3.shown {v : Int16} (hv : 0 ≤ v) (x : Val) (h : Protocol.MetadataResponseTopic.Typed v x) :
    Protocol.MetadataResponseTopic.shows v x (MetadataResponseTopic3.val (MetadataResponseTopic3.of v x {})) = true :=
  Shows.all hv (show_int16 (Fields.Typed.head (h) hv)) <|
    Shows.all hv (show_string (Fields.Typed.head (Fields.Typed.tail h) hv)) <|
    Shows.since (.bool) rfl (fun hc => show_bool (Fields.Typed.head (Fields.Typed.tail (Fields.Typed.tail h)) hc)) rfl <|
    Shows.all hv (show_structs (f := MetadataResponsePartition3.val) (g := fun y => MetadataResponsePartition3.of v y {}) (fun y hy => MetadataResponsePartition3.shown hv y hy) (Fields.Typed.head (Fields.Typed.tail (Fields.Typed.tail (Fields.Typed.tail h))) hv)) <|
    Shows.since (.int32) rfl (fun hc => show_int32 (Fields.Typed.head (Fields.Typed.tail (Fields.Typed.tail (Fields.Typed.tail (Fields.Typed.tail h)))) hc)) rfl <|
    rfl

/-- `MetadataResponse` as a value of the protocol. -/
def MetadataResponse.val (t : MetadataResponse) : Val :=
  .struct [("ThrottleTimeMs", .int32 t.ThrottleTimeMs),
    ("Brokers", ofStructs MetadataResponseBroker3.val t.Brokers),
    ("ClusterId", .str (some t.ClusterId)),
    ("ControllerId", .int32 t.ControllerId),
    ("Topics", ofStructs MetadataResponseTopic3.val t.Topics),
    ("ClusterAuthorizedOperations", .int32 t.ClusterAuthorizedOperations)]

theorem MetadataResponse.conforms {v : Int16} (hv : 0 ≤ v) (t : MetadataResponse) :
    Protocol.MetadataResponse.wire false v (MetadataResponse.val t) = MetadataResponse.wire v t :=
  Writes.eq <|
    Writes.since (Protocol.wire_int32 v t.ThrottleTimeMs) <|
    Writes.all hv (Protocol.wire_structs v (MetadataResponseBroker3.conforms hv) t.Brokers) <|
    Writes.since (Protocol.wire_string v t.ClusterId) <|
    Writes.since (Protocol.wire_int32 v t.ControllerId) <|
    Writes.all hv (Protocol.wire_structs v (MetadataResponseTopic3.conforms hv) t.Topics) <|
    Writes.since (Protocol.wire_int32 v t.ClusterAuthorizedOperations) <|
    Writes.done

/-- No slice of scalars is nil where the protocol has no null. -/
structure MetadataResponse.Full (v : Int16) (t : MetadataResponse) : Prop where
  Topics : FullAll (MetadataResponseTopic3.Full v) t.Topics

theorem MetadataResponse.valid {v : Int16} (hv : 0 ≤ v) (t : MetadataResponse) (h : t.Fits v) (hf : t.Full v) :
    Protocol.MetadataResponse.Valid true v (MetadataResponse.val t) :=
  Valids.since (fun _ => trivial) <|
    Valids.all (valid_structs (fun y h hf => MetadataResponseBroker3.valid hv y h hf) (h.Brokers) (fun _ _ => trivial)) <|
    Valids.since (fun hc => valid_string (h.ClusterId hc)) <|
    Valids.since (fun _ => trivial) <|
    Valids.all (valid_structs (fun y h hf => MetadataResponseTopic3.valid hv y h hf) (h.Topics) (hf.Topics)) <|
    Valids.since (fun _ => trivial) <|
    trivial

/-- What `MetadataResponse` holds after reading the value `x` into `t0`. -/
def MetadataResponse.of (v : Int16) (x : Val) (t0 : MetadataResponse) : MetadataResponse :=
  { ThrottleTimeMs := if v ≥ 3 then (x.get "ThrottleTimeMs").toInt32 else t0.ThrottleTimeMs,
    Brokers := (x.get "Brokers").toSliceOr (fun y => MetadataResponseBroker3.of v y {}) t0.Brokers,
    ClusterId := if v ≥ 2 then (x.get "ClusterId").toStr else t0.ClusterId,
    ControllerId := if v ≥ 1 then (x.get "ControllerId").toInt32 else t0.ControllerId,
    Topics := (x.get "Topics").toSliceOr (fun y => MetadataResponseTopic3.of v y {}) t0.Topics,
    ClusterAuthorizedOperations := if v ≥ 8 then (x.get "ClusterAuthorizedOperations").toInt32 else t0.ClusterAuthorizedOperations }

theorem MetadataResponse.decodes {v : Int16} (hv : 0 ≤ v) (x : Val) (h : Protocol.MetadataResponse.Valid false v x) (t0 : MetadataResponse) :
    Reads (MetadataResponse.decode v t0) (Protocol.MetadataResponse.wire false v x) (MetadataResponse.of v x t0) :=
  Reads.congr (((Step.optField (c := v ≥ 3) (set := fun (t : MetadataResponse) x => { t with ThrottleTimeMs := x }) (·.ThrottleTimeMs) (fun _ => rfl) fun hc => read_int32 (Fields.Valid.head (h) hc))
      |>.andThen (Step.readStructs (get := fun (t : MetadataResponse) => t.Brokers) (set := fun (t : MetadataResponse) x => { t with Brokers := x }) (fun y hy => MetadataResponseBroker3.decodes hv y hy {}) (Fields.Valid.head (Fields.Valid.tail h) hv))
      |>.andThen (Step.optField (c := v ≥ 2) (set := fun (t : MetadataResponse) x => { t with ClusterId := x }) (·.ClusterId) (fun _ => rfl) fun hc => read_string (Fields.Valid.head (Fields.Valid.tail (Fields.Valid.tail h)) hc))
      |>.andThen (Step.optField (c := v ≥ 1) (set := fun (t : MetadataResponse) x => { t with ControllerId := x }) (·.ControllerId) (fun _ => rfl) fun hc => read_int32 (Fields.Valid.head (Fields.Valid.tail (Fields.Valid.tail (Fields.Valid.tail h))) hc))
      |>.andThen (Step.readStructs (get := fun (t : MetadataResponse) => t.Topics) (set := fun (t : MetadataResponse) x => { t with Topics := x }) (fun y hy => MetadataResponseTopic3.decodes hv y hy {}) (Fields.Valid.head (Fields.Valid.tail (Fields.Valid.tail (Fields.Valid.tail (Fields.Valid.tail h)))) hv))
      |>.andThen (Step.optField (c := v ≥ 8) (set := fun (t : MetadataResponse) x => { t with ClusterAuthorizedOperations := x }) (·.ClusterAuthorizedOperations) (fun _ => rfl) fun hc => read_int32 (Fields.Valid.head (Fields.Valid.tail (Fields.Valid.tail (Fields.Valid.tail (Fields.Valid.tail (Fields.Valid.tail h))))) hc)) : Step _ _ _) t0)
    (Writes.eq (fs := Protocol.MetadataResponse) (v := v) (x := x) <| Writes.since rfl <| Writes.all hv rfl <| Writes.since rfl <| Writes.since rfl <| Writes.all hv rfl <| Writes.since rfl <| Writes.done).symm rfl

theorem MetadataResponse.parses {v : Int16} (hv : 0 ≤ v) (t0 : MetadataResponse) :
    Parses (MetadataResponse.decode v t0) ((Ty.struct Protocol.MetadataResponse).parse v) (fun x => MetadataResponse.of v x t0) :=
  FParses.parses (fs := Protocol.MetadataResponse)
    (FParses.optField (c := v ≥ 3) Iff.rfl (set := fun (t : MetadataResponse) x => { t with ThrottleTimeMs := x }) (·.ThrottleTimeMs) (fun _ => rfl) par_int32 <|
    FParses.structs hv (get := fun (t : MetadataResponse) => t.Brokers) (set := fun (t : MetadataResponse) x => { t with Brokers := x }) (MetadataResponseBroker3.parses hv {}) <|
    FParses.optField (c := v ≥ 2) Iff.rfl (set := fun (t : MetadataResponse) x => { t with ClusterId := x }) (·.ClusterId) (fun _ => rfl) par_string <|
    FParses.optField (c := v ≥ 1) Iff.rfl (set := fun (t : MetadataResponse) x => { t with ControllerId := x }) (·.ControllerId) (fun _ => rfl) par_int32 <|
    FParses.structs hv (get := fun (t : MetadataResponse) => t.Topics) (set := fun (t : MetadataResponse) x => { t with Topics := x }) (MetadataResponseTopic3.parses hv {}) <|
    FParses.optField (c := v ≥ 8) Iff.rfl (set := fun (t : MetadataResponse) x => { t with ClusterAuthorizedOperations := x }) (·.ClusterAuthorizedOperations) (fun _ => rfl) par_int32 <|
    FParses.done)
    (by simp only [MetadataResponse.decode, Dec.andThen_assoc, Dec.andThen_nop]) (Fields.distinct_nodup _ (by decide +kernel)) (fun _ _ => rfl) t0

theorem MetadataResponse.shown {v : Int16} (hv : 0 ≤ v) (x : Val) (h : Protocol.MetadataResponse.Typed v x) :
    Protocol.MetadataResponse.shows v x (MetadataResponse.val (MetadataResponse.of v x {})) = true :=
  Shows.since (.int32) rfl (fun hc => show_int32 (Fields.Typed.head (h) hc)) rfl <|
    Shows.all hv (show_structs (f := MetadataResponseBroker3.val) (g := fun y => MetadataResponseBroker3.of v y {}) (fun y hy => MetadataResponseBroker3.shown hv y hy) (Fields.Typed.head (Fields.Typed.tail h) hv)) <|
    Shows.since (fun s => .str (some s)) rfl (fun hc => show_string (Fields.Typed.head (Fields.Typed.tail (Fields.Typed.tail h)) hc)) rfl <|
    Shows.since (.int32) rfl (fun hc => show_int32 (Fields.Typed.head (Fields.Typed.tail (Fields.Typed.tail (Fields.Typed.tail h))) hc)) rfl <|
    Shows.all hv (show_structs (f := MetadataResponseTopic3.val) (g := fun y => MetadataResponseTopic3.of v y {}) (fun y hy => MetadataResponseTopic3.shown hv y hy) (Fields.Typed.head (Fields.Typed.tail (Fields.Typed.tail (Fields.Typed.tail (Fields.Typed.tail h)))) hv)) <|
    Shows.since (.int32) rfl (fun hc => show_int32 (Fields.Typed.head (Fields.Typed.tail (Fields.Typed.tail (Fields.Typed.tail (Fields.Typed.tail (Fields.Typed.tail h))))) hc)) rfl <|
    rfl

end Kafka.Msg
