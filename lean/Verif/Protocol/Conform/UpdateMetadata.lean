import Verif.Protocol.ParseLemmas
import Verif.Gen.Spec.UpdateMetadata
/-!
Generated by tools/gen_protocol.py: the UpdateMetadata messages are written and read as the protocol says.
-/
namespace Kafka.Msg

open Protocol

/-- `UpdateMetadataPartitionState6` as a value of the protocol. -/
def UpdateMetadataPartitionState6.val (t : UpdateMetadataPartitionState6) : Val :=
  .struct [("TopicName", .str (some t.TopicName)),
    ("PartitionIndex", .int32 t.PartitionIndex),
    ("ControllerEpoch", .int32 t.ControllerEpoch),
    ("Leader", .int32 t.Leader),
    ("LeaderEpoch", .int32 t.LeaderEpoch),
    ("Isr", ofScalars .int32 t.Isr),
    ("ZkVersion", .int32 t.ZkVersion),
    ("Replicas", ofScalars .int32 t.Replicas),
    ("OfflineReplicas", ofScalars .int32 t.OfflineReplicas)]

theorem UpdateMetadataPartitionState6.conforms {v : Int16} (hv : 0 ≤ v) (t : UpdateMetadataPartitionState6) :
    Protocol.UpdateMetadataPartitionState.wire false v (UpdateMetadataPartitionState6.val t) = UpdateMetadataPartitionState6.wire v t :=
  Writes.eq <|
    Writes.between (Protocol.wire_string v t.TopicName) <|
    Writes.all hv (Protocol.wire_int32 v t.PartitionIndex) <|
    Writes.all hv (Protocol.wire_int32 v t.ControllerEpoch) <|
    Writes.all hv (Protocol.wire_int32 v t.Leader) <|
    Writes.all hv (Protocol.wire_int32 v t.LeaderEpoch) <|
    Writes.all hv (Protocol.wire_int32Array v t.Isr) <|
    Writes.all hv (Protocol.wire_int32 v t.ZkVersion) <|
    Writes.all hv (Protocol.wire_int32Array v t.Replicas) <|
    Writes.since (Protocol.wire_int32Array v t.OfflineReplicas) <|
    Writes.done

/-- No slice of scalars is nil where the protocol has no null. -/
structure UpdateMetadataPartitionState6.Full (v : Int16) (t : UpdateMetadataPartitionState6) : Prop where
  Isr : t.Isr.NotNil
  Replicas : t.Replicas.NotNil
  OfflineReplicas : v ≥ 4 → t.OfflineReplicas.NotNil

theorem UpdateMetadataPartitionState6.valid {v : Int16} (_hv : 0 ≤ v) (t : UpdateMetadataPartitionState6) (h : t.Fits v) (hf : t.Full v) :
    Protocol.UpdateMetadataPartitionState.Valid true v (UpdateMetadataPartitionState6.val t) :=
  Valids.between (fun hc => valid_string (h.TopicName hc)) <|
    Valids.all trivial <|
    Valids.all trivial <|
    Valids.all trivial <|
    Valids.all trivial <|
    Valids.all (valid_int32Array (h.Isr) (.inr (hf.Isr))) <|
    Valids.all trivial <|
    Valids.all (valid_int32Array (h.Replicas) (.inr (hf.Replicas))) <|
    Valids.since (fun hc => valid_int32Array (h.OfflineReplicas hc) (.inr (hf.OfflineReplicas hc))) <|
    trivial

/-- `UpdateMetadataTopicState6` as a value of the protocol. -/
def UpdateMetadataTopicState6.val (t : UpdateMetadataTopicState6) : Val :=
  .struct [("TopicName", .str (some t.TopicName)),
    ("PartitionStates", ofStructs UpdateMetadataPartitionState6.val t.PartitionStates)]

theorem UpdateMetadataTopicState6.conforms {v : Int16} (hv : 0 ≤ v) (t : UpdateMetadataTopicState6) :
    Protocol.UpdateMetadataTopicState.wire false v (UpdateMetadataTopicState6.val t) = UpdateMetadataTopicState6.wire v t :=
  Writes.eq <|
    Writes.since (Protocol.wire_string v t.TopicName) <|
    Writes.since (Protocol.wire_structs v (UpdateMetadataPartitionState6.conforms hv) t.PartitionStates) <|
    Writes.done

/-- No slice of scalars is nil where the protocol has no null. -/
structure UpdateMetadataTopicState6.Full (v : Int16) (t : UpdateMetadataTopicState6) : Prop where
  PartitionStates : v ≥ 5 → FullAll (UpdateMetadataPartitionState6.Full v) t.PartitionStates

theorem UpdateMetadataTopicState6.valid {v : Int16} (hv : 0 ≤ v) (t : UpdateMetadataTopicState6) (h : t.Fits v) (hf : t.Full v) :
    Protocol.UpdateMetadataTopicState.Valid true v (UpdateMetadataTopicState6.val t) :=
  Valids.since (fun hc => valid_string (h.TopicName hc)) <|
    Valids.since (fun hc => valid_structs (fun y h hf => UpdateMetadataPartitionState6.valid hv y h hf) (h.PartitionStates hc) (hf.PartitionStates hc)) <|
    trivial

/-- `UpdateMetadataEndpoint6` as a value of the protocol. -/
def UpdateMetadataEndpoint6.val (t : UpdateMetadataEndpoint6) : Val :=
  .struct [("Port", .int32 t.Port),
    ("Host", .str (some t.Host)),
    ("Listener", .str (some t.Listener)),
    ("SecurityProtocol", .int16 t.SecurityProtocol)]

theorem UpdateMetadataEndpoint6.conforms {v : Int16} (_hv : 0 ≤ v) (t : UpdateMetadataEndpoint6) :
    Protocol.UpdateMetadataEndpoint.wire false v (UpdateMetadataEndpoint6.val t) = UpdateMetadataEndpoint6.wire v t :=
  Writes.eq <|
    Writes.since (Protocol.wire_int32 v t.Port) <|
    Writes.since (Protocol.wire_string v t.Host) <|
    Writes.since (Protocol.wire_string v t.Listener) <|
    Writes.since (Protocol.wire_int16 v t.SecurityProtocol) <|
    Writes.done

/-- There is nothing that may not be nil. -/
def UpdateMetadataEndpoint6.Full (_v : Int16) (_t : UpdateMetadataEndpoint6) : Prop := True

theorem UpdateMetadataEndpoint6.valid {v : Int16} (_hv : 0 ≤ v) (t : UpdateMetadataEndpoint6) (h : t.Fits v) (_hf : t.Full v) :
    Protocol.UpdateMetadataEndpoint.Valid true v (UpdateMetadataEndpoint6.val t) :=
  Valids.since (fun _ => trivial) <|
    Valids.since (fun hc => valid_string (h.Host hc)) <|
    Valids.since (fun hc => valid_string (h.Listener hc)) <|
    Valids.since (fun _ => trivial) <|
    trivial

/-- `UpdateMetadataBroker6` as a value of the protocol. -/
def UpdateMetadataBroker6.val (t : UpdateMetadataBroker6) : Val :=
  .struct [("Id", .int32 t.Id),
    ("V0Host", .str (some t.V0Host)),
    ("V0Port", .int32 t.V0Port),
    ("Endpoints", ofStructs UpdateMetadataEndpoint6.val t.Endpoints),
    ("Rack", .str (some t.Rack))]

theorem UpdateMetadataBroker6.conforms {v : Int16} (hv : 0 ≤ v) (t : UpdateMetadataBroker6) :
    Protocol.UpdateMetadataBroker.wire false v (UpdateMetadataBroker6.val t) = UpdateMetadataBroker6.wire v t :=
  Writes.eq <|
    Writes.all hv (Protocol.wire_int32 v t.Id) <|
    Writes.between (Protocol.wire_string v t.V0Host) <|
    Writes.between (Protocol.wire_int32 v t.V0Port) <|
    Writes.since (Protocol.wire_structs v (UpdateMetadataEndpoint6.conforms hv) t.Endpoints) <|
    Writes.since (Protocol.wire_string v t.Rack) <|
    Writes.done

/-- There is nothing that may not be nil. -/
def UpdateMetadataBroker6.Full (_v : Int16) (_t : UpdateMetadataBroker6) : Prop := True

theorem UpdateMetadataBroker6.valid {v : Int16} (hv : 0 ≤ v) (t : UpdateMetadataBroker6) (h : t.Fits v) (_hf : t.Full v) :
    Protocol.UpdateMetadataBroker.Valid true v (UpdateMetadataBroker6.val t) :=
  Valids.all trivial <|
    Valids.between (fun hc => valid_string (h.V0Host hc)) <|
    Valids.between (fun _ => trivial) <|
    Valids.since (fun hc => valid_structs (fun y h hf => UpdateMetadataEndpoint6.valid hv y h hf) (h.Endpoints hc) (fun _ _ => trivial)) <|
    Valids.since (fun hc => valid_string (h.Rack hc)) <|
    trivial

/-- `UpdateMetadataRequest` as a value of the protocol. -/
def UpdateMetadataRequest.val (t : UpdateMetadataRequest) : Val :=
  .struct [("ControllerId", .int32 t.ControllerId),
    ("ControllerEpoch", .int32 t.ControllerEpoch),
    ("BrokerEpoch", .int64 t.BrokerEpoch),
    ("UngroupedPartitionStates", ofStructs UpdateMetadataPartitionState6.val t.UngroupedPartitionStates),
    ("TopicStates", ofStructs UpdateMetadataTopicState6.val t.TopicStates),
    ("LiveBrokers", ofStructs UpdateMetadataBroker6.val t.LiveBrokers)]

theorem UpdateMetadataRequest.conforms {v : Int16} (hv : 0 ≤ v) (t : UpdateMetadataRequest) :
    Protocol.UpdateMetadataRequest.wire false v (UpdateMetadataRequest.val t) = UpdateMetadataRequest.wire v t :=
  Writes.eq <|
    Writes.all hv (Protocol.wire_int32 v t.ControllerId) <|
    Writes.all hv (Protocol.wire_int32 v t.ControllerEpoch) <|
    Writes.since (Protocol.wire_int64 v t.BrokerEpoch) <|
    Writes.between (Protocol.wire_structs v (UpdateMetadataPartitionState6.conforms hv) t.UngroupedPartitionStates) <|
    Writes.since (Protocol.wire_structs v (UpdateMetadataTopicState6.conforms hv) t.TopicStates) <|
    Writes.all hv (Protocol.wire_structs v (UpdateMetadataBroker6.conforms hv) t.LiveBrokers) <|
    Writes.done

/-- No slice of scalars is nil where the protocol has no null. -/
structure UpdateMetadataRequest.Full (v : Int16) (t : UpdateMetadataRequest) : Prop where
  UngroupedPartitionStates : v ≥ 0 ∧ v ≤ 4 → FullAll (UpdateMetadataPartitionState6.Full v) t.UngroupedPartitionStates
  TopicStates : v ≥ 5 → FullAll (UpdateMetadataTopicState6.Full v) t.TopicStates

theorem UpdateMetadataRequest.valid {v : Int16} (hv : 0 ≤ v) (t : UpdateMetadataRequest) (h : t.Fits v) (hf : t.Full v) :
    Protocol.UpdateMetadataRequest.Valid true v (UpdateMetadataRequest.val t) :=
  Valids.all trivial <|
    Valids.all trivial <|
    Valids.since (fun _ => trivial) <|
    Valids.between (fun hc => valid_structs (fun y h hf => UpdateMetadataPartitionState6.valid hv y h hf) (h.UngroupedPartitionStates hc) (hf.UngroupedPartitionStates hc)) <|
    Valids.since (fun hc => valid_structs (fun y h hf => UpdateMetadataTopicState6.valid hv y h hf) (h.TopicStates hc) (hf.TopicStates hc)) <|
    Valids.all (valid_structs (fun y h hf => UpdateMetadataBroker6.valid hv y h hf) (h.LiveBrokers) (fun _ _ => trivial)) <|
    trivial

/-- `UpdateMetadataResponse` as a value of the protocol. -/
def UpdateMetadataResponse.val (t : UpdateMetadataResponse) : Val :=
  .struct [("ErrorCode", .int16 t.ErrorCode)]

theorem UpdateMetadataResponse.conforms {v : Int16} (hv : 0 ≤ v) (t : UpdateMetadataResponse) :
    Protocol.UpdateMetadataResponse.wire false v (UpdateMetadataResponse.val t) = UpdateMetadataResponse.wire v t :=
  Writes.eq <|
    Writes.all hv (Protocol.wire_int16 v t.ErrorCode) <|
    Writes.done

/-- There is nothing that may not be nil. -/
def UpdateMetadataResponse.Full (_v : Int16) (_t : UpdateMetadataResponse) : Prop := True

theorem UpdateMetadataResponse.valid {v : Int16} (_hv : 0 ≤ v) (t : UpdateMetadataResponse) (_h : t.Fits v) (_hf : t.Full v) :
    Protocol.UpdateMetadataResponse.Valid true v (UpdateMetadataResponse.val t) :=
  Valids.all trivial <|
    trivial

/-- What `UpdateMetadataResponse` holds after reading the value `x` into `t0`. -/
def UpdateMetadataResponse.of (_v : Int16) (x : Val) (_t0 : UpdateMetadataResponse) : UpdateMetadataResponse :=
  { ErrorCode := (x.get "ErrorCode").toInt16 }

theorem UpdateMetadataResponse.decodes {v : Int16} (hv : 0 ≤ v) (x : Val) (h : Protocol.UpdateMetadataResponse.Valid false v x) (t0 : UpdateMetadataResponse) :
    Reads (UpdateMetadataResponse.decode v t0) (Protocol.UpdateMetadataResponse.wire false v x) (UpdateMetadataResponse.of v x t0) :=
  Reads.congr (((Step.field (set := fun (t : UpdateMetadataResponse) x => { t with ErrorCode := x }) (read_int16 (Fields.Valid.head (h) hv))) : Step _ _ _) t0)
    (Writes.eq (fs := Protocol.UpdateMetadataResponse) (v := v) (x := x) <| Writes.all hv rfl <| Writes.done).symm rfl

theorem UpdateMetadataResponse.parses {v : Int16} (hv : 0 ≤ v) (t0 : UpdateMetadataResponse) :
    Parses (UpdateMetadataResponse.decode v t0) ((Ty.struct Protocol.UpdateMetadataResponse).parse v) (fun x => UpdateMetadataResponse.of v x t0) :=
  FParses.parses (fs := Protocol.UpdateMetadataResponse)
    (FParses.field hv (set := fun (t : UpdateMetadataResponse) x => { t with ErrorCode := x }) par_int16 <|
    FParses.done)
    (by simp only [UpdateMetadataResponse.decode, Dec.andThen_nop]) (Fields.distinct_nodup _ (by decide +kernel)) (fun _ _ => rfl) t0

theorem UpdateMetadataResponse.shown {v : Int16} (hv : 0 ≤ v) (x : Val) (h : Protocol.UpdateMetadataResponse.Typed v x) :
    Protocol.UpdateMetadataResponse.shows v x (UpdateMetadataResponse.val (UpdateMetadataResponse.of v x {})) = true :=
  Shows.all hv (show_int16 (Fields.Typed.head (h) hv)) <|
    rfl

end Kafka.Msg
