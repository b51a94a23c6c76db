import Verif.Protocol.ParseLemmas
import Verif.Gen.Spec.CreateTopics
/-!
Generated by tools/gen_protocol.py: the CreateTopics messages are written and read as the protocol says.
-/
set_option linter.unusedVariables false
namespace Kafka.Msg

open Protocol

/-- `CreatableReplicaAssignment19` as a value of the protocol. -/
def CreatableReplicaAssignment19.val (t : CreatableReplicaAssignment19) : Val :=
  .struct [("PartitionIndex", .int32 t.PartitionIndex),
    ("BrokerIds", ofScalars .int32 t.BrokerIds)]

theorem CreatableReplicaAssignment19.conforms {v : Int16} (hv : 0 ≤ v) (t : CreatableReplicaAssignment19) :
    Protocol.CreatableReplicaAssignment.wire false v (CreatableReplicaAssignment19.val t) = CreatableReplicaAssignment19.wire v t :=
  Writes.eq <|
    Writes.all hv (Protocol.wire_int32 v t.PartitionIndex) <|
    Writes.all hv (Protocol.wire_int32Array v t.BrokerIds) <|
    Writes.done

/-- No slice of scalars is nil where the protocol has no null. -/
structure CreatableReplicaAssignment19.Full (v : Int16) (t : CreatableReplicaAssignment19) : Prop where
  BrokerIds : t.BrokerIds.NotNil

theorem CreatableReplicaAssignment19.valid {v : Int16} (_hv : 0 ≤ v) (t : CreatableReplicaAssignment19) (h : t.Fits v) (hf : t.Full v) :
    Protocol.CreatableReplicaAssignment.Valid true v (CreatableReplicaAssignment19.val t) :=
  Valids.all trivial <|
    Valids.all (valid_int32Array (h.BrokerIds) (.inr (hf.BrokerIds))) <|
    trivial

/-- `CreateableTopicConfig19` as a value of the protocol. -/
def CreateableTopicConfig19.val (t : CreateableTopicConfig19) : Val :=
  .struct [("Name", .str (some t.Name)),
    ("Value", .str (some t.Value))]

theorem CreateableTopicConfig19.conforms {v : Int16} (hv : 0 ≤ v) (t : CreateableTopicConfig19) :
    Protocol.CreateableTopicConfig.wire false v (CreateableTopicConfig19.val t) = CreateableTopicConfig19.wire v t :=
  Writes.eq <|
    Writes.all hv (Protocol.wire_string v t.Name) <|
    Writes.all hv (Protocol.wire_string v t.Value) <|
    Writes.done

/-- There is nothing that may not be nil. -/
def CreateableTopicConfig19.Full (_v : Int16) (_t : CreateableTopicConfig19) : Prop := True

theorem CreateableTopicConfig19.valid {v : Int16} (_hv : 0 ≤ v) (t : CreateableTopicConfig19) (h : t.Fits v) (_hf : t.Full v) :
    Protocol.CreateableTopicConfig.Valid true v (CreateableTopicConfig19.val t) :=
  Valids.all (valid_string (h.Name)) <|
    Valids.all (valid_string (h.Value)) <|
    trivial

/-- `CreatableTopic19` as a value of the protocol. -/
def CreatableTopic19.val (t : CreatableTopic19) : Val :=
  .struct [("Name", .str (some t.Name)),
    ("NumPartitions", .int32 t.NumPartitions),
    ("ReplicationFactor", .int16 t.ReplicationFactor),
    ("Assignments", ofStructs CreatableReplicaAssignment19.val t.Assignments),
    ("Configs", ofStructs CreateableTopicConfig19.val t.Configs)]

theorem CreatableTopic19.conforms {v : Int16} (hv : 0 ≤ v) (t : CreatableTopic19) :
    Protocol.CreatableTopic.wire false v (CreatableTopic19.val t) = CreatableTopic19.wire v t :=
  Writes.eq <|
    Writes.all hv (Protocol.wire_string v t.Name) <|
    Writes.all hv (Protocol.wire_int32 v t.NumPartitions) <|
    Writes.all hv (Protocol.wire_int16 v t.ReplicationFactor) <|
    Writes.all hv (Protocol.wire_structs v (CreatableReplicaAssignment19.conforms hv) t.Assignments) <|
    Writes.all hv (Protocol.wire_structs v (CreateableTopicConfig19.conforms hv) t.Configs) <|
    Writes.done

/-- No slice of scalars is nil where the protocol has no null. -/
structure CreatableTopic19.Full (v : Int16) (t : CreatableTopic19) : Prop where
  Assignments : FullAll (CreatableReplicaAssignment19.Full v) t.Assignments

theorem CreatableTopic19.valid {v : Int16} (hv : 0 ≤ v) (t : CreatableTopic19) (h : t.Fits v) (hf : t.Full v) :
    Protocol.CreatableTopic.Valid true v (CreatableTopic19.val t) :=
  Valids.all (valid_string (h.Name)) <|
    Valids.all trivial <|
    Valids.all trivial <|
    Valids.all (valid_structs (fun y h hf => CreatableReplicaAssignment19.valid hv y h hf) (h.Assignments) (hf.Assignments)) <|
    Valids.all (valid_structs (fun y h hf => CreateableTopicConfig19.valid hv y h hf) (h.Configs) (fun _ _ => trivial)) <|
    trivial

/-- `CreateTopicsRequest` as a value of the protocol. -/
def CreateTopicsRequest.val (t : CreateTopicsRequest) : Val :=
  .struct [("Topics", ofStructs CreatableTopic19.val t.Topics),
    ("timeoutMs", .int32 t.timeoutMs),
    ("validateOnly", .bool t.validateOnly)]

theorem CreateTopicsRequest.conforms {v : Int16} (hv : 0 ≤ v) (t : CreateTopicsRequest) :
    Protocol.CreateTopicsRequest.wire false v (CreateTopicsRequest.val t) = CreateTopicsRequest.wire v t :=
  Writes.eq <|
    Writes.all hv (Protocol.wire_structs v (CreatableTopic19.conforms hv) t.Topics) <|
    Writes.all hv (Protocol.wire_int32 v t.timeoutMs) <|
    Writes.since (Protocol.wire_bool v t.validateOnly) <|
    Writes.done

/-- No slice of scalars is nil where the protocol has no null. -/
structure CreateTopicsRequest.Full (v : Int16) (t : CreateTopicsRequest) : Prop where
  Topics : FullAll (CreatableTopic19.Full v) t.Topics

theorem CreateTopicsRequest.valid {v : Int16} (hv : 0 ≤ v) (t : CreateTopicsRequest) (h : t.Fits v) (hf : t.Full v) :
    Protocol.CreateTopicsRequest.Valid true v (CreateTopicsRequest.val t) :=
  Valids.all (valid_structs (fun y h hf => CreatableTopic19.valid hv y h hf) (h.Topics) (hf.Topics)) <|
    Valids.all trivial <|
    Valids.since (fun _ => trivial) <|
    trivial

/-- `CreatableTopicConfigs19` as a value of the protocol. -/
def CreatableTopicConfigs19.val (t : CreatableTopicConfigs19) : Val :=
  .struct [("Name", .str (some t.Name)),
    ("Value", .str (some t.Value)),
    ("ReadOnly", .bool t.ReadOnly),
    ("ConfigSource", .int8 t.ConfigSource),
    ("IsSensitive", .bool t.IsSensitive)]

theorem CreatableTopicConfigs19.conforms {v : Int16} (_hv : 0 ≤ v) (t : CreatableTopicConfigs19) :
    Protocol.CreatableTopicConfigs.wire false v (CreatableTopicConfigs19.val t) = CreatableTopicConfigs19.wire v t :=
  Writes.eq <|
    Writes.since (Protocol.wire_string v t.Name) <|
    Writes.since (Protocol.wire_string v t.Value) <|
    Writes.since (Protocol.wire_bool v t.ReadOnly) <|
    Writes.since (Protocol.wire_int8 v t.ConfigSource) <|
    Writes.since (Protocol.wire_bool v t.IsSensitive) <|
    Writes.done

/-- There is nothing that may not be nil. -/
def CreatableTopicConfigs19.Full (_v : Int16) (_t : CreatableTopicConfigs19) : Prop := True

theorem CreatableTopicConfigs19.valid {v : Int16} (_hv : 0 ≤ v) (t : CreatableTopicConfigs19) (h : t.Fits v) (_hf : t.Full v) :
    Protocol.CreatableTopicConfigs.Valid true v (CreatableTopicConfigs19.val t) :=
  Valids.since (fun hc => valid_string (h.Name hc)) <|
    Valids.since (fun hc => valid_string (h.Value hc)) <|
    Valids.since (fun _ => trivial) <|
    Valids.since (fun _ => trivial) <|
    Valids.since (fun _ => trivial) <|
    trivial

/-- What `CreatableTopicConfigs19` holds after reading the value `x` into `t0`. -/
def CreatableTopicConfigs19.of (v : Int16) (x : Val) (t0 : CreatableTopicConfigs19) : CreatableTopicConfigs19 :=
  { Name := if v ≥ 5 then (x.get "Name").toStr else t0.Name,
    Value := if v ≥ 5 then (x.get "Value").toStr else t0.Value,
    ReadOnly := if v ≥ 5 then (x.get "ReadOnly").toBool else t0.ReadOnly,
    ConfigSource := if v ≥ 5 then (x.get "ConfigSource").toInt8 else t0.ConfigSource,
    IsSensitive := if v ≥ 5 then (x.get "IsSensitive").toBool else t0.IsSensitive }

theorem CreatableTopicConfigs19.decodes {v : Int16} (_hv : 0 ≤ v) (x : Val) (h : Protocol.CreatableTopicConfigs.Valid false v x) (t0 : CreatableTopicConfigs19) :
    Reads (CreatableTopicConfigs19.decode v t0) (Protocol.CreatableTopicConfigs.wire false v x) (CreatableTopicConfigs19.of v x t0) :=
  Reads.congr (((Step.optField (c := v ≥ 5) (set := fun (t : CreatableTopicConfigs19) x => { t with Name := x }) (·.Name) (fun _ => rfl) fun hc => read_string (Fields.Valid.head (h) hc))
      |>.andThen (Step.optField (c := v ≥ 5) (set := fun (t : CreatableTopicConfigs19) x => { t with Value := x }) (·.Value) (fun _ => rfl) fun hc => read_string (Fields.Valid.head (Fields.Valid.tail h) hc))
      |>.andThen (Step.optField (c := v ≥ 5) (set := fun (t : CreatableTopicConfigs19) x => { t with ReadOnly := x }) (·.ReadOnly) (fun _ => rfl) fun hc => read_bool (Fields.Valid.head (Fields.Valid.tail (Fields.Valid.tail h)) hc))
      |>.andThen (Step.optField (c := v ≥ 5) (set := fun (t : CreatableTopicConfigs19) x => { t with ConfigSource := x }) (·.ConfigSource) (fun _ => rfl) fun hc => read_int8 (Fields.Valid.head (Fields.Valid.tail (Fields.Valid.tail (Fields.Valid.tail h))) hc))
      |>.andThen (Step.optField (c := v ≥ 5) (set := fun (t : CreatableTopicConfigs19) x => { t with IsSensitive := x }) (·.IsSensitive) (fun _ => rfl) fun hc => read_bool (Fields.Valid.head (Fields.Valid.tail (Fields.Valid.tail (Fields.Valid.tail (Fields.Valid.tail h)))) hc)) : Step _ _ _) t0)
    (Writes.eq (fs := Protocol.CreatableTopicConfigs) (v := v) (x := x) <| Writes.since rfl <| Writes.since rfl <| Writes.since rfl <| Writes.since rfl <| Writes.since rfl <| Writes.done).symm rfl

theorem CreatableTopicConfigs19.parses {v : Int16} (_hv : 0 ≤ v) (t0 : CreatableTopicConfigs19) :
    Parses (CreatableTopicConfigs19.decode v t0) ((Ty.struct Protocol.CreatableTopicConfigs).parse v) (fun x => CreatableTopicConfigs19.of v x t0) :=
  FParses.parses (fs := Protocol.CreatableTopicConfigs)
    (FParses.optField (c := v ≥ 5) Iff.rfl (set := fun (t : CreatableTopicConfigs19) x => { t with Name := x }) (·.Name) (fun _ => rfl) par_string <|
    FParses.optField (c := v ≥ 5) Iff.rfl (set := fun (t : CreatableTopicConfigs19) x => { t with Value := x }) (·.Value) (fun _ => rfl) par_string <|
    FParses.optField (c := v ≥ 5) Iff.rfl (set := fun (t : CreatableTopicConfigs19) x => { t with ReadOnly := x }) (·.ReadOnly) (fun _ => rfl) par_bool <|
    FParses.optField (c := v ≥ 5) Iff.rfl (set := fun (t : CreatableTopicConfigs19) x => { t with ConfigSource := x }) (·.ConfigSource) (fun _ => rfl) par_int8 <|
    FParses.optField (c := v ≥ 5) Iff.rfl (set := fun (t : CreatableTopicConfigs19) x => { t with IsSensitive := x }) (·.IsSensitive) (fun _ => rfl) par_bool <|
    FParses.done)
    (by simp only [CreatableTopicConfigs19.decode, Dec.andThen_assoc, Dec.andThen_nop]) (Fields.distinct_nodup _ (by decide +kernel)) (fun _ _ => rfl) t0

theorem CreatableTopicConfigs19.shown {v : Int16} (_hv : 0 ≤ v) (x : Val) (h : Protocol.CreatableTopicConfigs.Typed v x) :
    Protocol.CreatableTopicConfigs.shows v x (CreatableTopicConfigs19.val (CreatableTopicConfigs19.of v x {})) = true :=
  Shows.since (fun s => .str (some s)) rfl (fun hc => show_string (Fields.Typed.head (h) hc)) rfl <|
    Shows.since (fun s => .str (some s)) rfl (fun hc => show_string (Fields.Typed.head (Fields.Typed.tail h) hc)) rfl <|
    Shows.since (.bool) rfl (fun hc => show_bool (Fields.Typed.head (Fields.Typed.tail (Fields.Typed.tail h)) hc)) rfl <|
    Shows.since (.int8) rfl (fun hc => show_int8 (Fields.Typed.head (Fields.Typed.tail (Fields.Typed.tail (Fields.Typed.tail h))) hc)) rfl <|
    Shows.since (.bool) rfl (fun hc => show_bool (Fields.Typed.head (Fields.Typed.tail (Fields.Typed.tail (Fields.Typed.tail (Fields.Typed.tail h)))) hc)) rfl <|
    rfl

/-- `CreatableTopicResult19` as a value of the protocol. -/
def CreatableTopicResult19.val (t : CreatableTopicResult19) : Val :=
  .struct [("Name", .str (some t.Name)),
    ("ErrorCode", .int16 t.ErrorCode),
    ("ErrorMessage", .str (some t.ErrorMessage)),
    ("NumPartitions", .int32 t.NumPartitions),
    ("ReplicationFactor", .int16 t.ReplicationFactor),
    ("Configs", ofStructs CreatableTopicConfigs19.val t.Configs)]

theorem CreatableTopicResult19.conforms {v : Int16} (hv : 0 ≤ v) (h5 : v < 5) (t : CreatableTopicResult19) :
    Protocol.CreatableTopicResult.wire false v (CreatableTopicResult19.val t) = CreatableTopicResult19.wire v t :=
  Writes.eq <|
    Writes.all hv (Protocol.wire_string v t.Name) <|
    Writes.all hv (Protocol.wire_int16 v t.ErrorCode) <|
    Writes.since (Protocol.wire_string v t.ErrorMessage) <|
    Writes.extra (notFive h5) <|
    Writes.since (Protocol.wire_int32 v t.NumPartitions) <|
    Writes.since (Protocol.wire_int16 v t.ReplicationFactor) <|
    Writes.since (Protocol.wire_structs v (CreatableTopicConfigs19.conforms hv) t.Configs) <|
    Writes.done

/-- There is nothing that may not be nil. -/
def CreatableTopicResult19.Full (_v : Int16) (_t : CreatableTopicResult19) : Prop := True

theorem CreatableTopicResult19.valid {v : Int16} (hv : 0 ≤ v) (h5 : v < 5) (t : CreatableTopicResult19) (h : t.Fits v) (_hf : t.Full v) :
    Protocol.CreatableTopicResult.Valid true v (CreatableTopicResult19.val t) :=
  Valids.all (valid_string (h.Name)) <|
    Valids.all trivial <|
    Valids.since (fun hc => valid_string (h.ErrorMessage hc)) <|
    Valids.since (fun _ => trivial) <|
    Valids.since (fun _ => trivial) <|
    Valids.since (fun hc => valid_structs (fun y h hf => CreatableTopicConfigs19.valid hv y h hf) (h.Configs hc) (fun _ _ => trivial)) <|
    trivial

/-- What `CreatableTopicResult19` holds after reading the value `x` into `t0`. -/
def CreatableTopicResult19.of (v : Int16) (x : Val) (t0 : CreatableTopicResult19) : CreatableTopicResult19 :=
  { Name := (x.get "Name").toStr,
    ErrorCode := (x.get "ErrorCode").toInt16,
    ErrorMessage := if v ≥ 1 then (x.get "ErrorMessage").toStr else t0.ErrorMessage,
    TopicConfigErrorCode := t0.TopicConfigErrorCode,
    NumPartitions := if v ≥ 5 then (x.get "NumPartitions").toInt32 else t0.NumPartitions,
    ReplicationFactor := if v ≥ 5 then (x.get "ReplicationFactor").toInt16 else t0.ReplicationFactor,
    Configs := if v ≥ 5 then (x.get "Configs").toSliceOr (fun y => CreatableTopicConfigs19.of v y {}) t0.Configs else t0.Configs }

theorem CreatableTopicResult19.decodes {v : Int16} (hv : 0 ≤ v) (h5 : v < 5) (x : Val) (h : Protocol.CreatableTopicResult.Valid false v x) (t0 : CreatableTopicResult19) :
    Reads (CreatableTopicResult19.decode v t0) (Protocol.CreatableTopicResult.wire false v x) (CreatableTopicResult19.of v x t0) :=
  Reads.congr (((Step.field (set := fun (t : CreatableTopicResult19) x => { t with Name := x }) (read_string (Fields.Valid.head (h) hv)))
      |>.andThen (Step.field (set := fun (t : CreatableTopicResult19) x => { t with ErrorCode := x }) (read_int16 (Fields.Valid.head (Fields.Valid.tail h) hv)))
      |>.andThen (Step.optField (c := v ≥ 1) (set := fun (t : CreatableTopicResult19) x => { t with ErrorMessage := x }) (·.ErrorMessage) (fun _ => rfl) fun hc => read_string (Fields.Valid.head (Fields.Valid.tail (Fields.Valid.tail h)) hc))
      |>.andThen (Step.absent (c := v ≥ 5) (w := []) (notFive h5))
      |>.andThen (Step.optField (c := v ≥ 5) (set := fun (t : CreatableTopicResult19) x => { t with NumPartitions := x }) (·.NumPartitions) (fun _ => rfl) fun hc => read_int32 (Fields.Valid.head (Fields.Valid.tail (Fields.Valid.tail (Fields.Valid.tail h))) hc))
      |>.andThen (Step.optField (c := v ≥ 5) (set := fun (t : CreatableTopicResult19) x => { t with ReplicationFactor := x }) (·.ReplicationFactor) (fun _ => rfl) fun hc => read_int16 (Fields.Valid.head (Fields.Valid.tail (Fields.Valid.tail (Fields.Valid.tail (Fields.Valid.tail h)))) hc))
      |>.andThen (Step.readOptStructs (c := v ≥ 5) (get := fun (t : CreatableTopicResult19) => t.Configs) (set := fun (t : CreatableTopicResult19) x => { t with Configs := x }) (fun _ => rfl) (fun y hy => CreatableTopicConfigs19.decodes hv y hy {}) fun hc => Fields.Valid.head (Fields.Valid.tail (Fields.Valid.tail (Fields.Valid.tail (Fields.Valid.tail (Fields.Valid.tail h))))) hc) : Step _ _ _) t0)
    (Writes.eq (fs := Protocol.CreatableTopicResult) (v := v) (x := x) <| Writes.all hv rfl <| Writes.all hv rfl <| Writes.since rfl <| Writes.extra (w := []) (notFive h5) <| Writes.since rfl <| Writes.since rfl <| Writes.since rfl <| Writes.done).symm rfl

theorem CreatableTopicResult19.parses {v : Int16} (hv : 0 ≤ v) (h5 : v < 5) (t0 : CreatableTopicResult19) :
    Parses (CreatableTopicResult19.decode v t0) ((Ty.struct Protocol.CreatableTopicResult).parse v) (fun x => CreatableTopicResult19.of v x t0) :=
  FParses.parses (fs := Protocol.CreatableTopicResult)
    (FParses.field hv (set := fun (t : CreatableTopicResult19) x => { t with Name := x }) par_string <|
    FParses.field hv (set := fun (t : CreatableTopicResult19) x => { t with ErrorCode := x }) par_int16 <|
    FParses.optField (c := v ≥ 1) Iff.rfl (set := fun (t : CreatableTopicResult19) x => { t with ErrorMessage := x }) (·.ErrorMessage) (fun _ => rfl) par_string <|
    FParses.extra (c := v ≥ 5) (f := Dec.field Dec.int16 (fun (t : CreatableTopicResult19) x => { t with TopicConfigErrorCode := x })) (notFive h5) <|
    FParses.optField (c := v ≥ 5) Iff.rfl (set := fun (t : CreatableTopicResult19) x => { t with NumPartitions := x }) (·.NumPartitions) (fun _ => rfl) par_int32 <|
    FParses.optField (c := v ≥ 5) Iff.rfl (set := fun (t : CreatableTopicResult19) x => { t with ReplicationFactor := x }) (·.ReplicationFactor) (fun _ => rfl) par_int16 <|
    FParses.optStructs (c := v ≥ 5) Iff.rfl (get := fun (t : CreatableTopicResult19) => t.Configs) (set := fun (t : CreatableTopicResult19) x => { t with Configs := x }) (fun _ => rfl) (CreatableTopicConfigs19.parses hv {}) <|
    FParses.done)
    (by simp only [CreatableTopicResult19.decode, Dec.andThen_assoc, Dec.andThen_nop]) (Fields.distinct_nodup _ (by decide +kernel)) (fun _ _ => rfl) t0

theorem CreatableTopicResult19.shown {v : Int16} (hv : 0 ≤ v) (h5 : v < 5) (x : Val) (h : Protocol.CreatableTopicResult.Typed v x) :
    Protocol.CreatableTopicResult.shows v x (CreatableTopicResult19.val (CreatableTopicResult19.of v x {})) = true :=
  Shows.all hv (show_string (Fields.Typed.head (h) hv)) <|
    Shows.all hv (show_int16 (Fields.Typed.head (Fields.Typed.tail h) hv)) <|
    Shows.since (fun s => .str (some s)) rfl (fun hc => show_string (Fields.Typed.head (Fields.Typed.tail (Fields.Typed.tail h)) hc)) rfl <|
    Shows.since (.int32) rfl (fun hc => show_int32 (Fields.Typed.head (Fields.Typed.tail (Fields.Typed.tail (Fields.Typed.tail h))) hc)) rfl <|
    Shows.since (.int16) rfl (fun hc => show_int16 (Fields.Typed.head (Fields.Typed.tail (Fields.Typed.tail (Fields.Typed.tail (Fields.Typed.tail h)))) hc)) rfl <|
    Shows.since (ofStructs CreatableTopicConfigs19.val) rfl (fun hc => show_structs (f := CreatableTopicConfigs19.val) (g := fun y => CreatableTopicConfigs19.of v y {}) (fun y hy => CreatableTopicConfigs19.shown hv y hy) (Fields.Typed.head (Fields.Typed.tail (Fields.Typed.tail (Fields.Typed.tail (Fields.Typed.tail (Fields.Typed.tail h))))) hc)) rfl <|
    rfl

/-- `CreateTopicsResponse` as a value of the protocol. -/
def CreateTopicsResponse.val (t : CreateTopicsResponse) : Val :=
  .struct [("ThrottleTimeMs", .int32 t.ThrottleTimeMs),
    ("Topics", ofStructs CreatableTopicResult19.val t.Topics)]

theorem CreateTopicsResponse.conforms {v : Int16} (hv : 0 ≤ v) (h5 : v < 5) (t : CreateTopicsResponse) :
    Protocol.CreateTopicsResponse.wire false v (CreateTopicsResponse.val t) = CreateTopicsResponse.wire v t :=
  Writes.eq <|
    Writes.since (Protocol.wire_int32 v t.ThrottleTimeMs) <|
    Writes.all hv (Protocol.wire_structs v (CreatableTopicResult19.conforms hv h5) t.Topics) <|
    Writes.done

/-- There is nothing that may not be nil. -/
def CreateTopicsResponse.Full (_v : Int16) (_t : CreateTopicsResponse) : Prop := True

theorem CreateTopicsResponse.valid {v : Int16} (hv : 0 ≤ v) (h5 : v < 5) (t : CreateTopicsResponse) (h : t.Fits v) (_hf : t.Full v) :
    Protocol.CreateTopicsResponse.Valid true v (CreateTopicsResponse.val t) :=
  Valids.since (fun _ => trivial) <|
    Valids.all (valid_structs (fun y h hf => CreatableTopicResult19.valid hv h5 y h hf) (h.Topics) (fun _ _ => trivial)) <|
    trivial

/-- What `CreateTopicsResponse` holds after reading the value `x` into `t0`. -/
def CreateTopicsResponse.of (v : Int16) (x : Val) (t0 : CreateTopicsResponse) : CreateTopicsResponse :=
  { ThrottleTimeMs := if v ≥ 2 then (x.get "ThrottleTimeMs").toInt32 else t0.ThrottleTimeMs,
    Topics := (x.get "Topics").toSliceOr (fun y => CreatableTopicResult19.of v y {}) t0.Topics }

theorem CreateTopicsResponse.decodes {v : Int16} (hv : 0 ≤ v) (h5 : v < 5) (x : Val) (h : Protocol.CreateTopicsResponse.Valid false v x) (t0 : CreateTopicsResponse) :
    Reads (CreateTopicsResponse.decode v t0) (Protocol.CreateTopicsResponse.wire false v x) (CreateTopicsResponse.of v x t0) :=
  Reads.congr (((Step.optField (c := v ≥ 2) (set := fun (t : CreateTopicsResponse) x => { t with ThrottleTimeMs := x }) (·.ThrottleTimeMs) (fun _ => rfl) fun hc => read_int32 (Fields.Valid.head (h) hc))
      |>.andThen (Step.readStructs (get := fun (t : CreateTopicsResponse) => t.Topics) (set := fun (t : CreateTopicsResponse) x => { t with Topics := x }) (fun y hy => CreatableTopicResult19.decodes hv h5 y hy {}) (Fields.Valid.head (Fields.Valid.tail h) hv)) : Step _ _ _) t0)
    (Writes.eq (fs := Protocol.CreateTopicsResponse) (v := v) (x := x) <| Writes.since rfl <| Writes.all hv rfl <| Writes.done).symm rfl

theorem CreateTopicsResponse.parses {v : Int16} (hv : 0 ≤ v) (h5 : v < 5) (t0 : CreateTopicsResponse) :
    Parses (CreateTopicsResponse.decode v t0) ((Ty.struct Protocol.CreateTopicsResponse).parse v) (fun x => CreateTopicsResponse.of v x t0) :=
  FParses.parses (fs := Protocol.CreateTopicsResponse)
    (FParses.optField (c := v ≥ 2) Iff.rfl (set := fun (t : CreateTopicsResponse) x => { t with ThrottleTimeMs := x }) (·.ThrottleTimeMs) (fun _ => rfl) par_int32 <|
    FParses.structs hv (get := fun (t : CreateTopicsResponse) => t.Topics) (set := fun (t : CreateTopicsResponse) x => { t with Topics := x }) (CreatableTopicResult19.parses hv h5 {}) <|
    FParses.done)
    (by simp only [CreateTopicsResponse.decode, Dec.andThen_nop]) (Fields.distinct_nodup _ (by decide +kernel)) (fun _ _ => rfl) t0

theorem CreateTopicsResponse.shown {v : Int16} (hv : 0 ≤ v) (h5 : v < 5) (x : Val) (h : Protocol.CreateTopicsResponse.Typed v x) :
    Protocol.CreateTopicsResponse.shows v x (CreateTopicsResponse.val (CreateTopicsResponse.of v x {})) = true :=
  Shows.since (.int32) rfl (fun hc => show_int32 (Fields.Typed.head (h) hc)) rfl <|
    Shows.all hv (show_structs (f := CreatableTopicResult19.val) (g := fun y => CreatableTopicResult19.of v y {}) (fun y hy => CreatableTopicResult19.shown hv h5 y hy) (Fields.Typed.head (Fields.Typed.tail h) hv)) <|
    rfl

end Kafka.Msg
