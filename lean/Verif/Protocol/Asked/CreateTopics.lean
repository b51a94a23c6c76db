import Verif.Protocol.Conform.CreateTopics
/-!
Generated by tools/gen_protocol.py: the CreateTopics request is read as the protocol says.
-/
namespace Kafka.Msg

open Protocol

/-- What `CreatableReplicaAssignment19` holds after reading the value `x` into `t0`. -/
def CreatableReplicaAssignment19.of (_v : Int16) (x : Val) (_t0 : CreatableReplicaAssignment19) : CreatableReplicaAssignment19 :=
  { PartitionIndex := (x.get "PartitionIndex").toInt32,
    BrokerIds := (x.get "BrokerIds").toSlice Val.toInt32 }

theorem CreatableReplicaAssignment19.decodes {v : Int16} (hv : 0 ≤ v) (x : Val) (h : Protocol.CreatableReplicaAssignment.Valid false v x) (t0 : CreatableReplicaAssignment19) :
    Reads (CreatableReplicaAssignment19.decode v t0) (Protocol.CreatableReplicaAssignment.wire false v x) (CreatableReplicaAssignment19.of v x t0) :=
  Reads.congr (((Step.field (set := fun (t : CreatableReplicaAssignment19) x => { t with PartitionIndex := x }) (read_int32 (Fields.Valid.head (h) hv)))
      |>.andThen (Step.field (set := fun (t : CreatableReplicaAssignment19) x => { t with BrokerIds := x }) (read_int32Array (Fields.Valid.head (Fields.Valid.tail h) hv))) : Step _ _ _) t0)
    (Writes.eq (fs := Protocol.CreatableReplicaAssignment) (v := v) (x := x) <| Writes.all hv rfl <| Writes.all hv rfl <| Writes.done).symm rfl

theorem CreatableReplicaAssignment19.parses {v : Int16} (hv : 0 ≤ v) (t0 : CreatableReplicaAssignment19) :
    Parses (CreatableReplicaAssignment19.decode v t0) ((Ty.struct Protocol.CreatableReplicaAssignment).parse v) (fun x => CreatableReplicaAssignment19.of v x t0) :=
  FParses.parses (fs := Protocol.CreatableReplicaAssignment)
    (FParses.field hv (set := fun (t : CreatableReplicaAssignment19) x => { t with PartitionIndex := x }) par_int32 <|
    FParses.field hv (set := fun (t : CreatableReplicaAssignment19) x => { t with BrokerIds := x }) par_int32Array <|
    FParses.done)
    (by simp only [CreatableReplicaAssignment19.decode, Dec.andThen_nop]) (Fields.distinct_nodup _ (by decide +kernel)) (fun _ _ => rfl) t0

theorem CreatableReplicaAssignment19.shown {v : Int16} (hv : 0 ≤ v) (x : Val) (h : Protocol.CreatableReplicaAssignment.Typed v x) :
    Protocol.CreatableReplicaAssignment.shows v x (CreatableReplicaAssignment19.val (CreatableReplicaAssignment19.of v x {})) = true :=
  Shows.all hv (show_int32 (Fields.Typed.head (h) hv)) <|
    Shows.all hv (show_int32Array (Fields.Typed.head (Fields.Typed.tail h) hv)) <|
    rfl

/-- What `CreateableTopicConfig19` holds after reading the value `x` into `t0`. -/
def CreateableTopicConfig19.of (_v : Int16) (x : Val) (_t0 : CreateableTopicConfig19) : CreateableTopicConfig19 :=
  { Name := (x.get "Name").toStr,
    Value := (x.get "Value").toStr }

theorem CreateableTopicConfig19.decodes {v : Int16} (hv : 0 ≤ v) (x : Val) (h : Protocol.CreateableTopicConfig.Valid false v x) (t0 : CreateableTopicConfig19) :
    Reads (CreateableTopicConfig19.decode v t0) (Protocol.CreateableTopicConfig.wire false v x) (CreateableTopicConfig19.of v x t0) :=
  Reads.congr (((Step.field (set := fun (t : CreateableTopicConfig19) x => { t with Name := x }) (read_string (Fields.Valid.head (h) hv)))
      |>.andThen (Step.field (set := fun (t : CreateableTopicConfig19) x => { t with Value := x }) (read_string (Fields.Valid.head (Fields.Valid.tail h) hv))) : Step _ _ _) t0)
    (Writes.eq (fs := Protocol.CreateableTopicConfig) (v := v) (x := x) <| Writes.all hv rfl <| Writes.all hv rfl <| Writes.done).symm rfl

theorem CreateableTopicConfig19.parses {v : Int16} (hv : 0 ≤ v) (t0 : CreateableTopicConfig19) :
    Parses (CreateableTopicConfig19.decode v t0) ((Ty.struct Protocol.CreateableTopicConfig).parse v) (fun x => CreateableTopicConfig19.of v x t0) :=
  FParses.parses (fs := Protocol.CreateableTopicConfig)
    (FParses.field hv (set := fun (t : CreateableTopicConfig19) x => { t with Name := x }) par_string <|
    FParses.field hv (set := fun (t : CreateableTopicConfig19) x => { t with Value := x }) par_string <|
    FParses.done)
    (by simp only [CreateableTopicConfig19.decode, Dec.andThen_nop]) (Fields.distinct_nodup _ (by decide +kernel)) (fun _ _ => rfl) t0

theorem CreateableTopicConfig19.shown {v : Int16} (hv : 0 ≤ v) (x : Val) (h : Protocol.CreateableTopicConfig.Typed v x) :
    Protocol.CreateableTopicConfig.shows v x (CreateableTopicConfig19.val (CreateableTopicConfig19.of v x {})) = true :=
  Shows.all hv (show_string (Fields.Typed.head (h) hv)) <|
    Shows.all hv (show_string (Fields.Typed.head (Fields.Typed.tail h) hv)) <|
    rfl

/-- What `CreatableTopic19` holds after reading the value `x` into `t0`. -/
def CreatableTopic19.of (v : Int16) (x : Val) (t0 : CreatableTopic19) : CreatableTopic19 :=
  { Name := (x.get "Name").toStr,
    NumPartitions := (x.get "NumPartitions").toInt32,
    ReplicationFactor := (x.get "ReplicationFactor").toInt16,
    Assignments := (x.get "Assignments").toSliceOr (fun y => CreatableReplicaAssignment19.of v y {}) t0.Assignments,
    Configs := (x.get "Configs").toSliceOr (fun y => CreateableTopicConfig19.of v y {}) t0.Configs }

theorem CreatableTopic19.decodes {v : Int16} (hv : 0 ≤ v) (x : Val) (h : Protocol.CreatableTopic.Valid false v x) (t0 : CreatableTopic19) :
    Reads (CreatableTopic19.decode v t0) (Protocol.CreatableTopic.wire false v x) (CreatableTopic19.of v x t0) :=
  Reads.congr (((Step.field (set := fun (t : CreatableTopic19) x => { t with Name := x }) (read_string (Fields.Valid.head (h) hv)))
      |>.andThen (Step.field (set := fun (t : CreatableTopic19) x => { t with NumPartitions := x }) (read_int32 (Fields.Valid.head (Fields.Valid.tail h) hv)))
      |>.andThen (Step.field (set := fun (t : CreatableTopic19) x => { t with ReplicationFactor := x }) (read_int16 (Fields.Valid.head (Fields.Valid.tail (Fields.Valid.tail h)) hv)))
      |>.andThen (Step.readStructs (get := fun (t : CreatableTopic19) => t.Assignments) (set := fun (t : CreatableTopic19) x => { t with Assignments := x }) (fun y hy => CreatableReplicaAssignment19.decodes hv y hy {}) (Fields.Valid.head (Fields.Valid.tail (Fields.Valid.tail (Fields.Valid.tail h))) hv))
      |>.andThen (Step.readStructs (get := fun (t : CreatableTopic19) => t.Configs) (set := fun (t : CreatableTopic19) x => { t with Configs := x }) (fun y hy => CreateableTopicConfig19.decodes hv y hy {}) (Fields.Valid.head (Fields.Valid.tail (Fields.Valid.tail (Fields.Valid.tail (Fields.Valid.tail h)))) hv)) : Step _ _ _) t0)
    (Writes.eq (fs := Protocol.CreatableTopic) (v := v) (x := x) <| Writes.all hv rfl <| Writes.all hv rfl <| Writes.all hv rfl <| Writes.all hv rfl <| Writes.all hv rfl <| Writes.done).symm rfl

theorem CreatableTopic19.parses {v : Int16} (hv : 0 ≤ v) (t0 : CreatableTopic19) :
    Parses (CreatableTopic19.decode v t0) ((Ty.struct Protocol.CreatableTopic).parse v) (fun x => CreatableTopic19.of v x t0) :=
  FParses.parses (fs := Protocol.CreatableTopic)
    (FParses.field hv (set := fun (t : CreatableTopic19) x => { t with Name := x }) par_string <|
    FParses.field hv (set := fun (t : CreatableTopic19) x => { t with NumPartitions := x }) par_int32 <|
    FParses.field hv (set := fun (t : CreatableTopic19) x => { t with ReplicationFactor := x }) par_int16 <|
    FParses.structs hv (get := fun (t : CreatableTopic19) => t.Assignments) (set := fun (t : CreatableTopic19) x => { t with Assignments := x }) (CreatableReplicaAssignment19.parses hv {}) <|
    FParses.structs hv (get := fun (t : CreatableTopic19) => t.Configs) (set := fun (t : CreatableTopic19) x => { t with Configs := x }) (CreateableTopicConfig19.parses hv {}) <|
    FParses.done)
    (by simp only [CreatableTopic19.decode, Dec.andThen_assoc, Dec.andThen_nop]) (Fields.distinct_nodup _ (by decide +kernel)) (fun _ _ => rfl) t0

theorem CreatableTopic19.shown {v : Int16} (hv : 0 ≤ v) (x : Val) (h : Protocol.CreatableTopic.Typed v x) :
    Protocol.CreatableTopic.shows v x (CreatableTopic19.val (CreatableTopic19.of v x {})) = true :=
  Shows.all hv (show_string (Fields.Typed.head (h) hv)) <|
    Shows.all hv (show_int32 (Fields.Typed.head (Fields.Typed.tail h) hv)) <|
    Shows.all hv (show_int16 (Fields.Typed.head (Fields.Typed.tail (Fields.Typed.tail h)) hv)) <|
    Shows.all hv (show_structs (f := CreatableReplicaAssignment19.val) (g := fun y => CreatableReplicaAssignment19.of v y {}) (fun y hy => CreatableReplicaAssignment19.shown hv y hy) (Fields.Typed.head (Fields.Typed.tail (Fields.Typed.tail (Fields.Typed.tail h))) hv)) <|
    Shows.all hv (show_structs (f := CreateableTopicConfig19.val) (g := fun y => CreateableTopicConfig19.of v y {}) (fun y hy => CreateableTopicConfig19.shown hv y hy) (Fields.Typed.head (Fields.Typed.tail (Fields.Typed.tail (Fields.Typed.tail (Fields.Typed.tail h)))) hv)) <|
    rfl

/-- What `CreateTopicsRequest` holds after reading the value `x` into `t0`. -/
def CreateTopicsRequest.of (v : Int16) (x : Val) (t0 : CreateTopicsRequest) : CreateTopicsRequest :=
  { Topics := (x.get "Topics").toSliceOr (fun y => CreatableTopic19.of v y {}) t0.Topics,
    timeoutMs := (x.get "timeoutMs").toInt32,
    validateOnly := if v ≥ 1 then (x.get "validateOnly").toBool else t0.validateOnly }

theorem CreateTopicsRequest.decodes {v : Int16} (hv : 0 ≤ v) (x : Val) (h : Protocol.CreateTopicsRequest.Valid false v x) (t0 : CreateTopicsRequest) :
    Reads (CreateTopicsRequest.decode v t0) (Protocol.CreateTopicsRequest.wire false v x) (CreateTopicsRequest.of v x t0) :=
  Reads.congr (((Step.readStructs (get := fun (t : CreateTopicsRequest) => t.Topics) (set := fun (t : CreateTopicsRequest) x => { t with Topics := x }) (fun y hy => CreatableTopic19.decodes hv y hy {}) (Fields.Valid.head (h) hv))
      |>.andThen (Step.field (set := fun (t : CreateTopicsRequest) x => { t with timeoutMs := x }) (read_int32 (Fields.Valid.head (Fields.Valid.tail h) hv)))
      |>.andThen (Step.optField (c := v ≥ 1) (set := fun (t : CreateTopicsRequest) x => { t with validateOnly := x }) (·.validateOnly) (fun _ => rfl) fun hc => read_bool (Fields.Valid.head (Fields.Valid.tail (Fields.Valid.tail h)) hc)) : Step _ _ _) t0)
    (Writes.eq (fs := Protocol.CreateTopicsRequest) (v := v) (x := x) <| Writes.all hv rfl <| Writes.all hv rfl <| Writes.since rfl <| Writes.done).symm rfl

theorem CreateTopicsRequest.parses {v : Int16} (hv : 0 ≤ v) (t0 : CreateTopicsRequest) :
    Parses (CreateTopicsRequest.decode v t0) ((Ty.struct Protocol.CreateTopicsRequest).parse v) (fun x => CreateTopicsRequest.of v x t0) :=
  FParses.parses (fs := Protocol.CreateTopicsRequest)
    (FParses.structs hv (get := fun (t : CreateTopicsRequest) => t.Topics) (set := fun (t : CreateTopicsRequest) x => { t with Topics := x }) (CreatableTopic19.parses hv {}) <|
    FParses.field hv (set := fun (t : CreateTopicsRequest) x => { t with timeoutMs := x }) par_int32 <|
    FParses.optField (c := v ≥ 1) Iff.rfl (set := fun (t : CreateTopicsRequest) x => { t with validateOnly := x }) (·.validateOnly) (fun _ => rfl) par_bool <|
    FParses.done)
    (by simp only [CreateTopicsRequest.decode, Dec.andThen_assoc, Dec.andThen_nop]) (Fields.distinct_nodup _ (by decide +kernel)) (fun _ _ => rfl) t0

theorem CreateTopicsRequest.shown {v : Int16} (hv : 0 ≤ v) (x : Val) (h : Protocol.CreateTopicsRequest.Typed v x) :
    Protocol.CreateTopicsRequest.shows v x (CreateTopicsRequest.val (CreateTopicsRequest.of v x {})) = true :=
  Shows.all hv (show_structs (f := CreatableTopic19.val) (g := fun y => CreatableTopic19.of v y {}) (fun y hy => CreatableTopic19.shown hv y hy) (Fields.Typed.head (h) hv)) <|
    Shows.all hv (show_int32 (Fields.Typed.head (Fields.Typed.tail h) hv)) <|
    Shows.since (.bool) rfl (fun hc => show_bool (Fields.Typed.head (Fields.Typed.tail (Fields.Typed.tail h)) hc)) rfl <|
    rfl

end Kafka.Msg
