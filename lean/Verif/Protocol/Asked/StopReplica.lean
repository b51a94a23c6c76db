import Verif.Protocol.Conform.StopReplica
/-!
Generated by tools/gen_protocol.py: the StopReplica request is read as the protocol says.
-/
namespace Kafka.Msg

open Protocol

/-- What `StopReplicaPartitionV05` holds after reading the value `x` into `t0`. -/
def StopReplicaPartitionV05.of (v : Int16) (x : Val) (t0 : StopReplicaPartitionV05) : StopReplicaPartitionV05 :=
  { TopicName := if v ≥ 0 ∧ v ≤ 0 then (x.get "TopicName").toStr else t0.TopicName,
    PartitionIndex := if v ≥ 0 ∧ v ≤ 0 then (x.get "PartitionIndex").toInt32 else t0.PartitionIndex }

theorem StopReplicaPartitionV05.decodes {v : Int16} (_hv : 0 ≤ v) (x : Val) (h : Protocol.StopReplicaPartitionV0.Valid false v x) (t0 : StopReplicaPartitionV05) :
    Reads (StopReplicaPartitionV05.decode v t0) (Protocol.StopReplicaPartitionV0.wire false v x) (StopReplicaPartitionV05.of v x t0) :=
  Reads.congr (((Step.optField (c := v ≥ 0 ∧ v ≤ 0) (set := fun (t : StopReplicaPartitionV05) x => { t with TopicName := x }) (·.TopicName) (fun _ => rfl) fun hc => read_string (Fields.Valid.head (h) hc))
      |>.andThen (Step.optField (c := v ≥ 0 ∧ v ≤ 0) (set := fun (t : StopReplicaPartitionV05) x => { t with PartitionIndex := x }) (·.PartitionIndex) (fun _ => rfl) fun hc => read_int32 (Fields.Valid.head (Fields.Valid.tail h) hc)) : Step _ _ _) t0)
    (Writes.eq (fs := Protocol.StopReplicaPartitionV0) (v := v) (x := x) <| Writes.between rfl <| Writes.between rfl <| Writes.done).symm rfl

theorem StopReplicaPartitionV05.parses {v : Int16} (_hv : 0 ≤ v) (t0 : StopReplicaPartitionV05) :
    Parses (StopReplicaPartitionV05.decode v t0) ((Ty.struct Protocol.StopReplicaPartitionV0).parse v) (fun x => StopReplicaPartitionV05.of v x t0) :=
  FParses.parses (fs := Protocol.StopReplicaPartitionV0)
    (FParses.optField (c := v ≥ 0 ∧ v ≤ 0) Iff.rfl (set := fun (t : StopReplicaPartitionV05) x => { t with TopicName := x }) (·.TopicName) (fun _ => rfl) par_string <|
    FParses.optField (c := v ≥ 0 ∧ v ≤ 0) Iff.rfl (set := fun (t : StopReplicaPartitionV05) x => { t with PartitionIndex := x }) (·.PartitionIndex) (fun _ => rfl) par_int32 <|
    FParses.done)
    (by simp only [StopReplicaPartitionV05.decode, Dec.andThen_nop]) (Fields.distinct_nodup _ (by decide +kernel)) (fun _ _ => rfl) t0

theorem StopReplicaPartitionV05.shown {v : Int16} (_hv : 0 ≤ v) (x : Val) (h : Protocol.StopReplicaPartitionV0.Typed v x) :
    Protocol.StopReplicaPartitionV0.shows v x (StopReplicaPartitionV05.val (StopReplicaPartitionV05.of v x {})) = true :=
  Shows.between (fun s => .str (some s)) rfl (fun hc => show_string (Fields.Typed.head (h) hc)) rfl <|
    Shows.between (.int32) rfl (fun hc => show_int32 (Fields.Typed.head (Fields.Typed.tail h) hc)) rfl <|
    rfl

/-- What `StopReplicaTopic5` holds after reading the value `x` into `t0`. -/
def StopReplicaTopic5.of (v : Int16) (x : Val) (t0 : StopReplicaTopic5) : StopReplicaTopic5 :=
  { Name := if v ≥ 1 then (x.get "Name").toStr else t0.Name,
    PartitionIndexes := if v ≥ 1 then (x.get "PartitionIndexes").toSlice Val.toInt32 else t0.PartitionIndexes }

theorem StopReplicaTopic5.decodes {v : Int16} (_hv : 0 ≤ v) (x : Val) (h : Protocol.StopReplicaTopic.Valid false v x) (t0 : StopReplicaTopic5) :
    Reads (StopReplicaTopic5.decode v t0) (Protocol.StopReplicaTopic.wire false v x) (StopReplicaTopic5.of v x t0) :=
  Reads.congr (((Step.optField (c := v ≥ 1) (set := fun (t : StopReplicaTopic5) x => { t with Name := x }) (·.Name) (fun _ => rfl) fun hc => read_string (Fields.Valid.head (h) hc))
      |>.andThen (Step.optField (c := v ≥ 1) (set := fun (t : StopReplicaTopic5) x => { t with PartitionIndexes := x }) (·.PartitionIndexes) (fun _ => rfl) fun hc => read_int32Array (Fields.Valid.head (Fields.Valid.tail h) hc)) : Step _ _ _) t0)
    (Writes.eq (fs := Protocol.StopReplicaTopic) (v := v) (x := x) <| Writes.since rfl <| Writes.since rfl <| Writes.done).symm rfl

theorem StopReplicaTopic5.parses {v : Int16} (_hv : 0 ≤ v) (t0 : StopReplicaTopic5) :
    Parses (StopReplicaTopic5.decode v t0) ((Ty.struct Protocol.StopReplicaTopic).parse v) (fun x => StopReplicaTopic5.of v x t0) :=
  FParses.parses (fs := Protocol.StopReplicaTopic)
    (FParses.optField (c := v ≥ 1) Iff.rfl (set := fun (t : StopReplicaTopic5) x => { t with Name := x }) (·.Name) (fun _ => rfl) par_string <|
    FParses.optField (c := v ≥ 1) Iff.rfl (set := fun (t : StopReplicaTopic5) x => { t with PartitionIndexes := x }) (·.PartitionIndexes) (fun _ => rfl) par_int32Array <|
    FParses.done)
    (by simp only [StopReplicaTopic5.decode, Dec.andThen_nop]) (Fields.distinct_nodup _ (by decide +kernel)) (fun _ _ => rfl) t0

theorem StopReplicaTopic5.shown {v : Int16} (_hv : 0 ≤ v) (x : Val) (h : Protocol.StopReplicaTopic.Typed v x) :
    Protocol.StopReplicaTopic.shows v x (StopReplicaTopic5.val (StopReplicaTopic5.of v x {})) = true :=
  Shows.since (fun s => .str (some s)) rfl (fun hc => show_string (Fields.Typed.head (h) hc)) rfl <|
    Shows.since (ofScalars .int32) rfl (fun hc => show_int32Array (Fields.Typed.head (Fields.Typed.tail h) hc)) rfl <|
    rfl

/-- What `StopReplicaRequest` holds after reading the value `x` into `t0`. -/
def StopReplicaRequest.of (v : Int16) (x : Val) (t0 : StopReplicaRequest) : StopReplicaRequest :=
  { ControllerId := (x.get "ControllerId").toInt32,
    ControllerEpoch := (x.get "ControllerEpoch").toInt32,
    BrokerEpoch := if v ≥ 1 then (x.get "BrokerEpoch").toInt64 else t0.BrokerEpoch,
    DeletePartitions := (x.get "DeletePartitions").toBool,
    UngroupedPartitions := if v ≥ 0 ∧ v ≤ 0 then (x.get "UngroupedPartitions").toSliceOr (fun y => StopReplicaPartitionV05.of v y {}) t0.UngroupedPartitions else t0.UngroupedPartitions,
    Topics := if v ≥ 1 then (x.get "Topics").toSliceOr (fun y => StopReplicaTopic5.of v y {}) t0.Topics else t0.Topics }

theorem StopReplicaRequest.decodes {v : Int16} (hv : 0 ≤ v) (x : Val) (h : Protocol.StopReplicaRequest.Valid false v x) (t0 : StopReplicaRequest) :
    Reads (StopReplicaRequest.decode v t0) (Protocol.StopReplicaRequest.wire false v x) (StopReplicaRequest.of v x t0) :=
  Reads.congr (((Step.field (set := fun (t : StopReplicaRequest) x => { t with ControllerId := x }) (read_int32 (Fields.Valid.head (h) hv)))
      |>.andThen (Step.field (set := fun (t : StopReplicaRequest) x => { t with ControllerEpoch := x }) (read_int32 (Fields.Valid.head (Fields.Valid.tail h) hv)))
      |>.andThen (Step.optField (c := v ≥ 1) (set := fun (t : StopReplicaRequest) x => { t with BrokerEpoch := x }) (·.BrokerEpoch) (fun _ => rfl) fun hc => read_int64 (Fields.Valid.head (Fields.Valid.tail (Fields.Valid.tail h)) hc))
      |>.andThen (Step.field (set := fun (t : StopReplicaRequest) x => { t with DeletePartitions := x }) (read_bool (Fields.Valid.head (Fields.Valid.tail (Fields.Valid.tail (Fields.Valid.tail h))) hv)))
      |>.andThen (Step.readOptStructs (c := v ≥ 0 ∧ v ≤ 0) (get := fun (t : StopReplicaRequest) => t.UngroupedPartitions) (set := fun (t : StopReplicaRequest) x => { t with UngroupedPartitions := x }) (fun _ => rfl) (fun y hy => StopReplicaPartitionV05.decodes hv y hy {}) fun hc => Fields.Valid.head (Fields.Valid.tail (Fields.Valid.tail (Fields.Valid.tail (Fields.Valid.tail h)))) hc)
      |>.andThen (Step.readOptStructs (c := v ≥ 1) (get := fun (t : StopReplicaRequest) => t.Topics) (set := fun (t : StopReplicaRequest) x => { t with Topics := x }) (fun _ => rfl) (fun y hy => StopReplicaTopic5.decodes hv y hy {}) fun hc => Fields.Valid.head (Fields.Valid.tail (Fields.Valid.tail (Fields.Valid.tail (Fields.Valid.tail (Fields.Valid.tail h))))) hc) : Step _ _ _) t0)
    (Writes.eq (fs := Protocol.StopReplicaRequest) (v := v) (x := x) <| Writes.all hv rfl <| Writes.all hv rfl <| Writes.since rfl <| Writes.all hv rfl <| Writes.between rfl <| Writes.since rfl <| Writes.done).symm rfl

theorem StopReplicaRequest.parses {v : Int16} (hv : 0 ≤ v) (t0 : StopReplicaRequest) :
    Parses (StopReplicaRequest.decode v t0) ((Ty.struct Protocol.StopReplicaRequest).parse v) (fun x => StopReplicaRequest.of v x t0) :=
  FParses.parses (fs := Protocol.StopReplicaRequest)
    (FParses.field hv (set := fun (t : StopReplicaRequest) x => { t with ControllerId := x }) par_int32 <|
    FParses.field hv (set := fun (t : StopReplicaRequest) x => { t with ControllerEpoch := x }) par_int32 <|
    FParses.optField (c := v ≥ 1) Iff.rfl (set := fun (t : StopReplicaRequest) x => { t with BrokerEpoch := x }) (·.BrokerEpoch) (fun _ => rfl) par_int64 <|
    FParses.field hv (set := fun (t : StopReplicaRequest) x => { t with DeletePartitions := x }) par_bool <|
    FParses.optStructs (c := v ≥ 0 ∧ v ≤ 0) Iff.rfl (get := fun (t : StopReplicaRequest) => t.UngroupedPartitions) (set := fun (t : StopReplicaRequest) x => { t with UngroupedPartitions := x }) (fun _ => rfl) (StopReplicaPartitionV05.parses hv {}) <|
    FParses.optStructs (c := v ≥ 1) Iff.rfl (get := fun (t : StopReplicaRequest) => t.Topics) (set := fun (t : StopReplicaRequest) x => { t with Topics := x }) (fun _ => rfl) (StopReplicaTopic5.parses hv {}) <|
    FParses.done)
    (by simp only [StopReplicaRequest.decode, Dec.andThen_assoc, Dec.andThen_nop]) (Fields.distinct_nodup _ (by decide +kernel)) (fun _ _ => rfl) t0

theorem StopReplicaRequest.shown {v : Int16} (hv : 0 ≤ v) (x : Val) (h : Protocol.StopReplicaRequest.Typed v x) :
    Protocol.StopReplicaRequest.shows v x (StopReplicaRequest.val (StopReplicaRequest.of v x {})) = true :=
  Shows.all hv (show_int32 (Fields.Typed.head (h) hv)) <|
    Shows.all hv (show_int32 (Fields.Typed.head (Fields.Typed.tail h) hv)) <|
    Shows.since (.int64) rfl (fun hc => show_int64 (Fields.Typed.head (Fields.Typed.tail (Fields.Typed.tail h)) hc)) rfl <|
    Shows.all hv (show_bool (Fields.Typed.head (Fields.Typed.tail (Fields.Typed.tail (Fields.Typed.tail h))) hv)) <|
    Shows.between (ofStructs StopReplicaPartitionV05.val) rfl (fun hc => show_structs (f := StopReplicaPartitionV05.val) (g := fun y => StopReplicaPartitionV05.of v y {}) (fun y hy => StopReplicaPartitionV05.shown hv y hy) (Fields.Typed.head (Fields.Typed.tail (Fields.Typed.tail (Fields.Typed.tail (Fields.Typed.tail h)))) hc)) rfl <|
    Shows.since (ofStructs StopReplicaTopic5.val) rfl (fun hc => show_structs (f := StopReplicaTopic5.val) (g := fun y => StopReplicaTopic5.of v y {}) (fun y hy => StopReplicaTopic5.shown hv y hy) (Fields.Typed.head (Fields.Typed.tail (Fields.Typed.tail (Fields.Typed.tail (Fields.Typed.tail (Fields.Typed.tail h))))) hc)) rfl <|
    rfl

end Kafka.Msg
