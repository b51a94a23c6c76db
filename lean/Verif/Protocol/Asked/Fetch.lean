import Verif.Protocol.Conform.Fetch
/-!
Generated by tools/gen_protocol.py: the Fetch request is read as the protocol says.
-/
namespace Kafka.Msg

open Protocol

/-- What `FetchPartition1` holds after reading the value `x` into `t0`. -/
def FetchPartition1.of (v : Int16) (x : Val) (t0 : FetchPartition1) : FetchPartition1 :=
  { PartitionIndex := (x.get "PartitionIndex").toInt32,
    CurrentLeaderEpoch := if v ≥ 9 then (x.get "CurrentLeaderEpoch").toInt32 else t0.CurrentLeaderEpoch,
    FetchOffset := (x.get "FetchOffset").toInt64,
    LogStartOffset := if v ≥ 5 then (x.get "LogStartOffset").toInt64 else t0.LogStartOffset,
    MaxBytes := (x.get "MaxBytes").toInt32 }

theorem FetchPartition1.decodes {v : Int16} (hv : 0 ≤ v) (x : Val) (h : Protocol.FetchPartition.Valid false v x) (t0 : FetchPartition1) :
    Reads (FetchPartition1.decode v t0) (Protocol.FetchPartition.wire false v x) (FetchPartition1.of v x t0) :=
  Reads.congr (((Step.field (set := fun (t : FetchPartition1) x => { t with PartitionIndex := x }) (read_int32 (Fields.Valid.head (h) hv)))
      |>.andThen (Step.optField (c := v ≥ 9) (set := fun (t : FetchPartition1) x => { t with CurrentLeaderEpoch := x }) (·.CurrentLeaderEpoch) (fun _ => rfl) fun hc => read_int32 (Fields.Valid.head (Fields.Valid.tail h) hc))
      |>.andThen (Step.field (set := fun (t : FetchPartition1) x => { t with FetchOffset := x }) (read_int64 (Fields.Valid.head (Fields.Valid.tail (Fields.Valid.tail h)) hv)))
      |>.andThen (Step.optField (c := v ≥ 5) (set := fun (t : FetchPartition1) x => { t with LogStartOffset := x }) (·.LogStartOffset) (fun _ => rfl) fun hc => read_int64 (Fields.Valid.head (Fields.Valid.tail (Fields.Valid.tail (Fields.Valid.tail h))) hc))
      |>.andThen (Step.field (set := fun (t : FetchPartition1) x => { t with MaxBytes := x }) (read_int32 (Fields.Valid.head (Fields.Valid.tail (Fields.Valid.tail (Fields.Valid.tail (Fields.Valid.tail h)))) hv))) : Step _ _ _) t0)
    (Writes.eq (fs := Protocol.FetchPartition) (v := v) (x := x) <| Writes.all hv rfl <| Writes.since rfl <| Writes.all hv rfl <| Writes.since rfl <| Writes.all hv rfl <| Writes.done).symm rfl

theorem FetchPartition1.parses {v : Int16} (hv : 0 ≤ v) (t0 : FetchPartition1) :
    Parses (FetchPartition1.decode v t0) ((Ty.struct Protocol.FetchPartition).parse v) (fun x => FetchPartition1.of v x t0) :=
  FParses.parses (fs := Protocol.FetchPartition)
    (FParses.field hv (set := fun (t : FetchPartition1) x => { t with PartitionIndex := x }) par_int32 <|
    FParses.optField (c := v ≥ 9) Iff.rfl (set := fun (t : FetchPartition1) x => { t with CurrentLeaderEpoch := x }) (·.CurrentLeaderEpoch) (fun _ => rfl) par_int32 <|
    FParses.field hv (set := fun (t : FetchPartition1) x => { t with FetchOffset := x }) par_int64 <|
    FParses.optField (c := v ≥ 5) Iff.rfl (set := fun (t : FetchPartition1) x => { t with LogStartOffset := x }) (·.LogStartOffset) (fun _ => rfl) par_int64 <|
    FParses.field hv (set := fun (t : FetchPartition1) x => { t with MaxBytes := x }) par_int32 <|
    FParses.done)
    (by simp only [FetchPartition1.decode, Dec.andThen_assoc, Dec.andThen_nop]) (Fields.distinct_nodup _ (by decide +kernel)) (fun _ _ => rfl) t0

theorem FetchPartition1.shown {v : Int16} (hv : 0 ≤ v) (x : Val) (h : Protocol.FetchPartition.Typed v x) :
    Protocol.FetchPartition.shows v x (FetchPartition1.val (FetchPartition1.of v x {})) = true :=
  Shows.all hv (show_int32 (Fields.Typed.head (h) hv)) <|
    Shows.since (.int32) rfl (fun hc => show_int32 (Fields.Typed.head (Fields.Typed.tail h) hc)) rfl <|
    Shows.all hv (show_int64 (Fields.Typed.head (Fields.Typed.tail (Fields.Typed.tail h)) hv)) <|
    Shows.since (.int64) rfl (fun hc => show_int64 (Fields.Typed.head (Fields.Typed.tail (Fields.Typed.tail (Fields.Typed.tail h))) hc)) rfl <|
    Shows.all hv (show_int32 (Fields.Typed.head (Fields.Typed.tail (Fields.Typed.tail (Fields.Typed.tail (Fields.Typed.tail h)))) hv)) <|
    rfl

/-- What `FetchableTopic1` holds after reading the value `x` into `t0`. -/
def FetchableTopic1.of (v : Int16) (x : Val) (t0 : FetchableTopic1) : FetchableTopic1 :=
  { Name := (x.get "Name").toStr,
    FetchPartitions := (x.get "FetchPartitions").toSliceOr (fun y => FetchPartition1.of v y {}) t0.FetchPartitions }

theorem FetchableTopic1.decodes {v : Int16} (hv : 0 ≤ v) (x : Val) (h : Protocol.FetchableTopic.Valid false v x) (t0 : FetchableTopic1) :
    Reads (FetchableTopic1.decode v t0) (Protocol.FetchableTopic.wire false v x) (FetchableTopic1.of v x t0) :=
  Reads.congr (((Step.field (set := fun (t : FetchableTopic1) x => { t with Name := x }) (read_string (Fields.Valid.head (h) hv)))
      |>.andThen (Step.readStructs (get := fun (t : FetchableTopic1) => t.FetchPartitions) (set := fun (t : FetchableTopic1) x => { t with FetchPartitions := x }) (fun y hy => FetchPartition1.decodes hv y hy {}) (Fields.Valid.head (Fields.Valid.tail h) hv)) : Step _ _ _) t0)
    (Writes.eq (fs := Protocol.FetchableTopic) (v := v) (x := x) <| Writes.all hv rfl <| Writes.all hv rfl <| Writes.done).symm rfl

theorem FetchableTopic1.parses {v : Int16} (hv : 0 ≤ v) (t0 : FetchableTopic1) :
    Parses (FetchableTopic1.decode v t0) ((Ty.struct Protocol.FetchableTopic).parse v) (fun x => FetchableTopic1.of v x t0) :=
  FParses.parses (fs := Protocol.FetchableTopic)
    (FParses.field hv (set := fun (t : FetchableTopic1) x => { t with Name := x }) par_string <|
    FParses.structs hv (get := fun (t : FetchableTopic1) => t.FetchPartitions) (set := fun (t : FetchableTopic1) x => { t with FetchPartitions := x }) (FetchPartition1.parses hv {}) <|
    FParses.done)
    (by simp only [FetchableTopic1.decode, Dec.andThen_nop]) (Fields.distinct_nodup _ (by decide +kernel)) (fun _ _ => rfl) t0

theorem FetchableTopic1.shown {v : Int16} (hv : 0 ≤ v) (x : Val) (h : Protocol.FetchableTopic.Typed v x) :
    Protocol.FetchableTopic.shows v x (FetchableTopic1.val (FetchableTopic1.of v x {})) = true :=
  Shows.all hv (show_string (Fields.Typed.head (h) hv)) <|
    Shows.all hv (show_structs (f := FetchPartition1.val) (g := fun y => FetchPartition1.of v y {}) (fun y hy => FetchPartition1.shown hv y hy) (Fields.Typed.head (Fields.Typed.tail h) hv)) <|
    rfl

/-- What `ForgottenTopic1` holds after reading the value `x` into `t0`. -/
def ForgottenTopic1.of (v : Int16) (x : Val) (t0 : ForgottenTopic1) : ForgottenTopic1 :=
  { Name := if v ≥ 7 then (x.get "Name").toStr else t0.Name,
    ForgottenPartitionIndexes := if v ≥ 7 then (x.get "ForgottenPartitionIndexes").toSlice Val.toInt32 else t0.ForgottenPartitionIndexes }

theorem ForgottenTopic1.decodes {v : Int16} (_hv : 0 ≤ v) (x : Val) (h : Protocol.ForgottenTopic.Valid false v x) (t0 : ForgottenTopic1) :
    Reads (ForgottenTopic1.decode v t0) (Protocol.ForgottenTopic.wire false v x) (ForgottenTopic1.of v x t0) :=
  Reads.congr (((Step.optField (c := v ≥ 7) (set := fun (t : ForgottenTopic1) x => { t with Name := x }) (·.Name) (fun _ => rfl) fun hc => read_string (Fields.Valid.head (h) hc))
      |>.andThen (Step.optField (c := v ≥ 7) (set := fun (t : ForgottenTopic1) x => { t with ForgottenPartitionIndexes := x }) (·.ForgottenPartitionIndexes) (fun _ => rfl) fun hc => read_int32Array (Fields.Valid.head (Fields.Valid.tail h) hc)) : Step _ _ _) t0)
    (Writes.eq (fs := Protocol.ForgottenTopic) (v := v) (x := x) <| Writes.since rfl <| Writes.since rfl <| Writes.done).symm rfl

theorem ForgottenTopic1.parses {v : Int16} (_hv : 0 ≤ v) (t0 : ForgottenTopic1) :
    Parses (ForgottenTopic1.decode v t0) ((Ty.struct Protocol.ForgottenTopic).parse v) (fun x => ForgottenTopic1.of v x t0) :=
  FParses.parses (fs := Protocol.ForgottenTopic)
    (FParses.optField (c := v ≥ 7) Iff.rfl (set := fun (t : ForgottenTopic1) x => { t with Name := x }) (·.Name) (fun _ => rfl) par_string <|
    FParses.optField (c := v ≥ 7) Iff.rfl (set := fun (t : ForgottenTopic1) x => { t with ForgottenPartitionIndexes := x }) (·.ForgottenPartitionIndexes) (fun _ => rfl) par_int32Array <|
    FParses.done)
    (by simp only [ForgottenTopic1.decode, Dec.andThen_nop]) (Fields.distinct_nodup _ (by decide +kernel)) (fun _ _ => rfl) t0

theorem ForgottenTopic1.shown {v : Int16} (_hv : 0 ≤ v) (x : Val) (h : Protocol.ForgottenTopic.Typed v x) :
    Protocol.ForgottenTopic.shows v x (ForgottenTopic1.val (ForgottenTopic1.of v x {})) = true :=
  Shows.since (fun s => .str (some s)) rfl (fun hc => show_string (Fields.Typed.head (h) hc)) rfl <|
    Shows.since (ofScalars .int32) rfl (fun hc => show_int32Array (Fields.Typed.head (Fields.Typed.tail h) hc)) rfl <|
    rfl

/-- What `FetchRequest` holds after reading the value `x` into `t0`. -/
def FetchRequest.of (v : Int16) (x : Val) (t0 : FetchRequest) : FetchRequest :=
  { ReplicaId := (x.get "ReplicaId").toInt32,
    MaxWait := (x.get "MaxWait").toInt32,
    MinBytes := (x.get "MinBytes").toInt32,
    MaxBytes := if v ≥ 3 then (x.get "MaxBytes").toInt32 else t0.MaxBytes,
    IsolationLevel := if v ≥ 4 then (x.get "IsolationLevel").toInt8 else t0.IsolationLevel,
    SessionId := if v ≥ 7 then (x.get "SessionId").toInt32 else t0.SessionId,
    Epoch := if v ≥ 7 then (x.get "Epoch").toInt32 else t0.Epoch,
    Topics := (x.get "Topics").toSliceOr (fun y => FetchableTopic1.of v y {}) t0.Topics,
    Forgotten := if v ≥ 7 then (x.get "Forgotten").toSliceOr (fun y => ForgottenTopic1.of v y {}) t0.Forgotten else t0.Forgotten,
    RackId := if v ≥ 11 then (x.get "RackId").toStr else t0.RackId }

theorem FetchRequest.decodes {v : Int16} (hv : 0 ≤ v) (x : Val) (h : Protocol.FetchRequest.Valid false v x) (t0 : FetchRequest) :
    Reads (FetchRequest.decode v t0) (Protocol.FetchRequest.wire false v x) (FetchRequest.of v x t0) :=
  Reads.congr (((Step.field (set := fun (t : FetchRequest) x => { t with ReplicaId := x }) (read_int32 (Fields.Valid.head (h) hv)))
      |>.andThen (Step.field (set := fun (t : FetchRequest) x => { t with MaxWait := x }) (read_int32 (Fields.Valid.head (Fields.Valid.tail h) hv)))
      |>.andThen (Step.field (set := fun (t : FetchRequest) x => { t with MinBytes := x }) (read_int32 (Fields.Valid.head (Fields.Valid.tail (Fields.Valid.tail h)) hv)))
      |>.andThen (Step.optField (c := v ≥ 3) (set := fun (t : FetchRequest) x => { t with MaxBytes := x }) (·.MaxBytes) (fun _ => rfl) fun hc => read_int32 (Fields.Valid.head (Fields.Valid.tail (Fields.Valid.tail (Fields.Valid.tail h))) hc))
      |>.andThen (Step.optField (c := v ≥ 4) (set := fun (t : FetchRequest) x => { t with IsolationLevel := x }) (·.IsolationLevel) (fun _ => rfl) fun hc => read_int8 (Fields.Valid.head (Fields.Valid.tail (Fields.Valid.tail (Fields.Valid.tail (Fields.Valid.tail h)))) hc))
      |>.andThen (Step.optField (c := v ≥ 7) (set := fun (t : FetchRequest) x => { t with SessionId := x }) (·.SessionId) (fun _ => rfl) fun hc => read_int32 (Fields.Valid.head (Fields.Valid.tail (Fields.Valid.tail (Fields.Valid.tail (Fields.Valid.tail (Fields.Valid.tail h))))) hc))
      |>.andThen (Step.optField (c := v ≥ 7) (set := fun (t : FetchRequest) x => { t with Epoch := x }) (·.Epoch) (fun _ => rfl) fun hc => read_int32 (Fields.Valid.head (Fields.Valid.tail (Fields.Valid.tail (Fields.Valid.tail (Fields.Valid.tail (Fields.Valid.tail (Fields.Valid.tail h)))))) hc))
      |>.andThen (Step.readStructs (get := fun (t : FetchRequest) => t.Topics) (set := fun (t : FetchRequest) x => { t with Topics := x }) (fun y hy => FetchableTopic1.decodes hv y hy {}) (Fields.Valid.head (Fields.Valid.tail (Fields.Valid.tail (Fields.Valid.tail (Fields.Valid.tail (Fields.Valid.tail (Fields.Valid.tail (Fields.Valid.tail h))))))) hv))
      |>.andThen (Step.readOptStructs (c := v ≥ 7) (get := fun (t : FetchRequest) => t.Forgotten) (set := fun (t : FetchRequest) x => { t with Forgotten := x }) (fun _ => rfl) (fun y hy => ForgottenTopic1.decodes hv y hy {}) fun hc => Fields.Valid.head (Fields.Valid.tail (Fields.Valid.tail (Fields.Valid.tail (Fields.Valid.tail (Fields.Valid.tail (Fields.Valid.tail (Fields.Valid.tail (Fields.Valid.tail h)))))))) hc)
      |>.andThen (Step.optField (c := v ≥ 11) (set := fun (t : FetchRequest) x => { t with RackId := x }) (·.RackId) (fun _ => rfl) fun hc => read_string (Fields.Valid.head (Fields.Valid.tail (Fields.Valid.tail (Fields.Valid.tail (Fields.Valid.tail (Fields.Valid.tail (Fields.Valid.tail (Fields.Valid.tail (Fields.Valid.tail (Fields.Valid.tail h))))))))) hc)) : Step _ _ _) t0)
    (Writes.eq (fs := Protocol.FetchRequest) (v := v) (x := x) <| Writes.all hv rfl <| Writes.all hv rfl <| Writes.all hv rfl <| Writes.since rfl <| Writes.since rfl <| Writes.since rfl <| Writes.since rfl <| Writes.all hv rfl <| Writes.since rfl <| Writes.since rfl <| Writes.done).symm rfl

theorem FetchRequest.parses {v : Int16} (hv : 0 ≤ v) (t0 : FetchRequest) :
    Parses (FetchRequest.decode v t0) ((Ty.struct Protocol.FetchRequest).parse v) (fun x => FetchRequest.of v x t0) :=
  FParses.parses (fs := Protocol.FetchRequest)
    (FParses.field hv (set := fun (t : FetchRequest) x => { t with ReplicaId := x }) par_int32 <|
    FParses.field hv (set := fun (t : FetchRequest) x => { t with MaxWait := x }) par_int32 <|
    FParses.field hv (set := fun (t : FetchRequest) x => { t with MinBytes := x }) par_int32 <|
    FParses.optField (c := v ≥ 3) Iff.rfl (set := fun (t : FetchRequest) x => { t with MaxBytes := x }) (·.MaxBytes) (fun _ => rfl) par_int32 <|
    FParses.optField (c := v ≥ 4) Iff.rfl (set := fun (t : FetchRequest) x => { t with IsolationLevel := x }) (·.IsolationLevel) (fun _ => rfl) par_int8 <|
    FParses.optField (c := v ≥ 7) Iff.rfl (set := fun (t : FetchRequest) x => { t with SessionId := x }) (·.SessionId) (fun _ => rfl) par_int32 <|
    FParses.optField (c := v ≥ 7) Iff.rfl (set := fun (t : FetchRequest) x => { t with Epoch := x }) (·.Epoch) (fun _ => rfl) par_int32 <|
    FParses.structs hv (get := fun (t : FetchRequest) => t.Topics) (set := fun (t : FetchRequest) x => { t with Topics := x }) (FetchableTopic1.parses hv {}) <|
    FParses.optStructs (c := v ≥ 7) Iff.rfl (get := fun (t : FetchRequest) => t.Forgotten) (set := fun (t : FetchRequest) x => { t with Forgotten := x }) (fun _ => rfl) (ForgottenTopic1.parses hv {}) <|
    FParses.optField (c := v ≥ 11) Iff.rfl (set := fun (t : FetchRequest) x => { t with RackId := x }) (·.RackId) (fun _ => rfl) par_string <|
    FParses.done)
    (by simp only [FetchRequest.decode, Dec.andThen_assoc, Dec.andThen_nop]) (Fields.distinct_nodup _ (by decide +kernel)) (fun _ _ => rfl) t0

theorem FetchRequest.shown {v : Int16} (hv : 0 ≤ v) (x : Val) (h : Protocol.FetchRequest.Typed v x) :
    Protocol.FetchRequest.shows v x (FetchRequest.val (FetchRequest.of v x {})) = true :=
  Shows.all hv (show_int32 (Fields.Typed.head (h) hv)) <|
    Shows.all hv (show_int32 (Fields.Typed.head (Fields.Typed.tail h) hv)) <|
    Shows.all hv (show_int32 (Fields.Typed.head (Fields.Typed.tail (Fields.Typed.tail h)) hv)) <|
    Shows.since (.int32) rfl (fun hc => show_int32 (Fields.Typed.head (Fields.Typed.tail (Fields.Typed.tail (Fields.Typed.tail h))) hc)) rfl <|
    Shows.since (.int8) rfl (fun hc => show_int8 (Fields.Typed.head (Fields.Typed.tail (Fields.Typed.tail (Fields.Typed.tail (Fields.Typed.tail h)))) hc)) rfl <|
    Shows.since (.int32) rfl (fun hc => show_int32 (Fields.Typed.head (Fields.Typed.tail (Fields.Typed.tail (Fields.Typed.tail (Fields.Typed.tail (Fields.Typed.tail h))))) hc)) rfl <|
    Shows.since (.int32) rfl (fun hc => show_int32 (Fields.Typed.head (Fields.Typed.tail (Fields.Typed.tail (Fields.Typed.tail (Fields.Typed.tail (Fields.Typed.tail (Fields.Typed.tail h)))))) hc)) rfl <|
    Shows.all hv (show_structs (f := FetchableTopic1.val) (g := fun y => FetchableTopic1.of v y {}) (fun y hy => FetchableTopic1.shown hv y hy) (Fields.Typed.head (Fields.Typed.tail (Fields.Typed.tail (Fields.Typed.tail (Fields.Typed.tail (Fields.Typed.tail (Fields.Typed.tail (Fields.Typed.tail h))))))) hv)) <|
    Shows.since (ofStructs ForgottenTopic1.val) rfl (fun hc => show_structs (f := ForgottenTopic1.val) (g := fun y => ForgottenTopic1.of v y {}) (fun y hy => ForgottenTopic1.shown hv y hy) (Fields.Typed.head (Fields.Typed.tail (Fields.Typed.tail (Fields.Typed.tail (Fields.Typed.tail (Fields.Typed.tail (Fields.Typed.tail (Fields.Typed.tail (Fields.Typed.tail h)))))))) hc)) rfl <|
    Shows.since (fun s => .str (some s)) rfl (fun hc => show_string (Fields.Typed.head (Fields.Typed.tail (Fields.Typed.tail (Fields.Typed.tail (Fields.Typed.tail (Fields.Typed.tail (Fields.Typed.tail (Fields.Typed.tail (Fields.Typed.tail (Fields.Typed.tail h))))))))) hc)) rfl <|
    rfl

end Kafka.Msg
