import Verif.Protocol.ParseLemmas
import Verif.Gen.Spec.Fetch
/-!
Generated by tools/gen_protocol.py: the Fetch messages are written and read as the protocol says.
-/
namespace Kafka.Msg

open Protocol

/-- `FetchPartition1` as a value of the protocol. -/
def FetchPartition1.val (t : FetchPartition1) : Val :=
  .struct [("PartitionIndex", .int32 t.PartitionIndex),
    ("CurrentLeaderEpoch", .int32 t.CurrentLeaderEpoch),
    ("FetchOffset", .int64 t.FetchOffset),
    ("LogStartOffset", .int64 t.LogStartOffset),
    ("MaxBytes", .int32 t.MaxBytes)]

theorem FetchPartition1.conforms {v : Int16} (hv : 0 ≤ v) (t : FetchPartition1) :
    Protocol.FetchPartition.wire false v (FetchPartition1.val t) = FetchPartition1.wire v t :=
  Writes.eq <|
    Writes.all hv (Protocol.wire_int32 v t.PartitionIndex) <|
    Writes.since (Protocol.wire_int32 v t.CurrentLeaderEpoch) <|
    Writes.all hv (Protocol.wire_int64 v t.FetchOffset) <|
    Writes.since (Protocol.wire_int64 v t.LogStartOffset) <|
    Writes.all hv (Protocol.wire_int32 v t.MaxBytes) <|
    Writes.done

/-- There is nothing that may not be nil. -/
def FetchPartition1.Full (_v : Int16) (_t : FetchPartition1) : Prop := True

theorem FetchPartition1.valid {v : Int16} (_hv : 0 ≤ v) (t : FetchPartition1) (_h : t.Fits v) (_hf : t.Full v) :
    Protocol.FetchPartition.Valid true v (FetchPartition1.val t) :=
  Valids.all trivial <|
    Valids.since (fun _ => trivial) <|
    Valids.all trivial <|
    Valids.since (fun _ => trivial) <|
    Valids.all trivial <|
    trivial

/-- `FetchableTopic1` as a value of the protocol. -/
def FetchableTopic1.val (t : FetchableTopic1) : Val :=
  .struct [("Name", .str (some t.Name)),
    ("FetchPartitions", ofStructs FetchPartition1.val t.FetchPartitions)]

theorem FetchableTopic1.conforms {v : Int16} (hv : 0 ≤ v) (t : FetchableTopic1) :
    Protocol.FetchableTopic.wire false v (FetchableTopic1.val t) = FetchableTopic1.wire v t :=
  Writes.eq <|
    Writes.all hv (Protocol.wire_string v t.Name) <|
    Writes.all hv (Protocol.wire_structs v (FetchPartition1.conforms hv) t.FetchPartitions) <|
    Writes.done

/-- There is nothing that may not be nil. -/
def FetchableTopic1.Full (_v : Int16) (_t : FetchableTopic1) : Prop := True

theorem FetchableTopic1.valid {v : Int16} (hv : 0 ≤ v) (t : FetchableTopic1) (h : t.Fits v) (_hf : t.Full v) :
    Protocol.FetchableTopic.Valid true v (FetchableTopic1.val t) :=
  Valids.all (valid_string (h.Name)) <|
    Valids.all (valid_structs (fun y h hf => FetchPartition1.valid hv y h hf) (h.FetchPartitions) (fun _ _ => trivial)) <|
    trivial

/-- `ForgottenTopic1` as a value of the protocol. -/
def ForgottenTopic1.val (t : ForgottenTopic1) : Val :=
  .struct [("Name", .str (some t.Name)),
    ("ForgottenPartitionIndexes", ofScalars .int32 t.ForgottenPartitionIndexes)]

theorem ForgottenTopic1.conforms {v : Int16} (_hv : 0 ≤ v) (t : ForgottenTopic1) :
    Protocol.ForgottenTopic.wire false v (ForgottenTopic1.val t) = ForgottenTopic1.wire v t :=
  Writes.eq <|
    Writes.since (Protocol.wire_string v t.Name) <|
    Writes.since (Protocol.wire_int32Array v t.ForgottenPartitionIndexes) <|
    Writes.done

/-- No slice of scalars is nil where the protocol has no null. -/
structure ForgottenTopic1.Full (v : Int16) (t : ForgottenTopic1) : Prop where
  ForgottenPartitionIndexes : v ≥ 7 → t.ForgottenPartitionIndexes.NotNil

theorem ForgottenTopic1.valid {v : Int16} (_hv : 0 ≤ v) (t : ForgottenTopic1) (h : t.Fits v) (hf : t.Full v) :
    Protocol.ForgottenTopic.Valid true v (ForgottenTopic1.val t) :=
  Valids.since (fun hc => valid_string (h.Name hc)) <|
    Valids.since (fun hc => valid_int32Array (h.ForgottenPartitionIndexes hc) (.inr (hf.ForgottenPartitionIndexes hc))) <|
    trivial

/-- `FetchRequest` as a value of the protocol. -/
def FetchRequest.val (t : FetchRequest) : Val :=
  .struct [("ReplicaId", .int32 t.ReplicaId),
    ("MaxWait", .int32 t.MaxWait),
    ("MinBytes", .int32 t.MinBytes),
    ("MaxBytes", .int32 t.MaxBytes),
    ("IsolationLevel", .int8 t.IsolationLevel),
    ("SessionId", .int32 t.SessionId),
    ("Epoch", .int32 t.Epoch),
    ("Topics", ofStructs FetchableTopic1.val t.Topics),
    ("Forgotten", ofStructs ForgottenTopic1.val t.Forgotten),
    ("RackId", .str (some t.RackId))]

theorem FetchRequest.conforms {v : Int16} (hv : 0 ≤ v) (t : FetchRequest) :
    Protocol.FetchRequest.wire false v (FetchRequest.val t) = FetchRequest.wire v t :=
  Writes.eq <|
    Writes.all hv (Protocol.wire_int32 v t.ReplicaId) <|
    Writes.all hv (Protocol.wire_int32 v t.MaxWait) <|
    Writes.all hv (Protocol.wire_int32 v t.MinBytes) <|
    Writes.since (Protocol.wire_int32 v t.MaxBytes) <|
    Writes.since (Protocol.wire_int8 v t.IsolationLevel) <|
    Writes.since (Protocol.wire_int32 v t.SessionId) <|
    Writes.since (Protocol.wire_int32 v t.Epoch) <|
    Writes.all hv (Protocol.wire_structs v (FetchableTopic1.conforms hv) t.Topics) <|
    Writes.since (Protocol.wire_structs v (ForgottenTopic1.conforms hv) t.Forgotten) <|
    Writes.since (Protocol.wire_string v t.RackId) <|
    Writes.done

/-- No slice of scalars is nil where the protocol has no null. -/
structure FetchRequest.Full (v : Int16) (t : FetchRequest) : Prop where
  Forgotten : v ≥ 7 → FullAll (ForgottenTopic1.Full v) t.Forgotten

theorem FetchRequest.valid {v : Int16} (hv : 0 ≤ v) (t : FetchRequest) (h : t.Fits v) (hf : t.Full v) :
    Protocol.FetchRequest.Valid true v (FetchRequest.val t) :=
  Valids.all trivial <|
    Valids.all trivial <|
    Valids.all trivial <|
    Valids.since (fun _ => trivial) <|
    Valids.since (fun _ => trivial) <|
    Valids.since (fun _ => trivial) <|
    Valids.since (fun _ => trivial) <|
    Valids.all (valid_structs (fun y h hf => FetchableTopic1.valid hv y h hf) (h.Topics) (fun _ _ => trivial)) <|
    Valids.since (fun hc => valid_structs (fun y h hf => ForgottenTopic1.valid hv y h hf) (h.Forgotten hc) (hf.Forgotten hc)) <|
    Valids.since (fun hc => valid_string (h.RackId hc)) <|
    trivial

/-- `AbortedTransaction1` as a value of the protocol. -/
def AbortedTransaction1.val (t : AbortedTransaction1) : Val :=
  .struct [("ProducerId", .int64 t.ProducerId),
    ("FirstOffset", .int64 t.FirstOffset)]

theorem AbortedTransaction1.conforms {v : Int16} (_hv : 0 ≤ v) (t : AbortedTransaction1) :
    Protocol.AbortedTransaction.wire false v (AbortedTransaction1.val t) = AbortedTransaction1.wire v t :=
  Writes.eq <|
    Writes.since (Protocol.wire_int64 v t.ProducerId) <|
    Writes.since (Protocol.wire_int64 v t.FirstOffset) <|
    Writes.done

/-- There is nothing that may not be nil. -/
def AbortedTransaction1.Full (_v : Int16) (_t : AbortedTransaction1) : Prop := True

theorem AbortedTransaction1.valid {v : Int16} (_hv : 0 ≤ v) (t : AbortedTransaction1) (_h : t.Fits v) (_hf : t.Full v) :
    Protocol.AbortedTransaction.Valid true v (AbortedTransaction1.val t) :=
  Valids.since (fun _ => trivial) <|
    Valids.since (fun _ => trivial) <|
    trivial

/-- What `AbortedTransaction1` holds after reading the value `x` into `t0`. -/
def AbortedTransaction1.of (v : Int16) (x : Val) (t0 : AbortedTransaction1) : AbortedTransaction1 :=
  { ProducerId := if v ≥ 4 then (x.get "ProducerId").toInt64 else t0.ProducerId,
    FirstOffset := if v ≥ 4 then (x.get "FirstOffset").toInt64 else t0.FirstOffset }

theorem AbortedTransaction1.decodes {v : Int16} (_hv : 0 ≤ v) (x : Val) (h : Protocol.AbortedTransaction.Valid false v x) (t0 : AbortedTransaction1) :
    Reads (AbortedTransaction1.decode v t0) (Protocol.AbortedTransaction.wire false v x) (AbortedTransaction1.of v x t0) :=
  Reads.congr (((Step.optField (c := v ≥ 4) (set := fun (t : AbortedTransaction1) x => { t with ProducerId := x }) (·.ProducerId) (fun _ => rfl) fun hc => read_int64 (Fields.Valid.head (h) hc))
      |>.andThen (Step.optField (c := v ≥ 4) (set := fun (t : AbortedTransaction1) x => { t with FirstOffset := x }) (·.FirstOffset) (fun _ => rfl) fun hc => read_int64 (Fields.Valid.head (Fields.Valid.tail h) hc)) : Step _ _ _) t0)
    (Writes.eq (fs := Protocol.AbortedTransaction) (v := v) (x := x) <| Writes.since rfl <| Writes.since rfl <| Writes.done).symm rfl

theorem AbortedTransaction1.parses {v : Int16} (_hv : 0 ≤ v) (t0 : AbortedTransaction1) :
    Parses (AbortedTransaction1.decode v t0) ((Ty.struct Protocol.AbortedTransaction).parse v) (fun x => AbortedTransaction1.of v x t0) :=
  FParses.parses (fs := Protocol.AbortedTransaction)
    (FParses.optField (c := v ≥ 4) Iff.rfl (set := fun (t : AbortedTransaction1) x => { t with ProducerId := x }) (·.ProducerId) (fun _ => rfl) par_int64 <|
    FParses.optField (c := v ≥ 4) Iff.rfl (set := fun (t : AbortedTransaction1) x => { t with FirstOffset := x }) (·.FirstOffset) (fun _ => rfl) par_int64 <|
    FParses.done)
    (by simp only [AbortedTransaction1.decode, Dec.andThen_nop]) (Fields.distinct_nodup _ (by decide +kernel)) (fun _ _ => rfl) t0

theorem AbortedTransaction1.shown {v : Int16} (_hv : 0 ≤ v) (x : Val) (h : Protocol.AbortedTransaction.Typed v x) :
    Protocol.AbortedTransaction.shows v x (AbortedTransaction1.val (AbortedTransaction1.of v x {})) = true :=
  Shows.since (.int64) rfl (fun hc => show_int64 (Fields.Typed.head (h) hc)) rfl <|
    Shows.since (.int64) rfl (fun hc => show_int64 (Fields.Typed.head (Fields.Typed.tail h) hc)) rfl <|
    rfl

/-- `FetchablePartitionResponse1` as a value of the protocol. -/
def FetchablePartitionResponse1.val (t : FetchablePartitionResponse1) : Val :=
  .struct [("PartitionIndex", .int32 t.PartitionIndex),
    ("ErrorCode", .int16 t.ErrorCode),
    ("HighWatermark", .int64 t.HighWatermark),
    ("LastStableOffset", .int64 t.LastStableOffset),
    ("LogStartOffset", .int64 t.LogStartOffset),
    ("Aborted", ofStructs AbortedTransaction1.val t.Aborted),
    ("PreferredReadReplica", .int32 t.PreferredReadReplica),
    ("Records", .bytes (some t.Records.elems))]

theorem FetchablePartitionResponse1.conforms {v : Int16} (hv : 0 ≤ v) (t : FetchablePartitionResponse1) :
    Protocol.FetchablePartitionResponse.wire false v (FetchablePartitionResponse1.val t) = FetchablePartitionResponse1.wire v t :=
  Writes.eq <|
    Writes.all hv (Protocol.wire_int32 v t.PartitionIndex) <|
    Writes.all hv (Protocol.wire_int16 v t.ErrorCode) <|
    Writes.all hv (Protocol.wire_int64 v t.HighWatermark) <|
    Writes.since (Protocol.wire_int64 v t.LastStableOffset) <|
    Writes.since (Protocol.wire_int64 v t.LogStartOffset) <|
    Writes.since (Protocol.wire_structs v (AbortedTransaction1.conforms hv) t.Aborted) <|
    Writes.since (Protocol.wire_int32 v t.PreferredReadReplica) <|
    Writes.all hv (Protocol.wire_bytes v t.Records) <|
    Writes.done

/-- There is nothing that may not be nil. -/
def FetchablePartitionResponse1.Full (_v : Int16) (_t : FetchablePartitionResponse1) : Prop := True

theorem FetchablePartitionResponse1.valid {v : Int16} (hv : 0 ≤ v) (t : FetchablePartitionResponse1) (h : t.Fits v) (_hf : t.Full v) :
    Protocol.FetchablePartitionResponse.Valid true v (FetchablePartitionResponse1.val t) :=
  Valids.all trivial <|
    Valids.all trivial <|
    Valids.all trivial <|
    Valids.since (fun _ => trivial) <|
    Valids.since (fun _ => trivial) <|
    Valids.since (fun hc => valid_structs (fun y h hf => AbortedTransaction1.valid hv y h hf) (h.Aborted hc) (fun _ _ => trivial)) <|
    Valids.since (fun _ => trivial) <|
    Valids.all (valid_bytes (h.Records)) <|
    trivial

/-- What `FetchablePartitionResponse1` holds after reading the value `x` into `t0`. -/
def FetchablePartitionResponse1.of (v : Int16) (x : Val) (t0 : FetchablePartitionResponse1) : FetchablePartitionResponse1 :=
  { PartitionIndex := (x.get "PartitionIndex").toInt32,
    ErrorCode := (x.get "ErrorCode").toInt16,
    HighWatermark := (x.get "HighWatermark").toInt64,
    LastStableOffset := if v ≥ 4 then (x.get "LastStableOffset").toInt64 else t0.LastStableOffset,
    LogStartOffset := if v ≥ 5 then (x.get "LogStartOffset").toInt64 else t0.LogStartOffset,
    Aborted := if v ≥ 4 then (x.get "Aborted").toSliceOr (fun y => AbortedTransaction1.of v y {}) t0.Aborted else t0.Aborted,
    PreferredReadReplica := if v ≥ 11 then (x.get "PreferredReadReplica").toInt32 else t0.PreferredReadReplica,
    Records := (x.get "Records").toBytes }

theorem FetchablePartitionResponse1.decodes {v : Int16} (hv : 0 ≤ v) (x : Val) (h : Protocol.FetchablePartitionResponse.Valid false v x) (t0 : FetchablePartitionResponse1) :
    Reads (FetchablePartitionResponse1.decode v t0) (Protocol.FetchablePartitionResponse.wire false v x) (FetchablePartitionResponse1.of v x t0) :=
  Reads.congr (((Step.field (set := fun (t : FetchablePartitionResponse1) x => { t with PartitionIndex := x }) (read_int32 (Fields.Valid.head (h) hv)))
      |>.andThen (Step.field (set := fun (t : FetchablePartitionResponse1) x => { t with ErrorCode := x }) (read_int16 (Fields.Valid.head (Fields.Valid.tail h) hv)))
      |>.andThen (Step.field (set := fun (t : FetchablePartitionResponse1) x => { t with HighWatermark := x }) (read_int64 (Fields.Valid.head (Fields.Valid.tail (Fields.Valid.tail h)) hv)))
      |>.andThen (Step.optField (c := v ≥ 4) (set := fun (t : FetchablePartitionResponse1) x => { t with LastStableOffset := x }) (·.LastStableOffset) (fun _ => rfl) fun hc => read_int64 (Fields.Valid.head (Fields.Valid.tail (Fields.Valid.tail (Fields.Valid.tail h))) hc))
      |>.andThen (Step.optField (c := v ≥ 5) (set := fun (t : FetchablePartitionResponse1) x => { t with LogStartOffset := x }) (·.LogStartOffset) (fun _ => rfl) fun hc => read_int64 (Fields.Valid.head (Fields.Valid.tail (Fields.Valid.tail (Fields.Valid.tail (Fields.Valid.tail h)))) hc))
      |>.andThen (Step.readOptStructs (c := v ≥ 4) (get := fun (t : FetchablePartitionResponse1) => t.Aborted) (set := fun (t : FetchablePartitionResponse1) x => { t with Aborted := x }) (fun _ => rfl) (fun y hy => AbortedTransaction1.decodes hv y hy {}) fun hc => Fields.Valid.head (Fields.Valid.tail (Fields.Valid.tail (Fields.Valid.tail (Fields.Valid.tail (Fields.Valid.tail h))))) hc)
      |>.andThen (Step.optField (c := v ≥ 11) (set := fun (t : FetchablePartitionResponse1) x => { t with PreferredReadReplica := x }) (·.PreferredReadReplica) (fun _ => rfl) fun hc => read_int32 (Fields.Valid.head (Fields.Valid.tail (Fields.Valid.tail (Fields.Valid.tail (Fields.Valid.tail (Fields.Valid.tail (Fields.Valid.tail h)))))) hc))
      |>.andThen (Step.field (set := fun (t : FetchablePartitionResponse1) x => { t with Records := x }) (read_bytes (Fields.Valid.head (Fields.Valid.tail (Fields.Valid.tail (Fields.Valid.tail (Fields.Valid.tail (Fields.Valid.tail (Fields.Valid.tail (Fields.Valid.tail h))))))) hv))) : Step _ _ _) t0)
    (Writes.eq (fs := Protocol.FetchablePartitionResponse) (v := v) (x := x) <| Writes.all hv rfl <| Writes.all hv rfl <| Writes.all hv rfl <| Writes.since rfl <| Writes.since rfl <| Writes.since rfl <| Writes.since rfl <| Writes.all hv rfl <| Writes.done).symm rfl

theorem FetchablePartitionResponse1.parses {v : Int16} (hv : 0 ≤ v) (t0 : FetchablePartitionResponse1) :
    Parses (FetchablePartitionResponse1.decode v t0) ((Ty.struct Protocol.FetchablePartitionResponse).parse v) (fun x => FetchablePartitionResponse1.of v x t0) :=
  FParses.parses (fs := Protocol.FetchablePartitionResponse)
    (FParses.field hv (set := fun (t : FetchablePartitionResponse1) x => { t with PartitionIndex := x }) par_int32 <|
    FParses.field hv (set := fun (t : FetchablePartitionResponse1) x => { t with ErrorCode := x }) par_int16 <|
    FParses.field hv (set := fun (t : FetchablePartitionResponse1) x => { t with HighWatermark := x }) par_int64 <|
    FParses.optField (c := v ≥ 4) Iff.rfl (set := fun (t : FetchablePartitionResponse1) x => { t with LastStableOffset := x }) (·.LastStableOffset) (fun _ => rfl) par_int64 <|
    FParses.optField (c := v ≥ 5) Iff.rfl (set := fun (t : FetchablePartitionResponse1) x => { t with LogStartOffset := x }) (·.LogStartOffset) (fun _ => rfl) par_int64 <|
    FParses.optStructs (c := v ≥ 4) Iff.rfl (get := fun (t : FetchablePartitionResponse1) => t.Aborted) (set := fun (t : FetchablePartitionResponse1) x => { t with Aborted := x }) (fun _ => rfl) (AbortedTransaction1.parses hv {}) <|
    FParses.optField (c := v ≥ 11) Iff.rfl (set := fun (t : FetchablePartitionResponse1) x => { t with PreferredReadReplica := x }) (·.PreferredReadReplica) (fun _ => rfl) par_int32 <|
    FParses.field hv (set := fun (t : FetchablePartitionResponse1) x => { t with Records := x }) par_bytes <|
    FParses.done)
    (by simp only [FetchablePartitionResponse1.decode, Dec.andThen_assoc, Dec.andThen_nop]) (Fields.distinct_nodup _ (by decide +kernel)) (fun _ _ => rfl) t0

theorem FetchablePartitionResponse1.shown {v : Int16} (hv : 0 ≤ v) (x : Val) (h : Protocol.FetchablePartitionResponse.Typed v x) :
    Protocol.FetchablePartitionResponse.shows v x (FetchablePartitionResponse1.val (FetchablePartitionResponse1.of v x {})) = true :=
  Shows.all hv (show_int32 (Fields.Typed.head (h) hv)) <|
    Shows.all hv (show_int16 (Fields.Typed.head (Fields.Typed.tail h) hv)) <|
    Shows.all hv (show_int64 (Fields.Typed.head (Fields.Typed.tail (Fields.Typed.tail h)) hv)) <|
    Shows.since (.int64) rfl (fun hc => show_int64 (Fields.Typed.head (Fields.Typed.tail (Fields.Typed.tail (Fields.Typed.tail h))) hc)) rfl <|
    Shows.since (.int64) rfl (fun hc => show_int64 (Fields.Typed.head (Fields.Typed.tail (Fields.Typed.tail (Fields.Typed.tail (Fields.Typed.tail h)))) hc)) rfl <|
    Shows.since (ofStructs AbortedTransaction1.val) rfl (fun hc => show_structs (f := AbortedTransaction1.val) (g := fun y => AbortedTransaction1.of v y {}) (fun y hy => AbortedTransaction1.shown hv y hy) (Fields.Typed.head (Fields.Typed.tail (Fields.Typed.tail (Fields.Typed.tail (Fields.Typed.tail (Fields.Typed.tail h))))) hc)) rfl <|
    Shows.since (.int32) rfl (fun hc => show_int32 (Fields.Typed.head (Fields.Typed.tail (Fields.Typed.tail (Fields.Typed.tail (Fields.Typed.tail (Fields.Typed.tail (Fields.Typed.tail h)))))) hc)) rfl <|
    Shows.all hv (show_bytes (Fields.Typed.head (Fields.Typed.tail (Fields.Typed.tail (Fields.Typed.tail (Fields.Typed.tail (Fields.Typed.tail (Fields.Typed.tail (Fields.Typed.tail h))))))) hv)) <|
    rfl

/-- `FetchableTopicResponse1` as a value of the protocol. -/
def FetchableTopicResponse1.val (t : FetchableTopicResponse1) : Val :=
  .struct [("Name", .str (some t.Name)),
    ("Partitions", ofStructs FetchablePartitionResponse1.val t.Partitions)]

theorem FetchableTopicResponse1.conforms {v : Int16} (hv : 0 ≤ v) (t : FetchableTopicResponse1) :
    Protocol.FetchableTopicResponse.wire false v (FetchableTopicResponse1.val t) = FetchableTopicResponse1.wire v t :=
  Writes.eq <|
    Writes.all hv (Protocol.wire_string v t.Name) <|
    Writes.all hv (Protocol.wire_structs v (FetchablePartitionResponse1.conforms hv) t.Partitions) <|
    Writes.done

/-- There is nothing that may not be nil. -/
def FetchableTopicResponse1.Full (_v : Int16) (_t : FetchableTopicResponse1) : Prop := True

theorem FetchableTopicResponse1.valid {v : Int16} (hv : 0 ≤ v) (t : FetchableTopicResponse1) (h : t.Fits v) (_hf : t.Full v) :
    Protocol.FetchableTopicResponse.Valid true v (FetchableTopicResponse1.val t) :=
  Valids.all (valid_string (h.Name)) <|
    Valids.all (valid_structs (fun y h hf => FetchablePartitionResponse1.valid hv y h hf) (h.Partitions) (fun _ _ => trivial)) <|
    trivial

/-- What `FetchableTopicResponse1` holds after reading the value `x` into `t0`. -/
def FetchableTopicResponse1.of (v : Int16) (x : Val) (t0 : FetchableTopicResponse1) : FetchableTopicResponse1 :=
  { Name := (x.get "Name").toStr,
    Partitions := (x.get "Partitions").toSliceOr (fun y => FetchablePartitionResponse1.of v y {}) t0.Partitions }

theorem FetchableTopicResponse1.decodes {v : Int16} (hv : 0 ≤ v) (x : Val) (h : Protocol.FetchableTopicResponse.Valid false v x) (t0 : FetchableTopicResponse1) :
    Reads (FetchableTopicResponse1.decode v t0) (Protocol.FetchableTopicResponse.wire false v x) (FetchableTopicResponse1.of v x t0) :=
  Reads.congr (((Step.field (set := fun (t : FetchableTopicResponse1) x => { t with Name := x }) (read_string (Fields.Valid.head (h) hv)))
      |>.andThen (Step.readStructs (get := fun (t : FetchableTopicResponse1) => t.Partitions) (set := fun (t : FetchableTopicResponse1) x => { t with Partitions := x }) (fun y hy => FetchablePartitionResponse1.decodes hv y hy {}) (Fields.Valid.head (Fields.Valid.tail h) hv)) : Step _ _ _) t0)
    (Writes.eq (fs := Protocol.FetchableTopicResponse) (v := v) (x := x) <| Writes.all hv rfl <| Writes.all hv rfl <| Writes.done).symm rfl

theorem FetchableTopicResponse1.parses {v : Int16} (hv : 0 ≤ v) (t0 : FetchableTopicResponse1) :
    Parses (FetchableTopicResponse1.decode v t0) ((Ty.struct Protocol.FetchableTopicResponse).parse v) (fun x => FetchableTopicResponse1.of v x t0) :=
  FParses.parses (fs := Protocol.FetchableTopicResponse)
    (FParses.field hv (set := fun (t : FetchableTopicResponse1) x => { t with Name := x }) par_string <|
    FParses.structs hv (get := fun (t : FetchableTopicResponse1) => t.Partitions) (set := fun (t : FetchableTopicResponse1) x => { t with Partitions := x }) (FetchablePartitionResponse1.parses hv {}) <|
    FParses.done)
    (by simp only [FetchableTopicResponse1.decode, Dec.andThen_nop]) (Fields.distinct_nodup _ (by decide +kernel)) (fun _ _ => rfl) t0

theorem FetchableTopicResponse1.shown {v : Int16} (hv : 0 ≤ v) (x : Val) (h : Protocol.FetchableTopicResponse.Typed v x) :
    Protocol.FetchableTopicResponse.shows v x (FetchableTopicResponse1.val (FetchableTopicResponse1.of v x {})) = true :=
  Shows.all hv (show_string (Fields.Typed.head (h) hv)) <|
    Shows.all hv (show_structs (f := FetchablePartitionResponse1.val) (g := fun y => FetchablePartitionResponse1.of v y {}) (fun y hy => FetchablePartitionResponse1.shown hv y hy) (Fields.Typed.head (Fields.Typed.tail h) hv)) <|
    rfl

/-- `FetchResponse` as a value of the protocol. -/
def FetchResponse.val (t : FetchResponse) : Val :=
  .struct [("ThrottleTimeMs", .int32 t.ThrottleTimeMs),
    ("ErrorCode", .int16 t.ErrorCode),
    ("SessionId", .int32 t.SessionId),
    ("Topics", ofStructs FetchableTopicResponse1.val t.Topics)]

theorem FetchResponse.conforms {v : Int16} (hv : 0 ≤ v) (t : FetchResponse) :
    Protocol.FetchResponse.wire false v (FetchResponse.val t) = FetchResponse.wire v t :=
  Writes.eq <|
    Writes.since (Protocol.wire_int32 v t.ThrottleTimeMs) <|
    Writes.since (Protocol.wire_int16 v t.ErrorCode) <|
    Writes.since (Protocol.wire_int32 v t.SessionId) <|
    Writes.all hv (Protocol.wire_structs v (FetchableTopicResponse1.conforms hv) t.Topics) <|
    Writes.done

/-- There is nothing that may not be nil. -/
def FetchResponse.Full (_v : Int16) (_t : FetchResponse) : Prop := True

theorem FetchResponse.valid {v : Int16} (hv : 0 ≤ v) (t : FetchResponse) (h : t.Fits v) (_hf : t.Full v) :
    Protocol.FetchResponse.Valid true v (FetchResponse.val t) :=
  Valids.since (fun _ => trivial) <|
    Valids.since (fun _ => trivial) <|
    Valids.since (fun _ => trivial) <|
    Valids.all (valid_structs (fun y h hf => FetchableTopicResponse1.valid hv y h hf) (h.Topics) (fun _ _ => trivial)) <|
    trivial

/-- What `FetchResponse` holds after reading the value `x` into `t0`. -/
def FetchResponse.of (v : Int16) (x : Val) (t0 : FetchResponse) : FetchResponse :=
  { ThrottleTimeMs := if v ≥ 1 then (x.get "ThrottleTimeMs").toInt32 else t0.ThrottleTimeMs,
    ErrorCode := if v ≥ 7 then (x.get "ErrorCode").toInt16 else t0.ErrorCode,
    SessionId := if v ≥ 7 then (x.get "SessionId").toInt32 else t0.SessionId,
    Topics := (x.get "Topics").toSliceOr (fun y => FetchableTopicResponse1.of v y {}) t0.Topics }

theorem FetchResponse.decodes {v : Int16} (hv : 0 ≤ v) (x : Val) (h : Protocol.FetchResponse.Valid false v x) (t0 : FetchResponse) :
    Reads (FetchResponse.decode v t0) (Protocol.FetchResponse.wire false v x) (FetchResponse.of v x t0) :=
  Reads.congr (((Step.optField (c := v ≥ 1) (set := fun (t : FetchResponse) x => { t with ThrottleTimeMs := x }) (·.ThrottleTimeMs) (fun _ => rfl) fun hc => read_int32 (Fields.Valid.head (h) hc))
      |>.andThen (Step.optField (c := v ≥ 7) (set := fun (t : FetchResponse) x => { t with ErrorCode := x }) (·.ErrorCode) (fun _ => rfl) fun hc => read_int16 (Fields.Valid.head (Fields.Valid.tail h) hc))
      |>.andThen (Step.optField (c := v ≥ 7) (set := fun (t : FetchResponse) x => { t with SessionId := x }) (·.SessionId) (fun _ => rfl) fun hc => read_int32 (Fields.Valid.head (Fields.Valid.tail (Fields.Valid.tail h)) hc))
      |>.andThen (Step.readStructs (get := fun (t : FetchResponse) => t.Topics) (set := fun (t : FetchResponse) x => { t with Topics := x }) (fun y hy => FetchableTopicResponse1.decodes hv y hy {}) (Fields.Valid.head (Fields.Valid.tail (Fields.Valid.tail (Fields.Valid.tail h))) hv)) : Step _ _ _) t0)
    (Writes.eq (fs := Protocol.FetchResponse) (v := v) (x := x) <| Writes.since rfl <| Writes.since rfl <| Writes.since rfl <| Writes.all hv rfl <| Writes.done).symm rfl

theorem FetchResponse.parses {v : Int16} (hv : 0 ≤ v) (t0 : FetchResponse) :
    Parses (FetchResponse.decode v t0) ((Ty.struct Protocol.FetchResponse).parse v) (fun x => FetchResponse.of v x t0) :=
  FParses.parses (fs := Protocol.FetchResponse)
    (FParses.optField (c := v ≥ 1) Iff.rfl (set := fun (t : FetchResponse) x => { t with ThrottleTimeMs := x }) (·.ThrottleTimeMs) (fun _ => rfl) par_int32 <|
    FParses.optField (c := v ≥ 7) Iff.rfl (set := fun (t : FetchResponse) x => { t with ErrorCode := x }) (·.ErrorCode) (fun _ => rfl) par_int16 <|
    FParses.optField (c := v ≥ 7) Iff.rfl (set := fun (t : FetchResponse) x => { t with SessionId := x }) (·.SessionId) (fun _ => rfl) par_int32 <|
    FParses.structs hv (get := fun (t : FetchResponse) => t.Topics) (set := fun (t : FetchResponse) x => { t with Topics := x }) (FetchableTopicResponse1.parses hv {}) <|
    FParses.done)
    (by simp only [FetchResponse.decode, Dec.andThen_assoc, Dec.andThen_nop]) (Fields.distinct_nodup _ (by decide +kernel)) (fun _ _ => rfl) t0

theorem FetchResponse.shown {v : Int16} (hv : 0 ≤ v) (x : Val) (h : Protocol.FetchResponse.Typed v x) :
    Protocol.FetchResponse.shows v x (FetchResponse.val (FetchResponse.of v x {})) = true :=
  Shows.since (.int32) rfl (fun hc => show_int32 (Fields.Typed.head (h) hc)) rfl <|
    Shows.since (.int16) rfl (fun hc => show_int16 (Fields.Typed.head (Fields.Typed.tail h) hc)) rfl <|
    Shows.since (.int32) rfl (fun hc => show_int32 (Fields.Typed.head (Fields.Typed.tail (Fields.Typed.tail h)) hc)) rfl <|
    Shows.all hv (show_structs (f := FetchableTopicResponse1.val) (g := fun y => FetchableTopicResponse1.of v y {}) (fun y hy => FetchableTopicResponse1.shown hv y hy) (Fields.Typed.head (Fields.Typed.tail (Fields.Typed.tail (Fields.Typed.tail h))) hv)) <|
    rfl

end Kafka.Msg
